import Verif.Spec.Pooling
import Verif.Lemmas.Convolution

set_option linter.unusedSectionVars false

/-! # Helper lemmas: max pooling -/

namespace Rusty

open F32Ops Spec

variable {F : Type} [F32Ops F]

/-- one step of the running maximum -/
def maxStep (m e : F) : F := if gt e m then e else m

/-- the running maximum -/
def runMax (w : List F) : F := w.foldl maxStep negInf

/-- one step of the running maximum with origin -/
def argStep (p : F × UInt32) (e : F × UInt32) : F × UInt32 := if gt e.1 p.1 then e else p

theorem set_item_write {b : Build} {t : Tensor F} {i j k : Nat} (h : t.shape.Inside i j k) (v : F) :
    t.set_item b (ix i j k) v = t.write b (ix i j k) v := by
  unfold Tensor.set_item
  rw [if_pos (fits_index_ix h)]

theorem window_inside {im ma re : TensorShape} {s : UInt32} (h : windowsTile im ma s re)
    (hk : re.dk = im.dk) {i j k ii jj : Nat} (hin : re.Inside i j k) (h1 : ii < ma.di.toNat)
    (h2 : jj < ma.dj.toNat) : im.Inside (i * s.toNat + ii) (j * s.toNat + jj) k :=
  ⟨tiles_lt h.1 hin.1 h1, tiles_lt h.2 hin.2.1 h2, by rw [← hk]; exact hin.2.2⟩

theorem pool_get {b : Build} {image : Tensor F} {ma re : TensorShape} {s : UInt32}
    (hi : image.WF) (h : windowsTile image.shape ma s re)
    (hk : re.dk = image.shape.dk) {i j k ii jj : Nat} (hin : re.Inside i j k)
    (h1 : ii < ma.di.toNat) (h2 : jj < ma.dj.toNat) :
    mulU b (UInt32.ofNat i) s = .ok (UInt32.ofNat (i * s.toNat)) ∧
    addU b (UInt32.ofNat (i * s.toNat)) (UInt32.ofNat ii) =
      .ok (UInt32.ofNat (i * s.toNat + ii)) ∧
    mulU b (UInt32.ofNat j) s = .ok (UInt32.ofNat (j * s.toNat)) ∧
    addU b (UInt32.ofNat (j * s.toNat)) (UInt32.ofNat jj) =
      .ok (UInt32.ofNat (j * s.toNat + jj)) ∧
    image.get_item b ⟨UInt32.ofNat (i * s.toNat + ii), UInt32.ofNat (j * s.toNat + jj),
      UInt32.ofNat k⟩ = .ok (val image (i * s.toNat + ii) (j * s.toNat + jj) k) ∧
    image.get_data_index b ⟨UInt32.ofNat (i * s.toNat + ii), UInt32.ofNat (j * s.toNat + jj),
      UInt32.ofNat k⟩ =
        .ok (UInt32.ofNat (pos image.shape (i * s.toNat + ii) (j * s.toNat + jj) k)) := by
  have ins := window_inside h hk hin h1 h2
  have l := inside_lt hin
  have m := inside_lt ins
  exact ⟨mulU_nat' l.1 (by omega), addU_nat m.1, mulU_nat' l.2.1 (by omega), addU_nat m.2.1,
    get_item_ok hi ins, get_data_index_ok hi ins⟩

theorem max_pool_ok {b : Build} {image : Tensor F} {ma : TensorShape} {s : UInt32}
    {result : Tensor F} (hi : image.WF) (hr : result.WF) (hs : s.toNat ≠ 0)
    (hk : result.shape.dk = image.shape.dk) (h : windowsTile image.shape ma s result.shape) :
    ∃ r', Tensor.max_pool b image ma s result = .ok r' ∧ r'.WF ∧ r'.shape = result.shape ∧
      ∀ i j k, result.shape.Inside i j k →
        val r' i j k = runMax (window image ma s.toNat i j k) := by
  obtain ⟨r', q1, q2, q3, q4⟩ := loop3_write (b := b) result hr
    (fun i j k => runMax (window image ma s.toNat i j k))
    (fun k j i r => do
          let running_max ← forRange 0 ma.dj (negInf : F) fun jj m =>
            forRange 0 ma.di m fun ii m => do
              let i0 ← mulU b i s
              let ix_i ← addU b i0 ii
              let j0 ← mulU b j s
              let ix_j ← addU b j0 jj
              let current_item ← image.get_item b ⟨ix_i, ix_j, k⟩
              pure (if gt current_item m then current_item else m)
          r.set_item b ⟨i, j, k⟩ running_max)
    (by
      intro i j k hin t _ hts
      rw [forRange2_fold _ _ _ _ maxStep
        (fun (ii, jj) => val image (i * s.toNat + ii) (j * s.toNat + jj) k)]
      · rw [ok_bind]
        exact set_item_write (by rw [hts]; exact hin) _
      · intro ii jj h1 h2 m
        obtain ⟨e1, e2, e3, e4, e5, _⟩ := pool_get (b := b) hi h hk hin h1 h2
        rw [e1, ok_bind, e2, ok_bind, e3, ok_bind, e4, ok_bind, e5, ok_bind]
        rfl)
  refine ⟨r', ?_, q2, q3, q4⟩
  unfold Tensor.max_pool
  rw [check_pool_ok hs hk h, ok_bind, if_pos rfl, q1]

/-- entries of a window paired with their positions -/
def windowPos (image : Tensor F) (mask : TensorShape) (s i j k : Nat) : List (F × UInt32) :=
  (idx2 mask.di.toNat mask.dj.toNat).map fun (ii, jj) =>
    (val image (i * s + ii) (j * s + jj) k,
      UInt32.ofNat (pos image.shape (i * s + ii) (j * s + jj) k))

/-- running maximum with origin -/
def runArg (w : List (F × UInt32)) : F × UInt32 := w.foldl argStep (negInf, 0)

theorem runArg_fst (w : List (F × UInt32)) : (runArg w).1 = runMax (w.map Prod.fst) := by
  unfold runArg runMax
  suffices H : ∀ p : F × UInt32, (w.foldl argStep p).1 = (w.map Prod.fst).foldl maxStep p.1 from
    H _
  induction w with
  | nil => intro p; rfl
  | cons e w ih =>
    intro p
    rw [List.foldl_cons, List.map_cons, List.foldl_cons, ih]
    congr 1
    unfold argStep maxStep
    split <;> rfl

theorem windowPos_fst (image : Tensor F) (mask : TensorShape) (s i j k : Nat) :
    (windowPos image mask s i j k).map Prod.fst = window image mask s i j k := by
  unfold windowPos window
  rw [List.map_map]
  rfl

/-- the double loop of the tracking variant -/
theorem track_loop (r : Tensor F) (hr : r.WF) (o : List UInt32)
    (ho : o.length = r.shape.count) (v : Nat → Nat → Nat → F) (w : Nat → Nat → Nat → UInt32)
    (body : UInt32 → UInt32 → UInt32 → Tensor F × List UInt32 → Exec (Tensor F × List UInt32))
    (hb : ∀ i j k, r.shape.Inside i j k → ∀ (t : Tensor F) (o : List UInt32), t.WF →
      t.shape = r.shape → o.length = r.shape.count →
      body (UInt32.ofNat k) (UInt32.ofNat j) (UInt32.ofNat i) (t, o) =
        .ok (setE t i j k (v i j k), o.set (pos r.shape i j k) (w i j k))) :
    ∃ r' o', (forRange 0 r.shape.dk (r, o) fun k p => forRange 0 r.shape.dj p fun j p =>
        forRange 0 r.shape.di p fun i p => body k j i p) = .ok (r', o') ∧ r'.WF ∧
      r'.shape = r.shape ∧ o'.length = o.length ∧
      ∀ i j k, r.shape.Inside i j k → val r' i j k = v i j k ∧
        o'[pos r.shape i j k]? = some (w i j k) := by
  rw [forRange3]
  obtain ⟨⟨r', o'⟩, h1, h2, h3, h4, h5⟩ := foldlM_prefix
    (idx3 r.shape.di.toNat r.shape.dj.toNat r.shape.dk.toNat)
    (fun p x => body (UInt32.ofNat x.2.2) (UInt32.ofNat x.2.1) (UInt32.ofNat x.1) p)
    (r, o) (fun pre p => p.1.WF ∧ p.1.shape = r.shape ∧ p.2.length = o.length ∧
      ∀ i j k, r.shape.Inside i j k → (i, j, k) ∈ pre → val p.1 i j k = v i j k ∧
        p.2[pos r.shape i j k]? = some (w i j k))
    ⟨hr, rfl, rfl, fun _ _ _ _ hm => by cases hm⟩
    (by
      rintro pre ⟨i, j, k⟩ post ⟨t, o1⟩ hL ⟨hw, hs, hl, hv⟩
      have hin : r.shape.Inside i j k := by
        apply mem_idx3.mp
        rw [hL]; simp
      refine ⟨_, hb i j k hin t o1 hw hs (by rw [← ho]; exact hl), setE_wf hw .., hs,
        by simpa using hl, ?_⟩
      intro i' j' k' hin' hm
      simp only at hs hl hv hw
      simp only
      rw [val_setE hw (by rw [hs]; exact hin) (by rw [hs]; exact hin'), List.getElem?_set]
      by_cases e : i = i' ∧ j = j' ∧ k = k'
      · obtain ⟨rfl, rfl, rfl⟩ := e
        rw [if_pos ⟨rfl, rfl, rfl⟩, if_pos rfl, if_pos (by rw [hl, ho]; exact pos_lt hin)]
        exact ⟨rfl, rfl⟩
      · have hm' : (i', j', k') ∈ pre := by
          rcases List.mem_append.mp hm with h | h
          · exact h
          · simp only [List.mem_singleton, Prod.mk.injEq] at h
            exact absurd ⟨h.1.symm, h.2.1.symm, h.2.2.symm⟩ e
        rw [if_neg e, if_neg (fun hp => e (pos_inj hin hin' hp))]
        exact hv i' j' k' hin' hm')
  exact ⟨r', o', h1, h2, h3, h4, fun i j k hin => h5 i j k hin (mem_idx3.mpr hin)⟩

theorem track_ok {b : Build} {image : Tensor F} {ma : TensorShape} {s : UInt32}
    {result : Tensor F} {origin : List UInt32} (hi : image.WF) (hr : result.WF) (hs : s.toNat ≠ 0)
    (hk : result.shape.dk = image.shape.dk) (h : windowsTile image.shape ma s result.shape)
    (ho : origin.length = result.shape.count) :
    ∃ r' o', Tensor.max_pool_track_origin b image ma s result origin = .ok (.ok (), r', o') ∧
      r'.WF ∧ r'.shape = result.shape ∧ o'.length = origin.length ∧
      ∀ i j k, result.shape.Inside i j k →
        val r' i j k = (runArg (windowPos image ma s.toNat i j k)).1 ∧
        o'[pos result.shape i j k]? = some (runArg (windowPos image ma s.toNat i j k)).2 := by
  obtain ⟨r', o', q1, q2, q3, q4, q5⟩ := track_loop result hr origin ho
    (fun i j k => (runArg (windowPos image ma s.toNat i j k)).1)
    (fun i j k => (runArg (windowPos image ma s.toNat i j k)).2)
    (fun k j i p => do
            let output_index ← p.1.get_data_index b ⟨i, j, k⟩
            let (running_max, input_index) ←
              forRange 0 ma.dj ((negInf : F), (0 : UInt32)) fun jj (m, oi) =>
                forRange 0 ma.di (m, oi) fun ii (m, oi) => do
                  let i0 ← mulU b i s
                  let ix_i ← addU b i0 ii
                  let j0 ← mulU b j s
                  let ix_j ← addU b j0 jj
                  let current_item ← image.get_item b ⟨ix_i, ix_j, k⟩
                  if gt current_item m then do
                    let id ← image.get_data_index b ⟨ix_i, ix_j, k⟩
                    pure (current_item, id)
                  else pure (m, oi)
            let r ← p.1.set_item b ⟨i, j, k⟩ running_max
            let o ← vset p.2 output_index.toNat input_index
            pure (r, o))
    (by
      intro i j k hin t o1 hw hts hl
      have hint : t.shape.Inside i j k := by rw [hts]; exact hin
      have e0 := get_data_index_ok (b := b) hw hint
      unfold ix at e0
      simp only
      rw [e0, ok_bind]
      have key := forRange2_fold ma.di ma.dj ((negInf : F), (0 : UInt32))
        (fun jj ii p => do
                  let i0 ← mulU b (UInt32.ofNat i) s
                  let ix_i ← addU b i0 ii
                  let j0 ← mulU b (UInt32.ofNat j) s
                  let ix_j ← addU b j0 jj
                  let current_item ← image.get_item b ⟨ix_i, ix_j, UInt32.ofNat k⟩
                  if gt current_item p.1 then do
                    let id ← image.get_data_index b ⟨ix_i, ix_j, UInt32.ofNat k⟩
                    pure (current_item, id)
                  else pure (p.1, p.2))
        argStep
        (fun (ii, jj) =>
          (val image (i * s.toNat + ii) (j * s.toNat + jj) k,
            UInt32.ofNat (pos image.shape (i * s.toNat + ii) (j * s.toNat + jj) k)))
        (by
          intro ii jj h1 h2 m
          obtain ⟨e1, e2, e3, e4, e5, e6⟩ := pool_get (b := b) hi h hk hin h1 h2
          simp only
          rw [e1, ok_bind, e2, ok_bind, e3, ok_bind, e4, ok_bind, e5, ok_bind]
          unfold argStep
          split
          · rw [e6, ok_bind]; rfl
          · rfl)
      rw [key, ok_bind]
      have e1 := set_item_ok (b := b) hw hint (runArg (windowPos image ma s.toNat i j k)).1
      unfold ix at e1
      change (do
        let r ← t.set_item b ⟨UInt32.ofNat i, UInt32.ofNat j, UInt32.ofNat k⟩
          (runArg (windowPos image ma s.toNat i j k)).1
        let o ← vset o1 (UInt32.ofNat (pos t.shape i j k)).toNat
          (runArg (windowPos image ma s.toNat i j k)).2
        pure (r, o)) = _
      rw [e1, ok_bind, pos_toNat hw hint, vset_ok (by rw [hl, ← hts]; exact pos_lt hint), ok_bind,
        hts]
      rfl)
  refine ⟨r', o', ?_, q2, q3, q4, q5⟩
  unfold Tensor.max_pool_track_origin
  rw [check_pool_ok hs hk h, ok_bind, if_neg (by simp)]
  simp only
  rw [total_size_ok hr.fits, ok_bind, toNat_ofNat_lt hr.fits.2, if_neg (by omega)]
  rw [q1, ok_bind]
  rfl

theorem runArg_keep (w : List (F × UInt32)) (h : ∀ e ∈ w, gt e.1 (negInf : F) = false) :
    runArg w = (negInf, 0) := by
  unfold runArg
  induction w with
  | nil => rfl
  | cons e w ih =>
    rw [List.foldl_cons]
    have : argStep ((negInf : F), 0) e = (negInf, 0) := by
      unfold argStep
      rw [if_neg (by rw [h e (List.mem_cons_self ..)]; simp)]
    rw [this]
    exact ih (fun f hf => h f (List.mem_cons_of_mem _ hf))

/-! ## The running maximum is the maximum -/

variable [F32Order F]

theorem runMax_spec (w : List F) : isMax w (runMax w) := by
  unfold runMax
  suffices H : ∀ (pre post : List F) (m : F), w = pre ++ post → isMax pre m →
      isMax w (post.foldl maxStep m) from
    H [] w negInf rfl ⟨fun e he => (by cases he), Or.inr ⟨rfl, fun e he => (by cases he)⟩⟩
  intro pre post
  induction post generalizing pre with
  | nil =>
    intro m hw h
    rw [List.append_nil] at hw
    rw [hw]; exact h
  | cons e post ih =>
    intro m hw h
    rw [List.foldl_cons]
    apply ih (pre ++ [e]) _ (by rw [hw, List.append_assoc]; rfl)
    obtain ⟨h1, h2⟩ := h
    unfold maxStep
    by_cases hg : gt e m = true
    · rw [if_pos hg]
      constructor
      · intro f hf
        rcases List.mem_append.mp hf with hf | hf
        · by_contra hne
          have hne : gt f e = true := by simpa using hne
          have := F32Order.gt_trans f e m hne hg
          rw [h1 f hf] at this
          cases this
        · rw [List.mem_singleton.mp hf]
          exact F32Order.gt_irrefl e
      · left
        refine ⟨List.mem_append_right _ (List.mem_singleton.mpr rfl), ?_⟩
        rcases h2 with ⟨_, h2⟩ | ⟨rfl, _⟩
        · exact F32Order.gt_trans e m _ hg h2
        · exact hg
    · rw [if_neg hg]
      have hg : gt e m = false := by simpa using hg
      constructor
      · intro f hf
        rcases List.mem_append.mp hf with hf | hf
        · exact h1 f hf
        · rw [List.mem_singleton.mp hf]
          exact hg
      · rcases h2 with ⟨h2, h3⟩ | ⟨rfl, h2⟩
        · exact Or.inl ⟨List.mem_append_left _ h2, h3⟩
        · right
          refine ⟨rfl, fun f hf => ?_⟩
          rcases List.mem_append.mp hf with hf | hf
          · exact h2 f hf
          · rw [List.mem_singleton.mp hf]
            exact hg

/-- the recorded origin: either nothing was above negative infinity, or it is the first entry that
attains the maximum -/
theorem runArg_spec (w : List (F × UInt32)) :
    (runArg w = (negInf, 0) ∧ ∀ e ∈ w, gt e.1 negInf = false) ∨
    (∃ pre post, w = pre ++ runArg w :: post ∧
      ∀ p ∈ pre, feq p.1 p.1 = true → gt (runArg w).1 p.1 = true) := by
  unfold runArg
  suffices H : ∀ (done post : List (F × UInt32)) (m : F × UInt32), w = done ++ post →
      (∀ e ∈ done, gt e.1 m.1 = false) →
      ((m = (negInf, 0) ∧ ∀ e ∈ done, gt e.1 negInf = false) ∨
        ∃ pre rest, done = pre ++ m :: rest ∧ ∀ p ∈ pre, feq p.1 p.1 = true →
          gt m.1 p.1 = true) →
      ((post.foldl argStep m = (negInf, 0) ∧ ∀ e ∈ w, gt e.1 negInf = false) ∨
        ∃ pre rest, w = pre ++ post.foldl argStep m :: rest ∧ ∀ p ∈ pre, feq p.1 p.1 = true →
          gt (post.foldl argStep m).1 p.1 = true) from
    H [] w (negInf, 0) rfl (fun e he => by cases he) (Or.inl ⟨rfl, fun e he => by cases he⟩)
  intro done post
  induction post generalizing done with
  | nil =>
    intro m hw _ h
    rw [List.append_nil] at hw
    rw [hw]; exact h
  | cons e post ih =>
    intro m hw hmax h
    rw [List.foldl_cons]
    apply ih (done ++ [e]) _ (by rw [hw, List.append_assoc]; rfl)
    · intro f hf
      unfold argStep
      by_cases hg : gt e.1 m.1 = true
      · rw [if_pos hg]
        rcases List.mem_append.mp hf with hf | hf
        · by_contra hne
          have hne : gt f.1 e.1 = true := by simpa using hne
          have := F32Order.gt_trans _ _ _ hne hg
          rw [hmax f hf] at this
          cases this
        · rw [List.mem_singleton.mp hf]
          exact F32Order.gt_irrefl _
      · rw [if_neg hg]
        rcases List.mem_append.mp hf with hf | hf
        · exact hmax f hf
        · rw [List.mem_singleton.mp hf]
          simpa using hg
    · unfold argStep
      by_cases hg : gt e.1 m.1 = true
      · rw [if_pos hg]
        right
        refine ⟨done, [], rfl, fun p hp hn => ?_⟩
        rcases F32Order.gt_cotrans _ _ _ hg hn with h' | h'
        · exact h'
        · rw [hmax p hp] at h'; cases h'
      · rw [if_neg hg]
        rcases h with ⟨rfl, h2⟩ | ⟨pre, rest, h1, h2⟩
        · left
          refine ⟨rfl, fun f hf => ?_⟩
          rcases List.mem_append.mp hf with hf | hf
          · exact h2 f hf
          · rw [List.mem_singleton.mp hf]
            simpa using hg
        · right
          exact ⟨pre, rest ++ [e], by rw [h1, List.append_assoc]; rfl, h2⟩

end Rusty
