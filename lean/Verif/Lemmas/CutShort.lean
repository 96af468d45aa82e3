import Verif.Spec.CutShort
import Verif.Lemmas.UnwindRun
import Verif.Lemmas.Tensor
import Verif.Lemmas.LoadingDebug

/-! # Helper lemmas: operations on tensors whose data end early -/

namespace Rusty

open F32Ops Unwind Spec

/-! ## Values: with more data, the same or more -/

/-- `y` has the value of `x` if `x` has one -/
def Le {α : Type} (x y : Exec α) : Prop := ∀ v, x = .ok v → y = .ok v

theorem Le.refl {α : Type} (x : Exec α) : Le x x := fun _ h => h

theorem Le.bind {α β : Type} {x y : Exec α} {f g : α → Exec β} (h : Le x y) (hf : ∀ a, Le (f a) (g a)) :
    Le (x >>= f) (y >>= g) := by
  intro v hv
  rcases hx : x with p | a
  · rw [hx] at hv
    cases hv
  · rw [hx] at hv
    rw [h a hx]
    exact hf a v hv

theorem Le.foldlM {ι σ : Type} (L : List ι) (f g : σ → ι → Exec σ) (h : ∀ i s, Le (f s i) (g s i)) (s : σ) :
    Le (L.foldlM f s) (L.foldlM g s) := by
  induction L generalizing s with
  | nil => exact Le.refl _
  | cons i is ih =>
    rw [List.foldlM_cons, List.foldlM_cons]
    exact Le.bind (h i s) ih

theorem Le.forRange {σ : Type} (lo hi : UInt32) (s : σ) {f g : UInt32 → σ → Exec σ}
    (h : ∀ i s, Le (f i s) (g i s)) : Le (forRange lo hi s f) (forRange lo hi s g) :=
  Le.foldlM _ _ _ (fun _ s => h _ s) s

theorem Le.ite {α : Type} {c : Prop} [Decidable c] {x y x' y' : Exec α} (h : Le x y) (h' : Le x' y') :
    Le (if c then x else x') (if c then y else y') := by
  split
  · exact h
  · exact h'

theorem Le.vget {α : Type} (l : List α) (n i : Nat) : Le (vget (l.take n) i) (vget l i) := by
  intro v hv
  unfold Rusty.vget at hv ⊢
  rcases e : (l.take n)[i]? with _ | x
  · rw [e] at hv
    cases hv
  · rw [e] at hv
    rw [List.getElem?_take] at e
    split at e
    · rw [e]
      exact hv
    · cases e

variable {F : Type} [F32Ops F]

omit [F32Ops F] in
theorem Spec.Cut.refl (t : Tensor F) : Cut t t := ⟨rfl, rfl, t.data.length, (List.take_length).symm⟩

omit [F32Ops F] in
theorem Spec.Cut.index {t t' : Tensor F} (h : Cut t t') (b : Build) (x : TensorIndex) :
    t.get_data_index b x = t'.get_data_index b x := by
  unfold Tensor.get_data_index
  rw [h.2.1]

omit [F32Ops F] in
theorem Spec.Cut.vget {t t' : Tensor F} (h : Cut t t') (i : Nat) : Le (vget t.data i) (vget t'.data i) := by
  obtain ⟨_, _, n, e⟩ := h
  rw [e]
  exact Le.vget _ _ _

omit [F32Ops F] in
theorem Spec.Cut.read {t t' : Tensor F} (h : Cut t t') (b : Build) (x : TensorIndex) :
    Le (t.read b x) (t'.read b x) := by
  unfold Tensor.read
  rw [h.index]
  exact Le.bind (Le.refl _) fun _ => h.vget _

theorem Spec.Cut.get_item {t t' : Tensor F} (h : Cut t t') (b : Build) (x : TensorIndex) :
    Le (t.get_item b x) (t'.get_item b x) := by
  unfold Tensor.get_item
  rw [h.1]
  exact Le.ite (h.read b x) (Le.refl _)

/-! ## Loops that write one place after the other -/

namespace Unwind

variable {σ ι κ β : Type}

theorem eval_bind {α : Type} (x : σ → Exec α) (f : α → Unwind σ β) (s : σ) :
    (eval x >>= f) s = match x s with
      | .ok a => f a s
      | .error p => (.error p, s) := by
  rw [bind_apply]
  unfold eval
  rcases x s with p | a <;> rfl

theorem loop_flatMap (xs : List ι) (g : ι → List κ) (body : κ → Unwind σ Unit) (s : σ) :
    loop (xs.flatMap g) () (fun y _ => body y) s =
      loop xs () (fun x _ => loop (g x) () fun y _ => body y) s := by
  have app : ∀ (l l' : List κ) (s : σ), loop (l ++ l') () (fun y _ => body y) s =
      (loop l () (fun y _ => body y) >>= fun _ => loop l' () fun y _ => body y) s := by
    intro l l'
    induction l with
    | nil => intro s; rfl
    | cons y ys ih =>
      intro s
      rw [List.cons_append, loop, loop, bind_apply, bind_apply, bind_apply]
      rcases body y s with ⟨r, s'⟩
      cases r with
      | error p => rfl
      | ok _ => exact ih s'
  induction xs generalizing s with
  | nil => rfl
  | cons x xs ih =>
    rw [List.flatMap_cons, app, loop, bind_apply, bind_apply]
    rcases loop (g x) () (fun y _ => body y) s with ⟨r, s'⟩
    cases r with
    | error p => rfl
    | ok _ => exact ih s'

theorem loop_map (xs : List ι) (g : ι → κ) (body : κ → Unwind σ Unit) (s : σ) :
    loop (xs.map g) () (fun y _ => body y) s = loop xs () (fun x _ => body (g x)) s := by
  induction xs generalizing s with
  | nil => rfl
  | cons x xs ih =>
    rw [List.map_cons, loop, loop, bind_apply, bind_apply]
    rcases body (g x) s with ⟨r, s'⟩
    cases r with
    | error p => rfl
    | ok _ => exact ih s'

theorem loop_congr (xs : List ι) (f g : ι → Unwind σ Unit) (h : ∀ x s, f x s = g x s) (s : σ) :
    loop xs () (fun x _ => f x) s = loop xs () (fun x _ => g x) s := by
  have : f = g := funext fun x => funext fun s => h x s
  rw [this]

theorem for_zero (hi : UInt32) (body : UInt32 → Unwind σ Unit) (s : σ) :
    for_u 0 hi body s = loop (List.range hi.toNat) () (fun i _ => body (UInt32.ofNat i)) s := by
  unfold for_u
  rw [loop_map _ _ (fun i => body i), List.range_eq_range']
  rfl

/-- the triple loop as one loop -/
theorem for3 (di dj dk : UInt32) (body : UInt32 → UInt32 → UInt32 → Unwind σ Unit) (s : σ) :
    for_u 0 dk (fun k => for_u 0 dj fun j => for_u 0 di fun i => body i j k) s =
      loop (idx3 di.toNat dj.toNat dk.toNat) ()
        (fun x _ => body (UInt32.ofNat x.1) (UInt32.ofNat x.2.1) (UInt32.ofNat x.2.2)) s := by
  unfold idx3
  rw [for_zero, loop_flatMap _ _ fun x : Nat × Nat × Nat => body (UInt32.ofNat x.1) (UInt32.ofNat x.2.1) (UInt32.ofNat x.2.2)]
  refine loop_congr _ _ _ (fun k s => ?_) s
  rw [for_zero, loop_flatMap _ _ fun x : Nat × Nat × Nat => body (UInt32.ofNat x.1) (UInt32.ofNat x.2.1) (UInt32.ofNat x.2.2)]
  refine loop_congr _ _ _ (fun j s => ?_) s
  rw [for_zero, loop_map _ _ fun x : Nat × Nat × Nat => body (UInt32.ofNat x.1) (UInt32.ofNat x.2.1) (UInt32.ofNat x.2.2)]

/-- the double loop as one loop -/
theorem for2 (di dj : UInt32) (body : UInt32 → UInt32 → Unwind σ Unit) (s : σ) :
    for_u 0 dj (fun j => for_u 0 di fun i => body i j) s =
      loop (idx2 di.toNat dj.toNat) () (fun x _ => body (UInt32.ofNat x.1) (UInt32.ofNat x.2)) s := by
  unfold idx2
  rw [for_zero, loop_flatMap _ _ fun x : Nat × Nat => body (UInt32.ofNat x.1) (UInt32.ofNat x.2)]
  refine loop_congr _ _ _ (fun j s => ?_) s
  rw [for_zero, loop_map _ _ fun x : Nat × Nat => body (UInt32.ofNat x.1) (UInt32.ofNat x.2)]

/-- two loops, the first of which may panic where the second goes on: the first does what the second does, or stops on the
way -/
theorem loop_lock (P : σ → Prop) (L : List ι) (f g : ι → Unwind σ Unit)
    (h : ∀ x ∈ L, ∀ s, P s → f x s = g x s ∨ ∃ p, f x s = (.error p, s))
    (hk : ∀ x, Keeps P (g x)) (s : σ) (hs : P s) :
    loop L () (fun x _ => f x) s = loop L () (fun x _ => g x) s ∨
      ∃ p n s', n < L.length ∧ loop L () (fun x _ => f x) s = (.error p, s') ∧
        loop (L.take n) () (fun x _ => g x) s = (.ok (), s') := by
  induction L generalizing s with
  | nil => exact .inl rfl
  | cons x xs ih =>
    rcases h x (List.mem_cons_self ..) s hs with e | ⟨p, e⟩
    · have hk' := hk x s hs
      rcases hg : g x s with ⟨r, s'⟩
      rw [hg] at hk'
      cases r with
      | error p =>
        left
        rw [loop, loop, bind_apply, bind_apply, e, hg]
      | ok u =>
        rcases ih (fun y hy => h y (List.mem_cons_of_mem _ hy)) s' hk' with i | ⟨p, n, s'', hn, h1, h2⟩
        · left
          rw [loop, loop, bind_apply, bind_apply, e, hg]
          exact i
        · right
          refine ⟨p, n + 1, s'', by simpa using hn, ?_, ?_⟩
          · rw [loop, bind_apply, e, hg]
            exact h1
          · rw [List.take_succ_cons, loop, bind_apply, hg]
            exact h2
    · right
      refine ⟨p, 0, s, by simp, ?_, rfl⟩
      rw [loop, bind_apply, e]

/-- what a loop does not write stays -/
theorem loop_frame (P : σ → Prop) (L : List ι) (g : ι → Unwind σ Unit) (hk : ∀ x, Keeps P (g x))
    (pos : ι → Nat) (get : σ → Nat → Option β)
    (h : ∀ x ∈ L, ∀ s s', P s → g x s = (.ok (), s') → ∀ q, q ≠ pos x → get s' q = get s q) (s s' : σ)
    (hs : P s) (e : loop L () (fun x _ => g x) s = (.ok (), s')) (q : Nat) (hq : ∀ x ∈ L, q ≠ pos x) :
    get s' q = get s q := by
  induction L generalizing s with
  | nil =>
    have : s = s' := congrArg Prod.snd e
    rw [this]
  | cons x xs ih =>
    have hk' := hk x s hs
    rw [loop, bind_apply] at e
    rcases hg : g x s with ⟨r, s1⟩
    rw [hg] at hk' e
    cases r with
    | error p => cases e
    | ok u =>
      rw [ih (fun y hy => h y (List.mem_cons_of_mem _ hy)) s1 hk' e
        fun y hy => hq y (List.mem_cons_of_mem _ hy)]
      exact h x (List.mem_cons_self ..) s s1 hs hg q (hq x (List.mem_cons_self ..))

theorem loop_split (L : List ι) (n : Nat) (g : ι → Unwind σ Unit) (s s' s'' : σ)
    (h1 : loop (L.take n) () (fun x _ => g x) s = (.ok (), s'))
    (h2 : loop L () (fun x _ => g x) s = (.ok (), s'')) :
    loop (L.drop n) () (fun x _ => g x) s' = (.ok (), s'') := by
  induction L generalizing s n with
  | nil =>
    rw [List.take_nil] at h1
    rw [List.drop_nil]
    have a : s = s' := congrArg Prod.snd h1
    rw [← a]
    exact h2
  | cons x xs ih =>
    cases n with
    | zero =>
      have a : s = s' := congrArg Prod.snd h1
      rw [← a]
      exact h2
    | succ n =>
      rw [List.take_succ_cons, loop, bind_apply] at h1
      rw [loop, bind_apply] at h2
      rcases hg : g x s with ⟨r, s1⟩
      rw [hg] at h1 h2
      cases r with
      | error p => cases h1
      | ok u => exact ih n s1 h1 h2

/-- A loop that writes the places `a`, `a + 1`, … one after the other and stops on the way: the places up to some `m` are as
at the end of the full loop, the others as at the beginning. -/
theorem loop_part (P : σ → Prop) (L : List ι) (g : ι → Unwind σ Unit) (hk : ∀ x, Keeps P (g x))
    (pos : ι → Nat) (a : Nat) (hpos : L.map pos = List.range' a L.length) (s s' s'' : σ) (hs : P s) (n : Nat)
    (hn : n < L.length) (h1 : loop (L.take n) () (fun x _ => g x) s = (.ok (), s'))
    (h2 : loop L () (fun x _ => g x) s = (.ok (), s'')) (get : σ → Nat → Option β)
    (h : ∀ x ∈ L, ∀ s s', P s → g x s = (.ok (), s') → ∀ q, q ≠ pos x → get s' q = get s q) (q : Nat) :
    get s' q = if q < a + n then get s'' q else get s q := by
  have hP : P s' := by
    have := Keeps.loop (P := P) (L.take n) () (body := fun x _ => g x) (fun x _ => hk x) s hs
    rw [h1] at this
    exact this
  have at' : ∀ (i : Nat) (hi : i < L.length), pos L[i] = a + i := by
    intro i hi
    have := congrArg (fun l => l[i]?) hpos
    simp only [List.getElem?_map, List.getElem?_eq_getElem hi, Option.map_some] at this
    rw [List.getElem?_range' hi] at this
    simpa using this
  split
  · rename_i hq
    refine (loop_frame P (L.drop n) g hk pos get
      (fun x hx => h x (List.mem_of_mem_drop hx)) s' s'' hP (loop_split L n g s s' s'' h1 h2) q ?_).symm
    intro x hx
    obtain ⟨i, hi, rfl⟩ := List.mem_iff_getElem.mp hx
    rw [List.getElem_drop, at']
    omega
  · rename_i hq
    refine loop_frame P (L.take n) g hk pos get
      (fun x hx => h x (List.mem_of_mem_take hx)) s s' hs h1 q ?_
    intro x hx
    obtain ⟨i, hi, rfl⟩ := List.mem_iff_getElem.mp hx
    rw [List.getElem_take, at']
    rw [List.length_take] at hi
    omega

end Unwind

/-! ## The places a loop nest writes -/

theorem range_mul (a b c : Nat) :
    ((List.range b).flatMap fun j => (List.range a).map fun i => i + a * j + c) = List.range' c (a * b) := by
  induction b with
  | zero => rfl
  | succ b ih =>
    rw [List.range_succ, List.flatMap_append, ih, List.flatMap_cons, List.flatMap_nil, List.append_nil,
      Nat.mul_succ, ← List.range'_append_1]
    congr 1
    rw [List.range'_eq_map_range]
    refine List.map_congr_left fun i _ => ?_
    omega

theorem idx2_length (a b : Nat) : (idx2 a b).length = a * b := by
  have := congrArg List.length (range_mul a b 0)
  rw [List.length_range'] at this
  rw [← this]
  unfold idx2
  simp [List.length_flatMap]

theorem idx3_length (a b c : Nat) : (idx3 a b c).length = a * b * c := by
  unfold idx3
  have h : ∀ k : Nat, ((List.range b).flatMap fun j => (List.range a).map fun i => (i, j, k)).length = a * b := by
    intro k
    rw [← idx2_length a b]
    unfold idx2
    simp [List.length_flatMap]
  rw [List.length_flatMap]
  simp only [h]
  simp [Nat.mul_comm]

theorem idx2_places (s : TensorShape) (c : Nat) :
    (idx2 s.di.toNat s.dj.toNat).map (fun x => pos s x.1 x.2 c) =
      List.range' (s.di.toNat * s.dj.toNat * c) (idx2 s.di.toNat s.dj.toNat).length := by
  rw [idx2_length, ← range_mul]
  unfold idx2 pos
  rw [List.map_flatMap]
  simp only [List.map_map]
  rfl

theorem idx3_places (s : TensorShape) :
    (idx3 s.di.toNat s.dj.toNat s.dk.toNat).map (fun x => pos s x.1 x.2.1 x.2.2) =
      List.range' 0 (idx3 s.di.toNat s.dj.toNat s.dk.toNat).length := by
  rw [idx3_length, ← range_mul]
  unfold idx3
  rw [List.map_flatMap]
  congr 1
  funext k
  rw [List.map_flatMap]
  simp only [List.map_map]
  have := range_mul s.di.toNat s.dj.toNat (s.di.toNat * s.dj.toNat * k)
  unfold pos
  refine this.trans ?_
  rw [List.range'_eq_map_range]
  refine List.map_congr_left fun i _ => ?_
  omega

/-! ## Loops that write to a tensor -/

omit [F32Ops F] in
theorem part_data {α : Type} (full old new : List α) (m : Nat) (hl : full.length = old.length)
    (h : ∀ q, new[q]? = if q < m then full[q]? else old[q]?) : new = full.take m ++ old.drop m := by
  apply List.ext_getElem?
  intro q
  rw [h q, List.getElem?_append, List.length_take, List.getElem?_take, List.getElem?_drop, hl]
  split
  · rename_i hq
    split
    · rfl
    · rename_i hq'
      rw [List.getElem?_eq_none (by rw [hl]; omega), List.getElem?_eq_none (by omega)]
  · rename_i hq
    split
    · omega
    · rename_i hq'
      by_cases hl : m ≤ old.length
      · congr 1
        omega
      · rw [List.getElem?_eq_none (by omega), List.getElem?_eq_none (by omega)]

theorem asFull_loop {ι : Type} (r : Tensor F) (L : List ι) (f g : ι → Unwind (Tensor F) Unit)
    (h : ∀ x ∈ L, ∀ s, sameLayout s r → f x s = g x s ∨ ∃ p, f x s = (.error p, s))
    (hk : ∀ x, Keeps (sameLayout · r) (g x)) (pos : ι → Nat) (a : Nat)
    (hpos : L.map pos = List.range' a L.length)
    (hf : ∀ x ∈ L, ∀ s s', sameLayout s r → g x s = (.ok (), s') → ∀ q, q ≠ pos x → s'.data[q]? = s.data[q]?)
    (hok : ∀ p, (loop L () (fun x _ => g x) r).1 ≠ .error p) :
    AsFull r (loop L () (fun x _ => f x) r) (loop L () (fun x _ => g x) r) := by
  rcases loop_lock (sameLayout · r) L f g h hk r (sameLayout_refl r) with e | ⟨p, n, s', hn, h1, h2⟩
  · exact .inl e
  · right
    rcases hg : loop L () (fun x _ => g x) r with ⟨o, s''⟩
    obtain rfl : o = .ok () := by
      cases o with
      | ok u => rfl
      | error p => exact absurd (by rw [hg]) (hok p)
    have l1 : sameLayout s' r := by
      have := Keeps.loop (P := (sameLayout · r)) (L.take n) () (body := fun x _ => g x) (fun x _ => hk x) r
        (sameLayout_refl r)
      rwa [h2] at this
    have l2 : sameLayout s'' r := by
      have := Keeps.loop (P := (sameLayout · r)) L () (body := fun x _ => g x) (fun x _ => hk x) r
        (sameLayout_refl r)
      rwa [hg] at this
    refine ⟨p, a + n, ?_⟩
    rw [h1]
    have hd : s'.data = s''.data.take (a + n) ++ r.data.drop (a + n) :=
      part_data _ _ _ _ l2.2.2 fun q => loop_part (sameLayout · r) L g hk pos a hpos r s' s'' (sameLayout_refl r) n hn
        h2 hg (fun s q => s.data[q]?) hf q
    obtain ⟨st, sh, d⟩ := s'
    obtain ⟨e1, e2, _⟩ := l1
    simp only at e1 e2 hd
    rw [hd, e1, e2]

/-- the step of most loops: compute and write -/
def put (b : Build) (x : TensorIndex) (v : Exec F) : Unwind (Tensor F) Unit := do
  let v ← eval fun _ => v
  Tensor.write_u b x v

omit [F32Ops F] in
theorem put_lock (b : Build) (x : TensorIndex) {v v' : Exec F} (h : Le v v') (s : Tensor F) :
    put b x v s = put b x v' s ∨ ∃ p, put b x v s = (.error p, s) := by
  rcases e : v with p | a
  · exact .inr ⟨p, rfl⟩
  · rw [h a e]
    exact .inl rfl

theorem write_u_ok {b : Build} {r s : Tensor F} (hr : r.WF) (hs : sameLayout s r) {i j k : Nat}
    (h : r.shape.Inside i j k) (v : F) :
    Tensor.write_u b (ix i j k) v s = (.ok (), { s with data := s.data.set (pos r.shape i j k) v }) := by
  have hw := (sameLayout_wf hs hr).1
  have h' : s.shape.Inside i j k := by rw [hs.1]; exact h
  unfold Tensor.write_u
  rw [bind_apply, eval, get_data_index_ok hw h']
  simp only
  rw [bind_apply, eval, pos_toNat hw h', vset_ok (pos_lt_len hw h')]
  simp only [assign, hs.1]

theorem put_frame {b : Build} {r : Tensor F} (hr : r.WF) {i j k : Nat} (h : r.shape.Inside i j k) (v : Exec F)
    (s s' : Tensor F) (hs : sameLayout s r) (e : put b (ix i j k) v s = (.ok (), s')) (q : Nat)
    (hq : q ≠ pos r.shape i j k) : s'.data[q]? = s.data[q]? := by
  rcases hv : v with p | a
  · rw [hv] at e
    cases e
  · rw [hv] at e
    have : Tensor.write_u b (ix i j k) a s = (.ok (), s') := e
    rw [write_u_ok hr hs h] at this
    have := congrArg Prod.snd this
    simp only at this
    rw [← this]
    simp only
    rw [List.getElem?_set_ne (Ne.symm hq)]

omit [F32Ops F] in
theorem put_keeps (b : Build) (r : Tensor F) (x : TensorIndex) (v : Exec F) :
    Keeps (sameLayout · r) (put b x v) := .bind (.eval _ _) fun _ => Tensor.write_keeps _ _ _ _

theorem asFull_write_all (b : Build) (r : Tensor F) (hr : r.WF) {v v' : UInt32 → UInt32 → UInt32 → Exec F}
    (h : ∀ i j k, Le (v i j k) (v' i j k)) (hok : ∀ p, (Tensor.write_all_u b r.shape v' r).1 ≠ .error p) :
    AsFull r (Tensor.write_all_u b r.shape v r) (Tensor.write_all_u b r.shape v' r) := by
  have key : ∀ v : UInt32 → UInt32 → UInt32 → Exec F, Tensor.write_all_u b r.shape v r =
      loop (idx3 r.shape.di.toNat r.shape.dj.toNat r.shape.dk.toNat) ()
        (fun x _ => put b (ix x.1 x.2.1 x.2.2)
          (v (UInt32.ofNat x.1) (UInt32.ofNat x.2.1) (UInt32.ofNat x.2.2))) r := by
    intro v
    have := for3 r.shape.di r.shape.dj r.shape.dk (fun i j k => put b ⟨i, j, k⟩ (v i j k)) r
    unfold Tensor.write_all_u ix
    simp only [put] at this ⊢
    exact this
  rw [key] at hok
  rw [key, key]
  generalize hL : idx3 r.shape.di.toNat r.shape.dj.toNat r.shape.dk.toNat = L at hok ⊢
  refine asFull_loop r L
    (fun x => put b (ix x.1 x.2.1 x.2.2) (v (UInt32.ofNat x.1) (UInt32.ofNat x.2.1) (UInt32.ofNat x.2.2)))
    (fun x => put b (ix x.1 x.2.1 x.2.2) (v' (UInt32.ofNat x.1) (UInt32.ofNat x.2.1) (UInt32.ofNat x.2.2)))
    (fun x _ s _ => put_lock b _ (h _ _ _) s) (fun x => put_keeps b r _ _)
    (fun x => pos r.shape x.1 x.2.1 x.2.2) 0 (hL ▸ idx3_places _) ?_ hok
  subst hL
  rintro ⟨i, j, k⟩ hx s s' hs e q hq
  exact put_frame hr (mem_idx3.mp hx) _ s s' hs e q hq

theorem asFull_write_channel (b : Build) (r : Tensor F) (hr : r.WF) (c : UInt32)
    (hc : c.toNat < r.shape.dk.toNat) {v v' : UInt32 → UInt32 → Exec F} (h : ∀ i j, Le (v i j) (v' i j))
    (hok : ∀ p, (for_u 0 r.shape.dj (fun j => for_u 0 r.shape.di fun i => put b ⟨i, j, c⟩ (v' i j)) r).1 ≠ .error p) :
    AsFull r (for_u 0 r.shape.dj (fun j => for_u 0 r.shape.di fun i => put b ⟨i, j, c⟩ (v i j)) r)
      (for_u 0 r.shape.dj (fun j => for_u 0 r.shape.di fun i => put b ⟨i, j, c⟩ (v' i j)) r) := by
  have key : ∀ v : UInt32 → UInt32 → Exec F,
      for_u 0 r.shape.dj (fun j => for_u 0 r.shape.di fun i => put b ⟨i, j, c⟩ (v i j)) r =
      loop (idx2 r.shape.di.toNat r.shape.dj.toNat) ()
        (fun x _ => put b (ix x.1 x.2 c.toNat) (v (UInt32.ofNat x.1) (UInt32.ofNat x.2))) r := by
    intro v
    rw [for2 _ _ (fun i j => put b ⟨i, j, c⟩ (v i j)) r]
    unfold ix
    rw [ofNat_toNat_u32]
  rw [key] at hok
  rw [key, key]
  generalize hL : idx2 r.shape.di.toNat r.shape.dj.toNat = L at hok ⊢
  refine asFull_loop r L
    (fun x => put b (ix x.1 x.2 c.toNat) (v (UInt32.ofNat x.1) (UInt32.ofNat x.2)))
    (fun x => put b (ix x.1 x.2 c.toNat) (v' (UInt32.ofNat x.1) (UInt32.ofNat x.2)))
    (fun x _ s _ => put_lock b _ (h _ _) s) (fun x => put_keeps b r _ _)
    (fun x => pos r.shape x.1 x.2 c.toNat) _ (hL ▸ idx2_places _ _) ?_ hok
  subst hL
  rintro ⟨i, j⟩ hx s s' hs e q hq
  exact put_frame hr ⟨(mem_idx2.mp hx).1, (mem_idx2.mp hx).2, hc⟩ _ s s' hs e q hq

/-! ## Wrappers around the loops -/

omit [F32Ops F] in
theorem asFull_map {α β : Type} {r : Tensor F} {m m' : Unwind (Tensor F) α} (f : α → β)
    (h : AsFull r (m r) (m' r)) : AsFull r ((m >>= fun a => pure (f a)) r) ((m' >>= fun a => pure (f a)) r) := by
  have e : ∀ m : Unwind (Tensor F) α, ((m >>= fun a => pure (f a)) r).2 = (m r).2 := by
    intro m
    rw [bind_apply]
    rcases m r with ⟨o, s⟩
    cases o <;> rfl
  rcases h with h | ⟨p, k, h⟩
  · left
    rw [bind_apply, bind_apply, h]
  · right
    refine ⟨p, k, ?_⟩
    rw [e, bind_apply, h]

omit [F32Ops F] in
theorem ok_of_map {β : Type} {r : Tensor F} {m : Unwind (Tensor F) Unit} {f : Unit → β}
    (h : ∀ p, ((m >>= fun a => (pure (f a) : Unwind (Tensor F) β)) r).1 ≠ .error p) (p : PanicKind) :
    (m r).1 ≠ .error p := by
  intro e
  refine h p ?_
  rw [bind_apply]
  rcases hm : m r with ⟨o, s⟩
  rw [hm] at e
  simp only at e
  rw [e]

/-! ## The operations -/

namespace Tensor

theorem transpose_full (b : Build) (u u' r : Tensor F) (hr : r.WF) (hu : Cut u u')
    (hok : ∀ p, (transpose_ij_u b u' r).1 ≠ .error p) :
    AsFull r (transpose_ij_u b u r) (transpose_ij_u b u' r) := by
  unfold transpose_ij_u at hok ⊢
  rw [bind_apply] at hok
  rw [bind_apply, bind_apply]
  simp only [eval, hu.1] at hok ⊢
  split
  · exact .inl rfl
  split
  · exact .inl rfl
  split
  · exact .inl rfl
  rename_i h1 h2 h3
  rw [if_neg h1, if_neg h2, if_neg h3] at hok
  exact asFull_map _ (asFull_write_all b r hr (fun i j k => hu.read b _) (ok_of_map hok))

theorem mm_full (b : Build) (u u' v v' r : Tensor F) (hr : r.WF) (hu : Cut u u') (hv : Cut v v')
    (hok : ∀ p, (matrix_multiply_u b u' v' r).1 ≠ .error p) :
    AsFull r (matrix_multiply_u b u v r) (matrix_multiply_u b u' v' r) := by
  unfold matrix_multiply_u at hok ⊢
  rw [bind_apply] at hok
  rw [bind_apply, bind_apply]
  simp only [eval, hu.1, hv.1] at hok ⊢
  split
  · rename_i h1
    rw [if_pos h1] at hok
    exact asFull_write_all b r hr (fun i j k => Le.forRange _ _ _ fun _ _ =>
      Le.bind (hu.read b _) fun _ => Le.bind (hv.read b _) fun _ => Le.refl _) hok
  · exact .inl rfl

theorem mm_first_full (b : Build) (u u' v v' r : Tensor F) (hr : r.WF) (hu : Cut u u') (hv : Cut v v')
    (hok : ∀ p, (matrix_multiply_transpose_first_u b u' v' r).1 ≠ .error p) :
    AsFull r (matrix_multiply_transpose_first_u b u v r) (matrix_multiply_transpose_first_u b u' v' r) := by
  unfold matrix_multiply_transpose_first_u at hok ⊢
  rw [bind_apply] at hok
  rw [bind_apply, bind_apply]
  simp only [eval, hu.1, hv.1] at hok ⊢
  split
  · exact .inl rfl
  · rename_i h1
    rw [if_neg h1] at hok
    exact asFull_map _ (asFull_write_all b r hr (fun i j k => Le.forRange _ _ _ fun _ _ =>
      Le.bind (hu.read b _) fun _ => Le.bind (hv.read b _) fun _ => Le.refl _) (ok_of_map hok))

theorem mm_second_full (b : Build) (u u' v v' r : Tensor F) (hr : r.WF) (hu : Cut u u') (hv : Cut v v')
    (hok : ∀ p, (matrix_multiply_transpose_second_u b u' v' r).1 ≠ .error p) :
    AsFull r (matrix_multiply_transpose_second_u b u v r) (matrix_multiply_transpose_second_u b u' v' r) := by
  unfold matrix_multiply_transpose_second_u at hok ⊢
  rw [bind_apply] at hok
  rw [bind_apply, bind_apply]
  simp only [eval, hu.1, hv.1] at hok ⊢
  split
  · exact .inl rfl
  · rename_i h1
    rw [if_neg h1] at hok
    exact asFull_map _ (asFull_write_all b r hr (fun i j k => Le.forRange _ _ _ fun _ _ =>
      Le.bind (hu.read b _) fun _ => Le.bind (hv.read b _) fun _ => Le.refl _) (ok_of_map hok))

theorem mm_relu_full (b : Build) (x x' w w' bi bi' r : Tensor F) (hr : r.WF) (hx : Cut x x') (hw : Cut w w')
    (hb : Cut bi bi') (hok : ∀ p, (matrix_multiply_add_relu_u b x' w' bi' r).1 ≠ .error p) :
    AsFull r (matrix_multiply_add_relu_u b x w bi r) (matrix_multiply_add_relu_u b x' w' bi' r) := by
  unfold matrix_multiply_add_relu_u at hok ⊢
  rw [bind_apply] at hok
  rw [bind_apply, bind_apply]
  simp only [eval, hx.1, hw.1, hb.1] at hok ⊢
  split
  · rename_i h1
    rw [if_pos h1] at hok
    split
    · rename_i h2
      rw [if_pos h2] at hok
      exact asFull_write_all b r hr (fun i j k => Le.bind (Le.forRange _ _ _ fun _ _ =>
        Le.bind (hw.read b _) fun _ => Le.bind (hx.read b _) fun _ => Le.refl _) fun _ =>
        Le.bind (hb.read b _) fun _ => Le.refl _) hok
    · exact .inl rfl
  · exact .inl rfl

/-- compute and write with a test of the index -/
def put' (b : Build) (x : TensorIndex) (v : Exec F) : Unwind (Tensor F) Unit := do
  let v ← eval fun _ => v
  set_item_u b x v

omit [F32Ops F] in
theorem put'_inside {b : Build} {r s : Tensor F} (hs : sameLayout s r) {i j k : Nat}
    (h : r.shape.Inside i j k) (v : Exec F) : put' b (ix i j k) v s = put b (ix i j k) v s := by
  have h' : s.shape.Inside i j k := by rw [hs.1]; exact h
  unfold put' put
  rcases v with p | a
  · rfl
  · rw [bind_apply, bind_apply]
    simp only [eval]
    unfold set_item_u
    rw [bind_apply]
    simp only [eval, fits_index_ix h', if_true]

/-- the largest entry of a window -/
def pool_value (b : Build) (image : Tensor F) (mask : TensorShape) (st i j k : UInt32) : Exec F :=
  forRange 0 mask.dj (negInf : F) fun jj m =>
    forRange 0 mask.di m fun ii m => do
      let i0 ← mulU b i st
      let ix_i ← addU b i0 ii
      let j0 ← mulU b j st
      let ix_j ← addU b j0 jj
      let current_item ← image.get_item b ⟨ix_i, ix_j, k⟩
      pure (if gt current_item m then current_item else m)

theorem max_pool_u_eq (b : Build) (x r : Tensor F) (mask : TensorShape) (st : UInt32) :
    max_pool_u b x mask st r =
      match check_max_pooling_dimensions b x.shape mask st r.shape with
      | .error p => (.error p, r)
      | .ok false => (.ok (), r)
      | .ok true => loop (idx3 r.shape.di.toNat r.shape.dj.toNat r.shape.dk.toNat) ()
          (fun y _ => put' b (ix y.1 y.2.1 y.2.2)
            (pool_value b x mask st (UInt32.ofNat y.1) (UInt32.ofNat y.2.1) (UInt32.ofNat y.2.2))) r := by
  unfold max_pool_u
  rw [eval_bind]
  simp only
  rw [eval_bind]
  rcases hc : check_max_pooling_dimensions b x.shape mask st r.shape with p | c
  · rfl
  · simp only
    cases c with
    | false => rfl
    | true =>
      have := for3 r.shape.di r.shape.dj r.shape.dk (fun i j k => put' b ⟨i, j, k⟩ (pool_value b x mask st i j k)) r
      simp only [if_true]
      unfold ix
      simp only [put', pool_value] at this ⊢
      exact this

theorem max_pool_full (b : Build) (x x' r : Tensor F) (mask : TensorShape) (st : UInt32) (hr : r.WF) (hx : Cut x x')
    (hok : ∀ p, (max_pool_u b x' mask st r).1 ≠ .error p) :
    AsFull r (max_pool_u b x mask st r) (max_pool_u b x' mask st r) := by
  rw [max_pool_u_eq] at hok
  rw [max_pool_u_eq, max_pool_u_eq, hx.1]
  rcases hc : check_max_pooling_dimensions b x'.shape mask st r.shape with p | c
  · exact .inl rfl
  rw [hc] at hok
  cases c with
  | false => exact .inl rfl
  | true =>
    simp only at hok ⊢
    have le : ∀ i j k, Le (pool_value b x mask st i j k) (pool_value b x' mask st i j k) := fun i j k =>
      Le.forRange _ _ _ fun _ _ => Le.forRange _ _ _ fun _ _ => Le.bind (Le.refl _) fun _ =>
        Le.bind (Le.refl _) fun _ => Le.bind (Le.refl _) fun _ => Le.bind (Le.refl _) fun _ =>
          Le.bind (hx.get_item b _) fun _ => Le.refl _
    generalize hL : idx3 r.shape.di.toNat r.shape.dj.toNat r.shape.dk.toNat = L at hok ⊢
    refine asFull_loop r L
      (fun y => put' b (ix y.1 y.2.1 y.2.2)
        (pool_value b x mask st (UInt32.ofNat y.1) (UInt32.ofNat y.2.1) (UInt32.ofNat y.2.2)))
      (fun y => put' b (ix y.1 y.2.1 y.2.2)
        (pool_value b x' mask st (UInt32.ofNat y.1) (UInt32.ofNat y.2.1) (UInt32.ofNat y.2.2)))
      ?_ (fun y => .bind (.eval _ _) fun _ => set_item_keeps _ _ _ _)
      (fun y => pos r.shape y.1 y.2.1 y.2.2) 0 (hL ▸ idx3_places _) ?_ hok
    · subst hL
      rintro ⟨i, j, k⟩ hy s hs
      simp only
      rw [put'_inside hs (mem_idx3.mp hy), put'_inside hs (mem_idx3.mp hy)]
      exact put_lock b _ (le _ _ _) s
    · subst hL
      rintro ⟨i, j, k⟩ hy s s' hs e q hq
      rw [put'_inside hs (mem_idx3.mp hy)] at e
      exact put_frame hr (mem_idx3.mp hy) _ s s' hs e q hq

/-- a loop over a tensor and a list beside it -/
theorem asFull_pair {ι : Type} (r : Tensor F) (o : List UInt32) (hlen : o.length = r.data.length) (L : List ι)
    (f g : ι → Unwind (Tensor F × List UInt32) Unit) (pl : ι → Nat) (hpos : L.map pl = List.range' 0 L.length)
    (lock : ∀ y ∈ L, ∀ s, sameLayout s.1 r ∧ s.2.length = r.data.length →
      f y s = g y s ∨ ∃ p, f y s = (.error p, s))
    (hk : ∀ y, Keeps (fun s => sameLayout s.1 r ∧ s.2.length = r.data.length) (g y))
    (f1 : ∀ y ∈ L, ∀ s s', sameLayout s.1 r ∧ s.2.length = r.data.length → g y s = (.ok (), s') → ∀ q, q ≠ pl y →
      s'.1.data[q]? = s.1.data[q]?)
    (f2 : ∀ y ∈ L, ∀ s s', sameLayout s.1 r ∧ s.2.length = r.data.length → g y s = (.ok (), s') → ∀ q, q ≠ pl y →
      s'.2[q]? = s.2[q]?)
    (hok : ∀ p, ((loop L () (fun y _ => g y) >>= fun _ => (pure (.ok ()) : Unwind _ Res)) (r, o)).1 ≠ .error p) :
    (loop L () (fun y _ => f y) >>= fun _ => (pure (.ok ()) : Unwind _ Res)) (r, o) =
        (loop L () (fun y _ => g y) >>= fun _ => (pure (.ok ()) : Unwind _ Res)) (r, o) ∨
      ∃ p m, (loop L () (fun y _ => f y) >>= fun _ => (pure (.ok ()) : Unwind _ Res)) (r, o) = (.error p,
        ({ r with data := ((loop L () (fun y _ => g y) >>= fun _ =>
            (pure (.ok ()) : Unwind _ Res)) (r, o)).2.1.data.take m ++ r.data.drop m },
          ((loop L () (fun y _ => g y) >>= fun _ => (pure (.ok ()) : Unwind _ Res)) (r, o)).2.2.take m ++
            o.drop m)) := by
  let P : Tensor F × List UInt32 → Prop := fun s => sameLayout s.1 r ∧ s.2.length = r.data.length
  have hP : P (r, o) := ⟨sameLayout_refl r, hlen⟩
  rw [bind_apply] at hok
  rw [bind_apply, bind_apply]
  rcases loop_lock P L f g lock hk (r, o) hP with e | ⟨p, n, s', hn, e1, e2⟩
  · left
    rw [e]
  right
  rcases hg : loop L () (fun y _ => g y) (r, o) with ⟨u, s''⟩
  obtain rfl : u = .ok () := by
    cases u with
    | ok u => rfl
    | error p => exact absurd (by rw [hg]) (hok p)
  have l1 : P s' := by
    have := Keeps.loop (P := P) (L.take n) () (body := fun y _ => g y) (fun y _ => hk y) (r, o) hP
    rwa [e2] at this
  have l2 : P s'' := by
    have := Keeps.loop (P := P) L () (body := fun y _ => g y) (fun y _ => hk y) (r, o) hP
    rwa [hg] at this
  have d1 := part_data s''.1.data r.data s'.1.data n l2.1.2.2 (fun q => by
    have := loop_part P L g hk pl 0 hpos (r, o) s' s'' hP n hn e2 hg (fun s q => s.1.data[q]?) f1 q
    rwa [Nat.zero_add] at this)
  have d2 := part_data s''.2 o s'.2 n (l2.2.trans hlen.symm) (fun q => by
    have := loop_part P L g hk pl 0 hpos (r, o) s' s'' hP n hn e2 hg (fun s q => s.2[q]?) f2 q
    rwa [Nat.zero_add] at this)
  refine ⟨p, n, ?_⟩
  rw [e1]
  obtain ⟨⟨st', sh, d⟩, o'⟩ := s'
  obtain ⟨⟨a1, a2, _⟩, _⟩ := l1
  simp only at a1 a2 d1 d2 ⊢
  rw [d1, d2, a1, a2]
  rfl

/-- the largest entry of a window and its position -/
def track_value (b : Build) (image : Tensor F) (mask : TensorShape) (st i j k : UInt32) : Exec (F × UInt32) :=
  forRange 0 mask.dj ((negInf : F), (0 : UInt32)) fun jj (m, oi) =>
    forRange 0 mask.di (m, oi) fun ii (m, oi) => do
      let i0 ← mulU b i st
      let ix_i ← addU b i0 ii
      let j0 ← mulU b j st
      let ix_j ← addU b j0 jj
      let current_item ← image.get_item b ⟨ix_i, ix_j, k⟩
      if gt current_item m then do
        let id ← image.get_data_index b ⟨ix_i, ix_j, k⟩
        pure (current_item, id)
      else pure (m, oi)

/-- one round of the loop -/
def track_put (b : Build) (x : TensorIndex) (v : Exec (F × UInt32)) : Unwind (Tensor F × List UInt32) Unit := do
  let output_index ← eval fun s => s.1.get_data_index b x
  let best ← eval fun _ => v
  zoom (fun s => s.1) (fun t s => (t, s.2)) (set_item_u b x best.1)
  let o ← eval fun s => vset s.2 output_index.toNat best.2
  assign fun s => (s.1, o)

theorem track_u_eq (b : Build) (x r : Tensor F) (o : List UInt32) (mask : TensorShape) (st : UInt32) :
    max_pool_track_origin_u b x mask st (r, o) =
      match check_max_pooling_dimensions b x.shape mask st r.shape with
      | .error p => (.error p, (r, o))
      | .ok false => (.ok (.error "Max pooling dimensions don't match"), (r, o))
      | .ok true => match r.shape.total_size b with
        | .error p => (.error p, (r, o))
        | .ok total => if total.toNat ≠ o.length then
            (.ok (.error "Origin tracker list size is not equal to number of output items"), (r, o))
          else (loop (idx3 r.shape.di.toNat r.shape.dj.toNat r.shape.dk.toNat) ()
          (fun y _ => track_put b (ix y.1 y.2.1 y.2.2)
            (track_value b x mask st (UInt32.ofNat y.1) (UInt32.ofNat y.2.1) (UInt32.ofNat y.2.2))) >>=
            fun _ => pure (.ok ())) (r, o) := by
  unfold max_pool_track_origin_u
  rw [eval_bind]
  simp only
  rw [eval_bind]
  rcases hc : check_max_pooling_dimensions b x.shape mask st r.shape with p | c
  · rfl
  · simp only
    cases c with
    | false => rfl
    | true =>
      simp only [not_true_eq_false, if_false]
      rw [eval_bind]
      rcases r.shape.total_size b with p | total
      · rfl
      simp only
      rw [eval_bind]
      simp only
      split
      · rfl
      have := for3 r.shape.di r.shape.dj r.shape.dk
        (fun i j k => track_put b ⟨i, j, k⟩ (track_value b x mask st i j k)) (r, o)
      unfold ix
      rw [bind_apply, bind_apply]
      simp only [track_put, track_value] at this ⊢
      rw [this]

omit [F32Ops F] in
theorem track_keep (b : Build) (r : Tensor F) (n : Nat) (x : TensorIndex) (v : Exec (F × UInt32)) :
    Keeps (fun s => sameLayout s.1 r ∧ s.2.length = n) (track_put b x v) :=
  .bind (.eval _ _) fun _ => .bind (.eval _ _) fun _ =>
    .bind (.zoom (set_item_keeps b r _ _) (fun _ hs => hs.1) fun _ _ hs ht => ⟨ht, hs.2⟩) fun _ =>
    .use fun _ _ ht hd => ⟨ht.1, (vset_length _ _ _ _ hd).trans ht.2⟩

theorem track_put_ok {b : Build} {r : Tensor F} (hr : r.WF) {s : Tensor F × List UInt32}
    (hs : sameLayout s.1 r ∧ s.2.length = r.data.length) {i j k : Nat} (h : r.shape.Inside i j k)
    (v : Exec (F × UInt32)) : track_put b (ix i j k) v s =
      match v with
      | .error p => (.error p, s)
      | .ok a => (.ok (), ({ s.1 with data := s.1.data.set (pos r.shape i j k) a.1 },
          s.2.set (pos r.shape i j k) a.2)) := by
  have hw := (sameLayout_wf hs.1 hr).1
  have h' : s.1.shape.Inside i j k := by rw [hs.1.1]; exact h
  unfold track_put
  rw [eval_bind, get_data_index_ok hw h']
  simp only
  rw [eval_bind]
  rcases v with p | a
  · rfl
  simp only
  rw [bind_apply]
  have e : zoom (fun s : Tensor F × List UInt32 => s.1) (fun t s => (t, s.2)) (set_item_u b (ix i j k) a.1) s =
      (.ok (), ({ s.1 with data := s.1.data.set (pos r.shape i j k) a.1 }, s.2)) := by
    unfold zoom set_item_u
    rw [eval_bind]
    simp only [fits_index_ix h', if_true]
    rw [write_u_ok hr hs.1 h]
  rw [e]
  simp only
  rw [eval_bind, pos_toNat hw h', hs.1.1, vset_ok (by rw [hs.2]; exact pos_lt_len hr h)]
  rfl

theorem track_full (b : Build) (x x' r : Tensor F) (o : List UInt32) (mask : TensorShape) (st : UInt32) (hr : r.WF)
    (hx : Cut x x') (hok : ∀ p, (max_pool_track_origin_u b x' mask st (r, o)).1 ≠ .error p) :
    max_pool_track_origin_u b x mask st (r, o) = max_pool_track_origin_u b x' mask st (r, o) ∨
      ∃ p m, max_pool_track_origin_u b x mask st (r, o) = (.error p,
        ({ r with data := (max_pool_track_origin_u b x' mask st (r, o)).2.1.data.take m ++ r.data.drop m },
          (max_pool_track_origin_u b x' mask st (r, o)).2.2.take m ++ o.drop m)) := by
  rw [track_u_eq] at hok
  rw [track_u_eq, track_u_eq, hx.1]
  rcases hc : check_max_pooling_dimensions b x'.shape mask st r.shape with p | c
  · exact .inl rfl
  rw [hc] at hok
  cases c with
  | false => exact .inl rfl
  | true =>
    simp only at hok ⊢
    rw [total_size_ok hr.fits] at hok ⊢
    simp only at hok ⊢
    split
    · exact .inl rfl
    rename_i h1
    rw [if_neg h1] at hok
    have hlen : o.length = r.data.length := by
      rw [not_not, toNat_ofNat_lt hr.fits.2] at h1
      rw [← h1, hr.len]
    have le : ∀ i j k, Le (track_value b x mask st i j k) (track_value b x' mask st i j k) := fun i j k =>
      Le.forRange _ _ _ fun _ _ => Le.forRange _ _ _ fun _ _ => Le.bind (Le.refl _) fun _ =>
        Le.bind (Le.refl _) fun _ => Le.bind (Le.refl _) fun _ => Le.bind (Le.refl _) fun _ =>
          Le.bind (hx.get_item b _) fun _ => by rw [hx.index]; exact Le.refl _
    generalize hL : idx3 r.shape.di.toNat r.shape.dj.toNat r.shape.dk.toNat = L at hok ⊢
    have hpos : L.map (fun y => pos r.shape y.1 y.2.1 y.2.2) = List.range' 0 L.length := hL ▸ idx3_places _
    have hmem : ∀ y ∈ L, r.shape.Inside y.1 y.2.1 y.2.2 := by
      subst hL
      rintro ⟨i, j, k⟩ hy
      exact mem_idx3.mp hy
    let P : Tensor F × List UInt32 → Prop := fun s => sameLayout s.1 r ∧ s.2.length = r.data.length
    let f : Nat × Nat × Nat → Unwind (Tensor F × List UInt32) Unit := fun y => track_put b (ix y.1 y.2.1 y.2.2)
      (track_value b x mask st (UInt32.ofNat y.1) (UInt32.ofNat y.2.1) (UInt32.ofNat y.2.2))
    let g : Nat × Nat × Nat → Unwind (Tensor F × List UInt32) Unit := fun y => track_put b (ix y.1 y.2.1 y.2.2)
      (track_value b x' mask st (UInt32.ofNat y.1) (UInt32.ofNat y.2.1) (UInt32.ofNat y.2.2))
    have hk : ∀ y, Keeps P (g y) := fun y => track_keep b r _ _ _
    have lock : ∀ y ∈ L, ∀ s, P s → f y s = g y s ∨ ∃ p, f y s = (.error p, s) := by
      intro y hy s hs
      simp only [f, g]
      rw [track_put_ok hr hs (hmem y hy), track_put_ok hr hs (hmem y hy)]
      rcases hv : track_value b x mask st (UInt32.ofNat y.1) (UInt32.ofNat y.2.1) (UInt32.ofNat y.2.2) with p | a
      · exact .inr ⟨p, rfl⟩
      · rw [le _ _ _ a hv]
        exact .inl rfl
    have fr : ∀ y ∈ L, ∀ s s', P s → g y s = (.ok (), s') → ∀ q, q ≠ pos r.shape y.1 y.2.1 y.2.2 →
        s'.1.data[q]? = s.1.data[q]? ∧ s'.2[q]? = s.2[q]? := by
      intro y hy s s' hs e q hq
      simp only [g] at e
      rw [track_put_ok hr hs (hmem y hy)] at e
      rcases hv : track_value b x' mask st (UInt32.ofNat y.1) (UInt32.ofNat y.2.1) (UInt32.ofNat y.2.2) with p | a
      · rw [hv] at e
        cases e
      · rw [hv] at e
        have := congrArg Prod.snd e
        simp only at this
        rw [← this]
        simp only
        rw [List.getElem?_set_ne (Ne.symm hq), List.getElem?_set_ne (Ne.symm hq)]
        exact ⟨rfl, rfl⟩
    exact asFull_pair r o hlen L f g (fun y => pos r.shape y.1 y.2.1 y.2.2) hpos lock hk
      (fun y hy s s' hs e q hq => (fr y hy s s' hs e q hq).1) (fun y hy s s' hs e q hq => (fr y hy s s' hs e q hq).2) hok

end Tensor

theorem check_channel {b : Build} {im ke re : TensorShape} {st c : UInt32}
    (h : check_convolution_dimensions b im ke st re c = .ok (.ok ())) : c.toNat < re.dk.toNat := by
  unfold check_convolution_dimensions at h
  split at h
  · cases h
  obtain ⟨_, _, h⟩ := bind_inv h
  obtain ⟨_, _, h⟩ := bind_inv h
  split at h
  · cases h
  obtain ⟨_, _, h⟩ := bind_inv h
  obtain ⟨_, _, h⟩ := bind_inv h
  split at h
  · cases h
  obtain ⟨_, _, h⟩ := bind_inv h
  obtain ⟨_, _, h⟩ := bind_inv h
  obtain ⟨_, _, h⟩ := bind_inv h
  obtain ⟨_, _, h⟩ := bind_inv h
  obtain ⟨_, _, h⟩ := bind_inv h
  obtain ⟨_, _, h⟩ := bind_inv h
  split at h
  · cases h
  split at h
  · cases h
  split at h
  · cases h
  · rename_i h5
    exact UInt32.lt_iff_toNat_lt.mp (UInt32.not_le.mp h5)

theorem window_le {x x' k k' : Tensor F} (hx : Cut x x') (hk : Cut k k') (b : Build) (st i j : UInt32) :
    Le (convolution_window b x k st i j) (convolution_window b x' k' st i j) := by
  unfold convolution_window
  rw [hk.1]
  refine Le.bind (Le.refl _) fun _ => Le.bind (Le.refl _) fun _ => Le.forRange _ _ _ fun _ _ =>
    Le.forRange _ _ _ fun _ _ => Le.forRange _ _ _ fun _ _ => ?_
  rw [hk.index]
  refine Le.bind (Le.refl _) fun _ => Le.bind (Le.refl _) fun _ => Le.bind (Le.refl _) fun _ => ?_
  rw [hx.index]
  exact Le.bind (Le.refl _) fun _ => Le.bind (hx.vget _) fun _ => Le.bind (hk.vget _) fun _ => Le.refl _

/-- both convolutions: the checks, the bias, and the loop -/
theorem conv_full_aux (b : Build) (x x' k k' bi bi' r : Tensor F) (st c : UInt32) (hr : r.WF) (hx : Cut x x')
    (hk : Cut k k') (hb : Cut bi bi') (f : F → F → F)
    (run : Tensor F → Tensor F → Tensor F → Unwind (Tensor F) Res)
    (hrun : ∀ x k bi, run x k bi r =
      match check_convolution_dimensions b x.shape k.shape st r.shape c with
      | .error p => (.error p, r)
      | .ok (.error e) => (.ok (.error e), r)
      | .ok (.ok ()) =>
        if bi.shape.di > 1 ∨ bi.shape.dj > 1 ∨ bi.shape.dk > 1 then
          (.ok (.error "bias should be a 1x1x1 tensor"), r)
        else match bi.get_item b ⟨0, 0, 0⟩ with
          | .error p => (.error p, r)
          | .ok v => ((for_u 0 r.shape.dj fun j => for_u 0 r.shape.di fun i =>
              put b ⟨i, j, c⟩ (convolution_window b x k st i j >>= fun a => .ok (f a v))) >>=
              fun _ => pure (.ok ())) r)
    (hok : ∀ p, (run x' k' bi' r).1 ≠ .error p) : AsFull r (run x k bi r) (run x' k' bi' r) := by
  rw [hrun] at hok
  rw [hrun, hrun, hx.1, hk.1, hb.1]
  rcases hc : check_convolution_dimensions b x'.shape k'.shape st r.shape c with p | o
  · exact .inl rfl
  rw [hc] at hok
  rcases o with e | u
  · exact .inl rfl
  simp only at hok ⊢
  split
  · exact .inl rfl
  rename_i h1
  rw [if_neg h1] at hok
  rcases hg : bi.get_item b ⟨0, 0, 0⟩ with p | v
  · refine .inr ⟨p, 0, ?_⟩
    simp
  · rw [hb.get_item b _ v hg] at hok ⊢
    simp only at hok ⊢
    refine asFull_map _ (asFull_write_channel b r hr c ?_ (fun i j => Le.bind (window_le hx hk b st i j) fun _ =>
      Le.refl _) (ok_of_map hok))
    exact check_channel hc

theorem conv_bias_full (b : Build) (x x' k k' bi bi' r : Tensor F) (st c : UInt32) (hr : r.WF) (hx : Cut x x')
    (hk : Cut k k') (hb : Cut bi bi') (hok : ∀ p, (convolution_bias_u b x' k' bi' st c r).1 ≠ .error p) :
    AsFull r (convolution_bias_u b x k bi st c r) (convolution_bias_u b x' k' bi' st c r) := by
  refine conv_full_aux b x x' k k' bi bi' r st c hr hx hk hb (fun a v => F32Ops.add a v)
    (fun x k bi => convolution_bias_u b x k bi st c) ?_ hok
  intro x k bi
  unfold convolution_bias_u
  rw [eval_bind]
  simp only
  rw [eval_bind]
  rcases hc : check_convolution_dimensions b x.shape k.shape st r.shape c with p | o
  · rfl
  rcases o with e | u
  · rfl
  simp only
  split
  · rfl
  rw [eval_bind]
  rcases bi.get_item b ⟨0, 0, 0⟩ with p | v
  · rfl
  simp only
  have e : ∀ i j, (eval (fun _ => convolution_window b x k st i j) >>= fun acc =>
      Tensor.write_u b ⟨i, j, c⟩ (F32Ops.add acc v) : Unwind (Tensor F) Unit) =
      put b ⟨i, j, c⟩ (convolution_window b x k st i j >>= fun a => .ok (F32Ops.add a v)) := by
    intro i j
    funext s
    unfold put
    rw [eval_bind, eval_bind]
    cases convolution_window b x k st i j <;> rfl
  simp only [e]

theorem conv_relu_full (b : Build) (x x' k k' bi bi' r : Tensor F) (st c : UInt32) (hr : r.WF) (hx : Cut x x')
    (hk : Cut k k') (hb : Cut bi bi') (hok : ∀ p, (convolution_bias_relu_u b x' k' bi' st c r).1 ≠ .error p) :
    AsFull r (convolution_bias_relu_u b x k bi st c r) (convolution_bias_relu_u b x' k' bi' st c r) := by
  refine conv_full_aux b x x' k k' bi bi' r st c hr hx hk hb (fun a v => fmax (F32Ops.add a v) zero)
    (fun x k bi => convolution_bias_relu_u b x k bi st c) ?_ hok
  intro x k bi
  unfold convolution_bias_relu_u
  rw [eval_bind]
  simp only
  rw [eval_bind]
  rcases hc : check_convolution_dimensions b x.shape k.shape st r.shape c with p | o
  · rfl
  rcases o with e | u
  · rfl
  simp only
  split
  · rfl
  rw [eval_bind]
  rcases bi.get_item b ⟨0, 0, 0⟩ with p | v
  · rfl
  simp only
  have e : ∀ i j, (eval (fun _ => convolution_window b x k st i j) >>= fun acc =>
      Tensor.write_u b ⟨i, j, c⟩ (fmax (F32Ops.add acc v) zero) : Unwind (Tensor F) Unit) =
      put b ⟨i, j, c⟩ (convolution_window b x k st i j >>= fun a => .ok (fmax (F32Ops.add a v) zero)) := by
    intro i j
    funext s
    unfold put
    rw [eval_bind, eval_bind]
    cases convolution_window b x k st i j <;> rfl
  simp only [e]

theorem backprop_kernel_full (b : Build) (g g' x x' r : Tensor F) (st c : UInt32) (hr : r.WF) (hg : Cut g g')
    (hx : Cut x x') (hok : ∀ p, (convolution_backprop_kernel_u b g' x' st c r).1 ≠ .error p) :
    AsFull r (convolution_backprop_kernel_u b g x st c r) (convolution_backprop_kernel_u b g' x' st c r) := by
  unfold convolution_backprop_kernel_u at hok ⊢
  rw [eval_bind] at hok
  rw [eval_bind, eval_bind]
  simp only at hok ⊢
  rw [eval_bind] at hok
  rw [eval_bind, eval_bind, hg.1, hx.1]
  rcases hc : check_convolution_dimensions b x'.shape r.shape st g'.shape c with p | o
  · exact .inl rfl
  rw [hc] at hok
  rcases o with e | u
  · exact .inl rfl
  simp only at hok ⊢
  refine asFull_map _ (asFull_write_all b r hr (fun l m n => Le.forRange _ _ _ fun _ _ =>
    Le.forRange _ _ _ fun _ _ => Le.forRange _ _ _ fun _ _ => ?_) (ok_of_map hok))
  rw [hg.index]
  refine Le.bind (Le.refl _) fun _ => Le.bind (Le.refl _) fun _ => Le.bind (Le.refl _) fun _ =>
    Le.bind (Le.refl _) fun _ => Le.bind (Le.refl _) fun _ => ?_
  rw [hx.index]
  exact Le.bind (Le.refl _) fun _ => Le.bind (hx.vget _) fun _ => Le.bind (hg.vget _) fun _ => Le.refl _

omit [F32Ops F] in
/-- the check of all kernels looks at their shapes only -/
theorem checks_cut (b : Build) (out inc : TensorShape) (st : UInt32) {ks ks' : List (Tensor F)}
    (h : List.Forall₂ Cut ks ks') (n : Nat) :
    (forListE (ks.zipIdx n) () (fun (kernel, i) _ => do
      let r ← check_convolution_dimensions b out kernel.shape st inc (UInt32.ofNat i)
      pure (r, ())) : Exec (Res × Unit)) =
    forListE (ks'.zipIdx n) () (fun (kernel, i) _ => do
      let r ← check_convolution_dimensions b out kernel.shape st inc (UInt32.ofNat i)
      pure (r, ())) := by
  induction h generalizing n with
  | nil => rfl
  | cons hd _ ih =>
    rw [List.zipIdx_cons, List.zipIdx_cons, forListE_cons, forListE_cons]
    simp only
    rw [hd.1]
    congr 1
    funext q
    obtain ⟨r, _⟩ := q
    cases r with
    | error e => rfl
    | ok u => exact ih (n + 1)

theorem forall₂_vget {α : Type} {R : α → α → Prop} {l l' : List α} (h : List.Forall₂ R l l') (i : Nat) :
    (vget l i = .error .oob ∧ vget l' i = .error .oob) ∨
      ∃ x x', vget l i = .ok x ∧ vget l' i = .ok x' ∧ R x x' := by
  induction h generalizing i with
  | nil => exact .inl ⟨vget_oob (by simp), vget_oob (by simp)⟩
  | cons hd _ ih =>
    cases i with
    | zero => exact .inr ⟨_, _, rfl, rfl, hd⟩
    | succ i => exact ih i

theorem backprop_outgoing_full (b : Build) (g g' r : Tensor F) (ks ks' : List (Tensor F)) (st : UInt32) (hr : r.WF)
    (hg : Cut g g') (hk : List.Forall₂ Cut ks ks')
    (hok : ∀ p, (convolution_backprop_outgoing_gradient_u b g' ks' st r).1 ≠ .error p) :
    AsFull r (convolution_backprop_outgoing_gradient_u b g ks st r)
      (convolution_backprop_outgoing_gradient_u b g' ks' st r) := by
  unfold convolution_backprop_outgoing_gradient_u at hok ⊢
  rw [eval_bind] at hok
  rw [eval_bind, eval_bind]
  simp only at hok ⊢
  rw [eval_bind] at hok
  rw [eval_bind, eval_bind, hg.1, checks_cut b r.shape g'.shape st hk 0, hk.length_eq]
  rcases hc : (forListE ks'.zipIdx () (fun (kernel, i) _ => do
      let r ← check_convolution_dimensions b r.shape kernel.shape st g'.shape (UInt32.ofNat i)
      pure (r, ())) : Exec (Res × Unit)) with p | o
  · exact .inl rfl
  rw [hc] at hok
  obtain ⟨o, u⟩ := o
  rcases o with e | u
  · exact .inl rfl
  simp only at hok ⊢
  split
  · exact .inl rfl
  rename_i h1
  rw [if_neg h1] at hok
  refine asFull_map _ (asFull_write_all b r hr (fun l m n => Le.forRange _ _ _ fun k _ => ?_) (ok_of_map hok))
  rcases forall₂_vget hk k.toNat with ⟨e1, e2⟩ | ⟨x, x', e1, e2, hx⟩
  · rw [e1, e2]
    exact Le.refl _
  rw [e1, e2, ok_bind, ok_bind, hx.1]
  refine Le.bind (Le.refl _) fun _ => Le.bind (Le.refl _) fun _ => Le.bind (Le.refl _) fun _ =>
    Le.bind (Le.refl _) fun _ => Le.forRange _ _ _ fun _ _ => Le.forRange _ _ _ fun _ _ => ?_
  rw [hg.index]
  refine Le.bind (Le.refl _) fun _ => Le.bind (Le.refl _) fun _ => Le.bind (Le.refl _) fun _ =>
    Le.bind (Le.refl _) fun _ => Le.bind (Le.refl _) fun _ => ?_
  rw [hx.index]
  exact Le.bind (Le.refl _) fun _ => Le.bind (hx.vget _) fun _ => Le.bind (hg.vget _) fun _ => Le.refl _

end Rusty
