import Verif.Lemmas.ConvolutionBackward

set_option linter.unusedSectionVars false

/-! # Helper lemmas: the outgoing gradient when its loops leave the incoming gradient -/

namespace Rusty

open F32Ops Spec

/-! ## A run that is `Ok` also when some steps are left out -/

/-- if `x` returns a value then `y` returns the same -/
def Ref {α : Type} (x y : Exec α) : Prop := ∀ a, x = .ok a → y = .ok a

theorem ref_refl {α : Type} (x : Exec α) : Ref x x := fun _ h => h

theorem ref_bind {α β : Type} {x y : Exec α} {f g : α → Exec β} (h : Ref x y)
    (hf : ∀ a, Ref (f a) (g a)) : Ref (x >>= f) (y >>= g) := by
  intro c hc
  cases hx : x with
  | error e => rw [hx] at hc; cases hc
  | ok a =>
    rw [hx, ok_bind] at hc
    rw [h a hx, ok_bind]
    exact hf a c hc

theorem ref_drop {α β : Type} {x : Exec α} {f : α → Exec β} {y : Exec β}
    (hf : ∀ a, x = .ok a → Ref (f a) y) : Ref (x >>= f) y := by
  intro c hc
  cases hx : x with
  | error e => rw [hx] at hc; cases hc
  | ok a =>
    rw [hx, ok_bind] at hc
    exact hf a hx c hc

theorem ref_foldlM {α σ : Type} (L : List α) {f g : σ → α → Exec σ}
    (h : ∀ s x, Ref (f s x) (g s x)) : ∀ s, Ref (L.foldlM f s) (L.foldlM g s) := by
  induction L with
  | nil => intro s; exact ref_refl _
  | cons x xs ih =>
    intro s
    rw [List.foldlM_cons, List.foldlM_cons]
    exact ref_bind (h s x) ih

theorem ref_forRange {σ : Type} (lo hi : UInt32) {f g : UInt32 → σ → Exec σ}
    (h : ∀ i s, Ref (f i s) (g i s)) (s : σ) : Ref (forRange lo hi s f) (forRange lo hi s g) := by
  unfold forRange
  exact ref_foldlM _ (fun s x => h _ s) s

theorem bind_inv {α β : Type} {x : Exec α} {f : α → Exec β} {c : β} (h : (x >>= f) = .ok c) :
    ∃ a, x = .ok a ∧ f a = .ok c := by
  cases hx : x with
  | error e => rw [hx] at h; cases h
  | ok a => rw [hx] at h; exact ⟨a, rfl, h⟩

section Negation

open Toy

theorem vget_ones {s : TensorShape} {n : Nat} {x : Int} (h : vget (onesT s).data n = .ok x) :
    x = 1 := by
  unfold vget onesT at h
  simp only [List.getElem?_replicate] at h
  by_cases hn : n < s.count
  · rw [if_pos hn] at h
    cases h
    rfl
  · rw [if_neg hn] at h
    cases h

/-- What a call that does not panic computes when every entry of the incoming gradient is one. -/
theorem ones_char {b : Build} {result : TensorShape} {outgoing : Tensor Int}
    {kernels : List (Tensor Int)} {s : UInt32} (ho : outgoing.WF) (hs : s.toNat ≠ 0)
    (hs31 : s.toNat < 2 ^ 31) (hK : KernelsOk outgoing.shape result s kernels)
    (hdi : outgoing.shape.di.toNat ≤ 2 ^ 31) (hdj : outgoing.shape.dj.toNat ≤ 2 ^ 31)
    (hki : ∀ k, k < kernels.length → kdi kernels k ≠ 0 ∧ kdi kernels k < 2 ^ 31)
    (hkj : ∀ k, k < kernels.length → kdj kernels k ≠ 0 ∧ kdj kernels k < 2 ^ 31) {r : Res} {o' : Tensor Int}
    (hrun : convolution_backprop_outgoing_gradient b (onesT result) kernels s outgoing =
        .ok (r, o')) :
    r = .ok () ∧ o'.WF ∧ o'.shape = outgoing.shape ∧
      ∀ a bb c, outgoing.shape.Inside a bb c → val o' a bb c =
        sum ((visited kernels s.toNat a bb result.dk.toNat).map fun (i, j, k) =>
          mul (kval kernels k (a - s.toNat * i) (bb - s.toNat * j) c) 1) := by
  obtain ⟨o1, q1, q2, q3, q4⟩ := loop3_write (b := b) outgoing ho
    (fun a bb c => sum ((visited kernels s.toNat a bb result.dk.toNat).map
      fun (i, j, k) =>
          mul (kval kernels k (a - s.toNat * i) (bb - s.toNat * j) c) 1))
    (fun c bb a r => do
            let acc ← forRange 0 result.dk (zero : Int) fun k acc => do
              let kernel ← vget kernels k.toNat
              let i_start ← backprop_start b a kernel.shape.di s
              let i_stop ← backprop_stop b a kernel.shape.di s
              let j_start ← backprop_start b bb kernel.shape.dj s
              let j_stop ← backprop_stop b bb kernel.shape.dj s
              forRange j_start j_stop acc fun j acc =>
                forRange i_start i_stop acc fun i acc => do
                  let si ← mulU b s i
                  let ki ← subU b a si
                  let sj ← mulU b s j
                  let kj ← subU b bb sj
                  let kernel_id ← kernel.get_data_index b ⟨ki, kj, c⟩
                  let x ← vget kernel.data kernel_id.toNat
                  pure (F32Ops.add acc (mul x (1 : Int)))
            r.write b ⟨a, bb, c⟩ acc)
    (by
      intro a bb c hin t _ _
      obtain ⟨hina, hinb, hinc⟩ := hin
      have a32 : (UInt32.ofNat a).toNat = a := toNat_ofNat_lt (by omega)
      have b32 : (UInt32.ofNat bb).toNat = bb := toNat_ofNat_lt (by omega)
      have key : (forRange 0 result.dk (zero : Int) fun k acc => do
              let kernel ← vget kernels k.toNat
              let i_start ← backprop_start b (UInt32.ofNat a) kernel.shape.di s
              let i_stop ← backprop_stop b (UInt32.ofNat a) kernel.shape.di s
              let j_start ← backprop_start b (UInt32.ofNat bb) kernel.shape.dj s
              let j_stop ← backprop_stop b (UInt32.ofNat bb) kernel.shape.dj s
              forRange j_start j_stop acc fun j acc =>
                forRange i_start i_stop acc fun i acc => do
                  let si ← mulU b s i
                  let ki ← subU b (UInt32.ofNat a) si
                  let sj ← mulU b s j
                  let kj ← subU b (UInt32.ofNat bb) sj
                  let kernel_id ← kernel.get_data_index b ⟨ki, kj, UInt32.ofNat c⟩
                  let x ← vget kernel.data kernel_id.toNat
                  pure (F32Ops.add acc (mul x (1 : Int)))) =
          .ok (sum ((visited kernels s.toNat a bb result.dk.toNat).map
            fun (i, j, k) => mul (kval kernels k (a - s.toNat * i) (bb - s.toNat * j) c) 1)) := by
        rw [forRange_zero]
        rw [foldlM_pure _ _ (fun acc k => ((box k (startN a (kdi kernels k) s.toNat)
            (stopN a (kdi kernels k) s.toNat) (startN bb (kdj kernels k) s.toNat)
            (stopN bb (kdj kernels k) s.toNat)).map fun (i, j, k) =>
              mul (kval kernels k (a - s.toNat * i) (bb - s.toNat * j) c) 1).foldl
                F32Ops.add acc)]
        · unfold visited sum
          rw [List.map_flatMap, List.foldl_flatMap]
        · intro k hk acc
          have hk' : k < result.dk.toNat := List.mem_range.mp hk
          have hkl : k < kernels.length := by rw [hK.len]; exact hk'
          have k32 : (UInt32.ofNat k).toNat = k :=
            toNat_ofNat_lt (Nat.lt_trans hk' (u32_lt _))
          have edi : kdi kernels k = kernels[k].shape.di.toNat := by
            unfold kdi; rw [List.getElem?_eq_getElem hkl]; rfl
          have edj : kdj kernels k = kernels[k].shape.dj.toNat := by
            unfold kdj; rw [List.getElem?_eq_getElem hkl]; rfl
          obtain ⟨f1, ⟨f2, f3⟩, f4⟩ := hK.fits k hkl
          obtain ⟨si0, si1⟩ := hki k hkl
          obtain ⟨sj0, sj1⟩ := hkj k hkl
          have wf := hK.wf k hkl
          have lei := tiles_le f2
          have lej := tiles_le f3
          rw [k32, vget_ok hkl, ok_bind,
            backprop_start_ok (by omega) (by omega) hs31 hs (by omega), ok_bind,
            backprop_stop_ok (by omega) hs, ok_bind,
            backprop_start_ok (by omega) (by omega) hs31 hs (by omega), ok_bind,
            backprop_stop_ok (by omega) hs, ok_bind, a32, b32, ← edi, ← edj]
          rw [forBox_fold k _ _ _ _ (startN_lt hina hdi) (stopN_lt hina hdi) (startN_lt hinb hdj)
            (stopN_lt hinb hdj)]
          intro i j i1 i2 j1 j2 acc
          have i32 : (UInt32.ofNat i).toNat = i :=
            toNat_ofNat_lt (Nat.lt_trans i2 (stopN_lt hina hdi))
          have j32 : (UInt32.ofNat j).toNat = j :=
            toNat_ofNat_lt (Nat.lt_trans j2 (stopN_lt hinb hdj))
          rw [edi] at i1 i2
          rw [edj] at j1 j2
          obtain ⟨v1, v2⟩ := visited_kernel hs i1 i2
          obtain ⟨w1, w2⟩ := visited_kernel hs j1 j2
          have insk : kernels[k].shape.Inside (a - s.toNat * i) (bb - s.toNat * j) c :=
            ⟨v2, w2, by rw [← f1]; exact hinc⟩
          have e2 := get_data_index_ok (b := b) wf insk
          have e4 := vget_pos wf insk
          unfold ix at e2
          have si32 : (UInt32.ofNat (s.toNat * i)).toNat = s.toNat * i := toNat_ofNat_lt (by omega)
          have sj32 : (UInt32.ofNat (s.toNat * j)).toNat = s.toNat * j := toNat_ofNat_lt (by omega)
          rw [mulU_ok (by rw [i32]; omega), ok_bind, i32,
            subU_ok (by rw [si32, a32]; exact v1), ok_bind, mulU_ok (by rw [j32]; omega), ok_bind,
            j32, subU_ok (by rw [sj32, b32]; exact w1), ok_bind, a32, si32, b32, sj32, e2, ok_bind,
            e4, ok_bind]
          simp only [kval, List.getElem?_eq_getElem hkl]
          rfl
      rw [key, ok_bind]
      rfl)
  unfold convolution_backprop_outgoing_gradient at hrun
  rw [show (onesT result).shape = result from rfl, checks_ok hs hK, ok_bind] at hrun
  simp only at hrun
  rw [if_neg (by rw [hK.len, ofNat_toNat_u32]; exact fun h => h rfl)] at hrun
  obtain ⟨o2, e1, e2⟩ := bind_inv hrun
  cases e2
  have e3 := (ref_forRange 0 outgoing.shape.dk (fun c r => ref_forRange 0 _ (fun bb r =>
    ref_forRange 0 _ (fun a r => ref_bind (ref_forRange _ _ (fun k acc => ref_bind (ref_refl _)
      fun kernel => ref_bind (ref_refl _) fun _ => ref_bind (ref_refl _) fun _ =>
      ref_bind (ref_refl _) fun _ => ref_bind (ref_refl _) fun _ =>
      ref_forRange _ _ (fun j acc => ref_forRange _ _ (fun i acc => ref_drop fun _ _ =>
        ref_bind (ref_refl _) fun si => ref_bind (ref_refl _) fun ki => ref_bind (ref_refl _)
        fun sj => ref_bind (ref_refl _) fun kj => ref_bind (ref_refl _) fun id =>
        ref_bind (ref_refl _) fun x => ref_drop fun y hy => by
          rw [vget_ones hy]; exact ref_refl _) acc) acc) _) fun _ => ref_refl _) r) r) outgoing)
    _ e1
  rw [q1] at e3
  cases e3
  exact ⟨rfl, q2, q3, q4⟩

/-- the loop of an axis reaches row `i` for position `a` -/
def reaches (a kd s i : Nat) : Prop := startN a kd s ≤ i ∧ i < stopN a kd s

/-- the outcome of the call is not what it should be -/
def Wrong (b : Build) (incoming : Tensor Int) (kernels : List (Tensor Int)) (s : UInt32)
    (outgoing : Tensor Int) : Prop :=
  (∃ e, convolution_backprop_outgoing_gradient b incoming kernels s outgoing = .error e) ∨
  ∃ o' a bb v, convolution_backprop_outgoing_gradient b incoming kernels s outgoing =
      .ok (.ok (), o') ∧ outgoing.shape.Inside a bb 0 ∧ o'.get_item b (ix a bb 0) = .ok v ∧
    v ≠ Spec.outgoing incoming kernels s.toNat a bb 0

theorem wrong_of_ones {b : Build} {result : TensorShape} {outgoing : Tensor Int}
    {kernels : List (Tensor Int)} {s : UInt32} (ho : outgoing.WF) (hs : s.toNat ≠ 0)
    (hs31 : s.toNat < 2 ^ 31) (hK : KernelsOk outgoing.shape result s kernels)
    (hdi : outgoing.shape.di.toNat ≤ 2 ^ 31) (hdj : outgoing.shape.dj.toNat ≤ 2 ^ 31)
    (hki : ∀ k, k < kernels.length → kdi kernels k ≠ 0 ∧ kdi kernels k < 2 ^ 31)
    (hkj : ∀ k, k < kernels.length → kdj kernels k ≠ 0 ∧ kdj kernels k < 2 ^ 31) (a bb : Nat)
    (hin : outgoing.shape.Inside a bb 0)
    (hne : sum ((visited kernels s.toNat a bb result.dk.toNat).map fun (i, j, k) =>
        mul (kval kernels k (a - s.toNat * i) (bb - s.toNat * j) 0) 1) ≠
      Spec.outgoing (onesT result) kernels s.toNat a bb 0) :
    Wrong b (onesT result) kernels s outgoing := by
  cases hrun : convolution_backprop_outgoing_gradient b (onesT result) kernels s outgoing with
  | error e => exact .inl ⟨e, hrun⟩
  | ok p =>
    obtain ⟨r, o'⟩ := p
    obtain ⟨rfl, q2, q3, q4⟩ := ones_char ho hs hs31 hK hdi hdj hki hkj hrun
    refine .inr ⟨o', a, bb, _, hrun, hin, get_item_ok q2 (by rw [q3]; exact hin), ?_⟩
    rw [q4 a bb 0 hin]
    exact hne

theorem unsafe_negation (b : Build) (image kernel result : TensorShape) (s : UInt32)
    (hfi : image.Fits) (hfk : kernel.Fits) (hc : convFits image kernel s result 0)
    (hs : s ≠ 0) (hs31 : s.toNat < 2 ^ 31) (hdi : image.di.toNat ≤ 2 ^ 31)
    (hdj : image.dj.toNat ≤ 2 ^ 31) (hdk : image.dk ≠ 0) (hki : kernel.di ≠ 0)
    (hkj : kernel.dj ≠ 0) (hki31 : kernel.di.toNat < 2 ^ 31) (hkj31 : kernel.dj.toNat < 2 ^ 31)
    (hu : (result.di.toNat < kernel.di.toNat ∧ s.toNat < kernel.di.toNat) ∨
      (result.dj.toNat < kernel.dj.toNat ∧ s.toNat < kernel.dj.toNat)) :
    ∃ kernels : List (Tensor Int), KernelsOk image result s kernels ∧
      (∀ t ∈ kernels, t.shape = kernel) ∧ Wrong b (onesT result) kernels s (zeros image) := by
  have nz : ∀ x : UInt32, x ≠ 0 → 1 ≤ x.toNat := fun x h =>
    Nat.one_le_iff_ne_zero.mpr fun e => h (u32_ext e)
  have hs1 := nz _ hs
  have k1 := nz _ hki
  have k2 := nz _ hkj
  have d1 := nz _ hdk
  obtain ⟨hcd, ⟨t1, t2⟩, hch⟩ := hc
  have le1 := tiles_le t1
  have le2 := tiles_le t2
  have d2 : 1 ≤ kernel.dk.toNat := by rw [← hcd]; exact d1
  -- all kernels alike
  have mk : ∀ kt : Tensor Int, kt.WF → kt.shape = kernel → ∀ a bb, image.Inside a bb 0 →
      sum ((visited (List.replicate result.dk.toNat kt) s.toNat a bb result.dk.toNat).map
          fun (i, j, k) => mul (kval (List.replicate result.dk.toNat kt) k (a - s.toNat * i)
            (bb - s.toNat * j) 0) 1) ≠
        Spec.outgoing (onesT result) (List.replicate result.dk.toNat kt) s.toNat a bb 0 →
      ∃ kernels : List (Tensor Int), KernelsOk image result s kernels ∧
        (∀ t ∈ kernels, t.shape = kernel) ∧ Wrong b (onesT result) kernels s (zeros image) := by
    intro kt hw hsh a bb hin hne
    have hK : KernelsOk image result s (List.replicate result.dk.toNat kt) :=
      ⟨List.length_replicate, fun k h => by rw [List.getElem_replicate]; exact hw, fun k h => by
        rw [List.getElem_replicate, hsh]
        exact ⟨hcd, ⟨t1, t2⟩, by rw [List.length_replicate] at h; exact h⟩⟩
    refine ⟨_, hK, fun t ht => by rw [List.eq_of_mem_replicate ht]; exact hsh, ?_⟩
    refine wrong_of_ones (zeros_wf hfi) (by omega) hs31 hK hdi hdj ?_ ?_ a bb hin hne
    · intro k h
      unfold kdi
      rw [List.getElem?_eq_getElem h, List.getElem_replicate, Option.map_some, Option.getD_some,
        hsh]
      omega
    · intro k h
      unfold kdj
      rw [List.getElem?_eq_getElem h, List.getElem_replicate, Option.map_some, Option.getD_some,
        hsh]
      omega
  have hvis : ∀ (kt : Tensor Int), kt.shape = kernel → ∀ a bb i j k,
      (i, j, k) ∈ visited (List.replicate result.dk.toNat kt) s.toNat a bb result.dk.toNat ↔
        reaches a kernel.di.toNat s.toNat i ∧ reaches bb kernel.dj.toNat s.toNat j ∧
          k < result.dk.toNat := by
    intro kt hsh a bb i j k
    unfold visited
    rw [List.mem_flatMap]
    have e1 : ∀ k, k < result.dk.toNat →
        kdi (List.replicate result.dk.toNat kt) k = kernel.di.toNat := by
      intro k h
      unfold kdi
      rw [List.getElem?_replicate, if_pos h, Option.map_some, Option.getD_some, hsh]
    have e2 : ∀ k, k < result.dk.toNat →
        kdj (List.replicate result.dk.toNat kt) k = kernel.dj.toNat := by
      intro k h
      unfold kdj
      rw [List.getElem?_replicate, if_pos h, Option.map_some, Option.getD_some, hsh]
    constructor
    · rintro ⟨k', hk', hm⟩
      have hk'' := List.mem_range.mp hk'
      obtain ⟨m1, m2, rfl⟩ := mem_box.mp hm
      rw [e1 _ hk''] at m1
      rw [e2 _ hk''] at m2
      exact ⟨m1, m2, hk''⟩
    · rintro ⟨m1, m2, m3⟩
      refine ⟨k, List.mem_range.mpr m3, mem_box.mpr ?_⟩
      rw [e1 _ m3, e2 _ m3]
      exact ⟨m1, m2, rfl⟩
  have hkv : ∀ (kt : Tensor Int) k i j c, k < result.dk.toNat →
      kval (List.replicate result.dk.toNat kt) k i j c = val kt i j c := by
    intro kt k i j c h
    unfold kval
    rw [List.getElem?_replicate, if_pos h]
    rfl
  -- some row outside the incoming gradient is used
  by_cases hex : ∃ a bb i j, a < image.di.toNat ∧ bb < image.dj.toNat ∧
      reaches a kernel.di.toNat s.toNat i ∧ reaches bb kernel.dj.toNat s.toNat j ∧
      (result.di.toNat ≤ i ∨ result.dj.toNat ≤ j)
  · obtain ⟨a, bb, i, j, ha, hb, ri, rj, hout⟩ := hex
    obtain ⟨w1, w2⟩ := visited_kernel (by omega) ri.1 ri.2
    obtain ⟨w3, w4⟩ := visited_kernel (by omega) rj.1 rj.2
    have ins : kernel.Inside (a - s.toNat * i) (bb - s.toNat * j) 0 := ⟨w2, w4, by omega⟩
    refine mk (deltaT kernel (a - s.toNat * i) (bb - s.toNat * j)) (setE_wf (zeros_wf hfk) ..)
      rfl a bb ⟨ha, hb, d1⟩ ?_
    have hsp : Spec.outgoing (onesT result) (List.replicate result.dk.toNat
        (deltaT kernel (a - s.toNat * i) (bb - s.toNat * j))) s.toNat a bb 0 = 0 := by
      unfold Spec.outgoing
      apply sum_zero_of_forall
      intro x hx
      rw [List.mem_map] at hx
      obtain ⟨⟨i', j', k'⟩, hm, rfl⟩ := hx
      rw [List.mem_filter] at hm
      obtain ⟨m1, m2⟩ := hm
      have m1 := mem_idx3.mp m1
      obtain ⟨n1, n2, n3⟩ := m1
      change i' < result.di.toNat at n1
      change j' < result.dj.toNat at n2
      change k' < result.dk.toNat at n3
      simp only [decide_eq_true_eq] at m2 ⊢
      rw [List.getElem?_replicate, if_pos n3] at m2 ⊢
      simp only [Option.map_some, Option.getD_some] at m2 ⊢
      rw [val_deltaT hfk ins ⟨m2.2.1, m2.2.2.2, by omega⟩, if_neg]
      · exact Int.zero_mul _
      · rintro ⟨h1, h2, _⟩
        have g1 : s.toNat * i' = s.toNat * i := by omega
        have g2 : s.toNat * j' = s.toNat * j := by omega
        have g1 := Nat.eq_of_mul_eq_mul_left hs1 g1
        have g2 := Nat.eq_of_mul_eq_mul_left hs1 g2
        omega
    rw [hsp]
    have : (1 : Int) ≤ sum ((visited (List.replicate result.dk.toNat (deltaT kernel
        (a - s.toNat * i) (bb - s.toNat * j))) s.toNat a bb result.dk.toNat).map fun (i', j', k) =>
        mul (kval (List.replicate result.dk.toNat (deltaT kernel (a - s.toNat * i)
          (bb - s.toNat * j))) k (a - s.toNat * i') (bb - s.toNat * j') 0) 1) := by
      apply sum_pos_of_mem
      · intro x hx
        rw [List.mem_map] at hx
        obtain ⟨⟨i', j', k'⟩, hm, rfl⟩ := hx
        obtain ⟨m1, m2, m3⟩ := (hvis _ rfl a bb i' j' k').mp hm
        obtain ⟨_, x2⟩ := visited_kernel (by omega) m1.1 m1.2
        obtain ⟨_, x4⟩ := visited_kernel (by omega) m2.1 m2.2
        simp only
        rw [hkv _ _ _ _ _ m3, val_deltaT hfk ins ⟨x2, x4, by omega⟩]
        split <;> decide
      · rw [List.mem_map]
        refine ⟨(i, j, 0), (hvis _ rfl a bb i j 0).mpr ⟨ri, rj, hch⟩, ?_⟩
        simp only
        rw [hkv _ _ _ _ _ hch, val_deltaT hfk ins ins, if_pos ⟨rfl, rfl, rfl⟩]
        rfl
    omega
  · -- otherwise one of the loops never runs
    have hnone : ∀ i j, ¬ (reaches 0 kernel.di.toNat s.toNat i ∧
        reaches 0 kernel.dj.toNat s.toNat j) := by
      have last : ∀ {d kd n : Nat}, tiles d kd s.toNat n → n < kd → s.toNat < kd →
          d - 1 < d ∧ reaches (d - 1) kd s.toNat n := by
        intro d kd n ⟨g1, g2⟩ g3 g4
        have g5 : n * s.toNat = (n - 1) * s.toNat + s.toNat := by
          conv_lhs => rw [show n = (n - 1) + 1 by omega]
          rw [Nat.add_mul, Nat.one_mul]
        refine ⟨by omega, ?_, ?_⟩
        · unfold startN
          split
          · have : (d - 1 - kd) / s.toNat < n := by
              rw [Nat.div_lt_iff_lt_mul hs1]
              omega
            omega
          · split <;> omega
        · unfold stopN
          have : n ≤ (d - 1) / s.toNat := by
            rw [Nat.le_div_iff_mul_le hs1]
            omega
          omega
      rintro i j ⟨r1, r2⟩
      apply hex
      rcases hu with ⟨u1, u2⟩ | ⟨u1, u2⟩
      · obtain ⟨g1, g2⟩ := last t1 u1 u2
        exact ⟨_, 0, _, j, g1, by omega, g2, r2, .inl (Nat.le_refl _)⟩
      · obtain ⟨g1, g2⟩ := last t2 u1 u2
        exact ⟨0, _, i, _, by omega, g1, r1, g2, .inr (Nat.le_refl _)⟩
    refine mk (onesT kernel) (onesT_wf hfk) rfl 0 0 ⟨by omega, by omega, d1⟩ ?_
    rw [sum_zero_of_forall]
    · suffices H : 1 ≤ Spec.outgoing (onesT result) (List.replicate result.dk.toNat
          (onesT kernel)) s.toNat 0 0 0 by omega
      unfold Spec.outgoing
      apply sum_pos_of_mem
      · intro x hx
        rw [List.mem_map] at hx
        obtain ⟨⟨i', j', k'⟩, hm, rfl⟩ := hx
        rw [List.mem_filter] at hm
        obtain ⟨m1, m2⟩ := hm
        have m1 := mem_idx3.mp m1
        have n3 : k' < result.dk.toNat := m1.2.2
        simp only [decide_eq_true_eq] at m2 ⊢
        rw [List.getElem?_replicate, if_pos n3] at m2 ⊢
        simp only [Option.map_some, Option.getD_some] at m2 ⊢
        rw [val_onesT (s := kernel) ⟨m2.2.1, m2.2.2.2, by omega⟩, val_onesT (s := result) m1]
        decide
      · rw [List.mem_map]
        have n3 : 0 < result.dk.toNat := hch
        have hin0 : result.Inside 0 0 0 := ⟨t1.1, t2.1, hch⟩
        refine ⟨(0, 0, 0), ?_, ?_⟩
        · rw [List.mem_filter]
          refine ⟨mem_idx3.mpr hin0, ?_⟩
          simp only [decide_eq_true_eq]
          rw [List.getElem?_replicate, if_pos n3]
          exact ⟨by omega, by change 0 - s.toNat * 0 < kernel.di.toNat; omega, by omega,
            by change 0 - s.toNat * 0 < kernel.dj.toNat; omega⟩
        · simp only
          rw [List.getElem?_replicate, if_pos n3]
          simp only [Option.map_some, Option.getD_some]
          rw [val_onesT (s := kernel) ⟨by omega, by omega, by omega⟩, val_onesT (s := result) hin0]
          rfl
    · intro x hx
      rw [List.mem_map] at hx
      obtain ⟨⟨i', j', k'⟩, hm, rfl⟩ := hx
      obtain ⟨m1, m2, m3⟩ := (hvis _ rfl 0 0 i' j' k').mp hm
      exact absurd ⟨m1, m2⟩ (hnone i' j')

/-! ## The kernel gradient with several channels -/

theorem kernel_grad_negation (b : Build) (image grad result : TensorShape) (s c : UInt32)
    (hfi : image.Fits) (hfg : grad.Fits) (hfr : result.Fits) (hs : s ≠ 0)
    (hc : convFits image grad s result c.toNat) (h2 : 2 ≤ result.dk.toNat) (l m n : Nat)
    (hin : grad.Inside l m n) :
    ∃ (incoming img g g' : Tensor Int) (v : Int), incoming.WF ∧ incoming.shape = result ∧
      img.WF ∧ img.shape = image ∧ g.WF ∧ g.shape = grad ∧
      convolution_backprop_kernel b incoming img s c g = .ok (.ok (), g') ∧
      g'.get_item b (ix l m n) = .ok v ∧
      v ≠ Spec.kernelGrad incoming img s.toNat c.toNat l m n := by
  have hs' : s.toNat ≠ 0 := fun h => hs (u32_ext h)
  obtain ⟨hcd, ⟨t1, t2⟩, hch⟩ := hc
  obtain ⟨c', hc', hne⟩ : ∃ c', c' < result.dk.toNat ∧ c' ≠ c.toNat := by
    by_cases h : c.toNat = 0
    · exact ⟨1, h2, by omega⟩
    · exact ⟨0, by omega, fun e => h e.symm⟩
  have h0 : result.Inside 0 0 c' := ⟨t1.1, t2.1, hc'⟩
  have hw : (setE (zeros result) 0 0 c' (1 : Int)).WF := setE_wf (zeros_wf hfr) ..
  have hv : ∀ {i j k : Nat}, result.Inside i j k →
      val (setE (zeros result) 0 0 c' (1 : Int)) i j k = if 0 = i ∧ 0 = j ∧ c' = k then 1 else 0 := by
    intro i j k h
    rw [val_setE (zeros_wf hfr) h0 h, val_zeros]
    rfl
  obtain ⟨g', q1, q2, q3, q4⟩ := kernel_grad_char (b := b) (grad := (zeros grad : Tensor Int)) hw
    (onesT_wf hfi) (zeros_wf hfg) hs' (c := c) ⟨hcd, ⟨t1, t2⟩, hch⟩
  refine ⟨_, _, zeros grad, g', _, hw, rfl, onesT_wf hfi, rfl, zeros_wf hfg, rfl, q1,
    get_item_ok q2 (by rw [q3]; exact hin), ?_⟩
  rw [q4 l m n hin]
  have him : ∀ {i j : Nat}, i < result.di.toNat → j < result.dj.toNat →
      val (onesT image) (l + i * s.toNat) (m + j * s.toNat) n = 1 := by
    intro i j h1 h2
    have b1 := tiles_lt t1 h1 hin.1
    have b2 := tiles_lt t2 h2 hin.2.1
    exact val_onesT ⟨by omega, by omega, by rw [hcd]; exact hin.2.2⟩
  have hsp : Spec.kernelGrad (setE (zeros result) 0 0 c' (1 : Int)) (onesT image) s.toNat c.toNat
      l m n = 0 := by
    unfold Spec.kernelGrad
    apply sum_zero_of_forall
    intro x hx
    rw [List.mem_map] at hx
    obtain ⟨⟨i, j⟩, hm, rfl⟩ := hx
    have hm := mem_idx2.mp hm
    simp only
    rw [hv ⟨hm.1, hm.2, hch⟩, if_neg (fun h => hne h.2.2)]
    exact Int.mul_zero _
  rw [hsp]
  have : (1 : Int) ≤ sum ((idx3 result.di.toNat result.dj.toNat result.dk.toNat).map
      fun (i, j, k) => mul (val (onesT image) (l + i * s.toNat) (m + j * s.toNat) n)
        (val (setE (zeros result) 0 0 c' (1 : Int)) i j k)) := by
    apply sum_pos_of_mem
    · intro x hx
      rw [List.mem_map] at hx
      obtain ⟨⟨i, j, k⟩, hm, rfl⟩ := hx
      have hm := mem_idx3.mp hm
      simp only
      rw [hv hm, him hm.1 hm.2.1]
      split <;> decide
    · rw [List.mem_map]
      refine ⟨(0, 0, c'), mem_idx3.mpr h0, ?_⟩
      simp only
      rw [hv h0, him h0.1 h0.2.1, if_pos ⟨rfl, rfl, rfl⟩]
      rfl
  intro h
  have h' := this.trans_eq h
  exact absurd h' (by decide)

end Negation

end Rusty
