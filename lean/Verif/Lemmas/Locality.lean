import Verif.Lemmas.Geometry
import Verif.Lemmas.Tensor
import Verif.Spec.Locality
import Verif.Spec.Network

/-! # Helper lemmas: what an output entry of sliding layers depends on -/

namespace Rusty

open F32Ops Spec

variable {F : Type} [F32Ops F]

omit [F32Ops F] in
/-- the windows of a sliding layer tile its input -/
theorem sliding_tiles {l : AnyLayer F} (hok : l.Ok) (hs : Sliding l) :
    tiles l.get_input_shape.di.toNat (windowSize l).1 (stride l) l.get_output_shape.di.toNat ∧
    tiles l.get_input_shape.dj.toNat (windowSize l).2 (stride l) l.get_output_shape.dj.toNat := by
  cases l with
  | conv l =>
    have hs : l.kernels ≠ [] := hs
    have hok : l.Ok := hok
    cases hk : l.kernels with
    | nil => exact absurd hk hs
    | cons k ks =>
      have := (hok.kernels k (by rw [hk]; exact List.mem_cons_self)).2.2
      simp only [windowSize, hk, List.head?_cons, Option.map_some, Option.getD_some]
      exact this
  | mp l => exact MaxPoolLayer.Ok.tiles hok
  | fc l => exact hs.elim
  | sm l => exact hs.elim

/-- tilings compose -/
theorem tiles_comp {d w s m W S n : Nat} (h : tiles d w s m) (h' : tiles m W S n) (hW : 1 ≤ W) :
    tiles d ((W - 1) * s + w) (S * s) n := by
  obtain ⟨h1, h2⟩ := h
  obtain ⟨h3, h4⟩ := h'
  refine ⟨h3, ?_⟩
  rw [← h2, ← h4, show (n - 1) * S + W - 1 = (n - 1) * S + (W - 1) by omega, Nat.add_mul,
    ← Nat.mul_assoc]
  omega

/-- two windows of a sliding layer with the same contents give the same outputs -/
theorem sliding_at {l : AnyLayer F} (hok : l.Ok) (hs : Sliding l) {x x' : Tensor F}
    {i j i' j' k : Nat} (hk : k < l.get_output_shape.dk.toNat)
    (h : ∀ u v c, u < (windowSize l).1 → v < (windowSize l).2 → c < l.get_input_shape.dk.toNat →
      val x (i * stride l + u) (j * stride l + v) c = val x' (i' * stride l + u) (j' * stride l + v) c) :
    layerAt l x i j k = layerAt l x' i' j' k := by
  have ht := sliding_tiles hok hs
  cases l with
  | conv l =>
    have hok : l.Ok := hok
    simp only [layerAt]
    congr 1
    unfold convPre
    split
    · rename_i kernel bias hkernel hbias
      congr 1
      unfold conv
      congr 1
      refine List.map_congr_left ?_
      rintro ⟨ki, kj, kk⟩ hm
      obtain ⟨m1, m2, m3⟩ := mem_idx3.mp hm
      obtain ⟨_, e1, e2, e3⟩ := hok.kernels kernel (List.mem_of_getElem? hkernel)
      simp only
      have w1 : kernel.shape.di.toNat = (windowSize (.conv l : AnyLayer F)).1 := by
        have a := e2.2
        have a' := ht.1.2
        simp only [stride, AnyLayer.get_input_shape, AnyLayer.get_output_shape] at a'
        omega
      have w2 : kernel.shape.dj.toNat = (windowSize (.conv l : AnyLayer F)).2 := by
        have a := e3.2
        have a' := ht.2.2
        simp only [stride, AnyLayer.get_input_shape, AnyLayer.get_output_shape] at a'
        omega
      rw [w1] at m1
      rw [w2] at m2
      rw [e1] at m3
      have := h ki kj kk m1 m2 m3
      simp only [stride] at this
      rw [this]
    · rfl
  | mp l =>
    have hok : l.Ok := hok
    simp only [layerAt]
    congr 1
    unfold window
    refine List.map_congr_left ?_
    rintro ⟨ii, jj⟩ hm
    obtain ⟨m1, m2⟩ := mem_idx2.mp hm
    refine h ii jj k m1 m2 ?_
    have : k < l.output_shape.dk.toNat := hk
    rw [hok.depth] at this
    exact this
  | fc l => exact hs.elim
  | sm l => exact hs.elim

/-- the same for a list of layers -/
theorem layers_local (b : Build) (ls : List (AnyLayer F)) : (∀ l ∈ ls, l.Ok) → (∀ l ∈ ls, Sliding l) →
    ∀ (t t' : Nat → Tensor F) (i j i' j' : Nat),
    (t 0).shape = (t' 0).shape →
    (∀ u v k, u < (field ls).1 → v < (field ls).2 →
      (t 0).shape.Inside (i * jump ls + u) (j * jump ls + v) k →
      (t 0).shape.Inside (i' * jump ls + u) (j' * jump ls + v) k →
      val (t 0) (i * jump ls + u) (j * jump ls + v) k =
        val (t' 0) (i' * jump ls + u) (j' * jump ls + v) k) →
    (∀ m l, ls[m]? = some l → (t m).WF ∧ (t m).shape = l.get_input_shape ∧
      applies b l (t m) (t (m + 1))) →
    (∀ m l, ls[m]? = some l → (t' m).WF ∧ (t' m).shape = l.get_input_shape ∧
      applies b l (t' m) (t' (m + 1))) →
    ∀ k, (t ls.length).shape.Inside i j k → (t ls.length).shape.Inside i' j' k →
      val (t ls.length) i j k = val (t' ls.length) i' j' k := by
  induction ls with
  | nil =>
    intro _ _ t t' i j i' j' _ h _ _ k hin hin'
    have := h 0 0 k Nat.one_pos Nat.one_pos
    simp only [jump, Nat.mul_one, Nat.add_zero] at this
    exact this hin hin'
  | cons l ls ih =>
    intro hok hsl t t' i j i' j' hsh h hst hst' k
    have entry : ∀ {s s' : Tensor F}, applies b l s s' →
        ∀ i j k, s'.shape.Inside i j k → l.get_output_shape.Inside i j k ∧
          val s' i j k = layerAt l s i j k := by
      intro s s' h i j k hin
      have hin' : l.get_output_shape.Inside i j k := by rw [← h.2.1]; exact hin
      have := h.2.2 i j k hin'
      rw [get_item_ok h.1 hin] at this
      exact ⟨hin', by injection this⟩
    obtain ⟨_, a1, a2⟩ := hst 0 l rfl
    obtain ⟨_, b1, b2⟩ := hst' 0 l rfl
    have hl := hok l List.mem_cons_self
    have hs := hsl l List.mem_cons_self
    obtain ⟨ti, tj⟩ := sliding_tiles hl hs
    refine ih (fun m hm => hok m (List.mem_cons_of_mem _ hm))
      (fun m hm => hsl m (List.mem_cons_of_mem _ hm)) (fun m => t (m + 1)) (fun m => t' (m + 1))
      i j i' j' (a2.2.1.trans b2.2.1.symm) ?_ (fun m l' hm => hst (m + 1) l' hm)
      (fun m l' hm => hst' (m + 1) l' hm) k
    intro u v c hu hv hin hin'
    obtain ⟨in1, e1⟩ := entry a2 _ _ _ hin
    obtain ⟨in2, e2⟩ := entry b2 _ _ _ (by rw [b2.2.1, ← a2.2.1]; exact hin')
    rw [e1, e2]
    refine sliding_at hl hs in1.2.2 ?_
    intro p q d hp hq hd
    have key : ∀ a e w J : Nat, (a * J + e) * stride l + w = a * (J * stride l) + (e * stride l + w) := by
      intro a e w J
      rw [Nat.add_mul, Nat.mul_assoc, Nat.add_assoc]
    have hup : u * stride l + p < (field (l :: ls)).1 := by
      have : u * stride l ≤ ((field ls).1 - 1) * stride l := Nat.mul_le_mul_right _ (by omega)
      simp only [field]
      omega
    have hvq : v * stride l + q < (field (l :: ls)).2 := by
      have : v * stride l ≤ ((field ls).2 - 1) * stride l := Nat.mul_le_mul_right _ (by omega)
      simp only [field]
      omega
    have := h (u * stride l + p) (v * stride l + q) d hup hvq
    simp only [jump] at this
    rw [← key _ _ _ _, ← key _ _ _ _, ← key _ _ _ _, ← key _ _ _ _, a1] at this
    exact this ⟨tiles_lt ti in1.1 hp, tiles_lt tj in1.2.1 hq, hd⟩
      ⟨tiles_lt ti in2.1 hp, tiles_lt tj in2.2.1 hq, hd⟩

omit [F32Ops F] in
/-- the fields of neighbouring outputs tile the input -/
theorem layers_tiles (l : AnyLayer F) (ls : List (AnyLayer F)) : ∀ (shapes : Nat → TensorShape),
    (∀ m ∈ l :: ls, m.Ok) → (∀ m ∈ l :: ls, Sliding m) →
    (∀ m ∈ l :: ls, 1 ≤ (windowSize m).1 ∧ 1 ≤ (windowSize m).2) →
    (∀ i m, (l :: ls)[i]? = some m → shapes i = m.get_input_shape ∧ shapes (i + 1) = m.get_output_shape) →
    (tiles (shapes 0).di.toNat (field (l :: ls)).1 (jump (l :: ls)) (shapes (l :: ls).length).di.toNat ∧
      1 ≤ (field (l :: ls)).1) ∧
    (tiles (shapes 0).dj.toNat (field (l :: ls)).2 (jump (l :: ls)) (shapes (l :: ls).length).dj.toNat ∧
      1 ≤ (field (l :: ls)).2) := by
  induction ls generalizing l with
  | nil =>
    intro shapes hok hsl hw hst
    obtain ⟨ti, tj⟩ := sliding_tiles (hok l List.mem_cons_self) (hsl l List.mem_cons_self)
    obtain ⟨e1, e2⟩ := hst 0 l rfl
    simp only [field, jump, List.length_singleton, Nat.sub_self, Nat.zero_mul, Nat.zero_add, Nat.one_mul]
    rw [e1, ← Nat.zero_add 1, e2]
    exact ⟨⟨ti, (hw l List.mem_cons_self).1⟩, tj, (hw l List.mem_cons_self).2⟩
  | cons m ls ih =>
    intro shapes hok hsl hw hst
    obtain ⟨⟨i1, i2⟩, j1, j2⟩ := ih m (fun i => shapes (i + 1)) (fun m hm => hok m (List.mem_cons_of_mem _ hm))
      (fun m hm => hsl m (List.mem_cons_of_mem _ hm)) (fun m hm => hw m (List.mem_cons_of_mem _ hm))
      (fun i l' hi => hst (i + 1) l' hi)
    obtain ⟨ti, tj⟩ := sliding_tiles (hok l List.mem_cons_self) (hsl l List.mem_cons_self)
    obtain ⟨e1, e2⟩ := hst 0 l rfl
    rw [← e1, ← e2] at ti tj
    obtain ⟨w1, w2⟩ := hw l List.mem_cons_self
    refine ⟨⟨tiles_comp ti i1 i2, ?_⟩, tiles_comp tj j1 j2, ?_⟩ <;> rw [field] <;> simp only <;> omega

end Rusty
