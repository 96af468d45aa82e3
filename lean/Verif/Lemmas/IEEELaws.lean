import Verif.Lemmas.IEEESum
import Verif.Lemmas.Order
import Verif.Lemmas.AnyLayer
import Verif.Lemmas.Softmax
import Verif.Spec.Pooling

/-! # Helper lemmas: `f32` satisfies the laws that other theorems assume -/

namespace Rusty

open F32Ops Spec F32

/-! ## The laws of `f32` that other theorems assume -/

/-- `>` on `f32` is as C21, C22 and C23 assume, NaN included. -/
instance ieeeOrder [Libm] : F32Order F32 where
  gt_irrefl := fun x => by
    change F32.gt x x = false
    unfold F32.gt
    simp
  gt_trans := fun x y z h1 h2 => by
    change F32.gt x y = true at h1
    change F32.gt y z = true at h2
    change F32.gt x z = true
    unfold F32.gt at *
    simp only [Bool.and_eq_true, Bool.not_eq_true', decide_eq_true_eq] at *
    exact ⟨⟨h1.1.1, h2.1.2⟩, by omega⟩
  gt_cotrans := fun x y z h1 h2 => by
    change F32.gt x y = true at h1
    change F32.feq z z = true at h2
    change F32.gt x z = true ∨ F32.gt z y = true
    unfold F32.gt F32.feq at *
    simp only [Bool.and_eq_true, Bool.not_eq_true', decide_eq_true_eq] at *
    rcases Int.lt_or_le z.key x.key with h | h
    · exact .inl ⟨⟨h1.1.1, h2.1.1⟩, h⟩
    · exact .inr ⟨⟨h2.1.1, h1.1.2⟩, by omega⟩

/-- a sum is `-0.0` only if both summands are -/
theorem add_not_negZero (x y : F32) (h : F32.add x y = mk' true 0) : x = mk' true 0 := by
  have hc : (F32.add x y).code = 0 := by rw [h]; decide
  have hsg : (F32.add x y).sign = true := by rw [h]; decide
  unfold F32.add at hc hsg
  split at hc
  · exact absurd hc (by decide)
  · next h1 =>
    rw [if_neg h1] at hsg
    split at hc
    · next h2 =>
      exfalso
      unfold isInf at h2
      simp only [decide_eq_true_eq] at h2
      split at hc
      · exact absurd hc (by decide)
      · rw [hc] at h2; exact absurd h2 (by decide)
    · next h2 =>
      rw [if_neg h2] at hsg
      split at hc
      · next h3 =>
        exfalso
        unfold isInf at h3
        simp only [decide_eq_true_eq] at h3
        rw [hc] at h3; exact absurd h3 (by decide)
      · next h3 =>
        rw [if_neg h3] at hsg
        simp only at hc hsg
        split at hc
        · next h4 =>
          rw [if_pos h4, mk'_sign (by decide), Bool.and_eq_true] at hsg
          have hx := hsg.1
          have hy := hsg.2
          unfold toInt at h4
          rw [hx, hy] at h4
          simp only [if_true] at h4
          have : units x.code = 0 := by omega
          have hcx : x.code = 0 := by
            rcases Nat.eq_zero_or_pos x.code with e | e
            · exact e
            · have := units_pos.mpr e; omega
          rw [← mk'_eta x, hx, hcx]
        · next h4 =>
          exfalso
          rw [mk'_code (roundCode_lt _ _)] at hc
          have : 1 ≤ roundCode (x.toInt + y.toInt).natAbs 1 :=
            le_roundCode_of (by decide) (by rw [show units 1 = 1 by decide]; omega) (by decide)
          omega

/-- `f32::max(x, 0.0)` is as the mode agreement theorems C27, C30, C38, C39 and C46 assume: a sum that
starts from `0.0` is never `-0.0`, so it does not matter which zero `max` prefers. -/
instance ieeeMaxZero [Libm] : MaxZero F32 where
  fmax_zero := fun x hx => by
    have hne : x ≠ mk' true 0 := by
      induction hx with
      | zero => change mk' false 0 ≠ mk' true 0; decide
      | add x y _ ih => exact fun h => ih (add_not_negZero x y h)
    change F32.fmax x (mk' false 0) = if F32.gt x (mk' false 0) then x else mk' false 0
    have hz : (mk' false 0).isNaN = false := by decide
    have hk : (mk' false 0).key = 0 := by decide
    unfold F32.fmax F32.gt
    rw [hz, hk]
    cases hx : x.isNaN
    · rcases Int.lt_trichotomy x.key 0 with c | c | c
      · have : ¬ (0 < x.key) := by omega
        simp [c, this]
      · have hc : x.code = 0 := by unfold key at c; split at c <;> omega
        have hs : x.sign = false := by
          cases hs : x.sign
          · rfl
          · exact absurd (by rw [← mk'_eta x, hs, hc]) hne
        have : x = mk' false 0 := by rw [← mk'_eta x, hs, hc]
        rw [← this]
        simp [c]
      · simp [c]
    · simp

/-! ## Layers and softmax in `f32` -/

variable [Libm]

omit [Libm] in
theorem notNaN_of_gt {x y : F32} (h : F32.gt x y = true) : x.isNaN = false := by
  unfold F32.gt at h
  simp only [Bool.and_eq_true, Bool.not_eq_true'] at h
  exact h.1.1

theorem layerAt_notNaN (l : AnyLayer F32) (hsm : ∀ s, l ≠ .sm s) (x : Tensor F32) (i j k : Nat) :
    (layerAt l x i j k).isNaN = false ∧ ((∀ p, l ≠ .mp p) → (layerAt l x i j k).sign = false) := by
  have ha : ∀ (m : NetworkRunState) (v : F32), Summed v → act m v = relu v := by
    intro m v hv
    cases m
    · exact MaxZero.fmax_zero v hv
    · rfl
  cases l with
  | conv l =>
    simp only [layerAt]
    rw [ha _ _ (summed_convPre l x i j k)]
    exact ⟨(relu_spec _).1, fun _ => (relu_spec _).2.1⟩
  | fc l =>
    simp only [layerAt]
    rw [ha _ _ (summed_preact l x i)]
    exact ⟨(relu_spec _).1, fun _ => (relu_spec _).2.1⟩
  | mp l =>
    refine ⟨?_, fun h => absurd rfl (h l)⟩
    simp only [layerAt]
    generalize window x l.mask_shape l.stride.toNat i j k = w
    unfold maxOf
    suffices H : ∀ (w : List F32) (m : F32), m.isNaN = false →
        (w.foldl (fun m e => if F32Ops.gt e m then e else m) m).isNaN = false from
      H w _ (by change (mk' true infCode).isNaN = false; decide)
    intro w
    induction w with
    | nil => exact fun m h => h
    | cons e w ih =>
      intro m h
      apply ih
      beta_reduce
      split
      · next hg => exact notNaN_of_gt hg
      · exact h
  | sm l => exact absurd rfl (hsm l)

theorem exps_indices {x : Tensor F32} (hx : x.WF) :
    x.data.map exp = x.shape.indices.map fun p => exp (val x p.1 p.2.1 p.2.2) := by
  conv_lhs => rw [data_indices hx]
  rw [List.map_map]
  rfl

theorem exps_mem {x : Tensor F32} (hx : x.WF) {i j k : Nat} (h : x.shape.Inside i j k) :
    Libm.exp (val x i j k) ∈ x.data.map exp := by
  rw [exps_indices hx, List.mem_map]
  exact ⟨(i, j, k), mem_indices.mpr h, rfl⟩

theorem exps_nonneg {x : Tensor F32} (hx : x.WF)
    (hexp : ∀ i j k, x.shape.Inside i j k →
      (Libm.exp (val x i j k)).isNaN = false ∧ (Libm.exp (val x i j k)).sign = false) :
    ∀ e ∈ x.data.map exp, e.sign = false ∧ e.isNaN = false := by
  intro e he
  rw [exps_indices hx, List.mem_map] at he
  obtain ⟨⟨a, c, d⟩, hm, rfl⟩ := he
  exact (hexp a c d (mem_indices.mp hm)).symm

theorem exps_range [ExpAccurate] {x : Tensor F32} (hx : x.WF)
    (hr : ∀ i j k, x.shape.Inside i j k → (val x i j k).isFinite = true ∧
      -87 ≤ (val x i j k).toReal ∧ (val x i j k).toReal ≤ 71) :
    ∀ e ∈ x.data.map exp, e.sign = false ∧ 0 < e.code ∧ e.code ≤ 230 * 2 ^ 23 := by
  intro e he
  rw [exps_indices hx, List.mem_map] at he
  obtain ⟨⟨a, c, d⟩, hm, rfl⟩ := he
  obtain ⟨r1, r2, r3⟩ := hr a c d (mem_indices.mp hm)
  exact exp_range r1 r2 r3

omit [Libm] in
theorem div_order {x y s : F32} (hx : x.sign = false) (hy : y.sign = false) (hs : s.sign = false)
    (fs : s.isFinite = true) (h0 : 0 < s.code) (lx : x.code ≤ s.code) (ly : y.code ≤ s.code)
    (h : F32.gt x y = false) : F32.gt (F32.div x s) (F32.div y s) = false := by
  have e : ∀ z : F32, z.sign = false → z.code ≤ s.code →
      F32.div z s = mk' false (roundCode (units z.code * 2 ^ 149) (units s.code)) := by
    intro z hz lz
    have fz : z.isFinite = true := by rw [finite_iff] at fs ⊢; omega
    unfold F32.div
    rw [finite_nan fz, finite_nan fs, finite_inf fz, finite_inf fs, hz, hs]
    simp only [Bool.or_self, Bool.false_eq_true, if_false, bne_self_eq_false]
    rw [if_neg (by omega)]
  have fx : x.isFinite = true := by rw [finite_iff] at fs ⊢; omega
  have fy : y.isFinite = true := by rw [finite_iff] at fs ⊢; omega
  have hle : x.code ≤ y.code := by
    unfold F32.gt key at h
    rw [finite_nan fx, finite_nan fy, hx, hy] at h
    simp only [Bool.not_false, Bool.and_self, Bool.false_eq_true, if_false, Bool.true_and,
      decide_eq_false_iff_not] at h
    omega
  rw [e x hx lx, e y hy ly]
  have hm : roundCode (units x.code * 2 ^ 149) (units s.code) ≤
      roundCode (units y.code * 2 ^ 149) (units s.code) :=
    roundCode_mono (units_pos.mpr h0) (units_pos.mpr h0)
      (Nat.mul_le_mul_right _ (Nat.mul_le_mul_right _ (units_le.mpr hle)))
  unfold F32.gt key
  rw [mk'_sign (roundCode_lt _ _), mk'_sign (roundCode_lt _ _), mk'_code (roundCode_lt _ _),
    mk'_code (roundCode_lt _ _)]
  simp only [Bool.false_eq_true, if_false, Bool.and_eq_false_iff, decide_eq_false_iff_not]
  right
  omega

end Rusty
