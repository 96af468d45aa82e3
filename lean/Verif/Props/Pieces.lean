import Verif.Lemmas.Pieces
import Verif.Props.Monotone
import Verif.Props.Merge

/-! # C120: networks are affine between inputs that take the same branches -/

namespace Rusty

open F32Ops Spec F32

variable [Libm]

/-- C120, exact arithmetic: between two inputs that activate the same units and have their maxima at the same places
every output is on the straight line between its values at the ends. -/
theorem C120_exact (b : Build) (n : Net F32) (hn : Built b n) (hne : n.get_layers ≠ [])
    (x : Tensor F32) (hx : x.WF) (hxs : x.shape = n.get_input_shape)
    (ξ η : Nat → Nat → Nat → ℝ) (hb : SameBranches n.get_layers ξ η) (a : ℝ) (h0 : 0 ≤ a) (h1 : a ≤ 1)
    (i j k : Nat) (hin : n.get_output_shape.Inside i j k) :
    exactNet n.get_layers (between a ξ η) i j k =
      a * exactNet n.get_layers ξ i j k + (1 - a) * exactNet n.get_layers η i j k := by
  obtain ⟨n', t, _, _, _, _, r5, r6⟩ := run_states b hn hne hx hxs
  exact layers_affine b h0 h1 (built_netOk hn).layers t hb (fun _ _ _ _ => rfl)
    (fun i m hi => (r6 i m hi).2) (by rw [← r5] at hin; exact hin)

/-- C120, `f32`: if `z` is the point between `x` and `y` up to `e`, then the outputs of `infer` for `z` differ from
the straight line between the outputs for `x` and `y` by at most twice the rounding error bound `e'`. -/
theorem C120_infer (b : Build) (n : Net F32) (hn : Built b n) (hne : n.get_layers ≠ [])
    (x y z : Tensor F32) (hx : x.WF)
    (hxs : x.shape = n.get_input_shape) (hy : y.WF) (hys : y.shape = n.get_input_shape) (hz : z.WF)
    (hzs : z.shape = n.get_input_shape)
    (hb : SameBranches n.get_layers (fun i j k => (val x i j k).toReal) fun i j k => (val y i j k).toReal)
    (M e M' e' a : ℝ) (hM : 0 ≤ M) (he : 0 ≤ e) (h0 : 0 ≤ a)
    (h1 : a ≤ 1) (hxM : Within x M) (hyM : Within y M)
    (hze : ∀ i j k, n.get_input_shape.Inside i j k → (val z i j k).isFinite = true ∧
      |(val z i j k).toReal - (a * (val x i j k).toReal + (1 - a) * (val y i j k).toReal)| ≤ e)
    (hA : Accuracy n.get_layers M e M' e') :
    ∃ n1 u n2 v n3 w, n.infer b x = .ok (.ok (), n1) ∧ n1.get_output = .ok u ∧
      n.infer b y = .ok (.ok (), n2) ∧ n2.get_output = .ok v ∧
      n.infer b z = .ok (.ok (), n3) ∧ n3.get_output = .ok w ∧
      ∀ i j k, n.get_output_shape.Inside i j k → ∃ p q r, u.get_item b (ix i j k) = .ok p ∧
        v.get_item b (ix i j k) = .ok q ∧ w.get_item b (ix i j k) = .ok r ∧ p.isFinite = true ∧
        q.isFinite = true ∧ r.isFinite = true ∧
        |r.toReal - (a * p.toReal + (1 - a) * q.toReal)| ≤ 2 * e' := by
  have near : ∀ {x : Tensor F32}, Within x M → Near x (fun i j k => (val x i j k).toReal) M e :=
    fun h i j k hin => ⟨(h i j k hin).1, by simpa using he, (h i j k hin).2⟩
  have a1 : 0 ≤ 1 - a := by linarith
  obtain ⟨n1, u, c1, c2, c3, c4⟩ := C74_infer b n hn hne x hx hxs _ M e M' e' hM he (near hxM) hA
  obtain ⟨n2, v, d1, d2, d3, d4⟩ := C74_infer b n hn hne y hy hys _ M e M' e' hM he (near hyM) hA
  obtain ⟨n3, w, f1, f2, f3, f4⟩ := C74_infer b n hn hne z hz hzs
    (between a (fun i j k => (val x i j k).toReal) fun i j k => (val y i j k).toReal) M e M' e' hM he
    (by
      intro i j k hin
      rw [hzs] at hin
      refine ⟨(hze i j k hin).1, (hze i j k hin).2, ?_⟩
      have hx1 := abs_le.mp (hxM i j k (hxs ▸ hin)).2
      have hy1 := abs_le.mp (hyM i j k (hys ▸ hin)).2
      unfold between
      rw [abs_le]
      have := mul_le_mul_of_nonneg_left hx1.1 h0
      have := mul_le_mul_of_nonneg_left hx1.2 h0
      have := mul_le_mul_of_nonneg_left hy1.1 a1
      have := mul_le_mul_of_nonneg_left hy1.2 a1
      constructor <;> linarith) hA
  refine ⟨n1, u, n2, v, n3, w, c1, c2, d1, d2, f1, f2, fun i j k hin => ?_⟩
  obtain ⟨p, p1, p2, p3, _⟩ := c4 i j k (c3 ▸ hin)
  obtain ⟨q, q1, q2, q3, _⟩ := d4 i j k (d3 ▸ hin)
  obtain ⟨r, r1, r2, r3, _⟩ := f4 i j k (f3 ▸ hin)
  refine ⟨p, q, r, p1, q1, r1, p2, q2, r2, ?_⟩
  have hcv := C120_exact b n hn hne x hx hxs (fun i j k => (val x i j k).toReal)
    (fun i j k => (val y i j k).toReal) hb a h0 h1 i j k hin
  have p3 := abs_le.mp p3
  have q3 := abs_le.mp q3
  have r3 := abs_le.mp r3
  have := mul_le_mul_of_nonneg_left p3.1 h0
  have := mul_le_mul_of_nonneg_left q3.1 a1
  have := mul_le_mul_of_nonneg_left p3.2 h0
  have := mul_le_mul_of_nonneg_left q3.2 a1
  rw [abs_le]
  constructor <;> linarith

/-- The assumptions of C120 can be met: two units that are active for the inputs 1 and 1/2. -/
example : ∃ (n : Net F32) (M' e' : ℝ), Built .debug n ∧ n.get_layers ≠ [] ∧
    n.get_input_shape = ⟨1, 1, 1⟩ ∧ Accuracy n.get_layers 1 0 M' e' ∧
    Within (single ⟨0x3f800000⟩) 1 ∧ Within (single ⟨0x3f000000⟩) 1 ∧
    SameBranches n.get_layers (fun i j k => (val (single ⟨0x3f800000⟩) i j k).toReal)
      fun i j k => (val (single ⟨0x3f000000⟩) i j k).toReal := by
  have v (c : F32) : val (single c) 0 0 0 = c := rfl
  have e1 : (⟨0x3f800000⟩ : F32).toReal = 1 := by
    unfold toReal
    rw [show (⟨0x3f800000⟩ : F32).toInt = 2 ^ 149 by decide]
    norm_num
  have e0 : (⟨0⟩ : F32).toReal = 0 := by
    unfold toReal
    rw [show (⟨0⟩ : F32).toInt = 0 by decide]
    norm_num
  have e2 : (⟨0x3f000000⟩ : F32).toReal = 1 / 2 := by
    unfold toReal
    rw [show (⟨0x3f000000⟩ : F32).toInt = 2 ^ 148 by decide]
    norm_num
  have e3 : (⟨0x40000000⟩ : F32).toReal = 2 := by
    unfold toReal
    rw [show (⟨0x40000000⟩ : F32).toInt = 2 ^ 150 by decide]
    norm_num
  obtain ⟨n, h1, h2, h3⟩ := exUpDown_built .debug ⟨0x3f800000⟩ ⟨0x3f800000⟩ ⟨0x40000000⟩ ⟨0x3f800000⟩
  obtain ⟨M', e', hA⟩ := exUpDown_accuracy
  have one : ∀ {P : Nat → Nat → Nat → Prop}, P 0 0 0 → ∀ i j k,
      (⟨1, 1, 1⟩ : TensorShape).Inside i j k → P i j k := by
    rintro P h i j k ⟨i1, i2, i3⟩
    obtain rfl : i = 0 := Nat.lt_one_iff.mp i1
    obtain rfl : j = 0 := Nat.lt_one_iff.mp i2
    obtain rfl : k = 0 := Nat.lt_one_iff.mp i3
    exact h
  have up : ∀ o, o < 2 → ∀ u : Nat → Nat → Nat → ℝ,
      exactLayer (.fc (exUp ⟨0x3f800000⟩ ⟨0x3f800000⟩)) u o 0 0 = max 0 (u 0 0 0) := by
    intro o ho u
    obtain rfl | rfl : o = 0 ∨ o = 1 := by omega
    all_goals
      change max 0 (([(⟨0x3f800000⟩ : F32).toReal * u 0 0 0] : List ℝ).sum + (⟨0⟩ : F32).toReal) = _
      rw [e1, e0]
      simp
  refine ⟨n, M', e', h1, by rw [h2]; simp, h3, by rw [h2]; exact hA, one ?_, one ?_, ?_⟩
  · rw [v, e1]
    exact ⟨by decide, by norm_num⟩
  · rw [v, e2]
    exact ⟨by decide, by norm_num⟩
  · rw [h2]
    refine ⟨?_, ?_, trivial⟩
    · rintro o j k ⟨(ho : o < 2), hj, hk⟩
      obtain rfl : j = 0 := Nat.lt_one_iff.mp hj
      obtain rfl : k = 0 := Nat.lt_one_iff.mp hk
      rw [up o ho, up o ho, v, v, e1, e2]
      norm_num
    · rintro o j k ⟨(ho : o < 1), hj, hk⟩
      obtain rfl : o = 0 := by omega
      have dn : ∀ u : Nat → Nat → Nat → ℝ,
          exactLayer (.fc (exDown ⟨0x40000000⟩ ⟨0x3f800000⟩)) u 0 j k =
            max 0 (([(⟨0x40000000⟩ : F32).toReal * u 0 0 0, (⟨0x3f800000⟩ : F32).toReal * u 1 0 0] : List ℝ).sum +
              (⟨0⟩ : F32).toReal) := fun _ => rfl
      rw [dn, dn, up 0 (by omega), up 1 (by omega), up 0 (by omega), up 1 (by omega), v, v, e1, e2, e3,
        e0]
      norm_num

end Rusty
