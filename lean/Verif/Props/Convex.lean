import Verif.Lemmas.Convex
import Verif.Props.Monotone
import Verif.Props.NetworkRounding

/-! # C116: networks without negative weights behind the first layer are convex -/

namespace Rusty

open F32Ops Spec F32

variable [Libm]

/-- C116, exact arithmetic: on the way from one input to another no output is above the straight line between its
values at the ends. -/
theorem C116_exact (b : Build) (n : Net F32) (hn : Built b n) (hne : n.get_layers ≠ [])
    (hc : ConvexLayers n.get_layers) (x : Tensor F32) (hx : x.WF) (hxs : x.shape = n.get_input_shape)
    (ξ η : Nat → Nat → Nat → ℝ) (a : ℝ) (h0 : 0 ≤ a) (h1 : a ≤ 1) (i j k : Nat)
    (hin : n.get_output_shape.Inside i j k) :
    exactNet n.get_layers (between a ξ η) i j k ≤
      a * exactNet n.get_layers ξ i j k + (1 - a) * exactNet n.get_layers η i j k := by
  have hok := built_netOk hn
  obtain ⟨n', t, _, _, _, _, r5, r6⟩ := run_states b hn hne hx hxs
  revert r5 r6 hc
  have hlok := hok.layers
  change ∀ l ∈ n.get_layers, l.Ok at hlok
  revert hlok hne
  generalize n.get_layers = ls
  intro hne hlok hc r5 r6
  cases ls with
  | nil => exact absurd rfl hne
  | cons l ls =>
    obtain ⟨_, _, ha⟩ := r6 0 l rfl
    refine layers_convex b h0 h1 (fun m hm => hlok m (List.mem_cons_of_mem _ hm)) hc.2
      (fun i => t (i + 1)) (x := exactLayer l ξ) (y := exactLayer l η) ?_
      (fun i m hi => (r6 (i + 1) m hi).2) (by rw [← r5] at hin; exact hin)
    intro i j k h
    exact layer_convex (hlok l (List.mem_cons_self ..)) h0 h1 (.inr ⟨hc.1, fun _ _ _ _ => rfl⟩)
      (by rw [← ha.2.1]; exact h)

/-- C116, `f32`: if `z` is the point between `x` and `y` up to `e`, then no output of `infer` for `z` is above the
straight line between the outputs for `x` and `y` by more than twice the rounding error bound `e'`. -/
theorem C116_infer (b : Build) (n : Net F32) (hn : Built b n) (hne : n.get_layers ≠ [])
    (hc : ConvexLayers n.get_layers) (x y z : Tensor F32) (hx : x.WF)
    (hxs : x.shape = n.get_input_shape) (hy : y.WF) (hys : y.shape = n.get_input_shape) (hz : z.WF)
    (hzs : z.shape = n.get_input_shape) (M e M' e' a : ℝ) (hM : 0 ≤ M) (he : 0 ≤ e) (h0 : 0 ≤ a)
    (h1 : a ≤ 1) (hxM : Within x M) (hyM : Within y M)
    (hze : ∀ i j k, n.get_input_shape.Inside i j k → (val z i j k).isFinite = true ∧
      |(val z i j k).toReal - (a * (val x i j k).toReal + (1 - a) * (val y i j k).toReal)| ≤ e)
    (hA : Accuracy n.get_layers M e M' e') :
    ∃ n1 u n2 v n3 w, n.infer b x = .ok (.ok (), n1) ∧ n1.get_output = .ok u ∧
      n.infer b y = .ok (.ok (), n2) ∧ n2.get_output = .ok v ∧
      n.infer b z = .ok (.ok (), n3) ∧ n3.get_output = .ok w ∧
      ∀ i j k, n.get_output_shape.Inside i j k → ∃ p q r, u.get_item b (ix i j k) = .ok p ∧
        v.get_item b (ix i j k) = .ok q ∧ w.get_item b (ix i j k) = .ok r ∧ p.isFinite = true ∧
        q.isFinite = true ∧ r.isFinite = true ∧
        r.toReal ≤ a * p.toReal + (1 - a) * q.toReal + 2 * e' := by
  have near : ∀ {x : Tensor F32}, Within x M → Near x (fun i j k => (val x i j k).toReal) M e :=
    fun h i j k hin => ⟨(h i j k hin).1, by simpa using he, (h i j k hin).2⟩
  have a1 : 0 ≤ 1 - a := by linarith
  obtain ⟨n1, u, c1, c2, c3, c4⟩ := C74_infer b n hn hne x hx hxs _ M e M' e' hM he (near hxM) hA
  obtain ⟨n2, v, d1, d2, d3, d4⟩ := C74_infer b n hn hne y hy hys _ M e M' e' hM he (near hyM) hA
  obtain ⟨n3, w, f1, f2, f3, f4⟩ := C74_infer b n hn hne z hz hzs
    (between a (fun i j k => (val x i j k).toReal) fun i j k => (val y i j k).toReal) M e M' e' hM he
    (by
      intro i j k hin
      rw [hzs] at hin
      refine ⟨(hze i j k hin).1, (hze i j k hin).2, ?_⟩
      have hx1 := abs_le.mp (hxM i j k (hxs ▸ hin)).2
      have hy1 := abs_le.mp (hyM i j k (hys ▸ hin)).2
      unfold between
      rw [abs_le]
      have := mul_le_mul_of_nonneg_left hx1.1 h0
      have := mul_le_mul_of_nonneg_left hx1.2 h0
      have := mul_le_mul_of_nonneg_left hy1.1 a1
      have := mul_le_mul_of_nonneg_left hy1.2 a1
      constructor <;> linarith) hA
  refine ⟨n1, u, n2, v, n3, w, c1, c2, d1, d2, f1, f2, fun i j k hin => ?_⟩
  obtain ⟨p, p1, p2, p3, _⟩ := c4 i j k (c3 ▸ hin)
  obtain ⟨q, q1, q2, q3, _⟩ := d4 i j k (d3 ▸ hin)
  obtain ⟨r, r1, r2, r3, _⟩ := f4 i j k (f3 ▸ hin)
  refine ⟨p, q, r, p1, q1, r1, p2, q2, r2, ?_⟩
  have hcv := C116_exact b n hn hne hc x hx hxs (fun i j k => (val x i j k).toReal)
    (fun i j k => (val y i j k).toReal) a h0 h1 i j k hin
  have hp := mul_le_mul_of_nonneg_left (abs_le.mp p3).1 h0
  have hq := mul_le_mul_of_nonneg_left (abs_le.mp q3).1 a1
  have hr := (abs_le.mp r3).2
  linarith

/-- The assumptions of C116 can be met: a convolution and max pooling with the inputs 1, 0 and 1/2 between them. -/
example : ∃ (n : Net F32) (M' e' : ℝ), Built .debug n ∧ n.get_layers ≠ [] ∧
    ConvexLayers n.get_layers ∧ n.get_input_shape = ⟨1, 1, 1⟩ ∧ Accuracy n.get_layers 1 0 M' e' ∧
    Within (single ⟨0x3f800000⟩) 1 ∧ Within (single ⟨0⟩) 1 ∧
    ∀ i j k, n.get_input_shape.Inside i j k → (val (single ⟨0x3f000000⟩) i j k).isFinite = true ∧
      |(val (single ⟨0x3f000000⟩) i j k).toReal - (1 / 2 * (val (single ⟨0x3f800000⟩) i j k).toReal +
        (1 - 1 / 2) * (val (single ⟨0⟩) i j k).toReal)| ≤ 0 := by
  have v (c : F32) : val (single c) 0 0 0 = c := rfl
  have e0 : (⟨0x3f800000⟩ : F32).toReal = 1 := by
    unfold toReal
    rw [show (⟨0x3f800000⟩ : F32).toInt = 2 ^ 149 by decide]
    norm_num
  have e1 : (⟨0⟩ : F32).toReal = 0 := by
    unfold toReal
    rw [show (⟨0⟩ : F32).toInt = 0 by decide]
    norm_num
  have e2 : (⟨0x3f000000⟩ : F32).toReal = 1 / 2 := by
    unfold toReal
    rw [show (⟨0x3f000000⟩ : F32).toInt = 2 ^ 148 by decide]
    norm_num
  obtain ⟨n, h1, h2, h3, _, M', e', h4, _, _⟩ := ex_order
  have one : ∀ {P : Nat → Nat → Nat → Prop}, P 0 0 0 → ∀ i j k,
      (⟨1, 1, 1⟩ : TensorShape).Inside i j k → P i j k := by
    rintro P h i j k ⟨i1, i2, i3⟩
    obtain rfl : i = 0 := Nat.lt_one_iff.mp i1
    obtain rfl : j = 0 := Nat.lt_one_iff.mp i2
    obtain rfl : k = 0 := Nat.lt_one_iff.mp i3
    exact h
  refine ⟨n, M', e', h1, by rw [h2]; simp, ?_, h3, h4, one ?_, one ?_, ?_⟩
  · rw [h2]
    refine ⟨trivial, fun m hm => ?_⟩
    obtain rfl := List.mem_singleton.mp hm
    trivial
  · rw [v, e0]
    exact ⟨by decide, by norm_num⟩
  · rw [v, e1]
    exact ⟨by decide, by norm_num⟩
  · rw [h3]
    refine one ?_
    rw [v, v, v, e0, e1, e2]
    exact ⟨by decide, by norm_num⟩

end Rusty
