import Verif.Lemmas.DeadClass
import Verif.Lemmas.Balance
import Verif.Lemmas.IEEELaws
import Verif.Props.Scores
import Verif.Props.Derivative

/-! # C160: classes below the ReLU

A fully connected layer clamps its scores at zero, also when it is the last one before softmax. -/

namespace Rusty

open F32Ops Spec

/-- C160: in a network that ends with a fully connected layer and softmax, two classes whose scores before the ReLU are
not positive get the same output, however far apart these scores are.  In f32 the outputs are the same to the bit. -/
theorem C160_equal {F : Type} [F32Ops F] [MaxZero F] (b : Build) (n : Net F) (hn : Built b n)
    (pre : List (AnyLayer F)) (l : FullyConnectedLayer F) (m : SoftmaxLayer F)
    (hl : n.get_layers = pre ++ [.fc l, .sm m]) (x : Tensor F) (hx : x.WF) (hxs : x.shape = n.get_input_shape) :
    ∃ n' s y, n.infer b x = .ok (.ok (), n') ∧ n'.get_intermediate_state pre.length = .ok s ∧ n'.get_output = .ok y ∧
      ∀ o o', o < l.weights.shape.di.toNat → o' < l.weights.shape.di.toNat → gt (preact l s o) zero = false →
        gt (preact l s o') zero = false → ∃ v, y.get_item b (ix o 0 0) = .ok v ∧ y.get_item b (ix o' 0 0) = .ok v := by
  obtain ⟨n', s, z, y, h1, h2, _, h3, hz, hy, ez, ey, h⟩ := classifier_states b hn hl hx hxs
  refine ⟨n', s, y, h1, h2, h3, fun o o' ho ho' d d' => ⟨val y o 0 0, ?_, ?_⟩⟩
  · exact get_item_ok hy (by rw [ey, ez]; exact ⟨ho, Nat.one_pos, Nat.one_pos⟩)
  · rw [get_item_ok hy (by rw [ey, ez]; exact ⟨ho', Nat.one_pos, Nat.one_pos⟩), (h o ho).2, (h o' ho').2]
    unfold softmaxAt
    rw [(h o ho).1, (h o' ho').1, act_unlit _ (preact_summed l s o) d, act_unlit _ (preact_summed l s o') d']

open F32 in
/-- the statement for f32 -/
example [Libm] (b : Build) (n : Net F32) (hn : Built b n) (pre : List (AnyLayer F32)) (l : FullyConnectedLayer F32)
    (m : SoftmaxLayer F32) (hl : n.get_layers = pre ++ [.fc l, .sm m]) (x : Tensor F32) (hx : x.WF)
    (hxs : x.shape = n.get_input_shape) := C160_equal b n hn pre l m hl x hx hxs

open Exact

/-- C160, exact arithmetic: no class is less likely than one whose score before the ReLU is not positive, and a class is as
unlikely as that only if its own score is not positive either.  So such a network can make a class less likely than
1 in N only by raising another class; if no score is positive, all N classes are equally likely. -/
theorem C160_lowest (b : Build) (n : Net ℝ) (hn : Built b n) (pre : List (AnyLayer ℝ))
    (l : FullyConnectedLayer ℝ) (m : SoftmaxLayer ℝ) (hl : n.get_layers = pre ++ [.fc l, .sm m]) (x : Tensor ℝ)
    (hx : x.WF) (hxs : x.shape = n.get_input_shape) :
    ∃ n' s y, n.infer b x = .ok (.ok (), n') ∧ n'.get_intermediate_state pre.length = .ok s ∧ n'.get_output = .ok y ∧
      (∀ o, o < l.weights.shape.di.toNat → preact l s o ≤ 0 → val y o 0 0 ≤ 1 / l.weights.shape.di.toNat ∧
        ∀ i, i < l.weights.shape.di.toNat → val y o 0 0 ≤ val y i 0 0 ∧
          (val y i 0 0 = val y o 0 0 ↔ preact l s i ≤ 0)) ∧
      ((∀ o, o < l.weights.shape.di.toNat → preact l s o ≤ 0) →
        ∀ o, o < l.weights.shape.di.toNat → val y o 0 0 = 1 / l.weights.shape.di.toNat) := by
  obtain ⟨n', s, z, y, h1, h2, _, h3, hz, hy, ez, ey, h⟩ := classifier_states b hn hl hx hxs
  have hv : ∀ o, o < l.weights.shape.di.toNat → val y o 0 0 = Real.exp (max (preact l s o) 0) /
      ∑ i ∈ Finset.range l.weights.shape.di.toNat, Real.exp (max (preact l s i) 0) := fun o ho => by
    rw [(h o ho).2]
    unfold softmaxAt
    rw [sum_indices_real, ez]
    change Real.exp (val z o 0 0) / total ⟨l.weights.shape.di, 1, 1⟩ (fun i j k => Real.exp (val z i j k)) = _
    rw [total_column rfl rfl, (h o ho).1, act_real]
    refine congrArg (Real.exp _ / ·) (Finset.sum_congr rfl fun i hi => ?_)
    rw [(h i (Finset.mem_range.mp hi)).1, act_real]
  have hone : ∀ i, (1 : ℝ) ≤ Real.exp (max (preact l s i) 0) := fun i => Real.one_le_exp (le_max_right _ _)
  have hT : ∀ o, o < l.weights.shape.di.toNat → (0 : ℝ) < l.weights.shape.di.toNat ∧
      (l.weights.shape.di.toNat : ℝ) ≤
        ∑ i ∈ Finset.range l.weights.shape.di.toNat, Real.exp (max (preact l s i) 0) := fun o ho => by
    refine ⟨by exact_mod_cast Nat.zero_lt_of_lt ho, ?_⟩
    have := Finset.sum_le_sum fun i (_ : i ∈ Finset.range l.weights.shape.di.toNat) => hone i
    rw [Finset.sum_const, Finset.card_range, nsmul_eq_mul, mul_one] at this
    exact this
  refine ⟨n', s, y, h1, h2, h3, fun o ho d => ?_, fun d o ho => ?_⟩
  · obtain ⟨t1, t2⟩ := hT o ho
    have t3 := t1.trans_le t2
    have eo : val y o 0 0 = 1 /
        ∑ i ∈ Finset.range l.weights.shape.di.toNat, Real.exp (max (preact l s i) 0) := by
      rw [hv o ho, max_eq_right d, Real.exp_zero]
    refine ⟨by rw [eo]; exact one_div_le_one_div_of_le t1 t2, fun i hi => ⟨?_, ?_⟩⟩
    · rw [eo, hv i hi]
      exact div_le_div_of_nonneg_right (hone i) t3.le
    · rw [eo, hv i hi, div_left_inj' t3.ne', Real.exp_eq_one_iff, max_eq_right_iff]
  · rw [hv o ho, max_eq_right (d o ho), Real.exp_zero,
      Finset.sum_congr rfl fun i hi => by rw [max_eq_right (d i (Finset.mem_range.mp hi)), Real.exp_zero],
      Finset.sum_const, Finset.card_range, nsmul_eq_mul, mul_one]

/-! ## Non-vacuity -/

/-- a network of a fully connected layer with the scores 1 and -1 for the input zero, and softmax -/
example (b : Build) : ∃ n : Net ℝ, Built b n ∧ n.get_layers = [] ++ [.fc exFCR, .sm exSMR2] ∧
    ∀ s : Tensor ℝ, s = zeros ⟨3, 1, 1⟩ → 0 < preact exFCR s 0 ∧ preact exFCR s 1 ≤ 0 := by
  have h : ∃ n1 : Net ℝ, (Network.new .Training : Net ℝ).add_layer b (.fc exFCR) = .ok (.ok (), n1) ∧
      ∃ n : Net ℝ, n1.add_layer b (.sm exSMR2) = .ok (.ok (), n) ∧ n.get_layers = [.fc exFCR, .sm exSMR2] := by
    cases b <;> exact ⟨_, rfl, _, rfl, rfl⟩
  obtain ⟨n1, a1, n, a2, a3⟩ := h
  refine ⟨n, .add_layer _ (.sm exSMR2) _ _ (.add_layer _ (.fc exFCR) _ _ (.new _) exFCR_ok a1) exSMR2_ok a2, a3, ?_⟩
  rintro s rfl
  constructor
  · change (0 : ℝ) < (((0 + 0 * 0) + 0 * 0) + 0 * 0) + 1
    norm_num
  · change (((0 + 0 * 0) + 0 * 0) + 0 * 0) + -1 ≤ (0 : ℝ)
    norm_num

end Rusty
