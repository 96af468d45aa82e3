import Verif.Lemmas.IEEEGate
import Verif.Props.Rounding

/-! # C72: accuracy of the gradients of fully connected layers in `f32` -/

namespace Rusty

open F32Ops Spec F32

variable [Libm]

/-- the part of the gradient `g` that passes the relu of output `o`: all of it where the output of the
layer is positive, nothing elsewhere -/
noncomputable def passed (y g : Tensor F32) (o : Nat) : ℝ :=
  if F32.gt (val y o 0 0) zero then (val g o 0 0).toReal else 0

/-- `masked` is computed without rounding -/
theorem masked_exact {l : FullyConnectedLayer F32} {r : Round F32} {y : Tensor F32} {o : Nat}
    (hy : val y o 0 0 = relu (preact l r.x o)) (hg : (val r.g o 0 0).isFinite = true) :
    (masked l r o).isFinite = true ∧ (masked l r o).toReal = passed y r.g o := by
  unfold masked passed
  rw [hy, gt_relu]
  exact gate_toReal _ hg

/-- C72, one round of `forward(x)` and `backward(g)`: with `m` the outputs that are positive, the
outgoing gradient is `W^T(m.g)`, and the stored gradients grow by `m.g` and `(m.g)x^T`, up to rounding
errors of the stated size, and nothing overflows. -/
theorem C72_round (b : Build) (l : FullyConnectedLayer F32) (hl : l.Ok)
    (hm : l.run_state = .Training) (r : Round F32) (hr : r.FitsFC l)
    (hn : l.weights.shape.di.toNat < 2 ^ 22)
    (hg : ∀ o, o < l.weights.shape.di.toNat → (val r.g o 0 0).isFinite = true) :
    ∃ l1 y l2 og, l.forward b r.x r.out = .ok (.ok (), l1, y) ∧
      l1.backward b r.x y r.g r.og = .ok (.ok (), l2, og) ∧
      (∀ i, i < l.weights.shape.dj.toNat →
        (∀ o, o < l.weights.shape.di.toNat → (val l.weights o i 0).isFinite = true) →
        ((List.range l.weights.shape.di.toNat).map fun o =>
          |(val l.weights o i 0).toReal * passed y r.g o|).sum ≤ 2 ^ 125 →
        ∃ v, og.get_item b (ix i 0 0) = .ok v ∧ v.isFinite = true ∧
          |v.toReal - ((List.range l.weights.shape.di.toNat).map fun o =>
              (val l.weights o i 0).toReal * passed y r.g o).sum| ≤
            (l.weights.shape.di.toNat + 1) / 2 ^ 23 *
              ((List.range l.weights.shape.di.toNat).map fun o =>
                |(val l.weights o i 0).toReal * passed y r.g o|).sum +
            l.weights.shape.di.toNat / 2 ^ 149) ∧
      (∀ o, o < l.weights.shape.di.toNat → (val l.bias_gradients o 0 0).isFinite = true →
        |(val l.bias_gradients o 0 0).toReal + passed y r.g o| ≤ 2 ^ 127 →
        ∃ v, l2.bias_gradients.get_item b (ix o 0 0) = .ok v ∧ v.isFinite = true ∧
          |v.toReal - ((val l.bias_gradients o 0 0).toReal + passed y r.g o)| ≤
            |(val l.bias_gradients o 0 0).toReal + passed y r.g o| / 2 ^ 24) ∧
      (∀ o i, o < l.weights.shape.di.toNat → i < l.weights.shape.dj.toNat →
        (val l.weights_gradients o i 0).isFinite = true → (val r.x i 0 0).isFinite = true →
        |(val l.weights_gradients o i 0).toReal| + |passed y r.g o * (val r.x i 0 0).toReal| ≤
          2 ^ 125 →
        ∃ v, l2.weights_gradients.get_item b (ix o i 0) = .ok v ∧ v.isFinite = true ∧
          |v.toReal - ((val l.weights_gradients o i 0).toReal +
              passed y r.g o * (val r.x i 0 0).toReal)| ≤
            |(val l.weights_gradients o i 0).toReal| / 2 ^ 24 +
              |passed y r.g o * (val r.x i 0 0).toReal| / 2 ^ 21 + 1 / 2 ^ 148) := by
  obtain ⟨l1, y, l2, og, q1, q2, _, _, _, _, q7, q8⟩ := C28_round b l hl hm r hr
  obtain ⟨mask, y', p1, p2, p3, p4⟩ :=
    C27_forward_training b l hl hm r.x r.out hr.x.1 hr.x.2 hr.out.1 hr.out.2
  obtain rfl : y = y' := by
    rw [q1] at p1
    injection p1 with p1
    injection p1 with _ p1
    injection p1
  have hy : ∀ o, o < l.weights.shape.di.toNat → val y o 0 0 = relu (preact l r.x o) := by
    intro o h
    have := (p4 o h).1
    rw [get_item_ok p2 (by
      rw [p3]; unfold FullyConnectedLayer.get_output_shape; rw [hl.rows]; exact col_inside h)] at this
    injection this
  have hmask : ∀ o, o < l.weights.shape.di.toNat → (masked l r o).isFinite = true ∧
      (masked l r o).toReal = passed y r.g o := fun o h => masked_exact (hy o h) (hg o h)
  refine ⟨l1, y, l2, og, q1, q2, fun i hi hw hA => ⟨_, q7 i hi, ?_⟩,
    fun o ho hb hA => ⟨_, (q8 o ho).1, ?_⟩, fun o i ho hi hw hx hA => ⟨_, (q8 o ho).2 i hi, ?_⟩⟩
  · have e1 : ((List.range l.weights.shape.di.toNat).map fun o =>
        |(val l.weights o i 0).toReal * (masked l r o).toReal|) =
        (List.range l.weights.shape.di.toNat).map fun o =>
          |(val l.weights o i 0).toReal * passed y r.g o| := by
      apply List.map_congr_left
      intro o ho
      rw [(hmask o (List.mem_range.mp ho)).2]
    have e2 : ((List.range l.weights.shape.di.toNat).map fun o =>
        (val l.weights o i 0).toReal * (masked l r o).toReal) =
        (List.range l.weights.shape.di.toNat).map fun o =>
          (val l.weights o i 0).toReal * passed y r.g o := by
      apply List.map_congr_left
      intro o ho
      rw [(hmask o (List.mem_range.mp ho)).2]
    have hfin := dot_finite (List.range l.weights.shape.di.toNat) (fun o => val l.weights o i 0)
      (fun o => masked l r o) (by rwa [List.length_range])
      (fun o ho => ⟨hw o (List.mem_range.mp ho), (hmask o (List.mem_range.mp ho)).1⟩)
      (by rw [e1]; exact hA)
    refine ⟨hfin, ?_⟩
    have he := (dot_error _ _ _ hfin).2
    rw [e1, e2, List.length_range] at he
    exact he.trans (errBound_le (by omega)
      ((abs_nonneg _).trans (abs_sum_le _ fun o => (val l.weights o i 0).toReal * passed y r.g o)))
  · obtain ⟨m1, m2⟩ := hmask o ho
    rw [← m2] at hA ⊢
    have hfin := add_finite hb m1 hA
    exact ⟨hfin, add_error hfin⟩
  · obtain ⟨m1, m2⟩ := hmask o ho
    rw [← m2] at hA ⊢
    exact acc_error hw m1 hx hA

/-- C72, many rounds: starting from cleared gradients, after any number of rounds the bias gradient is
the sum of the `m.g` of the rounds, up to a relative error of `(1+2^-24)^n - 1` of the sum of absolute
values, if it did not overflow. -/
theorem C72_accumulate (b : Build) (l : FullyConnectedLayer F32) (hl : l.Ok)
    (hm : l.run_state = .Training) (rounds : List (Round F32)) (hr : ∀ r ∈ rounds, r.FitsFC l) :
    ∃ l', FCRun b l.clear_gradients rounds l' ∧
      ∀ o, o < l.weights.shape.di.toNat →
        (∀ r ∈ rounds, (val r.g o 0 0).isFinite = true) →
        ∃ v, l'.bias_gradients.get_item b (ix o 0 0) = .ok v ∧ (v.isFinite = true →
          |v.toReal - (rounds.map fun r => if F32.gt (preact l r.x o) zero then
              (val r.g o 0 0).toReal else 0).sum| ≤
            ((1 + u) ^ rounds.length - 1) *
              (rounds.map fun r => |if F32.gt (preact l r.x o) zero then
                (val r.g o 0 0).toReal else 0|).sum) := by
  obtain ⟨c1, c2, c3⟩ := C28_clear b l hl hm
  have hin : l.clear_gradients.get_input_shape = l.get_input_shape := by
    unfold FullyConnectedLayer.get_input_shape; rw [c2.1]
  have hout : l.clear_gradients.get_output_shape = l.get_output_shape := by
    unfold FullyConnectedLayer.get_output_shape; rw [c2.2.1]
  have hw : l.clear_gradients.weights = l.weights := c2.1
  obtain ⟨l', a1, a2, a3, a4⟩ := C28_accumulate b l.clear_gradients c1 (c2.2.2.2.trans hm) rounds
    (fun r h => by
      obtain ⟨x, g, out, og⟩ := hr r h
      exact ⟨by rw [hin]; exact x, by rw [hout]; exact g, by rw [hout]; exact out,
        by rw [hin]; exact og⟩)
  refine ⟨l', a1, fun o ho hg => ?_⟩
  have h0 := (a4 o (by rw [hw]; exact ho)).1
  have hz : val l.clear_gradients.bias_gradients o 0 0 = zero := by
    have := (c3 o ho).1
    have hb := c1.buffers (c2.2.2.2.trans hm)
    rw [get_item_ok hb.2.2.1.1 (by rw [hb.2.2.1.2, c1.rows, hw]; exact col_inside ho)] at this
    injection this
  rw [hz] at h0
  refine ⟨_, h0, fun hf => ?_⟩
  have he := (sum_error (rounds.map fun r => masked l.clear_gradients r o) hf).2
  have hpre : ∀ r : Round F32, preact l.clear_gradients r.x o = preact l r.x o := by
    intro r
    unfold preact
    rw [c2.1, c2.2.1]
  have hms : ∀ r ∈ rounds, (masked l.clear_gradients r o).toReal =
      if F32.gt (preact l r.x o) zero then (val r.g o 0 0).toReal else 0 := by
    intro r h
    unfold masked
    rw [hpre]
    exact (gate_toReal _ (hg r h)).2
  rw [List.map_map, List.map_map, List.length_map] at he
  rw [List.map_congr_left (f := toReal ∘ fun r => masked l.clear_gradients r o) hms,
    List.map_congr_left (f := (fun x => |x.toReal|) ∘ fun r => masked l.clear_gradients r o)
      (g := fun r => |if F32.gt (preact l r.x o) zero then (val r.g o 0 0).toReal else 0|)
      (fun r h => congrArg abs (hms r h))] at he
  exact he

/-- a 1 -> 1 layer with weight 1 and bias 1, in training mode -/
def exTrain : FullyConnectedLayer F32 := { exUnit with run_state := .Training }

/-- a round with input 1 and gradient 1 -/
def exRound : Round F32 := ⟨single ⟨0x3f800000⟩, single ⟨0x3f800000⟩, single ⟨0⟩, single ⟨0⟩⟩

/-- The assumptions of C72 can be met, with any number of rounds. -/
example : exTrain.Ok ∧ exTrain.run_state = .Training ∧ exRound.FitsFC exTrain ∧
    exTrain.weights.shape.di.toNat < 2 ^ 22 ∧
    (∀ o, o < exTrain.weights.shape.di.toNat → (val exRound.g o 0 0).isFinite = true) ∧
    (val exTrain.bias_gradients 0 0 0).isFinite = true ∧
    (val exTrain.weights_gradients 0 0 0).isFinite = true := by
  have d : exTrain.weights.shape.di.toNat = 1 := rfl
  refine ⟨⟨single_wf _, single_wf _, rfl, rfl, fun _ => ⟨⟨single_wf _, rfl⟩, ⟨single_wf _, rfl⟩,
    ⟨single_wf _, rfl⟩, ⟨single_wf _, rfl⟩⟩⟩, rfl, ⟨⟨single_wf _, rfl⟩, ⟨single_wf _, rfl⟩,
    ⟨single_wf _, rfl⟩, ⟨single_wf _, rfl⟩⟩, by rw [d]; norm_num, ?_, ?_, ?_⟩
  · intro o ho
    rw [d] at ho
    obtain rfl : o = 0 := by omega
    change (⟨0x3f800000⟩ : F32).isFinite = true
    decide
  · change (⟨0⟩ : F32).isFinite = true
    decide
  · change (⟨0⟩ : F32).isFinite = true
    decide

end Rusty
