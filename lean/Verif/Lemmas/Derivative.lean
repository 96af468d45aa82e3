import Verif.Spec.Derivative
import Verif.Lemmas.Real
import Verif.Lemmas.FullyConnected
import Verif.Lemmas.Backward
import Verif.Lemmas.Softmax
import Mathlib.Analysis.Calculus.FDeriv.Mul
import Mathlib.Analysis.Calculus.FDeriv.Add
import Mathlib.Analysis.SpecialFunctions.ExpDeriv
import Mathlib.Algebra.BigOperators.Field
import Mathlib.Tactic.Module
import Mathlib.Tactic.FieldSimp

/-! # Helper lemmas: derivatives of layers in exact arithmetic -/

namespace Rusty

open F32Ops Spec Exact

variable {E : Type} [NormedAddCommGroup E] [NormedSpace ℝ E]

theorem total_column {M : Type} [AddCommMonoid M] {s : TensorShape} (hj : s.dj = 1) (hk : s.dk = 1)
    (f : Nat → Nat → Nat → M) : total s f = ∑ i ∈ Finset.range s.di.toNat, f i 0 0 := by
  unfold total
  rw [hj, hk]
  simp [show (1 : UInt32).toNat = 1 from rfl]

theorem total_congr {M : Type} [AddCommMonoid M] {s : TensorShape} {f g : Nat → Nat → Nat → M}
    (h : ∀ i j k, s.Inside i j k → f i j k = g i j k) : total s f = total s g := by
  unfold total
  exact Finset.sum_congr rfl fun k hk => Finset.sum_congr rfl fun j hj =>
    Finset.sum_congr rfl fun i hi => h i j k ⟨Finset.mem_range.mp hi, Finset.mem_range.mp hj,
      Finset.mem_range.mp hk⟩

/-- the derivative of an inner product with a fixed tensor -/
theorem inner_deriv {s : TensorShape} {y : E → Tensor ℝ} {y' : Nat → Nat → Nat → (E →L[ℝ] ℝ)} {e0 : E}
    (h : DiffAt s y y' e0) (g : Tensor ℝ) :
    HasFDerivAt (fun e => inner s g (y e)) (total s fun i j k => val g i j k • y' i j k) e0 := by
  unfold inner total
  refine HasFDerivAt.fun_sum fun k hk => HasFDerivAt.fun_sum fun j hj => HasFDerivAt.fun_sum
    fun i hi => ?_
  exact (h i j k ⟨Finset.mem_range.mp hi, Finset.mem_range.mp hj, Finset.mem_range.mp hk⟩).const_mul _

/-! ## Fully connected layers -/

theorem relu_deriv {p : E → ℝ} {p' : E →L[ℝ] ℝ} {e0 : E} (h : HasFDerivAt p p' e0)
    (hne : p e0 ≠ 0) : HasFDerivAt (fun e => relu (p e)) (step (p e0) • p') e0 := by
  rcases lt_or_gt_of_ne hne with hlt | hgt
  · have e1 : step (p e0) = 0 := by
      unfold step
      rw [if_neg (by rw [real_gt]; exact not_lt.mpr hlt.le)]; rfl
    rw [e1, zero_smul]
    refine (hasFDerivAt_const (0 : ℝ) e0).congr_of_eventuallyEq ?_
    filter_upwards [h.continuousAt.eventually (gt_mem_nhds hlt)] with e he
    unfold relu
    rw [if_neg (by rw [real_gt]; exact not_lt.mpr (le_of_lt he))]; rfl
  · have e1 : step (p e0) = 1 := by
      unfold step
      rw [if_pos (by rw [real_gt]; exact hgt)]; rfl
    rw [e1, one_smul]
    refine h.congr_of_eventuallyEq ?_
    filter_upwards [h.continuousAt.eventually (lt_mem_nhds hgt)] with e he
    unfold relu
    rw [if_pos (by rw [real_gt]; exact he)]

theorem preact_real (l : FullyConnectedLayer ℝ) (x : Tensor ℝ) (o : Nat) :
    preact l x o = (∑ i ∈ Finset.range l.weights.shape.dj.toNat,
      val l.weights o i 0 * val x i 0 0) + val l.bias o 0 0 := by
  unfold preact
  rw [sum_range_real]
  rfl

/-- the layer with its parameters replaced -/
def withParams (l : FullyConnectedLayer ℝ) (W bi : Tensor ℝ) : FullyConnectedLayer ℝ :=
  { l with weights := W, bias := bi }

theorem withParams_ok {l : FullyConnectedLayer ℝ} (hl : l.Ok) {W bi : Tensor ℝ} (hW : W.WF)
    (hWs : W.shape = l.weights.shape) (hb : bi.WF) (hbs : bi.shape = l.bias.shape) :
    (withParams l W bi).Ok := by
  obtain ⟨h1, h2, h3, h4, h5⟩ := hl
  refine ⟨hW, hb, ?_, ?_, ?_⟩
  · change bi.shape = ⟨W.shape.di, 1, 1⟩
    rw [hbs, hWs]; exact h3
  · change W.shape.dk = 1
    rw [hWs]; exact h4
  · intro hm
    have := h5 hm
    change (l.weights_gradients.WF ∧ l.weights_gradients.shape = W.shape) ∧
      (l.weights_gradients_intermediate.WF ∧ l.weights_gradients_intermediate.shape = W.shape) ∧
      (l.bias_gradients.WF ∧ l.bias_gradients.shape = bi.shape) ∧
      (l.relu_mask.WF ∧ l.relu_mask.shape = bi.shape)
    rw [hWs, hbs]
    exact this

/-- derivative of one pre-activation when input and parameters vary -/
theorem preact_deriv {l : FullyConnectedLayer ℝ} {W bi x : E → Tensor ℝ}
    (hWs : ∀ e, (W e).shape = l.weights.shape) {o : Nat} {e0 : E} {W' : Nat → E →L[ℝ] ℝ}
    {b' : E →L[ℝ] ℝ} {x' : Nat → E →L[ℝ] ℝ}
    (dW : ∀ i, i < l.weights.shape.dj.toNat → HasFDerivAt (fun e => val (W e) o i 0) (W' i) e0)
    (db : HasFDerivAt (fun e => val (bi e) o 0 0) b' e0)
    (dx : ∀ i, i < l.weights.shape.dj.toNat → HasFDerivAt (fun e => val (x e) i 0 0) (x' i) e0) :
    HasFDerivAt (fun e => preact (withParams l (W e) (bi e)) (x e) o)
      ((∑ i ∈ Finset.range l.weights.shape.dj.toNat,
        (val (W e0) o i 0 • x' i + val (x e0) i 0 0 • W' i)) + b') e0 := by
  have e1 : (fun e => preact (withParams l (W e) (bi e)) (x e) o) = fun e =>
      (∑ i ∈ Finset.range l.weights.shape.dj.toNat, val (W e) o i 0 * val (x e) i 0 0) +
        val (bi e) o 0 0 := by
    funext e
    rw [preact_real]
    change (∑ i ∈ Finset.range (W e).shape.dj.toNat, _) + _ = _
    rw [hWs e]
    rfl
  rw [e1]
  refine HasFDerivAt.fun_add (HasFDerivAt.fun_sum fun i hi => ?_) db
  exact (dW i (Finset.mem_range.mp hi)).mul (dx i (Finset.mem_range.mp hi))

/-- the algebra of one backward pass through a fully connected layer -/
theorem fc_algebra {M : Type} [AddCommGroup M] [Module ℝ M] (n m : Nat) (g st xv : Nat → ℝ)
    (w : Nat → Nat → ℝ) (x' b' : Nat → M) (w' : Nat → Nat → M) :
    (∑ o ∈ Finset.range m, g o • st o •
      ((∑ i ∈ Finset.range n, (w o i • x' i + xv i • w' o i)) + b' o)) =
    (∑ i ∈ Finset.range n, (∑ o ∈ Finset.range m, w o i * (st o * g o)) • x' i) +
      (∑ i ∈ Finset.range n, ∑ o ∈ Finset.range m, (st o * g o * xv i) • w' o i) +
      ∑ o ∈ Finset.range m, (st o * g o) • b' o := by
  have h1 : (∑ i ∈ Finset.range n, (∑ o ∈ Finset.range m, w o i * (st o * g o)) • x' i) =
      ∑ o ∈ Finset.range m, ∑ i ∈ Finset.range n, (w o i * (st o * g o)) • x' i := by
    rw [Finset.sum_comm]
    exact Finset.sum_congr rfl fun i _ => Finset.sum_smul
  rw [h1, Finset.sum_comm (s := Finset.range n), ← Finset.sum_add_distrib, ← Finset.sum_add_distrib]
  refine Finset.sum_congr rfl fun o _ => ?_
  rw [smul_add, smul_add, ← Finset.sum_add_distrib, Finset.smul_sum, Finset.smul_sum]
  congr 1
  · refine Finset.sum_congr rfl fun i _ => ?_
    module
  · module

/-- the gradients of one `forward` and `backward` of a fully connected layer whose input and
parameters depend on `e` -/
theorem fc_vjp {b : Build} {l : FullyConnectedLayer ℝ} (hl : l.Ok) (hm : l.run_state = .Training)
    {W bi x : E → Tensor ℝ} (hW : ∀ e, (W e).WF ∧ (W e).shape = l.weights.shape)
    (hb : ∀ e, (bi e).WF ∧ (bi e).shape = l.bias.shape)
    (hx : ∀ e, (x e).WF ∧ (x e).shape = l.get_input_shape) {e0 : E}
    {W' b' x' : Nat → Nat → Nat → E →L[ℝ] ℝ} (dW : DiffAt l.weights.shape W W' e0)
    (db : DiffAt l.bias.shape bi b' e0) (dx : DiffAt l.get_input_shape x x' e0)
    (hne : ∀ o, o < l.weights.shape.di.toNat →
      preact (withParams l (W e0) (bi e0)) (x e0) o ≠ 0)
    {out : E → Tensor ℝ} (ho : ∀ e, (out e).WF ∧ (out e).shape = l.get_output_shape) :
    ∃ (mask y : E → Tensor ℝ) (y' : Nat → Nat → Nat → E →L[ℝ] ℝ),
      (∀ e, (withParams l (W e) (bi e)).forward b (x e) (out e) =
        .ok (.ok (), { withParams l (W e) (bi e) with relu_mask := mask e }, y e)) ∧
      (∀ e, (y e).WF ∧ (y e).shape = l.get_output_shape) ∧
      DiffAt l.get_output_shape y y' e0 ∧
      ∀ (yy g og : Tensor ℝ), g.WF → g.shape = l.get_output_shape → og.WF →
        og.shape = l.get_input_shape →
        ∃ l2 og', ({ withParams l (W e0) (bi e0) with relu_mask := mask e0 } :
            FullyConnectedLayer ℝ).backward b (x e0) yy g og = .ok (.ok (), l2, og') ∧
          og'.WF ∧ og'.shape = l.get_input_shape ∧
          (total l.get_output_shape fun i j k => val g i j k • y' i j k) =
            (total l.get_input_shape fun i j k => val og' i j k • x' i j k) +
            (total l.weights.shape fun i j k =>
              (val l2.weights_gradients i j k - val l.weights_gradients i j k) • W' i j k) +
            (total l.bias.shape fun i j k =>
              (val l2.bias_gradients i j k - val l.bias_gradients i j k) • b' i j k) := by
  have hok : ∀ e, (withParams l (W e) (bi e)).Ok := fun e =>
    withParams_ok hl (hW e).1 (hW e).2 (hb e).1 (hb e).2
  have hin : ∀ e, (withParams l (W e) (bi e)).get_input_shape = l.get_input_shape := by
    intro e
    unfold FullyConnectedLayer.get_input_shape
    change TensorShape.mk (W e).shape.dj 1 1 = _
    rw [(hW e).2]
  have hout : ∀ e, (withParams l (W e) (bi e)).get_output_shape = l.get_output_shape :=
    fun e => (hb e).2
  have H := fun e => fc_forward_training (b := b) (hok e) hm (hx e).1
    ((hx e).2.trans (hin e).symm) (ho e).1 ((ho e).2.trans (hout e).symm)
  choose mask y h1 h2 h3 h4 h5 h6 using H
  have hdi : ∀ e, (withParams l (W e) (bi e)).weights.shape = l.weights.shape := fun e => (hW e).2
  have hdk : (0 : Nat) < l.weights.shape.dk.toNat := by rw [hl.depth]; decide
  have hos' : l.get_output_shape = ⟨l.weights.shape.di, 1, 1⟩ := hl.rows
  refine ⟨mask, y, fun o _ _ => step (preact (withParams l (W e0) (bi e0)) (x e0) o) •
    ((∑ i ∈ Finset.range l.weights.shape.dj.toNat,
      (val (W e0) o i 0 • x' i 0 0 + val (x e0) i 0 0 • W' o i 0)) + b' o 0 0), h1,
    fun e => ⟨h2 e, (h3 e).trans (hout e)⟩, ?_, ?_⟩
  · intro o j k hio
    rw [hos', col_inside_iff] at hio
    obtain ⟨hi, rfl, rfl⟩ := hio
    have e1 : (fun e => val (y e) o 0 0) =
        fun e => relu (preact (withParams l (W e) (bi e)) (x e) o) := by
      funext e
      exact (h6 e o (by rw [hdi e]; exact hi)).1
    rw [e1]
    refine relu_deriv (preact_deriv (fun e => (hW e).2) (fun i h => dW o i 0 ⟨hi, h, hdk⟩)
      (db o 0 0 (by rw [hl.rows]; exact col_inside hi)) fun i h => dx i 0 0 (col_inside h)) (hne o hi)
  · intro yy g og hg hgs hog hogs
    obtain ⟨l2, og', q1, q2, q3, q4, q5, q6, q7⟩ := fc_backward_training (b := b) (out := yy)
      (fc_ok_mask (hok e0) (mask e0) (h4 e0) (h5 e0)) hm (hx e0).1 ((hx e0).2.trans (hin e0).symm) hg
      (hgs.trans (hout e0).symm) hog (hogs.trans (hin e0).symm)
    refine ⟨l2, og', q1, q4, q5.trans (hin e0), ?_⟩
    have hj : l.get_input_shape = ⟨l.weights.shape.dj, 1, 1⟩ := rfl
    have hw : ∀ f : Nat → Nat → Nat → E →L[ℝ] ℝ, total l.weights.shape f =
        ∑ i ∈ Finset.range l.weights.shape.dj.toNat, ∑ o ∈ Finset.range l.weights.shape.di.toNat,
          f o i 0 := by
      intro f
      unfold total
      rw [hl.depth]
      simp [show (1 : UInt32).toNat = 1 from rfl]
    rw [hw, hos', hj, total_column rfl rfl, total_column rfl rfl, hl.rows, total_column rfl rfl]
    have hst : ∀ o, o < l.weights.shape.di.toNat →
        val (mask e0) o 0 0 = step (preact (withParams l (W e0) (bi e0)) (x e0) o) := fun o h =>
      (h6 e0 o (by rw [hdi e0]; exact h)).2
    simp only at q6 q7 ⊢
    refine (fc_algebra _ _ (fun o => val g o 0 0)
      (fun o => step (preact (withParams l (W e0) (bi e0)) (x e0) o)) (fun i => val (x e0) i 0 0)
      (fun o i => val (W e0) o i 0) (fun i => x' i 0 0) (fun o => b' o 0 0)
      (fun o i => W' o i 0)).trans ?_
    have hdi0 := hdi e0
    simp only [hdi0] at q6 q7
    congr 1
    · congr 1
      · refine Finset.sum_congr rfl fun i hi => ?_
        rw [q6 i (Finset.mem_range.mp hi), sum_range_real]
        congr 1
        refine Finset.sum_congr rfl fun o ho => ?_
        rw [hst o (Finset.mem_range.mp ho)]
        rfl
      · refine Finset.sum_congr rfl fun i hi => Finset.sum_congr rfl fun o ho => ?_
        rw [(q7 o (Finset.mem_range.mp ho)).2 i (Finset.mem_range.mp hi),
          hst o (Finset.mem_range.mp ho), sum_real]
        congr 1
        simp [withParams]
    · refine Finset.sum_congr rfl fun o ho => ?_
      rw [(q7 o (Finset.mem_range.mp ho)).1, hst o (Finset.mem_range.mp ho)]
      congr 1
      simp [withParams]

end Rusty
