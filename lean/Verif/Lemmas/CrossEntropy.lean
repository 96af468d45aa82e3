import Verif.Lemmas.NetworkDerivative
import Verif.Props.Softmax

/-! # Softmax layers on columns in exact arithmetic (helpers for C115) -/

namespace Rusty

open F32Ops Spec Exact

/-- what `forward` of a softmax layer on a column writes is positive and sums to one -/
theorem column_forward (b : Build) (l : SoftmaxLayer ℝ) (hj : l.shape.dj = 1)
    (hk : l.shape.dk = 1) (x out : Tensor ℝ) (hx : x.WF) (hxs : x.shape = l.shape) (ho : out.WF)
    (hos : out.shape = l.shape) :
    ∃ p, l.forward b x out = .ok (.ok (), l, p) ∧ p.WF ∧ p.shape = l.shape ∧
      (∀ i, i < l.shape.di.toNat → 0 < val p i 0 0 ∧
        ∑ i ∈ Finset.range l.shape.di.toNat, val p i 0 0 = 1) := by
  obtain ⟨p, h1, h2, h3, _⟩ := softmax_real hx ho (hxs.trans hos.symm)
  refine ⟨p, ?_, h2, h3.trans hos, fun i hi => ?_⟩
  · unfold SoftmaxLayer.forward
    rw [h1]
    rfl
  have hin : out.shape.Inside i 0 0 := by
    rw [hos]
    exact ⟨hi, by rw [hj]; decide, by rw [hk]; decide⟩
  have hc : 0 < x.shape.count := by
    rw [hxs]
    unfold TensorShape.count
    rw [hj, hk]
    exact Nat.mul_pos (Nat.mul_pos (by omega) (by decide)) (by decide)
  obtain ⟨p', q1, _, _, h4, h5⟩ := C24_distribution b x out hx ho (hxs.trans hos.symm) hc
  rw [h1] at q1
  cases q1
  obtain ⟨v, e1, e2, _⟩ := h4 i 0 0 hin
  rw [get_item_ok h2 (h3 ▸ hin)] at e1
  cases e1
  refine ⟨e2, ?_⟩
  rw [h3, hos, total_column hj hk] at h5
  exact h5

/-- what `backward` of a softmax layer on a column writes, in exact arithmetic -/
theorem column_backward (b : Build) {l : SoftmaxLayer ℝ} (hl : l.Ok) (hm : l.run_state = .Training)
    (hj : l.shape.dj = 1) (hk : l.shape.dk = 1) (x : Tensor ℝ) {y g og : Tensor ℝ} (hy : y.WF)
    (hys : y.shape = l.shape) (hg : g.WF) (hgs : g.shape = l.shape) (ho : og.WF)
    (hos : og.shape = l.shape) :
    ∃ l' og', l.backward b x y g og = .ok (.ok (), l', og') ∧ og'.WF ∧ og'.shape = l.shape ∧
      ∀ i, i < l.shape.di.toNat → val og' i 0 0 = val y i 0 0 * val g i 0 0 -
        val y i 0 0 * ∑ o ∈ Finset.range l.shape.di.toNat, val y o 0 0 * val g o 0 0 := by
  obtain ⟨l', og', r1, r2, r3, r4⟩ := sm_backward_column (b := b) (x := x) hl hm hj hk hy hys hg hgs
    ho hos
  refine ⟨l', og', r1, r2, r3, fun i hi => ?_⟩
  rw [r4 i hi, sum_range_real, sum_real]
  simp
  ring

end Rusty
