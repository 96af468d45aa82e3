import Verif.Lemmas.CrossEntropy
import Verif.Lemmas.Weighted

/-! # What a softmax layer passes on, in terms of the mean gradient -/

namespace Rusty

open F32Ops Spec Exact

/-- the output of `forward` and the result of `backward`, in exact arithmetic -/
theorem passed_column (b : Build) {l : SoftmaxLayer ℝ} (hl : l.Ok) (hm : l.run_state = .Training)
    (hj : l.shape.dj = 1) (hk : l.shape.dk = 1) {x out p g og og' : Tensor ℝ} {l' : SoftmaxLayer ℝ} (hx : x.WF)
    (hxs : x.shape = l.shape) (ho : out.WF) (hos : out.shape = l.shape) (hg : g.WF)
    (hgs : g.shape = l.shape) (hog : og.WF) (hogs : og.shape = l.shape)
    (hf : l.forward b x out = .ok (.ok (), l, p)) (hb : l.backward b x p g og = .ok (.ok (), l', og')) :
    (∀ i ∈ Finset.range l.shape.di.toNat, 0 < val p i 0 0) ∧
    (∀ i ∈ Finset.range l.shape.di.toNat, ∑ i ∈ Finset.range l.shape.di.toNat, val p i 0 0 = 1) ∧
    ∀ i ∈ Finset.range l.shape.di.toNat, val og' i 0 0 = val p i 0 0 * (val g i 0 0 -
      ∑ o ∈ Finset.range l.shape.di.toNat, val p o 0 0 * val g o 0 0) := by
  obtain ⟨p', h1, h2, h3, h5⟩ := column_forward b l hj hk x out hx hxs ho hos
  rw [hf] at h1
  cases h1
  obtain ⟨l2, og2, r1, r2, r3, r4⟩ := column_backward b hl hm hj hk x h2 h3 hg hgs hog hogs
  rw [hb] at r1
  cases r1
  exact ⟨fun i h => (h5 i (Finset.mem_range.mp h)).1, fun i h => (h5 i (Finset.mem_range.mp h)).2, fun i h => by
    rw [r4 i (Finset.mem_range.mp h)]; ring⟩

end Rusty
