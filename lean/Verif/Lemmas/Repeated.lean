import Verif.Spec.Repeated
import Verif.Lemmas.FullyConnected
import Verif.Lemmas.Backward
import Verif.Lemmas.ConvLayer
import Verif.Lemmas.Loading

/-! # Helper lemmas: `backward` several times after one `forward` -/

namespace Rusty

open F32Ops Spec

variable {F : Type} [F32Ops F] {b : Build}

/-- `backward` of a fully connected layer multiplies the stored mask by the gradient -/
theorem fc_backward_mask {l l' : FullyConnectedLayer F} {x y g og og' : Tensor F}
    (h : l.backward b x y g og = .ok (.ok (), l', og')) :
    l'.relu_mask = Tensor.multiply_elementwise_self l.relu_mask g := by
  unfold FullyConnectedLayer.backward at h
  split at h
  · obtain ⟨⟨r1, t1⟩, _, h⟩ := bind_inv h
    simp only at h
    cases r1 with
    | error e => cases h
    | ok u =>
      simp only at h
      obtain ⟨⟨r2, t2⟩, _, h⟩ := bind_inv h
      cases r2 with
      | error e => cases h
      | ok u => cases h; rfl
  · cases h

/-- filling erases what was there -/
theorem fill_same {t u : Tensor F} (v : F) (ht : t.WF) (hu : u.WF) (h : t.shape = u.shape) :
    t.fill_with_value v = u.fill_with_value v := by
  obtain ⟨a1, a2, a3⟩ := fill_ok v ht
  obtain ⟨b1, b2, b3⟩ := fill_ok v hu
  refine tensor_ext a1 b1 (by rw [a2, b2, h]) fun i j k hin => ?_
  rw [a2] at hin
  rw [a3 i j k hin, b3 i j k (by rw [← h]; exact hin)]

/-- `backward` of a softmax layer over a column: the result and the stored tensors depend only on the output and
the gradient -/
theorem sm_backward_same {l : SoftmaxLayer F} (hl : l.Ok) (hm : l.run_state = .Training)
    (hj : l.shape.dj = 1) (hk : l.shape.dk = 1) {x y g og : Tensor F} (hy : y.WF)
    (hys : y.shape = l.shape) (hg : g.WF) (hgs : g.shape = l.shape) (ho : og.WF)
    (hos : og.shape = l.shape) :
    ∃ l' og', l.backward b x y g og = .ok (.ok (), l', og') ∧ ∀ x' ogn, ogn.WF → ogn.shape = l.shape →
      l'.backward b x' y g ogn = .ok (.ok (), l', og') := by
  obtain ⟨⟨i1, i2⟩, ⟨j1, j2⟩⟩ := hl.buffers hm
  have c0 : ∀ i : Tensor F, i.shape = ⟨1, 1, 1⟩ →
      Tensor.check_matrix_multiply_dimensions y.shape.transpose_ij g.shape i.shape = true := by
    intro i hi
    rw [check_mm_iff, hys, hgs, hi]
    unfold TensorShape.transpose_ij
    exact ⟨rfl, hk, rfl, hj, hj⟩
  obtain ⟨t1, a1, a2, a3, a4⟩ := matmul_tf_ok (b := b) hy hg i1 (c0 _ i2)
  obtain ⟨c1, c2, c3⟩ := scale_self_ok (negOne : F) a2
  have d0 : ∀ u v : Tensor F, u.shape = ⟨1, 1, 1⟩ → v.shape = l.shape →
      Tensor.check_matrix_multiply_dimensions y.shape u.shape v.shape = true := by
    intro u v hu hv
    rw [check_mm_iff, hys, hu, hv]
    exact ⟨hk, rfl, hj, rfl, hj.symm⟩
  obtain ⟨t2, d1, d2, d3, d4⟩ := matmul_ok (b := b) hy c1 j1 (d0 _ _ (by rw [c2, a3, i2]) j2)
  refine ⟨{ l with intermediate1 := Tensor.scale_self t1 negOne, intermediate2 := t2 },
    Tensor.add_to_self (Tensor.multiply_elementwise y g og) t2, ?_, ?_⟩
  · unfold SoftmaxLayer.backward
    rw [if_neg (by rw [hm]; exact fun h => by cases h), a1, ok_bind]
    simp only
    rw [d1, ok_bind]
    rfl
  · intro x' ogn hn hns
    obtain ⟨t1', a1', a2', a3', a4'⟩ := matmul_tf_ok (b := b) hy hg c1 (c0 _ (by rw [c2, a3, i2]))
    have e1 : t1' = t1 := tensor_ext a2' a2 (by rw [a3', c2]) fun i j k hin => by
      rw [a3', c2, a3] at hin
      rw [a4' i j k (by rw [c2, a3]; exact hin), a4 i j k hin]
    subst e1
    obtain ⟨t2', d1', d2', d3', d4'⟩ := matmul_ok (b := b) hy c1 d2 (d0 _ _ (by rw [c2, a3, i2])
      (by rw [d3, j2]))
    have e2 : t2' = t2 := tensor_ext d2' d2 d3' fun i j k hin => by
      rw [d3', d3] at hin
      rw [d4' i j k (by rw [d3]; exact hin), d4 i j k hin]
    subst e2
    have e3 : Tensor.multiply_elementwise y g ogn = Tensor.multiply_elementwise y g og := by
      obtain ⟨f1, f2, f3⟩ := mul_ok hy hg ho (by rw [hys, hgs]) (by rw [hys, hos])
      obtain ⟨g1, g2, g3⟩ := mul_ok hy hg hn (by rw [hys, hgs]) (by rw [hys, hns])
      refine tensor_ext g1 f1 (by rw [g2, f2, hns, hos]) fun i j k hin => ?_
      rw [g2] at hin
      rw [g3 i j k hin, f3 i j k (by rw [hos, ← hns]; exact hin)]
    unfold SoftmaxLayer.backward
    rw [if_neg (by rw [hm]; exact fun h => by cases h)]
    simp only
    rw [a1', ok_bind]
    simp only
    rw [d1', ok_bind, e3]
    rfl

end Rusty
