import Verif.Props.Serialization

/-! # C60: exactly when a loaded layer is ready for use -/

namespace Rusty

open F32Ops Spec

variable {F : Type} [F32Ops F] [F32Bits F]

namespace Spec

/-- the buffers of the first layer have the shapes the second one needs -/
def buffersMatch : AnyLayer F → AnyLayer F → Prop
  | .conv l0, .conv l => l0.output_shape = l.output_shape ∧
      l0.kernels.map Tensor.shape = l.kernels.map Tensor.shape
  | .fc _, .fc _ => True
  | .mp l0, .mp l => l0.output_shape.count = l.output_shape.count
  | .sm l0, .sm l => l0.shape = l.shape
  | _, _ => False

end Spec

/-- C60, exactly: load the data of any well formed layer into any well formed layer of its type.  Loading says
`Ok`, and the loaded layer is well formed if and only if the target was in inference mode or is a fully connected
layer, or its buffers already had the shapes needed: the same output shape and kernel shapes, the same number of
pooling outputs, the same softmax shape.

Partial: the condition fails for targets in training mode with other shapes. -/
theorem C60_exact_partial (b : Build) (l l0 : AnyLayer F) (h : l.Ok) (hk : hasKernels l) (h0 : l0.Ok)
    (ht : sameType l l0) (o : HashOrder) (i : Nat)
    (hl : (encSerializedLayer l.get_serialized).length < 2 ^ 64) :
    ∃ l', l0.load_from_serialized b (o.layer i l.get_serialized) = .ok (.ok (), l') ∧
      (l'.Ok ↔ l0.get_run_mode = .Inference ∨ buffersMatch l0 l) := by
  cases l <;> cases l0 <;> first | exact ht.elim | skip
  · rename_i l l0
    change ConvolutionalLayer.Ok l at h
    change ConvolutionalLayer.Ok l0 at h0
    refine ⟨.conv { l0 with kernels := l.kernels, biases := l.biases, stride := l.stride, input_shape := l.input_shape, output_shape := l.output_shape, name := l.name }, ?_, ?_⟩
    · change ConvolutionalLayer.load_from_serialized b l0 _ >>= _ = _
      rw [show (AnyLayer.conv l).get_serialized = l.get_serialized from rfl] at hl ⊢
      rw [conv_load l0 l o i hl, ok_fills (l := .conv l) h hk b]
      rfl
    · change ConvolutionalLayer.Ok _ ↔ l0.run_state = .Inference ∨ _
      constructor
      · intro h'
        cases hm : l0.run_state with
        | Inference => exact .inl rfl
        | Training =>
          obtain ⟨⟨a1, a2⟩, ⟨a3, a4⟩, a5, a6⟩ := h0.buffers hm
          obtain ⟨⟨c1, c2⟩, ⟨c3, c4⟩, c5, c6⟩ := h'.buffers hm
          simp only at c1 c2 c6
          refine .inr ⟨a6.symm.trans c6, ?_⟩
          refine List.ext_getElem (by simp only [List.length_map]; omega) fun j j1 j2 => ?_
          simp only [List.length_map] at j1 j2
          simp only [List.getElem_map]
          exact (a2 j (by omega) j1).2.symm.trans (c2 j (by omega) j2).2
      · intro hc
        refine ⟨h.stride, h.input, h.output, h.count, h.kernels, h.biasCount, h.biases, fun hm => ?_⟩
        simp only at hm
        rcases hc with hc | ⟨e1, e2⟩
        · rw [hm] at hc
          cases hc
        · obtain ⟨⟨a1, a2⟩, ⟨a3, a4⟩, a5, a6⟩ := h0.buffers hm
          have el := congrArg List.length e2
          simp only [List.length_map] at el
          refine ⟨⟨a1.trans el, fun j j1 j2 => ?_⟩, ⟨a3.trans el, a4⟩, a5, a6.trans e1⟩
          simp only at j1 j2 ⊢
          obtain ⟨b1, b2⟩ := a2 j j1 (by omega)
          refine ⟨b1, b2.trans ?_⟩
          have := List.getElem_of_eq e2 (i := j) (by simp only [List.length_map]; omega)
          simpa only [List.getElem_map] using this
  · rename_i l l0
    obtain ⟨l', e, ho, _⟩ := C60_fully_connected_partial b l l0 h o i hl
    refine ⟨.fc l', ?_, iff_of_true ho (.inr trivial)⟩
    change FullyConnectedLayer.load_from_serialized b l0 _ >>= _ = _
    rw [show (AnyLayer.fc l).get_serialized = l.get_serialized from rfl, e]
    rfl
  · rename_i l l0
    change MaxPoolLayer.Ok l at h
    change MaxPoolLayer.Ok l0 at h0
    refine ⟨.mp { l0 with mask_shape := l.mask_shape, input_shape := l.input_shape, output_shape := l.output_shape, stride := l.stride, name := l.name }, ?_, ?_⟩
    · change MaxPoolLayer.load_from_serialized b l0 _ >>= _ = _
      rw [show (AnyLayer.mp l : AnyLayer F).get_serialized = l.get_serialized from rfl] at hl ⊢
      rw [mp_load l0 l o i hl, ok_fills (F := F) (l := .mp l) h trivial b]
      rfl
    · change MaxPoolLayer.Ok _ ↔ l0.run_state = .Inference ∨ _
      constructor
      · intro h'
        cases hm : l0.run_state with
        | Inference => exact .inl rfl
        | Training => exact .inr ((h0.buffers hm).symm.trans (h'.buffers hm))
      · intro hc
        refine ⟨h.stride, h.tiles, h.depth, h.input, h.output, fun hm => ?_⟩
        simp only at hm
        rcases hc with hc | hc
        · rw [hm] at hc
          cases hc
        · exact (h0.buffers hm).trans hc
  · rename_i l l0
    change SoftmaxLayer.Ok l at h
    change SoftmaxLayer.Ok l0 at h0
    refine ⟨.sm { l0 with shape := l.shape, name := l.name }, ?_, ?_⟩
    · change SoftmaxLayer.load_from_serialized b l0 _ >>= _ = _
      rw [show (AnyLayer.sm l).get_serialized = l.get_serialized from rfl] at hl ⊢
      rw [sm_load l0 l o i hl]
      rfl
    · change SoftmaxLayer.Ok _ ↔ l0.run_state = .Inference ∨ _
      constructor
      · intro h'
        cases hm : l0.run_state with
        | Inference => exact .inl rfl
        | Training => exact .inr ((h0.buffers hm).2.2.symm.trans (h'.buffers hm).2.2)
      · intro hc
        refine ⟨h.shape, fun hm => ?_⟩
        simp only at hm
        rcases hc with hc | hc
        · rw [hm] at hc
          cases hc
        · exact ⟨(h0.buffers hm).1, (h0.buffers hm).2.1, (h0.buffers hm).2.2.trans hc⟩

/-- a pair for which the condition holds in training mode -/
example : buffersMatch (.mp { MaxPoolLayer.empty with run_state := .Training, max_pool_origin := [0] } : AnyLayer F)
    (.mp MaxPoolLayer.empty) := rfl

end Rusty
