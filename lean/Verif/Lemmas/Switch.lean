import Verif.Lemmas.AnyLayer

set_option linter.unusedSectionVars false

/-! # Helper lemmas: mode switches of layers -/

namespace Rusty

open F32Ops Spec

variable {F : Type} [F32Ops F] {b : Build}

theorem new_zero (s : TensorShape) : Sat (Tensor.new b s : Exec (Tensor F)) allZero := by
  unfold Tensor.new
  refine sat_bind fun _ _ => sat_bind fun _ _ => sat_pure ?_
  intro v hv
  exact List.eq_of_mem_replicate hv

theorem fill_zero (t : Tensor F) : allZero (t.fill_with_value zero) := by
  intro v hv
  unfold Tensor.fill_with_value at hv
  simp only [List.mem_map] at hv
  obtain ⟨_, _, h⟩ := hv
  exact h.symm

theorem zeros_zero (s : TensorShape) : allZero (zeros s : Tensor F) :=
  fun _ hv => List.eq_of_mem_replicate hv

/-- the kernel gradients of a convolutional layer -/
theorem kernel_grads_zero (ks : List (Tensor F)) :
    Sat (ks.foldlM (fun kg k => do
      let g ← Tensor.new b k.shape
      pure (kg ++ [g])) ([] : List (Tensor F))) fun kg => ∀ g ∈ kg, allZero g := by
  refine sat_foldlM (fun kg => ∀ g ∈ kg, allZero g) _ _ ?_ [] (fun _ h => by cases h)
  intro k _ kg hkg
  refine sat_bind' (new_zero _) fun g hg => sat_pure ?_
  intro x hx
  rcases List.mem_append.mp hx with h | h
  · exact hkg x h
  · rw [List.mem_singleton.mp h]; exact hg

theorem switch_training_effect (l : AnyLayer F) : Sat (l.switch_to_training b) fun l' =>
    l'.get_run_mode = .Training ∧ params l' = params l ∧ cleared l' := by
  cases l with
  | conv l =>
    simp only [AnyLayer.switch_to_training, ConvolutionalLayer.switch_to_training,
      ConvolutionalLayer.update_tensors]
    refine sat_bind' (Q := fun l' => l'.run_state = .Training ∧
      params (.conv l') = params (.conv l) ∧ cleared (.conv l')) ?_ fun a h => sat_pure h
    refine sat_bind' (kernel_grads_zero _) fun kg hk => sat_bind' (new_zero _) fun bg hb =>
      sat_bind' (new_zero _) fun rm hr => sat_pure ⟨rfl, rfl, hk, ?_, hr⟩
    intro g hg
    rw [List.eq_of_mem_replicate hg]
    exact hb
  | fc l =>
    simp only [AnyLayer.switch_to_training, FullyConnectedLayer.switch_to_training,
      FullyConnectedLayer.update_tensors]
    refine sat_bind' (Q := fun l' => l'.run_state = .Training ∧
      params (.fc l') = params (.fc l) ∧ cleared (.fc l')) ?_ fun a h => sat_pure h
    exact sat_bind fun _ _ => sat_bind fun _ _ => sat_bind fun _ _ => sat_bind fun _ _ =>
      sat_pure ⟨rfl, rfl, fill_zero _, fill_zero _, fill_zero _, fill_zero _⟩
  | mp l =>
    simp only [AnyLayer.switch_to_training, MaxPoolLayer.switch_to_training,
      MaxPoolLayer.update_tensors]
    refine sat_bind' (Q := fun l' => l'.run_state = .Training ∧
      params (F := F) (.mp l') = params (.mp l) ∧ cleared (F := F) (.mp l')) ?_
      fun a h => sat_pure h
    refine sat_bind fun _ _ => sat_pure ⟨rfl, rfl, ?_⟩
    intro o ho
    simp only [MaxPoolLayer.clear_gradients, List.mem_map] at ho
    obtain ⟨_, _, h⟩ := ho
    exact h.symm
  | sm l =>
    simp only [AnyLayer.switch_to_training, SoftmaxLayer.switch_to_training,
      SoftmaxLayer.update_tensors]
    refine sat_bind' (Q := fun l' => l'.run_state = .Training ∧
      params (.sm l') = params (.sm l) ∧ cleared (.sm l')) ?_ fun a h => sat_pure h
    exact sat_bind fun _ _ => sat_bind fun _ _ =>
      sat_pure ⟨rfl, rfl, fill_zero _, fill_zero _⟩

theorem switch_training_idem (l l' : AnyLayer F) (h : l.switch_to_training b = .ok l') :
    l'.switch_to_training b = .ok l' := by
  revert h
  refine (?_ : Sat (l.switch_to_training b) fun l' => l'.switch_to_training b = .ok l') l'
  cases l with
  | conv l =>
    simp only [AnyLayer.switch_to_training, ConvolutionalLayer.switch_to_training,
      ConvolutionalLayer.update_tensors, bind_assoc]
    refine sat_bind fun kg hk => sat_bind fun bg hb => sat_bind fun rm hr => sat_pure ?_
    simp only [hk, hb, hr, ok_bind]
    rfl
  | fc l =>
    simp only [AnyLayer.switch_to_training, FullyConnectedLayer.switch_to_training,
      FullyConnectedLayer.update_tensors, bind_assoc, FullyConnectedLayer.clear_gradients,
      FullyConnectedLayer.get_output_shape]
    refine sat_bind fun w hw => sat_bind fun w' hw' => sat_bind fun bg hb => sat_bind fun rm hr =>
      sat_pure ?_
    simp only [hw, hb, ok_bind]
    cases hw.symm.trans hw'
    cases hb.symm.trans hr
    rfl
  | mp l =>
    simp only [AnyLayer.switch_to_training, MaxPoolLayer.switch_to_training,
      MaxPoolLayer.update_tensors, bind_assoc]
    refine sat_bind fun n hn => sat_pure ?_
    simp only [MaxPoolLayer.clear_gradients, hn, ok_bind]
    rfl
  | sm l =>
    simp only [AnyLayer.switch_to_training, SoftmaxLayer.switch_to_training,
      SoftmaxLayer.update_tensors, bind_assoc]
    refine sat_bind fun w hw => sat_bind fun w' hw' => sat_pure ?_
    simp only [SoftmaxLayer.clear_gradients, hw, hw', ok_bind]
    rfl

/-- `switch_to_inference` never panics -/
theorem switch_inference_ok (l : AnyLayer F) : ∃ l', l.switch_to_inference b = .ok l' ∧
    l'.get_run_mode = .Inference ∧ params l' = params l ∧ cleared l' ∧
    l'.switch_to_inference b = .ok l' := by
  cases l with
  | conv l =>
    simp only [AnyLayer.switch_to_inference, ConvolutionalLayer.switch_to_inference,
      ConvolutionalLayer.update_tensors, empty_ok, ok_bind]
    exact ⟨_, rfl, rfl, rfl, ⟨(fun _ h => by cases h), (fun _ h => by cases h), zeros_zero _⟩, rfl⟩
  | fc l =>
    simp only [AnyLayer.switch_to_inference, FullyConnectedLayer.switch_to_inference,
      FullyConnectedLayer.update_tensors, empty_ok, ok_bind]
    exact ⟨_, rfl, rfl, rfl, ⟨zeros_zero _, zeros_zero _, zeros_zero _, zeros_zero _⟩, rfl⟩
  | mp l => exact ⟨_, rfl, rfl, rfl, (fun _ h => by cases h), rfl⟩
  | sm l =>
    simp only [AnyLayer.switch_to_inference, SoftmaxLayer.switch_to_inference,
      SoftmaxLayer.update_tensors, empty_ok, ok_bind]
    exact ⟨_, rfl, rfl, rfl, ⟨zeros_zero _, zeros_zero _⟩, rfl⟩

theorem kernel_grads_ok (ks : List (Tensor F)) (h : ∀ k ∈ ks, k.shape.Fits)
    (acc : List (Tensor F)) :
    ks.foldlM (fun kg k => do
      let g ← Tensor.new b k.shape
      pure (kg ++ [g])) acc = (.ok (acc ++ ks.map fun k => zeros k.shape) : Exec _) := by
  induction ks generalizing acc with
  | nil => simp
  | cons k ks ih =>
    rw [List.foldlM_cons, new_ok (h k (List.mem_cons_self ..)), ok_bind]
    simp only [pure_bind]
    rw [ih (fun x hx => h x (List.mem_cons_of_mem _ hx))]
    simp

theorem ok_shapesFit {l : AnyLayer F} (h : l.Ok) : ShapesFit l := by
  cases l with
  | conv l => exact ⟨fun k hk => (h.kernels k hk).1.fits, h.output⟩
  | fc l => exact ⟨h.weights.fits, h.bias.fits⟩
  | mp l => exact h.output
  | sm l => exact h.shape

theorem switch_training_ok {l : AnyLayer F} (h : ShapesFit l) :
    ∃ l', l.switch_to_training b = .ok l' := by
  cases l with
  | conv l =>
    simp only [AnyLayer.switch_to_training, ConvolutionalLayer.switch_to_training,
      ConvolutionalLayer.update_tensors, kernel_grads_ok _ h.1, ok_bind, TensorShape.new_1d,
      new_ok (F := F) (s := ⟨1, 1, 1⟩) (by decide), new_ok (F := F) h.2]
    exact ⟨_, rfl⟩
  | fc l =>
    simp only [AnyLayer.switch_to_training, FullyConnectedLayer.switch_to_training,
      FullyConnectedLayer.update_tensors, FullyConnectedLayer.get_output_shape,
      new_ok (F := F) h.1, new_ok (F := F) h.2, ok_bind]
    exact ⟨_, rfl⟩
  | mp l =>
    simp only [AnyLayer.switch_to_training, MaxPoolLayer.switch_to_training,
      MaxPoolLayer.update_tensors, total_size_ok (b := b) h, ok_bind]
    exact ⟨_, rfl⟩
  | sm l =>
    simp only [AnyLayer.switch_to_training, SoftmaxLayer.switch_to_training,
      SoftmaxLayer.update_tensors, ok_bind, TensorShape.new_1d,
      new_ok (F := F) (s := ⟨1, 1, 1⟩) (by decide), new_ok (F := F) h]
    exact ⟨_, rfl⟩

/-- switching modes keeps a layer well formed -/
theorem switch_training_keeps_ok {l l' : AnyLayer F} (h : l.Ok)
    (hl : l.switch_to_training b = .ok l') : l'.Ok := by
  have hf := ok_shapesFit h
  cases l with
  | conv l =>
    have h : l.Ok := h
    simp only [AnyLayer.switch_to_training, ConvolutionalLayer.switch_to_training,
      ConvolutionalLayer.update_tensors, kernel_grads_ok _ hf.1, ok_bind, TensorShape.new_1d,
      new_ok (F := F) (s := ⟨1, 1, 1⟩) (by decide), new_ok (F := F) hf.2] at hl
    cases hl
    change ConvolutionalLayer.Ok _
    refine ⟨h.stride, h.input, h.output, h.count, h.kernels, h.biasCount, h.biases, fun _ => ?_⟩
    refine ⟨⟨by simp, ?_⟩, ⟨by simp, ?_⟩, zeros_wf hf.2, rfl⟩
    · intro i h1 h2
      simp only [List.nil_append, List.getElem_map]
      exact ⟨zeros_wf (hf.1 _ (List.getElem_mem _)), rfl⟩
    · intro g hg
      rw [List.eq_of_mem_replicate hg]
      exact ⟨zeros_wf (by decide), rfl⟩
  | fc l =>
    have h : l.Ok := h
    simp only [AnyLayer.switch_to_training, FullyConnectedLayer.switch_to_training,
      FullyConnectedLayer.update_tensors, FullyConnectedLayer.get_output_shape,
      new_ok (F := F) hf.1, new_ok (F := F) hf.2, ok_bind] at hl
    cases hl
    have e1 := fill_ok (zero : F) (zeros_wf hf.1)
    have e2 := fill_ok (zero : F) (zeros_wf hf.2)
    change FullyConnectedLayer.Ok _
    exact ⟨h.weights, h.bias, h.rows, h.depth, fun _ => ⟨⟨e1.1, e1.2.1⟩, ⟨e1.1, e1.2.1⟩,
      ⟨e2.1, e2.2.1⟩, ⟨e2.1, e2.2.1⟩⟩⟩
  | mp l =>
    have h : l.Ok := h
    simp only [AnyLayer.switch_to_training, MaxPoolLayer.switch_to_training,
      MaxPoolLayer.update_tensors, total_size_ok (b := b) hf, ok_bind] at hl
    cases hl
    change MaxPoolLayer.Ok _
    refine ⟨h.stride, h.tiles, h.depth, h.input, h.output, fun _ => ?_⟩
    simp only [MaxPoolLayer.clear_gradients, List.length_map, List.length_replicate]
    exact toNat_ofNat_lt h.output.2
  | sm l =>
    have h : l.Ok := h
    simp only [AnyLayer.switch_to_training, SoftmaxLayer.switch_to_training,
      SoftmaxLayer.update_tensors, ok_bind, TensorShape.new_1d,
      new_ok (F := F) (s := ⟨1, 1, 1⟩) (by decide), new_ok (F := F) hf] at hl
    cases hl
    have e1 := fill_ok (zero : F) (zeros_wf (s := ⟨1, 1, 1⟩) (by decide))
    have e2 := fill_ok (zero : F) (zeros_wf h.shape)
    change SoftmaxLayer.Ok _
    exact ⟨h.shape, fun _ => ⟨⟨e1.1, e1.2.1⟩, ⟨e2.1, e2.2.1⟩⟩⟩

theorem switch_inference_keeps_ok {l l' : AnyLayer F} (h : l.Ok)
    (hl : l.switch_to_inference b = .ok l') : l'.Ok := by
  cases l with
  | conv l =>
    have h : l.Ok := h
    simp only [AnyLayer.switch_to_inference, ConvolutionalLayer.switch_to_inference,
      ConvolutionalLayer.update_tensors, empty_ok, ok_bind] at hl
    cases hl
    change ConvolutionalLayer.Ok _
    exact ⟨h.stride, h.input, h.output, h.count, h.kernels, h.biasCount, h.biases,
      fun h => by cases h⟩
  | fc l =>
    have h : l.Ok := h
    simp only [AnyLayer.switch_to_inference, FullyConnectedLayer.switch_to_inference,
      FullyConnectedLayer.update_tensors, empty_ok, ok_bind] at hl
    cases hl
    change FullyConnectedLayer.Ok _
    exact ⟨h.weights, h.bias, h.rows, h.depth, fun h => by cases h⟩
  | mp l =>
    have h : l.Ok := h
    cases hl
    change MaxPoolLayer.Ok _
    exact ⟨h.stride, h.tiles, h.depth, h.input, h.output, fun h => by cases h⟩
  | sm l =>
    have h : l.Ok := h
    simp only [AnyLayer.switch_to_inference, SoftmaxLayer.switch_to_inference,
      SoftmaxLayer.update_tensors, empty_ok, ok_bind] at hl
    cases hl
    change SoftmaxLayer.Ok _
    exact ⟨h.shape, fun h => by cases h⟩

end Rusty
