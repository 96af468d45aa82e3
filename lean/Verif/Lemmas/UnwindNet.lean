import Verif.Lemmas.UnwindRun
import Verif.Lemmas.Batch
import Verif.Lemmas.Infer
import Verif.Spec.UnwindRun

/-! # Helper lemmas: networks after calls that may panic -/

namespace Rusty

open F32Ops Unwind Spec

variable {F : Type} [F32Ops F]

/-- a mode switch looks only at the parameters -/
theorem switch_of_params (b : Build) {l l' : AnyLayer F} (h : params l' = params l) :
    l'.switch_to_training b = l.switch_to_training b ∧ l'.switch_to_inference b = l.switch_to_inference b := by
  cases l <;> cases l' <;> simp only [params, AnyLayer.conv.injEq, AnyLayer.fc.injEq,
    AnyLayer.mp.injEq, AnyLayer.sm.injEq, ConvolutionalLayer.mk.injEq,
    FullyConnectedLayer.mk.injEq, MaxPoolLayer.mk.injEq, SoftmaxLayer.mk.injEq, reduceCtorEq] at h
  · obtain ⟨h1, h2, _, _, h3, _, h4, h5, h6, _⟩ := h
    simp only [AnyLayer.switch_to_training, AnyLayer.switch_to_inference, ConvolutionalLayer.switch_to_training,
      ConvolutionalLayer.switch_to_inference, ConvolutionalLayer.update_tensors, *]
    trivial
  · obtain ⟨h1, _, _, h2, _, _, h3, _⟩ := h
    simp only [AnyLayer.switch_to_training, AnyLayer.switch_to_inference, FullyConnectedLayer.switch_to_training,
      FullyConnectedLayer.switch_to_inference, FullyConnectedLayer.update_tensors,
      FullyConnectedLayer.clear_gradients, FullyConnectedLayer.get_output_shape, *]
    trivial
  · obtain ⟨h1, h2, h3, h4, h5, _⟩ := h
    simp only [AnyLayer.switch_to_training, AnyLayer.switch_to_inference, MaxPoolLayer.switch_to_training,
      MaxPoolLayer.switch_to_inference, MaxPoolLayer.update_tensors, MaxPoolLayer.clear_gradients, *]
    trivial
  · obtain ⟨h1, h2, _⟩ := h
    simp only [AnyLayer.switch_to_training, AnyLayer.switch_to_inference, SoftmaxLayer.switch_to_training,
      SoftmaxLayer.switch_to_inference, SoftmaxLayer.update_tensors, SoftmaxLayer.clear_gradients, *]
    trivial

theorem infer_u_netOk {n : Net F} (hn : NetOk n) (b : Build) (x : Tensor F) :
    NetOk (Network.infer_u b x n).2 := by
  obtain ⟨e1, e2, _, e4, e5, _⟩ := infer_keeps b x n
  refine ⟨chain_congr hn.chain (like_map_params e1) ?_ e4 e5, fun l hl => ?_, ?_⟩
  · rcases e2 with ⟨e, e2⟩ | e2
    · rw [sameLayouts_shapes e2]
      exact set_zero_shapes (chain_head hn.chain) e.symm
    · rw [e2]
  · obtain ⟨l0, h1, h2⟩ := forall₂_mem e1 hl
    exact like_ok h2 (hn.layers l0 h1)
  · rcases e2 with ⟨_, e2⟩ | e2
    · intro s hs
      have := sameLayouts_tail e2
      rw [show (n.intermediate_states.set 0 x).tail = n.intermediate_states.tail by
        cases n.intermediate_states <;> rfl] at this
      obtain ⟨s0, h1, h2⟩ := forall₂_mem this hs
      exact (sameLayout_wf h2 (hn.states s0 h1)).1
    · rw [e2]
      exact hn.states

theorem backward_u_netOk {n : Net F} (hn : NetOk n) (b : Build) (g : Tensor F) :
    NetOk (Network.backward_u b g n).2 := by
  obtain ⟨e1, _, e3, e4, e5, _⟩ := net_backward_keeps b g n
  refine ⟨chain_congr hn.chain (like_map_params e1) (by rw [e3]) e4 e5, fun l hl => ?_, ?_⟩
  · obtain ⟨l0, h1, h2⟩ := forall₂_mem e1 hl
    exact like_ok h2 (hn.layers l0 h1)
  · rw [e3]
    exact hn.states

/-- on well formed networks the switches return -/
theorem switches_return {n : Net F} (hok : NetOk n) (b : Build) :
    (∃ nt, n.switch_to_training b = .ok nt) ∧ ∃ ni, n.switch_to_inference b = .ok ni := by
  constructor
  · obtain ⟨ls, h1⟩ := mapM_ok (LayerOps.switch_to_training b) n.layers
      (fun l hl => switch_training_ok (b := b) (ok_shapesFit (hok.layers l hl)))
    obtain ⟨gs, h2⟩ := mapM_ok (fun t : Tensor F => (Tensor.new b t.shape : Exec (Tensor F)))
      n.intermediate_states (fun t ht => ⟨_, new_ok (states_fit hok t ht)⟩)
    exact ⟨_, by unfold Network.switch_to_training; rw [h1, ok_bind, h2]; rfl⟩
  · obtain ⟨ls, h1⟩ := mapM_ok (LayerOps.switch_to_inference b) n.layers
      (fun l _ => by
        obtain ⟨l', h, _⟩ := switch_inference_ok (b := b) l
        exact ⟨l', h⟩)
    exact ⟨_, by unfold Network.switch_to_inference; rw [h1]; rfl⟩

theorem attempts_ok {b : Build} {n n' : Net F} (hn : NetOk n) (h : Attempts b n n') :
    NetOk n' ∧ n'.layers.map params = n.layers.map params ∧ n'.input_shape = n.input_shape := by
  cases h with
  | infer x =>
    obtain ⟨h1, _, _, h4, _⟩ := infer_keeps b x n
    exact ⟨infer_u_netOk hn b x, like_map_params h1, h4⟩
  | backward g =>
    obtain ⟨h1, _, _, h4, _⟩ := net_backward_keeps b g n
    exact ⟨backward_u_netOk hn b g, like_map_params h1, h4⟩
  | switch_to_training =>
    obtain ⟨m, hm⟩ := (switches_return hn b).1
    have e := Network.training_u b n
    rw [hm, ok_bind, forget_ok] at e
    rw [e]
    exact ⟨uses_netOk hn (.switch_to_training _ _ hm), uses_params (.switch_to_training _ _ hm),
      (net_switch_training_effect n _ hm).2.2.2.1⟩
  | switch_to_inference =>
    obtain ⟨m, hm⟩ := (switches_return hn b).2
    have e := Network.inference_u b n
    rw [hm, ok_bind, forget_ok] at e
    rw [e]
    exact ⟨uses_netOk hn (.switch_to_inference _ _ hm), uses_params (.switch_to_inference _ _ hm),
      (net_switch_inference_effect n _ hm).2.2.2.1⟩

theorem attemptsMany_ok {b : Build} {n n' : Net F} (hn : NetOk n) (h : AttemptsMany b n n') :
    NetOk n' ∧ n'.layers.map params = n.layers.map params ∧ n'.input_shape = n.input_shape := by
  induction h with
  | none => exact ⟨hn, rfl, rfl⟩
  | more n1 n2 _ h ih =>
    obtain ⟨a1, a2, a3⟩ := attempts_ok ih.1 h
    exact ⟨a1, a2.trans ih.2.1, a3.trans ih.2.2⟩

end Rusty
