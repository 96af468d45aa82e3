import Verif.Spec.CutNet
import Verif.Spec.Serialization
import Verif.Lemmas.CutNet
import Verif.Lemmas.CutNoticed
import Verif.Props.NetworkFiles
import Verif.Spec.Toy

/-! # C134: a network with incomplete parameters predicts as the complete one or not at all -/

namespace Rusty

open F32Ops Spec

variable {F : Type} [F32Ops F]

/-- C134, prediction: what `infer` returns with incomplete parameters, it returns with the complete ones, and leaves
the same intermediate states, gradients and masks. -/
theorem C134_infer (b : Build) (n n' m : Net F) (h : CutNet n n') (x : Tensor F) (r : Res)
    (hi : n.infer b x = .ok (r, m)) : ∃ m', n'.infer b x = .ok (r, m') ∧ CutNet m m' ∧
      m.intermediate_states = m'.intermediate_states ∧ m.get_output = m'.get_output := by
  obtain ⟨⟨r', m'⟩, h1, h2, h3⟩ := infer_le h b x _ hi
  simp only at h2 h3
  subst h2
  have e : m.intermediate_states = m'.intermediate_states := by rw [h3.2]
  refine ⟨m', h1, h3, e, ?_⟩
  unfold Network.get_output
  rw [e]

/-- C134, training: the same for `backward` and the recorded gradients. -/
theorem C134_backward (b : Build) (n n' m : Net F) (h : CutNet n n') (g : Tensor F) (r : Res)
    (hi : n.backward b g = .ok (r, m)) : ∃ m', n'.backward b g = .ok (r, m') ∧ CutNet m m' ∧
      m.intermediate_gradients = m'.intermediate_gradients := by
  obtain ⟨⟨r', m'⟩, h1, h2, h3⟩ := backward_net_le h b g _ hi
  simp only at h2 h3
  subst h2
  exact ⟨m', h1, h3, by rw [h3.2]⟩

/-- C134, modes: the relation stays when both networks change to inference, and when they change to training if no
fully connected layer lacks a part of its bias. -/
theorem C134_modes (b : Build) (n n' m : Net F) (h : CutNet n n') :
    (n.switch_to_inference b = .ok m → ∃ m', n'.switch_to_inference b = .ok m' ∧ CutNet m m') ∧
    (List.Forall₂ SameBias n.layers n'.layers → n.switch_to_training b = .ok m →
      ∃ m', n'.switch_to_training b = .ok m' ∧ CutNet m m') :=
  ⟨to_inference_le h b m, fun hb => to_training_le h hb b m⟩

/-- C134, files: `n` and `n'` are any networks, of which one has the parameters of the other with data missing.  If the
file of `n` can be loaded, so can that of `n'`, and the loaded networks are related.  To load into training mode, the
biases of fully connected layers must be complete. -/
theorem C134_load [F32Bits F] (b : Build) (n n' m : Net F) (h : List.Forall₂ CutLayer n.layers n'.layers)
    (mode : NetworkRunState) (hm : mode = .Training → List.Forall₂ SameBias n.layers n'.layers) (o o' : HashOrder)
    (h1 : (fileOf o n).length < 2 ^ 64) (h2 : (fileOf o' n').length < 2 ^ 64) (fs fs' fs1 fs1' : FS)
    (name name' : String) (hs : n.save_to_file o .done fs name = (.ok (), fs1))
    (hs' : n'.save_to_file o' .done fs' name' = (.ok (), fs1')) (r : Res)
    (hl : (Network.new mode : Net F).load_from_file b fs1 name = .ok (r, m)) :
    ∃ m', (Network.new mode : Net F).load_from_file b fs1' name' = .ok (r, m') ∧ CutNet m m' := by
  rw [load_saved b n _ o h1 fs1 name [] (saved_file hs)] at hl
  rw [load_saved b n' _ o' h2 fs1' name' [] (saved_file hs')]
  obtain ⟨⟨r', m'⟩, q1, q2, q3⟩ := populate_le h b mode hm o o' h1 h2
    (k := Network.new mode) (k' := Network.new mode) ⟨.nil, rfl⟩ rfl _ hl
  simp only at q2 q3
  subst q2
  exact ⟨m', q1, q3⟩

open Toy in
/-- The bias of a fully connected layer in training mode is added element by element: if a part is missing, `infer`
returns `Ok` with another output. -/
theorem C134_bias : ∃ (l l' : FullyConnectedLayer Int) (x y : Tensor Int), l.run_state = .Training ∧
    CutLayer (.fc l) (.fc l') ∧ l'.weights.WF ∧ l'.bias.WF ∧ x.WF ∧ y.WF ∧
    ∃ k k' o o', l.forward .release x y = .ok (.ok (), k, o) ∧ l'.forward .release x y = .ok (.ok (), k', o') ∧
      o.data ≠ o'.data := by
  let w : Tensor Int := ⟨⟨1, 2, 2⟩, ⟨2, 1, 1⟩, [1, 1]⟩
  let v : Tensor Int := ⟨⟨1, 2, 2⟩, ⟨2, 1, 1⟩, [5, 7]⟩
  let x : Tensor Int := ⟨⟨1, 1, 1⟩, ⟨1, 1, 1⟩, [1]⟩
  let l : FullyConnectedLayer Int := ⟨w, w, w, ⟨⟨1, 2, 2⟩, ⟨2, 1, 1⟩, [5]⟩, v, v, "", .Training⟩
  exact ⟨l, { l with weights := w, bias := v }, x, v, rfl, .fc l w v (Cut.refl w) ⟨rfl, rfl, 1, rfl⟩,
    by constructor <;> decide, by constructor <;> decide, by constructor <;> decide, by constructor <;> decide,
    _, _, _, _, rfl, rfl, by decide⟩

/-- C134, notice: for a network that was built with `add_layer` and an input of the right shape, `infer` returns only if
nothing is missing: one lost element of any parameter makes every prediction panic. -/
theorem C134_noticed (b0 b : Build) (n n' m : Net F) (h : CutNet n n') (hn : Built b0 n') (x : Tensor F) (hx : x.WF)
    (hxs : x.shape = n'.get_input_shape) (r : Res) (hi : n.infer b x = .ok (r, m)) : n = n' :=
  infer_complete h (built_netOk hn) hx hxs hi

/-! A network with one layer that has lost the second of two weights: its prediction panics, that of the complete network
returns. -/

open Toy in
example : ∃ n n' : Net Int, Built .debug n' ∧ CutNet n n' ∧ n ≠ n' ∧
    ∃ x : Tensor Int, x.WF ∧ x.shape = n'.get_input_shape ∧ n.infer .debug x = .error .oob ∧
      ∃ m, n'.infer .debug x = .ok (.ok (), m) := by
  let w : Tensor Int := ⟨⟨1, 2, 2⟩, ⟨2, 1, 1⟩, [1, 1]⟩
  let v : Tensor Int := ⟨⟨1, 2, 2⟩, ⟨2, 1, 1⟩, [5, 7]⟩
  let x : Tensor Int := ⟨⟨1, 1, 1⟩, ⟨1, 1, 1⟩, [1]⟩
  let l : FullyConnectedLayer Int :=
    ⟨⟨⟨1, 2, 2⟩, ⟨2, 1, 1⟩, [1]⟩, zeros ⟨1, 1, 1⟩, zeros ⟨1, 1, 1⟩, v, zeros ⟨1, 1, 1⟩, zeros ⟨1, 1, 1⟩, "", .Inference⟩
  let l' : FullyConnectedLayer Int := { l with weights := w, bias := v }
  have hl : (AnyLayer.fc l').Ok :=
    ⟨⟨(by decide : (⟨2, 1, 1⟩ : TensorShape).Fits), rfl, rfl, rfl, rfl⟩,
      ⟨(by decide : (⟨2, 1, 1⟩ : TensorShape).Fits), rfl, rfl, rfl, rfl⟩, rfl, rfl, nofun⟩
  let n' : Net Int := ⟨[.fc l'], [zeros ⟨1, 1, 1⟩, zeros ⟨2, 1, 1⟩], [], ⟨1, 1, 1⟩, ⟨2, 1, 1⟩, .Inference⟩
  refine ⟨{ n' with layers := [.fc l] }, n', .add_layer _ (.fc l') (.ok ()) _ (.new .Inference) hl rfl,
    ⟨.cons ⟨.fc l w v ⟨rfl, rfl, 1, rfl⟩ (Cut.refl v), nofun⟩ .nil, rfl⟩, ?_, x, by constructor <;> decide, rfl, rfl,
    _, rfl⟩
  intro e
  have e := congrArg Network.layers e
  simp [n', l', l, w] at e

end Rusty
