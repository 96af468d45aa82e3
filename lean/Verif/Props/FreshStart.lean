import Verif.Lemmas.FreshStart
import Verif.Lemmas.UnwindNet
import Verif.Props.UnwindRun

/-! # C111: a mode switch makes a network forget its history -/

namespace Rusty

open F32Ops Spec

variable {F : Type} [F32Ops F]

/-- C111 for layers: `forward` writes every element of the output, so neither its result nor the layer afterwards depends
on what the output tensor held before. -/
theorem C111_layer (b : Build) (l : AnyLayer F) (hl : l.Ok) (x o o' : Tensor F) (hx : x.WF)
    (hxs : x.shape = l.get_input_shape) (ho : o.WF) (hos : o.shape = l.get_output_shape) (ho' : o'.WF)
    (hos' : o'.shape = l.get_output_shape) : l.forward b x o = l.forward b x o' :=
  forward_overwrites hl hx hxs ho hos ho' hos'

/-- C111 for networks: two networks with the same layers, apart from what the layers collected, are the same network -
layers, states, gradients, shapes and mode - after a switch to the same mode and an `infer` of the same input. -/
theorem C111_network (b : Build) (n m : Net F) (hn : Built b n) (hm : Built b m)
    (hp : m.get_layers.map params = n.get_layers.map params) (hne : n.get_layers ≠ []) :
    (∃ n1 m1, n.switch_to_training b = .ok n1 ∧ m.switch_to_training b = .ok m1 ∧
      ∀ x : Tensor F, x.WF → x.shape = n.get_input_shape →
        ∃ k, n1.infer b x = .ok (.ok (), k) ∧ m1.infer b x = .ok (.ok (), k)) ∧
    ∃ n1 m1, n.switch_to_inference b = .ok n1 ∧ m.switch_to_inference b = .ok m1 ∧
      ∀ x : Tensor F, x.WF → x.shape = n.get_input_shape →
        ∃ k, n1.infer b x = .ok (.ok (), k) ∧ m1.infer b x = .ok (.ok (), k) :=
  fresh_start (built_netOk hn) (built_netOk hm) hp hne

/-- C111 for histories: whatever `infer`, `backward` and mode switches a network went through, with any arguments and
with panics that the caller caught, after a mode switch and an `infer` it is the network that the same switch and
`infer` give without that history. -/
theorem C111_history (b : Build) (n m : Net F) (hn : Built b n) (h : AttemptsMany b n m) (hne : n.get_layers ≠ []) :
    (∃ n1 m1, n.switch_to_training b = .ok n1 ∧ m.switch_to_training b = .ok m1 ∧
      ∀ x : Tensor F, x.WF → x.shape = n.get_input_shape →
        ∃ k, n1.infer b x = .ok (.ok (), k) ∧ m1.infer b x = .ok (.ok (), k)) ∧
    ∃ n1 m1, n.switch_to_inference b = .ok n1 ∧ m.switch_to_inference b = .ok m1 ∧
      ∀ x : Tensor F, x.WF → x.shape = n.get_input_shape →
        ∃ k, n1.infer b x = .ok (.ok (), k) ∧ m1.infer b x = .ok (.ok (), k) := by
  have hok := built_netOk hn
  obtain ⟨k1, k2, _⟩ := attemptsMany_ok hok h
  exact fresh_start hok k1 k2 hne

namespace UnwindRun

open Toy in
/-- the network of C94 after a `backward` that panicked half way: its layer holds gradients, and a switch to training
followed by `infer` gives the network that never saw that call -/
example : ∃ m k, AttemptsMany .debug exNet m ∧ m.layers ≠ exNet.layers ∧
    (∃ n1, exNet.switch_to_training .debug = .ok n1 ∧ n1.infer .debug exInput = .ok (.ok (), k)) ∧
    ∃ m1, m.switch_to_training .debug = .ok m1 ∧ m1.infer .debug exInput = .ok (.ok (), k) := by
  have h : (Network.new .Training).add_layer .debug (.conv exLayer) = .ok (.ok (), exNet) := rfl
  have hh : AttemptsMany .debug exNet _ := .more _ _ _ (.more _ _ _ (.none _) (.infer _ exInput))
    (.backward _ ⟨⟨1, 1, 1⟩, ⟨1, 1, 1⟩, [1]⟩)
  obtain ⟨⟨n1, m1, e1, e2, e3⟩, _⟩ := C111_history .debug exNet _ (.add_layer _ _ _ _ (.new _) exLayer_ok h) hh
    (by decide)
  obtain ⟨k, k1, k2⟩ := e3 exInput ⟨(by decide : (⟨2, 2, 1⟩ : TensorShape).Fits), rfl, rfl, rfl, rfl⟩ rfl
  refine ⟨_, k, hh, ?_, ⟨n1, e1, k1⟩, m1, e2, k2⟩
  intro e
  have e' : (Network.backward_u .debug ⟨⟨1, 1, 1⟩, ⟨1, 1, 1⟩, [1]⟩ exNet1).2.layers = exNet.layers := e
  have e0 : (Network.backward_u .debug ⟨⟨1, 1, 1⟩, ⟨1, 1, 1⟩, [1]⟩ exNet1).2.layers = [.conv { exLayer with
      run_state := .Training
      kernel_gradients := [⟨⟨1, 2, 4⟩, ⟨2, 2, 1⟩, [1, 2, 3, 4]⟩]
      bias_gradients := [⟨⟨1, 1, 1⟩, ⟨1, 1, 1⟩, [0]⟩]
      relu_mask := ⟨⟨1, 1, 1⟩, ⟨1, 1, 1⟩, [1]⟩ }] := rfl
  rw [e0] at e'
  cases e'

open Toy in
/-- without the switch the two networks differ: `backward` changes the network and `infer` does not undo it -/
example : ∃ n m k k' : Net Int, ∃ x : Tensor Int, (Built .debug n ∧ AttemptsMany .debug n m ∧
    n.infer .debug x = .ok (.ok (), k) ∧ m.infer .debug x = .ok (.ok (), k')) ∧ k ≠ k' := by
  have h : (Network.new .Training).add_layer .debug (.conv exLayer) = .ok (.ok (), exNet) := rfl
  refine ⟨exNet, _, exNet1, _, exInput, ⟨.add_layer _ _ _ _ (.new _) exLayer_ok h,
    .more _ _ _ (.more _ _ _ (.none _) (.infer _ exInput)) (.backward _ ⟨⟨1, 1, 1⟩, ⟨1, 1, 1⟩, [1]⟩), rfl, rfl⟩, ?_⟩
  intro e
  have := congrArg Network.layers e
  cases this

end UnwindRun

end Rusty
