import Verif.Lemmas.Order
import Verif.Lemmas.Split
import Verif.Lemmas.Infer
import Verif.Props.Network

/-! # The states of a classifier -/

namespace Rusty

open F32Ops Spec

variable {F : Type} [F32Ops F]

/-- what `max(x, 0)` gives where nothing is positive -/
theorem act_unlit [MaxZero F] (m : NetworkRunState) {v : F} (hv : Summed v) (h : gt v zero = false) :
    act m v = zero := by
  cases m with
  | Inference =>
    change fmax v zero = zero
    rw [MaxZero.fmax_zero v hv, h]
    rfl
  | Training =>
    change relu v = zero
    unfold relu
    rw [h]
    rfl

theorem preact_summed (l : FullyConnectedLayer F) (x : Tensor F) (o : Nat) : Summed (preact l x o) :=
  .add _ _ (summed_sum _)

/-- the states around the last two layers, a fully connected layer and softmax -/
theorem classifier_states (b : Build) {n : Net F} (hn : Built b n) {pre : List (AnyLayer F)}
    {l : FullyConnectedLayer F} {m : SoftmaxLayer F} (hl : n.get_layers = pre ++ [.fc l, .sm m]) {x : Tensor F}
    (hx : x.WF) (hxs : x.shape = n.get_input_shape) :
    ∃ n' s z y, n.infer b x = .ok (.ok (), n') ∧ n'.get_intermediate_state pre.length = .ok s ∧
      n'.get_intermediate_state (pre.length + 1) = .ok z ∧ n'.get_output = .ok y ∧ z.WF ∧ y.WF ∧
      z.shape = ⟨l.weights.shape.di, 1, 1⟩ ∧ y.shape = z.shape ∧
      (∀ o, o < l.weights.shape.di.toNat → val z o 0 0 = act l.run_state (preact l s o) ∧
        val y o 0 0 = softmaxAt z o 0 0) := by
  have hok := built_netOk hn
  have hne : n.layers ≠ [] := by change n.get_layers ≠ []; rw [hl]; simp
  have hlen : n.layers.length = pre.length + 2 := by change n.get_layers.length = _; rw [hl]; simp
  have hat : n.layers[pre.length]? = some (.fc l) := by
    change n.get_layers[pre.length]? = _
    rw [hl]; simp
  have hat' : n.layers[pre.length + 1]? = some (.sm m) := by
    change n.get_layers[pre.length + 1]? = _
    rw [hl]; simp
  obtain ⟨n', h1, _, h3⟩ := infer_ok (b := b) hok hne hx hxs
  obtain ⟨s, z, g1, g2, g3, _⟩ := h3 _ _ hat
  obtain ⟨z', y, f1, f2, f3, _, _, _, _, fs, _⟩ := h3 _ _ hat'
  rw [g2] at f1
  obtain rfl := Option.some.inj f1
  obtain ⟨u, u1, u2⟩ := infer_last_state hok hne h1
  rw [hlen, f2] at u2
  obtain rfl := Option.some.inj u2
  have o1 : l.Ok := hok.layers (.fc l) (List.mem_of_getElem? hat)
  have e1 : z.shape = ⟨l.weights.shape.di, 1, 1⟩ := g3.2.1.trans o1.rows
  have e2 : y.shape = z.shape := f3.2.1.trans fs.symm
  refine ⟨n', s, z, y, h1, ?_, ?_, u1, g3.1, f3.1, e1, e2, fun o ho => ?_⟩
  · unfold Network.get_intermediate_state; rw [g1]
  · unfold Network.get_intermediate_state; rw [g2]
  · have hin : z.shape.Inside o 0 0 := by rw [e1]; exact ⟨ho, Nat.one_pos, Nat.one_pos⟩
    exact ⟨applies_val g3 (by rw [← g3.2.1]; exact hin), applies_val f3 (by rw [← f3.2.1, e2]; exact hin)⟩

end Rusty
