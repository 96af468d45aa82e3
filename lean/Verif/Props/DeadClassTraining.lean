import Verif.Props.DeadClass
import Verif.Props.DeadUnits
import Verif.Props.Classifier

/-! # C160: classes below the ReLU are not trained -/

namespace Rusty

open F32Ops Spec F32

variable [Libm]

/-- C160: training on an example for which the score of a class is not positive records nothing for this class, whatever
the gradient of the loss is, so also if it is the right class: the recorded gradients of its weights and its bias stay
the same numbers, or become NaN, which does not happen if the gradient that reaches the layer and its input are
finite. -/
theorem C160_training (b : Build) (n : Net F32) (hn : Trains b n) (hbk : ∀ l ∈ n.get_layers, backable l)
    (pre : List (AnyLayer F32)) (l : FullyConnectedLayer F32) (m : SoftmaxLayer F32)
    (hl : n.get_layers = pre ++ [.fc l, .sm m]) (x : Tensor F32) (hx : x.WF) (hxs : x.shape = n.get_input_shape)
    (g : Tensor F32) (hg : g.WF ∧ g.shape = n.get_output_shape) :
    ∃ n0 s n1 l1, n.infer b x = .ok (.ok (), n0) ∧ n0.get_intermediate_state pre.length = .ok s ∧
      n0.backward b g = .ok (.ok (), n1) ∧ n1.get_layers[pre.length]? = some (.fc l1) ∧
      ∀ o, o < l.weights.shape.di.toNat → F32Ops.gt (preact l s o) zero = false →
        UnitGradients b SameOrNaN l l1 o ∧
        (GradientFinite n1 (pre.length + 1) → StateFinite n0 pre.length →
          UnitGradients b (fun v u => u.isNaN = false → SameNumber v u) l l1 o) := by
  obtain ⟨n0, s, z, y, h1, h2, h3, _, hz, _, ez, _, h⟩ := classifier_states b (trains_built hn) hl hx hxs
  have hat : n.get_layers[pre.length]? = some (.fc l) := by rw [hl]; simp
  obtain ⟨hok, ht⟩ := trains_ready hn
  have hne : n.layers ≠ [] := List.ne_nil_of_mem (List.mem_of_getElem? hat)
  obtain ⟨n0', n1, k1, k2, _, k3⟩ := net_round (b := b) hok ht hne hbk hx hxs hg.1 hg.2
  obtain rfl : n0 = n0' := (Prod.mk.inj (Except.ok.inj (h1.symm.trans k1))).2
  obtain ⟨l2, _, _, _, _, p1, _, _, _, _, p6⟩ := k3 _ _ hat
  obtain ⟨l1, rfl, _⟩ := unit_gradients hn hat p6
  refine ⟨n0, s, n1, l1, h1, h2, k2, p1, fun o ho hd => ?_⟩
  have hdead : Dead n0 pre.length o := ⟨z, h3, by
    rw [(h o ho).1, act_unlit _ (preact_summed l s o) hd]
    rfl⟩
  obtain ⟨n1', l1', q1, q2, q3⟩ := C144_unit b n hn hbk x hx hxs g hg n0 h1 _ l hat o ho hdead
  rw [k2] at q1
  cases q1
  cases p1.symm.trans q2
  exact q3

/-- a layer with two scores and softmax, and the input -1, for which both scores are -1 -/
example : ∃ n : Net F32, Trains .debug n ∧ (∀ l ∈ n.get_layers, backable l) ∧
    n.get_layers = [] ++ [.fc exScores, .sm exSM2] ∧ (single ⟨0xbf800000⟩).shape = n.get_input_shape ∧
    (pairOf ⟨0⟩ ⟨0x3f800000⟩).shape = n.get_output_shape ∧
    ∀ o, o < 2 → F32Ops.gt (preact exScores (single ⟨0xbf800000⟩) o) zero = false := by
  obtain ⟨n, hn, hls, hin, hout⟩ : ∃ n : Net F32, Trains .debug n ∧
      n.get_layers = [.fc exScores, .sm exSM2] ∧ n.get_input_shape = ⟨1, 1, 1⟩ ∧
      n.get_output_shape = ⟨2, 1, 1⟩ :=
    ⟨_, .add_layer _ (.sm exSM2) (.ok ()) _ (.add_layer _ (.fc exScores) (.ok ()) _ .new exScores_ok rfl)
      exSM2_ok rfl, rfl, rfl, rfl⟩
  refine ⟨n, hn, ?_, hls, by rw [hin]; rfl, by rw [hout]; rfl, fun o ho => ?_⟩
  · rw [hls]
    intro l hl
    simp only [List.mem_cons, List.not_mem_nil, or_false] at hl
    rcases hl with rfl | rfl
    · trivial
    · exact ⟨rfl, rfl⟩
  · have e : ∀ o, o < 2 → val exScores.weights o 0 0 = ⟨0x3f800000⟩ ∧ val exScores.bias o 0 0 = ⟨0⟩ := fun o ho => by
      have : o = 0 ∨ o = 1 := by omega
      rcases this with rfl | rfl <;> exact ⟨rfl, rfl⟩
    unfold preact
    rw [show (List.range exScores.weights.shape.dj.toNat) = [0] from rfl]
    simp only [Spec.sum, List.map_cons, List.map_nil, List.foldl_cons, List.foldl_nil]
    rw [(e o ho).1, (e o ho).2]
    change F32.gt (F32.add (F32.add ⟨0⟩ (F32.mul ⟨0x3f800000⟩ ⟨0xbf800000⟩)) ⟨0⟩) ⟨0⟩ = false
    decide +kernel

end Rusty
