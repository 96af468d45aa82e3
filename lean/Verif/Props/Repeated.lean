import Verif.Lemmas.Repeated
import Verif.Lemmas.Real
import Verif.Props.FullyConnected
import Verif.Props.ConvLayer
import Verif.Props.Network

/-!
# C83: `backward` again without another `forward`

The claim fails for fully connected layers, see `C83_negation`; everything else is `_partial`.
-/

namespace Rusty

open F32Ops Spec

variable {F : Type} [F32Ops F]

/-- C83, fully connected layers: any number of `backward` calls without a `forward` in between succeed.  Call
number `n` does not pass on its own gradient behind the relu, but the product of the gradients of all calls so far:
that is what its outgoing gradient is made of and what the stored gradients grow by.

Partial: this describes what happens; the claim holds for the first call only. -/
theorem C83_fully_connected_partial (b : Build) (l : FullyConnectedLayer F) (hl : l.Ok)
    (hm : l.run_state = .Training) (x : Tensor F) (hx : x.WF) (hxs : x.shape = l.get_input_shape)
    (cs : List (BackCall F)) (hc : ∀ c ∈ cs, c.FitsFC l) :
    ∃ ogs l', BackCalls b x l cs ogs l' ∧ l'.Ok ∧ l.SameParams l' ∧ ogs.length = cs.length ∧
      (∀ (n : Nat) og, ogs[n]? = some og → ∀ i, i < l.weights.shape.dj.toNat →
        og.get_item b (ix i 0 0) = .ok (sum ((List.range l.weights.shape.di.toNat).map fun o =>
          mul (val l.weights o i 0) (arrives l cs n o)))) ∧
      ∀ o, o < l.weights.shape.di.toNat →
        l'.bias_gradients.get_item b (ix o 0 0) =
          .ok (((List.range cs.length).map fun n => arrives l cs n o).foldl add
            (val l.bias_gradients o 0 0)) ∧
        ∀ i, i < l.weights.shape.dj.toNat →
          l'.weights_gradients.get_item b (ix o i 0) =
            .ok (((List.range cs.length).map fun n =>
              sum [mul (arrives l cs n o) (val x i 0 0)]).foldl add (val l.weights_gradients o i 0)) := by
  induction cs generalizing l with
  | nil =>
    have hb := hl.buffers hm
    refine ⟨[], l, .done l, hl, ⟨rfl, rfl, rfl, rfl⟩, rfl, fun n og h => (nomatch h), fun o ho => ⟨?_, fun i hi => ?_⟩⟩
    · exact get_item_ok hb.2.2.1.1 (by rw [hb.2.2.1.2, hl.rows]; exact col_inside ho)
    · exact get_item_ok hb.1.1 (by rw [hb.1.2]; exact ⟨ho, hi, by rw [hl.depth]; decide⟩)
  | cons c cs ih =>
    obtain ⟨hg, hog⟩ := hc c (List.mem_cons_self ..)
    obtain ⟨l1, og, p1, p2, p3, p4, p5, p6, p7⟩ := fc_backward_training (b := b) (out := c.y) hl hm hx hxs
      hg.1 hg.2 hog.1 hog.2
    have hin : l1.get_input_shape = l.get_input_shape := by
      unfold FullyConnectedLayer.get_input_shape; rw [p2.1]
    have hout : l1.get_output_shape = l.get_output_shape := by
      unfold FullyConnectedLayer.get_output_shape; rw [p2.2.1]
    have hm1 : l1.run_state = .Training := by rw [p2.2.2.2]; exact hm
    obtain ⟨ogs, l', q1, q2, q3, q4, q5, q6⟩ := ih l1 p3 hm1 (by rw [hin]; exact hxs) (fun c' h' => by
      obtain ⟨g, o⟩ := hc c' (List.mem_cons_of_mem _ h')
      exact ⟨by rw [hout]; exact g, by rw [hin]; exact o⟩)
    have hmask : ∀ o, o < l.weights.shape.di.toNat →
        val l1.relu_mask o 0 0 = mul (val l.relu_mask o 0 0) (val c.g o 0 0) := by
      intro o ho
      obtain ⟨m1, m2⟩ := (hl.buffers hm).2.2.2
      rw [fc_backward_mask p1]
      refine (mul_self_ok m1 hg.1 (by rw [m2, hg.2]; rfl)).2.2 o 0 0 ?_
      rw [m2, hl.rows]; exact col_inside ho
    have harr : ∀ n o, o < l.weights.shape.di.toNat → arrives l1 cs n o = arrives l (c :: cs) (n + 1) o := by
      intro n o ho
      unfold arrives
      rw [List.take_succ_cons, List.foldl_cons, hmask o ho]
    have harr0 : ∀ o, arrives l (c :: cs) 0 o = mul (val l.relu_mask o 0 0) (val c.g o 0 0) := fun o => rfl
    have hb1 := p3.buffers hm1
    refine ⟨og :: ogs, l', .call l l1 l' c cs og ogs p1 q1, q2,
      ⟨q3.1.trans p2.1, q3.2.1.trans p2.2.1, q3.2.2.1.trans p2.2.2.1, q3.2.2.2.trans p2.2.2.2⟩,
      by simp [q4], ?_, ?_⟩
    · intro n og' h' i hi
      cases n with
      | zero =>
        cases h'
        rw [get_item_ok p4 (by rw [p5]; exact col_inside hi), p6 i hi]
        rfl
      | succ n =>
        have := q5 n og' h' i (by rw [p2.1]; exact hi)
        rw [this, p2.1]
        congr 2
        apply List.map_congr_left
        intro o ho
        rw [harr n o (List.mem_range.mp ho)]
    · intro o ho
      obtain ⟨e1, e2⟩ := p7 o ho
      obtain ⟨f1, f2⟩ := q6 o (by rw [p2.1]; exact ho)
      constructor
      · rw [f1, List.length_cons, List.range_succ_eq_map, List.map_cons, List.foldl_cons, e1, harr0, List.map_map]
        congr 2
        apply List.map_congr_left
        intro n _
        exact harr n o ho
      · intro i hi
        rw [f2 i (by rw [p2.1]; exact hi), List.length_cons, List.range_succ_eq_map, List.map_cons,
          List.foldl_cons, e2 i hi, harr0, List.map_map]
        congr 2
        apply List.map_congr_left
        intro n _
        change sum [mul (arrives l1 cs n o) _] = sum [mul (arrives l (c :: cs) (n + 1) o) _]
        rw [harr n o ho]

/-- C83, max pool layers: `backward` changes nothing in the layer, so repeating it, with whatever tensor to
overwrite, gives the same outgoing gradient. -/
theorem C83_max_pool_partial (b : Build) (l l1 : MaxPoolLayer) (x y g og og1 : Tensor F) (r : Res)
    (ho : og.WF) (h : l.backward b x y g og = .ok (r, l1, og1)) :
    l1 = l ∧ ∀ x' y' og', og'.WF → og'.shape = og.shape → l1.backward b x' y' g og' = .ok (r, l1, og1) := by
  have e : l1 = l := by
    unfold MaxPoolLayer.backward at h
    obtain ⟨⟨r1, t1⟩, _, h⟩ := bind_inv h
    cases h
    rfl
  subst e
  refine ⟨rfl, fun x' y' og' hw hs => ?_⟩
  rw [← h]
  unfold MaxPoolLayer.backward
  simp only
  rw [fill_same zero hw ho hs]

/-- C83, softmax layers over a column: repeating `backward` gives the same outgoing gradient and leaves the layer
as the first call did. -/
theorem C83_softmax_partial (b : Build) (l : SoftmaxLayer F) (hl : l.Ok) (hm : l.run_state = .Training)
    (hj : l.shape.dj = 1) (hk : l.shape.dk = 1) (x y g og : Tensor F) (hy : y.WF) (hys : y.shape = l.shape)
    (hg : g.WF) (hgs : g.shape = l.shape) (ho : og.WF) (hos : og.shape = l.shape) :
    ∃ l1 og1, l.backward b x y g og = .ok (.ok (), l1, og1) ∧ ∀ x' og', og'.WF → og'.shape = l.shape →
      l1.backward b x' y g og' = .ok (.ok (), l1, og1) :=
  sm_backward_same hl hm hj hk hy hys hg hgs ho hos

/-- C83, convolutional layers: repeating `backward` gives the same outgoing gradient and the same kernel and bias
gradients (kernel gradients are overwritten, not added to, and the mask is not used). -/
theorem C83_convolutional_partial (b : Build) (l l1 : ConvolutionalLayer F) (hl : l.Ok)
    (hm : l.run_state = .Training) (x y g og og1 : Tensor F) (hx : x.WF) (hxs : x.shape = l.input_shape)
    (hg : g.WF) (hgs : g.shape = l.output_shape) (h : l.backward b x y g og = .ok (.ok (), l1, og1)) :
    ∃ l2, l1.backward b x y g og = .ok (.ok (), l2, og1) ∧ l2.kernel_gradients = l1.kernel_gradients ∧
      l2.bias_gradients = l.bias_gradients ∧ l1.bias_gradients = l.bias_gradients := by
  have hstep : ∀ l : ConvolutionalLayer F, l.Ok → l.run_state = .Training → l.input_shape = x.shape →
      l.output_shape = g.shape → ∀ o, convolution_backprop_outgoing_gradient b g l.kernels l.stride og = .ok o →
      ∃ kg, l.backward b x y g og = .ok (o.1, { l with
        relu_mask := Tensor.multiply_elementwise_self l.relu_mask g
        kernel_gradients := kg }, o.2) ∧ kg.length = l.kernels.length ∧
      ∀ i (h : i < kg.length) (h' : i < l.kernels.length), kg[i].WF ∧
        kg[i].shape = l.kernels[i].shape ∧
        ∀ a c d, l.kernels[i].shape.Inside a c d → val kg[i] a c d =
          sum ((idx3 g.shape.di.toNat g.shape.dj.toNat g.shape.dk.toNat).map fun (i, j, k) =>
            mul (val x (a + i * l.stride.toNat) (c + j * l.stride.toNat) d) (val g i j k)) :=
    fun l hl hm h1 h2 o ho => conv_backward_char hl hm hx h1.symm hg h2.symm o ho
  cases ho : convolution_backprop_outgoing_gradient b g l.kernels l.stride og with
  | error p =>
    exfalso
    revert h
    unfold ConvolutionalLayer.backward
    simp only
    intro h
    obtain ⟨⟨r1, t1⟩, _, h⟩ := bind_inv h
    cases r1 with
    | error e => cases h
    | ok u =>
      simp only at h
      obtain ⟨⟨r2, t2⟩, h2, _⟩ := bind_inv h
      rw [ho] at h2
      cases h2
  | ok o =>
    obtain ⟨kg, p1, p2, p3⟩ := hstep l hl hm hxs.symm hgs.symm o ho
    rw [h] at p1
    have p1 := Except.ok.inj p1
    simp only [Prod.mk.injEq] at p1
    obtain ⟨e1, rfl, e3⟩ := p1
    obtain ⟨m1, m2⟩ := (hl.buffers hm).2.2
    obtain ⟨a1, a2, _⟩ := mul_self_ok m1 hg (by rw [m2, hgs])
    have hl1 : ({ l with relu_mask := Tensor.multiply_elementwise_self l.relu_mask g
                         kernel_gradients := kg } : ConvolutionalLayer F).Ok :=
      ⟨hl.stride, hl.input, hl.output, hl.count, hl.kernels, hl.biasCount, hl.biases, fun _ =>
        ⟨⟨p2, fun i h h' => ⟨(p3 i h h').1, (p3 i h h').2.1⟩⟩, (hl.buffers hm).2.1, a1, a2.trans m2⟩⟩
    obtain ⟨kg2, q1, q2, q3⟩ := hstep _ hl1 hm hxs.symm hgs.symm o ho
    rw [← e1, ← e3] at q1
    refine ⟨_, q1, ?_, rfl, rfl⟩
    refine List.ext_getElem (by rw [q2, p2]) fun i h1 h2 => ?_
    have hk : i < l.kernels.length := by rw [← p2]; exact h2
    obtain ⟨u1, u2, u3⟩ := q3 i h1 hk
    obtain ⟨v1, v2, v3⟩ := p3 i h2 hk
    refine tensor_ext u1 v1 (by rw [u2, v2]) fun a c d hin => ?_
    rw [u2] at hin
    exact (u3 a c d hin).trans (v3 a c d hin).symm

section
attribute [local instance] Exact.realOps

/-- C83 over the reals, exactly when repeating is harmless for a fully connected layer: after a `forward`, a second
`backward(g)` passes on the same as the first behind every relu if and only if `g` is 0 or 1 at every output
whose pre-activation is positive. -/
theorem C83_exact_partial (b : Build) (l : FullyConnectedLayer ℝ) (hl : l.Ok) (hm : l.run_state = .Training)
    (x out : Tensor ℝ) (hx : x.WF) (hxs : x.shape = l.get_input_shape) (ho : out.WF)
    (hos : out.shape = l.get_output_shape) (c : BackCall ℝ) (hc : c.FitsFC l) :
    ∃ l1 y og1 og2 l2, l.forward b x out = .ok (.ok (), l1, y) ∧ BackCalls b x l1 [c, c] [og1, og2] l2 ∧
      ((∀ o, o < l.weights.shape.di.toNat → arrives l1 [c, c] 1 o = arrives l1 [c, c] 0 o) ↔
        ∀ o, o < l.weights.shape.di.toNat → 0 < preact l x o → val c.g o 0 0 = 0 ∨ val c.g o 0 0 = 1) := by
  obtain ⟨mask, y, q1, q2, q3, q4, q5, q6⟩ := fc_forward_training (b := b) hl hm hx hxs ho hos
  have hl1 := fc_ok_mask hl mask q4 q5
  obtain ⟨ogs, l2, p1, _, _, p4, _⟩ := C83_fully_connected_partial b _ hl1 hm x hx hxs [c, c]
    (fun c' h' => by
      rcases List.mem_cons.mp h' with rfl | h'
      · exact ⟨hc.1, hc.2⟩
      · rw [List.mem_singleton.mp h']; exact ⟨hc.1, hc.2⟩)
  match ogs, p4 with
  | [og1, og2], _ =>
    refine ⟨_, y, og1, og2, l2, q1, p1, ?_⟩
    have key : ∀ o, o < l.weights.shape.di.toNat →
        (arrives { l with relu_mask := mask } [c, c] 1 o = arrives { l with relu_mask := mask } [c, c] 0 o ↔
          (0 < preact l x o → val c.g o 0 0 = 0 ∨ val c.g o 0 0 = 1)) := by
      intro o ho
      change mul (mul (val mask o 0 0) (val c.g o 0 0)) (val c.g o 0 0) =
        mul (val mask o 0 0) (val c.g o 0 0) ↔ _
      rw [(q6 o ho).2]
      unfold step
      change (if decide ((0 : ℝ) < preact l x o) = true then (1 : ℝ) else 0) * val c.g o 0 0 * val c.g o 0 0 =
        (if decide ((0 : ℝ) < preact l x o) = true then (1 : ℝ) else 0) * val c.g o 0 0 ↔ _
      by_cases hp : 0 < preact l x o
      · simp only [hp, decide_true, if_true, one_mul, true_imp_iff]
        constructor
        · intro h
          have : val c.g o 0 0 * (val c.g o 0 0 - 1) = 0 := by linarith
          rcases mul_eq_zero.mp this with h | h
          · exact .inl h
          · exact .inr (by linarith)
        · rintro (h | h) <;> rw [h] <;> ring
      · simp [hp]
    exact ⟨fun h o ho => (key o ho).mp (h o ho), fun h o ho => (key o ho).mpr (h o ho)⟩

end

open Toy in
/-- C83 is false of the code: after one `infer`, the network's second `backward` with the same gradient stores
another gradient for the input, and adds 4 where the first added 2. -/
theorem C83_negation :
    ∃ n1 n2 n3, exNet.infer .debug ⟨⟨1, 2, 2⟩, ⟨2, 1, 1⟩, [10, 1]⟩ = .ok (.ok (), n1) ∧
      n1.backward .debug ⟨⟨1, 3, 3⟩, ⟨3, 1, 1⟩, [2, 7, 1]⟩ = .ok (.ok (), n2) ∧
      n2.backward .debug ⟨⟨1, 3, 3⟩, ⟨3, 1, 1⟩, [2, 7, 1]⟩ = .ok (.ok (), n3) ∧
      n2.intermediate_gradients.map (·.data) = [[2, -4], [2, 7, 1]] ∧
      n3.intermediate_gradients.map (·.data) = [[4, -8], [2, 7, 1]] := ⟨_, _, _, rfl, rfl, rfl, rfl, rfl⟩

open Toy in
example : ∃ ogs l', BackCalls .debug ⟨⟨1, 2, 2⟩, ⟨2, 1, 1⟩, [10, 1]⟩
    { exFC with relu_mask := ⟨⟨1, 3, 3⟩, ⟨3, 1, 1⟩, [1, 0, 0]⟩ }
    [⟨zeros ⟨3, 1, 1⟩, ⟨⟨1, 3, 3⟩, ⟨3, 1, 1⟩, [2, 3, 5]⟩, zeros ⟨2, 1, 1⟩⟩,
     ⟨zeros ⟨3, 1, 1⟩, ⟨⟨1, 3, 3⟩, ⟨3, 1, 1⟩, [7, 3, 5]⟩, zeros ⟨2, 1, 1⟩⟩] ogs l' ∧
    l'.bias_gradients.data = [16, 0, 0] :=
  ⟨_, _, .call _ _ _ _ _ _ _ rfl (.call _ _ _ _ _ _ _ rfl (.done _)), rfl⟩

end Rusty
