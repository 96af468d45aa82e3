import Verif.Lemmas.NetworkDerivative
import Verif.Props.Derivative
import Verif.Props.Network

/-! # C26, C43, C57, C58: softmax, max pooling and networks compute derivatives -/

namespace Rusty

open F32Ops Spec

/-! ## C26 -/

section

variable {F : Type} [F32Ops F]

/-- C26, partial: for softmax layers on columns, in training mode, `backward` returns `Ok` and writes
`y_i g_i + y_i (-<y,g>)`, where `y` is the output and `g` the incoming gradient.

Missing: all shapes that are not columns, for which the property is false, see `C26_negation`. -/
theorem C26_formula_partial (b : Build) (l : SoftmaxLayer F) (hl : l.Ok)
    (hm : l.run_state = .Training) (hj : l.shape.dj = 1) (hk : l.shape.dk = 1) (x y g og : Tensor F)
    (hy : y.WF) (hys : y.shape = l.shape) (hg : g.WF) (hgs : g.shape = l.shape) (ho : og.WF)
    (hos : og.shape = l.shape) :
    ∃ l' og', l.backward b x y g og = .ok (.ok (), l', og') ∧ og'.WF ∧ og'.shape = l.shape ∧
      ∀ i, i < l.shape.di.toNat → og'.get_item b (ix i 0 0) =
        .ok (add (mul (val y i 0 0) (val g i 0 0))
          (sum [mul (val y i 0 0) (mul (sum ((List.range l.shape.di.toNat).map fun o =>
            mul (val y o 0 0) (val g o 0 0))) negOne)])) := by
  obtain ⟨l', og', h1, h2, h3, h4⟩ := sm_backward_column (b := b) (x := x) hl hm hj hk hy hys hg hgs ho hos
  refine ⟨l', og', h1, h2, h3, fun i hi => ?_⟩
  rw [get_item_ok h2 (by rw [h3]; exact ⟨hi, by rw [hj]; decide, by rw [hk]; decide⟩), h4 i hi]

/-- C26 is false of every softmax layer that does not work on a column: `backward` is refused and
nothing is written. -/
theorem C26_negation (b : Build) (l : SoftmaxLayer F) (hl : l.Ok) (hm : l.run_state = .Training)
    (h : ¬ (l.shape.dj = 1 ∧ l.shape.dk = 1)) (x y g og : Tensor F)
    (hys : y.shape = l.shape) (hgs : g.shape = l.shape) :
    ∃ e, l.backward b x y g og = .ok (.error e, l, og) :=
  C56_softmax_refused b l hl hm h x y g og hys hgs

open Toy in
example : ∃ l : SoftmaxLayer Int, l.Ok ∧ l.run_state = .Training ∧
    ¬ (l.shape.dj = 1 ∧ l.shape.dk = 1) :=
  ⟨⟨⟨2, 2, 1⟩, "", zeros ⟨1, 1, 1⟩, zeros ⟨2, 2, 1⟩, .Training⟩,
    ⟨by decide, fun _ => ⟨⟨zeros_wf (by decide), rfl⟩, ⟨zeros_wf (by decide), rfl⟩⟩⟩, rfl, by decide⟩

end

open Exact

/-- C26, partial, in exact arithmetic: `backward` writes `y_i (g_i - <y,g>)`. -/
theorem C26_exact_partial (b : Build) (l : SoftmaxLayer ℝ) (hl : l.Ok)
    (hm : l.run_state = .Training) (hj : l.shape.dj = 1) (hk : l.shape.dk = 1) (x y g og : Tensor ℝ)
    (hy : y.WF) (hys : y.shape = l.shape) (hg : g.WF) (hgs : g.shape = l.shape) (ho : og.WF)
    (hos : og.shape = l.shape) :
    ∃ l' og', l.backward b x y g og = .ok (.ok (), l', og') ∧
      ∀ i, i < l.shape.di.toNat → og'.get_item b (ix i 0 0) =
        .ok (val y i 0 0 * (val g i 0 0 - inner l.shape y g)) := by
  obtain ⟨l', og', h1, _, _, h4⟩ := C26_formula_partial b l hl hm hj hk x y g og hy hys hg hgs ho hos
  refine ⟨l', og', h1, fun i hi => ?_⟩
  rw [h4 i hi]
  congr 1
  unfold inner
  rw [total_column hj hk, sum_range_real, sum_real]
  simp
  ring

/-- a softmax layer on a column of length 3 -/
noncomputable def exSMR : SoftmaxLayer ℝ :=
  ⟨⟨3, 1, 1⟩, "sm", zeros ⟨1, 1, 1⟩, zeros ⟨3, 1, 1⟩, .Training⟩

theorem exSMR_ok : exSMR.Ok :=
  ⟨by decide, fun _ => ⟨⟨zeros_wf (by decide), rfl⟩, ⟨zeros_wf (by decide), rfl⟩⟩⟩

example : exSMR.Ok ∧ exSMR.run_state = .Training ∧ exSMR.shape.dj = 1 ∧ exSMR.shape.dk = 1 :=
  ⟨exSMR_ok, rfl, rfl, rfl⟩

section

variable {E : Type} [NormedAddCommGroup E] [NormedSpace ℝ E]

/-- C26, partial, in exact arithmetic: let the input of a softmax layer on a column depend
differentiably on a parameter, with derivative `x'` at `e0`.  The derivative of `<g, forward(x)>` at
`e0` is the sum of outgoing gradient times `x'`. -/
theorem C26_derivative_partial (b : Build) (l : SoftmaxLayer ℝ) (hl : l.Ok)
    (hm : l.run_state = .Training) (hj : l.shape.dj = 1) (hk : l.shape.dk = 1) (x : E → Tensor ℝ)
    (hx : ∀ e, (x e).WF ∧ (x e).shape = l.shape) (e0 : E) (x' : Nat → Nat → Nat → E →L[ℝ] ℝ)
    (dx : DiffAt l.shape x x' e0) (out g og : Tensor ℝ) (ho : out.WF) (hos : out.shape = l.shape)
    (hg : g.WF) (hgs : g.shape = l.shape) (hog : og.WF) (hogs : og.shape = l.shape) :
    ∃ (y : E → Tensor ℝ) (l2 : SoftmaxLayer ℝ) (og' : Tensor ℝ),
      (∀ e, l.forward b (x e) out = .ok (.ok (), l, y e)) ∧
      l.backward b (x e0) (y e0) g og = .ok (.ok (), l2, og') ∧
      HasFDerivAt (fun e => inner l.shape g (y e))
        (total l.shape fun i j k => val og' i j k • x' i j k) e0 := by
  have H := fun e => softmax_real (hx e).1 ho ((hx e).2.trans hos.symm)
  choose y h1 h2 h3 h4 using H
  have hf : ∀ e, l.forward b (x e) out = .ok (.ok (), l, y e) := by
    intro e
    unfold SoftmaxLayer.forward
    rw [h1 e]
    rfl
  obtain ⟨y', q1, q2⟩ := sm_vjp (b := b) hl hm hj hk (out := fun _ => out) (l' := fun _ => l) hx
    (fun _ => ⟨ho, hos⟩) hf dx
  obtain ⟨l2, og', r1, _⟩ := sm_backward_column (b := b) (x := x e0) hl hm hj hk (h2 e0)
    ((h3 e0).trans hos) hg hgs hog hogs
  refine ⟨y, l2, og', hf, r1, ?_⟩
  rw [← q2 g og l2 og' hg hgs hog hogs r1]
  exact inner_deriv q1 g

/-! ## C57 -/

/-- C57: let the input of a max-pool layer depend differentiably on a parameter, with derivative `x'`
at `e0`, and let every window have one largest entry there.  In exact arithmetic the derivative of
`<g, forward(x)>` at `e0` is the sum of outgoing gradient times `x'`. -/
theorem C57_derivative (b : Build) (l : MaxPoolLayer) (hl : l.Ok) (hm : l.run_state = .Training)
    (hne : 0 < l.output_shape.count → 0 < l.input_shape.count) (x : E → Tensor ℝ)
    (hx : ∀ e, (x e).WF ∧ (x e).shape = l.input_shape) (e0 : E)
    (x' : Nat → Nat → Nat → E →L[ℝ] ℝ) (dx : DiffAt l.input_shape x x' e0)
    (hs : smoothAt (.mp l) (x e0)) (out g og : Tensor ℝ) (ho : out.WF)
    (hos : out.shape = l.output_shape) (hg : g.WF) (hgs : g.shape = l.output_shape) (hog : og.WF)
    (hogs : og.shape = l.input_shape) :
    ∃ (l1 : E → MaxPoolLayer) (y : E → Tensor ℝ) (l2 : MaxPoolLayer) (og' : Tensor ℝ),
      (∀ e, l.forward b (x e) out = .ok (.ok (), l1 e, y e)) ∧
      (l1 e0).backward b (x e0) (y e0) g og = .ok (.ok (), l2, og') ∧
      HasFDerivAt (fun e => inner l.output_shape g (y e))
        (total l.input_shape fun i j k => val og' i j k • x' i j k) e0 := by
  have _ := realOrder
  have H := fun e => mp_forward_ok (b := b) hl (hx e).1 (hx e).2 ho hos
  choose l1 y h1 _ using H
  obtain ⟨y', q1, q2⟩ := mp_vjp (b := b) hl hm hne (out := fun _ => out) hx (fun _ => ⟨ho, hos⟩) h1 dx hs
  obtain ⟨l3, y3, og', _, r1, r2, _⟩ := C23_backward b l hl hm (x e0) out g og (hx e0).1 ho hg hog
    (hx e0).2 hos hgs hogs hne
  rw [h1 e0] at r1
  have r1 := Except.ok.inj r1
  simp only [Prod.mk.injEq, true_and] at r1
  obtain ⟨e1, e2⟩ := r1
  rw [← e1, ← e2] at r2
  refine ⟨l1, y, l1 e0, og', h1, r2, ?_⟩
  rw [← q2 g og _ og' hg hgs hog hogs r2]
  exact inner_deriv q1 g

/-- A layer of one 2x2 window over a 2x2 input: `smoothAt` holds at the input with entries 4, 1, 2, 3. -/
example : ∃ (l : MaxPoolLayer) (x : Tensor ℝ), l.Ok ∧ l.run_state = .Training ∧
    (0 < l.output_shape.count → 0 < l.input_shape.count) ∧ x.WF ∧ x.shape = l.input_shape ∧
    smoothAt (.mp l) x := by
  refine ⟨⟨⟨2, 2, 1⟩, ⟨2, 2, 1⟩, ⟨1, 1, 1⟩, 1, "mp", .Training, [0]⟩,
    { (zeros ⟨2, 2, 1⟩ : Tensor ℝ) with data := [4, 1, 2, 3] }, ?_, rfl, by decide,
    wf_data (zeros_wf (by decide)) _ rfl, rfl, ?_⟩
  · exact ⟨by decide, by decide, rfl, by decide, by decide, fun _ => rfl⟩
  · rintro i j k ⟨h1, h2, h3⟩
    have h1 : i < 1 := h1
    have h2 : j < 1 := h2
    have h3 : k < 1 := h3
    obtain rfl : i = 0 := by omega
    obtain rfl : j = 0 := by omega
    obtain rfl : k = 0 := by omega
    refine ⟨0, 0, by decide, by decide, ?_, ?_⟩
    · change (-2 ^ 128 : ℝ) < 4
      norm_num
    · intro ii jj h1 h2 hne
      have h1 : ii < 2 := h1
      have h2 : jj < 2 := h2
      have : (ii = 1 ∧ jj = 0) ∨ (ii = 0 ∧ jj = 1) ∨ (ii = 1 ∧ jj = 1) := by
        have : ¬ (ii = 0 ∧ jj = 0) := fun h => hne (by rw [h.1, h.2])
        omega
      rcases this with ⟨rfl, rfl⟩ | ⟨rfl, rfl⟩ | ⟨rfl, rfl⟩
      · change (1 : ℝ) < 4
        norm_num
      · change (2 : ℝ) < 4
        norm_num
      · change (3 : ℝ) < 4
        norm_num

/-! ## C58 -/

/-- C58: in exact arithmetic let the input of a network of fully connected, max-pool and softmax
layers and the weights `W e i` and biases `bi e i` of its fully connected layers `i` depend
differentiably on a parameter `e`, and let nothing be decided by a tie at `e0`.  Then `infer` returns
`Ok` for all `e`, `backward(g)` returns `Ok` at `e0`, and the derivative of `<g, infer(x)>` is the
gradient stored for the input times the derivative of the input plus, for every fully connected
layer, what was added to its weight and bias gradients times the derivatives of its weights and
biases. -/
theorem C58_joint (b : Build) (n : Net ℝ) (hn : Trains b n) (hne : n.get_layers ≠ [])
    (hbk : ∀ l ∈ n.get_layers, backable l) (W bi : E → Nat → Tensor ℝ)
    (W' b' : Nat → Nat → Nat → Nat → E →L[ℝ] ℝ) (e0 : E)
    (hp : ∀ (i : Nat) l, n.get_layers[i]? = some l →
      ParamsVary l (fun e => W e i) (fun e => bi e i) (W' i) (b' i) e0)
    (x : E → Tensor ℝ) (hx : ∀ e, (x e).WF ∧ (x e).shape = n.get_input_shape)
    (x' : Nat → Nat → Nat → E →L[ℝ] ℝ) (dx : DiffAt n.get_input_shape x x' e0)
    (hs : ∀ m, (replaceNet n (W e0) (bi e0)).infer b (x e0) = .ok (.ok (), m) → ∀ (i : Nat) l s,
      (replaceNet n (W e0) (bi e0)).get_layers[i]? = some l →
      m.get_intermediate_state i = .ok s → smoothAt l s)
    (g : Tensor ℝ) (hg : g.WF) (hgs : g.shape = n.get_output_shape) :
    ∃ (n1 : E → Net ℝ) (y : E → Tensor ℝ) (n2 : Net ℝ) (og : Tensor ℝ),
      (∀ e, (replaceNet n (W e) (bi e)).infer b (x e) = .ok (.ok (), n1 e)) ∧
      (∀ e, (n1 e).get_output = .ok (y e)) ∧
      (n1 e0).backward b g = .ok (.ok (), n2) ∧ n2.intermediate_gradients[0]? = some og ∧
      HasFDerivAt (fun e => inner n.get_output_shape g (y e))
        ((total n.get_input_shape fun i j k => val og i j k • x' i j k) +
          ∑ c ∈ Finset.range n.get_layers.length,
            gradTerm (W' c) (b' c) n.get_layers[c]? n2.get_layers[c]?) e0 := by
  obtain ⟨hok, ht⟩ := trains_ready hn
  refine net_vjp hok ht hne hbk hp hx dx (fun m hm i l s hl hsi => hs m hm i l s hl ?_) hg hgs
  unfold Network.get_intermediate_state
  rw [hsi]

/-- the weights of a layer, if it has any -/
def weightsOf : Option (AnyLayer ℝ) → Tensor ℝ
  | some (.fc l) => l.weights
  | _ => blank

/-- the biases of a layer, if it has any -/
def biasOf : Option (AnyLayer ℝ) → Tensor ℝ
  | some (.fc l) => l.bias
  | _ => blank

theorem replaceParams_self (l : AnyLayer ℝ) :
    replaceParams l (weightsOf (some l)) (biasOf (some l)) = l := by
  cases l <;> rfl

theorem replaceNet_self (n : Net ℝ) :
    replaceNet n (fun i => weightsOf n.layers[i]?) (fun i => biasOf n.layers[i]?) = n := by
  unfold replaceNet
  have : (n.layers.mapIdx fun i l =>
      replaceParams l (weightsOf n.layers[i]?) (biasOf n.layers[i]?)) = n.layers := by
    apply List.ext_getElem?
    intro i
    rw [List.getElem?_mapIdx]
    cases h : n.layers[i]? with
    | none => rfl
    | some l =>
      rw [Option.map_some, replaceParams_self]
  rw [this]

theorem gradTerm_zero (l l2 : Option (AnyLayer ℝ)) :
    gradTerm (fun _ _ _ => (0 : E →L[ℝ] ℝ)) (fun _ _ _ => 0) l l2 = 0 := by
  unfold gradTerm
  split
  · unfold total
    simp
  · rfl

theorem paramsVary_const {n : Net ℝ} (hok : NetOk n) (e0 : E) (i : Nat) (l : AnyLayer ℝ)
    (h : n.layers[i]? = some l) :
    ParamsVary l (fun _ => weightsOf n.layers[i]?) (fun _ => biasOf n.layers[i]?)
      (fun _ _ _ => 0) (fun _ _ _ => 0) e0 := by
  have hl := hok.layers l (List.mem_of_getElem? h)
  rw [h]
  cases l with
  | fc l =>
    have hl : l.Ok := hl
    exact ⟨fun _ => ⟨hl.weights, rfl⟩, fun _ => ⟨hl.bias, rfl⟩,
      diffAt_const _ _ _, diffAt_const _ _ _⟩
  | conv l => trivial
  | mp l => trivial
  | sm l => trivial

/-! ## C43 -/

/-- C43, derivative: in exact arithmetic let the input of a network of fully connected, max-pool and
softmax layers depend differentiably on a parameter, with derivative `x'` at `e0`, and let nothing be
decided by a tie there.  The derivative of `<g, infer(x)>` is the sum of the gradient that
`backward(g)` stores for the input times `x'`. -/
theorem C43_derivative (b : Build) (n : Net ℝ) (hn : Trains b n) (hne : n.get_layers ≠ [])
    (hbk : ∀ l ∈ n.get_layers, backable l)
    (x : E → Tensor ℝ) (hx : ∀ e, (x e).WF ∧ (x e).shape = n.get_input_shape) (e0 : E)
    (x' : Nat → Nat → Nat → E →L[ℝ] ℝ) (dx : DiffAt n.get_input_shape x x' e0)
    (hs : ∀ m, n.infer b (x e0) = .ok (.ok (), m) → ∀ (i : Nat) l s,
      n.get_layers[i]? = some l → m.get_intermediate_state i = .ok s → smoothAt l s)
    (g : Tensor ℝ) (hg : g.WF) (hgs : g.shape = n.get_output_shape) :
    ∃ (n1 : E → Net ℝ) (y : E → Tensor ℝ) (n2 : Net ℝ) (og : Tensor ℝ),
      (∀ e, n.infer b (x e) = .ok (.ok (), n1 e)) ∧ (∀ e, (n1 e).get_output = .ok (y e)) ∧
      (n1 e0).backward b g = .ok (.ok (), n2) ∧ n2.intermediate_gradients[0]? = some og ∧
      HasFDerivAt (fun e => inner n.get_output_shape g (y e))
        (total n.get_input_shape fun i j k => val og i j k • x' i j k) e0 := by
  obtain ⟨hok, _⟩ := trains_ready hn
  obtain ⟨n1, y, n2, og, h1, h2, h3, h4, h5⟩ := C58_joint b n hn hne hbk
    (fun _ i => weightsOf n.layers[i]?) (fun _ i => biasOf n.layers[i]?) (fun _ _ _ _ => 0)
    (fun _ _ _ _ => 0) e0 (fun i l h => paramsVary_const hok e0 i l h) x hx x' dx
    (by rw [replaceNet_self]; exact hs) g hg hgs
  rw [replaceNet_self] at h1
  refine ⟨n1, y, n2, og, h1, h2, h3, h4, ?_⟩
  rw [Finset.sum_eq_zero fun c _ => gradTerm_zero _ _, add_zero] at h5
  exact h5

end

/-- C43, derivative by one entry of the input: vary entry `(i,j,k)`, keep everything else.  The
ordinary derivative of `<g, infer(x)>` is that entry of the gradient stored for the input. -/
theorem C43_input_entry (b : Build) (n : Net ℝ) (hn : Trains b n) (hne : n.get_layers ≠ [])
    (hbk : ∀ l ∈ n.get_layers, backable l) (x0 : Tensor ℝ) (i j k : Nat) (x : ℝ → Tensor ℝ)
    (hx : ∀ t, (x t).WF ∧ (x t).shape = n.get_input_shape)
    (hv : ∀ t i' j' k', n.get_input_shape.Inside i' j' k' →
      val (x t) i' j' k' = if (i', j', k') = (i, j, k) then t else val x0 i' j' k') (t0 : ℝ)
    (hin : n.get_input_shape.Inside i j k)
    (hs : ∀ m, n.infer b (x t0) = .ok (.ok (), m) → ∀ (i : Nat) l s,
      n.get_layers[i]? = some l → m.get_intermediate_state i = .ok s → smoothAt l s)
    (g : Tensor ℝ) (hg : g.WF) (hgs : g.shape = n.get_output_shape) :
    ∃ (n1 : ℝ → Net ℝ) (y : ℝ → Tensor ℝ) (n2 : Net ℝ) (og : Tensor ℝ),
      (∀ t, n.infer b (x t) = .ok (.ok (), n1 t)) ∧ (∀ t, (n1 t).get_output = .ok (y t)) ∧
      (n1 t0).backward b g = .ok (.ok (), n2) ∧ n2.intermediate_gradients[0]? = some og ∧
      HasDerivAt (fun t => inner n.get_output_shape g (y t)) (val og i j k) t0 := by
  obtain ⟨n1, y, n2, og, h1, h2, h3, h4, h5⟩ := C43_derivative b n hn hne hbk x hx t0 _
    (diffAt_entry hv t0) hs g hg hgs
  refine ⟨n1, y, n2, og, h1, h2, h3, h4, ?_⟩
  have := h5.hasDerivAt
  rw [total_single hin] at this
  exact this

/-- C58 for one layer: let layer `c` be fully connected, let its weights and biases depend
differentiably on a real parameter, and keep everything else.  The derivative of `<g, infer(x)>` is
what `backward(g)` adds to the weight and bias gradients of layer `c`, times the derivatives of its
weights and biases. -/
theorem C58_layer (b : Build) (n : Net ℝ) (hn : Trains b n) (hbk : ∀ l ∈ n.get_layers, backable l)
    (c : Nat) (l : FullyConnectedLayer ℝ) (hc : n.get_layers[c]? = some (.fc l))
    (W bi : ℝ → Tensor ℝ) (hW : ∀ t, (W t).WF ∧ (W t).shape = l.weights.shape)
    (hb : ∀ t, (bi t).WF ∧ (bi t).shape = l.bias.shape) (t0 : ℝ)
    (W' b' : Nat → Nat → Nat → ℝ →L[ℝ] ℝ) (dW : DiffAt l.weights.shape W W' t0)
    (db : DiffAt l.bias.shape bi b' t0) (m : ℝ → Net ℝ)
    (hm : ∀ t, m t = { n with layers := n.layers.set c (.fc { l with weights := W t, bias := bi t }) })
    (x : Tensor ℝ) (hx : x.WF) (hxs : x.shape = n.get_input_shape)
    (hs : ∀ m', (m t0).infer b x = .ok (.ok (), m') → ∀ (i : Nat) l s,
      (m t0).get_layers[i]? = some l → m'.get_intermediate_state i = .ok s → smoothAt l s)
    (g : Tensor ℝ) (hg : g.WF) (hgs : g.shape = n.get_output_shape) :
    ∃ (n1 : ℝ → Net ℝ) (y : ℝ → Tensor ℝ) (n2 : Net ℝ) (l2 : FullyConnectedLayer ℝ),
      (∀ t, (m t).infer b x = .ok (.ok (), n1 t)) ∧ (∀ t, (n1 t).get_output = .ok (y t)) ∧
      (n1 t0).backward b g = .ok (.ok (), n2) ∧ n2.get_layers[c]? = some (.fc l2) ∧
      HasFDerivAt (fun t => inner n.get_output_shape g (y t))
        ((total l.weights.shape fun i j k =>
          (val l2.weights_gradients i j k - val l.weights_gradients i j k) • W' i j k) +
        (total l.bias.shape fun i j k =>
          (val l2.bias_gradients i j k - val l.bias_gradients i j k) • b' i j k)) t0 := by
  obtain ⟨hok, _⟩ := trains_ready hn
  have hc : n.layers[c]? = some (.fc l) := hc
  have hlt : c < n.layers.length := (List.getElem?_eq_some_iff.mp hc).1
  have hne : n.get_layers ≠ [] := by
    intro h
    have h : n.layers = [] := h
    rw [h] at hc
    cases hc
  have he : ∀ t, m t = replaceNet n (fun i => if i = c then W t else weightsOf n.layers[i]?)
      (fun i => if i = c then bi t else biasOf n.layers[i]?) := by
    intro t
    rw [hm t]
    unfold replaceNet
    congr 1
    apply List.ext_getElem?
    intro i
    rw [List.getElem?_mapIdx, List.getElem?_set]
    by_cases h : c = i
    · subst h
      rw [if_pos rfl, if_pos hlt, hc, Option.map_some]
      beta_reduce
      rw [if_pos rfl, if_pos rfl]
      rfl
    · rw [if_neg h]
      beta_reduce
      simp only [if_neg (Ne.symm h)]
      cases h : n.layers[i]? with
      | none => rfl
      | some l => rw [Option.map_some, replaceParams_self]
  obtain ⟨n1, y, n2, og, h1, h2, h3, _, h5⟩ := C58_joint b n hn hne hbk
    (fun t i => if i = c then W t else weightsOf n.layers[i]?)
    (fun t i => if i = c then bi t else biasOf n.layers[i]?)
    (fun a i j k => if a = c then W' i j k else 0) (fun a i j k => if a = c then b' i j k else 0) t0
    (by
      intro i l' h
      have h : n.layers[i]? = some l' := h
      by_cases hic : i = c
      · subst hic
        simp only [if_true]
        rw [hc] at h
        cases h
        exact ⟨hW, hb, dW, db⟩
      · simp only [if_neg hic]
        exact paramsVary_const hok t0 i l' h)
    (fun _ => x) (fun _ => ⟨hx, hxs⟩) _ (diffAt_const _ _ _) (by rw [← he]; exact hs) g hg hgs
  simp only [← he] at h1
  -- layer `c` is still fully connected
  have hpar := (C51_network b (m t0) n2 (.more _ _ _ (.more _ _ _ (.none _) (.infer _ _ _ _ (h1 t0)))
    (.backward _ _ _ _ h3))).1
  have hk : ∃ l2, n2.layers[c]? = some (.fc l2) := by
    have e := congrArg (fun q => q[c]?) hpar
    unfold Network.get_layers at e
    simp only [List.getElem?_map] at e
    rw [hm t0, List.getElem?_set_self hlt] at e
    cases h : n2.layers[c]? with
    | none => rw [h] at e; cases e
    | some l2 =>
      rw [h] at e
      cases l2 with
      | fc l2 => exact ⟨l2, rfl⟩
      | conv l2 => cases e
      | mp l2 => cases e
      | sm l2 => cases e
  obtain ⟨l2, hk⟩ := hk
  refine ⟨n1, y, n2, l2, h1, h2, h3, hk, ?_⟩
  rw [total_zero_smul, zero_add, Finset.sum_eq_single c] at h5
  · simp only [if_true] at h5
    unfold Network.get_layers at h5
    rw [hc, hk] at h5
    exact h5
  · intro a _ hac
    simp only [if_neg hac]
    exact gradTerm_zero _ _
  · intro h
    exact absurd (Finset.mem_range.mpr hlt) h

/-- C58 for one weight: let layer `c` be fully connected, vary its weight `(o,i)` and keep everything
else.  The ordinary derivative of `<g, infer(x)>` is what `backward(g)` adds to entry `(o,i)` of the
weight gradient of layer `c`. -/
theorem C58_weight (b : Build) (n : Net ℝ) (hn : Trains b n) (hbk : ∀ l ∈ n.get_layers, backable l)
    (c : Nat) (l : FullyConnectedLayer ℝ) (hc : n.get_layers[c]? = some (.fc l)) (o i : Nat)
    (ho : o < l.weights.shape.di.toNat) (hi : i < l.weights.shape.dj.toNat) (W : ℝ → Tensor ℝ)
    (hW : ∀ t, (W t).WF ∧ (W t).shape = l.weights.shape)
    (hv : ∀ t i' j' k', l.weights.shape.Inside i' j' k' →
      val (W t) i' j' k' = if (i', j', k') = (o, i, 0) then t else val l.weights i' j' k') (t0 : ℝ)
    (m : ℝ → Net ℝ)
    (hm : ∀ t, m t = { n with layers := n.layers.set c (.fc { l with weights := W t }) })
    (x : Tensor ℝ) (hx : x.WF) (hxs : x.shape = n.get_input_shape)
    (hs : ∀ m', (m t0).infer b x = .ok (.ok (), m') → ∀ (i : Nat) l s,
      (m t0).get_layers[i]? = some l → m'.get_intermediate_state i = .ok s → smoothAt l s)
    (g : Tensor ℝ) (hg : g.WF) (hgs : g.shape = n.get_output_shape) :
    ∃ (n1 : ℝ → Net ℝ) (y : ℝ → Tensor ℝ) (n2 : Net ℝ) (l2 : FullyConnectedLayer ℝ),
      (∀ t, (m t).infer b x = .ok (.ok (), n1 t)) ∧ (∀ t, (n1 t).get_output = .ok (y t)) ∧
      (n1 t0).backward b g = .ok (.ok (), n2) ∧ n2.get_layers[c]? = some (.fc l2) ∧
      HasDerivAt (fun t => inner n.get_output_shape g (y t))
        (val l2.weights_gradients o i 0 - val l.weights_gradients o i 0) t0 := by
  have hl : l.Ok := (trains_ready hn).1.layers _ (List.mem_of_getElem? hc)
  obtain ⟨n1, y, n2, l2, h1, h2, h3, h4, h5⟩ := C58_layer b n hn hbk c l hc W (fun _ => l.bias) hW
    (fun _ => ⟨hl.bias, rfl⟩) t0 _ _ (diffAt_entry hv t0) (diffAt_const _ _ _) m hm x hx hxs hs g hg hgs
  refine ⟨n1, y, n2, l2, h1, h2, h3, h4, ?_⟩
  have := h5.hasDerivAt
  rw [total_zero_smul, add_zero, total_single ⟨ho, hi, by rw [hl.depth]; decide⟩ fun i j k =>
      val l2.weights_gradients i j k - val l.weights_gradients i j k] at this
  exact this

/-- C58 for one bias: let layer `c` be fully connected, vary its bias `o` and keep everything else.
The ordinary derivative of `<g, infer(x)>` is what `backward(g)` adds to entry `o` of the bias gradient
of layer `c`. -/
theorem C58_bias (b : Build) (n : Net ℝ) (hn : Trains b n) (hbk : ∀ l ∈ n.get_layers, backable l)
    (c : Nat) (l : FullyConnectedLayer ℝ) (hc : n.get_layers[c]? = some (.fc l)) (o : Nat)
    (hin : l.bias.shape.Inside o 0 0) (bi : ℝ → Tensor ℝ)
    (hb : ∀ t, (bi t).WF ∧ (bi t).shape = l.bias.shape)
    (hv : ∀ t i' j' k', l.bias.shape.Inside i' j' k' →
      val (bi t) i' j' k' = if (i', j', k') = (o, 0, 0) then t else val l.bias i' j' k') (t0 : ℝ)
    (m : ℝ → Net ℝ)
    (hm : ∀ t, m t = { n with layers := n.layers.set c (.fc { l with bias := bi t }) })
    (x : Tensor ℝ) (hx : x.WF) (hxs : x.shape = n.get_input_shape)
    (hs : ∀ m', (m t0).infer b x = .ok (.ok (), m') → ∀ (i : Nat) l s,
      (m t0).get_layers[i]? = some l → m'.get_intermediate_state i = .ok s → smoothAt l s)
    (g : Tensor ℝ) (hg : g.WF) (hgs : g.shape = n.get_output_shape) :
    ∃ (n1 : ℝ → Net ℝ) (y : ℝ → Tensor ℝ) (n2 : Net ℝ) (l2 : FullyConnectedLayer ℝ),
      (∀ t, (m t).infer b x = .ok (.ok (), n1 t)) ∧ (∀ t, (n1 t).get_output = .ok (y t)) ∧
      (n1 t0).backward b g = .ok (.ok (), n2) ∧ n2.get_layers[c]? = some (.fc l2) ∧
      HasDerivAt (fun t => inner n.get_output_shape g (y t))
        (val l2.bias_gradients o 0 0 - val l.bias_gradients o 0 0) t0 := by
  have hl : l.Ok := (trains_ready hn).1.layers _ (List.mem_of_getElem? hc)
  obtain ⟨n1, y, n2, l2, h1, h2, h3, h4, h5⟩ := C58_layer b n hn hbk c l hc (fun _ => l.weights) bi
    (fun _ => ⟨hl.weights, rfl⟩) hb t0 _ _ (diffAt_const _ _ _) (diffAt_entry hv t0) m hm x hx hxs hs g
    hg hgs
  refine ⟨n1, y, n2, l2, h1, h2, h3, h4, ?_⟩
  have := h5.hasDerivAt
  rw [total_zero_smul, zero_add, total_single hin fun i j k =>
      val l2.bias_gradients i j k - val l.bias_gradients i j k] at this
  exact this

/-! A network over the reals: a fully connected layer from 3 to 2, then softmax. -/

/-- a softmax layer on a column of length 2 -/
noncomputable def exSMR2 : SoftmaxLayer ℝ :=
  ⟨⟨2, 1, 1⟩, "sm", zeros ⟨1, 1, 1⟩, zeros ⟨2, 1, 1⟩, .Training⟩

theorem exSMR2_ok : exSMR2.Ok :=
  ⟨by decide, fun _ => ⟨⟨zeros_wf (by decide), rfl⟩, ⟨zeros_wf (by decide), rfl⟩⟩⟩

/-- The hypotheses of C43 and C58 hold for this network, for every input. -/
example (b : Build) : ∃ n : Net ℝ, Trains b n ∧ n.get_layers = [.fc exFCR, .sm exSMR2] ∧
    n.get_input_shape = ⟨3, 1, 1⟩ ∧ n.get_output_shape = ⟨2, 1, 1⟩ ∧
    (∀ l ∈ n.get_layers, backable l) ∧
    ∀ x m, n.infer b x = .ok (.ok (), m) → ∀ (i : Nat) l s,
      n.get_layers[i]? = some l → m.get_intermediate_state i = .ok s → smoothAt l s := by
  have h1 : ∃ n1 : Net ℝ, (Network.new .Training : Net ℝ).add_layer b (.fc exFCR) = .ok (.ok (), n1) ∧
      ∃ n2 : Net ℝ, n1.add_layer b (.sm exSMR2) = .ok (.ok (), n2) ∧
      n2.get_layers = [.fc exFCR, .sm exSMR2] ∧
      n2.get_input_shape = ⟨3, 1, 1⟩ ∧ n2.get_output_shape = ⟨2, 1, 1⟩ := by
    cases b <;> exact ⟨_, rfl, _, rfl, rfl, rfl, rfl⟩
  obtain ⟨n1, h1, n2, h2, h3, h4, h5⟩ := h1
  refine ⟨n2, .add_layer _ (.sm exSMR2) _ _ (.add_layer _ (.fc exFCR) _ _ .new exFCR_ok h1) exSMR2_ok h2, h3, h4, h5, ?_, ?_⟩
  · rw [h3]
    intro l hl
    simp only [List.mem_cons, List.not_mem_nil, or_false] at hl
    rcases hl with rfl | rfl
    · trivial
    · exact ⟨rfl, rfl⟩
  · intro x m _ i l s hi _
    rw [h3] at hi
    match i, hi with
    | 0, hi => cases hi; exact fun o h => exFCR_preact _ o h
    | 1, hi => cases hi; trivial

end Rusty
