import Verif.Lemmas.Unrolled
import Verif.Props.Monotone
import Verif.Props.Turned

/-! # C124: convolutional layers written out as fully connected layers -/

namespace Rusty

open F32Ops Spec F32

variable [Libm]

/-- C124 for one layer: on an image of finite numbers, `forward` of a convolutional layer and `forward` of its unrolled
version on the same data as a column leave the same data, bit for bit.  Both layers may be in either mode. -/
theorem C124_forward (b : Build) (l : ConvolutionalLayer F32) (f : FullyConnectedLayer F32) (hl : l.Ok) (hf : f.Ok)
    (h : Unrolled l f) (x out u out' : Tensor F32) (hx : x.WF) (hxs : x.shape = l.input_shape) (ho : out.WF)
    (hos : out.shape = l.output_shape) (hu : u.WF) (hus : u.shape = f.get_input_shape) (ho' : out'.WF)
    (hos' : out'.shape = f.get_output_shape) (hxu : u.data = x.data)
    (hfin : ∀ i j k, x.shape.Inside i j k → (val x i j k).isFinite = true) :
    ∃ l' y f' z, AnyLayer.forward b (.conv l) x out = .ok (.ok (), l', y) ∧
      AnyLayer.forward b (.fc f) u out' = .ok (.ok (), f', z) ∧
      y.shape = l.output_shape ∧ z.shape = f.get_output_shape ∧ z.data = y.data := by
  obtain ⟨l', y, a1, a2, a3, a4⟩ := forward_ok (b := b) (l := .conv l) hl hx hxs ho hos
  obtain ⟨f', z, c1, c2, c3, c4⟩ := forward_ok (b := b) (l := .fc f) hf hu hus ho' hos'
  have hus' : u.shape = ⟨f.weights.shape.dj, 1, 1⟩ := hus
  have key := layer_flat (b := b) (l := .conv l) (l' := .fc f) hl hf (.conv l f h) hxs hx hu (fun _ => hfin)
    (⟨⟨by rw [hus'], by rw [hus']⟩, by rw [hus', hxs]; exact h.inputs, hxu⟩ : Flat x u)
    (⟨a2, a3, fun i j k hin => by rw [get_item_ok a2 (by rw [a3]; exact hin), a4 i j k hin]⟩ : applies b (.conv l) x y)
    (⟨c2, c3, fun i j k hin => by rw [get_item_ok c2 (by rw [c3]; exact hin), c4 i j k hin]⟩ : applies b (.fc f) u z)
  exact ⟨l', y, f', z, a1, c1, a3, c3, key.data⟩

/-- C124: `n'` has the layers of `n`, with every convolutional layer unrolled.  If all values that enter a convolutional
layer in the run of `n` are finite, `n'` computes the same numbers in every layer from the same data as a column, bit for
bit. -/
theorem C124_infer (b : Build) (n n' : Net F32) (hn : Built b n) (hn' : Built b n') (hne : n.get_layers ≠ [])
    (hlen : n'.get_layers.length = n.get_layers.length)
    (hl : ∀ (i : Nat) l l', n.get_layers[i]? = some l → n'.get_layers[i]? = some l' → Flattened l l')
    (x u : Tensor F32) (hx : x.WF) (hu : u.WF) (hxs : x.shape = n.get_input_shape)
    (hus : u.shape = n'.get_input_shape) (hxu : Flat x u) (m : Net F32) (hm : n.infer b x = .ok (.ok (), m))
    (hfin : ∀ (i : Nat) c s, n.get_layers[i]? = some (.conv c) → m.get_intermediate_state i = .ok s →
      ∀ p q r, s.shape.Inside p q r → (val s p q r).isFinite = true) :
    ∃ m' y z, n'.infer b u = .ok (.ok (), m') ∧ m.get_output = .ok y ∧ m'.get_output = .ok z ∧ Flat y z ∧
      ∀ i, i ≤ n.get_layers.length → ∃ s t, m.get_intermediate_state i = .ok s ∧
        m'.get_intermediate_state i = .ok t ∧ Flat s t := by
  have hok := built_netOk hn
  have hok' := built_netOk hn'
  have hne' : n'.get_layers ≠ [] := fun h => hne (by
    rw [h] at hlen
    exact List.length_eq_zero_iff.mp hlen.symm)
  have hlen : n'.layers.length = n.layers.length := hlen
  obtain ⟨m1, p1, p2, p3⟩ := infer_ok (b := b) hok hne hx hxs
  obtain ⟨m', q1, q2, q3⟩ := infer_ok (b := b) hok' hne' hu hus
  obtain rfl : m = m1 := by rw [hm] at p1; cases p1; rfl
  obtain ⟨m1, c1, _, _, c4⟩ := C36_infer b n hn hne x hx hxs
  obtain ⟨m2, d1, _, _, d4⟩ := C36_infer b n' hn' hne' u hu hus
  obtain rfl : m = m1 := by rw [p1] at c1; cases c1; rfl
  obtain rfl : m' = m2 := by rw [q1] at d1; cases d1; rfl
  have key : ∀ i, i ≤ n.layers.length → ∃ s t, m.intermediate_states[i]? = some s ∧
      m'.intermediate_states[i]? = some t ∧ Flat s t := by
    intro i
    induction i with
    | zero => exact fun _ => ⟨x, u, p2, q2, hxu⟩
    | succ i ih =>
      intro hi
      obtain ⟨s, t, e1, e2, e3⟩ := ih (by omega)
      have hli : n.layers[i]? = some n.layers[i] := List.getElem?_eq_getElem hi
      have hli' : n'.layers[i]? = some (n'.layers[i]'(by omega)) := List.getElem?_eq_getElem (by omega)
      obtain ⟨s0, s', f1, f2, f3, _, _, _, f4, f5, _⟩ := p3 i _ hli
      obtain ⟨t0, t', g1, g2, g3, _, _, _, g4, g5, _⟩ := q3 i _ hli'
      obtain rfl : s = s0 := by rw [e1] at f1; exact Option.some.inj f1
      obtain rfl : t = t0 := by rw [e2] at g1; exact Option.some.inj g1
      refine ⟨s', t', f2, g2, layer_flat (hok.layers _ (List.mem_of_getElem? hli))
        (hok'.layers _ (List.mem_of_getElem? hli')) (hl i _ _ hli hli') f5 f4 g4 (fun ⟨c, hc⟩ => ?_) e3 f3 g3⟩
      exact hfin i c s (by change n.layers[i]? = _; rw [hli, hc]) (by
        unfold Network.get_intermediate_state; rw [e1])
  have get : ∀ i, i ≤ n.get_layers.length → ∃ s t, m.get_intermediate_state i = .ok s ∧
      m'.get_intermediate_state i = .ok t ∧ Flat s t := fun i hi => by
    obtain ⟨s, t, e1, e2, e5⟩ := key i hi
    refine ⟨s, t, ?_, ?_, e5⟩
    · unfold Network.get_intermediate_state; rw [e1]
    · unfold Network.get_intermediate_state; rw [e2]
  obtain ⟨y, z, g1, g2, g3⟩ := get _ (Nat.le_refl _)
  exact ⟨m', y, z, q1, c4.trans g1, d4.trans (by
    rw [show n'.get_layers.length = n.get_layers.length from hlen]; exact g2), g3, get⟩

/-- C124: if the number of outputs times the number of inputs fits in `u32`, there are weights and biases with which
`fill_from_state` makes an empty fully connected layer into the unrolled version of a convolutional layer. -/
theorem C124_exists (b : Build) (l : ConvolutionalLayer F32) (hl : l.Ok)
    (hs : l.output_shape.count * l.input_shape.count < 2 ^ 32) (name : String) :
    ∃ (f0 f : FullyConnectedLayer F32) (w c : Tensor F32), FullyConnectedLayer.empty b = .ok f0 ∧ w.WF ∧ c.WF ∧
      f0.fill_from_state b w c name = .ok (.ok (), f) ∧ f.Ok ∧ Unrolled l f := by
  obtain ⟨w, c, h1, h2, h3, h4, h5⟩ := unrolled_exists hl hs
  have e0 : (FullyConnectedLayer.empty b : Exec (FullyConnectedLayer F32)) = .ok
      { weights := zeros ⟨1, 1, 1⟩, bias := zeros ⟨1, 1, 1⟩, weights_gradients := zeros ⟨1, 1, 1⟩,
        weights_gradients_intermediate := zeros ⟨1, 1, 1⟩, bias_gradients := zeros ⟨1, 1, 1⟩,
        relu_mask := zeros ⟨1, 1, 1⟩, name := "Empty fully connected layer", run_state := .Inference } := by
    unfold FullyConnectedLayer.empty
    simp only [empty_ok, ok_bind]
    rfl
  let f : FullyConnectedLayer F32 :=
    { weights := w, bias := c, weights_gradients := zeros ⟨1, 1, 1⟩
      weights_gradients_intermediate := zeros ⟨1, 1, 1⟩, bias_gradients := zeros ⟨1, 1, 1⟩
      relu_mask := zeros ⟨1, 1, 1⟩, name := name, run_state := .Inference }
  refine ⟨_, f, w, c, e0, h1, h2, ?_, ⟨h1, h2, h4, h3, fun h => (by cases h)⟩, h5 _ rfl rfl⟩
  unfold FullyConnectedLayer.fill_from_state
  simp only [h3, h4]
  simp only [FullyConnectedLayer.update_tensors, empty_ok, ne_eq, not_true_eq_false, if_false, pure, Except.pure, bind,
    Except.bind]
  rfl

/-! ## Example -/

/-- a kernel of two entries that slides over three -/
def exSlide (x y : F32) : ConvolutionalLayer F32 :=
  { kernels := [pairOf x y], biases := [single ⟨0⟩], kernel_gradients := [], bias_gradients := []
    stride := 1, relu_mask := single ⟨0⟩, input_shape := ⟨3, 1, 1⟩, output_shape := ⟨2, 1, 1⟩
    name := "slide", run_state := .Inference }

/-- the same written out: two rows of three weights -/
def exSlideRows (x y : F32) : FullyConnectedLayer F32 :=
  { weights := ⟨⟨1, 2, 6⟩, ⟨2, 3, 1⟩, [x, ⟨0⟩, y, x, ⟨0x80000000⟩, y]⟩, bias := pairOf ⟨0⟩ ⟨0⟩
    weights_gradients := single ⟨0⟩, weights_gradients_intermediate := single ⟨0⟩, bias_gradients := single ⟨0⟩
    relu_mask := single ⟨0⟩, name := "rows", run_state := .Inference }

theorem exSlide_ok (x y : F32) : (exSlide x y).Ok :=
  ⟨by change (1 : UInt32) ≠ 0; decide, by change TensorShape.Fits ⟨3, 1, 1⟩; decide,
    by change TensorShape.Fits ⟨2, 1, 1⟩; decide, rfl, fun k hm => by
      obtain rfl := List.mem_singleton.mp hm
      exact ⟨pairOf_wf x y, rfl, by change windowsTile ⟨3, 1, 1⟩ ⟨2, 1, 1⟩ 1 ⟨2, 1, 1⟩; decide⟩, rfl,
    fun k hm => by
      obtain rfl := List.mem_singleton.mp hm
      exact ⟨single_wf _, rfl⟩, fun h => by cases h⟩

/-- the rows are the unrolled layer; the two zeros need not have the same sign -/
example (x y : F32) : (exSlide x y).Ok ∧ (exSlideRows x y).Ok ∧ Unrolled (exSlide x y) (exSlideRows x y) := by
  refine ⟨exSlide_ok x y, ⟨⟨by change TensorShape.Fits ⟨2, 3, 1⟩; decide, rfl, rfl, rfl, rfl⟩, pairOf_wf _ _, rfl, rfl,
    fun h => by cases h⟩, rfl, rfl, ?_, ?_, ?_⟩
  · rintro i j k c ⟨h1, h2, h3⟩ hc
    obtain rfl : j = 0 := Nat.lt_one_iff.mp h2
    obtain rfl : k = 0 := Nat.lt_one_iff.mp h3
    cases hc
    match i, h1 with
    | 0, _ => rfl
    | 1, _ => rfl
    | i + 2, h => exact absurd (show i + 2 < 2 from h) (by omega)
  · rintro i j k t ⟨h1, h2, h3⟩ ht p q r ⟨g1, g2, g3⟩
    obtain rfl : j = 0 := Nat.lt_one_iff.mp h2
    obtain rfl : k = 0 := Nat.lt_one_iff.mp h3
    cases ht
    obtain rfl : q = 0 := Nat.lt_one_iff.mp g2
    obtain rfl : r = 0 := Nat.lt_one_iff.mp g3
    match i, h1, p, g1 with
    | 0, _, 0, _ => rfl
    | 0, _, 1, _ => rfl
    | 1, _, 0, _ => rfl
    | 1, _, 1, _ => rfl
    | i + 2, h, _, _ => exact absurd (show i + 2 < 2 from h) (by omega)
    | _, _, p + 2, h => exact absurd (show p + 2 < 2 from h) (by omega)
  · rintro i j k t ⟨h1, h2, h3⟩ ht p q r ⟨g1, g2, g3⟩ hnot
    obtain rfl : j = 0 := Nat.lt_one_iff.mp h2
    obtain rfl : k = 0 := Nat.lt_one_iff.mp h3
    cases ht
    obtain rfl : q = 0 := Nat.lt_one_iff.mp g2
    obtain rfl : r = 0 := Nat.lt_one_iff.mp g3
    have hc : ¬ (i ≤ p ∧ p < i + 2) := fun h => hnot ⟨⟨by
      change i * 1 ≤ p; omega, by change p < i * 1 + 2; omega⟩, Nat.zero_le _, Nat.one_pos⟩
    match i, h1, p, g1 with
    | 0, _, 0, _ => omega
    | 0, _, 1, _ => omega
    | 0, _, 2, _ => change (⟨0x80000000⟩ : F32).code = 0; decide
    | 1, _, 0, _ => change (⟨0⟩ : F32).code = 0; decide
    | 1, _, 1, _ => omega
    | 1, _, 2, _ => omega
    | i + 2, h, _, _ => exact absurd (show i + 2 < 2 from h) (by omega)
    | _, _, p + 3, h => exact absurd (show p + 3 < 3 from h) (by omega)

end Rusty
