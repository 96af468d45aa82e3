import Verif.Lemmas.Turned
import Verif.Props.Monotone
import Verif.Props.NetworkRounding

/-! # C117: mirrored and transposed networks -/

namespace Rusty

open F32Ops Spec F32

variable [Libm]

/-- C117, exact arithmetic: turning the image and the kernels turns what the network computes. -/
theorem C117_exact (b : Build) (σ : Turn) (n n' : Net F32) (hn : Built b n)
    (hne : n.get_layers ≠ []) (hl : List.Forall₂ (TurnedLayer σ) n.get_layers n'.get_layers)
    (x : Tensor F32) (hx : x.WF) (hxs : x.shape = n.get_input_shape) (ξ ξ' : Nat → Nat → Nat → ℝ)
    (hξ : TurnedFunction σ n.get_input_shape ξ ξ') :
    TurnedFunction σ n.get_output_shape (exactNet n.get_layers ξ) (exactNet n'.get_layers ξ') := by
  obtain ⟨_, t, _, r2, _, _, r5, r6⟩ := run_states b hn hne hx hxs
  rw [← r5]
  exact layers_turned b hl (built_netOk hn).layers t (by rw [r2, hxs]; exact hξ)
    fun i l hi => (r6 i l hi).2

/-- C117, `f32`: the predictions of the turned network for a turned image are those of the network for the image,
turned, up to twice the rounding error bound. -/
theorem C117_infer (b : Build) (σ : Turn) (n n' : Net F32) (hn : Built b n)
    (hn' : Built b n') (hne : n.get_layers ≠ [])
    (hl : List.Forall₂ (TurnedLayer σ) n.get_layers n'.get_layers) (x x' : Tensor F32) (hx : x.WF)
    (hxs : x.shape = n.get_input_shape) (hx' : x'.WF) (ht : TurnedTensor σ x x')
    (M M' e' : ℝ) (hM : 0 ≤ M) (hxM : Within x M) (hA : Accuracy n.get_layers M 0 M' e') :
    ∃ n1 y n2 y', n.infer b x = .ok (.ok (), n1) ∧ n1.get_output = .ok y ∧
      n'.infer b x' = .ok (.ok (), n2) ∧ n2.get_output = .ok y' ∧ y'.shape = σ.shape y.shape ∧
      ∀ i j k, y'.shape.Inside i j k → ∃ v v', y'.get_item b (ix i j k) = .ok v' ∧
        y.get_item b (ix (σ.source y.shape i j).1 (σ.source y.shape i j).2 k) = .ok v ∧
        v.isFinite = true ∧ v'.isFinite = true ∧ |v'.toReal - v.toReal| ≤ 2 * e' := by
  have hne' : n'.get_layers ≠ [] := by
    intro h
    rw [h] at hl
    exact hne (List.forall₂_nil_right_iff.mp hl)
  have hin' : n'.get_input_shape = σ.shape n.get_input_shape ∧
      n'.get_output_shape = σ.shape n.get_output_shape := by
    have hc := (built_netOk hn).chain
    have hc' := (built_netOk hn').chain
    have hlen := hl.length_eq
    have hpos : 0 < n.get_layers.length := List.length_pos_of_ne_nil hne
    have get : ∀ i, i < n.get_layers.length → ∃ l l', n.get_layers[i]? = some l ∧
        n'.get_layers[i]? = some l' ∧ TurnedLayer σ l l' := fun i hi =>
      ⟨_, _, List.getElem?_eq_getElem hi, List.getElem?_eq_getElem (hlen ▸ hi),
        (List.forall₂_iff_get.mp hl).2 i hi (hlen ▸ hi)⟩
    obtain ⟨l, l', a1, a2, a3⟩ := get 0 hpos
    obtain ⟨m, m', b1, b2, b3⟩ := get (n.get_layers.length - 1) (by omega)
    constructor
    · rw [hc.first l (by rw [List.head?_eq_getElem?]; exact a1),
        hc'.first l' (by rw [List.head?_eq_getElem?]; exact a2), (turned_shapes a3).1]
    · rw [hc.last m (by rw [List.getLast?_eq_getElem?]; exact b1),
        hc'.last m' (by rw [List.getLast?_eq_getElem?]; rw [hlen] at b2; exact b2),
        (turned_shapes b3).2]
  have hxs' : x'.shape = n'.get_input_shape := by rw [ht.shape, hxs, hin'.1]
  have hxM' : Within x' M := by
    intro i j k h
    rw [ht.shape] at h
    rw [ht.entries i j k h]
    exact hxM _ _ _ (source_inside h)
  have near : ∀ {x : Tensor F32}, Within x M → Near x (fun i j k => (val x i j k).toReal) M 0 :=
    fun h i j k hin => ⟨(h i j k hin).1, by simp, (h i j k hin).2⟩
  obtain ⟨n1, y, c1, c2, c3, c4⟩ := C74_infer b n hn hne x hx hxs _ M 0 M' e' hM le_rfl (near hxM) hA
  obtain ⟨n2, y', d1, d2, d3, d4⟩ := C74_infer b n' hn' hne' x' hx' hxs' _ M 0 M' e' hM le_rfl
    (near hxM') (accuracy_turned hA hl)
  refine ⟨n1, y, n2, y', c1, c2, d1, d2, by rw [d3, c3, hin'.2], fun i j k hin => ?_⟩
  have hin2 : (σ.shape y.shape).Inside i j k := by rw [c3, ← hin'.2, ← d3]; exact hin
  obtain ⟨v', q1, q2, q3, _⟩ := d4 i j k hin
  obtain ⟨v, p1, p2, p3, _⟩ := c4 _ _ k (source_inside hin2)
  refine ⟨v, v', q1, p1, p2, q2, ?_⟩
  have he := C117_exact b σ n n' hn hne hl x hx hxs (fun i j k => (val x i j k).toReal)
    (fun i j k => (val x' i j k).toReal)
    (fun i j k h => by
      show (val x' i j k).toReal = (val x _ _ k).toReal
      rw [ht.entries i j k (by rw [hxs]; exact h), hxs]) i j k (c3 ▸ hin2)
  rw [he, ← c3] at q3
  rw [abs_le] at p3 q3 ⊢
  constructor <;> linarith

/-- a tensor of two entries -/
def pairOf (x y : F32) : Tensor F32 := ⟨⟨1, 2, 2⟩, ⟨2, 1, 1⟩, [x, y]⟩

omit [Libm] in
theorem pairOf_wf (x y : F32) : (pairOf x y).WF := 
  ⟨by change TensorShape.Fits ⟨2, 1, 1⟩; decide, rfl, rfl, rfl, rfl⟩

/-- a convolutional layer with one kernel of two entries -/
def exEdge (x y : F32) : ConvolutionalLayer F32 :=
  { kernels := [pairOf x y], biases := [single ⟨0⟩], kernel_gradients := [], bias_gradients := []
    stride := 1, relu_mask := single ⟨0⟩, input_shape := ⟨2, 1, 1⟩, output_shape := ⟨1, 1, 1⟩
    name := "edge", run_state := .Inference }

theorem exEdge_built (b : Build) (x y : F32) : ∃ n : Net F32, Built b n ∧
    n.get_layers = [.conv (exEdge x y)] ∧ n.get_input_shape = ⟨2, 1, 1⟩ :=
  ⟨_, .add_layer (Network.new .Inference) (.conv (exEdge x y)) (.ok ()) _ (.new _)
    ⟨by change (1 : UInt32) ≠ 0; decide, by change TensorShape.Fits ⟨2, 1, 1⟩; decide,
      by change TensorShape.Fits ⟨1, 1, 1⟩; decide, rfl, fun k hm => by
      obtain rfl := List.mem_singleton.mp hm
      exact ⟨pairOf_wf x y, rfl, by change windowsTile ⟨2, 1, 1⟩ ⟨2, 1, 1⟩ 1 ⟨1, 1, 1⟩; decide⟩, rfl,
      fun k hm => by
        obtain rfl := List.mem_singleton.mp hm
        exact ⟨single_wf _, rfl⟩, nofun⟩ (by cases b <;> rfl), rfl, rfl⟩

theorem pairOf_turned (x y : F32) : TurnedTensor .mirror (pairOf x y) (pairOf y x) := by
  refine ⟨rfl, fun i j k hin => ?_⟩
  obtain ⟨h1, h2, h3⟩ : i < 2 ∧ j < 1 ∧ k < 1 := hin
  obtain rfl : j = 0 := by omega
  obtain rfl : k = 0 := by omega
  obtain rfl | rfl : i = 0 ∨ i = 1 := by omega
  · rfl
  · rfl

/-- The assumptions of C117 can be met with a kernel that is not symmetric. -/
example : ∃ (n n' : Net F32) (M' e' : ℝ), Built .debug n ∧ Built .debug n' ∧ n.get_layers ≠ [] ∧
    List.Forall₂ (TurnedLayer .mirror) n.get_layers n'.get_layers ∧
    n.get_layers = [.conv (exEdge ⟨0x3f800000⟩ ⟨0⟩)] ∧
    n'.get_layers = [.conv (exEdge ⟨0⟩ ⟨0x3f800000⟩)] ∧ Accuracy n.get_layers 1 0 M' e' := by
  have e0 : (⟨0x3f800000⟩ : F32).toReal = 1 := by
    unfold toReal
    rw [show (⟨0x3f800000⟩ : F32).toInt = 2 ^ 149 by decide]
    norm_num
  have e1 : (⟨0⟩ : F32).toReal = 0 := by
    unfold toReal
    rw [show (⟨0⟩ : F32).toInt = 0 by decide]
    norm_num
  obtain ⟨n, h1, h2, h3⟩ := exEdge_built .debug ⟨0x3f800000⟩ ⟨0⟩
  obtain ⟨n', h1', h2', h3'⟩ := exEdge_built .debug ⟨0⟩ ⟨0x3f800000⟩
  have ht : List.Forall₂ (TurnedLayer .mirror) n.get_layers n'.get_layers := by
    rw [h2, h2']
    exact .cons ⟨rfl, rfl, rfl, .cons (pairOf_turned _ _) .nil, rfl⟩ .nil
  have hA : ∃ M' e', Accuracy n.get_layers 1 0 M' e' := by
    rw [h2]
    refine ⟨_, _, .conv _ _ 2 1 0 1 0 _ _ (fun kernel hm => ?_) (fun bias hm => ?_) (by norm_num) (by norm_num)
      (by norm_num) (by norm_num) (.nil _ _)⟩
    · obtain rfl := List.mem_singleton.mp hm
      refine ⟨Nat.le_refl 2, fun i j k hin => ?_, ?_⟩
      · obtain ⟨h1, h2, h3⟩ : i < 2 ∧ j < 1 ∧ k < 1 := hin
        obtain rfl : j = 0 := by omega
        obtain rfl : k = 0 := by omega
        obtain rfl | rfl : i = 0 ∨ i = 1 := by omega
        · change (⟨0x3f800000⟩ : F32).isFinite = true
          decide
        · change (⟨0⟩ : F32).isFinite = true
          decide
      · change [|(⟨0x3f800000⟩ : F32).toReal|, |(⟨0⟩ : F32).toReal|].sum ≤ 1
        rw [e0, e1]
        norm_num
    · obtain rfl := List.mem_singleton.mp hm
      change (⟨0⟩ : F32).isFinite = true ∧ |(⟨0⟩ : F32).toReal| ≤ 0
      rw [e1]
      exact ⟨by decide, by norm_num⟩
  obtain ⟨M', e', hA⟩ := hA
  exact ⟨n, n', M', e', h1, h1', by rw [h2]; simp, ht, h2, h2', hA⟩

end Rusty
