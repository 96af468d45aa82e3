import Verif.Lemmas.Channels
import Verif.Props.Turned

/-! # C157: the numbering of channels -/

namespace Rusty

open F32Ops Spec F32

variable [Libm]

/-- C157, exact arithmetic: renumbering the channels between the layers of a network, in the kernels that compute them
and in the kernels that read them, renumbers what the network computes. -/
theorem C157_exact (b : Build) (π υ : Nat → Nat) (n n' : Net F32) (hn : Built b n) (hne : n.get_layers ≠ [])
    (hl : ChannelsLayers π υ n.get_layers n'.get_layers) (x : Tensor F32) (hx : x.WF)
    (hxs : x.shape = n.get_input_shape) (ξ ξ' : Nat → Nat → Nat → ℝ) (hξ : SameChannels π n.get_input_shape ξ ξ') :
    SameChannels υ n.get_output_shape (exactNet n.get_layers ξ) (exactNet n'.get_layers ξ') := by
  obtain ⟨_, t, _, r2, _, _, r5, r6⟩ := run_states b hn hne hx hxs
  rw [← r5]
  exact layers_channels b hl (built_netOk hn).layers t (by rw [r2, hxs]; exact hξ)
    fun i l hi => (r6 i l hi).2

/-- C157, `f32`: the predictions of the two networks agree up to the numbering of the channels and twice the rounding
error bound. -/
theorem C157_infer (b : Build) (π υ : Nat → Nat) (n n' : Net F32) (hn : Built b n) (hn' : Built b n')
    (hne : n.get_layers ≠ []) (hl : ChannelsLayers π υ n.get_layers n'.get_layers)
    (hπ : Renumbers n.get_input_shape.dk.toNat π) (x x' : Tensor F32) (hx : x.WF)
    (hxs : x.shape = n.get_input_shape) (hx' : x'.WF) (hsx : x'.shape = x.shape)
    (ht : SameChannels π x.shape (val x) (val x'))
    (M M' e' : ℝ) (hM : 0 ≤ M) (hxM : Within x M) (hA : Accuracy n.get_layers M 0 M' e') :
    ∃ n1 y n2 y', n.infer b x = .ok (.ok (), n1) ∧ n1.get_output = .ok y ∧
      n'.infer b x' = .ok (.ok (), n2) ∧ n2.get_output = .ok y' ∧ y'.shape = y.shape ∧
      ∀ i j k, y.shape.Inside i j k → ∃ v v', y.get_item b (ix i j (υ k)) = .ok v ∧
        y'.get_item b (ix i j k) = .ok v' ∧ v.isFinite = true ∧ v'.isFinite = true ∧
        |v'.toReal - v.toReal| ≤ 2 * e' := by
  have hok := built_netOk hn
  have hlen : n'.get_layers.length = n.get_layers.length := channels_length hl
  have hpos : 0 < n.get_layers.length := List.length_pos_of_ne_nil hne
  have hne' : n'.get_layers ≠ [] := fun h => by rw [h] at hlen; exact absurd hlen (by simp; omega)
  have get : ∀ i, i < n.get_layers.length → ∃ l l' ρ τ, n.get_layers[i]? = some l ∧
      n'.get_layers[i]? = some l' ∧ ChannelsLayer ρ τ l l' := fun i hi => channels_get hl i hi
  have hin' : n'.get_input_shape = n.get_input_shape ∧ n'.get_output_shape = n.get_output_shape := by
    have hc := hok.chain
    have hc' := (built_netOk hn').chain
    obtain ⟨l, l', _, _, a1, a2, a3⟩ := get 0 hpos
    obtain ⟨m, m', _, _, b1, b2, b3⟩ := get (n.get_layers.length - 1) (by omega)
    constructor
    · rw [hc.first l (by rw [List.head?_eq_getElem?]; exact a1),
        hc'.first l' (by rw [List.head?_eq_getElem?]; exact a2), (channels_shapes a3).1]
    · rw [hc.last m (by rw [List.getLast?_eq_getElem?]; exact b1),
        hc'.last m' (by rw [List.getLast?_eq_getElem?]; rw [← hlen] at b2; exact b2),
        (channels_shapes b3).2]
  have hxs' : x'.shape = n'.get_input_shape := by rw [hsx, hxs, hin'.1]
  have hxM' : Within x' M := by
    intro i j k h
    rw [hsx] at h
    rw [ht i j k h]
    exact hxM _ _ _ ⟨h.1, h.2.1, by rw [hxs]; exact hπ.1 k (by rw [← hxs]; exact h.2.2)⟩
  have near : ∀ {x : Tensor F32}, Within x M → Near x (fun i j k => (val x i j k).toReal) M 0 :=
    fun h i j k hin => ⟨(h i j k hin).1, by simp, (h i j k hin).2⟩
  obtain ⟨_, t, _, r2, _, _, r5, r6⟩ := run_states b hn hne hx hxs
  have hυ : Renumbers n.get_output_shape.dk.toNat υ := by
    rw [← r5]
    exact channels_renumbers b hl hok.layers t (by rw [r2, hxs]; exact hπ) fun i l hi => (r6 i l hi).2
  obtain ⟨n1, y, c1, c2, c3, c4⟩ := C74_infer b n hn hne x hx hxs _ M 0 M' e' hM le_rfl (near hxM) hA
  obtain ⟨n2, y', d1, d2, d3, d4⟩ := C74_infer b n' hn' hne' x' hx' hxs' _ M 0 M' e' hM le_rfl
    (near hxM') (accuracy_channels hA hok.layers hl)
  refine ⟨n1, y, n2, y', c1, c2, d1, d2, by rw [d3, c3, hin'.2], fun i j k hin => ?_⟩
  obtain ⟨v', q1, q2, q3, _⟩ := d4 i j k (by rw [d3, hin'.2, ← c3]; exact hin)
  obtain ⟨v, p1, p2, p3, _⟩ := c4 i j (υ k) ⟨hin.1, hin.2.1, by rw [c3]; exact hυ.1 k (by rw [← c3]; exact hin.2.2)⟩
  refine ⟨v, v', p1, q1, p2, q2, ?_⟩
  have he := C157_exact b π υ n n' hn hne hl x hx hxs (fun i j k => (val x i j k).toReal)
    (fun i j k => (val x' i j k).toReal)
    (fun i j k h => by
      show (val x' i j k).toReal = (val x i j (π k)).toReal
      rw [ht i j k (by rw [hxs]; exact h)]) i j k (c3 ▸ hin)
  rw [he] at q3
  rw [abs_le] at p3 q3 ⊢
  constructor <;> linarith

/-! ## Non-vacuity -/

/-- a kernel with one row, one column and two channels -/
def deepPair (x y : F32) : Tensor F32 := ⟨⟨1, 1, 1⟩, ⟨1, 1, 2⟩, [x, y]⟩

omit [Libm] in
theorem deepPair_wf (x y : F32) : (deepPair x y).WF :=
  ⟨by change TensorShape.Fits ⟨1, 1, 2⟩; decide, rfl, rfl, rfl, rfl⟩

/-- one channel becomes two -/
def exFork (x y : F32) : ConvolutionalLayer F32 :=
  { kernels := [single x, single y], biases := [single ⟨0⟩, single ⟨0⟩], kernel_gradients := [], bias_gradients := []
    stride := 1, relu_mask := single ⟨0⟩, input_shape := ⟨1, 1, 1⟩, output_shape := ⟨1, 1, 2⟩
    name := "fork", run_state := .Inference }

/-- two channels become one -/
def exJoin (x y : F32) : ConvolutionalLayer F32 :=
  { kernels := [deepPair x y], biases := [single ⟨0⟩], kernel_gradients := [], bias_gradients := []
    stride := 1, relu_mask := single ⟨0⟩, input_shape := ⟨1, 1, 2⟩, output_shape := ⟨1, 1, 1⟩
    name := "join", run_state := .Inference }

theorem exFork_ok (x y : F32) : (AnyLayer.conv (exFork x y)).Ok :=
  ⟨by change (1 : UInt32) ≠ 0; decide, by change TensorShape.Fits ⟨1, 1, 1⟩; decide,
    by change TensorShape.Fits ⟨1, 1, 2⟩; decide, rfl, fun k hm => by
      have w : windowsTile ⟨1, 1, 1⟩ ⟨1, 1, 1⟩ 1 ⟨1, 1, 2⟩ := by decide
      rcases List.mem_cons.mp hm with rfl | hm
      · exact ⟨single_wf _, rfl, w⟩
      · obtain rfl := List.mem_singleton.mp hm
        exact ⟨single_wf _, rfl, w⟩, rfl,
    fun k hm => by
      rcases List.mem_cons.mp hm with rfl | hm
      · exact ⟨single_wf _, rfl⟩
      · obtain rfl := List.mem_singleton.mp hm
        exact ⟨single_wf _, rfl⟩, nofun⟩

theorem exJoin_ok (x y : F32) : (AnyLayer.conv (exJoin x y)).Ok :=
  ⟨by change (1 : UInt32) ≠ 0; decide, by change TensorShape.Fits ⟨1, 1, 2⟩; decide,
    by change TensorShape.Fits ⟨1, 1, 1⟩; decide, rfl, fun k hm => by
      obtain rfl := List.mem_singleton.mp hm
      exact ⟨deepPair_wf x y, rfl, by change windowsTile ⟨1, 1, 2⟩ ⟨1, 1, 2⟩ 1 ⟨1, 1, 1⟩; decide⟩, rfl,
    fun k hm => by
      obtain rfl := List.mem_singleton.mp hm
      exact ⟨single_wf _, rfl⟩, nofun⟩

theorem exForkJoin_built (b : Build) (x y u v : F32) : ∃ n : Net F32, Built b n ∧
    n.get_layers = [.conv (exFork x y), .conv (exJoin u v)] ∧ n.get_input_shape = ⟨1, 1, 1⟩ := by
  have h1 : ∃ n : Net F32, (Network.new .Inference : Net F32).add_layer b (.conv (exFork x y)) = .ok (.ok (), n) ∧
      ∃ n2, n.add_layer b (.conv (exJoin u v)) = .ok (.ok (), n2) ∧
        n2.get_layers = [.conv (exFork x y), .conv (exJoin u v)] ∧ n2.get_input_shape = ⟨1, 1, 1⟩ := by
    cases b <;> exact ⟨_, rfl, _, rfl, rfl, rfl⟩
  obtain ⟨n, e1, n2, e2, e3, e4⟩ := h1
  exact ⟨n2, .add_layer n _ _ _ (.add_layer _ _ _ _ (.new _) (exFork_ok x y) e1) (exJoin_ok u v) e2, e3, e4⟩

/-- Swapping two hidden channels meets the assumptions of C157. -/
example : ∃ (n n' : Net F32) (M' e' : ℝ), Built .debug n ∧ Built .debug n' ∧ n.get_layers ≠ [] ∧
    ChannelsLayers id id n.get_layers n'.get_layers ∧ Renumbers n.get_input_shape.dk.toNat id ∧
    n.get_layers = [.conv (exFork ⟨0x3f800000⟩ ⟨0⟩), .conv (exJoin ⟨0⟩ ⟨0x3f800000⟩)] ∧
    n'.get_layers = [.conv (exFork ⟨0⟩ ⟨0x3f800000⟩), .conv (exJoin ⟨0x3f800000⟩ ⟨0⟩)] ∧
    Accuracy n.get_layers 1 0 M' e' := by
  have e0 : (⟨0x3f800000⟩ : F32).toReal = 1 := by
    unfold toReal
    rw [show (⟨0x3f800000⟩ : F32).toInt = 2 ^ 149 by decide]
    norm_num
  have e1 : (⟨0⟩ : F32).toReal = 0 := by
    unfold toReal
    rw [show (⟨0⟩ : F32).toInt = 0 by decide]
    norm_num
  obtain ⟨n, h1, h2, h3⟩ := exForkJoin_built .debug ⟨0x3f800000⟩ ⟨0⟩ ⟨0⟩ ⟨0x3f800000⟩
  obtain ⟨n', h1', h2', h3'⟩ := exForkJoin_built .debug ⟨0⟩ ⟨0x3f800000⟩ ⟨0x3f800000⟩ ⟨0⟩
  have hid : ∀ m, Renumbers m id := fun m => ⟨fun _ h => h, fun _ _ _ _ h => h⟩
  have hsw : Renumbers 2 (fun k => 1 - k) := ⟨fun o _ => by
    show 1 - o < 2
    omega, fun o p _ _ h => by
    replace h : 1 - o = 1 - p := h
    omega⟩
  have ht : ChannelsLayers id id n.get_layers n'.get_layers := by
    rw [h2, h2']
    refine .cons id (fun k => 1 - k) id _ _ _ _ ⟨rfl, rfl, rfl, rfl, rfl, hid _, hsw, ?_⟩
      (.cons _ id id _ _ _ _ ⟨rfl, rfl, rfl, rfl, rfl, hsw, hid _, ?_⟩ (.nil _))
    · intro o K K' B B' g1 g2 g3 g4
      obtain rfl | rfl | ⟨o, rfl⟩ : o = 0 ∨ o = 1 ∨ ∃ q, o = q + 2 := by
        rcases o with _ | _ | o
        · exact .inl rfl
        · exact .inr (.inl rfl)
        · exact .inr (.inr ⟨o, rfl⟩)
      · cases g1; cases g2; cases g3; cases g4
        exact ⟨rfl, fun _ _ _ _ => rfl, rfl⟩
      · cases g1; cases g2; cases g3; cases g4
        exact ⟨rfl, fun _ _ _ _ => rfl, rfl⟩
      · cases g2
    · intro o K K' B B' g1 g2 g3 g4
      cases o with
      | zero =>
        cases g1; cases g2; cases g3; cases g4
        refine ⟨rfl, fun i j k hin => ?_, rfl⟩
        obtain ⟨q1, q2, q3⟩ : i < 1 ∧ j < 1 ∧ k < 2 := hin
        obtain rfl : i = 0 := by omega
        obtain rfl : j = 0 := by omega
        obtain rfl | rfl : k = 0 ∨ k = 1 := by omega
        · rfl
        · rfl
      | succ o => cases g2
  have hA : ∃ M' e', Accuracy n.get_layers 1 0 M' e' := by
    rw [h2]
    have b0 : (val (single (⟨0⟩ : F32)) 0 0 0).isFinite = true ∧ |(val (single (⟨0⟩ : F32)) 0 0 0).toReal| ≤ 0 := by
      change (⟨0⟩ : F32).isFinite = true ∧ |(⟨0⟩ : F32).toReal| ≤ 0
      rw [e1]
      exact ⟨by decide, by simp⟩
    have k0 : ∀ v : F32, v.isFinite = true → |v.toReal| ≤ 1 → (single v).shape.count ≤ 1 ∧
        (∀ i j k, (single v).shape.Inside i j k → (val (single v) i j k).isFinite = true) ∧
        ((single v).shape.indices.map fun p => |(val (single v) p.1 p.2.1 p.2.2).toReal|).sum ≤ 1 := by
      intro v hv hv1
      refine ⟨Nat.le_refl 1, fun i j k hin => ?_, ?_⟩
      · obtain ⟨h1, h2, h3⟩ : i < 1 ∧ j < 1 ∧ k < 1 := hin
        obtain rfl : i = 0 := by omega
        obtain rfl : j = 0 := by omega
        obtain rfl : k = 0 := by omega
        exact hv
      · change [|v.toReal|].sum ≤ 1
        simpa using hv1
    refine ⟨_, _, .conv _ _ 1 1 0 1 0 _ _ (fun kernel hm => ?_) (fun bias hm => ?_) (by norm_num) (by norm_num)
      (by norm_num) (by norm_num) (.conv _ _ 2 1 0 _ _ _ _ (fun kernel hm => ?_) (fun bias hm => ?_) (by norm_num)
        (by norm_num) (by norm_num) (by norm_num) (.nil _ _))⟩
    · rcases List.mem_cons.mp hm with rfl | hm
      · exact k0 _ (by decide) (by rw [e0]; simp)
      · obtain rfl := List.mem_singleton.mp hm
        exact k0 _ (by decide) (by rw [e1]; simp)
    · rcases List.mem_cons.mp hm with rfl | hm
      · exact b0
      · obtain rfl := List.mem_singleton.mp hm
        exact b0
    · obtain rfl := List.mem_singleton.mp hm
      refine ⟨Nat.le_refl 2, fun i j k hin => ?_, ?_⟩
      · obtain ⟨h1, h2, h3⟩ : i < 1 ∧ j < 1 ∧ k < 2 := hin
        obtain rfl : i = 0 := by omega
        obtain rfl : j = 0 := by omega
        obtain rfl | rfl : k = 0 ∨ k = 1 := by omega
        · change (⟨0⟩ : F32).isFinite = true
          decide
        · change (⟨0x3f800000⟩ : F32).isFinite = true
          decide
      · change [|(⟨0⟩ : F32).toReal|, |(⟨0x3f800000⟩ : F32).toReal|].sum ≤ 1
        rw [e0, e1]
        norm_num
    · obtain rfl := List.mem_singleton.mp hm
      exact b0
  obtain ⟨M', e', hA⟩ := hA
  exact ⟨n, n', M', e', h1, h1', by rw [h2]; simp, ht, hid _, h2, h2', hA⟩

end Rusty
