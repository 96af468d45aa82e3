import Verif.Props.NetworkFiles
import Verif.Lemmas.Assembled

/-! # C46, C63: files saved from any network a client can assemble -/

namespace Rusty

open F32Ops Spec

variable {F : Type} [F32Ops F] [F32Bits F]

/-- the shapes of the layers allow them to be added in mode `m` -/
private theorem sized {b : Build} {n : Net F} (hn : Assembled b n) {m : NetworkRunState}
    (hm : b = .release ∨ m = .Inference ∨ (∀ l ∈ n.get_layers, l.get_run_mode = m) ∨
      ∀ l ∈ n.get_layers, ShapesFit l) :
    b = .release ∨ ∀ l ∈ n.layers, (m = .Training → ShapesFit l) ∧ EndsFit l := by
  cases b with
  | release => exact .inl rfl
  | debug =>
    refine .inr fun l hl => ⟨fun e => ?_, reach_ends (assembled_reach hn) l hl⟩
    rcases hm with h | h | h | h
    · cases h
    · rw [e] at h; cases h
    · exact training_fits (assembled_reach hn) l hl ((h l hl).trans e)
    · exact h l hl

/-! ## C46 -/

/-- C46 for every network a client can assemble: from layers of all types, made in any way the API
offers, well formed or not.  If every convolutional layer has a kernel, then loading the file into a new
network gives the same layers in the same order, with the same outer shapes.  In debug builds and for a
new network in training mode, the layers must have been in training mode before, or have shapes whose
element counts are representable.

Partial: false for networks with a convolutional layer without kernels, see the negation below; nothing
is said about predictions, see `C46_predicts_partial` and `C46_predicts_negation`. -/
theorem C46_any_layers_partial (b : Build) (n : Net F) (hn : Assembled b n)
    (hk : ∀ l ∈ n.get_layers, hasKernels l) (o : HashOrder) (hl : (fileOf o n).length < 2 ^ 64)
    (fs fs' : FS) (name : String) (hs : n.save_to_file o .done fs name = (.ok (), fs'))
    (m : NetworkRunState)
    (hm : b = .release ∨ m = .Inference ∨ (∀ l ∈ n.get_layers, l.get_run_mode = m) ∨
      ∀ l ∈ n.get_layers, ShapesFit l) :
    ∃ n', (Network.new m : Net F).load_from_file b fs' name = .ok (.ok (), n') ∧ Assembled b n' ∧
      n'.get_layers.map params = n.get_layers.map params ∧
      n'.get_layers.map AnyLayer.get_name = n.get_layers.map AnyLayer.get_name ∧
      n'.get_run_state = m ∧ (∀ l ∈ n'.get_layers, l.get_run_mode = m) ∧
      (n.get_layers ≠ [] → n'.get_input_shape = n.get_input_shape ∧
        n'.get_output_shape = n.get_output_shape) := by
  have hc := reach_chain (assembled_reach hn)
  obtain ⟨n', ls, h1, h3, h4, h5, h6⟩ := populate_made (b := b) (n0 := Network.new m) hc
    (fun l h => assembled_fills hn l h (hk l h)) (sized hn hm) o hl (fun _ _ h => by cases h)
  rw [← load_saved b n _ o hl fs' name [] (saved_file hs)] at h1
  have h3 : n'.layers = ls := h3
  subst h3
  have ha : Assembled b n' := .load_from_file _ _ _ _ _ (.new m) h1
  have hc' := reach_chain (assembled_reach ha)
  refine ⟨n', h1, ha, h4, ?_, h5, h6, ?_⟩
  · refine List.ext_getElem? fun i => ?_
    simp only [List.getElem?_map, Network.get_layers]
    cases hi : n'.layers[i]? with
    | none =>
      have := congrArg List.length h4
      simp only [List.length_map] at this
      rw [List.getElem?_eq_none_iff.mpr (by rw [← this]; exact List.getElem?_eq_none_iff.mp hi)]
    | some l' =>
      obtain ⟨l, hl, hp⟩ := map_get h4 hi
      rw [hl, Option.map_some, Option.map_some, params_name hp]
  · intro hne
    have hlen := congrArg List.length h4
    simp only [List.length_map] at hlen
    have hpos : 0 < n.layers.length := List.length_pos_iff.mpr hne
    have hi0 : n'.layers[0]? = some (n'.layers[0]'(by omega)) := List.getElem?_eq_getElem _
    obtain ⟨a, ha, hpa⟩ := map_get h4 hi0
    have hi1 : n'.layers[n'.layers.length - 1]? = some (n'.layers[n'.layers.length - 1]'(by omega)) :=
      List.getElem?_eq_getElem _
    obtain ⟨c, hcc, hpc⟩ := map_get h4 hi1
    constructor
    · rw [hc'.first _ (by rw [List.head?_eq_getElem?]; exact hi0),
        hc.first a (by rw [List.head?_eq_getElem?]; exact ha), params_input hpa]
    · rw [hc'.last _ (by rw [List.getLast?_eq_getElem?]; exact hi1),
        hc.last c (by rw [List.getLast?_eq_getElem?, ← hlen]; exact hcc), params_output hpc]

/-- C46 is false for every network with a convolutional layer without kernels: no load of its file into
any network says `Ok`. -/
theorem C46_no_kernels_negation (b : Build) (n n0 n' : Net F) (l : ConvolutionalLayer F)
    (hl : AnyLayer.conv l ∈ n.get_layers) (hk : l.kernels = []) (o : HashOrder)
    (hlen : (fileOf o n).length < 2 ^ 64) (fs fs' : FS) (name : String)
    (hs : n.save_to_file o .done fs name = (.ok (), fs')) :
    n0.load_from_file b fs' name ≠ .ok (.ok (), n') := by
  rw [load_saved b n _ o hlen fs' name [] (saved_file hs)]
  exact populate_no_kernels hl hk o hlen

/-- C46, when loading works: the file of an assembled network loads with `Ok` into a new network exactly
if every convolutional layer has a kernel.

Partial: says when it loads; that the layers are the same then is `C46_any_layers_partial`. -/
theorem C46_loads_iff_partial (b : Build) (n : Net F) (hn : Assembled b n) (o : HashOrder)
    (hl : (fileOf o n).length < 2 ^ 64) (fs fs' : FS) (name : String)
    (hs : n.save_to_file o .done fs name = (.ok (), fs')) (m : NetworkRunState)
    (hm : b = .release ∨ m = .Inference ∨ (∀ l ∈ n.get_layers, l.get_run_mode = m) ∨
      ∀ l ∈ n.get_layers, ShapesFit l) :
    (∃ n', (Network.new m : Net F).load_from_file b fs' name = .ok (.ok (), n')) ↔
      ∀ l ∈ n.get_layers, hasKernels l := by
  constructor
  · rintro ⟨n', h⟩ l hmem
    cases l with
    | conv l => exact fun hk => C46_no_kernels_negation b n _ n' l hmem hk o hl fs fs' name hs h
    | fc l => trivial
    | mp l => trivial
    | sm l => trivial
  · intro hk
    obtain ⟨n', h, _⟩ := C46_any_layers_partial b n hn hk o hl fs fs' name hs m hm
    exact ⟨n', h⟩

/-- a fully connected layer with weights of depth 2 and all biases `v`, as training mode sets it up -/
private def deep (v : F) (mask : List F) : FullyConnectedLayer F :=
  { weights := zeros ⟨1, 1, 2⟩, bias := ⟨⟨1, 1, 1⟩, ⟨1, 1, 2⟩, [v, v]⟩,
    weights_gradients := zeros ⟨1, 1, 2⟩, weights_gradients_intermediate := zeros ⟨1, 1, 2⟩,
    bias_gradients := zeros ⟨1, 1, 2⟩, relu_mask := ⟨⟨1, 1, 1⟩, ⟨1, 1, 2⟩, mask⟩, name := "fc",
    run_state := .Training }

/-- a network of this layer whose output holds `out` -/
private def deepNet (v : F) (out mask : List F) : Net F :=
  { layers := [.fc (deep v mask)], run_state := .Training,
    intermediate_states := [zeros ⟨1, 1, 1⟩, ⟨⟨1, 1, 1⟩, ⟨1, 1, 2⟩, out⟩],
    intermediate_gradients := [zeros ⟨1, 1, 1⟩, zeros ⟨1, 1, 2⟩],
    input_shape := ⟨1, 1, 1⟩, output_shape := ⟨1, 1, 2⟩ }

omit [F32Bits F] in
private theorem deep_infer (b : Build) (v a p q : F) (h : gt (add a v) zero = true) :
    (deepNet v [a, a] [p, q]).infer b (zeros ⟨1, 1, 1⟩) =
      .ok (.ok (), deepNet v [add a v, add a v] [one, one]) := by
  have h1 : (deepNet v [a, a] [p, q]).infer b (zeros ⟨1, 1, 1⟩) = .ok (.ok (), deepNet v
      (Tensor.reluZip [add a v, add a v] [p, q]).1 (Tensor.reluZip [add a v, add a v] [p, q]).2) := by
    cases b <;> rfl
  rw [h1]
  simp only [Tensor.reluZip, h, if_true]

/-- C46 is false of predictions for layers that are not well formed.  A fully connected layer with
weights of depth 2 is accepted; in training mode `forward` then adds the bias to whatever the output
holds.  So a network of this layer that was used once predicts something else than the network loaded
from its file. -/
theorem C46_predicts_negation (b : Build) (v : F) (h1 : gt (add zero v) zero = true)
    (h2 : gt (add (add zero v) v) zero = true) (h3 : add (add zero v) v ≠ add zero v)
    (o : HashOrder) (fs : FS) (name : String) :
    ∃ (n n' m1 m2 : Net F) (x : Tensor F) (fs' : FS), Assembled b n ∧ n.get_run_state = .Training ∧
      n.save_to_file o .done fs name = (.ok (), fs') ∧
      (Network.new .Training : Net F).load_from_file b fs' name = .ok (.ok (), n') ∧
      n.infer b x = .ok (.ok (), m1) ∧ n'.infer b x = .ok (.ok (), m2) ∧
      m1.get_output ≠ m2.get_output := by
  obtain ⟨l0, l, e1, e2, e3⟩ : ∃ (l0 l : FullyConnectedLayer F),
      FullyConnectedLayer.empty b = .ok l0 ∧
      l0.fill_from_state b (zeros ⟨1, 1, 2⟩) ⟨⟨1, 1, 1⟩, ⟨1, 1, 2⟩, [v, v]⟩ "fc" =
        .ok (.ok (), l) ∧
      (Network.new .Training : Net F).add_layer b (.fc l) =
        .ok (.ok (), deepNet v [zero, zero] [zero, zero]) := by
    cases b <;> exact ⟨_, _, rfl, rfl, rfl⟩
  have e4 := deep_infer b v zero zero zero h1
  have e5 := deep_infer b v (add zero v) one one h2
  have f0 : (encSerializedLayer (deep v [one, one]).get_serialized).length = 138 := rfl
  generalize hn0 : deepNet v [zero, zero] [zero, zero] = n0 at e3 e4
  generalize hl' : deep v [one, one] = l' at f0
  generalize hn : deepNet v [add zero v, add zero v] [one, one] = n at e4 e5
  have f1 : n.layers = [.fc l'] := by rw [← hn, ← hl']; rfl
  have hsn : o.network (SerializedNetwork.new_from_network n) =
      ⟨[o.layer 0 (AnyLayer.fc l').get_serialized]⟩ := by
    unfold HashOrder.network SerializedNetwork.new_from_network Network.get_layers
    rw [f1]
    rfl
  have hl : (fileOf o n).length < 2 ^ 64 := by
    unfold fileOf encSerializedNetwork encVec
    rw [hsn]
    simp only [List.flatMap_cons, List.flatMap_nil, List.length_append, List.append_nil,
      layer_length, len_len]
    change 8 + (encSerializedLayer l'.get_serialized).length < 2 ^ 64
    rw [f0]
    decide
  have ha : Assembled b n := .uses _ _ (.add_layer _ _ _ _ (.new _)
    (.inl (.fc_fill l0 _ _ _ _ e2)) e3) (.infer _ _ _ _ e4)
  refine ⟨n, n0, _, n, _, _, ha, by rw [← hn]; rfl, rfl, ?_, e5, e4, ?_⟩
  · rw [load_saved b n _ o hl _ name [] (saved_file (o := o) (fs := fs) rfl), hsn]
    have e : (o.layer 0 (AnyLayer.fc l').get_serialized).add_to_network b
        (Network.new .Training : Net F) = .ok (.ok (), n0) := by
      change (do
          let l0 ← FullyConnectedLayer.empty b
          let (r, l1) ← l0.load_from_serialized b (o.layer 0 l'.get_serialized)
          match r with
          | .error e => pure (.error e, Network.new .Training)
          | .ok () => (Network.new .Training).add_layer b (.fc l1) : Exec (Res × Net F)) = _
      rw [e1, ok_bind, fc_load l0 l' o 0 (by rw [f0]; decide), ← hl']
      change (do
          let (r, l1) ← l0.fill_from_state b (zeros ⟨1, 1, 2⟩) ⟨⟨1, 1, 1⟩, ⟨1, 1, 2⟩, [v, v]⟩ "fc"
          match r with
          | .error e => pure (.error e, Network.new .Training)
          | .ok () => (Network.new .Training).add_layer b (.fc l1) : Exec (Res × Net F)) = _
      rw [e2]
      exact e3
    unfold SerializedNetwork.populate_network
    simp only [forListE, e]
    rfl
  · rw [← hn]
    intro h
    have h : (Except.ok ⟨⟨1, 1, 1⟩, ⟨1, 1, 2⟩, [add (add zero v) v, add (add zero v) v]⟩ :
        Except String (Tensor F)) = .ok ⟨⟨1, 1, 1⟩, ⟨1, 1, 2⟩, [add zero v, add zero v]⟩ := h
    injection h with h
    injection h with _ _ h
    injection h with h
    exact h3 h

/-! ## C63 -/

/-- C63 for every network a client can assemble: if every convolutional layer has a kernel, then loading
the file into any network whose last output shape is the first input shape of the saved one (or which is
empty) appends the saved layers and keeps those there.

Partial: false for networks with a convolutional layer without kernels (`C63_no_kernels_negation`), and
the same condition on shapes for debug builds in training mode as in C46. -/
theorem C63_any_layers_partial (b : Build) (n n0 : Net F) (hn : Assembled b n)
    (hk : ∀ l ∈ n.get_layers, hasKernels l) (o : HashOrder)
    (hl : (fileOf o n).length < 2 ^ 64) (fs : FS) (name : String) (rest : Bytes)
    (hf : fs name = some (fileOf o n ++ rest))
    (hm : b = .release ∨ n0.get_run_state = .Inference ∨
      (∀ l ∈ n.get_layers, l.get_run_mode = n0.get_run_state) ∨ ∀ l ∈ n.get_layers, ShapesFit l) :
    ((∀ last first, n0.get_layers.getLast? = some last → n.get_layers.head? = some first →
        last.get_output_shape = first.get_input_shape) →
      ∃ n' ls, n0.load_from_file b fs name = .ok (.ok (), n') ∧
        n'.get_layers = n0.get_layers ++ ls ∧ ls.map params = n.get_layers.map params ∧
        n'.get_run_state = n0.get_run_state ∧ ∀ l ∈ ls, l.get_run_mode = n0.get_run_state) ∧
    ∀ last first, n0.get_layers.getLast? = some last → n.get_layers.head? = some first →
      last.get_output_shape ≠ first.get_input_shape →
      ∃ e, n0.load_from_file b fs name = .ok (.error e, n0) := by
  have hfill : ∀ l ∈ n.layers, Fills b l := fun l h => assembled_fills hn l h (hk l h)
  rw [load_saved b n n0 o hl fs name rest hf]
  refine ⟨fun hfit => ?_, fun last first h1 h2 h3 => ?_⟩
  · exact populate_made (reach_chain (assembled_reach hn)) hfill (sized hn hm) o hl hfit
  · exact populate_made_refused hfill (sized hn hm) o hl h1 h2 h3

/-- C63 is false for every network with a convolutional layer without kernels: no load of its file into
any network says `Ok`. -/
theorem C63_no_kernels_negation (b : Build) (n n0 n' : Net F) (l : ConvolutionalLayer F)
    (hl : AnyLayer.conv l ∈ n.get_layers) (hk : l.kernels = []) (o : HashOrder)
    (hlen : (fileOf o n).length < 2 ^ 64) (fs : FS) (name : String) (rest : Bytes)
    (hf : fs name = some (fileOf o n ++ rest)) :
    n0.load_from_file b fs name ≠ .ok (.ok (), n') := by
  rw [load_saved b n n0 o hlen fs name rest hf]
  exact populate_no_kernels hl hk o hlen

/-! ## Non-vacuity -/

open Toy in
/-- a network of a fully connected layer with weights of depth 2, in training mode -/
example : ∃ n : Net UInt32, Assembled .debug n ∧ n.get_layers.length = 1 ∧
    (∀ l ∈ n.get_layers, hasKernels l ∧ l.get_run_mode = .Training ∧ ¬ l.Ok) ∧
    (fileOf HashOrder.rev n).length = 146 := by
  obtain ⟨l0, l, n, e1, e2, e3, l', f1, f2, f3, f4⟩ : ∃ (l0 l : FullyConnectedLayer UInt32)
      (n : Net UInt32), FullyConnectedLayer.empty .debug = .ok l0 ∧
      l0.fill_from_state .debug (zeros ⟨1, 1, 2⟩) (zeros ⟨1, 1, 2⟩) "fc" = .ok (.ok (), l) ∧
      (Network.new .Training : Net UInt32).add_layer .debug (.fc l) = .ok (.ok (), n) ∧
      ∃ l', n.layers = [.fc l'] ∧ l'.weights.shape = ⟨1, 1, 2⟩ ∧ l'.run_state = .Training ∧
        (fileOf HashOrder.rev n).length = 146 :=
    ⟨_, _, _, rfl, rfl, rfl, _, rfl, rfl, rfl, rfl⟩
  refine ⟨n, .add_layer _ _ _ _ (.new _) (.inl (.fc_fill l0 _ _ _ _ e2)) e3, ?_, ?_, f4⟩
  · unfold Network.get_layers
    rw [f1]
    rfl
  · intro k hk
    unfold Network.get_layers at hk
    rw [f1, List.mem_singleton] at hk
    subst hk
    refine ⟨trivial, f3, fun h => ?_⟩
    have := (show FullyConnectedLayer.Ok l' from h).depth
    rw [f2] at this
    cases this

open Toy in
/-- the condition of `C46_predicts_negation` -/
example : gt (add zero (1 : UInt32)) zero = true ∧ gt (add (add zero (1 : UInt32)) 1) zero = true ∧
    add (add zero (1 : UInt32)) 1 ≠ add zero 1 := by decide

end Rusty
