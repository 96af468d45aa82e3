import Verif.Spec.Toy
import Verif.Lemmas.Serialization

/-! # C44, C45, C49, C50, C60, C62: tensors and layers through serialisation -/

namespace Rusty

open F32Ops Spec

variable {F : Type} [F32Ops F] [F32Bits F]

/-! ## C44 -/

omit [F32Ops F] in
/-- C44: decoding the bytes of any tensor (whatever its fields), followed by any bytes, gives the
tensor back. -/
theorem C44_bytes (t : Tensor F) (rest : Bytes) (hl : (encTensor t).length < 2 ^ 64) :
    deserialize decTensor (encTensor t ++ rest) = some t := by
  unfold deserialize
  rw [rt_tensor t rest hl]
  rfl

omit [F32Ops F] in
/-- C44: for tensors with a consistent layout there is no condition on the size. -/
theorem C44_wf (t : Tensor F) (rest : Bytes) (h : t.WF) :
    deserialize decTensor (encTensor t ++ rest) = some t := by
  refine C44_bytes t rest ?_
  have h1 := h.len
  have h2 := h.fits.2
  rw [len_tensor]
  omega

omit [F32Ops F] in
/-- C44: `save_to_file` followed by `from_file` returns the tensor; other files stay as they were. -/
theorem C44_file (t : Tensor F) (h : t.WF) (fs fs' : FS) (name : String)
    (hs : t.save_to_file .done fs name = (.ok (), fs')) :
    Tensor.from_file fs' name = .ok t ∧ ∀ other, other ≠ name → fs' other = fs other := by
  cases hs
  constructor
  · unfold Tensor.from_file
    simp only [FS.set, if_true]
    have := C44_wf t [] h
    rw [List.append_nil] at this
    rw [this]
  · intro other ho
    simp only [FS.set, if_neg ho]

open Toy in
example : (zeros ⟨2, 1, 1⟩ : Tensor UInt32).WF ∧
    deserialize decTensor (encTensor (zeros ⟨2, 1, 1⟩ : Tensor UInt32) ++ [7, 7]) =
      some (zeros ⟨2, 1, 1⟩ : Tensor UInt32) := ⟨zeros_wf (by decide), C44_wf _ _ (zeros_wf (by decide))⟩

/-! ## C45 -/

/-- C45: Take any layer that was constructed, filled or loaded with success and used in any way.
Write its serialised form out with any order of the map entries and any bytes behind, read it back
and load it into any layer of its type, where a fully connected target is in inference mode.  This
succeeds and gives the parameters of the original: weights, kernels, biases, stride, mask, shapes,
name. -/
theorem C45_round_trip (b : Build) (l l0 : AnyLayer F) (h : Made b l) (ht : sameType l l0)
    (hm : (∃ k, l0 = .fc k) → l0.get_run_mode = .Inference) (o : HashOrder) (i : Nat) (rest : Bytes)
    (hl : (encSerializedLayer l.get_serialized).length < 2 ^ 64) :
    ∃ s l', deserialize decSerializedLayer
        (encSerializedLayer (o.layer i l.get_serialized) ++ rest) = some s ∧
      l0.load_from_serialized b s = .ok (.ok (), l') ∧ params l' = params l ∧
      l'.get_run_mode = l0.get_run_mode := by
  have hf := made_fills h
  refine ⟨o.layer i l.get_serialized, ?_⟩
  have hd : deserialize decSerializedLayer
      (encSerializedLayer (o.layer i l.get_serialized) ++ rest) =
        some (o.layer i l.get_serialized) := by
    unfold deserialize
    rw [rt_serialized _ (layer_distinct o i (serialized_distinct l)) _ (by rw [layer_length]; exact hl)]
    rfl
  obtain ⟨l', h⟩ := load_layer hf ht hm o i hl
  exact ⟨l', hd, h⟩

omit [F32Bits F] in
/-- C45: the layers loading starts from, `empty()`, are in inference mode. -/
theorem C45_empty (b : Build) : (∃ l : ConvolutionalLayer F, ConvolutionalLayer.empty b = .ok l ∧
      l.run_state = .Inference) ∧
    (∃ l : FullyConnectedLayer F, FullyConnectedLayer.empty b = .ok l ∧ l.run_state = .Inference) ∧
    MaxPoolLayer.empty.run_state = .Inference ∧
    (∃ l : SoftmaxLayer F, SoftmaxLayer.empty b = .ok l ∧ l.run_state = .Inference) := by
  refine ⟨?_, ?_, rfl, ?_⟩
  · unfold ConvolutionalLayer.empty
    rw [empty_ok]
    exact ⟨_, rfl, rfl⟩
  · unfold FullyConnectedLayer.empty
    rw [empty_ok]
    exact ⟨_, rfl, rfl⟩
  · unfold SoftmaxLayer.empty
    rw [empty_ok]
    exact ⟨_, rfl, rfl⟩

open Toy in
/-- a fully connected layer that was constructed, filled with a value and put in training mode -/
example : ∃ l : FullyConnectedLayer UInt32, Made .debug (.fc l) ∧ l.run_state = .Training ∧
    l.weights.data = [5, 5, 5, 5, 5, 5] ∧
    (encSerializedLayer (AnyLayer.fc l).get_serialized).length = 158 := by
  refine ⟨{ weights := ⟨⟨1, 3, 6⟩, ⟨3, 2, 1⟩, [5, 5, 5, 5, 5, 5]⟩, bias := zeros ⟨3, 1, 1⟩,
            weights_gradients := zeros ⟨3, 2, 1⟩, weights_gradients_intermediate := zeros ⟨3, 2, 1⟩,
            bias_gradients := zeros ⟨3, 1, 1⟩, relu_mask := zeros ⟨3, 1, 1⟩, name := "fc",
            run_state := .Training }, ?_, rfl, rfl, rfl⟩
  obtain ⟨l, h⟩ : ∃ l : FullyConnectedLayer UInt32, FullyConnectedLayer.new .debug 2 3 "fc" = .ok l :=
    ⟨_, rfl⟩
  refine .call (.fc (l.fill_weights_with_value 5)) _ (.fc_weights _ 5 (.fc_new _ _ _ _ h))
    (.switch_to_training _ _ ?_)
  cases h
  rfl

/-! ## C49 -/

/-- C49: data of another layer type are refused and the layer is unchanged. -/
theorem C49_wrong_type (b : Build) (l : AnyLayer F) (s : SerializedLayer) (h : ¬ dataFor l s) :
    ∃ e, l.load_from_serialized b s = .ok (.error e, l) := by
  cases l <;> cases s <;> first | exact absurd trivial h | exact ⟨_, rfl⟩

/-- C49: data that lack one of the keys are refused and the layer is unchanged, whatever the other
keys hold. -/
theorem C49_missing_key (b : Build) (l : AnyLayer F) (s : SerializedLayer) (h : lacksKey s) :
    ∃ e, l.load_from_serialized b s = .ok (.error e, l) := by
  by_cases ht : dataFor l s
  swap
  · exact C49_wrong_type b l s ht
  have key : ∀ {K : Type} [DecidableEq K] (m : HMap K) (k : K), (∀ e ∈ m.entries, e.1 ≠ k) →
      m.contains_key k = false := by
    intro K _ m k hk
    unfold HMap.contains_key HMap.get
    rw [List.find?_eq_none.mpr (fun e he => by simpa using hk e he)]
    rfl
  cases l <;> cases s <;> first | exact ht.elim | skip
  · obtain ⟨k, hk, hm⟩ := h
    have := key _ k hm
    simp only [AnyLayer.load_from_serialized, ConvolutionalLayer.load_from_serialized,
      ConvolutionalLayer.load_from_serialized_data]
    simp only [List.mem_cons, List.not_mem_nil, or_false] at hk
    rcases hk with rfl | rfl | rfl | rfl | rfl <;> simp only [this, Bool.not_false, if_true] <;>
      repeat' split
    all_goals exact ⟨_, rfl⟩
  · obtain ⟨k, hk, hm⟩ := h
    have := key _ k hm
    simp only [AnyLayer.load_from_serialized, FullyConnectedLayer.load_from_serialized,
      FullyConnectedLayer.load_from_serialized_data]
    simp only [List.mem_cons, List.not_mem_nil, or_false] at hk
    rcases hk with rfl | rfl | rfl <;> simp only [this, Bool.not_false, if_true] <;>
      repeat' split
    all_goals exact ⟨_, rfl⟩
  · obtain ⟨k, hk, hm⟩ := h
    have := key _ k hm
    simp only [AnyLayer.load_from_serialized, MaxPoolLayer.load_from_serialized,
      MaxPoolLayer.load_from_serialized_data]
    simp only [List.mem_cons, List.not_mem_nil, or_false] at hk
    rcases hk with rfl | rfl | rfl | rfl <;> simp only [this, Bool.not_false, if_true] <;>
      repeat' split
    all_goals exact ⟨_, rfl⟩
  · obtain ⟨k, hk, hm⟩ := h
    have := key _ k hm
    simp only [AnyLayer.load_from_serialized, SoftmaxLayer.load_from_serialized,
      SoftmaxLayer.load_from_serialized_data]
    simp only [List.mem_cons, List.not_mem_nil, or_false] at hk
    rcases hk with rfl | rfl <;> simp only [this, Bool.not_false, if_true] <;>
      repeat' split
    all_goals exact ⟨_, rfl⟩

/-- C49: data that say `Ok` had the type of the layer and all the keys. -/
theorem C49_accepted (b : Build) (l l' : AnyLayer F) (s : SerializedLayer)
    (h : l.load_from_serialized b s = .ok (.ok (), l')) : dataFor l s ∧ ¬ lacksKey s := by
  constructor
  · refine Decidable.byContradiction (dec := Classical.propDecidable _) fun hn => ?_
    obtain ⟨e, he⟩ := C49_wrong_type b l s hn
    rw [he] at h
    cases h
  · intro hn
    obtain ⟨e, he⟩ := C49_missing_key b l s hn
    rw [he] at h
    cases h

example : lacksKey (.SerialSoftMaxLayer ⟨[(.Name, encString "softmax")]⟩) :=
  ⟨.Shape, by decide, by decide⟩

open Toy in
example : ¬ dataFor (.mp MaxPoolLayer.empty : AnyLayer UInt32) (.SerialSoftMaxLayer ⟨[]⟩) := fun h => h

/-! ## C50 -/

/-- C50 for files whose content is a tensor with a consistent layout, followed by anything; the files
`save_to_file` writes are such (C07 shows that the operations of the library only make such
tensors).

Partial: false for other file contents, see the negation below. -/
theorem C50_partial (b : Build) (t : Tensor F) (h : t.WF) (rest : Bytes) (fs : FS) (name : String)
    (hf : fs name = some (encTensor t ++ rest)) :
    ∃ u : Tensor F, Tensor.from_file fs name = .ok u ∧ ∀ i j k, u.shape.Inside i j k →
      (∃ v, u.get_item b (ix i j k) = .ok v) ∧ ∀ v, ∃ u', u.set_item b (ix i j k) v = .ok u' := by
  refine ⟨t, ?_, fun i j k hin => ⟨⟨_, get_item_ok h hin⟩, fun v => ⟨_, set_item_ok h hin v⟩⟩⟩
  unfold Tensor.from_file
  rw [hf]
  simp only
  rw [C44_wf t rest h]

/-- C50 is false: a file with the 32 bytes of a `1x1x1` tensor without data is accepted, and both
`get_item` and `set_item` at the only inside index panic. -/
theorem C50_negation (b : Build) (fs : FS) (name : String)
    (hf : fs name = some (encTensor (⟨⟨1, 1, 1⟩, ⟨1, 1, 1⟩, []⟩ : Tensor F))) :
    ∃ u : Tensor F, Tensor.from_file fs name = .ok u ∧ u.shape.Inside 0 0 0 ∧
      u.get_item b (ix 0 0 0) = .error .oob ∧ ∀ v, u.set_item b (ix 0 0 0) v = .error .oob := by
  refine ⟨⟨⟨1, 1, 1⟩, ⟨1, 1, 1⟩, []⟩, ?_, ⟨Nat.one_pos, Nat.one_pos, Nat.one_pos⟩, ?_, ?_⟩
  · unfold Tensor.from_file
    rw [hf]
    simp only
    have := C44_bytes (⟨⟨1, 1, 1⟩, ⟨1, 1, 1⟩, []⟩ : Tensor F) []
      (by rw [len_tensor, List.length_nil]; decide)
    rw [List.append_nil] at this
    rw [this]
  · cases b <;> rfl
  · intro v
    cases b <;> rfl

example (bs : Bytes) : ∃ fs : FS, fs "f" = some bs := ⟨fun _ => some bs, rfl⟩

/-! ## C60 -/

/-- C60 for targets in inference mode, of all four types: a layer that was loaded with the data of a
well formed layer is well formed.

Partial: false for targets in training mode that are not fully connected layers, see below. -/
theorem C60_inference_partial (b : Build) (l l0 : AnyLayer F) (h : l.Ok) (hk : hasKernels l)
    (ht : sameType l l0) (hm : l0.get_run_mode = .Inference) (o : HashOrder) (i : Nat)
    (hl : (encSerializedLayer l.get_serialized).length < 2 ^ 64) :
    ∃ l', l0.load_from_serialized b (o.layer i l.get_serialized) = .ok (.ok (), l') ∧ l'.Ok ∧
      params l' = params l ∧ l'.get_run_mode = .Inference := by
  obtain ⟨l', e, hp, hm'⟩ := load_layer (ok_fills h hk b) ht (fun _ => hm) o i hl
  rw [hm] at hm'
  exact ⟨l', e, ok_of_params h hp hm', hp, hm'⟩

/-- C60 for fully connected targets in either mode. -/
theorem C60_fully_connected_partial (b : Build) (l l0 : FullyConnectedLayer F) (h : l.Ok)
    (o : HashOrder) (i : Nat) (hl : (encSerializedLayer l.get_serialized).length < 2 ^ 64) :
    ∃ l', l0.load_from_serialized b (o.layer i l.get_serialized) = .ok (.ok (), l') ∧ l'.Ok ∧
      params (.fc l') = params (.fc l) ∧ l'.run_state = l0.run_state := by
  rw [fc_load l0 l o i hl]
  obtain ⟨h1, h2, h3⟩ := ok_fills (l := .fc l) h trivial b
  unfold FullyConnectedLayer.fill_from_state FullyConnectedLayer.update_tensors
  simp only [h1, h2, h3, ne_eq, not_true_eq_false, if_false]
  cases hm : l0.run_state with
  | Inference =>
    simp only [empty_ok, ok_bind]
    exact ⟨_, rfl, ⟨h.weights, h.bias, h.rows, h.depth, fun e => by cases e⟩, rfl, rfl⟩
  | Training =>
    simp only [FullyConnectedLayer.get_output_shape, new_ok h.weights.fits, new_ok h.bias.fits, ok_bind]
    refine ⟨_, rfl, ⟨h.weights, h.bias, h.rows, h.depth, fun _ => ?_⟩, rfl, rfl⟩
    obtain ⟨a1, a2, _⟩ := fill_ok (zero : F) (zeros_wf h.weights.fits)
    obtain ⟨b1, b2, _⟩ := fill_ok (zero : F) (zeros_wf h.bias.fits)
    exact ⟨⟨a1, a2⟩, ⟨a1, a2⟩, ⟨b1, b2⟩, ⟨b1, b2⟩⟩

omit [F32Bits F] in
/-- C60 is false for max-pool layers: load the data of any well formed layer into any well formed
layer in training mode with a different number of outputs.  Loading says `Ok`, and `forward` on every
input of the right shape then returns `Err`. -/
theorem C60_max_pool_negation (b : Build) (l l0 : MaxPoolLayer) (h : l.Ok) (h0 : l0.Ok)
    (hm : l0.run_state = .Training) (hc : l0.output_shape.count ≠ l.output_shape.count)
    (o : HashOrder) (i : Nat) (hl : (encSerializedLayer l.get_serialized).length < 2 ^ 64) :
    ∃ l', l0.load_from_serialized b (o.layer i l.get_serialized) = .ok (.ok (), l') ∧
      ∀ x out : Tensor F, x.shape = l'.input_shape → out.shape = l'.output_shape →
        ∃ e, l'.forward b x out = .ok (.error e, l', out) := by
  rw [mp_load l0 l o i hl, ok_fills (F := F) (l := .mp l) h trivial b]
  refine ⟨_, rfl, fun x out hx ho => ?_⟩
  simp only at hx ho
  unfold MaxPoolLayer.forward Tensor.max_pool_track_origin
  simp only [hm, hx, ho]
  rw [check_pool_ok (fun e => h.stride (u32_ext e)) h.depth h.tiles, ok_bind]
  simp only [not_true_eq_false, if_false, total_size_ok h.output, ok_bind]
  rw [if_pos (by rw [toNat_ofNat_lt h.output.2, h0.buffers hm]; exact hc.symm)]
  exact ⟨_, rfl⟩

/-- a `1x1x1` max-pool layer in training mode and one with four outputs -/
example : ∃ l0 l : MaxPoolLayer, l0.Ok ∧ l.Ok ∧ l0.run_state = .Training ∧
    l0.output_shape.count ≠ l.output_shape.count := by
  refine ⟨{ MaxPoolLayer.empty with run_state := .Training, max_pool_origin := [0] },
    { MaxPoolLayer.empty with input_shape := ⟨2, 2, 1⟩, output_shape := ⟨2, 2, 1⟩ },
    ⟨by decide, by decide, rfl, by decide, by decide, fun _ => rfl⟩,
    ⟨by decide, by decide, rfl, by decide, by decide, fun h => by cases h⟩, rfl, by decide⟩

/-- C60 is false for convolutional layers: load the data of any well formed layer into any well
formed layer in training mode with another output shape.  Loading says `Ok`, and `forward` on every
input of the right shape then returns `Err`. -/
theorem C60_convolutional_negation (b : Build) (l l0 : ConvolutionalLayer F) (h : l.Ok)
    (hk : l.kernels ≠ []) (h0 : l0.Ok) (hm : l0.run_state = .Training)
    (hc : l0.output_shape ≠ l.output_shape) (o : HashOrder) (i : Nat)
    (hl : (encSerializedLayer l.get_serialized).length < 2 ^ 64) :
    ∃ l', l0.load_from_serialized b (o.layer i l.get_serialized) = .ok (.ok (), l') ∧
      ∀ x out : Tensor F, x.WF → x.shape = l'.input_shape → out.WF → out.shape = l'.output_shape →
        ∃ e y, l'.forward b x out = .ok (.error e, l', y) := by
  rw [conv_load l0 l o i hl, ok_fills (l := .conv l) h hk b]
  refine ⟨_, rfl, fun x out hx hxs ho hos => ?_⟩
  simp only at hxs hos
  have hs : l.stride.toNat ≠ 0 := fun e => h.stride (u32_ext e)
  obtain ⟨y, q1, q2, q3, q4⟩ := conv_channels h hxs ho hos
    (convolution_bias b) (fun v => v)
    (fun kernel bias result c k1 k2 k3 k4 k5 =>
      conv_bias_ok hx k1 k2 k3 hs k4 (by rw [k5]; decide))
  unfold ConvolutionalLayer.forward
  simp only [hm]
  rw [q1, ok_bind]
  simp only
  unfold Tensor.relu_self_and_store_mask
  rw [if_pos (by rw [q3, (h0.buffers hm).2.2.2]; exact hc.symm)]
  exact ⟨_, _, rfl⟩

open Toy in
/-- a convolutional layer in training mode and one with another output shape -/
example : ∃ l0 l : ConvolutionalLayer UInt32, l0.Ok ∧ l.Ok ∧ l.kernels ≠ [] ∧
    l0.run_state = .Training ∧ l0.output_shape ≠ l.output_shape := by
  have w : (zeros ⟨1, 1, 1⟩ : Tensor UInt32).WF := zeros_wf (by decide)
  refine ⟨{ kernels := [zeros ⟨1, 1, 1⟩], biases := [zeros ⟨1, 1, 1⟩],
            kernel_gradients := [zeros ⟨1, 1, 1⟩], bias_gradients := [zeros ⟨1, 1, 1⟩],
            relu_mask := zeros ⟨1, 1, 1⟩, stride := 1, input_shape := ⟨1, 1, 1⟩,
            output_shape := ⟨1, 1, 1⟩, name := "", run_state := .Training },
          { kernels := [zeros ⟨1, 1, 1⟩], biases := [zeros ⟨1, 1, 1⟩],
            kernel_gradients := [], bias_gradients := [],
            relu_mask := zeros ⟨1, 1, 1⟩, stride := 1, input_shape := ⟨2, 1, 1⟩,
            output_shape := ⟨2, 1, 1⟩, name := "", run_state := .Inference },
    ⟨by decide, by decide, by decide, rfl, ?_, rfl, ?_, fun _ => ⟨⟨rfl, ?_⟩, ⟨rfl, ?_⟩, w, rfl⟩⟩,
    ⟨by decide, by decide, by decide, rfl, ?_, rfl, ?_, fun h => by cases h⟩, by decide, rfl, by decide⟩
  · intro k hk
    rw [List.mem_singleton.mp hk]
    exact ⟨w, rfl, by decide⟩
  · intro k hk
    rw [List.mem_singleton.mp hk]
    exact ⟨w, rfl⟩
  · intro i h h'
    have : i = 0 := by simp at h; omega
    subst this
    exact ⟨w, rfl⟩
  · intro k hk
    rw [List.mem_singleton.mp hk]
    exact ⟨w, rfl⟩
  · intro k hk
    rw [List.mem_singleton.mp hk]
    exact ⟨w, rfl, by decide⟩
  · intro k hk
    rw [List.mem_singleton.mp hk]
    exact ⟨w, rfl⟩

open Toy in
/-- C60 is false for softmax layers: data of a `2x1x1` layer are loaded into a `1x1x1` layer in
training mode.  `backward` then says `Ok` and returns the gradient without its second term; after a
further `switch_to_training` it returns another one. -/
theorem C60_softmax_negation :
    ∃ (l l0 l1 l2 l3 l4 : SoftmaxLayer UInt32) (y g og1 og2 : Tensor UInt32),
      SoftmaxLayer.new .debug ⟨2, 1, 1⟩ "a" = .ok (.ok l) ∧
      l0.Ok ∧ l0.run_state = .Training ∧
      l0.load_from_serialized .debug l.get_serialized = .ok (.ok (), l1) ∧
      l1.switch_to_training .debug = .ok l2 ∧
      y.WF ∧ g.WF ∧ y.shape = l.shape ∧ g.shape = l.shape ∧
      l1.backward .debug y y g (zeros ⟨2, 1, 1⟩) = .ok (.ok (), l3, og1) ∧
      l2.backward .debug y y g (zeros ⟨2, 1, 1⟩) = .ok (.ok (), l4, og2) ∧
      og1.data = [3, 8] ∧ og2.data = [4294967288, 4294967282] := by
  refine ⟨_, ⟨⟨1, 1, 1⟩, "b", zeros ⟨1, 1, 1⟩, zeros ⟨1, 1, 1⟩, .Training⟩, _, _, _, _,
    { (zeros ⟨2, 1, 1⟩ : Tensor UInt32) with data := [1, 2] },
    { (zeros ⟨2, 1, 1⟩ : Tensor UInt32) with data := [3, 4] }, _, _, rfl,
    ⟨by decide, fun _ => ⟨⟨zeros_wf (by decide), rfl⟩, zeros_wf (by decide), rfl⟩⟩, rfl, rfl, rfl,
    wf_data (zeros_wf (by decide)) _ rfl, wf_data (zeros_wf (by decide)) _ rfl, rfl, rfl, rfl, rfl,
    rfl, rfl⟩

/-! ## C62 -/

omit [F32Ops F] in
theorem serialized_params {l l' : AnyLayer F} (h : params l' = params l) :
    l'.get_serialized = l.get_serialized := by
  cases l <;> cases l' <;> simp only [params, AnyLayer.conv.injEq, AnyLayer.fc.injEq,
    AnyLayer.mp.injEq, AnyLayer.sm.injEq, ConvolutionalLayer.mk.injEq,
    FullyConnectedLayer.mk.injEq, MaxPoolLayer.mk.injEq, SoftmaxLayer.mk.injEq, reduceCtorEq] at h
  · obtain ⟨h1, h2, _, _, h3, _, h4, h5, h6, _⟩ := h
    simp only [AnyLayer.get_serialized, ConvolutionalLayer.get_serialized, h1, h2, h3, h4, h6]
  · obtain ⟨h1, h2, h3, h4, h5, h6, h7, h8⟩ := h
    simp only [AnyLayer.get_serialized, FullyConnectedLayer.get_serialized, *]
  · obtain ⟨h1, h2, h3, h4, h5, _⟩ := h
    simp only [AnyLayer.get_serialized, MaxPoolLayer.get_serialized, h1, h2, h4, h5]
  · obtain ⟨h1, h2, _⟩ := h
    simp only [AnyLayer.get_serialized, SoftmaxLayer.get_serialized, h1, h2]

/-- C62: no sequence of calls of `forward`, `backward`, the mode switches and the gradient methods, with
any arguments, changes what `get_serialized` returns. -/
theorem C62_layer (b : Build) (l l' : AnyLayer F) (h : Calls b l l') :
    l'.get_serialized = l.get_serialized :=
  serialized_params (C51_calls b l l' h).1

end Rusty
