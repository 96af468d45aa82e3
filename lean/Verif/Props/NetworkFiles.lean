import Verif.Props.Network
import Verif.Props.Serialization

/-! # C46 - C48, C59, C61 - C63: networks and tensors in files -/

namespace Rusty

open F32Ops Spec

variable {F : Type} [F32Ops F] [F32Bits F]

theorem load_saved (b : Build) (n n0 : Net F) (o : HashOrder) (hl : (fileOf o n).length < 2 ^ 64)
    (fs : FS) (name : String) (rest : Bytes) (hf : fs name = some (fileOf o n ++ rest)) :
    n0.load_from_file b fs name =
      (o.network (SerializedNetwork.new_from_network n)).populate_network b n0 := by
  unfold Network.load_from_file
  rw [hf]
  simp only
  unfold deserialize fileOf
  rw [rt_network _ (network_distinct o n) _ hl]
  rfl

omit [F32Ops F] in
theorem saved_file {n : Net F} {o : HashOrder} {fs fs' : FS} {name : String}
    (h : n.save_to_file o .done fs name = (.ok (), fs')) : fs' name = some (fileOf o n ++ []) := by
  cases h
  simp only [FS.set, if_true, List.append_nil]
  rfl

/-! ## C46 -/

/-- C46: Build a network in any way with well formed layers (in build profile `b0`), save it, and load
the file into a new network (in build profile `b`).  This succeeds and gives the same layers (up to
mode and gradients) in the same order, with the same outer shapes.

The length condition says that the file is shorter than 2^64 bytes.

Partial: false for networks with a convolutional layer without kernels, see the negation below; other
layers that are not well formed are not covered. -/
theorem C46_load_partial (b0 b : Build) (n : Net F) (hn : Built b0 n)
    (hk : ∀ l ∈ n.get_layers, hasKernels l)
    (o : HashOrder) (hl : (fileOf o n).length < 2 ^ 64) (fs fs' : FS) (name : String)
    (hs : n.save_to_file o .done fs name = (.ok (), fs')) (m : NetworkRunState) :
    ∃ n', (Network.new m : Net F).load_from_file b fs' name = .ok (.ok (), n') ∧ Built b n' ∧
      n'.get_layers.map params = n.get_layers.map params ∧
      n'.get_layers.map AnyLayer.get_name = n.get_layers.map AnyLayer.get_name ∧
      n'.get_run_state = m ∧ (∀ l ∈ n'.get_layers, l.get_run_mode = m) ∧
      (n.get_layers ≠ [] → n'.get_input_shape = n.get_input_shape ∧
        n'.get_output_shape = n.get_output_shape) := by
  have hok := built_netOk hn
  rw [load_saved b n _ o hl fs' name [] (saved_file hs)]
  obtain ⟨n', ls, h1, h2, h3, h4, h5, h6⟩ := populate_ok (b := b) (n0 := Network.new m) hok hk o hl
    (.new m) (fun _ _ h => by cases h)
  have h3 : n'.layers = ls := h3
  subst h3
  have hok' := built_netOk h2
  refine ⟨n', h1, h2, h4, ?_, h5, h6, ?_⟩
  · refine List.ext_getElem? fun i => ?_
    simp only [List.getElem?_map, Network.get_layers]
    cases hi : n'.layers[i]? with
    | none =>
      have := congrArg List.length h4
      simp only [List.length_map] at this
      rw [List.getElem?_eq_none_iff.mpr (by rw [← this]; exact List.getElem?_eq_none_iff.mp hi)]
    | some l' =>
      obtain ⟨l, hl, hp⟩ := map_get h4 hi
      rw [hl, Option.map_some, Option.map_some, params_name hp]
  · intro hne
    have hlen := congrArg List.length h4
    simp only [List.length_map] at hlen
    have hpos : 0 < n.layers.length := List.length_pos_iff.mpr hne
    have hi0 : n'.layers[0]? = some (n'.layers[0]'(by omega)) := List.getElem?_eq_getElem _
    obtain ⟨a, ha, hpa⟩ := map_get h4 hi0
    have hi1 : n'.layers[n'.layers.length - 1]? = some (n'.layers[n'.layers.length - 1]'(by omega)) :=
      List.getElem?_eq_getElem _
    obtain ⟨c, hc, hpc⟩ := map_get h4 hi1
    constructor
    · rw [hok'.chain.first _ (by rw [List.head?_eq_getElem?]; exact hi0),
        hok.chain.first a (by rw [List.head?_eq_getElem?]; exact ha), params_input hpa]
    · rw [hok'.chain.last _ (by rw [List.getLast?_eq_getElem?]; exact hi1),
        hok.chain.last c (by rw [List.getLast?_eq_getElem?, ← hlen]; exact hc), params_output hpc]

/-- C46: the loaded network predicts the same.  If the layers of the saved network are in the mode of
the new network, then on every input of the right shape `infer` succeeds on both, with equal
intermediate states and output; on every other input both refuse.

Partial: as `C46_load_partial`. -/
theorem C46_predicts_partial (b0 b : Build) (n : Net F) (hn : Built b0 n)
    (hk : ∀ l ∈ n.get_layers, hasKernels l) (o : HashOrder) (hl : (fileOf o n).length < 2 ^ 64)
    (fs fs' : FS) (name : String) (hs : n.save_to_file o .done fs name = (.ok (), fs'))
    (m : NetworkRunState) (hm : ∀ l ∈ n.get_layers, l.get_run_mode = m) (hne : n.get_layers ≠ []) :
    ∃ n', (Network.new m : Net F).load_from_file b fs' name = .ok (.ok (), n') ∧
      (∀ x : Tensor F, x.WF → x.shape = n.get_input_shape → ∃ m1 m2,
        n.infer b x = .ok (.ok (), m1) ∧ n'.infer b x = .ok (.ok (), m2) ∧
        m1.intermediate_states = m2.intermediate_states ∧ m1.get_output = m2.get_output) ∧
      ∀ x : Tensor F, x.shape ≠ n.get_input_shape →
        (∃ e, n.infer b x = .ok (.error e, n)) ∧ ∃ e, n'.infer b x = .ok (.error e, n') := by
  obtain ⟨n', h1, h2, h3, _, h4, h5, h6⟩ := C46_load_partial b0 b n hn hk o hl fs fs' name hs m
  obtain ⟨hin, hout⟩ := h6 hne
  refine ⟨n', h1, fun x hx hxs => ?_, fun x hxs => ⟨?_, ?_⟩⟩
  · obtain ⟨m1, m2, q1, q2, q3⟩ := infer_same (b := b) (built_netOk hn) (built_netOk h2) h3.symm
      (fun i l l' e e' s a c d => by
        obtain ⟨l1, f1, f2⟩ := map_get h3 e'
        have f1 : n.layers[i]? = some l1 := f1
        rw [e] at f1
        cases f1
        refine layerAt_congr f2.symm ?_ s a c d
        rw [hm l (List.mem_of_getElem? e), h5 l' (List.mem_of_getElem? e')]) hne hx hxs
    exact ⟨m1, m2, q1, q2, q3, get_output_congr q3⟩
  · unfold Network.infer
    rw [if_pos (show x.shape ≠ n.input_shape from hxs)]
    exact ⟨_, rfl⟩
  · unfold Network.infer
    rw [if_pos (show x.shape ≠ n'.input_shape from fun e => hxs (e.trans hin))]
    exact ⟨_, rfl⟩

/-- C46 where `max(x,0)` and `if x > 0 then x else 0` agree: the modes do not matter either.

Partial: as `C46_load_partial`. -/
theorem C46_predicts_any_mode_partial [MaxZero F] (b0 b : Build) (n : Net F) (hn : Built b0 n)
    (hk : ∀ l ∈ n.get_layers, hasKernels l) (o : HashOrder) (hl : (fileOf o n).length < 2 ^ 64)
    (fs fs' : FS) (name : String) (hs : n.save_to_file o .done fs name = (.ok (), fs'))
    (m : NetworkRunState) (hne : n.get_layers ≠ []) :
    ∃ n', (Network.new m : Net F).load_from_file b fs' name = .ok (.ok (), n') ∧
      ∀ x : Tensor F, x.WF → x.shape = n.get_input_shape → ∃ m1 m2,
        n.infer b x = .ok (.ok (), m1) ∧ n'.infer b x = .ok (.ok (), m2) ∧
        m1.intermediate_states = m2.intermediate_states ∧ m1.get_output = m2.get_output := by
  obtain ⟨n', h1, h2, h3, _, h4, h5, h6⟩ := C46_load_partial b0 b n hn hk o hl fs fs' name hs m
  refine ⟨n', h1, fun x hx hxs => ?_⟩
  obtain ⟨m1, m2, q1, q2, q3⟩ := infer_same (b := b) (built_netOk hn) (built_netOk h2) h3.symm
    (fun i l l' e e' s a c d => by
      obtain ⟨l1, f1, f2⟩ := map_get h3 e'
      have f1 : n.layers[i]? = some l1 := f1
      rw [e] at f1
      cases f1
      exact layerAt_mode f2.symm s a c d) hne hx hxs
  exact ⟨m1, m2, q1, q2, q3, get_output_congr q3⟩

/-- C46 is false of layers that are not well formed: the layer `ConvolutionalLayer::empty()` returns can be
added to a network and the network can be saved, but the file is refused, whatever the mode, the map
order and the build profile. -/
theorem C46_empty_layer_negation (b : Build) (m : NetworkRunState) (o : HashOrder) (fs : FS)
    (name : String) :
    ∃ (l : ConvolutionalLayer F) (n : Net F) (fs' : FS) (e : String),
      ConvolutionalLayer.empty b = .ok l ∧
      (Network.new m : Net F).add_layer b (.conv l) = .ok (.ok (), n) ∧
      n.save_to_file o .done fs name = (.ok (), fs') ∧
      (Network.new m : Net F).load_from_file b fs' name = .ok (.error e, Network.new m) := by
  obtain ⟨l, n, h1, h2, l', h3, h4, h5⟩ : ∃ (l : ConvolutionalLayer F) (n : Net F),
      ConvolutionalLayer.empty b = .ok l ∧
      (Network.new m : Net F).add_layer b (.conv l) = .ok (.ok (), n) ∧
      ∃ l', n.layers = [.conv l'] ∧ l'.kernels = [] ∧
        (encSerializedLayer l'.get_serialized).length = 137 := by
    cases b <;> cases m <;> exact ⟨_, _, rfl, rfl, _, rfl, rfl, rfl⟩
  have hsn : o.network (SerializedNetwork.new_from_network n) =
      ⟨[o.layer 0 (AnyLayer.conv l').get_serialized]⟩ := by
    unfold HashOrder.network SerializedNetwork.new_from_network Network.get_layers
    rw [h3]
    rfl
  have hl : (fileOf o n).length < 2 ^ 64 := by
    unfold fileOf encSerializedNetwork encVec
    rw [hsn]
    simp only [List.flatMap_cons, List.flatMap_nil, List.length_append, List.append_nil,
      layer_length, len_len]
    change 8 + (encSerializedLayer l'.get_serialized).length < 2 ^ 64
    rw [h5]
    decide
  refine ⟨l, n, _, "Kernel list should contain at least 1 kernel", h1, h2, rfl, ?_⟩
  rw [load_saved b n _ o hl _ name [] (saved_file (o := o) (fs := fs) rfl), hsn]
  have e : (o.layer 0 (AnyLayer.conv l').get_serialized).add_to_network b (Network.new m : Net F) =
      .ok (.error "Kernel list should contain at least 1 kernel", Network.new m) := by
    change (do
        let l0 ← ConvolutionalLayer.empty b
        let (r, l1) ← l0.load_from_serialized b (o.layer 0 l'.get_serialized)
        match r with
        | .error e => pure (.error e, Network.new m)
        | .ok () => (Network.new m).add_layer b (.conv l1) : Exec (Res × Net F)) = _
    rw [h1]
    change (do
        let (r, l1) ← l.load_from_serialized b (o.layer 0 l'.get_serialized)
        match r with
        | .error e => pure (.error e, Network.new m)
        | .ok () => (Network.new m).add_layer b (.conv l1) : Exec (Res × Net F)) = _
    rw [conv_load l l' o 0 (by rw [h5]; decide), h4]
    rfl
  unfold SerializedNetwork.populate_network
  simp only [forListE, e]
  rfl

/-! ## C47 -/

omit [F32Ops F] in
/-- C47: a tensor file that was cut anywhere is refused. -/
theorem C47_tensor (t : Tensor F) (hl : (encTensor t).length < 2 ^ 64) (fs fs' : FS) (name : String)
    (k : Nat) (hk : k < (encTensor t).length) (r : Res)
    (hs : t.save_to_file (.cutAt k) fs name = (r, fs')) :
    ∃ e, (Tensor.from_file fs' name : Except String (Tensor F)) = .error e := by
  cases hs
  unfold Tensor.from_file
  simp only [FS.set, if_true, deserialize]
  rw [prefix_rejected rt_tensor ext_tensor t hl k hk]
  exact ⟨_, rfl⟩

/-- C47: a network file that was cut anywhere is refused, by any network, which stays as it was. -/
theorem C47_network (b : Build) (n n0 : Net F) (o : HashOrder) (hl : (fileOf o n).length < 2 ^ 64)
    (fs fs' : FS) (name : String) (k : Nat) (hk : k < (fileOf o n).length) (r : Res)
    (hs : n.save_to_file o (.cutAt k) fs name = (r, fs')) :
    ∃ e, n0.load_from_file b fs' name = .ok (.error e, n0) := by
  have hnone : decSerializedNetwork ((fileOf o n).take k) = none := by
    cases h : decSerializedNetwork ((fileOf o n).take k) with
    | none => rfl
    | some p =>
      obtain ⟨sn, r⟩ := p
      have h1 := ext_network _ _ _ ((fileOf o n).drop k) h
      rw [List.take_append_drop] at h1
      have h2 := rt_network _ (network_distinct o n) [] hl
      rw [List.append_nil] at h2
      rw [fileOf, h2] at h1
      have := congrArg List.length (Prod.mk.inj (Option.some.inj h1)).2
      simp only [List.length_nil, List.length_append, List.length_drop] at this
      unfold fileOf at hk
      omega
  cases hs
  unfold Network.load_from_file
  simp only [FS.set, if_true, deserialize]
  change ∃ e, (match Option.map Prod.fst (decSerializedNetwork ((fileOf o n).take k)) with
    | none => pure (.error "bincode error", n0)
    | some sn => sn.populate_network b n0 : Exec (Res × Net F)) = _
  rw [hnone]
  exact ⟨_, rfl⟩

open Toy in
example : 0 < (encTensor (zeros ⟨1, 1, 1⟩ : Tensor UInt32)).length ∧
    0 < (fileOf HashOrder.rev (Network.new .Training : Net UInt32)).length := by
  constructor <;> decide

/-! ## C48 -/

theorem add_to_network_err (b : Build) (s : SerializedLayer) (n n' : Net F) (e : String)
    (h : s.add_to_network b n = .ok (.error e, n')) : n' = n := by
  have key : ∀ (r : Res) (l : AnyLayer F), (match r with
      | .error e => pure (.error e, n)
      | .ok () => n.add_layer b l : Exec (Res × Net F)) = .ok (.error e, n') → n' = n := by
    intro r l h
    cases r with
    | error e => cases h; rfl
    | ok u =>
      rcases add_layer_effect n l _ h with ⟨_, _, rfl⟩ | ⟨_, h2, _⟩
      · rfl
      · cases h2
  have key2 : ∀ {L : Type} (x : Exec (Res × L)) (f : L → AnyLayer F), (do
      let (r, l) ← x
      match r with
      | .error e => pure (.error e, n)
      | .ok () => n.add_layer b (f l) : Exec (Res × Net F)) = .ok (.error e, n') → n' = n := by
    intro L x f h
    cases x with
    | error p => cases h
    | ok v => exact key v.1 (f v.2) h
  cases s with
  | SerialConvolutionalLayer m =>
    simp only [SerializedLayer.add_to_network] at h
    cases he : (ConvolutionalLayer.empty b : Exec (ConvolutionalLayer F)) with
    | error p => rw [he] at h; cases h
    | ok l => rw [he, ok_bind] at h; exact key2 _ .conv h
  | SerialFullyConnectedLayer m =>
    simp only [SerializedLayer.add_to_network] at h
    cases he : (FullyConnectedLayer.empty b : Exec (FullyConnectedLayer F)) with
    | error p => rw [he] at h; cases h
    | ok l => rw [he, ok_bind] at h; exact key2 _ .fc h
  | SerialMaxPoolLayer m =>
    simp only [SerializedLayer.add_to_network] at h
    exact key2 _ .mp h
  | SerialSoftMaxLayer m =>
    simp only [SerializedLayer.add_to_network] at h
    cases he : (SoftmaxLayer.empty b : Exec (SoftmaxLayer F)) with
    | error p => rw [he] at h; cases h
    | ok l => rw [he, ok_bind] at h; exact key2 _ .sm h

theorem populate_err (b : Build) (ss : List SerializedLayer) (n n' : Net F) (e : String)
    (h : (SerializedNetwork.mk ss).populate_network b n = .ok (.error e, n')) :
    ∃ k, k < ss.length ∧
      (SerializedNetwork.mk (ss.take k)).populate_network b n = .ok (.ok (), n') := by
  unfold SerializedNetwork.populate_network at h ⊢
  simp only at h ⊢
  induction ss generalizing n with
  | nil => cases h
  | cons s ss ih =>
    rw [forListE_cons] at h
    cases hs : s.add_to_network b n with
    | error p => rw [hs] at h; cases h
    | ok v =>
      obtain ⟨r, n1⟩ := v
      rw [hs, ok_bind] at h
      cases r with
      | error e' =>
        cases h
        exact ⟨0, Nat.succ_pos _, by rw [add_to_network_err b s n _ _ hs]; rfl⟩
      | ok u =>
        obtain ⟨k, hk, hk2⟩ := ih n1 h
        refine ⟨k + 1, Nat.succ_lt_succ hk, ?_⟩
        rw [List.take_succ_cons, forListE_cons, hs, ok_bind]
        exact hk2

/-- C48 where it holds: if loading returns `Err`, then either the file is missing or does not decode, and
the network is unchanged; or the network is what it would be after loading a file with only the first
`k` layers of this file, for some `k` less than the number of layers.

Partial: false in general, see the negation below; `C48_single_partial` and `C48_saved_partial` give
two cases in which nothing changes. -/
theorem C48_partial (b : Build) (n n' : Net F) (fs : FS) (name : String) (e : String)
    (h : n.load_from_file b fs name = .ok (.error e, n')) :
    n' = n ∨ ∃ bs sn k, fs name = some bs ∧ deserialize decSerializedNetwork bs = some sn ∧
      k < sn.serial_layers.length ∧
      (SerializedNetwork.mk (sn.serial_layers.take k)).populate_network b n = .ok (.ok (), n') := by
  unfold Network.load_from_file at h
  cases hf : fs name with
  | none => rw [hf] at h; cases h; exact .inl rfl
  | some bs =>
    rw [hf] at h
    simp only at h
    cases hd : deserialize decSerializedNetwork bs with
    | none => rw [hd] at h; cases h; exact .inl rfl
    | some sn =>
      rw [hd] at h
      obtain ⟨k, h1, h2⟩ := populate_err b sn.serial_layers n n' e h
      exact .inr ⟨bs, sn, k, rfl, hd, h1, h2⟩

/-- C48 for files with at most one layer. -/
theorem C48_single_partial (b : Build) (n n' : Net F) (fs : FS) (name : String) (e : String)
    (hf : ∀ bs sn, fs name = some bs → deserialize decSerializedNetwork bs = some sn →
      sn.serial_layers.length ≤ 1)
    (h : n.load_from_file b fs name = .ok (.error e, n')) : n' = n := by
  rcases C48_partial b n n' fs name e h with h | ⟨bs, sn, k, h1, h2, h3, h4⟩
  · exact h
  · have : k = 0 := by have := hf bs sn h1 h2; omega
    subst this
    cases h4
    rfl

/-- C48 for files saved from a network with well formed layers: in such a file only the first layer can
be refused. -/
theorem C48_saved_partial (b0 b : Build) (n n0 n' : Net F) (hn : Built b0 n)
    (hk : ∀ l ∈ n.get_layers, hasKernels l) (h0 : Built b n0) (o : HashOrder)
    (hl : (fileOf o n).length < 2 ^ 64) (fs : FS) (name : String) (rest : Bytes)
    (hf : fs name = some (fileOf o n ++ rest)) (e : String)
    (h : n0.load_from_file b fs name = .ok (.error e, n')) : n' = n0 := by
  rw [load_saved b n n0 o hl fs name rest hf] at h
  have hok := built_netOk hn
  by_cases hfit : ∀ last first, n0.layers.getLast? = some last →
      n.layers.head? = some first → last.get_output_shape = first.get_input_shape
  · obtain ⟨n1, ls, h1, _⟩ := populate_ok (b := b) hok hk o hl h0 hfit
    rw [h1] at h
    cases h
  · simp only [not_forall] at hfit
    obtain ⟨last, first, h1, h2, h3⟩ := hfit
    obtain ⟨e', h4⟩ := populate_refused (b := b) hok hk o hl h1 h2 h3
    rw [h4] at h
    cases h
    rfl

/-- the serialised form of two softmax layers that do not chain -/
def exMismatch : SerializedNetwork :=
  ⟨[.SerialSoftMaxLayer ⟨[(.Shape, encShape ⟨1, 1, 1⟩), (.Name, encString "a")]⟩,
    .SerialSoftMaxLayer ⟨[(.Shape, encShape ⟨2, 1, 1⟩), (.Name, encString "b")]⟩]⟩

theorem exMismatch_reads :
    deserialize decSerializedNetwork (encSerializedNetwork exMismatch) = some exMismatch := by
  have hd : ∀ s ∈ exMismatch.serial_layers, s.Distinct := by
    intro s hs
    simp only [exMismatch, List.mem_cons, List.not_mem_nil, or_false] at hs
    rcases hs with rfl | rfl
    · change List.Pairwise _ [_, _]
      simp
    · change List.Pairwise _ [_, _]
      simp
  have := rt_network exMismatch hd [] (by
    have : (encSerializedNetwork exMismatch).length = 122 := rfl
    rw [this]; decide)
  unfold deserialize
  rw [List.append_nil] at this
  rw [this]
  rfl

/-- C48 is false: loading a file with two softmax layers of different shapes into a new network returns
`Err`, and the network then has one layer. -/
theorem C48_negation (b : Build) (fs : FS) (name : String)
    (hf : fs name = some (encSerializedNetwork exMismatch)) :
    ∃ e n', (Network.new .Inference : Net F).load_from_file b fs name = .ok (.error e, n') ∧
      n'.get_layers.length = 1 ∧ (Network.new .Inference : Net F).get_layers.length = 0 := by
  have h : (Network.new .Inference : Net F).load_from_file b fs name =
      exMismatch.populate_network b (Network.new .Inference) := by
    unfold Network.load_from_file
    rw [hf]
    simp only
    rw [exMismatch_reads]
  rw [h]
  cases b <;> exact ⟨_, _, rfl, rfl, rfl⟩

/-! ## C59 -/

/-- C59 for files saved from a network with well formed layers, followed by any bytes: loading them
into any network built with well formed layers does not panic.

Partial: false for other files, see the negation below. -/
theorem C59_saved_partial (b0 b : Build) (n n0 : Net F) (hn : Built b0 n)
    (hk : ∀ l ∈ n.get_layers, hasKernels l) (h0 : Built b n0) (o : HashOrder)
    (hl : (fileOf o n).length < 2 ^ 64) (fs : FS) (name : String) (rest : Bytes)
    (hf : fs name = some (fileOf o n ++ rest)) :
    ∃ r n', n0.load_from_file b fs name = .ok (r, n') := by
  rw [load_saved b n n0 o hl fs name rest hf]
  have hok := built_netOk hn
  by_cases hfit : ∀ last first, n0.layers.getLast? = some last →
      n.layers.head? = some first → last.get_output_shape = first.get_input_shape
  · obtain ⟨n1, ls, h1, _⟩ := populate_ok (b := b) hok hk o hl h0 hfit
    exact ⟨_, _, h1⟩
  · simp only [not_forall] at hfit
    obtain ⟨last, first, h1, h2, h3⟩ := hfit
    obtain ⟨e', h4⟩ := populate_refused (b := b) hok hk o hl h1 h2 h3
    exact ⟨_, _, h4⟩

/-- C59 for files that are missing or do not decode. -/
theorem C59_unreadable_partial (b : Build) (n : Net F) (fs : FS) (name : String)
    (hf : ∀ bs, fs name = some bs → deserialize decSerializedNetwork bs = none) :
    ∃ e, n.load_from_file b fs name = .ok (.error e, n) := by
  unfold Network.load_from_file
  cases h : fs name with
  | none => exact ⟨_, rfl⟩
  | some bs =>
    simp only
    rw [hf bs h]
    exact ⟨_, rfl⟩

/-- a softmax layer whose fields hold no bytes -/
def exHollow : SerializedNetwork := ⟨[.SerialSoftMaxLayer ⟨[(.Shape, []), (.Name, [])]⟩]⟩

/-- C59 is false: a file that decodes, with a softmax layer whose fields hold no bytes, makes loading
panic. -/
theorem C59_negation (b : Build) (n : Net F) (fs : FS) (name : String)
    (hf : fs name = some (encSerializedNetwork exHollow)) :
    n.load_from_file b fs name = .error .expect := by
  have hd : ∀ s ∈ exHollow.serial_layers, s.Distinct := by
    intro s hs
    simp only [exHollow, List.mem_cons, List.not_mem_nil, or_false] at hs
    subst hs
    change List.Pairwise _ [_, _]
    simp
  have := rt_network exHollow hd [] (by
    have : (encSerializedNetwork exHollow).length = 44 := rfl
    rw [this]; decide)
  rw [List.append_nil] at this
  unfold Network.load_from_file
  rw [hf]
  simp only
  unfold deserialize
  rw [this]
  cases b <;> rfl

/-! ## C61 -/

omit [F32Ops F] in
/-- C61 for a file that cannot be opened: everything stays as it was.

Partial: false when the failure comes later, see the negation below. -/
theorem C61_not_opened_partial (t : Tensor F) (fs fs' : FS) (name : String) (r : Res)
    (h : t.save_to_file .notOpened fs name = (r, fs')) : (∃ e, r = .error e) ∧ fs' = fs := by
  cases h
  exact ⟨⟨_, rfl⟩, rfl⟩

omit [F32Ops F] in
/-- C61: other files are never touched, however saving ends. -/
theorem C61_other_files_partial (t : Tensor F) (w : WriteOutcome) (fs fs' : FS) (name other : String)
    (r : Res) (h : t.save_to_file w fs name = (r, fs')) (ho : other ≠ name) : fs' other = fs other := by
  cases w <;> cases h
  · simp only [FS.set, if_neg ho]
  · rfl
  · simp only [FS.set, if_neg ho]

omit [F32Ops F] in
/-- C61 is false: a tensor was saved and can be read.  Saving another one under the same name is cut
off after any number of bytes; it returns `Err`, and no tensor can be read from the file any more. -/
theorem C61_negation (t0 t : Tensor F) (h0 : t0.WF) (h : t.WF) (fs fs1 fs2 : FS) (name : String)
    (r : Res) (k : Nat) (hk : k < (encTensor t).length)
    (hs0 : t0.save_to_file .done fs name = (.ok (), fs1))
    (hs : t.save_to_file (.cutAt k) fs1 name = (r, fs2)) :
    Tensor.from_file fs1 name = .ok t0 ∧ (∃ e, r = .error e) ∧
      ∃ e, (Tensor.from_file fs2 name : Except String (Tensor F)) = .error e := by
  refine ⟨(C44_file t0 h0 fs fs1 name hs0).1, ?_, C47_tensor t ?_ fs1 fs2 name k hk r hs⟩
  · cases hs
    exact ⟨_, rfl⟩
  · have h1 := h.len
    have h2 := h.fits.2
    rw [len_tensor]
    omega

omit [F32Ops F] in
/-- C61 for networks: a file that cannot be opened stays as it was, and other files are never touched, however
saving ends.

Partial: the file itself is lost when the failure comes later, see `C61_network_negation`. -/
theorem C61_network_partial (n : Net F) (o : HashOrder) (w : WriteOutcome) (fs fs' : FS) (name : String)
    (r : Res) (h : n.save_to_file o w fs name = (r, fs')) :
    (w = .notOpened → (∃ e, r = .error e) ∧ fs' = fs) ∧ ∀ other, other ≠ name → fs' other = fs other := by
  cases w <;> cases h
  · exact ⟨nofun, fun _ ho => by simp only [FS.set, if_neg ho]⟩
  · exact ⟨fun _ => ⟨⟨_, rfl⟩, rfl⟩, fun _ _ => rfl⟩
  · exact ⟨nofun, fun _ ho => by simp only [FS.set, if_neg ho]⟩

/-- C61 is false for networks: a network was saved and can be loaded.  Saving a network under the same name (the
same one after more training, say) is cut off after any number of bytes; it returns `Err`, and no network can be
loaded from the file any more. -/
theorem C61_network_negation (b0 b : Build) (n0 n : Net F) (hn0 : Built b0 n0)
    (hk0 : ∀ l ∈ n0.get_layers, hasKernels l) (o0 o : HashOrder) (hl0 : (fileOf o0 n0).length < 2 ^ 64)
    (hl : (fileOf o n).length < 2 ^ 64) (fs fs1 fs2 : FS) (name : String) (r : Res) (k : Nat)
    (hk : k < (fileOf o n).length) (hs0 : n0.save_to_file o0 .done fs name = (.ok (), fs1))
    (hs : n.save_to_file o (.cutAt k) fs1 name = (r, fs2)) (m : NetworkRunState) :
    (∃ n', (Network.new m : Net F).load_from_file b fs1 name = .ok (.ok (), n') ∧
      n'.get_layers.map params = n0.get_layers.map params) ∧ (∃ e, r = .error e) ∧
      ∃ e, (Network.new m : Net F).load_from_file b fs2 name = .ok (.error e, Network.new m) := by
  obtain ⟨n', h1, _, h2, _⟩ := C46_load_partial b0 b n0 hn0 hk0 o0 hl0 fs fs1 name hs0 m
  refine ⟨⟨n', h1, h2⟩, ?_, C47_network b n _ o hl fs1 fs2 name k hk r hs⟩
  cases hs
  exact ⟨_, rfl⟩

/-! ## C62 -/

/-- C62: no sequence of calls of `infer`, `backward` and the mode switches changes what `save_to_file`
writes. -/
theorem C62_network (b : Build) (n n' : Net F) (h : UsesMany b n n') (o : HashOrder) (w : WriteOutcome)
    (fs : FS) (name : String) : n'.save_to_file o w fs name = n.save_to_file o w fs name := by
  have hp := (C51_network b n n' h).1
  have : SerializedNetwork.new_from_network n' = SerializedNetwork.new_from_network n := by
    unfold SerializedNetwork.new_from_network
    congr 1
    refine List.ext_getElem? fun i => ?_
    simp only [List.getElem?_map]
    cases hi : n'.get_layers[i]? with
    | none =>
      have := congrArg List.length hp
      simp only [List.length_map] at this
      rw [List.getElem?_eq_none_iff.mpr (by rw [← this]; exact List.getElem?_eq_none_iff.mp hi)]
    | some l' =>
      obtain ⟨l, hl, hpl⟩ := map_get hp hi
      rw [hl, Option.map_some, Option.map_some, serialized_params hpl]
  unfold Network.save_to_file
  rw [this]

/-! ## C63 -/

/-- C63: loading a saved network into a network whose last output shape is the first input shape of the
saved one (or which is empty) appends the saved layers and keeps those there.

Partial: layers that are not well formed are not covered, and a convolutional layer without kernels is
refused, see the negation below. -/
theorem C63_appends_partial (b0 b : Build) (n n0 : Net F) (hn : Built b0 n)
    (hk : ∀ l ∈ n.get_layers, hasKernels l) (h0 : Built b n0) (o : HashOrder)
    (hl : (fileOf o n).length < 2 ^ 64) (fs : FS) (name : String) (rest : Bytes)
    (hf : fs name = some (fileOf o n ++ rest))
    (hfit : ∀ last first, n0.get_layers.getLast? = some last → n.get_layers.head? = some first →
      last.get_output_shape = first.get_input_shape) :
    ∃ n' ls, n0.load_from_file b fs name = .ok (.ok (), n') ∧ n'.get_layers = n0.get_layers ++ ls ∧
      ls.map params = n.get_layers.map params ∧ n'.get_run_state = n0.get_run_state ∧
      (∀ l ∈ ls, l.get_run_mode = n0.get_run_state) ∧ Built b n' := by
  rw [load_saved b n n0 o hl fs name rest hf]
  obtain ⟨n1, ls, h1, h2, h3, h4, h5, h6⟩ := populate_ok (b := b) (built_netOk hn) hk o hl h0 hfit
  exact ⟨n1, ls, h1, h3, h4, h5, h6, h2⟩

/-- C63: loading a saved network into a network whose last output shape is not the first input shape of
the saved one returns `Err` and changes nothing.

Partial: as `C63_appends_partial`. -/
theorem C63_refuses_partial (b0 b : Build) (n n0 : Net F) (hn : Built b0 n)
    (hk : ∀ l ∈ n.get_layers, hasKernels l) (o : HashOrder)
    (hl : (fileOf o n).length < 2 ^ 64) (fs : FS) (name : String) (rest : Bytes)
    (hf : fs name = some (fileOf o n ++ rest)) (last first : AnyLayer F)
    (h1 : n0.get_layers.getLast? = some last) (h2 : n.get_layers.head? = some first)
    (h3 : last.get_output_shape ≠ first.get_input_shape) :
    ∃ e, n0.load_from_file b fs name = .ok (.error e, n0) := by
  rw [load_saved b n n0 o hl fs name rest hf]
  exact populate_refused (b := b) (built_netOk hn) hk o hl h1 h2 h3

/-- C63 is false: the file saved from a network with the layer `ConvolutionalLayer::empty()` returns
is refused by an empty network. -/
theorem C63_negation (b : Build) (o : HashOrder) (fs : FS) (name : String) :
    ∃ (n : Net F) (fs' : FS) (e : String), Reach b n ∧ n.get_layers ≠ [] ∧
      n.save_to_file o .done fs name = (.ok (), fs') ∧
      (Network.new .Inference : Net F).load_from_file b fs' name =
        .ok (.error e, Network.new .Inference) := by
  obtain ⟨l, n, fs', e, h1, h2, h3, h4⟩ :=
    C46_empty_layer_negation (F := F) b .Inference o fs name
  refine ⟨n, fs', e, .add_layer _ _ _ _ (.new _) h2, fun he => ?_, h3, h4⟩
  obtain ⟨l', q, _⟩ := (C35_add_layer b _ (.new _) _ _ _ h2).2.2 rfl
  rw [he] at q
  cases q

/-! ## Non-vacuity -/

open Toy in
/-- a network of a max-pool and a softmax layer, in training mode -/
theorem exFile_built : ∃ n : Net UInt32, Built .debug n ∧ n.get_layers.length = 2 ∧
    (∀ l ∈ n.get_layers, l.get_run_mode = .Training ∧ hasKernels l) ∧
    n.get_input_shape = ⟨4, 1, 1⟩ ∧ (fileOf HashOrder.rev n).length = 162 := by
  have h1 : (AnyLayer.mp ⟨⟨4, 1, 1⟩, ⟨2, 1, 1⟩, ⟨2, 1, 1⟩, 2, "m", .Inference, []⟩ :
      AnyLayer UInt32).Ok :=
    (⟨by decide, by decide, rfl, by decide, by decide, fun h => by cases h⟩ : MaxPoolLayer.Ok _)
  have h2 : (AnyLayer.sm ⟨⟨2, 1, 1⟩, "s", zeros ⟨1, 1, 1⟩, zeros ⟨1, 1, 1⟩, .Inference⟩ :
      AnyLayer UInt32).Ok := (⟨by decide, fun h => by cases h⟩ : SoftmaxLayer.Ok _)
  refine ⟨_, .add_layer _ _ _ _ (.add_layer _ _ _ _ (.new .Training) h1 rfl) h2 rfl, rfl, ?_, rfl, rfl⟩
  intro l hl
  simp only [Network.get_layers, List.mem_append, List.mem_cons, List.not_mem_nil, or_false,
    Network.new, false_or] at hl
  rcases hl with rfl | rfl
  · exact ⟨rfl, trivial⟩
  · exact ⟨rfl, trivial⟩

open Toy in
/-- C46: it is saved, and loaded by a release build -/
example (fs : FS) : ∃ n n' : Net UInt32, n.get_layers.length = 2 ∧ ∃ fs',
    n.save_to_file HashOrder.rev .done fs "f" = (.ok (), fs') ∧
    (Network.new .Inference : Net UInt32).load_from_file .release fs' "f" = .ok (.ok (), n') ∧
    n'.get_layers.map params = n.get_layers.map params := by
  obtain ⟨n, h1, h2, h3, _, h5⟩ := exFile_built
  obtain ⟨n', q1, _, q2, _⟩ := C46_load_partial .debug .release n h1 (fun l hl => (h3 l hl).2) HashOrder.rev
    (by rw [h5]; decide) fs _ "f" rfl .Inference
  exact ⟨n, n', h2, _, rfl, q1, q2⟩

open Toy in
/-- C61: a tensor is saved, and a second one is cut off after ten bytes -/
example (fs : FS) : ∃ (t0 t : Tensor UInt32) (fs1 fs2 : FS) (e : String), t0.WF ∧ t.WF ∧
    10 < (encTensor t).length ∧ t0.save_to_file .done fs "f" = (.ok (), fs1) ∧
    t.save_to_file (.cutAt 10) fs1 "f" = (.error e, fs2) :=
  ⟨zeros ⟨1, 1, 1⟩, zeros ⟨2, 1, 1⟩, _, _, _, zeros_wf (by decide), zeros_wf (by decide), by decide, rfl, rfl⟩

open Toy in
/-- C61: a network is saved, and saving it again is cut off after ten bytes -/
example (fs : FS) : ∃ (n : Net UInt32) (fs1 fs2 : FS) (e : String), Built .debug n ∧ n.get_layers.length = 2 ∧
    10 < (fileOf HashOrder.rev n).length ∧ n.save_to_file HashOrder.rev .done fs "f" = (.ok (), fs1) ∧
    n.save_to_file HashOrder.rev (.cutAt 10) fs1 "f" = (.error e, fs2) ∧
    ∃ e', (Network.new .Inference : Net UInt32).load_from_file .release fs2 "f" =
      .ok (.error e', Network.new .Inference) := by
  obtain ⟨n, h1, h2, h3, _, h5⟩ := exFile_built
  have hc := C61_network_negation .debug .release n n h1 (fun l hl => (h3 l hl).2) HashOrder.rev HashOrder.rev
    (by rw [h5]; decide) (by rw [h5]; decide) fs _ _ "f" _ 10 (by rw [h5]; decide) rfl rfl .Inference
  exact ⟨n, _, _, _, h1, h2, by rw [h5]; decide, rfl, rfl, hc.2.2⟩

open Toy in
/-- C62: a use that changes the network -/
example : ∃ n', UsesMany .debug (Network.new .Inference : Net UInt32) n' ∧
    n'.get_run_state ≠ (Network.new .Inference : Net UInt32).get_run_state :=
  ⟨_, .more _ _ _ (.none _) (.switch_to_training _ _ rfl), by decide⟩

end Rusty
