import Verif.Lemmas.LoadMemory
import Verif.Props.NetworkFiles
import Verif.Props.FileSize
import Verif.Spec.LoadMemory

/-! # C99: what a file can make the program store -/

namespace Rusty

open F32Ops Spec

variable {F : Type} [F32Ops F] [F32Bits F] {b : Build}

omit [F32Ops F] in
/-- C99: a tensor that was loaded holds no more numbers than the file has room for, whatever the file
contains. -/
theorem C99_tensor (fs : FS) (name : String) (t : Tensor F) (h : Tensor.from_file fs name = .ok t) :
    ∃ bs, fs name = some bs ∧ 32 + 4 * t.data.length ≤ bs.length := by
  unfold Tensor.from_file at h
  split at h
  · cases h
  rename_i bs hb
  split at h
  · cases h
  rename_i t' ht
  cases h
  unfold deserialize at ht
  obtain ⟨⟨t', r⟩, hp, rfl⟩ := Option.map_eq_some_iff.mp ht
  have := weighs_tensor _ _ _ hp
  exact ⟨bs, hb, by simp only at *; omega⟩

/-- C99: the parameters that a network gains by loading a file take no more than the bytes of the file,
whatever the file contains and whether or not loading succeeds.

Partial: only the parameters.  Gradients, masks and intermediate states are not bounded by the size of
the file, see the negation. -/
theorem C99_parameters_partial (n n' : Net F) (fs : FS) (name : String) (bs : Bytes) (r : Res)
    (hf : fs name = some bs) (h : n.load_from_file b fs name = .ok (r, n')) :
    4 * (n'.get_layers.map storedParams).sum ≤ 4 * (n.get_layers.map storedParams).sum + bs.length := by
  unfold Network.load_from_file at h
  rw [hf] at h
  simp only at h
  split at h
  · cases h
    exact Nat.le_add_right _ _
  rename_i sn hsn
  unfold deserialize at hsn
  obtain ⟨⟨sn', rest⟩, hp, rfl⟩ := Option.map_eq_some_iff.mp hsn
  have hw := weighs_network _ _ _ hp
  unfold SerializedNetwork.populate_network at h
  have H : ∀ (ss : List SerializedLayer) (n n' : Net F) (r : Res),
      forListE ss n (fun layer n => layer.add_to_network b n) = .ok (r, n') →
      4 * (n'.layers.map storedParams).sum ≤
        4 * (n.layers.map storedParams).sum + (ss.map SerializedLayer.bytes).sum := by
    intro ss
    induction ss with
    | nil => intro n n' r h; cases h; exact Nat.le_add_right _ _
    | cons s ss ih =>
      intro n n' r h
      rw [forListE_cons] at h
      obtain ⟨⟨r1, n1⟩, h1, h⟩ := bind_inv h
      have e1 := add_to_params h1
      simp only [List.map_cons, List.sum_cons]
      cases r1 with
      | error e => cases h; omega
      | ok u =>
        have e2 := ih _ _ _ h
        omega
  have := H _ _ _ _ h
  simp only [Network.get_layers] at this hw ⊢
  omega

/-- C99: for every shape there is a file of 64 bytes that makes the program store that many numbers -/
theorem C99_amplify (b : Build) (s : TensorShape) (hs : s.Fits) (fs : FS) (name : String) :
    ∃ (bs : Bytes) (n' : Net F), bs.length = 64 ∧
      (Network.new .Inference : Net F).load_from_file b (fs.set name bs) name = .ok (.ok (), n') ∧
      s.count ≤ netCells n' := by
  have hok : (AnyLayer.sm ⟨s, "", blank, blank, .Inference⟩ : AnyLayer F).Ok := ⟨hs, fun h => by cases h⟩
  obtain ⟨r, n0, h0⟩ := add_layer_returns (b := b) (Network.new .Inference : Net F) hok
  have hb : Built b n0 := .add_layer _ _ _ _ (.new .Inference) hok h0
  obtain ⟨l', hp, hl⟩ : ∃ l', params l' = params (AnyLayer.sm ⟨s, "", blank, blank, .Inference⟩ : AnyLayer F) ∧
      n0.layers = [l'] := by
    rcases add_layer_effect _ _ _ h0 with ⟨⟨_, h, _⟩, _⟩ | ⟨_, _, l', ts, gs, h3, _, _, h5⟩
    · cases h
    · exact ⟨l', (switchTo_effect _ _ _ h3).2.1, congrArg Network.layers h5⟩
  have hsum : (n0.get_layers.map layerBytes).sum = 56 := by
    rw [Network.get_layers, hl]
    cases l' with
    | sm l =>
      have : l.name = "" := congrArg (fun l : AnyLayer F => l.get_name) hp
      simp only [List.map_cons, List.map_nil, List.sum_cons, List.sum_nil, layerBytes, this]
      rfl
    | conv l => cases hp
    | fc l => cases hp
    | mp l => cases hp
  obtain ⟨bs, hbs, hlen⟩ := C87_network_size n0 HashOrder.rev fs _ name rfl
  have hset : fs.set name bs = (n0.save_to_file HashOrder.rev .done fs name).2 := by
    have : bs = fileOf HashOrder.rev n0 := by
      rw [saved_file (n := n0) (o := HashOrder.rev) (fs := fs) rfl, List.append_nil] at hbs
      exact (Option.some.inj hbs).symm
    rw [this]
    rfl
  obtain ⟨n', h1, h2, h3, _⟩ := C46_load_partial b b n0 hb (by
      intro l hm
      rw [Network.get_layers, hl, List.mem_singleton] at hm
      subst hm
      cases l with
      | sm l => trivial
      | conv l => cases hp
      | fc l => cases hp
      | mp l => cases hp)
    HashOrder.rev (by rw [len_file, hsum]; decide) fs _ name rfl .Inference
  refine ⟨bs, n', by rw [hlen, hsum], by rw [hset]; exact h1, ?_⟩
  have hn' := built_netOk h2
  rw [Network.get_layers, Network.get_layers, hl, List.map_cons, List.map_nil] at h3
  obtain ⟨l1, hl1⟩ : ∃ l1, n'.layers = [l1] := by
    have := congrArg List.length h3
    rw [List.length_map] at this
    exact List.length_eq_one_iff.mp this
  rw [hl1, List.map_cons, List.map_nil] at h3
  have hp1 := (List.cons.inj h3).1.trans hp
  have hout : l1.get_output_shape = s := params_output hp1
  have hst := hn'.chain.states
  rw [hl1] at hst
  have hst : n'.intermediate_states.map (·.shape) = [l1.get_input_shape, l1.get_output_shape] := hst
  obtain ⟨t1, t2, ht⟩ : ∃ t1 t2, n'.intermediate_states = [t1, t2] := by
    have := congrArg List.length hst
    rw [List.length_map] at this
    exact List.length_eq_two.mp this
  rw [ht] at hst
  have e2 : t2.shape = s := by
    rw [← hout]
    exact (List.cons.inj (List.cons.inj hst).2).1
  have hw : t2.WF := hn'.states t2 (by rw [ht]; exact List.mem_singleton.mpr rfl)
  have hc : t2.data.length = s.count := by rw [hw.len, e2]
  unfold netCells
  rw [ht]
  simp only [cells, List.map_cons, List.map_nil, List.sum_cons, List.sum_nil, hc]
  omega

/-- C99 is false of the program: a file of 64 bytes can be loaded, and then the network stores over four
thousand million numbers.  The program does not compare shapes with the size of the file. -/
theorem C99_negation (b : Build) (fs : FS) (name : String) :
    ∃ (bs : Bytes) (n' : Net F), bs.length = 64 ∧
      (Network.new .Inference : Net F).load_from_file b (fs.set name bs) name = .ok (.ok (), n') ∧
      4000000000 < netCells n' := by
  obtain ⟨bs, n', h1, h2, h3⟩ := C99_amplify (F := F) b ⟨65535, 65535, 1⟩ (by decide) fs name
  exact ⟨bs, n', h1, h2, Nat.lt_of_lt_of_le (by decide) h3⟩

open Toy in
/-- The assumptions of C99 can be met: a file of 162 bytes is loaded, with parameters. -/
example (fs : FS) : ∃ (bs : Bytes) (n' : Net UInt32), bs.length = 162 ∧
    (Network.new .Training : Net UInt32).load_from_file .debug (fs.set "f" bs) "f" = .ok (.ok (), n') ∧
    4 * (n'.get_layers.map storedParams).sum ≤ 162 := by
  obtain ⟨n, h1, _, h3, _, h5⟩ := exFile_built
  obtain ⟨n', h6, _⟩ := C46_load_partial .debug .debug n h1 (fun l hl => (h3 l hl).2) HashOrder.rev
    (by rw [h5]; decide) fs _ "f" rfl .Training
  refine ⟨_, n', h5, h6, ?_⟩
  have := C99_parameters_partial _ n' _ "f" _ _ (saved_file (n := n) (o := HashOrder.rev) (fs := fs) rfl) h6
  rw [List.append_nil, h5] at this
  have e : ((Network.new .Training : Net UInt32).get_layers.map storedParams).sum = 0 := rfl
  omega

open Toy in
/-- The assumption of `C99_tensor` can be met. -/
example (fs : FS) : ∃ t : Tensor UInt32, Tensor.from_file (fs.set "t" (encTensor t)) "t" = .ok t ∧ t.data.length = 2 := by
  refine ⟨⟨⟨1, 2, 2⟩, ⟨2, 1, 1⟩, [3, 4]⟩, ?_, rfl⟩
  unfold Tensor.from_file
  simp only [FS.set, if_true]
  rfl

end Rusty
