import Verif.Lemmas.FileSize
import Verif.Props.NetworkFiles

/-! # C87: what is in a saved file -/

namespace Rusty

open F32Ops Spec

variable {F : Type} [F32Ops F] [F32Bits F]

omit [F32Ops F] in
/-- C87: the size of a saved tensor. -/
theorem C87_tensor_size (t : Tensor F) (fs fs' : FS) (name : String)
    (hs : t.save_to_file .done fs name = (.ok (), fs')) :
    ∃ bs, fs' name = some bs ∧ bs.length = 32 + 4 * t.data.length := by
  cases hs
  exact ⟨encTensor t, by simp [FS.set], len_tensor t⟩

/-- C87: the size of a saved network does not depend on the order in which the hash maps are iterated. -/
theorem C87_network_size (n : Net F) (o : HashOrder) (fs fs' : FS) (name : String)
    (hs : n.save_to_file o .done fs name = (.ok (), fs')) :
    ∃ bs, fs' name = some bs ∧ bs.length = 8 + (n.get_layers.map layerBytes).sum :=
  ⟨_, saved_file hs, by rw [List.append_nil, len_file]⟩

/-- C87: two networks that were saved to the same bytes have the same layers, up to mode and gradients. -/
theorem C87_distinct (b1 b2 : Build) (n1 n2 : Net F) (h1 : Built b1 n1) (h2 : Built b2 n2)
    (hk1 : ∀ l ∈ n1.get_layers, hasKernels l) (hk2 : ∀ l ∈ n2.get_layers, hasKernels l) (o1 o2 : HashOrder)
    (fs1 fs2 fs1' fs2' : FS) (name1 name2 : String)
    (hs1 : n1.save_to_file o1 .done fs1 name1 = (.ok (), fs1'))
    (hs2 : n2.save_to_file o2 .done fs2 name2 = (.ok (), fs2')) (he : fs1' name1 = fs2' name2)
    (hl : 8 + (n1.get_layers.map layerBytes).sum < 2 ^ 64) :
    n1.get_layers.map params = n2.get_layers.map params := by
  have hf := he
  rw [saved_file hs1, saved_file hs2, List.append_nil, List.append_nil] at he
  have he : fileOf o1 n1 = fileOf o2 n2 := Option.some.inj he
  have hl1 : (fileOf o1 n1).length < 2 ^ 64 := by rw [len_file]; exact hl
  obtain ⟨m1, p1, _, p3, _⟩ := C46_load_partial b1 .debug n1 h1 hk1 o1 hl1 fs1 fs1' name1 hs1 .Inference
  obtain ⟨m2, q1, _, q3, _⟩ := C46_load_partial b2 .debug n2 h2 hk2 o2 (by rw [← he]; exact hl1) fs2 fs2' name2 hs2
    .Inference
  have hload : (Network.new .Inference : Net F).load_from_file .debug fs1' name1 =
      (Network.new .Inference : Net F).load_from_file .debug fs2' name2 := by
    unfold Network.load_from_file
    rw [hf]
  have hm : m1 = m2 := (Prod.mk.inj (Except.ok.inj (p1.symm.trans (hload.trans q1)))).2
  rw [← p3, hm, q3]

/-- C87: load a saved network and save it again with the hash maps iterated in the same order: the file is the
same, byte for byte. -/
theorem C87_stable (b0 b : Build) (n : Net F) (hn : Built b0 n) (hk : ∀ l ∈ n.get_layers, hasKernels l)
    (o : HashOrder) (hl : 8 + (n.get_layers.map layerBytes).sum < 2 ^ 64) (fs fs' : FS) (name name' : String)
    (hs : n.save_to_file o .done fs name = (.ok (), fs')) (m : NetworkRunState) :
    ∃ n' fs'', (Network.new m : Net F).load_from_file b fs' name = .ok (.ok (), n') ∧
      n'.save_to_file o .done fs' name' = (.ok (), fs'') ∧ fs'' name' = fs' name := by
  obtain ⟨n', h1, _, h3, _⟩ := C46_load_partial b0 b n hn hk o (by rw [len_file]; exact hl) fs fs' name hs m
  refine ⟨n', _, h1, rfl, ?_⟩
  rw [saved_file hs, List.append_nil]
  simp only [FS.set, if_true, fileOf]
  have e : SerializedNetwork.new_from_network n' = SerializedNetwork.new_from_network n := by
    unfold SerializedNetwork.new_from_network
    congr 1
    refine List.ext_getElem? fun i => ?_
    have h := congrArg (·[i]?) h3
    simp only [List.getElem?_map] at h ⊢
    cases hi : n'.get_layers[i]? with
    | none =>
      rw [hi] at h
      cases hj : n.get_layers[i]? with
      | none => rfl
      | some l => rw [hj] at h; cases h
    | some l' =>
      rw [hi] at h
      cases hj : n.get_layers[i]? with
      | none => rw [hj] at h; cases h
      | some l =>
        rw [hj] at h
        simp only [Option.map_some, Option.some.injEq] at h ⊢
        exact serialized_params h
  rw [e]

open Toy in
/-- The assumptions of C87 can be met: a network of 162 bytes. -/
example : ∃ n : Net UInt32, Built .debug n ∧ (∀ l ∈ n.get_layers, hasKernels l) ∧
    8 + (n.get_layers.map layerBytes).sum = 162 ∧ ∀ fs name, ∃ fs',
      n.save_to_file HashOrder.rev .done fs name = (.ok (), fs') := by
  obtain ⟨n, h1, _, h3, _, h5⟩ := exFile_built
  exact ⟨n, h1, fun l hl => (h3 l hl).2, by rw [← len_file HashOrder.rev]; exact h5, fun fs name => ⟨_, rfl⟩⟩

end Rusty
