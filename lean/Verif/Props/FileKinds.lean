import Verif.Lemmas.FileKinds
import Verif.Lemmas.Tensor
import Verif.Spec.Toy
import Verif.Props.NetworkFiles

/-! # Files of tensors and of networks (C137, C138) -/

namespace Rusty

open F32Ops Spec

variable {F : Type} [F32Ops F] [F32Bits F]

/-! ## C137 -/

/-- C137: Save a well formed tensor; also a write that was cut off after any number of bytes counts.
Loading the file into a network then says `Err` and leaves the network as it was; it never panics. -/
theorem C137_load (b : Build) (t : Tensor F) (ht : t.WF) (n : Net F) (fs fs' : FS) (name : String)
    (w : WriteOutcome) (hw : w ≠ .notOpened) (r : Res) (hs : t.save_to_file w fs name = (r, fs')) :
    ∃ e, n.load_from_file b fs' name = .ok (.error e, n) := by
  have hf : ∃ bs rest, fs' name = some bs ∧ bs ++ rest = encTensor t := by
    cases w with
    | done => cases hs; exact ⟨_, [], if_pos rfl, List.append_nil _⟩
    | notOpened => exact absurd rfl hw
    | cutAt k =>
      cases hs
      exact ⟨_, _, if_pos rfl, List.take_append_drop k _⟩
  obtain ⟨bs, rest, hf, hb⟩ := hf
  unfold Network.load_from_file
  rw [hf]
  simp only
  cases hd : deserialize decSerializedNetwork bs with
  | none => exact ⟨_, rfl⟩
  | some sn =>
    unfold deserialize at hd
    obtain ⟨⟨sn', r'⟩, hp, rfl⟩ := Option.map_eq_some_iff.mp hd
    have hx := ext_network _ _ _ rest hp
    rw [hb] at hx
    have hl := tensor_as_network ht hx
    obtain ⟨e, he⟩ := add_lacking b n (.SerialConvolutionalLayer HMap.new)
      ⟨.Name, by simp, fun e h => by cases h⟩
    refine ⟨e, ?_⟩
    change SerializedNetwork.populate_network b sn' n = _
    unfold SerializedNetwork.populate_network
    rw [hl]
    unfold forListE
    simp only [he]
    rfl

open Toy in
/-- The assumptions of C137 can be met, also where the bytes of the tensor do pass for a network: the
tensor of shape (0, 0, 7). -/
example (fs : FS) : ∃ t : Tensor UInt32, t.WF ∧ t.shape = ⟨0, 0, 7⟩ ∧
    (deserialize decSerializedNetwork (encTensor t)).isSome = true ∧
    (t.save_to_file .done fs "f").1 = .ok () := by
  refine ⟨⟨⟨1, 0, 0⟩, ⟨0, 0, 7⟩, []⟩, ⟨by decide, rfl, rfl, rfl, rfl⟩, rfl, by rfl, rfl⟩

/-! ## C138 -/

/-- C138: Save a network; also a write that was cut off counts.  If `Tensor::from_file` accepts the file,
then it returns a tensor without elements: `get_item` returns 0 for every index and `set_item` does
nothing.  It holds numbers nevertheless, so it is not well formed.  Nothing of this panics.

Partial: the claim is that the file is refused, which is false, see the negation below. -/
theorem C138_inert_partial (b : Build) (n : Net F) (o : HashOrder) (hl : (fileOf o n).length < 2 ^ 64)
    (fs fs' : FS) (name : String) (w : WriteOutcome) (hw : w ≠ .notOpened) (r : Res)
    (hs : n.save_to_file o w fs name = (r, fs')) (t : Tensor F) (h : Tensor.from_file fs' name = .ok t) :
    t.get_shape.dj = 0 ∧ (∀ ix, t.get_item b ix = .ok zero) ∧ (∀ ix v, t.set_item b ix v = .ok t) ∧
    t.data ≠ [] ∧ ¬ t.WF := by
  have hf : ∃ bs rest, fs' name = some bs ∧ bs ++ rest = fileOf o n := by
    cases w with
    | done => cases hs; exact ⟨_, [], if_pos rfl, List.append_nil _⟩
    | notOpened => exact absurd rfl hw
    | cutAt k =>
      cases hs
      exact ⟨_, _, if_pos rfl, List.take_append_drop k _⟩
  obtain ⟨bs, rest, hf, hb⟩ := hf
  unfold Tensor.from_file at h
  rw [hf] at h
  simp only at h
  have hdec : ∃ r', decTensor bs = some (t, r') := by
    cases hd : deserialize (decTensor (F := F)) bs with
    | none => rw [hd] at h; cases h
    | some t' =>
      rw [hd] at h
      cases h
      unfold deserialize at hd
      obtain ⟨⟨t', r'⟩, hp, rfl⟩ := Option.map_eq_some_iff.mp hd
      exact ⟨r', hp⟩
  obtain ⟨r', hp⟩ := hdec
  have hx := ext_tensor _ _ _ rest hp
  rw [hb] at hx
  cases hlay : n.layers with
  | nil =>
    exfalso
    have h1 := weighs_tensor _ _ _ hx
    have h2 := len_file o n
    unfold Network.get_layers at h2
    rw [hlay] at h2
    simp only [List.map_nil, List.sum_nil] at h1 h2
    omega
  | cons l ls =>
    obtain ⟨a, d, tag, c, key, v, rest', hm, he⟩ := file_head o n hlay
    have hv : v.length < 2 ^ 64 := by
      rw [he] at hl
      simp only [List.length_append] at hl
      omega
    rw [he, words_tensor _ _ _ _ _ _ _ hv] at hx
    obtain ⟨p, hp1, hp2⟩ := Option.map_eq_some_iff.mp hx
    obtain ⟨rfl, _⟩ := Prod.mk.inj hp2
    have hlen : p.1.length = v.length := decN_length (d := decF32 (F := F)) (r := p.2) hp1
    have hne : p.1 ≠ [] := by
      intro e
      rw [e] at hlen
      exact savedValues_ne hm (List.length_eq_zero_iff.mp hlen.symm)
    have hfit : ∀ ix : TensorIndex, (⟨c, 0, key⟩ : TensorShape).fits_index ix = false := by
      intro ix
      unfold TensorShape.fits_index
      have : ix.j ≥ 0 := UInt32.zero_le
      simp only [this, if_true]
      split <;> rfl
    refine ⟨rfl, fun ix => ?_, fun ix v => ?_, hne, fun hwf => ?_⟩
    · unfold Tensor.get_item
      simp only [hfit]
      rfl
    · unfold Tensor.set_item
      simp only [hfit]
      rfl
    · have := hwf.len
      simp only [TensorShape.count] at this
      have h0 : (0 : UInt32).toNat = 0 := rfl
      rw [h0, Nat.mul_zero, Nat.zero_mul] at this
      exact hne (List.length_eq_zero_iff.mp this)

/-- C138 holds of networks without layers: their file is refused. -/
theorem C138_empty_partial (n : Net F) (o : HashOrder) (h0 : n.layers = []) (fs fs' : FS) (name : String)
    (w : WriteOutcome) (hw : w ≠ .notOpened) (r : Res) (hs : n.save_to_file o w fs name = (r, fs')) :
    ∃ e, (Tensor.from_file fs' name : Except String (Tensor F)) = .error e := by
  cases h : (Tensor.from_file fs' name : Except String (Tensor F)) with
  | error e => exact ⟨e, rfl⟩
  | ok t =>
    exfalso
    have h2 := len_file o n
    unfold Network.get_layers at h2
    rw [h0] at h2
    simp only [List.map_nil, List.sum_nil] at h2
    have hf : ∃ bs, fs' name = some bs ∧ bs.length ≤ 8 := by
      cases w with
      | done => cases hs; exact ⟨_, if_pos rfl, Nat.le_of_eq h2⟩
      | notOpened => exact absurd rfl hw
      | cutAt k =>
        cases hs
        refine ⟨_, if_pos rfl, ?_⟩
        rw [List.length_take]
        exact Nat.le_trans (Nat.min_le_right _ _) (Nat.le_of_eq h2)
    obtain ⟨bs, hf, hb⟩ := hf
    unfold Tensor.from_file at h
    rw [hf] at h
    simp only at h
    cases hd : deserialize (decTensor (F := F)) bs with
    | none => rw [hd] at h; cases h
    | some t' =>
      unfold deserialize at hd
      obtain ⟨⟨t', r'⟩, hp, rfl⟩ := Option.map_eq_some_iff.mp hd
      have := weighs_tensor _ _ _ hp
      simp only at this
      omega

/-- C138 is false: there is a network, built from two softmax layers, whose file is accepted by
`Tensor::from_file`, whatever the order of the maps. -/
theorem C138_negation (b : Build) : ∃ n : Net F, Built b n ∧ ∀ (o : HashOrder) (fs : FS) (name : String),
    (n.save_to_file o .done fs name).1 = .ok () ∧ (fileOf o n).length = 122 ∧
    ∃ t : Tensor F, Tensor.from_file (n.save_to_file o .done fs name).2 name = .ok t := by
  have hok : ∀ name : String, (AnyLayer.sm ⟨⟨1, 1, 1⟩, name, blank, blank, .Inference⟩ : AnyLayer F).Ok :=
    fun _ => ⟨(by decide : (⟨1, 1, 1⟩ : TensorShape).Fits), fun h => by cases h⟩
  have h1 : ∃ n1 : Net F, (Network.new .Inference : Net F).add_layer b
      (.sm ⟨⟨1, 1, 1⟩, "a", blank, blank, .Inference⟩) = .ok (.ok (), n1) ∧
      ∃ n2 : Net F, n1.add_layer b (.sm ⟨⟨1, 1, 1⟩, "b", blank, blank, .Inference⟩) = .ok (.ok (), n2) ∧
      ∃ p q m p' q' m', n2.layers = [.sm ⟨⟨1, 1, 1⟩, "a", p, q, m⟩, .sm ⟨⟨1, 1, 1⟩, "b", p', q', m'⟩] := by
    cases b <;> exact ⟨_, rfl, _, rfl, _, _, _, _, _, _, rfl⟩
  obtain ⟨n1, e1, n2, e2, p, q, m, p', q', m', hn⟩ := h1
  exact ⟨n2, .add_layer _ _ _ _ (.add_layer _ _ _ _ (.new _) (hok _) e1) (hok _) e2, fun o fs name =>
    ⟨rfl, by rw [len_file, Network.get_layers, hn]; rfl, two_softmax_accepted n2 o _ _ [] _ _ _ _ _ _ hn fs name⟩⟩

open Toy in
/-- The assumptions of `C138_inert_partial` can be met. -/
example (fs : FS) : ∃ (n : Net UInt32) (fs' : FS) (t : Tensor UInt32), Built .debug n ∧
    (fileOf HashOrder.id n).length < 2 ^ 64 ∧ n.save_to_file HashOrder.id .done fs "f" = (.ok (), fs') ∧
    Tensor.from_file fs' "f" = .ok t ∧ t.get_shape.dj = 0 := by
  obtain ⟨n, h1, h2⟩ := C138_negation (F := UInt32) .debug
  obtain ⟨_, h3, t, h4⟩ := h2 HashOrder.id fs "f"
  have hl : (fileOf HashOrder.id n).length < 2 ^ 64 := by rw [h3]; decide
  exact ⟨n, _, t, h1, hl, rfl, h4, (C138_inert_partial .debug n _ hl fs _ "f" .done (by simp) _ rfl t h4).1⟩

end Rusty
