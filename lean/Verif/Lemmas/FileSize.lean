import Verif.Spec.FileSize
import Verif.Lemmas.Serialization

/-! # Helper lemmas: the sizes of saved files -/

namespace Rusty

open F32Ops Spec

variable {F : Type} [F32Bits F]

theorem len_entry {K : Type} [SerKey K] (k : K) (v : Bytes) : (encEntry (k, v)).length = 12 + v.length := by
  unfold encEntry encKey
  rw [List.length_append, len_u32, len_vec, flatMap_length_const (e := encU8) (fun _ => rfl), Nat.one_mul]
  exact (Nat.add_assoc 4 8 v.length).symm

theorem len_string (s : String) : (encString s).length = 8 + s.utf8ByteSize := by
  unfold encString
  rw [List.length_append, len_len, Array.length_toList]
  rfl

theorem len_tensors (ts : List (Tensor F)) :
    (encVec encTensor ts).length = 8 + (ts.map tensorBytes).sum := by
  rw [len_vec, List.length_flatMap]
  congr 2
  exact List.map_congr_left fun t _ => len_tensor t

theorem len_layer (l : AnyLayer F) : (encSerializedLayer l.get_serialized).length = layerBytes l := by
  cases l with
  | conv l =>
    change (encU32 0 ++ encVec encEntry [(ConvKey.Kernels, encVec encTensor l.kernels),
      (.Biases, encVec encTensor l.biases), (.InputShape, encShape l.input_shape),
      (.Stride, encU32 l.stride), (.Name, encString l.name)]).length = _
    rw [List.length_append, len_u32, len_vec]
    simp only [List.flatMap_cons, List.flatMap_nil, List.length_append, List.length_nil, len_entry, len_tensors,
      len_shape, len_u32, len_string, layerBytes]
    omega
  | fc l =>
    change (encU32 1 ++ encVec encEntry [(FCKey.Weights, encTensor l.weights), (.Bias, encTensor l.bias),
      (.Name, encString l.name)]).length = _
    rw [List.length_append, len_u32, len_vec]
    simp only [List.flatMap_cons, List.flatMap_nil, List.length_append, List.length_nil, len_entry, len_tensor,
      len_string, layerBytes, tensorBytes]
    omega
  | mp l =>
    change (encU32 2 ++ encVec encEntry [(MPKey.MaskShape, encShape l.mask_shape),
      (.InputShape, encShape l.input_shape), (.Stride, encU32 l.stride), (.Name, encString l.name)]).length = _
    rw [List.length_append, len_u32, len_vec]
    simp only [List.flatMap_cons, List.flatMap_nil, List.length_append, List.length_nil, len_entry,
      len_shape, len_u32, len_string, layerBytes]
    omega
  | sm l =>
    change (encU32 3 ++ encVec encEntry [(SMKey.Shape, encShape l.shape), (.Name, encString l.name)]).length = _
    rw [List.length_append, len_u32, len_vec]
    simp only [List.flatMap_cons, List.flatMap_nil, List.length_append, List.length_nil, len_entry,
      len_shape, len_string, layerBytes]
    omega

theorem len_file [F32Ops F] (o : HashOrder) (n : Net F) :
    (fileOf o n).length = 8 + (n.get_layers.map layerBytes).sum := by
  unfold fileOf encSerializedNetwork HashOrder.network SerializedNetwork.new_from_network
  rw [len_vec, List.length_flatMap]
  congr 2
  refine List.ext_getElem? fun i => ?_
  simp only [List.getElem?_map, List.getElem?_mapIdx]
  cases n.get_layers[i]? with
  | none => rfl
  | some l =>
    simp only [Option.map_some]
    rw [layer_length, len_layer]

end Rusty
