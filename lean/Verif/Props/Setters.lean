import Verif.Spec.AnyLayer
import Verif.Props.FullyConnected
import Verif.Props.TensorAccess

/-! # C85: shorthands for shapes and indices, and setters of fully connected layers -/

namespace Rusty

open F32Ops Spec

variable {F : Type} [F32Ops F]

/-- C85: a shape made by `new_1d` has exactly the indices `(i, 0, 0)` with `i < d`. -/
theorem C85_shape_1d (d : UInt32) (x : TensorIndex) :
    (TensorShape.new_1d d).fits_index x = true ↔ x.i.toNat < d.toNat ∧ x.j = 0 ∧ x.k = 0 := by
  rw [fits_index_iff, ← UInt32.toNat_inj, ← UInt32.toNat_inj]
  change _ < _ ∧ _ < 1 ∧ _ < 1 ↔ _ ∧ _ = 0 ∧ _ = 0
  change x.i.toNat < d.toNat ∧ _ ↔ _
  omega

/-- C85: a shape made by `new_2d` has exactly the indices `(i, j, 0)` with `i < d` and `j < e`. -/
theorem C85_shape_2d (d e : UInt32) (x : TensorIndex) :
    (TensorShape.new_2d d e).fits_index x = true ↔
      x.i.toNat < d.toNat ∧ x.j.toNat < e.toNat ∧ x.k = 0 := by
  rw [fits_index_iff, ← UInt32.toNat_inj]
  change x.i.toNat < d.toNat ∧ x.j.toNat < e.toNat ∧ _ < 1 ↔ _ ∧ _ ∧ _ = 0
  omega

/-- C85: a shape made by `new` has the given sizes, where 0 counts as 1; it always has the index `zero()`. -/
theorem C85_shape_new (d e f : UInt32) (x : TensorIndex) :
    ((TensorShape.new d e f).fits_index x = true ↔ x.i.toNat < max d.toNat 1 ∧
      x.j.toNat < max e.toNat 1 ∧ x.k.toNat < max f.toNat 1) ∧
    (TensorShape.new d e f).fits_index TensorIndex.zero = true := by
  have m : ∀ a : UInt32, (maxU a 1).toNat = max a.toNat 1 := by
    intro a
    unfold maxU
    split
    all_goals simp_all only [UInt32.toNat_one]
    all_goals omega
  have h : ∀ y : TensorIndex, (TensorShape.new d e f).fits_index y = true ↔
      y.i.toNat < max d.toNat 1 ∧ y.j.toNat < max e.toNat 1 ∧ y.k.toNat < max f.toNat 1 := by
    intro y
    rw [fits_index_iff, ← m, ← m, ← m]
    exact Iff.rfl
  refine ⟨h x, (h _).mpr ?_⟩
  change 0 < _ ∧ 0 < _ ∧ 0 < _
  omega

/-- C85: the transposed shape has the index `(j, i, k)` if and only if the shape has `(i, j, k)`, and
transposing twice gives the shape back. -/
theorem C85_transpose (s : TensorShape) (x : TensorIndex) :
    (s.transpose_ij.fits_index ⟨x.j, x.i, x.k⟩ = true ↔ s.fits_index x = true) ∧
    s.transpose_ij.transpose_ij = s := by
  refine ⟨?_, rfl⟩
  rw [fits_index_iff, fits_index_iff]
  change _ < s.dj.toNat ∧ _ < s.di.toNat ∧ _ ↔ _ < s.di.toNat ∧ _ < s.dj.toNat ∧ _
  tauto

/-- C85: on a well formed tensor, `index_1d(i)` and `index_2d(i, j)` give the elements number `i` and
`i + di*j` of the data, `zero()` the first, if the tensor has such an index. -/
theorem C85_index (b : Build) (t : Tensor F) (hw : t.WF) (i j : UInt32) :
    (t.shape.Inside i.toNat 0 0 →
      ∃ v, t.get_item b (.index_1d i) = .ok v ∧ t.data[i.toNat]? = some v) ∧
    (t.shape.Inside i.toNat j.toNat 0 →
      ∃ v, t.get_item b (.index_2d i j) = .ok v ∧
        t.data[i.toNat + t.shape.di.toNat * j.toNat]? = some v) ∧
    (t.shape.Inside 0 0 0 →
      ∃ v, t.get_item b .zero = .ok v ∧ t.data[0]? = some v) := by
  have h : ∀ (x : TensorIndex), x.k = 0 → t.shape.Inside x.i.toNat x.j.toNat x.k.toNat →
      ∃ v, t.get_item b x = .ok v ∧ t.data[x.i.toNat + t.shape.di.toNat * x.j.toNat]? = some v := by
    intro x hk hx
    have hin := hx
    refine ⟨val t x.i.toNat x.j.toNat x.k.toNat, ?_, ?_⟩
    · conv => lhs; rw [← ix_eta x]
      exact get_item_ok hw hin
    · have hp := pos_lt_len hw hin
      have e : pos t.shape x.i.toNat x.j.toNat x.k.toNat = x.i.toNat + t.shape.di.toNat * x.j.toNat := by
        rw [hk]
        unfold pos
        simp
      unfold val
      rw [e] at hp ⊢
      rw [List.getElem?_eq_getElem hp]
      rfl
  refine ⟨fun hx => ?_, fun hx => h _ rfl hx, fun hx => h _ rfl hx⟩
  exact h (.index_1d i) rfl hx

/-- C85: `fill_weights_with_value` gives every weight the value `v` and changes nothing else, and
`fill_bias_with_value` does the same for the biases. -/
theorem C85_fill (b : Build) (l : FullyConnectedLayer F) (hl : l.Ok) (v : F) :
    (l.fill_weights_with_value v).Ok ∧ (l.fill_bias_with_value v).Ok ∧
    { l.fill_weights_with_value v with weights := l.weights } = l ∧
    { l.fill_bias_with_value v with bias := l.bias } = l ∧
    (l.fill_weights_with_value v).weights.shape = l.weights.shape ∧
    (l.fill_bias_with_value v).bias.shape = l.bias.shape ∧
    (∀ x : TensorIndex, l.weights.shape.Inside x.i.toNat x.j.toNat x.k.toNat →
      (l.fill_weights_with_value v).weights.get_item b x = .ok v) ∧
    (∀ x : TensorIndex, l.bias.shape.Inside x.i.toNat x.j.toNat x.k.toNat →
      (l.fill_bias_with_value v).bias.get_item b x = .ok v) := by
  obtain ⟨w1, w2, w3⟩ := fill_ok v hl.weights
  obtain ⟨c1, c2, c3⟩ := fill_ok v hl.bias
  refine ⟨⟨w1, hl.bias, hl.rows, hl.depth, hl.buffers⟩, ⟨hl.weights, c1, hl.rows, hl.depth, hl.buffers⟩,
    rfl, rfl, rfl, rfl, fun x hx => ?_, fun x hx => ?_⟩
  · have hin := hx
    conv => lhs; rw [← ix_eta x]
    exact (get_item_ok w1 hin).trans (by rw [w3 _ _ _ hin])
  · have hin := hx
    conv => lhs; rw [← ix_eta x]
    exact (get_item_ok c1 hin).trans (by rw [c3 _ _ _ hin])

omit [F32Ops F] in
/-- C85: the two setters can be called in either order; the second of two calls of the same setter wins. -/
theorem C85_fill_order (l : FullyConnectedLayer F) (v w : F) :
    (l.fill_weights_with_value v).fill_bias_with_value w =
      (l.fill_bias_with_value w).fill_weights_with_value v ∧
    (l.fill_weights_with_value v).fill_weights_with_value w = l.fill_weights_with_value w ∧
    (l.fill_bias_with_value v).fill_bias_with_value w = l.fill_bias_with_value w := by
  refine ⟨rfl, ?_, ?_⟩ <;>
    simp [FullyConnectedLayer.fill_weights_with_value, FullyConnectedLayer.fill_bias_with_value,
      Tensor.fill_with_value]

/-- C85: a layer whose weights are all `v` and whose biases are all `c` gives every output the same value, that of
`v x_0 + v x_1 + ... + c` (cut off at zero as in C27). -/
theorem C85_forward (b : Build) (l : FullyConnectedLayer F) (hl : l.Ok) (v c : F) (x out : Tensor F)
    (hx : x.WF) (hxs : x.shape = l.get_input_shape) (ho : out.WF) (hos : out.shape = l.get_output_shape) :
    ∃ l' y, ((l.fill_weights_with_value v).fill_bias_with_value c).forward b x out = .ok (.ok (), l', y) ∧
      y.shape = l.get_output_shape ∧ ∀ o, o < l.weights.shape.di.toNat → y.get_item b (ix o 0 0) =
        .ok (act l.run_state (add (sum ((List.range l.weights.shape.dj.toNat).map fun i =>
          mul v (val x i 0 0))) c)) := by
  have hl1 := (C85_fill b l hl v).1
  have hl2 := (C85_fill b _ hl1 c).2.1
  obtain ⟨w1, w2, w3⟩ := fill_ok v hl.weights
  obtain ⟨c1, c2, c3⟩ := fill_ok c hl.bias
  have hp : ∀ o, o < l.weights.shape.di.toNat →
      preact ((l.fill_weights_with_value v).fill_bias_with_value c) x o =
        add (sum ((List.range l.weights.shape.dj.toNat).map fun i => mul v (val x i 0 0))) c := by
    intro o h
    unfold preact
    congr 1
    · congr 1
      refine List.map_congr_left fun i hi => ?_
      congr 1
      exact w3 o i 0 ⟨h, List.mem_range.mp hi, by rw [hl.depth]; decide⟩
    · exact c3 o 0 0 (by rw [hl.rows]; exact col_inside h)
  cases hm : l.run_state with
  | Inference =>
    obtain ⟨y, q1, q2, q3, q4⟩ := C27_forward_inference b _ hl2 hm x out hx hxs ho hos
    refine ⟨_, y, q1, q3, fun o h => ?_⟩
    rw [q4 o h, hp o h]
    rfl
  | Training =>
    obtain ⟨mask, y, q1, q2, q3, q4⟩ := C27_forward_training b _ hl2 hm x out hx hxs ho hos
    refine ⟨_, y, q1, q3, fun o h => ?_⟩
    rw [(q4 o h).1, hp o h]
    rfl

open Toy in
/-- The assumptions of C85 can be met. -/
example : exFC.Ok ∧ (TensorShape.new_1d 3).fits_index (.index_1d 2) = true ∧
    (TensorShape.new_2d 3 2).fits_index (.index_2d 2 1) = true ∧ ∃ x out : Tensor Int, x.WF ∧
      x.shape = exFC.get_input_shape ∧ out.WF ∧ out.shape = exFC.get_output_shape :=
  ⟨exFC_ok, by decide, by decide, zeros ⟨2, 1, 1⟩, zeros ⟨3, 1, 1⟩, zeros_wf (by decide), rfl,
    zeros_wf (by decide), rfl⟩

end Rusty
