import Verif.Lemmas.Laws
import Verif.Lemmas.Elementwise
import Verif.Lemmas.Real
import Verif.Props.IEEE
import Verif.Props.NetworkRounding

/-! # C153: which laws of arithmetic the tensor operations keep -/

namespace Rusty

open F32Ops Spec

section
open F32

variable [Libm]

/-- C153: in f32 the order of the two operands does not matter, bit for bit. -/
theorem C153_commute (t1 t2 r : Tensor F32) (h1 : t1.WF) (h2 : t2.WF) (hr : r.WF) :
    Tensor.add t1 t2 r = Tensor.add t2 t1 r ∧
    Tensor.multiply_elementwise t1 t2 r = Tensor.multiply_elementwise t2 t1 r ∧
    (t1.shape = t2.shape → Tensor.add_to_self t1 t2 = Tensor.add_to_self t2 t1 ∧
      Tensor.multiply_elementwise_self t1 t2 = Tensor.multiply_elementwise_self t2 t1) := by
  refine ⟨?_, ?_, fun hs => ⟨?_, ?_⟩⟩
  · by_cases h : t1.shape = t2.shape ∧ t1.shape = r.shape
    · obtain ⟨a1, a2, a3⟩ := add_ok h1 h2 hr h.1 h.2
      obtain ⟨b1, b2, b3⟩ := add_ok h2 h1 hr h.1.symm (h.1.symm.trans h.2)
      refine tensor_ext a1 b1 (a2.trans b2.symm) fun i j k hin => ?_
      rw [a2] at hin
      rw [a3 i j k hin, b3 i j k hin]
      exact add_comm' _ _
    · unfold Tensor.add
      rw [if_neg h, if_neg fun h' => h ⟨h'.1.symm, h'.1.symm.trans h'.2⟩]
  · by_cases h : t1.shape = t2.shape ∧ t1.shape = r.shape
    · obtain ⟨a1, a2, a3⟩ := mul_ok h1 h2 hr h.1 h.2
      obtain ⟨b1, b2, b3⟩ := mul_ok h2 h1 hr h.1.symm (h.1.symm.trans h.2)
      refine tensor_ext a1 b1 (a2.trans b2.symm) fun i j k hin => ?_
      rw [a2] at hin
      rw [a3 i j k hin, b3 i j k hin]
      exact F32.mul_comm' _ _
    · unfold Tensor.multiply_elementwise
      rw [if_neg h, if_neg fun h' => h ⟨h'.1.symm, h'.1.symm.trans h'.2⟩]
  · obtain ⟨a1, a2, a3⟩ := add_to_self_ok h1 h2 hs
    obtain ⟨b1, b2, b3⟩ := add_to_self_ok h2 h1 hs.symm
    refine tensor_ext a1 b1 (a2.trans (hs.trans b2.symm)) fun i j k hin => ?_
    rw [a2] at hin
    rw [a3 i j k hin, b3 i j k (hs ▸ hin)]
    exact add_comm' _ _
  · obtain ⟨a1, a2, a3⟩ := mul_self_ok h1 h2 hs
    obtain ⟨b1, b2, b3⟩ := mul_self_ok h2 h1 hs.symm
    refine tensor_ext a1 b1 (a2.trans (hs.trans b2.symm)) fun i j k hin => ?_
    rw [a2] at hin
    rw [a3 i j k hin, b3 i j k (hs ▸ hin)]
    exact F32.mul_comm' _ _

/-- C153: in f32 the transpose of a product is, bit for bit, the product of the transposes in the other order. -/
theorem C153_transpose (b : Build) (t1 t2 r u1 u2 v : Tensor F32) (h1 : t1.WF) (h2 : t2.WF) (hr : r.WF) (hu1 : u1.WF)
    (hu2 : u2.WF) (hv : v.WF) (hs : mmShapes t1.shape t2.shape r.shape) (s1 : u1.shape = t1.shape.transpose_ij)
    (s2 : u2.shape = t2.shape.transpose_ij) (s3 : v.shape = r.shape.transpose_ij) :
    ∃ r' u1' u2' p, Tensor.matrix_multiply b t1 t2 r = .ok r' ∧ Tensor.transpose_ij b t1 u1 = .ok (.ok (), u1') ∧
      Tensor.transpose_ij b t2 u2 = .ok (.ok (), u2') ∧ Tensor.transpose_ij b r' v = .ok (.ok (), p) ∧
      Tensor.matrix_multiply b u2' u1' v = .ok p := by
  obtain ⟨c1, c2, c3, c4, c5⟩ := hs
  obtain ⟨r', m1, m2, m3, m4⟩ := matmul_ok (b := b) h1 h2 hr ((mmShapes_iff _ _ _).mp ⟨c1, c2, c3, c4, c5⟩)
  obtain ⟨u1', a1, a2, a3, a4⟩ := transpose_ok (b := b) h1 hu1 (by rw [s1]; rfl) (by rw [s1]; rfl) (by rw [s1]; rfl)
  obtain ⟨u2', d1, d2, d3, d4⟩ := transpose_ok (b := b) h2 hu2 (by rw [s2]; rfl) (by rw [s2]; rfl) (by rw [s2]; rfl)
  obtain ⟨p, p1, p2, p3, p4⟩ := transpose_ok (b := b) m2 hv (by rw [s3, m3]; rfl) (by rw [s3, m3]; rfl)
    (by rw [s3, m3]; rfl)
  have hsh : mmShapes u2'.shape u1'.shape v.shape := by
    rw [d3, a3, s1, s2, s3]
    exact ⟨c1.symm, c3, c2, c4.symm, c5.trans c4⟩
  obtain ⟨q, q1, q2, q3, q4⟩ := matmul_ok (b := b) d2 a2 hv ((mmShapes_iff _ _ _).mp hsh)
  refine ⟨r', u1', u2', p, m1, a1, d1, p1, q1.trans (congrArg _ ?_)⟩
  refine tensor_ext q2 p2 (q3.trans p3.symm) fun i j k hin => ?_
  rw [q3] at hin
  have hin' : r.shape.Inside j i k := by
    rw [s3] at hin
    exact ⟨hin.2.1, hin.1, hin.2.2⟩
  rw [q4 i j k hin, p4 i j k hin, m4 j i k hin']
  obtain ⟨e1, e2, e3⟩ := hin'
  have hn : u2'.shape.dj.toNat = t1.shape.dj.toNat := by
    rw [d3, s2, c1]
    rfl
  rw [hn]
  refine congrArg Spec.sum (List.map_congr_left fun l hl => ?_)
  have hl := List.mem_range.mp hl
  have hl' := hl
  rw [c1] at hl'
  rw [c2] at e1
  rw [c3] at e2
  rw [c5] at e3
  have e4 := e3
  rw [c4] at e4
  rw [a4 l j k (by rw [s1]; exact ⟨hl, e1, e3⟩), d4 i l k (by rw [s2]; exact ⟨e2, hl', e4⟩)]
  exact F32.mul_comm' _ _

/-- C153: in f32 scaling by 1 changes nothing, scaling twice by -1 changes nothing, a tensor and its negative add up to
zeros, and adding zeros changes at most the sign of zeros. -/
theorem C153_neutral (t : Tensor F32) (ht : t.WF) :
    ((∀ x ∈ t.data, x.isNaN = false) →
      Tensor.scale_self t one = t ∧ Tensor.scale_self (Tensor.scale_self t negOne) negOne = t ∧
      ∀ z : Tensor F32, z.WF → z.shape = t.shape → (∀ x ∈ z.data, x = zero) → ∀ i j k, t.shape.Inside i j k →
        SameNumber (val (Tensor.add_to_self t z) i j k) (val t i j k)) ∧
    ((∀ x ∈ t.data, x.isFinite = true) →
      Tensor.add_to_self t (Tensor.scale_self t negOne) = { t with data := t.data.map fun _ => zero }) := by
  have hmem : ∀ i j k, t.shape.Inside i j k → val t i j k ∈ t.data := fun i j k hin => by
    unfold val
    rw [List.getElem?_eq_getElem (by rw [ht.len]; exact pos_lt hin)]
    exact List.getElem_mem _
  refine ⟨fun h => ⟨?_, ?_, fun z hz hzs hz0 i j k hin => ?_⟩, fun h => ?_⟩
  · unfold Tensor.scale_self
    rw [(List.map_congr_left fun x hx => mul_one' (h x hx) : t.data.map (fun x => F32Ops.mul x one) = t.data.map fun x => x),
      List.map_id']
  · unfold Tensor.scale_self
    simp only [List.map_map]
    rw [(List.map_congr_left fun x hx => negative_twice (h x hx) :
        t.data.map ((fun x => F32Ops.mul x negOne) ∘ fun x => F32Ops.mul x negOne) = t.data.map fun x => x),
      List.map_id']
  · have e : val z i j k = zero := by
      unfold val
      rw [List.getElem?_eq_getElem (by rw [hz.len]; exact pos_lt (hzs ▸ hin))]
      exact hz0 _ (List.getElem_mem _)
    rw [(add_to_self_ok ht hz hzs.symm).2.2 i j k hin, e]
    exact add_zero_any (h _ (hmem i j k hin)) (by
      change (mk' false 0).code = 0
      decide)
  · obtain ⟨a1, a2, a3⟩ := scale_self_ok negOne ht
    obtain ⟨c1, c2, c3⟩ := add_to_self_ok ht a1 a2.symm
    refine tensor_ext c1 (wf_data ht _ (List.length_map _)) c2 fun i j k hin => ?_
    rw [c2] at hin
    rw [c3 i j k hin, a3 i j k hin, val_map ht _ hin]
    exact add_negative (h _ (hmem i j k hin))

/-- C153: in f32 the other laws fail: sums and products depend on the brackets, a number that was added cannot always be
taken away again, and a factor cannot be taken out of a sum. -/
theorem C153_rounding :
    (∃ x y z : F32, x.isFinite = true ∧ y.isFinite = true ∧ z.isFinite = true ∧
      Tensor.add_to_self (Tensor.add_to_self (single x) (single y)) (single z) ≠
        Tensor.add_to_self (single x) (Tensor.add_to_self (single y) (single z))) ∧
    (∃ x y z : F32, x.isFinite = true ∧ y.isFinite = true ∧ z.isFinite = true ∧
      Tensor.multiply_elementwise_self (Tensor.multiply_elementwise_self (single x) (single y)) (single z) ≠
        Tensor.multiply_elementwise_self (single x) (Tensor.multiply_elementwise_self (single y) (single z))) ∧
    (∃ x y : F32, x.isFinite = true ∧ y.isFinite = true ∧
      Tensor.add_to_self (Tensor.add_to_self (single x) (single y)) (Tensor.scale_self (single y) negOne) ≠ single x) ∧
    ∃ x y c : F32, x.isFinite = true ∧ y.isFinite = true ∧ c.isFinite = true ∧
      Tensor.scale_self (Tensor.add_to_self (single x) (single y)) c ≠
        Tensor.add_to_self (Tensor.scale_self (single x) c) (Tensor.scale_self (single y) c) := by
  have inj : ∀ {x y : F32}, single x = single y → x = y := fun h => by
    injection h with _ _ h
    exact (List.cons.inj h).1
  refine ⟨⟨⟨0x4b800000⟩, ⟨0x3f800000⟩, ⟨0x3f800000⟩, by decide, by decide, by decide, fun h => ?_⟩,
    ⟨⟨1⟩, ⟨0x3f000000⟩, ⟨0x40000000⟩, by decide, by decide, by decide, fun h => ?_⟩,
    ⟨⟨0x3f800000⟩, ⟨0x4b800000⟩, by decide, by decide, fun h => ?_⟩,
    ⟨⟨0x3f800001⟩, ⟨0x3f800000⟩, ⟨0x40400000⟩, by decide, by decide, by decide, fun h => ?_⟩⟩
  · exact absurd (inj (x := F32.add (F32.add ⟨0x4b800000⟩ ⟨0x3f800000⟩) ⟨0x3f800000⟩)
      (y := F32.add ⟨0x4b800000⟩ (F32.add ⟨0x3f800000⟩ ⟨0x3f800000⟩)) h) (by decide +kernel)
  · exact absurd (inj (x := F32.mul (F32.mul ⟨1⟩ ⟨0x3f000000⟩) ⟨0x40000000⟩)
      (y := F32.mul ⟨1⟩ (F32.mul ⟨0x3f000000⟩ ⟨0x40000000⟩)) h) (by decide +kernel)
  · exact absurd (inj (x := F32.add (F32.add ⟨0x3f800000⟩ ⟨0x4b800000⟩) (F32.mul ⟨0x4b800000⟩ (mk' true (127 * 2 ^ 23))))
      (y := ⟨0x3f800000⟩) h) (by decide +kernel)
  · exact absurd (inj (x := F32.mul (F32.add ⟨0x3f800001⟩ ⟨0x3f800000⟩) ⟨0x40400000⟩)
      (y := F32.add (F32.mul ⟨0x3f800001⟩ ⟨0x40400000⟩) (F32.mul ⟨0x3f800000⟩ ⟨0x40400000⟩)) h) (by decide +kernel)

end

section
open Exact

/-- C153: in exact arithmetic the matrix product is associative. -/
theorem C153_exact (b : Build) (t1 t2 t3 r12 r23 r : Tensor ℝ) (h1 : t1.WF) (h2 : t2.WF) (h3 : t3.WF) (w12 : r12.WF)
    (w23 : r23.WF) (w : r.WF) (s12 : mmShapes t1.shape t2.shape r12.shape) (s23 : mmShapes t2.shape t3.shape r23.shape)
    (s : mmShapes r12.shape t3.shape r.shape) :
    ∃ p12 p23 p, Tensor.matrix_multiply b t1 t2 r12 = .ok p12 ∧ Tensor.matrix_multiply b t2 t3 r23 = .ok p23 ∧
      Tensor.matrix_multiply b p12 t3 r = .ok p ∧ Tensor.matrix_multiply b t1 p23 r = .ok p := by
  obtain ⟨p12, a1, a2, a3, a4⟩ := matmul_ok (b := b) h1 h2 w12 ((mmShapes_iff _ _ _).mp s12)
  obtain ⟨p23, c1, c2, c3, c4⟩ := matmul_ok (b := b) h2 h3 w23 ((mmShapes_iff _ _ _).mp s23)
  obtain ⟨p, d1, d2, d3, d4⟩ := matmul_ok (b := b) a2 h3 w ((mmShapes_iff _ _ _).mp (by rw [a3]; exact s))
  obtain ⟨e1, e2, e3, e4, e5⟩ := s12
  obtain ⟨f1, f2, f3, f4, f5⟩ := s23
  obtain ⟨g1, g2, g3, g4, g5⟩ := s
  obtain ⟨q, q1, q2, q3, q4⟩ := matmul_ok (b := b) h1 c2 w ((mmShapes_iff _ _ _).mp (by
    rw [c3]
    exact ⟨e1.trans f2.symm, g2.trans e2, g3.trans f3.symm, e4.trans f5.symm, g5.trans e5⟩))
  refine ⟨p12, p23, p, a1, c1, d1, q1.trans (congrArg _ (tensor_ext q2 d2 (q3.trans d3.symm) fun i j k hin => ?_))⟩
  rw [q3] at hin
  obtain ⟨i1, i2, i3⟩ := hin
  rw [q4 i j k ⟨i1, i2, i3⟩, d4 i j k ⟨i1, i2, i3⟩, sum_range_real, sum_range_real, a3]
  have k1 : ∀ l ∈ Finset.range t1.shape.dj.toNat, mul (val t1 i l k) (val p23 l j k) =
      ∑ m ∈ Finset.range t2.shape.dj.toNat, val t1 i l k * (val t2 l m k * val t3 m j k) := by
    intro l hl
    rw [c4 l j k ⟨by rw [f2, ← e1]; exact Finset.mem_range.mp hl, by rw [f3, ← g3]; exact i2, by
      rw [f5, ← e4, ← e5, ← g5]; exact i3⟩, sum_range_real]
    exact Finset.mul_sum _ _ _
  have k2 : ∀ m ∈ Finset.range r12.shape.dj.toNat, mul (val p12 i m k) (val t3 m j k) =
      ∑ l ∈ Finset.range t1.shape.dj.toNat, val t1 i l k * (val t2 l m k * val t3 m j k) := by
    intro m hm
    rw [a4 i m k ⟨by rw [← g2]; exact i1, Finset.mem_range.mp hm, by rw [← g5]; exact i3⟩, sum_range_real]
    change _ * _ = _
    rw [Finset.sum_mul]
    exact Finset.sum_congr rfl fun l _ => mul_assoc _ _ _
  rw [Finset.sum_congr rfl k1, Finset.sum_congr rfl k2, Finset.sum_comm, e3]

/-! ## Non-vacuity -/

/-- shapes for `C153_transpose` and `C153_exact` -/
example : (zeros ⟨2, 3, 1⟩ : Tensor ℝ).WF ∧ (zeros ⟨3, 4, 1⟩ : Tensor ℝ).WF ∧ (zeros ⟨4, 5, 1⟩ : Tensor ℝ).WF ∧
    mmShapes ⟨2, 3, 1⟩ ⟨3, 4, 1⟩ ⟨2, 4, 1⟩ ∧ mmShapes ⟨3, 4, 1⟩ ⟨4, 5, 1⟩ ⟨3, 5, 1⟩ ∧
    mmShapes ⟨2, 4, 1⟩ ⟨4, 5, 1⟩ ⟨2, 5, 1⟩ ∧ (⟨2, 3, 1⟩ : TensorShape).transpose_ij = ⟨3, 2, 1⟩ :=
  ⟨zeros_wf (by decide), zeros_wf (by decide), zeros_wf (by decide), ⟨rfl, rfl, rfl, rfl, rfl⟩,
    ⟨rfl, rfl, rfl, rfl, rfl⟩, ⟨rfl, rfl, rfl, rfl, rfl⟩, rfl⟩

end

section
open F32

variable [Libm]

/-- the negative of 3 is -3, and they add up to zero -/
example : Tensor.scale_self (single ⟨0x40400000⟩) negOne = single ⟨0xc0400000⟩ ∧
    Tensor.add_to_self (single ⟨0x40400000⟩) (single ⟨0xc0400000⟩) = single ⟨0⟩ ∧
    (∀ x ∈ (single ⟨0x40400000⟩).data, x.isFinite = true) := by
  refine ⟨congrArg single (by decide +kernel : F32.mul ⟨0x40400000⟩ (mk' true (127 * 2 ^ 23)) = ⟨0xc0400000⟩),
    congrArg single (by decide +kernel : F32.add ⟨0x40400000⟩ ⟨0xc0400000⟩ = ⟨0⟩), fun x hx => ?_⟩
  rw [List.mem_singleton.mp hx]
  decide

end

end Rusty
