import Verif.Lemmas.Matrix
import Verif.Lemmas.Scatter
import Verif.Props.TensorAccess

/-! # C08, C09, C14: elementwise operations -/

namespace Rusty

open F32Ops Spec

variable {F : Type} [F32Ops F]

/-- `Spec.val` is what `get_item` returns on well formed tensors; the theorems below use it to name
the value of an element. -/
theorem C05_val_is_get_item (b : Build) (t : Tensor F) (hw : t.WF) (i j k : Nat)
    (h : t.shape.Inside i j k) : t.get_item b (ix i j k) = .ok (val t i j k) :=
  get_item_ok hw h

/-! ## C08 -/

/-- C08, `add` -/
theorem C08_add (b : Build) (t1 t2 r : Tensor F) (h1 : t1.WF) (h2 : t2.WF) (hr : r.WF) :
    (t1.shape = t2.shape ∧ t1.shape = r.shape →
      (Tensor.add t1 t2 r).WF ∧ (Tensor.add t1 t2 r).shape = r.shape ∧
      ∀ i j k, r.shape.Inside i j k → (Tensor.add t1 t2 r).get_item b (ix i j k) =
        .ok (F32Ops.add (val t1 i j k) (val t2 i j k))) ∧
    (¬ (t1.shape = t2.shape ∧ t1.shape = r.shape) → Tensor.add t1 t2 r = r) := by
  constructor
  · rintro ⟨hs, hs'⟩
    obtain ⟨w, s, v⟩ := add_ok h1 h2 hr hs hs'
    exact ⟨w, s, fun i j k h => by rw [get_item_ok w (by rw [s]; exact h), v i j k h]⟩
  · intro h; unfold Tensor.add; rw [if_neg h]

/-- C08, `add_to_self` -/
theorem C08_add_to_self (b : Build) (t1 t2 : Tensor F) (h1 : t1.WF) (h2 : t2.WF) :
    (t1.shape = t2.shape →
      (Tensor.add_to_self t1 t2).WF ∧ (Tensor.add_to_self t1 t2).shape = t1.shape ∧
      ∀ i j k, t1.shape.Inside i j k → (Tensor.add_to_self t1 t2).get_item b (ix i j k) =
        .ok (F32Ops.add (val t1 i j k) (val t2 i j k))) ∧
    (t1.shape ≠ t2.shape → Tensor.add_to_self t1 t2 = t1) := by
  constructor
  · intro hs
    obtain ⟨w, s, v⟩ := add_to_self_ok h1 h2 hs
    exact ⟨w, s, fun i j k h => by rw [get_item_ok w (by rw [s]; exact h), v i j k h]⟩
  · intro h; unfold Tensor.add_to_self; rw [if_neg h]

/-- C08, `multiply_elementwise` -/
theorem C08_multiply_elementwise (b : Build) (t1 t2 r : Tensor F) (h1 : t1.WF) (h2 : t2.WF)
    (hr : r.WF) :
    (t1.shape = t2.shape ∧ t1.shape = r.shape →
      (Tensor.multiply_elementwise t1 t2 r).WF ∧
      (Tensor.multiply_elementwise t1 t2 r).shape = r.shape ∧
      ∀ i j k, r.shape.Inside i j k →
        (Tensor.multiply_elementwise t1 t2 r).get_item b (ix i j k) =
        .ok (mul (val t1 i j k) (val t2 i j k))) ∧
    (¬ (t1.shape = t2.shape ∧ t1.shape = r.shape) → Tensor.multiply_elementwise t1 t2 r = r) := by
  constructor
  · rintro ⟨hs, hs'⟩
    obtain ⟨w, s, v⟩ := mul_ok h1 h2 hr hs hs'
    exact ⟨w, s, fun i j k h => by rw [get_item_ok w (by rw [s]; exact h), v i j k h]⟩
  · intro h; unfold Tensor.multiply_elementwise; rw [if_neg h]

/-- C08, `multiply_elementwise_self` -/
theorem C08_multiply_elementwise_self (b : Build) (t1 t2 : Tensor F) (h1 : t1.WF) (h2 : t2.WF) :
    (t1.shape = t2.shape →
      (Tensor.multiply_elementwise_self t1 t2).WF ∧
      (Tensor.multiply_elementwise_self t1 t2).shape = t1.shape ∧
      ∀ i j k, t1.shape.Inside i j k →
        (Tensor.multiply_elementwise_self t1 t2).get_item b (ix i j k) =
        .ok (mul (val t1 i j k) (val t2 i j k))) ∧
    (t1.shape ≠ t2.shape → Tensor.multiply_elementwise_self t1 t2 = t1) := by
  constructor
  · intro hs
    obtain ⟨w, s, v⟩ := mul_self_ok h1 h2 hs
    exact ⟨w, s, fun i j k h => by rw [get_item_ok w (by rw [s]; exact h), v i j k h]⟩
  · intro h; unfold Tensor.multiply_elementwise_self; rw [if_neg h]

/-- C08, `scale` -/
theorem C08_scale (b : Build) (t r : Tensor F) (c : F) (h : t.WF) (hr : r.WF) :
    (t.shape = r.shape →
      (Tensor.scale t c r).WF ∧ (Tensor.scale t c r).shape = r.shape ∧
      ∀ i j k, r.shape.Inside i j k → (Tensor.scale t c r).get_item b (ix i j k) =
        .ok (mul (val t i j k) c)) ∧
    (t.shape ≠ r.shape → Tensor.scale t c r = r) := by
  constructor
  · intro hs
    obtain ⟨w, s, v⟩ := scale_ok c h hr hs
    exact ⟨w, s, fun i j k h => by rw [get_item_ok w (by rw [s]; exact h), v i j k h]⟩
  · intro h; unfold Tensor.scale; rw [if_neg h]

/-- C08, `scale_self` -/
theorem C08_scale_self (b : Build) (t : Tensor F) (c : F) (h : t.WF) :
    (Tensor.scale_self t c).WF ∧ (Tensor.scale_self t c).shape = t.shape ∧
      ∀ i j k, t.shape.Inside i j k → (Tensor.scale_self t c).get_item b (ix i j k) =
        .ok (mul (val t i j k) c) := by
  obtain ⟨w, s, v⟩ := scale_self_ok c h
  exact ⟨w, s, fun i j k h => by rw [get_item_ok w (by rw [s]; exact h), v i j k h]⟩

open Toy in
example : (Tensor.add exT exT exT).get_item .debug (ix 1 2 1) = .ok 22 ∧
    (Tensor.multiply_elementwise exT exT exT).get_item .debug (ix 1 2 1) = .ok 121 ∧
    (Tensor.scale exT 3 exT).get_item .debug (ix 1 2 1) = .ok 33 ∧
    Tensor.add_to_self exT (zeros ⟨3, 2, 2⟩) = exT := ⟨rfl, rfl, rfl, rfl⟩

/-! ## C09 -/

/-- C09: a list no longer than the source with all indices inside the target. -/
theorem C09_scatter_ok (b : Build) (t1 t2 : Tensor F) (h1 : t1.WF) (h2 : t2.WF)
    (l : List UInt32) (hl : l.length ≤ t1.shape.count) (hi : ∀ p ∈ l, p.toNat < t2.shape.count) :
    ∃ t', Tensor.add_from_index_list b t1 t2 l = .ok (.ok (), t') ∧ t'.WF ∧ t'.shape = t2.shape ∧
      ∀ p, p < t2.shape.count →
        t'.data[p]?.getD zero = scatter t1.data t2.data l.zipIdx p := by
  have hn : (UInt32.ofNat t2.shape.count).toNat = t2.data.length := by
    rw [toNat_ofNat_lt h2.fits.2, h2.len]
  obtain ⟨t', r1, r2, r3, r4, r5⟩ := scatter_loop t1 t2 _ hn l.zipIdx
    (by
      rintro ⟨p, n⟩ he
      rw [h2.len]
      exact hi p (List.fst_mem_of_mem_zipIdx he))
    (by
      rintro ⟨p, n⟩ he
      have := (List.mem_zipIdx he).2.1
      rw [h1.len]
      simp only
      omega)
  refine ⟨t', ?_, ?_, r3, fun p hp => r5 p (by rw [h2.len]; exact hp)⟩
  · unfold Tensor.add_from_index_list
    rw [total_size_ok h1.fits, ok_bind, toNat_ofNat_lt h1.fits.2, if_neg (by omega),
      total_size_ok h2.fits, ok_bind]
    exact r1
  · have := wf_data h2 t'.data r4
    obtain ⟨a, b', c⟩ := t'
    simp only at r2 r3 this
    rw [r2, r3]
    exact this

/-- C09: a list longer than the source is rejected and nothing changes. -/
theorem C09_too_long (b : Build) (t1 t2 : Tensor F) (h1 : t1.WF) (l : List UInt32)
    (hl : t1.shape.count < l.length) :
    ∃ e, Tensor.add_from_index_list b t1 t2 l = .ok (.error e, t2) := by
  unfold Tensor.add_from_index_list
  rw [total_size_ok h1.fits, ok_bind, toNat_ofNat_lt h1.fits.2, if_pos (by omega)]
  exact ⟨_, rfl⟩

/-- C09: an index outside the target is rejected; exactly the entries before it have been applied. -/
theorem C09_bad_index (b : Build) (t1 t2 : Tensor F) (h1 : t1.WF) (h2 : t2.WF)
    (pre : List UInt32) (bad : UInt32) (post : List UInt32)
    (hl : (pre ++ bad :: post).length ≤ t1.shape.count)
    (hi : ∀ p ∈ pre, p.toNat < t2.shape.count) (hbad : t2.shape.count ≤ bad.toNat) :
    ∃ e t', Tensor.add_from_index_list b t1 t2 (pre ++ bad :: post) = .ok (.error e, t') ∧
      t'.WF ∧ t'.shape = t2.shape ∧
      ∀ p, p < t2.shape.count →
        t'.data[p]?.getD zero = scatter t1.data t2.data pre.zipIdx p := by
  have hn : (UInt32.ofNat t2.shape.count).toNat = t2.data.length := by
    rw [toNat_ofNat_lt h2.fits.2, h2.len]
  have hl' : pre.length ≤ t1.shape.count := by
    rw [List.length_append] at hl; omega
  obtain ⟨t', r1, r2, r3, r4, r5⟩ := scatter_loop t1 t2 _ hn pre.zipIdx
    (by
      rintro ⟨p, n⟩ he
      rw [h2.len]
      exact hi p (List.fst_mem_of_mem_zipIdx he))
    (by
      rintro ⟨p, n⟩ he
      have := (List.mem_zipIdx he).2.1
      rw [h1.len]
      simp only
      omega)
  refine ⟨"Tensor 2 index out of bounds", t', ?_, ?_, r3,
    fun p hp => r5 p (by rw [h2.len]; exact hp)⟩
  · unfold Tensor.add_from_index_list
    rw [total_size_ok h1.fits, ok_bind, toNat_ofNat_lt h1.fits.2, if_neg (by omega),
      total_size_ok h2.fits, ok_bind, List.zipIdx_append, forListE_append _ _ _ _ _ r1,
      List.zipIdx_cons]
    unfold forListE
    simp only
    rw [if_pos (by rw [ge_iff_le, UInt32.le_iff_toNat_le, hn, h2.len]; exact hbad)]
    rfl
  · have := wf_data h2 t'.data r4
    obtain ⟨a, b', c⟩ := t'
    simp only at r2 r3 this
    rw [r2, r3]
    exact this

open Toy in
example : ∃ t', Tensor.add_from_index_list .debug exT exT [3, 0, 3] = .ok (.ok (), t') ∧
    t'.data = [1, 1, 2, 5, 4, 5, 6, 7, 8, 9, 10, 11] := ⟨_, rfl, rfl⟩

open Toy in
example : ∃ e t', Tensor.add_from_index_list .debug exT exT [3, 0, 12, 3] = .ok (.error e, t') ∧
    t'.data = [1, 1, 2, 3, 4, 5, 6, 7, 8, 9, 10, 11] := ⟨_, _, rfl, rfl⟩

/-! ## C14 -/

/-- C14: `relu_self_and_store_mask`. -/
theorem C14_relu_mask (b : Build) (t m : Tensor F) (h : t.WF) (hm : m.WF) :
    (t.shape = m.shape →
      ∃ t' m', Tensor.relu_self_and_store_mask t m = (.ok (), t', m') ∧ t'.WF ∧ m'.WF ∧
        t'.shape = t.shape ∧ m'.shape = t.shape ∧
        ∀ i j k, t.shape.Inside i j k →
          (gt (val t i j k) zero = true →
            t'.get_item b (ix i j k) = .ok (val t i j k) ∧ m'.get_item b (ix i j k) = .ok one) ∧
          (gt (val t i j k) zero = false →
            t'.get_item b (ix i j k) = .ok zero ∧ m'.get_item b (ix i j k) = .ok zero)) ∧
    (t.shape ≠ m.shape →
      ∃ e, Tensor.relu_self_and_store_mask t m = (.error e, t, m)) := by
  constructor
  · intro hs
    obtain ⟨t', m', r1, r2, r3, r4, r5, r6⟩ := relu_mask_ok h hm hs
    refine ⟨t', m', r1, r2, r3, r4, r5.trans hs.symm, ?_⟩
    intro i j k hin
    obtain ⟨v1, v2⟩ := r6 i j k hin
    rw [get_item_ok r2 (by rw [r4]; exact hin), get_item_ok r3 (by rw [r5, ← hs]; exact hin), v1,
      v2]
    unfold relu step
    constructor <;> intro hg <;> simp [hg]
  · intro hs
    unfold Tensor.relu_self_and_store_mask
    rw [if_pos hs]
    exact ⟨_, rfl⟩

open Toy in
example : ∃ t' m',
    Tensor.relu_self_and_store_mask (⟨⟨1, 2, 4⟩, ⟨2, 2, 1⟩, [-1, 2, 0, 3]⟩ : Tensor Int)
      ⟨⟨1, 2, 4⟩, ⟨2, 2, 1⟩, [9, 9, 9, 9]⟩ = (.ok (), t', m') ∧
    t'.data = [0, 2, 0, 3] ∧ m'.data = [0, 1, 0, 1] := ⟨_, _, rfl, rfl, rfl⟩

end Rusty
