import Verif.Lemmas.Matrix
import Verif.Lemmas.Order
import Verif.Props.TensorAccess

/-! # C10-C13: transposes and matrix products -/

namespace Rusty

open F32Ops Spec

variable {F : Type} [F32Ops F]

/-! ## C10 -/

/-- C10: `transpose_ij` succeeds exactly on swapped shapes and swaps the first two coordinates. -/
theorem C10_transpose (b : Build) (input output : Tensor F) (hi : input.WF) (ho : output.WF) :
    (output.shape.di = input.shape.dj ∧ output.shape.dj = input.shape.di ∧
        output.shape.dk = input.shape.dk →
      ∃ o', Tensor.transpose_ij b input output = .ok (.ok (), o') ∧ o'.WF ∧
        o'.shape = output.shape ∧
        ∀ i j k, output.shape.Inside i j k →
          o'.get_item b (ix i j k) = .ok (val input j i k) ∧
          input.get_item b (ix j i k) = .ok (val input j i k)) ∧
    (¬ (output.shape.di = input.shape.dj ∧ output.shape.dj = input.shape.di ∧
        output.shape.dk = input.shape.dk) →
      ∃ e, Tensor.transpose_ij b input output = .ok (.error e, output)) := by
  constructor
  · rintro ⟨h1, h2, h3⟩
    obtain ⟨o', r1, r2, r3, r4⟩ := transpose_ok (b := b) hi ho h3.symm h2.symm h1.symm
    refine ⟨o', r1, r2, r3, fun i j k hin => ⟨?_, ?_⟩⟩
    · rw [get_item_ok r2 (by rw [r3]; exact hin), r4 i j k hin]
    · exact get_item_ok hi ⟨by rw [← h2]; exact hin.2.1, by rw [← h1]; exact hin.1,
        by rw [← h3]; exact hin.2.2⟩
  · intro h
    unfold Tensor.transpose_ij
    simp only
    split
    · exact ⟨_, rfl⟩
    · split
      · exact ⟨_, rfl⟩
      · split
        · exact ⟨_, rfl⟩
        · rename_i h1 h2 h3
          exfalso
          simp only [ne_eq, not_not] at h1 h2 h3
          exact h ⟨h3.symm, h2.symm, h1.symm⟩

/-- C10: transposing back reproduces the input exactly. -/
theorem C10_involution (b : Build) (input mid back mid' back' : Tensor F) (hi : input.WF)
    (hm : mid.WF) (hb : back.WF)
    (h1 : Tensor.transpose_ij b input mid = .ok (.ok (), mid'))
    (h2 : Tensor.transpose_ij b mid' back = .ok (.ok (), back')) : back' = input := by
  have s1 : mid.shape.di = input.shape.dj ∧ mid.shape.dj = input.shape.di ∧
      mid.shape.dk = input.shape.dk := by
    by_contra hne
    obtain ⟨e, he⟩ := (C10_transpose b input mid hi hm).2 hne
    rw [he] at h1
    injection h1 with h1; injection h1 with h1; cases h1
  obtain ⟨m, q1, q2, q3, q4⟩ := transpose_ok (b := b) hi hm s1.2.2.symm s1.2.1.symm s1.1.symm
  rw [q1] at h1
  injection h1 with h1; injection h1 with _ h1
  subst h1
  have s2 : back.shape.di = m.shape.dj ∧ back.shape.dj = m.shape.di ∧
      back.shape.dk = m.shape.dk := by
    by_contra hne
    obtain ⟨e, he⟩ := (C10_transpose b m back q2 hb).2 hne
    rw [he] at h2
    injection h2 with h2; injection h2 with h2; cases h2
  obtain ⟨o, p1, p2, p3, p4⟩ := transpose_ok (b := b) q2 hb s2.2.2.symm s2.2.1.symm s2.1.symm
  rw [p1] at h2
  injection h2 with h2; injection h2 with _ h2
  subst h2
  have hshape : back.shape = input.shape := by
    cases hbs : back.shape
    cases his : input.shape
    rw [hbs, q3] at s2
    rw [his] at s1
    simp only at s1 s2
    rw [s2.1, s2.2.1, s2.2.2, s1.1, s1.2.1, s1.2.2]
  apply tensor_ext p2 hi (p3.trans hshape)
  intro i j k hin
  rw [p3] at hin
  rw [p4 i j k hin, q4 j i k]
  rw [hshape] at hin
  exact ⟨by rw [s1.1]; exact hin.2.1, by rw [s1.2.1]; exact hin.1, by rw [s1.2.2]; exact hin.2.2⟩

open Toy in
example : ∃ o', Tensor.transpose_ij .debug exT (zeros ⟨3, 2, 2⟩ : Tensor Int) = .ok (.ok (), o') ∧
    o'.data = [0, 2, 4, 1, 3, 5, 6, 8, 10, 7, 9, 11] ∧
    Tensor.transpose_ij .debug o' (zeros ⟨2, 3, 2⟩) = .ok (.ok (), exT) := ⟨_, rfl, rfl, rfl⟩

/-! ## C11 -/

/-- C11: `matrix_multiply` computes the batched matrix product. -/
theorem C11_matrix_multiply (b : Build) (t1 t2 r : Tensor F) (h1 : t1.WF) (h2 : t2.WF)
    (hr : r.WF) :
    (mmShapes t1.shape t2.shape r.shape →
      ∃ r', Tensor.matrix_multiply b t1 t2 r = .ok r' ∧ r'.WF ∧ r'.shape = r.shape ∧
        ∀ i j k, r.shape.Inside i j k → r'.get_item b (ix i j k) =
          .ok (sum ((List.range t1.shape.dj.toNat).map
            fun l => mul (val t1 i l k) (val t2 l j k)))) ∧
    (¬ mmShapes t1.shape t2.shape r.shape → Tensor.matrix_multiply b t1 t2 r = .ok r) := by
  rw [mmShapes_iff]
  constructor
  · intro hc
    obtain ⟨r', q1, q2, q3, q4⟩ := matmul_ok (b := b) h1 h2 hr hc
    exact ⟨r', q1, q2, q3, fun i j k hin => by
      rw [get_item_ok q2 (by rw [q3]; exact hin), q4 i j k hin]⟩
  · intro hc
    unfold Tensor.matrix_multiply
    simp only
    rw [if_neg hc]; rfl

/-- a 3x2x2 example tensor -/
def exU : Tensor Int := ⟨⟨1, 3, 6⟩, ⟨3, 2, 2⟩, [1, 2, 3, 4, 5, 6, 7, 8, 9, 10, 11, 12]⟩

theorem exU_wf : exU.WF := ⟨by decide, rfl, rfl, rfl, rfl⟩

open Toy in
example : mmShapes exT.shape exU.shape ⟨2, 2, 2⟩ ∧
    ∃ r', Tensor.matrix_multiply .debug exT exU (zeros ⟨2, 2, 2⟩) = .ok r' ∧
      r'.data = [16, 22, 34, 49, 196, 220, 268, 301] :=
  ⟨⟨rfl, rfl, rfl, rfl, rfl⟩, _, rfl, rfl⟩

/-! ## C12 -/

/-- C12: `matrix_multiply_transpose_first` is transpose then multiply, bit for bit, and it errs with
the result unchanged exactly when the shapes do not admit the product. -/
theorem C12_transpose_first (b : Build) (t1 t2 r tmp : Tensor F) (h1 : t1.WF) (h2 : t2.WF)
    (hr : r.WF) (ht : tmp.WF) (hts : tmp.shape = t1.shape.transpose_ij) :
    (mmShapes t1.shape.transpose_ij t2.shape r.shape →
      ∃ t1T r', Tensor.transpose_ij b t1 tmp = .ok (.ok (), t1T) ∧
        Tensor.matrix_multiply b t1T t2 r = .ok r' ∧
        Tensor.matrix_multiply_transpose_first b t1 t2 r = .ok (.ok (), r') ∧
        r'.WF ∧ r'.shape = r.shape ∧
        ∀ i j k, r.shape.Inside i j k → r'.get_item b (ix i j k) =
          .ok (sum ((List.range t1.shape.di.toNat).map
            fun l => mul (val t1 l i k) (val t2 l j k)))) ∧
    (¬ mmShapes t1.shape.transpose_ij t2.shape r.shape →
      ∃ e, Tensor.matrix_multiply_transpose_first b t1 t2 r = .ok (.error e, r)) := by
  rw [mmShapes_iff]
  constructor
  · intro hc
    obtain ⟨o, o1, o2, o3, o4⟩ := transpose_ok (b := b) h1 ht (by rw [hts]; rfl) (by rw [hts]; rfl)
      (by rw [hts]; rfl)
    obtain ⟨r1, q1, q2, q3, q4⟩ := matmul_tf_ok (b := b) h1 h2 hr hc
    obtain ⟨r2, p1, p2, p3, p4⟩ := matmul_ok (b := b) o2 h2 hr (by rw [o3, hts]; exact hc)
    obtain ⟨c1, c2, c3, c4, c5⟩ := (check_mm_iff _ _ _).mp hc
    have e : r2 = r1 := by
      apply tensor_ext p2 q2 (p3.trans q3.symm)
      intro i j k hin
      rw [p3] at hin
      rw [p4 i j k hin, q4 i j k hin, o3, hts]
      congr 1
      apply List.map_congr_left
      intro l hl
      rw [o4 i l k]
      rw [hts]
      exact ⟨by rw [c4]; exact hin.1, List.mem_range.mp hl, by rw [c2]; exact hin.2.2⟩
    subst e
    exact ⟨o, r2, o1, p1, q1, q2, q3, fun i j k hin => by
      rw [get_item_ok q2 (by rw [q3]; exact hin), q4 i j k hin]⟩
  · intro hc
    unfold Tensor.matrix_multiply_transpose_first
    simp only
    rw [if_pos hc]
    exact ⟨_, rfl⟩

/-- C12: `matrix_multiply_transpose_second` likewise. -/
theorem C12_transpose_second (b : Build) (t1 t2 r tmp : Tensor F) (h1 : t1.WF) (h2 : t2.WF)
    (hr : r.WF) (ht : tmp.WF) (hts : tmp.shape = t2.shape.transpose_ij) :
    (mmShapes t1.shape t2.shape.transpose_ij r.shape →
      ∃ t2T r', Tensor.transpose_ij b t2 tmp = .ok (.ok (), t2T) ∧
        Tensor.matrix_multiply b t1 t2T r = .ok r' ∧
        Tensor.matrix_multiply_transpose_second b t1 t2 r = .ok (.ok (), r') ∧
        r'.WF ∧ r'.shape = r.shape ∧
        ∀ i j k, r.shape.Inside i j k → r'.get_item b (ix i j k) =
          .ok (sum ((List.range t1.shape.dj.toNat).map
            fun l => mul (val t1 i l k) (val t2 j l k)))) ∧
    (¬ mmShapes t1.shape t2.shape.transpose_ij r.shape →
      ∃ e, Tensor.matrix_multiply_transpose_second b t1 t2 r = .ok (.error e, r)) := by
  rw [mmShapes_iff]
  constructor
  · intro hc
    obtain ⟨o, o1, o2, o3, o4⟩ := transpose_ok (b := b) h2 ht (by rw [hts]; rfl) (by rw [hts]; rfl)
      (by rw [hts]; rfl)
    obtain ⟨r1, q1, q2, q3, q4⟩ := matmul_ts_ok (b := b) h1 h2 hr hc
    obtain ⟨r2, p1, p2, p3, p4⟩ := matmul_ok (b := b) h1 o2 hr (by rw [o3, hts]; exact hc)
    obtain ⟨c1, c2, c3, c4, c5⟩ := (check_mm_iff _ _ _).mp hc
    have e : r2 = r1 := by
      apply tensor_ext p2 q2 (p3.trans q3.symm)
      intro i j k hin
      rw [p3] at hin
      rw [p4 i j k hin, q4 i j k hin]
      congr 1
      apply List.map_congr_left
      intro l hl
      rw [o4 l j k]
      rw [hts]
      exact ⟨by rw [← c3]; exact List.mem_range.mp hl, by rw [c5]; exact hin.2.1,
        by rw [← c1, c2]; exact hin.2.2⟩
    subst e
    exact ⟨o, r2, o1, p1, q1, q2, q3, fun i j k hin => by
      rw [get_item_ok q2 (by rw [q3]; exact hin), q4 i j k hin]⟩
  · intro hc
    unfold Tensor.matrix_multiply_transpose_second
    simp only
    rw [if_pos hc]
    exact ⟨_, rfl⟩

open Toy in
example : mmShapes exT.shape.transpose_ij exT.shape ⟨3, 3, 2⟩ ∧
    ∃ r', Tensor.matrix_multiply_transpose_first .debug exT exT (zeros ⟨3, 3, 2⟩) =
        .ok (.ok (), r') ∧ r'.data.take 9 = [1, 3, 5, 3, 13, 23, 5, 23, 41] :=
  ⟨⟨rfl, rfl, rfl, rfl, rfl⟩, _, rfl, rfl⟩

open Toy in
example : mmShapes exT.shape exT.shape.transpose_ij ⟨2, 2, 2⟩ ∧
    ∃ r', Tensor.matrix_multiply_transpose_second .debug exT exT (zeros ⟨2, 2, 2⟩) =
        .ok (.ok (), r') ∧ r'.data.take 4 = [20, 26, 26, 35] :=
  ⟨⟨rfl, rfl, rfl, rfl, rfl⟩, _, rfl, rfl⟩

/-! ## C13 -/

/-- C13: what the fused kernel writes, for any float semantics. -/
theorem C13_fused (b : Build) (input weights bias r : Tensor F) (h1 : input.WF) (h2 : weights.WF)
    (hb : bias.WF) (hr : r.WF) :
    (mmShapes weights.shape input.shape r.shape ∧ bias.shape = r.shape →
      ∃ r', Tensor.matrix_multiply_add_relu b input weights bias r = .ok r' ∧ r'.WF ∧
        r'.shape = r.shape ∧
        ∀ i j k, r.shape.Inside i j k → r'.get_item b (ix i j k) =
          .ok (fmax (add (sum ((List.range weights.shape.dj.toNat).map
            fun l => mul (val weights i l k) (val input l j k))) (val bias i j k)) zero)) ∧
    (¬ (mmShapes weights.shape input.shape r.shape ∧ bias.shape = r.shape) →
      Tensor.matrix_multiply_add_relu b input weights bias r = .ok r) := by
  rw [mmShapes_iff]
  constructor
  · rintro ⟨hc, hbs⟩
    obtain ⟨r', q1, q2, q3, q4⟩ := matmul_add_relu_ok (b := b) h1 h2 hb hr hc hbs
    exact ⟨r', q1, q2, q3, fun i j k hin => by
      rw [get_item_ok q2 (by rw [q3]; exact hin), q4 i j k hin]⟩
  · intro h
    unfold Tensor.matrix_multiply_add_relu
    split
    · rename_i hc
      rw [if_neg (fun hbs => h ⟨hc, hbs⟩)]; rfl
    · rfl

/-- C13: the fused kernel leaves exactly what `matrix_multiply`, `add_to_self` and
`relu_self_and_store_mask` leave in sequence, whenever `max(x,0)` is `x` for `x > 0` and `0`
otherwise on sums that start from zero (so in `f32`, see `ieeeMaxZero`). -/
theorem C13_fused_eq_stepwise [MaxZero F] (b : Build) (input weights bias r mask : Tensor F) (h1 : input.WF) (h2 : weights.WF)
    (hb : bias.WF) (hr : r.WF) (hm : mask.WF)
    (hs : mmShapes weights.shape input.shape r.shape) (hbs : bias.shape = r.shape)
    (hms : mask.shape = r.shape) :
    ∃ r1 r2 mask', Tensor.matrix_multiply b weights input r = .ok r1 ∧
      Tensor.relu_self_and_store_mask (Tensor.add_to_self r1 bias) mask = (.ok (), r2, mask') ∧
      Tensor.matrix_multiply_add_relu b input weights bias r = .ok r2 := by
  rw [mmShapes_iff] at hs
  obtain ⟨r1, q1, q2, q3, q4⟩ := matmul_ok (b := b) h2 h1 hr hs
  obtain ⟨w, s, v⟩ := add_to_self_ok q2 hb (q3.trans hbs.symm)
  obtain ⟨t', m', p1, p2, p3, p4, p5, p6⟩ := relu_mask_ok w hm (by rw [s, q3, hms])
  obtain ⟨r', f1, f2, f3, f4⟩ := matmul_add_relu_ok (b := b) h1 h2 hb hr hs hbs
  refine ⟨r1, t', m', q1, p1, ?_⟩
  rw [f1]
  congr 1
  apply tensor_ext f2 p2 (by rw [f3, p4, s, q3])
  intro i j k hin
  rw [f3] at hin
  have hin1 : r1.shape.Inside i j k := by rw [q3]; exact hin
  rw [f4 i j k hin, (p6 i j k (by rw [s]; exact hin1)).1, v i j k hin1, q4 i j k hin,
    MaxZero.fmax_zero _ (.add _ _ (summed_sum _))]
  rfl

open Toy in
example : ∃ r', Tensor.matrix_multiply_add_relu .debug exU exT
      (⟨⟨1, 2, 4⟩, ⟨2, 2, 2⟩, [-20, 1, 1, 1, 1, 1, 1, -1000]⟩) (zeros ⟨2, 2, 2⟩) = .ok r' ∧
      r'.data = [0, 23, 35, 50, 197, 221, 269, 0] := ⟨_, rfl, rfl⟩

end Rusty
