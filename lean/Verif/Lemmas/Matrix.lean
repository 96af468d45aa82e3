import Verif.Lemmas.Elementwise

set_option linter.unusedSectionVars false

/-! # Helper lemmas: transposes and matrix products -/

namespace Rusty

open F32Ops Spec

variable {F : Type} [F32Ops F]

theorem check_mm_iff (s1 s2 sr : TensorShape) :
    Tensor.check_matrix_multiply_dimensions s1 s2 sr = true ↔
      s1.dk = s2.dk ∧ s1.dk = sr.dk ∧ s1.dj = s2.di ∧ s1.di = sr.di ∧ s2.dj = sr.dj := by
  unfold Tensor.check_matrix_multiply_dimensions
  split
  · simp; tauto
  · split
    · simp; tauto
    · simp; tauto

theorem transpose_ok {b : Build} {input output : Tensor F} (hi : input.WF) (ho : output.WF)
    (h1 : input.shape.dk = output.shape.dk) (h2 : input.shape.di = output.shape.dj)
    (h3 : input.shape.dj = output.shape.di) :
    ∃ o', Tensor.transpose_ij b input output = .ok (.ok (), o') ∧ o'.WF ∧
      o'.shape = output.shape ∧
      ∀ i j k, output.shape.Inside i j k → val o' i j k = val input j i k := by
  obtain ⟨o', r1, r2, r3, r4⟩ := loop3_write (b := b) output ho (fun i j k => val input j i k)
    (fun k j i out => do
      let v ← input.read b ⟨j, i, k⟩
      out.write b ⟨i, j, k⟩ v)
    (by
      intro i j k hin t _ _
      have h := read_ok (b := b) hi (i := j) (j := i) (k := k)
        ⟨by rw [h2]; exact hin.2.1, by rw [h3]; exact hin.1, by rw [h1]; exact hin.2.2⟩
      unfold ix at h
      rw [h, ok_bind]
      rfl)
  refine ⟨o', ?_, r2, r3, r4⟩
  unfold Tensor.transpose_ij
  simp only
  rw [if_neg (by simpa using h1), if_neg (by simpa using h2), if_neg (by simpa using h3), r1]
  rfl

theorem matmul_ok {b : Build} {t1 t2 r : Tensor F} (h1 : t1.WF) (h2 : t2.WF) (hr : r.WF)
    (hc : Tensor.check_matrix_multiply_dimensions t1.shape t2.shape r.shape = true) :
    ∃ r', Tensor.matrix_multiply b t1 t2 r = .ok r' ∧ r'.WF ∧ r'.shape = r.shape ∧
      ∀ i j k, r.shape.Inside i j k →
        val r' i j k = sum ((List.range t1.shape.dj.toNat).map
          fun l => mul (val t1 i l k) (val t2 l j k)) := by
  obtain ⟨c1, c2, c3, c4, c5⟩ := (check_mm_iff _ _ _).mp hc
  obtain ⟨r', q1, q2, q3, q4⟩ := loop3_write (b := b) r hr
    (fun i j k => sum ((List.range t1.shape.dj.toNat).map
          fun l => mul (val t1 i l k) (val t2 l j k)))
    (fun k j i r => do
      let acc ← forRange 0 t1.shape.dj (zero : F) fun ii acc => do
        let x ← t1.read b ⟨i, ii, k⟩
        let y ← t2.read b ⟨ii, j, k⟩
        pure (F32Ops.add acc (mul x y))
      r.write b ⟨i, j, k⟩ acc)
    (by
      intro i j k hin t _ _
      rw [forRange_fold _ _ _ F32Ops.add (fun l => mul (val t1 i l k) (val t2 l j k))]
      · rfl
      · intro l hl acc
        have e1 := read_ok (b := b) h1 (i := i) (j := l) (k := k)
          ⟨by rw [c4]; exact hin.1, hl, by rw [c2]; exact hin.2.2⟩
        have e2 := read_ok (b := b) h2 (i := l) (j := j) (k := k)
          ⟨by rw [← c3]; exact hl, by rw [c5]; exact hin.2.1, by rw [← c1, c2]; exact hin.2.2⟩
        unfold ix at e1 e2
        rw [e1, ok_bind, e2, ok_bind]
        rfl)
  refine ⟨r', ?_, q2, q3, q4⟩
  unfold Tensor.matrix_multiply
  simp only
  rw [if_pos hc, q1]

theorem matmul_tf_ok {b : Build} {t1 t2 r : Tensor F} (h1 : t1.WF) (h2 : t2.WF) (hr : r.WF)
    (hc : Tensor.check_matrix_multiply_dimensions t1.shape.transpose_ij t2.shape r.shape = true) :
    ∃ r', Tensor.matrix_multiply_transpose_first b t1 t2 r = .ok (.ok (), r') ∧ r'.WF ∧
      r'.shape = r.shape ∧
      ∀ i j k, r.shape.Inside i j k →
        val r' i j k = sum ((List.range t1.shape.di.toNat).map
          fun l => mul (val t1 l i k) (val t2 l j k)) := by
  obtain ⟨c1, c2, c3, c4, c5⟩ := (check_mm_iff _ _ _).mp hc
  simp only [TensorShape.transpose_ij] at c1 c2 c3 c4 c5
  obtain ⟨r', q1, q2, q3, q4⟩ := loop3_write (b := b) r hr
    (fun i j k => sum ((List.range t1.shape.di.toNat).map
          fun l => mul (val t1 l i k) (val t2 l j k)))
    (fun k j i r => do
      let acc ← forRange 0 t1.shape.di (zero : F) fun ii acc => do
        let x ← t1.read b ⟨ii, i, k⟩
        let y ← t2.read b ⟨ii, j, k⟩
        pure (F32Ops.add acc (mul x y))
      r.write b ⟨i, j, k⟩ acc)
    (by
      intro i j k hin t _ _
      rw [forRange_fold _ _ _ F32Ops.add (fun l => mul (val t1 l i k) (val t2 l j k))]
      · rfl
      · intro l hl acc
        have e1 := read_ok (b := b) h1 (i := l) (j := i) (k := k)
          ⟨hl, by rw [c4]; exact hin.1, by rw [c2]; exact hin.2.2⟩
        have e2 := read_ok (b := b) h2 (i := l) (j := j) (k := k)
          ⟨by rw [← c3]; exact hl, by rw [c5]; exact hin.2.1, by rw [← c1, c2]; exact hin.2.2⟩
        unfold ix at e1 e2
        rw [e1, ok_bind, e2, ok_bind]
        rfl)
  refine ⟨r', ?_, q2, q3, q4⟩
  unfold Tensor.matrix_multiply_transpose_first
  simp only
  rw [if_neg (by simpa using hc), q1]
  rfl

theorem matmul_ts_ok {b : Build} {t1 t2 r : Tensor F} (h1 : t1.WF) (h2 : t2.WF) (hr : r.WF)
    (hc : Tensor.check_matrix_multiply_dimensions t1.shape t2.shape.transpose_ij r.shape = true) :
    ∃ r', Tensor.matrix_multiply_transpose_second b t1 t2 r = .ok (.ok (), r') ∧ r'.WF ∧
      r'.shape = r.shape ∧
      ∀ i j k, r.shape.Inside i j k →
        val r' i j k = sum ((List.range t1.shape.dj.toNat).map
          fun l => mul (val t1 i l k) (val t2 j l k)) := by
  obtain ⟨c1, c2, c3, c4, c5⟩ := (check_mm_iff _ _ _).mp hc
  simp only [TensorShape.transpose_ij] at c1 c2 c3 c4 c5
  obtain ⟨r', q1, q2, q3, q4⟩ := loop3_write (b := b) r hr
    (fun i j k => sum ((List.range t1.shape.dj.toNat).map
          fun l => mul (val t1 i l k) (val t2 j l k)))
    (fun k j i r => do
      let acc ← forRange 0 t1.shape.dj (zero : F) fun ii acc => do
        let x ← t1.read b ⟨i, ii, k⟩
        let y ← t2.read b ⟨j, ii, k⟩
        pure (F32Ops.add acc (mul x y))
      r.write b ⟨i, j, k⟩ acc)
    (by
      intro i j k hin t _ _
      rw [forRange_fold _ _ _ F32Ops.add (fun l => mul (val t1 i l k) (val t2 j l k))]
      · rfl
      · intro l hl acc
        have e1 := read_ok (b := b) h1 (i := i) (j := l) (k := k)
          ⟨by rw [c4]; exact hin.1, hl, by rw [c2]; exact hin.2.2⟩
        have e2 := read_ok (b := b) h2 (i := j) (j := l) (k := k)
          ⟨by rw [c5]; exact hin.2.1, by rw [← c3]; exact hl, by rw [← c1, c2]; exact hin.2.2⟩
        unfold ix at e1 e2
        rw [e1, ok_bind, e2, ok_bind]
        rfl)
  refine ⟨r', ?_, q2, q3, q4⟩
  unfold Tensor.matrix_multiply_transpose_second
  simp only
  rw [if_neg (by simpa using hc), q1]
  rfl

theorem matmul_add_relu_ok {b : Build} {input weights bias r : Tensor F} (h1 : input.WF)
    (h2 : weights.WF) (hb : bias.WF) (hr : r.WF)
    (hc : Tensor.check_matrix_multiply_dimensions weights.shape input.shape r.shape = true)
    (hbs : bias.shape = r.shape) :
    ∃ r', Tensor.matrix_multiply_add_relu b input weights bias r = .ok r' ∧ r'.WF ∧
      r'.shape = r.shape ∧
      ∀ i j k, r.shape.Inside i j k →
        val r' i j k = fmax (add (sum ((List.range weights.shape.dj.toNat).map
          fun l => mul (val weights i l k) (val input l j k))) (val bias i j k)) zero := by
  obtain ⟨c1, c2, c3, c4, c5⟩ := (check_mm_iff _ _ _).mp hc
  obtain ⟨r', q1, q2, q3, q4⟩ := loop3_write (b := b) r hr
    (fun i j k => fmax (add (sum ((List.range weights.shape.dj.toNat).map
          fun l => mul (val weights i l k) (val input l j k))) (val bias i j k)) zero)
    (fun k j i r => do
      let acc ← forRange 0 weights.shape.dj (zero : F) fun ii acc => do
        let x ← weights.read b ⟨i, ii, k⟩
        let y ← input.read b ⟨ii, j, k⟩
        pure (F32Ops.add acc (mul x y))
      let bv ← bias.read b ⟨i, j, k⟩
      let acc := F32Ops.add acc bv
      let acc := fmax acc zero
      r.write b ⟨i, j, k⟩ acc)
    (by
      intro i j k hin t _ _
      rw [forRange_fold _ _ _ F32Ops.add (fun l => mul (val weights i l k) (val input l j k))]
      · have e3 := read_ok (b := b) hb (i := i) (j := j) (k := k) (by rw [hbs]; exact hin)
        unfold ix at e3
        rw [ok_bind, e3, ok_bind]
        rfl
      · intro l hl acc
        have e1 := read_ok (b := b) h2 (i := i) (j := l) (k := k)
          ⟨by rw [c4]; exact hin.1, hl, by rw [c2]; exact hin.2.2⟩
        have e2 := read_ok (b := b) h1 (i := l) (j := j) (k := k)
          ⟨by rw [← c3]; exact hl, by rw [c5]; exact hin.2.1, by rw [← c1, c2]; exact hin.2.2⟩
        unfold ix at e1 e2
        rw [e1, ok_bind, e2, ok_bind]
        rfl)
  refine ⟨r', ?_, q2, q3, q4⟩
  unfold Tensor.matrix_multiply_add_relu
  rw [if_pos hc, if_pos hbs, q1]

/-! ## Elementwise operations in terms of `val` -/

theorem add_to_self_ok {t1 t2 : Tensor F} (h1 : t1.WF) (h2 : t2.WF) (hs : t1.shape = t2.shape) :
    (Tensor.add_to_self t1 t2).WF ∧ (Tensor.add_to_self t1 t2).shape = t1.shape ∧
      ∀ i j k, t1.shape.Inside i j k →
        val (Tensor.add_to_self t1 t2) i j k = add (val t1 i j k) (val t2 i j k) := by
  unfold Tensor.add_to_self
  rw [if_pos hs, zipUpdate_eq _ _ _ (same_len h1 h2 hs)]
  exact ⟨wf_data h1 _ (by simp [same_len h1 h2 hs]), rfl, fun i j k h => val_zipWith h1 h2 hs rfl _ h⟩

theorem mul_self_ok {t1 t2 : Tensor F} (h1 : t1.WF) (h2 : t2.WF) (hs : t1.shape = t2.shape) :
    (Tensor.multiply_elementwise_self t1 t2).WF ∧
      (Tensor.multiply_elementwise_self t1 t2).shape = t1.shape ∧
      ∀ i j k, t1.shape.Inside i j k →
        val (Tensor.multiply_elementwise_self t1 t2) i j k = mul (val t1 i j k) (val t2 i j k) := by
  unfold Tensor.multiply_elementwise_self
  rw [if_pos hs, zipUpdate_eq _ _ _ (same_len h1 h2 hs)]
  exact ⟨wf_data h1 _ (by simp [same_len h1 h2 hs]), rfl, fun i j k h => val_zipWith h1 h2 hs rfl _ h⟩

theorem add_ok {t1 t2 r : Tensor F} (h1 : t1.WF) (h2 : t2.WF) (hr : r.WF)
    (hs : t1.shape = t2.shape) (hs' : t1.shape = r.shape) :
    (Tensor.add t1 t2 r).WF ∧ (Tensor.add t1 t2 r).shape = r.shape ∧
      ∀ i j k, r.shape.Inside i j k →
        val (Tensor.add t1 t2 r) i j k = F32Ops.add (val t1 i j k) (val t2 i j k) := by
  unfold Tensor.add
  rw [if_pos ⟨hs, hs'⟩, zipAssign2_eq _ _ _ _ (same_len hr h1 hs'.symm)
    (same_len hr h2 (hs'.symm.trans hs))]
  exact ⟨wf_data hr _ (by simp [same_len h1 h2 hs, same_len hr h2 (hs'.symm.trans hs)]), rfl,
    fun i j k h => val_zipWith h1 h2 hs hs'.symm _ (by rw [hs']; exact h)⟩

theorem mul_ok {t1 t2 r : Tensor F} (h1 : t1.WF) (h2 : t2.WF) (hr : r.WF)
    (hs : t1.shape = t2.shape) (hs' : t1.shape = r.shape) :
    (Tensor.multiply_elementwise t1 t2 r).WF ∧
      (Tensor.multiply_elementwise t1 t2 r).shape = r.shape ∧
      ∀ i j k, r.shape.Inside i j k →
        val (Tensor.multiply_elementwise t1 t2 r) i j k = mul (val t1 i j k) (val t2 i j k) := by
  unfold Tensor.multiply_elementwise
  rw [if_pos ⟨hs, hs'⟩, zipAssign2_eq _ _ _ _ (same_len hr h1 hs'.symm)
    (same_len hr h2 (hs'.symm.trans hs))]
  exact ⟨wf_data hr _ (by simp [same_len h1 h2 hs, same_len hr h2 (hs'.symm.trans hs)]), rfl,
    fun i j k h => val_zipWith h1 h2 hs hs'.symm _ (by rw [hs']; exact h)⟩

theorem zipUpdate_fst {G : Type} (f : G → F) (rs : List F) (xs : List G)
    (h : rs.length = xs.length) : zipUpdate (fun _ x => f x) rs xs = xs.map f := by
  induction rs generalizing xs with
  | nil =>
    cases xs with
    | nil => rfl
    | cons x xs => simp at h
  | cons r rs ih =>
    cases xs with
    | nil => simp at h
    | cons x xs => simp only [zipUpdate, List.map_cons]; rw [ih xs (by simpa using h)]

theorem scale_ok {t r : Tensor F} (c : F) (h : t.WF) (hr : r.WF) (hs : t.shape = r.shape) :
    (Tensor.scale t c r).WF ∧ (Tensor.scale t c r).shape = r.shape ∧
      ∀ i j k, r.shape.Inside i j k → val (Tensor.scale t c r) i j k = mul (val t i j k) c := by
  unfold Tensor.scale
  rw [if_pos hs, zipUpdate_fst _ _ _ (same_len hr h hs.symm)]
  refine ⟨wf_data hr _ (by simp [same_len hr h hs.symm]), rfl, fun i j k hin => ?_⟩
  have := val_map h (fun op => mul op c) (i := i) (j := j) (k := k) (by rw [hs]; exact hin)
  rw [← this]
  unfold val
  simp only [hs]

theorem scale_self_ok {t : Tensor F} (c : F) (h : t.WF) :
    (Tensor.scale_self t c).WF ∧ (Tensor.scale_self t c).shape = t.shape ∧
      ∀ i j k, t.shape.Inside i j k → val (Tensor.scale_self t c) i j k = mul (val t i j k) c :=
  ⟨wf_data h _ (by simp), rfl, fun _ _ _ hin => val_map h (fun op => mul op c) hin⟩

theorem fill_ok {t : Tensor F} (c : F) (h : t.WF) :
    (Tensor.fill_with_value t c).WF ∧ (Tensor.fill_with_value t c).shape = t.shape ∧
      ∀ i j k, t.shape.Inside i j k → val (Tensor.fill_with_value t c) i j k = c :=
  ⟨wf_data h _ (by simp), rfl, fun _ _ _ hin => val_map h (fun _ => c) hin⟩

theorem relu_mask_ok {t m : Tensor F} (h : t.WF) (hm : m.WF) (hs : t.shape = m.shape) :
    ∃ t' m', Tensor.relu_self_and_store_mask t m = (.ok (), t', m') ∧ t'.WF ∧ m'.WF ∧
      t'.shape = t.shape ∧ m'.shape = m.shape ∧
      ∀ i j k, t.shape.Inside i j k →
        val t' i j k = relu (val t i j k) ∧ val m' i j k = step (val t i j k) := by
  unfold Tensor.relu_self_and_store_mask
  rw [if_neg (by simpa using hs), reluZip_eq _ _ (same_len h hm hs)]
  refine ⟨_, _, rfl, wf_data h _ (by simp), wf_data hm _ (by simp [same_len h hm hs]), rfl, rfl, ?_⟩
  intro i j k hin
  refine ⟨val_map h relu hin, ?_⟩
  have := val_map h step hin
  rw [← this]
  unfold val
  simp only [hs]

theorem mmShapes_iff (s1 s2 sr : TensorShape) :
    mmShapes s1 s2 sr ↔ Tensor.check_matrix_multiply_dimensions s1 s2 sr = true := by
  rw [check_mm_iff]
  unfold mmShapes
  constructor
  · rintro ⟨a, b, c, d, e⟩; exact ⟨d, e.symm, a, b.symm, c.symm⟩
  · rintro ⟨a, b, c, d, e⟩; exact ⟨c, d.symm, e.symm, a, b.symm⟩

theorem transpose_fits {s : TensorShape} (h : s.Fits) : s.transpose_ij.Fits := by
  unfold TensorShape.Fits TensorShape.count at *
  unfold TensorShape.transpose_ij
  simp only
  rw [Nat.mul_comm s.dj.toNat]
  exact h

end Rusty
