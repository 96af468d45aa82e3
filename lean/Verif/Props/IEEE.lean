import Verif.Spec.Layers
import Verif.Lemmas.IEEESoftmax
import Verif.Lemmas.IEEELaws
import Verif.Lemmas.Softmax
import Verif.Props.TensorAccess

/-!
# C25: softmax in IEEE binary32
-/

namespace Rusty

open F32Ops Spec F32

/-! ## C25 -/

/-- C25, part: if the sum of the exponentials, as computed in `f32`, is finite and not zero, softmax
writes numbers between 0 and 1.  Holds for every `exp` that is never negative or NaN on the input. -/
theorem C25_finite_sum_partial [Libm] (b : Build) (x out : Tensor F32) (hx : x.WF) (ho : out.WF)
    (hs : x.shape = out.shape)
    (hexp : ∀ i j k, x.shape.Inside i j k →
      (Libm.exp (val x i j k)).isNaN = false ∧ (Libm.exp (val x i j k)).sign = false)
    (hsum : (Spec.sum (x.data.map exp)).isFinite = true)
    (hpos : 0 < (Spec.sum (x.data.map exp)).code) :
    ∃ y, Tensor.softmax x out = .ok y ∧ y.WF ∧ y.shape = out.shape ∧
      ∀ i j k, out.shape.Inside i j k → ∃ v, y.get_item b (ix i j k) = .ok v ∧ InUnit v := by
  obtain ⟨y, h1, h2, h3, h4⟩ := softmax_ok hx ho hs
  refine ⟨y, h1, h2, h3, fun i j k hin => ⟨_, get_item_ok h2 (h3 ▸ hin), ?_⟩⟩
  rw [h4 i j k hin]
  have hin' : x.shape.Inside i j k := hs ▸ hin
  have e1 : x.data.map exp = x.shape.indices.map fun p => exp (val x p.1 p.2.1 p.2.2) := by
    conv_lhs => rw [data_indices hx]
    rw [List.map_map]
    rfl
  have hall : ∀ e ∈ x.data.map exp, e.sign = false ∧ e.isNaN = false := by
    intro e he
    rw [e1, List.mem_map] at he
    obtain ⟨⟨a, c, d⟩, hm, rfl⟩ := he
    have := hexp a c d (mem_indices.mp hm)
    exact ⟨this.2, this.1⟩
  obtain ⟨g1, _, g3⟩ := sum_ge (x.data.map exp) (mk' false 0) (by decide) hall hsum (by decide)
  unfold softmaxAt
  rw [← e1]
  refine div_unit (hexp i j k hin').2 g1 hsum hpos (g3 _ ?_)
  rw [e1, List.mem_map]
  exact ⟨(i, j, k), mem_indices.mpr hin', rfl⟩

/-- C25, exactly: an entry that softmax writes is a number between 0 and 1 unless its exponential is
infinite or the computed sum of the exponentials is zero; in those two cases it is NaN.  Holds for
every `exp` that is never negative or NaN on the input. -/
theorem C25_exact_partial [Libm] (b : Build) (x out : Tensor F32) (hx : x.WF) (ho : out.WF)
    (hs : x.shape = out.shape)
    (hexp : ∀ i j k, x.shape.Inside i j k →
      (Libm.exp (val x i j k)).isNaN = false ∧ (Libm.exp (val x i j k)).sign = false) :
    ∃ y, Tensor.softmax x out = .ok y ∧ y.WF ∧ y.shape = out.shape ∧
      ∀ i j k, out.shape.Inside i j k → ∃ v, y.get_item b (ix i j k) = .ok v ∧
        if (Libm.exp (val x i j k)).isInf = true ∨ (Spec.sum (x.data.map exp)).code = 0
        then v.isNaN = true else InUnit v := by
  obtain ⟨y, h1, h2, h3, h4⟩ := softmax_ok hx ho hs
  refine ⟨y, h1, h2, h3, fun i j k hin => ⟨_, get_item_ok h2 (h3 ▸ hin), ?_⟩⟩
  rw [h4 i j k hin]
  have hin' : x.shape.Inside i j k := hs ▸ hin
  have hall := exps_nonneg hx hexp
  have hmem := exps_mem hx hin'
  unfold softmaxAt
  rw [← exps_indices hx]
  obtain ⟨s1, s2⟩ := sum_sign (x.data.map exp) (mk' false 0) (by decide) (by decide) hall
  change (Spec.sum (x.data.map exp)).sign = false at s1
  change (Spec.sum (x.data.map exp)).isNaN = false at s2
  obtain ⟨e1, e2⟩ := hexp i j k hin'
  change if _ then (F32.div (Libm.exp (val x i j k)) (Spec.sum (x.data.map exp))).isNaN = true
    else InUnit (F32.div (Libm.exp (val x i j k)) (Spec.sum (x.data.map exp)))
  change Libm.exp (val x i j k) ∈ _ at hmem
  by_cases hf : (Spec.sum (x.data.map exp)).isFinite = true
  · obtain ⟨_, _, g3⟩ := sum_ge (x.data.map exp) (mk' false 0) (by decide) hall hf (by decide)
    have hle : (Libm.exp (val x i j k)).code ≤ (Spec.sum (x.data.map exp)).code := g3 _ hmem
    have hfe : (Libm.exp (val x i j k)).isFinite = true := by
      rw [finite_iff] at hf ⊢; omega
    generalize Libm.exp (val x i j k) = e at *
    generalize Spec.sum (x.data.map exp) = S at *
    by_cases h0 : S.code = 0
    · rw [if_pos (Or.inr h0)]
      unfold F32.div
      rw [e1, s2, finite_inf hfe, finite_inf hf]
      simp only [Bool.or_self, Bool.false_eq_true, if_false, h0, if_true]
      rw [if_pos (by omega)]
      exact nan_isNaN
    · rw [if_neg (by rw [finite_inf hfe]; simp [h0])]
      exact div_unit e2 s1 hf (by omega) hle
  · have hi : (Spec.sum (x.data.map exp)).isInf = true := by
      by_contra hc
      exact hf (isFinite_iff.mpr ⟨s2, by simpa using hc⟩)
    have h0 : (Spec.sum (x.data.map exp)).code ≠ 0 := by
      unfold isInf at hi
      simp only [decide_eq_true_eq] at hi
      rw [hi]
      decide
    generalize Libm.exp (val x i j k) = e at *
    generalize Spec.sum (x.data.map exp) = S at *
    by_cases hie : e.isInf = true
    · rw [if_pos (Or.inl hie)]
      unfold F32.div
      rw [e1, s2, hie, hi]
      simp only [Bool.or_self, Bool.false_eq_true, if_false, if_true]
      exact nan_isNaN
    · rw [if_neg (by simp [hie, h0])]
      have : F32.div e S = mk' false 0 := by
        unfold F32.div
        rw [e1, s2, hi, e2, s1]
        simp [hie]
      rw [this]
      exact inUnit_of (by decide)

/-- C25, part: for every tensor, of any size, whose entries lie between -87 and 71, softmax writes
numbers between 0 and 1 in IEEE arithmetic.  What is missing for the full claim fails, see below. -/
theorem C25_range_partial [Libm] [ExpAccurate] (b : Build) (x out : Tensor F32) (hx : x.WF)
    (ho : out.WF) (hs : x.shape = out.shape)
    (hr : ∀ i j k, x.shape.Inside i j k → (val x i j k).isFinite = true ∧
      -87 ≤ (val x i j k).toReal ∧ (val x i j k).toReal ≤ 71) :
    ∃ y, Tensor.softmax x out = .ok y ∧ y.WF ∧ y.shape = out.shape ∧
      ∀ i j k, out.shape.Inside i j k → ∃ v, y.get_item b (ix i j k) = .ok v ∧ InUnit v := by
  have hd : ∀ e ∈ x.data.map exp, e.sign = false ∧ 0 < e.code ∧ e.code ≤ 230 * 2 ^ 23 := by
    intro e he
    rw [data_indices hx, List.map_map, List.mem_map] at he
    obtain ⟨⟨a, c, d⟩, hm, rfl⟩ := he
    obtain ⟨r1, r2, r3⟩ := hr a c d (mem_indices.mp hm)
    exact exp_range r1 r2 r3
  have hn : ∀ i j k, x.shape.Inside i j k →
      (Libm.exp (val x i j k)).isNaN = false ∧ (Libm.exp (val x i j k)).sign = false :=
    fun i j k h => ExpAccurate.nonneg _ (hr i j k h).1
  have hc : (Spec.sum (x.data.map exp)).code ≤ 254 * 2 ^ 23 :=
    sum_absorbs _ (mk' false 0) (by decide) (by decide) (fun e he => ⟨(hd e he).1, (hd e he).2.2⟩)
  have hf : (Spec.sum (x.data.map exp)).isFinite = true := by
    rw [finite_iff]; unfold infCode; omega
  by_cases hne : x.data = []
  · -- an empty tensor has no entries
    obtain ⟨y, h1, h2, h3, _⟩ := softmax_ok hx ho hs
    refine ⟨y, h1, h2, h3, fun i j k hin => ?_⟩
    exfalso
    have hm : (i, j, k) ∈ x.shape.indices := mem_indices.mpr (hs ▸ hin)
    have hl : x.shape.indices.length = 0 := by
      rw [indices_length, ← hx.len, hne]; rfl
    rw [List.length_eq_zero_iff.mp hl] at hm
    cases hm
  · obtain ⟨a, ha⟩ := List.exists_mem_of_ne_nil _ hne
    have ha' : exp a ∈ x.data.map exp := List.mem_map_of_mem ha
    have hg := (sum_ge (x.data.map exp) (mk' false 0) (by decide)
      (fun e he => ⟨(hd e he).1, by
        have := (hd e he).2.2
        unfold isNaN infCode
        simp only [decide_eq_false_iff_not]
        omega⟩) hf (by decide)).2.2 _ ha'
    exact C25_finite_sum_partial b x out hx ho hs hn hf
      (Nat.lt_of_lt_of_le (hd _ ha').2.1 hg)

/-- `100.0` as `f32` -/
def hundred : F32 := ⟨0x42c80000⟩

/-- `-200.0` as `f32` -/
def minusTwoHundred : F32 := ⟨0xc3480000⟩

/-- a tensor with one entry -/
def single (x : F32) : Tensor F32 := ⟨⟨1, 1, 1⟩, ⟨1, 1, 1⟩, [x]⟩

theorem hundred_toReal : hundred.toReal = 100 := by
  have : hundred.toInt = 100 * 2 ^ 149 := by decide
  unfold toReal
  rw [this]
  norm_num

theorem minusTwoHundred_toReal : minusTwoHundred.toReal = -200 := by
  have : minusTwoHundred.toInt = -200 * 2 ^ 149 := by decide
  unfold toReal
  rw [this]
  norm_num

theorem single_wf [Libm] (x : F32) : (single x).WF :=
  ⟨by change TensorShape.Fits ⟨1, 1, 1⟩; decide, rfl, rfl, rfl, rfl⟩

/-- C25 fails for large entries: softmax of the single entry `100.0` writes NaN (`inf / inf`), with
every accurate `exp`. -/
theorem C25_overflow_negation [Libm] [ExpAccurate] (b : Build) :
    (single hundred).WF ∧ (val (single hundred) 0 0 0).isFinite = true ∧
    ∃ y, Tensor.softmax (single hundred) (single hundred) = .ok y ∧
      ∃ v, y.get_item b (ix 0 0 0) = .ok v ∧ v.isNaN = true := by
  obtain ⟨y, h1, h2, h3, h4⟩ := softmax_ok (single_wf hundred) (single_wf hundred) rfl
  have hin : (single hundred).shape.Inside 0 0 0 := by decide
  refine ⟨single_wf _, by change hundred.isFinite = true; decide, y, h1, _, get_item_ok h2 (h3 ▸ hin), ?_⟩
  rw [h4 0 0 0 hin]
  have hexp : (2 : ℝ) ^ 128 ≤ Real.exp hundred.toReal := by
    rw [hundred_toReal, show (100 : ℝ) = ((100 : ℕ) : ℝ) by norm_num, ← Real.exp_one_pow]
    calc (2 : ℝ) ^ 128 ≤ 2.7182818283 ^ 100 := by norm_num
      _ ≤ _ := pow_le_pow_left₀ (by norm_num) Real.exp_one_gt_d9.le 100
  have hi := ExpAccurate.overflow hundred (by decide) hexp
  obtain ⟨n1, n2⟩ := ExpAccurate.nonneg hundred (by decide)
  have hsum : F32.add (mk' false 0) (Libm.exp hundred) = Libm.exp hundred := by
    unfold F32.add
    rw [n1, hi, show (mk' false 0).isNaN = false by decide, show (mk' false 0).isInf = false by decide]
    simp
  change (F32.div (Libm.exp hundred) (F32.add (mk' false 0) (Libm.exp hundred))).isNaN = true
  rw [hsum]
  unfold F32.div
  rw [n1, hi]
  simp only [Bool.or_self, Bool.false_eq_true, if_false, if_true]
  decide

/-- C25 fails for small entries: softmax of the single entry `-200.0` writes NaN (`0 / 0`), with every
accurate `exp`. -/
theorem C25_underflow_negation [Libm] [ExpAccurate] (b : Build) :
    (single minusTwoHundred).WF ∧ (val (single minusTwoHundred) 0 0 0).isFinite = true ∧
    ∃ y, Tensor.softmax (single minusTwoHundred) (single minusTwoHundred) = .ok y ∧
      ∃ v, y.get_item b (ix 0 0 0) = .ok v ∧ v.isNaN = true := by
  obtain ⟨y, h1, h2, h3, h4⟩ := softmax_ok (single_wf minusTwoHundred) (single_wf minusTwoHundred) rfl
  have hin : (single minusTwoHundred).shape.Inside 0 0 0 := by decide
  refine ⟨single_wf _, by change minusTwoHundred.isFinite = true; decide, y, h1, _, get_item_ok h2 (h3 ▸ hin), ?_⟩
  rw [h4 0 0 0 hin]
  have hexp : Real.exp minusTwoHundred.toReal < 1 / 2 ^ 150 := by
    rw [minusTwoHundred_toReal, show (-200 : ℝ) = -((200 : ℕ) : ℝ) by norm_num, Real.exp_neg,
      ← Real.exp_one_pow, one_div]
    apply inv_strictAnti₀ (by positivity)
    calc (2 : ℝ) ^ 150 < 2.7182818283 ^ 200 := by norm_num
      _ ≤ _ := pow_le_pow_left₀ (by norm_num) Real.exp_one_gt_d9.le 200
  have hz := ExpAccurate.underflow minusTwoHundred (by decide) hexp
  obtain ⟨n1, n2⟩ := ExpAccurate.nonneg minusTwoHundred (by decide)
  have he : Libm.exp minusTwoHundred = mk' false 0 := by
    rw [← mk'_eta (Libm.exp minusTwoHundred), n2, hz]
  change (F32.div (Libm.exp minusTwoHundred)
    (F32.add (mk' false 0) (Libm.exp minusTwoHundred))).isNaN = true
  rw [he]
  decide

/-- C25 fails for every finite tensor with an entry whose exponential is at least `2^128`: softmax
writes NaN there, with every accurate `exp`. -/
theorem C25_large_negation [Libm] [ExpAccurate] (b : Build) (x out : Tensor F32) (hx : x.WF)
    (ho : out.WF) (hs : x.shape = out.shape)
    (hf : ∀ i j k, x.shape.Inside i j k → (val x i j k).isFinite = true) (i j k : Nat)
    (hin : x.shape.Inside i j k) (hbig : 2 ^ 128 ≤ Real.exp (val x i j k).toReal) :
    ∃ y v, Tensor.softmax x out = .ok y ∧ y.get_item b (ix i j k) = .ok v ∧ v.isNaN = true := by
  obtain ⟨y, h1, _, _, h4⟩ := C25_exact_partial b x out hx ho hs
    fun i j k h => ExpAccurate.nonneg _ (hf i j k h)
  obtain ⟨v, e1, e2⟩ := h4 i j k (hs ▸ hin)
  rw [if_pos (Or.inl (ExpAccurate.overflow _ (hf i j k hin) hbig))] at e2
  exact ⟨y, v, h1, e1, e2⟩

/-- C25 fails for every finite tensor all of whose exponentials are less than `2^-150`: softmax writes
NaN everywhere, with every accurate `exp`. -/
theorem C25_small_negation [Libm] [ExpAccurate] (b : Build) (x out : Tensor F32) (hx : x.WF)
    (ho : out.WF) (hs : x.shape = out.shape)
    (hf : ∀ i j k, x.shape.Inside i j k → (val x i j k).isFinite = true ∧
      Real.exp (val x i j k).toReal < 1 / 2 ^ 150) :
    ∃ y, Tensor.softmax x out = .ok y ∧ ∀ i j k, x.shape.Inside i j k →
      ∃ v, y.get_item b (ix i j k) = .ok v ∧ v.isNaN = true := by
  obtain ⟨y, h1, _, _, h4⟩ := C25_exact_partial b x out hx ho hs
    fun i j k h => ExpAccurate.nonneg _ (hf i j k h).1
  have hz : ∀ e ∈ x.data.map exp, e = mk' false 0 := by
    intro e he
    rw [exps_indices hx, List.mem_map] at he
    obtain ⟨⟨a, c, d⟩, hm, rfl⟩ := he
    obtain ⟨f1, f2⟩ := hf a c d (mem_indices.mp hm)
    change Libm.exp (val x a c d) = _
    rw [← mk'_eta (Libm.exp (val x a c d)), (ExpAccurate.nonneg _ f1).2,
      ExpAccurate.underflow _ f1 f2]
  have hsum : ∀ l : List F32, (∀ e ∈ l, e = mk' false 0) → l.foldl F32.add (mk' false 0) = mk' false 0 := by
    intro l
    induction l with
    | nil => intro _; rfl
    | cons e l ih =>
      intro h
      rw [List.foldl_cons, h e (List.mem_cons_self ..),
        show F32.add (mk' false 0) (mk' false 0) = mk' false 0 by decide]
      exact ih fun x hx => h x (List.mem_cons_of_mem _ hx)
  have h0 : Spec.sum (x.data.map exp) = mk' false 0 := hsum _ hz
  refine ⟨y, h1, fun i j k hin => ?_⟩
  obtain ⟨v, e1, e2⟩ := h4 i j k (hs ▸ hin)
  rw [if_pos (Or.inr (by rw [h0]; decide))] at e2
  exact ⟨v, e1, e2⟩

/-- non-vacuity: there is an `exp` as assumed -/
example : ∃ _ : Libm, ExpAccurate := ⟨⟨expCut, true⟩, expCut_accurate _⟩

/-- non-vacuity: tensors in the range of `C25_range_partial`, with two different entries `0.0` and
`71.0` -/
example [Libm] : ∃ x : Tensor F32, x.WF ∧ x.shape.count = 2 ∧ x.shape.Inside 1 0 0 ∧
    ∀ i j k, x.shape.Inside i j k → (val x i j k).isFinite = true ∧
      -87 ≤ (val x i j k).toReal ∧ (val x i j k).toReal ≤ 71 := by
  refine ⟨⟨⟨1, 2, 2⟩, ⟨2, 1, 1⟩, [⟨0⟩, ⟨0x428e0000⟩]⟩, ⟨by decide, rfl, rfl, rfl, rfl⟩, rfl, by decide,
    fun i j k h => ?_⟩
  obtain ⟨h1, h2, h3⟩ := h
  change i < 2 at h1
  change j < 1 at h2
  change k < 1 at h3
  obtain rfl : j = 0 := by omega
  obtain rfl : k = 0 := by omega
  have e0 : (⟨0⟩ : F32).toInt = 0 := by decide
  have e1 : (⟨0x428e0000⟩ : F32).toInt = 71 * 2 ^ 149 := by decide
  rcases (show i = 0 ∨ i = 1 by omega) with rfl | rfl
  · change (⟨0⟩ : F32).isFinite = true ∧ -87 ≤ (⟨0⟩ : F32).toReal ∧ (⟨0⟩ : F32).toReal ≤ 71
    refine ⟨by decide, ?_, ?_⟩ <;> unfold toReal <;> rw [e0] <;> norm_num
  · change (⟨0x428e0000⟩ : F32).isFinite = true ∧ -87 ≤ (⟨0x428e0000⟩ : F32).toReal ∧
      (⟨0x428e0000⟩ : F32).toReal ≤ 71
    refine ⟨by decide, ?_, ?_⟩ <;> unfold toReal <;> rw [e1] <;> norm_num

end Rusty
