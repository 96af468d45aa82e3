import Verif.Lemmas.SoftmaxGradient
import Verif.Lemmas.Derivative
import Verif.Props.NetworkRounding
import Verif.Props.IEEE
import Verif.Props.Turned
import Verif.Lemmas.LogSoftmax

/-! # C122: accuracy of the gradient that a softmax layer passes on in `f32` -/

namespace Rusty

open F32Ops Spec F32

variable [Libm]

/-- C122: let the entries of the output `y` be at most 1 in absolute value and the products `y_o g_o` add
up to `A` in absolute value, at most `2^120`.  A softmax layer on a column of `n < 2^22` entries passes on
`y_i (g_i - ∑ y_o g_o)` up to `(n + 11) 2^-23 A + (n + 5) 2^-149`. -/
theorem C122_backward (b : Build) (l : SoftmaxLayer F32) (hl : l.Ok) (hm : l.run_state = .Training)
    (hj : l.shape.dj = 1) (hk : l.shape.dk = 1) (hn : l.shape.di.toNat < 2 ^ 22)
    (x y g og : Tensor F32) (hy : y.WF) (hys : y.shape = l.shape) (hg : g.WF)
    (hgs : g.shape = l.shape) (ho : og.WF) (hos : og.shape = l.shape)
    (hyr : ∀ o < l.shape.di.toNat, (val y o 0 0).isFinite = true ∧ |(val y o 0 0).toReal| ≤ 1)
    (hgf : ∀ o < l.shape.di.toNat, (val g o 0 0).isFinite = true)
    (hA : ∑ o ∈ Finset.range l.shape.di.toNat, |(val y o 0 0).toReal * (val g o 0 0).toReal| ≤ 2 ^ 120) :
    ∃ l' og', l.backward b x y g og = .ok (.ok (), l', og') ∧ ∀ i, i < l.shape.di.toNat →
      ∃ v, og'.get_item b (ix i 0 0) = .ok v ∧ v.isFinite = true ∧
        |v.toReal - (val y i 0 0).toReal * ((val g i 0 0).toReal -
            ∑ o ∈ Finset.range l.shape.di.toNat, (val y o 0 0).toReal * (val g o 0 0).toReal)| ≤
          (l.shape.di.toNat + 11) / 2 ^ 23 *
            ∑ o ∈ Finset.range l.shape.di.toNat, |(val y o 0 0).toReal * (val g o 0 0).toReal| +
          (l.shape.di.toNat + 5) / 2 ^ 149 := by
  obtain ⟨l', og', r1, r2, r3, r4⟩ := sm_backward_column (b := b) (x := x) hl hm hj hk hy hys hg hgs
    ho hos
  refine ⟨l', og', r1, fun i hi => ⟨_, get_item_ok r2
    (by rw [r3]; exact ⟨hi, by rw [hj]; decide, by rw [hk]; decide⟩), ?_⟩⟩
  rw [r4 i hi]
  simp only [← Rusty.list_sum_range] at hA ⊢
  exact softmax_grad_near (fun o => val y o 0 0) (fun o => val g o 0 0) hn hyr hgf hA hi

/-- C122: let `t` be targets that are not negative and sum to one, and `g` a gradient with `y_o g_o` near
`-t_o`, as for the cross entropy: the differences add up to at most `δ ≤ 1`.  Then the layer passes on
`y_i - t_i` up to `(n + 11) 2^-23 (1 + δ) + (n + 5) 2^-149 + 2 δ`. -/
theorem C122_targets (b : Build) (l : SoftmaxLayer F32) (hl : l.Ok) (hm : l.run_state = .Training)
    (hj : l.shape.dj = 1) (hk : l.shape.dk = 1) (hn : l.shape.di.toNat < 2 ^ 22)
    (x y g og : Tensor F32) (hy : y.WF) (hys : y.shape = l.shape) (hg : g.WF)
    (hgs : g.shape = l.shape) (ho : og.WF) (hos : og.shape = l.shape)
    (hyr : ∀ o < l.shape.di.toNat, (val y o 0 0).isFinite = true ∧ |(val y o 0 0).toReal| ≤ 1)
    (hgf : ∀ o < l.shape.di.toNat, (val g o 0 0).isFinite = true) (t : Nat → ℝ) (δ : ℝ)
    (ht : ∀ o < l.shape.di.toNat, 0 ≤ t o) (ht1 : ∑ o ∈ Finset.range l.shape.di.toNat, t o = 1)
    (hδ : δ ≤ 1) (hgt : ∑ o ∈ Finset.range l.shape.di.toNat,
      |(val y o 0 0).toReal * (val g o 0 0).toReal + t o| ≤ δ) :
    ∃ l' og', l.backward b x y g og = .ok (.ok (), l', og') ∧ ∀ i, i < l.shape.di.toNat →
      ∃ v, og'.get_item b (ix i 0 0) = .ok v ∧ v.isFinite = true ∧
        |v.toReal - ((val y i 0 0).toReal - t i)| ≤
          (l.shape.di.toNat + 11) / 2 ^ 23 * (1 + δ) + (l.shape.di.toNat + 5) / 2 ^ 149 + 2 * δ := by
  have hA : ∑ o ∈ Finset.range l.shape.di.toNat, |(val y o 0 0).toReal * (val g o 0 0).toReal| ≤
      1 + δ := by
    have h1 : ∀ o ∈ Finset.range l.shape.di.toNat, |(val y o 0 0).toReal * (val g o 0 0).toReal| ≤
        t o + |(val y o 0 0).toReal * (val g o 0 0).toReal + t o| := fun o ho => by
      have h0 := ht o (Finset.mem_range.mp ho)
      have h := abs_add_le ((val y o 0 0).toReal * (val g o 0 0).toReal + t o) (-t o)
      rw [add_neg_cancel_right, abs_neg, abs_of_nonneg h0] at h
      linarith
    have h2 := Finset.sum_le_sum h1
    rw [Finset.sum_add_distrib, ht1] at h2
    linarith
  obtain ⟨l', og', h1, h2⟩ := C122_backward b l hl hm hj hk hn x y g og hy hys hg hgs ho hos hyr hgf
    (hA.trans (by linarith [show (2 : ℝ) ≤ 2 ^ 120 by norm_num]))
  refine ⟨l', og', h1, fun i hi => ?_⟩
  obtain ⟨v, e1, e2, e3⟩ := h2 i hi
  refine ⟨v, e1, e2, ?_⟩
  have hS : |∑ o ∈ Finset.range l.shape.di.toNat, (val y o 0 0).toReal * (val g o 0 0).toReal + 1| ≤
      δ := by
    rw [← ht1, ← Finset.sum_add_distrib]
    exact (Finset.abs_sum_le_sum_abs _ _).trans hgt
  have hI : |(val y i 0 0).toReal * (val g i 0 0).toReal + t i| ≤ δ :=
    (Finset.single_le_sum (f := fun o => |(val y o 0 0).toReal * (val g o 0 0).toReal + t o|)
      (fun _ _ => abs_nonneg _) (Finset.mem_range.mpr hi)).trans hgt
  have e4 := e3.trans (add_le_add_left (mul_le_mul_of_nonneg_left hA (by positivity)) _)
  have hyi := (hyr i hi).2
  generalize ∑ o ∈ Finset.range l.shape.di.toNat, (val y o 0 0).toReal * (val g o 0 0).toReal = S at *
  have h3 : |(val y i 0 0).toReal * (S + 1)| ≤ δ := by
    rw [abs_mul]
    calc _ ≤ 1 * |S + 1| := mul_le_mul_of_nonneg_right hyi (abs_nonneg _)
      _ ≤ δ := by rw [one_mul]; exact hS
  have tri : |v.toReal - ((val y i 0 0).toReal - t i)| ≤
      |v.toReal - (val y i 0 0).toReal * ((val g i 0 0).toReal - S)| +
        (|(val y i 0 0).toReal * (val g i 0 0).toReal + t i| + |(val y i 0 0).toReal * (S + 1)|) := by
    refine le_trans (le_of_eq ?_) ((abs_add_le (v.toReal - (val y i 0 0).toReal *
      ((val g i 0 0).toReal - S)) (((val y i 0 0).toReal * (val g i 0 0).toReal + t i) -
        (val y i 0 0).toReal * (S + 1))).trans (add_le_add_right (abs_sub _ _) _))
    congr 1
    ring
  linarith

/-- C122: one training step with the cross entropy of class `c` as loss.  `forward` writes the prediction
`p`; the client passes `-1 / p_c` at `c`, computed in `f32`, and zero elsewhere to `backward`.  What
`backward` writes is finite and within `(4 n + 54) 2^-23` of the exact softmax minus the target. -/
theorem C122_difference [ExpAccurate] (b : Build) (l : SoftmaxLayer F32) (hl : l.Ok)
    (hm : l.run_state = .Training) (hj : l.shape.dj = 1) (hk : l.shape.dk = 1)
    (hn : l.shape.di.toNat < 2 ^ 22) (x out p g og : Tensor F32) (hx : x.WF) (hxs : x.shape = l.shape)
    (ho : out.WF) (hos : out.shape = l.shape)
    (hr : ∀ o < l.shape.di.toNat, (val x o 0 0).isFinite = true ∧ -87 ≤ (val x o 0 0).toReal ∧
      (val x o 0 0).toReal ≤ 71)
    (hp : l.forward b x out = .ok (.ok (), l, p)) (c : Nat) (hc : c < l.shape.di.toNat)
    (hpc : 1 / 2 ^ 126 ≤ (val p c 0 0).toReal) (hg : g.WF) (hgs : g.shape = l.shape)
    (hgv : ∀ o < l.shape.di.toNat, val g o 0 0 = if o = c then F32.div negOne (val p c 0 0) else zero)
    (hog : og.WF) (hogs : og.shape = l.shape) :
    ∃ l' og', l.backward b x p g og = .ok (.ok (), l', og') ∧ ∀ i, i < l.shape.di.toNat →
      ∃ v, og'.get_item b (ix i 0 0) = .ok v ∧ v.isFinite = true ∧
        |v.toReal - (softmaxOf l.shape.di.toNat (fun o => (val x o 0 0).toReal) i - oneHot c i)| ≤
          (4 * l.shape.di.toNat + 54) / 2 ^ 23 := by
  have hs : x.shape = out.shape := hxs.trans hos.symm
  have hcount : x.shape.count = l.shape.di.toNat := by
    rw [hxs]
    unfold TensorShape.count
    rw [hj, hk]
    simp
  have hcol : ∀ i j k, x.shape.Inside i j k → i < l.shape.di.toNat ∧ j = 0 ∧ k = 0 := by
    intro i j k hin
    rw [hxs] at hin
    obtain ⟨h1, h2, h3⟩ := hin
    rw [hj] at h2
    rw [hk] at h3
    have h2 : j < 1 := h2
    have h3 : k < 1 := h3
    exact ⟨h1, by omega, by omega⟩
  have hr' : ∀ i j k, x.shape.Inside i j k → (val x i j k).isFinite = true ∧
      -87 ≤ (val x i j k).toReal ∧ (val x i j k).toReal ≤ 71 := by
    intro i j k hin
    obtain ⟨h1, rfl, rfl⟩ := hcol i j k hin
    exact hr i h1
  have hins : ∀ i, i < l.shape.di.toNat → out.shape.Inside i 0 0 := fun i hi => by
    rw [hos]
    exact ⟨hi, by rw [hj]; decide, by rw [hk]; decide⟩
  obtain ⟨y1, s1, s2⟩ := C73_softmax b x out hx ho hs (by rw [hcount]; exact hn) hr'
  obtain ⟨y2, q1, q2, q3, q4⟩ := C25_range_partial b x out hx ho hs hr'
  rw [s1] at q1
  cases q1
  have hpy : y1 = p := by
    unfold SoftmaxLayer.forward at hp
    rw [s1] at hp
    cases hp
    rfl
  subst hpy
  have hsum : (x.shape.indices.map fun q => Real.exp (val x q.1 q.2.1 q.2.2).toReal).sum =
      ∑ o ∈ Finset.range l.shape.di.toNat, Real.exp (val x o 0 0).toReal := by
    rw [← sum_real, sum_indices_real, hxs, hj, hk]
    simp [show (1 : UInt32).toNat = 1 from rfl]
  have hyr : ∀ o < l.shape.di.toNat, (val y1 o 0 0).isFinite = true ∧ 0 ≤ (val y1 o 0 0).toReal ∧
      (val y1 o 0 0).toReal ≤ 1 := by
    intro o h
    obtain ⟨v, e1, e2⟩ := q4 o 0 0 (hins o h)
    rw [get_item_ok q2 (q3 ▸ hins o h)] at e1
    cases e1
    exact e2
  obtain ⟨d1, d2⟩ := negOne_div (hyr c hc).1 hpc
  have z1 : (zero : F32).isFinite = true := by change (mk' false 0).isFinite = true; decide
  have z2 : (zero : F32).toReal = 0 := by
    change (mk' false 0).toReal = 0
    rw [toReal_mk' (by decide), units_zero]
    simp
  have hd : 1 / 2 ^ 24 + (val y1 c 0 0).toReal / 2 ^ 150 ≤ 1 / 2 ^ 24 + 1 / 2 ^ 150 := by
    gcongr
    exact (hyr c hc).2.2
  obtain ⟨l', og', h1, h2⟩ := C122_targets b l hl hm hj hk hn x y1 g og q2 (q3.trans hos) hg hgs hog
    hogs (fun o h => ⟨(hyr o h).1, by rw [abs_of_nonneg (hyr o h).2.1]; exact (hyr o h).2.2⟩)
    (fun o h => by
      rw [hgv o h]
      split
      · exact d1
      · exact z1)
    (fun o => if o = c then 1 else 0) (1 / 2 ^ 24 + 1 / 2 ^ 150)
    (fun o _ => by split <;> norm_num)
    (by rw [Finset.sum_ite_eq' _ c, if_pos (Finset.mem_range.mpr hc)]) (by norm_num)
    (by
      rw [Finset.sum_eq_single c]
      · rw [hgv c hc, if_pos rfl, if_pos rfl]
        exact d2.trans hd
      · intro o h1 h2
        rw [hgv o (Finset.mem_range.mp h1), if_neg h2, if_neg h2, z2]
        simp
      · intro h
        exact absurd (Finset.mem_range.mpr hc) h)
  refine ⟨l', og', h1, fun i hi => ?_⟩
  obtain ⟨v, e1, e2, e3⟩ := h2 i hi
  obtain ⟨w, f1, f2, f3⟩ := s2 i 0 0 (hins i hi)
  rw [get_item_ok q2 (q3 ▸ hins i hi)] at f1
  cases f1
  rw [hsum, hcount] at f3
  have hpos : 0 < ∑ o ∈ Finset.range l.shape.di.toNat, Real.exp (val x o 0 0).toReal :=
    Finset.sum_pos (fun _ _ => Real.exp_pos _) ⟨c, Finset.mem_range.mpr hc⟩
  refine ⟨v, e1, e2, ?_⟩
  have hσ1 := (softmaxOf_unit (fun o => (val x o 0 0).toReal) hi).2
  change |(val y1 i 0 0).toReal - softmaxOf l.shape.di.toNat (fun o => (val x o 0 0).toReal) i| ≤
    (3 * (l.shape.di.toNat : ℝ) + 40) / 2 ^ 23 *
      softmaxOf l.shape.di.toNat (fun o => (val x o 0 0).toReal) i + 1 / 2 ^ 150 at f3
  generalize softmaxOf l.shape.di.toNat (fun o => (val x o 0 0).toReal) i = σ at *
  unfold oneHot
  have hn0 : (0 : ℝ) ≤ l.shape.di.toNat := Nat.cast_nonneg _
  have hnr : (l.shape.di.toNat : ℝ) ≤ 4194304 := by
    exact_mod_cast (show l.shape.di.toNat ≤ 4194304 from hn.le)
  have f4 := f3.trans (add_le_add_left (mul_le_mul_of_nonneg_left hσ1 (by positivity)) _)
  generalize (l.shape.di.toNat : ℝ) = n at *
  generalize (if i = c then (1 : ℝ) else 0) = t at *
  have tri := abs_add_le (v.toReal - ((val y1 i 0 0).toReal - t)) ((val y1 i 0 0).toReal - σ)
  rw [show v.toReal - ((val y1 i 0 0).toReal - t) + ((val y1 i 0 0).toReal - σ) =
    v.toReal - (σ - t) by ring] at tri
  refine tri.trans ((add_le_add e3 f4).trans ?_)
  norm_num
  nlinarith

/-- C122: these numbers are the partial derivatives of the exact loss by the entries of the input. -/
theorem C122_loss [ExpAccurate] (b : Build) (l : SoftmaxLayer F32) (hl : l.Ok)
    (hm : l.run_state = .Training) (hj : l.shape.dj = 1) (hk : l.shape.dk = 1)
    (hn : l.shape.di.toNat < 2 ^ 22) (x out p g og : Tensor F32) (hx : x.WF) (hxs : x.shape = l.shape)
    (ho : out.WF) (hos : out.shape = l.shape)
    (hr : ∀ o < l.shape.di.toNat, (val x o 0 0).isFinite = true ∧ -87 ≤ (val x o 0 0).toReal ∧
      (val x o 0 0).toReal ≤ 71)
    (hp : l.forward b x out = .ok (.ok (), l, p)) (c : Nat) (hc : c < l.shape.di.toNat)
    (hpc : 1 / 2 ^ 126 ≤ (val p c 0 0).toReal) (hg : g.WF) (hgs : g.shape = l.shape)
    (hgv : ∀ o < l.shape.di.toNat, val g o 0 0 = if o = c then F32.div negOne (val p c 0 0) else zero)
    (hog : og.WF) (hogs : og.shape = l.shape) :
    ∃ l' og', l.backward b x p g og = .ok (.ok (), l', og') ∧ ∀ i, i < l.shape.di.toNat →
      ∃ v D, og'.get_item b (ix i 0 0) = .ok v ∧ v.isFinite = true ∧
        HasDerivAt (fun u => classLoss l.shape.di.toNat
          (fun o => if o = i then u else (val x o 0 0).toReal) c) D (val x i 0 0).toReal ∧
        |v.toReal - D| ≤ (4 * l.shape.di.toNat + 54) / 2 ^ 23 := by
  obtain ⟨l', og', h1, h2⟩ := C122_difference b l hl hm hj hk hn x out p g og hx hxs ho hos hr hp c hc hpc
    hg hgs hgv hog hogs
  refine ⟨l', og', h1, fun i hi => ?_⟩
  obtain ⟨v, e1, e2, e3⟩ := h2 i hi
  refine ⟨v, _, e1, e2, ?_, e3⟩
  have h := classLoss_deriv hc (z := fun u o => if o = i then u else (val x o 0 0).toReal)
    (z' := fun o => if o = i then 1 else 0) (u := (val x i 0 0).toReal) (fun o _ => by
      by_cases h : o = i
      · simp only [if_pos h]
        exact hasDerivAt_id' _
      · simp only [if_neg h]
        exact hasDerivAt_const _ _)
  simp only [mul_ite, mul_one, mul_zero] at h
  rw [Finset.sum_ite_eq' _ i, if_pos (Finset.mem_range.mpr hi)] at h
  have e : (fun o => if o = i then (val x i 0 0).toReal else (val x o 0 0).toReal) =
      fun o => (val x o 0 0).toReal := by
    funext o
    split
    · next h => rw [h]
    · rfl
  rw [e] at h
  exact h

/-- a softmax layer for two classes -/
def exSM2 : SoftmaxLayer F32 :=
  ⟨⟨2, 1, 1⟩, "sm", single ⟨0⟩, pairOf ⟨0⟩ ⟨0⟩, .Training⟩

theorem exSM2_ok : exSM2.Ok :=
  ⟨by decide, fun _ => ⟨⟨single_wf _, rfl⟩, ⟨pairOf_wf _ _, rfl⟩⟩⟩

/-- The assumptions of C122 can be met: two entries 0, with the second class as target. -/
example [ExpAccurate] (b : Build) : ∃ (l : SoftmaxLayer F32) (x out p g : Tensor F32), l.Ok ∧
    l.run_state = .Training ∧ l.shape.dj = 1 ∧ l.shape.dk = 1 ∧ l.shape.di.toNat = 2 ∧ x.WF ∧
    x.shape = l.shape ∧ out.WF ∧ out.shape = l.shape ∧
    (∀ o < l.shape.di.toNat, (val x o 0 0).isFinite = true ∧ -87 ≤ (val x o 0 0).toReal ∧
      (val x o 0 0).toReal ≤ 71) ∧
    l.forward b x out = .ok (.ok (), l, p) ∧ 1 / 2 ^ 126 ≤ (val p 1 0 0).toReal ∧ g.WF ∧
    g.shape = l.shape ∧
    ∀ o < l.shape.di.toNat, val g o 0 0 = if o = 1 then F32.div negOne (val p 1 0 0) else zero := by
  have z : (⟨0⟩ : F32).toReal = 0 := by
    unfold toReal
    rw [show (⟨0⟩ : F32).toInt = 0 by decide]
    norm_num
  have hr : ∀ i j k, (pairOf ⟨0⟩ ⟨0⟩).shape.Inside i j k → val (pairOf ⟨0⟩ ⟨0⟩) i j k = ⟨0⟩ := by
    intro i j k h
    obtain ⟨h1, h2, h3⟩ : i < 2 ∧ j < 1 ∧ k < 1 := h
    obtain rfl : j = 0 := by omega
    obtain rfl : k = 0 := by omega
    match i, h1 with
    | 0, _ => rfl
    | 1, _ => rfl
  have hins : ∀ i < 2, (pairOf ⟨0⟩ ⟨0⟩).shape.Inside i 0 0 := fun i h =>
    ⟨h, by change 0 < 1; omega, by change 0 < 1; omega⟩
  obtain ⟨p, s1, s2⟩ := C73_softmax b (pairOf ⟨0⟩ ⟨0⟩) (pairOf ⟨0⟩ ⟨0⟩) (pairOf_wf _ _) (pairOf_wf _ _)
    rfl (by decide) (fun i j k h => by rw [hr i j k h, z]; exact ⟨by decide, by norm_num, by norm_num⟩)
  obtain ⟨p', t1, t2, t3, _⟩ := softmax_ok (pairOf_wf ⟨0⟩ ⟨0⟩) (pairOf_wf ⟨0⟩ ⟨0⟩) rfl
  rw [s1] at t1
  cases t1
  refine ⟨exSM2, pairOf ⟨0⟩ ⟨0⟩, pairOf ⟨0⟩ ⟨0⟩, p, pairOf zero (F32.div negOne (val p 1 0 0)), exSM2_ok,
    rfl, rfl, rfl, rfl, pairOf_wf _ _, rfl, pairOf_wf _ _, rfl, fun o h => ?_, ?_, ?_, pairOf_wf _ _, rfl,
    fun o h => ?_⟩
  · rw [hr o 0 0 (hins o h), z]
    exact ⟨by decide, by norm_num, by norm_num⟩
  · unfold SoftmaxLayer.forward
    rw [s1]
    rfl
  · obtain ⟨v, e1, e2, e3⟩ := s2 1 0 0 (hins 1 (by omega))
    rw [get_item_ok t2 (t3 ▸ hins 1 (by omega))] at e1
    cases e1
    have hsum : ((pairOf ⟨0⟩ ⟨0⟩).shape.indices.map fun q =>
        Real.exp (val (pairOf ⟨0⟩ ⟨0⟩) q.1 q.2.1 q.2.2).toReal).sum = 2 := by
      change ([(0, 0, 0), (1, 0, 0)].map fun q : Nat × Nat × Nat =>
        Real.exp (val (pairOf ⟨0⟩ ⟨0⟩) q.1 q.2.1 q.2.2).toReal).sum = 2
      simp only [List.map_cons, List.map_nil, List.sum_cons, List.sum_nil]
      rw [hr 0 0 0 (hins 0 (by omega)), hr 1 0 0 (hins 1 (by omega)), z, Real.exp_zero]
      norm_num
    rw [hsum, hr 1 0 0 (hins 1 (by omega)), z, Real.exp_zero,
      show (pairOf ⟨0⟩ ⟨0⟩).shape.count = 2 by decide] at e3
    have := (abs_le.mp e3).1
    have h126 : (1 : ℝ) / 2 ^ 126 ≤ 1 / 4 := by norm_num
    have h150 : (1 : ℝ) / 2 ^ 150 ≤ 1 / 16 := by norm_num
    norm_num at this h126 h150 ⊢
    linarith
  · match o, h with
    | 0, _ => rfl
    | 1, _ => rfl

end Rusty
