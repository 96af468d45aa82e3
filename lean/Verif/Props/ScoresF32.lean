import Verif.Lemmas.NormLaws
import Verif.Props.Rounding

/-! # C155: what raising a score does to the probabilities in `f32` -/

namespace Rusty

open F32Ops Spec F32

/-- an `exp` with three values, the exact exponentials of these numbers rounded to the nearest `f32` -/
def expThree (x : F32) : F32 :=
  if x.bits = 0x3f317217 then ⟨0x3fffffff⟩ else if x.bits = 0x3f317218 then ⟨0x40000000⟩ else ⟨0x4c000515⟩

/-- C155: for the raised score itself this can fail. With an `exp` that has the correctly rounded values for the three
scores that occur, raising the first score by the least possible amount lowers its probability. -/
theorem C155_own : let _ : Libm := ⟨expThree, true⟩
    let x : Tensor F32 := ⟨⟨1, 2, 2⟩, ⟨2, 1, 1⟩, [⟨0x3f317217⟩, ⟨0x418aa174⟩]⟩
    let x' : Tensor F32 := ⟨⟨1, 2, 2⟩, ⟨2, 1, 1⟩, [⟨0x3f317218⟩, ⟨0x418aa174⟩]⟩
    F32.gt (val x' 0 0 0) (val x 0 0 0) = true ∧ val x' 1 0 0 = val x 1 0 0 ∧
      F32.gt (Libm.exp (val x' 0 0 0)) (Libm.exp (val x 0 0 0)) = true ∧
      ∃ y y', Tensor.softmax x x = .ok y ∧ Tensor.softmax x' x = .ok y' ∧
        F32.gt (val y 0 0 0) (val y' 0 0 0) = true := by
  intro _ x x'
  have w : ∀ v : F32, (⟨⟨1, 2, 2⟩, ⟨2, 1, 1⟩, [v, ⟨0x418aa174⟩]⟩ : Tensor F32).WF := fun v =>
    wf_data (zeros_wf (F := F32) (s := ⟨2, 1, 1⟩) (by decide)) [v, ⟨0x418aa174⟩] rfl
  obtain ⟨y, h1, _, _, h4⟩ := softmax_ok (w ⟨0x3f317217⟩) (w ⟨0x3f317217⟩) rfl
  obtain ⟨y', h1', _, _, h4'⟩ := softmax_ok (w ⟨0x3f317218⟩) (w ⟨0x3f317217⟩) rfl
  refine ⟨?_, rfl, ?_, y, y', h1, h1', ?_⟩
  · change F32.gt ⟨0x3f317218⟩ ⟨0x3f317217⟩ = true
    decide +kernel
  · change F32.gt (expThree ⟨0x3f317218⟩) (expThree ⟨0x3f317217⟩) = true
    decide +kernel
  · rw [h4 0 0 0 (by decide), h4' 0 0 0 (by decide)]
    have e : ∀ v : F32, softmaxAt (⟨⟨1, 2, 2⟩, ⟨2, 1, 1⟩, [v, ⟨0x418aa174⟩]⟩ : Tensor F32) 0 0 0 =
        F32.div (expThree v) (F32.add (F32.add (mk' false 0) (expThree v)) (expThree ⟨0x418aa174⟩)) := fun v => by
      unfold softmaxAt
      rw [← exps_indices (w v),
        show val (⟨⟨1, 2, 2⟩, ⟨2, 1, 1⟩, [v, ⟨0x418aa174⟩]⟩ : Tensor F32) 0 0 0 = v from rfl]
      simp only [Spec.sum, List.map_cons, List.map_nil, List.foldl_cons, List.foldl_nil]
      with_reducible_and_instances rfl
    rw [e, e]
    change F32.gt
      (F32.div (expThree ⟨0x3f317217⟩) (F32.add (F32.add (mk' false 0) (expThree ⟨0x3f317217⟩)) (expThree ⟨0x418aa174⟩)))
      (F32.div (expThree ⟨0x3f317218⟩) (F32.add (F32.add (mk' false 0) (expThree ⟨0x3f317218⟩)) (expThree ⟨0x418aa174⟩)))
      = true
    decide +kernel

variable [Libm]

/-- C155: if no exponential is lowered, then an entry whose own score stays as it is does not get a larger
probability, as long as the sums of the exponentials are finite and positive. -/
theorem C155_others (b : Build) (x x' out : Tensor F32) (hx : x.WF) (hx' : x'.WF) (ho : out.WF)
    (hs : x.shape = out.shape) (hs' : x'.shape = out.shape)
    (hexp : ∀ i j k, out.shape.Inside i j k →
      (Libm.exp (val x i j k)).isNaN = false ∧ (Libm.exp (val x i j k)).sign = false ∧
      (Libm.exp (val x' i j k)).isNaN = false ∧ (Libm.exp (val x' i j k)).sign = false ∧
      F32.gt (Libm.exp (val x i j k)) (Libm.exp (val x' i j k)) = false)
    (hsum : (Spec.sum (x.data.map exp)).isFinite = true) (hsum' : (Spec.sum (x'.data.map exp)).isFinite = true)
    (hpos : 0 < (Spec.sum (x.data.map exp)).code) :
    ∃ y y', Tensor.softmax x out = .ok y ∧ Tensor.softmax x' out = .ok y' ∧ ∀ i j k, out.shape.Inside i j k →
      val x' i j k = val x i j k →
      ∃ v v', y.get_item b (ix i j k) = .ok v ∧ y'.get_item b (ix i j k) = .ok v' ∧ F32.gt v' v = false := by
  obtain ⟨y, h1, h2, h3, h4⟩ := softmax_ok hx ho hs
  obtain ⟨y', h1', h2', h3', h4'⟩ := softmax_ok hx' ho hs'
  obtain ⟨g1, _, g3⟩ := sum_ge (x.data.map exp) (mk' false 0) (by decide)
    (exps_nonneg hx fun i j k h => ⟨(hexp i j k (hs ▸ h)).1, (hexp i j k (hs ▸ h)).2.1⟩) hsum (by decide)
  obtain ⟨g1', _, g3'⟩ := sum_ge (x'.data.map exp) (mk' false 0) (by decide)
    (exps_nonneg hx' fun i j k h => ⟨(hexp i j k (hs' ▸ h)).2.2.1, (hexp i j k (hs' ▸ h)).2.2.2.1⟩) hsum' (by decide)
  have hm : (Spec.sum (x.data.map exp)).toReal ≤ (Spec.sum (x'.data.map exp)).toReal := by
    rw [exps_indices hx] at hsum ⊢
    rw [exps_indices hx', hs', ← hs] at hsum' ⊢
    refine foldl_add_mono _ _ _ _ hsum hsum' fun p hp f1 f2 => ?_
    have hg := (hexp p.1 p.2.1 p.2.2 (hs ▸ mem_indices.mp hp)).2.2.2.2
    by_contra hc
    have := (gt_real f1 f2).mpr (not_le.mp hc)
    exact Bool.false_ne_true (hg.symm.trans this)
  refine ⟨y, y', h1, h1', fun i j k hin hv => ⟨_, _, get_item_ok h2 (h3 ▸ hin), get_item_ok h2' (h3' ▸ hin), ?_⟩⟩
  rw [h4 i j k hin, h4' i j k hin]
  unfold softmaxAt
  rw [← exps_indices hx, ← exps_indices hx', hv]
  have c := g3 _ (exps_mem hx (hs ▸ hin : x.shape.Inside i j k))
  have c' := g3' _ (exps_mem hx' (hs' ▸ hin : x'.shape.Inside i j k))
  rw [hv] at c'
  replace g1 : (Spec.sum (x.data.map exp)).sign = false := g1
  replace g1' : (Spec.sum (x'.data.map exp)).sign = false := g1'
  have p0 : 0 < (Spec.sum (x.data.map exp)).toReal := by
    rw [toReal_nonneg g1]
    have := units_pos.mpr hpos
    positivity
  have p1 := p0.trans_le hm
  have hpos' : 0 < (Spec.sum (x'.data.map exp)).code := by
    rcases Nat.eq_zero_or_pos (Spec.sum (x'.data.map exp)).code with e | e
    · rw [toReal_nonneg g1', e, units_zero] at p1
      simp at p1
    · exact e
  obtain ⟨_, e2, _⟩ := hexp i j k hin
  have u := div_unit e2 g1 hsum hpos c
  have u' := div_unit e2 g1' hsum' hpos' c'
  have fe : (Libm.exp (val x i j k)).isFinite = true := by
    have := finite_iff.mp hsum
    rw [finite_iff]
    exact lt_of_le_of_lt c this
  have e0 : 0 ≤ (Libm.exp (val x i j k)).toReal := by
    rw [toReal_nonneg e2]
    positivity
  refine Bool.eq_false_iff.mpr fun hgt => ?_
  have := (gt_real u'.1 u.1).mp hgt
  exact absurd (rounds_mono (div_rounds fe hsum' p1.ne') (div_rounds fe hsum p0.ne') u'.1 u.1
    (div_le_div_of_nonneg_left e0 p0 hm)) (not_le.mpr this)

/-! ## Non-vacuity -/

omit [Libm] in
/-- the conditions of C155 hold for two scores of which the second is raised -/
example : let _ : Libm := ⟨exExp, true⟩
    let x : Tensor F32 := ⟨⟨1, 2, 2⟩, ⟨2, 1, 1⟩, [⟨0⟩, ⟨0⟩]⟩
    let x' : Tensor F32 := ⟨⟨1, 2, 2⟩, ⟨2, 1, 1⟩, [⟨0⟩, ⟨0x3f800000⟩]⟩
    (∀ i j k, x.shape.Inside i j k →
      (Libm.exp (val x i j k)).isNaN = false ∧ (Libm.exp (val x i j k)).sign = false ∧
      (Libm.exp (val x' i j k)).isNaN = false ∧ (Libm.exp (val x' i j k)).sign = false ∧
      F32.gt (Libm.exp (val x i j k)) (Libm.exp (val x' i j k)) = false) ∧
    (Spec.sum (x.data.map exp)).isFinite = true ∧ (Spec.sum (x'.data.map exp)).isFinite = true ∧
    0 < (Spec.sum (x.data.map exp)).code ∧ val x' 0 0 0 = val x 0 0 0 ∧
    F32.gt (Libm.exp (val x' 1 0 0)) (Libm.exp (val x 1 0 0)) = true := by
  intro _ x x'
  have hs : Spec.sum (x.data.map exp) = F32.add (F32.add (mk' false 0) (exExp ⟨0⟩)) (exExp ⟨0⟩) := by
    simp only [x, Spec.sum, List.map_cons, List.map_nil, List.foldl_cons, List.foldl_nil]
    with_reducible_and_instances rfl
  have hs' : Spec.sum (x'.data.map exp) = F32.add (F32.add (mk' false 0) (exExp ⟨0⟩)) (exExp ⟨0x3f800000⟩) := by
    simp only [x', Spec.sum, List.map_cons, List.map_nil, List.foldl_cons, List.foldl_nil]
    with_reducible_and_instances rfl
  rw [hs, hs']
  refine ⟨?_, by decide +kernel, by decide +kernel, by decide +kernel, rfl, ?_⟩
  · rintro i j k ⟨a1, a2, a3⟩
    have a1 : i < 2 := a1
    obtain rfl : j = 0 := Nat.lt_one_iff.mp a2
    obtain rfl : k = 0 := Nat.lt_one_iff.mp a3
    obtain rfl | rfl : i = 0 ∨ i = 1 := by omega
    · change (exExp ⟨0⟩).isNaN = false ∧ (exExp ⟨0⟩).sign = false ∧ (exExp ⟨0⟩).isNaN = false ∧
        (exExp ⟨0⟩).sign = false ∧ F32.gt (exExp ⟨0⟩) (exExp ⟨0⟩) = false
      decide +kernel
    · change (exExp ⟨0⟩).isNaN = false ∧ (exExp ⟨0⟩).sign = false ∧ (exExp ⟨0x3f800000⟩).isNaN = false ∧
        (exExp ⟨0x3f800000⟩).sign = false ∧ F32.gt (exExp ⟨0⟩) (exExp ⟨0x3f800000⟩) = false
      decide +kernel
  · change F32.gt (exExp ⟨0x3f800000⟩) (exExp ⟨0⟩) = true
    decide +kernel

end Rusty
