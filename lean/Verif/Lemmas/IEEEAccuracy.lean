import Verif.Spec.Accuracy
import Verif.Lemmas.IEEELaws
import Verif.Lemmas.Infer
import Verif.Lemmas.Pooling

/-! # Helper lemmas: errors of whole layers and networks -/

namespace Rusty

open F32Ops Spec F32

/-! ## Order -/

theorem gt_real {x y : F32} (hx : x.isFinite = true) (hy : y.isFinite = true) :
    F32.gt x y = true ↔ y.toReal < x.toReal := by
  have key_int : y.key < x.key ↔ y.toInt < x.toInt := by
    have m1 := @units_lt x.code y.code
    have m2 := @units_lt y.code x.code
    have z1 := @units_pos x.code
    have z2 := @units_pos y.code
    unfold key toInt
    cases x.sign <;> cases y.sign <;> simp only [Bool.false_eq_true, if_true, if_false] <;> omega
  unfold F32.gt
  rw [finite_nan hx, finite_nan hy]
  simp only [Bool.not_false, Bool.and_self, Bool.true_and, decide_eq_true_eq]
  rw [key_int]
  unfold toReal
  rw [div_lt_div_iff_of_pos_right (by positivity)]
  exact_mod_cast Iff.rfl

theorem gt_negInf [Libm] {x : F32} (hx : x.isFinite = true) : F32.gt x negInf = true := by
  have h1 : (negInf : F32).isNaN = false := by
    change (mk' true infCode).isNaN = false
    decide
  have h2 : (negInf : F32).key = -(infCode : Int) := by
    change (mk' true infCode).key = -(infCode : Int)
    decide
  unfold F32.gt
  rw [finite_nan hx, h1, h2]
  rw [finite_iff] at hx
  simp only [Bool.not_false, Bool.and_self, Bool.true_and, decide_eq_true_eq]
  unfold key
  split <;> omega

/-! ## Lists of reals -/

theorem sum_map_le {ι : Type} (l : List ι) (f g : ι → ℝ) (h : ∀ x ∈ l, f x ≤ g x) :
    (l.map f).sum ≤ (l.map g).sum := by
  induction l with
  | nil => simp
  | cons x xs ih =>
    simp only [List.map_cons, List.sum_cons]
    have h1 := h x (List.mem_cons_self ..)
    have h2 := ih fun y hy => h y (List.mem_cons_of_mem _ hy)
    linarith

theorem sum_map_mul {ι : Type} (l : List ι) (f : ι → ℝ) (c : ℝ) :
    (l.map fun x => f x * c).sum = (l.map f).sum * c := by
  induction l with
  | nil => simp
  | cons x xs ih => simp only [List.map_cons, List.sum_cons, ih]; ring

theorem sum_map_sub {ι : Type} (l : List ι) (f g : ι → ℝ) :
    (l.map f).sum - (l.map g).sum = (l.map fun x => f x - g x).sum := by
  induction l with
  | nil => simp
  | cons x xs ih => simp only [List.map_cons, List.sum_cons, ← ih]; ring

theorem sum_map_pos {ι : Type} (l : List ι) (f : ι → ℝ) (h : ∀ x ∈ l, 0 < f x) (hne : l ≠ []) :
    0 < (l.map f).sum := by
  cases l with
  | nil => exact absurd rfl hne
  | cons x xs =>
    simp only [List.map_cons, List.sum_cons]
    have h1 := h x (List.mem_cons_self ..)
    have h2 := sum_map_le xs (fun _ => 0) f fun y hy => (h y (List.mem_cons_of_mem _ hy)).le
    simp only [List.map_const', List.sum_replicate, smul_zero] at h2
    linarith

/-! ## Softmax -/

theorem quotient_error {E T e s S y g η : ℝ} (hE : 0 < E) (hT : 0 < T)
    (he : |e - E| ≤ E / 2 ^ 20) (hs : |s - T| ≤ T / 2 ^ 20) (hg0 : 0 ≤ g) (hg : g ≤ 1 / 2)
    (hS : |S - s| ≤ g * s) (hy : |y - e / S| ≤ e / S / 2 ^ 24 + η) :
    |y - E / T| ≤ (3 * g + 40 / 2 ^ 23) * (E / T) + η := by
  obtain ⟨p, hp⟩ : ∃ p, p = E / T := ⟨_, rfl⟩
  have hp0 : 0 < p := by rw [hp]; positivity
  have hEp : E = p * T := by rw [hp, div_mul_cancel₀ _ hT.ne']
  obtain ⟨a, ha⟩ : ∃ a, a = e / T := ⟨_, rfl⟩
  have hea : e = a * T := by rw [ha, div_mul_cancel₀ _ hT.ne']
  obtain ⟨t, ht⟩ : ∃ t, t = s / T := ⟨_, rfl⟩
  have hst : s = t * T := by rw [ht, div_mul_cancel₀ _ hT.ne']
  obtain ⟨r, hr⟩ : ∃ r, r = S / T := ⟨_, rfl⟩
  have hSr : S = r * T := by rw [hr, div_mul_cancel₀ _ hT.ne']
  rw [hEp, hea, ← sub_mul, abs_mul, abs_of_pos hT, mul_div_right_comm] at he
  have he := le_of_mul_le_mul_right he hT
  rw [hst, show t * T - T = (t - 1) * T by ring, abs_mul, abs_of_pos hT,
    show T / 2 ^ 20 = (1 / 2 ^ 20) * T by ring] at hs
  have hs := le_of_mul_le_mul_right hs hT
  rw [hst, hSr, ← sub_mul, abs_mul, abs_of_pos hT, ← mul_assoc] at hS
  have hS := le_of_mul_le_mul_right hS hT
  rw [hea, hSr, mul_div_mul_right _ _ hT.ne'] at hy
  rw [← hp]
  norm_num at he hs
  rw [abs_le] at he hs hS
  have hgt : g * t ≤ g * (1048577 / 1048576) := mul_le_mul_of_nonneg_left (by linarith) hg0
  have hr0 : 499 / 1000 ≤ r := by linarith
  have hrpos : 0 < r := by linarith
  obtain ⟨q, hq⟩ : ∃ q, q = a / r := ⟨_, rfl⟩
  have haq : a = q * r := by rw [hq, div_mul_cancel₀ _ hrpos.ne']
  rw [← hq] at hy
  -- the exact quotient of the computed numbers
  have key : |q - p| ≤ (2.01 * g + 33 / 2 ^ 23) * p := by
    have h1 : |(q - p) * r| ≤ (g * (1048577 / 1048576) + 1 / 2 ^ 19) * p := by
      rw [show (q - p) * r = (a - p) + p * (1 - r) by rw [haq]; ring]
      have hb : |1 - r| ≤ g * (1048577 / 1048576) + 1 / 2 ^ 20 := by
        rw [abs_le]; norm_num; constructor <;> linarith
      have hc := mul_le_mul_of_nonneg_left hb hp0.le
      have hd : |p * (1 - r)| ≤ p * (g * (1048577 / 1048576) + 1 / 2 ^ 20) := by
        rw [abs_mul, abs_of_pos hp0]; exact hc
      have hf : |a - p| ≤ p / 1048576 := abs_le.mpr he
      refine (abs_add_le _ _).trans ?_
      norm_num at hd ⊢
      linarith
    rw [abs_mul, abs_of_pos hrpos] at h1
    have h2 : |q - p| * (499 / 1000) ≤ |q - p| * r :=
      mul_le_mul_of_nonneg_left hr0 (abs_nonneg _)
    have h3 : 0 ≤ g * p := mul_nonneg hg0 hp0.le
    norm_num at h1 ⊢
    nlinarith
  have hq2 : q ≤ 2.1 * p := by
    have := (abs_le.mp key).2
    norm_num at this ⊢
    nlinarith
  have h5 : |y - p| ≤ |y - q| + |q - p| := abs_sub_le y q p
  have h6 : 0 ≤ g * p := mul_nonneg hg0 hp0.le
  norm_num at hy key hq2 ⊢
  nlinarith

variable [Libm]

theorem softmax_error [ExpAccurate] {x : Tensor F32} (hx : x.WF) (hn : x.shape.count < 2 ^ 22)
    (hr : ∀ i j k, x.shape.Inside i j k → (val x i j k).isFinite = true ∧
      -87 ≤ (val x i j k).toReal ∧ (val x i j k).toReal ≤ 71) {i j k : Nat}
    (hin : x.shape.Inside i j k) :
    (softmaxAt x i j k).isFinite = true ∧
    |(softmaxAt x i j k).toReal - Real.exp (val x i j k).toReal /
        (x.shape.indices.map fun p => Real.exp (val x p.1 p.2.1 p.2.2).toReal).sum| ≤
      (3 * x.shape.count + 40) / 2 ^ 23 * (Real.exp (val x i j k).toReal /
        (x.shape.indices.map fun p => Real.exp (val x p.1 p.2.1 p.2.2).toReal).sum) + 1 / 2 ^ 150 := by
  have hd := exps_range hx hr
  have hall : ∀ e ∈ x.data.map exp, e.sign = false ∧ e.isNaN = false :=
    exps_nonneg hx fun i j k h => ExpAccurate.nonneg _ (hr i j k h).1
  have hc : (Spec.sum (x.data.map exp)).code ≤ 254 * 2 ^ 23 :=
    sum_absorbs _ (mk' false 0) (by decide) (by decide) (fun e he => ⟨(hd e he).1, (hd e he).2.2⟩)
  have hf : (Spec.sum (x.data.map exp)).isFinite = true := by
    rw [finite_iff]; unfold infCode; omega
  obtain ⟨g1, _, g3⟩ := sum_ge (x.data.map exp) (mk' false 0) (by decide) hall hf (by decide)
  have hlen : (x.data.map exp).length = x.shape.count := by rw [List.length_map, hx.len]
  have hmem := exps_mem hx hin
  have hpos : 0 < (Spec.sum (x.data.map exp)).code :=
    Nat.lt_of_lt_of_le (hd _ hmem).2.1 (g3 _ hmem)
  obtain ⟨hfe, hse⟩ := sum_error (x.data.map exp) hf
  have habs : ((x.data.map exp).map fun x => |x.toReal|).sum = ((x.data.map exp).map toReal).sum := by
    congr 1
    apply List.map_congr_left
    intro e he
    rw [toReal_nonneg (hall e he).1]
    exact abs_of_nonneg (by positivity)
  rw [habs, hlen] at hse
  have hunit := div_unit (hall _ hmem).1 g1 hf hpos (g3 _ hmem)
  have hdiv := div_error (hall _ hmem).1 g1 (hfe _ hmem) hf hpos hunit.1
  -- `exp` is accurate on every entry
  have hclose : ∀ p ∈ x.shape.indices,
      |(Libm.exp (val x p.1 p.2.1 p.2.2)).toReal - Real.exp (val x p.1 p.2.1 p.2.2).toReal| ≤
        Real.exp (val x p.1 p.2.1 p.2.2).toReal / 2 ^ 20 := by
    intro p hp
    obtain ⟨r1, r2, r3⟩ := hr _ _ _ (mem_indices.mp hp)
    have hb := exp_le_of r3
    have hp := Real.exp_pos (val x p.1 p.2.1 p.2.2).toReal
    refine (ExpAccurate.close _ r1 (exp_ge_of r2) ?_).2
    have : Real.exp (val x p.1 p.2.1 p.2.2).toReal ≤ 2 ^ 103 := by nlinarith
    exact this.trans (by norm_num)
  have hsum : ((x.data.map exp).map toReal).sum =
      (x.shape.indices.map fun p => (Libm.exp (val x p.1 p.2.1 p.2.2)).toReal).sum := by
    rw [exps_indices hx, List.map_map]; rfl
  have hin' : (i, j, k) ∈ x.shape.indices := mem_indices.mpr hin
  have hT : 0 < (x.shape.indices.map fun p => Real.exp (val x p.1 p.2.1 p.2.2).toReal).sum :=
    sum_map_pos _ _ (fun _ _ => Real.exp_pos _) (List.ne_nil_of_mem hin')
  have hsT : |((x.data.map exp).map toReal).sum -
      (x.shape.indices.map fun p => Real.exp (val x p.1 p.2.1 p.2.2).toReal).sum| ≤
      (x.shape.indices.map fun p => Real.exp (val x p.1 p.2.1 p.2.2).toReal).sum / 2 ^ 20 := by
    rw [hsum, sum_map_sub]
    refine (abs_sum_le _ _).trans ((sum_map_le _ _ _ hclose).trans (le_of_eq ?_))
    rw [div_eq_mul_inv, ← sum_map_mul]
    simp only [div_eq_mul_inv]
  have hγ : (1 + u) ^ x.shape.count - 1 ≤ x.shape.count / 2 ^ 23 := by
    have := pow_le_linear (m := x.shape.count) (by omega)
    unfold u at *
    calc _ ≤ 2 * (x.shape.count : ℝ) * (1 / 2 ^ 24) := by linarith
      _ = _ := by ring
  have hγ2 : (x.shape.count : ℝ) / 2 ^ 23 ≤ 1 / 2 := by
    rw [div_le_iff₀ (by positivity)]
    have : (x.shape.count : ℝ) ≤ 2 ^ 22 := by exact_mod_cast hn.le
    norm_num at this ⊢
    linarith
  have hs0 : 0 ≤ ((x.data.map exp).map toReal).sum := by
    rw [← habs]
    exact (abs_nonneg _).trans (abs_sum_le _ toReal)
  have e0 : softmaxAt x i j k = F32.div (exp (val x i j k)) (Spec.sum (x.data.map exp)) := by
    unfold softmaxAt
    rw [← exps_indices hx]
    rfl
  rw [e0]
  refine ⟨hunit.1, ?_⟩
  have hSs := hse.trans (mul_le_mul_of_nonneg_right hγ hs0)
  have he := hclose _ hin'
  have hg : (0 : ℝ) ≤ x.shape.count / 2 ^ 23 := by positivity
  have hE := Real.exp_pos (val x i j k).toReal
  change |(exp (val x i j k)).toReal - _| ≤ _ at he
  have := quotient_error hE hT he hsT hg hγ2 hSs hdiv
  rw [show (3 * (x.shape.count : ℝ) + 40) / 2 ^ 23 = 3 * (x.shape.count / 2 ^ 23) + 40 / 2 ^ 23 by ring]
  exact this

end Rusty
