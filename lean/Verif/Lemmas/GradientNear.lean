import Verif.Lemmas.RealGradient
import Verif.Lemmas.Real
import Verif.Lemmas.IEEENetwork
import Verif.Props.GradientRounding
import Verif.Props.Network

/-! # Helper lemmas: the gradients of fully connected networks in `f32` stay near the exact ones -/

namespace Rusty

open F32Ops Spec F32

variable [Libm]

/-- What `forward` and then `backward` did to one layer, state `s` before and `s'` after it, gradient `g` after
and `g'` before it. -/
def Passes (b : Build) (l l2 : FullyConnectedLayer F32) (s s' g g' : Tensor F32) : Prop :=
  ∃ l1 out og, (⟨s, g, out, og⟩ : Round F32).FitsFC l ∧ l.forward b s out = .ok (.ok (), l1, s') ∧
    l1.backward b s s' g og = .ok (.ok (), l2, g')

omit [Libm] in
theorem outError_nonneg {n : Nat} {A B M e : ℝ} (hA : 0 ≤ A) (hB : 0 ≤ B) (hM : 0 ≤ M) (he : 0 ≤ e) :
    0 ≤ outError n A B M e := by
  unfold outError
  positivity

omit [Libm] in
theorem gradBounds_nonneg {G d : ℝ} {ls : List RealLayer} {x : Nat → ℝ} {M e G' d' : ℝ} {bs : List (ℝ × ℝ)}
    (h : GradBounds G d ls x M e G' d' bs) (hG : 0 ≤ G) (hd : 0 ≤ d) : 0 ≤ G' ∧ 0 ≤ d' := by
  induction h with
  | nil => exact ⟨hG, hd⟩
  | cons l ls x M e A B C G1 d1 bs _ _ _ hp _ _ _ _ _ ih =>
    obtain ⟨h1, h2⟩ := ih
    have hC := hp.2.2
    constructor <;> positivity

/-- forward: the states stay near, and the relus decide as in exact arithmetic -/
theorem fc_state_near {b : Build} {l l2 : FullyConnectedLayer F32} (hl : l.Ok) (hm : l.run_state = .Training)
    {s s' g g' : Tensor F32} (hp : Passes b l l2 s s' g g') {x : Nat → ℝ} {A B M e : ℝ} (hM : 0 ≤ M) (he : 0 ≤ e)
    (hw : ∀ o i, o < l.weights.shape.di.toNat → i < l.weights.shape.dj.toNat →
      (val l.weights o i 0).isFinite = true)
    (hb : ∀ o, o < l.weights.shape.di.toNat → (val l.bias o 0 0).isFinite = true)
    (hr : ∀ o < (realLayer l).rows, (∑ i ∈ Finset.range (realLayer l).cols, |(realLayer l).weight o i|) ≤ A ∧
      |(realLayer l).bias o| ≤ B)
    (hn : (realLayer l).cols < 2 ^ 22) (hmax : A * (M + e) + B ≤ 2 ^ 125)
    (hx : Near s (fun i _ _ => x i) M e) :
    Near s' (fun o _ _ => (realLayer l).out x o) (A * M + B) (outError (realLayer l).cols A B M e) ∧
    ∀ o < (realLayer l).rows, outError (realLayer l).cols A B M e < |(realLayer l).pre x o| →
      (F32.gt (val s' o 0 0) zero = true ↔ 0 < (realLayer l).pre x o) := by
  obtain ⟨l1, out, og, hf, q1, q2⟩ := hp
  obtain ⟨mask, y, p1, p2, p3, p4⟩ :=
    C27_forward_training b l hl hm s out hf.x.1 hf.x.2 hf.out.1 hf.out.2
  obtain rfl : y = s' := (Prod.mk.inj (Prod.mk.inj (Except.ok.inj (p1.symm.trans q1))).2).2
  have hy : ∀ o, o < l.weights.shape.di.toNat → val y o 0 0 = relu (preact l s o) := by
    intro o h
    have := (p4 o h).1
    rw [get_item_ok p2 (by
      rw [p3]; unfold FullyConnectedLayer.get_output_shape; rw [hl.rows]; exact col_inside h)] at this
    exact Except.ok.inj this
  have hx' : ∀ m ∈ List.range l.weights.shape.dj.toNat, (val s m 0 0).isFinite = true ∧
      |(val s m 0 0).toReal - x m| ≤ e ∧ |x m| ≤ M := by
    intro m hm
    exact hx m 0 0 (by
      rw [show s.shape = _ from hf.x.2]
      exact ⟨List.mem_range.mp hm, Nat.zero_lt_one, Nat.zero_lt_one⟩)
  have hpre : ∀ o, o < l.weights.shape.di.toNat → (preact l s o).isFinite = true ∧
      |(preact l s o).toReal - (realLayer l).pre x o| ≤ outError (realLayer l).cols A B M e ∧
      |(realLayer l).pre x o| ≤ A * M + B := by
    intro o ho
    obtain ⟨h1, h2⟩ := hr o ho
    have h1' : ((List.range l.weights.shape.dj.toNat).map fun i => |(val l.weights o i 0).toReal|).sum ≤ A := by
      rw [list_sum_range]; exact h1
    obtain ⟨k1, k2, k3⟩ := affine_pre_near (List.range l.weights.shape.dj.toNat) (fun m => val l.weights o m 0)
      (fun m => val s m 0 0) (val l.bias o 0 0) (fun m => (val l.weights o m 0).toReal * x m)
      (fun m => |(val l.weights o m 0).toReal|) List.length_range.le hn
      (fun m hm => ⟨hw o m ho (List.mem_range.mp hm), (hx' m hm).1⟩) (hb o ho)
      (fun m hm => (term_near (hx' m hm).2.1 (hx' m hm).2.2).1)
      (fun m hm => (term_near (hx' m hm).2.1 (hx' m hm).2.2).2.1)
      (fun m hm => (term_near (hx' m hm).2.1 (hx' m hm).2.2).2.2) h1' h2 hM he hmax
    rw [list_sum_range] at k2 k3
    refine ⟨k1, k2, ?_⟩
    exact (abs_add_le _ _).trans (add_le_add k3 h2)
  constructor
  · intro i j k hin
    rw [p3] at hin
    have hi : i < l.weights.shape.di.toNat := by
      unfold FullyConnectedLayer.get_output_shape at hin
      rw [hl.rows] at hin
      exact hin.1
    obtain ⟨rfl, rfl⟩ : j = 0 ∧ k = 0 := by
      unfold FullyConnectedLayer.get_output_shape at hin
      rw [hl.rows] at hin
      obtain ⟨_, h1, h2⟩ := hin
      exact ⟨Nat.lt_one_iff.mp h1, Nat.lt_one_iff.mp h2⟩
    obtain ⟨k1, k2, k3⟩ := hpre i hi
    rw [hy i hi]
    obtain ⟨r1, r2⟩ := relu_error k1 k2
    refine ⟨r1, r2, ?_⟩
    unfold RealLayer.out
    rw [abs_of_nonneg (le_max_left _ _)]
    exact max_le ((abs_nonneg _).trans k3) ((le_abs_self _).trans k3)
  · intro o ho hmar
    obtain ⟨k1, k2, k3⟩ := hpre o ho
    rw [hy o ho, gt_relu, gt_real k1 (by change (mk' false 0).isFinite = true; decide)]
    rw [show (zero : F32).toReal = 0 by
      change (mk' false 0).toReal = 0
      rw [toReal_mk' (by decide), units_zero]; simp]
    have k2' := abs_le.mp k2
    constructor
    · intro h
      by_contra h0
      rw [abs_of_nonpos (not_lt.mp h0)] at hmar
      linarith
    · intro h
      rw [abs_of_pos h] at hmar
      linarith

/-- backward: if the relus decide as in exact arithmetic, the gradients stay near, and so do the recorded ones -/
theorem fc_grad_near {b : Build} {l l2 : FullyConnectedLayer F32} (hl : l.Ok) (hm : l.run_state = .Training)
    {s s' g g' : Tensor F32} (hp : Passes b l l2 s s' g g') {x γ : Nat → ℝ} {C M e G d : ℝ}
    (hG : 0 ≤ G) (hd : 0 ≤ d)
    (hw : ∀ o i, o < l.weights.shape.di.toNat → i < l.weights.shape.dj.toNat →
      (val l.weights o i 0).isFinite = true)
    (hc : ∀ i < (realLayer l).cols, (∑ o ∈ Finset.range (realLayer l).rows, |(realLayer l).weight o i|) ≤ C)
    (hn : (realLayer l).rows < 2 ^ 22) (hmax : C * (G + d) ≤ 2 ^ 125)
    (hrec : (G + d) * (M + e) ≤ 2 ^ 125 ∧ G + d ≤ 2 ^ 125)
    (hx : Near s (fun i _ _ => x i) M e) (hg : Near g (fun o _ _ => γ o) G d)
    (hgate : ∀ o < (realLayer l).rows, F32.gt (val s' o 0 0) zero = true ↔ 0 < (realLayer l).pre x o) :
    Near g' (fun i _ _ => ∑ o ∈ Finset.range (realLayer l).rows,
        (realLayer l).weight o i * (realLayer l).through x γ o) (C * G)
      (C * d + (((realLayer l).rows + 1) / 2 ^ 23 * (C * (G + d)) + (realLayer l).rows / 2 ^ 149)) ∧
    (∀ o i, o < l.weights.shape.di.toNat → i < l.weights.shape.dj.toNat → val l.weights_gradients o i 0 = zero →
      ∃ v, l2.weights_gradients.get_item b (ix o i 0) = .ok v ∧ v.isFinite = true ∧
        |v.toReal - (realLayer l).through x γ o * x i| ≤
          d * (M + e) + G * e + ((G + d) * (M + e) / 2 ^ 21 + 1 / 2 ^ 148)) ∧
    (∀ o, o < l.weights.shape.di.toNat → val l.bias_gradients o 0 0 = zero →
      ∃ v, l2.bias_gradients.get_item b (ix o 0 0) = .ok v ∧ v.isFinite = true ∧
        |v.toReal - (realLayer l).through x γ o| ≤ d + (G + d) / 2 ^ 24) := by
  obtain ⟨l1, out, og, hf, q1, q2⟩ := hp
  have hg' : ∀ o, o < l.weights.shape.di.toNat → (val g o 0 0).isFinite = true ∧
      |(val g o 0 0).toReal - γ o| ≤ d ∧ |γ o| ≤ G := by
    intro o ho
    exact hg o 0 0 (by
      rw [show g.shape = _ from hf.g.2]
      unfold FullyConnectedLayer.get_output_shape
      rw [hl.rows]
      exact col_inside ho)
  have hx' : ∀ i, i < l.weights.shape.dj.toNat → (val s i 0 0).isFinite = true ∧
      |(val s i 0 0).toReal - x i| ≤ e ∧ |x i| ≤ M := by
    intro i hi
    exact hx i 0 0 (by
      rw [show s.shape = _ from hf.x.2]
      exact ⟨hi, Nat.zero_lt_one, Nat.zero_lt_one⟩)
  obtain ⟨m1, y, m2, t, r1, r2, r3, r4, r5⟩ := C72_round b l hl hm ⟨s, g, out, og⟩ hf hn
    (fun o ho => (hg' o ho).1)
  obtain ⟨n1, y', n2, t', w1, w2, _, _, w5, w6, _⟩ := C28_round b l hl hm ⟨s, g, out, og⟩ hf
  simp only at r1 r2 r3 r4 r5 w1 w2
  obtain ⟨-, rfl, rfl⟩ : (Except.ok () : Res) = .ok () ∧ m1 = l1 ∧ y = s' := by
    have := Prod.mk.inj (Except.ok.inj (r1.symm.trans q1))
    exact ⟨this.1, Prod.mk.inj this.2⟩
  obtain ⟨rfl, rfl⟩ : m2 = l2 ∧ t = g' :=
    Prod.mk.inj (Prod.mk.inj (Except.ok.inj (r2.symm.trans q2))).2
  obtain ⟨rfl, rfl⟩ : n1 = m1 ∧ y' = y := Prod.mk.inj (Prod.mk.inj (Except.ok.inj (w1.symm.trans r1))).2
  obtain ⟨-, rfl⟩ : n2 = m2 ∧ t' = t := Prod.mk.inj (Prod.mk.inj (Except.ok.inj (w2.symm.trans r2))).2
  -- what passes the relu
  have hpq : ∀ o, o < l.weights.shape.di.toNat →
      |passed y' g o - (realLayer l).through x γ o| ≤ d ∧ |(realLayer l).through x γ o| ≤ G ∧
      |passed y' g o| ≤ G + d := by
    intro o ho
    have key : |passed y' g o - (realLayer l).through x γ o| ≤ d ∧ |(realLayer l).through x γ o| ≤ G := by
      unfold passed RealLayer.through
      by_cases h : 0 < (realLayer l).pre x o
      · rw [if_pos h, if_pos ((hgate o ho).mpr h)]
        exact (hg' o ho).2
      · rw [if_neg h, if_neg (fun hh => h ((hgate o ho).mp hh))]
        simp only [sub_zero, abs_zero]
        exact ⟨hd, hG⟩
    refine ⟨key.1, key.2, ?_⟩
    have := abs_sub_abs_le_abs_sub (passed y' g o) ((realLayer l).through x γ o)
    linarith [key.1, key.2]
  refine ⟨?_, ?_, ?_⟩
  · intro i j k hin
    rw [w6] at hin
    obtain ⟨hi, hj, hk⟩ := hin
    obtain rfl : j = 0 := Nat.lt_one_iff.mp hj
    obtain rfl : k = 0 := Nat.lt_one_iff.mp hk
    have hi : i < l.weights.shape.dj.toNat := hi
    have hsum : (∑ o ∈ Finset.range l.weights.shape.di.toNat, |(val l.weights o i 0).toReal * passed y' g o|) ≤
        C * (G + d) := by
      refine (Finset.sum_le_sum (g := fun o => |(val l.weights o i 0).toReal| * (G + d)) fun o ho => ?_).trans ?_
      · rw [abs_mul]
        exact mul_le_mul_of_nonneg_left (hpq o (Finset.mem_range.mp ho)).2.2 (abs_nonneg _)
      · rw [← Finset.sum_mul]
        exact mul_le_mul_of_nonneg_right (hc i hi) (by linarith)
    obtain ⟨v, v1, v2, v3⟩ := r3 i hi (fun o ho => hw o i ho hi) (by rw [list_sum_range]; linarith)
    rw [list_sum_range, list_sum_range] at v3
    obtain rfl : val t' i 0 0 = v := by
      rw [get_item_ok w5 (by rw [w6]; exact col_inside hi)] at v1
      exact Except.ok.inj v1
    have hdiff : |(∑ o ∈ Finset.range l.weights.shape.di.toNat, (val l.weights o i 0).toReal * passed y' g o) -
        ∑ o ∈ Finset.range (realLayer l).rows, (realLayer l).weight o i * (realLayer l).through x γ o| ≤ C * d := by
      change |_ - ∑ o ∈ Finset.range l.weights.shape.di.toNat, _| ≤ _
      rw [← Finset.sum_sub_distrib]
      refine (Finset.abs_sum_le_sum_abs _ _).trans ?_
      refine (Finset.sum_le_sum (g := fun o => |(val l.weights o i 0).toReal| * d) fun o ho => ?_).trans ?_
      · change |(val l.weights o i 0).toReal * _ - (val l.weights o i 0).toReal * _| ≤ _
        rw [← mul_sub, abs_mul]
        exact mul_le_mul_of_nonneg_left (hpq o (Finset.mem_range.mp ho)).1 (abs_nonneg _)
      · rw [← Finset.sum_mul]
        exact mul_le_mul_of_nonneg_right (hc i hi) hd
    refine ⟨v2, ?_, ?_⟩
    · refine (abs_sub_le _ _ _).trans ((add_le_add v3 hdiff).trans ?_)
      have : ((l.weights.shape.di.toNat : ℝ) + 1) / 2 ^ 23 *
          (∑ o ∈ Finset.range l.weights.shape.di.toNat, |(val l.weights o i 0).toReal * passed y' g o|) ≤
          ((l.weights.shape.di.toNat : ℝ) + 1) / 2 ^ 23 * (C * (G + d)) :=
        mul_le_mul_of_nonneg_left hsum (by positivity)
      change _ ≤ C * d + (((l.weights.shape.di.toNat : ℝ) + 1) / 2 ^ 23 * (C * (G + d)) +
        (l.weights.shape.di.toNat : ℝ) / 2 ^ 149)
      linarith
    · refine (Finset.abs_sum_le_sum_abs _ _).trans ?_
      refine (Finset.sum_le_sum (g := fun o => |(realLayer l).weight o i| * G) fun o ho => ?_).trans ?_
      · rw [abs_mul]
        exact mul_le_mul_of_nonneg_left (hpq o (Finset.mem_range.mp ho)).2.1 (abs_nonneg _)
      · rw [← Finset.sum_mul]
        exact mul_le_mul_of_nonneg_right (hc i hi) hG
  · intro o i ho hi h0
    obtain ⟨a1, a2, a3⟩ := hpq o ho
    obtain ⟨b1, b2, b3⟩ := hx' i hi
    have hzf : (zero : F32).isFinite = true := by change (mk' false 0).isFinite = true; decide
    have hz : (zero : F32).toReal = 0 := by
      change (mk' false 0).toReal = 0
      rw [toReal_mk' (by decide), units_zero]; simp
    have hs : |(val s i 0 0).toReal| ≤ M + e := by
      have := abs_sub_abs_le_abs_sub (val s i 0 0).toReal (x i)
      linarith
    have hprod : |passed y' g o * (val s i 0 0).toReal| ≤ (G + d) * (M + e) := by
      rw [abs_mul]
      exact mul_le_mul a3 hs (abs_nonneg _) (by linarith)
    obtain ⟨v, v1, v2, v3⟩ := r5 o i ho hi (by rw [h0]; exact hzf) b1 (by
      rw [h0, hz, abs_zero, zero_add]; linarith [hrec.1])
    rw [h0, hz, abs_zero, zero_add, zero_div, zero_add] at v3
    refine ⟨v, v1, v2, ?_⟩
    have hdiff : |passed y' g o * (val s i 0 0).toReal - (realLayer l).through x γ o * x i| ≤ d * (M + e) + G * e := by
      have e1 : passed y' g o * (val s i 0 0).toReal - (realLayer l).through x γ o * x i =
          (passed y' g o - (realLayer l).through x γ o) * (val s i 0 0).toReal +
          (realLayer l).through x γ o * ((val s i 0 0).toReal - x i) := by ring
      rw [e1]
      refine (abs_add_le _ _).trans ?_
      rw [abs_mul, abs_mul]
      exact add_le_add (mul_le_mul a1 hs (abs_nonneg _) hd) (mul_le_mul a2 b2 (abs_nonneg _) hG)
    have e2 : |passed y' g o * (val s i 0 0).toReal| / 2 ^ 21 ≤ (G + d) * (M + e) / 2 ^ 21 :=
      div_le_div_of_nonneg_right hprod (by positivity)
    refine (abs_sub_le _ _ _).trans ((add_le_add v3 hdiff).trans ?_)
    linarith
  · intro o ho h0
    obtain ⟨a1, a2, a3⟩ := hpq o ho
    have hzf : (zero : F32).isFinite = true := by change (mk' false 0).isFinite = true; decide
    have hz : (zero : F32).toReal = 0 := by
      change (mk' false 0).toReal = 0
      rw [toReal_mk' (by decide), units_zero]; simp
    have h127 : (2 : ℝ) ^ 125 ≤ 2 ^ 127 := pow_le_pow_right₀ (by norm_num) (by norm_num)
    obtain ⟨v, v1, v2, v3⟩ := r4 o ho (by rw [h0]; exact hzf) (by
      rw [h0, hz, zero_add]; linarith [hrec.2])
    rw [h0, hz, zero_add] at v3
    refine ⟨v, v1, v2, ?_⟩
    have e2 : |passed y' g o| / 2 ^ 24 ≤ (G + d) / 2 ^ 24 := div_le_div_of_nonneg_right a3 (by positivity)
    refine (abs_sub_le _ _ _).trans ((add_le_add v3 a1).trans ?_)
    linarith

/-- the gradients of a list of layers -/
theorem grads_near (b : Build) {G d : ℝ} (hG : 0 ≤ G) (hd : 0 ≤ d) {ls : List RealLayer} {x : Nat → ℝ}
    {M e G' d' : ℝ} {bs : List (ℝ × ℝ)} (h : GradBounds G d ls x M e G' d' bs) (γ : Nat → ℝ) :
    ∀ (fs fs2 : List (FullyConnectedLayer F32)) (t gr : Nat → Tensor F32), ls = fs.map realLayer → 0 ≤ M → 0 ≤ e →
    (∀ l ∈ fs, l.Ok ∧ l.run_state = .Training ∧
      (∀ o i, o < l.weights.shape.di.toNat → i < l.weights.shape.dj.toNat →
        (val l.weights o i 0).isFinite = true) ∧
      ∀ o, o < l.weights.shape.di.toNat → (val l.bias o 0 0).isFinite = true) →
    (∀ (i : Nat) l, fs[i]? = some l → ∃ l2, fs2[i]? = some l2 ∧ Passes b l l2 (t i) (t (i + 1)) (gr (i + 1)) (gr i)) →
    Near (t 0) (fun i _ _ => x i) M e → Near (gr fs.length) (fun i _ _ => γ i) G d →
    Near (gr 0) (fun i _ _ => realBack ls x γ i) G' d' ∧
    ∀ (c : Nat) l l2 ew eb, fs[c]? = some l → fs2[c]? = some l2 → bs[c]? = some (ew, eb) →
      (∀ o i, o < l.weights.shape.di.toNat → i < l.weights.shape.dj.toNat → val l.weights_gradients o i 0 = zero →
        ∃ v, l2.weights_gradients.get_item b (ix o i 0) = .ok v ∧ v.isFinite = true ∧
          |v.toReal - realWeightGrad ls x γ c o i| ≤ ew) ∧
      (∀ o, o < l.weights.shape.di.toNat → val l.bias_gradients o 0 0 = zero →
        ∃ v, l2.bias_gradients.get_item b (ix o 0 0) = .ok v ∧ v.isFinite = true ∧
          |v.toReal - realBiasGrad ls x γ c o| ≤ eb) := by
  induction h with
  | nil x M e =>
    intro fs fs2 t gr hfs _ _ _ _ _ hg
    cases fs with
    | nil => exact ⟨hg, fun c l l2 ew eb hc => by cases hc⟩
    | cons f fs => cases hfs
  | cons l ls x M e A B C G1 d1 bs hr hc hsz hpos hfw hbw hrec hmar hrest ih =>
    intro fs fs2 t gr hfs hM he hok hpass hx hg
    cases fs with
    | nil => cases hfs
    | cons f fs =>
      obtain ⟨rfl, rfl⟩ := List.cons.inj hfs
      obtain ⟨f1, f2, f3, f4⟩ := hok f (List.mem_cons_self ..)
      obtain ⟨l2, e2, hp⟩ := hpass 0 f rfl
      obtain ⟨hA, hB, hC⟩ := hpos
      obtain ⟨hG1, hd1⟩ := gradBounds_nonneg hrest hG hd
      obtain ⟨s1, s2⟩ := fc_state_near f1 f2 hp hM he f3 f4 hr hsz.2 hfw hx
      obtain ⟨i1, i2⟩ := ih fs fs2.tail (fun i => t (i + 1)) (fun i => gr (i + 1)) rfl (by positivity)
        (outError_nonneg hA hB hM he) (fun m hm => hok m (List.mem_cons_of_mem _ hm))
        (fun i m hi => by
          obtain ⟨m2, g1, g2⟩ := hpass (i + 1) m hi
          refine ⟨m2, ?_, g2⟩
          rw [List.getElem?_tail]
          exact g1) s1 hg
      obtain ⟨j1, j2, j3⟩ := fc_grad_near f1 f2 hp hG1 hd1 f3 hc hsz.1 hbw hrec hx i1
        (fun o ho => s2 o ho (hmar o ho))
      refine ⟨j1, ?_⟩
      intro c m m2 ew eb g1 g2 g3
      cases c with
      | zero =>
        cases g1
        cases g3
        cases e2.symm.trans g2
        exact ⟨j2, j3⟩
      | succ c =>
        exact i2 c m m2 ew eb g1 (by rw [List.getElem?_tail]; exact g2) g3

/-- In a network of fully connected layers, `infer` and `backward` pass through every layer. -/
theorem net_passes (b : Build) {n : Net F32} (hn : Trains b n) {fs : List (FullyConnectedLayer F32)}
    (hfs : n.layers = fs.map .fc) (hne : fs ≠ []) {x g : Tensor F32} (hx : x.WF) (hxs : x.shape = n.input_shape)
    (hg : g.WF) (hgs : g.shape = n.output_shape) :
    ∃ (n1 n2 : Net F32) (fs2 : List (FullyConnectedLayer F32)), n.infer b x = .ok (.ok (), n1) ∧ n1.backward b g = .ok (.ok (), n2) ∧ n2.layers = fs2.map .fc ∧
      n1.intermediate_states[0]? = some x ∧ n2.intermediate_gradients[fs.length]? = some g ∧
      (∀ l ∈ fs, l.Ok ∧ l.run_state = .Training) ∧
      (∃ g0, n2.intermediate_gradients[0]? = some g0 ∧ g0.WF ∧ g0.shape = n.input_shape) ∧
      ∀ (i : Nat) l, fs[i]? = some l → ∃ l2, fs2[i]? = some l2 ∧ Passes b l l2
        ((n1.intermediate_states[i]?).getD x) ((n1.intermediate_states[i + 1]?).getD x)
        ((n2.intermediate_gradients[i + 1]?).getD g) ((n2.intermediate_gradients[i]?).getD g) := by
  obtain ⟨hok, ht⟩ := trains_ready hn
  have hne' : n.layers ≠ [] := by
    rw [hfs]
    exact fun h => hne (List.map_eq_nil_iff.mp h)
  have hbk : ∀ l ∈ n.layers, notConv l ∧ backable l := by
    intro l hl
    rw [hfs] at hl
    obtain ⟨f, _, rfl⟩ := List.mem_map.mp hl
    exact ⟨trivial, trivial⟩
  have hfo : ∀ l ∈ fs, l.Ok ∧ l.run_state = .Training := by
    intro l hl
    have : AnyLayer.fc l ∈ n.layers := by rw [hfs]; exact List.mem_map_of_mem hl
    exact ⟨hok.layers _ this, ht.layers _ this⟩
  obtain ⟨n1, i1, i2, i3⟩ := infer_ok (b := b) hok hne' hx hxs
  obtain ⟨n1', r, n2, j1, j2, j3⟩ := infer_backward_ok (b := b) hok ht hne' (fun l hl => (hbk l hl).1) hx hxs hg hgs
  obtain rfl : n1' = n1 := (Prod.mk.inj (Except.ok.inj (j1.symm.trans i1))).2
  have j3 := j3 fun l hl => (hbk l hl).2
  subst j3
  obtain ⟨c1, c2, c3⟩ := C43_chain b n1' n2 g j2
  have ht1 := infer_trainReady hok ht i1
  have ht2 := (trains_ready (.backward _ _ _ _ (.infer _ _ _ _ hn i1) hg j2)).2
  have hlen : n1'.layers.length = n.layers.length := forall₂_length (infer_effect n x _ i1).1
  have hlf : n.layers.length = fs.length := by rw [hfs, List.length_map]
  -- layer by layer
  have key : ∀ (i : Nat) l, fs[i]? = some l → ∃ l2, n2.layers[i]? = some (.fc l2) ∧ Passes b l l2
        ((n1'.intermediate_states[i]?).getD x) ((n1'.intermediate_states[i + 1]?).getD x)
        ((n2.intermediate_gradients[i + 1]?).getD g) ((n2.intermediate_gradients[i]?).getD g) := by
    intro i l hi
    have hi' : n.layers[i]? = some (.fc l) := by rw [hfs, List.getElem?_map, hi]; rfl
    obtain ⟨hlo, hlm⟩ := hfo l (List.mem_of_getElem? hi)
    obtain ⟨s, s', e1, e2, e3, out, l', e4, e5, e6, e7, e8, e9⟩ := i3 _ _ hi'
    obtain ⟨x', y', gi, og, og', l2, b1, b2, b3, b4, b5, b6, b7⟩ := c2 _ _ e4
    have hx' : x' = s := by
      unfold Network.get_intermediate_state at b1
      rw [e1] at b1
      exact (Except.ok.inj b1).symm
    have hy' : y' = s' := by
      unfold Network.get_intermediate_state at b2
      rw [e2] at b2
      exact (Except.ok.inj b2).symm
    subst hx' hy'
    have hog : og.WF ∧ og.shape = l.get_input_shape := by
      refine ⟨ht1.wf og (List.mem_of_getElem? b4), ?_⟩
      have := congrArg (fun q => q[i]?) ht1.grads
      simp only [List.getElem?_map, b4, e1, Option.map_some] at this
      exact (Option.some.inj this).trans e6
    have hgi : gi.WF ∧ gi.shape = l.get_output_shape := by
      refine ⟨ht2.wf gi (List.mem_of_getElem? b3), ?_⟩
      have := congrArg (fun q => q[i + 1]?) ht2.grads
      simp only [List.getElem?_map, b3, c3, e2, Option.map_some] at this
      exact (Option.some.inj this).trans e3.2.1
    have hfit : (⟨x', gi, out, og⟩ : Round F32).FitsFC l := ⟨⟨e5, e6⟩, hgi, ⟨e7, e8⟩, hog⟩
    obtain ⟨l1, out', l2', og2, f1, f2, _⟩ := C28_round b l hlo hlm ⟨x', gi, out, og⟩ hfit
    have e9' : (AnyLayer.fc l).forward b x' out = .ok (.ok (), .fc l1, out') := by
      change FullyConnectedLayer.forward b l x' out >>= _ = _
      rw [f1]
      rfl
    obtain ⟨_, e10⟩ := Prod.mk.inj (Except.ok.inj (e9.symm.trans e9'))
    obtain ⟨rfl, rfl⟩ := Prod.mk.inj e10
    have b7' : (AnyLayer.fc l1).backward b x' y' gi og = .ok (.ok (), .fc l2', og2) := by
      change FullyConnectedLayer.backward b l1 x' y' gi og >>= _ = _
      rw [f2]
      rfl
    obtain ⟨_, e11⟩ := Prod.mk.inj (Except.ok.inj (b7.symm.trans b7'))
    obtain ⟨rfl, rfl⟩ := Prod.mk.inj e11
    refine ⟨l2', b6, ?_⟩
    rw [e1, e2, b3, b5]
    exact ⟨l1, out, og, hfit, f1, f2⟩
  have hlen2 : n2.layers.length = n1'.layers.length := forall₂_length (backward_effect n1' g _ j2).1
  have hfs2 : ∃ fs2 : List (FullyConnectedLayer F32), n2.layers = fs2.map .fc := by
    have : ∀ l ∈ n2.layers, ∃ f, l = AnyLayer.fc f := by
      intro l hl
      obtain ⟨i, hi, rfl⟩ := List.mem_iff_getElem.mp hl
      obtain ⟨l2, e, _⟩ := key i fs[i] (List.getElem?_eq_getElem (by omega))
      rw [List.getElem?_eq_getElem hi] at e
      exact ⟨l2, Option.some.inj e⟩
    generalize n2.layers = q at this
    clear * - this
    induction q with
    | nil => exact ⟨[], rfl⟩
    | cons a as ih =>
      obtain ⟨f, rfl⟩ := this a (List.mem_cons_self ..)
      obtain ⟨fs, rfl⟩ := ih fun l hl => this l (List.mem_cons_of_mem _ hl)
      exact ⟨f :: fs, rfl⟩
  obtain ⟨fs2, hfs2⟩ := hfs2
  refine ⟨n1', n2, fs2, i1, j2, hfs2, i2, ?_, hfo, ?_, ?_⟩
  · have h : n1'.get_layers.length = fs.length := hlen.trans hlf
    rw [← h]
    exact c1
  · have hpos : 0 < fs.length := List.length_pos_of_ne_nil hne
    have h0 : n.layers[0]? = some (.fc fs[0]) := by
      rw [hfs, List.getElem?_map, List.getElem?_eq_getElem hpos]; rfl
    obtain ⟨s, s', e1, _, _, _, _, e4, _⟩ := i3 0 _ h0
    obtain ⟨_, _, _, _, og', _, _, _, _, _, b5, _⟩ := c2 0 _ e4
    refine ⟨og', b5, ht2.wf og' (List.mem_of_getElem? b5), ?_⟩
    have := congrArg (fun q => q[0]?) ht2.grads
    simp only [List.getElem?_map, b5, c3, i2, Option.map_some] at this
    exact (Option.some.inj this).trans hxs
  · intro i l hi
    obtain ⟨l2, e, h⟩ := key i l hi
    rw [hfs2, List.getElem?_map] at e
    cases h2 : fs2[i]? with
    | none => rw [h2] at e; cases e
    | some m =>
      rw [h2] at e
      cases e
      exact ⟨_, rfl, h⟩

/-- a list of layers that fit together -/
theorem dims_of_links : ∀ (fs : List (FullyConnectedLayer F32)) (m : Nat), (∀ l ∈ fs, l.Ok) →
      (∀ i l l', fs[i]? = some l → fs[i + 1]? = some l' → l.get_output_shape = l'.get_input_shape) →
      (∀ l, fs.getLast? = some l → m = l.weights.shape.di.toNat) → ∀ l ls, fs = l :: ls →
      Dims l.weights.shape.dj.toNat (fs.map realLayer) m := by
  intro fs
  induction fs with
  | nil => intro m _ _ _ l ls h; cases h
  | cons f fs ih =>
    intro m h1 h2 h3 l ls h
    obtain ⟨rfl, rfl⟩ := List.cons.inj h
    refine .cons (realLayer f) _ m ?_
    cases fs with
    | nil =>
      rw [h3 f rfl]
      exact .nil _
    | cons f' fs =>
      have := ih m (fun l hl => h1 l (List.mem_cons_of_mem _ hl)) (fun i l l' a c => h2 (i + 1) l l' a c)
        (fun l hl => h3 l (by rw [List.getLast?_cons_cons]; exact hl)) f' fs rfl
      have e := h2 0 f f' rfl rfl
      unfold FullyConnectedLayer.get_output_shape FullyConnectedLayer.get_input_shape at e
      rw [(h1 f (List.mem_cons_self ..)).rows] at e
      have e := congrArg (fun s => s.di.toNat) e
      simp only at e
      rw [show (realLayer f).rows = f'.weights.shape.dj.toNat from e]
      exact this

/-- the layers of a network fit together -/
theorem net_dims {n : Net F32} (hok : NetOk n) {fs : List (FullyConnectedLayer F32)} (hfs : n.layers = fs.map .fc)
    (hne : fs ≠ []) : Dims n.input_shape.di.toNat (fs.map realLayer) n.output_shape.di.toNat := by
  cases fs with
  | nil => exact absurd rfl hne
  | cons f fs =>
    have hfo : ∀ l ∈ f :: fs, l.Ok := fun l hl => hok.layers (.fc l) (by rw [hfs]; exact List.mem_map_of_mem hl)
    have e0 : n.input_shape.di.toNat = f.weights.shape.dj.toNat := by
      have := hok.chain.first (.fc f) (by rw [hfs]; rfl)
      unfold Network.get_input_shape at this
      rw [this]
      rfl
    rw [e0]
    refine dims_of_links (f :: fs) _ hfo ?_ ?_ f fs rfl
    · intro i l l' h1 h2
      exact hok.chain.links i (.fc l) (.fc l') (by rw [hfs, List.getElem?_map, h1]; rfl)
        (by rw [hfs, List.getElem?_map, h2]; rfl)
    · intro l hl
      have := hok.chain.last (.fc l) (by rw [hfs, List.getLast?_map, hl]; rfl)
      unfold Network.get_output_shape at this
      rw [this]
      change l.bias.shape.di.toNat = _
      rw [(hfo l (List.mem_of_getLast? hl)).rows]

omit [Libm] in
/-- margins keep the relus away from their kinks -/
theorem gradBounds_noKink {G d : ℝ} {ls : List RealLayer} {x : Nat → ℝ} {M e G' d' : ℝ} {bs : List (ℝ × ℝ)}
    (h : GradBounds G d ls x M e G' d' bs) (hM : 0 ≤ M) (he : 0 ≤ e) : NoKink ls x := by
  induction h with
  | nil => trivial
  | cons l ls x M e A B C G1 d1 bs _ _ _ hp _ _ _ hmar _ ih =>
    have h0 := outError_nonneg (n := l.cols) hp.1 hp.2.1 hM he
    refine ⟨fun o ho hz => ?_, ih (by
      obtain ⟨hA, hB, _⟩ := hp
      positivity) h0⟩
    have := hmar o ho
    rw [hz, abs_zero] at this
    linarith

end Rusty
