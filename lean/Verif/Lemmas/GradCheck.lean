import Verif.Spec.GradCheck
import Verif.Lemmas.RealGradient

/-! # Helper lemmas: differences between networks in which the same units are active -/

namespace Rusty.Spec

/-- the difference of a relu that is on the same side twice -/
theorem relu_diff {p q : ℝ} (h : 0 < p ↔ 0 < q) : max 0 q - max 0 p = if 0 < p then q - p else 0 := by
  by_cases hp : 0 < p
  · rw [if_pos hp, max_eq_right hp.le, max_eq_right (h.mp hp).le]
  · rw [if_neg hp, max_eq_left (not_lt.mp hp), max_eq_left (not_lt.mp fun hq => hp (h.mpr hq)), sub_zero]

/-- two inputs that activate the same units -/
theorem net_diff {n m : Nat} {ls : List RealLayer} (hd : Dims n ls m) (g : Nat → ℝ) {x y : Nat → ℝ}
    (hs : SameUnits ls x ls y) :
    ∑ k ∈ Finset.range m, g k * (realNet ls y k - realNet ls x k) =
      ∑ i ∈ Finset.range n, realBack ls x g i * (y i - x i) := by
  induction hd generalizing x y with
  | nil n => rfl
  | cons l ls m _ ih =>
    rw [realNet, realNet, ih hs.2]
    simp only [realBack, Finset.sum_mul]
    rw [Finset.sum_comm]
    refine Finset.sum_congr rfl fun o ho => ?_
    unfold RealLayer.out
    rw [relu_diff (hs.1 o (Finset.mem_range.mp ho))]
    unfold RealLayer.through
    by_cases h : 0 < l.pre x o
    · simp only [if_pos h]
      unfold RealLayer.pre
      rw [add_sub_add_right_eq_sub, ← Finset.sum_sub_distrib, Finset.mul_sum]
      exact Finset.sum_congr rfl fun i _ => by ring
    · simp only [if_neg h]
      simp

/-- the parameters of the first layer change -/
theorem head_diff {m : Nat} {l l' : RealLayer} {ls : List RealLayer} (hd : Dims l.rows ls m) (g x : Nat → ℝ)
    (hs : SameUnits (l :: ls) x (l' :: ls) x) :
    ∑ k ∈ Finset.range m, g k * (realNet (l' :: ls) x k - realNet (l :: ls) x k) =
      ∑ o ∈ Finset.range l.rows, l.through x (realBack ls (l.out x) g) o * (l'.pre x o - l.pre x o) := by
  rw [realNet, realNet, net_diff hd g hs.2]
  refine Finset.sum_congr rfl fun o ho => ?_
  unfold RealLayer.out
  rw [relu_diff (hs.1 o (Finset.mem_range.mp ho))]
  unfold RealLayer.through
  by_cases h : 0 < l.pre x o
  · rw [if_pos h, if_pos h]
  · rw [if_neg h, if_neg h, mul_zero, zero_mul]

theorem weight_diff (l : RealLayer) (x : Nat → ℝ) {o i : Nat} (hi : i < l.cols) (t : ℝ) (o' : Nat) :
    (l.withWeight o i t).pre x o' - l.pre x o' = if o' = o then (t - l.weight o i) * x i else 0 := by
  change (∑ i' ∈ Finset.range l.cols, (if o' = o ∧ i' = i then t else l.weight o' i') * x i') + l.bias o' -
    ((∑ i' ∈ Finset.range l.cols, l.weight o' i' * x i') + l.bias o') = _
  rw [add_sub_add_right_eq_sub, ← Finset.sum_sub_distrib]
  by_cases h : o' = o
  · subst h
    simp only [true_and, if_true]
    rw [Finset.sum_eq_single i]
    · rw [if_pos rfl]; ring
    · intro i' _ hne
      rw [if_neg hne, sub_self]
    · intro hne
      exact absurd (Finset.mem_range.mpr hi) hne
  · simp [h]

theorem bias_diff (l : RealLayer) (x : Nat → ℝ) (o : Nat) (t : ℝ) (o' : Nat) :
    (l.withBias o t).pre x o' - l.pre x o' = if o' = o then t - l.bias o else 0 := by
  change (∑ i' ∈ Finset.range l.cols, l.weight o' i' * x i') + (if o' = o then t else l.bias o') -
    ((∑ i' ∈ Finset.range l.cols, l.weight o' i' * x i') + l.bias o') = _
  rw [add_sub_add_left_eq_sub]
  by_cases h : o' = o
  · subst h; simp
  · simp [h]

/-- one weight changes -/
theorem net_weight_diff {n m : Nat} {ls : List RealLayer} (hd : Dims n ls m) (g : Nat → ℝ) {x : Nat → ℝ}
    {c o i : Nat} {l : RealLayer} (hc : ls[c]? = some l) (ho : o < l.rows) (hi : i < l.cols) (t : ℝ)
    (hs : SameUnits ls x (ls.modify c fun l => l.withWeight o i t) x) :
    ∑ k ∈ Finset.range m, g k * (realNet (ls.modify c fun l => l.withWeight o i t) x k - realNet ls x k) =
      (t - l.weight o i) * realWeightGrad ls x g c o i := by
  induction hd generalizing x c with
  | nil n => cases hc
  | cons l0 ls m hd ih =>
    cases c with
    | zero =>
      cases hc
      simp only [List.modify_zero_cons] at hs ⊢
      rw [head_diff hd g x hs]
      simp only [weight_diff l x hi t, mul_ite, mul_zero]
      rw [Finset.sum_ite_eq' (Finset.range l.rows) o, if_pos (Finset.mem_range.mpr ho)]
      simp only [realWeightGrad]
      ring
    | succ c =>
      simp only [List.modify_succ_cons] at hs ⊢
      exact ih hc hs.2

/-- one bias changes -/
theorem net_bias_diff {n m : Nat} {ls : List RealLayer} (hd : Dims n ls m) (g : Nat → ℝ) {x : Nat → ℝ}
    {c o : Nat} {l : RealLayer} (hc : ls[c]? = some l) (ho : o < l.rows) (t : ℝ)
    (hs : SameUnits ls x (ls.modify c fun l => l.withBias o t) x) :
    ∑ k ∈ Finset.range m, g k * (realNet (ls.modify c fun l => l.withBias o t) x k - realNet ls x k) =
      (t - l.bias o) * realBiasGrad ls x g c o := by
  induction hd generalizing x c with
  | nil n => cases hc
  | cons l0 ls m hd ih =>
    cases c with
    | zero =>
      cases hc
      simp only [List.modify_zero_cons] at hs ⊢
      rw [head_diff hd g x hs]
      simp only [bias_diff l x o t, mul_ite, mul_zero]
      rw [Finset.sum_ite_eq' (Finset.range l.rows) o, if_pos (Finset.mem_range.mpr ho)]
      simp only [realBiasGrad]
      ring
    | succ c =>
      simp only [List.modify_succ_cons] at hs ⊢
      exact ih hc hs.2

/-- the layers have the same parameters, as far as they are used -/
def Agree (l l' : RealLayer) : Prop :=
  l.rows = l'.rows ∧ l.cols = l'.cols ∧ ∀ o < l.rows, (∀ i < l.cols, l.weight o i = l'.weight o i) ∧ l.bias o = l'.bias o

theorem agree_net {n m : Nat} {ls : List RealLayer} (hd : Dims n ls m) : ∀ {ls' : List RealLayer} {x y : Nat → ℝ},
    List.Forall₂ Agree ls ls' → (∀ i < n, x i = y i) → ∀ k < m, realNet ls x k = realNet ls' y k := by
  induction hd with
  | nil n =>
    intro ls' x y h hx k hk
    cases h
    exact hx k hk
  | cons l ls m _ ih =>
    intro ls' x y h hx k hk
    cases h with
    | cons h hs =>
      refine ih hs (fun o ho => ?_) k hk
      unfold RealLayer.out RealLayer.pre
      rw [(h.2.2 o ho).2, ← h.2.1]
      congr 2
      refine Finset.sum_congr rfl fun i hi => ?_
      rw [(h.2.2 o ho).1 i (Finset.mem_range.mp hi), hx i (Finset.mem_range.mp hi)]

/-- from exact outputs and gradients to computed ones; `h` are the changes and `D` the gradients -/
theorem checks_near {m n : Nat} {g p q u v h D r : Nat → ℝ} {e e' d : ℝ}
    (hD : ∑ k ∈ Finset.range m, g k * (q k - p k) = ∑ i ∈ Finset.range n, h i * D i)
    (hu : ∀ k < m, |u k - p k| ≤ e) (hv : ∀ k < m, |v k - q k| ≤ e') (hr : ∀ i < n, |r i - D i| ≤ d) :
    |(∑ k ∈ Finset.range m, g k * (v k - u k)) - ∑ i ∈ Finset.range n, h i * r i| ≤
      (e + e') * (∑ k ∈ Finset.range m, |g k|) + (∑ i ∈ Finset.range n, |h i|) * d := by
  have e1 : (∑ k ∈ Finset.range m, g k * (v k - u k)) - ∑ i ∈ Finset.range n, h i * r i =
      (∑ k ∈ Finset.range m, g k * ((v k - q k) - (u k - p k))) - ∑ i ∈ Finset.range n, h i * (r i - D i) := by
    have e2 : (∑ k ∈ Finset.range m, g k * (v k - u k)) =
        (∑ k ∈ Finset.range m, g k * ((v k - q k) - (u k - p k))) +
          ∑ k ∈ Finset.range m, g k * (q k - p k) := by
      rw [← Finset.sum_add_distrib]
      exact Finset.sum_congr rfl fun k _ => by ring
    have e3 : ∑ i ∈ Finset.range n, h i * (r i - D i) =
        (∑ i ∈ Finset.range n, h i * r i) - ∑ i ∈ Finset.range n, h i * D i := by
      rw [← Finset.sum_sub_distrib]
      exact Finset.sum_congr rfl fun k _ => by ring
    rw [e2, e3, hD]
    ring
  rw [e1]
  refine (abs_sub _ _).trans (add_le_add ?_ ?_)
  · refine (Finset.abs_sum_le_sum_abs _ _).trans ?_
    rw [Finset.mul_sum]
    refine Finset.sum_le_sum fun k hk => ?_
    rw [abs_mul, mul_comm]
    refine mul_le_mul_of_nonneg_right ?_ (abs_nonneg _)
    have := hu k (Finset.mem_range.mp hk)
    have := hv k (Finset.mem_range.mp hk)
    exact (abs_sub _ _).trans (by linarith)
  · refine (Finset.abs_sum_le_sum_abs _ _).trans ?_
    rw [Finset.sum_mul]
    refine Finset.sum_le_sum fun k hk => ?_
    rw [abs_mul]
    exact mul_le_mul_of_nonneg_left (hr k (Finset.mem_range.mp hk)) (abs_nonneg _)

theorem check_near {m : Nat} {g p q u v : Nat → ℝ} {h D r e e' ew : ℝ}
    (hD : ∑ k ∈ Finset.range m, g k * (q k - p k) = h * D) (hu : ∀ k < m, |u k - p k| ≤ e)
    (hv : ∀ k < m, |v k - q k| ≤ e') (hr : |r - D| ≤ ew) :
    |(∑ k ∈ Finset.range m, g k * (v k - u k)) - h * r| ≤
      (e + e') * (∑ k ∈ Finset.range m, |g k|) + |h| * ew := by
  have := checks_near (n := 1) (h := fun _ => h) (D := fun _ => D) (r := fun _ => r)
    (hD.trans (Finset.sum_range_one fun _ => h * D).symm) hu hv (fun _ _ => hr)
  rwa [Finset.sum_range_one, Finset.sum_range_one] at this

end Rusty.Spec
