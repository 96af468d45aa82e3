import Verif.Lemmas.Folding
import Mathlib.Algebra.Polynomial.Roots
import Mathlib.Data.Finset.Max
import Mathlib.Analysis.SpecialFunctions.Log.Basic

/-! # Helper lemmas: fitting examples -/

namespace Rusty

open F32Ops Spec Exact

/-! ## One number per input -/

/-- finitely many different vectors are told apart by some weighted sum -/
theorem separates (n : Nat) (X : Finset (Nat → ℝ)) :
    ∃ v : Nat → ℝ, ∀ x ∈ X, ∀ y ∈ X, ∑ i ∈ Finset.range n, v i * x i = ∑ i ∈ Finset.range n, v i * y i →
      ∀ i < n, x i = y i := by
  classical
  let P : (Nat → ℝ) × (Nat → ℝ) → Polynomial ℝ := fun p =>
    ∑ i ∈ Finset.range n, Polynomial.monomial i (p.1 i - p.2 i)
  let R : Finset ℝ := (X ×ˢ X).biUnion fun p => (P p).roots.toFinset
  obtain ⟨t, ht⟩ := R.exists_notMem
  refine ⟨fun i => t ^ i, fun x hx y hy h i hi => ?_⟩
  have hcoef : ∀ i < n, (P (x, y)).coeff i = x i - y i := by
    intro i hi
    simp only [P, Polynomial.finsetSum_coeff, Polynomial.coeff_monomial]
    rw [Finset.sum_ite_eq' (Finset.range n) i, if_pos (Finset.mem_range.mpr hi)]
  by_cases h0 : P (x, y) = 0
  · have := hcoef i hi
    rw [h0, Polynomial.coeff_zero] at this
    linarith
  · refine absurd ?_ ht
    refine Finset.mem_biUnion.mpr ⟨(x, y), Finset.mem_product.mpr ⟨hx, hy⟩, ?_⟩
    rw [Multiset.mem_toFinset, Polynomial.mem_roots h0]
    unfold Polynomial.IsRoot
    simp only [P, Polynomial.eval_finsetSum, Polynomial.eval_monomial]
    rw [← sub_eq_zero, ← Finset.sum_sub_distrib] at h
    rw [← h]
    exact Finset.sum_congr rfl fun i _ => by ring

/-- any values at finitely many places are taken by a sum of ramps -/
theorem ramps (S : Finset ℝ) (f : ℝ → Nat → ℝ) :
    ∃ (q : Nat → ℝ) (w : Nat → Nat → ℝ), ∀ s ∈ S, ∀ o,
      ∑ h ∈ Finset.range S.card, w o h * max (s - q h) 0 = f s o := by
  classical
  induction S using Finset.induction_on_max with
  | empty => exact ⟨fun _ => 0, fun _ _ => 0, fun s hs => absurd hs (Finset.notMem_empty s)⟩
  | insert a S hlt ih =>
    obtain ⟨q, w, ih⟩ := ih
    have ha : a ∉ S := fun h => lt_irrefl _ (hlt a h)
    obtain ⟨c, hc, hca⟩ : ∃ c, (∀ x ∈ S, x ≤ c) ∧ c < a := by
      by_cases hS : S.Nonempty
      · exact ⟨S.max' hS, fun x hx => S.le_max' x hx, hlt _ (S.max'_mem hS)⟩
      · rw [Finset.not_nonempty_iff_eq_empty] at hS
        exact ⟨a - 1, fun x hx => by rw [hS] at hx; exact absurd hx (Finset.notMem_empty x), by linarith⟩
    refine ⟨fun h => if h = S.card then c else q h, fun o h => if h = S.card then
      (f a o - ∑ h ∈ Finset.range S.card, w o h * max (a - q h) 0) / (a - c) else w o h, fun s hs o => ?_⟩
    rw [Finset.card_insert_of_notMem ha, Finset.sum_range_succ]
    beta_reduce
    rw [if_pos rfl, if_pos rfl]
    have hsum : ∀ s : ℝ, ∑ h ∈ Finset.range S.card, (if h = S.card then
        (f a o - ∑ h ∈ Finset.range S.card, w o h * max (a - q h) 0) / (a - c) else w o h) *
          max (s - if h = S.card then c else q h) 0 = ∑ h ∈ Finset.range S.card, w o h * max (s - q h) 0 :=
      fun s => Finset.sum_congr rfl fun h hh => by
        have : h ≠ S.card := (Finset.mem_range.mp hh).ne
        rw [if_neg this, if_neg this]
    rw [hsum]
    rcases Finset.mem_insert.mp hs with rfl | hs
    · rw [max_eq_left (by linarith)]
      have : s - c ≠ 0 := by linarith
      field_simp
      ring
    · rw [ih s hs o, max_eq_right (by linarith [hc s hs])]
      ring

/-! ## Layers with given parameters -/

/-- a fully connected layer with given weights and biases -/
noncomputable def fcOf (rows cols : UInt32) (w : Nat → Nat → ℝ) (β : Nat → ℝ) : FullyConnectedLayer ℝ :=
  let W : Tensor ℝ := tabulated (zeros ⟨rows, cols, 1⟩) fun o i _ => w o i
  let B : Tensor ℝ := tabulated (zeros ⟨rows, 1, 1⟩) fun o _ _ => β o
  ⟨W, zeros ⟨1, 1, 1⟩, zeros ⟨1, 1, 1⟩, B, zeros ⟨1, 1, 1⟩, zeros ⟨1, 1, 1⟩, "fc", .Inference⟩

theorem fcOf_ok {rows cols : UInt32} (h : rows.toNat * cols.toNat < 2 ^ 32) (w : Nat → Nat → ℝ) (β : Nat → ℝ) :
    (fcOf rows cols w β).Ok := by
  have f1 : (⟨rows, cols, 1⟩ : TensorShape).Fits := by
    refine ⟨h, ?_⟩
    change rows.toNat * cols.toNat * 1 < 2 ^ 32
    omega
  have f2 : (⟨rows, 1, 1⟩ : TensorShape).Fits := by
    have := rows.toNat_lt
    refine ⟨?_, ?_⟩
    · change rows.toNat * 1 < 2 ^ 32; omega
    · change rows.toNat * 1 * 1 < 2 ^ 32; omega
  exact ⟨tabulated_wf (zeros_wf f1) fun o i _ => w o i, tabulated_wf (zeros_wf f2) fun o _ _ => β o, rfl, rfl, fun h => by cases h⟩

theorem fcOf_value (rows cols : UInt32) (w : Nat → Nat → ℝ) (β : Nat → ℝ) (x : Tensor ℝ) {o : Nat}
    (ho : o < rows.toNat) (j k : Nat) : layerAt (.fc (fcOf rows cols w β)) x o j k =
      max ((∑ i ∈ Finset.range cols.toNat, w o i * val x i 0 0) + β o) 0 := by
  change act (fcOf rows cols w β).run_state (preact (fcOf rows cols w β) x o) = _
  rw [act_real]
  congr 1
  unfold preact
  rw [sum_range_real]
  simp only [real_add, real_mul]
  have hb : val (fcOf rows cols w β).bias o 0 0 = β o :=
    val_tabulated _ (fun o _ _ => β o) (⟨ho, Nat.one_pos, Nat.one_pos⟩ : (⟨rows, 1, 1⟩ : TensorShape).Inside o 0 0)
  rw [hb]
  congr 1
  refine Finset.sum_congr rfl fun i hi => ?_
  congr 1
  exact val_tabulated _ (fun o i _ => w o i)
    (⟨ho, Finset.mem_range.mp hi, Nat.one_pos⟩ : (⟨rows, cols, 1⟩ : TensorShape).Inside o i 0)

theorem fc_of_params {l : AnyLayer ℝ} {k : FullyConnectedLayer ℝ} (h : params l = params (.fc k)) :
    ∃ f, l = .fc f := by
  cases l with
  | fc f => exact ⟨f, rfl⟩
  | conv f => cases h
  | mp f => cases h
  | sm f => cases h

theorem two_layers {ls : List (AnyLayer ℝ)} {k1 k2 : FullyConnectedLayer ℝ}
    (h : ls.map params = [AnyLayer.fc k1, AnyLayer.fc k2].map params) :
    ∃ l1 l2, ls = [.fc l1, .fc l2] ∧ params (AnyLayer.fc l1) = params (.fc k1) ∧
      params (AnyLayer.fc l2) = params (.fc k2) := by
  obtain ⟨L1, r1, rfl, h1, h⟩ := List.map_eq_cons_iff.mp h
  obtain ⟨L2, r2, rfl, h2, h⟩ := List.map_eq_cons_iff.mp h
  obtain rfl := List.map_eq_nil_iff.mp h
  obtain ⟨l1, rfl⟩ := fc_of_params h1
  obtain ⟨l2, rfl⟩ := fc_of_params h2
  exact ⟨l1, l2, rfl, h1, h2⟩

/-! ## Logits -/

/-- the logarithms of a distribution, shifted so that none is negative -/
noncomputable def logits (y : Tensor ℝ) : Tensor ℝ :=
  tabulated y fun i j k => Real.log (val y i j k) + (y.data.map fun v => |Real.log v|).sum

theorem logits_wf {y : Tensor ℝ} (hy : y.WF) : (logits y).WF :=
  tabulated_wf hy fun i j k => Real.log (val y i j k) + (y.data.map fun v => |Real.log v|).sum

theorem logits_nonneg {y : Tensor ℝ} (hy : y.WF) : ∀ v ∈ (logits y).data, 0 ≤ v := by
  intro v hv
  obtain ⟨p, hp, rfl⟩ := List.mem_map.mp hv
  have hmem : val y p.1 p.2.1 p.2.2 ∈ y.data := by
    rw [data_indices hy]
    exact List.mem_map.mpr ⟨p, hp, rfl⟩
  have h := List.single_le_sum (l := y.data.map fun v => |Real.log v|)
    (fun z hz => by obtain ⟨u, _, rfl⟩ := List.mem_map.mp hz; exact abs_nonneg _) _ (List.mem_map_of_mem hmem)
  have h2 := neg_abs_le (Real.log (val y p.1 p.2.1 p.2.2))
  simp only at h ⊢
  linarith

theorem softmaxAt_real (x : Tensor ℝ) (i j k : Nat) : softmaxAt x i j k =
    Real.exp (val x i j k) / (x.shape.indices.map fun p => Real.exp (val x p.1 p.2.1 p.2.2)).sum := by
  unfold softmaxAt
  rw [sum_real]
  rfl

theorem softmaxAt_pos {x : Tensor ℝ} {i j k : Nat} (h : x.shape.Inside i j k) : 0 < softmaxAt x i j k := by
  rw [softmaxAt_real]
  have h1 := List.single_le_sum (l := x.shape.indices.map fun p => Real.exp (val x p.1 p.2.1 p.2.2))
    (fun z hz => by obtain ⟨u, _, rfl⟩ := List.mem_map.mp hz; exact (Real.exp_pos _).le) _
    (List.mem_map_of_mem (mem_indices.mpr h))
  exact div_pos (Real.exp_pos _) (lt_of_lt_of_le (Real.exp_pos _) h1)

theorem softmax_logits {y : Tensor ℝ} (hy : y.WF) (hpos : ∀ v ∈ y.data, 0 < v) (hsum : y.data.sum = 1) {i j k : Nat}
    (hin : y.shape.Inside i j k) : softmaxAt (logits y) i j k = val y i j k := by
  have key : ∀ p ∈ y.shape.indices, Real.exp (val (logits y) p.1 p.2.1 p.2.2) =
      val y p.1 p.2.1 p.2.2 * Real.exp (y.data.map fun v => |Real.log v|).sum := by
    intro p hp
    have hmem : val y p.1 p.2.1 p.2.2 ∈ y.data := by
      rw [data_indices hy]
      exact List.mem_map.mpr ⟨p, hp, rfl⟩
    have e : val (logits y) p.1 p.2.1 p.2.2 = _ :=
      val_tabulated y (fun i j k => Real.log (val y i j k) + (y.data.map fun v => |Real.log v|).sum) (mem_indices.mp hp)
    rw [e, Real.exp_add, Real.exp_log (hpos _ hmem)]
  rw [softmaxAt_real]
  change _ / (y.shape.indices.map fun p => Real.exp (val (logits y) p.1 p.2.1 p.2.2)).sum = _
  rw [List.map_congr_left key, List.sum_map_mul_right, ← data_indices hy, hsum, one_mul,
    key (i, j, k) (mem_indices.mpr hin), mul_div_assoc, div_self (Real.exp_pos _).ne', mul_one]

/-! ## Outputs of relu -/

theorem act_not_negative {F : Type} [F32Ops F] [F32Order F] [MaxZero F] (m : NetworkRunState) (v : F) (hv : Summed v) :
    gt zero (act m v) = false := by
  have h : act m v = if gt v zero then v else zero := by
    cases m with
    | Inference => exact MaxZero.fmax_zero v hv
    | Training => rfl
  rw [h]
  by_cases hp : gt v zero = true
  · rw [if_pos hp]
    by_contra hn
    have := F32Order.gt_trans _ _ _ hp (by simpa using hn)
    rw [F32Order.gt_irrefl] at this
    cases this
  · rw [if_neg hp]
    exact F32Order.gt_irrefl _

end Rusty
