import Verif.Spec.Shorten
import Verif.Lemmas.Drift
import Verif.Lemmas.IEEEError
import Verif.Lemmas.Turned

/-! # Lemmas: shortened parameters (C131) -/

namespace Rusty

open F32Ops Spec F32

namespace F32

theorem shorten_eq {k : Nat} (hk : k ≤ 23) (x : F32) :
    (shorten k x).sign = x.sign ∧ (shorten k x).code = x.code / 2 ^ k * 2 ^ k := by
  obtain ⟨m, hm⟩ : ∃ m, 2 ^ 31 = 2 ^ k * m := ⟨2 ^ (31 - k), by rw [← pow_add]; congr 1; omega⟩
  have hlt : x.bits.toNat < 2 ^ 32 := x.bits.toNat_lt
  have hkp : 0 < 2 ^ k := Nat.two_pow_pos k
  have e : (shorten k x).bits.toNat = x.bits.toNat / 2 ^ k * 2 ^ k := by
    unfold shorten
    rw [UInt32.toNat_ofNat']
    exact Nat.mod_eq_of_lt ((Nat.div_mul_le_self _ _).trans_lt hlt)
  unfold sign code
  rw [e]
  generalize x.bits.toNat = a at *
  have h1 : 2 ^ 31 ≤ a / 2 ^ k * 2 ^ k ↔ 2 ^ 31 ≤ a := by
    constructor
    · exact fun h => h.trans (Nat.div_mul_le_self _ _)
    · intro h
      rw [hm, mul_comm (a / 2 ^ k)]
      refine Nat.mul_le_mul_left _ ?_
      rw [Nat.le_div_iff_mul_le hkp, mul_comm, ← hm]
      exact h
  refine ⟨by simp only [h1], ?_⟩
  rw [hm, Nat.mod_mul, mul_comm (a / 2 ^ k), Nat.mul_mod_right, Nat.mul_div_cancel_left _ hkp, zero_add,
    Nat.mod_mul_right_div_self, mul_comm]

/-- Clearing the lowest bits makes the magnitude smaller, by a small part of it or by a tiny amount. -/
theorem units_shorten {k : Nat} (hk : k ≤ 23) (c : Nat) : units (c / 2 ^ k * 2 ^ k) ≤ units c ∧
    2 ^ 23 * (units c - units (c / 2 ^ k * 2 ^ k)) ≤ 2 ^ k * units c + 2 ^ 23 * 2 ^ k := by
  have hkp : 0 < 2 ^ k := Nat.two_pow_pos k
  have hle := Nat.div_mul_le_self c (2 ^ k)
  refine ⟨units_le.mpr hle, ?_⟩
  have hmod : c / 2 ^ k * 2 ^ k + c % 2 ^ k = c := by rw [mul_comm]; exact Nat.div_add_mod c (2 ^ k)
  have hr : c % 2 ^ k < 2 ^ k := Nat.mod_lt _ hkp
  by_cases hc : c < 2 ^ 23
  · unfold units
    rw [if_pos hc, if_pos (by omega)]
    have : c - c / 2 ^ k * 2 ^ k ≤ 2 ^ k := by omega
    calc 2 ^ 23 * (c - c / 2 ^ k * 2 ^ k) ≤ 2 ^ 23 * 2 ^ k := Nat.mul_le_mul_left _ this
      _ ≤ _ := Nat.le_add_left _ _
  · obtain ⟨m, hm⟩ : ∃ m, 2 ^ 23 = 2 ^ k * m := ⟨2 ^ (23 - k), by rw [← pow_add]; congr 1; omega⟩
    have hmp : 0 < m := by
      rcases Nat.eq_zero_or_pos m with h | h
      · rw [h] at hm; simp at hm
      · exact h
    -- the exponent stays
    have hd : c / 2 ^ k * 2 ^ k / 2 ^ 23 = c / 2 ^ 23 := by
      rw [hm, ← Nat.div_div_eq_div_mul, Nat.mul_div_cancel _ hkp, Nat.div_div_eq_div_mul]
    have hge : 2 ^ 23 ≤ c / 2 ^ k * 2 ^ k := by
      have : 1 ≤ c / 2 ^ 23 := (Nat.one_le_div_iff (by norm_num)).mpr (by omega)
      rw [← hd] at this
      exact (Nat.one_le_div_iff (by norm_num)).mp this
    have q1 := Nat.div_add_mod c (2 ^ 23)
    have q2 := Nat.div_add_mod (c / 2 ^ k * 2 ^ k) (2 ^ 23)
    rw [hd] at q2
    unfold units
    rw [if_neg hc, if_neg (by omega), hd, ← Nat.sub_mul]
    have hs : 2 ^ 23 + c % 2 ^ 23 - (2 ^ 23 + c / 2 ^ k * 2 ^ k % 2 ^ 23) ≤ 2 ^ k := by omega
    generalize 2 ^ (c / 2 ^ 23 - 1) = E
    calc 2 ^ 23 * ((2 ^ 23 + c % 2 ^ 23 - (2 ^ 23 + c / 2 ^ k * 2 ^ k % 2 ^ 23)) * E)
        ≤ 2 ^ 23 * (2 ^ k * E) := Nat.mul_le_mul_left _ (Nat.mul_le_mul_right _ hs)
      _ = 2 ^ k * (2 ^ 23 * E) := by ring
      _ ≤ 2 ^ k * ((2 ^ 23 + c % 2 ^ 23) * E) :=
        Nat.mul_le_mul_left _ (Nat.mul_le_mul_right _ (Nat.le_add_right _ _))
      _ ≤ _ := Nat.le_add_right _ _

/-- A shortened number is finite if the number is, at most as large, and near it. -/
theorem shorten_near {k : Nat} (hk : k ≤ 23) (x : F32) :
    (x.isFinite = true → (shorten k x).isFinite = true) ∧ |(shorten k x).toReal| ≤ |x.toReal| ∧
    |(shorten k x).toReal - x.toReal| ≤ 2 ^ k / 2 ^ 23 * |x.toReal| + 2 ^ k / 2 ^ 149 := by
  obtain ⟨h1, h2⟩ := shorten_eq hk x
  obtain ⟨g1, g2⟩ := units_shorten hk x.code
  refine ⟨fun h => ?_, ?_⟩
  · unfold isFinite at h ⊢
    rw [h2]
    exact decide_eq_true ((Nat.div_mul_le_self _ _).trans_lt (of_decide_eq_true h))
  rw [toReal_eq, toReal_eq, h1, h2]
  generalize units (x.code / 2 ^ k * 2 ^ k) = v at *
  generalize units x.code = w at *
  have e1 : ∀ s : Bool, |(if s then (-1 : ℝ) else 1)| = 1 := by intro s; cases s <;> simp
  have v0 : (0 : ℝ) ≤ v := Nat.cast_nonneg v
  have w0 : (0 : ℝ) ≤ w := Nat.cast_nonneg w
  have g1' : (v : ℝ) ≤ w := Nat.cast_le.mpr g1
  have g2' : (2 : ℝ) ^ 23 * (w - v) ≤ 2 ^ k * w + 2 ^ 23 * 2 ^ k := by
    have : ((2 ^ 23 * (w - v) : Nat) : ℝ) ≤ ((2 ^ k * w + 2 ^ 23 * 2 ^ k : Nat) : ℝ) := Nat.cast_le.mpr g2
    rwa [Nat.cast_mul, Nat.cast_sub g1, Nat.cast_add, Nat.cast_mul, Nat.cast_mul, Nat.cast_pow, Nat.cast_pow,
      Nat.cast_ofNat] at this
  rw [← mul_sub, abs_mul, abs_mul, abs_mul, e1, one_mul, one_mul, one_mul, abs_of_nonneg (by positivity),
    abs_of_nonneg (show (0 : ℝ) ≤ w / 2 ^ 149 by positivity)]
  refine ⟨by gcongr, ?_⟩
  rw [← sub_div, abs_div, abs_of_nonpos (by linarith), abs_of_pos (show (0 : ℝ) < 2 ^ 149 by positivity)]
  rw [show (2 : ℝ) ^ k / 2 ^ 23 * (w / 2 ^ 149) + 2 ^ k / 2 ^ 149 = (2 ^ k * w + 2 ^ 23 * 2 ^ k) / 2 ^ 23 / 2 ^ 149 by
    field_simp]
  refine div_le_div_of_nonneg_right ?_ (by positivity)
  rw [le_div_iff₀ (by positivity)]
  linarith

end F32

/-- sums over shortened numbers -/
theorem short_sum {α : Type} {k : Nat} (hk : k ≤ 23) (is : List α) (f f' : α → F32)
    (h : ∀ i ∈ is, f' i = shorten k (f i)) :
    (is.map fun i => |(f' i).toReal|).sum ≤ (is.map fun i => |(f i).toReal|).sum ∧
    (is.map fun i => |(f' i).toReal - (f i).toReal|).sum ≤
      shortError k is.length (is.map fun i => |(f i).toReal|).sum := by
  induction is with
  | nil => simp [shortError]
  | cons i is ih =>
    obtain ⟨h1, h2⟩ := ih fun j hj => h j (List.mem_cons_of_mem _ hj)
    obtain ⟨_, g2, g3⟩ := shorten_near hk (f i)
    rw [← h i (List.mem_cons_self ..)] at g2 g3
    unfold shortError at h2 ⊢
    simp only [List.map_cons, List.sum_cons, List.length_cons, Nat.cast_add, Nat.cast_one]
    refine ⟨add_le_add g2 h1, ?_⟩
    linarith

theorem shortError_mono {k n m : Nat} {A B : ℝ} (h : n ≤ m) (hA : A ≤ B) :
    shortError k n A ≤ shortError k m B := by
  unfold shortError
  gcongr

theorem shortError_nonneg {k n : Nat} {A : ℝ} (hA : 0 ≤ A) : 0 ≤ shortError k n A := by
  unfold shortError
  positivity

variable [Libm]

/-- entries of the parameters of a shortened fully connected layer -/
theorem short_fc {k : Nat} {l l' : FullyConnectedLayer F32} (hl : l.Ok)
    (hw : ShortTensor k l.weights l'.weights) (hb : ShortTensor k l.bias l'.bias) {o : Nat}
    (ho : o < l.weights.shape.di.toNat) :
    (∀ i < l.weights.shape.dj.toNat, val l'.weights o i 0 = shorten k (val l.weights o i 0)) ∧
    val l'.bias o 0 0 = shorten k (val l.bias o 0 0) := by
  refine ⟨fun i hi => hw.2 o i 0 ⟨ho, hi, ?_⟩, hb.2 o 0 0 ?_⟩
  · rw [hl.depth]
    exact Nat.zero_lt_one
  · rw [hl.rows]
    exact col_inside ho

/-- shortened layers have the same error bounds -/
theorem accuracy_short {k : Nat} (hk : k ≤ 23) {ls : List (AnyLayer F32)} {M e M' e' : ℝ}
    (hA : Accuracy ls M e M' e') : (∀ l ∈ ls, l.Ok) → ∀ {ls' : List (AnyLayer F32)},
    List.Forall₂ (ShortLayer k) ls ls' → Accuracy ls' M e M' e' := by
  induction hA with
  | nil M e =>
    intro _ ls' h
    cases h
    exact .nil M e
  | fc l ls A B M e M' e' h1 h2 h3 h4 h5 h6 _ ih =>
    intro hok ls' h
    cases h with
    | @cons _ l' _ ls' h ht =>
      cases l' <;> first | exact h.elim | skip
      rename_i l'
      obtain ⟨q1, q2⟩ := h
      have hl : l.Ok := hok _ (List.mem_cons_self ..)
      refine .fc l' ls' A B M e M' e' (fun o i ho hi => ?_) (fun o ho => ?_) h3 h4 (by rw [q1.1]; exact h5) h6
        (by rw [q1.1]; exact ih (fun m hm => hok m (List.mem_cons_of_mem _ hm)) ht)
      · rw [q1.1] at ho hi
        rw [(short_fc hl q1 q2 ho).1 i hi]
        exact (shorten_near hk _).1 (h1 o i ho hi)
      · rw [q1.1] at ho ⊢
        obtain ⟨r1, r2⟩ := short_fc hl q1 q2 ho
        obtain ⟨s1, s2, s3⟩ := h2 o ho
        rw [r2]
        exact ⟨(shorten_near hk _).1 s1, (short_sum hk _ (fun i => val l.weights o i 0) (fun i => val l'.weights o i 0)
          fun i hi => r1 i (List.mem_range.mp hi)).1.trans s2, (shorten_near hk _).2.1.trans s3⟩
  | conv l ls n A B M e M' e' h1 h2 h3 h4 h5 h6 _ ih =>
    intro hok ls' h
    cases h with
    | @cons _ l' _ ls' h ht =>
      cases l' <;> first | exact h.elim | skip
      rename_i l'
      obtain ⟨_, q2, q3⟩ := h
      have hl : l.Ok := hok _ (List.mem_cons_self ..)
      refine .conv l' ls' n A B M e M' e' (fun kernel hm => ?_) (fun bias hm => ?_) h3 h4 h5 h6
        (ih (fun m hm => hok m (List.mem_cons_of_mem _ hm)) ht)
      · obtain ⟨c, hc, rfl⟩ := List.mem_iff_getElem.mp hm
        have hc' : c < l.kernels.length := q2.length_eq ▸ hc
        have hs : ShortTensor k l.kernels[c] l'.kernels[c] := (List.forall₂_iff_get.mp q2).2 c hc' hc
        obtain ⟨g1, g2, g3⟩ := h1 _ (List.getElem_mem hc')
        rw [hs.1]
        refine ⟨g1, fun i j m hin => ?_, ?_⟩
        · rw [hs.2 i j m hin]
          exact (shorten_near hk _).1 (g2 i j m hin)
        · exact (short_sum hk _ (fun p : Nat × Nat × Nat => val l.kernels[c] p.1 p.2.1 p.2.2)
            (fun p => val l'.kernels[c] p.1 p.2.1 p.2.2) fun p hp => hs.2 _ _ _ (mem_indices.mp hp)).1.trans g3
      · obtain ⟨c, hc, rfl⟩ := List.mem_iff_getElem.mp hm
        have hc' : c < l.biases.length := q3.length_eq ▸ hc
        have hs : ShortTensor k l.biases[c] l'.biases[c] := (List.forall₂_iff_get.mp q3).2 c hc' hc
        obtain ⟨g1, g2⟩ := h2 _ (List.getElem_mem hc')
        rw [hs.2 0 0 0 (by rw [(hl.biases _ (List.getElem_mem hc')).2]; exact ⟨Nat.one_pos, Nat.one_pos, Nat.one_pos⟩)]
        exact ⟨(shorten_near hk _).1 g1, (shorten_near hk _).2.1.trans g2⟩
  | mp l ls M e M' e' h1 h2 _ ih =>
    intro hok ls' h
    cases h with
    | @cons _ l' _ ls' h ht =>
      cases l' <;> first | exact h.elim | skip
      rename_i l'
      obtain ⟨q1, _⟩ := h
      exact .mp l' ls' M e M' e' (q1 ▸ h1) (q1 ▸ h2) (ih (fun m hm => hok m (List.mem_cons_of_mem _ hm)) ht)
  | sm l ls M e M' e' hE h1 h2 _ ih =>
    intro hok ls' h
    cases h with
    | @cons _ l' _ ls' h ht =>
      cases l' <;> first | exact h.elim | skip
      rename_i l'
      replace h : l'.shape = l.shape := h
      exact .sm l' ls' M e M' e' hE h1 (h ▸ h2)
        (by rw [h]; exact ih (fun m hm => hok m (List.mem_cons_of_mem _ hm)) ht)

/-- shortening changes the parameters as `Drift` says -/
theorem drift_short {k : Nat} (hk : k ≤ 23) {ls : List (AnyLayer F32)} {M d M' d' : ℝ}
    (hD : ShortDrift k ls M d M' d') : (∀ l ∈ ls, l.Ok) → ∀ {ls' : List (AnyLayer F32)},
    List.Forall₂ (ShortLayer k) ls ls' → Drift ls ls' M d M' d' := by
  induction hD with
  | nil M d =>
    intro _ ls' h
    cases h
    exact .nil M d
  | fc l ls A B M d M' d' h1 h2 h3 _ ih =>
    intro hok ls' h
    cases h with
    | @cons _ l' _ ls' h ht =>
      cases l' <;> first | exact h.elim | skip
      rename_i l'
      obtain ⟨q1, q2⟩ := h
      have hl : l.Ok := hok _ (List.mem_cons_self ..)
      refine .fc l l' ls ls' A B (shortError k l.weights.shape.dj.toNat A) (shortError k 1 B) M d M' d' q1.1
        (fun o ho => ?_) h2 h3 (shortError_nonneg h2) (shortError_nonneg h3)
        (ih (fun m hm => hok m (List.mem_cons_of_mem _ hm)) ht)
      obtain ⟨r1, r2⟩ := short_fc hl q1 q2 ho
      obtain ⟨s1, s2⟩ := h1 o ho
      refine ⟨s1, s2, ?_, ?_⟩
      · refine (short_sum hk _ (fun i => val l.weights o i 0) (fun i => val l'.weights o i 0)
          fun i hi => r1 i (List.mem_range.mp hi)).2.trans (shortError_mono List.length_range.le s1)
      · rw [r2]
        refine (shorten_near hk _).2.2.trans ?_
        unfold shortError
        rw [Nat.cast_one, one_mul]
        gcongr
  | conv l ls n A B M d M' d' h1 h2 h3 h4 _ ih =>
    intro hok ls' h
    cases h with
    | @cons _ l' _ ls' h ht =>
      cases l' <;> first | exact h.elim | skip
      rename_i l'
      obtain ⟨q1, q2, q3⟩ := h
      have hl : l.Ok := hok _ (List.mem_cons_self ..)
      refine .conv l l' ls ls' A B (shortError k n A) (shortError k 1 B) M d M' d' q1 q2.length_eq.symm
        (fun c kernel kernel' e1 e2 => ?_) (fun c bias bias' e1 e2 => ?_) h3 h4 (shortError_nonneg h3)
        (shortError_nonneg h4) (ih (fun m hm => hok m (List.mem_cons_of_mem _ hm)) ht)
      · obtain ⟨hc', rfl⟩ := List.getElem?_eq_some_iff.mp e1
        obtain ⟨hc, rfl⟩ := List.getElem?_eq_some_iff.mp e2
        have hs : ShortTensor k l.kernels[c] l'.kernels[c] := (List.forall₂_iff_get.mp q2).2 c hc' hc
        obtain ⟨g1, g2⟩ := h1 _ (List.getElem_mem hc')
        refine ⟨hs.1, g2, ?_⟩
        exact (short_sum hk _ (fun p : Nat × Nat × Nat => val l.kernels[c] p.1 p.2.1 p.2.2)
          (fun p => val l'.kernels[c] p.1 p.2.1 p.2.2) fun p hp => hs.2 _ _ _ (mem_indices.mp hp)).2.trans
          (shortError_mono ((indices_length _).trans_le g1) g2)
      · obtain ⟨hc', rfl⟩ := List.getElem?_eq_some_iff.mp e1
        obtain ⟨hc, rfl⟩ := List.getElem?_eq_some_iff.mp e2
        have hs : ShortTensor k l.biases[c] l'.biases[c] := (List.forall₂_iff_get.mp q3).2 c hc' hc
        have g2 := h2 _ (List.getElem_mem hc')
        rw [hs.2 0 0 0 (by rw [(hl.biases _ (List.getElem_mem hc')).2]; exact ⟨Nat.one_pos, Nat.one_pos, Nat.one_pos⟩)]
        refine ⟨g2, (shorten_near hk _).2.2.trans ?_⟩
        unfold shortError
        rw [Nat.cast_one, one_mul]
        gcongr
  | mp l ls M d M' d' h1 h2 _ ih =>
    intro hok ls' h
    cases h with
    | @cons _ l' _ ls' h ht =>
      cases l' <;> first | exact h.elim | skip
      rename_i l'
      exact .mp l l' ls ls' M d M' d' h1 h2 h.1 h.2 (ih (fun m hm => hok m (List.mem_cons_of_mem _ hm)) ht)
  | sm l ls M d M' d' _ ih =>
    intro hok ls' h
    cases h with
    | @cons _ l' _ ls' h ht =>
      cases l' <;> first | exact h.elim | skip
      rename_i l'
      exact .sm l l' ls ls' M d M' d' h (ih (fun m hm => hok m (List.mem_cons_of_mem _ hm)) ht)

end Rusty
