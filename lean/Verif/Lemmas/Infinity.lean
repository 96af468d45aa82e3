import Verif.Lemmas.NaNInput
import Verif.Lemmas.IEEEError
import Verif.Lemmas.IEEEVoid

/-! # Helper lemmas: infinities in the input of a layer -/

namespace Rusty

open Spec

namespace F32

variable [Libm]

omit [Libm] in
theorem bad_add_left {x : F32} (y : F32) (h : x.isFinite = false) : (F32.add x y).isFinite = false := by
  cases hf : (F32.add x y).isFinite
  · rfl
  · rw [(finite_of_add hf).1] at h
    cases h

omit [Libm] in
theorem bad_add_right (x : F32) {y : F32} (h : y.isFinite = false) : (F32.add x y).isFinite = false := by
  cases hf : (F32.add x y).isFinite
  · rfl
  · rw [(finite_of_add hf).2] at h
    cases h

omit [Libm] in
theorem bad_mul_right (x : F32) {y : F32} (h : y.isFinite = false) : (F32.mul x y).isFinite = false := by
  cases hf : (F32.mul x y).isFinite
  · rfl
  · rw [(finite_of_mul hf).2] at h
    cases h

theorem foldl_bad_start (L : List F32) (s : F32) (hs : s.isFinite = false) :
    (L.foldl F32Ops.add s).isFinite = false := by
  induction L generalizing s with
  | nil => exact hs
  | cons z L ih => exact ih _ (bad_add_left _ hs)

theorem sum_bad {L : List F32} (h : ∃ z ∈ L, z.isFinite = false) : (Spec.sum L).isFinite = false := by
  unfold Spec.sum
  generalize (F32Ops.zero : F32) = s
  induction L generalizing s with
  | nil => obtain ⟨z, hz, _⟩ := h; cases hz
  | cons y L ih =>
    obtain ⟨z, hz, hn⟩ := h
    rcases List.mem_cons.mp hz with rfl | hz
    · exact foldl_bad_start L (F32.add s z) (bad_add_right _ hn)
    · exact ih ⟨z, hz, hn⟩ _

omit [Libm] in
theorem bad_cases {v : F32} (h : v.isFinite = false) :
    v.isNaN = true ∨ v = ⟨0x7f800000⟩ ∨ v = ⟨0xff800000⟩ := by
  cases hn : v.isNaN
  · right
    have hc : v.code = infCode := by
      unfold isFinite at h
      unfold isNaN at hn
      simp only [decide_eq_false_iff_not] at h hn
      omega
    have hb := bits_eq v
    rw [hc] at hb
    cases hs : v.sign
    · left
      rw [hs] at hb
      rcases v with ⟨w⟩
      congr 1
      exact UInt32.toNat_inj.mp hb
    · right
      rw [hs] at hb
      rcases v with ⟨w⟩
      congr 1
      exact UInt32.toNat_inj.mp hb
  · exact .inl rfl

theorem act_inf (m : NetworkRunState) {v : F32} (hs : Summed v) (h : v = ⟨0x7f800000⟩) : act m v = ⟨0x7f800000⟩ := by
  rw [act_relu m hs, h]
  unfold relu
  rw [show F32Ops.gt (⟨0x7f800000⟩ : F32) F32Ops.zero = true by change F32.gt _ (mk' false 0) = true; decide]
  rfl

theorem act_neg_inf (m : NetworkRunState) {v : F32} (hs : Summed v) (h : v = ⟨0xff800000⟩) : act m v = ⟨0⟩ := by
  rw [act_relu m hs, h]
  unfold relu
  rw [show F32Ops.gt (⟨0xff800000⟩ : F32) F32Ops.zero = false by change F32.gt _ (mk' false 0) = false; decide]
  rfl

theorem act_bad (m : NetworkRunState) {v : F32} (hs : Summed v) (h : v.isFinite = false) :
    act m v = ⟨0⟩ ∨ act m v = ⟨0x7f800000⟩ := by
  rcases bad_cases h with h | h | h
  · exact .inl (act_nan m hs h)
  · exact .inr (act_inf m hs h)
  · exact .inl (act_neg_inf m hs h)

theorem preact_bad (l : FullyConnectedLayer F32) (x : Tensor F32) (o : Nat) {i : Nat}
    (hi : i < l.weights.shape.dj.toNat) (h : (val x i 0 0).isFinite = false) : (preact l x o).isFinite = false :=
  bad_add_left _ (sum_bad ⟨_, List.mem_map.mpr ⟨i, List.mem_range.mpr hi, rfl⟩, bad_mul_right _ h⟩)

omit [Libm] in
theorem add_finite_inf {x y : F32} (hx : x.isFinite = true) (hy : y.isInf = true) (hn : y.isNaN = false) :
    F32.add x y = y := by
  unfold F32.add
  rw [finite_nan hx, finite_inf hx, hy, hn]
  rfl

omit [Libm] in
theorem add_inf_finite {x y : F32} (hx : x.isInf = true) (hn : x.isNaN = false) (hy : y.isFinite = true) :
    F32.add x y = x := by
  unfold F32.add
  rw [finite_nan hy, finite_inf hy, hx, hn]
  rfl

theorem foldl_inf (L : List F32) {s : F32} (hs : s.isInf = true) (hn : s.isNaN = false)
    (hL : ∀ z ∈ L, z.isFinite = true) : L.foldl F32Ops.add s = s := by
  induction L with
  | nil => rfl
  | cons z L ih =>
    rw [List.foldl_cons, show F32Ops.add s z = s from add_inf_finite hs hn (hL z List.mem_cons_self)]
    exact ih fun y hy => hL y (List.mem_cons_of_mem _ hy)

/-- a sum of products one of which is infinite, the others being of moderate size -/
theorem dot_infinite {ι : Type} [DecidableEq ι] (L : List ι) (hL : L.Nodup) (hn : L.length < 2 ^ 22) (f g : ι → F32)
    {i : ι} (hi : i ∈ L) (h1 : (F32.mul (f i) (g i)).isInf = true) (h2 : (F32.mul (f i) (g i)).isNaN = false)
    (hf : ∀ n ∈ L, n ≠ i → (f n).isFinite = true ∧ (g n).isFinite = true)
    (hA : ((L.filter fun n => n ≠ i).map fun n => |(f n).toReal * (g n).toReal|).sum ≤ 2 ^ 125) :
    Spec.sum (L.map fun n => F32.mul (f n) (g n)) = F32.mul (f i) (g i) := by
  obtain ⟨A, B, rfl⟩ := List.append_of_mem hi
  have hd := List.nodup_append.mp hL
  have hA' : ∀ n ∈ A, n ≠ i := fun n hn => hd.2.2 n hn i List.mem_cons_self
  have hB' : ∀ n ∈ B, n ≠ i := fun n hn he => (List.nodup_cons.mp hd.2.1).1 (he ▸ hn)
  have hfil : ((A ++ i :: B).filter fun n => n ≠ i) = A ++ B := by
    rw [List.filter_append, List.filter_cons_of_neg (by simp), List.filter_eq_self.mpr (by simpa using hA'),
      List.filter_eq_self.mpr (by simpa using hB')]
  rw [hfil, List.map_append, List.sum_append] at hA
  have nn : ∀ C : List ι, 0 ≤ (C.map fun n => |(f n).toReal * (g n).toReal|).sum := fun C =>
    List.sum_nonneg fun x hx => by
      obtain ⟨n, _, rfl⟩ := List.mem_map.mp hx
      exact abs_nonneg _
  have hAs : (Spec.sum (A.map fun n => F32.mul (f n) (g n))).isFinite = true :=
    dot_finite A f g (by rw [List.length_append] at hn; omega)
      (fun n hn => hf n (List.mem_append_left _ hn) (hA' n hn)) (by linarith [nn B])
  have hBs : ∀ z ∈ B.map fun n => F32.mul (f n) (g n), z.isFinite = true := by
    intro z hz
    obtain ⟨n, hn, rfl⟩ := List.mem_map.mp hz
    obtain ⟨p, q⟩ := hf n (List.mem_append_right _ (List.mem_cons_of_mem _ hn)) (hB' n hn)
    refine mul_finite p q ?_
    have : |(f n).toReal * (g n).toReal| ≤ (B.map fun n => |(f n).toReal * (g n).toReal|).sum :=
      List.single_le_sum (fun x hx => by
        obtain ⟨n, _, rfl⟩ := List.mem_map.mp hx
        exact abs_nonneg _) _ (List.mem_map.mpr ⟨n, hn, rfl⟩)
    have e : (2 : ℝ) ^ 125 ≤ 2 ^ 127 := pow_le_pow_right₀ (by norm_num) (by norm_num)
    linarith [nn A]
  unfold Spec.sum at hAs ⊢
  rw [List.map_append, List.foldl_append, List.map_cons, List.foldl_cons,
    show F32Ops.add _ (F32.mul (f i) (g i)) = F32.mul (f i) (g i) from add_finite_inf hAs h1 h2]
  exact foldl_inf _ h1 h2 hBs

omit [Libm] in
theorem mul_inf_right (w : F32) {x : F32} (hx : x.isInf = true) (hn : x.isNaN = false) :
    F32.mul w x = if w.isNaN || decide (w.code = 0) then nan else mk' (w.sign != x.sign) infCode := by
  unfold F32.mul
  simp only [hx, hn, Bool.or_false]
  cases hw : w.isNaN
  · cases hi : w.isInf
    · simp
    · have : w.code = infCode := by simpa [isInf] using hi
      have h0 : x.code ≠ 0 := by
        have : x.code = infCode := by simpa [isInf] using hx
        rw [this]
        decide
      have h1 : w.code ≠ 0 := by
        rw [this]
        decide
      simp [h0, h1]
  · simp

omit [Libm] in
theorem gt_zero_iff (w : F32) :
    F32.gt w ⟨0⟩ = (!(w.isNaN || decide (w.code = 0)) && !w.sign) := by
  unfold F32.gt
  rw [show (⟨0⟩ : F32).isNaN = false by decide, show (⟨0⟩ : F32).key = 0 by decide]
  unfold key
  cases w.isNaN
  · cases w.sign
    · simp [Nat.pos_iff_ne_zero]
    · simp
  · simp

omit [Libm] in
theorem zero_gt_iff (w : F32) :
    F32.gt ⟨0⟩ w = (!(w.isNaN || decide (w.code = 0)) && w.sign) := by
  unfold F32.gt
  rw [show (⟨0⟩ : F32).isNaN = false by decide, show (⟨0⟩ : F32).key = 0 by decide]
  unfold key
  cases w.isNaN
  · cases w.sign
    · simp
    · simp [Nat.pos_iff_ne_zero]
  · simp

omit [Libm] in
theorem pos_inf_eq : mk' false infCode = ⟨0x7f800000⟩ := by decide

omit [Libm] in
theorem neg_inf_eq : mk' true infCode = ⟨0xff800000⟩ := by decide

/-- the output of unit `o` if entry `i` of the input is infinite and all else is of moderate size -/
theorem act_infinite (m : NetworkRunState) (l : FullyConnectedLayer F32) (x : Tensor F32) (o : Nat) {i : Nat}
    (hn : l.weights.shape.dj.toNat < 2 ^ 22) (hi : i < l.weights.shape.dj.toNat) (hx : (val x i 0 0).isInf = true)
    (hf : ∀ n, n < l.weights.shape.dj.toNat → n ≠ i →
      (val l.weights o n 0).isFinite = true ∧ (val x n 0 0).isFinite = true)
    (hb : (val l.bias o 0 0).isFinite = true)
    (hA : (((List.range l.weights.shape.dj.toNat).filter fun n => n ≠ i).map fun n =>
      |(val l.weights o n 0).toReal * (val x n 0 0).toReal|).sum ≤ 2 ^ 125) :
    act m (preact l x o) = if (!((val l.weights o i 0).isNaN || decide ((val l.weights o i 0).code = 0)) &&
      ((val l.weights o i 0).sign == (val x i 0 0).sign)) then ⟨0x7f800000⟩ else ⟨0⟩ := by
  have hxn : (val x i 0 0).isNaN = false := by
    unfold isInf at hx
    unfold isNaN
    simp only [decide_eq_true_eq, decide_eq_false_iff_not] at hx ⊢
    omega
  have hm := mul_inf_right (val l.weights o i 0) hx hxn
  cases hw : ((val l.weights o i 0).isNaN || decide ((val l.weights o i 0).code = 0))
  · rw [hw] at hm
    simp only [Bool.false_eq_true, if_false] at hm
    have h1 : ∀ s, (mk' s infCode).isInf = true := by decide
    have h2 : ∀ s, (mk' s infCode).isNaN = false := by decide
    have hp : preact l x o = mk' ((val l.weights o i 0).sign != (val x i 0 0).sign) infCode := by
      have := dot_infinite (List.range l.weights.shape.dj.toNat) List.nodup_range (by rwa [List.length_range])
        (fun n => val l.weights o n 0) (fun n => val x n 0 0) (List.mem_range.mpr hi) (by rw [hm]; exact h1 _)
        (by rw [hm]; exact h2 _) (fun n hn => hf n (List.mem_range.mp hn)) hA
      change F32.add (Spec.sum ((List.range l.weights.shape.dj.toNat).map fun n =>
        F32.mul (val l.weights o n 0) (val x n 0 0))) _ = _
      rw [this, hm]
      exact add_inf_finite (h1 _) (h2 _) hb
    cases hs : ((val l.weights o i 0).sign == (val x i 0 0).sign)
    · rw [act_neg_inf m (summed_preact _ _ _) (hp.trans ?_)]
      · rfl
      · rw [← neg_inf_eq]
        simp only [bne, hs, Bool.not_false]
    · rw [act_inf m (summed_preact _ _ _) (hp.trans ?_)]
      · rfl
      · rw [← pos_inf_eq]
        simp only [bne, hs, Bool.not_true]
  · rw [hw] at hm
    rw [if_pos rfl] at hm
    refine act_nan m (summed_preact _ _ _) ?_
    refine void_nan_left _ (sum_nan ⟨_, List.mem_map.mpr ⟨i, List.mem_range.mpr hi, rfl⟩, ?_⟩)
    change (F32.mul _ _).isNaN = true
    rw [hm]
    exact nan_isNaN

end F32

end Rusty
