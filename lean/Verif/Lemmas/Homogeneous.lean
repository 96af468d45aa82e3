import Verif.Lemmas.Infer
import Verif.Lemmas.Real
import Verif.Lemmas.Elementwise
import Verif.Spec.Homogeneous

/-! # Layers without biases are positively homogeneous -/

namespace Rusty

open F32Ops Spec Exact

/-- the scaled tensor, and all of its entries -/
theorem scaled_val {c : ℝ} {x y : Tensor ℝ} (hx : x.WF) (hy : y.WF) (h : Scaled c x y) (i j k : Nat) :
    val y i j k = c * val x i j k := by
  have e : y = { x with data := x.data.map (c * ·) } := by
    refine tensor_ext hy (wf_data hx _ (by simp)) h.1 fun i j k hin => ?_
    rw [h.2 i j k (h.1 ▸ hin), val_map hx _ (h.1 ▸ hin)]
  rw [e]
  unfold val
  simp only [List.getElem?_map]
  cases x.data[pos x.shape i j k]? <;> simp

theorem val_of_zeros {t : Tensor ℝ} (h : ∀ v ∈ t.data, v = 0) (i j k : Nat) : val t i j k = 0 := by
  unfold val
  cases e : t.data[pos t.shape i j k]? with
  | none => rfl
  | some v => exact h v (List.mem_of_getElem? e)

theorem act_scaled {c : ℝ} (hc : 0 ≤ c) (m : NetworkRunState) (v : ℝ) : act m (c * v) = c * act m v := by
  have key : act m (c * v) = max (c * v) 0 ∧ act m v = max v 0 := by
    have r : ∀ v : ℝ, relu v = max v 0 := fun v => by
      unfold relu
      by_cases h : (0 : ℝ) < v
      · rw [if_pos (by rw [real_gt]; exact h), max_eq_left h.le]
      · rw [if_neg (by rw [real_gt]; exact h), max_eq_right (not_lt.mp h)]; rfl
    cases m
    · exact ⟨rfl, rfl⟩
    · exact ⟨r _, r _⟩
  rw [key.1, key.2, mul_max_of_nonneg _ _ hc, mul_zero]

theorem act_nonneg (m : NetworkRunState) (v : ℝ) : 0 ≤ act m v := by
  cases m
  · exact le_max_right _ _
  · change 0 ≤ relu v
    unfold relu
    split
    · next h => rw [real_gt] at h; exact le_of_lt h
    · exact le_refl _

/-- the running maximum of entries that are not negative -/
theorem maxOf_nonneg (w : List ℝ) (hw : w ≠ []) (h : ∀ v ∈ w, 0 ≤ v) : 0 ≤ maxOf w := by
  have key : ∀ (w : List ℝ) (m : ℝ), 0 ≤ m → (∀ v ∈ w, 0 ≤ v) →
      0 ≤ w.foldl (fun m e => if gt e m then e else m) m := by
    intro w
    induction w with
    | nil => intro m hm _; exact hm
    | cons e w ih =>
      intro m hm h
      rw [List.foldl_cons]
      refine ih _ ?_ fun v hv => h v (List.mem_cons_of_mem _ hv)
      split
      · exact h e List.mem_cons_self
      · exact hm
  cases w with
  | nil => exact absurd rfl hw
  | cons e w =>
    have he := h e List.mem_cons_self
    change 0 ≤ w.foldl _ (if gt e (negInf : ℝ) then e else negInf)
    rw [if_pos (by rw [real_gt]; exact lt_of_lt_of_le (show (-2 ^ 128 : ℝ) < 0 by norm_num) he)]
    exact key w e he fun v hv => h v (List.mem_cons_of_mem _ hv)

theorem maxOf_scaled {c : ℝ} (hc : 0 ≤ c) (w : List ℝ) (hw : w ≠ []) (h : ∀ v ∈ w, 0 ≤ v) :
    maxOf (w.map (c * ·)) = c * maxOf w := by
  have key : ∀ (w : List ℝ) (m : ℝ), (w.map (c * ·)).foldl (fun m e => if gt e m then e else m) (c * m) =
      c * w.foldl (fun m e => if gt e m then e else m) m := by
    intro w
    induction w with
    | nil => intro m; rfl
    | cons e w ih =>
      intro m
      rw [List.map_cons, List.foldl_cons, List.foldl_cons, ← ih]
      congr 1
      by_cases hem : m < e
      · rw [if_pos (show gt e m = true by rw [real_gt]; exact hem)]
        by_cases h0 : c * m < c * e
        · rw [if_pos (by rw [real_gt]; exact h0)]
        · rw [if_neg (by rw [real_gt]; exact h0)]
          exact le_antisymm (mul_le_mul_of_nonneg_left hem.le hc) (not_lt.mp h0)
      · rw [if_neg (show ¬ gt e m = true by rw [real_gt]; exact hem),
          if_neg (by rw [real_gt]; exact not_lt.mpr (mul_le_mul_of_nonneg_left (not_lt.mp hem) hc))]
  cases w with
  | nil => exact absurd rfl hw
  | cons e w =>
    have he := h e List.mem_cons_self
    have low : ∀ {v : ℝ}, 0 ≤ v → gt v (negInf : ℝ) = true := fun hv => by
      rw [real_gt]; exact lt_of_lt_of_le (show (-2 ^ 128 : ℝ) < 0 by norm_num) hv
    change (w.map (c * ·)).foldl _ (if gt (c * e) (negInf : ℝ) then c * e else negInf) =
      c * w.foldl _ (if gt e (negInf : ℝ) then e else negInf)
    rw [if_pos (low (mul_nonneg hc he)), if_pos (low he)]
    exact key w e

theorem sum_scaled {α : Type} (c : ℝ) (l : List α) (f g : α → ℝ) (h : ∀ a ∈ l, g a = c * f a) :
    Spec.sum (l.map g) = c * Spec.sum (l.map f) := by
  rw [sum_real, sum_real, ← List.sum_map_mul_left]
  exact congrArg List.sum (List.map_congr_left h)

theorem window_ne {x : Tensor ℝ} {mask : TensorShape} {s i j k : Nat} (h : mask.di ≠ 0 ∧ mask.dj ≠ 0) :
    window x mask s i j k ≠ [] := by
  intro e
  have hm : (0, 0) ∈ idx2 mask.di.toNat mask.dj.toNat :=
    mem_idx2.mpr ⟨Nat.pos_of_ne_zero fun h' => h.1 (u32_ext h'), Nat.pos_of_ne_zero fun h' => h.2 (u32_ext h')⟩
  unfold window at e
  rw [List.map_eq_nil_iff.mp e] at hm
  cases hm

theorem window_nonneg {x : Tensor ℝ} {mask : TensorShape} {s i j k : Nat} (h : ∀ v ∈ x.data, 0 ≤ v) :
    ∀ v ∈ window x mask s i j k, 0 ≤ v := by
  intro v hv
  unfold window at hv
  obtain ⟨p, _, rfl⟩ := List.mem_map.mp hv
  simp only
  unfold val
  cases e : x.data[pos x.shape (i * s + p.1) (j * s + p.2) k]? with
  | none => exact le_refl _
  | some v => exact h v (List.mem_of_getElem? e)

/-- the outputs are not negative -/
theorem layerAt_nonneg {l : AnyLayer ℝ} (hl : Unbiased l) {x : Tensor ℝ}
    (h0 : (∃ m, l = .mp m) → ∀ v ∈ x.data, 0 ≤ v) (i j k : Nat) : 0 ≤ layerAt l x i j k := by
  cases l with
  | fc l => exact act_nonneg _ _
  | conv l => exact act_nonneg _ _
  | mp l => exact maxOf_nonneg _ (window_ne hl) (window_nonneg (h0 ⟨l, rfl⟩))
  | sm l => exact absurd hl id

/-- what a layer without biases does to a scaled input -/
theorem layerAt_scaled {c : ℝ} (hc : 0 ≤ c) {l : AnyLayer ℝ} (hl : Unbiased l) {x y : Tensor ℝ} (hx : x.WF)
    (hy : y.WF) (h : Scaled c x y) (h0 : (∃ m, l = .mp m) → ∀ v ∈ x.data, 0 ≤ v) (i j k : Nat) :
    layerAt l y i j k = c * layerAt l x i j k := by
  have hv := scaled_val hx hy h
  cases l with
  | fc l =>
    change act l.run_state (preact l y i) = c * act l.run_state (preact l x i)
    rw [← act_scaled hc]
    congr 1
    unfold preact
    rw [val_of_zeros hl]
    simp only [real_add, add_zero]
    exact sum_scaled c _ _ _ fun a _ => by simp only [real_mul]; rw [hv]; ring
  | conv l =>
    change act l.run_state (convPre l y i j k) = c * act l.run_state (convPre l x i j k)
    rw [← act_scaled hc]
    congr 1
    unfold convPre
    cases hk : l.kernels[k]? with
    | none => simp
    | some kernel =>
      cases hb : l.biases[k]? with
      | none => simp
      | some bias =>
        simp only
        rw [val_of_zeros (hl bias (List.mem_of_getElem? hb))]
        simp only [real_add, add_zero]
        unfold conv
        exact sum_scaled c _ _ _ fun a _ => by simp only [real_mul]; rw [hv]; ring
  | mp l =>
    change maxOf (window y _ _ i j k) = c * maxOf (window x _ _ i j k)
    have hw : window y l.mask_shape l.stride.toNat i j k =
        (window x l.mask_shape l.stride.toNat i j k).map (c * ·) := by
      unfold window
      rw [List.map_map]
      exact List.map_congr_left fun p _ => hv _ _ _
    rw [hw]
    exact maxOf_scaled hc _ (window_ne hl) (window_nonneg (h0 ⟨l, rfl⟩))
  | sm l => exact absurd hl id

end Rusty
