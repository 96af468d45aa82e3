import Verif.Lemmas.IEEEMonotone
import Verif.Lemmas.IEEESqrt
import Verif.Lemmas.IEEEAccuracy
import Verif.Lemmas.LayerDerivative
import Verif.Props.Equality

/-! # Helper lemmas: norms, and rounded sums of numbers that are not lowered -/

namespace Rusty

open F32Ops Spec F32

/-- finite sums of numbers, none of which is lowered, are not lowered -/
theorem foldl_add_mono {ι : Type} (L : List ι) (f g : ι → F32) (s : F32)
    (hf : ((L.map f).foldl F32.add s).isFinite = true) (hg : ((L.map g).foldl F32.add s).isFinite = true)
    (h : ∀ p ∈ L, (f p).isFinite = true → (g p).isFinite = true → (f p).toReal ≤ (g p).toReal) :
    ((L.map f).foldl F32.add s).toReal ≤ ((L.map g).foldl F32.add s).toReal := by
  induction L using List.reverseRecOn with
  | nil => exact le_refl _
  | append_singleton L a ih =>
    simp only [List.map_append, List.map_cons, List.map_nil, List.foldl_append, List.foldl_cons, List.foldl_nil]
      at hf hg ⊢
    obtain ⟨f1, f2⟩ := finite_of_add hf
    obtain ⟨g1, g2⟩ := finite_of_add hg
    exact add_mono hf hg (ih f1 g1 fun p hp => h p (List.mem_append_left _ hp))
      (h a (List.mem_append_right _ (List.mem_singleton_self a)) f2 g2)

theorem finite_of_sqrt {x : F32} (h : (F32.sqrt x).isFinite = true) : x.isFinite = true := by
  unfold F32.sqrt at h
  split at h
  · rw [nan_not_finite] at h; cases h
  · split at h
    · exact h
    · split at h
      · rw [nan_not_finite] at h; cases h
      · split at h
        · exact h
        · next h1 _ _ h2 =>
          simp only [Bool.not_eq_true] at h1 h2
          unfold isNaN at h1
          unfold isInf at h2
          rw [finite_iff]
          simp only [decide_eq_false_iff_not] at h1 h2
          omega

theorem toReal_sq (x : F32) : x.toReal ^ 2 = ((units x.code : ℝ) / 2 ^ 149) ^ 2 := by
  rw [toReal_eq, mul_pow]
  cases x.sign <;> simp

theorem squares_nonneg [Libm] {ι : Type} {f : ι → F32} (L : List ι)
    (hf : (Spec.sum (L.map fun p => F32.mul (f p) (f p))).isFinite = true) :
    0 ≤ (Spec.sum (L.map fun p => F32.mul (f p) (f p))).toReal := by
  have e : (L.map fun p => F32.mul (f p) (f p)) = (L.map f).map fun x => F32.mul x x := by
    rw [List.map_map]; rfl
  rw [e] at hf ⊢
  obtain ⟨s1, s2⟩ := squares_sum (L.map f)
  have hn : ∀ x ∈ L.map f, x.isNaN = false := fun x hx => by
    by_contra hc
    have := s1.mpr ⟨x, hx, by simpa using hc⟩
    rw [finite_nan hf] at this
    cases this
  rw [toReal_nonneg (s2 hn)]
  positivity

open Exact in
theorem norm_idx {t : Tensor ℝ} (ht : t.WF) :
    t.get_norm = Real.sqrt (∑ p ∈ idxSet t.shape, val t p.2.2 p.2.1 p.1 ^ 2) := by
  rw [C54_norm t ht, sum_indices_real]
  simp only [real_square, real_sqrt]
  exact congrArg _ (total_prod t.shape fun i j k => val t i j k ^ 2)

end Rusty
