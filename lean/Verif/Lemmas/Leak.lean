import Verif.Spec.Leak
import Verif.Lemmas.IEEEVoid
import Verif.Lemmas.NaNInput
import Verif.Lemmas.Twins
import Verif.Lemmas.Batch
import Verif.Lemmas.Balance

/-! # Helper lemmas: the gradients of one example -/

namespace Rusty

open Spec

namespace F32

variable [Libm]

omit [Libm] in
theorem zero_add_comm {z : F32} (hz : z.code = 0) (x : F32) : F32.add z x = F32.add x z := by
  obtain ⟨h1, h2, h3⟩ := zero_tests hz
  unfold F32.add
  rw [h1, h2, h3, Bool.or_false, Bool.false_or, Int.add_comm, Bool.and_comm z.sign]
  simp only [Bool.false_eq_true, if_false, Bool.false_and]

omit [Libm] in
theorem zero_add_any {z x : F32} (hz : z.code = 0) (hx : x.isNaN = false) : SameNumber (F32.add z x) x := by
  rw [zero_add_comm hz]
  exact add_zero_any hx hz

omit [Libm] in
theorem same_trans {x y z : F32} (h1 : SameNumber x y) (h2 : SameNumber y z) : SameNumber x z := by
  rcases h1 with rfl | ⟨a, b⟩
  · exact h2
  · rcases h2 with rfl | ⟨c, d⟩
    · exact .inr ⟨a, b⟩
    · exact .inr ⟨a, d⟩

omit [Libm] in
theorem same_symm {x y : F32} (h : SameNumber x y) : SameNumber y x := by
  rcases h with rfl | ⟨a, b⟩
  · exact .inl rfl
  · exact .inr ⟨b, a⟩

omit [Libm] in
theorem same_nan {x y : F32} (h : SameNumber x y) : x.isNaN = y.isNaN := (zeq_iff.mp h).1

omit [Libm] in
/-- what is recorded for a weight is what is recorded for the bias times the input -/
theorem leak {z z' z'' : F32} (hz : z.code = 0) (hz' : z'.code = 0) (hz'' : z''.code = 0) (m s : F32) :
    SameValue (F32.add z (F32.add z' (F32.mul m s))) (F32.mul (F32.add z'' m) s) := by
  cases hm : m.isNaN
  · have q := mul_zeq_left s (zero_add_any hz'' hm)
    cases hp : (F32.mul m s).isNaN
    · right
      have r1 := zero_add_any hz' hp
      have r2 := zero_add_any hz (show (F32.add z' (F32.mul m s)).isNaN = false by rw [same_nan r1, hp])
      exact same_trans r2 (same_trans r1 (same_symm q))
    · exact .inl ⟨void_nan_right _ (void_nan_right _ hp), by rw [same_nan q, hp]⟩
  · exact .inl ⟨void_nan_right _ (void_nan_right _ (void_mul_nan _ hm)), void_mul_nan _ (void_nan_right _ hm)⟩

end F32

end Rusty
