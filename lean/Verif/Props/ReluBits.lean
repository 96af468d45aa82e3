import Verif.Props.Elementwise
import Verif.Lemmas.IEEELaws

/-! # C14: `relu_self_and_store_mask` on the bits of f32 numbers -/

namespace Rusty

open F32Ops Spec F32

variable [Libm]

/-- C14 in f32, on the bits: the positive numbers are those with bits from `1` to `0x7f800000` (infinity). They are
kept and marked with `1.0`; every other number, zeros, negative numbers and NaN, becomes `0.0` and is marked with
`0.0`. -/
theorem C14_f32 (b : Build) (t m : Tensor F32) (h : t.WF) (hm : m.WF) (hs : t.shape = m.shape) :
    ∃ t' m', Tensor.relu_self_and_store_mask t m = (.ok (), t', m') ∧
      ∀ i j k, t.shape.Inside i j k → ∀ x, t.get_item b (ix i j k) = .ok x →
        (0 < x.bits.toNat ∧ x.bits.toNat ≤ 0x7f800000 →
          t'.get_item b (ix i j k) = .ok x ∧ m'.get_item b (ix i j k) = .ok ⟨0x3f800000⟩) ∧
        (x.bits.toNat = 0 ∨ 0x7f800000 < x.bits.toNat →
          t'.get_item b (ix i j k) = .ok ⟨0⟩ ∧ m'.get_item b (ix i j k) = .ok ⟨0⟩) := by
  obtain ⟨t', m', r1, -, -, -, -, r2⟩ := (C14_relu_mask b t m h hm).1 hs
  refine ⟨t', m', r1, fun i j k hin x hx => ?_⟩
  have e := r2 i j k hin
  rw [get_item_ok h hin] at hx
  rw [Except.ok.inj hx] at e
  have hi : infCode = 0x7f800000 := by decide
  have hz : (F32Ops.zero : F32) = ⟨0⟩ := by change mk' false 0 = _; decide
  have ho : (F32Ops.one : F32) = ⟨0x3f800000⟩ := by change mk' false (127 * 2 ^ 23) = _; decide
  have hzk : (⟨0⟩ : F32).key = 0 := by decide
  have hzn : (⟨0⟩ : F32).isNaN = false := by decide
  have hb : x.bits.toNat < 2 ^ 32 := x.bits.toNat_lt
  rw [hz, ho] at e
  have hg : F32Ops.gt x ⟨0⟩ = (!x.isNaN && decide (0 < x.key)) := by
    change F32.gt x ⟨0⟩ = _
    unfold F32.gt
    rw [hzk, hzn]
    simp
  rw [hg] at e
  constructor
  · rintro ⟨p, q⟩
    apply e.1
    have hc : x.code = x.bits.toNat := by unfold code; omega
    have hsg : x.sign = false := by unfold sign; simp; omega
    have h1 : x.isNaN = false := by unfold isNaN; rw [hc, hi]; simp; omega
    have h2 : x.key = x.bits.toNat := by unfold key; rw [hsg, hc]; simp
    rw [h1, h2]
    simp
    omega
  · intro p
    apply e.2
    rcases p with p | p
    · have h2 : x.key = 0 := by unfold key code; rw [p]; simp
      rw [h2]; simp
    · by_cases hsg : 2 ^ 31 ≤ x.bits.toNat
      · have h2 : x.key ≤ 0 := by
          unfold key sign; rw [if_pos (by simpa using hsg)]; omega
        have : ¬ 0 < x.key := by omega
        simp [this]
      · have hc : x.code = x.bits.toNat := by unfold code; omega
        have h1 : x.isNaN = true := by unfold isNaN; rw [hc, hi]; simpa using p
        simp [h1]

/-- the smallest positive number is kept, a NaN and minus zero are not -/
example : ∃ t' m', Tensor.relu_self_and_store_mask (⟨⟨1, 3, 3⟩, ⟨3, 1, 1⟩, [⟨1⟩, ⟨0x7fc00000⟩, ⟨0x80000000⟩]⟩ : Tensor F32)
      ⟨⟨1, 3, 3⟩, ⟨3, 1, 1⟩, [⟨7⟩, ⟨7⟩, ⟨7⟩]⟩ = (.ok (), t', m') ∧
    t'.data = [⟨1⟩, ⟨0⟩, ⟨0⟩] ∧ m'.data = [⟨0x3f800000⟩, ⟨0⟩, ⟨0⟩] := ⟨_, _, rfl, rfl, rfl⟩

end Rusty
