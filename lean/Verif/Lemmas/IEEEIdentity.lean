import Verif.Lemmas.IEEERounding
import Verif.Lemmas.IEEENetwork
import Verif.Lemmas.Split
import Verif.Spec.Identity

/-! # Helper lemmas: layers that do nothing -/

namespace Rusty

open F32Ops Spec F32

namespace F32

set_option exponentiation.threshold 500 in
/-- finite floats are below the overflow threshold -/
theorem toReal_in_range {u : F32} (hu : u.isFinite = true) : |u.toReal| < 2 ^ 128 - 2 ^ 103 := by
  have h1 := finite_iff.mp hu
  have h2 : units u.code ≤ 2 ^ 277 - 2 ^ 253 := by
    rw [← units_max]
    exact units_le.mpr (by omega)
  have h3 : (units u.code : ℝ) ≤ 2 ^ 277 - 2 ^ 253 := by
    have : ((2 ^ 277 - 2 ^ 253 : Nat) : ℝ) = 2 ^ 277 - 2 ^ 253 := by
      rw [Nat.cast_sub (Nat.pow_le_pow_right (by decide) (by decide))]
      push_cast
      norm_num
    rw [← this]
    exact_mod_cast h2
  have h4 : |u.toReal| = units u.code / 2 ^ 149 := by
    rw [toReal_eq]
    have : (0 : ℝ) ≤ (units u.code : ℝ) / 2 ^ 149 := by positivity
    cases u.sign <;> simp [this]
  rw [h4, div_lt_iff₀ (by positivity)]
  refine lt_of_le_of_lt h3 ?_
  norm_num

/-- a representable number is not rounded -/
theorem rounds_exact {r : ℝ} {v u : F32} (h : Rounds r v) (hu : u.isFinite = true) (hr : u.toReal = r) :
    v.isFinite = true ∧ v.toReal = r := by
  obtain ⟨h1, h2⟩ := h.nearest (by rw [← hr]; exact toReal_in_range hu)
  refine ⟨h1, ?_⟩
  have := (h2 u hu).1
  rw [hr, sub_self, abs_zero] at this
  have := abs_nonpos_iff.mp this
  linarith

variable [Libm]

/-- a sum in which all products but one vanish, and that one is representable -/
theorem dot_single {ι : Type} [DecidableEq ι] (L : List ι) (hL : L.Nodup) (f g : ι → F32) (o : ι) {c : F32}
    (hc : c.isFinite = true) (hf : ∀ m ∈ L, (f m).isFinite = true ∧ (g m).isFinite = true ∧
      (f m).toReal * (g m).toReal = if m = o then c.toReal else 0) :
    (Spec.sum (L.map fun m => mul (f m) (g m))).isFinite = true ∧
    (Spec.sum (L.map fun m => mul (f m) (g m))).toReal = if o ∈ L then c.toReal else 0 := by
  have z : (mk' false 0).isFinite = true := by decide
  have z0 : (mk' false 0).toReal = 0 := toReal_zero
  induction L using List.reverseRecOn with
  | nil =>
    rw [List.map_nil]
    exact ⟨z, by rw [if_neg List.not_mem_nil]; exact z0⟩
  | append_singleton L a ih =>
    obtain ⟨n1, _, n3⟩ := List.nodup_append.mp hL
    have na : a ∉ L := fun h => n3 a h a (List.mem_singleton_self a) rfl
    obtain ⟨s1, s2⟩ := ih n1 fun m hm => hf m (List.mem_append_left _ hm)
    obtain ⟨f1, f2, f3⟩ := hf a (by simp)
    rw [List.map_append, List.map_singleton, sum_append_singleton]
    have hm : (mul (f a) (g a)).isFinite = true ∧
        (mul (f a) (g a)).toReal = if a = o then c.toReal else 0 := by
      have h := mul_rounds f1 f2
      rw [f3] at h
      by_cases e : a = o
      · rw [if_pos e] at h ⊢
        exact rounds_exact h hc rfl
      · rw [if_neg e] at h ⊢
        exact rounds_exact h z z0
    have h := add_rounds s1 hm.1
    rw [s2, hm.2] at h
    by_cases e : a = o
    · subst e
      rw [if_neg na, if_pos rfl, zero_add] at h
      rw [if_pos (by simp)]
      exact rounds_exact h hc rfl
    · rw [if_neg e, add_zero] at h
      by_cases m : o ∈ L
      · rw [if_pos m] at h
        rw [if_pos (by simp [m])]
        exact rounds_exact h hc rfl
      · rw [if_neg m] at h
        rw [if_neg (by simpa [m] using fun h : o = a => e h.symm)]
        exact rounds_exact h z z0

/-- the same with a bias of zero and the ReLU -/
theorem unit_single {ι : Type} [DecidableEq ι] (L : List ι) (hL : L.Nodup) (f g : ι → F32) (o : ι)
    (ho : o ∈ L) {c β : F32} (hc : c.isFinite = true) (hs : c.sign = false)
    (hf : ∀ m ∈ L, (f m).isFinite = true ∧ (g m).isFinite = true ∧
      (f m).toReal * (g m).toReal = if m = o then c.toReal else 0)
    (hβ : β.isFinite = true) (hβ0 : β.toReal = 0) :
    Spec.relu (add (Spec.sum (L.map fun m => mul (f m) (g m))) β) = c := by
  obtain ⟨s1, s2⟩ := dot_single L hL f g o hc hf
  have h := add_rounds s1 hβ
  rw [s2, if_pos ho, hβ0, add_zero] at h
  obtain ⟨q1, q2⟩ := rounds_exact h hc rfl
  obtain ⟨_, r2, r3⟩ := relu_spec (add (Spec.sum (L.map fun m => mul (f m) (g m))) β)
  refine eq_of_toReal (r2.trans hs.symm) ?_
  rw [(r3 q1).2, q2]
  apply max_eq_right
  rw [toReal_eq, hs]
  simp only [Bool.false_eq_true, if_false, one_mul]
  positivity

end F32

variable [Libm]

theorem identity_shape {l : AnyLayer F32} (hl : l.Ok) (hi : Identity l) :
    l.get_output_shape = l.get_input_shape := by
  have same : ∀ {d n : UInt32}, tiles d.toNat 1 1 n.toNat → n = d := by
    intro d n h
    obtain ⟨h1, h2⟩ := h
    apply UInt32.toNat_inj.mp
    omega
  have one : (1 : UInt32).toNat = 1 := rfl
  have sh : ∀ {s t : TensorShape}, s.di = t.di → s.dj = t.dj → s.dk = t.dk → s = t := by
    intro s t h1 h2 h3
    cases s; cases t
    simp_all
  cases l with
  | fc l =>
    have hl : l.Ok := hl
    change l.bias.shape = ⟨l.weights.shape.dj, 1, 1⟩
    rw [hl.rows, hi.1]
  | conv l =>
    have hl : l.Ok := hl
    obtain ⟨h0, h1, h2, h3, _⟩ := hi
    obtain ⟨kernel, hm⟩ := List.exists_mem_of_ne_nil _ h0
    obtain ⟨k, hk⟩ := List.getElem?_of_mem hm
    obtain ⟨e1, e2, _⟩ := h3 k kernel hk
    obtain ⟨_, _, t1, t2⟩ := hl.kernels _ hm
    rw [e1, h1, one] at t1
    rw [e2, h1, one] at t2
    exact sh (same t1) (same t2) h2
  | mp l =>
    have hl : l.Ok := hl
    obtain ⟨h1, h2, h3⟩ := hi
    obtain ⟨t1, t2⟩ := hl.tiles
    rw [h2, h1, one] at t1
    rw [h3, h1, one] at t2
    exact sh (same t1) (same t2) hl.depth
  | sm l => exact absurd hi fun h => h

theorem layer_identity {l : AnyLayer F32} (hl : l.Ok) (hi : Identity l) {s : Tensor F32}
    (hss : s.shape = l.get_input_shape) (hs : ∀ a c d, s.shape.Inside a c d → Keeps l (val s a c d))
    {i j k : Nat} (hin : l.get_output_shape.Inside i j k) : layerAt l s i j k = val s i j k := by
  have hsi : s.shape.Inside i j k := by rw [hss, ← identity_shape hl hi]; exact hin
  have one : (1 : UInt32).toNat = 1 := rfl
  cases l with
  | fc l =>
    have hl : l.Ok := hl
    obtain ⟨h1, h2, h3⟩ := hi
    obtain ⟨i1, i2, i3⟩ : (AnyLayer.fc l).get_input_shape.Inside i j k := by rw [← hss]; exact hsi
    have hi : i < l.weights.shape.dj.toNat := i1
    have hi' : i < l.weights.shape.di.toNat := by rw [h1]; exact hi
    obtain rfl : j = 0 := by change j < 1 at i2; omega
    obtain rfl : k = 0 := by change k < 1 at i3; omega
    obtain ⟨c1, c2⟩ := hs i 0 0 hsi
    obtain ⟨b1, b2⟩ := h3 i hi'
    simp only [layerAt]
    rw [act_relu _ (summed_preact l s i)]
    refine unit_single (List.range l.weights.shape.dj.toNat) List.nodup_range
      (fun m => val l.weights i m 0) (fun m => val s m 0 0) i (List.mem_range.mpr hi) c1 c2
      (fun m hm => ?_) b1 (by simpa using b2)
    have hm := List.mem_range.mp hm
    obtain ⟨w1, w2⟩ := h2 i m hi' hm
    refine ⟨w1, (hs m 0 0 (by rw [hss]; exact ⟨hm, Nat.one_pos, Nat.one_pos⟩)).1, ?_⟩
    rw [w2]
    by_cases e : m = i
    · subst e; simp
    · rw [if_neg e, if_neg fun h => e h.symm, zero_mul]
  | conv l =>
    have hl : l.Ok := hl
    obtain ⟨_, h1, h2, h3, h4⟩ := hi
    have hkl : k < l.kernels.length := by rw [hl.count]; exact hin.2.2
    have hbl : k < l.biases.length := by rw [hl.biasCount]; exact hkl
    obtain ⟨e1, e2, e3⟩ := h3 k _ (List.getElem?_eq_getElem hkl)
    obtain ⟨_, hkd, hkt⟩ := hl.kernels _ (List.getElem_mem hkl)
    obtain ⟨b1, b2⟩ := h4 _ (List.getElem_mem hbl)
    obtain ⟨c1, c2⟩ := hs i j k hsi
    have ep : convPre l s i j k =
        F32.add (Spec.sum (l.kernels[k].shape.indices.map fun p =>
        F32.mul (val s (i * l.stride.toNat + p.1) (j * l.stride.toNat + p.2.1) p.2.2)
          (val l.kernels[k] p.1 p.2.1 p.2.2))) (val l.biases[k] 0 0 0) := by
      unfold convPre
      rw [List.getElem?_eq_getElem hkl, List.getElem?_eq_getElem hbl]
      rfl
    simp only [layerAt]
    rw [act_relu _ (summed_convPre l s i j k), ep]
    refine unit_single l.kernels[k].shape.indices (indices_nodup _)
      (fun p => val s (i * l.stride.toNat + p.1) (j * l.stride.toNat + p.2.1) p.2.2)
      (fun p => val l.kernels[k] p.1 p.2.1 p.2.2) (0, 0, k)
      (mem_indices.mpr ⟨by rw [e1]; exact Nat.one_pos, by rw [e2]; exact Nat.one_pos, ?_⟩) c1 c2
      (fun p hp => ?_) b1 (by simpa using b2)
    · rw [hkd, ← h2]; exact hin.2.2
    · obtain ⟨p1, p2, p3⟩ := p
      obtain ⟨m1, m2, m3⟩ := mem_indices.mp hp
      rw [e1] at m1
      rw [e2] at m2
      obtain rfl : p1 = 0 := by change p1 < 1 at m1; omega
      obtain rfl : p2 = 0 := by change p2 < 1 at m2; omega
      obtain ⟨w1, w2⟩ := e3 p3 m3
      have hin3 : s.shape.Inside i j p3 := ⟨hsi.1, hsi.2.1, by
        rw [hss]
        change p3 < l.input_shape.dk.toNat
        rw [← hkd]
        exact m3⟩
      simp only [h1, one, Nat.mul_one, Nat.add_zero]
      refine ⟨(hs i j p3 hin3).1, w1, ?_⟩
      rw [w2]
      by_cases e : p3 = k
      · subst e; simp
      · rw [if_neg e, if_neg (by simp [e]), mul_zero]
  | mp l =>
    obtain ⟨h1, h2, h3⟩ := hi
    have hv : (val s i j k).isNaN = false := hs i j k hsi
    simp only [layerAt]
    unfold window
    rw [h1, h2, h3, one, show idx2 1 1 = [(0, 0)] from rfl, List.map_singleton]
    simp only [Nat.mul_one, Nat.add_zero]
    unfold maxOf
    rw [List.foldl_cons, List.foldl_nil]
    generalize val s i j k = v at hv
    change (if F32.gt v (mk' true infCode) = true then v else mk' true infCode) = v
    split
    · rfl
    · next h =>
      unfold F32.gt at h
      rw [hv, show (mk' true infCode).isNaN = false by decide,
        show (mk' true infCode).key = -(infCode : Int) by decide] at h
      simp only [Bool.not_false, Bool.and_self, Bool.true_and, decide_eq_true_eq] at h
      have hc : v.code ≤ infCode := by
        unfold F32.isNaN at hv
        simpa using hv
      have hv : v.sign = true ∧ v.code = infCode := by
        unfold key at h
        have : 0 < infCode := by decide
        revert h
        cases v.sign <;> simp only [Bool.false_eq_true, if_true, if_false, true_and, false_and] <;> omega
      rw [← mk'_eta v, hv.1, hv.2]
  | sm l => exact absurd hi fun h => h

end Rusty
