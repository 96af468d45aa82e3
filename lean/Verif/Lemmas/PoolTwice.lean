import Verif.Lemmas.AnyLayer
import Verif.Lemmas.IEEEZero

/-! # Helper lemmas: a maximum of maxima -/

namespace Rusty

open F32Ops Spec

variable {F : Type} [F32Ops F]

/-- the maximum of the maxima of some lists is a maximum of all their entries together -/
theorem max_of_maxes [F32Order F]
    (hnum : ∀ x y : F, gt x y = true → feq x x = true ∧ feq y y = true)
    {ι : Type} {I : List ι} {w : ι → List F} {m : ι → F} {W : List F} {a c : F}
    (hW : ∀ e, e ∈ W ↔ ∃ i ∈ I, e ∈ w i) (hm : ∀ i ∈ I, isMax (w i) (m i))
    (ha : isMax (I.map m) a) (hc : isMax W c) : gt a c = false ∧ gt c a = false := by
  have irr := F32Order.gt_irrefl (F := F)
  have tr := F32Order.gt_trans (F := F)
  have asym : ∀ x y : F, gt x y = true → gt y x = true → False := fun x y h h' => by
    have := tr x y x h h'
    rw [irr] at this
    cases this
  -- nothing below negative infinity can be one of the two
  have low : ∀ {L : List F} {x : F}, isMax L x → gt (negInf : F) x = true → False := by
    intro L x hx h
    rcases hx.2 with ⟨_, h'⟩ | ⟨rfl, _⟩
    · exact asym _ _ h h'
    · rw [irr] at h; cases h
  constructor
  · by_contra h
    have h : gt a c = true := by simpa using h
    rcases ha.2 with ⟨h1, h2⟩ | ⟨rfl, _⟩
    · obtain ⟨i, hi, rfl⟩ := List.mem_map.mp h1
      rcases (hm i hi).2 with ⟨h3, _⟩ | ⟨h3, _⟩
      · rw [hc.1 _ ((hW _).mpr ⟨i, hi, h3⟩)] at h; cases h
      · rw [h3, irr] at h2; cases h2
    · exact low hc h
  · by_contra h
    have h : gt c a = true := by simpa using h
    rcases hc.2 with ⟨h1, h2⟩ | ⟨rfl, _⟩
    · obtain ⟨i, hi, h3⟩ := (hW _).mp h1
      have hz : feq (m i) (m i) = true := by
        rcases (hm i hi).2 with ⟨_, h4⟩ | ⟨h4, _⟩
        · exact (hnum _ _ h4).1
        · rw [h4]; exact (hnum _ _ h2).2
      rcases F32Order.gt_cotrans c a (m i) h hz with h5 | h5
      · rw [(hm i hi).1 _ h3] at h5; cases h5
      · rw [ha.1 _ (List.mem_map.mpr ⟨i, hi, rfl⟩)] at h5; cases h5
    · exact low ha h

/-- offsets inside a window of windows -/
theorem offsets_iff {m1 m2 s1 : Nat} (h0 : 1 ≤ m2) (h1 : s1 ≤ m1) (hs : 1 ≤ s1) (a : Nat) :
    a < m1 + (m2 - 1) * s1 ↔ ∃ p < m2, ∃ q < m1, a = p * s1 + q := by
  obtain ⟨m, rfl⟩ : ∃ m, m2 = m + 1 := ⟨m2 - 1, by omega⟩
  simp only [Nat.add_sub_cancel]
  constructor
  · intro h
    by_cases hlt : a < m * s1
    · refine ⟨a / s1, ?_, a % s1, (Nat.mod_lt _ hs).trans_le h1, ?_⟩
      · exact ((Nat.div_lt_iff_lt_mul hs).mpr hlt).trans (Nat.lt_succ_self m)
      · rw [Nat.mul_comm]; exact (Nat.div_add_mod a s1).symm
    · exact ⟨m, Nat.lt_succ_self m, a - m * s1, by omega, by omega⟩
  · rintro ⟨p, hp, q, hq, rfl⟩
    have : p * s1 ≤ m * s1 := Nat.mul_le_mul_right _ (by omega)
    omega

theorem tiles_twice {d n1 n2 m1 m2 s1 s2 : Nat} (h0 : 1 ≤ m2) (h1 : tiles d m1 s1 n1)
    (h2 : tiles n1 m2 s2 n2) : tiles d (m1 + (m2 - 1) * s1) (s1 * s2) n2 := by
  obtain ⟨a1, a2⟩ := h1
  obtain ⟨b1, b2⟩ := h2
  refine ⟨b1, ?_⟩
  obtain ⟨m, rfl⟩ : ∃ m, m2 = m + 1 := ⟨m2 - 1, by omega⟩
  subst b2
  subst a2
  rw [show (n2 - 1) * s2 + (m + 1) - 1 = (n2 - 1) * s2 + m by omega]
  simp only [Nat.add_sub_cancel]
  ring

/-- the window of a window -/
theorem mem_window_twice {x : Tensor F} {m1 m2 m : TensorShape} {s1 s2 i j k : Nat}
    (hs : 1 ≤ s1) (hi0 : 1 ≤ m2.di.toNat) (hj0 : 1 ≤ m2.dj.toNat)
    (hi1 : s1 ≤ m1.di.toNat) (hj1 : s1 ≤ m1.dj.toNat)
    (hi : m.di.toNat = m1.di.toNat + (m2.di.toNat - 1) * s1)
    (hj : m.dj.toNat = m1.dj.toNat + (m2.dj.toNat - 1) * s1) (e : F) :
    e ∈ window x m (s1 * s2) i j k ↔
      ∃ p ∈ idx2 m2.di.toNat m2.dj.toNat, e ∈ window x m1 s1 (i * s2 + p.1) (j * s2 + p.2) k := by
  unfold window
  constructor
  · intro h
    obtain ⟨⟨a, c⟩, h1, rfl⟩ := List.mem_map.mp h
    obtain ⟨ha, hc⟩ := mem_idx2.mp h1
    rw [hi] at ha
    rw [hj] at hc
    obtain ⟨p, hp, q, hq, rfl⟩ := (offsets_iff hi0 hi1 hs a).mp ha
    obtain ⟨p', hp', q', hq', rfl⟩ := (offsets_iff hj0 hj1 hs c).mp hc
    refine ⟨(p, p'), mem_idx2.mpr ⟨hp, hp'⟩, List.mem_map.mpr ⟨(q, q'), mem_idx2.mpr ⟨hq, hq'⟩, ?_⟩⟩
    simp only
    congr 1 <;> ring
  · rintro ⟨⟨p, p'⟩, hp, he⟩
    obtain ⟨⟨q, q'⟩, hq, rfl⟩ := List.mem_map.mp he
    obtain ⟨hp1, hp2⟩ := mem_idx2.mp hp
    obtain ⟨hq1, hq2⟩ := mem_idx2.mp hq
    refine List.mem_map.mpr ⟨(p * s1 + q, p' * s1 + q'), mem_idx2.mpr ⟨?_, ?_⟩, ?_⟩
    · rw [hi]; exact (offsets_iff hi0 hi1 hs _).mpr ⟨p, hp1, q, hq1, rfl⟩
    · rw [hj]; exact (offsets_iff hj0 hj1 hs _).mpr ⟨p', hp2, q', hq2, rfl⟩
    · simp only
      congr 1 <;> ring

/-- pooling the pooled image -/
theorem maxOf_window_twice [F32Order F]
    (hnum : ∀ x y : F, gt x y = true → feq x x = true ∧ feq y y = true)
    {x y : Tensor F} {m1 m2 m : TensorShape} {s1 s2 i j k : Nat}
    (hs : 1 ≤ s1) (hi0 : 1 ≤ m2.di.toNat) (hj0 : 1 ≤ m2.dj.toNat)
    (hi1 : s1 ≤ m1.di.toNat) (hj1 : s1 ≤ m1.dj.toNat)
    (hi : m.di.toNat = m1.di.toNat + (m2.di.toNat - 1) * s1)
    (hj : m.dj.toNat = m1.dj.toNat + (m2.dj.toNat - 1) * s1)
    (hy : ∀ p ∈ idx2 m2.di.toNat m2.dj.toNat, val y (i * s2 + p.1) (j * s2 + p.2) k =
      maxOf (window x m1 s1 (i * s2 + p.1) (j * s2 + p.2) k)) :
    gt (maxOf (window y m2 s2 i j k)) (maxOf (window x m (s1 * s2) i j k)) = false ∧
      gt (maxOf (window x m (s1 * s2) i j k)) (maxOf (window y m2 s2 i j k)) = false := by
  have e : window y m2 s2 i j k = (idx2 m2.di.toNat m2.dj.toNat).map fun p =>
      maxOf (window x m1 s1 (i * s2 + p.1) (j * s2 + p.2) k) := by
    unfold window
    exact List.map_congr_left hy
  rw [e]
  exact max_of_maxes hnum (mem_window_twice hs hi0 hj0 hi1 hj1 hi hj)
    (fun p _ => runMax_spec _) (runMax_spec _) (runMax_spec _)

namespace F32

theorem gt_num (x y : F32) (h : F32.gt x y = true) : F32.feq x x = true ∧ F32.feq y y = true := by
  unfold F32.gt at h
  simp only [Bool.and_eq_true, Bool.not_eq_true', decide_eq_true_eq] at h
  unfold F32.feq
  rw [h.1.1, h.1.2]
  simp

theorem maxOf_notNaN [Libm] (w : List F32) : (maxOf w).isNaN = false := by
  rcases (runMax_spec w : isMax w (maxOf w)).2 with ⟨_, h⟩ | ⟨h, _⟩
  · exact (feq_iff.mp (gt_num _ _ h).1).2
  · change (runMax w).isNaN = false
    rw [h]
    change (mk' true infCode).isNaN = false
    decide

/-- two numbers neither of which is above the other -/
theorem same_of_gt {x y : F32} (hx : x.isNaN = false) (hy : y.isNaN = false)
    (h1 : F32.gt x y = false) (h2 : F32.gt y x = false) : SameNumber x y := by
  refine (feq_iff.mp ?_).1
  unfold F32.gt at h1 h2
  unfold F32.feq
  rw [hx, hy] at *
  simp only [Bool.not_false, Bool.true_and, decide_eq_false_iff_not, decide_eq_true_eq] at *
  omega

end F32

end Rusty
