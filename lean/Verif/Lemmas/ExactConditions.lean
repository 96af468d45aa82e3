import Verif.Lemmas.LoadingDebug

/-! # Helper lemmas: exact results of the dimension check and of the position computation -/

namespace Rusty

open F32Ops Spec

/-- what acceptance by the check amounts to, step by step -/
theorem check_conv_steps (b : Build) (image kernel result : TensorShape) (stride channel : UInt32)
    (hs : stride ≠ 0) :
    check_convolution_dimensions b image kernel stride result channel = .ok (.ok ()) ↔
      image.dk = kernel.dk ∧ (∃ d n, subU b image.di kernel.di = .ok d ∧ d % stride = 0 ∧
        addU b (d / stride) 1 = .ok n ∧ result.di = n) ∧
      (∃ d n, subU b image.dj kernel.dj = .ok d ∧ d % stride = 0 ∧
        addU b (d / stride) 1 = .ok n ∧ result.dj = n) ∧ channel < result.dk := by
  unfold check_convolution_dimensions
  constructor
  · intro h
    split at h
    · cases h
    next h0 =>
    obtain ⟨d, e1, h⟩ := bind_inv h
    rw [rem_ok hs, ok_bind] at h
    split at h
    · cases h
    next h1 =>
    obtain ⟨d', e2, h⟩ := bind_inv h
    rw [rem_ok hs, ok_bind] at h
    split at h
    · cases h
    next h2 =>
    rw [e1, ok_bind, div_ok hs, ok_bind] at h
    obtain ⟨n, e3, h⟩ := bind_inv h
    rw [e2, ok_bind, div_ok hs, ok_bind] at h
    obtain ⟨m, e4, h⟩ := bind_inv h
    split at h
    · cases h
    next h3 =>
    split at h
    · cases h
    next h4 =>
    split at h
    · cases h
    next h5 =>
    exact ⟨not_not.mp h0, ⟨d, n, e1, not_not.mp h1, e3, not_not.mp h3⟩,
      ⟨d', m, e2, not_not.mp h2, e4, not_not.mp h4⟩, UInt32.not_le.mp h5⟩
  · rintro ⟨h0, ⟨d, n, e1, h1, e3, h3⟩, ⟨d', m, e2, h2, e4, h4⟩, h5⟩
    rw [if_neg (not_not.mpr h0)]
    simp only [e1, e2, ok_bind, rem_ok hs, div_ok hs, h1, h2, e3, e4, h3, h4, ne_eq, not_true_eq_false,
      if_false]
    rw [if_neg (UInt32.not_le.mpr h5)]
    rfl

theorem axis_debug (d w s n : UInt32) (hs : s ≠ 0) :
    (∃ e m, subU .debug d w = .ok e ∧ e % s = 0 ∧ addU .debug (e / s) 1 = .ok m ∧ n = m) ↔
      tiles d.toNat w.toNat s.toNat n.toNat := by
  have hs' : s.toNat ≠ 0 := fun e => hs (UInt32.toNat_inj.mp e)
  have ld := u32_lt d
  have one : (1 : UInt32).toNat = 1 := rfl
  by_cases hw : w.toNat ≤ d.toNat
  · by_cases ho : (d.toNat - w.toNat) / s.toNat + 1 < 2 ^ 32
    · rw [tiles_u32 hs' hw ho]
      have q : (UInt32.ofNat (d.toNat - w.toNat) / s).toNat = (d.toNat - w.toNat) / s.toNat := by
        rw [UInt32.toNat_div, toNat_ofNat_lt (by omega)]
      have r : UInt32.ofNat (d.toNat - w.toNat) % s = 0 ↔ (d.toNat - w.toNat) % s.toNat = 0 := by
        rw [← UInt32.toNat_inj, UInt32.toNat_mod, toNat_ofNat_lt (by omega)]
        rfl
      constructor
      · rintro ⟨e, m, h1, h2, h3, rfl⟩
        rw [subU_ok hw] at h1
        cases h1
        rw [addU_ok (by rw [q, one]; exact ho), q] at h3
        cases h3
        exact ⟨r.mp h2, rfl⟩
      · rintro ⟨h1, rfl⟩
        exact ⟨_, _, subU_ok hw, r.mpr h1, addU_ok (by rw [q, one]; exact ho), by rw [q]; rfl⟩
    · constructor
      · rintro ⟨e, m, h1, h2, h3, rfl⟩
        rw [subU_ok hw] at h1
        cases h1
        rw [addU_debug] at h3
        · cases h3
        · rw [UInt32.toNat_div, toNat_ofNat_lt (by omega), one]; omega
      · rintro ⟨t1, t2⟩
        have := u32_lt n
        have e : (d.toNat - w.toNat) / s.toNat = n.toNat - 1 := by
          rw [← t2, Nat.add_sub_cancel, Nat.mul_div_cancel _ (by omega)]
        omega
  · constructor
    · rintro ⟨e, m, h1, _⟩
      rw [subU_debug (UInt32.lt_iff_toNat_lt.mpr (by omega))] at h1
      cases h1
    · rintro ⟨_, t2⟩
      omega

theorem mulIndex_debug (s : TensorStride) (x : TensorIndex) (p : UInt32) :
    s.mulIndex .debug x = .ok p ↔
      p.toNat = s.i.toNat * x.i.toNat + s.j.toNat * x.j.toNat + s.k.toNat * x.k.toNat := by
  have lp := u32_lt p
  unfold TensorStride.mulIndex
  by_cases h1 : s.i.toNat * x.i.toNat < 2 ^ 32
  swap
  · rw [mulU_debug (by omega)]
    exact ⟨fun h => (nomatch h), fun h => by omega⟩
  by_cases h2 : s.j.toNat * x.j.toNat < 2 ^ 32
  swap
  · rw [mulU_ok h1, ok_bind, mulU_debug (by omega)]
    exact ⟨fun h => (nomatch h), fun h => by omega⟩
  by_cases h3 : s.i.toNat * x.i.toNat + s.j.toNat * x.j.toNat < 2 ^ 32
  swap
  · rw [mulU_ok h1, ok_bind, mulU_ok h2, ok_bind, addU_debug]
    · exact ⟨fun h => (nomatch h), fun h => by omega⟩
    · rw [toNat_ofNat_lt h1, toNat_ofNat_lt h2]; omega
  rw [mulU_ok h1, ok_bind, mulU_ok h2, ok_bind, addU_ok (by rw [toNat_ofNat_lt h1, toNat_ofNat_lt h2]; exact h3),
    ok_bind, toNat_ofNat_lt h1, toNat_ofNat_lt h2]
  by_cases h4 : s.k.toNat * x.k.toNat < 2 ^ 32
  swap
  · rw [mulU_debug (by omega)]
    exact ⟨fun h => (nomatch h), fun h => by omega⟩
  rw [mulU_ok h4, ok_bind]
  by_cases h5 : s.i.toNat * x.i.toNat + s.j.toNat * x.j.toNat + s.k.toNat * x.k.toNat < 2 ^ 32
  · rw [addU_ok (by rw [toNat_ofNat_lt h3, toNat_ofNat_lt h4]; exact h5), toNat_ofNat_lt h3, toNat_ofNat_lt h4,
      Except.ok.injEq, ← UInt32.toNat_inj, toNat_ofNat_lt h5]
    exact eq_comm
  · rw [addU_debug (by rw [toNat_ofNat_lt h3, toNat_ofNat_lt h4]; omega)]
    exact ⟨fun h => (nomatch h), fun h => by omega⟩

theorem mulIndex_release (s : TensorStride) (x : TensorIndex) : ∃ p, s.mulIndex .release x = .ok p ∧
    p.toNat = (s.i.toNat * x.i.toNat + s.j.toNat * x.j.toNat + s.k.toNat * x.k.toNat) % 2 ^ 32 := by
  unfold TensorStride.mulIndex
  simp only [mulU_release, addU_release, ok_bind]
  refine ⟨_, rfl, ?_⟩
  simp only [UInt32.toNat_add, UInt32.toNat_mul]
  omega

theorem tiles_back {im w st r : Nat} (hst : st ≠ 0) (h : tiles im w st r) :
    w ≤ im ∧ (im - w) % st = 0 ∧ (im - w) / st + 1 = r := by
  obtain ⟨h1, h2⟩ := h
  have e : im - w = (r - 1) * st := by omega
  refine ⟨by omega, ?_, ?_⟩
  · rw [e]; exact Nat.mul_mod_left _ _
  · rw [e, Nat.mul_div_cancel _ (Nat.pos_of_ne_zero hst)]; omega

/-- where the windows tile the image, counting them does not overflow -/
theorem windows_no_panic {im w out : TensorShape} {st : UInt32} (hs : st ≠ 0)
    (h : windowsTile im w st out) : ¬ WindowPanics im w st := by
  have hs' : st.toNat ≠ 0 := fun e => hs (UInt32.toNat_inj.mp e)
  obtain ⟨h1, _, h2⟩ := tiles_back hs' h.1
  obtain ⟨h3, _, h4⟩ := tiles_back hs' h.2
  have := u32_lt out.di
  have := u32_lt out.dj
  rintro (h | ⟨_, h | ⟨_, h | h⟩⟩)
  · have := UInt32.lt_iff_toNat_lt.mp h; omega
  · have := UInt32.lt_iff_toNat_lt.mp h; omega
  · omega
  · omega

/-- a panic in one of the window computations is a panic of `fill_from_state` -/
theorem conv_fill_panics {F : Type} {b : Build} {l : ConvolutionalLayer F} {ks bs : List (Tensor F)}
    {im s : TensorShape} {st : UInt32} {name : String} (hne : ks ≠ [])
    (hs : ∀ k ∈ ks, k.shape = s) :
    (∀ p, Tensor.does_kernel_stride_fit_image b im s st = .error p →
      l.fill_from_state b ks bs im st name = .error p) ∧
    (∀ p, Tensor.does_kernel_stride_fit_image b im s st = .ok true →
      Tensor.get_convolution_dim_fit b im s st = .error p →
      l.fill_from_state b ks bs im st name = .error p) := by
  cases ks with
  | nil => exact absurd rfl hne
  | cons k ks =>
    have hk : k.shape = s := hs k (List.mem_cons_self ..)
    subst hk
    unfold ConvolutionalLayer.fill_from_state
    have hc : ¬ (((k :: ks).any fun k' => k'.shape ≠ k.shape) = true) := by
      simp only [List.any_eq_true, decide_eq_true_eq, not_exists, not_and, ne_eq, not_not]
      exact hs
    simp only
    rw [if_neg hc]
    constructor
    · intro p h
      rw [h]; rfl
    · intro p h h'
      rw [h, ok_bind]
      simp only [not_true_eq_false, if_false]
      rw [h']; rfl

end Rusty
