import Verif.Spec.Convolution
import Verif.Lemmas.Tensor

set_option linter.unusedSectionVars false

/-! # Helper lemmas: window geometry -/

namespace Rusty

open F32Ops Spec

theorem tiles_iff {d w s n : Nat} (hs : s ≠ 0) (hw : w ≤ d) :
    tiles d w s n ↔ (d - w) % s = 0 ∧ n = (d - w) / s + 1 := by
  unfold tiles
  constructor
  · rintro ⟨h1, h2⟩
    have : d - w = (n - 1) * s := (Nat.eq_sub_of_add_eq h2).symm
    rw [this]
    refine ⟨Nat.mul_mod_left _ _, ?_⟩
    rw [Nat.mul_div_cancel _ (Nat.pos_of_ne_zero hs)]
    omega
  · rintro ⟨h1, h2⟩
    refine ⟨by rw [h2]; exact Nat.le_add_left _ _, ?_⟩
    have e := Nat.div_add_mod (d - w) s
    rw [h1, Nat.add_zero] at e
    rw [h2, Nat.add_sub_cancel, Nat.mul_comm, e]
    omega

theorem tiles_lt {d w s n i l : Nat} (h : tiles d w s n) (hi : i < n) (hl : l < w) :
    i * s + l < d := by
  obtain ⟨h1, h2⟩ := h
  have : i * s ≤ (n - 1) * s := Nat.mul_le_mul_right s (by omega)
  omega

theorem tiles_le {d w s n : Nat} (h : tiles d w s n) : w ≤ d := by
  rw [← h.2]; exact Nat.le_add_left _ _

theorem fits_bound {d w s : Nat} (h : w = 0 → d + 1 < 2 ^ 32) (hd : d < 2 ^ 32) :
    (d - w) / s + 1 < 2 ^ 32 := by
  have := Nat.div_le_self (d - w) s
  omega

/-- one axis of the dimension checks -/
theorem axis_ok {b : Build} {d w s : UInt32} (hs : s.toNat ≠ 0) (hw : w.toNat ≤ d.toNat)
    (ho : (d.toNat - w.toNat) / s.toNat + 1 < 2 ^ 32) :
    subU b d w = .ok (UInt32.ofNat (d.toNat - w.toNat)) ∧
    remU (UInt32.ofNat (d.toNat - w.toNat)) s =
      .ok (UInt32.ofNat ((d.toNat - w.toNat) % s.toNat)) ∧
    divU (UInt32.ofNat (d.toNat - w.toNat)) s =
      .ok (UInt32.ofNat ((d.toNat - w.toNat) / s.toNat)) ∧
    addU b (UInt32.ofNat ((d.toNat - w.toNat) / s.toNat)) 1 =
      .ok (UInt32.ofNat ((d.toNat - w.toNat) / s.toNat + 1)) := by
  have hd := u32_lt d
  have e : (UInt32.ofNat (d.toNat - w.toNat)).toNat = d.toNat - w.toNat :=
    toNat_ofNat_lt (by omega)
  refine ⟨subU_ok hw, ?_, ?_, ?_⟩
  · rw [remU_ok hs, e]
  · rw [divU_ok hs, e]
  · have e1 : (UInt32.ofNat ((d.toNat - w.toNat) / s.toNat)).toNat =
        (d.toNat - w.toNat) / s.toNat := toNat_ofNat_lt (by omega)
    rw [addU_ok (by rw [e1]; exact ho), e1]
    rfl

theorem ofNat_ne_zero_iff {n : Nat} (h : n < 2 ^ 32) : UInt32.ofNat n ≠ 0 ↔ n ≠ 0 := by
  rw [u32_ne_iff, toNat_ofNat_lt h]; rfl

theorem ne_ofNat_iff {x : UInt32} {n : Nat} (h : n < 2 ^ 32) :
    x ≠ UInt32.ofNat n ↔ x.toNat ≠ n := by
  rw [u32_ne_iff, toNat_ofNat_lt h]

/-- the convolution check on representable geometry, no wrap-around involved -/
theorem check_conv_spec {b : Build} {im ke : TensorShape} {s : UInt32} {re : TensorShape}
    {c : UInt32} (hs : s.toNat ≠ 0) (hi : ke.di.toNat ≤ im.di.toNat)
    (hj : ke.dj.toNat ≤ im.dj.toNat) (oi : (im.di.toNat - ke.di.toNat) / s.toNat + 1 < 2 ^ 32)
    (oj : (im.dj.toNat - ke.dj.toNat) / s.toNat + 1 < 2 ^ 32) :
    (convFits im ke s re c.toNat → check_convolution_dimensions b im ke s re c = .ok (.ok ())) ∧
    (¬ convFits im ke s re c.toNat →
      ∃ e, check_convolution_dimensions b im ke s re c = .ok (.error e)) := by
  obtain ⟨a1, a2, a3, a4⟩ := axis_ok (b := b) hs hi oi
  obtain ⟨b1, b2, b3, b4⟩ := axis_ok (b := b) hs hj oj
  unfold convFits windowsTile
  rw [tiles_iff hs hi, tiles_iff hs hj]
  have hm1 : (im.di.toNat - ke.di.toNat) % s.toNat < 2 ^ 32 := by
    have := Nat.mod_le (im.di.toNat - ke.di.toNat) s.toNat
    have := u32_lt im.di
    omega
  have hm2 : (im.dj.toNat - ke.dj.toNat) % s.toNat < 2 ^ 32 := by
    have := Nat.mod_le (im.dj.toNat - ke.dj.toNat) s.toNat
    have := u32_lt im.dj
    omega
  unfold check_convolution_dimensions
  simp only [a1, a2, a3, a4, b1, b2, b3, b4, ok_bind, pure_ok, ofNat_ne_zero_iff hm1,
    ofNat_ne_zero_iff hm2, ne_ofNat_iff oi, ne_ofNat_iff oj, ge_iff_le, UInt32.le_iff_toNat_le]
  constructor
  · rintro ⟨h1, ⟨⟨h2, h3⟩, h4, h5⟩, h6⟩
    rw [if_neg (by simpa using h1), if_neg (by simpa using h2), if_neg (by simpa using h4),
      if_neg (by simpa using h3), if_neg (by simpa using h5), if_neg (by omega)]
  · intro h
    split
    · exact ⟨_, rfl⟩
    split
    · exact ⟨_, rfl⟩
    split
    · exact ⟨_, rfl⟩
    split
    · exact ⟨_, rfl⟩
    split
    · exact ⟨_, rfl⟩
    split
    · exact ⟨_, rfl⟩
    · rename_i h1 h2 h3 h4 h5 h6
      simp only [ne_eq, not_not, not_le] at h1 h2 h3 h4 h5 h6
      exact absurd ⟨h1, ⟨⟨h2, h4⟩, h3, h5⟩, h6⟩ h

theorem convFits_bounds {im ke : TensorShape} {s : UInt32} {re : TensorShape} {c : Nat}
    (h : convFits im ke s re c) (hs : s.toNat ≠ 0) :
    ke.di.toNat ≤ im.di.toNat ∧ ke.dj.toNat ≤ im.dj.toNat ∧
    (im.di.toNat - ke.di.toNat) / s.toNat + 1 < 2 ^ 32 ∧
    (im.dj.toNat - ke.dj.toNat) / s.toNat + 1 < 2 ^ 32 := by
  obtain ⟨_, ⟨h1, h2⟩, _⟩ := h
  have w1 := tiles_le h1
  have w2 := tiles_le h2
  refine ⟨w1, w2, ?_, ?_⟩
  · rw [← ((tiles_iff hs w1).mp h1).2]; exact u32_lt _
  · rw [← ((tiles_iff hs w2).mp h2).2]; exact u32_lt _

theorem check_conv_ok {b : Build} {im ke : TensorShape} {s : UInt32} {re : TensorShape}
    {c : UInt32} (hs : s.toNat ≠ 0) (h : convFits im ke s re c.toNat) :
    check_convolution_dimensions b im ke s re c = .ok (.ok ()) := by
  obtain ⟨h1, h2, h3, h4⟩ := convFits_bounds h hs
  exact (check_conv_spec hs h1 h2 h3 h4).1 h

/-- the pooling check on representable geometry -/
theorem check_pool_spec {b : Build} {im ma : TensorShape} {s : UInt32} {re : TensorShape}
    (hs : s.toNat ≠ 0) (hi : ma.di.toNat ≤ im.di.toNat)
    (hj : ma.dj.toNat ≤ im.dj.toNat) (oi : (im.di.toNat - ma.di.toNat) / s.toNat + 1 < 2 ^ 32)
    (oj : (im.dj.toNat - ma.dj.toNat) / s.toNat + 1 < 2 ^ 32) :
    Tensor.check_max_pooling_dimensions b im ma s re =
      .ok (decide (re.dk = im.dk ∧ windowsTile im ma s re)) := by
  obtain ⟨a1, a2, a3, a4⟩ := axis_ok (b := b) hs hi oi
  obtain ⟨b1, b2, b3, b4⟩ := axis_ok (b := b) hs hj oj
  have hd : (re.dk = im.dk ∧ windowsTile im ma s re) ↔ (re.dk = im.dk ∧
      ((im.di.toNat - ma.di.toNat) % s.toNat = 0 ∧
        re.di.toNat = (im.di.toNat - ma.di.toNat) / s.toNat + 1) ∧
      ((im.dj.toNat - ma.dj.toNat) % s.toNat = 0 ∧
        re.dj.toNat = (im.dj.toNat - ma.dj.toNat) / s.toNat + 1)) := by
    unfold windowsTile
    rw [tiles_iff hs hi, tiles_iff hs hj]
  simp only [hd]
  have hm1 : (im.di.toNat - ma.di.toNat) % s.toNat < 2 ^ 32 := by
    have := Nat.mod_le (im.di.toNat - ma.di.toNat) s.toNat
    have := u32_lt im.di
    omega
  have hm2 : (im.dj.toNat - ma.dj.toNat) % s.toNat < 2 ^ 32 := by
    have := Nat.mod_le (im.dj.toNat - ma.dj.toNat) s.toNat
    have := u32_lt im.dj
    omega
  unfold Tensor.check_max_pooling_dimensions
  simp only [a1, a2, a3, a4, b1, b2, b3, b4, ok_bind, pure_ok, ofNat_ne_zero_iff hm1,
    ofNat_ne_zero_iff hm2, ne_ofNat_iff oi, ne_ofNat_iff oj]
  split
  · rename_i h; simp [h]
  split
  · rename_i h; simp [h]
  split
  · rename_i h; simp [h]
  split
  · rename_i h; simp [h]
  split
  · rename_i h; simp [h]
  · rename_i h1 h2 h3 h4 h5
    simp only [ne_eq, not_not] at h1 h2 h3 h4 h5
    simp [h1, h2, h3, h4, h5]

theorem check_pool_ok {b : Build} {im ma : TensorShape} {s : UInt32} {re : TensorShape}
    (hs : s.toNat ≠ 0) (hk : re.dk = im.dk) (h : windowsTile im ma s re) :
    Tensor.check_max_pooling_dimensions b im ma s re = .ok true := by
  obtain ⟨h1, h2⟩ := h
  have w1 := tiles_le h1
  have w2 := tiles_le h2
  rw [check_pool_spec hs w1 w2]
  · rw [decide_eq_true]; exact ⟨hk, h1, h2⟩
  · rw [← ((tiles_iff hs w1).mp h1).2]; exact u32_lt _
  · rw [← ((tiles_iff hs w2).mp h2).2]; exact u32_lt _

theorem does_fit_spec {b : Build} {im ke : TensorShape} {s : UInt32}
    (hs : s.toNat ≠ 0) (hi : ke.di.toNat ≤ im.di.toNat) (hj : ke.dj.toNat ≤ im.dj.toNat) :
    Tensor.does_kernel_stride_fit_image b im ke s =
      .ok (decide ((im.di.toNat - ke.di.toNat) % s.toNat = 0 ∧
        (im.dj.toNat - ke.dj.toNat) % s.toNat = 0)) := by
  have hm1 : (im.di.toNat - ke.di.toNat) % s.toNat < 2 ^ 32 := by
    have := Nat.mod_le (im.di.toNat - ke.di.toNat) s.toNat
    have := u32_lt im.di
    omega
  have hm2 : (im.dj.toNat - ke.dj.toNat) % s.toNat < 2 ^ 32 := by
    have := Nat.mod_le (im.dj.toNat - ke.dj.toNat) s.toNat
    have := u32_lt im.dj
    omega
  have hd1 := u32_lt im.di
  have hd2 := u32_lt im.dj
  unfold Tensor.does_kernel_stride_fit_image
  simp only [subU_ok hi, subU_ok hj, remU_ok hs, ok_bind, pure_ok,
    toNat_ofNat_lt (n := im.di.toNat - ke.di.toNat) (by omega),
    toNat_ofNat_lt (n := im.dj.toNat - ke.dj.toNat) (by omega), ofNat_ne_zero_iff hm1,
    ofNat_ne_zero_iff hm2]
  split
  · rename_i h; simp [h]
  split
  · rename_i h; simp [h]
  · rename_i h1 h2
    simp only [ne_eq, not_not] at h1 h2
    simp [h1, h2]

theorem dim_fit_spec {b : Build} {im ke : TensorShape} {s : UInt32}
    (hs : s.toNat ≠ 0) (hi : ke.di.toNat ≤ im.di.toNat)
    (hj : ke.dj.toNat ≤ im.dj.toNat) (oi : (im.di.toNat - ke.di.toNat) / s.toNat + 1 < 2 ^ 32)
    (oj : (im.dj.toNat - ke.dj.toNat) / s.toNat + 1 < 2 ^ 32) :
    Tensor.get_convolution_dim_fit b im ke s =
      .ok (UInt32.ofNat ((im.di.toNat - ke.di.toNat) / s.toNat + 1),
        UInt32.ofNat ((im.dj.toNat - ke.dj.toNat) / s.toNat + 1)) := by
  obtain ⟨a1, a2, a3, a4⟩ := axis_ok (b := b) hs hi oi
  obtain ⟨b1, b2, b3, b4⟩ := axis_ok (b := b) hs hj oj
  unfold Tensor.get_convolution_dim_fit
  simp only [a1, a3, a4, b1, b3, b4, ok_bind, pure_ok]

end Rusty
