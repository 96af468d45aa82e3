import Verif.Lemmas.Geometry
import Verif.Spec.Toy

/-! # C15, C16: window geometry -/

namespace Rusty

open F32Ops Spec

/-! ## C15 -/

/-- C15 (main part): for a nonzero stride and a kernel no larger than the image the check does not
panic and returns `Ok` exactly on exact tilings.  (`hi`, `hj` only exclude the one case of a kernel
of extent 0 on an image of extent `2^32 - 1`, whose window count is not a `u32`.)

Partial: the property also says a kernel larger than the image is never accepted; that is
`C15_large_kernel_debug` with overflow checks, and false without (`C15_release_negation`). -/
theorem C15_check_partial (b : Build) (image kernel : TensorShape) (stride : UInt32)
    (result : TensorShape) (channel : UInt32) (hs : stride ≠ 0)
    (hdi : kernel.di ≤ image.di) (hdj : kernel.dj ≤ image.dj)
    (hi : kernel.di = 0 → image.di.toNat + 1 < 2 ^ 32)
    (hj : kernel.dj = 0 → image.dj.toNat + 1 < 2 ^ 32) :
    ∃ r, check_convolution_dimensions b image kernel stride result channel = .ok r ∧
      (r = .ok () ↔
        image.dk = kernel.dk ∧
        (1 ≤ result.di.toNat ∧
          (result.di.toNat - 1) * stride.toNat + kernel.di.toNat = image.di.toNat) ∧
        (1 ≤ result.dj.toNat ∧
          (result.dj.toNat - 1) * stride.toNat + kernel.dj.toNat = image.dj.toNat) ∧
        channel < result.dk) := by
  have hs' : stride.toNat ≠ 0 := fun h => hs (u32_ext h)
  have z : ∀ x : UInt32, x.toNat = 0 → x = 0 := fun x h => u32_ext h
  obtain ⟨p, n⟩ := check_conv_spec (b := b) (re := result) (c := channel) hs'
    (UInt32.le_iff_toNat_le.mp hdi) (UInt32.le_iff_toNat_le.mp hdj)
    (fits_bound (fun h => hi (z _ h)) (u32_lt _)) (fits_bound (fun h => hj (z _ h)) (u32_lt _))
  have e : (image.dk = kernel.dk ∧
        (1 ≤ result.di.toNat ∧
          (result.di.toNat - 1) * stride.toNat + kernel.di.toNat = image.di.toNat) ∧
        (1 ≤ result.dj.toNat ∧
          (result.dj.toNat - 1) * stride.toNat + kernel.dj.toNat = image.dj.toNat) ∧
        channel < result.dk) ↔ convFits image kernel stride result channel.toNat := by
    unfold convFits windowsTile tiles
    rw [UInt32.lt_iff_toNat_lt]
    tauto
  rw [e]
  by_cases h : convFits image kernel stride result channel.toNat
  · exact ⟨_, p h, by simp [h]⟩
  · obtain ⟨err, he⟩ := n h
    exact ⟨_, he, by simp [h]⟩

/-- C15: a zero stride is never accepted, in either profile (it is a division by zero unless the
depths already differ or, with overflow checks, the subtraction already panics). -/
theorem C15_zero_stride (b : Build) (image kernel result : TensorShape) (channel : UInt32) :
    check_convolution_dimensions b image kernel 0 result channel ≠ .ok (.ok ()) := by
  unfold check_convolution_dimensions
  split
  · intro h; cases h
  · cases h : subU b image.di kernel.di with
    | error e => intro h; cases h
    | ok d =>
      rw [ok_bind]
      have : remU d 0 = .error .divZero := by unfold remU; simp
      rw [this]
      intro h; cases h

/-- C15: with overflow checks a kernel larger than the image is never accepted. -/
theorem C15_large_kernel_debug (image kernel result : TensorShape) (stride channel : UInt32)
    (h : image.di < kernel.di ∨ image.dj < kernel.dj) :
    check_convolution_dimensions .debug image kernel stride result channel ≠ .ok (.ok ()) := by
  unfold check_convolution_dimensions
  split
  · intro h; cases h
  · by_cases h0 : image.di < kernel.di
    · have : subU .debug image.di kernel.di = .error .overflow := by
        unfold subU
        rw [if_neg (by have := UInt32.lt_iff_toNat_lt.mp h0; omega)]
      rw [this]
      intro h; cases h
    · have h1 : image.dj < kernel.dj := h.resolve_left h0
      have e1 : subU .debug image.dj kernel.dj = .error .overflow := by
        unfold subU
        rw [if_neg (by have := UInt32.lt_iff_toNat_lt.mp h1; omega)]
      cases h2 : subU .debug image.di kernel.di with
      | error e => intro h; cases h
      | ok d =>
        rw [ok_bind]
        cases h3 : remU d stride with
        | error e => intro h; cases h
        | ok r0 =>
          rw [ok_bind]
          split
          · intro h; cases h
          · rw [e1]
            intro h; cases h

/-- C15 is false of a release build: the subtraction wraps, and a 3-wide kernel is accepted on a
2-wide image. -/
theorem C15_release_negation :
    ∃ image kernel result : TensorShape, ∃ stride channel : UInt32,
      stride ≠ 0 ∧ image.di < kernel.di ∧ result.Fits ∧
      check_convolution_dimensions .release image kernel stride result channel = .ok (.ok ()) :=
  ⟨⟨2, 1, 1⟩, ⟨3, 1, 1⟩, ⟨2, 1, 1⟩, 4294967295, 0, by decide, by decide, by decide, rfl⟩

example : convFits ⟨7, 5, 2⟩ ⟨3, 1, 2⟩ 2 ⟨3, 3, 4⟩ 3 := by decide

example : check_convolution_dimensions .debug ⟨7, 5, 2⟩ ⟨3, 1, 2⟩ 2 ⟨3, 3, 4⟩ 3 = .ok (.ok ()) := rfl

example : ∃ e, check_convolution_dimensions .debug ⟨8, 5, 2⟩ ⟨3, 1, 2⟩ 2 ⟨3, 3, 4⟩ 3 =
    .ok (.error e) := ⟨_, rfl⟩

/-! ## C16 -/

/-- C16: in both profiles and for all arguments, the size a layer computes is exactly the one the
operations demand. -/
theorem C16_agree (b : Build) (image kernel : TensorShape) (stride n m channel : UInt32)
    (hfit : Tensor.does_kernel_stride_fit_image b image kernel stride = .ok true)
    (hdim : Tensor.get_convolution_dim_fit b image kernel stride = .ok (n, m)) :
    (∀ result : TensorShape,
      check_convolution_dimensions b image kernel stride result channel = .ok (.ok ()) ↔
        image.dk = kernel.dk ∧ result.di = n ∧ result.dj = m ∧ channel < result.dk) ∧
    (∀ result : TensorShape,
      Tensor.check_max_pooling_dimensions b image kernel stride result = .ok true ↔
        result = ⟨n, m, image.dk⟩) := by
  unfold Tensor.does_kernel_stride_fit_image at hfit
  unfold Tensor.get_convolution_dim_fit at hdim
  cases e0 : subU b image.di kernel.di with
  | error e => rw [e0] at hdim; cases hdim
  | ok d0 =>
  rw [e0, ok_bind] at hdim hfit
  cases e1 : divU d0 stride with
  | error e => rw [e1] at hdim; cases hdim
  | ok q0 =>
  rw [e1, ok_bind] at hdim
  cases e2 : addU b q0 1 with
  | error e => rw [e2] at hdim; cases hdim
  | ok n0 =>
  rw [e2, ok_bind] at hdim
  cases e3 : subU b image.dj kernel.dj with
  | error e => rw [e3] at hdim; cases hdim
  | ok d1 =>
  rw [e3, ok_bind] at hdim
  cases e4 : divU d1 stride with
  | error e => rw [e4] at hdim; cases hdim
  | ok q1 =>
  rw [e4, ok_bind] at hdim
  cases e5 : addU b q1 1 with
  | error e => rw [e5] at hdim; cases hdim
  | ok m0 =>
  rw [e5, ok_bind] at hdim
  injection hdim with hdim
  injection hdim with hn hm
  subst hn hm
  cases e6 : remU d0 stride with
  | error e => rw [e6] at hfit; cases hfit
  | ok r0 =>
  rw [e6, ok_bind] at hfit
  split at hfit
  · cases hfit
  rename_i hr0
  rw [e3, ok_bind] at hfit
  cases e7 : remU d1 stride with
  | error e => rw [e7] at hfit; cases hfit
  | ok r1 =>
  rw [e7, ok_bind] at hfit
  split at hfit
  · cases hfit
  rename_i hr1
  constructor
  · intro result
    unfold check_convolution_dimensions
    simp only [e0, e1, e2, e3, e4, e5, e6, e7, ok_bind, pure_ok, hr0, hr1, if_false, ge_iff_le]
    split
    · rename_i h; simp [h]
    split
    · rename_i h; simp [h]
    split
    · rename_i h; simp [h]
    split
    · rename_i h; simp [h]
    · rename_i h1 h2 h3 h4
      simp only [ne_eq, not_not] at h1 h2 h3
      have h4' : channel < result.dk := by
        rw [UInt32.lt_iff_toNat_lt]
        rw [UInt32.le_iff_toNat_le] at h4
        omega
      simp [h1, h2, h3, h4']
  · intro result
    unfold Tensor.check_max_pooling_dimensions
    simp only [e0, e1, e2, e3, e4, e5, e6, e7, ok_bind, pure_ok, hr0, hr1, if_false]
    obtain ⟨rdi, rdj, rdk⟩ := result
    simp only [TensorShape.mk.injEq]
    split
    · rename_i h; simp [h]
    split
    · rename_i h; simp [h]
    split
    · rename_i h; simp [h]
    · rename_i h1 h2 h3
      simp only [ne_eq, not_not] at h1 h2 h3
      simp [h1, h2, h3]

/-- C16: when the kernel is no larger than the image, which acceptance implies in a build with
overflow checks, the sizes exist and every window lies inside the image.

Partial: without overflow checks acceptance alone does not imply it (`C16_release_negation`). -/
theorem C16_windows_inside_partial (b : Build) (image kernel : TensorShape) (stride : UInt32)
    (hfit : Tensor.does_kernel_stride_fit_image b image kernel stride = .ok true)
    (hle : b = .debug ∨ kernel.di ≤ image.di ∧ kernel.dj ≤ image.dj)
    (hi : kernel.di = 0 → image.di.toNat + 1 < 2 ^ 32)
    (hj : kernel.dj = 0 → image.dj.toNat + 1 < 2 ^ 32) :
    ∃ n m, Tensor.get_convolution_dim_fit b image kernel stride = .ok (n, m) ∧
      1 ≤ n.toNat ∧ 1 ≤ m.toNat ∧
      (n.toNat - 1) * stride.toNat + kernel.di.toNat = image.di.toNat ∧
      (m.toNat - 1) * stride.toNat + kernel.dj.toNat = image.dj.toNat ∧
      ∀ i j ki kj k, i < n.toNat → j < m.toNat → ki < kernel.di.toNat → kj < kernel.dj.toNat →
        k < image.dk.toNat →
        image.Inside (i * stride.toNat + ki) (j * stride.toNat + kj) k := by
  have hs : stride.toNat ≠ 0 := by
    intro h0
    unfold Tensor.does_kernel_stride_fit_image at hfit
    cases e0 : subU b image.di kernel.di with
    | error e => rw [e0] at hfit; cases hfit
    | ok d0 =>
      rw [e0, ok_bind] at hfit
      have : remU d0 stride = .error .divZero := by unfold remU; rw [if_pos h0]
      rw [this] at hfit; cases hfit
  have hle' : kernel.di.toNat ≤ image.di.toNat ∧ kernel.dj.toNat ≤ image.dj.toNat := by
    rcases hle with rfl | ⟨h1, h2⟩
    · unfold Tensor.does_kernel_stride_fit_image at hfit
      have key : ∀ x y d : UInt32, subU .debug x y = .ok d → y.toNat ≤ x.toNat := by
        intro x y d h
        unfold subU at h
        split at h
        · assumption
        · cases h
      cases e0 : subU .debug image.di kernel.di with
      | error e => rw [e0] at hfit; cases hfit
      | ok d0 =>
        rw [e0, ok_bind] at hfit
        cases e6 : remU d0 stride with
        | error e => rw [e6] at hfit; cases hfit
        | ok r0 =>
        rw [e6, ok_bind] at hfit
        split at hfit
        · cases hfit
        cases e3 : subU .debug image.dj kernel.dj with
        | error e => rw [e3] at hfit; cases hfit
        | ok d1 => exact ⟨key _ _ _ e0, key _ _ _ e3⟩
    · exact ⟨UInt32.le_iff_toNat_le.mp h1, UInt32.le_iff_toNat_le.mp h2⟩
  have z : ∀ x : UInt32, x.toNat = 0 → x = 0 := fun x h => u32_ext h
  have oi := fits_bound (s := stride.toNat) (fun h => hi (z _ h)) (u32_lt image.di)
  have oj := fits_bound (s := stride.toNat) (fun h => hj (z _ h)) (u32_lt image.dj)
  rw [does_fit_spec hs hle'.1 hle'.2] at hfit
  injection hfit with hfit
  simp only [decide_eq_true_eq] at hfit
  have t1 := (tiles_iff (n := (image.di.toNat - kernel.di.toNat) / stride.toNat + 1) hs
    hle'.1).mpr ⟨hfit.1, rfl⟩
  have t2 := (tiles_iff (n := (image.dj.toNat - kernel.dj.toNat) / stride.toNat + 1) hs
    hle'.2).mpr ⟨hfit.2, rfl⟩
  refine ⟨_, _, dim_fit_spec hs hle'.1 hle'.2 oi oj, ?_⟩
  rw [toNat_ofNat_lt oi, toNat_ofNat_lt oj]
  exact ⟨t1.1, t2.1, t1.2, t2.2, fun i j ki kj k a1 a2 a3 a4 a5 =>
    ⟨tiles_lt t1 a1 a3, tiles_lt t2 a2 a4, a5⟩⟩

/-- C16 is false of a release build: the fit test accepts a 3-wide kernel on a 2-wide image and
promises two windows, of which already the first reaches outside. -/
theorem C16_release_negation :
    ∃ image kernel : TensorShape, ∃ stride : UInt32,
      Tensor.does_kernel_stride_fit_image .release image kernel stride = .ok true ∧
      Tensor.get_convolution_dim_fit .release image kernel stride = .ok (2, 1) ∧
      2 < kernel.di.toNat ∧ ¬ image.Inside (0 * stride.toNat + 2) 0 0 :=
  ⟨⟨2, 1, 1⟩, ⟨3, 1, 1⟩, 4294967295, rfl, rfl, by decide, by decide⟩

example : Tensor.does_kernel_stride_fit_image .debug ⟨7, 5, 2⟩ ⟨3, 1, 2⟩ 2 = .ok true ∧
    Tensor.get_convolution_dim_fit .debug ⟨7, 5, 2⟩ ⟨3, 1, 2⟩ 2 = .ok (3, 3) := ⟨rfl, rfl⟩

end Rusty
