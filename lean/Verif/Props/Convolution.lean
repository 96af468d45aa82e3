import Verif.Lemmas.Convolution
import Verif.Lemmas.ConvolutionHuge
import Verif.Lemmas.ConvolutionUnsafe
import Verif.Props.TensorAccess

/-! # C17-C20: convolutions and their gradients -/

namespace Rusty

open F32Ops Spec

variable {F : Type} [F32Ops F]

/-! ## C17 -/

/-- C17: on an exact tiling with a 1x1x1 bias, `convolution_bias` succeeds, writes the strided
cross-correlation plus bias into its channel and nothing else. -/
theorem C17_convolution_bias (b : Build) (image kernel bias result : Tensor F) (s c : UInt32)
    (hi : image.WF) (hk : kernel.WF) (hb : bias.WF) (hr : result.WF) (hs : s ≠ 0)
    (hc : convFits image.shape kernel.shape s result.shape c.toNat)
    (hbs : bias.shape = ⟨1, 1, 1⟩) :
    ∃ r' bv, convolution_bias b image kernel bias s result c = .ok (.ok (), r') ∧ r'.WF ∧
      r'.shape = result.shape ∧ bias.get_item b (ix 0 0 0) = .ok bv ∧
      ∀ i j k, result.shape.Inside i j k →
        r'.get_item b (ix i j k) =
          if k = c.toNat then .ok (F32Ops.add (conv image kernel s.toNat i j) bv)
          else result.get_item b (ix i j k) := by
  have hs' : s.toNat ≠ 0 := fun h => hs (u32_ext h)
  obtain ⟨r', q1, q2, q3, q4⟩ := conv_bias_ok (b := b) hi hk hb hr hs' hc
    (by rw [hbs]; decide)
  refine ⟨r', _, q1, q2, q3, get_item_ok hb (by rw [hbs]; decide), fun i j k hin => ?_⟩
  rw [get_item_ok q2 (by rw [q3]; exact hin), q4 i j k hin]
  split
  · rfl
  · rw [get_item_ok hr hin]

/-- C17: when the dimension check or the bias shape is not accepted, `Err` and nothing is written. -/
theorem C17_rejected (b : Build) (image kernel bias result : Tensor F) (s c : UInt32)
    (h : (∃ e, check_convolution_dimensions b image.shape kernel.shape s result.shape c =
        .ok (.error e)) ∨
      check_convolution_dimensions b image.shape kernel.shape s result.shape c = .ok (.ok ()) ∧
        (bias.shape.di > 1 ∨ bias.shape.dj > 1 ∨ bias.shape.dk > 1)) :
    ∃ e, convolution_bias b image kernel bias s result c = .ok (.error e, result) := by
  unfold convolution_bias
  rcases h with ⟨e, h⟩ | ⟨h, hb⟩
  · rw [h]; exact ⟨_, rfl⟩
  · rw [h, ok_bind]
    simp only
    rw [if_pos hb]
    exact ⟨_, rfl⟩

/-- a 3x3x1 image -/
def exImg : Tensor Int := ⟨⟨1, 3, 9⟩, ⟨3, 3, 1⟩, [1, 2, 3, 4, 5, 6, 7, 8, 9]⟩

/-- a 2x2x1 kernel -/
def exKer : Tensor Int := ⟨⟨1, 2, 4⟩, ⟨2, 2, 1⟩, [1, 10, 100, -1000]⟩

/-- a 1x1x1 bias -/
def exBias : Tensor Int := ⟨⟨1, 1, 1⟩, ⟨1, 1, 1⟩, [7]⟩

open Toy in
example : convFits exImg.shape exKer.shape 1 ⟨2, 2, 2⟩ 1 ∧
    ∃ r', convolution_bias .debug exImg exKer exBias 1 (zeros ⟨2, 2, 2⟩) 1 = .ok (.ok (), r') ∧
      r'.data = [0, 0, 0, 0, -4572, -5461, -7239, -8128] ∧
      conv exImg exKer 1 0 0 = -4579 := ⟨by decide, _, rfl, rfl, rfl⟩

open Toy in
example : ∃ e, convolution_bias .debug exImg exKer exBias 2 (zeros ⟨2, 2, 2⟩ : Tensor Int) 1 =
    .ok (.error e, zeros ⟨2, 2, 2⟩) := ⟨_, rfl⟩

/-! ## C18 -/

/-- C18: `convolution_bias_relu` returns `Ok`, returns `Err` or panics exactly as
`convolution_bias` does, for all arguments and in both profiles; on `Err` neither writes. -/
theorem C18_same_outcome (b : Build) (image kernel bias result : Tensor F) (s c : UInt32) :
    ExecRel (fun p q => p.1 = q.1 ∧ (p.1 ≠ .ok () → p.2 = result ∧ q.2 = result))
      (convolution_bias b image kernel bias s result c)
      (convolution_bias_relu b image kernel bias s result c) :=
  conv_bias_rel b image kernel bias result s c

/-- C18: where both succeed on an exact tiling, the relu variant holds `max(y, 0)` wherever the
plain one holds `y`, and the other channels are those of `result`. -/
theorem C18_convolution_bias_relu (b : Build) (image kernel bias result : Tensor F) (s c : UInt32)
    (hi : image.WF) (hk : kernel.WF) (hb : bias.WF) (hr : result.WF) (hs : s ≠ 0)
    (hc : convFits image.shape kernel.shape s result.shape c.toNat)
    (hbs : bias.shape = ⟨1, 1, 1⟩) :
    ∃ r1 r2, convolution_bias b image kernel bias s result c = .ok (.ok (), r1) ∧
      convolution_bias_relu b image kernel bias s result c = .ok (.ok (), r2) ∧
      r2.WF ∧ r2.shape = result.shape ∧
      ∀ i j k, result.shape.Inside i j k →
        r2.get_item b (ix i j k) =
          if k = c.toNat then .ok (fmax (val r1 i j k) zero)
          else result.get_item b (ix i j k) := by
  have hs' : s.toNat ≠ 0 := fun h => hs (u32_ext h)
  have hbo : biasOk bias.shape := by rw [hbs]; decide
  obtain ⟨r1, p1, p2, p3, p4⟩ := conv_bias_ok (b := b) hi hk hb hr hs' hc hbo
  obtain ⟨r2, q1, q2, q3, q4⟩ := conv_bias_relu_ok (b := b) hi hk hb hr hs' hc hbo
  refine ⟨r1, r2, p1, q1, q2, q3, fun i j k hin => ?_⟩
  rw [get_item_ok q2 (by rw [q3]; exact hin), q4 i j k hin, p4 i j k hin]
  split
  · rfl
  · rw [get_item_ok hr hin]

open Toy in
example : ∃ r', convolution_bias_relu .debug exImg
      (⟨⟨1, 2, 4⟩, ⟨2, 2, 1⟩, [1, -1, 1, -1]⟩) ⟨⟨1, 1, 1⟩, ⟨1, 1, 1⟩, [5]⟩ 1
      (zeros ⟨2, 2, 1⟩) 0 = .ok (.ok (), r') ∧ r'.data = [3, 3, 3, 3] := ⟨_, rfl, rfl⟩

open Toy in
example : ∃ r', convolution_bias_relu .debug exImg exKer exBias 1
      (zeros ⟨2, 2, 1⟩) 0 = .ok (.ok (), r') ∧ r'.data = [0, 0, 0, 0] := ⟨_, rfl, rfl⟩

/-! ## C19 -/

/-- C19, strongest positive statement: when on both axes the kernel is no larger than the result or
no larger than the stride, the call succeeds and is right at every position `(a,b,c)` where both
axes satisfy `axisRight`.

Partial: at the other positions the code is wrong in general, see `C19_negation`; when the kernel
is larger than both result and stride it may read outside the incoming gradient, see
`C19_panic_negation`. -/
theorem C19_pointwise_partial (b : Build) (incoming outgoing : Tensor F) (kernels : List (Tensor F))
    (s : UInt32) (hi : incoming.WF) (ho : outgoing.WF) (hs : s ≠ 0) (hs31 : s.toNat < 2 ^ 31)
    (hK : KernelsOk outgoing.shape incoming.shape s kernels)
    (hdi : outgoing.shape.di.toNat ≤ 2 ^ 31) (hdj : outgoing.shape.dj.toNat ≤ 2 ^ 31)
    (hsafe : ∀ k (h : k < kernels.length),
      kernels[k].shape.di ≠ 0 ∧ kernels[k].shape.dj ≠ 0 ∧
      (kernels[k].shape.di.toNat ≤ incoming.shape.di.toNat ∨
        kernels[k].shape.di.toNat ≤ s.toNat) ∧
      (kernels[k].shape.dj.toNat ≤ incoming.shape.dj.toNat ∨
        kernels[k].shape.dj.toNat ≤ s.toNat)) :
    ∃ o', convolution_backprop_outgoing_gradient b incoming kernels s outgoing =
        .ok (.ok (), o') ∧ o'.WF ∧ o'.shape = outgoing.shape ∧
      ∀ a bb c, outgoing.shape.Inside a bb c →
        (∀ k (h : k < kernels.length),
          axisRight a kernels[k].shape.di.toNat s.toNat incoming.shape.di.toNat ∧
          axisRight bb kernels[k].shape.dj.toNat s.toNat incoming.shape.dj.toNat) →
        o'.get_item b (ix a bb c) = .ok (Spec.outgoing incoming kernels s.toNat a bb c) := by
  have hs' : s.toNat ≠ 0 := fun h => hs (u32_ext h)
  have nz : ∀ x : UInt32, x ≠ 0 → x.toNat ≠ 0 := fun x h e => h (u32_ext e)
  have edi : ∀ k (h : k < kernels.length), kdi kernels k = kernels[k].shape.di.toNat := by
    intro k h; unfold kdi; rw [List.getElem?_eq_getElem h]; rfl
  have edj : ∀ k (h : k < kernels.length), kdj kernels k = kernels[k].shape.dj.toNat := by
    intro k h; unfold kdj; rw [List.getElem?_eq_getElem h]; rfl
  obtain ⟨o', q1, q2, q3, q4⟩ := outgoing_char (b := b) hi ho hs' hs31 hK hdi hdj
    (fun k h => by rw [edi k h]; exact ⟨nz _ (hsafe k h).1, (hsafe k h).2.2.1⟩)
    (fun k h => by rw [edj k h]; exact ⟨nz _ (hsafe k h).2.1, (hsafe k h).2.2.2⟩)
  refine ⟨o', q1, q2, q3, fun a bb c hin hr => ?_⟩
  rw [get_item_ok q2 (by rw [q3]; exact hin), q4 a bb c hin, ← visited_right hs']
  · rfl
  · intro k hk
    have hk' : k < kernels.length := by rw [hK.len]; exact hk
    rw [edi k hk', edj k hk']
    exact ⟨nz _ (hsafe k hk').1, nz _ (hsafe k hk').2.1, hr k hk'⟩

/-- C19 where the code is right everywhere: stride 1 and kernels exactly as large as the result.

Partial: only this case of the geometry; on every other one C19 is false (`C19_everywhere_negation`). -/
theorem C19_adjoint_partial (b : Build) (incoming outgoing : Tensor F) (kernels : List (Tensor F))
    (hi : incoming.WF) (ho : outgoing.WF)
    (hK : KernelsOk outgoing.shape incoming.shape 1 kernels)
    (hdi : outgoing.shape.di.toNat ≤ 2 ^ 31) (hdj : outgoing.shape.dj.toNat ≤ 2 ^ 31)
    (heq : ∀ k (h : k < kernels.length),
      kernels[k].shape.di = incoming.shape.di ∧ kernels[k].shape.dj = incoming.shape.dj) :
    ∃ o', convolution_backprop_outgoing_gradient b incoming kernels 1 outgoing =
        .ok (.ok (), o') ∧ o'.WF ∧ o'.shape = outgoing.shape ∧
      ∀ a bb c, outgoing.shape.Inside a bb c →
        o'.get_item b (ix a bb c) = .ok (Spec.outgoing incoming kernels 1 a bb c) := by
  have pos : ∀ k (h : k < kernels.length), kernels[k].shape.di ≠ 0 ∧ kernels[k].shape.dj ≠ 0 := by
    intro k h
    obtain ⟨_, ⟨t1, t2⟩, _⟩ := hK.fits k h
    obtain ⟨e1, e2⟩ := heq k h
    rw [e1, e2]
    have := t1.1
    have := t2.1
    constructor
    · intro h0; rw [h0] at t1; exact absurd t1.1 (by decide)
    · intro h0; rw [h0] at t2; exact absurd t2.1 (by decide)
  obtain ⟨o', q1, q2, q3, q4⟩ := C19_pointwise_partial b incoming outgoing kernels 1 hi ho
    (by decide) (by decide) hK hdi hdj
    (fun k h => ⟨(pos k h).1, (pos k h).2, Or.inl (by rw [(heq k h).1]),
      Or.inl (by rw [(heq k h).2])⟩)
  refine ⟨o', q1, q2, q3, fun a bb c hin => q4 a bb c hin fun k h => ?_⟩
  rw [(heq k h).1, (heq k h).2]
  have one : (1 : UInt32).toNat = 1 := rfl
  unfold axisRight
  rw [one]
  exact ⟨⟨by omega, rfl⟩, by omega, rfl⟩

/-- The same in a release build, where the overflow wraps around: no bound on the sizes is needed. -/
theorem C19_adjoint_release_partial (incoming outgoing : Tensor F) (kernels : List (Tensor F))
    (hi : incoming.WF) (ho : outgoing.WF)
    (hK : KernelsOk outgoing.shape incoming.shape 1 kernels)
    (heq : ∀ k (h : k < kernels.length),
      kernels[k].shape.di = incoming.shape.di ∧ kernels[k].shape.dj = incoming.shape.dj) :
    ∃ o', convolution_backprop_outgoing_gradient .release incoming kernels 1 outgoing =
        .ok (.ok (), o') ∧ o'.WF ∧ o'.shape = outgoing.shape ∧
      ∀ a bb c, outgoing.shape.Inside a bb c →
        o'.get_item .release (ix a bb c) = .ok (Spec.outgoing incoming kernels 1 a bb c) := by
  have one : (1 : UInt32).toNat = 1 := rfl
  have edi : ∀ k (h : k < kernels.length), kdi kernels k = incoming.shape.di.toNat := by
    intro k h; unfold kdi; rw [List.getElem?_eq_getElem h]; exact congrArg UInt32.toNat (heq k h).1
  have edj : ∀ k (h : k < kernels.length), kdj kernels k = incoming.shape.dj.toNat := by
    intro k h; unfold kdj; rw [List.getElem?_eq_getElem h]; exact congrArg UInt32.toNat (heq k h).2
  have ax : ∀ {d kd n : UInt32}, tiles d.toNat kd.toNat (1 : UInt32).toNat n.toNat → kd = n →
      AxisBounds .release d kd 1 := by
    rintro d kd n ⟨h1, h2⟩ e
    rw [← e] at h1 h2
    have := u32_lt d
    rw [one, Nat.mul_one] at h2
    have k2 : kd.toNat ≤ 2 ^ 31 := by omega
    exact axis_bounds_release k2 (by omega)
  obtain ⟨o', q1, q2, q3, q4⟩ := outgoing_bounds (b := .release) (s := 1) hi ho (by decide) hK
    (fun k h => ax (hK.fits k h).2.1.1 (heq k h).1) (fun k h => ax (hK.fits k h).2.1.2 (heq k h).2)
    (fun k h => .inl (by rw [edi k h])) (fun k h => .inl (by rw [edj k h]))
  refine ⟨o', q1, q2, q3, fun a bb c hin => ?_⟩
  rw [get_item_ok q2 (by rw [q3]; exact hin), q4 a bb c hin, ← visited_right (by decide)]
  · rfl
  · intro k hk
    have hk' : k < kernels.length := by rw [hK.len]; exact hk
    obtain ⟨_, ⟨t1, t2⟩, _⟩ := hK.fits k hk'
    rw [edi k hk', edj k hk']
    have p1 := t1.1
    have p2 := t2.1
    unfold axisRight
    refine ⟨by omega, by omega, ⟨?_, rfl⟩, ?_, rfl⟩ <;> omega

open Toy in
/-- C19 is false of the code on every other geometry on which the call does not read outside the
incoming gradient: if the stride is at least 2, or the kernel is smaller than the result on some
axis, then for some data (exact integer arithmetic) the call returns `Ok` with a wrong gradient. -/
theorem C19_negation (b : Build) (image kernel result : TensorShape) (s : UInt32)
    (hfi : image.Fits) (hfk : kernel.Fits) (hfr : result.Fits)
    (hc : convFits image kernel s result 0)
    (hs : s ≠ 0) (hs31 : s.toNat < 2 ^ 31) (hdi : image.di.toNat ≤ 2 ^ 31)
    (hdj : image.dj.toNat ≤ 2 ^ 31) (hdk : image.dk ≠ 0) (hki : kernel.di ≠ 0)
    (hkj : kernel.dj ≠ 0)
    (si : kernel.di.toNat ≤ result.di.toNat ∨ kernel.di.toNat ≤ s.toNat)
    (sj : kernel.dj.toNat ≤ result.dj.toNat ∨ kernel.dj.toNat ≤ s.toNat)
    (hbad : 2 ≤ s.toNat ∨ kernel.di.toNat < result.di.toNat ∨ kernel.dj.toNat < result.dj.toNat) :
    ∃ (incoming outgoing o' : Tensor Int) (kernels : List (Tensor Int)) (a bb : Nat) (v : Int),
      incoming.WF ∧ incoming.shape = result ∧ outgoing.WF ∧ outgoing.shape = image ∧
      KernelsOk image result s kernels ∧ (∀ t ∈ kernels, t.shape = kernel) ∧
      convolution_backprop_outgoing_gradient b incoming kernels s outgoing = .ok (.ok (), o') ∧
      image.Inside a bb 0 ∧ o'.get_item b (ix a bb 0) = .ok v ∧
      v ≠ Spec.outgoing incoming kernels s.toNat a bb 0 :=
  outgoing_negation b image kernel result s hfi hfk hfr hc hs hs31 hdi hdj hdk hki hkj si sj hbad

open Toy in
/-- C19 is false of the code: with a 3x3 kernel on a 3x3 image, stride 1, an accepted geometry, it
reads outside the incoming gradient and panics. -/
theorem C19_panic_negation (b : Build) :
    ∃ (incoming outgoing : Tensor Int) (kernels : List (Tensor Int)),
      incoming.WF ∧ outgoing.WF ∧ KernelsOk outgoing.shape incoming.shape 1 kernels ∧
      convolution_backprop_outgoing_gradient b incoming kernels 1 outgoing = .error .oob := by
  refine ⟨zeros ⟨1, 1, 1⟩, zeros ⟨3, 3, 1⟩, [zeros ⟨3, 3, 1⟩], zeros_wf (by decide),
    zeros_wf (by decide), ⟨rfl, ?_, ?_⟩, ?_⟩
  · intro k h
    have : k = 0 := by simp at h; exact h
    subst this
    exact zeros_wf (by decide)
  · intro k h
    have : k = 0 := by simp at h; exact h
    subst this
    exact (by decide : convFits ⟨3, 3, 1⟩ ⟨3, 3, 1⟩ 1 ⟨1, 1, 1⟩ 0)
  · cases b <;> rfl

open Toy in
/-- C19 is false of the code on every accepted geometry but the one of `C19_adjoint_partial`: unless
the stride is 1 and the kernel exactly as large as the result, there is data (exact integer
arithmetic, all kernels of the given shape) for which the call panics or returns `Ok` with a wrong
gradient. -/
theorem C19_everywhere_negation (b : Build) (image kernel result : TensorShape) (s : UInt32)
    (hfi : image.Fits) (hfk : kernel.Fits) (hfr : result.Fits)
    (hc : convFits image kernel s result 0)
    (hs : s ≠ 0) (hs31 : s.toNat < 2 ^ 31) (hdi : image.di.toNat ≤ 2 ^ 31)
    (hdj : image.dj.toNat ≤ 2 ^ 31) (hdk : image.dk ≠ 0) (hki : kernel.di ≠ 0)
    (hkj : kernel.dj ≠ 0) (hki31 : kernel.di.toNat < 2 ^ 31) (hkj31 : kernel.dj.toNat < 2 ^ 31)
    (hbad : ¬ (s = 1 ∧ kernel.di = result.di ∧ kernel.dj = result.dj)) :
    ∃ (incoming outgoing : Tensor Int) (kernels : List (Tensor Int)),
      incoming.WF ∧ incoming.shape = result ∧ outgoing.WF ∧ outgoing.shape = image ∧
      KernelsOk image result s kernels ∧ (∀ t ∈ kernels, t.shape = kernel) ∧
      ((∃ e, convolution_backprop_outgoing_gradient b incoming kernels s outgoing = .error e) ∨
        ∃ o' a bb v,
          convolution_backprop_outgoing_gradient b incoming kernels s outgoing = .ok (.ok (), o') ∧
          image.Inside a bb 0 ∧ o'.get_item b (ix a bb 0) = .ok v ∧
          v ≠ Spec.outgoing incoming kernels s.toNat a bb 0) := by
  have nz : ∀ x : UInt32, x ≠ 0 → 1 ≤ x.toNat := fun x h =>
    Nat.one_le_iff_ne_zero.mpr fun e => h (u32_ext e)
  have hs1 := nz _ hs
  by_cases hu : (result.di.toNat < kernel.di.toNat ∧ s.toNat < kernel.di.toNat) ∨
      (result.dj.toNat < kernel.dj.toNat ∧ s.toNat < kernel.dj.toNat)
  · obtain ⟨kernels, h1, h2, h3⟩ := unsafe_negation b image kernel result s hfi hfk hc hs hs31 hdi
      hdj hdk hki hkj hki31 hkj31 hu
    exact ⟨_, _, kernels, onesT_wf hfr, rfl, zeros_wf hfi, rfl, h1, h2, h3⟩
  · have hbad' : 2 ≤ s.toNat ∨ kernel.di.toNat < result.di.toNat ∨
        kernel.dj.toNat < result.dj.toNat := by
      by_contra hn
      have p1 := hc.2.1.1.1
      have p2 := hc.2.1.2.1
      refine hbad ⟨u32_ext (?_ : s.toNat = 1), u32_ext ?_, u32_ext ?_⟩ <;> omega
    obtain ⟨inc, out, o', kernels, a, bb, v, h1, h2, h3, h4, h5, h6, h7, h8, h9, h10⟩ :=
      outgoing_negation b image kernel result s hfi hfk hfr hc hs hs31 hdi hdj hdk hki hkj
        (by omega) (by omega) hbad'
    exact ⟨inc, out, kernels, h1, h2, h3, h4, h5, h6, .inr ⟨o', a, bb, v, h7, h8, h9, h10⟩⟩

/-- C19 is false of the code for huge tensors, whatever the data: the index arithmetic goes through
`i32`, and in a debug build the call panics as soon as the image has more than 2^31 rows along an
axis, or a kernel has 2^31 or more. -/
theorem C19_huge_negation (incoming outgoing : Tensor F) (kernels : List (Tensor F)) (s : UInt32)
    (hs : s ≠ 0) (hK : KernelsOk outgoing.shape incoming.shape s kernels)
    (hi : outgoing.shape.di ≠ 0) (hj : outgoing.shape.dj ≠ 0) (hk : outgoing.shape.dk ≠ 0)
    (h : ∃ k, ∃ h : k < kernels.length,
      (2 ^ 31 ≤ kernels[k].shape.di.toNat ∨
        2 ^ 31 < outgoing.shape.di.toNat ∧ kernels[k].shape.di ≠ 0) ∨
      (2 ^ 31 ≤ kernels[k].shape.dj.toNat ∨
        2 ^ 31 < outgoing.shape.dj.toNat ∧ kernels[k].shape.dj ≠ 0)) :
    ∃ e, convolution_backprop_outgoing_gradient .debug incoming kernels s outgoing = .error e :=
  outgoing_huge hs hK hi hj hk h

open Toy in
/-- In a debug build the geometries of `C19_adjoint_partial` are the only ones, of any size, on
which C19 holds: on every other accepted geometry there is data for which the call panics or returns
`Ok` with a wrong gradient. -/
theorem C19_debug_negation (image kernel result : TensorShape) (s : UInt32)
    (hfi : image.Fits) (hfk : kernel.Fits) (hfr : result.Fits)
    (hc : convFits image kernel s result 0)
    (hs : s ≠ 0) (hdk : image.dk ≠ 0) (hki : kernel.di ≠ 0)
    (hkj : kernel.dj ≠ 0)
    (hbad : ¬ (s = 1 ∧ kernel.di = result.di ∧ kernel.dj = result.dj ∧
      image.di.toNat ≤ 2 ^ 31 ∧ image.dj.toNat ≤ 2 ^ 31)) :
    ∃ (incoming outgoing : Tensor Int) (kernels : List (Tensor Int)),
      incoming.WF ∧ incoming.shape = result ∧ outgoing.WF ∧ outgoing.shape = image ∧
      KernelsOk image result s kernels ∧ (∀ t ∈ kernels, t.shape = kernel) ∧
      ((∃ e, convolution_backprop_outgoing_gradient .debug incoming kernels s outgoing =
          .error e) ∨
        ∃ o' a bb v,
          convolution_backprop_outgoing_gradient .debug incoming kernels s outgoing =
            .ok (.ok (), o') ∧
          image.Inside a bb 0 ∧ o'.get_item .debug (ix a bb 0) = .ok v ∧
          v ≠ Spec.outgoing incoming kernels s.toNat a bb 0) := by
  by_cases hsmall : s.toNat < 2 ^ 31 ∧ (image.di.toNat ≤ 2 ^ 31 ∧ image.dj.toNat ≤ 2 ^ 31) ∧
      kernel.di.toNat < 2 ^ 31 ∧ kernel.dj.toNat < 2 ^ 31
  · exact C19_everywhere_negation .debug image kernel result s hfi hfk hfr hc hs hsmall.1
      hsmall.2.1.1 hsmall.2.1.2 hdk hki hkj hsmall.2.2.1 hsmall.2.2.2
      fun h => hbad ⟨h.1, h.2.1, h.2.2, hsmall.2.1⟩
  · obtain ⟨kernels, h1, h2, h3⟩ := huge_negation image kernel result s hfi hfk hc hs hdk hki hkj
      (by omega)
    exact ⟨_, _, kernels, onesT_wf hfr, rfl, zeros_wf hfi, rfl, h1, h2, h3⟩

/-- geometries of `C19_huge_negation`, at both boundaries: a kernel of 2^31 rows, and an image of
2^31 + 1 rows -/
example : convFits ⟨2147483648, 1, 1⟩ ⟨2147483648, 1, 1⟩ 1 ⟨1, 1, 1⟩ 0 ∧
    TensorShape.Fits ⟨2147483648, 1, 1⟩ ∧
    convFits ⟨2147483649, 1, 1⟩ ⟨1073741825, 1, 1⟩ 1 ⟨1073741825, 1, 1⟩ 0 ∧
    TensorShape.Fits ⟨2147483649, 1, 1⟩ := by decide

/-- a 2x2x1 incoming gradient -/
def exInc : Tensor Int := ⟨⟨1, 2, 4⟩, ⟨2, 2, 1⟩, [1, 2, 3, 4]⟩

open Toy in
example : convFits exImg.shape exKer.shape 1 exInc.shape 0 ∧
    exKer.shape.di = exInc.shape.di ∧ exKer.shape.dj = exInc.shape.dj ∧
    ∃ o', convolution_backprop_outgoing_gradient .debug exInc [exKer] 1 (zeros ⟨3, 3, 1⟩) =
        .ok (.ok (), o') ∧
      o'.data = [1, 12, 20, 103, -766, -1960, 300, -2600, -4000] ∧
      Spec.outgoing exInc [exKer] 1 1 1 0 = -766 := ⟨by decide, rfl, rfl, _, rfl, rfl, rfl⟩

/-- the geometry of a 5x5 kernel on a 28x28 image (stride 1) is one of those `C19_negation` is about -/
example : convFits ⟨28, 28, 1⟩ ⟨5, 5, 1⟩ 1 ⟨24, 24, 8⟩ 0 ∧ (5 : Nat) < 24 := by decide

/-! ## C20 -/

/-- What `convolution_backprop_kernel` computes: the sum over **all** channels of the incoming
gradient, whatever channel it is asked for.  For a gradient with one channel this is C20.

Partial: C20 asks for the sum over the channel's own output positions only; with several channels
that is not what the code computes (`C20_negation`, `C20_channels_negation`). -/
theorem C20_kernel_gradient_partial (b : Build) (incoming image grad : Tensor F) (s c : UInt32)
    (hi : incoming.WF) (him : image.WF) (hg : grad.WF) (hs : s ≠ 0)
    (hc : convFits image.shape grad.shape s incoming.shape c.toNat) :
    ∃ g', convolution_backprop_kernel b incoming image s c grad = .ok (.ok (), g') ∧ g'.WF ∧
      g'.shape = grad.shape ∧
      (∀ l m n, grad.shape.Inside l m n → g'.get_item b (ix l m n) =
        .ok (sum ((idx3 incoming.shape.di.toNat incoming.shape.dj.toNat
            incoming.shape.dk.toNat).map fun (i, j, k) =>
          mul (val image (l + i * s.toNat) (m + j * s.toNat) n) (val incoming i j k)))) ∧
      (incoming.shape.dk = 1 → ∀ l m n, grad.shape.Inside l m n →
        g'.get_item b (ix l m n) =
          .ok (Spec.kernelGrad incoming image s.toNat c.toNat l m n)) := by
  have hs' : s.toNat ≠ 0 := fun h => hs (u32_ext h)
  obtain ⟨g', q1, q2, q3, q4⟩ := kernel_grad_char (b := b) hi him hg hs' hc
  refine ⟨g', q1, q2, q3, fun l m n hin => ?_, fun h1 l m n hin => ?_⟩
  · rw [get_item_ok q2 (by rw [q3]; exact hin), q4 l m n hin]
  · rw [get_item_ok q2 (by rw [q3]; exact hin), q4 l m n hin, h1]
    have hc0 : c.toNat = 0 := by
      have := hc.2.2
      rw [h1] at this
      have e : (1 : UInt32).toNat = 1 := rfl
      omega
    rw [hc0]
    congr 2
    have e : (1 : UInt32).toNat = 1 := rfl
    rw [e]
    unfold idx3 idx2
    simp only [List.range_one, List.flatMap_cons, List.flatMap_nil, List.append_nil,
      List.map_flatMap, List.map_map]
    rfl

/-- when the geometry is not accepted: `Err`, nothing written -/
theorem C20_rejected (b : Build) (incoming image grad : Tensor F) (s c : UInt32) (e : String)
    (h : check_convolution_dimensions b image.shape grad.shape s incoming.shape c = .ok (.error e)) :
    convolution_backprop_kernel b incoming image s c grad = .ok (.error e, grad) := by
  unfold convolution_backprop_kernel
  rw [h]; rfl

open Toy in
/-- C20 is false of the code: with two channels the gradient for channel 0 also contains channel 1. -/
theorem C20_negation (b : Build) :
    ∃ (incoming image grad g' : Tensor Int),
      incoming.WF ∧ image.WF ∧ grad.WF ∧ convFits image.shape grad.shape 1 incoming.shape 0 ∧
      convolution_backprop_kernel b incoming image 1 0 grad = .ok (.ok (), g') ∧
      g'.get_item b (ix 0 0 0) = .ok 11 ∧ Spec.kernelGrad incoming image 1 0 0 0 0 = 1 := by
  refine ⟨⟨⟨1, 1, 1⟩, ⟨1, 1, 2⟩, [1, 10]⟩, ⟨⟨1, 1, 1⟩, ⟨1, 1, 1⟩, [1]⟩,
    ⟨⟨1, 1, 1⟩, ⟨1, 1, 1⟩, [0]⟩, ⟨⟨1, 1, 1⟩, ⟨1, 1, 1⟩, [11]⟩,
    ⟨by decide, rfl, rfl, rfl, rfl⟩, ⟨by decide, rfl, rfl, rfl, rfl⟩,
    ⟨by decide, rfl, rfl, rfl, rfl⟩, by decide, ?_, ?_, rfl⟩
  · cases b <;> rfl
  · cases b <;> rfl

open Toy in
/-- C20 is false of the code on every accepted geometry with at least two channels: at every position
of the kernel gradient the call returns `Ok` with a wrong value for some data (exact integer
arithmetic). -/
theorem C20_channels_negation (b : Build) (image grad result : TensorShape) (s c : UInt32)
    (hfi : image.Fits) (hfg : grad.Fits) (hfr : result.Fits) (hs : s ≠ 0)
    (hc : convFits image grad s result c.toNat) (h2 : 2 ≤ result.dk.toNat) (l m n : Nat)
    (hin : grad.Inside l m n) :
    ∃ (incoming img g g' : Tensor Int) (v : Int), incoming.WF ∧ incoming.shape = result ∧
      img.WF ∧ img.shape = image ∧ g.WF ∧ g.shape = grad ∧
      convolution_backprop_kernel b incoming img s c g = .ok (.ok (), g') ∧
      g'.get_item b (ix l m n) = .ok v ∧
      v ≠ Spec.kernelGrad incoming img s.toNat c.toNat l m n :=
  kernel_grad_negation b image grad result s c hfi hfg hfr hs hc h2 l m n hin

example : convFits ⟨28, 28, 1⟩ ⟨5, 5, 1⟩ 1 ⟨24, 24, 8⟩ 3 ∧ (⟨5, 5, 1⟩ : TensorShape).Inside 4 0 0 := by
  decide

open Toy in
example : convFits exImg.shape ⟨2, 2, 1⟩ 1 exInc.shape 0 ∧ exInc.shape.dk = 1 ∧
    ∃ g', convolution_backprop_kernel .debug exInc exImg 1 0 (zeros ⟨2, 2, 1⟩) =
        .ok (.ok (), g') ∧ g'.data = [37, 47, 67, 77] := ⟨by decide, rfl, _, rfl, rfl⟩

end Rusty
