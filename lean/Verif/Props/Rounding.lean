import Verif.Lemmas.IEEEError
import Verif.Lemmas.IEEESum
import Verif.Props.IEEE
import Verif.Props.Matrix
import Verif.Props.ConvLayer
import Verif.Props.FullyConnected
import Verif.Props.Network

/-! # C64-C66: accuracy of `f32` computations, and where NaN can come from -/

namespace Rusty

open F32Ops Spec F32

variable [Libm]

/-! ## C64 -/

/-- C64: every finite entry that `matrix_multiply` writes is as close to the exact product of the
matrices as the classical error bound of a sum of `n` products allows. -/
theorem C64_matrix_multiply (b : Build) (t1 t2 r : Tensor F32) (h1 : t1.WF) (h2 : t2.WF)
    (hr : r.WF) (hs : mmShapes t1.shape t2.shape r.shape) :
    ∃ r', Tensor.matrix_multiply b t1 t2 r = .ok r' ∧
      ∀ i j k, r.shape.Inside i j k → ∃ v, r'.get_item b (ix i j k) = .ok v ∧
        (v.isFinite = true →
          |v.toReal - ((List.range t1.shape.dj.toNat).map fun l =>
              (val t1 i l k).toReal * (val t2 l j k).toReal).sum| ≤
            errBound t1.shape.dj.toNat ((List.range t1.shape.dj.toNat).map fun l =>
              |(val t1 i l k).toReal * (val t2 l j k).toReal|).sum) := by
  obtain ⟨r', q1, _, _, q4⟩ := (C11_matrix_multiply b t1 t2 r h1 h2 hr).1 hs
  refine ⟨r', q1, fun i j k hin => ⟨_, q4 i j k hin, fun hf => ?_⟩⟩
  have := (dot_error _ _ _ hf).2
  rwa [List.length_range] at this

/-- C64: with finite entries, fewer than `2^22` terms, and absolute values of the products that add up
to at most `2^125`, nothing overflows and the error is at most `(n+1) 2^-23` of that sum, plus
`n 2^-149`. -/
theorem C64_no_overflow (b : Build) (t1 t2 r : Tensor F32) (h1 : t1.WF) (h2 : t2.WF)
    (hr : r.WF) (hs : mmShapes t1.shape t2.shape r.shape) (hn : t1.shape.dj.toNat < 2 ^ 22) :
    ∃ r', Tensor.matrix_multiply b t1 t2 r = .ok r' ∧
      ∀ i j k, r.shape.Inside i j k →
        (∀ l, l < t1.shape.dj.toNat →
          (val t1 i l k).isFinite = true ∧ (val t2 l j k).isFinite = true) →
        ((List.range t1.shape.dj.toNat).map fun l =>
            |(val t1 i l k).toReal * (val t2 l j k).toReal|).sum ≤ 2 ^ 125 →
        ∃ v, r'.get_item b (ix i j k) = .ok v ∧ v.isFinite = true ∧
          |v.toReal - ((List.range t1.shape.dj.toNat).map fun l =>
              (val t1 i l k).toReal * (val t2 l j k).toReal).sum| ≤
            (t1.shape.dj.toNat + 1) / 2 ^ 23 * ((List.range t1.shape.dj.toNat).map fun l =>
              |(val t1 i l k).toReal * (val t2 l j k).toReal|).sum +
            t1.shape.dj.toNat / 2 ^ 149 := by
  obtain ⟨r', q1, _, _, q4⟩ := (C11_matrix_multiply b t1 t2 r h1 h2 hr).1 hs
  refine ⟨r', q1, fun i j k hin hf hA => ?_⟩
  have hfin := dot_finite _ _ _ (by rwa [List.length_range])
    (fun n hm => hf n (List.mem_range.mp hm)) hA
  refine ⟨_, q4 i j k hin, hfin, ?_⟩
  have := (dot_error _ _ _ hfin).2
  rw [List.length_range] at this
  exact this.trans (errBound_le (by omega)
    ((abs_nonneg _).trans (abs_sum_le _ fun l => (val t1 i l k).toReal * (val t2 l j k).toReal)))

/-- C64 for `matrix_multiply_transpose_first`. -/
theorem C64_transpose_first (b : Build) (t1 t2 r : Tensor F32) (h1 : t1.WF) (h2 : t2.WF)
    (hr : r.WF) (hs : mmShapes t1.shape.transpose_ij t2.shape r.shape) :
    ∃ r', Tensor.matrix_multiply_transpose_first b t1 t2 r = .ok (.ok (), r') ∧
      ∀ i j k, r.shape.Inside i j k → ∃ v, r'.get_item b (ix i j k) = .ok v ∧
        (v.isFinite = true →
          |v.toReal - ((List.range t1.shape.di.toNat).map fun l =>
              (val t1 l i k).toReal * (val t2 l j k).toReal).sum| ≤
            errBound t1.shape.di.toNat ((List.range t1.shape.di.toNat).map fun l =>
              |(val t1 l i k).toReal * (val t2 l j k).toReal|).sum) ∧
        (t1.shape.di.toNat < 2 ^ 22 →
          (∀ l, l < t1.shape.di.toNat → (val t1 l i k).isFinite = true ∧ (val t2 l j k).isFinite = true) →
          ((List.range t1.shape.di.toNat).map fun l =>
            |(val t1 l i k).toReal * (val t2 l j k).toReal|).sum ≤ 2 ^ 125 → v.isFinite = true) := by
  obtain ⟨_, r', _, _, q1, _, _, q4⟩ := (C12_transpose_first b t1 t2 r _ h1 h2 hr
    (zeros_wf (transpose_fits h1.fits)) rfl).1 hs
  refine ⟨r', q1, fun i j k hin => ⟨_, q4 i j k hin, fun hf => ?_, fun hn hf hA => ?_⟩⟩
  · have := (dot_error _ _ _ hf).2
    rwa [List.length_range] at this
  · exact dot_finite _ _ _ (by rwa [List.length_range])
      (fun n hm => hf n (List.mem_range.mp hm)) hA

/-- C64 for `matrix_multiply_transpose_second`. -/
theorem C64_transpose_second (b : Build) (t1 t2 r : Tensor F32) (h1 : t1.WF) (h2 : t2.WF)
    (hr : r.WF) (hs : mmShapes t1.shape t2.shape.transpose_ij r.shape) :
    ∃ r', Tensor.matrix_multiply_transpose_second b t1 t2 r = .ok (.ok (), r') ∧
      ∀ i j k, r.shape.Inside i j k → ∃ v, r'.get_item b (ix i j k) = .ok v ∧
        (v.isFinite = true →
          |v.toReal - ((List.range t1.shape.dj.toNat).map fun l =>
              (val t1 i l k).toReal * (val t2 j l k).toReal).sum| ≤
            errBound t1.shape.dj.toNat ((List.range t1.shape.dj.toNat).map fun l =>
              |(val t1 i l k).toReal * (val t2 j l k).toReal|).sum) ∧
        (t1.shape.dj.toNat < 2 ^ 22 →
          (∀ l, l < t1.shape.dj.toNat → (val t1 i l k).isFinite = true ∧ (val t2 j l k).isFinite = true) →
          ((List.range t1.shape.dj.toNat).map fun l =>
            |(val t1 i l k).toReal * (val t2 j l k).toReal|).sum ≤ 2 ^ 125 → v.isFinite = true) := by
  obtain ⟨_, r', _, _, q1, _, _, q4⟩ := (C12_transpose_second b t1 t2 r _ h1 h2 hr
    (zeros_wf (transpose_fits h2.fits)) rfl).1 hs
  refine ⟨r', q1, fun i j k hin => ⟨_, q4 i j k hin, fun hf => ?_, fun hn hf hA => ?_⟩⟩
  · have := (dot_error _ _ _ hf).2
    rwa [List.length_range] at this
  · exact dot_finite _ _ _ (by rwa [List.length_range])
      (fun n hm => hf n (List.mem_range.mp hm)) hA

/-- the row `(1, 2^-24)` -/
def exRow : Tensor F32 := ⟨⟨1, 1, 2⟩, ⟨1, 2, 1⟩, [⟨0x3f800000⟩, ⟨0x33800000⟩]⟩

/-- the column `(1, 1)` -/
def exOnes : Tensor F32 := ⟨⟨1, 2, 2⟩, ⟨2, 1, 1⟩, [⟨0x3f800000⟩, ⟨0x3f800000⟩]⟩

/-- The assumptions of C64 can be met, and the error it bounds does occur: `1 + 2^-24` rounds to 1. -/
example : exRow.WF ∧ exOnes.WF ∧ (single ⟨0⟩).WF ∧
    mmShapes exRow.shape exOnes.shape (single ⟨0⟩).shape ∧
    (∀ l, l < 2 → (val exRow 0 l 0).isFinite = true ∧ (val exOnes l 0 0).isFinite = true) ∧
    ((List.range 2).map fun l => |(val exRow 0 l 0).toReal * (val exOnes l 0 0).toReal|).sum ≤
      2 ^ 125 ∧
    ((List.range 2).map fun l => (val exRow 0 l 0).toReal * (val exOnes l 0 0).toReal).sum =
      1 + 1 / 2 ^ 24 ∧
    ∃ r', Tensor.matrix_multiply .debug exRow exOnes (single ⟨0⟩) = .ok r' ∧
      r'.data = [⟨0x3f800000⟩] := by
  have v0 : val exRow 0 0 0 = ⟨0x3f800000⟩ := rfl
  have v1 : val exRow 0 1 0 = ⟨0x33800000⟩ := rfl
  have w0 : val exOnes 0 0 0 = ⟨0x3f800000⟩ := rfl
  have w1 : val exOnes 1 0 0 = ⟨0x3f800000⟩ := rfl
  have e0 : (⟨0x3f800000⟩ : F32).toReal = 1 := by
    unfold toReal
    rw [show (⟨0x3f800000⟩ : F32).toInt = 2 ^ 149 by decide]
    norm_num
  have e1 : (⟨0x33800000⟩ : F32).toReal = 1 / 2 ^ 24 := by
    unfold toReal
    rw [show (⟨0x33800000⟩ : F32).toInt = 2 ^ 125 by decide]
    norm_num
  refine ⟨⟨by change TensorShape.Fits ⟨1, 2, 1⟩; decide, rfl, rfl, rfl, rfl⟩,
    ⟨by change TensorShape.Fits ⟨2, 1, 1⟩; decide, rfl, rfl, rfl, rfl⟩, single_wf _, ?_, ?_, ?_, ?_,
    _, rfl, ?_⟩
  · unfold mmShapes; exact ⟨rfl, rfl, rfl, rfl, rfl⟩
  · intro l hl
    have : l = 0 ∨ l = 1 := by omega
    rcases this with rfl | rfl
    · rw [v0, w0]; decide
    · rw [v1, w1]; decide
  · simp only [List.range_succ, List.range_zero, List.nil_append, List.cons_append, List.map_cons,
      List.map_nil, List.sum_cons, List.sum_nil, v0, v1, w0, w1, e0, e1]
    norm_num
  · simp only [List.range_succ, List.range_zero, List.nil_append, List.cons_append, List.map_cons,
      List.map_nil, List.sum_cons, List.sum_nil, v0, v1, w0, w1, e0, e1]
    norm_num
  · change [F32.add (F32.add (mk' false 0) (F32.mul ⟨0x3f800000⟩ ⟨0x3f800000⟩))
      (F32.mul ⟨0x33800000⟩ ⟨0x3f800000⟩)] = [⟨0x3f800000⟩]
    decide

/-! ## C65 -/

/-- C65: a fully connected layer with finite parameters and input whose products and bias stay below
`2^125` in total outputs `max(0, Wx+b)` up to a relative error of `(n+2) 2^-23` of that total, plus
`(n+1) 2^-149`, in both modes. -/
theorem C65_fully_connected (b : Build) (l : FullyConnectedLayer F32) (hl : l.Ok) (x out : Tensor F32)
    (hx : x.WF) (hxs : x.shape = l.get_input_shape) (ho : out.WF)
    (hos : out.shape = l.get_output_shape) (hn : l.weights.shape.dj.toNat < 2 ^ 22) :
    ∃ l' y, l.forward b x out = .ok (.ok (), l', y) ∧
      ∀ o, o < l.weights.shape.di.toNat →
        (∀ i, i < l.weights.shape.dj.toNat →
          (val l.weights o i 0).isFinite = true ∧ (val x i 0 0).isFinite = true) →
        (val l.bias o 0 0).isFinite = true →
        ((List.range l.weights.shape.dj.toNat).map fun i =>
            |(val l.weights o i 0).toReal * (val x i 0 0).toReal|).sum +
          |(val l.bias o 0 0).toReal| ≤ 2 ^ 125 →
        ∃ v, y.get_item b (ix o 0 0) = .ok v ∧ v.isFinite = true ∧
          |v.toReal - max 0 (((List.range l.weights.shape.dj.toNat).map fun i =>
              (val l.weights o i 0).toReal * (val x i 0 0).toReal).sum +
              (val l.bias o 0 0).toReal)| ≤
            (l.weights.shape.dj.toNat + 2) / 2 ^ 23 *
              (((List.range l.weights.shape.dj.toNat).map fun i =>
                |(val l.weights o i 0).toReal * (val x i 0 0).toReal|).sum +
                |(val l.bias o 0 0).toReal|) +
            (l.weights.shape.dj.toNat + 1) / 2 ^ 149 := by
  have key : ∃ l' y, l.forward b x out = .ok (.ok (), l', y) ∧
      ∀ o, o < l.weights.shape.di.toNat → y.get_item b (ix o 0 0) = .ok (relu (preact l x o)) := by
    cases hm : l.run_state with
    | Inference =>
      obtain ⟨y, q1, _, _, q4⟩ := C27_forward_inference b l hl hm x out hx hxs ho hos
      refine ⟨l, y, q1, fun o h => ?_⟩
      rw [q4 o h, MaxZero.fmax_zero _ (summed_preact l x o)]
      rfl
    | Training =>
      obtain ⟨m, y, q1, _, _, q4⟩ := C27_forward_training b l hl hm x out hx hxs ho hos
      exact ⟨_, y, q1, fun o h => (q4 o h).1⟩
  obtain ⟨l', y, q1, q2⟩ := key
  refine ⟨l', y, q1, fun o h hf hβ hA => ⟨_, q2 o h, ?_⟩⟩
  have hfin : (preact l x o).isFinite = true :=
    affine_finite _ _ _ _ (by rwa [List.length_range])
      (fun n hm => hf n (List.mem_range.mp hm)) hβ hA
  have he := affine_error _ _ _ _ hfin
  rw [List.length_range] at he
  have hA0 : 0 ≤ ((List.range l.weights.shape.dj.toNat).map fun i =>
      |(val l.weights o i 0).toReal * (val x i 0 0).toReal|).sum + |(val l.bias o 0 0).toReal| :=
    add_nonneg ((abs_nonneg _).trans (abs_sum_le _ fun i =>
      (val l.weights o i 0).toReal * (val x i 0 0).toReal)) (abs_nonneg _)
  have := he.trans (errBound_le (by omega) hA0)
  push_cast at this
  rw [show ((l.weights.shape.dj.toNat : ℝ) + 1 + 1) = l.weights.shape.dj.toNat + 2 by ring] at this
  exact relu_error hfin this

/-- C65 for convolutional layers, `n` the number of entries of the kernel. -/
theorem C65_convolutional (b : Build) (l : ConvolutionalLayer F32) (hl : l.Ok) (x out : Tensor F32)
    (hx : x.WF) (hxs : x.shape = l.input_shape) (ho : out.WF) (hos : out.shape = l.output_shape) :
    ∃ l' y, l.forward b x out = .ok (.ok (), l', y) ∧
      ∀ i j k kernel bias, l.output_shape.Inside i j k → l.kernels[k]? = some kernel →
        l.biases[k]? = some bias → kernel.shape.count < 2 ^ 22 →
        (∀ ki kj kk, kernel.shape.Inside ki kj kk → (val kernel ki kj kk).isFinite = true ∧
          (val x (i * l.stride.toNat + ki) (j * l.stride.toNat + kj) kk).isFinite = true) →
        (val bias 0 0 0).isFinite = true →
        (kernel.shape.indices.map fun p =>
            |(val x (i * l.stride.toNat + p.1) (j * l.stride.toNat + p.2.1) p.2.2).toReal *
              (val kernel p.1 p.2.1 p.2.2).toReal|).sum + |(val bias 0 0 0).toReal| ≤ 2 ^ 125 →
        ∃ v, y.get_item b (ix i j k) = .ok v ∧ v.isFinite = true ∧
          |v.toReal - max 0 ((kernel.shape.indices.map fun p =>
              (val x (i * l.stride.toNat + p.1) (j * l.stride.toNat + p.2.1) p.2.2).toReal *
                (val kernel p.1 p.2.1 p.2.2).toReal).sum + (val bias 0 0 0).toReal)| ≤
            (kernel.shape.count + 2) / 2 ^ 23 *
              ((kernel.shape.indices.map fun p =>
                |(val x (i * l.stride.toNat + p.1) (j * l.stride.toNat + p.2.1) p.2.2).toReal *
                  (val kernel p.1 p.2.1 p.2.2).toReal|).sum + |(val bias 0 0 0).toReal|) +
            (kernel.shape.count + 1) / 2 ^ 149 := by
  have key : ∃ l' y, l.forward b x out = .ok (.ok (), l', y) ∧
      ∀ i j k, l.output_shape.Inside i j k →
        y.get_item b (ix i j k) = .ok (relu (convPre l x i j k)) := by
    cases hm : l.run_state with
    | Inference =>
      obtain ⟨y, q1, _, _, q4⟩ := C30_forward_inference b l x out hl hm hx hxs ho hos
      refine ⟨l, y, q1, fun i j k h => ?_⟩
      rw [q4 i j k h, MaxZero.fmax_zero _ (summed_convPre l x i j k)]
      rfl
    | Training =>
      obtain ⟨m, y, q1, _, _, _, _, q4⟩ := C30_forward_training b l x out hl hm hx hxs ho hos
      exact ⟨_, y, q1, fun i j k h => (q4 i j k h).1⟩
  obtain ⟨l', y, q1, q2⟩ := key
  refine ⟨l', y, q1, fun i j k kernel bias h hk hb hn hf hβ hA => ⟨_, q2 i j k h, ?_⟩⟩
  have e : convPre l x i j k = F32.add (Spec.sum (kernel.shape.indices.map fun p =>
      F32.mul (val x (i * l.stride.toNat + p.1) (j * l.stride.toNat + p.2.1) p.2.2)
        (val kernel p.1 p.2.1 p.2.2))) (val bias 0 0 0) := by
    unfold convPre
    rw [hk, hb]
    rfl
  rw [e]
  have hlen : kernel.shape.indices.length = kernel.shape.count := indices_length _
  have hfin := affine_finite kernel.shape.indices
    (fun p => val x (i * l.stride.toNat + p.1) (j * l.stride.toNat + p.2.1) p.2.2)
    (fun p => val kernel p.1 p.2.1 p.2.2) (val bias 0 0 0) (by rwa [hlen])
    (fun p hp => (hf p.1 p.2.1 p.2.2 (mem_indices.mp hp)).symm) hβ hA
  have he := affine_error _ _ _ _ hfin
  rw [hlen] at he
  have hA1 := abs_sum_le kernel.shape.indices fun p =>
    (val x (i * l.stride.toNat + p.1) (j * l.stride.toNat + p.2.1) p.2.2).toReal *
      (val kernel p.1 p.2.1 p.2.2).toReal
  have hA0 := add_nonneg ((abs_nonneg _).trans hA1) (abs_nonneg (val bias 0 0 0).toReal)
  have := he.trans (errBound_le (by omega) hA0)
  push_cast at this
  rw [show ((kernel.shape.count : ℝ) + 1 + 1) = kernel.shape.count + 2 by ring] at this
  exact relu_error hfin this

/-- a 1 -> 1 layer with weight 1 and bias 1 -/
def exUnit : FullyConnectedLayer F32 :=
  { weights := single ⟨0x3f800000⟩, bias := single ⟨0x3f800000⟩, weights_gradients := single ⟨0⟩
    weights_gradients_intermediate := single ⟨0⟩, bias_gradients := single ⟨0⟩
    relu_mask := single ⟨0⟩, name := "fc", run_state := .Inference }

/-- The assumptions of C65 can be met. -/
example : exUnit.Ok ∧ exUnit.weights.shape.dj.toNat < 2 ^ 22 ∧
    (∀ i, i < exUnit.weights.shape.dj.toNat → (val exUnit.weights 0 i 0).isFinite = true ∧
      (val (single ⟨0x3f800000⟩) i 0 0).isFinite = true) ∧
    ((List.range exUnit.weights.shape.dj.toNat).map fun i =>
        |(val exUnit.weights 0 i 0).toReal * (val (single ⟨0x3f800000⟩) i 0 0).toReal|).sum +
      |(val exUnit.bias 0 0 0).toReal| ≤ 2 ^ 125 := by
  have e0 : (⟨0x3f800000⟩ : F32).toReal = 1 := by
    unfold toReal
    rw [show (⟨0x3f800000⟩ : F32).toInt = 2 ^ 149 by decide]
    norm_num
  have v : val (single ⟨0x3f800000⟩) 0 0 0 = ⟨0x3f800000⟩ := rfl
  have d : exUnit.weights.shape.dj.toNat = 1 := rfl
  refine ⟨⟨single_wf _, single_wf _, rfl, rfl, fun _ => ⟨⟨single_wf _, rfl⟩, ⟨single_wf _, rfl⟩,
    ⟨single_wf _, rfl⟩, ⟨single_wf _, rfl⟩⟩⟩, by rw [d]; norm_num, ?_, ?_⟩
  · intro i hi
    rw [d] at hi
    obtain rfl : i = 0 := by omega
    change (val (single ⟨0x3f800000⟩) 0 0 0).isFinite = true ∧ _
    rw [v]
    decide
  · rw [d]
    change ((List.range 1).map fun i => |(val (single ⟨0x3f800000⟩) 0 i 0).toReal *
        (val (single ⟨0x3f800000⟩) i 0 0).toReal|).sum +
      |(val (single ⟨0x3f800000⟩) 0 0 0).toReal| ≤ 2 ^ 125
    simp only [List.range_succ, List.range_zero, List.nil_append, List.map_cons, List.map_nil,
      List.sum_cons, List.sum_nil, v, e0]
    norm_num

/-! ## C66 -/

/-- C66: whatever its parameters and input, NaN and infinities included, a fully connected,
convolutional or max-pool layer never outputs NaN, in either mode; the first two never output a number
with the sign bit set (so neither a negative number nor `-0.0`). -/
theorem C66_layer (b : Build) (l : AnyLayer F32) (hl : l.Ok) (hsm : ∀ s, l ≠ .sm s)
    (x out : Tensor F32) (hx : x.WF) (hxs : x.shape = l.get_input_shape) (ho : out.WF)
    (hos : out.shape = l.get_output_shape) :
    ∃ l' y, l.forward b x out = .ok (.ok (), l', y) ∧
      ∀ i j k, l.get_output_shape.Inside i j k → ∃ v, y.get_item b (ix i j k) = .ok v ∧
        v.isNaN = false ∧ ((∀ p, l ≠ .mp p) → v.sign = false) := by
  obtain ⟨l', y, h1, h2, h3, h4⟩ := forward_ok (b := b) hl hx hxs ho hos
  refine ⟨l', y, h1, fun i j k hin => ⟨_, get_item_ok h2 (by rw [h3]; exact hin), ?_⟩⟩
  rw [h4 i j k hin]
  exact layerAt_notNaN l hsm x i j k

/-- C66: the output of a network whose last layer is no softmax layer never contains NaN. -/
theorem C66_network (b : Build) (n : Net F32) (hn : Built b n) (last : AnyLayer F32)
    (hlast : n.get_layers.getLast? = some last) (hsm : ∀ s, last ≠ .sm s) (x : Tensor F32)
    (hx : x.WF) (hxs : x.shape = n.get_input_shape) :
    ∃ n' y, n.infer b x = .ok (.ok (), n') ∧ n'.get_output = .ok y ∧
      y.shape = n.get_output_shape ∧
      ∀ i j k, y.shape.Inside i j k → ∃ v, y.get_item b (ix i j k) = .ok v ∧ v.isNaN = false := by
  have hne : n.get_layers ≠ [] := by rintro e; rw [e] at hlast; cases hlast
  obtain ⟨n', h1, _, h3, h4⟩ := C36_infer b n hn hne x hx hxs
  have hpos : 0 < n.get_layers.length := List.length_pos_of_ne_nil hne
  have hos := (built_netOk hn).chain.last last hlast
  rw [List.getLast?_eq_getElem?] at hlast
  obtain ⟨s, s', _, e2, e3⟩ := h3 _ _ hlast
  rw [Nat.sub_add_cancel hpos] at e2
  refine ⟨n', s', h1, by rw [h4, e2], ?_, fun i j k hin => ⟨_, e3.2.2 i j k (by rwa [e3.2.1] at hin), ?_⟩⟩
  · rw [e3.2.1, hos]
  · exact (layerAt_notNaN last hsm s i j k).1

/-- a 1 -> 1 layer whose weight is NaN and whose bias is 1 -/
def exNaN : FullyConnectedLayer F32 :=
  { weights := single nan, bias := single ⟨0x3f800000⟩, weights_gradients := single ⟨0⟩
    weights_gradients_intermediate := single ⟨0⟩, bias_gradients := single ⟨0⟩
    relu_mask := single ⟨0⟩, name := "fc", run_state := .Inference }

theorem exNaN_ok : exNaN.Ok :=
  ⟨single_wf _, single_wf _, rfl, rfl, fun _ => ⟨⟨single_wf _, rfl⟩, ⟨single_wf _, rfl⟩,
    ⟨single_wf _, rfl⟩, ⟨single_wf _, rfl⟩⟩⟩

/-- C66 covers parameters that are NaN: the pre-activation is NaN, the output is zero. -/
example : (AnyLayer.fc exNaN).Ok ∧ (preact exNaN (single ⟨0x3f800000⟩) 0).isNaN = true ∧
    ∃ y, exNaN.forward .debug (single ⟨0x3f800000⟩) (single ⟨0⟩) = .ok (.ok (), exNaN, y) ∧
      y.data = [⟨0⟩] := by
  refine ⟨exNaN_ok, ?_, ?_⟩
  · change (F32.add (F32.add (mk' false 0) (F32.mul nan ⟨0x3f800000⟩)) ⟨0x3f800000⟩).isNaN = true
    decide
  · obtain ⟨y, q1, q2, q3, q4⟩ := fc_forward_inference (b := .debug) exNaN_ok rfl
      (single_wf ⟨0x3f800000⟩) rfl (single_wf ⟨0⟩) rfl
    refine ⟨y, q1, ?_⟩
    have h0 := q4 0 (by decide)
    rw [data_indices q2, q3]
    change [val y 0 0 0] = _
    rw [h0, MaxZero.fmax_zero _ (summed_preact _ _ _)]
    have hg : F32Ops.gt (preact exNaN (single ⟨0x3f800000⟩) 0) zero = false := by
      change F32.gt (F32.add (F32.add (mk' false 0) (F32.mul nan ⟨0x3f800000⟩)) ⟨0x3f800000⟩)
        (mk' false 0) = false
      decide
    rw [hg]
    rfl

/-- a network with that layer is covered by C66 -/
example (b : Build) : ∃ n l, Built b n ∧ n.get_layers.getLast? = some (.fc l) ∧
    l.weights = exNaN.weights := by
  cases b <;> exact ⟨_, _, .add_layer (Network.new .Inference) (.fc exNaN) (.ok ()) _ (.new _)
    exNaN_ok rfl, rfl, rfl⟩

/-! ## C67 -/

/-- C67: where softmax is defined (the computed sum of exponentials is finite and not zero), it never
reverses the order of two entries, unless `exp` does. -/
theorem C67_order (b : Build) (x out : Tensor F32) (hx : x.WF) (ho : out.WF)
    (hs : x.shape = out.shape)
    (hexp : ∀ i j k, x.shape.Inside i j k →
      (Libm.exp (val x i j k)).isNaN = false ∧ (Libm.exp (val x i j k)).sign = false)
    (hsum : (Spec.sum (x.data.map exp)).isFinite = true)
    (hpos : 0 < (Spec.sum (x.data.map exp)).code) :
    ∃ y, Tensor.softmax x out = .ok y ∧ ∀ i j k i' j' k', x.shape.Inside i j k →
      x.shape.Inside i' j' k' →
      F32.gt (Libm.exp (val x i j k)) (Libm.exp (val x i' j' k')) = false →
      ∃ v v', y.get_item b (ix i j k) = .ok v ∧ y.get_item b (ix i' j' k') = .ok v' ∧
        F32.gt v v' = false := by
  obtain ⟨y, h1, h2, h3, h4⟩ := softmax_ok hx ho hs
  have hall := exps_nonneg hx hexp
  obtain ⟨g1, _, g3⟩ := sum_ge (x.data.map exp) (mk' false 0) (by decide) hall hsum (by decide)
  refine ⟨y, h1, fun i j k i' j' k' hin hin' hgt => ⟨_, _,
    get_item_ok h2 (by rw [h3, ← hs]; exact hin), get_item_ok h2 (by rw [h3, ← hs]; exact hin'), ?_⟩⟩
  rw [h4 i j k (hs ▸ hin), h4 i' j' k' (hs ▸ hin')]
  unfold softmaxAt
  rw [← exps_indices hx]
  exact div_order (hexp _ _ _ hin).2 (hexp _ _ _ hin').2 g1 hsum hpos
    (g3 _ (exps_mem hx hin)) (g3 _ (exps_mem hx hin')) hgt

/-- an `exp` with two values -/
def exExp (x : F32) : F32 := if x.bits = 0 then ⟨0x3f800000⟩ else ⟨0x40000000⟩

/-- the conditions of C67 hold for two different entries, and the order is not trivial: with that `exp`, 0 comes
below 1 and not the other way round -/
example : let _ : Libm := ⟨exExp, true⟩
    let x : Tensor F32 := ⟨⟨1, 2, 2⟩, ⟨2, 1, 1⟩, [⟨0⟩, ⟨0x3f800000⟩]⟩
    (∀ e ∈ x.data, (Libm.exp e).isNaN = false ∧ (Libm.exp e).sign = false) ∧
    (Spec.sum (x.data.map exp)).isFinite = true ∧ 0 < (Spec.sum (x.data.map exp)).code ∧
    F32.gt (Libm.exp (val x 0 0 0)) (Libm.exp (val x 1 0 0)) = false ∧
    F32.gt (Libm.exp (val x 1 0 0)) (Libm.exp (val x 0 0 0)) = true := by
  intro _ x
  have hs : Spec.sum (x.data.map exp) = F32.add (F32.add (mk' false 0) (exExp ⟨0⟩)) (exExp ⟨0x3f800000⟩) := by
    simp only [x, Spec.sum, List.map_cons, List.map_nil, List.foldl_cons, List.foldl_nil]
    with_reducible_and_instances rfl
  rw [hs]
  refine ⟨?_, by decide +kernel, by decide +kernel, ?_, ?_⟩
  · change ∀ e ∈ [(⟨0⟩ : F32), ⟨0x3f800000⟩], (exExp e).isNaN = false ∧ (exExp e).sign = false
    decide +kernel
  · change F32.gt (exExp ⟨0⟩) (exExp ⟨0x3f800000⟩) = false
    decide +kernel
  · change F32.gt (exExp ⟨0x3f800000⟩) (exExp ⟨0⟩) = true
    decide +kernel

/-! ## C68 -/

/-- C68: for a non-empty tensor of `n < 2^22` entries between -87 and 71, the numbers softmax writes
add up to 1 up to an error of `(2n+1) 2^-23 + n 2^-150`. -/
theorem C68_sum [ExpAccurate] (b : Build) (x out : Tensor F32) (hx : x.WF)
    (ho : out.WF) (hs : x.shape = out.shape) (hne : x.shape.count ≠ 0) (hn : x.shape.count < 2 ^ 22)
    (hr : ∀ i j k, x.shape.Inside i j k → (val x i j k).isFinite = true ∧
      -87 ≤ (val x i j k).toReal ∧ (val x i j k).toReal ≤ 71) :
    ∃ y, Tensor.softmax x out = .ok y ∧
      (∀ i j k, out.shape.Inside i j k → y.get_item b (ix i j k) = .ok (val y i j k)) ∧
      |(out.shape.indices.map fun p => (val y p.1 p.2.1 p.2.2).toReal).sum - 1| ≤
        (2 * x.shape.count + 1) / 2 ^ 23 + x.shape.count / 2 ^ 150 := by
  obtain ⟨y, h1, h2, h3, h4⟩ := softmax_ok hx ho hs
  refine ⟨y, h1, fun i j k hin => get_item_ok h2 (h3 ▸ hin), ?_⟩
  have hd := exps_range hx hr
  have hall : ∀ e ∈ x.data.map exp, e.sign = false ∧ e.isNaN = false :=
    exps_nonneg hx fun i j k h => ExpAccurate.nonneg _ (hr i j k h).1
  have hc : (Spec.sum (x.data.map exp)).code ≤ 254 * 2 ^ 23 :=
    sum_absorbs _ (mk' false 0) (by decide) (by decide) (fun e he => ⟨(hd e he).1, (hd e he).2.2⟩)
  have hf : (Spec.sum (x.data.map exp)).isFinite = true := by
    rw [finite_iff]; unfold infCode; omega
  obtain ⟨g1, _, g3⟩ := sum_ge (x.data.map exp) (mk' false 0) (by decide) hall hf (by decide)
  have hlen : (x.data.map exp).length = x.shape.count := by rw [List.length_map, hx.len]
  have hpos : 0 < (Spec.sum (x.data.map exp)).code := by
    obtain ⟨e, he⟩ := List.exists_mem_of_ne_nil (x.data.map exp)
      (fun h => hne (by rw [← hlen, h]; rfl))
    exact Nat.lt_of_lt_of_le (hd e he).2.1 (g3 e he)
  have := quotients_sum (x.data.map exp) (by rwa [hlen]) hpos hf g1 (fun e he => (hall e he).1)
    (fun e he => (div_unit (hall e he).1 g1 hf hpos (g3 e he)).1)
  rw [hlen] at this
  have e2 : (out.shape.indices.map fun p => (val y p.1 p.2.1 p.2.2).toReal) =
      (x.data.map exp).map fun e => (F32.div e (Spec.sum (x.data.map exp))).toReal := by
    conv_rhs => enter [2]; rw [exps_indices hx]
    rw [List.map_map, ← hs]
    apply List.map_congr_left
    intro p hp
    have hin : out.shape.Inside p.1 p.2.1 p.2.2 := hs ▸ mem_indices.mp hp
    rw [h4 _ _ _ hin]
    unfold softmaxAt
    rw [← exps_indices hx]
    rfl
  rw [e2]
  exact this

/-- a tensor that C68 covers; `expCut_accurate` gives an `exp` it covers -/
example : (single ⟨0⟩).WF ∧ (single ⟨0⟩).shape.count ≠ 0 ∧ (single ⟨0⟩).shape.count < 2 ^ 22 ∧
    (⟨0⟩ : F32).isFinite = true ∧ -87 ≤ (⟨0⟩ : F32).toReal ∧ (⟨0⟩ : F32).toReal ≤ 71 := by
  have h : (⟨0⟩ : F32).toReal = 0 := toReal_zero
  rw [h]
  exact ⟨single_wf _, by decide, by decide, by decide, by norm_num, by norm_num⟩

end Rusty
