import Verif.Lemmas.Backward
import Verif.Spec.Toy
import Verif.Lemmas.Misuse
import Verif.Props.Modes
import Verif.Props.Constructors

/-! # C69, C70: tensors of the wrong shape, and layers filled with unsuitable parameters -/

namespace Rusty

open F32Ops Spec

variable {F : Type} [F32Ops F]

/-! ## C69 -/

/-- C69 for convolutional layers, either mode: an input of another shape (at least as large as the
kernels), or an output with another number of rows or columns, is reported and nothing is written.

Partial: when both tensors have the wrong shape they may fit each other, and an output with more
channels than the layer is accepted. -/
theorem C69_convolutional_partial (b : Build) (l : ConvolutionalLayer F) (hl : l.Ok)
    (hd : l.output_shape.dk ≠ 0) (x out : Tensor F)
    (hk : ∀ k ∈ l.kernels, k.shape.di ≠ 0 ∧ k.shape.dj ≠ 0 ∧ k.shape.di ≤ x.shape.di ∧
      k.shape.dj ≤ x.shape.dj)
    (h : (x.shape ≠ l.input_shape ∧ out.shape = l.output_shape) ∨
      (x.shape = l.input_shape ∧
        (out.shape.di ≠ l.output_shape.di ∨ out.shape.dj ≠ l.output_shape.dj))) :
    ∃ e, l.forward b x out = .ok (.error e, l, out) := by
  have hs : l.stride.toNat ≠ 0 := fun h => hl.stride (u32_ext h)
  obtain ⟨n, hn⟩ := u32_succ hd
  have h0 : 0 < l.kernels.length := by rw [hl.count, hn]; omega
  have h0' : 0 < l.biases.length := by rw [hl.biasCount]; exact h0
  obtain ⟨k1, k2, k3⟩ := hl.kernels l.kernels[0] (List.getElem_mem h0)
  obtain ⟨d1, d2, d3, d4⟩ := hk l.kernels[0] (List.getElem_mem h0)
  rw [UInt32.le_iff_toNat_le] at d3 d4
  have d1' : l.kernels[0].shape.di.toNat ≠ 0 := fun h => d1 (u32_ext h)
  have d2' : l.kernels[0].shape.dj.toNat ≠ 0 := fun h => d2 (u32_ext h)
  have hbound : ∀ {d w : UInt32}, w.toNat ≠ 0 → w.toNat ≤ d.toNat →
      (d.toNat - w.toNat) / l.stride.toNat + 1 < 2 ^ 32 := by
    intro d w hw hle
    have := Nat.div_le_self (d.toNat - w.toNat) l.stride.toNat
    have := u32_lt d
    omega
  obtain ⟨e, he⟩ := (check_conv_spec (b := b) (re := out.shape) (c := 0) hs d3 d4
    (hbound d1' d3) (hbound d2' d4)).2 (by
      rintro ⟨c1, ⟨c2, c3⟩, _⟩
      rcases h with ⟨h1, h2⟩ | ⟨h1, h2⟩
      · rw [h2] at c2 c3
        exact h1 (shape_ext (tiles_unique c2 k3.1) (tiles_unique c3 k3.2) (c1.trans k2))
      · rw [h1] at c2 c3
        rcases h2 with h2 | h2
        · exact h2 (u32_ext (tiles_count_unique hs c2 k3.1))
        · exact h2 (u32_ext (tiles_count_unique hs c3 k3.2)))
  exact ⟨e, conv_first_refuses hd (List.getElem?_eq_getElem h0) (List.getElem?_eq_getElem h0') he⟩

/-- C69 for convolutional layers, either mode, any shapes (images at least as large as the kernels):
unless image, kernels and output fit each other and the output has channels at all, an error is
reported and nothing is written.

Partial: for tensors of the wrong shape that do fit each other see the negations. -/
theorem C69_convolutional_unfit_partial (b : Build) (l : ConvolutionalLayer F) (hl : l.Ok)
    (hd : l.output_shape.dk ≠ 0) (x out : Tensor F)
    (hk : ∀ k ∈ l.kernels, k.shape.di ≠ 0 ∧ k.shape.dj ≠ 0 ∧ k.shape.di ≤ x.shape.di ∧
      k.shape.dj ≤ x.shape.dj)
    (h : x.shape.dk ≠ l.input_shape.dk ∨ out.shape.dk = 0 ∨
      ∃ k ∈ l.kernels, ¬ windowsTile x.shape k.shape l.stride out.shape) :
    ∃ e, l.forward b x out = .ok (.error e, l, out) := by
  have hs : l.stride.toNat ≠ 0 := fun h => hl.stride (u32_ext h)
  obtain ⟨n, hn⟩ := u32_succ hd
  have h0 : 0 < l.kernels.length := by rw [hl.count, hn]; omega
  have h0' : 0 < l.biases.length := by rw [hl.biasCount]; exact h0
  obtain ⟨k1, k2, k3⟩ := hl.kernels l.kernels[0] (List.getElem_mem h0)
  obtain ⟨d1, d2, d3, d4⟩ := hk l.kernels[0] (List.getElem_mem h0)
  rw [UInt32.le_iff_toNat_le] at d3 d4
  have d1' : l.kernels[0].shape.di.toNat ≠ 0 := fun h => d1 (u32_ext h)
  have d2' : l.kernels[0].shape.dj.toNat ≠ 0 := fun h => d2 (u32_ext h)
  have hbound : ∀ {d w : UInt32}, w.toNat ≠ 0 → w.toNat ≤ d.toNat →
      (d.toNat - w.toNat) / l.stride.toNat + 1 < 2 ^ 32 := by
    intro d w hw hle
    have := Nat.div_le_self (d.toNat - w.toNat) l.stride.toNat
    have := u32_lt d
    omega
  obtain ⟨e, he⟩ := (check_conv_spec (b := b) (re := out.shape) (c := 0) hs d3 d4
    (hbound d1' d3) (hbound d2' d4)).2 (by
      rintro ⟨c1, c2, c3⟩
      rcases h with h | h | ⟨k, hkm, h⟩
      · exact h (c1.trans k2)
      · rw [h] at c3
        exact absurd c3 (by decide)
      · apply h
        obtain ⟨_, _, m1, m2⟩ := hl.kernels k hkm
        obtain ⟨n1, n2⟩ := k3
        unfold windowsTile tiles at *
        rw [show k.shape.di.toNat = l.kernels[0].shape.di.toNat by omega,
          show k.shape.dj.toNat = l.kernels[0].shape.dj.toNat by omega]
        exact c2)
  exact ⟨e, conv_first_refuses hd (List.getElem?_eq_getElem h0) (List.getElem?_eq_getElem h0') he⟩

/-- C69 is false for convolutional layers in inference mode: whatever shape the image has, if the
windows of the kernels tile it and the output has room for them, the answer is `Ok`; channels of the
output that the layer does not have keep their contents. -/
theorem C69_convolutional_negation (b : Build) (l : ConvolutionalLayer F) (hl : l.Ok)
    (hm : l.run_state = .Inference) (x out : Tensor F) (hx : x.WF) (ho : out.WF)
    (hdx : x.shape.dk = l.input_shape.dk)
    (ht : ∀ k ∈ l.kernels, windowsTile x.shape k.shape l.stride out.shape)
    (hdo : l.output_shape.dk ≤ out.shape.dk) :
    ∃ y, l.forward b x out = .ok (.ok (), l, y) ∧ y.WF ∧ y.shape = out.shape ∧
      ∀ i j k, out.shape.Inside i j k → y.get_item b (ix i j k) =
        if k < l.output_shape.dk.toNat then .ok (fmax (convPre l x i j k) zero)
        else out.get_item b (ix i j k) := by
  have hs : l.stride.toNat ≠ 0 := fun h => hl.stride (u32_ext h)
  rw [UInt32.le_iff_toNat_le] at hdo
  obtain ⟨y, q1, q2, q3, q4⟩ := conv_channels_any hl ho
    (fun k hk => ⟨hdx.trans (hl.kernels k hk).2.1.symm, ht k hk⟩) l.output_shape.dk.toNat
    (by rw [hl.count]) hdo (convolution_bias_relu b) (fun v => fmax v zero)
    (fun kernel bias result c k1 k2 k3 k4 k5 =>
      conv_bias_relu_ok hx k1 k2 k3 hs k4 (by rw [k5]; decide))
  refine ⟨y, ?_, q2, q3, fun i j k hin => ?_⟩
  · unfold ConvolutionalLayer.forward
    rw [hm]
    simp only
    rw [q1]
    rfl
  · rw [get_item_ok q2 (by rw [q3]; exact hin), get_item_ok ho hin, q4 i j k hin]
    split <;> rfl

/-- C69 is false for convolutional layers in training mode: when such tensors have the wrong shape an
error is reported, but the output has been overwritten with the values before activation. -/
theorem C69_convolutional_training_negation (b : Build) (l : ConvolutionalLayer F) (hl : l.Ok)
    (hm : l.run_state = .Training) (x out : Tensor F) (hx : x.WF) (ho : out.WF)
    (hdx : x.shape.dk = l.input_shape.dk)
    (ht : ∀ k ∈ l.kernels, windowsTile x.shape k.shape l.stride out.shape)
    (hdo : l.output_shape.dk ≤ out.shape.dk) (hos : out.shape ≠ l.output_shape) :
    ∃ e y, l.forward b x out = .ok (.error e, l, y) ∧ y.WF ∧ y.shape = out.shape ∧
      ∀ i j k, out.shape.Inside i j k → y.get_item b (ix i j k) =
        if k < l.output_shape.dk.toNat then .ok (convPre l x i j k)
        else out.get_item b (ix i j k) := by
  have hs : l.stride.toNat ≠ 0 := fun h => hl.stride (u32_ext h)
  rw [UInt32.le_iff_toNat_le] at hdo
  obtain ⟨y, q1, q2, q3, q4⟩ := conv_channels_any hl ho
    (fun k hk => ⟨hdx.trans (hl.kernels k hk).2.1.symm, ht k hk⟩) l.output_shape.dk.toNat
    (by rw [hl.count]) hdo (convolution_bias b) (fun v => v)
    (fun kernel bias result c k1 k2 k3 k4 k5 =>
      conv_bias_ok hx k1 k2 k3 hs k4 (by rw [k5]; decide))
  refine ⟨"relu_self_and_store_mask: Input and mask must have the same shape", y, ?_, q2, q3,
    fun i j k hin => ?_⟩
  · cases l
    simp only at hm
    subst hm
    unfold ConvolutionalLayer.forward
    simp only at q1 ⊢
    rw [q1, ok_bind]
    simp only
    unfold Tensor.relu_self_and_store_mask
    rw [if_pos (by rw [q3, (hl.buffers rfl).2.2.2]; exact hos)]
    rfl
  · rw [get_item_ok q2 (by rw [q3]; exact hin), get_item_ok ho hin, q4 i j k hin]
    split <;> rfl

/-- C69 is false for convolutional layers in either mode when the output has some, but too few
channels: an error is reported, but the output has been overwritten. -/
theorem C69_convolutional_few_channels_negation (b : Build) (l : ConvolutionalLayer F) (hl : l.Ok)
    (x out : Tensor F) (hx : x.WF) (ho : out.WF) (hdx : x.shape.dk = l.input_shape.dk)
    (ht : ∀ k ∈ l.kernels, windowsTile x.shape k.shape l.stride out.shape)
    (hdo : out.shape.dk < l.output_shape.dk) :
    ∃ e y, l.forward b x out = .ok (.error e, l, y) ∧ y.WF ∧ y.shape = out.shape ∧
      ∀ i j k, out.shape.Inside i j k → y.get_item b (ix i j k) =
        .ok (match l.run_state with
          | .Inference => fmax (convPre l x i j k) zero
          | .Training => convPre l x i j k) := by
  have hs : l.stride.toNat ≠ 0 := fun h => hl.stride (u32_ext h)
  rw [UInt32.lt_iff_toNat_lt] at hdo
  have hk : out.shape.dk.toNat < l.kernels.length := by rw [hl.count]; exact hdo
  have hb : out.shape.dk.toNat < l.biases.length := by rw [hl.biasCount]; exact hk
  have hfit : ∀ k ∈ l.kernels, x.shape.dk = k.shape.dk ∧
      windowsTile x.shape k.shape l.stride out.shape :=
    fun k hk => ⟨hdx.trans (hl.kernels k hk).2.1.symm, ht k hk⟩
  obtain ⟨e, he⟩ := check_conv_channel (b := b) (c := UInt32.ofNat out.shape.dk.toNat) hs
    (ht _ (List.getElem_mem hk)) (by rw [toNat_ofNat_lt (u32_lt _)])
  have hsplit : List.range l.output_shape.dk.toNat = List.range out.shape.dk.toNat ++
      out.shape.dk.toNat :: List.range' (out.shape.dk.toNat + 1)
        (l.output_shape.dk.toNat - (out.shape.dk.toNat + 1)) := by
    have := List.range'_append_1 (s := 0) (m := out.shape.dk.toNat)
      (n := l.output_shape.dk.toNat - (out.shape.dk.toNat + 1) + 1)
    rw [Nat.zero_add] at this
    rw [← List.range'_succ, List.range_eq_range', List.range_eq_range', this]
    congr 1
    omega
  cases hm : l.run_state with
  | Inference =>
    obtain ⟨y, q1, q2, q3, q4⟩ := conv_channels_any hl ho hfit out.shape.dk.toNat
      (Nat.le_of_lt hk) (Nat.le_refl _) (convolution_bias_relu b) (fun v => fmax v zero)
      (fun kernel bias result c k1 k2 k3 k4 k5 =>
        conv_bias_relu_ok hx k1 k2 k3 hs k4 (by rw [k5]; decide))
    refine ⟨e, y, ?_, q2, q3, fun i j k hin => ?_⟩
    · unfold ConvolutionalLayer.forward
      rw [hm]
      simp only
      rw [hsplit, forListE_append _ _ _ _ _ q1, forListE_cons, vget_ok hk, ok_bind, vget_ok hb,
        ok_bind]
      unfold convolution_bias_relu
      rw [q3, he]
      rfl
    · rw [get_item_ok q2 (by rw [q3]; exact hin), q4 i j k hin, if_pos hin.2.2]
  | Training =>
    obtain ⟨y, q1, q2, q3, q4⟩ := conv_channels_any hl ho hfit out.shape.dk.toNat
      (Nat.le_of_lt hk) (Nat.le_refl _) (convolution_bias b) (fun v => v)
      (fun kernel bias result c k1 k2 k3 k4 k5 =>
        conv_bias_ok hx k1 k2 k3 hs k4 (by rw [k5]; decide))
    refine ⟨e, y, ?_, q2, q3, fun i j k hin => ?_⟩
    · unfold ConvolutionalLayer.forward
      rw [hm]
      simp only
      rw [hsplit, forListE_append _ _ _ _ _ q1, forListE_cons, vget_ok hk, ok_bind, vget_ok hb,
        ok_bind]
      unfold convolution_bias
      rw [q3, he]
      rfl
    · rw [get_item_ok q2 (by rw [q3]; exact hin), q4 i j k hin, if_pos hin.2.2]

/-- C69 for max-pool layers in training mode, any shapes (images at least as large as the windows):
unless image, windows and output fit each other and the output has as many entries as the layer's
own, an error is reported and nothing is written.

Partial: for tensors of the wrong shape that do fit see `C69_max_pool_training_negation`. -/
theorem C69_max_pool_unfit_partial (b : Build) (l : MaxPoolLayer) (hl : l.Ok)
    (ht : l.run_state = .Training) (x out : Tensor F) (ho : out.WF)
    (hm : l.mask_shape.di ≠ 0 ∧ l.mask_shape.dj ≠ 0 ∧ l.mask_shape.di ≤ x.shape.di ∧
      l.mask_shape.dj ≤ x.shape.dj)
    (h : x.shape.dk ≠ out.shape.dk ∨ ¬ windowsTile x.shape l.mask_shape l.stride out.shape ∨
      out.shape.count ≠ l.output_shape.count) :
    ∃ e, l.forward b x out = .ok (.error e, l, out) := by
  have hs : l.stride.toNat ≠ 0 := fun h => hl.stride (u32_ext h)
  obtain ⟨d1, d2, d3, d4⟩ := hm
  rw [UInt32.le_iff_toNat_le] at d3 d4
  have d1' : l.mask_shape.di.toNat ≠ 0 := fun h => d1 (u32_ext h)
  have d2' : l.mask_shape.dj.toNat ≠ 0 := fun h => d2 (u32_ext h)
  have hbound : ∀ {d w : UInt32}, w.toNat ≠ 0 → w.toNat ≤ d.toNat →
      (d.toNat - w.toNat) / l.stride.toNat + 1 < 2 ^ 32 := by
    intro d w hw hle
    have := Nat.div_le_self (d.toNat - w.toNat) l.stride.toNat
    have := u32_lt d
    omega
  have hc := check_pool_spec (b := b) (re := out.shape) hs d3 d4 (hbound d1' d3) (hbound d2' d4)
  by_cases hf : out.shape.dk = x.shape.dk ∧ windowsTile x.shape l.mask_shape l.stride out.shape
  · rw [decide_eq_true hf] at hc
    have hcount : out.shape.count ≠ l.output_shape.count := by
      rcases h with h | h | h
      · exact absurd hf.1.symm h
      · exact absurd hf.2 h
      · exact h
    refine ⟨"Origin tracker list size is not equal to number of output items", ?_⟩
    have hbuf := hl.buffers ht
    have htot := total_size_ok (b := b) ho.fits
    have hlt := toNat_ofNat_lt ho.fits.2
    cases l
    simp only at ht hbuf hc hcount
    subst ht
    unfold MaxPoolLayer.forward Tensor.max_pool_track_origin
    simp only
    rw [hc, ok_bind, if_neg (by simp), htot, ok_bind, hlt, if_pos (by rw [hbuf]; exact hcount)]
    rfl
  · rw [decide_eq_false hf] at hc
    refine ⟨"Max pooling dimensions don't match", ?_⟩
    cases l
    simp only at ht hc
    subst ht
    unfold MaxPoolLayer.forward Tensor.max_pool_track_origin
    simp only
    rw [hc]
    rfl

/-- C69 is false for max-pool layers in training mode: image and output of the wrong shape get the
answer `Ok` if they fit each other and the output has as many entries as the layer's own. -/
theorem C69_max_pool_training_negation [F32Order F] (b : Build) (l : MaxPoolLayer) (hl : l.Ok)
    (ht : l.run_state = .Training) (x out : Tensor F) (hx : x.WF) (ho : out.WF)
    (hd : x.shape.dk = out.shape.dk) (hw : windowsTile x.shape l.mask_shape l.stride out.shape)
    (hc : out.shape.count = l.output_shape.count) :
    ∃ l' y, l.forward b x out = .ok (.ok (), l', y) ∧ y.WF ∧ y.shape = out.shape ∧
      ∀ i j k, out.shape.Inside i j k → ∃ v, y.get_item b (ix i j k) = .ok v ∧
        isMax (window x l.mask_shape l.stride.toNat i j k) v := by
  have hs : l.stride.toNat ≠ 0 := fun h => hl.stride (u32_ext h)
  obtain ⟨y, o, q1, q2, q3, q4, q5⟩ := track_ok (b := b) hx ho hs hd.symm hw
    ((hl.buffers ht).trans hc.symm)
  refine ⟨{ l with max_pool_origin := o }, y, ?_, q2, q3, fun i j k hin => ?_⟩
  · unfold MaxPoolLayer.forward
    rw [ht]
    simp only
    rw [q1]
    rfl
  · refine ⟨_, get_item_ok q2 (by rw [q3]; exact hin), ?_⟩
    rw [(q5 i j k hin).1, runArg_fst, windowPos_fst]
    exact runMax_spec _

/-- C69 for max-pool layers in training mode: one tensor of the wrong shape is reported and nothing is
written.

Partial: when both tensors have the wrong shape they may fit each other; false in inference mode
(`C69_max_pool_negation`). -/
theorem C69_max_pool_partial (b : Build) (l : MaxPoolLayer) (hl : l.Ok)
    (ht : l.run_state = .Training) (x out : Tensor F)
    (hm : l.mask_shape.di ≠ 0 ∧ l.mask_shape.dj ≠ 0 ∧ l.mask_shape.di ≤ x.shape.di ∧
      l.mask_shape.dj ≤ x.shape.dj)
    (h : (x.shape ≠ l.input_shape ∧ out.shape = l.output_shape) ∨
      (x.shape = l.input_shape ∧ out.shape ≠ l.output_shape)) :
    ∃ e, l.forward b x out = .ok (.error e, l, out) := by
  refine ⟨"Max pooling dimensions don't match", ?_⟩
  have e := pool_refuses (b := b) hl hm h
  cases l
  simp only at ht
  subst ht
  unfold MaxPoolLayer.forward Tensor.max_pool_track_origin
  simp only at e ⊢
  rw [e]
  rfl

/-- C69 is false for max-pool layers in inference mode: the same tensors get the answer `Ok`, and
nothing is written. -/
theorem C69_max_pool_negation (b : Build) (l : MaxPoolLayer) (hl : l.Ok)
    (ht : l.run_state = .Inference) (x out : Tensor F)
    (hm : l.mask_shape.di ≠ 0 ∧ l.mask_shape.dj ≠ 0 ∧ l.mask_shape.di ≤ x.shape.di ∧
      l.mask_shape.dj ≤ x.shape.dj)
    (h : (x.shape ≠ l.input_shape ∧ out.shape = l.output_shape) ∨
      (x.shape = l.input_shape ∧ out.shape ≠ l.output_shape)) :
    l.forward b x out = .ok (.ok (), l, out) := by
  have e := pool_refuses (b := b) hl hm h
  unfold MaxPoolLayer.forward Tensor.max_pool
  rw [ht]
  simp only
  rw [e]
  rfl

/-- C69 is false for fully connected layers in inference mode: every call with an input or an output
of the wrong shape gets the answer `Ok` and writes nothing. -/
theorem C69_fully_connected_negation (b : Build) (l : FullyConnectedLayer F) (hl : l.Ok)
    (hm : l.run_state = .Inference) (x out : Tensor F)
    (h : x.shape ≠ l.get_input_shape ∨ out.shape ≠ l.get_output_shape) :
    l.forward b x out = .ok (.ok (), l, out) := by
  unfold FullyConnectedLayer.forward Tensor.matrix_multiply_add_relu
  rw [hm]
  simp only
  split
  · rename_i hc
    split
    · rename_i hb
      rw [← hb] at hc
      rcases h with h | h
      · exact absurd hc (fc_refuses hl h)
      · exact absurd hb.symm h
    · rfl
  · rfl

/-- C69 is false for fully connected layers in training mode: every call with an input of the wrong
shape gets the answer `Ok`, and the output becomes a function of its own old contents. -/
theorem C69_fully_connected_training_negation (b : Build) (l : FullyConnectedLayer F) (hl : l.Ok)
    (hm : l.run_state = .Training) (x out : Tensor F) (ho : out.WF)
    (hx : x.shape ≠ l.get_input_shape) (hos : out.shape = l.get_output_shape) :
    ∃ l' y, l.forward b x out = .ok (.ok (), l', y) ∧ y.WF ∧ y.shape = l.get_output_shape ∧
      ∀ o, o < l.weights.shape.di.toNat → ∃ v w, out.get_item b (ix o 0 0) = .ok v ∧
        l.bias.get_item b (ix o 0 0) = .ok w ∧ y.get_item b (ix o 0 0) = .ok (relu (add v w)) := by
  obtain ⟨b1, b2, b3, b4⟩ := hl.buffers hm
  have hob : out.shape = l.bias.shape := hos
  obtain ⟨w, s, v⟩ := add_to_self_ok ho hl.bias hob
  obtain ⟨t', m', p1, p2, p3, p4, p5, p6⟩ := relu_mask_ok w b4.1 (by rw [s, b4.2]; exact hob)
  refine ⟨{ l with relu_mask := m' }, t', ?_, p2, by rw [p4, s]; exact hos, fun o h => ?_⟩
  · unfold FullyConnectedLayer.forward Tensor.matrix_multiply
    rw [hm]
    simp only
    rw [if_neg (by rw [hob]; exact fc_refuses hl hx), pure_ok, ok_bind, p1]
    rfl
  · have hin : l.bias.shape.Inside o 0 0 := by rw [hl.rows]; exact col_inside h
    have hin' : out.shape.Inside o 0 0 := by rw [hob]; exact hin
    refine ⟨_, _, get_item_ok ho hin', get_item_ok hl.bias hin, ?_⟩
    rw [get_item_ok p2 (by rw [p4, s]; exact hin'), (p6 o 0 0 (by rw [s]; exact hin')).1,
      v o 0 0 hin']

/-- C69 for fully connected layers in training mode: an output of the wrong shape is reported.

Partial: the output may have been written to before (when input and output fit the weights); false
for inputs of the wrong shape and in inference mode. -/
theorem C69_fully_connected_partial (b : Build) (l : FullyConnectedLayer F) (hl : l.Ok)
    (hm : l.run_state = .Training) (x out : Tensor F) (hx : x.WF) (ho : out.WF)
    (hos : out.shape ≠ l.get_output_shape) :
    ∃ e l' y, l.forward b x out = .ok (.error e, l', y) ∧ params (.fc l') = params (.fc l) := by
  obtain ⟨b1, b2, b3, b4⟩ := hl.buffers hm
  obtain ⟨y, q1, q2⟩ : ∃ y, Tensor.matrix_multiply b l.weights x out = .ok y ∧
      y.shape = out.shape := by
    by_cases hc : Tensor.check_matrix_multiply_dimensions l.weights.shape x.shape out.shape = true
    · obtain ⟨y, q1, _, q3, _⟩ := matmul_ok (b := b) hl.weights hx ho hc
      exact ⟨y, q1, q3⟩
    · refine ⟨out, ?_, rfl⟩
      unfold Tensor.matrix_multiply
      simp only
      rw [if_neg hc]
      rfl
  have hs : (Tensor.add_to_self y l.bias).shape = out.shape := by
    unfold Tensor.add_to_self
    split
    · exact q2
    · exact q2
  refine ⟨"relu_self_and_store_mask: Input and mask must have the same shape",
    { l with relu_mask := l.relu_mask }, Tensor.add_to_self y l.bias, ?_, rfl⟩
  unfold FullyConnectedLayer.forward
  rw [hm]
  simp only
  rw [q1, ok_bind]
  unfold Tensor.relu_self_and_store_mask
  rw [if_pos (by rw [hs, b4.2]; exact hos), ← hm]
  rfl

/-- C69 is false for softmax layers in either mode: when input and output differ in shape the answer
is `Ok` and nothing is written. -/
theorem C69_softmax_negation (b : Build) (l : SoftmaxLayer F) (x out : Tensor F)
    (h : x.shape ≠ out.shape) : l.forward b x out = .ok (.ok (), l, out) := by
  unfold SoftmaxLayer.forward
  rw [softmax_mismatch x out h]
  rfl

open Toy in
/-- A client that reuses its output tensor takes the old prediction for the new one. -/
example : ∃ y, { exFC with run_state := .Inference }.forward .debug
      (⟨⟨1, 2, 2⟩, ⟨2, 1, 1⟩, [3, 1]⟩ : Tensor Int) (zeros ⟨3, 1, 1⟩) =
        .ok (.ok (), { exFC with run_state := .Inference }, y) ∧
    y.data = [2, 0, 0] ∧
    { exFC with run_state := .Inference }.forward .debug
      (⟨⟨1, 1, 2⟩, ⟨1, 2, 1⟩, [5, 5]⟩ : Tensor Int) y =
        .ok (.ok (), { exFC with run_state := .Inference }, y) := ⟨_, rfl, rfl, rfl⟩

open Toy in
example : exConv.output_shape.dk ≠ 0 ∧ exConv.input_shape = ⟨3, 3, 1⟩ ∧
    ∀ k ∈ exConv.kernels, k.shape.di ≠ 0 ∧ k.shape.dj ≠ 0 ∧ k.shape.di ≤ 4 ∧ k.shape.dj ≤ 4 := by
  decide

open Toy in
/-- A layer for 3x3 images takes a 4x4 image, and outputs with one channel more or less, as far as the
windows go. -/
example : (∀ k ∈ exConv.kernels, windowsTile ⟨4, 4, 1⟩ k.shape exConv.stride ⟨3, 3, 2⟩) ∧
    (∀ k ∈ exConv.kernels, windowsTile ⟨3, 3, 1⟩ k.shape exConv.stride ⟨2, 2, 3⟩) ∧
    (∀ k ∈ exConv.kernels, windowsTile ⟨3, 3, 1⟩ k.shape exConv.stride ⟨2, 2, 1⟩) ∧
    exConv.input_shape = ⟨3, 3, 1⟩ ∧ exConv.output_shape = ⟨2, 2, 2⟩ := by decide

open Toy in
/-- A max-pool layer for 4x2 images in training mode takes a 2x4 image. -/
example : ∃ l' y, ({ input_shape := ⟨4, 2, 1⟩, mask_shape := ⟨2, 2, 1⟩, output_shape := ⟨2, 1, 1⟩
                     stride := 2, name := "mp", run_state := .Training
                     max_pool_origin := [0, 0] } : MaxPoolLayer).forward .debug
      (⟨⟨1, 2, 8⟩, ⟨2, 4, 1⟩, [1, 2, 3, 4, 5, 6, 8, 7]⟩ : Tensor Int) (zeros ⟨1, 2, 1⟩) =
        .ok (.ok (), l', y) ∧ y.data = [4, 8] ∧ l'.max_pool_origin = [3, 6] := ⟨_, _, rfl, rfl, rfl⟩

/-! ## C70 -/

/-- C70 for fully connected layers: weights `out x in x 1` with a bias that `fill_from_state` accepts
make a layer that runs on every input of the shape it reports and computes what it should.

Partial: false for deeper weights (`C70_fully_connected_negation`). -/
theorem C70_fully_connected_partial (b : Build) (l l' : FullyConnectedLayer F)
    (weights bias : Tensor F) (name : String) (hw : weights.WF) (hb : bias.WF)
    (hd : weights.shape.dk = 1) (h : l.fill_from_state b weights bias name = .ok (.ok (), l'))
    (x out : Tensor F) (hx : x.WF) (hxs : x.shape = l'.get_input_shape) (ho : out.WF)
    (hos : out.shape = l'.get_output_shape) :
    l'.Ok ∧ l'.weights = weights ∧ l'.bias = bias ∧ l'.name = name ∧
    ∃ l'' y, l'.forward b x out = .ok (.ok (), l'', y) ∧ y.WF ∧ y.shape = l'.get_output_shape ∧
      ∀ o, o < weights.shape.di.toNat →
        y.get_item b (ix o 0 0) = .ok (act l'.run_state (preact l' x o)) := by
  unfold FullyConnectedLayer.fill_from_state at h
  simp only at h
  split at h
  · cases h
  rename_i e1
  split at h
  · cases h
  rename_i e2
  split at h
  · cases h
  rename_i e3
  simp only [ne_eq, not_not] at e1 e2 e3
  have hrows : bias.shape = ⟨weights.shape.di, 1, 1⟩ := by
    apply shape_ext
    · rw [e2]
    · rw [e3]
    · rw [← e1, hd]
  have hok : l'.Ok ∧ l'.weights = weights ∧ l'.bias = bias ∧ l'.name = name := by
    unfold FullyConnectedLayer.update_tensors at h
    cases hm : l.run_state with
    | Inference =>
      simp only [hm, empty_ok, ok_bind, pure_ok] at h
      cases h
      exact ⟨⟨hw, hb, hrows, hd, fun h => by cases h⟩, rfl, rfl, rfl⟩
    | Training =>
      simp only [hm, FullyConnectedLayer.get_output_shape, new_ok hw.fits, new_ok hb.fits,
        ok_bind, pure_ok] at h
      cases h
      have zw : ∀ {s : TensorShape}, s.Fits →
          ((zeros s : Tensor F).fill_with_value zero).WF := fun hs => (fill_ok _ (zeros_wf hs)).1
      exact ⟨⟨hw, hb, hrows, hd, fun _ => ⟨⟨zw hw.fits, rfl⟩, ⟨zw hw.fits, rfl⟩, ⟨zw hb.fits, rfl⟩,
        zw hb.fits, rfl⟩⟩, rfl, rfl, rfl⟩
  refine ⟨hok.1, hok.2.1, hok.2.2.1, hok.2.2.2, ?_⟩
  have hdi : ∀ o, o < weights.shape.di.toNat → l'.get_output_shape.Inside o 0 0 := by
    intro o hlt
    unfold FullyConnectedLayer.get_output_shape
    rw [hok.2.2.1, hrows]
    exact col_inside hlt
  cases hm : l'.run_state with
  | Inference =>
    obtain ⟨y, q1, q2, q3, q4⟩ := fc_forward_inference (b := b) hok.1 hm hx hxs ho hos
    refine ⟨l', y, q1, q2, q3, fun o hlt => ?_⟩
    rw [get_item_ok q2 (by rw [q3]; exact hdi o hlt), q4 o (by rw [hok.2.1]; exact hlt)]
    rfl
  | Training =>
    obtain ⟨m, y, q1, q2, q3, q4, q5, q6⟩ := fc_forward_training (b := b) hok.1 hm hx hxs ho hos
    refine ⟨_, y, q1, q2, q3, fun o hlt => ?_⟩
    rw [get_item_ok q2 (by rw [q3]; exact hdi o hlt), (q6 o (by rw [hok.2.1]; exact hlt)).1]
    rfl

/-- C70 is false for fully connected layers: weights with another depth than 1 are accepted (with a
bias of the same depth), the layer reports an input shape of depth 1, and in inference mode `forward`
on inputs of that shape answers `Ok` without ever writing the output. -/
theorem C70_fully_connected_negation (b : Build) (l : FullyConnectedLayer F)
    (weights bias : Tensor F) (name : String) (hm : l.run_state = .Inference)
    (hd : weights.shape.dk ≠ 1) (hb : bias.shape = ⟨weights.shape.di, 1, weights.shape.dk⟩) :
    ∃ l', l.fill_from_state b weights bias name = .ok (.ok (), l') ∧
      l'.get_input_shape = ⟨weights.shape.dj, 1, 1⟩ ∧ l'.get_output_shape = bias.shape ∧
      l'.run_state = .Inference ∧
      ∀ x out : Tensor F, x.shape = l'.get_input_shape →
        l'.forward b x out = .ok (.ok (), l', out) := by
  refine ⟨{ weights := weights, bias := bias, name := name, run_state := .Inference,
            weights_gradients := zeros ⟨1, 1, 1⟩,
            weights_gradients_intermediate := zeros ⟨1, 1, 1⟩,
            bias_gradients := zeros ⟨1, 1, 1⟩, relu_mask := zeros ⟨1, 1, 1⟩ }, ?_, rfl, rfl, rfl, ?_⟩
  · unfold FullyConnectedLayer.fill_from_state FullyConnectedLayer.update_tensors
    simp only [hb, hm, empty_ok, ok_bind, pure_ok, ne_eq, not_true, if_false]
  · intro x out hx
    unfold FullyConnectedLayer.forward Tensor.matrix_multiply_add_relu
    simp only
    rw [if_neg]
    · rfl
    · rw [check_mm_iff, hx]
      rintro ⟨c1, _⟩
      exact hd c1

/-- The consequence for networks: one such layer, added to a new network without complaint, makes
`infer` answer `Ok` with a prediction that is all zeros whatever the input. -/
theorem C70_network_negation (b : Build) (l : FullyConnectedLayer F)
    (weights bias : Tensor F) (name : String) (hm : l.run_state = .Inference)
    (hi : (⟨weights.shape.dj, 1, 1⟩ : TensorShape).Fits) (hb' : bias.WF)
    (hd : weights.shape.dk ≠ 1) (hb : bias.shape = ⟨weights.shape.di, 1, weights.shape.dk⟩) :
    ∃ l' n, l.fill_from_state b weights bias name = .ok (.ok (), l') ∧
      (Network.new .Inference : Net F).add_layer b (.fc l') = .ok (.ok (), n) ∧
      n.get_input_shape = ⟨weights.shape.dj, 1, 1⟩ ∧ n.get_output_shape = bias.shape ∧
      ∀ x : Tensor F, x.shape = n.get_input_shape →
        ∃ n' y, n.infer b x = .ok (.ok (), n') ∧ n'.get_output = .ok y ∧
          y.shape = bias.shape ∧ allZero y := by
  obtain ⟨l', h1, h2, h3, h4, h5⟩ :=
    C70_fully_connected_negation b l weights bias name hm hd hb
  have hl : ∃ l'', (AnyLayer.fc l').switch_to_inference b = .ok (.fc l'') ∧
      l''.get_input_shape = ⟨weights.shape.dj, 1, 1⟩ ∧ l''.get_output_shape = bias.shape ∧
      ∀ x out : Tensor F, x.shape = ⟨weights.shape.dj, 1, 1⟩ →
        l''.forward b x out = .ok (.ok (), l'', out) := by
    have hw : l'.weights = weights ∧ l'.bias = bias := by
      unfold FullyConnectedLayer.fill_from_state FullyConnectedLayer.update_tensors at h1
      simp only [hb, hm, empty_ok, ok_bind, pure_ok, ne_eq, not_true, if_false] at h1
      cases h1
      exact ⟨rfl, rfl⟩
    simp only [AnyLayer.switch_to_inference, FullyConnectedLayer.switch_to_inference,
      FullyConnectedLayer.update_tensors, empty_ok, ok_bind, pure_ok]
    refine ⟨_, rfl, h2, h3, fun x out hx => ?_⟩
    unfold FullyConnectedLayer.forward Tensor.matrix_multiply_add_relu
    simp only
    rw [if_neg]
    · rfl
    · rw [check_mm_iff, hx, hw.1]
      rintro ⟨c1, _⟩
      exact hd c1
  obtain ⟨l2, g1, g2, g3, g4⟩ := hl
  refine ⟨l', ⟨[.fc l2], [zeros ⟨weights.shape.dj, 1, 1⟩, zeros bias.shape], [],
    ⟨weights.shape.dj, 1, 1⟩, bias.shape, .Inference⟩, h1, ?_, rfl, rfl, ?_⟩
  · unfold Network.add_layer Network.enter_mode
    simp only [Network.new, LayerOps.switch_to_inference, g1, ok_bind, List.getLast?_nil,
      LayerOps.get_input_shape, LayerOps.get_output_shape, AnyLayer.get_input_shape,
      AnyLayer.get_output_shape, g2, g3, new_ok hi, new_ok hb'.fits]
    rfl
  · intro x hx
    refine ⟨⟨[.fc l2], [x, zeros bias.shape], [], ⟨weights.shape.dj, 1, 1⟩, bias.shape,
      .Inference⟩, zeros bias.shape, ?_, rfl, rfl, ?_⟩
    · have hx' : x.shape = ⟨weights.shape.dj, 1, 1⟩ := hx
      unfold Network.infer
      simp only
      rw [if_neg (by rw [hx']; simp), if_neg (by simp)]
      simp only [vset, List.length_cons, List.length_nil, Nat.zero_add, Nat.reduceAdd,
        Nat.zero_lt_succ, if_true, ok_bind, List.set_cons_zero, List.range_succ, List.range_zero,
        List.nil_append, forListE_cons, forListE_nil, Network.infer_step, vget,
        List.getElem?_cons_zero, List.getElem?_cons_succ]
      rw [if_neg (by omega)]
      simp only [LayerOps.forward, AnyLayer.forward, AnyLayer.rewrap, g4 x _ hx', ok_bind, pure_ok]
      rfl
    · intro v hv
      exact List.eq_of_mem_replicate hv

omit [F32Ops F] in
/-- what `fill_from_state` makes of suitable kernels and biases: a layer that would be well formed in
inference mode -/
theorem conv_fill_ok {b : Build} {l l' : ConvolutionalLayer F}
    {kernels biases : List (Tensor F)} {input : TensorShape} {stride : UInt32} {name : String}
    (hs : stride ≠ 0) (hi : input.Fits)
    (hlen : kernels.length < 2 ^ 32) (hbl : biases.length = kernels.length)
    (hk : ∀ k ∈ kernels, k.WF ∧ k.shape.dk = input.dk ∧ k.shape.di ≠ 0 ∧ k.shape.dj ≠ 0 ∧
      k.shape.di ≤ input.di ∧ k.shape.dj ≤ input.dj)
    (hb : ∀ k ∈ biases, k.WF ∧ k.shape = ⟨1, 1, 1⟩)
    (h : l.fill_from_state b kernels biases input stride name = .ok (.ok (), l'))
    (ho : l'.output_shape.Fits) :
    ({ l' with run_state := .Inference } : ConvolutionalLayer F).Ok ∧ l'.kernels = kernels ∧
      l'.biases = biases ∧ l'.input_shape = input ∧ l'.stride = stride ∧ l'.name = name ∧
      l'.run_state = l.run_state ∧ l'.relu_mask = l.relu_mask := by
  have hs' : stride.toNat ≠ 0 := fun h => hs (u32_ext h)
  cases hks : kernels with
  | nil => rw [hks] at h; cases h
  | cons k0 ks =>
    obtain ⟨w1, w2, w3, w4, w5, w6⟩ := hk k0 (by rw [hks]; exact List.mem_cons_self)
    rw [UInt32.le_iff_toNat_le] at w5 w6
    have w3' : k0.shape.di.toNat ≠ 0 := fun h => w3 (u32_ext h)
    have w4' : k0.shape.dj.toNat ≠ 0 := fun h => w4 (u32_ext h)
    have hbound : ∀ {d w : UInt32}, w.toNat ≠ 0 → w.toNat ≤ d.toNat →
        (d.toNat - w.toNat) / stride.toNat + 1 < 2 ^ 32 := by
      intro d w hw hle
      have := Nat.div_le_self (d.toNat - w.toNat) stride.toNat
      have := u32_lt d
      omega
    rw [hks] at h
    unfold ConvolutionalLayer.fill_from_state at h
    simp only at h
    split at h
    · cases h
    rename_i hany
    rw [does_fit_spec hs' w5 w6, ok_bind, dim_fit_spec hs' w5 w6 (hbound w3' w5) (hbound w4' w6),
      ok_bind] at h
    split at h
    · cases h
    rename_i hfit
    simp only [Bool.not_eq_true, decide_eq_false_iff_not, not_not] at hfit
    cases h
    have hall : ∀ k ∈ kernels, k.shape = k0.shape := by
      intro k hkm
      by_contra hne
      apply hany
      rw [List.any_eq_true]
      exact ⟨k, by rw [← hks]; exact hkm, by simpa using hne⟩
    refine ⟨⟨hs, hi, ho, ?_, ?_, ?_, hb, fun h => by cases h⟩, rfl, rfl, rfl, rfl, rfl, rfl, rfl⟩
    · simp only
      rw [← hks, toNat_ofNat_lt hlen]
    · intro k hkm
      rw [← hks] at hkm
      refine ⟨(hk k hkm).1, (hk k hkm).2.1, ?_⟩
      rw [hall k hkm]
      refine ⟨(tiles_iff hs' w5).mpr ⟨hfit.1, ?_⟩, (tiles_iff hs' w6).mpr ⟨hfit.2, ?_⟩⟩
      · exact toNat_ofNat_lt (hbound w3' w5)
      · exact toNat_ofNat_lt (hbound w4' w6)
    · rw [hbl, hks]

/-- C70 for convolutional layers: kernels as deep as the input, as many 1x1x1 biases, and an output
that fits in `u32`, accepted by `fill_from_state`, make a layer that runs on every input of the shape
it reports and computes what it should.

Partial: false for other depths and too few biases, and in training mode for a mask that does not have
the new output shape already, see the negations. -/
theorem C70_convolutional_partial (b : Build) (l l' : ConvolutionalLayer F)
    (kernels biases : List (Tensor F)) (input : TensorShape) (stride : UInt32) (name : String)
    (hs : stride ≠ 0) (hi : input.Fits)
    (hlen : kernels.length < 2 ^ 32) (hbl : biases.length = kernels.length)
    (hk : ∀ k ∈ kernels, k.WF ∧ k.shape.dk = input.dk ∧ k.shape.di ≠ 0 ∧ k.shape.dj ≠ 0 ∧
      k.shape.di ≤ input.di ∧ k.shape.dj ≤ input.dj)
    (hb : ∀ k ∈ biases, k.WF ∧ k.shape = ⟨1, 1, 1⟩)
    (h : l.fill_from_state b kernels biases input stride name = .ok (.ok (), l'))
    (hc : l.run_state = .Training → l.relu_mask.WF ∧ l.relu_mask.shape = l'.output_shape)
    (ho : l'.output_shape.Fits) (x out : Tensor F) (hx : x.WF) (hxs : x.shape = input)
    (how : out.WF) (hos : out.shape = l'.output_shape) :
    (l.run_state = .Inference → l'.Ok) ∧ l'.kernels = kernels ∧ l'.biases = biases ∧
      l'.input_shape = input ∧ l'.stride = stride ∧ l'.name = name ∧ l'.run_state = l.run_state ∧
    ∃ l'' y, l'.forward b x out = .ok (.ok (), l'', y) ∧ y.WF ∧ y.shape = l'.output_shape ∧
      ∀ i j k, l'.output_shape.Inside i j k →
        y.get_item b (ix i j k) = .ok (act l.run_state (convPre l' x i j k)) := by
  obtain ⟨o1, o2, o3, o4, o5, o6, o7, o8⟩ := conv_fill_ok hs hi hlen hbl hk hb h ho
  cases hm : l.run_state with
  | Inference =>
    have e : ({ l' with run_state := .Inference } : ConvolutionalLayer F) = l' := by
      rw [← hm, ← o7]
    rw [e] at o1
    obtain ⟨y, q1, q2, q3, q4⟩ := conv_forward_inference (b := b) o1 (o7.trans hm) hx
      (by rw [hxs, o4]) how hos
    refine ⟨fun _ => o1, o2, o3, o4, o5, o6, o7.trans hm, l', y, q1, q2, q3, fun i j k hin => ?_⟩
    rw [get_item_ok q2 (by rw [q3]; exact hin), q4 i j k hin]
    rfl
  | Training =>
    obtain ⟨c1, c2⟩ := hc hm
    obtain ⟨mask, y, q1, q2, q3, _, _, q4⟩ := conv_forward_mask (b := b) o1 (o7.trans hm)
      (by rw [← o8] at c1; exact c1) (by rw [← o8] at c2; exact c2) hx (by rw [hxs, ← o4]) how hos
    refine ⟨(fun h => by cases h), o2, o3, o4, o5, o6, o7.trans hm, _, y, q1, q2, q3, fun i j k hin => ?_⟩
    rw [get_item_ok q2 (by rw [q3]; exact hin), (q4 i j k hin).1]
    rfl

/-- C70 is false for convolutional layers in training mode: `fill_from_state` does not renew the mask,
so a layer refilled for another output shape answers every input of the shape it reports with `Err`,
until the next mode switch. -/
theorem C70_convolutional_refill_negation (b : Build) (l l' : ConvolutionalLayer F)
    (kernels biases : List (Tensor F)) (input : TensorShape) (stride : UInt32) (name : String)
    (hs : stride ≠ 0) (hi : input.Fits)
    (hlen : kernels.length < 2 ^ 32) (hbl : biases.length = kernels.length)
    (hk : ∀ k ∈ kernels, k.WF ∧ k.shape.dk = input.dk ∧ k.shape.di ≠ 0 ∧ k.shape.dj ≠ 0 ∧
      k.shape.di ≤ input.di ∧ k.shape.dj ≤ input.dj)
    (hb : ∀ k ∈ biases, k.WF ∧ k.shape = ⟨1, 1, 1⟩)
    (h : l.fill_from_state b kernels biases input stride name = .ok (.ok (), l'))
    (hm : l.run_state = .Training) (hc : l.relu_mask.shape ≠ l'.output_shape)
    (ho : l'.output_shape.Fits) (x out : Tensor F) (hx : x.WF) (hxs : x.shape = input)
    (how : out.WF) (hos : out.shape = l'.output_shape) :
    ∃ e y, l'.forward b x out = .ok (.error e, l', y) := by
  obtain ⟨o1, o2, o3, o4, o5, o6, o7, o8⟩ := conv_fill_ok hs hi hlen hbl hk hb h ho
  exact conv_forward_mask_refuses (b := b) o1 (o7.trans hm) (by rw [← o8] at hc; exact hc) hx
    (by rw [hxs, ← o4]) how hos

/-- C70 is false for convolutional layers without biases: they are accepted, and `forward` panics
whatever the arguments. -/
theorem C70_convolutional_bias_negation (b : Build) (l : ConvolutionalLayer F)
    (kernel : Tensor F) (name : String) :
    ∃ l', l.fill_from_state b [kernel] [] kernel.shape 1 name = .ok (.ok (), l') ∧
      l'.input_shape = kernel.shape ∧ l'.output_shape = ⟨1, 1, 1⟩ ∧
      ∀ x out : Tensor F, l'.forward b x out = .error .oob := by
  refine ⟨{ l with kernels := [kernel], biases := [], input_shape := kernel.shape,
                   output_shape := ⟨1, 1, 1⟩, stride := 1, name := name }, ?_, rfl, rfl, ?_⟩
  · exact fill_single b l kernel [] kernel.shape name rfl rfl
  · intro x out
    unfold ConvolutionalLayer.forward
    cases l.run_state <;> rfl

/-- C70 is false for convolutional layers whose kernels are not as deep as the input: they are
accepted, and `forward` answers every input of the shape the layer reports with `Err`. -/
theorem C70_convolutional_depth_negation (b : Build) (l : ConvolutionalLayer F)
    (kernel bias : Tensor F) (name : String) (input : TensorShape)
    (hi : input.di = kernel.shape.di) (hj : input.dj = kernel.shape.dj)
    (hd : input.dk ≠ kernel.shape.dk) :
    ∃ l', l.fill_from_state b [kernel] [bias] input 1 name = .ok (.ok (), l') ∧
      l'.input_shape = input ∧ l'.output_shape = ⟨1, 1, 1⟩ ∧
      ∀ x out : Tensor F, x.shape = input → ∃ e, l'.forward b x out = .ok (.error e, l', out) := by
  refine ⟨{ l with kernels := [kernel], biases := [bias], input_shape := input,
                   output_shape := ⟨1, 1, 1⟩, stride := 1, name := name }, ?_, rfl, rfl, ?_⟩
  · exact fill_single b l kernel [bias] input name hi hj
  · intro x out hx
    refine ⟨"Third dimension of image and shpe don't match",
      conv_first_refuses (by simp) rfl rfl ?_⟩
    unfold check_convolution_dimensions
    rw [if_pos (by rw [hx]; exact hd)]
    rfl

omit [F32Ops F] in
theorem conv_fill_fields {b : Build} {l l' : ConvolutionalLayer F} {kernels biases : List (Tensor F)}
    {input : TensorShape} {stride : UInt32} {name : String}
    (h : l.fill_from_state b kernels biases input stride name = .ok (.ok (), l')) :
    kernels ≠ [] ∧ l'.kernels = kernels ∧ l'.biases = biases ∧ l'.input_shape = input ∧
      l'.stride = stride ∧ l'.run_state = l.run_state ∧
      l'.output_shape.dk = UInt32.ofNat kernels.length := by
  unfold ConvolutionalLayer.fill_from_state at h
  cases kernels with
  | nil => cases h
  | cons k0 ks =>
    simp only at h
    split at h
    · cases h
    cases hd : Tensor.does_kernel_stride_fit_image b input k0.shape stride with
    | error e => rw [hd] at h; cases h
    | ok ok =>
      rw [hd, ok_bind] at h
      split at h
      · cases h
      cases hg : Tensor.get_convolution_dim_fit b input k0.shape stride with
      | error e => rw [hg] at h; cases h
      | ok p =>
        rw [hg] at h
        cases h
        exact ⟨List.cons_ne_nil _ _, rfl, rfl, rfl, rfl, rfl, rfl⟩

/-- C70 is false for all convolutional layers with fewer biases than kernels: whatever else
`fill_from_state` was given, `forward` never answers `Ok`. -/
theorem C70_convolutional_few_biases_negation (b : Build) (l l' : ConvolutionalLayer F)
    (kernels biases : List (Tensor F)) (input : TensorShape) (stride : UInt32) (name : String)
    (h : l.fill_from_state b kernels biases input stride name = .ok (.ok (), l'))
    (hlen : kernels.length < 2 ^ 32) (hb : biases.length < kernels.length)
    (x out y : Tensor F) (l'' : ConvolutionalLayer F) : l'.forward b x out ≠ .ok (.ok (), l'', y) := by
  obtain ⟨_, _, h3, _, _, _, h7⟩ := conv_fill_fields h
  intro hf
  have hmem : biases.length ∈ List.range l'.output_shape.dk.toNat := by
    rw [h7, toNat_ofNat_lt hlen]
    exact List.mem_range.mpr hb
  have hno : ∀ (op : Tensor F → Tensor F → Tensor F → Nat → Exec (Res × Tensor F)) s',
      forListE (List.range l'.output_shape.dk.toNat) out (fun i out => do
        let kernel ← vget l'.kernels i
        let bias ← vget l'.biases i
        op out kernel bias i) ≠ .ok (.ok (), s') := by
    intro op s' hs
    have := forListE_after (List.range l'.output_shape.dk.toNat) out _
      (fun pre _ => biases.length ∉ pre) (by simp) (fun pre i post s s' _ hp hbody hin => by
        rcases List.mem_append.mp hin with hin | hin
        · exact hp hin
        obtain rfl := List.mem_singleton.mp hin
        obtain ⟨k, _, hbody⟩ := bind_inv hbody
        obtain ⟨bi, hbi, _⟩ := bind_inv hbody
        rw [h3] at hbi
        unfold vget at hbi
        rw [List.getElem?_eq_none (Nat.le_refl _)] at hbi
        cases hbi) s' hs
    exact this hmem
  unfold ConvolutionalLayer.forward at hf
  cases hm : l'.run_state with
  | Inference =>
    rw [hm] at hf
    simp only at hf
    obtain ⟨⟨r, o⟩, h1, h2⟩ := bind_inv hf
    cases h2
    exact hno (fun out kernel bias i => convolution_bias_relu b x kernel bias l'.stride out
      (UInt32.ofNat i)) _ h1
  | Training =>
    rw [hm] at hf
    simp only at hf
    obtain ⟨⟨r, o⟩, h1, h2⟩ := bind_inv hf
    cases r with
    | error e => cases h2
    | ok u =>
      exact hno (fun out kernel bias i => convolution_bias b x kernel bias l'.stride out
        (UInt32.ofNat i)) _ h1

/-- C70 is false for all convolutional layers whose kernels are not as deep as the input: whatever else
`fill_from_state` was given, `forward` answers every input of the shape the layer reports with `Err`. -/
theorem C70_convolutional_wrong_depth_negation (b : Build) (l l' : ConvolutionalLayer F)
    (kernel bias : Tensor F) (kernels biases : List (Tensor F)) (input : TensorShape)
    (stride : UInt32) (name : String)
    (h : l.fill_from_state b (kernel :: kernels) (bias :: biases) input stride name = .ok (.ok (), l'))
    (hlen : (kernel :: kernels).length < 2 ^ 32) (hd : input.dk ≠ kernel.shape.dk) (x out : Tensor F)
    (hx : x.shape = l'.input_shape) : ∃ e, l'.forward b x out = .ok (.error e, l', out) := by
  obtain ⟨_, h2, h3, h4, _, _, h7⟩ := conv_fill_fields h
  refine ⟨"Third dimension of image and shpe don't match", conv_first_refuses ?_
    (by rw [h2]; rfl) (by rw [h3]; rfl) ?_⟩
  · rw [h7]
    intro he
    have := congrArg UInt32.toNat he
    rw [toNat_ofNat_lt hlen] at this
    cases this
  · unfold check_convolution_dimensions
    rw [if_pos (by rw [hx, h4]; exact hd)]
    rfl

/-- C70 for max-pool layers: a mask no larger than the input and a positive stride, accepted by
`fill_from_state`, make a layer that runs on every input of the shape it reports and computes the
maximum of every window.

Partial: in training mode the list of origins must have the right length already
(`C70_refill_negation`). -/
theorem C70_max_pool_partial (b : Build) (l l' : MaxPoolLayer) (input mask : TensorShape)
    (stride : UInt32) (name : String) (hs : stride ≠ 0) (hi : input.Fits)
    (hm : mask.di ≠ 0 ∧ mask.dj ≠ 0 ∧ mask.di ≤ input.di ∧ mask.dj ≤ input.dj)
    (h : l.fill_from_state b input mask stride name = .ok (.ok (), l'))
    (hc : l.run_state = .Training → l.max_pool_origin.length = l'.output_shape.count)
    (hf : l'.output_shape.Fits) (x out : Tensor F) (hx : x.WF) (hxs : x.shape = input)
    (ho : out.WF) (hos : out.shape = l'.output_shape) :
    l'.Ok ∧ l'.input_shape = input ∧ l'.mask_shape = mask ∧ l'.stride = stride ∧ l'.name = name ∧
    ∃ l'' y, l'.forward b x out = .ok (.ok (), l'', y) ∧ y.WF ∧ y.shape = l'.output_shape ∧
      ∀ i j k, l'.output_shape.Inside i j k →
        y.get_item b (ix i j k) = .ok (maxOf (window x mask stride.toNat i j k)) := by
  have hok : l'.Ok ∧ l'.input_shape = input ∧ l'.mask_shape = mask ∧ l'.stride = stride ∧
      l'.name = name := by
    rcases fit_cases (b := b) hs hm.2.2.1 hm.2.2.2 (fun e => absurd e hm.1)
      (fun e => absurd e hm.2.1) with ⟨n, m, h1, h2, h3⟩ | ⟨h1, _⟩
    · unfold MaxPoolLayer.fill_from_state at h
      rw [h1, ok_bind] at h
      simp only [not_true_eq_false, if_false] at h
      rw [h2, ok_bind] at h
      cases h
      exact ⟨⟨hs, (h3 _).mpr ⟨rfl, rfl⟩, rfl, hi, hf, hc⟩, rfl, rfl, rfl, rfl⟩
    · unfold MaxPoolLayer.fill_from_state at h
      rw [h1] at h
      cases h
  obtain ⟨o1, o2, o3, o4, o5⟩ := hok
  obtain ⟨l'', y, q1, q2, q3, q4⟩ := forward_ok (b := b) (l := .mp l') o1 hx
    (by rw [hxs]; exact o2.symm) ho hos
  cases e : l'.forward b x out with
  | error p =>
    simp only [AnyLayer.forward, e] at q1
    cases q1
  | ok r =>
    obtain ⟨r, l3, y3⟩ := r
    simp only [AnyLayer.forward, e] at q1
    cases q1
    refine ⟨o1, o2, o3, o4, o5, l3, y, rfl, q2, q3, fun i j k hin => ?_⟩
    rw [get_item_ok q2 (by rw [q3]; exact hin), q4 i j k hin, ← o3, ← o4]
    rfl

/-- C70 for softmax layers, in full: every representable shape is accepted, in either mode, and makes a
layer that runs on every input of that shape. -/
theorem C70_softmax_partial (b : Build) (l : SoftmaxLayer F) (shape : TensorShape) (name : String)
    (hf : shape.Fits) :
    ∃ l', l.fill_from_state b shape name = .ok (.ok (), l') ∧ l'.Ok ∧ l'.shape = shape ∧
      l'.name = name ∧ l'.run_state = l.run_state ∧
      ∀ x out : Tensor F, x.WF → x.shape = shape → out.WF → out.shape = shape →
        ∃ y, l'.forward b x out = .ok (.ok (), l', y) ∧ y.WF ∧ y.shape = shape ∧
          ∀ i j k, shape.Inside i j k → y.get_item b (ix i j k) = .ok (softmaxAt x i j k) := by
  have hfw : ∀ l' : SoftmaxLayer F, ∀ x out : Tensor F, x.WF → x.shape = shape → out.WF →
      out.shape = shape → ∃ y, l'.forward b x out = .ok (.ok (), l', y) ∧ y.WF ∧ y.shape = shape ∧
        ∀ i j k, shape.Inside i j k → y.get_item b (ix i j k) = .ok (softmaxAt x i j k) := by
    intro l' x out hx hxs ho hos
    obtain ⟨y, h1, h2, h3, h4⟩ := softmax_ok hx ho (hxs.trans hos.symm)
    refine ⟨y, ?_, h2, h3.trans hos, fun i j k hin => ?_⟩
    · unfold SoftmaxLayer.forward
      rw [h1]
      rfl
    · rw [get_item_ok h2 (by rw [h3, hos]; exact hin), h4 i j k (by rw [hos]; exact hin)]
  cases hm : l.run_state with
  | Inference =>
    refine ⟨⟨shape, name, zeros ⟨1, 1, 1⟩, zeros ⟨1, 1, 1⟩, .Inference⟩, ?_,
      ⟨hf, fun h => by cases h⟩, rfl, rfl, rfl, hfw _⟩
    unfold SoftmaxLayer.fill_from_state SoftmaxLayer.update_tensors
    simp only [hm, empty_ok, ok_bind]
    rfl
  | Training =>
    have h1 : (Tensor.new b (TensorShape.new_1d 1) : Exec (Tensor F)) = .ok (zeros ⟨1, 1, 1⟩) :=
      empty_ok b
    refine ⟨SoftmaxLayer.clear_gradients
      ⟨shape, name, zeros ⟨1, 1, 1⟩, zeros shape, .Training⟩, ?_, ⟨hf, fun _ => ?_⟩, rfl, rfl, rfl,
      hfw _⟩
    · unfold SoftmaxLayer.fill_from_state SoftmaxLayer.update_tensors
      simp only [hm, h1, new_ok hf, ok_bind]
      rfl
    · obtain ⟨a1, a2, _⟩ := fill_ok (zero : F) (zeros_wf (by decide : (⟨1, 1, 1⟩ : TensorShape).Fits))
      obtain ⟨c1, c2, _⟩ := fill_ok (zero : F) (zeros_wf hf)
      exact ⟨⟨a1, a2⟩, c1, c2⟩

example : ∃ l' : MaxPoolLayer, MaxPoolLayer.empty.fill_from_state .debug ⟨4, 4, 3⟩ ⟨2, 2, 1⟩ 2 "p" =
      .ok (.ok (), l') ∧ MaxPoolLayer.empty.run_state ≠ .Training ∧ l'.output_shape = ⟨2, 2, 3⟩ ∧
    l'.output_shape.Fits := ⟨_, rfl, by decide, rfl, by decide⟩

/-- C70 is false for max-pool layers in training mode: `fill_from_state` does not renew the list of
origins, so a layer refilled for another number of outputs answers every input of the shape it
reports with `Err`, until the next mode switch. -/
theorem C70_refill_negation (b : Build) (l l' : MaxPoolLayer) (input mask : TensorShape)
    (stride : UInt32) (name : String) (hm : l.run_state = .Training)
    (h : l.fill_from_state b input mask stride name = .ok (.ok (), l')) (hok : stride ≠ 0)
    (ht : windowsTile input mask stride l'.output_shape)
    (hc : l.max_pool_origin.length ≠ l'.output_shape.count) (x out : Tensor F)
    (hxs : x.shape = l'.input_shape) (ho : out.WF) (hos : out.shape = l'.output_shape) :
    ∃ e, l'.forward b x out = .ok (.error e, l', out) := by
  have hs : stride.toNat ≠ 0 := fun h => hok (u32_ext h)
  have hl' : l'.input_shape = input ∧ l'.mask_shape = mask ∧ l'.stride = stride ∧
      l'.run_state = .Training ∧ l'.max_pool_origin = l.max_pool_origin ∧
      l'.output_shape.dk = input.dk := by
    unfold MaxPoolLayer.fill_from_state at h
    cases hd : Tensor.does_kernel_stride_fit_image b input mask stride with
    | error e => rw [hd] at h; cases h
    | ok ok =>
      rw [hd, ok_bind] at h
      split at h
      · cases h
      cases hg : Tensor.get_convolution_dim_fit b input mask stride with
      | error e => rw [hg] at h; cases h
      | ok p =>
        rw [hg] at h
        cases h
        exact ⟨rfl, rfl, rfl, hm, rfl, rfl⟩
  obtain ⟨e1, e2, e3, e4, e5, e6⟩ := hl'
  refine ⟨"Origin tracker list size is not equal to number of output items", ?_⟩
  have hchk : Tensor.check_max_pooling_dimensions b x.shape l'.mask_shape l'.stride out.shape =
      .ok true := by
    rw [hxs, e1, e2, e3, hos]
    exact check_pool_ok hs e6 ht
  have hne : (UInt32.ofNat out.shape.count).toNat ≠ l'.max_pool_origin.length := by
    rw [toNat_ofNat_lt ho.fits.2, e5, hos]
    exact fun h => hc h.symm
  cases l'
  simp only at e4 hchk hne
  subst e4
  unfold MaxPoolLayer.forward Tensor.max_pool_track_origin
  simp only
  rw [hchk, ok_bind, if_neg (by simp), total_size_ok ho.fits, ok_bind, if_pos hne]
  rfl

open Toy in
/-- depth-2 weights: accepted, and the output keeps its old contents -/
example : ∃ e l', (FullyConnectedLayer.empty .debug : Exec (FullyConnectedLayer Int)) = .ok e ∧
    e.fill_from_state .debug ⟨⟨1, 1, 2⟩, ⟨1, 2, 2⟩, [1, 2, 3, 4]⟩ ⟨⟨1, 1, 1⟩, ⟨1, 1, 2⟩, [5, 6]⟩ "w" =
      .ok (.ok (), l') ∧ l'.get_input_shape = ⟨2, 1, 1⟩ ∧
    l'.forward .debug ⟨⟨1, 2, 2⟩, ⟨2, 1, 1⟩, [1, 1]⟩ ⟨⟨1, 1, 1⟩, ⟨1, 1, 2⟩, [77, 78]⟩ =
      .ok (.ok (), l', ⟨⟨1, 1, 1⟩, ⟨1, 1, 2⟩, [77, 78]⟩) := ⟨_, _, rfl, rfl, rfl, rfl⟩

open Toy in
/-- depth-1 weights: accepted, and the layer computes -/
example : ∃ e l' y, (FullyConnectedLayer.empty .debug : Exec (FullyConnectedLayer Int)) = .ok e ∧
    e.fill_from_state .debug ⟨⟨1, 1, 2⟩, ⟨1, 2, 1⟩, [1, 2]⟩ ⟨⟨1, 1, 1⟩, ⟨1, 1, 1⟩, [5]⟩ "w" =
      .ok (.ok (), l') ∧
    l'.forward .debug ⟨⟨1, 2, 2⟩, ⟨2, 1, 1⟩, [3, 4]⟩ ⟨⟨1, 1, 1⟩, ⟨1, 1, 1⟩, [0]⟩ =
      .ok (.ok (), l', y) ∧ y.data = [16] := ⟨_, _, _, rfl, rfl, rfl, rfl⟩

open Toy in
/-- a convolutional layer filled from suitable parameters -/
example : ∃ e l', (ConvolutionalLayer.empty .debug : Exec (ConvolutionalLayer Int)) = .ok e ∧
    e.fill_from_state .debug exConv.kernels exConv.biases ⟨3, 3, 1⟩ 1 "c" = .ok (.ok (), l') ∧
    l'.output_shape = ⟨2, 2, 2⟩ := ⟨_, _, rfl, rfl, rfl⟩

open Toy in
/-- a convolutional layer in training mode, refilled for another output shape -/
example : ∃ l', ConvolutionalLayer.fill_from_state .debug exConv
    exConv.kernels exConv.biases ⟨4, 4, 1⟩ 1 "c" = .ok (.ok (), l') ∧
    l'.output_shape = ⟨3, 3, 2⟩ ∧ l'.relu_mask.shape = ⟨2, 2, 2⟩ := ⟨_, rfl, rfl, rfl⟩

/-- a max-pool layer in training mode, refilled -/
example : ∃ l', MaxPoolLayer.fill_from_state .debug
      ⟨⟨2, 2, 1⟩, ⟨2, 2, 1⟩, ⟨1, 1, 1⟩, 2, "m", .Training, [0]⟩ ⟨4, 4, 1⟩ ⟨2, 2, 1⟩ 2 "m" =
        .ok (.ok (), l') ∧ l'.output_shape = ⟨2, 2, 1⟩ ∧ l'.max_pool_origin.length = 1 :=
  ⟨_, rfl, rfl, rfl⟩

end Rusty
