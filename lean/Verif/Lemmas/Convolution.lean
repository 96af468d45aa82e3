import Verif.Lemmas.Geometry

set_option linter.unusedSectionVars false

/-! # Helper lemmas: convolutions -/

namespace Rusty

open F32Ops Spec

variable {F : Type} [F32Ops F]

/-- flatten an accumulator nest `for k { for j { for i { acc = op(acc, g(i,j,k)) } } }` -/
theorem forRange3_fold {σ τ : Type} (di dj dk : UInt32) (s : σ)
    (body : UInt32 → UInt32 → UInt32 → σ → Exec σ) (op : σ → τ → σ) (g : Nat × Nat × Nat → τ)
    (h : ∀ i j k, i < di.toNat → j < dj.toNat → k < dk.toNat → ∀ s,
      body (UInt32.ofNat k) (UInt32.ofNat j) (UInt32.ofNat i) s = .ok (op s (g (i, j, k)))) :
    (forRange 0 dk s fun k s => forRange 0 dj s fun j s => forRange 0 di s fun i s =>
      body k j i s) = .ok (((idx3 di.toNat dj.toNat dk.toNat).map g).foldl op s) := by
  rw [forRange3, foldlM_pure _ _ (fun s x => op s (g x)), List.foldl_map]
  rintro ⟨i, j, k⟩ hx s
  have := mem_idx3.mp hx
  exact h i j k this.1 this.2.1 this.2.2 s

theorem forRange2_fold {σ τ : Type} (di dj : UInt32) (s : σ)
    (body : UInt32 → UInt32 → σ → Exec σ) (op : σ → τ → σ) (g : Nat × Nat → τ)
    (h : ∀ i j, i < di.toNat → j < dj.toNat → ∀ s,
      body (UInt32.ofNat j) (UInt32.ofNat i) s = .ok (op s (g (i, j)))) :
    (forRange 0 dj s fun j s => forRange 0 di s fun i s =>
      body j i s) = .ok (((idx2 di.toNat dj.toNat).map g).foldl op s) := by
  rw [forRange2, foldlM_pure _ _ (fun s x => op s (g x)), List.foldl_map]
  rintro ⟨i, j⟩ hx s
  have := mem_idx2.mp hx
  exact h i j this.1 this.2 s

theorem mulU_nat {b : Build} {i s : Nat} (hi : i < 2 ^ 32) (hs : s < 2 ^ 32) (h : i * s < 2 ^ 32) :
    mulU b (UInt32.ofNat i) (UInt32.ofNat s) = .ok (UInt32.ofNat (i * s)) := by
  rw [mulU_ok (by rw [toNat_ofNat_lt hi, toNat_ofNat_lt hs]; exact h), toNat_ofNat_lt hi,
    toNat_ofNat_lt hs]

theorem mulU_nat' {b : Build} {i : Nat} {s : UInt32} (hi : i < 2 ^ 32)
    (h : i * s.toNat < 2 ^ 32) :
    mulU b (UInt32.ofNat i) s = .ok (UInt32.ofNat (i * s.toNat)) := by
  rw [mulU_ok (by rw [toNat_ofNat_lt hi]; exact h), toNat_ofNat_lt hi]

theorem addU_nat {b : Build} {i s : Nat} (h : i + s < 2 ^ 32) :
    addU b (UInt32.ofNat i) (UInt32.ofNat s) = .ok (UInt32.ofNat (i + s)) := by
  rw [addU_ok (by rw [toNat_ofNat_lt (by omega), toNat_ofNat_lt (by omega)]; exact h),
    toNat_ofNat_lt (by omega), toNat_ofNat_lt (by omega)]

theorem conv_window_ok {b : Build} {image kernel : Tensor F} {s : UInt32} {re : TensorShape}
    (hi : image.WF) (hk : kernel.WF) (hd : image.shape.dk = kernel.shape.dk)
    (ht : windowsTile image.shape kernel.shape s re) {i j : Nat} (h1 : i < re.di.toNat)
    (h2 : j < re.dj.toNat) :
    convolution_window b image kernel s (UInt32.ofNat i) (UInt32.ofNat j) =
      .ok (conv image kernel s.toNat i j) := by
  obtain ⟨t1, t2⟩ := ht
  have l1 : i < 2 ^ 32 := Nat.lt_trans h1 (u32_lt _)
  have l2 : j < 2 ^ 32 := Nat.lt_trans h2 (u32_lt _)
  have m1 : i * s.toNat ≤ image.shape.di.toNat := by
    obtain ⟨a, b⟩ := t1
    have : i * s.toNat ≤ (re.di.toNat - 1) * s.toNat := Nat.mul_le_mul_right _ (by omega)
    omega
  have m2 : j * s.toNat ≤ image.shape.dj.toNat := by
    obtain ⟨a, b⟩ := t2
    have : j * s.toNat ≤ (re.dj.toNat - 1) * s.toNat := Nat.mul_le_mul_right _ (by omega)
    omega
  have n1 := u32_lt image.shape.di
  have n2 := u32_lt image.shape.dj
  unfold convolution_window
  rw [mulU_nat' l1 (by omega), ok_bind, mulU_nat' l2 (by omega), ok_bind]
  rw [forRange3_fold _ _ _ _ _ F32Ops.add (fun (ki, kj, kk) =>
    mul (val image (i * s.toNat + ki) (j * s.toNat + kj) kk) (val kernel ki kj kk))]
  · rfl
  · intro ki kj kk a1 a2 a3 acc
    have b1 := tiles_lt t1 h1 a1
    have b2 := tiles_lt t2 h2 a2
    have ins : image.shape.Inside (i * s.toNat + ki) (j * s.toNat + kj) kk :=
      ⟨b1, b2, by rw [hd]; exact a3⟩
    have e1 := get_data_index_ok (b := b) hk (i := ki) (j := kj) (k := kk) ⟨a1, a2, a3⟩
    have e2 := get_data_index_ok (b := b) hi ins
    have e3 := vget_pos hk (i := ki) (j := kj) (k := kk) ⟨a1, a2, a3⟩
    have e4 := vget_pos hi ins
    unfold ix at e1 e2
    rw [e1, ok_bind, addU_nat (by omega), ok_bind, addU_nat (by omega), ok_bind, e2, ok_bind, e4,
      ok_bind, e3, ok_bind]
    rfl

/-- the value the convolutions read from a bias tensor with extents at most one -/
theorem bias_get {b : Build} {bias : Tensor F} (hb : bias.WF) :
    bias.get_item b ⟨0, 0, 0⟩ = .ok (val bias 0 0 0) := by
  by_cases h : bias.shape.Inside 0 0 0
  · exact get_item_ok hb h
  · unfold Tensor.get_item
    have hf : ¬ bias.shape.fits_index ⟨0, 0, 0⟩ = true := by
      rw [fits_index_iff]; exact h
    rw [if_neg hf]
    have hl : bias.data.length = 0 := by
      rw [hb.len]
      unfold TensorShape.Inside at h
      unfold TensorShape.count
      rcases Nat.eq_zero_or_pos bias.shape.di.toNat with e | e
      · simp [e]
      rcases Nat.eq_zero_or_pos bias.shape.dj.toNat with e' | e'
      · simp [e']
      rcases Nat.eq_zero_or_pos bias.shape.dk.toNat with e'' | e''
      · simp [e'']
      · exact absurd ⟨e, e', e''⟩ h
    have : bias.data = [] := List.eq_nil_of_length_eq_zero hl
    unfold val
    rw [this]
    rfl

/-- a bias tensor the convolutions accept -/
def biasOk (s : TensorShape) : Prop := ¬ (s.di > 1 ∨ s.dj > 1 ∨ s.dk > 1)

instance (s : TensorShape) : Decidable (biasOk s) := by unfold biasOk; infer_instance

theorem conv_bias_ok {b : Build} {image kernel bias result : Tensor F} {s c : UInt32}
    (hi : image.WF) (hk : kernel.WF) (hb : bias.WF) (hr : result.WF) (hs : s.toNat ≠ 0)
    (hc : convFits image.shape kernel.shape s result.shape c.toNat) (hbo : biasOk bias.shape) :
    ∃ r', convolution_bias b image kernel bias s result c = .ok (.ok (), r') ∧ r'.WF ∧
      r'.shape = result.shape ∧
      ∀ i j k, result.shape.Inside i j k →
        val r' i j k = if k = c.toNat then
          F32Ops.add (conv image kernel s.toNat i j) (val bias 0 0 0) else val result i j k := by
  obtain ⟨r', q1, q2, q3, q4⟩ := loop2_write (b := b) result hr c.toNat hc.2.2
    (fun i j => F32Ops.add (conv image kernel s.toNat i j) (val bias 0 0 0))
    (fun j i r => do
          let acc ← convolution_window b image kernel s i j
          r.write b ⟨i, j, c⟩ (F32Ops.add acc (val bias 0 0 0)))
    (by
      intro i j h1 h2 t _ _
      rw [conv_window_ok hi hk hc.1 hc.2.1 h1 h2, ok_bind]
      unfold ix
      rw [ofNat_toNat_u32])
  refine ⟨r', ?_, q2, q3, q4⟩
  unfold convolution_bias
  rw [check_conv_ok hs hc, ok_bind]
  simp only
  rw [if_neg hbo, bias_get hb, ok_bind, q1]
  rfl

theorem conv_bias_relu_ok {b : Build} {image kernel bias result : Tensor F} {s c : UInt32}
    (hi : image.WF) (hk : kernel.WF) (hb : bias.WF) (hr : result.WF) (hs : s.toNat ≠ 0)
    (hc : convFits image.shape kernel.shape s result.shape c.toNat) (hbo : biasOk bias.shape) :
    ∃ r', convolution_bias_relu b image kernel bias s result c = .ok (.ok (), r') ∧ r'.WF ∧
      r'.shape = result.shape ∧
      ∀ i j k, result.shape.Inside i j k →
        val r' i j k = if k = c.toNat then
          fmax (F32Ops.add (conv image kernel s.toNat i j) (val bias 0 0 0)) zero
          else val result i j k := by
  obtain ⟨r', q1, q2, q3, q4⟩ := loop2_write (b := b) result hr c.toNat hc.2.2
    (fun i j => fmax (F32Ops.add (conv image kernel s.toNat i j) (val bias 0 0 0)) zero)
    (fun j i r => do
          let acc ← convolution_window b image kernel s i j
          let acc := F32Ops.add acc (val bias 0 0 0)
          let acc := fmax acc zero
          r.write b ⟨i, j, c⟩ acc)
    (by
      intro i j h1 h2 t _ _
      rw [conv_window_ok hi hk hc.1 hc.2.1 h1 h2, ok_bind]
      unfold ix
      rw [ofNat_toNat_u32])
  refine ⟨r', ?_, q2, q3, q4⟩
  unfold convolution_bias_relu
  rw [check_conv_ok hs hc, ok_bind]
  simp only
  rw [if_neg hbo, bias_get hb, ok_bind, q1]
  rfl

end Rusty
