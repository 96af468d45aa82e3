import Verif.Lemmas.Geometry
import Verif.Model.Layers

/-! # Helper lemmas: the geometry checks of the layer constructors -/

namespace Rusty

open F32Ops Spec

theorem u32_succ {x : UInt32} (h : x ≠ 0) : ∃ n, x.toNat = n + 1 := by
  have : x.toNat ≠ 0 := fun e => h (UInt32.toNat_inj.mp e)
  exact ⟨x.toNat - 1, by omega⟩

theorem pure_bind_exec {α β : Type} (a : α) (f : α → Exec β) :
    ((pure a : Exec α) >>= f) = f a := rfl

/-- the window count of an axis as a `u32` -/
theorem tiles_u32 {d w s : UInt32} (hs : s.toNat ≠ 0) (hw : w.toNat ≤ d.toNat)
    (ho : (d.toNat - w.toNat) / s.toNat + 1 < 2 ^ 32) (n : UInt32) :
    tiles d.toNat w.toNat s.toNat n.toNat ↔
      (d.toNat - w.toNat) % s.toNat = 0 ∧ n = UInt32.ofNat ((d.toNat - w.toNat) / s.toNat + 1) := by
  rw [tiles_iff hs hw, ← UInt32.toNat_inj, toNat_ofNat_lt ho]

/-- the two geometry functions decide whether windows tile the image and count them -/
theorem fit_cases {b : Build} {im w : TensorShape} {s : UInt32} (hs : s ≠ 0)
    (hdi : w.di ≤ im.di) (hdj : w.dj ≤ im.dj) (hi : w.di = 0 → im.di.toNat + 1 < 2 ^ 32)
    (hj : w.dj = 0 → im.dj.toNat + 1 < 2 ^ 32) :
    (∃ n m, Tensor.does_kernel_stride_fit_image b im w s = .ok true ∧
      Tensor.get_convolution_dim_fit b im w s = .ok (n, m) ∧
      ∀ out : TensorShape, windowsTile im w s out ↔ out.di = n ∧ out.dj = m) ∨
    (Tensor.does_kernel_stride_fit_image b im w s = .ok false ∧ ∀ out, ¬ windowsTile im w s out) := by
  have hs' : s.toNat ≠ 0 := fun e => hs (UInt32.toNat_inj.mp e)
  have hdi' := UInt32.le_iff_toNat_le.mp hdi
  have hdj' := UInt32.le_iff_toNat_le.mp hdj
  have oi := fits_bound (s := s.toNat) (fun e => hi (UInt32.toNat_inj.mp e)) im.di.toNat_lt
  have oj := fits_bound (s := s.toNat) (fun e => hj (UInt32.toNat_inj.mp e)) im.dj.toNat_lt
  have key : ∀ out : TensorShape, windowsTile im w s out ↔ _ := fun out =>
    and_congr (tiles_u32 hs' hdi' oi out.di) (tiles_u32 hs' hdj' oj out.dj)
  rw [does_fit_spec hs' hdi' hdj', dim_fit_spec hs' hdi' hdj' oi oj]
  by_cases h : (im.di.toNat - w.di.toNat) % s.toNat = 0 ∧ (im.dj.toNat - w.dj.toNat) % s.toNat = 0
  · refine .inl ⟨_, _, by rw [decide_eq_true h], rfl, fun out => ?_⟩
    rw [key]
    exact ⟨fun g => ⟨g.1.2, g.2.2⟩, fun g => ⟨⟨h.1, g.1⟩, ⟨h.2, g.2⟩⟩⟩
  · refine .inr ⟨by rw [decide_eq_false h], fun out g => h ?_⟩
    have := (key out).mp g
    exact ⟨this.1.1, this.2.1⟩

variable {F : Type}

/-- `fill_from_state` of a convolutional layer when all kernels have one shape -/
theorem conv_fill_same {b : Build} {l : ConvolutionalLayer F} {ks bs : List (Tensor F)}
    {im s : TensorShape} {st : UInt32} {name : String} (hne : ks ≠ [])
    (hs : ∀ k ∈ ks, k.shape = s) :
    (Tensor.does_kernel_stride_fit_image b im s st = .ok false →
      l.fill_from_state b ks bs im st name =
        .ok (.error "Kernel does not fit in image with given stride", l)) ∧
    (∀ n m, Tensor.does_kernel_stride_fit_image b im s st = .ok true →
      Tensor.get_convolution_dim_fit b im s st = .ok (n, m) →
      l.fill_from_state b ks bs im st name =
        .ok (.ok (), { l with name := name, kernels := ks, biases := bs, input_shape := im,
                              output_shape := ⟨n, m, UInt32.ofNat ks.length⟩, stride := st })) := by
  cases ks with
  | nil => exact absurd rfl hne
  | cons k ks =>
    have hk : k.shape = s := hs k (List.mem_cons_self ..)
    subst hk
    unfold ConvolutionalLayer.fill_from_state
    have hc : ¬ (((k :: ks).any fun k' => k'.shape ≠ k.shape) = true) := by
      simp only [List.any_eq_true, decide_eq_true_eq, not_exists, not_and, ne_eq, not_not]
      exact hs
    simp only
    rw [if_neg hc]
    constructor
    · intro h
      rw [h]; rfl
    · intro n m h h'
      rw [h, ok_bind]
      simp only [not_true_eq_false, if_false]
      rw [h']; rfl

end Rusty
