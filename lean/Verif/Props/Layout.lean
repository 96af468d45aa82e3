import Verif.Spec.Operations
import Verif.Spec.Toy
import Verif.Lemmas.Layout

/-! # C07: no operation changes a tensor's shape or breaks its layout -/

namespace Rusty

open F32Ops Spec

variable {F : Type} [F32Ops F]

/-- C07, one operation: whatever the arguments, and whether the operation succeeds, silently
declines or returns `Err`, a well formed tensor stays well formed and keeps its shape and strides. -/
theorem C07_operation (b : Build) (t t' : Tensor F) (ht : t.WF) (h : Writes b t t') :
    t'.WF ∧ t'.shape = t.shape ∧ t'.strides = t.strides := by
  have key : ∀ {t t' : Tensor F}, t.WF → sameLayout t' t →
      t'.WF ∧ t'.shape = t.shape ∧ t'.strides = t.strides :=
    fun ht h => ⟨(sameLayout_wf h ht).1, h.1, h.2.1⟩
  cases h with
  | set_item x v _ h => exact key ht (set_item_layout t x v _ h)
  | fill_with_value v => exact key ht (fill_layout t v)
  | fill_with_samples rng => exact key ht (fill_samples_layout rng t)
  | fill_with_vec d r _ h =>
    unfold Tensor.fill_with_vec Tensor.total_items at h
    rw [total_size_ok ht.fits, ok_bind] at h
    split at h
    · cases h; exact ⟨ht, rfl, rfl⟩
    · rename_i hd
      cases h
      refine ⟨wf_data ht _ ?_, rfl, rfl⟩
      rw [ht.len, ← toNat_ofNat_lt ht.fits.2]
      exact Classical.not_not.mp hd
  | add u v => exact key ht (add_layout u v t)
  | add_to_self u => exact key ht (add_to_self_layout t u)
  | add_from_index_list u l r _ h => exact key ht (scatter_layout u t l _ h)
  | scale u v => exact key ht (scale_layout u v t)
  | scale_self v => exact key ht (scale_self_layout t v)
  | multiply_elementwise_self u => exact key ht (mul_self_layout t u)
  | multiply_elementwise u v => exact key ht (mul_layout u v t)
  | relu_input m => exact key ht (relu_layout t m).1
  | relu_mask u => exact key ht (relu_layout u t).2
  | transpose_ij u r _ h => exact key ht (transpose_layout u t _ h)
  | matrix_multiply u v _ h => exact key ht (mm_layout u v t _ h)
  | matrix_multiply_transpose_first u v r _ h => exact key ht (mm_tf_layout u v t _ h)
  | matrix_multiply_transpose_second u v r _ h => exact key ht (mm_ts_layout u v t _ h)
  | matrix_multiply_add_relu u v w _ h => exact key ht (mm_add_relu_layout u v w t _ h)
  | convolution_bias image kernel bias s c r _ h =>
    exact key ht (conv_bias_layout image kernel bias t s c _ h)
  | convolution_bias_relu image kernel bias s c r _ h =>
    exact key ht (conv_bias_relu_layout image kernel bias t s c _ h)
  | convolution_backprop_outgoing_gradient incoming kernels s r _ h =>
    exact key ht (conv_outgoing_layout incoming kernels s t _ h)
  | convolution_backprop_kernel incoming image s c r _ h =>
    exact key ht (conv_kernel_layout incoming image s c t _ h)
  | max_pool image mask s _ h => exact key ht (max_pool_layout image mask s t _ h)
  | max_pool_track_origin image mask s o r _ o' h =>
    exact key ht (track_layout image mask s t o _ h).1
  | softmax x _ h => exact key ht (softmax_layout x t _ h)

/-- C07, any sequence of operations on one tensor, starting from `Tensor::new`. -/
theorem C07_history (b : Build) (s : TensorShape) (hs : s.Fits) (t t' : Tensor F)
    (hn : Tensor.new b s = .ok t) (h : WritesMany b t t') : t'.WF ∧ t'.shape = s := by
  have h0 : t.WF ∧ t.shape = s := by
    rw [new_ok hs] at hn
    cases hn
    exact ⟨zeros_wf hs, rfl⟩
  induction h with
  | none => exact h0
  | more t1 t2 _ h2 ih =>
    obtain ⟨w, e⟩ := ih
    obtain ⟨w', e', _⟩ := C07_operation b t1 t2 w h2
    exact ⟨w', e'.trans e⟩

open Toy in
example : ∃ t : Tensor Int, Tensor.new .debug ⟨2, 1, 1⟩ = .ok t ∧
    WritesMany .debug t ⟨⟨1, 2, 2⟩, ⟨2, 1, 1⟩, [15, 5]⟩ :=
  ⟨_, rfl, .more _ ⟨⟨1, 2, 2⟩, ⟨2, 1, 1⟩, [5, 5]⟩ _ (.more _ _ _ (.none _) (.fill_with_value _ 5))
    (.add_from_index_list _ ⟨⟨1, 1, 1⟩, ⟨1, 1, 1⟩, [10]⟩ [0] (.ok ()) _ rfl)⟩

open Toy in
/-- an operation that is refused half way -/
example : Writes .debug (⟨⟨1, 2, 2⟩, ⟨2, 1, 1⟩, [5, 5]⟩ : Tensor Int)
    ⟨⟨1, 2, 2⟩, ⟨2, 1, 1⟩, [15, 5]⟩ :=
  .add_from_index_list _ ⟨⟨1, 2, 2⟩, ⟨2, 1, 1⟩, [10, 20]⟩ [0, 7]
    (.error "Tensor 2 index out of bounds") _ rfl

end Rusty
