import Verif.Spec.Breaks
import Verif.Lemmas.UnwindRun
import Verif.Props.Layout

/-! # C132: a panic inside a tensor operation leaves a usable tensor -/

namespace Rusty

open F32Ops Unwind Spec

variable {F : Type} [F32Ops F]

/-- C132, the two models agree: write by write, every operation has the result of the plain model, whether it
returns or panics. -/
theorem C132_agrees (b : Build) (t u v w : Tensor F) (ix : TensorIndex) (a : F) (is : List UInt32)
    (us : List (Tensor F)) (mask : TensorShape) (s c : UInt32) :
    forget (Tensor.set_item_u b ix a) t = (t.set_item b ix a >>= fun t' => .ok ((), t')) ∧
    forget (Tensor.add_from_index_list_u b u is) t = Tensor.add_from_index_list b u t is ∧
    forget (Tensor.transpose_ij_u b u) t = Tensor.transpose_ij b u t ∧
    forget (Tensor.matrix_multiply_u b u v) t = (Tensor.matrix_multiply b u v t >>= fun t' => .ok ((), t')) ∧
    forget (Tensor.matrix_multiply_transpose_first_u b u v) t = Tensor.matrix_multiply_transpose_first b u v t ∧
    forget (Tensor.matrix_multiply_transpose_second_u b u v) t = Tensor.matrix_multiply_transpose_second b u v t ∧
    forget (Tensor.matrix_multiply_add_relu_u b u v w) t =
      (Tensor.matrix_multiply_add_relu b u v w t >>= fun t' => .ok ((), t')) ∧
    forget (convolution_bias_u b u v w s c) t = convolution_bias b u v w s t c ∧
    forget (convolution_bias_relu_u b u v w s c) t = convolution_bias_relu b u v w s t c ∧
    forget (convolution_backprop_outgoing_gradient_u b u us s) t =
      convolution_backprop_outgoing_gradient b u us s t ∧
    forget (convolution_backprop_kernel_u b u v s c) t = convolution_backprop_kernel b u v s c t ∧
    forget (Tensor.max_pool_u b u mask s) t = (Tensor.max_pool b u mask s t >>= fun t' => .ok ((), t')) ∧
    forget (Tensor.max_pool_track_origin_u b u mask s) (t, is) = Tensor.max_pool_track_origin b u mask s t is ∧
    forget (Tensor.softmax_u u) t = (Tensor.softmax u t >>= fun t' => .ok ((), t')) :=
  ⟨Tensor.set_item_agrees b ix a t, Tensor.add_from_index_list_agrees b u t is, Tensor.transpose_agrees b u t,
    Tensor.mm_agrees b u v t, Tensor.mm_first_agrees b u v t, Tensor.mm_second_agrees b u v t,
    Tensor.mm_relu_agrees b u v w t, conv_bias_agrees b u v w s c t, conv_relu_agrees b u v w s c t,
    backprop_outgoing_agrees b u us s t, backprop_kernel_agrees b u v s c t, Tensor.max_pool_agrees b u mask s t,
    Tensor.track_agrees b u mask s t is, Tensor.softmax_agrees u t⟩

/-- C132, one operation: whatever the arguments, an operation that panics leaves a well formed tensor well formed, with
its shape and strides. -/
theorem C132_operation (b : Build) (t t' : Tensor F) (ht : t.WF) (h : Breaks b t t') :
    t'.WF ∧ t'.shape = t.shape ∧ t'.strides = t.strides := by
  have key : ∀ {α : Type} {m : Unwind (Tensor F) α} {r : Except PanicKind α} {t' : Tensor F},
      Keeps (sameLayout · t) m → m t = (r, t') → t'.WF ∧ t'.shape = t.shape ∧ t'.strides = t.strides := by
    intro α m r t' hk e
    have h := hk t (sameLayout_refl t)
    rw [e] at h
    exact ⟨(sameLayout_wf h ht).1, h.1, h.2.1⟩
  cases h with
  | set_item x v p _ h => exact key (Tensor.set_item_keeps b t x v) h
  | fill_with_vec d p _ => exact ⟨ht, rfl, rfl⟩
  | add_from_index_list u l p _ h => exact key (Tensor.add_from_index_list_keeps b t u l) h
  | transpose_ij u p _ h => exact key (Tensor.transpose_keeps b t u) h
  | matrix_multiply u v p _ h => exact key (Tensor.mm_keeps b t u v) h
  | matrix_multiply_transpose_first u v p _ h => exact key (Tensor.mm_first_keeps b t u v) h
  | matrix_multiply_transpose_second u v p _ h => exact key (Tensor.mm_second_keeps b t u v) h
  | matrix_multiply_add_relu u v w p _ h => exact key (Tensor.mm_relu_keeps b t u v w) h
  | convolution_bias x k bi s c p _ h => exact key (conv_bias_keeps b t x k bi s c) h
  | convolution_bias_relu x k bi s c p _ h => exact key (conv_relu_keeps b t x k bi s c) h
  | convolution_backprop_outgoing_gradient g ks s p _ h => exact key (backprop_outgoing_keeps b t g ks s) h
  | convolution_backprop_kernel g x s c p _ h => exact key (backprop_kernel_keeps b t g x s c) h
  | max_pool x m s p _ h => exact key (Tensor.max_pool_keeps b t x m s) h
  | max_pool_track_origin x m s o p _ o' h =>
    have := Tensor.track_keeps b t x m s o.length (t, o) ⟨sameLayout_refl t, rfl⟩
    rw [h] at this
    exact ⟨(sameLayout_wf this.1 ht).1, this.1.1, this.1.2.1⟩
  | softmax x p _ h => exact key (Tensor.softmax_keeps t x) h

/-- C132, any sequence of operations on one tensor, starting from `Tensor::new`, in which panics are caught. -/
theorem C132_history (b : Build) (s : TensorShape) (hs : s.Fits) (t t' : Tensor F)
    (hn : Tensor.new b s = .ok t) (h : UsedMany b t t') : t'.WF ∧ t'.shape = s := by
  induction h with
  | none => exact C07_history b s hs _ _ hn (.none _)
  | returns t1 t2 _ h2 ih =>
    obtain ⟨w, e⟩ := ih
    obtain ⟨w', e', _⟩ := C07_operation b t1 t2 w h2
    exact ⟨w', e'.trans e⟩
  | panics t1 t2 _ h2 ih =>
    obtain ⟨w, e⟩ := ih
    obtain ⟨w', e', _⟩ := C132_operation b t1 t2 w h2
    exact ⟨w', e'.trans e⟩

open Toy in
/-- An operation that panics half way: `convolution_backprop_outgoing_gradient` for one kernel of three rows and a gradient
of one row (accepted by the checks, see C19) has written the first entry already. -/
example : ∃ t : Tensor Int, Tensor.new .debug ⟨3, 1, 1⟩ = .ok t ∧
    UsedMany .debug t ⟨⟨1, 3, 3⟩, ⟨3, 1, 1⟩, [5, 0, 0]⟩ :=
  ⟨_, rfl, .panics _ ⟨⟨1, 3, 3⟩, ⟨3, 1, 1⟩, [0, 0, 0]⟩ _ (.none _) (.convolution_backprop_outgoing_gradient _
    ⟨⟨1, 1, 1⟩, ⟨1, 1, 1⟩, [5]⟩ [⟨⟨1, 3, 3⟩, ⟨3, 1, 1⟩, [1, 2, 3]⟩] 1 .oob _ rfl)⟩

end Rusty
