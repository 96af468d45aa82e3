import Verif.Spec.Operations
import Verif.Model.UnwindRun

/-! # Everything a public operation that panics can leave in place of a tensor it writes (C132) -/

namespace Rusty.Spec

variable {F : Type} [F32Ops F]

/-- `Breaks b t t'`: some public operation, given some arguments and `t` as the tensor to be written, panics and has
left `t'` in place of `t` at that point.  The operations that are not listed have nothing in them that can panic
but `fill_with_vec`, which does nothing before it computes the length that is asked for. -/
inductive Breaks (b : Build) : Tensor F → Tensor F → Prop
  | set_item (t x v p t') : Tensor.set_item_u b x v t = (.error p, t') → Breaks b t t'
  | fill_with_vec (t d p) : t.fill_with_vec b d = .error p → Breaks b t t
  | add_from_index_list (t u l p t') : Tensor.add_from_index_list_u b u l t = (.error p, t') → Breaks b t t'
  | transpose_ij (t u p t') : Tensor.transpose_ij_u b u t = (.error p, t') → Breaks b t t'
  | matrix_multiply (t u v p t') : Tensor.matrix_multiply_u b u v t = (.error p, t') → Breaks b t t'
  | matrix_multiply_transpose_first (t u v p t') :
      Tensor.matrix_multiply_transpose_first_u b u v t = (.error p, t') → Breaks b t t'
  | matrix_multiply_transpose_second (t u v p t') :
      Tensor.matrix_multiply_transpose_second_u b u v t = (.error p, t') → Breaks b t t'
  | matrix_multiply_add_relu (t u v w p t') :
      Tensor.matrix_multiply_add_relu_u b u v w t = (.error p, t') → Breaks b t t'
  | convolution_bias (t image kernel bias s c p t') :
      convolution_bias_u b image kernel bias s c t = (.error p, t') → Breaks b t t'
  | convolution_bias_relu (t image kernel bias s c p t') :
      convolution_bias_relu_u b image kernel bias s c t = (.error p, t') → Breaks b t t'
  | convolution_backprop_outgoing_gradient (t incoming kernels s p t') :
      convolution_backprop_outgoing_gradient_u b incoming kernels s t = (.error p, t') → Breaks b t t'
  | convolution_backprop_kernel (t incoming image s c p t') :
      convolution_backprop_kernel_u b incoming image s c t = (.error p, t') → Breaks b t t'
  | max_pool (t image mask s p t') : Tensor.max_pool_u b image mask s t = (.error p, t') → Breaks b t t'
  | max_pool_track_origin (t image mask s o p t' o') :
      Tensor.max_pool_track_origin_u b image mask s (t, o) = (.error p, (t', o')) → Breaks b t t'
  | softmax (t x p t') : Tensor.softmax_u x t = (.error p, t') → Breaks b t t'

/-- a finite sequence of public operations on the same tensor, in which panics are caught -/
inductive UsedMany (b : Build) : Tensor F → Tensor F → Prop
  | none (t) : UsedMany b t t
  | returns (t t' t'') : UsedMany b t t' → Writes b t' t'' → UsedMany b t t''
  | panics (t t' t'') : UsedMany b t t' → Breaks b t' t'' → UsedMany b t t''

end Rusty.Spec
