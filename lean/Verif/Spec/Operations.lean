import Verif.Spec.Tensor
import Verif.Model.Convolution

/-! # Everything a public operation can leave in place of a tensor it writes -/

namespace Rusty.Spec

variable {F : Type} [F32Ops F]

/-- `Writes b t t'`: some public operation, given some arguments and `t` as the tensor to be
written, returns normally (with `Ok`, `Err` or no result) and leaves `t'` in place of `t`. -/
inductive Writes (b : Build) : Tensor F → Tensor F → Prop
  | set_item (t x v t') : Tensor.set_item b t x v = .ok t' → Writes b t t'
  | fill_with_value (t v) : Writes b t (t.fill_with_value v)
  | fill_with_samples (t rng) : Writes b t (t.fill_with_samples rng)
  | fill_with_vec (t d r t') : t.fill_with_vec b d = .ok (r, t') → Writes b t t'
  | add (t u v) : Writes b t (Tensor.add u v t)
  | add_to_self (t u) : Writes b t (Tensor.add_to_self t u)
  | add_from_index_list (t u l r t') :
      Tensor.add_from_index_list b u t l = .ok (r, t') → Writes b t t'
  | scale (t u v) : Writes b t (Tensor.scale u v t)
  | scale_self (t v) : Writes b t (Tensor.scale_self t v)
  | multiply_elementwise_self (t u) : Writes b t (Tensor.multiply_elementwise_self t u)
  | multiply_elementwise (t u v) : Writes b t (Tensor.multiply_elementwise u v t)
  | relu_input (t m) : Writes b t (Tensor.relu_self_and_store_mask t m).2.1
  | relu_mask (t u) : Writes b t (Tensor.relu_self_and_store_mask u t).2.2
  | transpose_ij (t u r t') : Tensor.transpose_ij b u t = .ok (r, t') → Writes b t t'
  | matrix_multiply (t u v t') : Tensor.matrix_multiply b u v t = .ok t' → Writes b t t'
  | matrix_multiply_transpose_first (t u v r t') :
      Tensor.matrix_multiply_transpose_first b u v t = .ok (r, t') → Writes b t t'
  | matrix_multiply_transpose_second (t u v r t') :
      Tensor.matrix_multiply_transpose_second b u v t = .ok (r, t') → Writes b t t'
  | matrix_multiply_add_relu (t u v w t') :
      Tensor.matrix_multiply_add_relu b u v w t = .ok t' → Writes b t t'
  | convolution_bias (t image kernel bias s c r t') :
      convolution_bias b image kernel bias s t c = .ok (r, t') → Writes b t t'
  | convolution_bias_relu (t image kernel bias s c r t') :
      convolution_bias_relu b image kernel bias s t c = .ok (r, t') → Writes b t t'
  | convolution_backprop_outgoing_gradient (t incoming kernels s r t') :
      convolution_backprop_outgoing_gradient b incoming kernels s t = .ok (r, t') → Writes b t t'
  | convolution_backprop_kernel (t incoming image s c r t') :
      convolution_backprop_kernel b incoming image s c t = .ok (r, t') → Writes b t t'
  | max_pool (t image mask s t') : Tensor.max_pool b image mask s t = .ok t' → Writes b t t'
  | max_pool_track_origin (t image mask s o r t' o') :
      Tensor.max_pool_track_origin b image mask s t o = .ok (r, t', o') → Writes b t t'
  | softmax (t x t') : Tensor.softmax x t = .ok t' → Writes b t t'

/-- a finite sequence of public operations on the same tensor -/
inductive WritesMany (b : Build) : Tensor F → Tensor F → Prop
  | none (t) : WritesMany b t t
  | more (t t' t'') : WritesMany b t t' → Writes b t' t'' → WritesMany b t t''

end Rusty.Spec
