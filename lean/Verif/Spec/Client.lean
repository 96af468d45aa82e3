import Verif.Model.Network
import Verif.Model.Random

/-!
# Client programs

`Client α`: a program that uses the library and ends with a value of type `α`.  It makes calls of
public functions one after the other; which call comes next, and with which arguments, may depend in
any way on what the earlier calls returned.  Public functions without integer arithmetic, indexing or
panics are functions in the model, and a client applies them between the calls.

What the environment contributes to a call is an argument of the call: the random words and samples,
the order in which a hash map is written, and whether a write succeeds.
-/

namespace Rusty

variable [Libm]

open F32

/-- a network of the layers of the library -/
abbrev Net32 : Type := Network F32 (AnyLayer F32)

/-- one call of a public function; the index is the type of what the caller has afterwards -/
inductive Api : Type → Type 1
  | total_size (s : TensorShape) : Api UInt32
  | mul_index (s : TensorStride) (ix : TensorIndex) : Api UInt32
  | new_from_shape (s : TensorShape) : Api TensorStride
  | tensor_new (s : TensorShape) : Api (Tensor F32)
  | tensor_empty : Api (Tensor F32)
  | total_items (t : Tensor F32) : Api UInt32
  | set_item (t : Tensor F32) (ix : TensorIndex) (v : F32) : Api (Tensor F32)
  | get_item (t : Tensor F32) (ix : TensorIndex) : Api F32
  | get_data_index (t : Tensor F32) (ix : TensorIndex) : Api UInt32
  | fill_with_uniform (rng : Nat → UInt32) (t : Tensor F32) (lo hi : F32) : Api (Tensor F32)
  | fill_with_gaussian (rng : Nat → F32) (t : Tensor F32) (mean sd : F32) : Api (Tensor F32)
  | fill_with_vec (t : Tensor F32) (d : List F32) : Api (Res × Tensor F32)
  | save_tensor (w : WriteOutcome) (t : Tensor F32) (name : String) : Api Res
  | load_tensor (name : String) : Api (Except String (Tensor F32))
  | add_from_index_list (t u : Tensor F32) (l : List UInt32) : Api (Res × Tensor F32)
  | transpose_ij (t u : Tensor F32) : Api (Res × Tensor F32)
  | matrix_multiply_transpose_first (t u r : Tensor F32) : Api (Res × Tensor F32)
  | matrix_multiply_transpose_second (t u r : Tensor F32) : Api (Res × Tensor F32)
  | matrix_multiply (t u r : Tensor F32) : Api (Tensor F32)
  | matrix_multiply_add_relu (x w c r : Tensor F32) : Api (Tensor F32)
  | does_kernel_stride_fit_image (i k : TensorShape) (s : UInt32) : Api Bool
  | get_convolution_dim_fit (i k : TensorShape) (s : UInt32) : Api (UInt32 × UInt32)
  | check_max_pooling_dimensions (i m : TensorShape) (s : UInt32) (r : TensorShape) : Api Bool
  | max_pool (x : Tensor F32) (m : TensorShape) (s : UInt32) (r : Tensor F32) : Api (Tensor F32)
  | max_pool_track_origin (x : Tensor F32) (m : TensorShape) (s : UInt32) (r : Tensor F32)
      (o : List UInt32) : Api (Res × Tensor F32 × List UInt32)
  | softmax (x r : Tensor F32) : Api (Tensor F32)
  | check_convolution_dimensions (i k : TensorShape) (s : UInt32) (r : TensorShape) (c : UInt32) : Api Res
  | convolution_bias (x k c : Tensor F32) (s : UInt32) (r : Tensor F32) (ch : UInt32) :
      Api (Res × Tensor F32)
  | convolution_bias_relu (x k c : Tensor F32) (s : UInt32) (r : Tensor F32) (ch : UInt32) :
      Api (Res × Tensor F32)
  | convolution_backprop_outgoing_gradient (g : Tensor F32) (ks : List (Tensor F32)) (s : UInt32)
      (o : Tensor F32) : Api (Res × Tensor F32)
  | convolution_backprop_kernel (g x : Tensor F32) (s c : UInt32) (k : Tensor F32) :
      Api (Res × Tensor F32)
  | fc_new (i o : UInt32) (name : String) : Api (FullyConnectedLayer F32)
  | fc_empty : Api (FullyConnectedLayer F32)
  | fc_fill (l : FullyConnectedLayer F32) (w c : Tensor F32) (name : String) :
      Api (Res × FullyConnectedLayer F32)
  | mp_new (m i : TensorShape) (s : UInt32) (name : String) : Api (Except String MaxPoolLayer)
  | mp_fill (l : MaxPoolLayer) (i m : TensorShape) (s : UInt32) (name : String) :
      Api (Res × MaxPoolLayer)
  | sm_new (s : TensorShape) (name : String) : Api (Except String (SoftmaxLayer F32))
  | sm_empty : Api (SoftmaxLayer F32)
  | sm_fill (l : SoftmaxLayer F32) (s : TensorShape) (name : String) : Api (Res × SoftmaxLayer F32)
  | conv_new (k i : TensorShape) (s d : UInt32) (name : String) :
      Api (Except String (ConvolutionalLayer F32))
  | conv_empty : Api (ConvolutionalLayer F32)
  | conv_fill (l : ConvolutionalLayer F32) (ks bs : List (Tensor F32)) (i : TensorShape) (s : UInt32)
      (name : String) : Api (Res × ConvolutionalLayer F32)
  | layer_forward (l : AnyLayer F32) (x y : Tensor F32) : Api (Res × AnyLayer F32 × Tensor F32)
  | layer_backward (l : AnyLayer F32) (x y g o : Tensor F32) : Api (Res × AnyLayer F32 × Tensor F32)
  | layer_switch_to_training (l : AnyLayer F32) : Api (AnyLayer F32)
  | layer_switch_to_inference (l : AnyLayer F32) : Api (AnyLayer F32)
  | layer_load (l : AnyLayer F32) (s : SerializedLayer) : Api (Res × AnyLayer F32)
  | add_to_network (s : SerializedLayer) (n : Net32) : Api (Res × Net32)
  | add_layer (n : Net32) (l : AnyLayer F32) : Api (Res × Net32)
  | switch_to_training (n : Net32) : Api Net32
  | switch_to_inference (n : Net32) : Api Net32
  | infer (n : Net32) (x : Tensor F32) : Api (Res × Net32)
  | backward (n : Net32) (g : Tensor F32) : Api (Res × Net32)
  | save_network (o : HashOrder) (w : WriteOutcome) (n : Net32) (name : String) : Api Res
  | load_network (n : Net32) (name : String) : Api (Res × Net32)

namespace Api

/-- the outcome of a call that touches no file -/
def local' {α : Type} (fs : FS) (e : Exec α) : Exec (α × FS) := do
  let a ← e
  pure (a, fs)

/-- what a call does: the result and the files afterwards, or the panic -/
def run (b : Build) : {α : Type} → Api α → FS → Exec (α × FS)
  | _, .total_size s, fs => local' fs (s.total_size b)
  | _, .mul_index s ix, fs => local' fs (s.mulIndex b ix)
  | _, .new_from_shape s, fs => local' fs (TensorStride.new_from_shape b s)
  | _, .tensor_new s, fs => local' fs (Tensor.new b s)
  | _, .tensor_empty, fs => local' fs (Tensor.empty b)
  | _, .total_items t, fs => local' fs (t.total_items b)
  | _, .set_item t ix v, fs => local' fs (t.set_item b ix v)
  | _, .get_item t ix, fs => local' fs (t.get_item b ix)
  | _, .get_data_index t ix, fs => local' fs (t.get_data_index b ix)
  | _, .fill_with_uniform rng t lo hi, fs => local' fs (t.fill_with_uniform b rng lo hi)
  | _, .fill_with_gaussian rng t mean sd, fs => local' fs (t.fill_with_gaussian rng mean sd)
  | _, .fill_with_vec t d, fs => local' fs (t.fill_with_vec b d)
  | _, .save_tensor w t name, fs => pure (t.save_to_file w fs name)
  | _, .load_tensor name, fs => pure (Tensor.from_file fs name, fs)
  | _, .add_from_index_list t u l, fs => local' fs (Tensor.add_from_index_list b t u l)
  | _, .transpose_ij t u, fs => local' fs (Tensor.transpose_ij b t u)
  | _, .matrix_multiply_transpose_first t u r, fs =>
      local' fs (Tensor.matrix_multiply_transpose_first b t u r)
  | _, .matrix_multiply_transpose_second t u r, fs =>
      local' fs (Tensor.matrix_multiply_transpose_second b t u r)
  | _, .matrix_multiply t u r, fs => local' fs (Tensor.matrix_multiply b t u r)
  | _, .matrix_multiply_add_relu x w c r, fs => local' fs (Tensor.matrix_multiply_add_relu b x w c r)
  | _, .does_kernel_stride_fit_image i k s, fs => local' fs (Tensor.does_kernel_stride_fit_image b i k s)
  | _, .get_convolution_dim_fit i k s, fs => local' fs (Tensor.get_convolution_dim_fit b i k s)
  | _, .check_max_pooling_dimensions i m s r, fs =>
      local' fs (Tensor.check_max_pooling_dimensions b i m s r)
  | _, .max_pool x m s r, fs => local' fs (Tensor.max_pool b x m s r)
  | _, .max_pool_track_origin x m s r o, fs => local' fs (Tensor.max_pool_track_origin b x m s r o)
  | _, .softmax x r, fs => local' fs (Tensor.softmax x r)
  | _, .check_convolution_dimensions i k s r c, fs =>
      local' fs (Rusty.check_convolution_dimensions b i k s r c)
  | _, .convolution_bias x k c s r ch, fs => local' fs (Rusty.convolution_bias b x k c s r ch)
  | _, .convolution_bias_relu x k c s r ch, fs => local' fs (Rusty.convolution_bias_relu b x k c s r ch)
  | _, .convolution_backprop_outgoing_gradient g ks s o, fs =>
      local' fs (Rusty.convolution_backprop_outgoing_gradient b g ks s o)
  | _, .convolution_backprop_kernel g x s c k, fs =>
      local' fs (Rusty.convolution_backprop_kernel b g x s c k)
  | _, .fc_new i o name, fs => local' fs (FullyConnectedLayer.new b i o name)
  | _, .fc_empty, fs => local' fs (FullyConnectedLayer.empty b)
  | _, .fc_fill l w c name, fs => local' fs (l.fill_from_state b w c name)
  | _, .mp_new m i s name, fs => local' fs (MaxPoolLayer.new b m i s name)
  | _, .mp_fill l i m s name, fs => local' fs (l.fill_from_state b i m s name)
  | _, .sm_new s name, fs => local' fs (SoftmaxLayer.new b s name)
  | _, .sm_empty, fs => local' fs (SoftmaxLayer.empty b)
  | _, .sm_fill l s name, fs => local' fs (l.fill_from_state b s name)
  | _, .conv_new k i s d name, fs => local' fs (ConvolutionalLayer.new b k i s d name)
  | _, .conv_empty, fs => local' fs (ConvolutionalLayer.empty b)
  | _, .conv_fill l ks bs i s name, fs => local' fs (l.fill_from_state b ks bs i s name)
  | _, .layer_forward l x y, fs => local' fs (l.forward b x y)
  | _, .layer_backward l x y g o, fs => local' fs (l.backward b x y g o)
  | _, .layer_switch_to_training l, fs => local' fs (l.switch_to_training b)
  | _, .layer_switch_to_inference l, fs => local' fs (l.switch_to_inference b)
  | _, .layer_load l s, fs => local' fs (l.load_from_serialized b s)
  | _, .add_to_network s n, fs => local' fs (s.add_to_network b n)
  | _, .add_layer n l, fs => local' fs (n.add_layer b l)
  | _, .switch_to_training n, fs => local' fs (n.switch_to_training b)
  | _, .switch_to_inference n, fs => local' fs (n.switch_to_inference b)
  | _, .infer n x, fs => local' fs (n.infer b x)
  | _, .backward n g, fs => local' fs (n.backward b g)
  | _, .save_network o w n name, fs => pure (n.save_to_file o w fs name)
  | _, .load_network n name, fs => local' fs (n.load_from_file b fs name)

end Api

/-- a client program -/
inductive Client : Type → Type 1
  | done {α : Type} (a : α) : Client α
  | call {α β : Type} (c : Api β) (k : β → Client α) : Client α

namespace Client

/-- what the program does, started with the given files: its result and the files at the end, or the
panic that stops it -/
def run (b : Build) {α : Type} : Client α → FS → Exec (α × FS)
  | .done a, fs => pure (a, fs)
  | .call c k, fs => do
    let (r, fs) ← c.run b fs
    (k r).run b fs

end Client

end Rusty
