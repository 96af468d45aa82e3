import Verif.Model.Network
import Mathlib.Tactic.SplitIfs

/-!
# Debug and release builds

`Agree d r`: the computation `d` of a debug build is the computation `r` of the release build, or
panics on arithmetic overflow.  Every function of the library has this property.
-/

namespace Rusty

/-- the debug build does what the release build does, or panics on arithmetic overflow -/
def Agree {α : Type} (d r : Exec α) : Prop := d = r ∨ d = .error .overflow

namespace Agree

variable {α β σ : Type}

theorem rfl {d : Exec α} : Agree d d := .inl _root_.rfl

theorem of_eq {d r : Exec α} (h : d = r) : Agree d r := .inl h

theorem bind {d r : Exec α} {f g : α → Exec β} (h : Agree d r) (hf : ∀ a, Agree (f a) (g a)) :
    Agree (d >>= f) (r >>= g) := by
  rcases h with rfl | rfl
  · cases d with
    | error e => exact rfl
    | ok a => exact hf a
  · exact .inr _root_.rfl

theorem foldlM {f g : σ → α → Exec σ} (h : ∀ s a, Agree (f s a) (g s a)) (l : List α) (s : σ) :
    Agree (l.foldlM f s) (l.foldlM g s) := by
  induction l generalizing s with
  | nil => exact rfl
  | cons a l ih =>
    rw [List.foldlM_cons, List.foldlM_cons]
    exact bind (h s a) fun s => ih s

theorem mapM {f g : α → Exec β} (h : ∀ a, Agree (f a) (g a)) (l : List α) :
    Agree (l.mapM f) (l.mapM g) := by
  induction l with
  | nil => exact rfl
  | cons a l ih =>
    rw [List.mapM_cons, List.mapM_cons]
    exact bind (h a) fun b => bind ih fun bs => rfl

theorem forRange {f g : UInt32 → σ → Exec σ} (h : ∀ i s, Agree (f i s) (g i s)) {lo hi : UInt32}
    {s : σ} : Agree (Rusty.forRange lo hi s f) (Rusty.forRange lo hi s g) :=
  foldlM (fun s i => h (UInt32.ofNat i) s) _ _

theorem forListE {f g : α → σ → Exec (Res × σ)} (h : ∀ a s, Agree (f a s) (g a s)) {l : List α}
    {s : σ} : Agree (Rusty.forListE l s f) (Rusty.forListE l s g) := by
  induction l generalizing s with
  | nil => exact rfl
  | cons a l ih =>
    refine bind (h a s) ?_
    rintro ⟨r, s⟩
    cases r with
    | error e => exact rfl
    | ok u => exact ih

theorem addU (x y : UInt32) : Agree (Rusty.addU .debug x y) (Rusty.addU .release x y) := by
  unfold Rusty.addU; split_ifs
  · exact rfl
  · exact .inr _root_.rfl

theorem mulU (x y : UInt32) : Agree (Rusty.mulU .debug x y) (Rusty.mulU .release x y) := by
  unfold Rusty.mulU; split_ifs
  · exact rfl
  · exact .inr _root_.rfl

theorem subU (x y : UInt32) : Agree (Rusty.subU .debug x y) (Rusty.subU .release x y) := by
  unfold Rusty.subU; split_ifs
  · exact rfl
  · exact .inr _root_.rfl

theorem chkI32 (z : Int) : Agree (Rusty.chkI32 .debug z) (Rusty.chkI32 .release z) := by
  unfold Rusty.chkI32; split_ifs
  · exact rfl
  · exact .inr _root_.rfl

end Agree

/-- the rules for `Agree` -/
syntax "agree" (" [" term,* "]")? : tactic

macro_rules
  | `(tactic| agree) => `(tactic| agree [Agree.rfl])
  | `(tactic| agree [$ts,*]) => do
    let alts ← ts.getElems.mapM fun t => `(tactic| with_reducible exact $t)
    `(tactic| repeat' first
      | with_reducible exact Agree.rfl
      | with_reducible exact Agree.addU _ _
      | with_reducible exact Agree.mulU _ _
      | with_reducible exact Agree.subU _ _
      | with_reducible exact Agree.chkI32 _
      $[| $alts:tactic]*
      | with_reducible apply Agree.bind
      | with_reducible apply Agree.forRange
      | with_reducible apply Agree.forListE
      | (with_reducible apply Agree.foldlM; intro _ _)
      | (rintro (⟨_ | _, _⟩ : Res × _) <;> dsimp only)
      | (intro _; try dsimp only)
      | split_ifs)

namespace TensorShape

theorem total_size_agree (s : TensorShape) : Agree (s.total_size .debug) (s.total_size .release) := by
  unfold total_size; agree

end TensorShape

namespace TensorStride

theorem mulIndex_agree (s : TensorStride) (ix : TensorIndex) :
    Agree (s.mulIndex .debug ix) (s.mulIndex .release ix) := by
  unfold mulIndex; agree

theorem new_from_shape_agree (s : TensorShape) :
    Agree (new_from_shape .debug s) (new_from_shape .release s) := by
  unfold new_from_shape; agree

end TensorStride

namespace Tensor

variable {F : Type} [F32Ops F]

theorem new_agree (s : TensorShape) : Agree (new (F := F) .debug s) (new .release s) := by
  unfold new; agree [TensorShape.total_size_agree _, TensorStride.new_from_shape_agree _]

theorem empty_agree : Agree (empty (F := F) .debug) (empty .release) := new_agree _

omit [F32Ops F] in
theorem total_items_agree (t : Tensor F) : Agree (t.total_items .debug) (t.total_items .release) :=
  TensorShape.total_size_agree _

omit [F32Ops F] in
theorem get_data_index_agree (t : Tensor F) (ix : TensorIndex) :
    Agree (t.get_data_index .debug ix) (t.get_data_index .release ix) :=
  TensorStride.mulIndex_agree _ _

omit [F32Ops F] in
theorem read_agree (t : Tensor F) (ix : TensorIndex) : Agree (t.read .debug ix) (t.read .release ix) := by
  unfold read; agree [get_data_index_agree _ _]

omit [F32Ops F] in
theorem write_agree (t : Tensor F) (ix : TensorIndex) (v : F) :
    Agree (t.write .debug ix v) (t.write .release ix v) := by
  unfold write; agree [get_data_index_agree _ _]

omit [F32Ops F] in
theorem set_item_agree (t : Tensor F) (ix : TensorIndex) (v : F) :
    Agree (t.set_item .debug ix v) (t.set_item .release ix v) := by
  unfold set_item; agree [write_agree _ _ _]

theorem get_item_agree (t : Tensor F) (ix : TensorIndex) :
    Agree (t.get_item .debug ix) (t.get_item .release ix) := by
  unfold get_item; agree [read_agree _ _]

omit [F32Ops F] in
theorem fill_with_vec_agree (t : Tensor F) (d : List F) :
    Agree (t.fill_with_vec .debug d) (t.fill_with_vec .release d) := by
  unfold fill_with_vec; agree [total_items_agree _]

theorem add_from_index_list_agree (t u : Tensor F) (l : List UInt32) :
    Agree (add_from_index_list .debug t u l) (add_from_index_list .release t u l) := by
  unfold add_from_index_list; agree [TensorShape.total_size_agree _]

omit [F32Ops F] in
theorem transpose_ij_agree (t u : Tensor F) :
    Agree (transpose_ij .debug t u) (transpose_ij .release t u) := by
  unfold transpose_ij; dsimp only; agree [read_agree _ _, write_agree _ _ _]

theorem transpose_first_agree (t u r : Tensor F) :
    Agree (matrix_multiply_transpose_first .debug t u r)
      (matrix_multiply_transpose_first .release t u r) := by
  unfold matrix_multiply_transpose_first; dsimp only; agree [read_agree _ _, write_agree _ _ _]

theorem transpose_second_agree (t u r : Tensor F) :
    Agree (matrix_multiply_transpose_second .debug t u r)
      (matrix_multiply_transpose_second .release t u r) := by
  unfold matrix_multiply_transpose_second; dsimp only; agree [read_agree _ _, write_agree _ _ _]

theorem matrix_multiply_agree (t u r : Tensor F) :
    Agree (matrix_multiply .debug t u r) (matrix_multiply .release t u r) := by
  unfold matrix_multiply; dsimp only; agree [read_agree _ _, write_agree _ _ _]

theorem add_relu_agree (x w c r : Tensor F) :
    Agree (matrix_multiply_add_relu .debug x w c r) (matrix_multiply_add_relu .release x w c r) := by
  unfold matrix_multiply_add_relu; dsimp only; agree [read_agree _ _, write_agree _ _ _]

theorem fit_agree (i k : TensorShape) (s : UInt32) :
    Agree (does_kernel_stride_fit_image .debug i k s) (does_kernel_stride_fit_image .release i k s) := by
  unfold does_kernel_stride_fit_image; agree

theorem dim_fit_agree (i k : TensorShape) (s : UInt32) :
    Agree (get_convolution_dim_fit .debug i k s) (get_convolution_dim_fit .release i k s) := by
  unfold get_convolution_dim_fit; agree

theorem check_pool_agree (i k : TensorShape) (s : UInt32) (r : TensorShape) :
    Agree (check_max_pooling_dimensions .debug i k s r) (check_max_pooling_dimensions .release i k s r) := by
  unfold check_max_pooling_dimensions; agree

theorem max_pool_agree (x : Tensor F) (m : TensorShape) (s : UInt32) (r : Tensor F) :
    Agree (max_pool .debug x m s r) (max_pool .release x m s r) := by
  unfold max_pool; agree [check_pool_agree _ _ _ _, get_item_agree _ _, set_item_agree _ _ _]

theorem track_origin_agree (x : Tensor F) (m : TensorShape) (s : UInt32) (r : Tensor F)
    (o : List UInt32) :
    Agree (max_pool_track_origin .debug x m s r o) (max_pool_track_origin .release x m s r o) := by
  unfold max_pool_track_origin
  agree [check_pool_agree _ _ _ _, get_item_agree _ _, set_item_agree _ _ _,
    TensorShape.total_size_agree _, get_data_index_agree _ _]

end Tensor

section Convolution

variable {F : Type} [F32Ops F]

theorem check_convolution_agree (i k : TensorShape) (s : UInt32) (r : TensorShape) (c : UInt32) :
    Agree (check_convolution_dimensions .debug i k s r c)
      (check_convolution_dimensions .release i k s r c) := by
  unfold check_convolution_dimensions; agree

theorem window_agree (x k : Tensor F) (s i j : UInt32) :
    Agree (convolution_window .debug x k s i j) (convolution_window .release x k s i j) := by
  unfold convolution_window; agree [Tensor.get_data_index_agree _ _]

theorem convolution_bias_agree (x k c : Tensor F) (s : UInt32) (r : Tensor F) (ch : UInt32) :
    Agree (convolution_bias .debug x k c s r ch) (convolution_bias .release x k c s r ch) := by
  unfold convolution_bias
  refine Agree.bind (check_convolution_agree _ _ _ _ _) ?_
  rintro (_ | _) <;> dsimp only <;>
    agree [window_agree _ _ _ _ _, Tensor.get_item_agree _ _, Tensor.write_agree _ _ _]

theorem convolution_bias_relu_agree (x k c : Tensor F) (s : UInt32) (r : Tensor F) (ch : UInt32) :
    Agree (convolution_bias_relu .debug x k c s r ch) (convolution_bias_relu .release x k c s r ch) := by
  unfold convolution_bias_relu
  refine Agree.bind (check_convolution_agree _ _ _ _ _) ?_
  rintro (_ | _) <;> dsimp only <;>
    agree [window_agree _ _ _ _ _, Tensor.get_item_agree _ _, Tensor.write_agree _ _ _]

theorem backprop_start_agree (a k s : UInt32) :
    Agree (backprop_start .debug a k s) (backprop_start .release a k s) := by
  unfold backprop_start; agree

theorem backprop_stop_agree (a k s : UInt32) :
    Agree (backprop_stop .debug a k s) (backprop_stop .release a k s) := by
  unfold backprop_stop; agree

theorem backprop_outgoing_agree (g : Tensor F) (ks : List (Tensor F)) (s : UInt32) (o : Tensor F) :
    Agree (convolution_backprop_outgoing_gradient .debug g ks s o)
      (convolution_backprop_outgoing_gradient .release g ks s o) := by
  unfold convolution_backprop_outgoing_gradient
  agree [check_convolution_agree _ _ _ _ _, backprop_start_agree _ _ _, backprop_stop_agree _ _ _,
    Tensor.get_data_index_agree _ _, Tensor.write_agree _ _ _]

theorem backprop_kernel_agree (g x : Tensor F) (s c : UInt32) (k : Tensor F) :
    Agree (convolution_backprop_kernel .debug g x s c k)
      (convolution_backprop_kernel .release g x s c k) := by
  unfold convolution_backprop_kernel
  refine Agree.bind (check_convolution_agree _ _ _ _ _) ?_
  rintro (_ | _) <;> dsimp only <;> agree [Tensor.get_data_index_agree _ _, Tensor.write_agree _ _ _]

end Convolution

section Layers

variable {F : Type} [F32Ops F]

namespace FullyConnectedLayer

theorem update_tensors_agree (l : FullyConnectedLayer F) :
    Agree (l.update_tensors .debug) (l.update_tensors .release) := by
  unfold update_tensors
  cases l.run_state <;> dsimp only <;> agree [Tensor.empty_agree, Tensor.new_agree _]

theorem empty_agree : Agree (empty (F := F) .debug) (empty .release) := by
  unfold empty; agree [Tensor.empty_agree]

theorem fill_from_state_agree (l : FullyConnectedLayer F) (w c : Tensor F) (s : String) :
    Agree (l.fill_from_state .debug w c s) (l.fill_from_state .release w c s) := by
  unfold fill_from_state; dsimp only; agree [update_tensors_agree _]

theorem new_agree (i o : UInt32) (s : String) :
    Agree (new (F := F) .debug i o s) (new .release i o s) := by
  unfold new; agree [empty_agree, Tensor.new_agree _, fill_from_state_agree _ _ _ _]

theorem load_data_agree [F32Bits F] (l : FullyConnectedLayer F) (m : HMap FCKey) :
    Agree (l.load_from_serialized_data .debug m) (l.load_from_serialized_data .release m) := by
  unfold load_from_serialized_data; agree [fill_from_state_agree _ _ _ _]

theorem forward_agree (l : FullyConnectedLayer F) (x y : Tensor F) :
    Agree (l.forward .debug x y) (l.forward .release x y) := by
  unfold forward
  cases l.run_state <;> dsimp only <;>
    agree [Tensor.add_relu_agree _ _ _ _, Tensor.matrix_multiply_agree _ _ _]

theorem backward_agree (l : FullyConnectedLayer F) (x y g o : Tensor F) :
    Agree (l.backward .debug x y g o) (l.backward .release x y g o) := by
  unfold backward; dsimp only
  agree [Tensor.transpose_first_agree _ _ _, Tensor.transpose_second_agree _ _ _]

theorem load_agree [F32Bits F] (l : FullyConnectedLayer F) (s : SerializedLayer) :
    Agree (l.load_from_serialized .debug s) (l.load_from_serialized .release s) := by
  unfold load_from_serialized
  cases s <;> dsimp only <;> agree [load_data_agree _ _]

end FullyConnectedLayer

namespace MaxPoolLayer

theorem update_tensors_agree (l : MaxPoolLayer) :
    Agree (l.update_tensors .debug) (l.update_tensors .release) := by
  unfold update_tensors
  cases l.run_state <;> dsimp only <;> agree [TensorShape.total_size_agree _]

theorem fill_from_state_agree (l : MaxPoolLayer) (i m : TensorShape) (s : UInt32) (n : String) :
    Agree (l.fill_from_state .debug i m s n) (l.fill_from_state .release i m s n) := by
  unfold fill_from_state; agree [Tensor.fit_agree _ _ _, Tensor.dim_fit_agree _ _ _]

theorem new_agree (m i : TensorShape) (s : UInt32) (n : String) :
    Agree (new .debug m i s n) (new .release m i s n) := by
  unfold new; agree [fill_from_state_agree _ _ _ _ _]

theorem load_data_agree (l : MaxPoolLayer) (m : HMap MPKey) :
    Agree (l.load_from_serialized_data .debug m) (l.load_from_serialized_data .release m) := by
  unfold load_from_serialized_data; agree [fill_from_state_agree _ _ _ _ _]

theorem forward_agree (l : MaxPoolLayer) (x y : Tensor F) :
    Agree (l.forward .debug x y) (l.forward .release x y) := by
  unfold forward
  cases l.run_state <;> dsimp only <;>
    agree [Tensor.max_pool_agree _ _ _ _, Tensor.track_origin_agree _ _ _ _ _]

theorem backward_agree (l : MaxPoolLayer) (x y g o : Tensor F) :
    Agree (l.backward .debug x y g o) (l.backward .release x y g o) := by
  unfold backward; agree [Tensor.add_from_index_list_agree _ _ _]

theorem load_agree (l : MaxPoolLayer) (s : SerializedLayer) :
    Agree (l.load_from_serialized .debug s) (l.load_from_serialized .release s) := by
  unfold load_from_serialized
  cases s <;> dsimp only <;> agree [load_data_agree _ _]

end MaxPoolLayer

namespace SoftmaxLayer

theorem update_tensors_agree (l : SoftmaxLayer F) :
    Agree (l.update_tensors .debug) (l.update_tensors .release) := by
  unfold update_tensors
  cases l.run_state <;> dsimp only <;> agree [Tensor.empty_agree, Tensor.new_agree _]

theorem empty_agree : Agree (empty (F := F) .debug) (empty .release) := by
  unfold empty; agree [Tensor.empty_agree]

theorem fill_from_state_agree (l : SoftmaxLayer F) (s : TensorShape) (n : String) :
    Agree (l.fill_from_state .debug s n) (l.fill_from_state .release s n) := by
  unfold fill_from_state; agree [update_tensors_agree _]

theorem new_agree (s : TensorShape) (n : String) :
    Agree (new (F := F) .debug s n) (new .release s n) := by
  unfold new; agree [empty_agree, fill_from_state_agree _ _ _]

theorem forward_agree (l : SoftmaxLayer F) (x y : Tensor F) :
    Agree (l.forward .debug x y) (l.forward .release x y) := Agree.rfl

theorem backward_agree (l : SoftmaxLayer F) (x y g o : Tensor F) :
    Agree (l.backward .debug x y g o) (l.backward .release x y g o) := by
  unfold backward
  agree [Tensor.transpose_first_agree _ _ _, Tensor.matrix_multiply_agree _ _ _]

omit [F32Ops F] in
theorem load_agree (l : SoftmaxLayer F) (s : SerializedLayer) :
    Agree (l.load_from_serialized .debug s) (l.load_from_serialized .release s) := Agree.rfl

end SoftmaxLayer

namespace ConvolutionalLayer

theorem update_tensors_agree (l : ConvolutionalLayer F) :
    Agree (l.update_tensors .debug) (l.update_tensors .release) := by
  unfold update_tensors
  cases l.run_state <;> dsimp only <;> agree [Tensor.empty_agree, Tensor.new_agree _]

theorem empty_agree : Agree (empty (F := F) .debug) (empty .release) := by
  unfold empty; agree [Tensor.empty_agree]

omit [F32Ops F] in
theorem fill_from_state_agree (l : ConvolutionalLayer F) (ks bs : List (Tensor F)) (i : TensorShape)
    (s : UInt32) (n : String) :
    Agree (l.fill_from_state .debug ks bs i s n) (l.fill_from_state .release ks bs i s n) := by
  unfold fill_from_state
  cases ks <;> dsimp only <;> agree [Tensor.fit_agree _ _ _, Tensor.dim_fit_agree _ _ _]

theorem new_agree (k i : TensorShape) (s d : UInt32) (n : String) :
    Agree (new (F := F) .debug k i s d n) (new .release k i s d n) := by
  unfold new; agree [empty_agree, Tensor.new_agree _, fill_from_state_agree _ _ _ _ _ _]

omit [F32Ops F] in
theorem load_data_agree [F32Bits F] (l : ConvolutionalLayer F) (m : HMap ConvKey) :
    Agree (l.load_from_serialized_data .debug m) (l.load_from_serialized_data .release m) := by
  unfold load_from_serialized_data; agree [fill_from_state_agree _ _ _ _ _ _]

theorem forward_agree (l : ConvolutionalLayer F) (x y : Tensor F) :
    Agree (l.forward .debug x y) (l.forward .release x y) := by
  unfold forward
  cases l.run_state <;> dsimp only <;>
    agree [convolution_bias_agree _ _ _ _ _ _, convolution_bias_relu_agree _ _ _ _ _ _]

theorem backward_agree (l : ConvolutionalLayer F) (x y g o : Tensor F) :
    Agree (l.backward .debug x y g o) (l.backward .release x y g o) := by
  unfold backward; dsimp only
  agree [backprop_kernel_agree _ _ _ _ _, backprop_outgoing_agree _ _ _ _]

omit [F32Ops F] in
theorem load_agree [F32Bits F] (l : ConvolutionalLayer F) (s : SerializedLayer) :
    Agree (l.load_from_serialized .debug s) (l.load_from_serialized .release s) := by
  unfold load_from_serialized
  cases s <;> dsimp only <;> agree [load_data_agree _ _]

end ConvolutionalLayer

namespace AnyLayer

theorem forward_agree (l : AnyLayer F) (x y : Tensor F) :
    Agree (l.forward .debug x y) (l.forward .release x y) := by
  cases l <;> unfold forward rewrap <;> dsimp only <;>
    agree [ConvolutionalLayer.forward_agree _ _ _, FullyConnectedLayer.forward_agree _ _ _,
      MaxPoolLayer.forward_agree _ _ _, SoftmaxLayer.forward_agree _ _ _]

theorem backward_agree (l : AnyLayer F) (x y g o : Tensor F) :
    Agree (l.backward .debug x y g o) (l.backward .release x y g o) := by
  cases l <;> unfold backward rewrap <;> dsimp only <;>
    agree [ConvolutionalLayer.backward_agree _ _ _ _ _, FullyConnectedLayer.backward_agree _ _ _ _ _,
      MaxPoolLayer.backward_agree _ _ _ _ _, SoftmaxLayer.backward_agree _ _ _ _ _]

theorem switch_to_training_agree (l : AnyLayer F) :
    Agree (l.switch_to_training .debug) (l.switch_to_training .release) := by
  cases l <;> unfold switch_to_training <;> dsimp only <;>
    agree [ConvolutionalLayer.update_tensors_agree _, FullyConnectedLayer.update_tensors_agree _,
      MaxPoolLayer.update_tensors_agree _, SoftmaxLayer.update_tensors_agree _] <;>
    first
      | exact ConvolutionalLayer.update_tensors_agree _
      | exact FullyConnectedLayer.update_tensors_agree _
      | exact MaxPoolLayer.update_tensors_agree _
      | exact SoftmaxLayer.update_tensors_agree _

theorem switch_to_inference_agree (l : AnyLayer F) :
    Agree (l.switch_to_inference .debug) (l.switch_to_inference .release) := by
  cases l <;> unfold switch_to_inference <;> dsimp only <;> agree <;>
    first
      | exact ConvolutionalLayer.update_tensors_agree _
      | exact FullyConnectedLayer.update_tensors_agree _
      | exact MaxPoolLayer.update_tensors_agree _
      | exact SoftmaxLayer.update_tensors_agree _

theorem load_agree [F32Bits F] (l : AnyLayer F) (s : SerializedLayer) :
    Agree (l.load_from_serialized .debug s) (l.load_from_serialized .release s) := by
  cases l <;> unfold load_from_serialized <;> dsimp only <;>
    agree [ConvolutionalLayer.load_agree _ _, FullyConnectedLayer.load_agree _ _,
      MaxPoolLayer.load_agree _ _, SoftmaxLayer.load_agree _ _]

end AnyLayer

end Layers

/-- the methods of the layers behave the same in debug and release builds, up to overflow panics -/
structure LayersAgree (F L : Type) [LayerOps F L] : Prop where
  forward (l : L) (x y : Tensor F) :
    Agree (LayerOps.forward .debug l x y) (LayerOps.forward .release l x y)
  backward (l : L) (x y g o : Tensor F) :
    Agree (LayerOps.backward .debug l x y g o) (LayerOps.backward .release l x y g o)
  training (l : L) :
    Agree (LayerOps.switch_to_training .debug l) (LayerOps.switch_to_training .release l)
  inference (l : L) :
    Agree (LayerOps.switch_to_inference .debug l) (LayerOps.switch_to_inference .release l)

theorem AnyLayer.agree {F : Type} [F32Ops F] : LayersAgree F (AnyLayer F) :=
  ⟨AnyLayer.forward_agree, AnyLayer.backward_agree, AnyLayer.switch_to_training_agree,
    AnyLayer.switch_to_inference_agree⟩

namespace Network

variable {F : Type} [F32Ops F] {L : Type} [LayerOps F L] (hL : LayersAgree F L)

include hL

theorem add_layer_agree (n : Network F L) (l : L) :
    Agree (n.add_layer .debug l) (n.add_layer .release l) := by
  unfold add_layer enter_mode
  refine Agree.bind ?_ fun l => ?_
  · cases n.run_state
    · exact hL.inference l
    · exact hL.training l
  · cases n.layers.getLast? <;> dsimp only <;> agree [Tensor.new_agree _]

theorem switch_to_training_agree (n : Network F L) :
    Agree (n.switch_to_training .debug) (n.switch_to_training .release) := by
  unfold switch_to_training
  refine Agree.bind (Agree.mapM (fun l => hL.training l) _) fun ls => ?_
  exact Agree.bind (Agree.mapM (fun t => Tensor.new_agree _) _) fun _ => Agree.rfl

omit [F32Ops F] in
theorem switch_to_inference_agree (n : Network F L) :
    Agree (n.switch_to_inference .debug) (n.switch_to_inference .release) := by
  unfold switch_to_inference
  exact Agree.bind (Agree.mapM (fun l => hL.inference l) _) fun _ => Agree.rfl

omit [F32Ops F] in
theorem infer_step_agree (s : List L × List (Tensor F)) (i : Nat) :
    Agree (infer_step .debug s i) (infer_step .release s i) := by
  unfold infer_step; dsimp only
  split_ifs
  · exact Agree.rfl
  · refine Agree.bind Agree.rfl fun l => ?_
    cases s.2[i]? <;> cases s.2[i + 1]? <;> dsimp only
    all_goals first | exact Agree.rfl | exact Agree.bind (hL.forward _ _ _) fun _ => Agree.rfl

omit [F32Ops F] in
theorem infer_agree (n : Network F L) (x : Tensor F) :
    Agree (n.infer .debug x) (n.infer .release x) := by
  unfold infer; agree [infer_step_agree hL _ _]

omit [F32Ops F] in
theorem backward_step_agree (st : List (Tensor F)) (s : List L × List (Tensor F)) (i : Nat) :
    Agree (backward_step .debug st s i) (backward_step .release st s i) := by
  unfold backward_step; dsimp only
  split_ifs
  · exact Agree.rfl
  · refine Agree.bind Agree.rfl fun l => ?_
    cases s.2[i + 1]? <;> cases s.2[i]? <;> dsimp only
    all_goals first
      | exact Agree.rfl
      | exact Agree.bind Agree.rfl fun _ => Agree.bind Agree.rfl fun _ =>
          Agree.bind (hL.backward _ _ _ _ _) fun _ => Agree.rfl

omit [F32Ops F] in
theorem backward_agree (n : Network F L) (g : Tensor F) :
    Agree (n.backward .debug g) (n.backward .release g) := by
  unfold backward; agree [backward_step_agree hL _ _ _]

end Network

namespace Network

variable {F : Type} [F32Ops F]

theorem add_to_network_agree [F32Bits F] (s : SerializedLayer) (n : Network F (AnyLayer F)) :
    Agree (s.add_to_network .debug n) (s.add_to_network .release n) := by
  cases s <;> unfold SerializedLayer.add_to_network <;> dsimp only <;>
    agree [ConvolutionalLayer.empty_agree, FullyConnectedLayer.empty_agree, SoftmaxLayer.empty_agree,
      ConvolutionalLayer.load_agree _ _, FullyConnectedLayer.load_agree _ _,
      MaxPoolLayer.load_agree _ _, SoftmaxLayer.load_agree _ _, add_layer_agree AnyLayer.agree _ _]

theorem load_from_file_agree [F32Bits F] (n : Network F (AnyLayer F)) (fs : FS) (f : String) :
    Agree (n.load_from_file .debug fs f) (n.load_from_file .release fs f) := by
  unfold load_from_file
  cases fs f with
  | none => exact Agree.rfl
  | some bs =>
    dsimp only
    cases deserialize decSerializedNetwork bs with
    | none => exact Agree.rfl
    | some sn => exact Agree.forListE fun s n => add_to_network_agree s n

end Network

end Rusty
