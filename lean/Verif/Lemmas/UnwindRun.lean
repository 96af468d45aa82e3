import Verif.Model.UnwindRun
import Verif.Lemmas.Unwind

/-! # Helper lemmas: the model of panics in the middle of calculations -/

namespace Rusty

open F32Ops Unwind Spec

namespace Unwind

variable {σ τ ι α : Type}

theorem forget_zoom (get : σ → τ) (set : τ → σ → σ) (m : Unwind τ α) (s : σ) :
    forget (zoom get set m) s = forget m (get s) >>= fun p => .ok (p.1, set p.2 s) := by
  unfold forget zoom
  rcases m (get s) with ⟨r, t⟩
  cases r <;> rfl

theorem forget_onOut (m : Unwind τ α) (s : σ × τ) :
    forget (onOut m) s = forget m s.2 >>= fun p => .ok (p.1, (s.1, p.2)) := forget_zoom _ _ m s

theorem forget_loop (xs : List ι) (body : ι → Unwind σ Unit) (body' : ι → σ → Exec σ)
    (h : ∀ i s, forget (body i) s = body' i s >>= fun s' => .ok ((), s')) (s : σ) :
    forget (loop xs () fun i _ => body i) s =
      xs.foldlM (fun s i => body' i s) s >>= fun s' => .ok ((), s') := by
  induction xs generalizing s with
  | nil => rfl
  | cons i is ih =>
    rw [loop, forget_bind, h, List.foldlM_cons]
    cases body' i s with
    | error p => rfl
    | ok s' => exact ih s'

theorem forget_for (lo hi : UInt32) {body : UInt32 → Unwind σ Unit} (body' : UInt32 → σ → Exec σ)
    (h : ∀ i s, forget (body i) s = body' i s >>= fun s' => .ok ((), s')) (s : σ) :
    forget (for_u lo hi body) s = forRange lo hi s body' >>= fun s' => .ok ((), s') := by
  unfold for_u forRange
  rw [forget_loop _ _ body' h, List.foldlM_map]

theorem forget_try (xs : List ι) {body : ι → Unwind σ Res} (body' : ι → σ → Exec (Res × σ))
    (h : ∀ i s, forget (body i) s = body' i s) (s : σ) :
    forget (try_u xs body) s = forListE xs s body' := by
  induction xs generalizing s with
  | nil => rfl
  | cons i is ih =>
    rw [try_u, forget_bind, h, forListE]
    cases body' i s with
    | error p => rfl
    | ok q =>
      obtain ⟨r, s'⟩ := q
      cases r with
      | error e => rfl
      | ok u => exact ih s'

/-! ## What every step keeps -/

theorem Keeps.loop {P : σ → Prop} (xs : List ι) (a : α) {body : ι → α → Unwind σ α}
    (h : ∀ i a, Keeps P (body i a)) : Keeps P (loop xs a body) := by
  induction xs generalizing a with
  | nil => exact Keeps.pure P a
  | cons i is ih => exact Keeps.bind (h i a) fun a' => ih a'

theorem Keeps.for_u {P : σ → Prop} (lo hi : UInt32) {body : UInt32 → Unwind σ Unit}
    (h : ∀ i, Keeps P (body i)) : Keeps P (for_u lo hi body) := Keeps.loop _ _ fun i _ => h i

theorem Keeps.try_u {P : σ → Prop} (xs : List ι) {body : ι → Unwind σ Res}
    (h : ∀ i, Keeps P (body i)) : Keeps P (try_u xs body) := by
  induction xs with
  | nil => exact Keeps.pure P _
  | cons i is ih =>
    refine Keeps.bind (h i) fun r => ?_
    cases r with
    | error e => exact Keeps.pure P _
    | ok u => exact ih

theorem Keeps.zoom {P : σ → Prop} {Q : τ → Prop} {get : σ → τ} {set : τ → σ → σ} {m : Unwind τ α}
    (hm : Keeps Q m) (h1 : ∀ s, P s → Q (get s)) (h2 : ∀ s t, P s → Q t → P (set t s)) :
    Keeps P (zoom get set m) := fun s hs => h2 s _ hs (hm _ (h1 s hs))

/-- what was computed from the object may be used in the next step -/
theorem Keeps.use {β : Type} {P : σ → Prop} {x : σ → Exec α} {f : α → Unwind σ β}
    (h : ∀ s a, P s → x s = .ok a → P (f a s).2) : Keeps P (Unwind.eval x >>= f) := by
  intro s hs
  rw [bind_apply]
  unfold Unwind.eval
  rcases e : x s with p | a
  · exact hs
  · exact h s a hs e

theorem Keeps.ite {P : σ → Prop} {c : Prop} [Decidable c] {m m' : Unwind σ α} (h : Keeps P m)
    (h' : Keeps P m') : Keeps P (if c then m else m') := by
  split
  · exact h
  · exact h'

end Unwind

variable {F : Type} [F32Ops F]

/-! ## Tensors: the results are those of the plain model -/

namespace Tensor

omit [F32Ops F] in
theorem write_agrees (b : Build) (ix : TensorIndex) (v : F) (t : Tensor F) :
    forget (write_u b ix v) t = t.write b ix v >>= fun t' => .ok ((), t') := by
  unfold write_u write
  simp only [forget_bind, forget_eval, forget_assign, exec_bind_assoc, ok_bind, exec_pure]

omit [F32Ops F] in
theorem set_item_agrees (b : Build) (ix : TensorIndex) (v : F) (t : Tensor F) :
    forget (set_item_u b ix v) t = t.set_item b ix v >>= fun t' => .ok ((), t') := by
  unfold set_item_u set_item
  simp only [forget_bind, forget_eval, ok_bind]
  split
  · exact write_agrees b ix v t
  · rfl

omit [F32Ops F] in
theorem write_all_agrees (b : Build) (s : TensorShape) (value : UInt32 → UInt32 → UInt32 → Exec F)
    (t : Tensor F) :
    forget (write_all_u b s value) t =
      (forRange 0 s.dk t fun k r => forRange 0 s.dj r fun j r => forRange 0 s.di r fun i r => do
        let v ← value i j k
        r.write b ⟨i, j, k⟩ v) >>= fun t' => .ok ((), t') := by
  unfold write_all_u
  refine forget_for _ _ _ (fun k t => ?_) t
  refine forget_for _ _ _ (fun j t => ?_) t
  refine forget_for _ _ _ (fun i t => ?_) t
  simp only [forget_bind, forget_eval, exec_bind_assoc, ok_bind, write_agrees]

theorem add_from_index_list_agrees (b : Build) (t1 t2 : Tensor F) (l : List UInt32) :
    forget (add_from_index_list_u b t1 l) t2 = add_from_index_list b t1 t2 l := by
  unfold add_from_index_list_u add_from_index_list
  simp only [forget_bind, forget_eval, exec_bind_assoc, ok_bind]
  congr 1
  funext n1
  split
  · rfl
  simp only [forget_bind, forget_eval, exec_bind_assoc, ok_bind]
  congr 1
  funext n2
  refine forget_try _ _ (fun e t => ?_) t2
  obtain ⟨x, y⟩ := e
  simp only
  split
  · rfl
  · simp only [forget_bind, forget_eval, forget_assign, forget_pure, exec_bind_assoc, ok_bind, exec_pure]

omit [F32Ops F] in
theorem transpose_agrees (b : Build) (input output : Tensor F) :
    forget (transpose_ij_u b input) output = transpose_ij b input output := by
  unfold transpose_ij_u transpose_ij
  simp only [forget_bind, forget_eval, ok_bind]
  split
  · rfl
  split
  · rfl
  split
  · rfl
  simp only [forget_bind, write_all_agrees, exec_bind_assoc, ok_bind, forget_pure, exec_pure]

theorem mm_first_agrees (b : Build) (t1 t2 r : Tensor F) :
    forget (matrix_multiply_transpose_first_u b t1 t2) r = matrix_multiply_transpose_first b t1 t2 r := by
  unfold matrix_multiply_transpose_first_u matrix_multiply_transpose_first
  simp only [forget_bind, forget_eval, ok_bind]
  split
  · rfl
  simp only [forget_bind, write_all_agrees, exec_bind_assoc, ok_bind, forget_pure, exec_pure]

theorem mm_second_agrees (b : Build) (t1 t2 r : Tensor F) :
    forget (matrix_multiply_transpose_second_u b t1 t2) r = matrix_multiply_transpose_second b t1 t2 r := by
  unfold matrix_multiply_transpose_second_u matrix_multiply_transpose_second
  simp only [forget_bind, forget_eval, ok_bind]
  split
  · rfl
  simp only [forget_bind, write_all_agrees, exec_bind_assoc, ok_bind, forget_pure, exec_pure]

theorem mm_agrees (b : Build) (t1 t2 r : Tensor F) :
    forget (matrix_multiply_u b t1 t2) r = matrix_multiply b t1 t2 r >>= fun t' => .ok ((), t') := by
  unfold matrix_multiply_u matrix_multiply
  simp only [forget_bind, forget_eval, ok_bind]
  split
  · rw [write_all_agrees]
  · rfl

theorem mm_relu_agrees (b : Build) (x w bi r : Tensor F) :
    forget (matrix_multiply_add_relu_u b x w bi) r =
      matrix_multiply_add_relu b x w bi r >>= fun t' => .ok ((), t') := by
  unfold matrix_multiply_add_relu_u matrix_multiply_add_relu
  simp only [forget_bind, forget_eval, ok_bind]
  split
  · split
    · rw [write_all_agrees]
      simp only [exec_bind_assoc, ok_bind, exec_pure]
    · rfl
  · rfl

theorem max_pool_agrees (b : Build) (image : Tensor F) (mask : TensorShape) (stride : UInt32) (r : Tensor F) :
    forget (max_pool_u b image mask stride) r = max_pool b image mask stride r >>= fun t' => .ok ((), t') := by
  unfold max_pool_u max_pool
  simp only [forget_bind, forget_eval, exec_bind_assoc, ok_bind]
  congr 1
  funext ok
  split
  · refine forget_for _ _ _ (fun k t => ?_) r
    refine forget_for _ _ _ (fun j t => ?_) t
    refine forget_for _ _ _ (fun i t => ?_) t
    simp only [forget_bind, forget_eval, exec_bind_assoc, ok_bind, set_item_agrees]
  · rfl

theorem softmax_agrees (x r : Tensor F) :
    forget (softmax_u x) r = softmax x r >>= fun t' => .ok ((), t') := by
  have h : ∀ (l : List Nat) (sum : F) (t : Tensor F),
      forget (loop l sum fun i sum => do
        let y ← eval fun _ => vget x.data i
        let d ← eval fun o => vset o.data i (exp y)
        assign fun o => { o with data := d }
        pure (F32Ops.add sum (exp y))) t =
      (l.foldlM (fun (p : List F × F) i => do
        let y ← vget x.data i
        let out ← vset p.1 i (exp y)
        pure (out, F32Ops.add p.2 (exp y))) (t.data, sum)) >>= fun p => .ok (p.2, { t with data := p.1 }) := by
    intro l
    induction l with
    | nil => intro sum t; rfl
    | cons i is ih =>
      intro sum t
      rw [loop, forget_bind, List.foldlM_cons]
      simp only [forget_bind, forget_eval, forget_assign, forget_pure, exec_bind_assoc, ok_bind, exec_pure]
      congr 1
      funext y
      congr 1
      funext d
      exact ih _ _
  unfold softmax_u softmax
  simp only [forget_bind, forget_eval, ok_bind]
  split
  · simp only [forget_bind, h, exec_bind_assoc, ok_bind, forget_assign, exec_pure, forNat]
  · rfl

theorem track_agrees (b : Build) (image : Tensor F) (mask : TensorShape) (stride : UInt32) (r : Tensor F)
    (o : List UInt32) :
    forget (max_pool_track_origin_u b image mask stride) (r, o) =
      max_pool_track_origin b image mask stride r o := by
  unfold max_pool_track_origin_u max_pool_track_origin
  simp only [forget_bind, forget_eval, exec_bind_assoc, ok_bind]
  congr 1
  funext ok
  split
  · rfl
  simp only [forget_bind, forget_eval, exec_bind_assoc, ok_bind]
  congr 1
  funext total
  split
  · rfl
  rw [forget_bind, forget_for 0 r.shape.dk (fun k (p : Tensor F × List UInt32) =>
      forRange 0 r.shape.dj (p.1, p.2) fun j p =>
          forRange 0 r.shape.di (p.1, p.2) fun i p => do
            let output_index ← p.1.get_data_index b ⟨i, j, k⟩
            let q ←
              forRange 0 mask.dj ((negInf : F), (0 : UInt32)) fun jj (m, oi) =>
                forRange 0 mask.di (m, oi) fun ii (m, oi) => do
                  let i0 ← mulU b i stride
                  let ix_i ← addU b i0 ii
                  let j0 ← mulU b j stride
                  let ix_j ← addU b j0 jj
                  let current_item ← image.get_item b ⟨ix_i, ix_j, k⟩
                  if gt current_item m then do
                    let id ← image.get_data_index b ⟨ix_i, ix_j, k⟩
                    pure (current_item, id)
                  else pure (m, oi)
            let r ← p.1.set_item b ⟨i, j, k⟩ q.1
            let o ← vset p.2 output_index.toNat q.2
            pure (r, o)) (fun k s => ?_) (r, o)]
  · simp only [exec_bind_assoc, ok_bind, forget_pure]
    rfl
  refine forget_for _ _ _ (fun j t => ?_) s
  refine forget_for _ _ _ (fun i t => ?_) t
  simp only [forget_bind, forget_eval, exec_bind_assoc, ok_bind, forget_zoom, set_item_agrees, forget_assign,
    exec_pure]

end Tensor

open Tensor

/-! ## Convolution -/

theorem conv_bias_agrees (b : Build) (x k bi : Tensor F) (st c : UInt32) (r : Tensor F) :
    forget (convolution_bias_u b x k bi st c) r = convolution_bias b x k bi st r c := by
  unfold convolution_bias_u convolution_bias
  simp only [forget_bind, forget_eval, exec_bind_assoc, ok_bind]
  congr 1
  funext chk
  cases chk with
  | error e => rfl
  | ok u =>
    simp only
    split
    · rfl
    simp only [forget_bind, forget_eval, exec_bind_assoc, ok_bind]
    congr 1
    funext v
    rw [forget_for 0 r.shape.dj (fun j t => forRange 0 r.shape.di t fun i t => do
      let acc ← convolution_window b x k st i j
      t.write b ⟨i, j, c⟩ (F32Ops.add acc v)) (fun j t => ?_) r]
    · simp only [exec_bind_assoc, ok_bind, forget_pure]
      rfl
    refine forget_for _ _ _ (fun i t => ?_) t
    simp only [forget_bind, forget_eval, exec_bind_assoc, ok_bind, write_agrees]

theorem conv_relu_agrees (b : Build) (x k bi : Tensor F) (st c : UInt32) (r : Tensor F) :
    forget (convolution_bias_relu_u b x k bi st c) r = convolution_bias_relu b x k bi st r c := by
  unfold convolution_bias_relu_u convolution_bias_relu
  simp only [forget_bind, forget_eval, exec_bind_assoc, ok_bind]
  congr 1
  funext chk
  cases chk with
  | error e => rfl
  | ok u =>
    simp only
    split
    · rfl
    simp only [forget_bind, forget_eval, exec_bind_assoc, ok_bind]
    congr 1
    funext v
    rw [forget_for 0 r.shape.dj (fun j t => forRange 0 r.shape.di t fun i t => do
      let acc ← convolution_window b x k st i j
      t.write b ⟨i, j, c⟩ (fmax (F32Ops.add acc v) zero)) (fun j t => ?_) r]
    · simp only [exec_bind_assoc, ok_bind, forget_pure]
      rfl
    refine forget_for _ _ _ (fun i t => ?_) t
    simp only [forget_bind, forget_eval, exec_bind_assoc, ok_bind, write_agrees]

theorem backprop_outgoing_agrees (b : Build) (g : Tensor F) (ks : List (Tensor F)) (st : UInt32)
    (o : Tensor F) : forget (convolution_backprop_outgoing_gradient_u b g ks st) o =
      convolution_backprop_outgoing_gradient b g ks st o := by
  unfold convolution_backprop_outgoing_gradient_u convolution_backprop_outgoing_gradient
  simp only [forget_bind, forget_eval, exec_bind_assoc, ok_bind]
  congr 1
  funext chk
  obtain ⟨c, u⟩ := chk
  cases c with
  | error e => rfl
  | ok u =>
    simp only
    split
    · rfl
    simp only [forget_bind, write_all_agrees, exec_bind_assoc, ok_bind, forget_pure, exec_pure]

theorem backprop_kernel_agrees (b : Build) (g x : Tensor F) (st c : UInt32) (k : Tensor F) :
    forget (convolution_backprop_kernel_u b g x st c) k = convolution_backprop_kernel b g x st c k := by
  unfold convolution_backprop_kernel_u convolution_backprop_kernel
  simp only [forget_bind, forget_eval, exec_bind_assoc, ok_bind]
  congr 1
  funext chk
  cases chk with
  | error e => rfl
  | ok u =>
    simp only [forget_bind, write_all_agrees, exec_bind_assoc, ok_bind, forget_pure, exec_pure]

/-! ## Layers -/

theorem relu_agrees {L : Type} (mask : L → Tensor F) (set : Tensor F → L → L) (l : L) (o : Tensor F) :
    forget (relu_u mask set) (l, o) = .ok ((relu_self_and_store_mask o (mask l)).1,
      (set (relu_self_and_store_mask o (mask l)).2.2 l, (relu_self_and_store_mask o (mask l)).2.1)) := rfl

theorem fc_forward_agrees (b : Build) (x : Tensor F) (l : FullyConnectedLayer F) (o : Tensor F) :
    forget (FullyConnectedLayer.forward_u b x) (l, o) = l.forward b x o := by
  unfold FullyConnectedLayer.forward_u FullyConnectedLayer.forward
  simp only [forget_bind, forget_eval, ok_bind]
  cases hm : l.run_state <;>
  simp only [hm, forget_bind, forget_onOut, mm_relu_agrees, mm_agrees, exec_bind_assoc, ok_bind, forget_pure,
    forget_assign, relu_agrees] <;> rfl

theorem fc_backward_agrees (b : Build) (x y g : Tensor F) (l : FullyConnectedLayer F) (o : Tensor F) :
    forget (FullyConnectedLayer.backward_u b x y g) (l, o) = l.backward b x y g o := by
  unfold FullyConnectedLayer.backward_u FullyConnectedLayer.backward
  simp only [forget_bind, forget_eval, ok_bind]
  split
  · simp only [forget_bind, forget_eval, forget_zoom, mm_second_agrees, exec_bind_assoc, ok_bind, forget_assign]
    congr 1
    funext p
    obtain ⟨r, t⟩ := p
    cases r with
    | error e => rfl
    | ok u =>
      simp only [forget_bind, forget_eval, forget_assign, forget_onOut, mm_first_agrees, ok_bind]
      congr 1
      funext p
      obtain ⟨r, t⟩ := p
      cases r <;> rfl
  · rfl

theorem mp_forward_agrees (b : Build) (x : Tensor F) (l : MaxPoolLayer) (o : Tensor F) :
    forget (MaxPoolLayer.forward_u b x) (l, o) = l.forward b x o := by
  unfold MaxPoolLayer.forward_u MaxPoolLayer.forward
  simp only [forget_bind, forget_eval, ok_bind]
  cases hm : l.run_state <;>
  simp only [hm, forget_bind, forget_onOut, forget_zoom, max_pool_agrees, track_agrees, exec_bind_assoc, ok_bind,
    forget_pure] <;> rfl

theorem mp_backward_agrees (b : Build) (x y g : Tensor F) (l : MaxPoolLayer) (o : Tensor F) :
    forget (MaxPoolLayer.backward_u b x y g) (l, o) = l.backward b x y g o := by
  unfold MaxPoolLayer.backward_u MaxPoolLayer.backward
  simp only [forget_bind, forget_eval, ok_bind, forget_assign, forget_onOut, add_from_index_list_agrees]
  rfl

theorem sm_forward_agrees (b : Build) (x : Tensor F) (l : SoftmaxLayer F) (o : Tensor F) :
    forget (SoftmaxLayer.forward_u b x) (l, o) = l.forward b x o := by
  unfold SoftmaxLayer.forward_u SoftmaxLayer.forward
  simp only [forget_bind, ok_bind, forget_onOut, softmax_agrees, exec_bind_assoc, forget_pure]
  rfl

theorem sm_backward_agrees (b : Build) (x y g : Tensor F) (l : SoftmaxLayer F) (o : Tensor F) :
    forget (SoftmaxLayer.backward_u b x y g) (l, o) = l.backward b x y g o := by
  unfold SoftmaxLayer.backward_u SoftmaxLayer.backward
  simp only [forget_bind, forget_eval, ok_bind]
  split
  · rfl
  · simp only [forget_bind, forget_zoom, mm_first_agrees, exec_bind_assoc, ok_bind]
    congr 1
    funext p
    obtain ⟨r, t⟩ := p
    cases r with
    | error e => rfl
    | ok u =>
      simp only [forget_bind, forget_eval, forget_assign, forget_zoom, mm_agrees, exec_bind_assoc, ok_bind,
        forget_pure]
      rfl

theorem conv_forward_agrees (b : Build) (x : Tensor F) (l : ConvolutionalLayer F) (o : Tensor F) :
    forget (ConvolutionalLayer.forward_u b x) (l, o) = l.forward b x o := by
  unfold ConvolutionalLayer.forward_u ConvolutionalLayer.forward
  simp only [forget_bind, forget_eval, ok_bind]
  cases hm : l.run_state with
  | Inference =>
    simp only [forget_onOut]
    rw [forget_try _ (fun i out => do
      let kernel ← vget l.kernels i
      let bias ← vget l.biases i
      convolution_bias_relu b x kernel bias l.stride out (UInt32.ofNat i)) (fun i t => ?_)]
    · rfl
    · simp only [forget_bind, forget_eval, exec_bind_assoc, ok_bind, conv_relu_agrees]
  | Training =>
    simp only [forget_bind, forget_onOut]
    rw [forget_try _ (fun i out => do
      let kernel ← vget l.kernels i
      let bias ← vget l.biases i
      convolution_bias b x kernel bias l.stride out (UInt32.ofNat i)) (fun i t => ?_)]
    · simp only [exec_bind_assoc, ok_bind]
      congr 1
      funext p
      obtain ⟨r, t⟩ := p
      cases r with
      | error e => rfl
      | ok u =>
        rw [← hm]
        rfl
    · simp only [forget_bind, forget_eval, exec_bind_assoc, ok_bind, conv_bias_agrees]

theorem forget_zoomAt {τ α : Type} (i : Nat) (m : Unwind τ α) (v : List τ) :
    forget (zoomAt id (fun t _ => t) i m) v = (do
      let x ← vget v i
      let p ← forget m x
      let v' ← vset v i p.2
      pure (p.1, v')) := by
  unfold forget zoomAt vget vset
  simp only [id]
  rcases h : v[i]? with _ | x
  · rfl
  · have hi : i < v.length := (List.getElem?_eq_some_iff.mp h).1
    simp only [ok_bind, hi, if_true]
    rcases m x with ⟨r, t⟩
    cases r <;> rfl

theorem conv_backward_agrees (b : Build) (x y g : Tensor F) (l : ConvolutionalLayer F) (o : Tensor F) :
    forget (ConvolutionalLayer.backward_u b x y g) (l, o) = l.backward b x y g o := by
  unfold ConvolutionalLayer.backward_u ConvolutionalLayer.backward
  simp only [forget_bind, forget_eval, ok_bind, forget_assign, forget_zoom]
  rw [forget_try _ (fun i kg => do
    let k ← vget kg i
    let (r, k) ← convolution_backprop_kernel b g x l.stride (UInt32.ofNat i) k
    let kg ← vset kg i k
    pure (r, kg)) (fun i t => ?_)]
  · simp only [exec_bind_assoc, ok_bind]
    congr 1
    funext p
    obtain ⟨r, t⟩ := p
    cases r with
    | error e => rfl
    | ok u =>
      simp only [forget_onOut, backprop_outgoing_agrees]
      congr 1
      funext p
      obtain ⟨r, t⟩ := p
      cases r <;> rfl
  · simp only [forget_zoomAt, backprop_kernel_agrees]

omit [F32Ops F] in
theorem forget_rewrap {L : Type} (w : L → AnyLayer F) (m : Unwind (L × Tensor F) Res)
    (m' : Unwind (AnyLayer F × Tensor F) Res) (l : L) (o : Tensor F)
    (h : m' (w l, o) = AnyLayer.rewrapRun w (m (l, o))) :
    forget m' (w l, o) = AnyLayer.rewrap w (forget m (l, o)) := by
  unfold forget
  rw [h]
  unfold AnyLayer.rewrapRun
  rcases m (l, o) with ⟨r, l', o'⟩
  cases r <;> rfl

theorem forward_agrees (b : Build) (x : Tensor F) (l : AnyLayer F) (o : Tensor F) :
    forget (AnyLayer.forward_u b x) (l, o) = l.forward b x o := by
  cases l with
  | conv l =>
    rw [forget_rewrap AnyLayer.conv (ConvolutionalLayer.forward_u b x) (AnyLayer.forward_u b x) l o rfl, conv_forward_agrees]
    rfl
  | fc l =>
    rw [forget_rewrap AnyLayer.fc (FullyConnectedLayer.forward_u b x) (AnyLayer.forward_u b x) l o rfl, fc_forward_agrees]
    rfl
  | mp l =>
    rw [forget_rewrap AnyLayer.mp (MaxPoolLayer.forward_u b x) (AnyLayer.forward_u b x) l o rfl, mp_forward_agrees]
    rfl
  | sm l =>
    rw [forget_rewrap AnyLayer.sm (SoftmaxLayer.forward_u b x) (AnyLayer.forward_u b x) l o rfl, sm_forward_agrees]
    rfl

theorem backward_agrees (b : Build) (x y g : Tensor F) (l : AnyLayer F) (o : Tensor F) :
    forget (AnyLayer.backward_u b x y g) (l, o) = l.backward b x y g o := by
  cases l with
  | conv l =>
    rw [forget_rewrap AnyLayer.conv (ConvolutionalLayer.backward_u b x y g) (AnyLayer.backward_u b x y g) l o rfl, conv_backward_agrees]
    rfl
  | fc l =>
    rw [forget_rewrap AnyLayer.fc (FullyConnectedLayer.backward_u b x y g) (AnyLayer.backward_u b x y g) l o rfl, fc_backward_agrees]
    rfl
  | mp l =>
    rw [forget_rewrap AnyLayer.mp (MaxPoolLayer.backward_u b x y g) (AnyLayer.backward_u b x y g) l o rfl, mp_backward_agrees]
    rfl
  | sm l =>
    rw [forget_rewrap AnyLayer.sm (SoftmaxLayer.backward_u b x y g) (AnyLayer.backward_u b x y g) l o rfl, sm_backward_agrees]
    rfl

/-! ## Networks -/

theorem infer_step_agrees (b : Build) (i : Nat) (n : Net F) :
    forget (Network.infer_step_u b i) n =
      Network.infer_step b (n.layers, n.intermediate_states) i >>= fun p =>
        .ok (p.1, { n with layers := p.2.1, intermediate_states := p.2.2 }) := by
  unfold Network.infer_step
  simp only
  split
  · rename_i h
    unfold forget Network.infer_step_u
    rw [if_pos h]
    rfl
  · rename_i h
    unfold vget
    rcases hl : n.layers[i]? with _ | l
    · unfold forget Network.infer_step_u
      rw [if_neg h, hl]
      rfl
    rcases hi : n.intermediate_states[i]? with _ | x
    · unfold forget Network.infer_step_u
      rw [if_neg h]
      simp only [hl, hi]
      rfl
    rcases ho : n.intermediate_states[i + 1]? with _ | o
    · unfold forget Network.infer_step_u
      rw [if_neg h]
      simp only [hl, hi, ho]
      rfl
    have e : Network.infer_step_u b i n = ((AnyLayer.forward_u b x (l, o)).1,
        { n with layers := n.layers.set i (AnyLayer.forward_u b x (l, o)).2.1
                 intermediate_states := n.intermediate_states.set (i + 1) (AnyLayer.forward_u b x (l, o)).2.2 }) := by
      unfold Network.infer_step_u
      rw [if_neg h]
      simp only [hl, hi, ho]
    have h1 : i < n.layers.length := (List.getElem?_eq_some_iff.mp hl).1
    have h2 : i + 1 < n.intermediate_states.length := (List.getElem?_eq_some_iff.mp ho).1
    have hf := forward_agrees b x l o
    change _ = (l.forward b x o >>= _) >>= _
    rw [← hf]
    unfold forget
    rw [e]
    rcases AnyLayer.forward_u b x (l, o) with ⟨r, l', o'⟩
    cases r with
    | error p => rfl
    | ok a =>
      simp only [ok_bind, vset, h1, h2, if_true]
      rfl

theorem backward_step_agrees (b : Build) (i : Nat) (n : Net F) :
    forget (Network.backward_step_u b i) n =
      Network.backward_step b n.intermediate_states (n.layers, n.intermediate_gradients) i >>= fun p =>
        .ok (p.1, { n with layers := p.2.1, intermediate_gradients := p.2.2 }) := by
  unfold Network.backward_step
  simp only
  split
  · rename_i h
    unfold forget Network.backward_step_u
    rw [if_pos h]
    rfl
  · rename_i h
    unfold vget
    rcases hl : n.layers[i]? with _ | l
    · unfold forget Network.backward_step_u
      rw [if_neg h, hl]
      rfl
    rcases hg : n.intermediate_gradients[i + 1]? with _ | g
    · unfold forget Network.backward_step_u
      rw [if_neg h]
      simp only [hl, hg]
      rfl
    rcases ho : n.intermediate_gradients[i]? with _ | o
    · unfold forget Network.backward_step_u
      rw [if_neg h]
      simp only [hl, hg, ho]
      rfl
    rcases hi : n.intermediate_states[i]? with _ | x
    · unfold forget Network.backward_step_u
      rw [if_neg h]
      simp only [hl, hg, ho, hi]
      rfl
    rcases hy : n.intermediate_states[i + 1]? with _ | y
    · unfold forget Network.backward_step_u
      rw [if_neg h]
      simp only [hl, hg, ho, hi, hy]
      rfl
    have e : Network.backward_step_u b i n = ((AnyLayer.backward_u b x y g (l, o)).1,
        { n with layers := n.layers.set i (AnyLayer.backward_u b x y g (l, o)).2.1
                 intermediate_gradients :=
                  n.intermediate_gradients.set i (AnyLayer.backward_u b x y g (l, o)).2.2 }) := by
      unfold Network.backward_step_u
      rw [if_neg h]
      simp only [hl, hg, ho, hi, hy]
    have h1 : i < n.layers.length := (List.getElem?_eq_some_iff.mp hl).1
    have h2 : i < n.intermediate_gradients.length := (List.getElem?_eq_some_iff.mp ho).1
    have hf := backward_agrees b x y g l o
    change _ = (l.backward b x y g o >>= _) >>= _
    rw [← hf]
    unfold forget
    rw [e]
    rcases AnyLayer.backward_u b x y g (l, o) with ⟨r, l', o'⟩
    cases r with
    | error p => rfl
    | ok a =>
      simp only [ok_bind, vset, h1, h2, if_true]
      rfl

theorem infer_agrees (b : Build) (x : Tensor F) (n : Net F) :
    forget (Network.infer_u b x) n = n.infer b x := by
  have key : ∀ (xs : List Nat) (n : Net F), forget (try_u xs fun i => Network.infer_step_u b i) n =
      forListE xs (n.layers, n.intermediate_states) (fun i s => Network.infer_step b s i) >>= fun p =>
        .ok (p.1, { n with layers := p.2.1, intermediate_states := p.2.2 }) := by
    intro xs
    induction xs with
    | nil => intro n; rfl
    | cons i is ih =>
      intro n
      rw [try_u, forget_bind, infer_step_agrees, forListE]
      simp only [exec_bind_assoc, ok_bind]
      congr 1
      funext p
      obtain ⟨r, ls, ss⟩ := p
      cases r with
      | error e => rfl
      | ok u => exact ih _
  unfold Network.infer_u Network.infer
  simp only [forget_bind, forget_eval, ok_bind]
  split
  · rfl
  simp only [forget_bind, forget_eval, ok_bind]
  split
  · rfl
  simp only [forget_bind, forget_eval, forget_assign, exec_bind_assoc, ok_bind, key]
  rfl

theorem net_backward_agrees (b : Build) (g : Tensor F) (n : Net F) :
    forget (Network.backward_u b g) n = n.backward b g := by
  have key : ∀ (xs : List Nat) (n : Net F), forget (try_u xs fun i => Network.backward_step_u b i) n =
      forListE xs (n.layers, n.intermediate_gradients)
        (fun i s => Network.backward_step b n.intermediate_states s i) >>= fun p =>
        .ok (p.1, { n with layers := p.2.1, intermediate_gradients := p.2.2 }) := by
    intro xs
    induction xs with
    | nil => intro n; rfl
    | cons i is ih =>
      intro n
      rw [try_u, forget_bind, backward_step_agrees, forListE]
      simp only [exec_bind_assoc, ok_bind]
      congr 1
      funext p
      obtain ⟨r, ls, ss⟩ := p
      cases r with
      | error e => rfl
      | ok u => exact ih _
  unfold Network.backward_u Network.backward
  simp only [forget_bind, forget_eval, ok_bind]
  split
  · rfl
  simp only [forget_bind, forget_eval, ok_bind]
  split
  · rfl
  simp only [forget_bind, forget_eval, ok_bind]
  split
  · rfl
  simp only [forget_bind, forget_eval, forget_assign, exec_bind_assoc, ok_bind, key]
  rfl

/-! ## What is kept whatever happens -/

namespace Tensor

omit [F32Ops F] in
theorem write_keeps (b : Build) (u : Tensor F) (ix : TensorIndex) (v : F) :
    Keeps (sameLayout · u) (write_u b ix v) :=
  .bind (.eval _ _) fun _ => .use fun _ _ ht hd => ⟨ht.1, ht.2.1, (vset_length _ _ _ _ hd).trans ht.2.2⟩

omit [F32Ops F] in
theorem set_item_keeps (b : Build) (u : Tensor F) (ix : TensorIndex) (v : F) :
    Keeps (sameLayout · u) (set_item_u b ix v) :=
  .bind (.eval _ _) fun _ => .ite (write_keeps b u ix v) (.pure _ _)

omit [F32Ops F] in
theorem write_all_keeps (b : Build) (u : Tensor F) (s : TensorShape)
    (value : UInt32 → UInt32 → UInt32 → Exec F) : Keeps (sameLayout · u) (write_all_u b s value) :=
  .for_u _ _ fun _ => .for_u _ _ fun _ => .for_u _ _ fun _ => .bind (.eval _ _) fun _ => write_keeps _ _ _ _

theorem add_from_index_list_keeps (b : Build) (u t1 : Tensor F) (l : List UInt32) :
    Keeps (sameLayout · u) (add_from_index_list_u b t1 l) :=
  .bind (.eval _ _) fun _ => .ite (.pure _ _) (.bind (.eval _ _) fun _ => .try_u _ fun _ =>
    .ite (.pure _ _) (.bind (.eval _ _) fun _ => .bind (.eval _ _) fun _ => .use fun _ _ ht hd =>
      ⟨ht.1, ht.2.1, (vset_length _ _ _ _ hd).trans ht.2.2⟩))

omit [F32Ops F] in
theorem transpose_keeps (b : Build) (u input : Tensor F) : Keeps (sameLayout · u) (transpose_ij_u b input) :=
  .bind (.eval _ _) fun _ => .ite (.pure _ _) (.ite (.pure _ _) (.ite (.pure _ _)
    (.bind (write_all_keeps _ _ _ _) fun _ => .pure _ _)))

theorem mm_first_keeps (b : Build) (u t1 t2 : Tensor F) :
    Keeps (sameLayout · u) (matrix_multiply_transpose_first_u b t1 t2) :=
  .bind (.eval _ _) fun _ => .ite (.pure _ _) (.bind (write_all_keeps _ _ _ _) fun _ => .pure _ _)

theorem mm_second_keeps (b : Build) (u t1 t2 : Tensor F) :
    Keeps (sameLayout · u) (matrix_multiply_transpose_second_u b t1 t2) :=
  .bind (.eval _ _) fun _ => .ite (.pure _ _) (.bind (write_all_keeps _ _ _ _) fun _ => .pure _ _)

theorem mm_keeps (b : Build) (u t1 t2 : Tensor F) : Keeps (sameLayout · u) (matrix_multiply_u b t1 t2) :=
  .bind (.eval _ _) fun _ => .ite (write_all_keeps _ _ _ _) (.pure _ _)

theorem mm_relu_keeps (b : Build) (u x w bi : Tensor F) :
    Keeps (sameLayout · u) (matrix_multiply_add_relu_u b x w bi) :=
  .bind (.eval _ _) fun _ => .ite (.ite (write_all_keeps _ _ _ _) (.pure _ _)) (.pure _ _)

theorem max_pool_keeps (b : Build) (u image : Tensor F) (mask : TensorShape) (st : UInt32) :
    Keeps (sameLayout · u) (max_pool_u b image mask st) :=
  .bind (.eval _ _) fun _ => .bind (.eval _ _) fun _ => .ite (.for_u _ _ fun _ => .for_u _ _ fun _ =>
    .for_u _ _ fun _ => .bind (.eval _ _) fun _ => set_item_keeps _ _ _ _) (.pure _ _)

theorem softmax_keeps (u x : Tensor F) : Keeps (sameLayout · u) (softmax_u x) :=
  .bind (.eval _ _) fun _ => .ite (.bind (.loop _ _ fun _ _ => .bind (.eval _ _) fun _ =>
    .use fun _ _ ht hd => ⟨ht.1, ht.2.1, (vset_length _ _ _ _ hd).trans ht.2.2⟩)
    fun _ => .assign fun _ hs => ⟨hs.1, hs.2.1, by simpa using hs.2.2⟩) (.pure _ _)

theorem track_keeps (b : Build) (u image : Tensor F) (mask : TensorShape) (st : UInt32) (k : Nat) :
    Keeps (fun s => sameLayout s.1 u ∧ s.2.length = k) (max_pool_track_origin_u b image mask st) := by
  refine .bind (.eval _ _) fun _ => .bind (.eval _ _) fun _ => .ite (.pure _ _) (.bind (.eval _ _) fun _ =>
    .bind (.eval _ _) fun _ => .ite (.pure _ _) (.bind (.for_u _ _ fun _ => .for_u _ _ fun _ =>
    .for_u _ _ fun _ => .bind (.eval _ _) fun _ => .bind (.eval _ _) fun _ =>
    .bind (.zoom (set_item_keeps b u _ _) (fun s hs => hs.1) fun s t hs ht => ⟨ht, hs.2⟩) fun _ =>
    .use fun _ _ ht hd => ⟨ht.1, (vset_length _ _ _ _ hd).trans ht.2⟩)
    fun _ => .pure _ _))

end Tensor

theorem conv_bias_keeps (b : Build) (u x k bi : Tensor F) (st c : UInt32) :
    Keeps (sameLayout · u) (convolution_bias_u b x k bi st c) := by
  refine .bind (.eval _ _) fun _ => .bind (.eval _ _) fun chk => ?_
  cases chk with
  | error e => exact .pure _ _
  | ok _ => exact .ite (.pure _ _) (.bind (.eval _ _) fun _ => .bind (.for_u _ _ fun _ => .for_u _ _ fun _ =>
      .bind (.eval _ _) fun _ => write_keeps _ _ _ _) fun _ => .pure _ _)

theorem conv_relu_keeps (b : Build) (u x k bi : Tensor F) (st c : UInt32) :
    Keeps (sameLayout · u) (convolution_bias_relu_u b x k bi st c) := by
  refine .bind (.eval _ _) fun _ => .bind (.eval _ _) fun chk => ?_
  cases chk with
  | error e => exact .pure _ _
  | ok _ => exact .ite (.pure _ _) (.bind (.eval _ _) fun _ => .bind (.for_u _ _ fun _ => .for_u _ _ fun _ =>
      .bind (.eval _ _) fun _ => write_keeps _ _ _ _) fun _ => .pure _ _)

theorem backprop_outgoing_keeps (b : Build) (u g : Tensor F) (ks : List (Tensor F)) (st : UInt32) :
    Keeps (sameLayout · u) (convolution_backprop_outgoing_gradient_u b g ks st) := by
  refine .bind (.eval _ _) fun _ => .bind (.eval _ _) fun chk => ?_
  obtain ⟨r, _⟩ := chk
  cases r with
  | error e => exact .pure _ _
  | ok _ => exact .ite (.pure _ _) (.bind (write_all_keeps _ _ _ _) fun _ => .pure _ _)

theorem backprop_kernel_keeps (b : Build) (u g x : Tensor F) (st c : UInt32) :
    Keeps (sameLayout · u) (convolution_backprop_kernel_u b g x st c) := by
  refine .bind (.eval _ _) fun _ => .bind (.eval _ _) fun chk => ?_
  cases chk with
  | error e => exact .pure _ _
  | ok _ => exact .bind (write_all_keeps _ _ _ _) fun _ => .pure _ _

/-- the layer has its parameters, its mode and the sizes of its buffers, the other tensor its layout -/
def RunKept {L : Type} (w : L → AnyLayer F) (l : L) (u : Tensor F) (s : L × Tensor F) : Prop :=
  Like (w s.1) (w l) ∧ sameLayout s.2 u

omit [F32Ops F] in
theorem RunKept.onOut {L α : Type} {w : L → AnyLayer F} {l : L} {u : Tensor F} {m : Unwind (Tensor F) α}
    (h : Keeps (sameLayout · u) m) : Keeps (RunKept w l u) (Unwind.onOut m) :=
  .zoom h (fun _ hs => hs.2) fun _ _ hs ht => ⟨hs.1, ht⟩

theorem relu_keeps {L : Type} {w : L → AnyLayer F} {l : L} {u : Tensor F} {mask : L → Tensor F}
    {set : Tensor F → L → L} (h : ∀ t l', Like (w l') (w l) → sameLayout t (mask l') → Like (w (set t l')) (w l)) :
    Keeps (RunKept w l u) (relu_u mask set) := by
  intro s hs
  have hl := relu_layout s.2 (mask s.1)
  exact ⟨h _ _ hs.1 hl.2, sameLayout_trans hl.1 hs.2⟩

theorem fc_forward_keeps (b : Build) (x : Tensor F) (l : FullyConnectedLayer F) (u : Tensor F) :
    Keeps (RunKept .fc l u) (FullyConnectedLayer.forward_u b x) := by
  refine .bind (.eval _ _) fun l1 => ?_
  cases l1.run_state with
  | Inference => exact .bind (.onOut (mm_relu_keeps _ _ _ _ _)) fun _ => .pure _ _
  | Training =>
    exact .bind (.onOut (mm_keeps _ _ _ _)) fun _ => .bind (.assign fun s hs =>
      ⟨hs.1, sameLayout_trans (add_to_self_layout _ _) hs.2⟩) fun _ => relu_keeps fun t l' hl ht =>
      ⟨hl.1, hl.2.1, hl.2.2.1, sameLayout_trans ht hl.2.2.2.1, hl.2.2.2.2⟩

theorem fc_backward_keeps (b : Build) (x y g : Tensor F) (l : FullyConnectedLayer F) (u : Tensor F) :
    Keeps (RunKept .fc l u) (FullyConnectedLayer.backward_u b x y g) := by
  refine .bind (.eval _ _) fun _ => .ite ?_ (.pure _ _)
  refine .bind (.assign fun s ⟨hl, hs⟩ => ⟨⟨hl.1, hl.2.1, hl.2.2.1,
    sameLayout_trans (mul_self_layout _ _) hl.2.2.2.1, hl.2.2.2.2⟩, hs⟩) fun _ => ?_
  refine .bind (.assign fun s ⟨hl, hs⟩ => ⟨⟨hl.1, hl.2.1,
    sameLayout_trans (add_to_self_layout _ _) hl.2.2.1, hl.2.2.2⟩, hs⟩) fun _ => ?_
  refine .bind (.eval _ _) fun mask => .bind (.zoom (mm_second_keeps b l.weights_gradients_intermediate _ _)
    (fun _ hs => hs.1.2.1) fun _ t ⟨hl, hs⟩ ht => ⟨⟨hl.1, ht, hl.2.2⟩, hs⟩) fun r => ?_
  cases r with
  | error e => exact .pure _ _
  | ok _ =>
    exact .bind (.assign fun s ⟨hl, hs⟩ => ⟨⟨sameLayout_trans (add_to_self_layout _ _) hl.1, hl.2⟩, hs⟩) fun _ =>
      .bind (.eval _ _) fun _ => .onOut (mm_first_keeps _ _ _ _)

theorem mp_forward_keeps (b : Build) (x : Tensor F) (l : MaxPoolLayer) (u : Tensor F) :
    Keeps (RunKept .mp l u) (MaxPoolLayer.forward_u b x) := by
  refine .bind (.eval _ _) fun l1 => ?_
  cases l1.run_state with
  | Inference => exact .bind (.onOut (max_pool_keeps _ _ _ _ _)) fun _ => .pure _ _
  | Training =>
    exact .zoom (track_keeps b u x _ _ l.max_pool_origin.length) (fun s hs => ⟨hs.2, hs.1.1⟩)
      fun s t hs ht => ⟨⟨ht.2, hs.1.2⟩, ht.1⟩

theorem mp_backward_keeps (b : Build) (x y g : Tensor F) (l : MaxPoolLayer) (u : Tensor F) :
    Keeps (RunKept .mp l u) (MaxPoolLayer.backward_u b x y g) :=
  .bind (.assign fun _ hs => ⟨hs.1, sameLayout_trans (fill_layout _ _) hs.2⟩) fun _ => .bind (.eval _ _) fun _ =>
    .onOut (add_from_index_list_keeps _ _ _ _)

theorem sm_forward_keeps (b : Build) (x : Tensor F) (l : SoftmaxLayer F) (u : Tensor F) :
    Keeps (RunKept .sm l u) (SoftmaxLayer.forward_u b x) :=
  .bind (.onOut (softmax_keeps _ _)) fun _ => .pure _ _

theorem sm_backward_keeps (b : Build) (x y g : Tensor F) (l : SoftmaxLayer F) (u : Tensor F) :
    Keeps (RunKept .sm l u) (SoftmaxLayer.backward_u b x y g) := by
  refine .bind (.eval _ _) fun _ => .ite (.pure _ _) ?_
  refine .bind (.zoom (mm_first_keeps b l.intermediate1 _ _) (fun s hs => hs.1.1)
    fun s t ⟨hl, hs⟩ ht => ⟨⟨ht, hl.2⟩, hs⟩) fun r => ?_
  cases r with
  | error e => exact .pure _ _
  | ok _ =>
    exact .bind (.assign fun s ⟨hl, hs⟩ => ⟨⟨sameLayout_trans (scale_self_layout _ _) hl.1, hl.2⟩, hs⟩) fun _ =>
      .bind (.eval _ _) fun _ => .bind (.zoom (mm_keeps b l.intermediate2 _ _) (fun s hs => hs.1.2.1)
      fun s t ⟨hl, hs⟩ ht => ⟨⟨hl.1, ht, hl.2.2⟩, hs⟩) fun _ =>
      .bind (.assign fun s hs => ⟨hs.1, sameLayout_trans (mul_layout _ _ _) hs.2⟩) fun _ =>
      .bind (.assign fun s hs => ⟨hs.1, sameLayout_trans (add_to_self_layout _ _) hs.2⟩) fun _ => .pure _ _

theorem conv_forward_keeps (b : Build) (x : Tensor F) (l : ConvolutionalLayer F) (u : Tensor F) :
    Keeps (RunKept .conv l u) (ConvolutionalLayer.forward_u b x) := by
  refine .bind (.eval _ _) fun l1 => ?_
  cases l1.run_state with
  | Inference =>
    exact .onOut (.try_u _ fun _ => .bind (.eval _ _) fun _ => .bind (.eval _ _) fun _ =>
      conv_relu_keeps _ _ _ _ _ _ _)
  | Training =>
    refine .bind (.onOut (.try_u _ fun _ => .bind (.eval _ _) fun _ => .bind (.eval _ _) fun _ =>
      conv_bias_keeps _ _ _ _ _ _ _)) fun r => ?_
    cases r with
    | error e => exact .pure _ _
    | ok _ =>
      exact relu_keeps fun t l' hl ht => ⟨hl.1, hl.2.1, sameLayout_trans ht hl.2.2.1, hl.2.2.2⟩

theorem set_kept {ts us : List (Tensor F)} (h : sameLayouts ts us) {i : Nat} {x y : Tensor F}
    (hx : ts[i]? = some x) (hy : sameLayout y x) : sameLayouts (ts.set i y) us :=
  sameLayouts_set h i y x hx hy

theorem conv_backward_keeps (b : Build) (x y g : Tensor F) (l : ConvolutionalLayer F) (u : Tensor F) :
    Keeps (RunKept .conv l u) (ConvolutionalLayer.backward_u b x y g) := by
  refine .bind (.assign fun s ⟨hl, hs⟩ => ⟨⟨hl.1, hl.2.1, sameLayout_trans (mul_self_layout _ _) hl.2.2.1,
    hl.2.2.2⟩, hs⟩) fun _ => .bind (.eval _ _) fun l1 => ?_
  have hk : ∀ i, Keeps (sameLayouts · l.kernel_gradients) (zoomAt id (fun t _ => t) i
      (convolution_backprop_kernel_u b g x l1.stride (UInt32.ofNat i))) := by
    intro i ts hts
    unfold zoomAt
    simp only [id]
    rcases e : ts[i]? with _ | t
    · exact hts
    · exact set_kept hts e (backprop_kernel_keeps b t g x _ _ t (sameLayout_refl t))
  refine .bind (.zoom (.try_u _ hk) (fun s hs => hs.1.1) fun s t ⟨hl, hs⟩ ht => ⟨⟨ht, hl.2⟩, hs⟩) fun r => ?_
  cases r with
  | error e => exact .pure _ _
  | ok _ => exact .onOut (backprop_outgoing_keeps _ _ _ _ _)

theorem forward_keeps (b : Build) (x : Tensor F) (l : AnyLayer F) (o : Tensor F) :
    Like (AnyLayer.forward_u b x (l, o)).2.1 l ∧ sameLayout (AnyLayer.forward_u b x (l, o)).2.2 o := by
  cases l with
  | conv l => exact conv_forward_keeps b x l o (l, o) ⟨like_refl _, sameLayout_refl _⟩
  | fc l => exact fc_forward_keeps b x l o (l, o) ⟨like_refl _, sameLayout_refl _⟩
  | mp l => exact mp_forward_keeps b x l o (l, o) ⟨like_refl _, sameLayout_refl _⟩
  | sm l => exact sm_forward_keeps b x l o (l, o) ⟨like_refl _, sameLayout_refl _⟩

theorem backward_keeps (b : Build) (x y g : Tensor F) (l : AnyLayer F) (o : Tensor F) :
    Like (AnyLayer.backward_u b x y g (l, o)).2.1 l ∧
      sameLayout (AnyLayer.backward_u b x y g (l, o)).2.2 o := by
  cases l with
  | conv l => exact conv_backward_keeps b x y g l o (l, o) ⟨like_refl _, sameLayout_refl _⟩
  | fc l => exact fc_backward_keeps b x y g l o (l, o) ⟨like_refl _, sameLayout_refl _⟩
  | mp l => exact mp_backward_keeps b x y g l o (l, o) ⟨like_refl _, sameLayout_refl _⟩
  | sm l => exact sm_backward_keeps b x y g l o (l, o) ⟨like_refl _, sameLayout_refl _⟩

theorem eval_ok_bind {σ α β : Type} (f : σ → α) (k : α → Unwind σ β) (s : σ) :
    ((eval fun s => .ok (f s)) >>= k) s = k (f s) s := rfl

theorem assign_bind {σ β : Type} (f : σ → σ) (k : Unit → Unwind σ β) (s : σ) :
    (assign f >>= k) s = k () (f s) := rfl

theorem eval_bind_of {σ α β : Type} {x : σ → Exec α} {a : α} {s : σ} (h : x s = .ok a) (k : α → Unwind σ β) :
    (eval x >>= k) s = k a s := by
  rw [bind_apply]
  unfold eval
  rw [h]

theorem eval_bind_panic {σ α β : Type} {x : σ → Exec α} {p : PanicKind} {s : σ} (h : x s = .error p)
    (k : α → Unwind σ β) : (eval x >>= k) s = (.error p, s) := by
  rw [bind_apply]
  unfold eval
  rw [h]

theorem infer_step_keeps (b : Build) (i : Nat) (n m : Net F) (hl : List.Forall₂ Like n.layers m.layers)
    (hs : sameLayouts n.intermediate_states m.intermediate_states)
    (hg : n.intermediate_gradients = m.intermediate_gradients) (h1 : n.input_shape = m.input_shape)
    (h2 : n.output_shape = m.output_shape) (h3 : n.run_state = m.run_state) :
    let n' := (Network.infer_step_u b i n).2
    List.Forall₂ Like n'.layers m.layers ∧ sameLayouts n'.intermediate_states m.intermediate_states ∧
      n'.intermediate_gradients = m.intermediate_gradients ∧ n'.input_shape = m.input_shape ∧
      n'.output_shape = m.output_shape ∧ n'.run_state = m.run_state := by
  unfold Network.infer_step_u
  split
  · exact ⟨hl, hs, hg, h1, h2, h3⟩
  split
  · exact ⟨hl, hs, hg, h1, h2, h3⟩
  rename_i l el
  split
  · rename_i x o _ eo
    have := forward_keeps b x l o
    exact ⟨forall₂_set (R := Like) (fun _ _ _ => like_trans) hl i l _ el this.1, set_kept hs eo this.2, hg, h1, h2, h3⟩
  · exact ⟨hl, hs, hg, h1, h2, h3⟩

theorem backward_step_keeps (b : Build) (i : Nat) (n m : Net F) (hl : List.Forall₂ Like n.layers m.layers)
    (hs : n.intermediate_states = m.intermediate_states)
    (hg : sameLayouts n.intermediate_gradients m.intermediate_gradients) (h1 : n.input_shape = m.input_shape)
    (h2 : n.output_shape = m.output_shape) (h3 : n.run_state = m.run_state) :
    let n' := (Network.backward_step_u b i n).2
    List.Forall₂ Like n'.layers m.layers ∧ n'.intermediate_states = m.intermediate_states ∧
      sameLayouts n'.intermediate_gradients m.intermediate_gradients ∧ n'.input_shape = m.input_shape ∧
      n'.output_shape = m.output_shape ∧ n'.run_state = m.run_state := by
  unfold Network.backward_step_u
  split
  · exact ⟨hl, hs, hg, h1, h2, h3⟩
  split
  · exact ⟨hl, hs, hg, h1, h2, h3⟩
  rename_i l el
  split
  · rename_i g o _ eo
    split
    · rename_i x y _ _
      have := backward_keeps b x y g l o
      exact ⟨forall₂_set (R := Like) (fun _ _ _ => like_trans) hl i l _ el this.1, hs, set_kept hg eo this.2, h1, h2, h3⟩
    · exact ⟨hl, hs, hg, h1, h2, h3⟩
  · exact ⟨hl, hs, hg, h1, h2, h3⟩

/-- whatever `infer` does, as `infer_effect` says it for calls that return -/
theorem infer_keeps (b : Build) (x : Tensor F) (n : Net F) :
    let n' := (Network.infer_u b x n).2
    List.Forall₂ Like n'.layers n.layers ∧
    (n.input_shape = x.shape ∧ sameLayouts n'.intermediate_states (n.intermediate_states.set 0 x) ∨
      n'.intermediate_states = n.intermediate_states) ∧
    n'.intermediate_gradients = n.intermediate_gradients ∧ n'.input_shape = n.input_shape ∧
    n'.output_shape = n.output_shape ∧ n'.run_state = n.run_state := by
  have hr := forall₂_refl (R := Like) like_refl n.layers
  unfold Network.infer_u
  rw [eval_ok_bind]
  split
  · exact ⟨hr, .inr rfl, rfl, rfl, rfl, rfl⟩
  rename_i hx
  rw [eval_ok_bind]
  split
  · exact ⟨hr, .inr rfl, rfl, rfl, rfl, rfl⟩
  rename_i hlen
  have hs : vset n.intermediate_states 0 x = .ok (n.intermediate_states.set 0 x) := by
    unfold vset
    rw [if_pos (by omega)]
  rw [eval_bind_of (x := fun n : Net F => vset n.intermediate_states 0 x) hs, assign_bind, eval_ok_bind]
  have key : ∀ (xs : List Nat) (n1 : Net F), _ := fun xs n1 h =>
    Keeps.try_u (P := fun (n' : Net F) => List.Forall₂ Like n'.layers n.layers ∧
      sameLayouts n'.intermediate_states (n.intermediate_states.set 0 x) ∧
      n'.intermediate_gradients = n.intermediate_gradients ∧ n'.input_shape = n.input_shape ∧
      n'.output_shape = n.output_shape ∧ n'.run_state = n.run_state) xs
      (body := fun i => Network.infer_step_u b i)
      (fun i n' ⟨a1, a2, a3, a4, a5, a6⟩ => infer_step_keeps b i n'
        { n with intermediate_states := n.intermediate_states.set 0 x } a1 a2 a3 a4 a5 a6) n1 h
  obtain ⟨a1, a2, a3⟩ := key (List.range n.layers.length)
    { n with intermediate_states := n.intermediate_states.set 0 x } ⟨hr, sameLayouts_refl _, rfl, rfl, rfl, rfl⟩
  exact ⟨a1, .inl ⟨(Decidable.not_not.mp hx).symm, a2⟩, a3⟩

/-- whatever `backward` does, as `backward_effect` says it for calls that return -/
theorem net_backward_keeps (b : Build) (g : Tensor F) (n : Net F) :
    let n' := (Network.backward_u b g n).2
    List.Forall₂ Like n'.layers n.layers ∧
    (n.output_shape = g.shape ∧ sameLayouts n'.intermediate_gradients
        (n.intermediate_gradients.set n.layers.length g) ∨
      n'.intermediate_gradients = n.intermediate_gradients) ∧
    n'.intermediate_states = n.intermediate_states ∧ n'.input_shape = n.input_shape ∧
    n'.output_shape = n.output_shape ∧ n'.run_state = n.run_state := by
  have hr := forall₂_refl (R := Like) like_refl n.layers
  unfold Network.backward_u
  rw [eval_ok_bind]
  split
  · exact ⟨hr, .inr rfl, rfl, rfl, rfl, rfl⟩
  rename_i hx
  rw [eval_ok_bind]
  split
  · exact ⟨hr, .inr rfl, rfl, rfl, rfl, rfl⟩
  rw [eval_ok_bind]
  split
  · exact ⟨hr, .inr rfl, rfl, rfl, rfl, rfl⟩
  by_cases hlen : n.layers.length < n.intermediate_gradients.length
  · have hs : vset n.intermediate_gradients n.layers.length g =
        .ok (n.intermediate_gradients.set n.layers.length g) := by
      unfold vset
      rw [if_pos hlen]
    rw [eval_bind_of (x := fun n : Net F => vset n.intermediate_gradients n.layers.length g) hs, assign_bind,
      eval_ok_bind]
    obtain ⟨a1, a2, a3, a4⟩ := Keeps.try_u (P := fun (n' : Net F) => List.Forall₂ Like n'.layers n.layers ∧
      n'.intermediate_states = n.intermediate_states ∧
      sameLayouts n'.intermediate_gradients (n.intermediate_gradients.set n.layers.length g) ∧
      n'.input_shape = n.input_shape ∧ n'.output_shape = n.output_shape ∧ n'.run_state = n.run_state)
      (List.range n.layers.length).reverse (body := fun i => Network.backward_step_u b i)
      (fun i n' ⟨a1, a2, a3, a4, a5, a6⟩ => backward_step_keeps b i n'
        { n with intermediate_gradients := n.intermediate_gradients.set n.layers.length g } a1 a2 a3 a4 a5 a6)
      { n with intermediate_gradients := n.intermediate_gradients.set n.layers.length g }
      ⟨hr, rfl, sameLayouts_refl _, rfl, rfl, rfl⟩
    exact ⟨a1, .inl ⟨(Decidable.not_not.mp hx).symm, a3⟩, a2, a4⟩
  · have hs : vset n.intermediate_gradients n.layers.length g = .error .oob := by
      unfold vset
      rw [if_neg hlen]
    rw [eval_bind_panic (x := fun n : Net F => vset n.intermediate_gradients n.layers.length g) hs]
    exact ⟨hr, .inr rfl, rfl, rfl, rfl, rfl⟩

end Rusty
