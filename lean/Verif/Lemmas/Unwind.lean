import Verif.Model.Unwind
import Verif.Lemmas.LoadingDebug

/-! # Helper lemmas: the model of unwinding agrees with the plain model -/

namespace Rusty

open F32Ops Unwind Spec

namespace Unwind

variable {σ α β : Type}

theorem forget_pure (a : α) (s : σ) : forget (pure a : Unwind σ α) s = .ok (a, s) := rfl

theorem forget_bind (m : Unwind σ α) (f : α → Unwind σ β) (s : σ) :
    forget (m >>= f) s = forget m s >>= fun p => forget (f p.1) p.2 := by
  unfold forget
  change (match Unwind.bind m f s with | (.ok a, s') => _ | (.error p, _) => _) = _
  unfold Unwind.bind
  rcases h : m s with ⟨r, s'⟩
  cases r <;> rfl

theorem forget_eval (x : σ → Exec α) (s : σ) : forget (eval x) s = x s >>= fun a => .ok (a, s) := by
  unfold forget eval
  cases x s <;> rfl

theorem forget_assign (f : σ → σ) (s : σ) : forget (assign f) s = .ok ((), f s) := rfl

theorem bind_apply (m : Unwind σ α) (f : α → Unwind σ β) (s : σ) :
    (m >>= f) s = match m s with
      | (.ok a, s') => f a s'
      | (.error p, s') => (.error p, s') := rfl

/-- the result of a call, without the state -/
theorem forget_error {m : Unwind σ α} {s : σ} {p : PanicKind} :
    forget m s = .error p ↔ (m s).1 = .error p := by
  unfold forget
  rcases m s with ⟨r, s'⟩
  cases r <;> simp

theorem forget_ok {m : Unwind σ α} {s s' : σ} {a : α} :
    forget m s = .ok (a, s') ↔ m s = (.ok a, s') := by
  unfold forget
  rcases m s with ⟨r, s'⟩
  cases r <;> simp

/-- never changes the object -/
def Reads (m : Unwind σ α) : Prop := ∀ s, (m s).2 = s

/-- never panics -/
def Total (m : Unwind σ α) : Prop := ∀ s, ∃ a, (m s).1 = .ok a

/-- a panic leaves the object as it was -/
def Quiet (m : Unwind σ α) : Prop := ∀ s p, (m s).1 = .error p → (m s).2 = s

theorem Reads.eval (x : σ → Exec α) : Reads (eval x) := fun _ => rfl

theorem Reads.pure (a : α) : Reads (pure a : Unwind σ α) := fun _ => rfl

theorem Reads.quiet {m : Unwind σ α} (h : Reads m) : Quiet m := fun s _ _ => h s

theorem Total.pure (a : α) : Total (pure a : Unwind σ α) := fun _ => ⟨a, rfl⟩

theorem Total.assign (f : σ → σ) : Total (assign f) := fun _ => ⟨(), rfl⟩

theorem Total.quiet {m : Unwind σ α} (h : Total m) : Quiet m := fun s p e => by
  obtain ⟨a, ha⟩ := h s
  rw [ha] at e
  cases e

theorem Total.bind {m : Unwind σ α} {f : α → Unwind σ β} (h : Total m) (hf : ∀ a, Total (f a)) :
    Total (m >>= f) := by
  intro s
  obtain ⟨a, ha⟩ := h s
  rw [bind_apply]
  rcases hm : m s with ⟨r, s'⟩
  rw [hm] at ha
  simp only at ha
  subst ha
  exact hf a s'

theorem Quiet.bind {m : Unwind σ α} {f : α → Unwind σ β} (h : Reads m) (hf : ∀ a, Quiet (f a)) :
    Quiet (m >>= f) := by
  intro s p
  have hs := h s
  rw [bind_apply]
  rcases hm : m s with ⟨r, s'⟩
  rw [hm] at hs
  simp only at hs
  subst hs
  cases r with
  | error q => exact fun _ => rfl
  | ok a => exact hf a s' p

/-- a property of the object that every step keeps holds in the end, panic or not -/
def Keeps (P : σ → Prop) (m : Unwind σ α) : Prop := ∀ s, P s → P (m s).2

theorem Keeps.eval (P : σ → Prop) (x : σ → Exec α) : Keeps P (eval x) := fun _ h => h

theorem Keeps.pure (P : σ → Prop) (a : α) : Keeps P (pure a : Unwind σ α) := fun _ h => h

theorem Keeps.assign {P : σ → Prop} {f : σ → σ} (h : ∀ s, P s → P (f s)) : Keeps P (assign f) := h

theorem Keeps.bind {P : σ → Prop} {m : Unwind σ α} {f : α → Unwind σ β} (h : Keeps P m)
    (hf : ∀ a, Keeps P (f a)) : Keeps P (m >>= f) := by
  intro s hs
  have h1 := h s hs
  rw [bind_apply]
  rcases hm : m s with ⟨r, s'⟩
  rw [hm] at h1
  cases r with
  | error q => exact h1
  | ok a => exact hf a s' h1

end Unwind

variable {F : Type} [F32Ops F]

theorem exec_bind_assoc {α β γ : Type} (x : Exec α) (f : α → Exec β) (g : β → Exec γ) :
    (x >>= f) >>= g = x >>= fun a => f a >>= g := by cases x <;> rfl

theorem exec_pure {α : Type} (a : α) : (pure a : Exec α) = .ok a := rfl

theorem exec_bind_pure {α : Type} (x : Exec α) : (x >>= fun a => .ok a) = x := by cases x <;> rfl

namespace FullyConnectedLayer

theorem update_u (b : Build) (l : FullyConnectedLayer F) :
    forget (update_tensors_u b) l = update_tensors b l >>= fun l' => .ok ((), l') := by
  unfold update_tensors_u update_tensors
  rw [forget_bind, forget_eval]
  simp only [ok_bind]
  cases h : l.run_state <;>
  simp only [h, forget_bind, forget_eval, forget_assign, exec_bind_assoc, ok_bind, exec_pure, get_output_shape]

theorem fill_u (b : Build) (w bi : Tensor F) (name : String) (l : FullyConnectedLayer F) :
    forget (fill_from_state_u b w bi name) l = fill_from_state b l w bi name := by
  unfold fill_from_state_u fill_from_state
  simp only
  split
  · rfl
  split
  · rfl
  split
  · rfl
  simp only [forget_bind, forget_assign, exec_bind_assoc, ok_bind, exec_pure, update_u, forget_pure]

theorem load_u [F32Bits F] (b : Build) (s : SerializedLayer) (l : FullyConnectedLayer F) :
    forget (load_from_serialized_u b s) l = load_from_serialized b l s := by
  unfold load_from_serialized_u load_from_serialized
  cases s with
  | SerialFullyConnectedLayer m =>
    unfold load_from_serialized_data
    simp only
    split
    · rfl
    split
    · rfl
    split
    · rfl
    simp only [forget_bind, forget_eval, exec_bind_assoc, ok_bind, fill_u]
  | _ => rfl

end FullyConnectedLayer

namespace MaxPoolLayer

theorem update_u (b : Build) (l : MaxPoolLayer) :
    forget (update_tensors_u b) l = update_tensors b l >>= fun l' => .ok ((), l') := by
  unfold update_tensors_u update_tensors
  rw [forget_bind, forget_eval]
  simp only [ok_bind]
  cases h : l.run_state <;>
  simp only [h, forget_bind, forget_eval, forget_assign, exec_bind_assoc, ok_bind, exec_pure]

theorem fill_u (b : Build) (is ma : TensorShape) (st : UInt32) (name : String) (l : MaxPoolLayer) :
    forget (fill_from_state_u b is ma st name) l = fill_from_state b l is ma st name := by
  unfold fill_from_state_u fill_from_state
  rw [forget_bind, forget_eval, exec_bind_assoc]
  congr 1
  funext ok
  simp only [ok_bind]
  split
  · rfl
  simp only [forget_bind, forget_eval, forget_assign, exec_bind_assoc, ok_bind, exec_pure, forget_pure]

theorem load_u (b : Build) (s : SerializedLayer) (l : MaxPoolLayer) :
    forget (load_from_serialized_u b s) l = load_from_serialized b l s := by
  unfold load_from_serialized_u load_from_serialized
  cases s with
  | SerialMaxPoolLayer m =>
    unfold load_from_serialized_data
    simp only
    split
    · rfl
    split
    · rfl
    split
    · rfl
    split
    · rfl
    simp only [forget_bind, forget_eval, exec_bind_assoc, ok_bind, fill_u]
  | _ => rfl

end MaxPoolLayer

namespace SoftmaxLayer

theorem update_u (b : Build) (l : SoftmaxLayer F) :
    forget (update_tensors_u b) l = update_tensors b l >>= fun l' => .ok ((), l') := by
  unfold update_tensors_u update_tensors
  rw [forget_bind, forget_eval]
  simp only [ok_bind]
  cases h : l.run_state <;>
  simp only [h, forget_bind, forget_eval, forget_assign, exec_bind_assoc, ok_bind, exec_pure]

theorem fill_u (b : Build) (shape : TensorShape) (name : String) (l : SoftmaxLayer F) :
    forget (fill_from_state_u b shape name) l = fill_from_state b l shape name := by
  unfold fill_from_state_u fill_from_state
  simp only [forget_bind, forget_assign, exec_bind_assoc, ok_bind, exec_pure, update_u, forget_pure]

omit [F32Ops F] in
theorem load_u (b : Build) (s : SerializedLayer) (l : SoftmaxLayer F) :
    forget (load_from_serialized_u b s) l = load_from_serialized b l s := by
  unfold load_from_serialized_u load_from_serialized
  cases s with
  | SerialSoftMaxLayer m =>
    unfold load_from_serialized_data
    simp only
    split
    · rfl
    split
    · rfl
    simp only [forget_bind, forget_eval, forget_assign, exec_bind_assoc, ok_bind, exec_pure, forget_pure]
  | _ => rfl

end SoftmaxLayer

namespace ConvolutionalLayer

theorem push_u (b : Build) (ks : List (Tensor F)) (l : ConvolutionalLayer F) :
    forget (push_gradients_u b ks) l = (ks.foldlM (fun kg k => do
      let g ← Tensor.new b k.shape
      pure (kg ++ [g])) l.kernel_gradients) >>= fun kg => .ok ((), { l with kernel_gradients := kg }) := by
  induction ks generalizing l with
  | nil => rfl
  | cons k ks ih =>
    unfold push_gradients_u
    rw [forget_bind, forget_eval, List.foldlM_cons]
    simp only [exec_bind_assoc, exec_pure, ok_bind, forget_bind, forget_assign, ih]

theorem update_u (b : Build) (l : ConvolutionalLayer F) :
    forget (update_tensors_u b) l = update_tensors b l >>= fun l' => .ok ((), l') := by
  unfold update_tensors_u update_tensors
  rw [forget_bind, forget_eval]
  simp only [ok_bind]
  cases h : l.run_state <;>
  simp only [h, forget_bind, forget_eval, forget_assign, exec_bind_assoc, ok_bind, exec_pure, push_u]

omit [F32Ops F] in
theorem fill_u (b : Build) (ks bs : List (Tensor F)) (is : TensorShape) (st : UInt32) (name : String)
    (l : ConvolutionalLayer F) :
    forget (fill_from_state_u b ks bs is st name) l = fill_from_state b l ks bs is st name := by
  unfold fill_from_state_u fill_from_state
  cases ks with
  | nil => rfl
  | cons k ks =>
    simp only
    split
    · rfl
    rw [forget_bind, forget_eval, exec_bind_assoc]
    congr 1
    funext ok
    simp only [ok_bind]
    split
    · rfl
    simp only [forget_bind, forget_eval, forget_assign, exec_bind_assoc, ok_bind, exec_pure, forget_pure]

omit [F32Ops F] in
theorem load_u [F32Bits F] (b : Build) (s : SerializedLayer) (l : ConvolutionalLayer F) :
    forget (load_from_serialized_u b s) l = load_from_serialized b l s := by
  unfold load_from_serialized_u load_from_serialized
  cases s with
  | SerialConvolutionalLayer m =>
    unfold load_from_serialized_data
    simp only
    split
    · rfl
    split
    · rfl
    split
    · rfl
    split
    · rfl
    split
    · rfl
    simp only [forget_bind, forget_eval, exec_bind_assoc, ok_bind, fill_u]
  | _ => rfl

end ConvolutionalLayer

namespace AnyLayer

omit [F32Ops F] in
theorem forget_rewrap {L α : Type} (w : L → AnyLayer F) (m : Unwind L α) (l : L)
    (m' : Unwind (AnyLayer F) α) (h : m' (w l) = rewrap_u w (m l)) :
    forget m' (w l) = forget m l >>= fun p => .ok (p.1, w p.2) := by
  unfold forget
  rw [h]
  unfold rewrap_u
  rcases m l with ⟨r, l'⟩
  cases r <;> rfl

theorem switch_training_u (b : Build) (l : AnyLayer F) :
    forget (switch_to_training_u b) l = l.switch_to_training b >>= fun l' => .ok ((), l') := by
  cases l with
  | conv l =>
    rw [forget_rewrap .conv (ConvolutionalLayer.switch_to_training_u b) l _ rfl]
    simp only [ConvolutionalLayer.switch_to_training_u, forget_bind, forget_assign, ok_bind,
      ConvolutionalLayer.update_u, exec_bind_assoc, switch_to_training,
      ConvolutionalLayer.switch_to_training, exec_pure]
  | fc l =>
    rw [forget_rewrap .fc (FullyConnectedLayer.switch_to_training_u b) l _ rfl]
    simp only [FullyConnectedLayer.switch_to_training_u, forget_bind, forget_assign, ok_bind,
      FullyConnectedLayer.update_u, exec_bind_assoc, switch_to_training,
      FullyConnectedLayer.switch_to_training, exec_pure]
  | mp l =>
    rw [forget_rewrap .mp (MaxPoolLayer.switch_to_training_u b) l _ rfl]
    simp only [MaxPoolLayer.switch_to_training_u, forget_bind, forget_assign, ok_bind,
      MaxPoolLayer.update_u, exec_bind_assoc, switch_to_training,
      MaxPoolLayer.switch_to_training, exec_pure]
  | sm l =>
    rw [forget_rewrap .sm (SoftmaxLayer.switch_to_training_u b) l _ rfl]
    simp only [SoftmaxLayer.switch_to_training_u, forget_bind, forget_assign, ok_bind,
      SoftmaxLayer.update_u, exec_bind_assoc, switch_to_training,
      SoftmaxLayer.switch_to_training, exec_pure]

theorem switch_inference_u (b : Build) (l : AnyLayer F) :
    forget (switch_to_inference_u b) l = l.switch_to_inference b >>= fun l' => .ok ((), l') := by
  cases l with
  | conv l =>
    rw [forget_rewrap .conv (ConvolutionalLayer.switch_to_inference_u b) l _ rfl]
    simp only [ConvolutionalLayer.switch_to_inference_u, forget_bind, forget_assign, ok_bind,
      ConvolutionalLayer.update_u, exec_bind_assoc, switch_to_inference,
      ConvolutionalLayer.switch_to_inference, exec_pure]
  | fc l =>
    rw [forget_rewrap .fc (FullyConnectedLayer.switch_to_inference_u b) l _ rfl]
    simp only [FullyConnectedLayer.switch_to_inference_u, forget_bind, forget_assign, ok_bind,
      FullyConnectedLayer.update_u, exec_bind_assoc, switch_to_inference,
      FullyConnectedLayer.switch_to_inference, exec_pure]
  | mp l =>
    rw [forget_rewrap .mp (MaxPoolLayer.switch_to_inference_u b) l _ rfl]
    simp only [MaxPoolLayer.switch_to_inference_u, forget_bind, forget_assign, ok_bind,
      MaxPoolLayer.update_u, exec_bind_assoc, switch_to_inference,
      MaxPoolLayer.switch_to_inference, exec_pure]
  | sm l =>
    rw [forget_rewrap .sm (SoftmaxLayer.switch_to_inference_u b) l _ rfl]
    simp only [SoftmaxLayer.switch_to_inference_u, forget_bind, forget_assign, ok_bind,
      SoftmaxLayer.update_u, exec_bind_assoc, switch_to_inference,
      SoftmaxLayer.switch_to_inference, exec_pure]

theorem load_u [F32Bits F] (b : Build) (s : SerializedLayer) (l : AnyLayer F) :
    forget (load_from_serialized_u b s) l = l.load_from_serialized b s := by
  cases l with
  | conv l =>
    rw [forget_rewrap .conv (ConvolutionalLayer.load_from_serialized_u b s) l _ rfl,
      ConvolutionalLayer.load_u]
    rfl
  | fc l =>
    rw [forget_rewrap .fc (FullyConnectedLayer.load_from_serialized_u b s) l _ rfl,
      FullyConnectedLayer.load_u]
    rfl
  | mp l =>
    rw [forget_rewrap .mp (MaxPoolLayer.load_from_serialized_u b s) l _ rfl, MaxPoolLayer.load_u]
    rfl
  | sm l =>
    rw [forget_rewrap .sm (SoftmaxLayer.load_from_serialized_u b s) l _ rfl, SoftmaxLayer.load_u]
    rfl

end AnyLayer

namespace Network

theorem add_u (b : Build) (l : AnyLayer F) (n : Net F) :
    forget (add_layer_u b l) n = n.add_layer b l := by
  unfold add_layer_u add_layer
  rw [forget_bind, forget_eval, exec_bind_assoc]
  congr 1
  funext l'
  simp only [ok_bind]
  rw [forget_bind, forget_eval, ok_bind, ok_bind]
  simp only
  cases n.layers.getLast? with
  | none =>
    simp only [forget_bind, forget_eval, forget_assign, exec_bind_assoc, ok_bind, List.append_assoc,
      List.cons_append, List.nil_append]
    refine congrArg _ (funext fun t1 => congrArg _ (funext fun t2 => ?_))
    split
    · simp only [forget_bind, forget_eval, forget_assign, exec_bind_assoc, ok_bind, List.append_assoc,
        List.cons_append, List.nil_append, forget_pure, exec_pure]
      rfl
    · rfl
  | some last =>
    simp only
    change _ = ite (last.get_output_shape ≠ l'.get_input_shape) _ _
    split
    · rfl
    · simp only [forget_bind, forget_eval, forget_assign, exec_bind_assoc, ok_bind]
      refine congrArg _ (funext fun t1 => ?_)
      split
      · simp only [forget_bind, forget_eval, forget_assign, exec_bind_assoc, ok_bind,
          forget_pure, exec_pure]
        rfl
      · rfl

/-- a loop over a vector, forgetting the state after a panic -/
theorem forget_each {L : Type} (m : Unwind L Unit) (f : L → Exec L)
    (h : ∀ l, forget m l = f l >>= fun l' => .ok ((), l')) (ls : List L) :
    (match each m ls with
      | (.ok (), ls') => (.ok ls' : Exec (List L))
      | (.error p, _) => .error p) = ls.mapM f := by
  induction ls with
  | nil => rfl
  | cons l ls ih =>
    have hl := h l
    unfold forget at hl
    rw [List.mapM_cons]
    unfold each
    rcases hm : m l with ⟨r, l'⟩
    rw [hm] at hl
    cases r with
    | error p =>
      cases hf : f l with
      | error q =>
        rw [hf] at hl
        injection hl with hl
        subst hl
        rfl
      | ok x => rw [hf] at hl; cases hl
    | ok u =>
      cases hf : f l with
      | error q => rw [hf] at hl; cases hl
      | ok x =>
        rw [hf] at hl
        injection hl with hl
        injection hl with _ hl
        subst hl
        rw [ok_bind, ← ih]
        simp only
        rcases each m ls with ⟨r, ls'⟩
        cases r <;> rfl

omit [F32Ops F] in
theorem forget_each_layer (m : Unwind (AnyLayer F) Unit) (f : AnyLayer F → Exec (AnyLayer F))
    (h : ∀ l, forget m l = f l >>= fun l' => .ok ((), l')) (n : Net F) :
    forget (each_layer m) n = n.layers.mapM f >>= fun ls => .ok ((), { n with layers := ls }) := by
  rw [← forget_each m f h]
  unfold forget each_layer
  rcases each m n.layers with ⟨r, ls⟩
  cases r <;> rfl

theorem push_u (b : Build) (ts : List (Tensor F)) (n : Net F) :
    forget (push_gradients_u b ts) n = ts.mapM (fun t => Tensor.new b t.shape) >>= fun gs =>
      .ok ((), { n with intermediate_gradients := n.intermediate_gradients ++ gs }) := by
  induction ts generalizing n with
  | nil =>
    rw [List.mapM_nil]
    simp only [push_gradients_u, forget_pure, exec_pure, ok_bind, List.append_nil]
  | cons t ts ih =>
    unfold push_gradients_u
    rw [forget_bind, forget_eval, List.mapM_cons]
    simp only [exec_bind_assoc, exec_pure, ok_bind, forget_bind, forget_assign, ih, List.append_assoc,
      List.cons_append, List.nil_append]

theorem training_u (b : Build) (n : Net F) :
    forget (switch_to_training_u b) n = n.switch_to_training b >>= fun n' => .ok ((), n') := by
  unfold switch_to_training_u switch_to_training
  simp only [forget_bind, forget_assign, ok_bind, forget_eval,
    forget_each_layer _ _ (AnyLayer.switch_training_u b), exec_bind_assoc, push_u, List.nil_append, exec_pure]
  rfl

theorem inference_u (b : Build) (n : Net F) :
    forget (switch_to_inference_u b) n = n.switch_to_inference b >>= fun n' => .ok ((), n') := by
  unfold switch_to_inference_u switch_to_inference
  simp only [forget_bind, forget_assign, ok_bind,
    forget_each_layer _ _ (AnyLayer.switch_inference_u b), exec_bind_assoc, exec_pure]
  rfl

variable [F32Bits F]

theorem add_to_u (b : Build) (s : SerializedLayer) (n : Net F) :
    forget (add_to_network_u b s) n = s.add_to_network b n := by
  cases s <;>
  · simp only [add_to_network_u, SerializedLayer.add_to_network, forget_bind, forget_eval, exec_bind_assoc,
      ok_bind]
    first
      | refine congrArg _ (funext fun l => congrArg _ (funext fun r => ?_))
        rcases r with ⟨_ | _, l⟩
        · rfl
        · exact add_u b _ n
      | refine congrArg _ (funext fun r => ?_)
        rcases r with ⟨_ | _, l⟩
        · rfl
        · exact add_u b _ n

theorem pop_u (b : Build) (ss : List SerializedLayer) (n : Net F) :
    forget (populate_u b ss) n = SerializedNetwork.populate_network b ⟨ss⟩ n := by
  induction ss generalizing n with
  | nil => rfl
  | cons s ss ih =>
    unfold populate_u SerializedNetwork.populate_network
    rw [forget_bind, add_to_u, forListE_cons]
    refine congrArg _ (funext fun r => ?_)
    rcases r with ⟨_ | _, n'⟩
    · rfl
    · exact ih n'

theorem load_u (b : Build) (fs : FS) (name : String) (n : Net F) :
    forget (load_from_file_u b fs name) n = n.load_from_file b fs name := by
  unfold load_from_file_u load_from_file
  cases fs name with
  | none => rfl
  | some bs =>
    simp only
    cases deserialize decSerializedNetwork bs with
    | none => rfl
    | some sn => exact pop_u b _ n

end Network

omit [F32Ops F] in
theorem conv_fill_quiet (b : Build) (ks bs : List (Tensor F)) (is : TensorShape) (st : UInt32) (name : String) :
    Quiet (ConvolutionalLayer.fill_from_state_u b ks bs is st name) := by
  unfold ConvolutionalLayer.fill_from_state_u
  cases ks with
  | nil => exact (Reads.pure _).quiet
  | cons k ks =>
    simp only
    split
    · exact (Reads.pure _).quiet
    · refine Quiet.bind (.eval _) fun ok => ?_
      split
      · exact (Reads.pure _).quiet
      · refine Quiet.bind (.eval _) fun d => Total.quiet ?_
        exact (Total.assign _).bind fun _ => (Total.assign _).bind fun _ => (Total.assign _).bind fun _ =>
          (Total.assign _).bind fun _ => (Total.assign _).bind fun _ => (Total.assign _).bind fun _ =>
          Total.pure _

theorem mp_fill_quiet (b : Build) (is ma : TensorShape) (st : UInt32) (name : String) :
    Quiet (MaxPoolLayer.fill_from_state_u b is ma st name) := by
  unfold MaxPoolLayer.fill_from_state_u
  refine Quiet.bind (.eval _) fun ok => ?_
  split
  · exact (Reads.pure _).quiet
  · refine Quiet.bind (.eval _) fun d => Total.quiet ?_
    exact (Total.assign _).bind fun _ => (Total.assign _).bind fun _ => (Total.assign _).bind fun _ =>
      (Total.assign _).bind fun _ => (Total.assign _).bind fun _ => Total.pure _

theorem fc_update_keeps (b : Build) (q : AnyLayer F) :
    Keeps (fun l => params (.fc l) = params q) (FullyConnectedLayer.update_tensors_u b) := by
  unfold FullyConnectedLayer.update_tensors_u
  refine Keeps.bind (.eval _ _) fun m => ?_
  cases m
  · exact Keeps.bind (.eval _ _) fun _ => Keeps.bind (.assign fun _ h => h) fun _ =>
      Keeps.bind (.eval _ _) fun _ => Keeps.bind (.assign fun _ h => h) fun _ =>
      Keeps.bind (.eval _ _) fun _ => Keeps.bind (.assign fun _ h => h) fun _ =>
      Keeps.bind (.eval _ _) fun _ => .assign fun _ h => h
  · exact Keeps.bind (.eval _ _) fun _ => Keeps.bind (.assign fun _ h => h) fun _ =>
      Keeps.bind (.eval _ _) fun _ => Keeps.bind (.assign fun _ h => h) fun _ =>
      Keeps.bind (.eval _ _) fun _ => Keeps.bind (.assign fun _ h => h) fun _ =>
      Keeps.bind (.eval _ _) fun _ => Keeps.bind (.assign fun _ h => h) fun _ => .assign fun _ h => h

omit [F32Ops F] in
theorem mp_update_keeps (b : Build) (q : AnyLayer F) :
    Keeps (fun l => params (.mp l : AnyLayer F) = params q) (MaxPoolLayer.update_tensors_u b) := by
  unfold MaxPoolLayer.update_tensors_u
  refine Keeps.bind (.eval _ _) fun m => ?_
  cases m
  · exact .assign fun _ h => h
  · exact Keeps.bind (.eval _ _) fun _ => Keeps.bind (.assign fun _ h => h) fun _ => .assign fun _ h => h

theorem sm_update_keeps (b : Build) (q : AnyLayer F) :
    Keeps (fun l => params (.sm l) = params q) (SoftmaxLayer.update_tensors_u b) := by
  unfold SoftmaxLayer.update_tensors_u
  refine Keeps.bind (.eval _ _) fun m => ?_
  cases m
  · exact Keeps.bind (.eval _ _) fun _ => Keeps.bind (.assign fun _ h => h) fun _ =>
      Keeps.bind (.eval _ _) fun _ => .assign fun _ h => h
  · exact Keeps.bind (.eval _ _) fun _ => Keeps.bind (.assign fun _ h => h) fun _ =>
      Keeps.bind (.eval _ _) fun _ => Keeps.bind (.assign fun _ h => h) fun _ => .assign fun _ h => h

theorem conv_push_keeps (b : Build) (q : AnyLayer F) (ks : List (Tensor F)) :
    Keeps (fun l => params (.conv l) = params q) (ConvolutionalLayer.push_gradients_u b ks) := by
  induction ks with
  | nil => exact .pure _ _
  | cons k ks ih =>
    exact Keeps.bind (.eval _ _) fun _ => Keeps.bind (.assign fun _ h => h) fun _ => ih

theorem conv_update_keeps (b : Build) (q : AnyLayer F) :
    Keeps (fun l => params (.conv l) = params q) (ConvolutionalLayer.update_tensors_u b) := by
  unfold ConvolutionalLayer.update_tensors_u
  refine Keeps.bind (.eval _ _) fun m => ?_
  cases m
  · exact Keeps.bind (.assign fun _ h => h) fun _ => Keeps.bind (.assign fun _ h => h) fun _ =>
      Keeps.bind (.eval _ _) fun _ => .assign fun _ h => h
  · exact Keeps.bind (.assign fun _ h => h) fun _ => Keeps.bind (.eval _ _) fun _ =>
      Keeps.bind (conv_push_keeps b q _) fun _ =>
      Keeps.bind (.eval _ _) fun _ => Keeps.bind (.assign fun _ h => h) fun _ =>
      Keeps.bind (.eval _ _) fun _ => .assign fun _ h => h

/-- filling a fully connected layer returns when no buffers are made or they fit -/
theorem fc_fill_returns (b : Build) (l : FullyConnectedLayer F) (w bi : Tensor F) (name : String)
    (h : b = .release ∨ l.run_state = .Inference) : ∃ r l', l.fill_from_state b w bi name = .ok (r, l') := by
  unfold FullyConnectedLayer.fill_from_state
  simp only
  split
  · exact ⟨_, _, rfl⟩
  split
  · exact ⟨_, _, rfl⟩
  split
  · exact ⟨_, _, rfl⟩
  obtain ⟨l', e⟩ : ∃ l', FullyConnectedLayer.update_tensors b { l with weights := w, bias := bi, name := name } =
      .ok l' := by
    unfold FullyConnectedLayer.update_tensors
    cases hm : l.run_state with
    | Inference => simp only [empty_ok, ok_bind]; exact ⟨_, rfl⟩
    | Training =>
      rcases h with rfl | h
      · obtain ⟨_, e1⟩ := new_returns (F := F) .release w.shape (.inl rfl)
        obtain ⟨_, e2⟩ := new_returns (F := F) .release bi.shape (.inl rfl)
        simp only [FullyConnectedLayer.get_output_shape, e1, e2, ok_bind]
        exact ⟨_, rfl⟩
      · rw [hm] at h; cases h
  rw [e]
  exact ⟨_, _, rfl⟩

/-- whatever happens in a switch, the parameters stay -/
theorem switch_training_keeps (b : Build) (q : AnyLayer F) :
    Keeps (fun l => params l = params q) (AnyLayer.switch_to_training_u b) := by
  intro l hl
  cases l with
  | conv l => exact conv_update_keeps b q { l with run_state := .Training } hl
  | fc l => exact fc_update_keeps b q { l with run_state := .Training } hl
  | mp l => exact mp_update_keeps b q { l with run_state := .Training } hl
  | sm l => exact sm_update_keeps b q { l with run_state := .Training } hl

theorem switch_inference_keeps (b : Build) (q : AnyLayer F) :
    Keeps (fun l => params l = params q) (AnyLayer.switch_to_inference_u b) := by
  intro l hl
  cases l with
  | conv l => exact conv_update_keeps b q { l with run_state := .Inference } hl
  | fc l => exact fc_update_keeps b q { l with run_state := .Inference } hl
  | mp l => exact mp_update_keeps b q { l with run_state := .Inference } hl
  | sm l => exact sm_update_keeps b q { l with run_state := .Inference } hl

omit [F32Ops F] in
/-- a loop that keeps the parameters of each layer keeps those of all -/
theorem each_keeps (m : Unwind (AnyLayer F) Unit)
    (h : ∀ q : AnyLayer F, Keeps (fun l => params l = params q) m) (ls : List (AnyLayer F)) :
    (Network.each m ls).2.map params = ls.map params := by
  induction ls with
  | nil => rfl
  | cons l ls ih =>
    have hl : params (m l).2 = params l := h l l rfl
    unfold Network.each
    rcases hm : m l with ⟨r, l'⟩
    rw [hm] at hl
    cases r with
    | error p => simp only [List.map_cons, hl]
    | ok u => simp only [List.map_cons, hl, ih]

/-- adding a layer: the switch panics and nothing happened, or the call is past the switch -/
theorem add_u_switch_error {b : Build} {l : AnyLayer F} {n : Net F} {p : PanicKind}
    (h : Network.enter_mode b n.run_state l = .error p) : Network.add_layer_u b l n = (.error p, n) := by
  unfold Network.add_layer_u
  rw [bind_apply]
  simp only [eval, h]

/-- the first layer, for which there is no room -/
theorem add_u_first {b : Build} {l l' : AnyLayer F} {n : Net F}
    (h : Network.enter_mode b n.run_state l = .ok l') (hn : n.layers = []) :
    (Network.add_layer_u b l n).2.layers = [l'] ∧
    (∀ p, (Tensor.new b l'.get_input_shape : Exec (Tensor F)) = .error p ∨
        (Tensor.new b l'.get_output_shape : Exec (Tensor F)) = .error p →
      (Network.add_layer_u b l n).2.intermediate_states.length < n.intermediate_states.length + 2) := by
  unfold Network.add_layer_u
  simp only [bind_apply, eval, assign, h, hn, List.getLast?_nil]
  rcases h1 : (Tensor.new b l'.get_input_shape : Exec (Tensor F)) with p | t1
  · exact ⟨rfl, fun _ _ => by simp⟩
  rcases h2 : (Tensor.new b l'.get_output_shape : Exec (Tensor F)) with p | t2
  · simp only [h2]
    exact ⟨rfl, fun _ _ => by simp⟩
  refine ⟨?_, fun p hp => by rcases hp with hp | hp <;> cases hp⟩
  simp only [h2]
  split
  · simp only [bind_apply, eval, assign, h1, h2]
    rfl
  · rfl

/-- a further layer, which is accepted -/
theorem add_u_next {b : Build} {l l' last : AnyLayer F} {n : Net F}
    (h : Network.enter_mode b n.run_state l = .ok l') (hn : n.layers.getLast? = some last)
    (hs : last.get_output_shape = l'.get_input_shape) :
    (Network.add_layer_u b l n).2.layers = n.layers ++ [l'] ∧
    (∀ p, (Tensor.new b l'.get_output_shape : Exec (Tensor F)) = .error p →
      (Network.add_layer_u b l n).2.intermediate_states = n.intermediate_states) := by
  unfold Network.add_layer_u
  simp only [bind_apply, eval, assign, h, hn, hs, ne_eq, not_true_eq_false, if_false]
  rcases h2 : (Tensor.new b l'.get_output_shape : Exec (Tensor F)) with p | t2
  · exact ⟨rfl, fun _ _ => rfl⟩
  refine ⟨?_, fun p hp => by cases hp⟩
  simp only
  split
  · simp only [bind_apply, eval, assign, h2]
    rfl
  · rfl

/-- whatever happens when a layer is added, the layers that were there stay first, as they were -/
theorem add_u_prefix (b : Build) (l : AnyLayer F) (n : Net F) :
    n.layers <+: (Network.add_layer_u b l n).2.layers := by
  cases h : Network.enter_mode b n.run_state l with
  | error p =>
    rw [add_u_switch_error h]
    exact List.prefix_refl _
  | ok l' =>
    cases hn : n.layers.getLast? with
    | none =>
      rw [List.getLast?_eq_none_iff.mp hn]
      exact List.nil_prefix
    | some last =>
      by_cases hs : last.get_output_shape = l'.get_input_shape
      · rw [(add_u_next h hn hs).1]
        exact List.prefix_append _ _
      · unfold Network.add_layer_u
        simp only [bind_apply, eval, h, hn, ne_eq, hs, not_false_eq_true, if_true]
        exact List.prefix_refl _

variable [F32Bits F]

/-- the part of `add_to_network` before the network is touched -/
def loadPart (b : Build) (s : SerializedLayer) : Exec (Res × AnyLayer F) :=
  match s with
  | .SerialConvolutionalLayer _ => do
    let l ← ConvolutionalLayer.empty b
    let r ← l.load_from_serialized b s
    pure (r.1, .conv r.2)
  | .SerialFullyConnectedLayer _ => do
    let l ← FullyConnectedLayer.empty b
    let r ← l.load_from_serialized b s
    pure (r.1, .fc r.2)
  | .SerialMaxPoolLayer _ => do
    let r ← MaxPoolLayer.empty.load_from_serialized b s
    pure (r.1, .mp r.2)
  | .SerialSoftMaxLayer _ => do
    let l ← SoftmaxLayer.empty b
    let r ← l.load_from_serialized b s
    pure (r.1, .sm r.2)

theorem add_to_load (b : Build) (s : SerializedLayer) (n : Net F) :
    Network.add_to_network_u b s n = match loadPart b s with
      | .error p => (.error p, n)
      | .ok (.error e, _) => (.ok (.error e), n)
      | .ok (.ok (), l) => Network.add_layer_u b l n := by
  unfold Network.add_to_network_u loadPart
  cases s with
  | SerialMaxPoolLayer m =>
    simp only [bind_apply, eval]
    rcases MaxPoolLayer.empty.load_from_serialized b (.SerialMaxPoolLayer m) with p | ⟨e | u, l⟩ <;> rfl
  | SerialConvolutionalLayer m =>
    simp only [bind_apply, eval]
    rcases (ConvolutionalLayer.empty b : Exec (ConvolutionalLayer F)) with p | l0
    · rfl
    simp only [ok_bind]
    rcases l0.load_from_serialized b (.SerialConvolutionalLayer m) with p | ⟨e | u, l⟩ <;> rfl
  | SerialFullyConnectedLayer m =>
    simp only [bind_apply, eval]
    rcases (FullyConnectedLayer.empty b : Exec (FullyConnectedLayer F)) with p | l0
    · rfl
    simp only [ok_bind]
    rcases l0.load_from_serialized b (.SerialFullyConnectedLayer m) with p | ⟨e | u, l⟩ <;> rfl
  | SerialSoftMaxLayer m =>
    simp only [bind_apply, eval]
    rcases (SoftmaxLayer.empty b : Exec (SoftmaxLayer F)) with p | l0
    · rfl
    simp only [ok_bind]
    rcases l0.load_from_serialized b (.SerialSoftMaxLayer m) with p | ⟨e | u, l⟩ <;> rfl

/-- a poisonous layer panics before the network is touched -/
theorem loadPart_poison (b : Build) (s : SerializedLayer) (h : Poison F s) :
    ∃ p, (loadPart b s : Exec (Res × AnyLayer F)) = .error p := by
  rcases hl : (loadPart b s : Exec (Res × AnyLayer F)) with p | ⟨e | u, l⟩
  · exact ⟨p, rfl⟩
  · obtain ⟨p, hp⟩ := add_poison (F := F) b (Network.new .Inference) s h
    rw [← Network.add_to_u, forget_error, add_to_load, hl] at hp
    cases hp
  · -- a network that refuses the layer
    let z : TensorShape := if l.get_input_shape = ⟨1, 1, 1⟩ then ⟨2, 1, 1⟩ else ⟨1, 1, 1⟩
    have hz : z ≠ l.get_input_shape := by
      intro e
      by_cases h1 : l.get_input_shape = ⟨1, 1, 1⟩
      · rw [h1] at e
        simp only [z, h1, if_true] at e
        exact absurd e (by decide)
      · simp only [z, h1, if_false] at e
        exact h1 e.symm
    obtain ⟨l', h1, _, hp', _⟩ := switch_inference_ok (b := b) l
    obtain ⟨p, hp⟩ := add_poison (F := F) b
      ⟨[.sm ⟨z, "", zeros ⟨1, 1, 1⟩, zeros ⟨1, 1, 1⟩, .Inference⟩], [], [], z, z, .Inference⟩ s h
    rw [← Network.add_to_u, forget_error, add_to_load, hl] at hp
    simp only [Network.add_layer_u, bind_apply, eval] at hp
    rw [show Network.enter_mode b .Inference l = .ok l' from h1] at hp
    simp only [List.getLast?_singleton] at hp
    rw [if_pos] at hp
    · cases hp
    · rw [params_input hp']
      exact hz

theorem populate_append (b : Build) (pre rest : List SerializedLayer) (n n1 : Net F)
    (h : Network.populate_u b pre n = (.ok (.ok ()), n1)) :
    Network.populate_u b (pre ++ rest) n = Network.populate_u b rest n1 := by
  induction pre generalizing n with
  | nil => cases h; rfl
  | cons s pre ih =>
    unfold Network.populate_u at h
    rw [List.cons_append]
    conv_lhs => unfold Network.populate_u
    rw [bind_apply] at h ⊢
    rcases hs : Network.add_to_network_u b s n with ⟨p | e | u, n'⟩
    · rw [hs] at h; cases h
    · rw [hs] at h; cases h
    · rw [hs] at h
      exact ih n' h

/-! ## A network with too few states -/

omit [F32Bits F] [F32Ops F] in
theorem infer_step_length {L : Type} [LayerOps F L] {b : Build} {s s' : List L × List (Tensor F)} {i : Nat} {r : Res}
    (h : Network.infer_step b s i = .ok (r, s')) : i + 1 < s.2.length ∧ s'.2.length = s.2.length := by
  obtain ⟨layers, states⟩ := s
  unfold Network.infer_step at h
  simp only at h ⊢
  split at h
  · cases h
  obtain ⟨layer, _, h⟩ := bind_inv h
  cases h1 : states[i]? with
  | none => simp only [h1] at h; cases h
  | some x =>
    cases h2 : states[i + 1]? with
    | none => simp only [h1, h2] at h; cases h
    | some y =>
      simp only [h1, h2] at h
      obtain ⟨⟨r1, l1, o1⟩, _, h⟩ := bind_inv h
      obtain ⟨ls, _, h⟩ := bind_inv h
      obtain ⟨ss, hs, h⟩ := bind_inv h
      cases h
      refine ⟨(List.getElem?_eq_some_iff.mp h2).1, ?_⟩
      unfold vset at hs
      split at hs
      · cases hs
        simp
      · cases hs

omit [F32Bits F] [F32Ops F] in
theorem infer_loop_length {L : Type} [LayerOps F L] {b : Build} (is : List Nat) {s s' : List L × List (Tensor F)}
    (h : forListE is s (fun i s => Network.infer_step b s i) = .ok (.ok (), s')) :
    ∀ i ∈ is, i + 1 < s.2.length := by
  induction is generalizing s with
  | nil => intro i hi; cases hi
  | cons j is ih =>
    rw [forListE_cons] at h
    obtain ⟨⟨r, s1⟩, h1, h⟩ := bind_inv h
    obtain ⟨g1, g2⟩ := infer_step_length h1
    rcases r with e | u
    · cases h
    intro i hi
    rcases List.mem_cons.mp hi with rfl | hi
    · exact g1
    · rw [← g2]
      exact ih h i hi

omit [F32Bits F] [F32Ops F] in
/-- with fewer states than the layers need, inference never succeeds -/
theorem infer_short {L : Type} [LayerOps F L] (b : Build) (n n' : Network F L) (x : Tensor F) (hl : n.layers ≠ [])
    (h : n.intermediate_states.length < n.layers.length + 1) : n.infer b x ≠ .ok (.ok (), n') := by
  intro hi
  unfold Network.infer at hi
  split at hi
  · cases hi
  split at hi
  · cases hi
  obtain ⟨states, hs, hi⟩ := bind_inv hi
  obtain ⟨⟨r, ls, ss⟩, h1, hi⟩ := bind_inv hi
  cases hi
  have hpos : 0 < n.layers.length := List.length_pos_of_ne_nil hl
  have := infer_loop_length _ h1 (n.layers.length - 1) (List.mem_range.mpr (by omega))
  have hlen : states.length = n.intermediate_states.length := by
    unfold vset at hs
    split at hs
    · cases hs
      simp
    · cases hs
  simp only at this
  omega

end Rusty
