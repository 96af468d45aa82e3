import Verif.Lemmas.Unwind
import Verif.Props.Loading

/-! # C81: what a panic leaves behind -/

namespace Rusty

open F32Ops Unwind Spec

variable {F : Type} [F32Ops F]

/-- C81, the two models agree: the statement by statement model has the results of the plain one, for calls that
return and for calls that panic. -/
theorem C81_agrees [F32Bits F] (b : Build) (n : Net F) (l : AnyLayer F) (s : SerializedLayer) (fs : FS)
    (name : String) :
    forget (Network.add_layer_u b l) n = n.add_layer b l ∧
    forget (Network.load_from_file_u b fs name) n = n.load_from_file b fs name ∧
    forget (Network.switch_to_training_u b) n = (n.switch_to_training b >>= fun n' => .ok ((), n')) ∧
    forget (Network.switch_to_inference_u b) n = (n.switch_to_inference b >>= fun n' => .ok ((), n')) ∧
    forget (AnyLayer.load_from_serialized_u b s) l = l.load_from_serialized b s ∧
    forget (AnyLayer.switch_to_training_u b) l = (l.switch_to_training b >>= fun l' => .ok ((), l')) ∧
    forget (AnyLayer.switch_to_inference_u b) l = (l.switch_to_inference b >>= fun l' => .ok ((), l')) :=
  ⟨Network.add_u b l n, Network.load_u b fs name n, Network.training_u b n, Network.inference_u b n,
    AnyLayer.load_u b s l, AnyLayer.switch_training_u b l, AnyLayer.switch_inference_u b l⟩

/-! ## Layers -/

omit [F32Ops F] in
/-- C81 for convolutional layers: a `fill_from_state` or a load that panics leaves the layer as it was. -/
theorem C81_convolutional_partial [F32Bits F] (b : Build) (l : ConvolutionalLayer F) :
    (∀ ks bs is st name p, (ConvolutionalLayer.fill_from_state_u b ks bs is st name l).1 = .error p →
      (ConvolutionalLayer.fill_from_state_u b ks bs is st name l).2 = l) ∧
    ∀ s p, (ConvolutionalLayer.load_from_serialized_u b s l).1 = .error p →
      (ConvolutionalLayer.load_from_serialized_u b s l).2 = l := by
  refine ⟨fun ks bs is st name => conv_fill_quiet b ks bs is st name l, fun s => ?_⟩
  suffices h : Quiet (ConvolutionalLayer.load_from_serialized_u (F := F) b s) from h l
  unfold ConvolutionalLayer.load_from_serialized_u
  cases s with
  | SerialConvolutionalLayer m =>
    simp only
    split
    · exact (Reads.pure _).quiet
    split
    · exact (Reads.pure _).quiet
    split
    · exact (Reads.pure _).quiet
    split
    · exact (Reads.pure _).quiet
    split
    · exact (Reads.pure _).quiet
    exact Quiet.bind (.eval _) fun _ => Quiet.bind (.eval _) fun _ => Quiet.bind (.eval _) fun _ =>
      Quiet.bind (.eval _) fun _ => Quiet.bind (.eval _) fun _ => conv_fill_quiet _ _ _ _ _ _
  | _ => exact (Reads.pure _).quiet

/-- C81 for max-pool layers: a `fill_from_state` or a load that panics leaves the layer as it was. -/
theorem C81_max_pool_partial (b : Build) (l : MaxPoolLayer) :
    (∀ is ma st name p, (MaxPoolLayer.fill_from_state_u b is ma st name l).1 = .error p →
      (MaxPoolLayer.fill_from_state_u b is ma st name l).2 = l) ∧
    ∀ s p, (MaxPoolLayer.load_from_serialized_u b s l).1 = .error p →
      (MaxPoolLayer.load_from_serialized_u b s l).2 = l := by
  refine ⟨fun is ma st name => mp_fill_quiet b is ma st name l, fun s => ?_⟩
  suffices h : Quiet (MaxPoolLayer.load_from_serialized_u b s) from h l
  unfold MaxPoolLayer.load_from_serialized_u
  cases s with
  | SerialMaxPoolLayer m =>
    simp only
    split
    · exact (Reads.pure _).quiet
    split
    · exact (Reads.pure _).quiet
    split
    · exact (Reads.pure _).quiet
    split
    · exact (Reads.pure _).quiet
    exact Quiet.bind (.eval _) fun _ => Quiet.bind (.eval _) fun _ => Quiet.bind (.eval _) fun _ =>
      Quiet.bind (.eval _) fun _ => mp_fill_quiet _ _ _ _ _
  | _ => exact (Reads.pure _).quiet

/-- C81 for fully connected layers: in inference mode and without overflow checks, a `fill_from_state` does not
panic and a load that panics leaves the layer as it was.

Partial: false in training mode with overflow checks, see `C81_fully_connected_negation`. -/
theorem C81_fully_connected_partial [F32Bits F] (b : Build) (l : FullyConnectedLayer F)
    (h : b = .release ∨ l.run_state = .Inference) :
    (∀ w bi name, ∃ r, (FullyConnectedLayer.fill_from_state_u b w bi name l).1 = .ok r) ∧
    ∀ s p, (FullyConnectedLayer.load_from_serialized_u b s l).1 = .error p →
      (FullyConnectedLayer.load_from_serialized_u b s l).2 = l := by
  have fill : ∀ w bi name, ∃ r, (FullyConnectedLayer.fill_from_state_u b w bi name l).1 = .ok r := by
    intro w bi name
    obtain ⟨r, l', e⟩ := fc_fill_returns b l w bi name h
    rw [← FullyConnectedLayer.fill_u, forget_ok] at e
    exact ⟨r, by rw [e]⟩
  refine ⟨fill, fun s p => ?_⟩
  unfold FullyConnectedLayer.load_from_serialized_u
  cases s with
  | SerialFullyConnectedLayer m =>
    simp only
    split
    · exact fun _ => rfl
    split
    · exact fun _ => rfl
    split
    · exact fun _ => rfl
    simp only [bind_apply, eval]
    split
    · next e1 =>
      simp only [Prod.mk.injEq] at e1
      obtain ⟨-, rfl⟩ := e1
      split
      · next e2 =>
        simp only [Prod.mk.injEq] at e2
        obtain ⟨-, rfl⟩ := e2
        split
        · next e3 =>
          simp only [Prod.mk.injEq] at e3
          obtain ⟨-, rfl⟩ := e3
          intro hp
          obtain ⟨r, hr⟩ := fill _ _ _
          rw [hr] at hp
          cases hp
        · next e3 => simp only [Prod.mk.injEq] at e3; exact fun _ => e3.2.symm
      · next e2 => simp only [Prod.mk.injEq] at e2; exact fun _ => e2.2.symm
    · next e1 => simp only [Prod.mk.injEq] at e1; exact fun _ => e1.2.symm
  | _ => exact fun _ => rfl

/-- C81 is false of fully connected layers: whenever `fill_from_state` panics, the layer already has the new
parameters, without the buffers for them.  It panics in training mode with overflow checks if the weights or the
bias report more elements than a u32 can count. -/
theorem C81_fully_connected_negation (b : Build) (l : FullyConnectedLayer F) (w bi : Tensor F) (name : String) :
    (∀ p, (FullyConnectedLayer.fill_from_state_u b w bi name l).1 = .error p →
      (FullyConnectedLayer.fill_from_state_u b w bi name l).2.weights = w ∧
      (FullyConnectedLayer.fill_from_state_u b w bi name l).2.bias = bi ∧
      (FullyConnectedLayer.fill_from_state_u b w bi name l).2.name = name) ∧
    (b = .debug → l.run_state = .Training → w.shape.dk = bi.shape.dk → w.shape.di = bi.shape.di →
      bi.shape.dj = 1 → ¬ (w.shape.Fits ∧ bi.shape.Fits) →
      ∃ p, (FullyConnectedLayer.fill_from_state_u b w bi name l).1 = .error p) := by
  constructor
  · intro p
    unfold FullyConnectedLayer.fill_from_state_u
    split
    · intro h; cases h
    split
    · intro h; cases h
    split
    · intro h; cases h
    intro _
    have keep := (Keeps.bind (fc_update_keeps b (.fc { l with weights := w, bias := bi, name := name }))
      fun _ => Keeps.pure (α := Res) _ (.ok ())) { l with weights := w, bias := bi, name := name } rfl
    have e := AnyLayer.fc.inj keep
    simp only [FullyConnectedLayer.mk.injEq] at e
    exact ⟨e.1, e.2.2.2.1, e.2.2.2.2.2.2.1⟩
  · rintro rfl hm h1 h2 h3 h4
    obtain ⟨p, hp⟩ := switch_training_panics (.fc { l with weights := w, bias := bi, name := name }) h4
    refine ⟨p, forget_error.mp ?_⟩
    rw [FullyConnectedLayer.fill_u]
    unfold FullyConnectedLayer.fill_from_state
    simp only [h1, h2, h3, ne_eq, not_true_eq_false, if_false]
    simp only [AnyLayer.switch_to_training, FullyConnectedLayer.switch_to_training] at hp
    rw [show ({ l with weights := w, bias := bi, name := name } : FullyConnectedLayer F) =
      { l with weights := w, bias := bi, name := name, run_state := .Training } by rw [← hm]]
    cases e : FullyConnectedLayer.update_tensors .debug
      { l with weights := w, bias := bi, name := name, run_state := .Training } with
    | error q =>
      rw [e] at hp
      cases hp
      rfl
    | ok x => rw [e] at hp; cases hp

omit [F32Ops F] in
/-- C81 is false of softmax layers, in all builds: loading from a map whose shape decodes and whose name does
not panics after the shape was replaced. -/
theorem C81_softmax_negation (b : Build) (l : SoftmaxLayer F) (m : HMap SMKey) (sh : TensorShape) (bs : Bytes)
    (h1 : Holds m .Shape decShape sh) (h2 : m.get .Name = some bs) (h3 : deserialize decString bs = none) :
    (SoftmaxLayer.load_from_serialized_u b (.SerialSoftMaxLayer m) l).1 = .error .expect ∧
    (SoftmaxLayer.load_from_serialized_u b (.SerialSoftMaxLayer m) l).2 = { l with shape := sh } := by
  have c : m.contains_key .Name = true := by
    unfold HMap.contains_key
    rw [h2]
    rfl
  have f : fetch m .Name decString = .error .expect := by
    unfold fetch
    rw [h2]
    simp only
    rw [h3]
  unfold SoftmaxLayer.load_from_serialized_u
  simp only [c, contains_holds h1, Bool.not_true, Bool.false_eq_true, if_false, bind_apply, eval, assign,
    fetch_holds h1, f]
  exact ⟨trivial, trivial⟩

/-- C81 is false of `fill_from_state` of softmax layers: whenever it panics, the layer already has the new
shape.  It panics in training mode with overflow checks if the shape has more elements than a u32 can count. -/
theorem C81_softmax_fill_negation (b : Build) (l : SoftmaxLayer F) (sh : TensorShape) (name : String) :
    (∀ p, (SoftmaxLayer.fill_from_state_u b sh name l).1 = .error p →
      (SoftmaxLayer.fill_from_state_u b sh name l).2.shape = sh ∧
      (SoftmaxLayer.fill_from_state_u b sh name l).2.name = name) ∧
    (b = .debug → l.run_state = .Training → ¬ sh.Fits →
      ∃ p, (SoftmaxLayer.fill_from_state_u b sh name l).1 = .error p) := by
  constructor
  · intro p _
    have keep := (Keeps.bind (sm_update_keeps b (.sm { l with shape := sh, name := name }))
      fun _ => Keeps.pure (α := Res) _ (.ok ())) { l with shape := sh, name := name } rfl
    have e := AnyLayer.sm.inj keep
    simp only [SoftmaxLayer.mk.injEq] at e
    exact ⟨e.1, e.2.1⟩
  · rintro rfl hm h4
    obtain ⟨p, hp⟩ := switch_training_panics (.sm { l with shape := sh, name := name }) h4
    refine ⟨p, forget_error.mp ?_⟩
    rw [SoftmaxLayer.fill_u]
    unfold SoftmaxLayer.fill_from_state
    simp only [AnyLayer.switch_to_training, SoftmaxLayer.switch_to_training] at hp
    rw [show ({ l with shape := sh, name := name } : SoftmaxLayer F) =
      { l with shape := sh, name := name, run_state := .Training } by rw [← hm]]
    cases e : SoftmaxLayer.update_tensors .debug
      { l with shape := sh, name := name, run_state := .Training } with
    | error q =>
      rw [e] at hp
      cases hp
      rfl
    | ok x => rw [e] at hp; cases hp

/-! ## Networks -/

/-- C81 for the switches of mode, as far as it holds: whether they return or panic, the layers keep their
parameters and the network its states and shapes; switching to inference does not panic. -/
theorem C81_switch_partial (b : Build) (n : Net F) :
    ((Network.switch_to_training_u b n).2.layers.map params = n.layers.map params ∧
      (Network.switch_to_training_u b n).2.intermediate_states = n.intermediate_states ∧
      (Network.switch_to_training_u b n).2.input_shape = n.input_shape ∧
      (Network.switch_to_training_u b n).2.output_shape = n.output_shape) ∧
    (Network.switch_to_inference_u b n).1 = .ok () := by
  constructor
  · have push : ∀ (ts : List (Tensor F)) (m : Net F), Keeps (fun k : Net F => k.layers = m.layers ∧
        k.intermediate_states = m.intermediate_states ∧ k.input_shape = m.input_shape ∧
        k.output_shape = m.output_shape) (Network.push_gradients_u b ts) := by
      intro ts m
      induction ts with
      | nil => exact .pure _ _
      | cons t ts ih => exact Keeps.bind (.eval _ _) fun _ => Keeps.bind (.assign fun _ h => h) fun _ => ih
    have hl := each_keeps _ (switch_training_keeps b) n.layers
    unfold Network.switch_to_training_u
    simp only [bind_apply, assign, Network.each_layer, eval]
    rcases (Network.each (AnyLayer.switch_to_training_u b) n.layers).1 with p | u
    · exact ⟨hl, rfl, rfl, rfl⟩
    · simp only
      obtain ⟨h1, h2, h3, h4⟩ := push n.intermediate_states
        { n with
          layers := (Network.each (AnyLayer.switch_to_training_u b) n.layers).2
          run_state := .Training, intermediate_gradients := [] } _ ⟨rfl, rfl, rfl, rfl⟩
      exact ⟨by rw [h1]; exact hl, h2, h3, h4⟩
  · have each : ∀ ls : List (AnyLayer F), (Network.each (AnyLayer.switch_to_inference_u b) ls).1 = .ok () := by
      intro ls
      induction ls with
      | nil => rfl
      | cons l ls ih =>
        obtain ⟨l', h, _⟩ := switch_inference_ok (b := b) l
        have h' := AnyLayer.switch_inference_u b l
        rw [h, ok_bind, forget_ok] at h'
        unfold Network.each
        rw [h']
        exact ih
    unfold Network.switch_to_inference_u
    simp only [bind_apply, assign, Network.each_layer, each]

/-- C81 for a `switch_to_training` that panics in one of the layers: the layers before it have been switched, it has
kept its parameters, the layers after it are as they were, and so is everything else of the network but its mode, the
gradients between the layers among it. -/
theorem C81_switch_layer_partial (b : Build) (n : Net F) (pre pre' post : List (AnyLayer F)) (l : AnyLayer F)
    (p : PanicKind) (hl : n.layers = pre ++ l :: post)
    (hpre : List.Forall₂ (fun a a' => a.switch_to_training b = .ok a') pre pre')
    (hp : l.switch_to_training b = .error p) :
    ∃ l', params l' = params l ∧ Network.switch_to_training_u b n =
      (.error p, { n with run_state := .Training, layers := pre' ++ l' :: post }) := by
  refine ⟨(AnyLayer.switch_to_training_u b l).2, switch_training_keeps b l l rfl, ?_⟩
  have one : (AnyLayer.switch_to_training_u b l).1 = .error p := by
    have h := AnyLayer.switch_training_u b l
    rw [hp] at h
    exact forget_error.mp h
  have each : Network.each (AnyLayer.switch_to_training_u b) (pre ++ l :: post) =
      (.error p, pre' ++ (AnyLayer.switch_to_training_u b l).2 :: post) := by
    clear hl
    induction hpre with
    | nil =>
      rw [List.nil_append, List.nil_append]
      unfold Network.each
      rcases h : AnyLayer.switch_to_training_u b l with ⟨r, l'⟩
      rw [h] at one
      cases one
      rfl
    | @cons a a' as as' ha _ ih =>
      have h := AnyLayer.switch_training_u b a
      rw [ha, ok_bind, forget_ok] at h
      rw [List.cons_append, List.cons_append]
      unfold Network.each
      rw [h]
      simp only [ih]
  unfold Network.switch_to_training_u
  simp only [bind_apply, assign, Network.each_layer, hl, each]

/-- C81 is false of `switch_to_training`: if it panics, the network is in training mode all the same. -/
theorem C81_switch_negation (b : Build) (n : Net F) :
    (Network.switch_to_training_u b n).2.run_state = .Training := by
  have push : ∀ ts : List (Tensor F), Keeps (fun k : Net F => k.run_state = .Training)
      (Network.push_gradients_u b ts) := by
    intro ts
    induction ts with
    | nil => exact .pure _ _
    | cons t ts ih => exact Keeps.bind (.eval _ _) fun _ => Keeps.bind (.assign fun _ h => h) fun _ => ih
  unfold Network.switch_to_training_u
  simp only [bind_apply, assign, Network.each_layer, eval]
  rcases (Network.each (AnyLayer.switch_to_training_u b) n.layers).1 with p | u
  · rfl
  · exact push _ _ rfl

/-- C81 for `add_layer`, as far as it holds: in release builds it does not panic, a panic in the switch of the
layer leaves the network as it was, and in any case the layers it had are still the first ones. -/
theorem C81_add_layer_partial (b : Build) (n : Net F) (l : AnyLayer F) :
    (b = .release → ∃ r, (Network.add_layer_u b l n).1 = .ok r) ∧
    (∀ p, Network.enter_mode b n.run_state l = .error p → Network.add_layer_u b l n = (.error p, n)) ∧
    n.layers <+: (Network.add_layer_u b l n).2.layers := by
  refine ⟨?_, fun p => add_u_switch_error, add_u_prefix b l n⟩
  rintro rfl
  obtain ⟨r, n', h⟩ := add_layer_returns' .release n l (.inl rfl)
  rw [← Network.add_u, forget_ok] at h
  exact ⟨r, by rw [h]⟩

/-- C81 is false of `add_layer`: with overflow checks, adding to a chain of layers one for whose states there
is no room panics after the layer was appended and before its states were, and inference with the network that is
left never succeeds again. -/
theorem C81_add_layer_negation (n : Net F) (l l' : AnyLayer F) (hc : Chain n)
    (hs : Network.enter_mode .debug n.run_state l = .ok l')
    (hr : NoRoom n l.get_input_shape l.get_output_shape) :
    (∃ p, (Network.add_layer_u .debug l n).1 = .error p) ∧
    (Network.add_layer_u .debug l n).2.layers = n.layers ++ [l'] ∧
    ∀ (b : Build) (x : Tensor F) (n' : Net F),
      (Network.add_layer_u .debug l n).2.infer b x ≠ .ok (.ok (), n') := by
  have mode : switchTo .debug n.run_state l = .ok l' := by
    rw [← hs]
    cases n.run_state <;> rfl
  have hp := (switchTo_effect _ _ _ mode).2.1
  have hlen := chain_length hc
  obtain ⟨p, hpanic⟩ := (add_layer_debug n l).mpr (.inr hr)
  rw [← Network.add_u, forget_error] at hpanic
  refine ⟨⟨p, hpanic⟩, ?_⟩
  unfold NoRoom at hr
  cases hn : n.layers.getLast? with
  | none =>
    have hnil := List.getLast?_eq_none_iff.mp hn
    rw [hn] at hr
    obtain ⟨h1, h2⟩ := add_u_first hs hnil
    refine ⟨by rw [h1, hnil]; rfl, fun b x n' => ?_⟩
    have hshort := h2 .overflow (by
      rw [params_input hp, params_output hp]
      exact hr.imp new_panics new_panics)
    rw [hnil, if_pos rfl] at hlen
    exact infer_short b _ _ x (by rw [h1]; simp) (by rw [h1]; simp; omega)
  | some last =>
    rw [hn] at hr
    obtain ⟨h1, h2⟩ := add_u_next hs hn (by rw [params_input hp]; exact hr.1)
    refine ⟨h1, fun b x n' => ?_⟩
    have hsame := h2 .overflow (by rw [params_output hp]; exact new_panics hr.2)
    have hne : n.layers ≠ [] := by
      intro e
      rw [e] at hn
      cases hn
    rw [if_neg hne] at hlen
    refine infer_short b _ _ x (by rw [h1]; simp) ?_
    rw [h1, hsame, hlen, List.length_append, List.length_singleton]
    omega

/-- C81 for `load_from_file`, as far as it holds: a panic comes from one of the layers of the file.  The layers
before it have been added, in order, and stay; the network's own layers stay first; and in release builds, or
when the layer is poisonous, the network is exactly the one those layers made. -/
theorem C81_load_partial [F32Bits F] (b : Build) (n : Net F) (fs : FS) (name : String) (p : PanicKind)
    (h : (Network.load_from_file_u b fs name n).1 = .error p) :
    ∃ bs pre, ∃ s : SerializedLayer, ∃ post n1, fs name = some bs ∧ deserialize decSerializedNetwork bs = some ⟨pre ++ s :: post⟩ ∧
      SerializedNetwork.populate_network b ⟨pre⟩ n = .ok (.ok (), n1) ∧
      s.add_to_network b n1 = .error p ∧
      n1.layers <+: (Network.load_from_file_u b fs name n).2.layers ∧
      (b = .release ∨ Poison F s → (Network.load_from_file_u b fs name n).2 = n1) := by
  have cons (s : SerializedLayer) (ss : List SerializedLayer) (n : Net F) : Network.populate_u b (s :: ss) n =
      match Network.add_to_network_u b s n with
      | (.ok (.ok ()), n') => Network.populate_u b ss n'
      | (.ok (.error e), n') => (.ok (.error e), n')
      | (.error p, n') => (.error p, n') := by
    conv_lhs => unfold Network.populate_u
    rw [bind_apply]
    rcases Network.add_to_network_u b s n with ⟨q | e | u, n'⟩ <;> rfl
  have pop : ∀ (ss : List SerializedLayer) (n : Net F) (p : PanicKind), (Network.populate_u b ss n).1 = .error p →
      ∃ pre s post n1, ss = pre ++ s :: post ∧ Network.populate_u b pre n = (.ok (.ok ()), n1) ∧
        (Network.add_to_network_u b s n1).1 = .error p ∧
        (Network.populate_u b ss n).2 = (Network.add_to_network_u b s n1).2 := by
    intro ss
    induction ss with
    | nil => intro n p h; cases h
    | cons s ss ih =>
      intro n p h
      rw [cons] at h ⊢
      rcases hs : Network.add_to_network_u b s n with ⟨q | e | u, n'⟩
      · rw [hs] at h
        cases h
        exact ⟨[], s, ss, n, rfl, rfl, by rw [hs], by rw [hs]⟩
      · rw [hs] at h; cases h
      · rw [hs] at h
        obtain ⟨pre, s', post, n1, h1, h2, h3, h4⟩ := ih n' p h
        refine ⟨s :: pre, s', post, n1, by rw [h1]; rfl, ?_, h3, h4⟩
        rw [cons, hs]
        exact h2
  unfold Network.load_from_file_u at h ⊢
  cases hf : fs name with
  | none => rw [hf] at h; cases h
  | some bs =>
    rw [hf] at h
    simp only at h ⊢
    cases hd : deserialize decSerializedNetwork bs with
    | none => rw [hd] at h; cases h
    | some sn =>
      rw [hd] at h
      simp only at h ⊢
      obtain ⟨pre, s, post, n1, h1, h2, h3, h4⟩ := pop sn.serial_layers n p h
      refine ⟨bs, pre, s, post, n1, rfl, ?_, ?_, ?_, ?_, ?_⟩
      · cases sn
        rw [hd]
        exact congrArg (fun x => some (SerializedNetwork.mk x)) h1
      · rw [← Network.pop_u, forget_ok]
        exact h2
      · rw [← Network.add_to_u, forget_error]
        exact h3
      · rw [h4, add_to_load]
        rcases loadPart b s with q | ⟨e | u, l⟩
        · exact List.prefix_refl _
        · exact List.prefix_refl _
        · exact add_u_prefix b l n1
      · intro hq
        rw [h4]
        rw [add_to_load] at h3 ⊢
        rcases hl : loadPart (F := F) b s with q | ⟨e | u, l⟩
        · rfl
        · rfl
        · rw [hl] at h3
          rcases hq with rfl | hq
          · obtain ⟨r, hr⟩ := (C81_add_layer_partial .release n1 l).1 rfl
            simp only at h3
            rw [hr] at h3
            cases h3
          · obtain ⟨q, hq⟩ := loadPart_poison (F := F) b s hq
            rw [hl] at hq
            cases hq

/-- C81 is false of `load_from_file` in all builds, with layers of the file left behind: if the layers before a
poisonous one changed the network, the panic leaves it changed. -/
theorem C81_load_negation [F32Bits F] (b : Build) (n n1 : Net F) (fs : FS) (name : String) (bs : Bytes)
    (pre post : List SerializedLayer) (s : SerializedLayer) (hf : fs name = some bs)
    (hd : deserialize decSerializedNetwork bs = some ⟨pre ++ s :: post⟩)
    (hp : SerializedNetwork.populate_network b ⟨pre⟩ n = .ok (.ok (), n1)) (hs : Poison F s) :
    (∃ p, (Network.load_from_file_u b fs name n).1 = .error p) ∧
    (Network.load_from_file_u b fs name n).2 = n1 := by
  rw [← Network.pop_u, forget_ok] at hp
  obtain ⟨p, hl⟩ := loadPart_poison (F := F) b s hs
  unfold Network.load_from_file_u
  rw [hf]
  simp only [hd]
  rw [populate_append _ _ _ _ _ hp]
  unfold Network.populate_u
  rw [bind_apply, add_to_load, hl]
  exact ⟨⟨p, rfl⟩, rfl⟩

/-! ## Examples -/

open Toy in
/-- a softmax layer whose name is cut off: the load panics, in release builds too, and the shape has changed -/
example : (SoftmaxLayer.load_from_serialized_u .release
      (.SerialSoftMaxLayer ⟨[(.Shape, encShape ⟨2, 1, 1⟩), (.Name, [])]⟩)
      (⟨⟨5, 1, 1⟩, "s", zeros ⟨1, 1, 1⟩, zeros ⟨1, 1, 1⟩, .Inference⟩ : SoftmaxLayer UInt32)).2.shape = ⟨2, 1, 1⟩ := by
  rw [(C81_softmax_negation .release _ _ ⟨2, 1, 1⟩ [] ⟨_, rfl, by decide⟩ rfl (by rfl)).2]

open Toy in
/-- a softmax layer with 2³² inputs -/
def exHuge : AnyLayer UInt32 := .sm ⟨⟨65536, 65536, 1⟩, "huge", zeros ⟨1, 1, 1⟩, zeros ⟨1, 1, 1⟩, .Inference⟩

open Toy in
/-- it is appended to an empty network although the call panics, and the network does not infer any more -/
example : (Network.add_layer_u .debug exHuge (Network.new .Inference)).2.layers.length = 1 ∧
    ∀ b x n', (Network.add_layer_u .debug exHuge (Network.new .Inference)).2.infer b x ≠ .ok (.ok (), n') := by
  have hc : Chain (Network.new .Inference : Net UInt32) :=
    ⟨fun i l l' h => by simp [Network.new] at h, fun l h => by simp [Network.new] at h,
      fun l h => by simp [Network.new] at h, rfl⟩
  obtain ⟨l', h, _⟩ := switch_inference_ok (b := .debug) exHuge
  obtain ⟨_, h1, h2⟩ := C81_add_layer_negation (Network.new .Inference) exHuge l' hc h
    (Or.inl (by unfold TensorShape.Fits; decide))
  exact ⟨by rw [h1]; rfl, h2⟩

open Toy in
/-- a network of that layer, with a gradient -/
def exHugeNet : Net UInt32 :=
  { (Network.new .Inference : Net UInt32) with layers := [exHuge], intermediate_gradients := [zeros ⟨1, 1, 1⟩] }

open Toy in
/-- switching it to training mode panics; its gradient is still there -/
example : ∃ p n', Network.switch_to_training_u .debug exHugeNet = (.error p, n') ∧
    n'.intermediate_gradients = [zeros ⟨1, 1, 1⟩] := by
  obtain ⟨p, hp⟩ := switch_training_panics exHuge (by unfold exHuge ShapesFit TensorShape.Fits; decide)
  obtain ⟨l', _, h⟩ := C81_switch_layer_partial .debug exHugeNet [] [] [] exHuge p rfl .nil hp
  exact ⟨p, _, h, rfl⟩

end Rusty
