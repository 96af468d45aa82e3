import Verif.Lemmas.Serialization
import Verif.Lemmas.Constructors

/-! # Helper lemmas: loading data of unknown origin -/

namespace Rusty

open F32Ops Spec

section
variable {K α : Type} [DecidableEq K]

theorem fetch_holds {m : HMap K} {k : K} {d : Dec α} {a : α} (h : Holds m k d a) :
    fetch m k d = .ok a := by
  obtain ⟨bs, h1, h2⟩ := h
  unfold fetch
  rw [h1]
  simp only
  rw [h2]

theorem fetch_fails {m : HMap K} {k : K} {d : Dec α} (h : ¬ ∃ a, Holds m k d a) :
    fetch m k d = .error .expect := by
  unfold fetch
  cases h1 : m.get k with
  | none => rfl
  | some bs =>
    simp only
    cases h2 : deserialize d bs with
    | none => rfl
    | some a => exact absurd ⟨a, bs, h1, h2⟩ h

theorem holds_unique {m : HMap K} {k : K} {d : Dec α} {a a' : α} (h : Holds m k d a)
    (h' : Holds m k d a') : a = a' := by
  have := fetch_holds h
  rw [fetch_holds h'] at this
  cases this
  rfl

theorem contains_of {m : HMap K} {k : K} (h : ¬ ∀ e ∈ m.entries, e.1 ≠ k) :
    m.contains_key k = true := by
  unfold HMap.contains_key HMap.get
  cases h1 : m.entries.find? (fun e => decide (e.1 = k)) with
  | some e => rfl
  | none =>
    refine absurd (fun e he => ?_) h
    simpa using List.find?_eq_none.mp h1 e he

theorem contains_holds {m : HMap K} {k : K} {d : Dec α} {a : α} (h : Holds m k d a) :
    m.contains_key k = true := by
  obtain ⟨bs, h1, _⟩ := h
  unfold HMap.contains_key
  rw [h1]
  rfl

end

theorem subU_release (x y : UInt32) : subU .release x y = .ok (x - y) := by
  unfold subU; split <;> rfl

theorem addU_release (x y : UInt32) : addU .release x y = .ok (x + y) := by
  unfold addU; split <;> rfl

theorem mulU_release (x y : UInt32) : mulU .release x y = .ok (x * y) := by
  unfold mulU; split <;> rfl

theorem rem_ok {x y : UInt32} (h : y ≠ 0) : remU x y = .ok (x % y) := by
  unfold remU
  exact if_neg fun e => h (UInt32.toNat_inj.mp e)

theorem div_ok {x y : UInt32} (h : y ≠ 0) : divU x y = .ok (x / y) := by
  unfold divU
  exact if_neg fun e => h (UInt32.toNat_inj.mp e)

theorem fit_zero (b : Build) (im w : TensorShape) :
    ∃ p, Tensor.does_kernel_stride_fit_image b im w 0 = .error p := by
  unfold Tensor.does_kernel_stride_fit_image
  cases h : subU b im.di w.di with
  | error p => exact ⟨p, rfl⟩
  | ok d => exact ⟨.divZero, rfl⟩

/-- the two window computations return; in debug builds their result is the tiling -/
theorem fit_returns (b : Build) (im w : TensorShape) (st : UInt32) (hs : st ≠ 0)
    (h : b = .release ∨ WindowFits im w) :
    Tensor.does_kernel_stride_fit_image b im w st = .ok false ∨
    ∃ n m, Tensor.does_kernel_stride_fit_image b im w st = .ok true ∧
      Tensor.get_convolution_dim_fit b im w st = .ok (n, m) ∧
      (WindowFits im w → ∀ dk, windowsTile im w st ⟨n, m, dk⟩) := by
  by_cases hw : WindowFits im w
  · obtain ⟨h1, h2, h3, h4⟩ := hw
    rcases fit_cases (b := b) hs h1 h2 h3 h4 with ⟨n, m, e1, e2, e3⟩ | ⟨e1, _⟩
    · exact .inr ⟨n, m, e1, e2, fun _ dk => (e3 _).mpr ⟨rfl, rfl⟩⟩
    · exact .inl e1
  · obtain rfl : b = .release := h.resolve_right hw
    unfold Tensor.does_kernel_stride_fit_image Tensor.get_convolution_dim_fit
    simp only [subU_release, addU_release, rem_ok hs, div_ok hs, ok_bind]
    split
    · exact .inl rfl
    · split
      · exact .inl rfl
      · exact .inr ⟨_, _, rfl, rfl, fun h => absurd h hw⟩

variable {F : Type} [F32Ops F]

theorem new_returns (b : Build) (s : TensorShape) (h : b = .release ∨ s.Fits) :
    ∃ t : Tensor F, Tensor.new b s = .ok t := by
  rcases h with rfl | h
  · unfold Tensor.new TensorShape.total_size TensorStride.new_from_shape
    simp only [mulU_release, ok_bind]
    exact ⟨_, rfl⟩
  · exact ⟨_, new_ok h⟩

theorem total_returns (b : Build) (s : TensorShape) (h : b = .release ∨ s.Fits) :
    ∃ n, s.total_size b = .ok n := by
  rcases h with rfl | h
  · unfold TensorShape.total_size
    simp only [mulU_release, ok_bind]
    exact ⟨_, rfl⟩
  · exact ⟨_, total_size_ok h⟩

theorem kernel_grads_return (b : Build) (ks : List (Tensor F))
    (h : b = .release ∨ ∀ k ∈ ks, k.shape.Fits) (acc : List (Tensor F)) :
    ∃ gs : List (Tensor F), ks.foldlM (fun kg k => do
      let g ← Tensor.new b k.shape
      pure (kg ++ [g])) acc = (.ok gs : Exec _) := by
  induction ks generalizing acc with
  | nil => exact ⟨acc, rfl⟩
  | cons k ks ih =>
    obtain ⟨t, ht⟩ := new_returns (F := F) b k.shape (h.imp_right fun h => h k (List.mem_cons_self ..))
    rw [List.foldlM_cons, ht, ok_bind]
    simp only [pure_bind]
    exact ih (h.imp_right fun h x hx => h x (List.mem_cons_of_mem _ hx)) _

theorem switch_training_returns (b : Build) (l : AnyLayer F) (h : b = .release ∨ ShapesFit l) :
    ∃ l', l.switch_to_training b = .ok l' := by
  cases l with
  | conv l =>
    obtain ⟨gs, h1⟩ := kernel_grads_return b l.kernels (h.imp_right fun h => h.1) []
    obtain ⟨t, h2⟩ := new_returns (F := F) b l.output_shape (h.imp_right fun h => h.2)
    simp only [AnyLayer.switch_to_training, ConvolutionalLayer.switch_to_training,
      ConvolutionalLayer.update_tensors, h1, h2, ok_bind, TensorShape.new_1d,
      new_ok (F := F) (s := ⟨1, 1, 1⟩) (by decide)]
    exact ⟨_, rfl⟩
  | fc l =>
    obtain ⟨t1, h1⟩ := new_returns (F := F) b l.weights.shape (h.imp_right fun h => h.1)
    obtain ⟨t2, h2⟩ := new_returns (F := F) b l.bias.shape (h.imp_right fun h => h.2)
    simp only [AnyLayer.switch_to_training, FullyConnectedLayer.switch_to_training,
      FullyConnectedLayer.update_tensors, FullyConnectedLayer.get_output_shape, h1, h2, ok_bind]
    exact ⟨_, rfl⟩
  | mp l =>
    obtain ⟨n, h1⟩ := total_returns b l.output_shape h
    simp only [AnyLayer.switch_to_training, MaxPoolLayer.switch_to_training,
      MaxPoolLayer.update_tensors, h1, ok_bind]
    exact ⟨_, rfl⟩
  | sm l =>
    obtain ⟨t, h1⟩ := new_returns (F := F) b l.shape h
    simp only [AnyLayer.switch_to_training, SoftmaxLayer.switch_to_training,
      SoftmaxLayer.update_tensors, ok_bind, TensorShape.new_1d, h1,
      new_ok (F := F) (s := ⟨1, 1, 1⟩) (by decide)]
    exact ⟨_, rfl⟩

theorem add_layer_returns' (b : Build) (n : Net F) (l : AnyLayer F)
    (h : b = .release ∨ (n.run_state = .Training → ShapesFit l) ∧ l.get_input_shape.Fits ∧
      l.get_output_shape.Fits) :
    ∃ r n', n.add_layer b l = .ok (r, n') := by
  have hsw : ∃ l', switchTo b n.run_state l = .ok l' := by
    cases hm : n.run_state with
    | Inference =>
      obtain ⟨l', h, _⟩ := switch_inference_ok (b := b) l
      exact ⟨l', h⟩
    | Training => exact switch_training_returns b l (h.imp_right fun h => h.1 hm)
  obtain ⟨l', hl'⟩ := hsw
  obtain ⟨_, hp, _, _⟩ := switchTo_effect _ _ _ hl'
  have hin : (LayerOps.get_input_shape l' : TensorShape) = l.get_input_shape := params_input hp
  have hout : (LayerOps.get_output_shape l' : TensorShape) = l.get_output_shape := params_output hp
  obtain ⟨t1, n1⟩ := new_returns (F := F) b l.get_input_shape (h.imp_right fun h => h.2.1)
  obtain ⟨t2, n2⟩ := new_returns (F := F) b l.get_output_shape (h.imp_right fun h => h.2.2)
  unfold Network.add_layer
  have e : Network.enter_mode b n.run_state l = .ok l' := by
    rw [← hl']
    cases n.run_state <;> rfl
  rw [e, ok_bind]
  simp only [hin, hout, n1, n2, ok_bind]
  cases n.layers.getLast? with
  | none =>
    simp only
    split
    · exact ⟨_, _, rfl⟩
    · exact ⟨_, _, rfl⟩
  | some last =>
    simp only
    split
    · exact ⟨_, _, rfl⟩
    · split
      · exact ⟨_, _, rfl⟩
      · exact ⟨_, _, rfl⟩

variable [F32Bits F]

/-- one layer of a file whose fields decode -/
theorem add_returns (b : Build) (n : Net F) (s : SerializedLayer) (hd : Decodes F s)
    (hz : ¬ ZeroStride F s) (h : b = .release ∨ Sized F s) :
    ∃ r n', s.add_to_network b n = .ok (r, n') := by
  cases s with
  | SerialConvolutionalLayer m =>
    obtain ⟨⟨ks, h1⟩, ⟨bs, h2⟩, ⟨is, h3⟩, ⟨st, h4⟩, ⟨name, h5⟩⟩ := hd
    simp only [SerializedLayer.add_to_network, ConvolutionalLayer.empty, empty_ok, ok_bind, pure_bind,
      ConvolutionalLayer.load_from_serialized, ConvolutionalLayer.load_from_serialized_data,
      contains_holds h1, contains_holds h2, contains_holds h3, contains_holds h4, contains_holds h5,
      Bool.not_true, Bool.false_eq_true, if_false, fetch_holds h1, fetch_holds h2, fetch_holds h3,
      fetch_holds h4, fetch_holds h5]
    unfold ConvolutionalLayer.fill_from_state
    cases ks with
    | nil => exact ⟨_, _, rfl⟩
    | cons k ks =>
      simp only
      split
      · exact ⟨_, _, rfl⟩
      · next hall =>
        have hall : ∀ k' ∈ ks, k'.shape = k.shape := by
          simpa using hall
        have hs : st ≠ 0 := fun e => hz ⟨⟨k, ks, h1, hall⟩, e ▸ h4⟩
        have hsz := h.imp_right fun h => h _ _ _ h1 h3 h4
        rcases fit_returns b is k.shape st hs (hsz.imp_right fun h => (h.2 k (List.mem_cons_self ..)).2.1)
          with e | ⟨d0, d1, e1, e2, e3⟩
        · simp only [e, ok_bind]
          exact ⟨_, _, rfl⟩
        · simp only [e1, e2, ok_bind, not_true_eq_false, if_false, pure_bind]
          refine add_layer_returns' b n _ (hsz.imp_right fun h => ?_)
          obtain ⟨i1, i2⟩ := h
          obtain ⟨_, w, o⟩ := i2 k (List.mem_cons_self ..)
          have ho := o _ (e3 w _) rfl
          exact ⟨fun _ => ⟨fun x hx => (i2 x hx).1, ho⟩, i1, ho⟩
  | SerialFullyConnectedLayer m =>
    obtain ⟨⟨w, h1⟩, ⟨bi, h2⟩, ⟨name, h3⟩⟩ := hd
    simp only [SerializedLayer.add_to_network, FullyConnectedLayer.empty, empty_ok, ok_bind, pure_bind,
      FullyConnectedLayer.load_from_serialized, FullyConnectedLayer.load_from_serialized_data,
      contains_holds h1, contains_holds h2, contains_holds h3,
      Bool.not_true, Bool.false_eq_true, if_false, fetch_holds h1, fetch_holds h2, fetch_holds h3]
    unfold FullyConnectedLayer.fill_from_state
    simp only
    split
    · exact ⟨_, _, rfl⟩
    · split
      · exact ⟨_, _, rfl⟩
      · split
        · exact ⟨_, _, rfl⟩
        · simp only [FullyConnectedLayer.update_tensors, empty_ok, ok_bind, pure_bind]
          refine add_layer_returns' b n _ (h.imp_right fun h => ?_)
          obtain ⟨i1, i2⟩ := h _ _ h1 h2
          refine ⟨fun _ => ⟨i1, i2⟩, ?_, i2⟩
          change TensorShape.Fits ⟨w.shape.dj, 1, 1⟩
          have := w.shape.dj.toNat_lt
          constructor
          · change w.shape.dj.toNat * 1 < _
            omega
          · change w.shape.dj.toNat * 1 * 1 < _
            omega
  | SerialMaxPoolLayer m =>
    obtain ⟨⟨ma, h1⟩, ⟨is, h2⟩, ⟨st, h3⟩, ⟨name, h4⟩⟩ := hd
    have hs : st ≠ 0 := fun e => by subst e; exact hz h3
    have hsz := h.imp_right fun h => h _ _ _ h1 h2 h3
    simp only [SerializedLayer.add_to_network,
      MaxPoolLayer.load_from_serialized, MaxPoolLayer.load_from_serialized_data,
      contains_holds h1, contains_holds h2, contains_holds h3, contains_holds h4,
      Bool.not_true, Bool.false_eq_true, if_false, fetch_holds h1, fetch_holds h2, fetch_holds h3,
      fetch_holds h4, ok_bind]
    unfold MaxPoolLayer.fill_from_state
    rcases fit_returns b is ma st hs (hsz.imp_right fun h => h.2.1)
      with e | ⟨d0, d1, e1, e2, e3⟩
    · simp only [e, ok_bind]
      exact ⟨_, _, rfl⟩
    · simp only [e1, e2, ok_bind, not_true_eq_false, if_false, pure_bind]
      refine add_layer_returns' b n _ (hsz.imp_right fun h => ?_)
      have ho := h.2.2 _ (e3 h.2.1 _) rfl
      exact ⟨fun _ => ho, h.1, ho⟩
  | SerialSoftMaxLayer m =>
    obtain ⟨⟨sh, h1⟩, ⟨name, h2⟩⟩ := hd
    simp only [SerializedLayer.add_to_network, SoftmaxLayer.empty, empty_ok, ok_bind, pure_bind,
      SoftmaxLayer.load_from_serialized, SoftmaxLayer.load_from_serialized_data,
      contains_holds h1, contains_holds h2,
      Bool.not_true, Bool.false_eq_true, if_false, fetch_holds h1, fetch_holds h2]
    refine add_layer_returns' b n _ (h.imp_right fun h => ?_)
    exact ⟨fun _ => h _ h1, h _ h1, h _ h1⟩

/-- a layer with a missing key -/
theorem add_lacking (b : Build) (n : Net F) (s : SerializedLayer) (h : lacksKey s) :
    ∃ e, s.add_to_network b n = .ok (.error e, n) := by
  have key : ∀ {K : Type} [DecidableEq K] (m : HMap K) (k : K), (∀ e ∈ m.entries, e.1 ≠ k) →
      m.contains_key k = false := by
    intro K _ m k hk
    unfold HMap.contains_key HMap.get
    rw [List.find?_eq_none.mpr (fun e he => by simpa using hk e he)]
    rfl
  cases s <;> obtain ⟨k, hk, hm⟩ := h <;> have := key _ k hm
  · simp only [SerializedLayer.add_to_network, ConvolutionalLayer.empty, empty_ok, ok_bind, pure_bind,
      ConvolutionalLayer.load_from_serialized, ConvolutionalLayer.load_from_serialized_data]
    simp only [List.mem_cons, List.not_mem_nil, or_false] at hk
    rcases hk with rfl | rfl | rfl | rfl | rfl <;> simp only [this, Bool.not_false, if_true] <;>
      repeat' split
    all_goals exact ⟨_, rfl⟩
  · simp only [SerializedLayer.add_to_network, FullyConnectedLayer.empty, empty_ok, ok_bind, pure_bind,
      FullyConnectedLayer.load_from_serialized, FullyConnectedLayer.load_from_serialized_data]
    simp only [List.mem_cons, List.not_mem_nil, or_false] at hk
    rcases hk with rfl | rfl | rfl <;> simp only [this, Bool.not_false, if_true] <;>
      repeat' split
    all_goals exact ⟨_, rfl⟩
  · simp only [SerializedLayer.add_to_network,
      MaxPoolLayer.load_from_serialized, MaxPoolLayer.load_from_serialized_data]
    simp only [List.mem_cons, List.not_mem_nil, or_false] at hk
    rcases hk with rfl | rfl | rfl | rfl <;> simp only [this, Bool.not_false, if_true] <;>
      repeat' split
    all_goals exact ⟨_, rfl⟩
  · simp only [SerializedLayer.add_to_network, SoftmaxLayer.empty, empty_ok, ok_bind, pure_bind,
      SoftmaxLayer.load_from_serialized, SoftmaxLayer.load_from_serialized_data]
    simp only [List.mem_cons, List.not_mem_nil, or_false] at hk
    rcases hk with rfl | rfl <;> simp only [this, Bool.not_false, if_true] <;>
      repeat' split
    all_goals exact ⟨_, rfl⟩

/-- a poisonous layer -/
theorem add_poison (b : Build) (n : Net F) (s : SerializedLayer) (h : Poison F s) :
    ∃ p, s.add_to_network b n = .error p := by
  obtain ⟨hk, hp⟩ := h
  cases s with
  | SerialConvolutionalLayer m =>
    have c : ∀ k, m.contains_key k = true := by
      intro k
      refine contains_of fun hc => hk ⟨k, ?_, hc⟩
      cases k <;> decide
    simp only [SerializedLayer.add_to_network, ConvolutionalLayer.empty, empty_ok, ok_bind, pure_bind,
      ConvolutionalLayer.load_from_serialized, ConvolutionalLayer.load_from_serialized_data, c,
      Bool.not_true, Bool.false_eq_true, if_false]
    by_cases h1 : ∃ ks : List (Tensor F), Holds m .Kernels (decVec decTensor) ks
    swap
    · rw [fetch_fails h1]; exact ⟨_, rfl⟩
    by_cases h2 : ∃ bs : List (Tensor F), Holds m .Biases (decVec decTensor) bs
    swap
    · rw [fetch_fails h2]; obtain ⟨_, h1⟩ := h1; rw [fetch_holds h1]; exact ⟨_, rfl⟩
    obtain ⟨ks, h1⟩ := h1
    obtain ⟨bs, h2⟩ := h2
    rw [fetch_holds h1, fetch_holds h2]
    simp only [ok_bind]
    by_cases h3 : ∃ is, Holds m .InputShape decShape is
    swap
    · rw [fetch_fails h3]; exact ⟨_, rfl⟩
    by_cases h4 : ∃ st, Holds m .Stride decU32 st
    swap
    · rw [fetch_fails h4]; obtain ⟨_, h3⟩ := h3; rw [fetch_holds h3]; exact ⟨_, rfl⟩
    obtain ⟨is, h3⟩ := h3
    obtain ⟨st, h4⟩ := h4
    rw [fetch_holds h3, fetch_holds h4]
    simp only [ok_bind]
    by_cases h5 : ∃ name, Holds m .Name decString name
    swap
    · rw [fetch_fails h5]; exact ⟨_, rfl⟩
    obtain ⟨name, h5⟩ := h5
    rw [fetch_holds h5]
    obtain ⟨⟨k, ks', z1, z2⟩, z3⟩ := hp.resolve_left fun hp =>
      hp ⟨⟨_, h1⟩, ⟨_, h2⟩, ⟨_, h3⟩, ⟨_, h4⟩, ⟨_, h5⟩⟩
    obtain rfl := holds_unique h1 z1
    obtain rfl := holds_unique h4 z3
    simp only [ok_bind]
    unfold ConvolutionalLayer.fill_from_state
    simp only
    obtain ⟨p, hp⟩ := fit_zero b is k.shape
    rw [if_neg (by simpa using z2), hp]
    exact ⟨p, rfl⟩
  | SerialFullyConnectedLayer m =>
    have c : ∀ k, m.contains_key k = true := by
      intro k
      refine contains_of fun hc => hk ⟨k, ?_, hc⟩
      cases k <;> decide
    simp only [SerializedLayer.add_to_network, FullyConnectedLayer.empty, empty_ok, ok_bind, pure_bind,
      FullyConnectedLayer.load_from_serialized, FullyConnectedLayer.load_from_serialized_data, c,
      Bool.not_true, Bool.false_eq_true, if_false]
    by_cases h1 : ∃ w : Tensor F, Holds m .Weights decTensor w
    swap
    · rw [fetch_fails h1]; exact ⟨_, rfl⟩
    by_cases h2 : ∃ bi : Tensor F, Holds m .Bias decTensor bi
    swap
    · rw [fetch_fails h2]; obtain ⟨_, h1⟩ := h1; rw [fetch_holds h1]; exact ⟨_, rfl⟩
    obtain ⟨w, h1⟩ := h1
    obtain ⟨bi, h2⟩ := h2
    rw [fetch_holds h1, fetch_holds h2]
    simp only [ok_bind]
    rw [fetch_fails (fun ⟨name, h3⟩ => hp.elim (fun hp => hp ⟨⟨w, h1⟩, ⟨bi, h2⟩, ⟨name, h3⟩⟩) id)]
    exact ⟨_, rfl⟩
  | SerialMaxPoolLayer m =>
    have c : ∀ k, m.contains_key k = true := by
      intro k
      refine contains_of fun hc => hk ⟨k, ?_, hc⟩
      cases k <;> decide
    simp only [SerializedLayer.add_to_network,
      MaxPoolLayer.load_from_serialized, MaxPoolLayer.load_from_serialized_data, c,
      Bool.not_true, Bool.false_eq_true, if_false]
    by_cases h1 : ∃ ma, Holds m .MaskShape decShape ma
    swap
    · rw [fetch_fails h1]; exact ⟨_, rfl⟩
    by_cases h2 : ∃ is, Holds m .InputShape decShape is
    swap
    · rw [fetch_fails h2]; obtain ⟨_, h1⟩ := h1; rw [fetch_holds h1]; exact ⟨_, rfl⟩
    obtain ⟨ma, h1⟩ := h1
    obtain ⟨is, h2⟩ := h2
    rw [fetch_holds h1, fetch_holds h2]
    simp only [ok_bind]
    by_cases h3 : ∃ st, Holds m .Stride decU32 st
    swap
    · rw [fetch_fails h3]; exact ⟨_, rfl⟩
    obtain ⟨st, h3⟩ := h3
    rw [fetch_holds h3]
    simp only [ok_bind]
    by_cases h4 : ∃ name, Holds m .Name decString name
    swap
    · rw [fetch_fails h4]; exact ⟨_, rfl⟩
    obtain ⟨name, h4⟩ := h4
    rw [fetch_holds h4]
    have z := hp.resolve_left fun hp => hp ⟨⟨_, h1⟩, ⟨_, h2⟩, ⟨_, h3⟩, ⟨_, h4⟩⟩
    obtain rfl := holds_unique h3 z
    simp only [ok_bind]
    unfold MaxPoolLayer.fill_from_state
    obtain ⟨p, hp⟩ := fit_zero b is ma
    rw [hp]
    exact ⟨p, rfl⟩
  | SerialSoftMaxLayer m =>
    have c : ∀ k, m.contains_key k = true := by
      intro k
      refine contains_of fun hc => hk ⟨k, ?_, hc⟩
      cases k <;> decide
    simp only [SerializedLayer.add_to_network, SoftmaxLayer.empty, empty_ok, ok_bind, pure_bind,
      SoftmaxLayer.load_from_serialized, SoftmaxLayer.load_from_serialized_data, c,
      Bool.not_true, Bool.false_eq_true, if_false]
    by_cases h1 : ∃ sh, Holds m .Shape decShape sh
    swap
    · rw [fetch_fails h1]; exact ⟨_, rfl⟩
    obtain ⟨sh, h1⟩ := h1
    rw [fetch_holds h1]
    simp only [ok_bind]
    rw [fetch_fails (fun ⟨name, h3⟩ => hp.elim (fun hp => hp ⟨⟨sh, h1⟩, ⟨name, h3⟩⟩) id)]
    exact ⟨_, rfl⟩

end Rusty
