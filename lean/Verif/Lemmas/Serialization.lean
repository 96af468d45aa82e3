import Verif.Spec.Serialization
import Verif.Lemmas.Bincode
import Verif.Lemmas.Constructors
import Verif.Lemmas.Infer
import Verif.Props.Modes

/-! # Loading what was saved -/

namespace Rusty

open F32Ops Spec

variable {F : Type} [F32Ops F] [F32Bits F] {b : Build}

/-! ## Hash order -/

theorem layer_length (o : HashOrder) (i : Nat) (s : SerializedLayer) :
    (encSerializedLayer (o.layer i s)).length = (encSerializedLayer s).length := by
  have key : ∀ {K : Type} [SerKey K] (m : HMap K),
      (encHMap (⟨o.pick i m.entries⟩ : HMap K)).length = (encHMap m).length := by
    intro K _ m
    unfold encHMap
    rw [len_vec, len_vec]
    have := ((o.perm i m.entries).flatMap_right encEntry).length_eq
    rw [this]
  cases s <;> (unfold encSerializedLayer HashOrder.layer; simp only [List.length_append, key])

theorem layer_distinct (o : HashOrder) (i : Nat) {s : SerializedLayer} (h : s.Distinct) :
    (o.layer i s).Distinct := by
  cases s with
  | _ m => exact distinct_perm (m := m) h (o.perm i m.entries)

theorem mp_distinct (l : MaxPoolLayer) : l.get_serialized.Distinct := by
  change List.Pairwise _ [_, _, _, _]
  simp

omit [F32Ops F] in
theorem serialized_distinct (l : AnyLayer F) : l.get_serialized.Distinct := by
  cases l with
  | conv l =>
    change List.Pairwise _ [_, _, _, _, _]
    simp
  | fc l =>
    change List.Pairwise _ [_, _, _]
    simp
  | mp l => exact mp_distinct l
  | sm l =>
    change List.Pairwise _ [_, _]
    simp

theorem entry_length {K : Type} [SerKey K] {m : HMap K} {k : K} {v : Bytes}
    (h : (k, v) ∈ m.entries) : v.length ≤ (encHMap m).length := by
  have h1 := length_le_flatMap (e := encEntry) h
  unfold encHMap
  rw [len_vec]
  have h2 : (encEntry (k, v)).length = 4 + (8 + v.length) := by
    unfold encEntry encKey
    rw [List.length_append, len_u32, len_vec, flatMap_length_const (e := encU8) (fun _ => rfl), Nat.one_mul]
  omega

theorem fetch_mem {K : Type} [DecidableEq K] [SerKey K] {α : Type} {m : HMap K} (hd : m.Distinct)
    (hl : (encHMap m).length < 2 ^ 64) {e : α → Bytes} {d : Dec α} (hr : RoundTrips e d) {k : K}
    {x : α} (h : (k, e x) ∈ m.entries) : fetch m k d = .ok x := by
  have hx := entry_length h
  unfold fetch deserialize
  rw [get_mem hd h]
  have := hr x [] (by omega)
  rw [List.append_nil] at this
  simp only
  rw [this]
  rfl

theorem contains_mem {K : Type} [DecidableEq K] {m : HMap K} (hd : m.Distinct) {k : K} {v : Bytes}
    (h : (k, v) ∈ m.entries) : m.contains_key k = true := by
  unfold HMap.contains_key
  rw [get_mem hd h]
  rfl

/-! ## Loading gets the parameters back -/

theorem fc_load (l0 l : FullyConnectedLayer F) (o : HashOrder) (i : Nat)
    (hl : (encSerializedLayer l.get_serialized).length < 2 ^ 64) :
    l0.load_from_serialized b (o.layer i l.get_serialized) =
      l0.fill_from_state b l.weights l.bias l.name := by
  have hd : SerializedLayer.Distinct (o.layer i l.get_serialized) :=
    layer_distinct o i (serialized_distinct (.fc l))
  rw [← layer_length o i] at hl
  have hp := o.perm i [(FCKey.Weights, encTensor l.weights), (.Bias, encTensor l.bias),
    (.Name, encString l.name)]
  change FullyConnectedLayer.load_from_serialized_data b l0 ⟨o.pick i [(FCKey.Weights,
    encTensor l.weights), (.Bias, encTensor l.bias), (.Name, encString l.name)]⟩ = _
  change HMap.Distinct ⟨o.pick i [(FCKey.Weights,
    encTensor l.weights), (.Bias, encTensor l.bias), (.Name, encString l.name)]⟩ at hd
  change (encU32 1 ++ encHMap ⟨o.pick i [(FCKey.Weights,
    encTensor l.weights), (.Bias, encTensor l.bias), (.Name, encString l.name)]⟩).length < _ at hl
  rw [List.length_append] at hl
  generalize o.pick i [(FCKey.Weights, encTensor l.weights), (.Bias, encTensor l.bias),
    (.Name, encString l.name)] = es at hd hl hp ⊢
  have hl : (encHMap ⟨es⟩).length < 2 ^ 64 := by omega
  have m1 : (FCKey.Weights, encTensor l.weights) ∈ es := hp.mem_iff.mpr (by simp)
  have m2 : (FCKey.Bias, encTensor l.bias) ∈ es := hp.mem_iff.mpr (by simp)
  have m3 : (FCKey.Name, encString l.name) ∈ es := hp.mem_iff.mpr (by simp)
  unfold FullyConnectedLayer.load_from_serialized_data
  rw [contains_mem hd m1, contains_mem hd m2, contains_mem hd m3, fetch_mem hd hl rt_tensor m1,
    fetch_mem hd hl rt_tensor m2, fetch_mem hd hl rt_string m3]
  rfl

theorem mp_load (l0 l : MaxPoolLayer) (o : HashOrder) (i : Nat)
    (hl : (encSerializedLayer l.get_serialized).length < 2 ^ 64) :
    l0.load_from_serialized b (o.layer i l.get_serialized) =
      l0.fill_from_state b l.input_shape l.mask_shape l.stride l.name := by
  have hd : SerializedLayer.Distinct (o.layer i l.get_serialized) :=
    layer_distinct o i (mp_distinct l)
  rw [← layer_length o i] at hl
  have hp := o.perm i [(MPKey.MaskShape, encShape l.mask_shape), (.InputShape, encShape l.input_shape),
    (.Stride, encU32 l.stride), (.Name, encString l.name)]
  change MaxPoolLayer.load_from_serialized_data b l0 ⟨o.pick i [(MPKey.MaskShape,
    encShape l.mask_shape), (.InputShape, encShape l.input_shape), (.Stride, encU32 l.stride),
    (.Name, encString l.name)]⟩ = _
  change HMap.Distinct ⟨o.pick i [(MPKey.MaskShape,
    encShape l.mask_shape), (.InputShape, encShape l.input_shape), (.Stride, encU32 l.stride),
    (.Name, encString l.name)]⟩ at hd
  change (encU32 2 ++ encHMap ⟨o.pick i [(MPKey.MaskShape,
    encShape l.mask_shape), (.InputShape, encShape l.input_shape), (.Stride, encU32 l.stride),
    (.Name, encString l.name)]⟩).length < _ at hl
  rw [List.length_append] at hl
  generalize o.pick i [(MPKey.MaskShape, encShape l.mask_shape), (.InputShape, encShape l.input_shape),
    (.Stride, encU32 l.stride), (.Name, encString l.name)] = es at hd hl hp ⊢
  have hl : (encHMap ⟨es⟩).length < 2 ^ 64 := by omega
  have m1 : (MPKey.MaskShape, encShape l.mask_shape) ∈ es := hp.mem_iff.mpr (by simp)
  have m2 : (MPKey.InputShape, encShape l.input_shape) ∈ es := hp.mem_iff.mpr (by simp)
  have m3 : (MPKey.Stride, encU32 l.stride) ∈ es := hp.mem_iff.mpr (by simp)
  have m4 : (MPKey.Name, encString l.name) ∈ es := hp.mem_iff.mpr (by simp)
  unfold MaxPoolLayer.load_from_serialized_data
  rw [contains_mem hd m1, contains_mem hd m2, contains_mem hd m3, contains_mem hd m4,
    fetch_mem hd hl rt_shape m1, fetch_mem hd hl rt_shape m2, fetch_mem hd hl rt_u32 m3,
    fetch_mem hd hl rt_string m4]
  rfl

omit [F32Ops F] in
theorem sm_load (l0 l : SoftmaxLayer F) (o : HashOrder) (i : Nat)
    (hl : (encSerializedLayer l.get_serialized).length < 2 ^ 64) :
    l0.load_from_serialized b (o.layer i l.get_serialized) =
      .ok (.ok (), { l0 with shape := l.shape, name := l.name }) := by
  have hd : SerializedLayer.Distinct (o.layer i l.get_serialized) :=
    layer_distinct o i (serialized_distinct (.sm l))
  rw [← layer_length o i] at hl
  have hp := o.perm i [(SMKey.Shape, encShape l.shape), (.Name, encString l.name)]
  change SoftmaxLayer.load_from_serialized_data l0 ⟨o.pick i [(SMKey.Shape, encShape l.shape),
    (.Name, encString l.name)]⟩ = _
  change HMap.Distinct ⟨o.pick i [(SMKey.Shape, encShape l.shape), (.Name, encString l.name)]⟩ at hd
  change (encU32 3 ++ encHMap ⟨o.pick i [(SMKey.Shape, encShape l.shape),
    (.Name, encString l.name)]⟩).length < _ at hl
  rw [List.length_append] at hl
  generalize o.pick i [(SMKey.Shape, encShape l.shape), (.Name, encString l.name)] = es at hd hl hp ⊢
  have hl : (encHMap ⟨es⟩).length < 2 ^ 64 := by omega
  have m1 : (SMKey.Shape, encShape l.shape) ∈ es := hp.mem_iff.mpr (by simp)
  have m2 : (SMKey.Name, encString l.name) ∈ es := hp.mem_iff.mpr (by simp)
  unfold SoftmaxLayer.load_from_serialized_data
  rw [contains_mem hd m1, contains_mem hd m2, fetch_mem hd hl rt_shape m1,
    fetch_mem hd hl rt_string m2]
  rfl

omit [F32Ops F] in
theorem len_tensor_pos (t : Tensor F) : 0 < (encTensor t).length := by
  rw [len_tensor]
  omega

omit [F32Ops F] in
theorem conv_load (l0 l : ConvolutionalLayer F) (o : HashOrder) (i : Nat)
    (hl : (encSerializedLayer l.get_serialized).length < 2 ^ 64) :
    l0.load_from_serialized b (o.layer i l.get_serialized) =
      l0.fill_from_state b l.kernels l.biases l.input_shape l.stride l.name := by
  have hd : SerializedLayer.Distinct (o.layer i l.get_serialized) :=
    layer_distinct o i (serialized_distinct (.conv l))
  rw [← layer_length o i] at hl
  have hp := o.perm i [(ConvKey.Kernels, encVec encTensor l.kernels),
    (.Biases, encVec encTensor l.biases), (.InputShape, encShape l.input_shape),
    (.Stride, encU32 l.stride), (.Name, encString l.name)]
  change ConvolutionalLayer.load_from_serialized_data b l0 ⟨o.pick i [(ConvKey.Kernels,
    encVec encTensor l.kernels), (.Biases, encVec encTensor l.biases),
    (.InputShape, encShape l.input_shape), (.Stride, encU32 l.stride), (.Name, encString l.name)]⟩ = _
  change HMap.Distinct ⟨o.pick i [(ConvKey.Kernels,
    encVec encTensor l.kernels), (.Biases, encVec encTensor l.biases),
    (.InputShape, encShape l.input_shape), (.Stride, encU32 l.stride), (.Name, encString l.name)]⟩ at hd
  change (encU32 0 ++ encHMap ⟨o.pick i [(ConvKey.Kernels,
    encVec encTensor l.kernels), (.Biases, encVec encTensor l.biases),
    (.InputShape, encShape l.input_shape), (.Stride, encU32 l.stride),
    (.Name, encString l.name)]⟩).length < _ at hl
  rw [List.length_append] at hl
  generalize o.pick i [(ConvKey.Kernels, encVec encTensor l.kernels),
    (.Biases, encVec encTensor l.biases), (.InputShape, encShape l.input_shape),
    (.Stride, encU32 l.stride), (.Name, encString l.name)] = es at hd hl hp ⊢
  have hl : (encHMap ⟨es⟩).length < 2 ^ 64 := by omega
  have m1 : (ConvKey.Kernels, encVec encTensor l.kernels) ∈ es := hp.mem_iff.mpr (by simp)
  have m2 : (ConvKey.Biases, encVec encTensor l.biases) ∈ es := hp.mem_iff.mpr (by simp)
  have m3 : (ConvKey.InputShape, encShape l.input_shape) ∈ es := hp.mem_iff.mpr (by simp)
  have m4 : (ConvKey.Stride, encU32 l.stride) ∈ es := hp.mem_iff.mpr (by simp)
  have m5 : (ConvKey.Name, encString l.name) ∈ es := hp.mem_iff.mpr (by simp)
  unfold ConvolutionalLayer.load_from_serialized_data
  rw [contains_mem hd m1, contains_mem hd m2, contains_mem hd m3, contains_mem hd m4,
    contains_mem hd m5, fetch_mem hd hl (rt_vec rt_tensor len_tensor_pos) m1,
    fetch_mem hd hl (rt_vec rt_tensor len_tensor_pos) m2, fetch_mem hd hl rt_shape m3,
    fetch_mem hd hl rt_u32 m4, fetch_mem hd hl rt_string m5]
  rfl

/-! ## Which parameters are accepted -/

/-- `fill_from_state` accepts the layer's parameters and computes its output shape -/
def Fills (b : Build) : AnyLayer F → Prop
  | .conv l => ∀ l0 : ConvolutionalLayer F,
      l0.fill_from_state b l.kernels l.biases l.input_shape l.stride l.name =
        .ok (.ok (), { l0 with name := l.name, kernels := l.kernels, biases := l.biases,
                               input_shape := l.input_shape, output_shape := l.output_shape,
                               stride := l.stride })
  | .fc l => l.weights.shape.dk = l.bias.shape.dk ∧ l.weights.shape.di = l.bias.shape.di ∧
      l.bias.shape.dj = 1
  | .mp l => ∀ l0 : MaxPoolLayer,
      l0.fill_from_state b l.input_shape l.mask_shape l.stride l.name =
        .ok (.ok (), { l0 with input_shape := l.input_shape, output_shape := l.output_shape,
                               mask_shape := l.mask_shape, stride := l.stride, name := l.name })
  | .sm _ => True

omit [F32Ops F] [F32Bits F] in
theorem fills_params {l l' : AnyLayer F} (h : params l' = params l) (hf : Fills b l) : Fills b l' := by
  cases l <;> cases l' <;> simp only [params, AnyLayer.conv.injEq, AnyLayer.fc.injEq,
    AnyLayer.mp.injEq, AnyLayer.sm.injEq, ConvolutionalLayer.mk.injEq,
    FullyConnectedLayer.mk.injEq, MaxPoolLayer.mk.injEq, SoftmaxLayer.mk.injEq, reduceCtorEq] at h
  · obtain ⟨h1, h2, _, _, h3, _, h4, h5, h6, _⟩ := h
    unfold Fills at hf ⊢
    simp only [h1, h2, h3, h4, h5, h6]
    exact hf
  · obtain ⟨h1, _, _, h2, _⟩ := h
    unfold Fills at hf ⊢
    simp only [h1, h2]
    exact hf
  · obtain ⟨h1, h2, h3, h4, h5, _⟩ := h
    unfold Fills at hf ⊢
    simp only [h1, h2, h3, h4, h5]
    exact hf
  · trivial

omit [F32Ops F] [F32Bits F] in
theorem conv_fill_fills {l0 l : ConvolutionalLayer F} {ks bs is st name}
    (h : l0.fill_from_state b ks bs is st name = .ok (.ok (), l)) : Fills b (.conv l) := by
  unfold ConvolutionalLayer.fill_from_state at h
  cases ks with
  | nil => cases h
  | cons k0 ks =>
    simp only at h
    split at h
    · cases h
    · rename_i hs
      cases hf : Tensor.does_kernel_stride_fit_image b is k0.shape st with
      | error e => rw [hf] at h; cases h
      | ok v =>
        rw [hf, ok_bind] at h
        cases v with
        | false => cases h
        | true =>
          simp only [not_true_eq_false, if_false] at h
          cases hg : Tensor.get_convolution_dim_fit b is k0.shape st with
          | error e => rw [hg] at h; cases h
          | ok v =>
            obtain ⟨d0, d1⟩ := v
            rw [hg] at h
            have h := (Prod.mk.inj (Except.ok.inj h)).2
            subst h
            intro l1
            unfold ConvolutionalLayer.fill_from_state
            simp only
            rw [if_neg hs, hf, ok_bind]
            simp only [not_true_eq_false, if_false]
            rw [hg]
            rfl

omit [F32Ops F] [F32Bits F] in
theorem mp_fill_fills {l0 l : MaxPoolLayer} {is mask st name}
    (h : l0.fill_from_state b is mask st name = .ok (.ok (), l)) : Fills b (.mp l : AnyLayer F) := by
  unfold MaxPoolLayer.fill_from_state at h
  cases hf : Tensor.does_kernel_stride_fit_image b is mask st with
  | error e => rw [hf] at h; cases h
  | ok v =>
    rw [hf, ok_bind] at h
    cases v with
    | false => cases h
    | true =>
      simp only [not_true_eq_false, if_false] at h
      cases hg : Tensor.get_convolution_dim_fit b is mask st with
      | error e => rw [hg] at h; cases h
      | ok v =>
        obtain ⟨d0, d1⟩ := v
        rw [hg] at h
        have h := (Prod.mk.inj (Except.ok.inj h)).2
        subst h
        intro l1
        unfold MaxPoolLayer.fill_from_state
        simp only
        rw [hf, ok_bind]
        simp only [not_true_eq_false, if_false]
        rw [hg]
        rfl

omit [F32Bits F] in
theorem fc_update_params (l : FullyConnectedLayer F) :
    Sat (l.update_tensors b) fun l' => l'.weights = l.weights ∧ l'.bias = l.bias ∧ l'.name = l.name := by
  unfold FullyConnectedLayer.update_tensors
  split
  · exact sat_bind fun _ _ => sat_bind fun _ _ => sat_bind fun _ _ => sat_bind fun _ _ =>
      sat_pure ⟨rfl, rfl, rfl⟩
  · exact sat_bind fun _ _ => sat_bind fun _ _ => sat_bind fun _ _ => sat_bind fun _ _ =>
      sat_pure ⟨rfl, rfl, rfl⟩

omit [F32Bits F] in
theorem fc_fill_fills {l0 l : FullyConnectedLayer F} {w bi name}
    (h : l0.fill_from_state b w bi name = .ok (.ok (), l)) : Fills b (.fc l) := by
  unfold FullyConnectedLayer.fill_from_state at h
  simp only at h
  split at h
  · cases h
  · rename_i h1
    split at h
    · cases h
    · rename_i h2
      split at h
      · cases h
      · rename_i h3
        cases hu : FullyConnectedLayer.update_tensors b { l0 with weights := w, bias := bi, name := name } with
        | error e => rw [hu] at h; cases h
        | ok l' =>
          rw [hu] at h
          have h := (Prod.mk.inj (Except.ok.inj h)).2
          subst h
          obtain ⟨e1, e2, _⟩ := fc_update_params _ _ hu
          unfold Fills
          simp only [e1, e2]
          exact ⟨not_not.mp h1, not_not.mp h2, not_not.mp h3⟩

theorem fc_load_fill {l0 l : FullyConnectedLayer F} {s : SerializedLayer}
    (h : l0.load_from_serialized b s = .ok (.ok (), l)) :
    ∃ w bi name, l0.fill_from_state b w bi name = .ok (.ok (), l) := by
  unfold FullyConnectedLayer.load_from_serialized at h
  split at h
  · rename_i m
    unfold FullyConnectedLayer.load_from_serialized_data at h
    split at h
    · cases h
    split at h
    · cases h
    split at h
    · cases h
    cases h1 : (fetch m FCKey.Weights decTensor : Exec (Tensor F)) with
    | error e => rw [h1] at h; cases h
    | ok w =>
      rw [h1, ok_bind] at h
      cases h2 : (fetch m FCKey.Bias decTensor : Exec (Tensor F)) with
      | error e => rw [h2] at h; cases h
      | ok bi =>
        rw [h2, ok_bind] at h
        cases h3 : fetch m FCKey.Name decString with
        | error e => rw [h3] at h; cases h
        | ok name =>
          rw [h3, ok_bind] at h
          exact ⟨w, bi, name, h⟩
  · cases h

theorem mp_load_fill {l0 l : MaxPoolLayer} {s : SerializedLayer}
    (h : l0.load_from_serialized b s = .ok (.ok (), l)) :
    ∃ is mask st name, l0.fill_from_state b is mask st name = .ok (.ok (), l) := by
  unfold MaxPoolLayer.load_from_serialized at h
  split at h
  · rename_i m
    unfold MaxPoolLayer.load_from_serialized_data at h
    split at h
    · cases h
    split at h
    · cases h
    split at h
    · cases h
    split at h
    · cases h
    cases h1 : fetch m MPKey.MaskShape decShape with
    | error e => rw [h1] at h; cases h
    | ok w =>
      rw [h1, ok_bind] at h
      cases h2 : fetch m MPKey.InputShape decShape with
      | error e => rw [h2] at h; cases h
      | ok bi =>
        rw [h2, ok_bind] at h
        cases h3 : fetch m MPKey.Stride decU32 with
        | error e => rw [h3] at h; cases h
        | ok st =>
          rw [h3, ok_bind] at h
          cases h4 : fetch m MPKey.Name decString with
          | error e => rw [h4] at h; cases h
          | ok name =>
            rw [h4, ok_bind] at h
            exact ⟨bi, w, st, name, h⟩
  · cases h

omit [F32Ops F] in
theorem conv_load_fill {l0 l : ConvolutionalLayer F} {s : SerializedLayer}
    (h : l0.load_from_serialized b s = .ok (.ok (), l)) :
    ∃ ks bs is st name, l0.fill_from_state b ks bs is st name = .ok (.ok (), l) := by
  unfold ConvolutionalLayer.load_from_serialized at h
  split at h
  · rename_i m
    unfold ConvolutionalLayer.load_from_serialized_data at h
    split at h
    · cases h
    split at h
    · cases h
    split at h
    · cases h
    split at h
    · cases h
    split at h
    · cases h
    cases h1 : (fetch m ConvKey.Kernels (decVec decTensor) : Exec (List (Tensor F))) with
    | error e => rw [h1] at h; cases h
    | ok ks =>
      rw [h1, ok_bind] at h
      cases h2 : (fetch m ConvKey.Biases (decVec decTensor) : Exec (List (Tensor F))) with
      | error e => rw [h2] at h; cases h
      | ok bs =>
        rw [h2, ok_bind] at h
        cases h5 : fetch m ConvKey.InputShape decShape with
        | error e => rw [h5] at h; cases h
        | ok is =>
          rw [h5, ok_bind] at h
          cases h3 : fetch m ConvKey.Stride decU32 with
          | error e => rw [h3] at h; cases h
          | ok st =>
            rw [h3, ok_bind] at h
            cases h4 : fetch m ConvKey.Name decString with
            | error e => rw [h4] at h; cases h
            | ok name =>
              rw [h4, ok_bind] at h
              exact ⟨ks, bs, is, st, name, h⟩
  · cases h

theorem made_fills {l : AnyLayer F} (h : Made b l) : Fills b l := by
  induction h with
  | conv_new ks is st d name l h =>
    unfold ConvolutionalLayer.new at h
    revert h
    refine (?_ : Sat _ fun r => r = .ok l → Fills b (.conv l)) _ |> fun k h => k h rfl
    refine sat_bind fun _ _ => sat_bind fun _ _ => sat_bind fun _ _ => sat_bind fun p hp => ?_
    obtain ⟨r, l'⟩ := p
    cases r with
    | error e => exact sat_pure (fun h => by cases h)
    | ok u => exact sat_pure (fun h => by cases h; exact conv_fill_fills hp)
  | conv_fill l0 ks bs is st name l h => exact conv_fill_fills h
  | conv_load l0 s l h =>
    obtain ⟨_, _, _, _, _, h⟩ := conv_load_fill h
    exact conv_fill_fills h
  | fc_new n m name l h =>
    unfold FullyConnectedLayer.new at h
    revert h
    refine (?_ : Sat _ fun r => r = l → Fills b (.fc l)) _ |> fun k h => k h rfl
    refine sat_bind fun _ _ => sat_bind fun _ _ => sat_bind fun _ _ => sat_bind fun p hp => ?_
    obtain ⟨r, l'⟩ := p
    cases r with
    | error e => exact fun _ h => by cases h
    | ok u => exact sat_pure (fun h => by cases h; exact fc_fill_fills hp)
  | fc_empty l h =>
    simp only [FullyConnectedLayer.empty, empty_ok, ok_bind, pure_ok] at h
    cases h
    exact ⟨rfl, rfl, rfl⟩
  | fc_fill l0 w bi name l h => exact fc_fill_fills h
  | fc_load l0 s l h =>
    obtain ⟨_, _, _, h⟩ := fc_load_fill h
    exact fc_fill_fills h
  | fc_weights l v _ ih => exact ih
  | fc_bias l v _ ih => exact ih
  | mp_new mask is st name l h =>
    unfold MaxPoolLayer.new at h
    revert h
    refine (?_ : Sat _ fun r => r = .ok l → Fills b (.mp l)) _ |> fun k h => k h rfl
    refine sat_bind fun p hp => ?_
    obtain ⟨r, l'⟩ := p
    cases r with
    | error e => exact sat_pure (fun h => by cases h)
    | ok u => exact sat_pure (fun h => by cases h; exact mp_fill_fills hp)
  | mp_empty => cases b <;> exact fun l0 => rfl
  | mp_fill l0 is mask st name l h => exact mp_fill_fills h
  | mp_load l0 s l h =>
    obtain ⟨_, _, _, _, h⟩ := mp_load_fill h
    exact mp_fill_fills h
  | sm l => trivial
  | call l l' _ h ih => exact fills_params (C51_call b l l' h).1 ih

omit [F32Ops F] [F32Bits F] in
/-- well formed layers are accepted in either build profile -/
theorem ok_fills {l : AnyLayer F} (h : l.Ok) (hk : hasKernels l) (b : Build) : Fills b l := by
  have key : ∀ {im w out : TensorShape} {s : UInt32}, s ≠ 0 → windowsTile im w s out →
      Tensor.does_kernel_stride_fit_image b im w s = .ok true ∧
      Tensor.get_convolution_dim_fit b im w s = .ok (out.di, out.dj) := by
    intro im w out s hs ht
    have hs' : s.toNat ≠ 0 := fun e => hs (UInt32.toNat_inj.mp e)
    have w1 := tiles_le ht.1
    have w2 := tiles_le ht.2
    have t1 := (tiles_iff hs' w1).mp ht.1
    have t2 := (tiles_iff hs' w2).mp ht.2
    rw [does_fit_spec hs' w1 w2, dim_fit_spec hs' w1 w2 (by rw [← t1.2]; exact u32_lt _)
      (by rw [← t2.2]; exact u32_lt _), ← t1.2, ← t2.2, ofNat_toNat_u32, ofNat_toNat_u32]
    exact ⟨by rw [decide_eq_true ⟨t1.1, t2.1⟩], rfl⟩
  cases l with
  | conv l =>
    have h : l.Ok := h
    have hk : l.kernels ≠ [] := hk
    intro l0
    obtain ⟨k0, hk0⟩ := List.exists_mem_of_ne_nil _ hk
    have hsame : ∀ k ∈ l.kernels, k.shape = k0.shape := by
      intro k hk1
      obtain ⟨_, d1, t1⟩ := h.kernels k hk1
      obtain ⟨_, d2, t2⟩ := h.kernels k0 hk0
      have e1 := t1.1.2
      have e2 := t1.2.2
      have e3 := t2.1.2
      have e4 := t2.2.2
      have f1 : k.shape.di = k0.shape.di := UInt32.toNat_inj.mp (by omega)
      have f2 : k.shape.dj = k0.shape.dj := UInt32.toNat_inj.mp (by omega)
      have f3 := d1.trans d2.symm
      cases hs : k.shape
      cases hs0 : k0.shape
      rw [hs, hs0] at f1 f2 f3
      simp only at f1 f2 f3
      rw [f1, f2, f3]
    obtain ⟨k1, k2⟩ := key h.stride (h.kernels k0 hk0).2.2
    have := (conv_fill_same (b := b) (l := l0) (bs := l.biases) (im := l.input_shape)
      (st := l.stride) (name := l.name) hk hsame).2 _ _ k1 k2
    rw [this, h.count, ofNat_toNat_u32]
  | fc l =>
    have h : l.Ok := h
    refine ⟨?_, ?_, ?_⟩ <;> rw [h.rows]
    exact h.depth
  | mp l =>
    have h : l.Ok := h
    intro l0
    obtain ⟨k1, k2⟩ := key h.stride h.tiles
    unfold MaxPoolLayer.fill_from_state
    rw [k1, ok_bind]
    simp only [not_true_eq_false, if_false]
    rw [k2, ok_bind, ← h.depth]
    rfl
  | sm l => trivial

/-! ## Loading one layer -/

/-- Serialised data of a layer that is accepted is added to any network as a layer with the same
parameters. -/
theorem load_any {l : AnyLayer F} (hf : Fills b l) (o : HashOrder) (i : Nat)
    (hl : (encSerializedLayer l.get_serialized).length < 2 ^ 64) :
    ∃ l', params l' = params l ∧ (l.Ok → l'.Ok) ∧
      ∀ n : Net F, (o.layer i l.get_serialized).add_to_network b n = n.add_layer b l' := by
  cases l with
  | conv l =>
    refine ⟨.conv { l with kernel_gradients := [], bias_gradients := [],
                           relu_mask := zeros ⟨1, 1, 1⟩, run_state := .Inference }, rfl, ?_, ?_⟩
    · intro h
      have h : l.Ok := h
      exact ⟨h.stride, h.input, h.output, h.count, h.kernels, h.biasCount, h.biases,
        fun e => by cases e⟩
    · intro n
      change (do
        let l0 ← ConvolutionalLayer.empty b
        let (r, l1) ← l0.load_from_serialized b (o.layer i l.get_serialized)
        match r with
        | .error e => pure (.error e, n)
        | .ok () => n.add_layer b (.conv l1) : Exec (Res × Net F)) = _
      unfold ConvolutionalLayer.empty
      simp only [empty_ok, ok_bind, pure_bind]
      rw [conv_load _ _ _ _ hl, hf]
      rfl
  | fc l =>
    obtain ⟨h1, h2, h3⟩ := hf
    refine ⟨.fc { l with weights_gradients := zeros ⟨1, 1, 1⟩, relu_mask := zeros ⟨1, 1, 1⟩,
                         weights_gradients_intermediate := zeros ⟨1, 1, 1⟩,
                         bias_gradients := zeros ⟨1, 1, 1⟩, run_state := .Inference }, rfl, ?_, ?_⟩
    · intro h
      have h : l.Ok := h
      exact ⟨h.weights, h.bias, h.rows, h.depth, fun e => by cases e⟩
    · intro n
      change (do
        let l0 ← FullyConnectedLayer.empty b
        let (r, l1) ← l0.load_from_serialized b (o.layer i l.get_serialized)
        match r with
        | .error e => pure (.error e, n)
        | .ok () => n.add_layer b (.fc l1) : Exec (Res × Net F)) = _
      unfold FullyConnectedLayer.empty
      simp only [empty_ok, ok_bind, pure_bind]
      rw [fc_load _ _ _ _ hl]
      unfold FullyConnectedLayer.fill_from_state
      simp only [h1, h2, h3, ne_eq, not_true_eq_false, if_false]
      unfold FullyConnectedLayer.update_tensors
      simp only [empty_ok, ok_bind, pure_bind]
  | mp l =>
    refine ⟨.mp { l with max_pool_origin := [], run_state := .Inference }, rfl, ?_, ?_⟩
    · intro h
      have h : l.Ok := h
      exact ⟨h.stride, h.tiles, h.depth, h.input, h.output, fun e => by cases e⟩
    · intro n
      change (do
        let (r, l1) ← MaxPoolLayer.empty.load_from_serialized b (o.layer i l.get_serialized)
        match r with
        | .error e => pure (.error e, n)
        | .ok () => n.add_layer b (.mp l1) : Exec (Res × Net F)) = _
      rw [mp_load _ _ _ _ hl, hf]
      rfl
  | sm l =>
    refine ⟨.sm { l with intermediate1 := zeros ⟨1, 1, 1⟩, intermediate2 := zeros ⟨1, 1, 1⟩,
                         run_state := .Inference }, rfl, ?_, ?_⟩
    · intro h
      have h : l.Ok := h
      exact ⟨h.shape, fun e => by cases e⟩
    · intro n
      change (do
        let l0 ← SoftmaxLayer.empty b
        let (r, l1) ← l0.load_from_serialized b (o.layer i l.get_serialized)
        match r with
        | .error e => pure (.error e, n)
        | .ok () => n.add_layer b (.sm l1) : Exec (Res × Net F)) = _
      unfold SoftmaxLayer.empty
      simp only [empty_ok, ok_bind, pure_bind]
      rw [sm_load _ _ _ _ hl]
      rfl

theorem load_layer {l l0 : AnyLayer F} (hf : Fills b l) (ht : sameType l l0)
    (hm : (∃ k, l0 = .fc k) → l0.get_run_mode = .Inference) (o : HashOrder) (i : Nat)
    (hl : (encSerializedLayer l.get_serialized).length < 2 ^ 64) :
    ∃ l', l0.load_from_serialized b (o.layer i l.get_serialized) = .ok (.ok (), l') ∧
      params l' = params l ∧ l'.get_run_mode = l0.get_run_mode := by
  cases l <;> cases l0 <;> first | exact ht.elim | skip
  · rename_i l l0
    have e : AnyLayer.load_from_serialized b (.conv l0) (o.layer i (AnyLayer.conv l).get_serialized) =
        .ok (.ok (), .conv { l0 with name := l.name, kernels := l.kernels, biases := l.biases,
                                     input_shape := l.input_shape, output_shape := l.output_shape,
                                     stride := l.stride }) := by
      simp only [AnyLayer.load_from_serialized, AnyLayer.get_serialized]
      rw [conv_load l0 l o i hl, hf l0]
      rfl
    exact ⟨_, e, rfl, rfl⟩
  · rename_i l l0
    obtain ⟨h1, h2, h3⟩ := hf
    have hm : l0.run_state = .Inference := hm ⟨l0, rfl⟩
    have e : AnyLayer.load_from_serialized b (.fc l0) (o.layer i (AnyLayer.fc l).get_serialized) =
        .ok (.ok (), .fc { l with weights_gradients := zeros ⟨1, 1, 1⟩, relu_mask := zeros ⟨1, 1, 1⟩,
                                  weights_gradients_intermediate := zeros ⟨1, 1, 1⟩,
                                  bias_gradients := zeros ⟨1, 1, 1⟩, run_state := .Inference }) := by
      simp only [AnyLayer.load_from_serialized, AnyLayer.get_serialized]
      rw [fc_load l0 l o i hl]
      unfold FullyConnectedLayer.fill_from_state FullyConnectedLayer.update_tensors
      simp only [h1, h2, h3, hm, ne_eq, not_true_eq_false, if_false, empty_ok, ok_bind]
      rfl
    exact ⟨_, e, rfl, hm.symm⟩
  · rename_i l l0
    have e : AnyLayer.load_from_serialized b (.mp l0 : AnyLayer F) (o.layer i l.get_serialized) =
        .ok (.ok (), .mp { l0 with input_shape := l.input_shape, output_shape := l.output_shape,
                                   mask_shape := l.mask_shape, stride := l.stride,
                                   name := l.name }) := by
      simp only [AnyLayer.load_from_serialized]
      rw [mp_load l0 l o i hl, hf l0]
      rfl
    exact ⟨_, e, rfl, rfl⟩
  · rename_i l l0
    have e : AnyLayer.load_from_serialized b (.sm l0) (o.layer i (AnyLayer.sm l).get_serialized) =
        .ok (.ok (), .sm { l0 with shape := l.shape, name := l.name }) := by
      simp only [AnyLayer.load_from_serialized, AnyLayer.get_serialized]
      rw [sm_load l0 l o i hl]
      rfl
    exact ⟨_, e, rfl, rfl⟩

omit [F32Ops F] [F32Bits F] in
theorem ok_of_params {l l' : AnyLayer F} (h : l.Ok) (hp : params l' = params l)
    (hm : l'.get_run_mode = .Inference) : l'.Ok := by
  cases l <;> cases l' <;> simp only [params, AnyLayer.conv.injEq, AnyLayer.fc.injEq,
    AnyLayer.mp.injEq, AnyLayer.sm.injEq, ConvolutionalLayer.mk.injEq,
    FullyConnectedLayer.mk.injEq, MaxPoolLayer.mk.injEq, SoftmaxLayer.mk.injEq, reduceCtorEq] at hp
  · rename_i l l'
    have h : l.Ok := h
    have hm : l'.run_state = .Inference := hm
    obtain ⟨h1, h2, _, _, h3, _, h4, h5, h6, _⟩ := hp
    refine ⟨?_, ?_, ?_, ?_, ?_, ?_, ?_, fun e => by rw [hm] at e; cases e⟩
    · rw [h3]; exact h.stride
    · rw [h4]; exact h.input
    · rw [h5]; exact h.output
    · rw [h1, h5]; exact h.count
    · rw [h1, h3, h4, h5]; exact h.kernels
    · rw [h1, h2]; exact h.biasCount
    · rw [h2]; exact h.biases
  · rename_i l l'
    have h : l.Ok := h
    have hm : l'.run_state = .Inference := hm
    obtain ⟨h1, _, _, h2, _⟩ := hp
    refine ⟨?_, ?_, ?_, ?_, fun e => by rw [hm] at e; cases e⟩
    · rw [h1]; exact h.weights
    · rw [h2]; exact h.bias
    · rw [h1, h2]; exact h.rows
    · rw [h1]; exact h.depth
  · rename_i l l'
    have h : l.Ok := h
    have hm : l'.run_state = .Inference := hm
    obtain ⟨h1, h2, h3, h4, h5, _⟩ := hp
    refine ⟨?_, ?_, ?_, ?_, ?_, fun e => by rw [hm] at e; cases e⟩
    · rw [h4]; exact h.stride
    · rw [h1, h2, h3, h4]; exact h.tiles
    · rw [h1, h3]; exact h.depth
    · rw [h1]; exact h.input
    · rw [h3]; exact h.output
  · rename_i l l'
    have h : l.Ok := h
    have hm : l'.run_state = .Inference := hm
    refine ⟨?_, fun e => by rw [hm] at e; cases e⟩
    rw [hp.1]; exact h.shape

omit [F32Bits F] in
/-- a layer that fits the end of the network is added -/
theorem add_layer_fits (n : Net F) {l : AnyLayer F} (hl : l.Ok)
    (h : ∀ last, n.layers.getLast? = some last → last.get_output_shape = l.get_input_shape) :
    ∃ n' l', n.add_layer b l = .ok (.ok (), n') ∧ n'.layers = n.layers ++ [l'] ∧
      params l' = params l ∧ n'.run_state = n.run_state ∧ l'.get_run_mode = n.run_state := by
  obtain ⟨r, n', hr⟩ := add_layer_returns (b := b) n hl
  rcases add_layer_effect n l _ hr with ⟨⟨last, h1, h2⟩, _⟩ | ⟨_, h2, l', ts, gs, h3, _, _, h6⟩
  · exact absurd (h last h1) h2
  · simp only at h2 h6
    obtain ⟨e1, e2, _, _⟩ := switchTo_effect _ _ _ h3
    subst h2 h6
    exact ⟨_, l', hr, rfl, e2, rfl, e1⟩

/-! ## Loading a network -/

omit [F32Ops F] in
theorem layer_le_network (o : HashOrder) (n : Net F) {l : AnyLayer F} (h : l ∈ n.layers) :
    (encSerializedLayer l.get_serialized).length ≤
      (encSerializedNetwork (o.network (SerializedNetwork.new_from_network n))).length := by
  obtain ⟨i, hi, rfl⟩ := List.getElem_of_mem h
  have hm : o.layer i n.layers[i].get_serialized ∈
      (o.network (SerializedNetwork.new_from_network n)).serial_layers := by
    refine List.mem_iff_getElem.mpr ⟨i, ?_, ?_⟩
    · simp [HashOrder.network, SerializedNetwork.new_from_network, Network.get_layers, hi]
    · simp [HashOrder.network, SerializedNetwork.new_from_network, Network.get_layers]
  have := length_le_flatMap (e := encSerializedLayer) hm
  unfold encSerializedNetwork encVec
  rw [layer_length] at this
  rw [List.length_append]
  omega

omit [F32Ops F] in
theorem network_distinct (o : HashOrder) (n : Net F) :
    ∀ s ∈ (o.network (SerializedNetwork.new_from_network n)).serial_layers, s.Distinct := by
  intro s hs
  obtain ⟨i, hi, rfl⟩ := List.getElem_of_mem hs
  simp only [HashOrder.network, SerializedNetwork.new_from_network, List.getElem_mapIdx,
    List.getElem_map]
  exact layer_distinct o i (serialized_distinct _)

/-- Loading the layers of a network one after the other into a network they fit. -/
theorem populate_ok {n n0 : Net F} (hn : NetOk n) (hk : ∀ l ∈ n.layers, hasKernels l) (o : HashOrder)
    (hl : (encSerializedNetwork (o.network (SerializedNetwork.new_from_network n))).length < 2 ^ 64)
    (h0 : Built b n0) (hfit0 : ∀ last first, n0.layers.getLast? = some last →
      n.layers.head? = some first → last.get_output_shape = first.get_input_shape) :
    ∃ n' ls, (o.network (SerializedNetwork.new_from_network n)).populate_network b n0 =
        .ok (.ok (), n') ∧ Built b n' ∧ n'.layers = n0.layers ++ ls ∧
      ls.map params = n.layers.map params ∧ n'.run_state = n0.run_state ∧
      ∀ l ∈ ls, l.get_run_mode = n0.run_state := by
  have hlen : (o.network (SerializedNetwork.new_from_network n)).serial_layers.length =
      n.layers.length := by
    simp [HashOrder.network, SerializedNetwork.new_from_network, Network.get_layers]
  have hget : ∀ i (h : i < n.layers.length),
      (o.network (SerializedNetwork.new_from_network n)).serial_layers[i]'(by rw [hlen]; exact h) =
        o.layer i n.layers[i].get_serialized := by
    intro i h
    simp [HashOrder.network, SerializedNetwork.new_from_network, Network.get_layers]
  obtain ⟨n', h1, ls, h2, h3, h4, h5, h6⟩ := forListE_prefix
    (o.network (SerializedNetwork.new_from_network n)).serial_layers n0
    (fun layer n => layer.add_to_network b n)
    (fun pre n' => ∃ ls, Built b n' ∧ n'.layers = n0.layers ++ ls ∧
      ls.map params = (n.layers.take pre.length).map params ∧
      n'.run_state = n0.run_state ∧ ∀ l ∈ ls, l.get_run_mode = n0.run_state)
    ⟨[], h0, (List.append_nil _).symm, rfl, rfl, fun _ h => by cases h⟩
    (by
      intro pre s post n1 hsplit ⟨ls, hb, he, hp, hm, hms⟩
      have hi : pre.length < n.layers.length := by
        rw [← hlen, hsplit]
        simp
      have hs : s = o.layer pre.length n.layers[pre.length].get_serialized := by
        rw [← hget _ hi]
        simp only [hsplit]
        rw [List.getElem_append_right (Nat.le_refl _)]
        simp
      have hmem : n.layers[pre.length] ∈ n.layers := List.getElem_mem hi
      obtain ⟨l', p1, p2, p3⟩ := load_any (b := b) (ok_fills (hn.layers _ hmem) (hk _ hmem) b) o
        pre.length (Nat.lt_of_le_of_lt (layer_le_network o n hmem) hl)
      have hok := p2 (hn.layers _ hmem)
      have hlen1 : ls.length = pre.length := by
        have := congrArg List.length hp
        simp only [List.length_map, List.length_take] at this
        omega
      have hfit : ∀ last, n1.layers.getLast? = some last →
          last.get_output_shape = l'.get_input_shape := by
        intro last hlast
        rw [params_input p1]
        rw [he] at hlast
        rcases Nat.eq_zero_or_pos pre.length with h | h
        · rw [List.length_eq_zero_iff.mp (hlen1.trans h), List.append_nil] at hlast
          refine hfit0 last _ hlast ?_
          rw [List.head?_eq_getElem?]
          simp only [h]
          exact List.getElem?_eq_getElem _
        · have hne : ls ≠ [] := fun e => by rw [e] at hlen1; simp at hlen1; omega
          rw [List.getLast?_append_of_ne_nil _ hne, List.getLast?_eq_getElem?, hlen1] at hlast
          obtain ⟨a, ha, hpa⟩ := map_get hp hlast
          rw [params_output hpa]
          have hpos : pre.length - 1 + 1 = pre.length := by omega
          have ha : n.layers[pre.length - 1]? = some a := by
            rw [List.getElem?_take] at ha
            split at ha
            · exact ha
            · cases ha
          exact hn.chain.links _ _ _ ha (by rw [hpos]; exact List.getElem?_eq_getElem hi)
      obtain ⟨n2, l2, q1, q2, q3, q4, q5⟩ := add_layer_fits (b := b) n1 hok hfit
      refine ⟨n2, by rw [hs, p3]; exact q1, ls ++ [l2], .add_layer _ _ _ _ hb hok q1,
        by rw [q2, he, List.append_assoc], ?_, by rw [q4, hm], ?_⟩
      · rw [List.map_append, hp, List.length_append, List.length_singleton,
          List.take_add_one, List.map_append, List.getElem?_eq_getElem hi]
        simp only [List.map_cons, List.map_nil, Option.toList_some]
        rw [q3, p1]
      · intro l hl
        rcases List.mem_append.mp hl with h | h
        · exact hms l h
        · rw [List.mem_singleton.mp h, q5, hm])
  refine ⟨n', ls, h1, h2, h3, ?_, h5, h6⟩
  rw [h4, hlen, List.take_length]

/-- Loading the layers of a network into a network they do not fit. -/
theorem populate_refused {n n0 : Net F} (hn : NetOk n) (hk : ∀ l ∈ n.layers, hasKernels l)
    (o : HashOrder)
    (hl : (encSerializedNetwork (o.network (SerializedNetwork.new_from_network n))).length < 2 ^ 64)
    {last first : AnyLayer F} (h1 : n0.layers.getLast? = some last)
    (h2 : n.layers.head? = some first) (hne : last.get_output_shape ≠ first.get_input_shape) :
    ∃ e, (o.network (SerializedNetwork.new_from_network n)).populate_network b n0 =
        .ok (.error e, n0) := by
  cases hls : n.layers with
  | nil => rw [hls] at h2; cases h2
  | cons l ls =>
    rw [hls] at h2
    cases h2
    have hmem : first ∈ n.layers := by rw [hls]; exact List.mem_cons_self
    obtain ⟨l', p1, p2, p3⟩ := load_any (b := b) (ok_fills (hn.layers _ hmem) (hk _ hmem) b) o
      0 (Nat.lt_of_le_of_lt (layer_le_network o n hmem) hl)
    obtain ⟨r, n', hr⟩ := add_layer_returns (b := b) n0 (p2 (hn.layers _ hmem))
    rcases add_layer_effect n0 l' _ hr with ⟨_, ⟨e, he⟩, h⟩ | ⟨h, _⟩
    · simp only at he h
      subst he h
      refine ⟨e, ?_⟩
      unfold SerializedNetwork.populate_network
      simp only [HashOrder.network, SerializedNetwork.new_from_network, Network.get_layers, hls,
        List.map_cons, List.mapIdx_cons]
      rw [forListE_cons, p3, hr]
      rfl
    · exact absurd ((h last h1).trans (params_input p1)) hne

end Rusty
