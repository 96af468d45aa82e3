import Verif.Spec.AnyLayer
import Verif.Lemmas.FullyConnected
import Verif.Lemmas.ConvLayer
import Verif.Lemmas.Softmax
import Verif.Lemmas.Pooling

set_option linter.unusedSectionVars false

/-! # Helper lemmas: layers of any type -/

namespace Rusty

open F32Ops Spec

variable {F : Type} [F32Ops F] {b : Build}

/-! ## Layers that differ in the contents of their helper tensors only -/

/-- tensors of the same layout, pairwise -/
def sameLayouts (ts us : List (Tensor F)) : Prop := List.Forall₂ sameLayout ts us

theorem sameLayouts_refl (ts : List (Tensor F)) : sameLayouts ts ts := by
  induction ts with
  | nil => exact .nil
  | cons t ts ih => exact .cons (sameLayout_refl t) ih

theorem sameLayouts_trans {ts us vs : List (Tensor F)} (h : sameLayouts ts us)
    (h' : sameLayouts us vs) : sameLayouts ts vs := by
  induction h generalizing vs with
  | nil => exact h'
  | cons h1 _ ih =>
    cases h' with
    | cons h3 h4 => exact .cons (sameLayout_trans h1 h3) (ih h4)

theorem sameLayouts_set {ts us : List (Tensor F)} (h : sameLayouts ts us) (i : Nat) (t u : Tensor F)
    (ht : ts[i]? = some u) (hu : sameLayout t u) : sameLayouts (ts.set i t) us := by
  induction h generalizing i with
  | nil => cases ht
  | cons h1 h2 ih =>
    cases i with
    | zero =>
      simp only [List.getElem?_cons_zero, Option.some.injEq] at ht
      subst ht
      exact .cons (sameLayout_trans hu h1) h2
    | succ i =>
      simp only [List.getElem?_cons_succ] at ht
      exact .cons h1 (ih i ht)

theorem sameLayouts_map {ts : List (Tensor F)} (f : Tensor F → Tensor F)
    (h : ∀ t, sameLayout (f t) t) : sameLayouts (ts.map f) ts := by
  induction ts with
  | nil => exact .nil
  | cons t ts ih => exact .cons (h t) ih

/-- `l'` is `l` up to the contents (not the layout) of helper tensors -/
def Like : AnyLayer F → AnyLayer F → Prop
  | .conv l', .conv l => sameLayouts l'.kernel_gradients l.kernel_gradients ∧
      sameLayouts l'.bias_gradients l.bias_gradients ∧ sameLayout l'.relu_mask l.relu_mask ∧
      l'.run_state = l.run_state ∧ params (.conv l') = params (.conv l)
  | .fc l', .fc l => sameLayout l'.weights_gradients l.weights_gradients ∧
      sameLayout l'.weights_gradients_intermediate l.weights_gradients_intermediate ∧
      sameLayout l'.bias_gradients l.bias_gradients ∧ sameLayout l'.relu_mask l.relu_mask ∧
      l'.run_state = l.run_state ∧ params (.fc l') = params (.fc l)
  | .mp l', .mp l => l'.max_pool_origin.length = l.max_pool_origin.length ∧
      l'.run_state = l.run_state ∧ params (F := F) (.mp l') = params (.mp l)
  | .sm l', .sm l => sameLayout l'.intermediate1 l.intermediate1 ∧
      sameLayout l'.intermediate2 l.intermediate2 ∧
      l'.run_state = l.run_state ∧ params (.sm l') = params (.sm l)
  | _, _ => False

theorem like_refl (l : AnyLayer F) : Like l l := by
  cases l with
  | conv l => exact ⟨sameLayouts_refl _, sameLayouts_refl _, sameLayout_refl _, rfl, rfl⟩
  | fc l => exact ⟨sameLayout_refl _, sameLayout_refl _, sameLayout_refl _, sameLayout_refl _,
      rfl, rfl⟩
  | mp l => exact ⟨rfl, rfl, rfl⟩
  | sm l => exact ⟨sameLayout_refl _, sameLayout_refl _, rfl, rfl⟩

theorem like_trans {l l' l'' : AnyLayer F} (h : Like l'' l') (h' : Like l' l) : Like l'' l := by
  cases l <;> cases l' <;> cases l'' <;> first | exact h.elim | exact h'.elim | skip
  · exact ⟨sameLayouts_trans h.1 h'.1, sameLayouts_trans h.2.1 h'.2.1,
      sameLayout_trans h.2.2.1 h'.2.2.1, h.2.2.2.1.trans h'.2.2.2.1, h.2.2.2.2.trans h'.2.2.2.2⟩
  · exact ⟨sameLayout_trans h.1 h'.1, sameLayout_trans h.2.1 h'.2.1,
      sameLayout_trans h.2.2.1 h'.2.2.1, sameLayout_trans h.2.2.2.1 h'.2.2.2.1,
      h.2.2.2.2.1.trans h'.2.2.2.2.1, h.2.2.2.2.2.trans h'.2.2.2.2.2⟩
  · exact ⟨h.1.trans h'.1, h.2.1.trans h'.2.1, h.2.2.trans h'.2.2⟩
  · exact ⟨sameLayout_trans h.1 h'.1, sameLayout_trans h.2.1 h'.2.1,
      h.2.2.1.trans h'.2.2.1, h.2.2.2.trans h'.2.2.2⟩

theorem like_params {l l' : AnyLayer F} (h : Like l' l) : params l' = params l := by
  cases l <;> cases l' <;> first | exact h.elim | skip
  · exact h.2.2.2.2
  · exact h.2.2.2.2.2
  · exact h.2.2
  · exact h.2.2.2

theorem like_mode {l l' : AnyLayer F} (h : Like l' l) : l'.get_run_mode = l.get_run_mode := by
  cases l <;> cases l' <;> first | exact h.elim | skip
  · exact h.2.2.2.1
  · exact h.2.2.2.2.1
  · exact h.2.1
  · exact h.2.2.1

theorem sameLayouts_length {ts us : List (Tensor F)} (h : sameLayouts ts us) :
    ts.length = us.length := by
  induction h with
  | nil => rfl
  | cons _ _ ih => simp [ih]

theorem sameLayouts_get {ts us : List (Tensor F)} (h : sameLayouts ts us) (i : Nat)
    (h1 : i < ts.length) (h2 : i < us.length) : sameLayout ts[i] us[i] := by
  induction h generalizing i with
  | nil => cases h1
  | cons h3 _ ih =>
    cases i with
    | zero => exact h3
    | succ i => exact ih i _ _

/-! ## Parameters determine the rest -/

theorem params_input {l l' : AnyLayer F} (h : params l' = params l) :
    l'.get_input_shape = l.get_input_shape := by
  cases l <;> cases l' <;> simp only [params, AnyLayer.conv.injEq, AnyLayer.fc.injEq,
    AnyLayer.mp.injEq, AnyLayer.sm.injEq, ConvolutionalLayer.mk.injEq,
    FullyConnectedLayer.mk.injEq, MaxPoolLayer.mk.injEq, SoftmaxLayer.mk.injEq, reduceCtorEq] at h
  · exact h.2.2.2.2.2.2.1
  · simp only [AnyLayer.get_input_shape, FullyConnectedLayer.get_input_shape]; rw [h.1]
  · exact h.1
  · exact h.1

theorem params_output {l l' : AnyLayer F} (h : params l' = params l) :
    l'.get_output_shape = l.get_output_shape := by
  cases l <;> cases l' <;> simp only [params, AnyLayer.conv.injEq, AnyLayer.fc.injEq,
    AnyLayer.mp.injEq, AnyLayer.sm.injEq, ConvolutionalLayer.mk.injEq,
    FullyConnectedLayer.mk.injEq, MaxPoolLayer.mk.injEq, SoftmaxLayer.mk.injEq, reduceCtorEq] at h
  · exact h.2.2.2.2.2.2.2.1
  · simp only [AnyLayer.get_output_shape, FullyConnectedLayer.get_output_shape]; rw [h.2.2.2.1]
  · exact h.2.2.1
  · exact h.1

theorem params_name {l l' : AnyLayer F} (h : params l' = params l) :
    l'.get_name = l.get_name := by
  cases l <;> cases l' <;> simp only [params, AnyLayer.conv.injEq, AnyLayer.fc.injEq,
    AnyLayer.mp.injEq, AnyLayer.sm.injEq, ConvolutionalLayer.mk.injEq,
    FullyConnectedLayer.mk.injEq, MaxPoolLayer.mk.injEq, SoftmaxLayer.mk.injEq, reduceCtorEq] at h
  · exact h.2.2.2.2.2.2.2.2.1
  · exact h.2.2.2.2.2.2.1
  · exact h.2.2.2.2.1
  · exact h.2.1

/-- Layers with the same parameters in the same mode compute the same. -/
theorem layerAt_congr {l l' : AnyLayer F} (h : params l' = params l)
    (hm : l'.get_run_mode = l.get_run_mode) (x : Tensor F) (i j k : Nat) :
    layerAt l' x i j k = layerAt l x i j k := by
  cases l <;> cases l' <;> simp only [params, AnyLayer.conv.injEq, AnyLayer.fc.injEq,
    AnyLayer.mp.injEq, AnyLayer.sm.injEq, ConvolutionalLayer.mk.injEq,
    FullyConnectedLayer.mk.injEq, MaxPoolLayer.mk.injEq, SoftmaxLayer.mk.injEq, reduceCtorEq] at h
  · simp only [AnyLayer.get_run_mode] at hm
    simp only [layerAt, convPre]
    rw [hm, h.1, h.2.1, h.2.2.2.2.1]
  · simp only [AnyLayer.get_run_mode] at hm
    simp only [layerAt, preact]
    rw [hm, h.1, h.2.2.2.1]
  · simp only [layerAt]
    rw [h.2.1, h.2.2.2.1]
  · rfl

/-- With `max(v,0)` a plain case distinction, the mode does not matter either. -/
theorem layerAt_mode [MaxZero F] {l l' : AnyLayer F} (h : params l' = params l)
    (x : Tensor F) (i j k : Nat) : layerAt l' x i j k = layerAt l x i j k := by
  have ha : ∀ (m m' : NetworkRunState) (v : F), Summed v → act m v = act m' v := by
    intro m m' v hv
    cases m <;> cases m' <;> simp only [act, MaxZero.fmax_zero v hv, relu]
  cases l <;> cases l' <;> simp only [params, AnyLayer.conv.injEq, AnyLayer.fc.injEq,
    AnyLayer.mp.injEq, AnyLayer.sm.injEq, ConvolutionalLayer.mk.injEq,
    FullyConnectedLayer.mk.injEq, MaxPoolLayer.mk.injEq, SoftmaxLayer.mk.injEq, reduceCtorEq] at h
  · have e : ∀ (l l' : ConvolutionalLayer F), l'.kernels = l.kernels → l'.biases = l.biases →
        l'.stride = l.stride → convPre l' x i j k = convPre l x i j k := by
      intro l l' h1 h2 h3
      simp only [convPre]
      rw [h1, h2, h3]
    simp only [layerAt]
    rw [e _ _ h.1 h.2.1 h.2.2.2.2.1]
    exact ha _ _ _ (summed_convPre _ _ _ _ _)
  · have e : ∀ (l l' : FullyConnectedLayer F), l'.weights = l.weights → l'.bias = l.bias →
        preact l' x i = preact l x i := by
      intro l l' h1 h2
      simp only [preact]
      rw [h1, h2]
    simp only [layerAt]
    rw [e _ _ h.1 h.2.2.2.1]
    exact ha _ _ _ (summed_preact _ _ _)
  · simp only [layerAt]
    rw [h.2.1, h.2.2.2.1]
  · rfl

/-- Well-formedness does not depend on the contents of helper tensors. -/
theorem like_ok {l l' : AnyLayer F} (h : Like l' l) (hl : l.Ok) : l'.Ok := by
  have hp := like_params h
  cases l <;> cases l' <;> first | exact h.elim | skip
  all_goals
    simp only [params, AnyLayer.conv.injEq, AnyLayer.fc.injEq,
      AnyLayer.mp.injEq, AnyLayer.sm.injEq, ConvolutionalLayer.mk.injEq,
      FullyConnectedLayer.mk.injEq, MaxPoolLayer.mk.injEq, SoftmaxLayer.mk.injEq, true_and] at hp
  · rename_i l l'
    obtain ⟨h1, h2, h3, h4, _⟩ := h
    obtain ⟨p1, p2, p3, p4, p5, p6, _⟩ := hp
    have hl : l.Ok := hl
    change l'.Ok
    refine ⟨by rw [p3]; exact hl.stride, by rw [p4]; exact hl.input, by rw [p5]; exact hl.output,
      by rw [p1, p5]; exact hl.count, by rw [p1, p4, p3, p5]; exact hl.kernels,
      by rw [p1, p2]; exact hl.biasCount, by rw [p2]; exact hl.biases, ?_⟩
    intro hm
    obtain ⟨⟨b1, b2⟩, ⟨b3, b4⟩, b5, b6⟩ := hl.buffers (by rw [← h4]; exact hm)
    have e1 := sameLayouts_length h1
    have e2 := sameLayouts_length h2
    refine ⟨⟨by rw [e1, b1, p1], ?_⟩, ⟨by rw [e2, b3, p1], ?_⟩, ?_⟩
    · intro i hi hi'
      have := sameLayouts_get h1 i hi (by omega)
      obtain ⟨w1, w2⟩ := b2 i (by omega) (by rw [← p1]; exact hi')
      obtain ⟨w3, w4⟩ := sameLayout_wf this w1
      exact ⟨w3, by simp only [w4, w2, p1]⟩
    · intro g hg
      obtain ⟨i, hi, rfl⟩ := List.getElem_of_mem hg
      have := sameLayouts_get h2 i hi (by omega)
      obtain ⟨w1, w2⟩ := b4 _ (List.getElem_mem (show i < l.bias_gradients.length by omega))
      obtain ⟨w3, w4⟩ := sameLayout_wf this w1
      exact ⟨w3, by rw [w4, w2]⟩
    · obtain ⟨w3, w4⟩ := sameLayout_wf h3 b5
      exact ⟨w3, by rw [w4, b6, p5]⟩
  · rename_i l l'
    obtain ⟨h1, h2, h3, h4, h5, _⟩ := h
    obtain ⟨p1, p2, p3⟩ := hp
    have hl : l.Ok := hl
    change l'.Ok
    refine ⟨by rw [p1]; exact hl.weights, by rw [p2]; exact hl.bias,
      by rw [p1, p2]; exact hl.rows, by rw [p1]; exact hl.depth, ?_⟩
    intro hm
    obtain ⟨⟨w1, w2⟩, ⟨i1, i2⟩, ⟨g1, g2⟩, ⟨m1, m2⟩⟩ := hl.buffers (by rw [← h5]; exact hm)
    have a := sameLayout_wf h1 w1
    have c := sameLayout_wf h2 i1
    have d := sameLayout_wf h3 g1
    have e := sameLayout_wf h4 m1
    exact ⟨⟨a.1, by rw [a.2, w2, p1]⟩, ⟨c.1, by rw [c.2, i2, p1]⟩, ⟨d.1, by rw [d.2, g2, p2]⟩,
      ⟨e.1, by rw [e.2, m2, p2]⟩⟩
  · rename_i l l'
    obtain ⟨h1, h2, _⟩ := h
    obtain ⟨p1, p2, p3, p4, _⟩ := hp
    have hl : l.Ok := hl
    change l'.Ok
    refine ⟨by rw [p4]; exact hl.stride, by rw [p1, p2, p3, p4]; exact hl.tiles,
      by rw [p1, p3]; exact hl.depth, by rw [p1]; exact hl.input, by rw [p3]; exact hl.output, ?_⟩
    intro hm
    rw [h1, p3]
    exact hl.buffers (by rw [← h2]; exact hm)
  · rename_i l l'
    obtain ⟨h1, h2, h3, _⟩ := h
    obtain ⟨p1, p2⟩ := hp
    have hl : l.Ok := hl
    change l'.Ok
    refine ⟨by rw [p1]; exact hl.shape, ?_⟩
    intro hm
    obtain ⟨⟨w1, w2⟩, i1, i2⟩ := hl.buffers (by rw [← h3]; exact hm)
    have a := sameLayout_wf h1 w1
    have c := sameLayout_wf h2 i1
    exact ⟨⟨a.1, by rw [a.2, w2]⟩, c.1, by rw [c.2, i2, p1]⟩

/-! ## Forward and backward change helper tensors only -/

theorem forward_like (l : AnyLayer F) (x out : Tensor F) :
    Sat (l.forward b x out) fun p => Like p.2.1 l ∧ sameLayout p.2.2 out := by
  cases l with
  | conv l =>
    refine sat_bind' (Q := fun p => Like (.conv p.2.1) (.conv l) ∧ sameLayout p.2.2 out) ?_
      (fun p hp => sat_pure hp)
    unfold ConvolutionalLayer.forward
    cases hm : l.run_state with
    | Inference =>
      simp only
      refine sat_bind' (sat_forListE (fun t => sameLayout t out) (sameLayout_refl out) ?_) ?_
      · intro i _ t ht
        exact sat_bind fun _ _ => sat_bind fun _ _ => fun p hp =>
          sameLayout_trans (conv_bias_relu_layout _ _ _ _ _ _ p hp) ht
      · rintro ⟨r, o⟩ ho
        exact sat_pure ⟨like_refl _, ho⟩
    | Training =>
      simp only
      refine sat_bind' (sat_forListE (fun t => sameLayout t out) (sameLayout_refl out) ?_) ?_
      · intro i _ t ht
        exact sat_bind fun _ _ => sat_bind fun _ _ => fun p hp =>
          sameLayout_trans (conv_bias_layout _ _ _ _ _ _ p hp) ht
      · rintro ⟨r, o⟩ ho
        cases r with
        | error e => exact sat_pure ⟨like_refl _, ho⟩
        | ok u =>
          simp only
          have := relu_layout o l.relu_mask
          exact sat_pure ⟨⟨sameLayouts_refl _, sameLayouts_refl _, this.2, hm.symm, rfl⟩,
            sameLayout_trans this.1 ho⟩
  | fc l =>
    refine sat_bind' (Q := fun p => Like (.fc p.2.1) (.fc l) ∧ sameLayout p.2.2 out) ?_
      (fun p hp => sat_pure hp)
    unfold FullyConnectedLayer.forward
    cases hm : l.run_state with
    | Inference =>
      exact sat_bind' (mm_add_relu_layout _ _ _ _) fun a ha => sat_pure ⟨like_refl _, ha⟩
    | Training =>
      refine sat_bind' (mm_layout _ _ _) fun a ha => sat_pure ?_
      have := relu_layout (Tensor.add_to_self a l.bias) l.relu_mask
      exact ⟨⟨sameLayout_refl _, sameLayout_refl _, sameLayout_refl _, this.2, hm.symm, rfl⟩,
        sameLayout_trans this.1 (sameLayout_trans (add_to_self_layout _ _) ha)⟩
  | mp l =>
    refine sat_bind' (Q := fun p => Like (F := F) (.mp p.2.1) (.mp l) ∧ sameLayout p.2.2 out) ?_
      (fun p hp => sat_pure hp)
    unfold MaxPoolLayer.forward
    cases hm : l.run_state with
    | Inference =>
      exact sat_bind' (max_pool_layout _ _ _ _) fun a ha => sat_pure ⟨like_refl _, ha⟩
    | Training =>
      refine sat_bind' (track_layout _ _ _ _ _) fun a ha => ?_
      obtain ⟨r, o, og⟩ := a
      exact sat_pure ⟨⟨ha.2, hm.symm, rfl⟩, ha.1⟩
  | sm l =>
    refine sat_bind' (Q := fun p => Like (.sm p.2.1) (.sm l) ∧ sameLayout p.2.2 out) ?_
      (fun p hp => sat_pure hp)
    unfold SoftmaxLayer.forward
    exact sat_bind' (softmax_layout _ _) fun a ha => sat_pure ⟨like_refl _, ha⟩

theorem backward_like (l : AnyLayer F) (x y g og : Tensor F) :
    Sat (l.backward b x y g og) fun p => Like p.2.1 l ∧ sameLayout p.2.2 og := by
  cases l with
  | conv l =>
    refine sat_bind' (Q := fun p => Like (.conv p.2.1) (.conv l) ∧ sameLayout p.2.2 og) ?_
      (fun p hp => sat_pure hp)
    unfold ConvolutionalLayer.backward
    simp only
    refine sat_bind' (sat_forListE (fun kg => sameLayouts kg l.kernel_gradients)
      (sameLayouts_refl _) ?_) ?_
    · intro i _ kg hkg
      refine sat_bind fun g hg => sat_bind' (conv_kernel_layout _ _ _ _ _) fun p hp => ?_
      obtain ⟨r, g'⟩ := p
      refine sat_bind fun kg' hkg' => sat_pure ?_
      unfold vget at hg
      unfold vset at hkg'
      split at hg
      · rename_i v hv
        cases hg
        split at hkg'
        · cases hkg'
          exact sameLayouts_set hkg i _ _ hv hp
        · cases hkg'
      · cases hg
    · rintro ⟨r, kg⟩ hkg
      have hm := mul_self_layout l.relu_mask g
      cases r with
      | error e =>
        exact sat_pure ⟨⟨hkg, sameLayouts_refl _, hm, rfl, rfl⟩, sameLayout_refl _⟩
      | ok u =>
        refine sat_bind' (conv_outgoing_layout _ _ _ _) fun p hp => ?_
        obtain ⟨r, o⟩ := p
        cases r with
        | error e => exact sat_pure ⟨⟨hkg, sameLayouts_refl _, hm, rfl, rfl⟩, hp⟩
        | ok u => exact sat_pure ⟨⟨hkg, sameLayouts_refl _, hm, rfl, rfl⟩, hp⟩
  | fc l =>
    refine sat_bind' (Q := fun p => Like (.fc p.2.1) (.fc l) ∧ sameLayout p.2.2 og) ?_
      (fun p hp => sat_pure hp)
    unfold FullyConnectedLayer.backward
    split
    · simp only
      have hm := mul_self_layout l.relu_mask g
      have hb := add_to_self_layout l.bias_gradients (Tensor.multiply_elementwise_self l.relu_mask g)
      refine sat_bind' (mm_ts_layout _ _ _) fun p hp => ?_
      obtain ⟨r, w⟩ := p
      cases r with
      | error e => exact sat_pure ⟨⟨sameLayout_refl _, hp, hb, hm, rfl, rfl⟩, sameLayout_refl _⟩
      | ok u =>
        simp only
        have hw := add_to_self_layout l.weights_gradients w
        refine sat_bind' (mm_tf_layout _ _ _) fun p' hp' => ?_
        obtain ⟨r, o⟩ := p'
        cases r with
        | error e => exact sat_pure ⟨⟨hw, hp, hb, hm, rfl, rfl⟩, hp'⟩
        | ok u => exact sat_pure ⟨⟨hw, hp, hb, hm, rfl, rfl⟩, hp'⟩
    · exact sat_pure ⟨like_refl _, sameLayout_refl _⟩
  | mp l =>
    refine sat_bind' (Q := fun p => Like (F := F) (.mp p.2.1) (.mp l) ∧ sameLayout p.2.2 og) ?_
      (fun p hp => sat_pure hp)
    unfold MaxPoolLayer.backward
    simp only
    refine sat_bind' (scatter_layout _ _ _) fun p hp => ?_
    obtain ⟨r, o⟩ := p
    exact sat_pure ⟨like_refl _, sameLayout_trans hp (fill_layout og zero)⟩
  | sm l =>
    refine sat_bind' (Q := fun p => Like (.sm p.2.1) (.sm l) ∧ sameLayout p.2.2 og) ?_
      (fun p hp => sat_pure hp)
    unfold SoftmaxLayer.backward
    split
    · exact sat_pure ⟨like_refl _, sameLayout_refl _⟩
    · refine sat_bind' (mm_tf_layout _ _ _) fun p hp => ?_
      obtain ⟨r, i1⟩ := p
      simp only
      cases r with
      | error e => exact sat_pure ⟨⟨hp, sameLayout_refl _, rfl, rfl⟩, sameLayout_refl _⟩
      | ok u =>
        simp only
        refine sat_bind' (mm_layout _ _ _) fun i2 h2 => sat_pure ?_
        exact ⟨⟨sameLayout_trans (scale_self_layout _ _) hp, h2, rfl, rfl⟩,
          sameLayout_trans (add_to_self_layout _ _) (mul_layout _ _ _)⟩

theorem clear_like (l : AnyLayer F) : Like l.clear_gradients l := by
  cases l with
  | conv l => exact ⟨sameLayouts_map _ fun t => fill_layout t zero, sameLayouts_refl _,
      sameLayout_refl _, rfl, rfl⟩
  | fc l => exact ⟨fill_layout _ _, fill_layout _ _, fill_layout _ _, fill_layout _ _, rfl, rfl⟩
  | mp l => exact ⟨by simp [MaxPoolLayer.clear_gradients], rfl, rfl⟩
  | sm l => exact ⟨fill_layout _ _, fill_layout _ _, rfl, rfl⟩

/-! ## Forward on well formed layers -/

theorem mp_forward_ok {l : MaxPoolLayer} (hl : l.Ok) {x out : Tensor F} (hx : x.WF)
    (hxs : x.shape = l.input_shape) (ho : out.WF) (hos : out.shape = l.output_shape) :
    ∃ l' y, l.forward b x out = .ok (.ok (), l', y) ∧ y.WF ∧ y.shape = l.output_shape ∧
      ∀ i j k, l.output_shape.Inside i j k →
        val y i j k = maxOf (window x l.mask_shape l.stride.toNat i j k) := by
  have hs : l.stride.toNat ≠ 0 := fun h => hl.stride (u32_ext h)
  have hk : out.shape.dk = x.shape.dk := by rw [hos, hxs]; exact hl.depth
  have ht : windowsTile x.shape l.mask_shape l.stride out.shape := by
    rw [hos, hxs]; exact hl.tiles
  cases hm : l.run_state with
  | Inference =>
    obtain ⟨y, q1, q2, q3, q4⟩ := max_pool_ok (b := b) hx ho hs hk ht
    refine ⟨l, y, ?_, q2, q3.trans hos, fun i j k hin => q4 i j k (by rw [hos]; exact hin)⟩
    unfold MaxPoolLayer.forward
    rw [hm]
    simp only
    rw [q1]
    rfl
  | Training =>
    obtain ⟨y, o, q1, q2, q3, q4, q5⟩ := track_ok (b := b) hx ho hs hk ht
      (by rw [hos]; exact hl.buffers hm)
    refine ⟨{ l with max_pool_origin := o }, y, ?_, q2, q3.trans hos, fun i j k hin => ?_⟩
    · unfold MaxPoolLayer.forward
      rw [hm]
      simp only
      rw [q1]
      rfl
    · rw [(q5 i j k (by rw [hos]; exact hin)).1, runArg_fst, windowPos_fst]
      rfl

/-- `forward` on a well formed layer and tensors of its shapes -/
theorem forward_ok {l : AnyLayer F} (hl : l.Ok) {x out : Tensor F} (hx : x.WF)
    (hxs : x.shape = l.get_input_shape) (ho : out.WF) (hos : out.shape = l.get_output_shape) :
    ∃ l' y, l.forward b x out = .ok (.ok (), l', y) ∧ y.WF ∧ y.shape = l.get_output_shape ∧
      ∀ i j k, l.get_output_shape.Inside i j k → val y i j k = layerAt l x i j k := by
  cases l with
  | conv l =>
    cases hm : l.run_state with
    | Inference =>
      obtain ⟨y, q1, q2, q3, q4⟩ := conv_forward_inference (b := b) hl hm hx hxs ho hos
      refine ⟨.conv l, y, ?_, q2, q3, fun i j k hin => ?_⟩
      · simp only [AnyLayer.forward, AnyLayer.rewrap]; rw [q1]; rfl
      · rw [q4 i j k hin]; simp only [layerAt, hm, act]
    | Training =>
      obtain ⟨m, y, q1, q2, q3, q4, q5, q6⟩ := conv_forward_training (b := b) hl hm hx hxs ho hos
      refine ⟨.conv { l with relu_mask := m }, y, ?_, q2, q3, fun i j k hin => ?_⟩
      · simp only [AnyLayer.forward, AnyLayer.rewrap]; rw [q1]; rfl
      · rw [(q6 i j k hin).1]; simp only [layerAt, hm, act]
  | fc l =>
    have hin' : ∀ i j k, l.get_output_shape.Inside i j k →
        i < l.weights.shape.di.toNat ∧ j = 0 ∧ k = 0 := by
      intro i j k hin
      unfold FullyConnectedLayer.get_output_shape at hin
      rw [FullyConnectedLayer.Ok.rows hl] at hin
      exact col_inside_iff.mp hin
    cases hm : l.run_state with
    | Inference =>
      obtain ⟨y, q1, q2, q3, q4⟩ := fc_forward_inference (b := b) hl hm hx hxs ho hos
      refine ⟨.fc l, y, ?_, q2, q3, fun i j k hin => ?_⟩
      · simp only [AnyLayer.forward, AnyLayer.rewrap]; rw [q1]; rfl
      · obtain ⟨h1, rfl, rfl⟩ := hin' i j k hin
        rw [q4 i h1]; simp only [layerAt, hm, act]
    | Training =>
      obtain ⟨m, y, q1, q2, q3, q4, q5, q6⟩ := fc_forward_training (b := b) hl hm hx hxs ho hos
      refine ⟨.fc { l with relu_mask := m }, y, ?_, q2, q3, fun i j k hin => ?_⟩
      · simp only [AnyLayer.forward, AnyLayer.rewrap]; rw [q1]; rfl
      · obtain ⟨h1, rfl, rfl⟩ := hin' i j k hin
        rw [(q6 i h1).1]; simp only [layerAt, hm, act]
  | mp l =>
    obtain ⟨l', y, q1, q2, q3, q4⟩ := mp_forward_ok (b := b) hl hx hxs ho hos
    refine ⟨.mp l', y, ?_, q2, q3, q4⟩
    simp only [AnyLayer.forward, AnyLayer.rewrap]; rw [q1]; rfl
  | sm l =>
    have hs : x.shape = out.shape := hxs.trans hos.symm
    obtain ⟨y, q1, q2, q3, q4⟩ := softmax_ok hx ho hs
    refine ⟨.sm l, y, ?_, q2, q3.trans hos, fun i j k hin => q4 i j k (by rw [hos]; exact hin)⟩
    simp only [AnyLayer.forward, AnyLayer.rewrap, SoftmaxLayer.forward]; rw [q1]; rfl

end Rusty
