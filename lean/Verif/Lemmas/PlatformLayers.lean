import Verif.Lemmas.Platform
import Verif.Spec.Network

/-! # Layers and networks on two arithmetics side by side -/

namespace Rusty

open F32Ops Spec

variable {F G : Type} [F32Ops F] [F32Ops G] {S : Prop} {R : F → G → Prop} {b : Build}

/-- the same message, related layers, related tensors -/
def Step {α β : Type} (R : F → G → Prop) (P : α → β → Prop) (p : Res × α × Tensor F) (q : Res × β × Tensor G) :
    Prop := p.1 = q.1 ∧ P p.2.1 q.2.1 ∧ SameTensor R p.2.2 q.2.2

variable {input output incoming outgoing : Tensor F} {input' output' incoming' outgoing' : Tensor G}

/-! ## Fully connected layers -/

section

variable {l : FullyConnectedLayer F} {m : FullyConnectedLayer G}

theorem rel_fc_update (ho : RespectsIf S R) (h : SameFC R l m) :
    SameRun (SameFC R) (l.update_tensors b) (m.update_tensors b) := by
  obtain ⟨hw, hwg, hwi, hb, hbg, hm, hn, hr⟩ := h
  unfold FullyConnectedLayer.update_tensors FullyConnectedLayer.get_output_shape
  rw [hr, hw.2.1, hb.2.1]
  cases m.run_state with
  | Inference =>
    exact rel_bind (rel_empty ho) fun _ _ h1 => rel_bind (rel_empty ho) fun _ _ h2 =>
      rel_bind (rel_empty ho) fun _ _ h3 => rel_bind (rel_empty ho) fun _ _ h4 =>
      rel_pure ⟨hw, h1, h2, hb, h3, h4, hn, rfl⟩
  | Training =>
    exact rel_bind (rel_new ho _) fun _ _ h1 => rel_bind (rel_new ho _) fun _ _ h2 =>
      rel_bind (rel_new ho _) fun _ _ h3 => rel_bind (rel_new ho _) fun _ _ h4 =>
      rel_pure ⟨hw, rel_fill h1 ho.zero, rel_fill h2 ho.zero, hb, rel_fill h3 ho.zero, rel_fill h4 ho.zero, hn, rfl⟩

theorem rel_fc_switch (ho : RespectsIf S R) (h : SameFC R l m) (s : NetworkRunState) :
    SameRun (SameFC R) ({ l with run_state := s }.update_tensors b) ({ m with run_state := s }.update_tensors b) := by
  obtain ⟨hw, hwg, hwi, hb, hbg, hm, hn, hr⟩ := h
  exact rel_fc_update ho ⟨hw, hwg, hwi, hb, hbg, hm, hn, rfl⟩

theorem rel_fc_forward (ho : RespectsIf S R) (h : SameFC R l m) (hi : SameTensor R input input')
    (hout : SameTensor R output output') :
    SameRun (Step R (SameFC R)) (l.forward b input output) (m.forward b input' output') := by
  obtain ⟨hw, hwg, hwi, hb, hbg, hm, hn, hr⟩ := h
  unfold FullyConnectedLayer.forward
  rw [hr]
  cases m.run_state with
  | Inference =>
    exact rel_bind (rel_mm_relu ho hi hw hb hout) fun _ _ h => rel_pure ⟨rfl, ⟨hw, hwg, hwi, hb, hbg, hm, hn, hr⟩, h⟩
  | Training =>
    refine rel_bind (rel_mm ho hw hi hout) fun x y h => ?_
    obtain ⟨h1, h2, h3⟩ := rel_relu_mask ho (rel_add_to_self ho h hb) hm
    exact rel_pure ⟨h1, ⟨hw, hwg, hwi, hb, hbg, h3, hn, rfl⟩, h2⟩

theorem rel_fc_backward (ho : RespectsIf S R) (h : SameFC R l m) (hi : SameTensor R input input')
    (hg : SameTensor R incoming incoming')
    (hog : SameTensor R outgoing outgoing') :
    SameRun (Step R (SameFC R)) (l.backward b input output incoming outgoing)
      (m.backward b input' output' incoming' outgoing') := by
  obtain ⟨hw, hwg, hwi, hb, hbg, hm, hn, hr⟩ := h
  unfold FullyConnectedLayer.backward
  rw [hr]
  have hm' := rel_mul_self ho hm hg
  have hb' := rel_add_to_self ho hbg hm'
  refine rel_ite ?_ (rel_pure ⟨rfl, ⟨hw, hwg, hwi, hb, hbg, hm, hn, hr⟩, hog⟩)
  refine rel_bind (rel_mm_second ho hm' hi hwi) ?_
  rintro ⟨r, w⟩ ⟨r', w'⟩ ⟨e, hw1⟩
  have e : r = r' := e
  subst e
  cases r with
  | error e => exact rel_pure ⟨rfl, ⟨hw, hwg, hw1, hb, hb', hm', hn, rfl⟩, hog⟩
  | ok _ =>
    refine rel_bind (rel_mm_first ho hw hm' hog) ?_
    rintro ⟨r, o⟩ ⟨r', o'⟩ ⟨e, ho1⟩
    have e : r = r' := e
    subst e
    have hl := rel_add_to_self ho hwg hw1
    cases r with
    | error e => exact rel_pure ⟨rfl, ⟨hw, hl, hw1, hb, hb', hm', hn, rfl⟩, ho1⟩
    | ok _ => exact rel_pure ⟨rfl, ⟨hw, hl, hw1, hb, hb', hm', hn, rfl⟩, ho1⟩

theorem rel_fc_clear (ho : RespectsIf S R) (h : SameFC R l m) : SameFC R l.clear_gradients m.clear_gradients := by
  obtain ⟨hw, hwg, hwi, hb, hbg, hm, hn, hr⟩ := h
  exact ⟨hw, rel_fill hwg ho.zero, rel_fill hwi ho.zero, hb, rel_fill hbg ho.zero, rel_fill hm ho.zero, hn, hr⟩

end

/-! ## Max pool layers -/

theorem rel_mp_forward (ho : RespectsIf S R) (l : MaxPoolLayer) (hi : SameTensor R input input')
    (hout : SameTensor R output output') :
    SameRun (Step R (· = ·)) (l.forward b input output) (l.forward b input' output') := by
  unfold MaxPoolLayer.forward
  cases l.run_state with
  | Inference => exact rel_bind (rel_max_pool ho hi _ _ hout) fun _ _ h => rel_pure ⟨rfl, rfl, h⟩
  | Training =>
    refine rel_bind (rel_max_pool_origin ho hi _ _ hout _) ?_
    rintro ⟨r, t, o⟩ ⟨r', t', o'⟩ ⟨e1, h, e2⟩
    have e1 : r = r' := e1
    have e2 : o = o' := e2
    subst e1
    subst e2
    exact rel_pure ⟨rfl, rfl, h⟩

theorem rel_mp_backward (ho : RespectsIf S R) (l : MaxPoolLayer) (hg : SameTensor R incoming incoming')
    (hog : SameTensor R outgoing outgoing') :
    SameRun (Step R (· = ·)) (l.backward b input output incoming outgoing)
      (l.backward b input' output' incoming' outgoing') := by
  unfold MaxPoolLayer.backward
  refine rel_bind (rel_index_list ho hg (rel_fill hog ho.zero) _) ?_
  rintro ⟨r, t⟩ ⟨r', t'⟩ ⟨e, h⟩
  exact rel_pure ⟨e, rfl, h⟩

/-! ## Softmax layers -/

section

variable {l : SoftmaxLayer F} {m : SoftmaxLayer G}

theorem rel_sm_switch (ho : RespectsIf S R) (h : SameSM R l m) (s : NetworkRunState) :
    SameRun (SameSM R) ({ l with run_state := s }.update_tensors b) ({ m with run_state := s }.update_tensors b) := by
  obtain ⟨hs, hn, h1, h2, hr⟩ := h
  unfold SoftmaxLayer.update_tensors
  cases s with
  | Inference =>
    exact rel_bind (rel_empty ho) fun _ _ h1 => rel_bind (rel_empty ho) fun _ _ h2 =>
      rel_pure ⟨hs, hn, h1, h2, rfl⟩
  | Training =>
    simp only [hs]
    exact rel_bind (rel_new ho _) fun _ _ h1 => rel_bind (rel_new ho _) fun _ _ h2 =>
      rel_pure ⟨rfl, hn, rel_fill h1 ho.zero, rel_fill h2 ho.zero, rfl⟩

theorem rel_sm_forward (ho : RespectsIf S R) (hS : S) (h : SameSM R l m) (hi : SameTensor R input input')
    (hout : SameTensor R output output') :
    SameRun (Step R (SameSM R)) (l.forward b input output) (m.forward b input' output') :=
  rel_bind (rel_softmax ho hS hi hout) fun _ _ h1 => rel_pure ⟨rfl, h, h1⟩

theorem rel_sm_backward (ho : RespectsIf S R) (h : SameSM R l m)
    (hout : SameTensor R output output') (hg : SameTensor R incoming incoming')
    (hog : SameTensor R outgoing outgoing') :
    SameRun (Step R (SameSM R)) (l.backward b input output incoming outgoing)
      (m.backward b input' output' incoming' outgoing') := by
  obtain ⟨hs, hn, h1, h2, hr⟩ := h
  unfold SoftmaxLayer.backward
  rw [hr]
  refine rel_ite (rel_pure ⟨rfl, ⟨hs, hn, h1, h2, hr⟩, hog⟩) (rel_bind (rel_mm_first ho hout hg h1) ?_)
  rintro ⟨r, w⟩ ⟨r', w'⟩ ⟨e, hw⟩
  have e : r = r' := e
  subst e
  cases r with
  | error e => exact rel_pure ⟨rfl, ⟨hs, hn, hw, h2, rfl⟩, hog⟩
  | ok _ =>
    have hw' := rel_scale_self ho hw ho.negOne
    exact rel_bind (rel_mm ho hout hw' h2) fun _ _ hi =>
      rel_pure ⟨rfl, ⟨hs, hn, hw', hi, rfl⟩, rel_add_to_self ho (rel_mul_elem ho hout hg hog) hi⟩

theorem rel_sm_clear (ho : RespectsIf S R) (h : SameSM R l m) : SameSM R l.clear_gradients m.clear_gradients := by
  obtain ⟨hs, hn, h1, h2, hr⟩ := h
  exact ⟨hs, hn, rel_fill h1 ho.zero, rel_fill h2 ho.zero, hr⟩

end

/-! ## Convolutional layers -/

section

variable {l : ConvolutionalLayer F} {m : ConvolutionalLayer G}

theorem rel_conv_switch (ho : RespectsIf S R) (h : SameConv R l m) (s : NetworkRunState) :
    SameRun (SameConv R) ({ l with run_state := s }.update_tensors b) ({ m with run_state := s }.update_tensors b) := by
  obtain ⟨hk, hb, hkg, hbg, hs, hm, hi, ho', hn, hr⟩ := h
  unfold ConvolutionalLayer.update_tensors
  cases s with
  | Inference =>
    exact rel_bind (rel_empty ho) fun _ _ h1 => rel_pure ⟨hk, hb, .nil, .nil, hs, h1, hi, ho', hn, rfl⟩
  | Training =>
    simp only [ho', rel_length hk]
    refine rel_bind (P := List.Forall₂ (SameTensor R)) ?_ fun _ _ h1 => rel_bind (rel_new ho _) fun _ _ h2 =>
      rel_bind (rel_new ho _) fun _ _ h3 =>
      rel_pure ⟨hk, hb, h1, rel_replicate _ h2, hs, h3, hi, rfl, hn, rfl⟩
    have H : ∀ (ks : List (Tensor F)) (ms : List (Tensor G)) (xs : List (Tensor F)) (ys : List (Tensor G)),
        List.Forall₂ (SameTensor R) ks ms → List.Forall₂ (SameTensor R) xs ys →
        SameRun (List.Forall₂ (SameTensor R))
          (ks.foldlM (fun kg k => do let g ← Tensor.new b k.shape; pure (kg ++ [g])) xs)
          (ms.foldlM (fun kg k => do let g ← Tensor.new b k.shape; pure (kg ++ [g])) ys) := by
      intro ks ms xs ys h
      induction h generalizing xs ys with
      | nil => exact id
      | @cons k k' ks ks' h _ ih =>
        intro hx
        rw [List.foldlM_cons, List.foldlM_cons, h.2.1]
        exact rel_bind (rel_bind (rel_new ho _) fun _ _ h => rel_pure (rel_append hx (.cons h .nil)))
          fun _ _ h => ih _ _ h
    exact H _ _ _ _ hk .nil

theorem rel_conv_forward (ho : RespectsIf S R) (h : SameConv R l m) (hin : SameTensor R input input')
    (hout : SameTensor R output output') :
    SameRun (Step R (SameConv R)) (l.forward b input output) (m.forward b input' output') := by
  obtain ⟨hk, hb, hkg, hbg, hs, hm, hi, ho', hn, hr⟩ := h
  unfold ConvolutionalLayer.forward
  rw [hr, ho', hs]
  cases m.run_state with
  | Inference =>
    refine rel_bind (P := Both (SameTensor R)) ?_ ?_
    · exact rel_listE_same hout fun i s t h => rel_bind (rel_vget hk i) fun _ _ h1 =>
        rel_bind (rel_vget hb i) fun _ _ h2 => rel_conv_relu ho hin h1 h2 _ h _
    · rintro ⟨r, o⟩ ⟨r', o'⟩ ⟨e, h⟩
      exact rel_pure ⟨e, ⟨hk, hb, hkg, hbg, hs, hm, hi, ho', hn, hr⟩, h⟩
  | Training =>
    refine rel_bind (P := Both (SameTensor R)) ?_ ?_
    · exact rel_listE_same hout fun i s t h => rel_bind (rel_vget hk i) fun _ _ h1 =>
        rel_bind (rel_vget hb i) fun _ _ h2 => rel_conv ho hin h1 h2 _ h _
    · rintro ⟨r, o⟩ ⟨r', o'⟩ ⟨e, h⟩
      have e : r = r' := e
      subst e
      cases r with
      | error e => exact rel_pure ⟨rfl, ⟨hk, hb, hkg, hbg, hs, hm, hi, ho', hn, hr⟩, h⟩
      | ok _ =>
        obtain ⟨h1, h2, h3⟩ := rel_relu_mask ho h hm
        exact rel_pure ⟨h1, ⟨hk, hb, hkg, hbg, rfl, h3, hi, rfl, hn, rfl⟩, h2⟩

theorem rel_conv_backward (ho : RespectsIf S R) (h : SameConv R l m) (hin : SameTensor R input input')
    (hg : SameTensor R incoming incoming') (hog : SameTensor R outgoing outgoing') :
    SameRun (Step R (SameConv R)) (l.backward b input output incoming outgoing)
      (m.backward b input' output' incoming' outgoing') := by
  obtain ⟨hk, hb, hkg, hbg, hs, hm, hi, ho', hn, hr⟩ := h
  unfold ConvolutionalLayer.backward
  simp only [hs, rel_length hk]
  have hm' := rel_mul_self ho hm hg
  refine rel_bind (P := Both (List.Forall₂ (SameTensor R))) ?_ ?_
  · refine rel_listE_same hkg fun i s t h => rel_bind (rel_vget h i) fun _ _ h1 =>
      rel_bind (rel_conv_kernel ho hg hin _ _ h1) ?_
    rintro ⟨r, g⟩ ⟨r', g'⟩ ⟨e, h2⟩
    exact rel_bind (rel_vset h i h2) fun _ _ h3 => rel_pure ⟨e, h3⟩
  · rintro ⟨r, kg⟩ ⟨r', kg'⟩ ⟨e, h⟩
    have e : r = r' := e
    subst e
    cases r with
    | error e => exact rel_pure ⟨rfl, ⟨hk, hb, h, hbg, rfl, hm', hi, ho', hn, hr⟩, hog⟩
    | ok _ =>
      refine rel_bind (rel_conv_outgoing ho hg hk _ hog) ?_
      rintro ⟨r, o⟩ ⟨r', o'⟩ ⟨e, h1⟩
      have e : r = r' := e
      subst e
      cases r with
      | error e => exact rel_pure ⟨rfl, ⟨hk, hb, h, hbg, rfl, hm', hi, ho', hn, hr⟩, h1⟩
      | ok _ => exact rel_pure ⟨rfl, ⟨hk, hb, h, hbg, rfl, hm', hi, ho', hn, hr⟩, h1⟩

theorem rel_conv_clear (ho : RespectsIf S R) (h : SameConv R l m) : SameConv R l.clear_gradients m.clear_gradients := by
  obtain ⟨hk, hb, hkg, hbg, hs, hm, hi, ho', hn, hr⟩ := h
  exact ⟨hk, hb, rel_map hkg fun _ _ h => rel_fill h ho.zero, hbg, hs, hm, hi, ho', hn, hr⟩

end

/-! ## All layers -/

section

variable {l : AnyLayer F} {m : AnyLayer G}

omit [F32Ops F] [F32Ops G] in
theorem rel_rewrap {L M : Type} {P : L → M → Prop} {w : L → AnyLayer F} {w' : M → AnyLayer G}
    {x : Exec (Res × L × Tensor F)} {y : Exec (Res × M × Tensor G)}
    (h : SameRun (Step R P) x y) (hw : ∀ a c, P a c → SameLayerIf S R (w a) (w' c)) :
    SameRun (Step R (SameLayerIf S R)) (AnyLayer.rewrap w x) (AnyLayer.rewrap w' y) := by
  refine rel_bind h ?_
  rintro ⟨r, a, t⟩ ⟨r', c, t'⟩ ⟨e, h1, h2⟩
  exact rel_pure ⟨e, hw _ _ h1, h2⟩

theorem rel_forward (ho : RespectsIf S R) (h : SameLayerIf S R l m) (hi : SameTensor R input input')
    (hout : SameTensor R output output') :
    SameRun (Step R (SameLayerIf S R)) (l.forward b input output) (m.forward b input' output') := by
  cases l <;> cases m <;> try exact h.elim
  · exact rel_rewrap (rel_conv_forward ho h hi hout) fun _ _ h => h
  · exact rel_rewrap (rel_fc_forward ho h hi hout) fun _ _ h => h
  · rename_i l m
    have h : l = m := h
    subst h
    exact rel_rewrap (rel_mp_forward ho l hi hout) fun _ _ h => h
  · exact rel_rewrap (rel_sm_forward ho h.1 h.2 hi hout) fun _ _ h' => ⟨h.1, h'⟩

theorem rel_backward (ho : RespectsIf S R) (h : SameLayerIf S R l m) (hi : SameTensor R input input')
    (hout : SameTensor R output output') (hg : SameTensor R incoming incoming')
    (hog : SameTensor R outgoing outgoing') :
    SameRun (Step R (SameLayerIf S R)) (l.backward b input output incoming outgoing)
      (m.backward b input' output' incoming' outgoing') := by
  cases l <;> cases m <;> try exact h.elim
  · exact rel_rewrap (rel_conv_backward ho h hi hg hog) fun _ _ h => h
  · exact rel_rewrap (rel_fc_backward ho h hi hg hog) fun _ _ h => h
  · rename_i l m
    have h : l = m := h
    subst h
    exact rel_rewrap (rel_mp_backward ho l hg hog) fun _ _ h => h
  · exact rel_rewrap (rel_sm_backward ho h.2 hout hg hog) fun _ _ h' => ⟨h.1, h'⟩

theorem rel_training (ho : RespectsIf S R) (h : SameLayerIf S R l m) :
    SameRun (SameLayerIf S R) (l.switch_to_training b) (m.switch_to_training b) := by
  cases l <;> cases m <;> try exact h.elim
  · exact rel_bind (rel_conv_switch ho h .Training) fun _ _ h => rel_pure h
  · exact rel_bind (rel_fc_switch ho h .Training) fun _ _ h => rel_pure h
  · rename_i l m
    have h : l = m := h
    subst h
    exact rel_same fun _ => rel_pure rfl
  · exact rel_bind (rel_sm_switch ho h.2 .Training) fun _ _ h' => rel_pure ⟨h.1, h'⟩

theorem rel_inference (ho : RespectsIf S R) (h : SameLayerIf S R l m) :
    SameRun (SameLayerIf S R) (l.switch_to_inference b) (m.switch_to_inference b) := by
  cases l <;> cases m <;> try exact h.elim
  · exact rel_bind (rel_conv_switch ho h .Inference) fun _ _ h => rel_pure h
  · exact rel_bind (rel_fc_switch ho h .Inference) fun _ _ h => rel_pure h
  · rename_i l m
    have h : l = m := h
    subst h
    exact rel_same fun _ => rel_pure rfl
  · exact rel_bind (rel_sm_switch ho h.2 .Inference) fun _ _ h' => rel_pure ⟨h.1, h'⟩

omit [F32Ops F] [F32Ops G] in
theorem rel_shapes (h : SameLayerIf S R l m) :
    l.get_input_shape = m.get_input_shape ∧ l.get_output_shape = m.get_output_shape := by
  cases l <;> cases m <;> try exact h.elim
  · exact ⟨h.2.2.2.2.2.2.1, h.2.2.2.2.2.2.2.1⟩
  · constructor
    · simp only [AnyLayer.get_input_shape, FullyConnectedLayer.get_input_shape]
      rw [h.1.2.1]
    · simp only [AnyLayer.get_output_shape, FullyConnectedLayer.get_output_shape]
      rw [h.2.2.2.1.2.1]
  · rename_i l m
    have h : l = m := h
    subst h
    exact ⟨rfl, rfl⟩
  · exact ⟨h.2.1, h.2.1⟩

end

/-! ## Networks -/

section

variable {n : Net F} {m : Net G}

theorem rel_infer_step (ho : RespectsIf S R) {ls : List (AnyLayer F)} {ms : List (AnyLayer G)} {ss : List (Tensor F)}
    {ts : List (Tensor G)} (hl : List.Forall₂ (SameLayerIf S R) ls ms) (hs : List.Forall₂ (SameTensor R) ss ts)
    (i : Nat) :
    SameRun (Both fun p q => List.Forall₂ (SameLayerIf S R) p.1 q.1 ∧ List.Forall₂ (SameTensor R) p.2 q.2)
      (Network.infer_step b (ls, ss) i) (Network.infer_step b (ms, ts) i) := by
  unfold Network.infer_step
  simp only [rel_length hs]
  refine rel_ite (rel_err _) (rel_bind (rel_vget hl i) fun l m hlm => ?_)
  rcases rel_get? hs i with ⟨e1, e2⟩ | ⟨x, y, e1, e2, hx⟩
  · rw [e1, e2]
    exact rel_err _
  rcases rel_get? hs (i + 1) with ⟨e3, e4⟩ | ⟨x1, y1, e3, e4, hx1⟩
  · rw [e1, e2, e3, e4]
    exact rel_err _
  rw [e1, e2, e3, e4]
  refine rel_bind (rel_forward ho hlm hx hx1) ?_
  rintro ⟨r, l1, t1⟩ ⟨r', m1, t1'⟩ ⟨e, h1, h2⟩
  exact rel_bind (rel_vset hl i h1) fun _ _ h3 => rel_bind (rel_vset hs _ h2) fun _ _ h4 =>
    rel_pure ⟨e, h3, h4⟩

theorem rel_infer (ho : RespectsIf S R) (h : SameNetIf S R n m) (hi : SameTensor R input input') :
    SameRun (SameResult S R) (n.infer b input) (m.infer b input') := by
  obtain ⟨hl, hs, hg, h1, h2, h3⟩ := h
  have hn : SameNetIf S R n m := ⟨hl, hs, hg, h1, h2, h3⟩
  unfold Network.infer
  rw [hi.2.1, h1, rel_length hs, rel_length hl]
  refine rel_ite (rel_pure ⟨rfl, hn⟩) (rel_ite (rel_pure ⟨rfl, hn⟩) ?_)
  refine rel_bind (rel_vset hs 0 hi) fun ss ts hst => ?_
  refine rel_bind (P := Both fun p q => List.Forall₂ (SameLayerIf S R) p.1 q.1 ∧ List.Forall₂ (SameTensor R) p.2 q.2)
    ?_ ?_
  · refine rel_listE_same ⟨hl, hst⟩ ?_
    rintro i ⟨ls, ss⟩ ⟨ms, ts⟩ ⟨h1, h2⟩
    exact rel_infer_step ho h1 h2 i
  · rintro ⟨r, ls, ss⟩ ⟨r', ms, ts⟩ ⟨e, h4, h5⟩
    exact rel_pure ⟨e, h4, h5, hg, rfl, h2, h3⟩

theorem rel_backward_step (ho : RespectsIf S R) {ls : List (AnyLayer F)} {ms : List (AnyLayer G)} {ss gs : List (Tensor F)}
    {ts hs : List (Tensor G)} (hl : List.Forall₂ (SameLayerIf S R) ls ms) (hst : List.Forall₂ (SameTensor R) ss ts)
    (hg : List.Forall₂ (SameTensor R) gs hs) (i : Nat) :
    SameRun (Both fun p q => List.Forall₂ (SameLayerIf S R) p.1 q.1 ∧ List.Forall₂ (SameTensor R) p.2 q.2)
      (Network.backward_step b ss (ls, gs) i) (Network.backward_step b ts (ms, hs) i) := by
  unfold Network.backward_step
  simp only [rel_length hg]
  refine rel_ite (rel_err _) (rel_bind (rel_vget hl i) fun l m hlm => ?_)
  rcases rel_get? hg (i + 1) with ⟨e1, e2⟩ | ⟨x, y, e1, e2, hx⟩
  · rw [e1, e2]
    exact rel_err _
  rcases rel_get? hg i with ⟨e3, e4⟩ | ⟨x1, y1, e3, e4, hx1⟩
  · rw [e1, e2, e3, e4]
    exact rel_err _
  rw [e1, e2, e3, e4]
  refine rel_bind (rel_vget hst i) fun _ _ h5 => rel_bind (rel_vget hst (i + 1)) fun _ _ h6 =>
    rel_bind (rel_backward ho hlm h5 h6 hx hx1) ?_
  rintro ⟨r, l1, t1⟩ ⟨r', m1, t1'⟩ ⟨e, h1, h2⟩
  exact rel_bind (rel_vset hl i h1) fun _ _ h3 => rel_bind (rel_vset hg _ h2) fun _ _ h4 =>
    rel_pure ⟨e, h3, h4⟩

theorem rel_net_backward (ho : RespectsIf S R) (h : SameNetIf S R n m) (hi : SameTensor R incoming incoming') :
    SameRun (SameResult S R) (n.backward b incoming) (m.backward b incoming') := by
  obtain ⟨hl, hs, hg, h1, h2, h3⟩ := h
  have hn : SameNetIf S R n m := ⟨hl, hs, hg, h1, h2, h3⟩
  unfold Network.backward
  rw [hi.2.1, h2, h3, rel_length hl]
  refine rel_ite (rel_pure ⟨rfl, hn⟩) (rel_ite (rel_pure ⟨rfl, hn⟩) (rel_ite (rel_pure ⟨rfl, hn⟩) ?_))
  refine rel_bind (rel_vset hg _ hi) fun gs hs' hgs => ?_
  refine rel_bind (P := Both fun p q => List.Forall₂ (SameLayerIf S R) p.1 q.1 ∧ List.Forall₂ (SameTensor R) p.2 q.2)
    ?_ ?_
  · refine rel_listE_same ⟨hl, hgs⟩ ?_
    rintro i ⟨ls, ss⟩ ⟨ms, ts⟩ ⟨h1, h2⟩
    exact rel_backward_step ho h1 hs h2 i
  · rintro ⟨r, ls, ss⟩ ⟨r', ms, ts⟩ ⟨e, h4, h5⟩
    exact rel_pure ⟨e, h4, hs, h5, h1, rfl, rfl⟩

theorem rel_net_training (ho : RespectsIf S R) (h : SameNetIf S R n m) :
    SameRun (SameNetIf S R) (n.switch_to_training b) (m.switch_to_training b) := by
  obtain ⟨hl, hs, hg, h1, h2, h3⟩ := h
  refine rel_bind (rel_mapM hl fun _ _ h => rel_training ho h) fun _ _ h4 =>
    rel_bind (rel_mapM (Q := SameTensor R) hs fun t u h => ?_) fun _ _ h5 => rel_pure ⟨h4, hs, h5, h1, h2, rfl⟩
  rw [h.2.1]
  exact rel_new ho _

theorem rel_net_inference (ho : RespectsIf S R) (h : SameNetIf S R n m) :
    SameRun (SameNetIf S R) (n.switch_to_inference b) (m.switch_to_inference b) := by
  obtain ⟨hl, hs, hg, h1, h2, h3⟩ := h
  exact rel_bind (rel_mapM hl fun _ _ h => rel_inference ho h) fun _ _ h4 =>
    rel_pure ⟨h4, hs, .nil, h1, h2, rfl⟩

theorem rel_enter (ho : RespectsIf S R) {l : AnyLayer F} {l' : AnyLayer G} (h : SameLayerIf S R l l') (s : NetworkRunState) :
    SameRun (SameLayerIf S R) (Network.enter_mode b s l) (Network.enter_mode b s l') := by
  cases s with
  | Inference => exact rel_inference ho h
  | Training => exact rel_training ho h

omit [F32Ops F] [F32Ops G] in
theorem rel_last {α β : Type} {P : α → β → Prop} {L : List α} {M : List β} (h : List.Forall₂ P L M) :
    (L.getLast? = none ∧ M.getLast? = none) ∨ ∃ a c, L.getLast? = some a ∧ M.getLast? = some c ∧ P a c := by
  rw [List.getLast?_eq_getElem?, List.getLast?_eq_getElem?, rel_length h]
  exact rel_get? h _

theorem rel_add_layer (ho : RespectsIf S R) (h : SameNetIf S R n m) {l : AnyLayer F} {l' : AnyLayer G}
    (hl' : SameLayerIf S R l l') : SameRun (SameResult S R) (n.add_layer b l) (m.add_layer b l') := by
  obtain ⟨hl, hs, hg, h1, h2, h3⟩ := h
  unfold Network.add_layer
  rw [h3]
  refine rel_bind (rel_enter ho hl' _) fun x y hxy => ?_
  have es : LayerOps.get_input_shape x = LayerOps.get_input_shape y := (rel_shapes hxy).1
  have eo : LayerOps.get_output_shape x = LayerOps.get_output_shape y := (rel_shapes hxy).2
  rcases rel_last hl with ⟨e1, e2⟩ | ⟨a, c, e1, e2, hac⟩
  · rw [e1, e2]
    simp only [es, eo]
    refine rel_bind (rel_new ho _) fun _ _ h4 => rel_bind (rel_new ho _) fun _ _ h5 => rel_ite ?_ ?_
    · exact rel_bind (rel_new ho _) fun _ _ h6 => rel_bind (rel_new ho _) fun _ _ h7 =>
        rel_pure ⟨rfl, rel_append hl (.cons hxy .nil), rel_append hs (.cons h4 (.cons h5 .nil)),
          rel_append hg (.cons h6 (.cons h7 .nil)), rfl, rfl, rfl⟩
    · exact rel_pure ⟨rfl, rel_append hl (.cons hxy .nil), rel_append hs (.cons h4 (.cons h5 .nil)),
          hg, rfl, rfl, rfl⟩
  · rw [e1, e2]
    have eo' : LayerOps.get_output_shape a = LayerOps.get_output_shape c := (rel_shapes hac).2
    simp only [es, eo, eo']
    refine rel_ite (rel_pure ⟨rfl, hl, hs, hg, h1, h2, h3⟩) (rel_bind (rel_new ho _) fun _ _ h4 => rel_ite ?_ ?_)
    · exact rel_bind (rel_new ho _) fun _ _ h6 =>
        rel_pure ⟨rfl, rel_append hl (.cons hxy .nil), rel_append hs (.cons h4 .nil),
          rel_append hg (.cons h6 .nil), h1, rfl, rfl⟩
    · exact rel_pure ⟨rfl, rel_append hl (.cons hxy .nil), rel_append hs (.cons h4 .nil),
          hg, h1, rfl, rfl⟩

omit [F32Ops F] [F32Ops G] in
theorem rel_output (h : SameNetIf S R n m) :
    (∃ e, n.get_output = .error e ∧ m.get_output = .error e) ∨
      ∃ t u, n.get_output = .ok t ∧ m.get_output = .ok u ∧ SameTensor R t u := by
  unfold Network.get_output
  rw [rel_length h.2.1]
  by_cases hl : m.intermediate_states.length < 2
  · rw [if_pos hl, if_pos hl]
    exact .inl ⟨_, rfl, rfl⟩
  rw [if_neg hl, if_neg hl]
  rcases rel_last h.2.1 with ⟨e1, e2⟩ | ⟨a, c, e1, e2, hac⟩
  · rw [e1, e2]
    exact .inl ⟨_, rfl, rfl⟩
  · rw [e1, e2]
    exact .inr ⟨_, _, rfl, rfl, hac⟩

end

end Rusty
