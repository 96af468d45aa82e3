import Verif.Spec.CutNet
import Verif.Lemmas.CutShort
import Verif.Lemmas.Serialization

/-! # Helper lemmas: networks whose parameters are incomplete -/

namespace Rusty

open F32Ops Spec

/-! ## Values -/

/-- if `x` has a value, `y` has a related one -/
def LeR {α β : Type} (R : α → β → Prop) (x : Exec α) (y : Exec β) : Prop :=
  ∀ v, x = .ok v → ∃ w, y = .ok w ∧ R v w

theorem LeR.bind {α β γ δ : Type} {R : α → β → Prop} {S : γ → δ → Prop} {x : Exec α} {y : Exec β} {f : α → Exec γ}
    {g : β → Exec δ} (h : LeR R x y) (hf : ∀ a c, R a c → LeR S (f a) (g c)) : LeR S (x >>= f) (y >>= g) := by
  intro v hv
  rcases hx : x with p | a
  · rw [hx] at hv
    cases hv
  · rw [hx] at hv
    obtain ⟨c, hc, hr⟩ := h a hx
    rw [hc]
    exact hf a c hr v hv

theorem LeR.step {α γ δ : Type} {S : γ → δ → Prop} {x y : Exec α} {f : α → Exec γ}
    {g : α → Exec δ} (h : Le x y) (hf : ∀ a, LeR S (f a) (g a)) : LeR S (x >>= f) (y >>= g) :=
  LeR.bind (R := Eq) (fun v hv => ⟨v, h v hv, rfl⟩) fun a _ e => e ▸ hf a

theorem LeR.ok {α β : Type} {R : α → β → Prop} {a : α} {c : β} (h : R a c) : LeR R (.ok a) (.ok c) := by
  intro v hv
  cases hv
  exact ⟨c, rfl, h⟩

theorem LeR.error {α β : Type} {R : α → β → Prop} {p : PanicKind} {y : Exec β} : LeR R (.error p : Exec α) y :=
  fun _ h => by cases h

theorem LeR.forListE {ι σ τ : Type} {R : σ → τ → Prop} {f : ι → σ → Exec (Res × σ)} {g : ι → τ → Exec (Res × τ)}
    (L : List ι) (h : ∀ i s t, R s t → LeR (fun p q => p.1 = q.1 ∧ R p.2 q.2) (f i s) (g i t)) {s : σ} {t : τ}
    (hs : R s t) : LeR (fun p q => p.1 = q.1 ∧ R p.2 q.2) (forListE L s f) (forListE L t g) := by
  induction L generalizing s t with
  | nil => exact LeR.ok ⟨rfl, hs⟩
  | cons i is ih =>
    unfold Rusty.forListE
    refine LeR.bind (h i s t hs) ?_
    rintro ⟨r, s'⟩ ⟨r', t'⟩ ⟨e, h'⟩
    cases e
    cases r with
    | error e => exact LeR.ok ⟨rfl, h'⟩
    | ok _ => exact ih h'

theorem Le.forListE {ι σ : Type} {f g : ι → σ → Exec (Res × σ)} (L : List ι) (h : ∀ i s, Le (f i s) (g i s)) (s : σ) :
    Le (forListE L s f) (forListE L s g) := by
  intro v hv
  obtain ⟨w, h1, h2, h3⟩ := LeR.forListE (R := Eq) (f := f) (g := g) L (fun i s t e v hv => by
    subst e
    exact ⟨v, h i s v hv, rfl, rfl⟩) (rfl : s = s) v hv
  rw [h1]
  obtain ⟨r, s⟩ := v
  obtain ⟨r', s'⟩ := w
  cases h2
  cases h3
  rfl

variable {F : Type} [F32Ops F]

/-! ## Operations -/

theorem mm_le {u u' v v' : Tensor F} (b : Build) (r : Tensor F) (hu : Cut u u') (hv : Cut v v') :
    Le (Tensor.matrix_multiply b u v r) (Tensor.matrix_multiply b u' v' r) := by
  unfold Tensor.matrix_multiply
  rw [hu.1, hv.1]
  refine Le.ite ?_ (Le.refl _)
  exact Le.forRange _ _ _ fun _ _ => Le.forRange _ _ _ fun _ _ => Le.forRange _ _ _ fun _ _ =>
    Le.bind (Le.forRange _ _ _ fun _ _ => Le.bind (hu.read b _) fun _ => Le.bind (hv.read b _) fun _ => Le.refl _)
      fun _ => Le.refl _

theorem mm_first_le {u u' v v' : Tensor F} (b : Build) (r : Tensor F) (hu : Cut u u') (hv : Cut v v') :
    Le (Tensor.matrix_multiply_transpose_first b u v r) (Tensor.matrix_multiply_transpose_first b u' v' r) := by
  unfold Tensor.matrix_multiply_transpose_first
  simp only [hu.1, hv.1]
  refine Le.ite (Le.refl _) ?_
  exact Le.bind (Le.forRange _ _ _ fun _ _ => Le.forRange _ _ _ fun _ _ => Le.forRange _ _ _ fun _ _ =>
    Le.bind (Le.forRange _ _ _ fun _ _ => Le.bind (hu.read b _) fun _ => Le.bind (hv.read b _) fun _ => Le.refl _)
      fun _ => Le.refl _) fun _ => Le.refl _

theorem mm_relu_le {x x' w w' v v' : Tensor F} (b : Build) (r : Tensor F) (hx : Cut x x') (hw : Cut w w')
    (hv : Cut v v') :
    Le (Tensor.matrix_multiply_add_relu b x w v r) (Tensor.matrix_multiply_add_relu b x' w' v' r) := by
  unfold Tensor.matrix_multiply_add_relu
  rw [hx.1, hw.1, hv.1]
  refine Le.ite (Le.ite ?_ (Le.refl _)) (Le.refl _)
  exact Le.forRange _ _ _ fun _ _ => Le.forRange _ _ _ fun _ _ => Le.forRange _ _ _ fun _ _ =>
    Le.bind (Le.forRange _ _ _ fun _ _ => Le.bind (hw.read b _) fun _ => Le.bind (hx.read b _) fun _ => Le.refl _)
      fun _ => Le.bind (hv.read b _) fun _ => Le.refl _

theorem conv_bias_le {x x' k k' v v' : Tensor F} (b : Build) (r : Tensor F) (st c : UInt32) (hx : Cut x x')
    (hk : Cut k k') (hv : Cut v v') : Le (convolution_bias b x k v st r c) (convolution_bias b x' k' v' st r c) := by
  unfold convolution_bias
  rw [hx.1, hk.1, hv.1]
  refine Le.bind (Le.refl _) fun o => ?_
  cases o with
  | error e => exact Le.refl _
  | ok _ =>
    refine Le.ite (Le.refl _) (Le.bind (hv.get_item b _) fun _ => Le.bind ?_ fun _ => Le.refl _)
    exact Le.forRange _ _ _ fun _ _ => Le.forRange _ _ _ fun _ _ => Le.bind (window_le hx hk b st _ _) fun _ =>
      Le.refl _

theorem conv_relu_le {x x' k k' v v' : Tensor F} (b : Build) (r : Tensor F) (st c : UInt32) (hx : Cut x x')
    (hk : Cut k k') (hv : Cut v v') :
    Le (convolution_bias_relu b x k v st r c) (convolution_bias_relu b x' k' v' st r c) := by
  unfold convolution_bias_relu
  rw [hx.1, hk.1, hv.1]
  refine Le.bind (Le.refl _) fun o => ?_
  cases o with
  | error e => exact Le.refl _
  | ok _ =>
    refine Le.ite (Le.refl _) (Le.bind (hv.get_item b _) fun _ => Le.bind ?_ fun _ => Le.refl _)
    exact Le.forRange _ _ _ fun _ _ => Le.forRange _ _ _ fun _ _ => Le.bind (window_le hx hk b st _ _) fun _ =>
      Le.refl _

theorem backprop_outgoing_le {ks ks' : List (Tensor F)} (b : Build) (g r : Tensor F) (st : UInt32)
    (hk : List.Forall₂ Cut ks ks') : Le (convolution_backprop_outgoing_gradient b g ks st r)
      (convolution_backprop_outgoing_gradient b g ks' st r) := by
  unfold convolution_backprop_outgoing_gradient
  rw [checks_cut b r.shape g.shape st hk 0, hk.length_eq]
  refine Le.bind (Le.refl _) fun o => ?_
  obtain ⟨o, _⟩ := o
  cases o with
  | error e => exact Le.refl _
  | ok _ =>
    refine Le.ite (Le.refl _) (Le.bind ?_ fun _ => Le.refl _)
    refine Le.forRange _ _ _ fun _ _ => Le.forRange _ _ _ fun _ _ => Le.forRange _ _ _ fun _ _ =>
      Le.bind (Le.forRange _ _ _ fun k _ => ?_) fun _ => Le.refl _
    rcases forall₂_vget hk k.toNat with ⟨e1, e2⟩ | ⟨x, x', e1, e2, hx⟩
    · rw [e1, e2]
      exact Le.refl _
    rw [e1, e2, ok_bind, ok_bind, hx.1]
    refine Le.bind (Le.refl _) fun _ => Le.bind (Le.refl _) fun _ => Le.bind (Le.refl _) fun _ =>
      Le.bind (Le.refl _) fun _ => Le.forRange _ _ _ fun _ _ => Le.forRange _ _ _ fun _ _ => ?_
    refine Le.bind (Le.refl _) fun _ => Le.bind (Le.refl _) fun _ => Le.bind (Le.refl _) fun _ =>
      Le.bind (Le.refl _) fun _ => Le.bind (Le.refl _) fun _ => ?_
    rw [hx.index]
    exact Le.bind (Le.refl _) fun _ => Le.bind (hx.vget _) fun _ => Le.refl _

/-! ## Layers -/

/-- the relation of `CutNet` for one layer -/
def CutL (l l' : AnyLayer F) : Prop := CutLayer l l' ∧ (l.get_run_mode = .Training → SameBias l l')

/-- the same result and output, and related layers -/
def CutOut (p q : Res × AnyLayer F × Tensor F) : Prop := p.1 = q.1 ∧ CutL p.2.1 q.2.1 ∧ p.2.2 = q.2.2

omit [F32Ops F] in
theorem biases_vget {bs bs' : List (Tensor F)} {n : Nat} (h : List.Forall₂ Cut bs (bs'.take n)) (i : Nat) :
    (∃ p, vget bs i = .error p) ∨ ∃ v v', vget bs i = .ok v ∧ vget bs' i = .ok v' ∧ Cut v v' := by
  rcases forall₂_vget h i with ⟨e1, _⟩ | ⟨v, v', e1, e2, hv⟩
  · exact .inl ⟨_, e1⟩
  · exact .inr ⟨v, v', e1, Le.vget bs' n i v' e2, hv⟩

theorem conv_forward_le {l : ConvolutionalLayer F} {ks bs : List (Tensor F)} {n : Nat}
    (hk : List.Forall₂ Cut l.kernels ks) (hb : List.Forall₂ Cut l.biases (bs.take n)) (b : Build) (x y : Tensor F) :
    LeR CutOut ((AnyLayer.conv l).forward b x y)
      ((AnyLayer.conv { l with kernels := ks, biases := bs }).forward b x y) := by
  have run : ∀ (op op' : Tensor F → Tensor F → Tensor F → UInt32 → Exec (Res × Tensor F)),
      (∀ k k' v v' r c, Cut k k' → Cut v v' → Le (op k v r c) (op' k' v' r c)) →
      Le (forListE (List.range l.output_shape.dk.toNat) y fun i out => do
          let kernel ← vget l.kernels i
          let bias ← vget l.biases i
          op kernel bias out (UInt32.ofNat i))
        (forListE (List.range l.output_shape.dk.toNat) y fun i out => do
          let kernel ← vget ks i
          let bias ← vget bs i
          op' kernel bias out (UInt32.ofNat i)) := by
    intro op op' h
    refine Le.forListE _ (fun i out => ?_) y
    rcases forall₂_vget hk i with ⟨e1, e2⟩ | ⟨k, k', e1, e2, hk'⟩
    · rw [e1, e2]
      exact fun _ h => by cases h
    rw [e1, e2, ok_bind, ok_bind]
    rcases biases_vget hb i with ⟨p, e3⟩ | ⟨v, v', e3, e4, hv⟩
    · rw [e3]
      exact fun _ h => by cases h
    rw [e3, e4, ok_bind, ok_bind]
    exact h k k' v v' out _ hk' hv
  have cut : ∀ m : Tensor F, CutL (.conv { l with relu_mask := m })
      (.conv { l with kernels := ks, biases := bs, relu_mask := m }) := fun m =>
    ⟨.conv { l with relu_mask := m } ks bs n hk hb, fun _ => trivial⟩
  simp only [AnyLayer.forward, AnyLayer.rewrap, ConvolutionalLayer.forward]
  cases hm : l.run_state with
  | Inference =>
    simp only
    rw [bind_assoc, bind_assoc]
    refine LeR.step (run _ _ fun k k' v v' r c hk hv => conv_relu_le b r _ c (Cut.refl x) hk hv) fun p => ?_
    exact LeR.ok ⟨rfl, hm ▸ cut l.relu_mask, rfl⟩
  | Training =>
    simp only
    rw [bind_assoc, bind_assoc]
    refine LeR.step (run _ _ fun k k' v v' r c hk hv => conv_bias_le b r _ c (Cut.refl x) hk hv) fun p => ?_
    obtain ⟨r, out⟩ := p
    cases r with
    | error e => exact LeR.ok ⟨rfl, hm ▸ cut l.relu_mask, rfl⟩
    | ok _ => exact LeR.ok ⟨rfl, hm ▸ cut _, rfl⟩

theorem fc_forward_le {l : FullyConnectedLayer F} {w v : Tensor F} (hw : Cut l.weights w) (hv : Cut l.bias v)
    (ht : l.run_state = .Training → l.bias = v) (b : Build) (x y : Tensor F) :
    LeR CutOut ((AnyLayer.fc l).forward b x y) ((AnyLayer.fc { l with weights := w, bias := v }).forward b x y) := by
  have cut : ∀ m : Tensor F, CutL (.fc { l with relu_mask := m })
      (.fc { l with weights := w, bias := v, relu_mask := m }) := fun m =>
    ⟨.fc { l with relu_mask := m } w v hw hv, ht⟩
  simp only [AnyLayer.forward, AnyLayer.rewrap, FullyConnectedLayer.forward]
  cases hm : l.run_state with
  | Inference =>
    simp only
    rw [bind_assoc, bind_assoc]
    refine LeR.step (mm_relu_le b y (Cut.refl x) hw hv) fun p => ?_
    exact LeR.ok ⟨rfl, hm ▸ cut l.relu_mask, rfl⟩
  | Training =>
    simp only
    rw [bind_assoc, bind_assoc]
    refine LeR.step (mm_le b y hw (Cut.refl x)) fun p => ?_
    obtain rfl := ht hm
    exact LeR.ok ⟨rfl, hm ▸ cut _, rfl⟩

theorem forward_le {l l' : AnyLayer F} (h : CutL l l') (b : Build) (x y : Tensor F) :
    LeR CutOut (l.forward b x y) (l'.forward b x y) := by
  obtain ⟨h, ht⟩ := h
  cases h with
  | conv l ks bs n hk hb => exact conv_forward_le hk hb b x y
  | fc l w v hw hv => exact fc_forward_le hw hv ht b x y
  | mp l =>
    intro v hv
    refine ⟨v, hv, rfl, ?_, rfl⟩
    obtain ⟨p, hp, h⟩ := bind_inv hv
    cases h
    exact ⟨.mp _, fun _ => trivial⟩
  | sm l =>
    intro v hv
    refine ⟨v, hv, rfl, ?_, rfl⟩
    obtain ⟨p, hp, h⟩ := bind_inv hv
    cases h
    exact ⟨.sm _, fun _ => trivial⟩

theorem backward_le {l l' : AnyLayer F} (h : CutL l l') (b : Build) (x y g o : Tensor F) :
    LeR CutOut (l.backward b x y g o) (l'.backward b x y g o) := by
  obtain ⟨h, ht⟩ := h
  cases h with
  | conv l ks bs n hk hb =>
    have cut : ∀ (m : Tensor F) (kg : List (Tensor F)), CutL (.conv { l with relu_mask := m, kernel_gradients := kg })
        (.conv { l with kernels := ks, biases := bs, relu_mask := m, kernel_gradients := kg }) := fun m kg =>
      ⟨.conv { l with relu_mask := m, kernel_gradients := kg } ks bs n hk hb, fun _ => trivial⟩
    simp only [AnyLayer.backward, AnyLayer.rewrap, ConvolutionalLayer.backward]
    rw [bind_assoc, bind_assoc, hk.length_eq]
    refine LeR.step (Le.refl _) fun p => ?_
    obtain ⟨r, kg⟩ := p
    cases r with
    | error e => exact LeR.ok ⟨rfl, cut _ _, rfl⟩
    | ok _ =>
      simp only
      rw [bind_assoc, bind_assoc]
      refine LeR.step (backprop_outgoing_le b g o l.stride hk) fun p => ?_
      obtain ⟨r, og⟩ := p
      cases r <;> exact LeR.ok ⟨rfl, cut _ _, rfl⟩
  | fc l w v hw hv =>
    have cut : ∀ m m1 m2 m3 : Tensor F,
        CutL (.fc { l with relu_mask := m, bias_gradients := m1, weights_gradients_intermediate := m2,
                           weights_gradients := m3 })
          (.fc { l with weights := w, bias := v, relu_mask := m, bias_gradients := m1,
                        weights_gradients_intermediate := m2, weights_gradients := m3 }) := fun m m1 m2 m3 =>
      ⟨.fc { l with relu_mask := m, bias_gradients := m1, weights_gradients_intermediate := m2,
                    weights_gradients := m3 } w v hw hv, ht⟩
    simp only [AnyLayer.backward, AnyLayer.rewrap, FullyConnectedLayer.backward]
    split
    · rw [bind_assoc, bind_assoc]
      refine LeR.step (Le.refl _) fun p => ?_
      obtain ⟨r, wgi⟩ := p
      cases r with
      | error e => exact LeR.ok ⟨rfl, cut _ _ _ _, rfl⟩
      | ok _ =>
        simp only
        rw [bind_assoc, bind_assoc]
        refine LeR.step (mm_first_le b o hw (Cut.refl _)) fun p => ?_
        obtain ⟨r, og⟩ := p
        cases r <;> exact LeR.ok ⟨rfl, cut _ _ _ _, rfl⟩
    · exact LeR.ok ⟨rfl, cut _ _ _ _, rfl⟩
  | mp l =>
    intro v hv
    refine ⟨v, hv, rfl, ?_, rfl⟩
    obtain ⟨p, hp, h⟩ := bind_inv hv
    cases h
    exact ⟨.mp _, fun _ => trivial⟩
  | sm l =>
    intro v hv
    refine ⟨v, hv, rfl, ?_, rfl⟩
    obtain ⟨p, hp, h⟩ := bind_inv hv
    cases h
    exact ⟨.sm _, fun _ => trivial⟩

/-! ## Networks -/

omit [F32Ops F] in
theorem forall₂_vset {α β : Type} {R : α → β → Prop} {l : List α} {l' : List β} (h : List.Forall₂ R l l') (i : Nat)
    {x : α} {y : β} (hxy : R x y) : LeR (List.Forall₂ R) (vset l i x) (vset l' i y) := by
  intro v hv
  unfold vset at hv ⊢
  rw [← h.length_eq]
  split at hv
  · rename_i hi
    cases hv
    rw [if_pos hi]
    refine ⟨_, rfl, ?_⟩
    clear hi
    induction h generalizing i with
    | nil => exact .nil
    | cons hd tl ih =>
      cases i with
      | zero => exact .cons hxy tl
      | succ i => exact .cons hd (ih i)
  · cases hv

/-- layers related, tensors the same -/
def CutState (s t : List (AnyLayer F) × List (Tensor F)) : Prop := List.Forall₂ CutL s.1 t.1 ∧ s.2 = t.2

theorem infer_step_le (b : Build) (i : Nat) {s t : List (AnyLayer F) × List (Tensor F)} (h : CutState s t) :
    LeR (fun p q => p.1 = q.1 ∧ CutState p.2 q.2) (Network.infer_step b s i) (Network.infer_step b t i) := by
  obtain ⟨ls, ss⟩ := s
  obtain ⟨ls', ss'⟩ := t
  obtain ⟨h, e⟩ := h
  simp only at h e
  subst e
  unfold Network.infer_step
  simp only
  split
  · exact LeR.error
  rcases forall₂_vget h i with ⟨e1, e2⟩ | ⟨l, l', e1, e2, hl⟩
  · rw [e1]
    exact LeR.error
  rw [e1, e2, ok_bind, ok_bind]
  split
  · refine LeR.bind (forward_le hl b _ _) ?_
    rintro ⟨r, k, o⟩ ⟨r', k', o'⟩ ⟨q1, q2, q3⟩
    simp only at q1 q2 q3
    subst q1 q3
    refine LeR.bind (forall₂_vset h i q2) fun ls ls' hls => LeR.step (Le.refl _) fun ss => ?_
    exact LeR.ok ⟨rfl, hls, rfl⟩
  · exact LeR.error

theorem backward_step_le (b : Build) (states : List (Tensor F)) (i : Nat)
    {s t : List (AnyLayer F) × List (Tensor F)} (h : CutState s t) :
    LeR (fun p q => p.1 = q.1 ∧ CutState p.2 q.2) (Network.backward_step b states s i)
      (Network.backward_step b states t i) := by
  obtain ⟨ls, ss⟩ := s
  obtain ⟨ls', ss'⟩ := t
  obtain ⟨h, e⟩ := h
  simp only at h e
  subst e
  unfold Network.backward_step
  simp only
  split
  · exact LeR.error
  rcases forall₂_vget h i with ⟨e1, e2⟩ | ⟨l, l', e1, e2, hl⟩
  · rw [e1]
    exact LeR.error
  rw [e1, e2, ok_bind, ok_bind]
  split
  · refine LeR.step (Le.refl _) fun x => LeR.step (Le.refl _) fun y => LeR.bind (backward_le hl b _ _ _ _) ?_
    rintro ⟨r, k, o⟩ ⟨r', k', o'⟩ ⟨q1, q2, q3⟩
    simp only at q1 q2 q3
    subst q1 q3
    refine LeR.bind (forall₂_vset h i q2) fun ls ls' hls => LeR.step (Le.refl _) fun ss => ?_
    exact LeR.ok ⟨rfl, hls, rfl⟩
  · exact LeR.error

theorem infer_le {n n' : Net F} (h : CutNet n n') (b : Build) (x : Tensor F) :
    LeR (fun p q => p.1 = q.1 ∧ CutNet p.2 q.2) (n.infer b x) (n'.infer b x) := by
  obtain ⟨hl, e⟩ := h
  generalize n'.layers = ls at hl e
  subst e
  unfold Network.infer
  simp only
  split
  · exact LeR.ok ⟨rfl, hl, rfl⟩
  split
  · exact LeR.ok ⟨rfl, hl, rfl⟩
  refine LeR.step (Le.refl _) fun ss => ?_
  rw [hl.length_eq]
  refine LeR.bind (LeR.forListE (R := CutState) _ (fun i s t h => infer_step_le b i h) ⟨hl, rfl⟩) ?_
  rintro ⟨r, ls1, ss1⟩ ⟨r', ls2, ss2⟩ ⟨q1, q2, q3⟩
  simp only at q1 q2 q3
  subst q1 q3
  exact LeR.ok ⟨rfl, q2, rfl⟩

theorem backward_net_le {n n' : Net F} (h : CutNet n n') (b : Build) (g : Tensor F) :
    LeR (fun p q => p.1 = q.1 ∧ CutNet p.2 q.2) (n.backward b g) (n'.backward b g) := by
  obtain ⟨hl, e⟩ := h
  generalize n'.layers = ls at hl e
  subst e
  unfold Network.backward
  simp only
  rw [hl.length_eq]
  split
  · exact LeR.ok ⟨rfl, hl, rfl⟩
  split
  · exact LeR.ok ⟨rfl, hl, rfl⟩
  split
  · exact LeR.ok ⟨rfl, hl, rfl⟩
  refine LeR.step (Le.refl _) fun ss => ?_
  refine LeR.bind (LeR.forListE (R := CutState) _ (fun i s t h => backward_step_le b _ i h) ⟨hl, rfl⟩) ?_
  rintro ⟨r, ls1, ss1⟩ ⟨r', ls2, ss2⟩ ⟨q1, q2, q3⟩
  simp only at q1 q2 q3
  subst q1 q3
  exact LeR.ok ⟨rfl, q2, rfl⟩

/-! ## Modes -/

theorem enter_inference (b : Build) (l : AnyLayer F) :
    Network.enter_mode b .Inference l = l.switch_to_inference b := rfl

theorem enter_training (b : Build) (l : AnyLayer F) :
    Network.enter_mode b .Training l = l.switch_to_training b := rfl

theorem enter_le {l l' : AnyLayer F} (h : CutLayer l l') (b : Build) (m : NetworkRunState)
    (hm : m = .Training → SameBias l l') : LeR CutL (Network.enter_mode b m l) (Network.enter_mode b m l') := by
  cases h with
  | mp l =>
    intro v hv
    refine ⟨v, hv, ?_⟩
    cases m with
    | Inference =>
      rw [enter_inference] at hv
      obtain ⟨p, hp, h⟩ := bind_inv hv
      cases h
      exact ⟨.mp _, fun _ => trivial⟩
    | Training =>
      rw [enter_training] at hv
      obtain ⟨p, hp, h⟩ := bind_inv hv
      cases h
      exact ⟨.mp _, fun _ => trivial⟩
  | sm l =>
    intro v hv
    refine ⟨v, hv, ?_⟩
    cases m with
    | Inference =>
      rw [enter_inference] at hv
      obtain ⟨p, hp, h⟩ := bind_inv hv
      cases h
      exact ⟨.sm _, fun _ => trivial⟩
    | Training =>
      rw [enter_training] at hv
      obtain ⟨p, hp, h⟩ := bind_inv hv
      cases h
      exact ⟨.sm _, fun _ => trivial⟩
  | fc l w v hw hv =>
    cases m with
    | Inference =>
      rw [enter_inference, enter_inference]
      simp only [AnyLayer.switch_to_inference, FullyConnectedLayer.switch_to_inference,
        FullyConnectedLayer.update_tensors]
      rw [bind_assoc, bind_assoc]
      refine LeR.step (Le.refl _) fun e1 => ?_
      rw [bind_assoc, bind_assoc]
      refine LeR.step (Le.refl _) fun e2 => ?_
      rw [bind_assoc, bind_assoc]
      refine LeR.step (Le.refl _) fun e3 => ?_
      rw [bind_assoc, bind_assoc]
      refine LeR.step (Le.refl _) fun e4 => ?_
      let k : FullyConnectedLayer F :=
        { l with weights_gradients := e1, weights_gradients_intermediate := e2, bias_gradients := e3, relu_mask := e4,
                 run_state := .Inference }
      exact LeR.ok ⟨.fc k w v hw hv, fun h => by cases h⟩
    | Training =>
      rw [enter_training, enter_training]
      simp only [AnyLayer.switch_to_training, FullyConnectedLayer.switch_to_training,
        FullyConnectedLayer.update_tensors, FullyConnectedLayer.get_output_shape]
      rw [hw.1, hv.1]
      rw [bind_assoc, bind_assoc]
      refine LeR.step (Le.refl _) fun e1 => ?_
      rw [bind_assoc, bind_assoc]
      refine LeR.step (Le.refl _) fun e2 => ?_
      rw [bind_assoc, bind_assoc]
      refine LeR.step (Le.refl _) fun e3 => ?_
      rw [bind_assoc, bind_assoc]
      refine LeR.step (Le.refl _) fun e4 => ?_
      let k : FullyConnectedLayer F :=
        { l with weights_gradients := e1, weights_gradients_intermediate := e2, bias_gradients := e3, relu_mask := e4,
                 run_state := .Training }
      exact LeR.ok ⟨.fc k.clear_gradients w v hw hv, fun _ => hm rfl⟩
  | conv l ks bs n hk hb =>
    cases m with
    | Inference =>
      rw [enter_inference, enter_inference]
      simp only [AnyLayer.switch_to_inference, ConvolutionalLayer.switch_to_inference,
        ConvolutionalLayer.update_tensors]
      rw [bind_assoc, bind_assoc]
      refine LeR.step (Le.refl _) fun e1 => ?_
      let k : ConvolutionalLayer F :=
        { l with kernel_gradients := [], bias_gradients := [], relu_mask := e1, run_state := .Inference }
      exact LeR.ok ⟨.conv k ks bs n hk hb, fun _ => trivial⟩
    | Training =>
      rw [enter_training, enter_training]
      simp only [AnyLayer.switch_to_training, ConvolutionalLayer.switch_to_training,
        ConvolutionalLayer.update_tensors]
      have e : ∀ (L : List (Tensor F)), List.Forall₂ Cut l.kernels ks → l.kernels.foldlM (fun kg k => do
          let g ← Tensor.new b k.shape
          pure (kg ++ [g])) L = (ks.foldlM (fun kg k => do
          let g ← Tensor.new b k.shape
          pure (kg ++ [g])) L : Exec (List (Tensor F))) := by
        intro L h
        generalize l.kernels = ks0 at h
        clear hk hm
        induction h generalizing L with
        | nil => rfl
        | cons hd tl ih =>
          rw [List.foldlM_cons, List.foldlM_cons, hd.1]
          congr 1
          funext L
          exact ih L
      rw [e [] hk, hk.length_eq]
      rw [bind_assoc, bind_assoc]
      refine LeR.step (Le.refl _) fun e1 => ?_
      rw [bind_assoc, bind_assoc]
      refine LeR.step (Le.refl _) fun e2 => ?_
      rw [bind_assoc, bind_assoc]
      refine LeR.step (Le.refl _) fun e3 => ?_
      let k : ConvolutionalLayer F :=
        { l with kernel_gradients := e1, bias_gradients := List.replicate ks.length e2, relu_mask := e3,
                 run_state := .Training }
      exact LeR.ok ⟨.conv k ks bs n hk hb, fun _ => trivial⟩

theorem mapM_le {α β : Type} {R : α → α → Prop} {S : β → β → Prop} {f : α → Exec β} {l l' : List α}
    (h : List.Forall₂ R l l') (hf : ∀ a c, R a c → LeR S (f a) (f c)) :
    LeR (List.Forall₂ S) (l.mapM f) (l'.mapM f) := by
  induction h with
  | nil => exact LeR.ok .nil
  | cons hd _ ih =>
    rw [List.mapM_cons, List.mapM_cons]
    exact LeR.bind (hf _ _ hd) fun a c hac => LeR.bind ih fun as cs h => LeR.ok (.cons hac h)

theorem to_inference_le {n n' : Net F} (h : CutNet n n') (b : Build) :
    LeR CutNet (n.switch_to_inference b) (n'.switch_to_inference b) := by
  obtain ⟨hl, e⟩ := h
  generalize n'.layers = ls at hl e
  subst e
  unfold Network.switch_to_inference
  refine LeR.bind (mapM_le hl fun l l' h => enter_le h.1 b .Inference (fun h => by cases h)) fun a c h => ?_
  exact LeR.ok ⟨h, rfl⟩

theorem to_training_le {n n' : Net F} (h : CutNet n n') (hb : List.Forall₂ SameBias n.layers n'.layers) (b : Build) :
    LeR CutNet (n.switch_to_training b) (n'.switch_to_training b) := by
  obtain ⟨hl, e⟩ := h
  generalize n'.layers = ls at hl hb e
  subst e
  unfold Network.switch_to_training
  have hl' : List.Forall₂ (fun l l' => CutLayer l l' ∧ SameBias l l') n.layers ls := by
    revert hb
    generalize n.layers = ls0 at hl
    intro hb
    induction hl with
    | nil => exact .nil
    | cons hd tl ih =>
      cases hb with
      | cons hb hbs => exact .cons ⟨hd.1, hb⟩ (ih hbs)
  refine LeR.bind (mapM_le hl' fun l l' h => enter_le h.1 b .Training fun _ => h.2) fun a c h => ?_
  exact LeR.step (Le.refl _) fun g => LeR.ok ⟨h, rfl⟩

/-! ## Building and loading -/

omit [F32Ops F] in
theorem cut_shapes {l l' : AnyLayer F} (h : CutLayer l l') :
    l.get_input_shape = l'.get_input_shape ∧ l.get_output_shape = l'.get_output_shape := by
  cases h with
  | fc l w v hw hv =>
    simp only [AnyLayer.get_input_shape, AnyLayer.get_output_shape, FullyConnectedLayer.get_input_shape,
      FullyConnectedLayer.get_output_shape]
    rw [hw.1, hv.1]
    exact ⟨rfl, rfl⟩
  | _ => exact ⟨rfl, rfl⟩

theorem forall₂_last {α : Type} {R : α → α → Prop} {l l' : List α} (h : List.Forall₂ R l l') :
    (l.getLast? = none ∧ l'.getLast? = none) ∨ ∃ x x', l.getLast? = some x ∧ l'.getLast? = some x' ∧ R x x' := by
  induction h with
  | nil => exact .inl ⟨rfl, rfl⟩
  | cons hd tl ih =>
    right
    rcases ih with ⟨e1, e2⟩ | ⟨x, x', e1, e2, hx⟩
    · rw [List.getLast?_eq_none_iff] at e1 e2
      subst e1 e2
      exact ⟨_, _, rfl, rfl, hd⟩
    · exact ⟨x, x', by rw [List.getLast?_cons, e1]; rfl, by rw [List.getLast?_cons, e2]; rfl, hx⟩

theorem add_layer_le {n n' : Net F} (h : CutNet n n') {l l' : AnyLayer F} (hl : CutLayer l l')
    (hm : n.run_state = .Training → SameBias l l') (b : Build) :
    LeR (fun p q => p.1 = q.1 ∧ CutNet p.2 q.2 ∧ p.2.run_state = n.run_state) (n.add_layer b l)
      (n'.add_layer b l') := by
  obtain ⟨hls, e⟩ := h
  generalize n'.layers = ls at hls e
  subst e
  unfold Network.add_layer
  refine LeR.bind (enter_le hl b _ hm) fun k k' hk => ?_
  have hs : LayerOps.get_input_shape k = LayerOps.get_input_shape k' ∧
      LayerOps.get_output_shape k = LayerOps.get_output_shape k' := cut_shapes hk.1
  have happ : List.Forall₂ CutL (n.layers ++ [k]) (ls ++ [k']) := List.rel_append hls (.cons hk .nil)
  simp only
  rcases forall₂_last hls with ⟨e1, e2⟩ | ⟨x, x', e1, e2, hx⟩
  · rw [e1, e2]
    simp only
    rw [hs.1, hs.2]
    refine LeR.step (Le.refl _) fun t1 => LeR.step (Le.refl _) fun t2 => ?_
    split
    · exact LeR.step (Le.refl _) fun g1 => LeR.step (Le.refl _) fun g2 => LeR.ok ⟨rfl, ⟨happ, rfl⟩, rfl⟩
    · exact LeR.ok ⟨rfl, ⟨happ, rfl⟩, rfl⟩
  · have hx' : LayerOps.get_output_shape x = LayerOps.get_output_shape x' := (cut_shapes hx.1).2
    rw [e1, e2]
    simp only
    rw [hs.1, hs.2, hx']
    split
    · exact LeR.ok ⟨rfl, ⟨hls, rfl⟩, rfl⟩
    refine LeR.step (Le.refl _) fun t1 => ?_
    split
    · exact LeR.step (Le.refl _) fun g1 => LeR.ok ⟨rfl, ⟨happ, rfl⟩, rfl⟩
    · exact LeR.ok ⟨rfl, ⟨happ, rfl⟩, rfl⟩

theorem fc_fill_le {l0 : FullyConnectedLayer F} (hm : l0.run_state = .Inference) {w w' v v' : Tensor F}
    (hw : Cut w w') (hv : Cut v v') (b : Build) (name : String) :
    LeR (fun p q => p.1 = q.1 ∧ (p.1 = .ok () → CutLayer (.fc p.2) (.fc q.2) ∧ p.2.bias = v ∧ q.2.bias = v'))
      (l0.fill_from_state b w v name) (l0.fill_from_state b w' v' name) := by
  unfold FullyConnectedLayer.fill_from_state
  simp only [hw.1, hv.1]
  split
  · exact LeR.ok ⟨rfl, fun h => by cases h⟩
  split
  · exact LeR.ok ⟨rfl, fun h => by cases h⟩
  split
  · exact LeR.ok ⟨rfl, fun h => by cases h⟩
  unfold FullyConnectedLayer.update_tensors
  simp only [hm]
  rw [bind_assoc, bind_assoc]
  refine LeR.step (Le.refl _) fun e1 => ?_
  rw [bind_assoc, bind_assoc]
  refine LeR.step (Le.refl _) fun e2 => ?_
  rw [bind_assoc, bind_assoc]
  refine LeR.step (Le.refl _) fun e3 => ?_
  rw [bind_assoc, bind_assoc]
  refine LeR.step (Le.refl _) fun e4 => ?_
  let k : FullyConnectedLayer F :=
    { l0 with weights := w, bias := v, name := name, weights_gradients := e1, weights_gradients_intermediate := e2,
              bias_gradients := e3, relu_mask := e4, run_state := .Inference }
  exact LeR.ok ⟨rfl, fun _ => ⟨.fc k w' v' hw hv, rfl, rfl⟩⟩

omit [F32Ops F] in
theorem conv_fill_le {l0 : ConvolutionalLayer F} {ks ks' bs bs' : List (Tensor F)} {n : Nat}
    (hk : List.Forall₂ Cut ks ks') (hb : List.Forall₂ Cut bs (bs'.take n)) (b : Build) (is : TensorShape)
    (st : UInt32) (name : String) :
    LeR (fun p q => p.1 = q.1 ∧ (p.1 = .ok () → CutLayer (.conv p.2) (.conv q.2)))
      (l0.fill_from_state b ks bs is st name) (l0.fill_from_state b ks' bs' is st name) := by
  unfold ConvolutionalLayer.fill_from_state
  cases hk with
  | nil => exact LeR.ok ⟨rfl, fun h => by cases h⟩
  | cons hd tl =>
    rename_i k k' ks ks'
    have hall : List.Forall₂ Cut (k :: ks) (k' :: ks') := .cons hd tl
    simp only
    have e : ∀ s : TensorShape, (k :: ks).any (fun x => x.shape ≠ s) = (k' :: ks').any fun x => x.shape ≠ s := by
      intro s
      generalize k :: ks = a at hall
      generalize k' :: ks' = c at hall
      induction hall with
      | nil => rfl
      | cons hd _ ih => rw [List.any_cons, List.any_cons, hd.1, ih]
    rw [hd.1, e, hall.length_eq]
    split
    · exact LeR.ok ⟨rfl, fun h => by cases h⟩
    refine LeR.step (Le.refl _) fun ok => ?_
    split
    · exact LeR.ok ⟨rfl, fun h => by cases h⟩
    refine LeR.step (Le.refl _) fun d => ?_
    let l : ConvolutionalLayer F :=
      { l0 with name := name, kernels := k :: ks, biases := bs, input_shape := is, stride := st,
                output_shape := ⟨d.1, d.2, UInt32.ofNat (k' :: ks').length⟩ }
    exact LeR.ok ⟨rfl, fun _ => .conv l (k' :: ks') bs' n hall hb⟩

variable [F32Bits F]

theorem add_to_network_le {n n' : Net F} (h : CutNet n n') {l l' : AnyLayer F} (hl : CutLayer l l')
    (hm : n.run_state = .Training → SameBias l l') (b : Build) (o o' : HashOrder) (i : Nat)
    (h1 : (encSerializedLayer l.get_serialized).length < 2 ^ 64)
    (h2 : (encSerializedLayer l'.get_serialized).length < 2 ^ 64) :
    LeR (fun p q => p.1 = q.1 ∧ CutNet p.2 q.2 ∧ p.2.run_state = n.run_state)
      ((o.layer i l.get_serialized).add_to_network b n) ((o'.layer i l'.get_serialized).add_to_network b n') := by
  have same : ∀ k : AnyLayer F, CutLayer k k → SameBias k k →
      LeR (fun p q => p.1 = q.1 ∧ CutNet p.2 q.2 ∧ p.2.run_state = n.run_state) (n.add_layer b k) (n'.add_layer b k) :=
    fun k hk hs => add_layer_le h hk (fun _ => hs) b
  cases hl with
  | conv l ks bs m hk hb =>
    have e : ∀ (o : HashOrder) (l : ConvolutionalLayer F) (n : Net F),
        (encSerializedLayer (AnyLayer.conv l).get_serialized).length < 2 ^ 64 →
        (o.layer i (AnyLayer.conv l).get_serialized).add_to_network b n = (do
          let l0 ← ConvolutionalLayer.empty b
          let (r, l1) ← l0.fill_from_state b l.kernels l.biases l.input_shape l.stride l.name
          match r with
          | .error e => pure (.error e, n)
          | .ok () => n.add_layer b (.conv l1)) := by
      intro o l n hl
      change (do
        let l0 ← ConvolutionalLayer.empty b
        let (r, l1) ← l0.load_from_serialized b (o.layer i l.get_serialized)
        match r with
        | .error e => pure (.error e, n)
        | .ok () => n.add_layer b (.conv l1) : Exec (Res × Net F)) = _
      congr 1
      funext l0
      rw [conv_load _ _ _ _ hl]
    rw [e _ _ _ h1, e _ _ _ h2]
    refine LeR.step (Le.refl _) fun l0 => LeR.bind (conv_fill_le hk hb b _ _ _) ?_
    rintro ⟨r, k⟩ ⟨r', k'⟩ ⟨q1, q2⟩
    simp only at q1 q2
    subst q1
    cases r with
    | error e => exact LeR.ok ⟨rfl, h, rfl⟩
    | ok u => exact add_layer_le h (q2 rfl) (fun _ => trivial) b
  | fc l w v hw hv =>
    have e : ∀ (o : HashOrder) (l : FullyConnectedLayer F) (n : Net F),
        (encSerializedLayer (AnyLayer.fc l).get_serialized).length < 2 ^ 64 →
        (o.layer i (AnyLayer.fc l).get_serialized).add_to_network b n = (do
          let l0 ← FullyConnectedLayer.empty b
          let (r, l1) ← l0.fill_from_state b l.weights l.bias l.name
          match r with
          | .error e => pure (.error e, n)
          | .ok () => n.add_layer b (.fc l1)) := by
      intro o l n hl
      change (do
        let l0 ← FullyConnectedLayer.empty b
        let (r, l1) ← l0.load_from_serialized b (o.layer i l.get_serialized)
        match r with
        | .error e => pure (.error e, n)
        | .ok () => n.add_layer b (.fc l1) : Exec (Res × Net F)) = _
      congr 1
      funext l0
      rw [fc_load _ _ _ _ hl]
    rw [e _ _ _ h1, e _ _ _ h2]
    unfold FullyConnectedLayer.empty
    simp only [empty_ok, ok_bind, pure_bind]
    refine LeR.bind (fc_fill_le rfl hw hv b _) ?_
    rintro ⟨r, k⟩ ⟨r', k'⟩ ⟨q1, q2⟩
    simp only at q1 q2
    subst q1
    cases r with
    | error e => exact LeR.ok ⟨rfl, h, rfl⟩
    | ok u =>
      obtain ⟨q2, q3, q4⟩ := q2 rfl
      exact add_layer_le h q2 (fun e => q3.trans ((hm e).trans q4.symm)) b
  | mp l =>
    have e : ∀ (o : HashOrder) (n : Net F), (o.layer i (AnyLayer.mp l : AnyLayer F).get_serialized).add_to_network b n =
        (do
          let (r, l1) ← MaxPoolLayer.empty.fill_from_state b l.input_shape l.mask_shape l.stride l.name
          match r with
          | .error e => pure (.error e, n)
          | .ok () => n.add_layer b (.mp l1)) := by
      intro o n
      change (do
        let (r, l1) ← MaxPoolLayer.empty.load_from_serialized b (o.layer i l.get_serialized)
        match r with
        | .error e => pure (.error e, n)
        | .ok () => n.add_layer b (.mp l1) : Exec (Res × Net F)) = _
      rw [mp_load _ _ _ _ h1]
    rw [e, e]
    refine LeR.step (Le.refl _) fun p => ?_
    obtain ⟨r, k⟩ := p
    cases r with
    | error e => exact LeR.ok ⟨rfl, h, rfl⟩
    | ok u => exact same _ (.mp k) trivial
  | sm l =>
    have e : ∀ (o : HashOrder) (n : Net F), (o.layer i (AnyLayer.sm l).get_serialized).add_to_network b n =
        (do
          let l0 ← SoftmaxLayer.empty b
          n.add_layer b (.sm { l0 with shape := l.shape, name := l.name })) := by
      intro o n
      change (do
        let l0 ← SoftmaxLayer.empty b
        let (r, l1) ← l0.load_from_serialized b (o.layer i l.get_serialized)
        match r with
        | .error e => pure (.error e, n)
        | .ok () => n.add_layer b (.sm l1) : Exec (Res × Net F)) = _
      congr 1
      funext l0
      rw [sm_load _ _ _ _ h1]
      rfl
    rw [e, e]
    exact LeR.step (Le.refl _) fun l0 => same _ (.sm _) trivial

theorem LeR.forListE₂ {ι σ τ : Type} {R : σ → τ → Prop} {f : ι → σ → Exec (Res × σ)} {g : ι → τ → Exec (Res × τ)}
    {L L' : List ι} (h : List.Forall₂ (fun i j => ∀ s t, R s t → LeR (fun p q => p.1 = q.1 ∧ R p.2 q.2) (f i s) (g j t))
      L L') {s : σ} {t : τ} (hs : R s t) :
    LeR (fun p q => p.1 = q.1 ∧ R p.2 q.2) (Rusty.forListE L s f) (Rusty.forListE L' t g) := by
  induction h generalizing s t with
  | nil => exact LeR.ok ⟨rfl, hs⟩
  | cons hd _ ih =>
    unfold Rusty.forListE
    refine LeR.bind (hd s t hs) ?_
    rintro ⟨r, s'⟩ ⟨r', t'⟩ ⟨e, h'⟩
    cases e
    cases r with
    | error e => exact LeR.ok ⟨rfl, h'⟩
    | ok _ => exact ih h'

theorem populate_le {n n' : Net F} (h : List.Forall₂ CutLayer n.layers n'.layers) (b : Build) (m : NetworkRunState)
    (hm : m = .Training → List.Forall₂ SameBias n.layers n'.layers) (o o' : HashOrder)
    (h1 : (encSerializedNetwork (o.network (SerializedNetwork.new_from_network n))).length < 2 ^ 64)
    (h2 : (encSerializedNetwork (o'.network (SerializedNetwork.new_from_network n'))).length < 2 ^ 64)
    {k k' : Net F} (hk : CutNet k k') (hkm : k.run_state = m) :
    LeR (fun p q => p.1 = q.1 ∧ CutNet p.2 q.2)
      ((o.network (SerializedNetwork.new_from_network n)).populate_network b k)
      ((o'.network (SerializedNetwork.new_from_network n')).populate_network b k') := by
  intro v hv
  unfold SerializedNetwork.populate_network at hv ⊢
  obtain ⟨w, q1, q2, q3, _⟩ := LeR.forListE₂ (R := fun k k' => CutNet k k' ∧ k.run_state = m)
    (L := (o.network (SerializedNetwork.new_from_network n)).serial_layers)
    (L' := (o'.network (SerializedNetwork.new_from_network n')).serial_layers)
    (f := fun s (n : Net F) => s.add_to_network b n) (g := fun s (n : Net F) => s.add_to_network b n) (by
      rw [List.forall₂_iff_get]
      refine ⟨by simp [HashOrder.network, SerializedNetwork.new_from_network, Network.get_layers, h.length_eq], ?_⟩
      intro i hi hi' s t ⟨hst, hs⟩
      have j : i < n.layers.length := by
        simpa [HashOrder.network, SerializedNetwork.new_from_network, Network.get_layers] using hi
      have j' : i < n'.layers.length := h.length_eq ▸ j
      have e : (o.network (SerializedNetwork.new_from_network n)).serial_layers.get ⟨i, hi⟩ =
          o.layer i n.layers[i].get_serialized := by
        simp [HashOrder.network, SerializedNetwork.new_from_network, Network.get_layers]
      have e' : (o'.network (SerializedNetwork.new_from_network n')).serial_layers.get ⟨i, hi'⟩ =
          o'.layer i n'.layers[i].get_serialized := by
        simp [HashOrder.network, SerializedNetwork.new_from_network, Network.get_layers]
      rw [e, e']
      intro v hv
      obtain ⟨w, r1, r2, r3, r4⟩ := add_to_network_le hst (h.get j j') (fun q => (hm (hs.symm.trans q)).get j j') b o o' i
        (Nat.lt_of_le_of_lt (layer_le_network o n (List.getElem_mem j)) h1)
        (Nat.lt_of_le_of_lt (layer_le_network o' n' (List.getElem_mem j')) h2) v hv
      exact ⟨w, r1, r2, r3, r4.trans hs⟩) ⟨hk, hkm⟩ v hv
  exact ⟨w, q1, q2, q3⟩

end Rusty
