import Verif.Lemmas.Custom
import Verif.Spec.Toy

/-!
# Networks of layers that a client defines

`Layer` is a public trait (`/repo/src/layer.rs` lines 52-75) and `add_layer` takes any `Box<dyn Layer>`.  The theorems
here assume nothing about the layers except that their methods are functions of their arguments, or what the theorem
says.
-/

namespace Rusty

open F32Ops Spec

variable {F : Type} [F32Ops F] {L : Type} [LayerOps F L] (b : Build)

/-- **C98** (`infer` calls every layer once, in order).  After any history, `infer` with a tensor of the right shape
calls `forward` of the layers one after the other, each on the tensor the layer before has written, and stops at the
first `Err` or panic. -/
theorem C98_infer (n : Network F L) (h : AnyHistory b n) (hne : n.get_layers ≠ []) (x : Tensor F)
    (hx : x.shape = n.get_input_shape) :
    n.infer b x = (do
      let (r, layers, outs) ← passForward b n.get_layers n.intermediate_states.tail x
      pure (r, { n with layers := layers, intermediate_states := x :: outs })) :=
  infer_pass (history_counted h) hne hx

/-- **C98** (what `infer` refuses).  Without layers or with another shape `infer` calls no layer. -/
theorem C98_infer_refused (n : Network F L) (h : AnyHistory b n) (x : Tensor F)
    (hx : n.get_layers = [] ∨ x.shape ≠ n.get_input_shape) : ∃ e, n.infer b x = .ok (.error e, n) :=
  infer_refused (history_counted h) hx

/-- **C98** (`backward` calls every layer once, from the last to the first).  In training mode, `backward` with a
tensor of the output shape calls `backward` of the layers from the last to the first.  Each gets the states before and
behind it and the gradient that the layer behind it has handed on. -/
theorem C98_backward (n : Network F L) (h : AnyTraining b n) (hne : n.get_layers ≠ []) (g : Tensor F)
    (hg : g.shape = n.get_output_shape) :
    n.backward b g = (do
      let (r, layers, gs) ← passBackward b n.get_layers n.intermediate_states n.intermediate_gradients.dropLast g
      pure (r, { n with layers := layers, intermediate_gradients := gs ++ [g] })) :=
  backward_pass (history_counted (training_history h)) hne (training_counted h).1 (training_counted h).2 hg

omit [F32Ops F] in
/-- **C98** (what `backward` refuses).  Without layers, with another shape or outside training mode `backward` calls
no layer. -/
theorem C98_backward_refused (n : Network F L) (g : Tensor F)
    (hg : n.get_layers = [] ∨ g.shape ≠ n.get_output_shape ∨ n.get_run_state ≠ .Training) :
    ∃ e, n.backward b g = .ok (.error e, n) := by
  unfold Network.backward
  by_cases h1 : g.shape = n.output_shape
  · rw [if_neg (by simp [h1])]
    by_cases h2 : n.layers.length < 1
    · rw [if_pos h2]; exact ⟨_, rfl⟩
    · rw [if_neg h2, if_pos]
      · exact ⟨_, rfl⟩
      · rcases hg with hg | hg | hg
        · exact absurd (by unfold Network.get_layers at hg; rw [hg]; exact Nat.one_pos) h2
        · exact absurd h1 hg
        · exact hg
  · rw [if_pos h1]; exact ⟨_, rfl⟩

/-- **C98** (`add_layer`).  When it returns, `add_layer` has called the layer's `switch_to_…` for the network's mode.
Then it has compared the input shape of the result with the output shape of the last layer.  It refused the layer and
changed nothing, or it appended it. -/
theorem C98_add_layer (n : Network F L) (l : L) (r : Res) (n' : Network F L) (h : n.add_layer b l = .ok (r, n')) :
    ∃ l', (match n.get_run_state with
        | .Inference => LayerOps.switch_to_inference b l
        | .Training => LayerOps.switch_to_training b l) = .ok l' ∧
      (((∃ last, n.get_layers.getLast? = some last ∧
          LayerOps.get_output_shape last ≠ LayerOps.get_input_shape l') ∧ (∃ e, r = .error e) ∧ n' = n) ∨
        ((∀ last, n.get_layers.getLast? = some last →
          LayerOps.get_output_shape last = LayerOps.get_input_shape l') ∧ r = .ok () ∧
          n'.get_layers = n.get_layers ++ [l'] ∧ n'.get_run_state = n.get_run_state ∧
          n'.get_output_shape = LayerOps.get_output_shape l' ∧
          n'.get_input_shape =
            if n.get_layers = [] then LayerOps.get_input_shape l' else n.get_input_shape)) := by
  obtain ⟨l', h1, ⟨h2, h3, h4⟩ | ⟨h2, h3, ts, gs, _, _, h4⟩⟩ := add_any_effect n l _ h
  · exact ⟨l', h1, .inl ⟨h2, h3, h4⟩⟩
  · have h4 : n' = _ := h4
    exact ⟨l', h1, .inr ⟨h2, h3, by rw [h4]; rfl, by rw [h4]; rfl, by rw [h4]; rfl, by rw [h4]; rfl⟩⟩

/-- **C98** (switching the mode).  Both calls switch every layer, keep their order and keep the states. -/
theorem C98_switch (n n' : Network F L) :
    (n.switch_to_training b = .ok n' →
      List.Forall₂ (fun l l' => LayerOps.switch_to_training b l = .ok l') n.get_layers n'.get_layers ∧
        n'.intermediate_states = n.intermediate_states) ∧
    (n.switch_to_inference b = .ok n' →
      List.Forall₂ (fun l l' => LayerOps.switch_to_inference b l = .ok l') n.get_layers n'.get_layers ∧
        n'.intermediate_states = n.intermediate_states) := by
  constructor
  · intro h
    obtain ⟨ls, h1, h⟩ := bind_inv h
    obtain ⟨gs, h2, h⟩ := bind_inv h
    obtain rfl := Except.ok.inj h
    exact ⟨mapM_sat _ _ _ h1, rfl⟩
  · intro h
    obtain ⟨ls, h1, h⟩ := bind_inv h
    obtain rfl := Except.ok.inj h
    exact ⟨mapM_sat _ _ _ h1, rfl⟩

/-- **C98** (a network computes the composition of its layers).  Let `forward` of the layers that were accepted
compute functions, which the other methods do not change.  Whatever was called in between, `infer` returns `Ok`, the
output is the composition of the functions of the layers in the order of `add_layer`, and the intermediate states are
the intermediate results. -/
theorem C98_compose {P : L → Prop} {f : L → Tensor F → Tensor F} (hP : Computes b P f) (ls : List L)
    (n : Network F L) (h : LawfulHistory b P ls n) (hne : ls ≠ []) (x : Tensor F) (hx : x.WF)
    (hs : x.shape = n.get_input_shape) :
    ∃ n', n.infer b x = .ok (.ok (), n') ∧ n'.get_output = .ok (ls.foldl (fun t l => f l t) x) ∧
      ∀ i, i ≤ ls.length → n'.get_intermediate_state i = .ok ((ls.take i).foldl (fun t l => f l t) x) := by
  have hl := lawful_history hP h
  have hlen := forall₂_length hl.alike
  have hne' : n.layers ≠ [] := fun e => hne (List.length_eq_zero_iff.mp (by rw [hlen, e]; rfl))
  obtain ⟨n', h1, h2, _⟩ := infer_lawful hP hl hne' hx hs
  rw [outputs_alike hl.alike] at h2
  have hst : n'.intermediate_states.length = ls.length + 1 := by
    rw [h2, List.length_cons, outputs_length]
  have hg := outputs_get f ls x
  refine ⟨n', h1, ?_, fun i hi => ?_⟩
  · unfold Network.get_output
    have := List.length_pos_iff.mpr hne
    rw [if_neg (by omega), List.getLast?_eq_getElem?, hst, h2, Nat.add_sub_cancel, hg _ (Nat.le_refl _),
      List.take_length]
  · unfold Network.get_intermediate_state
    rw [h2, hg i hi]

/-! ### Non-vacuity -/

section
open Toy

/-- a layer of a client: doubles every element and counts its calls -/
structure Doubler where
  calls : Nat

instance : LayerOps Int Doubler where
  forward _ l x _ := pure (.ok (), ⟨l.calls + 1⟩, { x with data := x.data.map (2 * ·) })
  backward _ l _ _ g _ := pure (.ok (), ⟨l.calls + 1⟩, { g with data := g.data.map (2 * ·) })
  apply_gradients l := l
  clear_gradients l := l
  switch_to_training _ l := pure l
  switch_to_inference _ l := pure l
  get_run_mode _ := .Training
  get_input_shape _ := ⟨2, 1, 1⟩
  get_output_shape _ := ⟨2, 1, 1⟩
  get_name _ := "doubler"

theorem doubler_computes : Computes (F := Int) .debug (fun _ : Doubler => True)
    (fun _ x => { x with data := x.data.map (2 * ·) }) where
  shapes _ _ := ⟨(by decide : (⟨2, 1, 1⟩ : TensorShape).Fits), (by decide : (⟨2, 1, 1⟩ : TensorShape).Fits)⟩
  forward l x out _ hx hs _ _ := ⟨⟨l.calls + 1⟩, rfl,
    ⟨hx.fits, hx.si, hx.sj, hx.sk, by simpa using hx.len⟩, hs, trivial, rfl, rfl, fun _ => rfl⟩
  backward _ _ _ _ _ _ _ _ _ _ := ⟨trivial, rfl, rfl, fun _ => rfl⟩
  training _ _ _ _ := ⟨trivial, rfl, rfl, fun _ => rfl⟩
  inference _ _ _ _ := ⟨trivial, rfl, rfl, fun _ => rfl⟩

/-- a network of two doublers, used once in between, multiplies by four -/
example : ∃ (n : Network Int Doubler) (n' : Network Int Doubler),
    LawfulHistory .debug (fun _ => True) [⟨0⟩, ⟨7⟩] n ∧
    n.infer .debug ⟨⟨1, 2, 2⟩, ⟨2, 1, 1⟩, [3, -5]⟩ = .ok (.ok (), n') ∧
    n'.get_output = .ok ⟨⟨1, 2, 2⟩, ⟨2, 1, 1⟩, [12, -20]⟩ ∧
    n'.get_intermediate_state 1 = .ok ⟨⟨1, 2, 2⟩, ⟨2, 1, 1⟩, [6, -10]⟩ := by
  have w : (⟨⟨1, 2, 2⟩, ⟨2, 1, 1⟩, [3, -5]⟩ : Tensor Int).WF :=
    ⟨(by decide : (⟨2, 1, 1⟩ : TensorShape).Fits), rfl, rfl, rfl, rfl⟩
  have h0 : LawfulHistory (F := Int) .debug (fun _ : Doubler => True) [] _ := .new .Training
  have h1 := h0.accepted _ _ (⟨0⟩ : Doubler) _ trivial rfl
  have h2 := h1.infer _ _ (⟨⟨1, 2, 2⟩, ⟨2, 1, 1⟩, [3, -5]⟩ : Tensor Int) _ _ w rfl
  have h3 := h2.accepted _ _ (⟨7⟩ : Doubler) _ trivial rfl
  obtain ⟨n', e1, e2, e3⟩ := C98_compose .debug doubler_computes _ _ h3 (by simp) _ w rfl
  exact ⟨_, n', h3, e1, e2, e3 1 (by decide)⟩

/-- and `backward` runs through it, from the last doubler to the first -/
example : ∃ n n' : Network Int Doubler, AnyTraining .debug n ∧ n.get_layers = [⟨0⟩, ⟨7⟩] ∧
    n.backward .debug ⟨⟨1, 2, 2⟩, ⟨2, 1, 1⟩, [3, -5]⟩ = .ok (.ok (), n') ∧ n'.get_layers = [⟨1⟩, ⟨8⟩] ∧
    n'.intermediate_gradients.map (·.data) = [[12, -20], [6, -10], [3, -5]] := by
  have h1 : AnyTraining (F := Int) (L := Doubler) .debug _ := .add_layer (.new .Training) ⟨0⟩ _ _ .new rfl
  have h2 := h1.add_layer _ ⟨7⟩ _ _ rfl
  exact ⟨_, _, h2, rfl, rfl, rfl, rfl⟩

end

end Rusty
