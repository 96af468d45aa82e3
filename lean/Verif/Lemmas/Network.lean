import Verif.Spec.Network
import Verif.Lemmas.Switch

set_option linter.unusedSectionVars false

/-! # Helper lemmas: networks -/

namespace Rusty

open F32Ops Spec

variable {F : Type} [F32Ops F] {b : Build}

/-! ## Lists -/

theorem mapM_sat {α β : Type} (f : α → Exec β) (L : List α) :
    Sat (L.mapM f) fun L' => List.Forall₂ (fun a a' => f a = .ok a') L L' := by
  induction L with
  | nil => exact sat_pure .nil
  | cons x xs ih =>
    rw [List.mapM_cons]
    refine sat_bind fun y hy => sat_bind' ih fun ys hys => sat_pure (.cons hy hys)

theorem mapM_ok {α β : Type} (f : α → Exec β) (L : List α) (h : ∀ x ∈ L, ∃ y, f x = .ok y) :
    ∃ L', L.mapM f = .ok L' := by
  induction L with
  | nil => exact ⟨[], rfl⟩
  | cons x xs ih =>
    obtain ⟨y, hy⟩ := h x (List.mem_cons_self ..)
    obtain ⟨ys, hys⟩ := ih fun z hz => h z (List.mem_cons_of_mem _ hz)
    exact ⟨y :: ys, by rw [List.mapM_cons, hy, ok_bind, hys, ok_bind]; rfl⟩

theorem forall₂_imp {α β : Type} {R S : α → β → Prop} {L : List α} {L' : List β}
    (h : List.Forall₂ R L L') (hi : ∀ a b, R a b → S a b) : List.Forall₂ S L L' := by
  induction h with
  | nil => exact .nil
  | cons h1 _ ih => exact .cons (hi _ _ h1) ih

theorem forall₂_refl {α : Type} {R : α → α → Prop} (h : ∀ a, R a a) (L : List α) :
    List.Forall₂ R L L := by
  induction L with
  | nil => exact .nil
  | cons x xs ih => exact .cons (h x) ih

theorem forall₂_trans {α : Type} {R : α → α → Prop} (h : ∀ a b c, R a b → R b c → R a c)
    {L L' L'' : List α} (h1 : List.Forall₂ R L L') (h2 : List.Forall₂ R L' L'') :
    List.Forall₂ R L L'' := by
  induction h1 generalizing L'' with
  | nil => exact h2
  | cons h3 _ ih =>
    cases h2 with
    | cons h4 h5 => exact .cons (h _ _ _ h3 h4) (ih h5)

theorem forall₂_map_eq {α β γ : Type} {R : α → β → Prop} {L : List α} {L' : List β}
    (h : List.Forall₂ R L L') (f : α → γ) (g : β → γ) (hi : ∀ a b, R a b → f a = g b) :
    L.map f = L'.map g := by
  induction h with
  | nil => rfl
  | cons h1 _ ih => rw [List.map_cons, List.map_cons, hi _ _ h1, ih]

theorem forall₂_length {α β : Type} {R : α → β → Prop} {L : List α} {L' : List β}
    (h : List.Forall₂ R L L') : L.length = L'.length := by
  induction h with
  | nil => rfl
  | cons _ _ ih => simp [ih]

theorem forall₂_get {α β : Type} {R : α → β → Prop} {L : List α} {L' : List β}
    (h : List.Forall₂ R L L') {i : Nat} {a : α} {a' : β} (h1 : L[i]? = some a)
    (h2 : L'[i]? = some a') : R a a' := by
  induction h generalizing i with
  | nil => cases h1
  | cons h3 _ ih =>
    cases i with
    | zero => cases h1; cases h2; exact h3
    | succ i => exact ih h1 h2

theorem forall₂_set {α : Type} {R : α → α → Prop} {L L' : List α} (ht : ∀ a b c, R a b → R b c → R a c)
    (h : List.Forall₂ R L L') (i : Nat) (a a' : α) (h1 : L[i]? = some a) (h2 : R a' a) :
    List.Forall₂ R (L.set i a') L' := by
  induction h generalizing i with
  | nil => cases h1
  | cons h3 h4 ih =>
    cases i with
    | zero =>
      simp only [List.getElem?_cons_zero, Option.some.injEq] at h1
      subst h1
      exact .cons (ht _ _ _ h2 h3) h4
    | succ i => exact .cons h3 (ih i h1)

theorem forall₂_mem {α β : Type} {R : α → β → Prop} {L : List α} {L' : List β}
    (h : List.Forall₂ R L L') {a : α} (ha : a ∈ L) : ∃ a' ∈ L', R a a' := by
  induction h with
  | nil => cases ha
  | cons h3 _ ih =>
    rcases List.mem_cons.mp ha with rfl | h
    · exact ⟨_, List.mem_cons_self .., h3⟩
    · obtain ⟨a', h1, h2⟩ := ih h
      exact ⟨a', List.mem_cons_of_mem _ h1, h2⟩

/-! ## Chains depend on parameters and shapes only -/

theorem map_params_input {ls ls' : List (AnyLayer F)} (h : ls'.map params = ls.map params) :
    stateShapes ls' = stateShapes ls ∧ ls'.map AnyLayer.get_input_shape =
      ls.map AnyLayer.get_input_shape ∧ ls'.map AnyLayer.get_output_shape =
      ls.map AnyLayer.get_output_shape := by
  have hi : ls'.map AnyLayer.get_input_shape = ls.map AnyLayer.get_input_shape ∧
      ls'.map AnyLayer.get_output_shape = ls.map AnyLayer.get_output_shape := by
    induction ls' generalizing ls with
    | nil => cases ls with
      | nil => exact ⟨rfl, rfl⟩
      | cons l ls => cases h
    | cons l' ls' ih => cases ls with
      | nil => cases h
      | cons l ls =>
        rw [List.map_cons, List.map_cons] at h
        obtain ⟨h1, h2⟩ := List.cons.inj h
        obtain ⟨e1, e2⟩ := ih h2
        simp only [List.map_cons, e1, e2, params_input h1, params_output h1]
        exact ⟨trivial, trivial⟩
  refine ⟨?_, hi⟩
  cases ls' with
  | nil => cases ls with
    | nil => rfl
    | cons l ls => cases h
  | cons l' ls' => cases ls with
    | nil => cases h
    | cons l ls =>
      simp only [stateShapes]
      rw [hi.2]
      have := hi.1
      rw [List.map_cons, List.map_cons] at this
      rw [(List.cons.inj this).1]

theorem map_get {α β : Type} {f : α → β} {L L' : List α} (h : L'.map f = L.map f) {i : Nat} {a' : α}
    (ha : L'[i]? = some a') : ∃ a, L[i]? = some a ∧ f a' = f a := by
  have : (L'.map f)[i]? = (L.map f)[i]? := by rw [h]
  rw [List.getElem?_map, List.getElem?_map, ha] at this
  cases e : L[i]? with
  | none => rw [e] at this; cases this
  | some a =>
    rw [e] at this
    exact ⟨a, rfl, Option.some.inj this⟩

/-- replacing layers by ones with the same parameters and states by ones of the same shapes keeps a
chain a chain -/
theorem chain_congr {n n' : Net F} (h : Chain n) (hl : n'.layers.map params = n.layers.map params)
    (hs : n'.intermediate_states.map (·.shape) = n.intermediate_states.map (·.shape))
    (hi : n'.input_shape = n.input_shape) (ho : n'.output_shape = n.output_shape) : Chain n' := by
  refine ⟨?_, ?_, ?_, by rw [hs, h.states, (map_params_input hl).1]⟩
  · intro i l l' h1 h2
    obtain ⟨m, e1, p1⟩ := map_get hl h1
    obtain ⟨m', e2, p2⟩ := map_get hl h2
    rw [params_output p1, params_input p2]
    exact h.links i m m' e1 e2
  · intro l h1
    rw [List.head?_eq_getElem?] at h1
    obtain ⟨m, e1, p1⟩ := map_get hl h1
    unfold Network.get_input_shape
    rw [hi, params_input p1]
    exact h.first m (by rw [List.head?_eq_getElem?]; exact e1)
  · intro l h1
    rw [List.getLast?_eq_getElem?] at h1
    obtain ⟨m, e1, p1⟩ := map_get hl h1
    have hlen : n'.layers.length = n.layers.length := by
      have := congrArg List.length hl
      simpa using this
    unfold Network.get_output_shape
    rw [ho, params_output p1]
    exact h.last m (by rw [List.getLast?_eq_getElem?, ← hlen]; exact e1)

theorem stateShapes_length (ls : List (AnyLayer F)) :
    (stateShapes ls).length = if ls = [] then 0 else ls.length + 1 := by
  cases ls with
  | nil => rfl
  | cons l ls => simp [stateShapes]

theorem chain_length {n : Net F} (h : Chain n) :
    n.intermediate_states.length = if n.layers = [] then 0 else n.layers.length + 1 := by
  rw [← stateShapes_length, ← h.states, List.length_map]

theorem chain_state {n : Net F} (h : Chain n) {i : Nat} {l : AnyLayer F}
    (hi : n.layers[i]? = some l) : ∃ s s', n.intermediate_states[i]? = some s ∧
      n.intermediate_states[i + 1]? = some s' ∧ s.shape = l.get_input_shape ∧
      s'.shape = l.get_output_shape := by
  have hlt : i < n.layers.length := by
    rcases Nat.lt_or_ge i n.layers.length with h | h
    · exact h
    · rw [List.getElem?_eq_none h] at hi; cases hi
  have hne : n.layers ≠ [] := fun e => by rw [e] at hlt; cases hlt
  have hlen := chain_length h
  rw [if_neg hne] at hlen
  refine ⟨_, _, List.getElem?_eq_getElem (by omega), List.getElem?_eq_getElem (by omega), ?_⟩
  have hs := h.states
  have hout : ∀ j l, n.layers[j]? = some l →
      (n.intermediate_states.map (·.shape))[j + 1]? = some l.get_output_shape := by
    intro j l hj
    rw [hs]
    cases e : n.layers with
    | nil => exact absurd e hne
    | cons m ms =>
      simp only [stateShapes, List.getElem?_cons_succ]
      rw [List.getElem?_map, ← e, hj]
      rfl
  constructor
  · cases i with
    | zero =>
      have : (n.intermediate_states.map (·.shape))[0]? = some l.get_input_shape := by
        rw [hs]
        cases e : n.layers with
        | nil => exact absurd e hne
        | cons m ms =>
          rw [e] at hi
          cases hi
          rfl
      rw [List.getElem?_map, List.getElem?_eq_getElem (by omega)] at this
      exact Option.some.inj this
    | succ i =>
      have h1 : n.layers[i]? = some n.layers[i] := List.getElem?_eq_getElem (by omega)
      rw [← h.links i _ l h1 hi]
      have := hout i _ h1
      rw [List.getElem?_map, List.getElem?_eq_getElem (by omega)] at this
      exact Option.some.inj this
  · have := hout i l hi
    rw [List.getElem?_map, List.getElem?_eq_getElem (by omega)] at this
    exact Option.some.inj this

/-! ## Mode switches -/

theorem net_switch_training_effect (n : Net F) : Sat (n.switch_to_training b) fun n' =>
    n'.run_state = .Training ∧
    List.Forall₂ (fun l' l => l.switch_to_training b = .ok l') n'.layers n.layers ∧
    n'.intermediate_states = n.intermediate_states ∧ n'.input_shape = n.input_shape ∧
    n'.output_shape = n.output_shape ∧
    List.Forall₂ (fun g s => Tensor.new b s.shape = .ok g) n'.intermediate_gradients
      n.intermediate_states := by
  unfold Network.switch_to_training
  exact sat_bind' (mapM_sat _ _) fun ls hls => sat_bind' (mapM_sat _ _) fun gs hgs =>
    sat_pure ⟨rfl, hls.flip, rfl, rfl, rfl, hgs.flip⟩

theorem net_switch_inference_effect (n : Net F) : Sat (n.switch_to_inference b) fun n' =>
    n'.run_state = .Training ∧
    List.Forall₂ (fun l' l => l.switch_to_inference b = .ok l') n'.layers n.layers ∧
    n'.intermediate_states = n.intermediate_states ∧ n'.input_shape = n.input_shape ∧
    n'.output_shape = n.output_shape ∧ n'.intermediate_gradients = [] := by
  unfold Network.switch_to_inference
  exact sat_bind' (mapM_sat _ _) fun ls hls => sat_pure ⟨rfl, hls.flip, rfl, rfl, rfl, rfl⟩

theorem switch_inference_effect (l : AnyLayer F) : Sat (l.switch_to_inference b) fun l' =>
    l'.get_run_mode = .Inference ∧ params l' = params l ∧ cleared l' := by
  intro l' h
  obtain ⟨l'', h1, h2, h3, h4, _⟩ := switch_inference_ok (b := b) l
  cases h.symm.trans h1
  exact ⟨h2, h3, h4⟩

/-! ## The loops of `infer` and `backward`, with any layers and any outcome -/

theorem get_of_vget {α : Type} {v : List α} {i : Nat} {a : α} (h : vget v i = .ok a) :
    v[i]? = some a := by
  unfold vget at h
  split at h
  · cases h; assumption
  · cases h

theorem set_of_vset {α : Type} {v v' : List α} {i : Nat} {a : α} (h : vset v i a = .ok v') :
    v' = v.set i a ∧ i < v.length := by
  unfold vset at h
  split at h
  · cases h; exact ⟨rfl, by assumption⟩
  · cases h

theorem infer_step_effect (s : List (AnyLayer F) × List (Tensor F)) (i : Nat) :
    Sat (Network.infer_step b s i) fun p => List.Forall₂ Like p.2.1 s.1 ∧
      sameLayouts p.2.2 s.2 := by
  obtain ⟨ls, ss⟩ := s
  unfold Network.infer_step
  simp only
  split
  · exact sat_error _
  · refine sat_bind fun l hl => ?_
    split
    · rename_i x o hx ho
      refine sat_bind' (forward_like l x o) fun p hp => ?_
      obtain ⟨r, l', o'⟩ := p
      refine sat_bind fun ls' h1 => sat_bind fun ss' h2 => sat_pure ?_
      obtain ⟨rfl, _⟩ := set_of_vset h1
      obtain ⟨rfl, _⟩ := set_of_vset h2
      exact ⟨forall₂_set (R := Like) (fun _ _ _ => like_trans) (forall₂_refl like_refl ls) i l l'
        (get_of_vget hl) hp.1, sameLayouts_set (sameLayouts_refl ss) (i + 1) o' o ho hp.2⟩
    · exact sat_error _

theorem backward_step_effect (ss : List (Tensor F)) (s : List (AnyLayer F) × List (Tensor F))
    (i : Nat) : Sat (Network.backward_step b ss s i) fun p => List.Forall₂ Like p.2.1 s.1 ∧
      sameLayouts p.2.2 s.2 := by
  obtain ⟨ls, gs⟩ := s
  unfold Network.backward_step
  simp only
  split
  · exact sat_error _
  · refine sat_bind fun l hl => ?_
    split
    · rename_i g o hg ho
      refine sat_bind fun x hx => sat_bind fun y hy => ?_
      refine sat_bind' (backward_like l x y g o) fun p hp => ?_
      obtain ⟨r, l', o'⟩ := p
      refine sat_bind fun ls' h1 => sat_bind fun ss' h2 => sat_pure ?_
      obtain ⟨rfl, _⟩ := set_of_vset h1
      obtain ⟨rfl, _⟩ := set_of_vset h2
      exact ⟨forall₂_set (R := Like) (fun _ _ _ => like_trans) (forall₂_refl like_refl ls) i l l'
        (get_of_vget hl) hp.1, sameLayouts_set (sameLayouts_refl gs) i o' o ho hp.2⟩
    · exact sat_error _

theorem sameLayouts_shapes {ts us : List (Tensor F)} (h : sameLayouts ts us) :
    ts.map (·.shape) = us.map (·.shape) :=
  forall₂_map_eq h _ _ fun _ _ h => h.1

theorem sameLayouts_tail {ts us : List (Tensor F)} (h : sameLayouts ts us) :
    sameLayouts ts.tail us.tail := by
  cases h with
  | nil => exact .nil
  | cons _ h => exact h

/-- what `infer` can change -/
theorem infer_effect (n : Net F) (x : Tensor F) : Sat (n.infer b x) fun p =>
    List.Forall₂ Like p.2.layers n.layers ∧
    (n.input_shape = x.shape ∧ sameLayouts p.2.intermediate_states (n.intermediate_states.set 0 x) ∨
      p.2.intermediate_states = n.intermediate_states) ∧
    p.2.intermediate_gradients = n.intermediate_gradients ∧ p.2.input_shape = n.input_shape ∧
    p.2.output_shape = n.output_shape ∧ p.2.run_state = n.run_state := by
  have hr := forall₂_refl (R := Like) like_refl n.layers
  unfold Network.infer
  split
  · exact sat_pure ⟨hr, .inr rfl, rfl, rfl, rfl, rfl⟩
  · split
    · exact sat_pure ⟨hr, .inr rfl, rfl, rfl, rfl, rfl⟩
    · rename_i h1 h2
      refine sat_bind fun ss hss => ?_
      obtain ⟨rfl, _⟩ := set_of_vset hss
      refine sat_bind' (sat_forListE (fun s => List.Forall₂ Like s.1 n.layers ∧
        sameLayouts s.2 (n.intermediate_states.set 0 x)) ⟨hr, sameLayouts_refl _⟩ ?_) ?_
      · intro i _ s hs p hp
        obtain ⟨e1, e2⟩ := infer_step_effect s i p hp
        exact ⟨forall₂_trans (R := Like) (fun _ _ _ => like_trans) e1 hs.1, sameLayouts_trans e2 hs.2⟩
      · rintro ⟨r, ls, ss⟩ ⟨e1, e2⟩
        exact sat_pure ⟨e1, .inl ⟨(Classical.not_not.mp h1).symm, e2⟩, rfl, rfl, rfl, rfl⟩

/-- what `backward` can change -/
theorem backward_effect (n : Net F) (g : Tensor F) : Sat (n.backward b g) fun p =>
    List.Forall₂ Like p.2.layers n.layers ∧
    (n.output_shape = g.shape ∧ sameLayouts p.2.intermediate_gradients
        (n.intermediate_gradients.set n.layers.length g) ∨
      p.2.intermediate_gradients = n.intermediate_gradients) ∧
    p.2.intermediate_states = n.intermediate_states ∧ p.2.input_shape = n.input_shape ∧
    p.2.output_shape = n.output_shape ∧ p.2.run_state = n.run_state := by
  have hr := forall₂_refl (R := Like) like_refl n.layers
  unfold Network.backward
  split
  · exact sat_pure ⟨hr, .inr rfl, rfl, rfl, rfl, rfl⟩
  · split
    · exact sat_pure ⟨hr, .inr rfl, rfl, rfl, rfl, rfl⟩
    · split
      · exact sat_pure ⟨hr, .inr rfl, rfl, rfl, rfl, rfl⟩
      · rename_i h1 h2 h3
        refine sat_bind fun gs hgs => ?_
        obtain ⟨rfl, _⟩ := set_of_vset hgs
        refine sat_bind' (sat_forListE (fun s => List.Forall₂ Like s.1 n.layers ∧
          sameLayouts s.2 (n.intermediate_gradients.set n.layers.length g))
          ⟨hr, sameLayouts_refl _⟩ ?_) ?_
        · intro i _ s hs p hp
          obtain ⟨e1, e2⟩ := backward_step_effect _ s i p hp
          exact ⟨forall₂_trans (R := Like) (fun _ _ _ => like_trans) e1 hs.1, sameLayouts_trans e2 hs.2⟩
        · rintro ⟨r, ls, ss⟩ ⟨e1, e2⟩
          exact sat_pure ⟨e1, .inl ⟨(Classical.not_not.mp h1).symm, e2⟩, rfl, rfl, rfl, rfl⟩

theorem like_map_params {ls ls' : List (AnyLayer F)} (h : List.Forall₂ Like ls' ls) :
    ls'.map params = ls.map params :=
  forall₂_map_eq h _ _ fun _ _ => like_params

theorem like_map_mode {ls ls' : List (AnyLayer F)} (h : List.Forall₂ Like ls' ls) :
    ls'.map AnyLayer.get_run_mode = ls.map AnyLayer.get_run_mode :=
  forall₂_map_eq h _ _ fun _ _ => like_mode

/-- using a network keeps its parameters -/
theorem uses_params {n n' : Net F} (h : Uses b n n') : n'.layers.map params = n.layers.map params := by
  cases h with
  | infer x r _ h => exact like_map_params (infer_effect n x _ h).1
  | backward g r _ h => exact like_map_params (backward_effect n g _ h).1
  | switch_to_training _ h =>
    exact forall₂_map_eq (net_switch_training_effect n _ h).2.1 _ _
      fun l' l e => (switch_training_effect l l' e).2.1
  | switch_to_inference _ h =>
    exact forall₂_map_eq (net_switch_inference_effect n _ h).2.1 _ _
      fun l' l e => (switch_inference_effect l l' e).2.1

theorem set_zero_shapes {ss : List (Tensor F)} {x : Tensor F} {sh : TensorShape}
    (h : (ss.map (·.shape)).head? = some sh ∨ ss = []) (hx : x.shape = sh) :
    (ss.set 0 x).map (·.shape) = ss.map (·.shape) := by
  cases ss with
  | nil => rfl
  | cons s ss =>
    rcases h with h | h
    · simp only [List.map_cons, List.head?_cons, Option.some.injEq] at h
      simp only [List.set_cons_zero, List.map_cons, hx, h]
    · cases h

theorem chain_head {n : Net F} (h : Chain n) :
    (n.intermediate_states.map (·.shape)).head? = some n.input_shape ∨
      n.intermediate_states = [] := by
  cases e : n.layers with
  | nil =>
    right
    have := h.states
    rw [e] at this
    simpa [stateShapes] using this
  | cons l ls =>
    left
    rw [h.states, e]
    simp only [stateShapes, List.head?_cons]
    rw [← h.first l (by rw [e]; rfl)]
    rfl

/-- using a network keeps it a chain -/
theorem uses_chain {n n' : Net F} (hc : Chain n) (h : Uses b n n') : Chain n' := by
  have hp := uses_params h
  cases h with
  | infer x r _ h =>
    obtain ⟨_, e2, _, e4, e5, _⟩ := infer_effect n x _ h
    refine chain_congr hc hp ?_ e4 e5
    rcases e2 with ⟨e, e2⟩ | e2
    · rw [sameLayouts_shapes e2]
      exact set_zero_shapes (chain_head hc) e.symm
    · rw [e2]
  | backward g r _ h =>
    obtain ⟨_, _, e3, e4, e5, _⟩ := backward_effect n g _ h
    exact chain_congr hc hp (by rw [e3]) e4 e5
  | switch_to_training _ h =>
    obtain ⟨_, _, e3, e4, e5, _⟩ := net_switch_training_effect n _ h
    exact chain_congr hc hp (by rw [e3]) e4 e5
  | switch_to_inference _ h =>
    obtain ⟨_, _, e3, e4, e5, _⟩ := net_switch_inference_effect n _ h
    exact chain_congr hc hp (by rw [e3]) e4 e5

/-! ## Adding layers -/

/-- switch a layer to a given mode -/
def switchTo (b : Build) (m : NetworkRunState) (l : AnyLayer F) : Exec (AnyLayer F) :=
  match m with
  | .Inference => l.switch_to_inference b
  | .Training => l.switch_to_training b

theorem switchTo_effect (m : NetworkRunState) (l : AnyLayer F) : Sat (switchTo b m l) fun l' =>
    l'.get_run_mode = m ∧ params l' = params l ∧ cleared l' ∧ (l.Ok → l'.Ok) := by
  intro l' h
  cases m with
  | Inference =>
    obtain ⟨h1, h2, h3⟩ := switch_inference_effect l l' h
    exact ⟨h1, h2, h3, fun hl => switch_inference_keeps_ok hl h⟩
  | Training =>
    obtain ⟨h1, h2, h3⟩ := switch_training_effect l l' h
    exact ⟨h1, h2, h3, fun hl => switch_training_keeps_ok hl h⟩

/-- fresh tensors of given shapes -/
def fresh (b : Build) (ts : List (Tensor F)) (ss : List TensorShape) : Prop :=
  List.Forall₂ (fun t s => Tensor.new b s = .ok t) ts ss

theorem new_shape (s : TensorShape) : Sat (Tensor.new b s : Exec (Tensor F)) fun t => t.shape = s := by
  unfold Tensor.new
  exact sat_bind fun _ _ => sat_bind fun _ _ => sat_pure rfl

theorem fresh_shapes {ts : List (Tensor F)} {ss : List TensorShape} (h : fresh b ts ss) :
    ts.map (·.shape) = ss := by
  induction h with
  | nil => rfl
  | cons h _ ih => rw [List.map_cons, ih, new_shape _ _ h]

/-- the shapes of the states a new layer adds -/
def newShapes (n : Net F) (l : AnyLayer F) : List TensorShape :=
  if n.layers = [] then [l.get_input_shape, l.get_output_shape] else [l.get_output_shape]

/-- what `add_layer` does when it returns -/
theorem add_layer_effect (n : Net F) (l : AnyLayer F) : Sat (n.add_layer b l) fun p =>
    ((∃ last, n.layers.getLast? = some last ∧ last.get_output_shape ≠ l.get_input_shape) ∧
      (∃ e, p.1 = .error e) ∧ p.2 = n) ∨
    ((∀ last, n.layers.getLast? = some last → last.get_output_shape = l.get_input_shape) ∧
      p.1 = .ok () ∧ ∃ l' ts gs, switchTo b n.run_state l = .ok l' ∧ fresh b ts (newShapes n l) ∧
        fresh b gs (if n.run_state = .Training then newShapes n l else []) ∧
        p.2 = { layers := n.layers ++ [l'], run_state := n.run_state,
                input_shape := if n.layers = [] then l.get_input_shape else n.input_shape,
                output_shape := l.get_output_shape,
                intermediate_states := n.intermediate_states ++ ts,
                intermediate_gradients := n.intermediate_gradients ++ gs }) := by
  unfold Network.add_layer
  refine sat_bind (α := AnyLayer F) fun l' hl => ?_
  have hl : switchTo b n.run_state l = .ok l' := by
    unfold Network.enter_mode at hl
    cases hm : n.run_state <;> rw [hm] at hl <;> exact hl
  obtain ⟨_, hp, _, _⟩ := switchTo_effect _ _ _ hl
  have hin : (LayerOps.get_input_shape l' : TensorShape) = l.get_input_shape := params_input hp
  have hout : (LayerOps.get_output_shape l' : TensorShape) = l.get_output_shape := params_output hp
  simp only [hin, hout]
  cases hlast : n.layers.getLast? with
  | none =>
    have hnil : n.layers = [] := List.getLast?_eq_none_iff.mp hlast
    simp only
    refine sat_bind fun t1 h1 => sat_bind fun t2 h2 => ?_
    split
    · rename_i hm
      refine sat_bind fun g1 k1 => sat_bind fun g2 k2 => sat_pure ?_
      refine .inr ⟨(fun _ h => by cases h), rfl, l', [t1, t2], [g1, g2], hl, ?_, ?_, ?_⟩
      · unfold newShapes; rw [if_pos hnil]; exact .cons h1 (.cons h2 .nil)
      · unfold newShapes; rw [if_pos hnil]; exact .cons k1 (.cons k2 .nil)
      · rfl
    · rename_i hm
      refine sat_pure (.inr ⟨(fun _ h => by cases h), rfl, l', [t1, t2], [], hl, ?_, ?_, ?_⟩)
      · unfold newShapes; rw [if_pos hnil]; exact .cons h1 (.cons h2 .nil)
      · exact .nil
      · simp only [List.append_nil]
  | some last =>
    have hne : n.layers ≠ [] := fun e => by rw [e] at hlast; cases hlast
    simp only
    split
    · rename_i hs
      exact sat_pure (.inl ⟨⟨last, rfl, hs⟩, ⟨_, rfl⟩, rfl⟩)
    · rename_i hs
      have hs' : ∀ last', some last = some last' → last'.get_output_shape = l.get_input_shape :=
        fun last' e => by cases e; exact Classical.not_not.mp hs
      refine sat_bind fun t1 h1 => ?_
      split
      · rename_i hm
        refine sat_bind fun g1 k1 => sat_pure ?_
        refine .inr ⟨hs', rfl, l', [t1], [g1], hl, ?_, ?_, ?_⟩
        · unfold newShapes; rw [if_neg hne]; exact .cons h1 .nil
        · unfold newShapes; rw [if_neg hne]; exact .cons k1 .nil
        · rfl
      · rename_i hm
        refine sat_pure (.inr ⟨hs', rfl, l', [t1], [], hl, ?_, ?_, ?_⟩)
        · unfold newShapes; rw [if_neg hne]; exact .cons h1 .nil
        · exact .nil
        · simp only [List.append_nil]

theorem stateShapes_append (n : Net F) (l : AnyLayer F) :
    stateShapes (n.layers ++ [l]) = stateShapes n.layers ++ newShapes n l := by
  unfold newShapes
  cases n.layers with
  | nil => rfl
  | cons m ms => simp [stateShapes]

theorem newShapes_params {n : Net F} {l l' : AnyLayer F} (h : params l' = params l) :
    newShapes n l' = newShapes n l := by
  unfold newShapes
  rw [params_input h, params_output h]

/-- adding a layer keeps a chain a chain -/
theorem add_layer_chain {n n' : Net F} {l : AnyLayer F} {r : Res} (hc : Chain n)
    (h : n.add_layer b l = .ok (r, n')) : Chain n' := by
  rcases add_layer_effect n l _ h with ⟨_, _, rfl⟩ | ⟨h1, _, l', ts, gs, h3, h4, h5, rfl⟩
  · exact hc
  · obtain ⟨_, hp, _, _⟩ := switchTo_effect _ _ _ h3
    refine ⟨?_, ?_, ?_, ?_⟩
    · intro i a a' ha ha'
      simp only at ha ha'
      have hlt : i + 1 < (n.layers ++ [l']).length := by
        rcases Nat.lt_or_ge (i + 1) (n.layers ++ [l']).length with h | h
        · exact h
        · rw [List.getElem?_eq_none h] at ha'; cases ha'
      rw [List.length_append, List.length_singleton] at hlt
      rw [List.getElem?_append_left (by omega)] at ha
      rcases Nat.lt_or_ge (i + 1) n.layers.length with h | h
      · rw [List.getElem?_append_left h] at ha'
        exact hc.links i a a' ha ha'
      · rw [List.getElem?_append_right h, show i + 1 - n.layers.length = 0 by omega] at ha'
        cases ha'
        rw [params_input hp]
        apply h1
        rw [List.getLast?_eq_getElem?, show n.layers.length - 1 = i by omega]
        exact ha
    · intro a ha
      simp only at ha
      change (if n.layers = [] then l.get_input_shape else n.input_shape) = _
      cases e : n.layers with
      | nil =>
        rw [e] at ha
        cases ha
        rw [if_pos rfl, params_input hp]
      | cons m ms =>
        rw [e] at ha
        cases ha
        rw [if_neg (by simp)]
        exact hc.first _ (by rw [e]; rfl)
    · intro a ha
      simp only [List.getLast?_append, List.getLast?_singleton, Option.some_or,
        Option.some.injEq] at ha
      subst ha
      exact (params_output hp).symm
    · simp only [List.map_append]
      rw [fresh_shapes h4, hc.states, stateShapes_append, newShapes_params hp]

theorem ok_input_fits {l : AnyLayer F} (h : l.Ok) : l.get_input_shape.Fits := by
  cases l with
  | conv l => exact ConvolutionalLayer.Ok.input h
  | fc l =>
    have := u32_lt l.weights.shape.dj
    refine ⟨?_, ?_⟩
    · change l.weights.shape.dj.toNat * 1 < _; omega
    · change l.weights.shape.dj.toNat * 1 * 1 < _; omega
  | mp l => exact MaxPoolLayer.Ok.input h
  | sm l => exact SoftmaxLayer.Ok.shape h

theorem ok_output_fits {l : AnyLayer F} (h : l.Ok) : l.get_output_shape.Fits := by
  cases l with
  | conv l => exact ConvolutionalLayer.Ok.output h
  | fc l => exact (FullyConnectedLayer.Ok.bias h).fits
  | mp l => exact MaxPoolLayer.Ok.output h
  | sm l => exact SoftmaxLayer.Ok.shape h

theorem fresh_wf {ts : List (Tensor F)} {ss : List TensorShape} (h : fresh b ts ss)
    (hf : ∀ s ∈ ss, s.Fits) : ∀ t ∈ ts, t.WF := by
  induction h with
  | nil => intro t ht; cases ht
  | cons h1 _ ih =>
    intro t ht
    rcases List.mem_cons.mp ht with rfl | ht
    · rw [new_ok (hf _ (List.mem_cons_self ..))] at h1
      cases h1
      exact zeros_wf (hf _ (List.mem_cons_self ..))
    · exact ih (fun s hs => hf s (List.mem_cons_of_mem _ hs)) t ht

theorem newShapes_fit {n : Net F} {l : AnyLayer F} (h : l.Ok) : ∀ s ∈ newShapes n l, s.Fits := by
  unfold newShapes
  intro s hs
  split at hs
  · simp only [List.mem_cons, List.not_mem_nil, or_false] at hs
    rcases hs with rfl | rfl
    · exact ok_input_fits h
    · exact ok_output_fits h
  · simp only [List.mem_cons, List.not_mem_nil, or_false] at hs
    rw [hs]
    exact ok_output_fits h

/-- adding a well formed layer keeps a network well formed -/
theorem add_layer_netOk {n n' : Net F} {l : AnyLayer F} {r : Res} (hn : NetOk n) (hl : l.Ok)
    (h : n.add_layer b l = .ok (r, n')) : NetOk n' := by
  refine ⟨add_layer_chain hn.chain h, ?_, ?_⟩
  all_goals rcases add_layer_effect n l _ h with ⟨_, _, rfl⟩ | ⟨h1, _, l', ts, gs, h3, h4, h5, rfl⟩
  · exact hn.layers
  · intro a ha
    rcases List.mem_append.mp ha with ha | ha
    · exact hn.layers a ha
    · rw [List.mem_singleton.mp ha]
      exact (switchTo_effect _ _ _ h3).2.2.2 hl
  · exact hn.states
  · intro s hs
    have hw := fresh_wf h4 (newShapes_fit hl)
    simp only at hs
    cases e : n.intermediate_states with
    | nil =>
      rw [e, List.nil_append] at hs
      exact hw s (List.mem_of_mem_tail hs)
    | cons t0 ts' =>
      rw [e, List.cons_append, List.tail_cons] at hs
      rcases List.mem_append.mp hs with hs | hs
      · exact hn.states s (by rw [e]; exact hs)
      · exact hw s hs

/-- a well formed layer can be added without panic -/
theorem add_layer_returns (n : Net F) {l : AnyLayer F} (hl : l.Ok) :
    ∃ r n', n.add_layer b l = .ok (r, n') := by
  have hsw : ∃ l', switchTo b n.run_state l = .ok l' := by
    cases n.run_state with
    | Inference =>
      obtain ⟨l', h, _⟩ := switch_inference_ok (b := b) l
      exact ⟨l', h⟩
    | Training => exact switch_training_ok (ok_shapesFit hl)
  obtain ⟨l', hl'⟩ := hsw
  obtain ⟨_, hp, _, _⟩ := switchTo_effect _ _ _ hl'
  have hin : (LayerOps.get_input_shape l' : TensorShape) = l.get_input_shape := params_input hp
  have hout : (LayerOps.get_output_shape l' : TensorShape) = l.get_output_shape := params_output hp
  unfold Network.add_layer
  have e : Network.enter_mode b n.run_state l = .ok l' := by
    rw [← hl']
    cases n.run_state <;> rfl
  rw [e, ok_bind]
  simp only [hin, hout, new_ok (F := F) (b := b) (ok_input_fits hl),
    new_ok (F := F) (b := b) (ok_output_fits hl), ok_bind]
  cases n.layers.getLast? with
  | none =>
    simp only
    split
    · exact ⟨_, _, rfl⟩
    · exact ⟨_, _, rfl⟩
  | some last =>
    simp only
    split
    · exact ⟨_, _, rfl⟩
    · split
      · exact ⟨_, _, rfl⟩
      · exact ⟨_, _, rfl⟩

/-- using a network keeps it well formed -/
theorem uses_netOk {n n' : Net F} (hn : NetOk n) (h : Uses b n n') : NetOk n' := by
  have hc := uses_chain hn.chain h
  have likeOk : ∀ {ls : List (AnyLayer F)}, List.Forall₂ Like ls n.layers → ∀ l ∈ ls, l.Ok := by
    intro ls h l hl
    obtain ⟨l0, h1, h2⟩ := forall₂_mem h hl
    exact like_ok h2 (hn.layers l0 h1)
  cases h with
  | infer x r _ h =>
    obtain ⟨e1, e2, _⟩ := infer_effect n x _ h
    refine ⟨hc, likeOk e1, ?_⟩
    rcases e2 with ⟨_, e2⟩ | e2
    · intro s hs
      have := sameLayouts_tail e2
      rw [show (n.intermediate_states.set 0 x).tail = n.intermediate_states.tail by
        cases n.intermediate_states <;> rfl] at this
      obtain ⟨s0, h1, h2⟩ := forall₂_mem this hs
      exact (sameLayout_wf h2 (hn.states s0 h1)).1
    · simp only at e2
      rw [e2]; exact hn.states
  | backward g r _ h =>
    obtain ⟨e1, _, e3, _⟩ := backward_effect n g _ h
    simp only at e3
    exact ⟨hc, likeOk e1, by rw [e3]; exact hn.states⟩
  | switch_to_training _ h =>
    obtain ⟨_, e2, e3, _⟩ := net_switch_training_effect n _ h
    refine ⟨hc, ?_, by rw [e3]; exact hn.states⟩
    intro l hl
    obtain ⟨l0, h1, h2⟩ := forall₂_mem e2 hl
    exact switch_training_keeps_ok (hn.layers l0 h1) h2
  | switch_to_inference _ h =>
    obtain ⟨_, e2, e3, _⟩ := net_switch_inference_effect n _ h
    refine ⟨hc, ?_, by rw [e3]; exact hn.states⟩
    intro l hl
    obtain ⟨l0, h1, h2⟩ := forall₂_mem e2 hl
    exact switch_inference_keeps_ok (hn.layers l0 h1) h2

theorem new_chain (m : NetworkRunState) : Chain (Network.new m : Net F) :=
  ⟨(fun _ _ _ h => by cases h), (fun _ h => by cases h), (fun _ h => by cases h), rfl⟩

theorem new_netOk (m : NetworkRunState) : NetOk (Network.new m : Net F) :=
  ⟨new_chain m, (fun _ h => by cases h), (fun _ h => by cases h)⟩

theorem built_netOk {n : Net F} (h : Built b n) : NetOk n := by
  induction h with
  | new m => exact new_netOk m
  | add_layer n l r n' _ hl h ih => exact add_layer_netOk ih hl h
  | uses n n' _ h ih => exact uses_netOk ih h

theorem usesMany_netOk {n n' : Net F} (hn : NetOk n) (h : UsesMany b n n') : NetOk n' := by
  induction h with
  | none => exact hn
  | more n1 n2 _ h ih => exact uses_netOk ih h

theorem usesMany_params {n n' : Net F} (h : UsesMany b n n') :
    n'.layers.map params = n.layers.map params := by
  induction h with
  | none => rfl
  | more n1 n2 _ h ih => exact (uses_params h).trans ih

/-! ## Loading -/

/-- a property kept by `add_layer` is kept by loading -/
theorem load_inv [F32Bits F] (P : Net F → Prop)
    (hadd : ∀ n l r n', P n → n.add_layer b l = .ok (r, n') → P n') (n : Net F) (fs : FS)
    (name : String) (hn : P n) : Sat (n.load_from_file b fs name) fun p => P p.2 := by
  have hlay : ∀ (s : SerializedLayer) (n : Net F), P n →
      Sat (s.add_to_network b n) fun p => P p.2 := by
    intro s n hn
    have key : ∀ (r : Res) (l : AnyLayer F), Sat (match r with
        | .error e => pure (.error e, n)
        | .ok () => n.add_layer b l : Exec (Res × Net F)) fun p => P p.2 := by
      intro r l
      cases r with
      | error e => exact sat_pure hn
      | ok u => exact fun p hp => hadd n l p.1 p.2 hn hp
    cases s with
    | SerialConvolutionalLayer m =>
      exact sat_bind fun _ _ => sat_bind fun p _ => key p.1 (.conv p.2)
    | SerialFullyConnectedLayer m =>
      exact sat_bind fun _ _ => sat_bind fun p _ => key p.1 (.fc p.2)
    | SerialMaxPoolLayer m =>
      exact sat_bind fun p _ => key p.1 (.mp p.2)
    | SerialSoftMaxLayer m =>
      exact sat_bind fun _ _ => sat_bind fun p _ => key p.1 (.sm p.2)
  unfold Network.load_from_file
  split
  · exact sat_pure hn
  · split
    · exact sat_pure hn
    · exact sat_forListE P hn fun s _ n hn => hlay s n hn

theorem reach_chain [F32Bits F] {n : Net F} (h : Reach b n) : Chain n := by
  induction h with
  | new m => exact new_chain m
  | add_layer n l r n' _ h ih => exact add_layer_chain ih h
  | uses n n' _ h ih => exact uses_chain ih h
  | load_from_file n fs name r n' _ h ih =>
    exact load_inv Chain (fun n l r n' hc h => add_layer_chain hc h) n fs name ih _ h

end Rusty
