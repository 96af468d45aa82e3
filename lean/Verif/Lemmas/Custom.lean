import Verif.Spec.Custom
import Verif.Lemmas.Network
import Verif.Lemmas.ConvolutionUnsafe

/-! # Networks of any layers: the loops of `infer` and `backward` -/

namespace Rusty

open F32Ops Spec

variable {F : Type} [F32Ops F] {L : Type} [LayerOps F L] {b : Build}

omit [F32Ops F] in
theorem infer_loop (ls : List L) : ∀ (outs : List (Tensor F)) (x : Tensor F) (pre : List L) (spre : List (Tensor F)),
    outs.length = ls.length → spre.length = pre.length →
    forListE (List.range' pre.length ls.length) (pre ++ ls, spre ++ x :: outs)
      (fun i s => Network.infer_step b s i) =
    (do
      let (r, ls', ys) ← passForward b ls outs x
      pure (r, (pre ++ ls', spre ++ x :: ys))) := by
  induction ls with
  | nil =>
    intro outs x pre spre h _
    obtain rfl := List.length_eq_zero_iff.mp h
    rfl
  | cons l ls ih =>
    intro outs x pre spre h hp
    match outs, h with
    | out :: outs, h =>
      have h : outs.length = ls.length := by simpa using h
      rw [List.length_cons, List.range'_succ, forListE_cons]
      have e : Network.infer_step b (pre ++ l :: ls, spre ++ x :: out :: outs) pre.length = (do
          let (r, l', y) ← LayerOps.forward b l x out
          pure (r, (pre ++ l' :: ls, spre ++ x :: y :: outs))) := by
        unfold Network.infer_step
        simp only
        rw [if_neg (by simp; omega)]
        have e1 : vget (pre ++ l :: ls) pre.length = .ok l := by
          unfold vget
          rw [List.getElem?_append_right (Nat.le_refl _), Nat.sub_self]
          rfl
        have e2 : (spre ++ x :: out :: outs)[pre.length]? = some x := by
          rw [← hp, List.getElem?_append_right (Nat.le_refl _), Nat.sub_self]
          rfl
        have e3 : (spre ++ x :: out :: outs)[pre.length + 1]? = some out := by
          rw [← hp, List.getElem?_append_right (Nat.le_add_right _ _), Nat.add_sub_cancel_left]
          rfl
        rw [e1, ok_bind, e2, e3]
        simp only
        congr 1
        funext p
        obtain ⟨r, l', y⟩ := p
        have e4 : vset (pre ++ l :: ls) pre.length l' = .ok (pre ++ l' :: ls) := by
          unfold vset
          rw [if_pos (by simp), List.set_append_right _ _ (Nat.le_refl _), Nat.sub_self]
          rfl
        have e5 : vset (spre ++ x :: out :: outs) (pre.length + 1) y = .ok (spre ++ x :: y :: outs) := by
          unfold vset
          rw [if_pos (by simp; omega), ← hp, List.set_append_right _ _ (Nat.le_add_right _ _), Nat.add_sub_cancel_left]
          rfl
        simp only [e4, e5, ok_bind]
      rw [e]
      unfold passForward
      cases hf : LayerOps.forward b l x out with
      | error p => rfl
      | ok p =>
        obtain ⟨r, l', y⟩ := p
        cases r with
        | error m => rfl
        | ok u =>
          simp only [ok_bind, pure_bind]
          have hi := ih outs y (pre ++ [l']) (spre ++ [x]) h (by simp [hp])
          rw [List.length_append, List.length_singleton, List.append_assoc, List.append_assoc] at hi
          simp only [List.singleton_append] at hi
          rw [hi]
          cases passForward b ls outs y with
          | error p => rfl
          | ok p => simp [ok_bind]

theorem forListE_two {α σ : Type} (L1 L2 : List α) (s : σ) (body : α → σ → Exec (Res × σ)) :
    forListE (L1 ++ L2) s body = (do
      let (r, s1) ← forListE L1 s body
      match r with
      | .error e => .ok (.error e, s1)
      | .ok () => forListE L2 s1 body) := by
  induction L1 generalizing s with
  | nil => rfl
  | cons a L1 ih =>
    rw [List.cons_append, forListE_cons, forListE_cons]
    cases body a s with
    | error p => rfl
    | ok p =>
      obtain ⟨r, s1⟩ := p
      cases r with
      | error e => rfl
      | ok u => exact ih s1

omit [F32Ops F] in
theorem backward_loop (all : List (Tensor F)) (g : Tensor F) (ls : List L) :
    ∀ (states ogs : List (Tensor F)) (pre : List L) (spre xpre : List (Tensor F)),
    states.length = ls.length + 1 → ogs.length = ls.length → spre.length = pre.length →
    xpre.length = pre.length → all = xpre ++ states →
    forListE (List.range' pre.length ls.length).reverse (pre ++ ls, spre ++ (ogs ++ [g]))
      (fun i s => Network.backward_step b all s i) =
    (do
      let (r, ls', gs) ← passBackward b ls states ogs g
      pure (r, (pre ++ ls', spre ++ (gs ++ [g])))) := by
  induction ls with
  | nil =>
    intro states ogs pre spre xpre _ h _ _ _
    obtain rfl := List.length_eq_zero_iff.mp h
    cases states <;> rfl
  | cons l ls ih =>
    intro states ogs pre spre xpre hs ho hp hxp hall
    match states, ogs, hs, ho with
    | x :: y :: states, og :: ogs, hs, ho =>
      have hs : (y :: states).length = ls.length + 1 := by simpa using hs
      have ho : ogs.length = ls.length := by simpa using ho
      rw [List.length_cons, List.range'_succ, List.reverse_cons, forListE_two]
      have hi := ih (y :: states) ogs (pre ++ [l]) (spre ++ [og]) (xpre ++ [x]) hs ho (by simp [hp]) (by simp [hxp])
        (by rw [hall]; simp)
      rw [List.length_append, List.length_singleton, List.append_assoc, List.append_assoc] at hi
      simp only [List.singleton_append] at hi
      rw [List.cons_append, hi]
      rw [passBackward]
      cases passBackward b ls (y :: states) ogs g with
      | error p => rfl
      | ok p =>
        obtain ⟨r, ls', gs⟩ := p
        cases r with
        | error e => simp [ok_bind]
        | ok u =>
          simp only [ok_bind, pure_bind]
          rw [forListE_cons]
          have e : Network.backward_step b all ((pre ++ [l]) ++ ls', (spre ++ [og]) ++ (gs ++ [g])) pre.length = (do
              let (r, l', og') ← LayerOps.backward b l x y (gs.headD g) og
              pure (r, (pre ++ l' :: ls', spre ++ (og' :: gs ++ [g])))) := by
            rw [List.append_assoc, List.append_assoc]
            simp only [List.singleton_append]
            unfold Network.backward_step
            simp only
            rw [if_neg (by simp; omega)]
            have e1 : vget (pre ++ l :: ls') pre.length = .ok l := by
              unfold vget
              rw [List.getElem?_append_right (Nat.le_refl _), Nat.sub_self]
              rfl
            have e2 : (spre ++ og :: (gs ++ [g]))[pre.length]? = some og := by
              rw [← hp, List.getElem?_append_right (Nat.le_refl _), Nat.sub_self]
              rfl
            have e3 : (spre ++ og :: (gs ++ [g]))[pre.length + 1]? = some (gs.headD g) := by
              rw [← hp, List.getElem?_append_right (Nat.le_add_right _ _), Nat.add_sub_cancel_left]
              cases gs <;> rfl
            have e6 : vget all pre.length = .ok x := by
              unfold vget
              rw [hall, ← hxp, List.getElem?_append_right (Nat.le_refl _), Nat.sub_self]
              rfl
            have e7 : vget all (pre.length + 1) = .ok y := by
              unfold vget
              rw [hall, ← hxp, List.getElem?_append_right (Nat.le_add_right _ _), Nat.add_sub_cancel_left]
              rfl
            rw [e1, ok_bind, e3, e2]
            simp only
            rw [e6, ok_bind, e7, ok_bind]
            congr 1
            funext p
            obtain ⟨r, l', y'⟩ := p
            have e4 : vset (pre ++ l :: ls') pre.length l' = .ok (pre ++ l' :: ls') := by
              unfold vset
              rw [if_pos (by simp), List.set_append_right _ _ (Nat.le_refl _), Nat.sub_self]
              rfl
            have e5 : vset (spre ++ og :: (gs ++ [g])) pre.length y' = .ok (spre ++ y' :: (gs ++ [g])) := by
              unfold vset
              rw [if_pos (by simp; omega), ← hp, List.set_append_right _ _ (Nat.le_refl _), Nat.sub_self]
              rfl
            simp only [e4, e5, ok_bind]
            rfl
          rw [e]
          cases LayerOps.backward b l x y (gs.headD g) og with
          | error p => rfl
          | ok p =>
            obtain ⟨r, l', og'⟩ := p
            cases r <;> rfl

/-! ## Lengths -/

omit [F32Ops F] in
theorem passForward_length (ls : List L) : ∀ (outs : List (Tensor F)) (x : Tensor F) r ls' ys,
    passForward b ls outs x = .ok (r, ls', ys) → ls'.length = ls.length ∧ ys.length = outs.length := by
  induction ls with
  | nil =>
    intro outs x r ls' ys h
    unfold passForward at h
    obtain ⟨_, h⟩ := Prod.mk.inj (Except.ok.inj h)
    obtain ⟨rfl, rfl⟩ := Prod.mk.inj h
    exact ⟨rfl, rfl⟩
  | cons l ls ih =>
    intro outs x r ls' ys h
    cases outs with
    | nil =>
      unfold passForward at h
      obtain ⟨_, h⟩ := Prod.mk.inj (Except.ok.inj h)
      obtain ⟨rfl, rfl⟩ := Prod.mk.inj h
      exact ⟨rfl, rfl⟩
    | cons out outs =>
      unfold passForward at h
      obtain ⟨⟨r1, l', y⟩, _, h⟩ := bind_inv h
      cases r1 with
      | error e =>
        obtain ⟨_, h⟩ := Prod.mk.inj (Except.ok.inj h)
        obtain ⟨rfl, rfl⟩ := Prod.mk.inj h
        exact ⟨rfl, rfl⟩
      | ok u =>
        obtain ⟨⟨r2, ls2, ys2⟩, h2, h⟩ := bind_inv h
        obtain ⟨_, h⟩ := Prod.mk.inj (Except.ok.inj h)
        obtain ⟨rfl, rfl⟩ := Prod.mk.inj h
        obtain ⟨e1, e2⟩ := ih _ _ _ _ _ h2
        exact ⟨by simp [e1], by simp [e2]⟩

omit [F32Ops F] in
/-- what the loop of `backward` preserves, layer by layer -/
theorem backward_loop_inv (R : L → L → Prop) (hrefl : ∀ l, R l l)
    (hstep : ∀ l l1 x y g og r l2 og', R l l1 → LayerOps.backward b l1 x y g og = .ok (r, l2, og') → R l l2)
    (states : List (Tensor F)) (is : List Nat) (ls : List L) (grads : List (Tensor F)) (r : Res) (ls' : List L)
    (grads' : List (Tensor F)) (h : forListE is (ls, grads) (fun i s => Network.backward_step b states s i) =
      .ok (r, (ls', grads'))) : List.Forall₂ R ls ls' ∧ grads'.length = grads.length := by
  refine forListE_inv is (ls, grads) _ (fun s => List.Forall₂ R ls s.1 ∧ s.2.length = grads.length)
    ⟨forall₂_refl hrefl ls, rfl⟩ ?_ r (ls', grads') h
  rintro i _ ⟨l1, g1⟩ r ⟨l2, g2⟩ ⟨h1, h2⟩ hb
  unfold Network.backward_step at hb
  simp only at hb
  split at hb
  · cases hb
  · obtain ⟨l, hl, hb⟩ := bind_inv hb
    split at hb
    · obtain ⟨x, _, hb⟩ := bind_inv hb
      obtain ⟨y, _, hb⟩ := bind_inv hb
      obtain ⟨⟨r', l', og'⟩, hf, hb⟩ := bind_inv hb
      obtain ⟨ls3, hs, hb⟩ := bind_inv hb
      obtain ⟨gs3, hg, hb⟩ := bind_inv hb
      obtain ⟨_, e⟩ := Prod.mk.inj (Except.ok.inj hb)
      obtain ⟨rfl, rfl⟩ := Prod.mk.inj e
      refine ⟨?_, ?_⟩
      · unfold vset at hs
        split at hs
        · rename_i hlt
          obtain rfl := Except.ok.inj hs
          unfold vget at hl
          rw [List.getElem?_eq_getElem hlt] at hl
          obtain rfl := Except.ok.inj hl
          rw [List.forall₂_iff_get] at h1 ⊢
          refine ⟨by simpa using h1.1, fun k hk hk' => ?_⟩
          simp only [List.get_eq_getElem, List.getElem_set]
          split
          · rename_i e
            subst e
            exact hstep _ _ _ _ _ _ _ _ _ (h1.2 i hk hlt) hf
          · exact h1.2 k hk (by simpa using hk')
        · cases hs
      · rw [vset_length _ _ _ _ hg]
        exact h2
    · cases hb

/-! ## The calls of the API -/

/-- the shapes of the states that a new layer needs -/
def newStates (n : Network F L) (l : L) : List TensorShape :=
  if n.layers = [] then [LayerOps.get_input_shape l, LayerOps.get_output_shape l] else [LayerOps.get_output_shape l]

/-- what `add_layer` does when it returns -/
theorem add_any_effect (n : Network F L) (l : L) : Sat (n.add_layer b l) fun p =>
    ∃ l', Network.enter_mode b n.run_state l = .ok l' ∧
    (((∃ last, n.layers.getLast? = some last ∧ LayerOps.get_output_shape last ≠ LayerOps.get_input_shape l') ∧
      (∃ e, p.1 = .error e) ∧ p.2 = n) ∨
    ((∀ last, n.layers.getLast? = some last → LayerOps.get_output_shape last = LayerOps.get_input_shape l') ∧
      p.1 = .ok () ∧ ∃ ts gs, fresh b ts (newStates n l') ∧
        fresh b gs (if n.run_state = .Training then newStates n l' else []) ∧
        p.2 = { layers := n.layers ++ [l'], run_state := n.run_state,
                input_shape := if n.layers = [] then LayerOps.get_input_shape l' else n.input_shape,
                output_shape := LayerOps.get_output_shape l',
                intermediate_states := n.intermediate_states ++ ts,
                intermediate_gradients := n.intermediate_gradients ++ gs })) := by
  unfold Network.add_layer
  refine sat_bind (α := L) fun l' hl => ?_
  cases hlast : n.layers.getLast? with
  | none =>
    have hnil : n.layers = [] := List.getLast?_eq_none_iff.mp hlast
    simp only
    refine sat_bind fun t1 h1 => sat_bind fun t2 h2 => ?_
    split
    · rename_i hm
      refine sat_bind fun g1 k1 => sat_bind fun g2 k2 => sat_pure ⟨l', hl, ?_⟩
      refine .inr ⟨(fun _ h => by cases h), rfl, [t1, t2], [g1, g2], ?_, ?_, ?_⟩
      · unfold newStates; rw [if_pos hnil]; exact .cons h1 (.cons h2 .nil)
      · unfold newStates; rw [if_pos hnil]; exact .cons k1 (.cons k2 .nil)
      · rfl
    · rename_i hm
      refine sat_pure ⟨l', hl, .inr ⟨(fun _ h => by cases h), rfl, [t1, t2], [], ?_, ?_, ?_⟩⟩
      · unfold newStates; rw [if_pos hnil]; exact .cons h1 (.cons h2 .nil)
      · exact .nil
      · simp only [List.append_nil]
  | some last =>
    have hne : n.layers ≠ [] := fun e => by rw [e] at hlast; cases hlast
    simp only
    split
    · rename_i hs
      exact sat_pure ⟨l', hl, .inl ⟨⟨last, rfl, hs⟩, ⟨_, rfl⟩, rfl⟩⟩
    · rename_i hs
      have hs' : ∀ last', some last = some last' →
          LayerOps.get_output_shape last' = LayerOps.get_input_shape l' :=
        fun last' e => by cases e; exact Classical.not_not.mp hs
      refine sat_bind fun t1 h1 => ?_
      split
      · rename_i hm
        refine sat_bind fun g1 k1 => sat_pure ⟨l', hl, ?_⟩
        refine .inr ⟨hs', rfl, [t1], [g1], ?_, ?_, ?_⟩
        · unfold newStates; rw [if_neg hne]; exact .cons h1 .nil
        · unfold newStates; rw [if_neg hne]; exact .cons k1 .nil
        · rfl
      · rename_i hm
        refine sat_pure ⟨l', hl, .inr ⟨hs', rfl, [t1], [], ?_, ?_, ?_⟩⟩
        · unfold newStates; rw [if_neg hne]; exact .cons h1 .nil
        · exact .nil
        · simp only [List.append_nil]

/-- the network has one state per layer boundary -/
def Counted (n : Network F L) : Prop :=
  n.intermediate_states.length = if n.layers = [] then 0 else n.layers.length + 1

omit [F32Ops F] in
/-- `infer` with the right shape is one pass -/
theorem infer_pass {n : Network F L} (hc : Counted n) (hne : n.layers ≠ []) {x : Tensor F}
    (hx : x.shape = n.input_shape) :
    n.infer b x = (do
      let (r, ls', ys) ← passForward b n.layers n.intermediate_states.tail x
      pure (r, { n with layers := ls', intermediate_states := x :: ys })) := by
  unfold Counted at hc
  rw [if_neg hne] at hc
  have hpos : 0 < n.layers.length := List.length_pos_iff.mpr hne
  unfold Network.infer
  rw [if_neg (by simp [hx]), if_neg (by omega)]
  match hs : n.intermediate_states with
  | [] => rw [hs] at hc; simp at hc
  | s :: outs =>
    rw [hs] at hc
    have hc : outs.length = n.layers.length := by simpa using hc
    have e : vset (s :: outs) 0 x = .ok (x :: outs) := rfl
    have hl := infer_loop (b := b) n.layers outs x [] [] hc rfl
    simp only [List.nil_append, List.length_nil] at hl
    rw [e, ok_bind, List.range_eq_range', hl]
    simp only [List.tail_cons]
    cases passForward b n.layers outs x <;> rfl

omit [F32Ops F] in
theorem infer_refused {n : Network F L} (hc : Counted n) {x : Tensor F}
    (h : n.layers = [] ∨ x.shape ≠ n.input_shape) : ∃ e, n.infer b x = .ok (.error e, n) := by
  unfold Network.infer
  split
  · exact ⟨_, rfl⟩
  · rename_i h'
    rcases h with h | h
    · unfold Counted at hc
      rw [if_pos h] at hc
      rw [if_pos (by omega)]
      exact ⟨_, rfl⟩
    · exact absurd h h'

omit [F32Ops F] in
theorem backward_any {n n' : Network F L} {g : Tensor F} {r : Res} (R : L → L → Prop) (hrefl : ∀ l, R l l)
    (hstep : ∀ l l1 x y g og r l2 og', R l l1 → LayerOps.backward b l1 x y g og = .ok (r, l2, og') → R l l2)
    (h : n.backward b g = .ok (r, n')) : List.Forall₂ R n.layers n'.layers ∧
      n'.intermediate_states = n.intermediate_states ∧
      n'.intermediate_gradients.length = n.intermediate_gradients.length ∧
      n'.input_shape = n.input_shape ∧ n'.output_shape = n.output_shape ∧ n'.run_state = n.run_state := by
  have triv : ∀ e : Res, (pure (e, n) : Exec (Res × Network F L)) = .ok (r, n') →
      List.Forall₂ R n.layers n'.layers ∧ n'.intermediate_states = n.intermediate_states ∧
      n'.intermediate_gradients.length = n.intermediate_gradients.length ∧
      n'.input_shape = n.input_shape ∧ n'.output_shape = n.output_shape ∧ n'.run_state = n.run_state := by
    intro e h
    obtain ⟨_, rfl⟩ := Prod.mk.inj (Except.ok.inj h)
    exact ⟨forall₂_refl hrefl _, rfl, rfl, rfl, rfl, rfl⟩
  unfold Network.backward at h
  split at h
  · exact triv _ h
  split at h
  · exact triv _ h
  split at h
  · exact triv _ h
  obtain ⟨gs, hg, h⟩ := bind_inv h
  obtain ⟨⟨r', ls', gs'⟩, hl, h⟩ := bind_inv h
  obtain ⟨_, rfl⟩ := Prod.mk.inj (Except.ok.inj h)
  obtain ⟨h1, h2⟩ := backward_loop_inv R hrefl hstep _ _ _ _ _ _ _ hl
  exact ⟨h1, rfl, h2.trans (vset_length _ _ _ _ hg), rfl, rfl, rfl⟩

theorem history_counted {n : Network F L} (h : AnyHistory b n) : Counted n := by
  induction h with
  | new m => rfl
  | add_layer n l r n' _ h ih =>
    obtain ⟨l', _, ⟨_, _, e⟩ | ⟨_, _, ts, gs, h1, _, e⟩⟩ := add_any_effect n l _ h
    · have e : n' = n := e
      exact e ▸ ih
    · have e : n' = _ := e
      subst e
      unfold Counted at ih ⊢
      have hl := congrArg List.length (fresh_shapes h1)
      simp only [List.append_eq_nil_iff, List.cons_ne_nil, and_false, if_false, List.length_append,
        List.length_singleton]
      rw [List.length_map] at hl
      rw [hl, ih]
      unfold newStates
      split
      · rename_i e; rw [e]; rfl
      · simp
  | infer n x r n' _ h ih =>
    by_cases hr : n.layers = [] ∨ x.shape ≠ n.input_shape
    · obtain ⟨e, he⟩ := infer_refused (b := b) ih hr
      obtain ⟨_, rfl⟩ := Prod.mk.inj (Except.ok.inj (he.symm.trans h))
      exact ih
    · rw [not_or, not_not] at hr
      rw [infer_pass ih hr.1 hr.2] at h
      obtain ⟨⟨r', ls', ys⟩, hp, h⟩ := bind_inv h
      obtain ⟨_, rfl⟩ := Prod.mk.inj (Except.ok.inj h)
      obtain ⟨e1, e2⟩ := passForward_length _ _ _ _ _ _ hp
      have hls : ls' ≠ [] := fun e => hr.1 (List.length_eq_zero_iff.mp (by rw [← e1, e]; rfl))
      unfold Counted at ih ⊢
      rw [if_neg hr.1] at ih
      simp only
      rw [if_neg hls, List.length_cons, e1, e2, List.length_tail]
      omega
  | backward n g r n' _ h ih =>
    obtain ⟨h1, h2, _⟩ := backward_any (b := b) (fun _ _ => True) (fun _ => trivial)
      (fun _ _ _ _ _ _ _ _ _ _ _ => trivial) h
    unfold Counted at ih ⊢
    rw [h2, ih]
    have := forall₂_length h1
    cases e : n.layers <;> cases e' : n'.layers <;> simp [e, e'] at this ⊢
    exact this
  | switch_to_training n n' _ h ih =>
    obtain ⟨ls, h1, h⟩ := bind_inv h
    obtain ⟨gs, h2, h⟩ := bind_inv h
    obtain rfl := Except.ok.inj h
    have := forall₂_length (mapM_sat _ _ _ h1)
    unfold Counted at ih ⊢
    simp only
    rw [ih]
    cases e : n.layers <;> cases ls <;> simp [e] at this ⊢
    exact this
  | switch_to_inference n n' _ h ih =>
    obtain ⟨ls, h1, h⟩ := bind_inv h
    obtain rfl := Except.ok.inj h
    have := forall₂_length (mapM_sat _ _ _ h1)
    unfold Counted at ih ⊢
    simp only
    rw [ih]
    cases e : n.layers <;> cases ls <;> simp [e] at this ⊢
    exact this

theorem training_history {n : Network F L} (h : AnyTraining b n) : AnyHistory b n := by
  induction h with
  | new => exact .new _
  | switch_to_training n n' h h' => exact .switch_to_training _ _ h h'
  | add_layer n l r n' _ h ih => exact .add_layer _ _ _ _ ih h
  | infer n x r n' _ h ih => exact .infer _ _ _ _ ih h
  | backward n g r n' _ h ih => exact .backward _ _ _ _ ih h

/-- in training mode there is one gradient per state -/
theorem training_counted {n : Network F L} (h : AnyTraining b n) :
    n.run_state = .Training ∧ n.intermediate_gradients.length = n.intermediate_states.length := by
  induction h with
  | new => exact ⟨rfl, rfl⟩
  | switch_to_training n n' _ h =>
    obtain ⟨ls, h1, h⟩ := bind_inv h
    obtain ⟨gs, h2, h⟩ := bind_inv h
    obtain rfl := Except.ok.inj h
    exact ⟨rfl, (forall₂_length (mapM_sat _ _ _ h2)).symm⟩
  | add_layer n l r n' _ h ih =>
    obtain ⟨l', _, ⟨_, _, e⟩ | ⟨_, _, ts, gs, h1, h2, e⟩⟩ := add_any_effect n l _ h
    · have e : n' = n := e
      exact e ▸ ih
    · have e : n' = _ := e
      subst e
      rw [if_pos ih.1] at h2
      have e1 := congrArg List.length (fresh_shapes h1)
      have e2 := congrArg List.length (fresh_shapes h2)
      rw [List.length_map] at e1 e2
      refine ⟨ih.1, ?_⟩
      simp only [List.length_append]
      rw [ih.2, e1, e2]
  | infer n x r n' hn h ih =>
    have hc := history_counted (training_history hn)
    by_cases hr : n.layers = [] ∨ x.shape ≠ n.input_shape
    · obtain ⟨e, he⟩ := infer_refused (b := b) hc hr
      obtain ⟨_, rfl⟩ := Prod.mk.inj (Except.ok.inj (he.symm.trans h))
      exact ih
    · rw [not_or, not_not] at hr
      rw [infer_pass hc hr.1 hr.2] at h
      obtain ⟨⟨r', ls', ys⟩, hp, h⟩ := bind_inv h
      obtain ⟨_, rfl⟩ := Prod.mk.inj (Except.ok.inj h)
      obtain ⟨e1, e2⟩ := passForward_length _ _ _ _ _ _ hp
      unfold Counted at hc
      rw [if_neg hr.1] at hc
      refine ⟨ih.1, ?_⟩
      simp only [List.length_cons]
      rw [ih.2, e2, List.length_tail]
      omega
  | backward n g r n' _ h ih =>
    obtain ⟨_, h2, h3, _, _, h6⟩ := backward_any (b := b) (fun _ _ => True) (fun _ => trivial)
      (fun _ _ _ _ _ _ _ _ _ _ _ => trivial) h
    exact ⟨h6.trans ih.1, by rw [h2, h3]; exact ih.2⟩

omit [F32Ops F] in
/-- `backward` in training mode with the right shape is one pass -/
theorem backward_pass {n : Network F L} (hc : Counted n) (hne : n.layers ≠ []) (hm : n.run_state = .Training)
    (hl : n.intermediate_gradients.length = n.intermediate_states.length) {g : Tensor F}
    (hg : g.shape = n.output_shape) :
    n.backward b g = (do
      let (r, ls', gs) ← passBackward b n.layers n.intermediate_states n.intermediate_gradients.dropLast g
      pure (r, { n with layers := ls', intermediate_gradients := gs ++ [g] })) := by
  unfold Counted at hc
  rw [if_neg hne] at hc
  have hpos : 0 < n.layers.length := List.length_pos_iff.mpr hne
  unfold Network.backward
  rw [if_neg (by simp [hg]), if_neg (by omega), if_neg (by simp [hm])]
  have hgl : n.intermediate_gradients.length = n.layers.length + 1 := hl.trans hc
  have hdl : n.intermediate_gradients.dropLast.length = n.layers.length := by
    rw [List.length_dropLast, hgl]; rfl
  have e : vset n.intermediate_gradients n.layers.length g = .ok (n.intermediate_gradients.dropLast ++ [g]) := by
    unfold vset
    rw [if_pos (by omega)]
    obtain ⟨a, hga⟩ : ∃ a, n.intermediate_gradients = n.intermediate_gradients.dropLast ++ [a] :=
      ⟨_, (List.dropLast_append_getLast (fun e => by rw [e] at hgl; simp at hgl)).symm⟩
    conv_lhs => rw [hga]
    rw [List.set_append_right _ _ (by omega), hdl, Nat.sub_self]
    rfl
  have hloop := backward_loop (b := b) n.intermediate_states g n.layers n.intermediate_states
    n.intermediate_gradients.dropLast [] [] [] hc hdl rfl rfl rfl
  simp only [List.nil_append, List.length_nil] at hloop
  rw [e, ok_bind, List.range_eq_range', hloop]
  cases passBackward b n.layers n.intermediate_states n.intermediate_gradients.dropLast g <;> rfl

/-! ## Layers that compute functions -/

variable {P : L → Prop} {f : L → Tensor F → Tensor F}

omit [F32Ops F] in
theorem alike_refl {l : L} (h : P l) : Alike P f l l := ⟨h, rfl, rfl, fun _ => rfl⟩

omit [F32Ops F] in
theorem alike_trans {l l' l'' : L} (h : Alike P f l l') (h' : Alike P f l' l'') : Alike P f l l'' :=
  ⟨h'.ok, h'.input.trans h.input, h'.output.trans h.output, fun z => (h'.function z).trans (h.function z)⟩

/-- the layers `ls` fit on inputs of shape `s`, one after the other, and there is an output tensor for each -/
inductive Fitted (P : L → Prop) : TensorShape → List L → List (Tensor F) → Prop
  | nil (s) : Fitted P s [] []
  | cons (l ls out outs) : P l → out.WF → out.shape = LayerOps.get_output_shape l →
      Fitted P (LayerOps.get_output_shape l) ls outs → Fitted P (LayerOps.get_input_shape l) (l :: ls) (out :: outs)

/-- the outputs of all layers -/
def outputs (f : L → Tensor F → Tensor F) : List L → Tensor F → List (Tensor F)
  | [], _ => []
  | l :: ls, x => f l x :: outputs f ls (f l x)

omit [F32Ops F] in
theorem fitted_nil {s : TensorShape} {outs : List (Tensor F)} (h : Fitted P s [] outs) : outs = [] := by
  generalize e : ([] : List L) = ls at h
  cases h with
  | nil => rfl
  | cons => cases e

omit [F32Ops F] in
theorem fitted_alike {s : TensorShape} {ls ls' : List L} {outs : List (Tensor F)} (h : Fitted P s ls outs)
    (ha : List.Forall₂ (Alike P f) ls ls') : Fitted P s ls' outs := by
  induction h generalizing ls' with
  | nil s => cases ha; exact .nil s
  | cons l ls out outs h1 h2 h3 _ ih =>
    cases ha with
    | cons a1 a2 =>
      rw [← a1.input]
      refine .cons _ _ _ _ a1.ok h2 (h3.trans a1.output.symm) ?_
      rw [a1.output]
      exact ih a2

omit [F32Ops F] in
theorem fitted_append {s : TensorShape} {ls : List L} {outs : List (Tensor F)} (h : Fitted P s ls outs)
    (hne : ls ≠ []) {l : L} (hl : P l) {out : Tensor F} (ho : out.WF) (hos : out.shape = LayerOps.get_output_shape l)
    (hlast : ∀ last, ls.getLast? = some last → LayerOps.get_output_shape last = LayerOps.get_input_shape l) :
    Fitted P s (ls ++ [l]) (outs ++ [out]) := by
  induction h with
  | nil s => exact absurd rfl hne
  | cons l1 ls out1 outs h1 h2 h3 h4 ih =>
    refine .cons _ _ _ _ h1 h2 h3 ?_
    cases ls with
    | nil =>
      obtain rfl : outs = [] := fitted_nil h4
      have := hlast l1 rfl
      rw [this]
      exact .cons _ _ _ _ hl ho hos (.nil _)
    | cons l2 ls =>
      exact ih (by simp) fun last h => hlast last (by rw [List.getLast?_cons_cons]; exact h)

omit [F32Ops F] in
theorem pass_lawful (hP : Computes b P f) {s : TensorShape} {ls : List L} {outs : List (Tensor F)}
    (h : Fitted P s ls outs) : ∀ x : Tensor F, x.WF → x.shape = s →
    ∃ ls', passForward b ls outs x = .ok (.ok (), ls', outputs f ls x) ∧ List.Forall₂ (Alike P f) ls ls' ∧
      Fitted P s ls' (outputs f ls x) := by
  induction h with
  | nil s => exact fun x _ _ => ⟨[], rfl, .nil, .nil _⟩
  | cons l ls out outs h1 h2 h3 _ ih =>
    intro x hx hxs
    obtain ⟨l', q1, q2, q3, q4⟩ := hP.forward l x out h1 hx hxs h2 h3
    obtain ⟨ls', p1, p2, p3⟩ := ih (f l x) q2 q3
    refine ⟨l' :: ls', ?_, .cons q4 p2, ?_⟩
    · unfold passForward
      rw [q1, ok_bind]
      simp only
      rw [p1]
      rfl
    · rw [← q4.input]
      refine .cons _ _ _ _ q4.ok q2 (q3.trans q4.output.symm) ?_
      rw [q4.output]
      exact p3

/-- a network whose layers are alike to `ls` -/
structure Lawful (P : L → Prop) (f : L → Tensor F → Tensor F) (ls : List L) (n : Network F L) : Prop where
  alike : List.Forall₂ (Alike P f) ls n.layers
  counted : Counted n
  fitted : n.layers ≠ [] → Fitted P n.input_shape n.layers n.intermediate_states.tail

omit [F32Ops F] in
theorem lawful_of_alike {ls : List L} {n n' : Network F L} (h : Lawful P f ls n)
    (ha : List.Forall₂ (Alike P f) n.layers n'.layers) (hs : n'.intermediate_states = n.intermediate_states)
    (hi : n'.input_shape = n.input_shape) : Lawful P f ls n' := by
  have hlen := forall₂_length ha
  have hnil : n'.layers = [] ↔ n.layers = [] := by
    rw [← List.length_eq_zero_iff, ← List.length_eq_zero_iff, hlen]
  refine ⟨forall₂_trans (fun _ _ _ => alike_trans) h.alike ha, ?_, fun hne => ?_⟩
  · have := h.counted
    unfold Counted at this ⊢
    rw [hs, this, hlen]
    by_cases e : n.layers = []
    · rw [if_pos e, if_pos (hnil.mpr e)]
    · rw [if_neg e, if_neg (fun e' => e (hnil.mp e'))]
  · rw [hi, hs]
    exact fitted_alike (h.fitted fun e => hne (hnil.mpr e)) ha

omit [F32Ops F] in
theorem lawful_ok {ls : List L} {n : Network F L} (h : Lawful P f ls n) : ∀ l ∈ n.layers, P l := by
  have := h.alike
  generalize n.layers = ms at this
  clear h
  induction this with
  | nil => intro l hl; cases hl
  | cons a _ ih =>
    intro l hl
    rcases List.mem_cons.mp hl with rfl | hl
    · exact a.ok
    · exact ih l hl

omit [F32Ops F] in
theorem infer_lawful (hP : Computes b P f) {ls : List L} {n : Network F L} (h : Lawful P f ls n)
    (hne : n.layers ≠ []) {x : Tensor F} (hx : x.WF) (hxs : x.shape = n.input_shape) :
    ∃ n', n.infer b x = .ok (.ok (), n') ∧ n'.intermediate_states = x :: outputs f n.layers x ∧ Lawful P f ls n' := by
  obtain ⟨ls', p1, p2, p3⟩ := pass_lawful hP (h.fitted hne) x hx hxs
  refine ⟨{ n with layers := ls', intermediate_states := x :: outputs f n.layers x }, ?_, rfl, ?_⟩
  · rw [infer_pass h.counted hne hxs, p1]
    rfl
  · have hlen := forall₂_length p2
    obtain ⟨_, l2⟩ := passForward_length _ _ _ _ _ _ p1
    refine ⟨forall₂_trans (fun _ _ _ => alike_trans) h.alike p2, ?_, fun _ => p3⟩
    have hc := h.counted
    unfold Counted at hc ⊢
    rw [if_neg hne] at hc
    have hne' : ls' ≠ [] := fun e => hne (List.length_eq_zero_iff.mp (by rw [hlen, e]; rfl))
    simp only
    rw [if_neg hne', List.length_cons, l2, List.length_tail, ← hlen]
    omega

theorem lawful_history (hP : Computes b P f) {ls : List L} {n : Network F L} (h : LawfulHistory b P ls n) :
    Lawful P f ls n := by
  have hmap : ∀ {ms ms' : List L} {g : L → Exec L}, (∀ l ∈ ms, P l) → (∀ l l', P l → g l = .ok l' → Alike P f l l') →
      ms.mapM g = .ok ms' → List.Forall₂ (Alike P f) ms ms' := by
    intro ms ms' g hms hg h
    have := mapM_sat _ _ _ h
    clear h
    induction this with
    | nil => exact .nil
    | cons e _ ih =>
      exact .cons (hg _ _ (hms _ (List.mem_cons_self ..)) e) (ih fun l hl => hms l (List.mem_cons_of_mem _ hl))
  induction h with
  | new m => exact ⟨.nil, rfl, fun h => absurd rfl h⟩
  | accepted ls n l n' _ hl h ih =>
    obtain ⟨l', hen, ⟨_, ⟨e, he⟩, _⟩ | ⟨hlast, _, ts, gs, h1, _, e⟩⟩ := add_any_effect n l _ h
    · cases he
    · have e : n' = _ := e
      subst e
      have ha : Alike P f l l' := by
        unfold Network.enter_mode at hen
        cases hm : n.run_state <;> rw [hm] at hen
        · exact hP.inference l l' hl hen
        · exact hP.training l l' hl hen
      obtain ⟨f1, f2⟩ := hP.shapes l' ha.ok
      have hw := fresh_wf h1 (by
        intro s hs
        unfold newStates at hs
        split at hs <;> simp only [List.mem_cons, List.not_mem_nil, or_false] at hs
        · rcases hs with rfl | rfl
          · exact f1
          · exact f2
        · subst hs; exact f2)
      have hss := fresh_shapes h1
      refine ⟨?_, ?_, fun _ => ?_⟩
      · exact List.rel_append ih.alike (.cons ha .nil)
      · have hc := ih.counted
        unfold Counted at hc ⊢
        have hl := congrArg List.length hss
        rw [List.length_map] at hl
        simp only [List.append_eq_nil_iff, List.cons_ne_nil, and_false, if_false, List.length_append,
          List.length_singleton]
        rw [hl, hc]
        unfold newStates
        split
        · rename_i e; rw [e]; rfl
        · simp
      · simp only
        by_cases hnil : n.layers = []
        · unfold newStates at hss
          rw [if_pos hnil] at hss ⊢
          have hs0 : n.intermediate_states = [] := by
            have hc := ih.counted
            unfold Counted at hc
            rw [if_pos hnil] at hc
            exact List.length_eq_zero_iff.mp hc
          rw [hnil, hs0]
          obtain ⟨t1, t2, rfl⟩ : ∃ t1 t2, ts = [t1, t2] := by
            have hl := congrArg List.length hss
            rw [List.length_map] at hl
            exact List.length_eq_two.mp hl
          simp only [List.map_cons, List.map_nil, List.cons.injEq, and_true] at hss
          exact .cons _ _ _ _ ha.ok (hw t2 (by simp)) hss.2 (.nil _)
        · unfold newStates at hss
          rw [if_neg hnil] at hss ⊢
          obtain ⟨t, rfl⟩ : ∃ t, ts = [t] := by
            have hl := congrArg List.length hss
            rw [List.length_map] at hl
            exact List.length_eq_one_iff.mp hl
          simp only [List.map_cons, List.map_nil, List.cons.injEq, and_true] at hss
          have hs : n.intermediate_states ≠ [] := by
            intro e
            have hc := ih.counted
            unfold Counted at hc
            rw [if_neg hnil, e] at hc
            simp at hc
          rw [List.tail_append_of_ne_nil hs]
          exact fitted_append (ih.fitted hnil) hnil ha.ok (hw t (by simp)) hss hlast
  | refused ls n l e n' _ h ih =>
    obtain ⟨l', _, ⟨_, _, e⟩ | ⟨_, e, _⟩⟩ := add_any_effect n l _ h
    · have e : n' = n := e
      exact e ▸ ih
    · cases e
  | infer ls n x r n' _ hx h ih =>
    by_cases hr : n.layers = [] ∨ x.shape ≠ n.input_shape
    · obtain ⟨e, he⟩ := infer_refused (b := b) ih.counted hr
      obtain ⟨_, rfl⟩ := Prod.mk.inj (Except.ok.inj (he.symm.trans h))
      exact ih
    · rw [not_or, not_not] at hr
      obtain ⟨m, q1, _, q3⟩ := infer_lawful hP ih hr.1 hx hr.2
      obtain ⟨_, rfl⟩ := Prod.mk.inj (Except.ok.inj (q1.symm.trans h))
      exact q3
  | backward ls n g r n' _ h ih =>
    have hok := lawful_ok ih
    obtain ⟨h1, h2, _, h4, _⟩ := backward_any (b := b) (fun l l' => P l → Alike P f l l') (fun l h => alike_refl h)
      (fun l l1 x y g og r l2 og' h e hp => alike_trans (h hp) (hP.backward _ _ _ _ _ _ _ _ (h hp).ok e)) h
    refine lawful_of_alike ih ?_ h2 h4
    generalize n.layers = ms at h1 hok
    replace h1 : List.Forall₂ (fun l l' => P l → Alike P f l l') ms n'.layers := h1
    generalize n'.layers = ms' at h1
    clear h2 h4 h
    induction h1 with
    | nil => exact .nil
    | cons e _ ih' =>
      exact .cons (e (hok _ (List.mem_cons_self ..))) (ih' fun l hl => hok l (List.mem_cons_of_mem _ hl))
  | switch_to_training ls n n' _ h ih =>
    obtain ⟨ms, h1, h⟩ := bind_inv h
    obtain ⟨gs, h2, h⟩ := bind_inv h
    obtain rfl := Except.ok.inj h
    exact lawful_of_alike ih (hmap (lawful_ok ih) hP.training h1) rfl rfl
  | switch_to_inference ls n n' _ h ih =>
    obtain ⟨ms, h1, h⟩ := bind_inv h
    obtain rfl := Except.ok.inj h
    exact lawful_of_alike ih (hmap (lawful_ok ih) hP.inference h1) rfl rfl

omit [F32Ops F] [LayerOps F L] in
theorem outputs_get (f : L → Tensor F → Tensor F) (ls : List L) : ∀ (x : Tensor F) (i : Nat), i ≤ ls.length →
    (x :: outputs f ls x)[i]? = some ((ls.take i).foldl (fun t l => f l t) x) := by
  induction ls with
  | nil => intro x i hi; obtain rfl := Nat.le_zero.mp hi; rfl
  | cons l ls ih =>
    intro x i hi
    cases i with
    | zero => rfl
    | succ i =>
      rw [List.getElem?_cons_succ]
      exact ih (f l x) i (by simpa using hi)

omit [F32Ops F] in
theorem outputs_alike {P : L → Prop} {f : L → Tensor F → Tensor F} {ls ls' : List L}
    (h : List.Forall₂ (Alike P f) ls ls') : ∀ x : Tensor F, outputs f ls' x = outputs f ls x := by
  induction h with
  | nil => exact fun _ => rfl
  | cons a _ ih =>
    intro x
    unfold outputs
    rw [a.function x, ih]

omit [F32Ops F] [LayerOps F L] in
theorem outputs_length (f : L → Tensor F → Tensor F) (ls : List L) : ∀ x : Tensor F,
    (outputs f ls x).length = ls.length := by
  induction ls with
  | nil => exact fun _ => rfl
  | cons l ls ih => exact fun x => congrArg (· + 1) (ih _)

end Rusty
