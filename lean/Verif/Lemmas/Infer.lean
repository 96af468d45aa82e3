import Verif.Lemmas.Network

set_option linter.unusedSectionVars false

/-! # Helper lemmas: `infer` and `backward` on well formed networks -/

namespace Rusty

open F32Ops Spec

variable {F : Type} [F32Ops F] {b : Build}

theorem applies_val {l : AnyLayer F} {s s' : Tensor F} (h : applies b l s s') {i j k : Nat}
    (hin : l.get_output_shape.Inside i j k) : val s' i j k = layerAt l s i j k := by
  have := h.2.2 i j k hin
  rw [get_item_ok h.1 (by rw [h.2.1]; exact hin)] at this
  exact Except.ok.inj this

/-- `infer` on a well formed network -/
theorem infer_ok {n : Net F} (hn : NetOk n) (hne : n.layers ≠ []) {x : Tensor F} (hx : x.WF)
    (hxs : x.shape = n.input_shape) :
    ∃ n', n.infer b x = .ok (.ok (), n') ∧ n'.intermediate_states[0]? = some x ∧
      ∀ (i : Nat) l, n.layers[i]? = some l → ∃ s s', n'.intermediate_states[i]? = some s ∧
        n'.intermediate_states[i + 1]? = some s' ∧ applies b l s s' ∧
        ∃ out l', n'.layers[i]? = some l' ∧ s.WF ∧ s.shape = l.get_input_shape ∧ out.WF ∧
          out.shape = l.get_output_shape ∧ l.forward b s out = .ok (.ok (), l', s') := by
  have hlen := chain_length hn.chain
  rw [if_neg hne] at hlen
  have hpos : n.layers.length ≠ 0 := fun e => hne (List.length_eq_zero_iff.mp e)
  obtain ⟨⟨ls, ss⟩, q1, q2, q3, q4, q5⟩ := forListE_prefix (List.range n.layers.length)
    (n.layers, n.intermediate_states.set 0 x) (fun i s => Network.infer_step b s i)
    (fun pre p => (p.1.length = n.layers.length ∧ ∀ i, pre.length ≤ i → p.1[i]? = n.layers[i]?) ∧
      p.2[0]? = some x ∧ sameLayouts p.2 (n.intermediate_states.set 0 x) ∧
      ∀ (i : Nat) l, i ∈ pre → n.layers[i]? = some l → ∃ s s', p.2[i]? = some s ∧
        p.2[i + 1]? = some s' ∧ applies b l s s' ∧
        ∃ out l', p.1[i]? = some l' ∧ s.WF ∧ s.shape = l.get_input_shape ∧ out.WF ∧
          out.shape = l.get_output_shape ∧ l.forward b s out = .ok (.ok (), l', s'))
    ⟨⟨rfl, fun _ _ => rfl⟩, by rw [List.getElem?_set_self (by omega)],
      sameLayouts_refl _, fun _ _ h => by cases h⟩
    (by
      rintro pre c post ⟨ls, ss⟩ hL ⟨⟨t1, t2⟩, t3, t4, t5⟩
      obtain ⟨hpre, hc⟩ := range_prefix hL
      simp only at t1 t2 t3 t4 t5
      have hprel : pre.length = c := by rw [hpre, List.length_range]
      have hsl : ss.length = n.layers.length + 1 := by
        rw [sameLayouts_length t4, List.length_set, hlen]
      have hl : n.layers[c]? = some n.layers[c] := List.getElem?_eq_getElem hc
      have hl' : ls[c]? = some n.layers[c] := by rw [t2 c (by omega), hl]
      obtain ⟨u, u', e1, e2, e3, e4⟩ := chain_state hn.chain hl
      have hlay : ∀ i (h : i < ss.length), ∃ t, (n.intermediate_states.set 0 x)[i]? = some t ∧
          sameLayout ss[i] t := by
        intro i h
        have h2 : i < (n.intermediate_states.set 0 x).length := by rw [← sameLayouts_length t4]; exact h
        exact ⟨_, List.getElem?_eq_getElem h2, sameLayouts_get t4 i h h2⟩
      -- the output tensor
      have ho : ss[c + 1].WF ∧ ss[c + 1].shape = n.layers[c].get_output_shape := by
        obtain ⟨t, h1, h2⟩ := hlay (c + 1) (by omega)
        rw [List.getElem?_set_ne (by omega), e2] at h1
        cases h1
        have hw : u'.WF := by
          apply hn.states
          cases hst : n.intermediate_states with
          | nil => rw [hst] at e2; cases e2
          | cons a as =>
            rw [hst, List.getElem?_cons_succ] at e2
            exact List.mem_of_getElem? e2
        obtain ⟨w1, w2⟩ := sameLayout_wf h2 hw
        exact ⟨w1, w2.trans e4⟩
      -- the input tensor
      have hi : ss[c].WF ∧ ss[c].shape = n.layers[c].get_input_shape := by
        rcases Nat.eq_zero_or_pos c with h0 | h0
        · subst h0
          rw [List.getElem?_eq_getElem (by omega)] at t3
          have t3 := Option.some.inj t3
          rw [t3]
          refine ⟨hx, hxs.trans ?_⟩
          exact hn.chain.first _ (by rw [List.head?_eq_getElem?]; exact hl)
        · obtain ⟨c', rfl⟩ : ∃ c', c = c' + 1 := ⟨c - 1, by omega⟩
          have hp : n.layers[c']? = some n.layers[c'] := List.getElem?_eq_getElem (by omega)
          obtain ⟨s, s', h1, h2, h3, _⟩ := t5 c' _ (by rw [hpre]; exact List.mem_range.mpr (by omega)) hp
          rw [List.getElem?_eq_getElem (by omega)] at h2
          have h2 := Option.some.inj h2
          rw [h2]
          exact ⟨h3.1, h3.2.1.trans (hn.chain.links c' _ _ hp hl)⟩
      obtain ⟨l', y, f1, f2, f3, f4⟩ := forward_ok (b := b) (hn.layers _ (List.getElem_mem hc))
        hi.1 hi.2 ho.1 ho.2
      refine ⟨(ls.set c l', ss.set (c + 1) y), ?_, ⟨by simp [t1], ?_⟩, ?_, ?_, ?_⟩
      · unfold Network.infer_step
        simp only
        rw [if_neg (by omega)]
        unfold vget
        rw [hl']
        simp only [ok_bind]
        rw [List.getElem?_eq_getElem (show c < ss.length by omega),
          List.getElem?_eq_getElem (show c + 1 < ss.length by omega)]
        simp only
        have f1' : LayerOps.forward b n.layers[c] ss[c] ss[c + 1] = .ok (.ok (), l', y) := f1
        rw [f1', ok_bind]
        simp only
        rw [vset_ok (by omega), ok_bind, vset_ok (by omega), ok_bind]
        rfl
      · intro i hi'
        rw [List.length_append, List.length_singleton, hprel] at hi'
        simp only
        rw [List.getElem?_set_ne (by omega)]
        exact t2 i (by omega)
      · simp only
        rw [List.getElem?_set_ne (by omega)]
        exact t3
      · refine sameLayouts_set t4 (c + 1) y ss[c + 1] (List.getElem?_eq_getElem (by omega)) ?_
        exact (forward_like (b := b) _ _ _ _ f1).2
      · intro i l hi' hil
        simp only
        rcases List.mem_append.mp hi' with h | h
        · have hlt : i < c := by rw [hpre] at h; exact List.mem_range.mp h
          obtain ⟨s, s', h1, h2, h3, out, l'', h4, h5⟩ := t5 i l h hil
          refine ⟨s, s', ?_, ?_, h3, out, l'', ?_, h5⟩
          · rw [List.getElem?_set_ne (by omega)]; exact h1
          · rw [List.getElem?_set_ne (by omega)]; exact h2
          · rw [List.getElem?_set_ne (by omega)]; exact h4
        · have := List.mem_singleton.mp h
          subst this
          rw [hl] at hil
          cases hil
          refine ⟨ss[i], y, ?_, ?_, ⟨f2, f3, fun a c d hin => ?_⟩, ss[i + 1], l', ?_, hi.1, hi.2,
            ho.1, ho.2, f1⟩
          · rw [List.getElem?_set_ne (by omega), List.getElem?_eq_getElem (by omega)]
          · rw [List.getElem?_set_self (by omega)]
          · rw [get_item_ok f2 (by rw [f3]; exact hin), f4 a c d hin]
          · rw [List.getElem?_set_self (by omega)])
  simp only at q2 q3 q4 q5
  refine ⟨{ n with layers := ls, intermediate_states := ss }, ?_, q3, fun i l hi => ?_⟩
  · unfold Network.infer
    rw [if_neg (fun h => h hxs), if_neg (by omega), vset_ok (by omega), ok_bind, q1, ok_bind]
    rfl
  · have hlt : i < n.layers.length := by
      rcases Nat.lt_or_ge i n.layers.length with h | h
      · exact h
      · rw [List.getElem?_eq_none h] at hi; cases hi
    exact q5 i l (List.mem_range.mpr hlt) hi

/-- two runs of the same layers agree on every state -/
theorem states_unique {ls ls' : List (AnyLayer F)} {ss ss' : List (Tensor F)} {x : Tensor F}
    (hlen : ls'.length = ls.length) (hss : ss.length = ls.length + 1)
    (hss' : ss'.length = ls.length + 1)
    (hat : ∀ (i : Nat) l l', ls[i]? = some l → ls'[i]? = some l' →
      l.get_output_shape = l'.get_output_shape ∧ ∀ s a c d, layerAt l s a c d = layerAt l' s a c d)
    (h0 : ss[0]? = some x) (h0' : ss'[0]? = some x)
    (h : ∀ (i : Nat) l, ls[i]? = some l → ∃ s s', ss[i]? = some s ∧ ss[i + 1]? = some s' ∧
      applies b l s s')
    (h' : ∀ (i : Nat) l, ls'[i]? = some l → ∃ s s', ss'[i]? = some s ∧ ss'[i + 1]? = some s' ∧
      applies b l s s') : ss = ss' := by
  have key : ∀ i, i ≤ ls.length → ss[i]? = ss'[i]? := by
    intro i
    induction i with
    | zero => intro _; rw [h0, h0']
    | succ i ih =>
      intro hi
      have e1 : ls[i]? = some ls[i] := List.getElem?_eq_getElem (by omega)
      have e2 : ls'[i]? = some ls'[i] := List.getElem?_eq_getElem (by omega)
      obtain ⟨s, t, a1, a2, a3⟩ := h i _ e1
      obtain ⟨s', t', c1, c2, c3⟩ := h' i _ e2
      have hs : s = s' := by
        have := ih (by omega)
        rw [a1, c1] at this
        exact Option.some.inj this
      subst hs
      obtain ⟨d1, d2⟩ := hat i _ _ e1 e2
      rw [a2, c2]
      congr 1
      refine tensor_ext a3.1 c3.1 (by rw [a3.2.1, c3.2.1, d1]) fun i j k hin => ?_
      rw [a3.2.1] at hin
      rw [applies_val a3 hin, applies_val c3 (by rw [← d1]; exact hin), d2]
  apply List.ext_getElem?
  intro i
  rcases Nat.lt_or_ge ls.length i with hi | hi
  · rw [List.getElem?_eq_none (by omega), List.getElem?_eq_none (by omega)]
  · exact key i hi

/-- two well formed networks with the same layers compute the same -/
theorem infer_same {n1 n2 : Net F} (h1 : NetOk n1) (h2 : NetOk n2)
    (hp : n1.layers.map params = n2.layers.map params)
    (hat : ∀ (i : Nat) l l', n1.layers[i]? = some l → n2.layers[i]? = some l' →
      ∀ s a c d, layerAt l s a c d = layerAt l' s a c d)
    (hne : n1.layers ≠ []) {x : Tensor F} (hx : x.WF) (hxs : x.shape = n1.input_shape) :
    ∃ m1 m2, n1.infer b x = .ok (.ok (), m1) ∧ n2.infer b x = .ok (.ok (), m2) ∧
      m1.intermediate_states = m2.intermediate_states := by
  have hlen : n2.layers.length = n1.layers.length := by
    have := congrArg List.length hp
    simpa using this.symm
  have hpos : n1.layers.length ≠ 0 := fun e => hne (List.length_eq_zero_iff.mp e)
  have hne2 : n2.layers ≠ [] := fun e => hpos (by rw [← hlen, e]; rfl)
  have hin : n2.input_shape = n1.input_shape := by
    have e1 : n1.layers[0]? = some n1.layers[0] := List.getElem?_eq_getElem (by omega)
    have e2 : n2.layers[0]? = some n2.layers[0] := List.getElem?_eq_getElem (by omega)
    obtain ⟨l, e3, e4⟩ := map_get hp e1
    rw [e2] at e3
    cases e3
    have f1 := h1.chain.first _ (by rw [List.head?_eq_getElem?]; exact e1)
    have f2 := h2.chain.first _ (by rw [List.head?_eq_getElem?]; exact e2)
    exact (f2.trans (params_input e4).symm).trans f1.symm
  obtain ⟨m1, a1, a2, a3⟩ := infer_ok (b := b) h1 hne hx hxs
  obtain ⟨m2, c1, c2, c3⟩ := infer_ok (b := b) h2 hne2 hx (hxs.trans hin.symm)
  refine ⟨m1, m2, a1, c1, ?_⟩
  have l1 := chain_length (uses_chain h1.chain (.infer _ _ _ _ a1))
  have l2 := chain_length (uses_chain h2.chain (.infer _ _ _ _ c1))
  have k1 : m1.layers.length = n1.layers.length := forall₂_length (infer_effect n1 x _ a1).1
  have k2 : m2.layers.length = n2.layers.length := forall₂_length (infer_effect n2 x _ c1).1
  rw [if_neg (fun h => hpos (by rw [← k1, h]; rfl)), k1] at l1
  rw [if_neg (fun h => hpos (by rw [← hlen, ← k2, h]; rfl)), k2, hlen] at l2
  refine states_unique hlen l1 l2 (fun i l l' e1 e2 => ⟨?_, hat i l l' e1 e2⟩) a2 c2
    (fun i l hi => by obtain ⟨s, s', h1, h2, h3, _⟩ := a3 i l hi; exact ⟨s, s', h1, h2, h3⟩)
    (fun i l hi => by obtain ⟨s, s', h1, h2, h3, _⟩ := c3 i l hi; exact ⟨s, s', h1, h2, h3⟩)
  obtain ⟨l0, e3, e4⟩ := map_get hp e1
  rw [e2] at e3
  cases e3
  exact params_output e4

theorem get_output_congr {m1 m2 : Net F} (h : m1.intermediate_states = m2.intermediate_states) :
    m1.get_output = m2.get_output := by
  unfold Network.get_output
  rw [h]

/-! ## `backward`, with any layers -/

/-- What it means that `backward` has worked through the layers from the last down to layer `c`. -/
def BackDone (b : Build) (n : Net F) (c : Nat) (ls : List (AnyLayer F)) (gs : List (Tensor F)) : Prop :=
  ∀ (i : Nat) l, c ≤ i → n.layers[i]? = some l → ∃ x y g og og' l', n.intermediate_states[i]? = some x ∧
    n.intermediate_states[i + 1]? = some y ∧ gs[i + 1]? = some g ∧
    n.intermediate_gradients[i]? = some og ∧ gs[i]? = some og' ∧ ls[i]? = some l' ∧
    l.backward b x y g og = .ok (.ok (), l', og')

end Rusty
