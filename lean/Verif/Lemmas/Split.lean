import Verif.Lemmas.Batch

/-! # Helper lemmas: a network cut in two -/

namespace Rusty

open F32Ops Spec

variable {F : Type} [F32Ops F] {b : Build}

/-- runs of the same layers from the same state agree, wherever the layers stand in the networks -/
theorem states_follow {ls ls' : List (AnyLayer F)} {ss ss' : List (Tensor F)} (d : Nat)
    (hat : ∀ (i : Nat) l', ls'[i]? = some l' → ∃ l, ls[d + i]? = some l ∧
      l.get_output_shape = l'.get_output_shape ∧ ∀ s a c e, layerAt l s a c e = layerAt l' s a c e)
    (h0 : ss[d]? = ss'[0]?)
    (h : ∀ (i : Nat) l, ls[i]? = some l → ∃ s s', ss[i]? = some s ∧ ss[i + 1]? = some s' ∧
      applies b l s s')
    (h' : ∀ (i : Nat) l, ls'[i]? = some l → ∃ s s', ss'[i]? = some s ∧ ss'[i + 1]? = some s' ∧
      applies b l s s') : ∀ i, i ≤ ls'.length → ss[d + i]? = ss'[i]? := by
  intro i
  induction i with
  | zero => intro _; exact h0
  | succ i ih =>
    intro hi
    have e2 : ls'[i]? = some ls'[i] := List.getElem?_eq_getElem (by omega)
    obtain ⟨l, e1, d1, d2⟩ := hat i _ e2
    obtain ⟨s, t, a1, a2, a3⟩ := h _ _ e1
    obtain ⟨s', t', c1, c2, c3⟩ := h' i _ e2
    have hs : s = s' := by
      have := ih (by omega)
      rw [a1, c1] at this
      exact Option.some.inj this
    subst hs
    rw [show d + (i + 1) = d + i + 1 from rfl, a2, c2]
    congr 1
    refine tensor_ext a3.1 c3.1 (by rw [a3.2.1, c3.2.1, d1]) fun i j k hin => ?_
    rw [a3.2.1] at hin
    rw [applies_val a3 hin, applies_val c3 (by rw [← d1]; exact hin), d2]

omit [F32Ops F] in
/-- the layers of the second part, in the whole network -/
theorem split_tail {n n1 n2 : Net F}
    (hp : n.layers.map params = n1.layers.map params ++ n2.layers.map params) {i : Nat} {l' : AnyLayer F}
    (h : n2.layers[i]? = some l') : ∃ l, n.layers[n1.layers.length + i]? = some l ∧ params l = params l' := by
  have := congrArg (fun q => q[n1.layers.length + i]?) hp
  simp only [List.getElem?_map] at this
  rw [List.getElem?_append_right (by simp), List.length_map, Nat.add_sub_cancel_left, List.getElem?_map, h,
    Option.map_some] at this
  obtain ⟨l, h1, h2⟩ := Option.map_eq_some_iff.mp this
  exact ⟨l, h1, h2⟩

omit [F32Ops F] in
theorem split_head {n n1 n2 : Net F}
    (hp : n.layers.map params = n1.layers.map params ++ n2.layers.map params) {i : Nat} {l' : AnyLayer F}
    (h : n1.layers[i]? = some l') : ∃ l, n.layers[i]? = some l ∧ params l = params l' := by
  have := congrArg (fun q => q[i]?) hp
  have hlt := (List.getElem?_eq_some_iff.mp h).1
  simp only [List.getElem?_map] at this
  rw [List.getElem?_append_left (by simpa using hlt), List.getElem?_map, h, Option.map_some] at this
  obtain ⟨l, h1, h2⟩ := Option.map_eq_some_iff.mp this
  exact ⟨l, h1, h2⟩

omit [F32Ops F] in
theorem split_length {n n1 n2 : Net F}
    (hp : n.layers.map params = n1.layers.map params ++ n2.layers.map params) :
    n.layers.length = n1.layers.length + n2.layers.length := by
  have := congrArg List.length hp
  simpa using this

/-- the shapes of the parts -/
theorem split_shapes {n n1 n2 : Net F} (hn : Chain n) (h1 : Chain n1) (h2 : Chain n2)
    (hp : n.layers.map params = n1.layers.map params ++ n2.layers.map params) (e1 : n1.layers ≠ [])
    (e2 : n2.layers ≠ []) : n1.input_shape = n.input_shape ∧ n2.input_shape = n1.output_shape ∧
      n2.output_shape = n.output_shape := by
  have hlen := split_length hp
  have p1 : 0 < n1.layers.length := List.length_pos_iff.mpr e1
  have p2 : 0 < n2.layers.length := List.length_pos_iff.mpr e2
  have q1 : n1.layers[0]? = some n1.layers[0] := List.getElem?_eq_getElem p1
  have q2 : n2.layers[0]? = some n2.layers[0] := List.getElem?_eq_getElem p2
  have q3 : n1.layers[n1.layers.length - 1]? = some n1.layers[n1.layers.length - 1] :=
    List.getElem?_eq_getElem (by omega)
  have q4 : n2.layers[n2.layers.length - 1]? = some n2.layers[n2.layers.length - 1] :=
    List.getElem?_eq_getElem (by omega)
  obtain ⟨a, a1, a2⟩ := split_head hp q1
  obtain ⟨c, c1, c2⟩ := split_tail hp q2
  obtain ⟨d, d1, d2⟩ := split_head hp q3
  obtain ⟨e, e3, e4⟩ := split_tail hp q4
  have f1 : n1.input_shape = _ := h1.first _ (by rw [List.head?_eq_getElem?]; exact q1)
  have f2 : n.input_shape = _ := hn.first _ (by rw [List.head?_eq_getElem?]; exact a1)
  have f3 : n2.input_shape = _ := h2.first _ (by rw [List.head?_eq_getElem?]; exact q2)
  have f4 : n1.output_shape = _ := h1.last _ (by rw [List.getLast?_eq_getElem?]; exact q3)
  have f5 : n2.output_shape = _ := h2.last _ (by rw [List.getLast?_eq_getElem?]; exact q4)
  have f6 : n.output_shape = _ := hn.last _ (by
    rw [List.getLast?_eq_getElem?]
    rw [show n.layers.length - 1 = n1.layers.length + (n2.layers.length - 1) by omega]
    exact e3)
  have f7 : d.get_output_shape = c.get_input_shape := hn.links (n1.layers.length - 1) d c d1 (by
    rw [show n1.layers.length - 1 + 1 = n1.layers.length + 0 by omega]
    exact c1)
  refine ⟨?_, ?_, ?_⟩
  · rw [f1, f2, params_input a2]
  · rw [f3, f4, ← params_input c2, ← params_output d2, f7]
  · rw [f5, f6, params_output e4]

/-- the output of a network that has worked on an input is its last state -/
theorem infer_last_state {n n' : Net F} (hn : NetOk n) (hne : n.layers ≠ []) {x : Tensor F}
    (h : n.infer b x = .ok (.ok (), n')) :
    ∃ y, n'.get_output = .ok y ∧ n'.intermediate_states[n.layers.length]? = some y := by
  have k1 : n'.layers.length = n.layers.length := forall₂_length (infer_effect n x _ h).1
  have hl := chain_length (uses_chain hn.chain (.infer _ _ _ _ h))
  have hpos : n.layers.length ≠ 0 := fun e => hne (List.length_eq_zero_iff.mp e)
  rw [if_neg (fun e => hpos (by rw [← k1, e]; rfl)), k1] at hl
  obtain ⟨y, e⟩ : ∃ y, n'.intermediate_states[n.layers.length]? = some y :=
    ⟨_, List.getElem?_eq_getElem (by omega)⟩
  refine ⟨y, ?_, e⟩
  unfold Network.get_output
  rw [hl, if_neg (by omega), List.getLast?_eq_getElem?, hl, show n.layers.length + 1 - 1 = n.layers.length from rfl, e]

/-- `infer` of the whole network and of its parts -/
theorem infer_split {n n1 n2 : Net F} (hn : NetOk n) (h1 : NetOk n1) (h2 : NetOk n2)
    (hp : n.layers.map params = n1.layers.map params ++ n2.layers.map params) (e1 : n1.layers ≠ [])
    (e2 : n2.layers ≠ [])
    (hat : ∀ l ∈ n.layers, ∀ l', l' ∈ n1.layers ∨ l' ∈ n2.layers → params l = params l' →
      ∀ s a c d, layerAt l s a c d = layerAt l' s a c d)
    {x : Tensor F} (hx : x.WF) (hxs : x.shape = n.input_shape) :
    ∃ n' n1' n2' y, n.infer b x = .ok (.ok (), n') ∧ n1.infer b x = .ok (.ok (), n1') ∧
      n1'.get_output = .ok y ∧ y.WF ∧ y.shape = n2.input_shape ∧ n2.infer b y = .ok (.ok (), n2') ∧
      (∀ i, i ≤ n1.layers.length → n'.intermediate_states[i]? = n1'.intermediate_states[i]?) ∧
      (∀ i, i ≤ n2.layers.length → n'.intermediate_states[n1.layers.length + i]? = n2'.intermediate_states[i]?) ∧
      n'.get_output = n2'.get_output := by
  have hlen := split_length hp
  have hne : n.layers ≠ [] := fun h => by
    rw [h] at hlen
    have := List.length_pos_iff.mpr e1
    simp only [List.length_nil] at hlen
    omega
  obtain ⟨s1, s2, s3⟩ := split_shapes hn.chain h1.chain h2.chain hp e1 e2
  obtain ⟨n', a1, a2, a3⟩ := infer_ok (b := b) hn hne hx hxs
  obtain ⟨n1', c1, c2, c3⟩ := infer_ok (b := b) h1 e1 hx (hxs.trans s1.symm)
  obtain ⟨y, y1, y2⟩ := infer_last_state h1 e1 c1
  have k1 : ∀ i, i ≤ n1.layers.length → n'.intermediate_states[i]? = n1'.intermediate_states[i]? := by
    intro i hi
    have := states_follow (b := b) 0 (fun i l' h => by
        obtain ⟨l, q1, q2⟩ := split_head hp h
        rw [Nat.zero_add]
        exact ⟨l, q1, (params_output q2), hat l (List.mem_of_getElem? q1) l' (.inl (List.mem_of_getElem? h)) q2⟩)
      (a2.trans c2.symm)
      (fun i l hi => by obtain ⟨s, s', h1, h2, h3, _⟩ := a3 i l hi; exact ⟨s, s', h1, h2, h3⟩)
      (fun i l hi => by obtain ⟨s, s', h1, h2, h3, _⟩ := c3 i l hi; exact ⟨s, s', h1, h2, h3⟩) i hi
    rwa [Nat.zero_add] at this
  have hy : y.WF ∧ y.shape = n1.output_shape := by
    have p1 : 0 < n1.layers.length := List.length_pos_iff.mpr e1
    have q3 : n1.layers[n1.layers.length - 1]? = some n1.layers[n1.layers.length - 1] :=
      List.getElem?_eq_getElem (by omega)
    obtain ⟨s, s', _, t2, t3, _⟩ := c3 _ _ q3
    rw [show n1.layers.length - 1 + 1 = n1.layers.length by omega, y2] at t2
    obtain rfl := Option.some.inj t2
    exact ⟨t3.1, t3.2.1.trans (h1.chain.last _ (by rw [List.getLast?_eq_getElem?]; exact q3)).symm⟩
  obtain ⟨n2', d1, d2, d3⟩ := infer_ok (b := b) h2 e2 hy.1 (hy.2.trans s2.symm)
  have k2 : ∀ i, i ≤ n2.layers.length →
      n'.intermediate_states[n1.layers.length + i]? = n2'.intermediate_states[i]? :=
    states_follow (b := b) n1.layers.length (fun i l' h => by
        obtain ⟨l, q1, q2⟩ := split_tail hp h
        exact ⟨l, q1, (params_output q2), hat l (List.mem_of_getElem? q1) l' (.inr (List.mem_of_getElem? h)) q2⟩)
      ((k1 _ (Nat.le_refl _)).trans (y2.trans d2.symm))
      (fun i l hi => by obtain ⟨s, s', h1, h2, h3, _⟩ := a3 i l hi; exact ⟨s, s', h1, h2, h3⟩)
      (fun i l hi => by obtain ⟨s, s', h1, h2, h3, _⟩ := d3 i l hi; exact ⟨s, s', h1, h2, h3⟩)
  refine ⟨n', n1', n2', y, a1, c1, y1, hy.1, hy.2.trans s2.symm, d1, k1, k2, ?_⟩
  obtain ⟨u, u1, u2⟩ := infer_last_state hn hne a1
  obtain ⟨v, v1, v2⟩ := infer_last_state h2 e2 d1
  rw [hlen, k2 _ (Nat.le_refl _), v2] at u2
  rw [u1, v1, Option.some.inj u2]

/-- the gradients inside the second part, in the whole network and alone -/
theorem rounds_split {n m n1 n2 m1 m2 : Net F} (d : Nat) (hn : NetOk n) (htn : TrainReady n) (hm : NetOk m)
    (htm : TrainReady m) (hlen : n.layers.length = d + m.layers.length)
    (hp : ∀ (i : Nat) l', m.layers[i]? = some l' → ∃ l, n.layers[d + i]? = some l ∧ params l = params l')
    (hne : n.layers ≠ []) (hnem : m.layers ≠ [])
    (hbk : ∀ l ∈ n.layers, backable l) {x y g : Tensor F} (hx : x.WF) (hxs : x.shape = n.input_shape)
    (hy : y.WF) (hys : y.shape = m.input_shape) (hg : g.WF) (hgs : g.shape = n.output_shape)
    (hms : m.output_shape = n.output_shape)
    (i1 : n.infer b x = .ok (.ok (), n1)) (i2 : m.infer b y = .ok (.ok (), m1))
    (hs : ∀ i, i ≤ m.layers.length → n1.intermediate_states[d + i]? = m1.intermediate_states[i]?)
    (j1 : n1.backward b g = .ok (.ok (), n2)) (j2 : m1.backward b g = .ok (.ok (), m2)) :
    ∀ i, i ≤ m.layers.length → n2.intermediate_gradients[d + i]? = m2.intermediate_gradients[i]? := by
  have hbm : ∀ l ∈ m.layers, backable l := by
    intro l hl
    obtain ⟨i, hi, rfl⟩ := List.mem_iff_getElem.mp hl
    obtain ⟨l0, h1, h2⟩ := hp i _ (List.getElem?_eq_getElem hi)
    exact params_backable h2.symm (hbk l0 (List.mem_of_getElem? h1))
  obtain ⟨n1', n2', k1, k2, k3, k4⟩ := net_round (b := b) hn htn hne hbk hx hxs hg hgs
  obtain ⟨m1', m2', q1, q2, q3, q4⟩ := net_round (b := b) hm htm hnem hbm hy hys hg (by rw [hms]; exact hgs)
  obtain rfl : n1 = n1' := (Prod.mk.inj (Except.ok.inj (i1.symm.trans k1))).2
  obtain rfl : m1 = m1' := (Prod.mk.inj (Except.ok.inj (i2.symm.trans q1))).2
  obtain rfl : n2 = n2' := (Prod.mk.inj (Except.ok.inj (j1.symm.trans k2))).2
  obtain rfl : m2 = m2' := (Prod.mk.inj (Except.ok.inj (j2.symm.trans q2))).2
  have main : ∀ e i, i + e = m.layers.length →
      n2.intermediate_gradients[d + i]? = m2.intermediate_gradients[i]? := by
    intro e
    induction e with
    | zero =>
      intro i hi
      obtain rfl : i = m.layers.length := by omega
      rw [← hlen, k3, q3]
    | succ e ih =>
      intro i hi
      have hlt : i < m.layers.length := by omega
      obtain ⟨l, p1, p2⟩ := hp i _ (List.getElem?_eq_getElem hlt)
      obtain ⟨l2, s, s', gi, gi', _, a2, a3, a4, a5, a6⟩ := k4 _ _ p1
      obtain ⟨l2', t, t', hi1, hi2, _, c2, c3, c4, c5, c6⟩ := q4 i m.layers[i] (List.getElem?_eq_getElem hlt)
      rw [← hs i (by omega), a2] at c2
      rw [← hs (i + 1) (by omega), show d + (i + 1) = d + i + 1 from rfl, a3] at c3
      rw [← ih (i + 1) (by omega), show d + (i + 1) = d + i + 1 from rfl, a4] at c4
      obtain rfl := Option.some.inj c2
      obtain rfl := Option.some.inj c3
      obtain rfl := Option.some.inj c4
      have ml := List.mem_of_getElem? p1
      rw [a5, c5, round_same (hn.layers _ ml) (hm.layers _ (List.getElem_mem hlt)) (hbk _ ml) p2.symm
        (htn.layers _ ml) (htm.layers _ (List.getElem_mem _)) a6 c6]
  intro i hi
  exact main (m.layers.length - i) i (by omega)

end Rusty
