import Verif.Lemmas.LayerDerivative

/-! # Helper lemmas: backward passes of networks as derivatives -/

namespace Rusty

open F32Ops Spec Exact

variable {E : Type} [NormedAddCommGroup E] [NormedSpace ℝ E] {b : Build}

theorem map_mapIdx_eq {α β : Type} (L : List α) (f : Nat → α → α) (g : α → β)
    (h : ∀ i a, L[i]? = some a → g (f i a) = g a) : (L.mapIdx f).map g = L.map g := by
  apply List.ext_getElem?
  intro i
  rw [List.getElem?_map, List.getElem?_map, List.getElem?_mapIdx]
  cases hL : L[i]? with
  | none => rfl
  | some a => exact congrArg some (h i a hL)

theorem stateShapes_eq {ls ls' : List (AnyLayer ℝ)}
    (h1 : ls'.map AnyLayer.get_input_shape = ls.map AnyLayer.get_input_shape)
    (h2 : ls'.map AnyLayer.get_output_shape = ls.map AnyLayer.get_output_shape) :
    stateShapes ls' = stateShapes ls := by
  cases ls with
  | nil =>
    cases ls' with
    | nil => rfl
    | cons a as => cases h1
  | cons a as =>
    cases ls' with
    | nil => cases h1
    | cons a' as' =>
      simp only [stateShapes]
      rw [h2]
      rw [List.map_cons, List.map_cons] at h1
      rw [(List.cons.inj h1).1]

theorem get_of_map {α β : Type} {L L' : List α} {g : α → β} (h : L'.map g = L.map g) {i : Nat}
    {a' : α} (h' : L'[i]? = some a') : ∃ a, L[i]? = some a ∧ g a' = g a := by
  have := congrArg (fun l => l[i]?) h
  simp only [List.getElem?_map, h', Option.map_some] at this
  cases hL : L[i]? with
  | none => rw [hL] at this; cases this
  | some a => rw [hL] at this; exact ⟨a, rfl, Option.some.inj this⟩

/-- a network whose layers are replaced by well formed ones with the same shapes and modes -/
theorem netOk_replace {n : Net ℝ} (hn : NetOk n) {ls : List (AnyLayer ℝ)}
    (h1 : ls.map AnyLayer.get_input_shape = n.layers.map AnyLayer.get_input_shape)
    (h2 : ls.map AnyLayer.get_output_shape = n.layers.map AnyLayer.get_output_shape)
    (h3 : ∀ l ∈ ls, l.Ok) : NetOk { n with layers := ls } := by
  refine ⟨⟨?_, ?_, ?_, ?_⟩, h3, hn.states⟩
  · intro i l l' hl hl'
    obtain ⟨a, e1, e2⟩ := get_of_map h2 hl
    obtain ⟨a', e3, e4⟩ := get_of_map h1 hl'
    rw [e2, e4]
    exact hn.chain.links i a a' e1 e3
  · intro l hl
    rw [List.head?_eq_getElem?] at hl
    obtain ⟨a, e1, e2⟩ := get_of_map h1 hl
    rw [e2]
    exact hn.chain.first a (by rw [List.head?_eq_getElem?]; exact e1)
  · intro l hl
    have hlen : ls.length = n.layers.length := by simpa using congrArg List.length h1
    rw [List.getLast?_eq_getElem?] at hl
    obtain ⟨a, e1, e2⟩ := get_of_map h2 hl
    rw [e2]
    exact hn.chain.last a (by rw [List.getLast?_eq_getElem?, ← hlen]; exact e1)
  · change n.intermediate_states.map (·.shape) = stateShapes ls
    rw [stateShapes_eq h1 h2]
    exact hn.chain.states

section

variable {n : Net ℝ} (hn : NetOk n) (ht : TrainReady n) {W bi : E → Nat → Tensor ℝ}
  {W' b' : Nat → Nat → Nat → Nat → E →L[ℝ] ℝ} {e0 : E}
  (hp : ∀ (i : Nat) l, n.layers[i]? = some l →
    ParamsVary l (fun e => W e i) (fun e => bi e i) (W' i) (b' i) e0)

include hp

set_option linter.unusedSectionVars false in
theorem replaceNet_layer {i : Nat} {l : AnyLayer ℝ} (h : n.layers[i]? = some l) (e : E) :
    (replaceNet n (W e) (bi e)).layers[i]? = some (replaceParams l (W e i) (bi e i)) := by
  unfold replaceNet
  simp only [List.getElem?_mapIdx, h, Option.map_some]

set_option linter.unusedSectionVars false in
theorem replaceNet_mem {l' : AnyLayer ℝ} {e : E} (h : l' ∈ (replaceNet n (W e) (bi e)).layers) :
    ∃ i l, n.layers[i]? = some l ∧ l' = replaceParams l (W e i) (bi e i) := by
  obtain ⟨i, hi⟩ := List.mem_iff_getElem?.mp h
  unfold replaceNet at hi
  simp only [List.getElem?_mapIdx] at hi
  cases hl : n.layers[i]? with
  | none => rw [hl] at hi; cases hi
  | some l =>
    rw [hl] at hi
    exact ⟨i, l, hl, (Option.some.inj hi).symm⟩

include hn in
theorem replaceNet_ok (e : E) : NetOk (replaceNet n (W e) (bi e)) := by
  refine netOk_replace hn (map_mapIdx_eq _ _ _ fun i l h => replace_input (hp i l h) e)
    (map_mapIdx_eq _ _ _ fun i l h => replace_output (hp i l h) e) ?_
  intro l' hl'
  obtain ⟨i, l, h1, rfl⟩ := replaceNet_mem hp hl'
  exact replace_ok (hn.layers l (List.mem_of_getElem? h1)) (hp i l h1) e

include ht in
theorem replaceNet_train (e : E) : TrainReady (replaceNet n (W e) (bi e)) := by
  refine ⟨ht.mode, ?_, ht.grads, ht.wf⟩
  intro l' hl'
  obtain ⟨i, l, h1, rfl⟩ := replaceNet_mem hp hl'
  rw [replace_mode]
  exact ht.layers l (List.mem_of_getElem? h1)

end

theorem stateD_get {n : Net ℝ} {i : Nat} {s : Tensor ℝ} (h : n.intermediate_states[i]? = some s) :
    n.intermediate_states[i]?.getD blank = s := by rw [h]; rfl

/-- the gradients of one `infer` and `backward` of a network whose input and parameters depend on
`e` -/
theorem net_vjp {n : Net ℝ} (hn : NetOk n) (ht : TrainReady n) (hne : n.layers ≠ [])
    (hbk : ∀ l ∈ n.layers, backable l) {W bi : E → Nat → Tensor ℝ}
    {W' b' : Nat → Nat → Nat → Nat → E →L[ℝ] ℝ} {e0 : E}
    (hp : ∀ (i : Nat) l, n.layers[i]? = some l →
      ParamsVary l (fun e => W e i) (fun e => bi e i) (W' i) (b' i) e0)
    {x : E → Tensor ℝ} (hx : ∀ e, (x e).WF ∧ (x e).shape = n.input_shape)
    {x' : Nat → Nat → Nat → E →L[ℝ] ℝ} (dx : DiffAt n.input_shape x x' e0)
    (hs : ∀ m, (replaceNet n (W e0) (bi e0)).infer b (x e0) = .ok (.ok (), m) → ∀ (i : Nat) l s,
      (replaceNet n (W e0) (bi e0)).layers[i]? = some l → m.intermediate_states[i]? = some s →
      smoothAt l s)
    {g : Tensor ℝ} (hg : g.WF) (hgs : g.shape = n.output_shape) :
    ∃ (n1 : E → Net ℝ) (y : E → Tensor ℝ) (n2 : Net ℝ) (og : Tensor ℝ),
      (∀ e, (replaceNet n (W e) (bi e)).infer b (x e) = .ok (.ok (), n1 e)) ∧
      (∀ e, (n1 e).get_output = .ok (y e)) ∧
      (n1 e0).backward b g = .ok (.ok (), n2) ∧ n2.intermediate_gradients[0]? = some og ∧
      HasFDerivAt (fun e => inner n.output_shape g (y e))
        ((total n.input_shape fun i j k => val og i j k • x' i j k) +
          ∑ c ∈ Finset.range n.layers.length, gradTerm (W' c) (b' c)
            n.layers[c]? n2.layers[c]?) e0 := by
  have hokE := replaceNet_ok hn hp
  have htE := replaceNet_train ht hp
  have hlenE : ∀ e, (replaceNet n (W e) (bi e)).layers.length = n.layers.length := by
    intro e
    unfold replaceNet
    simp
  have hneE : ∀ e, (replaceNet n (W e) (bi e)).layers ≠ [] := by
    intro e h
    have := hlenE e
    rw [h] at this
    exact hne (List.length_eq_zero_iff.mp this.symm)
  have hpos : 0 < n.layers.length := List.length_pos_iff.mpr hne
  have hbkE : ∀ e, ∀ l ∈ (replaceNet n (W e) (bi e)).layers, backable l := by
    intro e l' hl'
    obtain ⟨i, l, h1, rfl⟩ := replaceNet_mem hp hl'
    exact replace_backable (hbk l (List.mem_of_getElem? h1)) _ _
  have hncE : ∀ e, ∀ l ∈ (replaceNet n (W e) (bi e)).layers, notConv l := by
    intro e l' hl'
    have := hbkE e l' hl'
    cases l' with
    | conv l => exact this.elim
    | fc l => trivial
    | mp l => trivial
    | sm l => trivial
  have H := fun e => infer_ok (b := b) (hokE e) (hneE e) (hx e).1 (hx e).2
  choose n1 h1 h2 h3 using H
  obtain ⟨n1', r, n2, a1, a2, a3⟩ := infer_backward_ok (b := b) (hokE e0) (htE e0) (hneE e0) (hncE e0)
    (hx e0).1 (hx e0).2 hg hgs
  rw [h1 e0] at a1
  have a1 := (Prod.mk.inj (Except.ok.inj a1)).2
  subst a1
  rw [a3 (hbkE e0)] at a2
  obtain ⟨c1, c2⟩ := backward_after a2
  have hok1 := uses_netOk (hokE e0) (.infer _ _ _ _ (h1 e0))
  have ht1 := infer_trainReady (hokE e0) (htE e0) (h1 e0)
  have ht2 := backward_trainReady hok1 ht1 hg a2
  have hst2 : n2.intermediate_states = (n1 e0).intermediate_states :=
    (backward_effect (n1 e0) g _ a2).2.2.1
  obtain ⟨f1, _⟩ := infer_effect _ _ _ (h1 e0)
  simp only at f1
  have hl1 : (n1 e0).layers.length = n.layers.length := (forall₂_length f1).trans (hlenE e0)
  -- the states
  let S : Nat → E → Tensor ℝ := fun i e => (n1 e).intermediate_states[i]?.getD blank
  have gradFacts : ∀ (m : Net ℝ), TrainReady m → ∀ (i : Nat) t s,
      m.intermediate_gradients[i]? = some t → m.intermediate_states[i]? = some s →
      t.WF ∧ t.shape = s.shape := by
    intro m hm i t s hi hsi
    refine ⟨hm.wf t (List.mem_of_getElem? hi), ?_⟩
    obtain ⟨t', e1, e2⟩ := map_shape_get hm.grads hsi
    rw [hi] at e1
    cases e1
    exact e2
  have layerAt' : ∀ i, i < n.layers.length → ∃ l, n.layers[i]? = some l := fun i h =>
    ⟨_, List.getElem?_eq_getElem h⟩
  -- the gradient at the input
  have hog : ∃ og, n2.intermediate_gradients[0]? = some og := by
    obtain ⟨l, hl⟩ := layerAt' 0 hpos
    obtain ⟨s, s', _, _, _, out, l', p1, _⟩ := h3 e0 0 _ (replaceNet_layer hp hl e0)
    obtain ⟨_, _, _, _, og', _, _, _, _, _, r5, _⟩ := c2 0 l' (Nat.zero_le _) p1
    exact ⟨og', r5⟩
  obtain ⟨og, hog⟩ := hog
  -- the induction
  have key : ∀ i, i ≤ n.layers.length → ∃ s D gi,
      (∀ e, (S i e).WF ∧ (S i e).shape = s) ∧
      (∀ e, (n1 e).intermediate_states[i]? = some (S i e)) ∧ DiffAt s (S i) D e0 ∧
      n2.intermediate_gradients[i]? = some gi ∧
      (total s fun i j k => val gi i j k • D i j k) =
        (total n.input_shape fun i j k => val og i j k • x' i j k) +
          ∑ c ∈ Finset.range i, gradTerm (W' c) (b' c)
            n.layers[c]? n2.layers[c]? := by
    intro i
    induction i with
    | zero =>
      intro _
      have hS : ∀ e, S 0 e = x e := fun e => stateD_get (h2 e)
      refine ⟨n.input_shape, x', og, fun e => by rw [hS e]; exact hx e,
        fun e => by rw [hS e]; exact h2 e, ?_, hog, by simp⟩
      intro i j k hin
      have e1 : (fun e => val (S 0 e) i j k) = fun e => val (x e) i j k := by
        funext e; rw [hS e]
      rw [e1]
      exact dx i j k hin
    | succ i ih =>
      intro hi
      obtain ⟨s, D, gi, k1, k2, k3, k4, k5⟩ := ih (by omega)
      obtain ⟨l, hl⟩ := layerAt' i (by omega)
      have hlm := List.mem_of_getElem? hl
      have H3 := fun e => h3 e i _ (replaceNet_layer hp hl e)
      choose u u' p1 p2 p3 out l' p4 p5 p6 p7 p8 p9 using H3
      have hu : ∀ e, u e = S i e := fun e => Option.some.inj ((p1 e).symm.trans (k2 e))
      have hu' : ∀ e, u' e = S (i + 1) e := fun e => (stateD_get (p2 e)).symm
      have hsh : s = l.get_input_shape := by
        rw [← (k1 e0).2, ← hu e0, p6 e0, replace_input (hp i l hl) e0]
      subst hsh
      obtain ⟨D', d1, d2⟩ := layer_vjp (b := b) (hn.layers l hlm) (hbk l hlm) (ht.layers l hlm)
        (hp i l hl) (x := S i) (y := S (i + 1)) (out := out) (l' := l') k1
        (fun e => ⟨p7 e, (p8 e).trans (replace_output (hp i l hl) e)⟩)
        (fun e => by rw [← hu e, ← hu' e]; exact p9 e) k3
        (hs (n1 e0) (h1 e0) i _ _ (replaceNet_layer hp hl e0) (k2 e0))
      obtain ⟨xx, yy, gg, og1, og', l2, r1, r2, r3, r4, r5, r6, r7⟩ :=
        c2 i (l' e0) (Nat.zero_le _) (p4 e0)
      rw [k2 e0] at r1
      rw [p2 e0, hu' e0] at r2
      rw [k4] at r5
      cases r1
      cases r2
      cases r5
      have hgg := gradFacts n2 ht2 (i + 1) gg (S (i + 1) e0) r3
        (by rw [hst2, p2 e0, hu' e0])
      have hog1 := gradFacts (n1 e0) ht1 i og1 (S i e0) r4 (k2 e0)
      have hso : ∀ e, (S (i + 1) e).WF ∧ (S (i + 1) e).shape = l.get_output_shape := by
        intro e
        rw [← hu' e]
        exact ⟨(p3 e).1, (p3 e).2.1.trans (replace_output (hp i l hl) e)⟩
      refine ⟨l.get_output_shape, D', gg, hso, fun e => by rw [p2 e, hu' e], d1, r3, ?_⟩
      have := d2 gg og1 l2 gi hgg.1 (hgg.2.trans (hso e0).2) hog1.1 (hog1.2.trans (k1 e0).2) r7
      rw [this, k5, Finset.sum_range_succ, ← add_assoc]
      congr 1
      rw [hl, r6]
  obtain ⟨s, D, gl, k1, k2, k3, k4, k5⟩ := key n.layers.length le_rfl
  rw [hl1] at c1
  rw [c1] at k4
  cases k4
  refine ⟨n1, S n.layers.length, n2, og, h1, ?_, a2, hog, ?_⟩
  · intro e
    have hlenS : (n1 e).intermediate_states.length = n.layers.length + 1 := by
      have hc := chain_length (uses_netOk (hokE e) (.infer _ _ _ _ (h1 e))).chain
      obtain ⟨f, _⟩ := infer_effect _ _ _ (h1 e)
      simp only at f
      have hll : (n1 e).layers.length = n.layers.length := (forall₂_length f).trans (hlenE e)
      rw [if_neg (by intro h; rw [h] at hll; simp at hll; omega), hll] at hc
      exact hc
    unfold Network.get_output
    rw [if_neg (by omega), List.getLast?_eq_getElem?, hlenS, Nat.add_sub_cancel, k2 e]
  · have hsh : s = n.output_shape := by
      have := gradFacts n2 ht2 _ _ (S n.layers.length e0) c1 (by rw [hst2]; exact k2 e0)
      rw [← (k1 e0).2, ← this.2, hgs]
    subst hsh
    rw [← k5]
    exact inner_deriv k3 g

end Rusty
