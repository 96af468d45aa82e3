import Verif.Spec.Twins
import Verif.Lemmas.Batch

/-! # Lemmas: units with equal parameters -/

namespace Rusty

open F32Ops Spec

variable {F : Type} [F32Ops F] {b : Build}

theorem twin_preact {l : FullyConnectedLayer F} {u v : Nat} (hb : val l.bias u 0 0 = val l.bias v 0 0)
    (hr : ∀ i, i < l.weights.shape.dj.toNat → val l.weights u i 0 = val l.weights v i 0) (x : Tensor F) :
    preact l x u = preact l x v := by
  unfold preact
  rw [hb]
  congr 2
  exact List.map_congr_left fun i hi => by rw [hr i (List.mem_range.mp hi)]

theorem twin_masked {l m : FullyConnectedLayer F} {u v : Nat} (h : Twins l m u v) {r : Round F}
    (hg : val r.g u 0 0 = val r.g v 0 0) : masked l r u = masked l r v := by
  unfold masked
  rw [twin_preact h.bias h.row, hg]

theorem twin_layerAt {l : FullyConnectedLayer F} {u v : Nat} (hb : val l.bias u 0 0 = val l.bias v 0 0)
    (hr : ∀ i, i < l.weights.shape.dj.toNat → val l.weights u i 0 = val l.weights v i 0) (x : Tensor F) :
    layerAt (.fc l) x u 0 0 = layerAt (.fc l) x v 0 0 := by
  simp only [layerAt]
  rw [twin_preact hb hr]

omit [F32Ops F] in
theorem fc_params_weights {L L' : List (AnyLayer F)} (h : L'.map params = L.map params) {i : Nat}
    {l l' : FullyConnectedLayer F} (h1 : L[i]? = some (.fc l)) (h2 : L'[i]? = some (.fc l')) :
    l'.weights = l.weights := by
  obtain ⟨k, k1, k2⟩ := map_get h h2
  obtain rfl := Option.some.inj (k1.symm.trans h1)
  simp only [params, AnyLayer.fc.injEq, FullyConnectedLayer.mk.injEq, true_and] at k2
  exact k2.1

omit [F32Ops F] in
theorem fc_chain {n : Net F} (hn : NetOk n) {q : Nat} {l m : FullyConnectedLayer F} (hl : n.layers[q]? = some (.fc l))
    (hm : n.layers[q + 1]? = some (.fc m)) : m.weights.shape.dj.toNat = l.weights.shape.di.toNat := by
  have k1 : l.bias.shape = ⟨m.weights.shape.dj, 1, 1⟩ := hn.chain.links q _ _ hl hm
  have hlo : l.Ok := hn.layers _ (List.mem_of_getElem? hl)
  rw [hlo.rows] at k1
  rw [← (TensorShape.mk.inj k1).1]

theorem zero_val {t : Tensor F} (h : allZero t) (i j k : Nat) : val t i j k = zero := by
  unfold val
  cases e : t.data[pos t.shape i j k]? with
  | none => rfl
  | some x => exact h x (List.mem_of_getElem? e)

theorem filled_val {t : Tensor F} (h : t.WF) (v : F) {i j k : Nat} (hin : t.shape.Inside i j k) :
    val (t.fill_with_value v) i j k = v := by
  have hp : pos t.shape i j k < t.data.length := by rw [h.len]; exact pos_lt hin
  unfold val Tensor.fill_with_value
  simp only [List.getElem?_map, List.getElem?_eq_getElem hp, Option.map_some, Option.getD_some]

/-- what the parameters of a fully connected layer determine -/
theorem twins_params {l l' m m' : FullyConnectedLayer F} {u v : Nat} (hl : params (.fc l') = params (.fc l))
    (hm : params (.fc m') = params (.fc m)) (h : Twins l m u v) : Twins l' m' u v := by
  simp only [params, AnyLayer.fc.injEq, FullyConnectedLayer.mk.injEq, true_and] at hl hm
  obtain ⟨h1, h2, _⟩ := hl
  obtain ⟨h3, _⟩ := hm
  obtain ⟨a1, a2, a3, a4, a5⟩ := h
  constructor
  · rw [h1]; exact a1
  · rw [h1]; exact a2
  · rw [h2]; exact a3
  · rw [h1]; exact a4
  · rw [h3]; exact a5

/-- one call of `infer` and one of `backward` -/
theorem twins_round {n n1 n2 : Net F} (hok : NetOk n) (ht : TrainReady n) (hne : n.layers ≠ [])
    (hbk : ∀ l ∈ n.layers, backable l) {x g : Tensor F} (hx : x.WF) (hxs : x.shape = n.input_shape)
    (hg : g.WF) (hgs : g.shape = n.output_shape) (h1 : n.infer b x = .ok (.ok (), n1))
    (h2 : n1.backward b g = .ok (.ok (), n2)) {q : Nat} {l m : FullyConnectedLayer F}
    (hl : n.layers[q]? = some (.fc l)) (hm : n.layers[q + 1]? = some (.fc m)) {u v : Nat}
    (h : Twins l m u v) (hd : TwinGradients l m u v) :
    ∃ l' m', n2.layers[q]? = some (.fc l') ∧ n2.layers[q + 1]? = some (.fc m') ∧ Twins l' m' u v ∧
      TwinGradients l' m' u v := by
  obtain ⟨n1', n2', a1, a2, a3, a4⟩ := net_round (b := b) hok ht hne hbk hx hxs hg hgs
  obtain rfl : n1 = n1' := (Prod.mk.inj (Except.ok.inj (h1.symm.trans a1))).2
  obtain rfl : n2 = n2' := (Prod.mk.inj (Except.ok.inj (h2.symm.trans a2))).2
  obtain ⟨n1', i1, _, i3⟩ := infer_ok (b := b) hok hne hx hxs
  obtain rfl : n1 = n1' := (Prod.mk.inj (Except.ok.inj (h1.symm.trans i1))).2
  obtain ⟨_, s, s', gl, gl', p1, p2, p3, p4, p5, p6⟩ := a4 q _ hl
  obtain ⟨_, t, t', gm, gm', q1, q2, q3, q4, q5, q6⟩ := a4 (q + 1) _ hm
  obtain rfl := Option.some.inj (p3.symm.trans q2)
  obtain rfl := Option.some.inj (p4.symm.trans q5)
  have hlo : l.Ok := hok.layers _ (List.mem_of_getElem? hl)
  have hmo : m.Ok := hok.layers _ (List.mem_of_getElem? hm)
  have hlt := ht.layers _ (List.mem_of_getElem? hl)
  have hmt := ht.layers _ (List.mem_of_getElem? hm)
  obtain ⟨_, _, _, l', rfl, c1⟩ := fc_round hlo hlt p6
  obtain ⟨_, e2, e3, m', rfl, e1⟩ := fc_round hmo hmt q6
  have hp : n2.layers.map params = n.layers.map params := by
    rw [like_map_params (backward_effect _ _ _ h2).1, like_map_params (infer_effect _ _ _ h1).1]
  have hpl : params (.fc l') = params (.fc l) := by
    obtain ⟨k, k1, k2⟩ := map_get hp p1
    obtain rfl := Option.some.inj (k1.symm.trans hl)
    exact k2
  have hpm : params (.fc m') = params (.fc m) := by
    obtain ⟨k, k1, k2⟩ := map_get hp q1
    obtain rfl := Option.some.inj (k1.symm.trans hm)
    exact k2
  have ht' := twins_params hpl hpm h
  -- the shared state
  obtain ⟨_, sb, b1, b2, b3, _⟩ := i3 q _ hl
  obtain rfl := Option.some.inj (b2.symm.trans p3)
  have hw : m.weights.shape.dj.toNat = l.weights.shape.di.toNat := by
    have k1 : sb.shape = l.bias.shape := b3.2.1
    have k2 : sb.shape = ⟨m.weights.shape.dj, 1, 1⟩ := q6.hx.2
    rw [k1, hlo.rows] at k2
    rw [← (TensorShape.mk.inj k2).1]
  have hval : ∀ o, o < l.weights.shape.di.toNat → val sb o 0 0 = layerAt (.fc l) s o 0 0 := by
    intro o ho
    obtain rfl := Option.some.inj (b1.symm.trans p2)
    refine applies_val b3 ?_
    change l.bias.shape.Inside o 0 0
    rw [hlo.rows]
    exact col_inside ho
  have hs : val sb u 0 0 = val sb v 0 0 := by
    rw [hval u h.left, hval v h.right, twin_layerAt h.bias h.row]
  -- the shared gradient
  have hgr : val gl u 0 0 = val gl v 0 0 := by
    rw [e3 u (by rw [hw]; exact h.left), e3 v (by rw [hw]; exact h.right)]
    congr 1
    exact List.map_congr_left fun o ho => by rw [h.column o (List.mem_range.mp ho)]
  -- the recorded numbers
  have hok1 := uses_netOk hok (.infer _ _ _ _ h1)
  have ht2 := backward_trainReady hok1 (infer_trainReady hok ht h1) hg h2
  have hok2 := uses_netOk hok1 (.backward _ _ _ _ h2)
  have hl'o : l'.Ok := hok2.layers _ (List.mem_of_getElem? p1)
  have hm'o : m'.Ok := hok2.layers _ (List.mem_of_getElem? q1)
  have bl := hl'o.buffers (ht2.layers _ (List.mem_of_getElem? p1))
  have bm := hm'o.buffers (ht2.layers _ (List.mem_of_getElem? q1))
  have hwl : l'.weights = l.weights := by
    simp only [params, AnyLayer.fc.injEq, FullyConnectedLayer.mk.injEq, true_and] at hpl
    exact hpl.1
  have hwm : m'.weights = m.weights := by
    simp only [params, AnyLayer.fc.injEq, FullyConnectedLayer.mk.injEq, true_and] at hpm
    exact hpm.1
  have gb : ∀ o, o < l.weights.shape.di.toNat → val l'.bias_gradients o 0 0 =
      add (val l.bias_gradients o 0 0) (masked l ⟨s, gl, s, s⟩ o) := fun o ho =>
    Except.ok.inj ((get_item_ok (b := b) bl.2.2.1.1 (by
      rw [bl.2.2.1.2, hl'o.rows, hwl]; exact col_inside ho)).symm.trans (c1 o ho).1)
  have gw : ∀ o, o < l.weights.shape.di.toNat → ∀ i, i < l.weights.shape.dj.toNat →
      val l'.weights_gradients o i 0 =
        add (val l.weights_gradients o i 0) (sum [mul (masked l ⟨s, gl, s, s⟩ o) (val s i 0 0)]) := fun o ho i hi =>
    Except.ok.inj ((get_item_ok (b := b) bl.1.1 (by
      rw [bl.1.2, hwl]; exact ⟨ho, hi, by rw [hlo.depth]; decide⟩)).symm.trans ((c1 o ho).2 i hi))
  have gc : ∀ o, o < m.weights.shape.di.toNat → ∀ i, i < m.weights.shape.dj.toNat →
      val m'.weights_gradients o i 0 =
        add (val m.weights_gradients o i 0) (sum [mul (masked m ⟨sb, gm, sb, sb⟩ o) (val sb i 0 0)]) := fun o ho i hi =>
    Except.ok.inj ((get_item_ok (b := b) bm.1.1 (by
      rw [bm.1.2, hwm]; exact ⟨ho, hi, by rw [hmo.depth]; decide⟩)).symm.trans ((e1 o ho).2 i hi))
  have hmask : masked l ⟨s, gl, s, s⟩ u = masked l ⟨s, gl, s, s⟩ v := twin_masked h hgr
  refine ⟨l', m', p1, q1, ht', ?_, fun i hi => ?_, fun o ho => ?_⟩
  · rw [gb u h.left, gb v h.right, hd.bias, hmask]
  · rw [hwl] at hi
    rw [gw u h.left i hi, gw v h.right i hi, hd.row i hi, hmask]
  · rw [hwm] at ho
    rw [gc o ho u (by rw [hw]; exact h.left), gc o ho v (by rw [hw]; exact h.right), hd.column o ho, hs]

end Rusty
