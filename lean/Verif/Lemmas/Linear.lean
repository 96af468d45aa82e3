import Verif.Lemmas.Batch

/-! # Lemmas: how gradients depend on the gradient given to `backward` -/

namespace Rusty

open F32Ops Spec

variable {F : Type} [F32Ops F] {b : Build}

/-- a relation between three numbers that sums and products with a common factor respect -/
structure Respected (R : F → F → F → Prop) : Prop where
  zero : R zero zero zero
  add : ∀ x y z x' y' z', R x y z → R x' y' z' → R (add x x') (add y y') (add z z')
  left : ∀ v x y z, R x y z → R (mul v x) (mul v y) (mul v z)
  right : ∀ v x y z, R x y z → R (mul x v) (mul y v) (mul z v)

/-- the entries of three tensors are related -/
def Related (R : F → F → F → Prop) (t u w : Tensor F) : Prop :=
  ∀ p : Nat, R (t.data[p]?.getD F32Ops.zero) (u.data[p]?.getD F32Ops.zero) (w.data[p]?.getD F32Ops.zero)

variable {R : F → F → F → Prop}

theorem related_of_val (hR : Respected R) {t u w : Tensor F} (ht : t.WF) (hu : u.WF) (hw : w.WF)
    (hu' : u.shape = t.shape) (hw' : w.shape = t.shape)
    (h : ∀ i j k, t.shape.Inside i j k → R (val t i j k) (val u i j k) (val w i j k)) : Related R t u w := by
  intro p
  by_cases hp : p < t.data.length
  · obtain ⟨i, j, k, hi, hj, hk, e⟩ := lin_surj (a := t.shape.di.toNat) (b := t.shape.dj.toNat)
      (c := t.shape.dk.toNat) (p := p) (by rw [ht.len] at hp; exact hp)
    have := h i j k ⟨hi, hj, hk⟩
    unfold val pos at this
    rw [hu', hw', ← e] at this
    exact this
  · have h1 : t.data.length ≤ p := by omega
    have h2 : u.data.length ≤ p := by rw [hu.len, hu', ← ht.len]; exact h1
    have h3 : w.data.length ≤ p := by rw [hw.len, hw', ← ht.len]; exact h1
    rw [List.getElem?_eq_none h1, List.getElem?_eq_none h2, List.getElem?_eq_none h3]
    exact hR.zero

theorem related_val {t u w : Tensor F} (hu' : u.shape = t.shape) (hw' : w.shape = t.shape)
    (h : Related R t u w) (i j k : Nat) : R (val t i j k) (val u i j k) (val w i j k) := by
  unfold val
  rw [hu', hw']
  exact h _

theorem foldl_respected (hR : Respected R) {α : Type} (L : List α) (f g h : α → F)
    (H : ∀ a ∈ L, R (f a) (g a) (h a)) {x y z : F} (h0 : R x y z) :
    R ((L.map f).foldl add x) ((L.map g).foldl add y) ((L.map h).foldl add z) := by
  induction L generalizing x y z with
  | nil => exact h0
  | cons a L ih =>
    simp only [List.map_cons, List.foldl_cons]
    exact ih (fun a ha => H a (List.mem_cons_of_mem _ ha)) (hR.add _ _ _ _ _ _ h0 (H a List.mem_cons_self))

theorem sum_respected (hR : Respected R) {α : Type} (L : List α) (f g h : α → F)
    (H : ∀ a ∈ L, R (f a) (g a) (h a)) : R (sum (L.map f)) (sum (L.map g)) (sum (L.map h)) :=
  foldl_respected hR L f g h H hR.zero

theorem sum1_respected (hR : Respected R) {x y z : F} (h : R x y z) : R (sum [x]) (sum [y]) (sum [z]) :=
  hR.add _ _ _ _ _ _ hR.zero h

/-- what `add_from_index_list` stores when it returns `Ok` -/
theorem scatter_after {t1 t2 t' : Tensor F} {L : List UInt32}
    (h : Tensor.add_from_index_list b t1 t2 L = .ok (.ok (), t')) :
    t'.shape = t2.shape ∧ ∀ p, t'.data[p]?.getD zero = scatter t1.data t2.data L.zipIdx p := by
  unfold Tensor.add_from_index_list at h
  obtain ⟨n1, _, h⟩ := bind_inv h
  split at h
  · cases Except.ok.inj h
  · obtain ⟨n2, _, h⟩ := bind_inv h
    refine (forListE_after _ _ _ (fun pre t => t.shape = t2.shape ∧
      ∀ p, t.data[p]?.getD zero = scatter t1.data t2.data pre p) ⟨rfl, fun p => rfl⟩ ?_ _ h)
    rintro pre ⟨q, m⟩ post s s' _ ⟨hsh, hv⟩ hb
    simp only at hb
    split at hb
    · cases Except.ok.inj hb
    · obtain ⟨x, e1, hb⟩ := bind_inv hb
      obtain ⟨y, e2, hb⟩ := bind_inv hb
      obtain ⟨d, e3, hb⟩ := bind_inv hb
      obtain rfl := (Prod.mk.inj (Except.ok.inj hb)).2
      have hq : q.toNat < s.data.length := by
        unfold vset at e3
        split at e3
        · assumption
        · cases e3
      have hm : m < t1.data.length := by
        rcases Nat.lt_or_ge m t1.data.length with h | h
        · exact h
        · rw [vget_oob h] at e1; cases e1
      rw [vget_getD zero hm] at e1
      rw [vget_getD zero hq] at e2
      rw [vset_ok hq] at e3
      obtain rfl := Except.ok.inj e1
      obtain rfl := Except.ok.inj e2
      obtain rfl := Except.ok.inj e3
      refine ⟨hsh, fun p => ?_⟩
      simp only
      rw [List.getElem?_set]
      unfold scatter
      by_cases e : q.toNat = p
      · subst e
        rw [if_pos rfl, if_pos hq]
        simp only [List.filter_append, List.filter_cons, List.filter_nil, decide_true, if_true,
          List.map_append, List.map_cons, List.map_nil, List.foldl_append, List.foldl_cons,
          List.foldl_nil, Option.getD_some]
        rw [hv]
        rfl
      · rw [if_neg e, hv]
        unfold scatter
        simp [e]

/-- the winners of the windows of a max-pool layer -/
def winners (l : MaxPoolLayer) (s : Tensor F) : List UInt32 :=
  l.output_shape.indices.map fun x =>
    (runArg (windowPos s l.mask_shape l.stride.toNat x.1 x.2.1 x.2.2)).2

/-- a round of a max-pool layer: the winners, given by the input, and the scatter-add -/
theorem mp_round {l : MaxPoolLayer} (hl : l.Ok) (hm : l.run_state = .Training) {s : Tensor F} (hs : s.WF)
    (hss : s.shape = l.input_shape) {l2 : AnyLayer F} {s' g g' : Tensor F}
    (r : LayerRound b (.mp l) l2 s s' g g') :
    ∀ p, g'.data[p]?.getD zero =
      scatter g.data (List.replicate l.input_shape.count zero) (winners l s).zipIdx p := by
  have H : ∀ out : Tensor F, out.WF → out.shape = l.output_shape →
      ∃ y, (AnyLayer.mp l).forward b s out = .ok (.ok (), .mp { l with max_pool_origin := winners l s }, y) := by
    intro out h1 h2
    unfold winners
    obtain ⟨o, q1, q2, y, q3⟩ := mp_forward_record (b := b) hl hm hs hss h1 h2
    refine ⟨y, ?_⟩
    rw [q3]
    have : o = l.output_shape.indices.map fun x =>
        (runArg (windowPos s l.mask_shape l.stride.toNat x.1 x.2.1 x.2.2)).2 := by
      rw [list_indices l.output_shape o 0 q1]
      refine List.map_congr_left fun x hx => ?_
      rw [q2 _ _ _ (mem_indices.mp hx)]
      rfl
    rw [this]
  obtain ⟨_, _, _, out, og, l1, a1, a2, a3, a4, a5, a6⟩ := r
  obtain ⟨y, e⟩ := H out a1 a2
  rw [e] at a5
  obtain ⟨_, a5⟩ := Prod.mk.inj (Except.ok.inj a5)
  obtain ⟨rfl, _⟩ := Prod.mk.inj a5
  simp only [AnyLayer.backward, AnyLayer.rewrap, MaxPoolLayer.backward] at a6
  cases e : Tensor.add_from_index_list b g (og.fill_with_value zero) (winners l s) with
  | error _ => rw [e] at a6; cases a6
  | ok v =>
    obtain ⟨r, v⟩ := v
    rw [e] at a6
    have a7 := Prod.mk.inj (Except.ok.inj a6)
    obtain rfl : r = .ok () := a7.1
    obtain rfl : v = g' := (Prod.mk.inj a7.2).2
    have a4 : og.shape = l.input_shape := a4
    have hd : (og.fill_with_value (zero : F)).data = List.replicate l.input_shape.count zero := by
      unfold Tensor.fill_with_value
      rw [← a4, ← a3.len]
      exact List.map_const' ..
    intro p
    rw [(scatter_after e).2 p, hd]

/-- rounds of one layer with the same input and related gradients pass on related gradients -/
theorem round_respected (hR : Respected R) {l l1 l2 l3 : AnyLayer F} (hl : l.Ok) (hb : backable l)
    (hm : l.get_run_mode = .Training) {s s' g1 g2 g3 g1' g2' g3' : Tensor F}
    (r1 : LayerRound b l l1 s s' g1 g1') (r2 : LayerRound b l l2 s s' g2 g2') (r3 : LayerRound b l l3 s s' g3 g3')
    (hg : Related R g1 g2 g3) : Related R g1' g2' g3' := by
  have hgv : ∀ i j k, R (val g1 i j k) (val g2 i j k) (val g3 i j k) :=
    related_val (r2.hg.2.trans r1.hg.2.symm) (r3.hg.2.trans r1.hg.2.symm) hg
  cases l with
  | conv l => exact hb.elim
  | fc l =>
    obtain ⟨a1, a2, a3, _⟩ := fc_round hl hm r1
    obtain ⟨c1, c2, c3, _⟩ := fc_round hl hm r2
    obtain ⟨d1, d2, d3, _⟩ := fc_round hl hm r3
    refine related_of_val hR a1 c1 d1 (c2.trans a2.symm) (d2.trans a2.symm) fun i j k hin => ?_
    rw [a2] at hin
    obtain ⟨hi, hj, hk⟩ := hin
    have hj : j = 0 := Nat.lt_one_iff.mp hj
    have hk : k = 0 := Nat.lt_one_iff.mp hk
    subst hj hk
    rw [a3 i hi, c3 i hi, d3 i hi]
    exact sum_respected hR _ _ _ _ fun o _ => hR.left _ _ _ _ (hR.left _ _ _ _ (hgv o 0 0))
  | mp l =>
    have ho := @mp_round F _ b _ hl hm _ r1.hx.1 r1.hx.2
    intro p
    rw [ho r1, ho r2, ho r3]
    unfold scatter
    refine foldl_respected hR _ _ _ _ (fun e _ => hg _) ?_
    rw [List.getElem?_replicate]
    split <;> exact hR.zero
  | sm l =>
    obtain ⟨hj, hk⟩ := hb
    obtain ⟨a1, a2⟩ := sm_round hl hj hk hm r1
    obtain ⟨c1, c2⟩ := sm_round hl hj hk hm r2
    obtain ⟨d1, d2⟩ := sm_round hl hj hk hm r3
    refine related_of_val hR a1.1 c1.1 d1.1 (c1.2.trans a1.2.symm) (d1.2.trans a1.2.symm) fun i j k hin => ?_
    rw [a1.2] at hin
    obtain ⟨hi, hj', hk'⟩ := hin
    rw [hj] at hj'
    rw [hk] at hk'
    have hj' : j = 0 := Nat.lt_one_iff.mp hj'
    have hk' : k = 0 := Nat.lt_one_iff.mp hk'
    subst hj' hk'
    rw [a2 i hi, c2 i hi, d2 i hi]
    exact hR.add _ _ _ _ _ _ (hR.left _ _ _ _ (hgv i 0 0))
      (sum1_respected hR (hR.left _ _ _ _ (hR.right _ _ _ _
        (sum_respected hR _ _ _ _ fun o _ => hR.left _ _ _ _ (hgv o 0 0)))))

/-- three calls of `backward` after the same `infer`, with related gradients -/
theorem net_respected (hR : Respected R) {n n1 m1 m2 m3 : Net F} (hok : NetOk n) (ht : TrainReady n)
    (hne : n.layers ≠ []) (hbk : ∀ l ∈ n.layers, backable l) {x g1 g2 g3 : Tensor F} (hx : x.WF)
    (hxs : x.shape = n.input_shape) (hg1 : g1.WF ∧ g1.shape = n.output_shape)
    (hg2 : g2.WF ∧ g2.shape = n.output_shape) (hg3 : g3.WF ∧ g3.shape = n.output_shape)
    (hg : Related R g1 g2 g3) (i0 : n.infer b x = .ok (.ok (), n1)) (i1 : n1.backward b g1 = .ok (.ok (), m1))
    (i2 : n1.backward b g2 = .ok (.ok (), m2)) (i3 : n1.backward b g3 = .ok (.ok (), m3)) :
    (∀ i, i ≤ n.layers.length → ∃ t1 t2 t3, m1.intermediate_gradients[i]? = some t1 ∧
      m2.intermediate_gradients[i]? = some t2 ∧ m3.intermediate_gradients[i]? = some t3 ∧ Related R t1 t2 t3) ∧
    ∀ (c : Nat) l, n.layers[c]? = some (.fc l) → ∃ l1 l2 l3, m1.layers[c]? = some (.fc l1) ∧
      m2.layers[c]? = some (.fc l2) ∧ m3.layers[c]? = some (.fc l3) ∧
      ∀ o, o < l.weights.shape.di.toNat →
        (∃ d1 d2 d3, R d1 d2 d3 ∧
          l1.bias_gradients.get_item b (ix o 0 0) = .ok (add (val l.bias_gradients o 0 0) d1) ∧
          l2.bias_gradients.get_item b (ix o 0 0) = .ok (add (val l.bias_gradients o 0 0) d2) ∧
          l3.bias_gradients.get_item b (ix o 0 0) = .ok (add (val l.bias_gradients o 0 0) d3)) ∧
        ∀ i, i < l.weights.shape.dj.toNat → ∃ d1 d2 d3, R d1 d2 d3 ∧
          l1.weights_gradients.get_item b (ix o i 0) = .ok (add (val l.weights_gradients o i 0) d1) ∧
          l2.weights_gradients.get_item b (ix o i 0) = .ok (add (val l.weights_gradients o i 0) d2) ∧
          l3.weights_gradients.get_item b (ix o i 0) = .ok (add (val l.weights_gradients o i 0) d3) := by
  obtain ⟨n1', m1', a1, a2, a3, a4⟩ := net_round (b := b) hok ht hne hbk hx hxs hg1.1 hg1.2
  obtain rfl : n1 = n1' := (Prod.mk.inj (Except.ok.inj (i0.symm.trans a1))).2
  obtain rfl : m1 = m1' := (Prod.mk.inj (Except.ok.inj (i1.symm.trans a2))).2
  obtain ⟨n1', m2', c1, c2, c3, c4⟩ := net_round (b := b) hok ht hne hbk hx hxs hg2.1 hg2.2
  obtain rfl : n1 = n1' := (Prod.mk.inj (Except.ok.inj (i0.symm.trans c1))).2
  obtain rfl : m2 = m2' := (Prod.mk.inj (Except.ok.inj (i2.symm.trans c2))).2
  obtain ⟨n1', m3', d1, d2, d3, d4⟩ := net_round (b := b) hok ht hne hbk hx hxs hg3.1 hg3.2
  obtain rfl : n1 = n1' := (Prod.mk.inj (Except.ok.inj (i0.symm.trans d1))).2
  obtain rfl : m3 = m3' := (Prod.mk.inj (Except.ok.inj (i3.symm.trans d2))).2
  have main : ∀ d i, i + d = n.layers.length → ∃ t1 t2 t3, m1.intermediate_gradients[i]? = some t1 ∧
      m2.intermediate_gradients[i]? = some t2 ∧ m3.intermediate_gradients[i]? = some t3 ∧ Related R t1 t2 t3 := by
    intro d
    induction d with
    | zero =>
      intro i hi
      obtain rfl : i = n.layers.length := by omega
      exact ⟨_, _, _, a3, c3, d3, hg⟩
    | succ d ih =>
      intro i hi
      have hlt : i < n.layers.length := by omega
      obtain ⟨t1, t2, t3, e1, e2, e3, e4⟩ := ih (i + 1) (by omega)
      obtain ⟨_, s, s', gi, gi', _, p2, p3, p4, p5, p6⟩ := a4 i n.layers[i] (List.getElem?_eq_getElem hlt)
      obtain ⟨_, t, t', hi, hi', _, q2, q3, q4, q5, q6⟩ := c4 i n.layers[i] (List.getElem?_eq_getElem hlt)
      obtain ⟨_, u, u', ji, ji', _, r2, r3, r4, r5, r6⟩ := d4 i n.layers[i] (List.getElem?_eq_getElem hlt)
      obtain rfl := Option.some.inj (p2.symm.trans q2)
      obtain rfl := Option.some.inj (p3.symm.trans q3)
      obtain rfl := Option.some.inj (p2.symm.trans r2)
      obtain rfl := Option.some.inj (p3.symm.trans r3)
      obtain rfl := Option.some.inj (e1.symm.trans p4)
      obtain rfl := Option.some.inj (e2.symm.trans q4)
      obtain rfl := Option.some.inj (e3.symm.trans r4)
      exact ⟨_, _, _, p5, q5, r5, round_respected hR (hok.layers _ (List.getElem_mem hlt))
        (hbk _ (List.getElem_mem hlt)) (ht.layers _ (List.getElem_mem hlt)) p6 q6 r6 e4⟩
  have main' : ∀ i, i ≤ n.layers.length → ∃ t1 t2 t3, m1.intermediate_gradients[i]? = some t1 ∧
      m2.intermediate_gradients[i]? = some t2 ∧ m3.intermediate_gradients[i]? = some t3 ∧ Related R t1 t2 t3 :=
    fun i hi => main (n.layers.length - i) i (by omega)
  refine ⟨main', fun c l hc => ?_⟩
  have hlt : c < n.layers.length := (List.getElem?_eq_some_iff.mp hc).1
  have hl : l.Ok := hok.layers _ (List.mem_of_getElem? hc)
  have hlm : l.run_state = .Training := ht.layers _ (List.mem_of_getElem? hc)
  obtain ⟨t1, t2, t3, e1, e2, e3, e4⟩ := main' (c + 1) hlt
  obtain ⟨_, s, s', gi, gi', p1, p2, p3, p4, p5, p6⟩ := a4 c _ hc
  obtain ⟨_, t, t', hi, hi', q1, q2, q3, q4, q5, q6⟩ := c4 c _ hc
  obtain ⟨_, u, u', ji, ji', r1, r2, r3, r4, r5, r6⟩ := d4 c _ hc
  obtain rfl := Option.some.inj (p2.symm.trans q2)
  obtain rfl := Option.some.inj (p2.symm.trans r2)
  obtain rfl := Option.some.inj (e1.symm.trans p4)
  obtain rfl := Option.some.inj (e2.symm.trans q4)
  obtain rfl := Option.some.inj (e3.symm.trans r4)
  have hgv := related_val (q6.hg.2.trans p6.hg.2.symm) (r6.hg.2.trans p6.hg.2.symm) e4
  obtain ⟨_, _, _, f1, rfl, h1⟩ := fc_round hl hlm p6
  obtain ⟨_, _, _, f2, rfl, h2⟩ := fc_round hl hlm q6
  obtain ⟨_, _, _, f3, rfl, h3⟩ := fc_round hl hlm r6
  refine ⟨f1, f2, f3, p1, q1, r1, fun o ho => ⟨⟨_, _, _, hR.left _ _ _ _ (hgv o 0 0), (h1 o ho).1, (h2 o ho).1,
    (h3 o ho).1⟩, fun i hi => ⟨_, _, _, sum1_respected hR (hR.right _ _ _ _ (hR.left _ _ _ _ (hgv o 0 0))),
      (h1 o ho).2 i hi, (h2 o ho).2 i hi, (h3 o ho).2 i hi⟩⟩⟩

end Rusty
