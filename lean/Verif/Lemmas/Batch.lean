import Verif.Spec.Batch
import Verif.Lemmas.Repeated
import Verif.Props.FullyConnected
import Verif.Props.Network

/-! # Lemmas: training on several examples -/

namespace Rusty

open F32Ops Spec

variable {F : Type} [F32Ops F] {b : Build}

/-- one call of `forward` and one of `backward` of a layer, both with `Ok` -/
structure LayerRound (b : Build) (l l2 : AnyLayer F) (s s' g g' : Tensor F) : Prop where
  hx : s.WF ∧ s.shape = l.get_input_shape
  hy : s'.WF ∧ s'.shape = l.get_output_shape
  hg : g.WF ∧ g.shape = l.get_output_shape
  run : ∃ out og l1, out.WF ∧ out.shape = l.get_output_shape ∧ og.WF ∧ og.shape = l.get_input_shape ∧
    l.forward b s out = .ok (.ok (), l1, s') ∧ l1.backward b s s' g og = .ok (.ok (), l2, g')

omit [F32Ops F] in
theorem backable_notConv {l : AnyLayer F} (h : backable l) : notConv l := by
  cases l with
  | conv l => exact h.elim
  | fc l => trivial
  | mp l => trivial
  | sm l => trivial

/-- networks with the same parameters have the same shapes -/
theorem params_shapes {n m : Net F} (hn : Chain n) (hm : Chain m)
    (hp : m.layers.map params = n.layers.map params) (hne : n.layers ≠ []) :
    m.input_shape = n.input_shape ∧ m.output_shape = n.output_shape := by
  have hlen : m.layers.length = n.layers.length := by
    have := congrArg List.length hp
    simpa using this
  have hpos : 0 < n.layers.length := List.length_pos_iff.mpr hne
  have key : ∀ (i : Nat) l, n.layers[i]? = some l → ∃ l', m.layers[i]? = some l' ∧ params l' = params l := by
    intro i l h
    obtain ⟨l', h1, h2⟩ := map_get hp.symm h
    exact ⟨l', h1, h2.symm⟩
  constructor
  · have e : n.layers.head? = some n.layers[0] := by rw [List.head?_eq_getElem?, List.getElem?_eq_getElem hpos]
    obtain ⟨l', h1, h2⟩ := key 0 n.layers[0] (List.getElem?_eq_getElem hpos)
    have a := hn.first _ e
    have c := hm.first l' (by rw [List.head?_eq_getElem?, h1])
    exact c.trans ((params_input h2).trans a.symm)
  · have hlt : n.layers.length - 1 < n.layers.length := by omega
    have e : n.layers.getLast? = some n.layers[n.layers.length - 1] := by
      rw [List.getLast?_eq_getElem?, List.getElem?_eq_getElem hlt]
    obtain ⟨l', h1, h2⟩ := key _ _ (List.getElem?_eq_getElem hlt)
    have a := hn.last _ e
    have c := hm.last l' (by rw [List.getLast?_eq_getElem?, hlen, h1])
    exact c.trans ((params_output h2).trans a.symm)

omit [F32Ops F] in
theorem params_backable {l l' : AnyLayer F} (hp : params l' = params l) (h : backable l) : backable l' := by
  cases l with
  | conv l => exact h.elim
  | fc l =>
    cases l' with
    | fc l' => trivial
    | conv m => cases hp
    | mp m => cases hp
    | sm m => cases hp
  | mp l =>
    cases l' with
    | mp l' =>
      simp only [params, AnyLayer.mp.injEq, MaxPoolLayer.mk.injEq, and_true] at hp
      obtain ⟨p1, _, p3, -⟩ := hp
      change 0 < l'.output_shape.count → 0 < l'.input_shape.count
      rw [p1, p3]
      exact h
    | conv m => cases hp
    | fc m => cases hp
    | sm m => cases hp
  | sm l =>
    cases l' with
    | sm l' =>
      simp only [params, AnyLayer.sm.injEq, SoftmaxLayer.mk.injEq, and_true] at hp
      obtain ⟨p1, -⟩ := hp
      change l'.shape.dj = 1 ∧ l'.shape.dk = 1
      rw [p1]
      exact h
    | conv m => cases hp
    | fc m => cases hp
    | mp m => cases hp

/-- one call of `infer` and one of `backward` of a network, layer by layer -/
theorem net_round {n : Net F} (hok : NetOk n) (ht : TrainReady n) (hne : n.layers ≠ [])
    (hbk : ∀ l ∈ n.layers, backable l) {x g : Tensor F} (hx : x.WF) (hxs : x.shape = n.input_shape)
    (hg : g.WF) (hgs : g.shape = n.output_shape) :
    ∃ n1 n2, n.infer b x = .ok (.ok (), n1) ∧ n1.backward b g = .ok (.ok (), n2) ∧
      n2.intermediate_gradients[n.layers.length]? = some g ∧
      ∀ (i : Nat) l, n.layers[i]? = some l → ∃ l2 s s' gi gi', n2.layers[i]? = some l2 ∧
        n1.intermediate_states[i]? = some s ∧ n1.intermediate_states[i + 1]? = some s' ∧
        n2.intermediate_gradients[i + 1]? = some gi ∧ n2.intermediate_gradients[i]? = some gi' ∧
        LayerRound b l l2 s s' gi gi' := by
  obtain ⟨n1, i1, i2, i3⟩ := infer_ok (b := b) hok hne hx hxs
  obtain ⟨n1', r, n2, j1, j2, j3⟩ := infer_backward_ok (b := b) hok ht hne
    (fun l hl => backable_notConv (hbk l hl)) hx hxs hg hgs
  obtain rfl : n1' = n1 := (Prod.mk.inj (Except.ok.inj (j1.symm.trans i1))).2
  have j3 := j3 hbk
  subst j3
  obtain ⟨c1, c2, c3⟩ := C43_chain b n1' n2 g j2
  have ht1 := infer_trainReady hok ht i1
  have ht2 := backward_trainReady (uses_netOk hok (.infer _ _ _ _ i1)) ht1 hg j2
  have hlen : n1'.layers.length = n.layers.length := forall₂_length (infer_effect n x _ i1).1
  refine ⟨n1', n2, i1, j2, hlen ▸ c1, fun i l hi => ?_⟩
  obtain ⟨s, s', e1, e2, e3, out, l', e4, e5, e6, e7, e8, e9⟩ := i3 _ _ hi
  obtain ⟨x', y', gi, og, og', l2, b1, b2, b3, b4, b5, b6, b7⟩ := c2 _ _ e4
  have hx' : x' = s := by
    unfold Network.get_intermediate_state at b1
    rw [e1] at b1
    exact (Except.ok.inj b1).symm
  have hy' : y' = s' := by
    unfold Network.get_intermediate_state at b2
    rw [e2] at b2
    exact (Except.ok.inj b2).symm
  subst hx' hy'
  have hog : og.WF ∧ og.shape = l.get_input_shape := by
    refine ⟨ht1.wf og (List.mem_of_getElem? b4), ?_⟩
    have := congrArg (fun q => q[i]?) ht1.grads
    simp only [List.getElem?_map, b4, e1, Option.map_some] at this
    exact (Option.some.inj this).trans e6
  have hgi : gi.WF ∧ gi.shape = l.get_output_shape := by
    refine ⟨ht2.wf gi (List.mem_of_getElem? b3), ?_⟩
    have := congrArg (fun q => q[i + 1]?) ht2.grads
    simp only [List.getElem?_map, b3, c3, e2, Option.map_some] at this
    exact (Option.some.inj this).trans e3.2.1
  exact ⟨l2, x', y', gi, og', b6, e1, e2, b3, b5, ⟨e5, e6⟩, ⟨e3.1, e3.2.1⟩, hgi, out, og, l', e7, e8, hog.1, hog.2,
    e9, b7⟩

/-- a round of a fully connected layer -/
theorem fc_round {l : FullyConnectedLayer F} (hl : l.Ok) (hm : l.run_state = .Training) {l2 : AnyLayer F}
    {s s' g g' : Tensor F} (h : LayerRound b (.fc l) l2 s s' g g') :
    g'.WF ∧ g'.shape = l.get_input_shape ∧
    (∀ i, i < l.weights.shape.dj.toNat → val g' i 0 0 =
      sum ((List.range l.weights.shape.di.toNat).map fun o => mul (val l.weights o i 0) (masked l ⟨s, g, s, s⟩ o))) ∧
    ∃ f, l2 = .fc f ∧ ∀ o, o < l.weights.shape.di.toNat →
      f.bias_gradients.get_item b (ix o 0 0) = .ok (add (val l.bias_gradients o 0 0) (masked l ⟨s, g, s, s⟩ o)) ∧
      ∀ i, i < l.weights.shape.dj.toNat → f.weights_gradients.get_item b (ix o i 0) =
        .ok (add (val l.weights_gradients o i 0) (sum [mul (masked l ⟨s, g, s, s⟩ o) (val s i 0 0)])) := by
  obtain ⟨hx, hy, hg, out, og, l1, r1, r2, r3, r4, r5, r6⟩ := h
  have hfit : (⟨s, g, out, og⟩ : Round F).FitsFC l := ⟨hx, hg, ⟨r1, r2⟩, ⟨r3, r4⟩⟩
  obtain ⟨k1, out', k2, og', f1, f2, _, _, f5, f6, f7, f8⟩ := C28_round b l hl hm _ hfit
  have e9' : (AnyLayer.fc l).forward b s out = .ok (.ok (), .fc k1, out') := by
    change FullyConnectedLayer.forward b l s out >>= _ = _
    rw [f1]
    rfl
  obtain ⟨_, e10⟩ := Prod.mk.inj (Except.ok.inj (r5.symm.trans e9'))
  obtain ⟨rfl, rfl⟩ := Prod.mk.inj e10
  have b7' : (AnyLayer.fc k1).backward b s s' g og = .ok (.ok (), .fc k2, og') := by
    change FullyConnectedLayer.backward b k1 s s' g og >>= _ = _
    rw [f2]
    rfl
  obtain ⟨_, e11⟩ := Prod.mk.inj (Except.ok.inj (r6.symm.trans b7'))
  obtain ⟨rfl, rfl⟩ := Prod.mk.inj e11
  refine ⟨f5, f6, fun i hi => ?_, k2, rfl, f8⟩
  have := f7 i hi
  rw [get_item_ok f5 (by rw [f6]; exact col_inside hi)] at this
  exact Except.ok.inj this

/-- the record a max-pool layer keeps in training mode -/
theorem mp_forward_record {l : MaxPoolLayer} (hl : l.Ok) (hm : l.run_state = .Training) {x out : Tensor F}
    (hx : x.WF) (hxs : x.shape = l.input_shape) (ho : out.WF) (hos : out.shape = l.output_shape) :
    ∃ o : List UInt32, o.length = l.output_shape.count ∧
      (∀ i j k, l.output_shape.Inside i j k → o[pos l.output_shape i j k]? =
        some (runArg (windowPos x l.mask_shape l.stride.toNat i j k)).2) ∧
      ∃ y, (AnyLayer.mp l).forward b x out = .ok (.ok (), .mp { l with max_pool_origin := o }, y) := by
  have ht : windowsTile x.shape l.mask_shape l.stride out.shape := by
    rw [hos, hxs]; exact hl.tiles
  have hk : out.shape.dk = x.shape.dk := by rw [hos, hxs]; exact hl.depth
  obtain ⟨y, o, q1, q2, q3, q4, q5⟩ := track_ok (b := b) hx ho
    (fun h => hl.stride (u32_ext h)) hk ht (by rw [hos]; exact hl.buffers hm)
  refine ⟨o, by rw [q4]; exact hl.buffers hm, fun i j k hin => ?_, y, ?_⟩
  · have := (q5 i j k (by rw [hos]; exact hin)).2
    rwa [hos] at this
  · change MaxPoolLayer.forward b l x out >>= _ = _
    unfold MaxPoolLayer.forward
    rw [hm]
    simp only
    rw [q1]
    rfl

/-- a round of a softmax layer -/
theorem sm_round {l : SoftmaxLayer F} (hl : (AnyLayer.sm l).Ok) (hj : l.shape.dj = 1) (hk : l.shape.dk = 1)
    (hm : (AnyLayer.sm l).get_run_mode = .Training) {l2 : AnyLayer F} {s s' g g' : Tensor F}
    (h : LayerRound b (.sm l) l2 s s' g g') :
    (g'.WF ∧ g'.shape = l.shape) ∧
    ∀ i, i < l.shape.di.toNat → val g' i 0 0 = add (mul (val s' i 0 0) (val g i 0 0))
      (sum [mul (val s' i 0 0) (mul (sum ((List.range l.shape.di.toNat).map fun o =>
        mul (val s' o 0 0) (val g o 0 0))) negOne)]) := by
  obtain ⟨hx, ⟨y1, y2⟩, ⟨g1, g2⟩, out, og, l1, r1, r2, r3, r4, r5, r6⟩ := h
  have hlike : Like l1 (.sm l) := (forward_like _ _ _ _ r5).1
  have hok1 := like_ok hlike hl
  have hm1 := (like_mode hlike).trans hm
  have hp := like_params hlike
  cases l1 with
  | sm l1 =>
    simp only [params, AnyLayer.sm.injEq, SoftmaxLayer.mk.injEq, and_true] at hp
    obtain ⟨p1, -⟩ := hp
    obtain ⟨k, og', e1, e2, e3, e4⟩ := sm_backward_column (b := b) (x := s) hok1 hm1 (by rw [p1]; exact hj)
      (by rw [p1]; exact hk) y1 (by rw [p1]; exact y2) g1 (by rw [p1]; exact g2) r3 (by rw [p1]; exact r4)
    have e5 : (AnyLayer.sm l1).backward b s s' g og = .ok (.ok (), .sm k, og') := by
      change SoftmaxLayer.backward b l1 s s' g og >>= _ = _
      rw [e1]
      rfl
    rw [e5] at r6
    obtain ⟨_, r6⟩ := Prod.mk.inj (Except.ok.inj r6)
    obtain ⟨_, rfl⟩ := Prod.mk.inj r6
    rw [p1] at e3 e4
    exact ⟨⟨e2, e3⟩, e4⟩
  | conv l => cases hp
  | fc l => cases hp
  | mp l => cases hp

/-- what a round of a layer passes on depends on the parameters, the input and the gradient only -/
theorem round_same {l m l2 m2 : AnyLayer F} (hl : l.Ok) (hmo : m.Ok) (hb : backable l) (hp : params m = params l)
    (h1 : l.get_run_mode = .Training) (h2 : m.get_run_mode = .Training) {s s' g g1 g2 : Tensor F}
    (r1 : LayerRound b l l2 s s' g g1) (r2 : LayerRound b m m2 s s' g g2) : g1 = g2 := by
  cases l with
  | conv l => exact hb.elim
  | fc l =>
    cases m with
    | fc m =>
      simp only [params, AnyLayer.fc.injEq, FullyConnectedLayer.mk.injEq, true_and] at hp
      obtain ⟨p1, p2, -⟩ := hp
      obtain ⟨a1, a2, a3, _⟩ := fc_round hl h1 r1
      obtain ⟨c1, c2, c3, _⟩ := fc_round hmo h2 r2
      have hin : m.get_input_shape = l.get_input_shape := by
        unfold FullyConnectedLayer.get_input_shape; rw [p1]
      refine tensor_ext a1 c1 (by rw [a2, c2, hin]) fun i j k hin' => ?_
      rw [a2] at hin'
      obtain ⟨hi, hj, hk⟩ := hin'
      have hj : j = 0 := Nat.lt_one_iff.mp hj
      have hk : k = 0 := Nat.lt_one_iff.mp hk
      subst hj hk
      rw [a3 i hi, c3 i (by rw [p1]; exact hi)]
      unfold masked preact
      rw [p1, p2]
    | conv m => cases hp
    | mp m => cases hp
    | sm m => cases hp
  | mp l =>
    cases m with
    | mp m =>
      simp only [params, AnyLayer.mp.injEq, MaxPoolLayer.mk.injEq, and_true] at hp
      have hl : l.Ok := hl
      have hmo : m.Ok := hmo
      have h1 : l.run_state = .Training := h1
      have h2 : m.run_state = .Training := h2
      obtain ⟨p1, p2, p3, p4, -⟩ := hp
      obtain ⟨⟨x1, x2⟩, _, _, out, og, l1, a1, a2, a3, a4, a5, a6⟩ := r1
      obtain ⟨⟨_, x3⟩, _, _, out', og', m1, c1, c2, c3, c4, c5, c6⟩ := r2
      obtain ⟨o, q1, q2, q3⟩ := mp_forward_record (b := b) hl h1 x1 x2 a1 a2
      obtain ⟨o', t1, t2, t3⟩ := mp_forward_record (b := b) hmo h2 x1 x3 c1 c2
      have ho : o = o' := by
        rw [list_indices l.output_shape o 0 q1, list_indices l.output_shape o' 0 (by rw [t1, p3])]
        refine List.map_congr_left fun x hx => ?_
        have hin := mem_indices.mp hx
        have e := t2 x.1 x.2.1 x.2.2 (by rw [p3]; exact hin)
        rw [p2, p3, p4] at e
        rw [q2 _ _ _ hin, e]
      subst ho
      obtain ⟨y, q3⟩ := q3
      obtain ⟨y', t3⟩ := t3
      rw [q3] at a5
      rw [t3] at c5
      obtain ⟨_, a5⟩ := Prod.mk.inj (Except.ok.inj a5)
      obtain ⟨rfl, _⟩ := Prod.mk.inj a5
      obtain ⟨_, c5⟩ := Prod.mk.inj (Except.ok.inj c5)
      obtain ⟨rfl, _⟩ := Prod.mk.inj c5
      have a4 : og.shape = l.input_shape := a4
      have c4 : og'.shape = m.input_shape := c4
      have hfill : og.fill_with_value (zero : F) = og'.fill_with_value zero :=
        fill_same zero a3 c3 (by rw [a4, c4, p1])
      simp only [AnyLayer.backward, AnyLayer.rewrap, MaxPoolLayer.backward, hfill] at a6 c6
      cases e : Tensor.add_from_index_list b g (og'.fill_with_value zero) o with
      | error _ => rw [e] at a6; cases a6
      | ok v =>
        rw [e] at a6 c6
        have a6 := (Prod.mk.inj (Prod.mk.inj (Except.ok.inj a6)).2).2
        have c6 := (Prod.mk.inj (Prod.mk.inj (Except.ok.inj c6)).2).2
        exact a6.symm.trans c6
    | conv m => cases hp
    | fc m => cases hp
    | sm m => cases hp
  | sm l =>
    cases m with
    | sm m =>
      simp only [params, AnyLayer.sm.injEq, SoftmaxLayer.mk.injEq, and_true] at hp
      obtain ⟨p1, -⟩ := hp
      obtain ⟨hj, hk⟩ := hb
      obtain ⟨a1, a2⟩ := sm_round hl hj hk h1 r1
      obtain ⟨c1, c2⟩ := sm_round hmo (by rw [p1]; exact hj) (by rw [p1]; exact hk) h2 r2
      refine tensor_ext a1.1 c1.1 (by rw [a1.2, c1.2, p1]) fun i j k hin => ?_
      rw [a1.2] at hin
      obtain ⟨hi, hj', hk'⟩ := hin
      rw [hj] at hj'
      rw [hk] at hk'
      have hj' : j = 0 := Nat.lt_one_iff.mp hj'
      have hk' : k = 0 := Nat.lt_one_iff.mp hk'
      subst hj' hk'
      rw [a2 i hi, c2 i (by rw [p1]; exact hi), p1]
    | conv m => cases hp
    | fc m => cases hp
    | mp m => cases hp

/-- two networks with the same parameters in training mode have the same states and gradients after the same
calls -/
theorem rounds_same {n m n1 n2 m1 m2 : Net F} (hn : NetOk n) (htn : TrainReady n) (hm : NetOk m)
    (htm : TrainReady m) (hp : m.layers.map params = n.layers.map params) (hne : n.layers ≠ [])
    (hbk : ∀ l ∈ n.layers, backable l) {x g : Tensor F} (hx : x.WF) (hxs : x.shape = n.input_shape)
    (hg : g.WF) (hgs : g.shape = n.output_shape) (hms : m.input_shape = n.input_shape ∧ m.output_shape = n.output_shape)
    (hbm : ∀ l ∈ m.layers, backable l)
    (i1 : n.infer b x = .ok (.ok (), n1)) (i2 : m.infer b x = .ok (.ok (), m1))
    (j1 : n1.backward b g = .ok (.ok (), n2)) (j2 : m1.backward b g = .ok (.ok (), m2)) :
    m1.intermediate_states = n1.intermediate_states ∧
    ∀ i, i ≤ n.layers.length → m2.intermediate_gradients[i]? = n2.intermediate_gradients[i]? := by
  have hlen : m.layers.length = n.layers.length := by
    have := congrArg List.length hp
    simpa using this
  have hnem : m.layers ≠ [] := by
    intro h
    rw [h] at hlen
    exact hne (List.length_eq_zero_iff.mp hlen.symm)
  have hs : m1.intermediate_states = n1.intermediate_states := by
    obtain ⟨a, c, h1, h2, h3⟩ := infer_same (b := b) hm hn hp (fun i l l' e1 e2 s a c d => by
      obtain ⟨l0, e3, e4⟩ := map_get hp e1
      rw [e2] at e3; cases e3
      exact layerAt_congr e4 ((htm.layers _ (List.mem_of_getElem? e1)).trans
        (htn.layers _ (List.mem_of_getElem? e2)).symm) s a c d) hnem hx (by rw [hms.1]; exact hxs)
    obtain rfl : m1 = a := (Prod.mk.inj (Except.ok.inj (i2.symm.trans h1))).2
    obtain rfl : n1 = c := (Prod.mk.inj (Except.ok.inj (i1.symm.trans h2))).2
    exact h3
  refine ⟨hs, ?_⟩
  obtain ⟨n1', n2', k1, k2, k3, k4⟩ := net_round (b := b) hn htn hne hbk hx hxs hg hgs
  obtain ⟨m1', m2', q1, q2, q3, q4⟩ := net_round (b := b) hm htm hnem hbm hx (by rw [hms.1]; exact hxs) hg
    (by rw [hms.2]; exact hgs)
  obtain rfl : n1 = n1' := (Prod.mk.inj (Except.ok.inj (i1.symm.trans k1))).2
  obtain rfl : m1 = m1' := (Prod.mk.inj (Except.ok.inj (i2.symm.trans q1))).2
  obtain rfl : n2 = n2' := (Prod.mk.inj (Except.ok.inj (j1.symm.trans k2))).2
  obtain rfl : m2 = m2' := (Prod.mk.inj (Except.ok.inj (j2.symm.trans q2))).2
  have main : ∀ d i, i + d = n.layers.length → m2.intermediate_gradients[i]? = n2.intermediate_gradients[i]? := by
    intro d
    induction d with
    | zero =>
      intro i hi
      obtain rfl : i = n.layers.length := by omega
      rw [k3, ← hlen, q3]
    | succ d ih =>
      intro i hi
      have hlt : i < n.layers.length := by omega
      obtain ⟨l2, s, s', gi, gi', _, a2, a3, a4, a5, a6⟩ := k4 i n.layers[i] (List.getElem?_eq_getElem hlt)
      obtain ⟨l2', t, t', hi1, hi2, _, c2, c3, c4, c5, c6⟩ := q4 i m.layers[i] (List.getElem?_eq_getElem (by omega))
      rw [hs, a2] at c2
      rw [hs, a3] at c3
      rw [ih (i + 1) (by omega), a4] at c4
      obtain rfl := Option.some.inj c2
      obtain rfl := Option.some.inj c3
      obtain rfl := Option.some.inj c4
      obtain ⟨l0, e3, e4⟩ := map_get hp (List.getElem?_eq_getElem (show i < m.layers.length by omega))
      rw [List.getElem?_eq_getElem hlt] at e3
      obtain rfl := Option.some.inj e3
      rw [a5, c5, round_same (hn.layers _ (List.getElem_mem hlt)) (hm.layers _ (List.getElem_mem _))
        (hbk _ (List.getElem_mem hlt)) e4 (htn.layers _ (List.getElem_mem hlt)) (htm.layers _ (List.getElem_mem _)) a6 c6]
  intro i hi
  exact main (n.layers.length - i) i (by omega)

/-- the value read is the value stored -/
theorem get_item_inj {t : Tensor F} (ht : t.WF) {i j k : Nat} (h : t.shape.Inside i j k) {v : F}
    (e : t.get_item b (ix i j k) = .ok v) : val t i j k = v := by
  rw [get_item_ok ht h] at e
  exact Except.ok.inj e

/-- training on a list of examples has one result -/
theorem batch_unique {n m m' : Net F} {es : List (Example F)} (h : Batch b n es m) (h' : Batch b n es m') : m' = m := by
  induction h with
  | done n => cases h'; rfl
  | step n n1 n2 n' e es h1 h2 _ ih =>
    cases h' with
    | step _ k1 k2 _ _ _ g1 g2 g3 =>
      obtain rfl : n1 = k1 := (Prod.mk.inj (Except.ok.inj (h1.symm.trans g1))).2
      obtain rfl : n2 = k2 := (Prod.mk.inj (Except.ok.inj (h2.symm.trans g2))).2
      exact ih g3

/-- the gradient buffers of a fully connected layer of a network in training mode -/
theorem fc_grad_inside {n m : Net F} (hm : Trains b m)
    (hp : m.layers.map params = n.layers.map params) {c : Nat} {l l' : FullyConnectedLayer F}
    (hc : n.layers[c]? = some (.fc l)) (hc' : m.layers[c]? = some (.fc l')) :
    (∀ o, o < l.weights.shape.di.toNat → l'.bias_gradients.WF ∧ l'.bias_gradients.shape.Inside o 0 0) ∧
    ∀ o i, o < l.weights.shape.di.toNat → i < l.weights.shape.dj.toNat →
      l'.weights_gradients.WF ∧ l'.weights_gradients.shape.Inside o i 0 := by
  obtain ⟨hok, ht⟩ := trains_ready hm
  have hl : l'.Ok := hok.layers _ (List.mem_of_getElem? hc')
  have hb := hl.buffers (ht.layers _ (List.mem_of_getElem? hc'))
  obtain ⟨l0, e1, e2⟩ := map_get hp hc'
  rw [hc] at e1
  obtain rfl := Option.some.inj e1
  simp only [params, AnyLayer.fc.injEq, FullyConnectedLayer.mk.injEq, true_and] at e2
  obtain ⟨p1, p2, -⟩ := e2
  refine ⟨fun o ho => ⟨hb.2.2.1.1, ?_⟩, fun o i ho hi => ⟨hb.1.1, ?_⟩⟩
  · rw [hb.2.2.1.2, hl.rows, p1]
    exact col_inside ho
  · rw [hb.1.2, p1]
    refine ⟨ho, hi, ?_⟩
    rw [← p1, hl.depth]
    decide

end Rusty
