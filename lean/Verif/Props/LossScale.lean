import Verif.Lemmas.LossScale
import Verif.Props.ZeroGradient
import Verif.Props.PowerOfTwo

/-! # C125: multiplying the loss by a power of two -/

namespace Rusty

open F32Ops Spec F32

variable [Libm]

/-- one example -/
theorem scale_step {b : Build} {k : Nat} {n m m' : Net F32} (hn : Trains b n) (hm : Trains b m) (hm' : Trains b m')
    (hp : m.get_layers.map params = n.get_layers.map params)
    (hp' : m'.get_layers.map params = n.get_layers.map params) (hne : n.get_layers ≠ [])
    (hbk : ∀ l ∈ n.get_layers, backable l) (hs : GradientsScale b k m m') {e e' : Example F32}
    (he : e.Fits n) (he' : e'.Fits n) (hx : Example.Scaled k e e')
    (hu : ∀ n1 n2, n.infer b e.x = .ok (.ok (), n1) → n1.backward b e.g = .ok (.ok (), n2) →
      ∀ i l s s' g, n.get_layers[i]? = some l → n1.get_intermediate_state i = .ok s →
        n1.get_intermediate_state (i + 1) = .ok s' → n2.intermediate_gradients[i + 1]? = some g →
        Lossless l s s' g) :
    ∃ m1 m2 m1' m2', m.infer b e.x = .ok (.ok (), m1) ∧ m1.backward b e.g = .ok (.ok (), m2) ∧
      m'.infer b e'.x = .ok (.ok (), m1') ∧ m1'.backward b e'.g = .ok (.ok (), m2') ∧
      GradientsScale b k m2 m2' := by
  obtain ⟨hok, ht⟩ := trains_ready hn
  have hne : n.layers ≠ [] := hne
  have back : ∀ {m : Net F32}, Trains b m → m.get_layers.map params = n.get_layers.map params →
      (NetOk m ∧ TrainReady m) ∧ m.layers ≠ [] ∧ (∀ l ∈ m.layers, backable l) ∧
      m.input_shape = n.input_shape ∧ m.output_shape = n.output_shape := by
    intro m hm hp
    have hr := trains_ready hm
    have hp : m.layers.map params = n.layers.map params := hp
    refine ⟨hr, ?_, ?_, params_shapes hok.chain hr.1.chain hp hne⟩
    · intro h
      rw [h] at hp
      exact hne (List.map_eq_nil_iff.mp hp.symm)
    · intro l hl
      obtain ⟨i, hi, rfl⟩ := List.mem_iff_getElem.mp hl
      obtain ⟨l0, h1, h2⟩ := map_get hp (List.getElem?_eq_getElem hi)
      exact params_backable h2 (hbk l0 (List.mem_of_getElem? h1))
  obtain ⟨⟨hokm, htm⟩, hnem, hbm, hshm⟩ := back hm hp
  obtain ⟨⟨hokm', htm'⟩, hnem', hbm', hshm'⟩ := back hm' hp'
  have hxx := hx.1
  have hxg := hx.2
  have hxx' : e'.x.WF ∧ e'.x.shape = n.input_shape := he'.x
  rw [hxx] at hxx'
  -- the two gradients in the network `n`
  obtain ⟨n1, n2, a1, a2, a3, a4⟩ := net_round (b := b) hok ht hne hbk he.x.1 he.x.2 he.g.1 he.g.2
  obtain ⟨n1', n2', c1, c2, c3, c4⟩ := net_round (b := b) hok ht hne hbk he.x.1 he.x.2 he'.g.1 he'.g.2
  obtain rfl : n1 = n1' := (Prod.mk.inj (Except.ok.inj (a1.symm.trans c1))).2
  have hgs := hu _ _ a1 a2
  have hg := net_scales (k := k) hok ht hne hbk he.x.1 he.x.2 he.g he'.g
    (related2_of_val he.g.1 he'.g.1 (he'.g.2.trans he.g.2.symm) hxg) a1 a2 c2
    fun i l s s' g h1 h2 h3 h4 => hgs i l s s' g h1
      (by unfold Network.get_intermediate_state; rw [h2]) (by unfold Network.get_intermediate_state; rw [h3]) h4
  -- the networks `m` and `m'`
  obtain ⟨m1, m2, i1, i2, i3, i4⟩ := net_round (b := b) hokm htm hnem hbm he.x.1 (he.x.2.trans hshm.1.symm)
    he.g.1 (he.g.2.trans hshm.2.symm)
  obtain ⟨m1', m2', j1, j2, j3, j4⟩ := net_round (b := b) hokm' htm' hnem' hbm' he.x.1 (he.x.2.trans hshm'.1.symm)
    he'.g.1 (he'.g.2.trans hshm'.2.symm)
  obtain ⟨r1, r2⟩ := rounds_same (b := b) hok ht hokm htm hp hne hbk he.x.1 he.x.2 he.g.1 he.g.2 hshm hbm
    a1 i1 a2 i2
  obtain ⟨r1', r2'⟩ := rounds_same (b := b) hok ht hokm' htm' hp' hne hbk he.x.1 he.x.2 he'.g.1 he'.g.2 hshm' hbm'
    a1 j1 c2 j2
  refine ⟨m1, m2, m1', m2', i1, i2, by rw [hxx]; exact j1, j2, fun c f hc => ?_⟩
  have hc : m2.layers[c]? = some (.fc f) := hc
  have hlen : m2.layers.length = m.layers.length := by
    rw [forall₂_length (backward_effect _ _ _ i2).1, forall₂_length (infer_effect m _ _ i1).1]
  have hclt : c < m.layers.length := hlen ▸ (List.getElem?_eq_some_iff.mp hc).1
  obtain ⟨l2, s, s', gi, gi', k1, k2, k3, k4, k5, k6⟩ := i4 c _ (List.getElem?_eq_getElem hclt)
  obtain rfl := Option.some.inj (hc.symm.trans k1)
  generalize hml : m.layers[c] = ml at k6
  have hmc : m.layers[c]? = some ml := by rw [List.getElem?_eq_getElem hclt, hml]
  have hmlo := hokm.layers _ (List.mem_of_getElem? hmc)
  have hlike : params (AnyLayer.fc f) = params ml := by
    have h2 : m2.layers.map params = m.layers.map params := by
      rw [like_map_params (backward_effect _ _ _ i2).1, like_map_params (infer_effect _ _ _ i1).1]
    obtain ⟨l0, e1, e2⟩ := map_get h2 hc
    rw [hmc] at e1
    obtain rfl := Option.some.inj e1
    exact e2
  cases ml with
  | conv l => cases hlike
  | mp l => cases hlike
  | sm l => cases hlike
  | fc l =>
  obtain ⟨l', d1, d2⟩ := hs c l hmc
  have d1 : m'.layers[c]? = some (.fc l') := d1
  obtain ⟨l2', t, t', hi, hi', q1, q2, q3, q4, q5, q6⟩ := j4 c _ d1
  have hl : l.Ok := hmlo
  have hl' : l'.Ok := hokm'.layers _ (List.mem_of_getElem? d1)
  obtain ⟨_, _, _, f0, e0, hf⟩ := fc_round hl (htm.layers _ (List.mem_of_getElem? hmc)) k6
  obtain rfl := AnyLayer.fc.inj e0
  obtain ⟨_, _, _, f', rfl, hf'⟩ := fc_round hl' (htm'.layers _ (List.mem_of_getElem? d1)) q6
  -- the layer of `n`
  obtain ⟨l0, e1, e2⟩ := map_get hp hmc
  obtain ⟨l0', e1', e2'⟩ := map_get hp' d1
  obtain rfl := Option.some.inj (e1.symm.trans e1')
  have hclt0 : c < n.layers.length := (List.getElem?_eq_some_iff.mp e1).1
  cases l0 with
  | conv l0 => cases e2
  | mp l0 => cases e2
  | sm l0 => cases e2
  | fc l0 =>
  simp only [params, AnyLayer.fc.injEq, FullyConnectedLayer.mk.injEq, true_and] at e2 e2' hlike
  obtain ⟨p1, p2, -⟩ := e2
  obtain ⟨p3, p4, -⟩ := e2'
  obtain ⟨p5, p6, -⟩ := hlike
  rw [r1] at k2
  rw [r1'] at q2
  obtain rfl := Option.some.inj (k2.symm.trans q2)
  rw [r2 _ (by omega)] at k4
  rw [r2' _ (by omega)] at q4
  obtain ⟨t1, t2, g1, g2, g3⟩ := hg (c + 1) hclt0
  obtain rfl := Option.some.inj (g1.symm.trans k4)
  obtain rfl := Option.some.inj (g2.symm.trans q4)
  obtain ⟨w2, v1, v2, v3, v4, _, u2, u3, u4, u5, u6⟩ := a4 c _ e1
  obtain rfl := Option.some.inj (k2.symm.trans u2)
  obtain rfl := Option.some.inj (g1.symm.trans u4)
  have hl0 : l0.Ok := hok.layers _ (List.mem_of_getElem? e1)
  have hgv : ∀ o, Scales k (val t1 o 0 0) (val t2 o 0 0) := fun o =>
    related2_val (by
      have h1 := k6.hg.2
      have h2 := q6.hg.2
      rw [h1, h2]
      change l'.bias.shape = l.bias.shape
      rw [p2, p4]) g3 o 0 0
  have hmask : ∀ o, masked l ⟨s, t1, s, s⟩ o = masked l0 ⟨s, t1, s, s⟩ o ∧
      masked l' ⟨s, t2, s, s⟩ o = masked l0 ⟨s, t2, s, s⟩ o := by
    intro o
    unfold masked preact
    rw [p1, p2, p3, p4]
    exact ⟨rfl, rfl⟩
  have hms : ∀ o, Scales k (masked l0 ⟨s, t1, s, s⟩ o) (masked l0 ⟨s, t2, s, s⟩ o) := fun o => scales_gate (hgv o)
  have hloss := hgs c _ _ _ _ e1 (by unfold Network.get_intermediate_state; rw [u2])
    (by unfold Network.get_intermediate_state; rw [u3]) u4
  have hb := hl.buffers (htm.layers _ (List.mem_of_getElem? hmc))
  have hb' := hl'.buffers (htm'.layers _ (List.mem_of_getElem? d1))
  refine ⟨f', q1, fun o ho => ?_⟩
  have hol : o < l.weights.shape.di.toNat := by rw [← p5]; exact ho
  have hol' : o < l'.weights.shape.di.toNat := by rw [p3, ← p1]; exact hol
  obtain ⟨⟨v, v', x1, x2, x3⟩, x4⟩ := d2 o hol
  rw [get_item_ok hb.2.2.1.1 (by rw [hb.2.2.1.2, hl.rows]; exact col_inside hol)] at x1
  rw [get_item_ok hb'.2.2.1.1 (by rw [hb'.2.2.1.2, hl'.rows]; exact col_inside hol')] at x2
  refine ⟨⟨_, _, (hf o hol).1, (hf' o hol').1, ?_⟩, fun i hi => ?_⟩
  · rw [(hmask o).1, (hmask o).2, Except.ok.inj x1, Except.ok.inj x2]
    exact scales_add x3 (hms o)
  · have hil : i < l.weights.shape.dj.toNat := by rw [← p5]; exact hi
    have hil' : i < l'.weights.shape.dj.toNat := by rw [p3, ← p1]; exact hil
    obtain ⟨w, w', y1, y2, y3⟩ := x4 i hil
    rw [get_item_ok hb.1.1 (by rw [hb.1.2]; exact ⟨hol, hil, by rw [hl.depth]; decide⟩)] at y1
    rw [get_item_ok hb'.1.1 (by rw [hb'.1.2]; exact ⟨hol', hil', by rw [hl'.depth]; decide⟩)] at y2
    refine ⟨_, _, (hf o hol).2 i hil, (hf' o hol').2 i hil', ?_⟩
    rw [(hmask o).1, (hmask o).2, Except.ok.inj y1, Except.ok.inj y2]
    exact scales_add y3 (scales_add scales_zero (scales_mul_left (hms o) fun hf _ =>
      (masked_facts hl0 u6 hloss (by rw [← p1]; exact hol) (by rw [← p1]; exact hil) hf).2))

/-- C125: train two networks with the same parameters on the same inputs, the second with gradients of the loss that
are `2^k` times as large.  If no product that `backward` forms for the first one underflows, all calls succeed and
every weight and bias gradient recorded in the second is exactly `2^k` times the one recorded in the first, where both
are finite, if that was so before. -/
theorem C125_batch (b : Build) (n n' : Net F32) (hn : Trains b n) (hn' : Trains b n')
    (hp : n'.get_layers.map params = n.get_layers.map params) (hne : n.get_layers ≠ [])
    (hbk : ∀ l ∈ n.get_layers, backable l) (k : Nat) (hs : GradientsScale b k n n')
    (es es' : List (Example F32)) (hes : ∀ e ∈ es, e.Fits n) (hes' : ∀ e ∈ es', e.Fits n)
    (hsc : List.Forall₂ (Example.Scaled k) es es')
    (hu : ∀ e ∈ es, ∀ n1 n2, n.infer b e.x = .ok (.ok (), n1) → n1.backward b e.g = .ok (.ok (), n2) →
      ∀ i l s s' g, n.get_layers[i]? = some l → n1.get_intermediate_state i = .ok s →
        n1.get_intermediate_state (i + 1) = .ok s' → n2.intermediate_gradients[i + 1]? = some g →
        Lossless l s s' g) :
    ∃ m m', Batch b n es m ∧ Batch b n' es' m' ∧ GradientsScale b k m m' := by
  suffices H : ∀ (q q' : Net F32), Trains b q → Trains b q' → q.get_layers.map params = n.get_layers.map params →
      q'.get_layers.map params = n.get_layers.map params → GradientsScale b k q q' →
      ∃ m m', Batch b q es m ∧ Batch b q' es' m' ∧ GradientsScale b k m m' from H n n' hn hn' rfl hp hs
  induction hsc with
  | nil => exact fun q q' _ _ _ _ h => ⟨q, q', .done q, .done q', h⟩
  | cons hx _ ih =>
    intro q q' hq hq' hqp hqp' hqs
    obtain ⟨m1, m2, m1', m2', h1, h2, h3, h4, h5⟩ := scale_step hn hq hq' hqp hqp' hne hbk hqs
      (hes _ List.mem_cons_self) (hes' _ List.mem_cons_self) hx (hu _ List.mem_cons_self)
    have keep : ∀ {q m1 m2 : Net F32} {x g : Tensor F32}, q.infer b x = .ok (.ok (), m1) →
        m1.backward b g = .ok (.ok (), m2) → q.get_layers.map params = n.get_layers.map params →
        m2.get_layers.map params = n.get_layers.map params := by
      intro q m1 m2 x g i1 i2 hp
      change m2.layers.map params = _
      rw [like_map_params (backward_effect _ _ _ i2).1, like_map_params (infer_effect _ _ _ i1).1]
      exact hp
    obtain ⟨m, m', d1, d2, d3⟩ := ih (fun e he => hes e (List.mem_cons_of_mem _ he))
      (fun e he => hes' e (List.mem_cons_of_mem _ he)) (fun e he => hu e (List.mem_cons_of_mem _ he)) m2 m2'
      (.backward _ _ _ _ (.infer _ _ _ _ hq h1) (hes _ List.mem_cons_self).g.1 h2)
      (.backward _ _ _ _ (.infer _ _ _ _ hq' h3) (hes' _ List.mem_cons_self).g.1 h4)
      (keep h1 h2 hqp) (keep h3 h4 hqp') h5
    exact ⟨m, m', .step _ _ _ _ _ _ h1 h2 d1, .step _ _ _ _ _ _ h3 h4 d2, d3⟩

/-- C125 for one network whose recorded gradients are zero, as they are after `switch_to_training`. -/
theorem C125_zero (b : Build) (n : Net F32) (hn : Trains b n) (hne : n.get_layers ≠ [])
    (hbk : ∀ l ∈ n.get_layers, backable l) (k : Nat)
    (hz : ∀ (c : Nat) l, n.get_layers[c]? = some (.fc l) → ∀ o, o < l.weights.shape.di.toNat →
      (val l.bias_gradients o 0 0).code = 0 ∧
      ∀ i, i < l.weights.shape.dj.toNat → (val l.weights_gradients o i 0).code = 0)
    (es es' : List (Example F32)) (hes : ∀ e ∈ es, e.Fits n) (hes' : ∀ e ∈ es', e.Fits n)
    (hsc : List.Forall₂ (Example.Scaled k) es es')
    (hu : ∀ e ∈ es, ∀ n1 n2, n.infer b e.x = .ok (.ok (), n1) → n1.backward b e.g = .ok (.ok (), n2) →
      ∀ i l s s' g, n.get_layers[i]? = some l → n1.get_intermediate_state i = .ok s →
        n1.get_intermediate_state (i + 1) = .ok s' → n2.intermediate_gradients[i + 1]? = some g →
        Lossless l s s' g) :
    ∃ m m', Batch b n es m ∧ Batch b n es' m' ∧ GradientsScale b k m m' := by
  refine C125_batch b n n hn hn rfl hne hbk k (fun c l hc => ⟨l, hc, fun o ho => ?_⟩) es es' hes hes' hsc hu
  obtain ⟨w, w'⟩ := fc_grad_inside hn rfl hc hc
  have sc : ∀ {v : F32}, v.code = 0 → Scales k v v := by
    intro v hv _ _
    have : v.toReal = 0 := by rw [toReal_eq, hv, units_zero]; simp
    rw [this, mul_zero]
  refine ⟨⟨_, _, get_item_ok (w o ho).1 (w o ho).2, get_item_ok (w o ho).1 (w o ho).2, sc (hz c l hc o ho).1⟩,
    fun i hi => ⟨_, _, get_item_ok (w' o i ho hi).1 (w' o i ho hi).2, get_item_ok (w' o i ho hi).1 (w' o i ho hi).2,
      sc ((hz c l hc o ho).2 i hi)⟩⟩

/-! ## Examples -/

/-- one round of the network `max(0, x + 1)` -/
theorem exUnit_round (b : Build) (x g : F32) {n : Net F32} {l : FullyConnectedLayer F32} (h1 : Trains b n)
    (h2 : n.get_layers = [.fc l]) (h3 : n.get_input_shape = ⟨1, 1, 1⟩) (h4 : n.get_output_shape = ⟨1, 1, 1⟩)
    (h5 : l.weights = single ⟨0x3f800000⟩) (h6 : l.bias = single ⟨0x3f800000⟩)
    (h8 : l.weights_gradients = single ⟨0⟩) :
    ∃ n0 n1 l1, n.infer b (single x) = .ok (.ok (), n0) ∧ n0.backward b (single g) = .ok (.ok (), n1) ∧
      n1.get_layers = [.fc l1] ∧ n0.intermediate_states[0]? = some (single x) ∧
      n1.intermediate_gradients[1]? = some (single g) ∧
      l1.weights_gradients.get_item b (ix 0 0 0) = .ok (F32.add ⟨0⟩ (F32.add (mk' false 0) (F32.mul (F32.mul
        (if F32.gt (F32.add (F32.add (mk' false 0) (F32.mul ⟨0x3f800000⟩ x)) ⟨0x3f800000⟩) (mk' false 0)
          then ⟨0x3f800000⟩ else mk' false 0) g) x))) := by
  obtain ⟨hok, ht⟩ := trains_ready h1
  obtain ⟨n0, n1, a1, a2, a3, a4⟩ := net_round (b := b) (x := single x) (g := single g) hok ht
    (by change n.get_layers ≠ []; rw [h2]; nofun)
    (fun l hl => by
      change l ∈ n.get_layers at hl
      rw [h2] at hl
      obtain rfl := List.mem_singleton.mp hl
      trivial) (single_wf _) h3.symm (single_wf _) h4.symm
  have e0 : n.layers[0]? = some (.fc l) := by change n.get_layers[0]? = _; rw [h2]; rfl
  obtain ⟨l2, s, s', gi, gi', p1, p2, p3, p4, p5, p6⟩ := a4 0 _ e0
  obtain ⟨_, i1, i2, _⟩ := infer_ok (b := b) hok (by change n.get_layers ≠ []; rw [h2]; nofun)
    (single_wf x) h3.symm
  obtain rfl := (Prod.mk.inj (Except.ok.inj (i1.symm.trans a1))).2
  obtain rfl := Option.some.inj (i2.symm.trans p2)
  have e1 : n.layers.length = 1 := by change n.get_layers.length = 1; rw [h2]; rfl
  rw [e1] at a3
  obtain rfl := Option.some.inj (a3.symm.trans p4)
  obtain ⟨_, _, _, f, rfl, q⟩ := fc_round (hok.layers _ (List.mem_of_getElem? e0))
    (ht.layers _ (List.mem_of_getElem? e0)) p6
  have hl : l.weights.shape = ⟨1, 1, 1⟩ := by rw [h5]; rfl
  have q0 := (q 0 (by rw [hl]; decide)).2 0 (by rw [hl]; decide)
  have hlen : n1.layers.length = 1 := by
    rw [forall₂_length (backward_effect _ _ _ a2).1, forall₂_length (infer_effect n _ _ a1).1, e1]
  refine ⟨_, n1, f, a1, a2, ?_, i2, a3, q0.trans ?_⟩
  · change n1.layers = _
    match n1.layers, hlen, p1 with
    | [y], _, p1 => rw [Option.some.inj p1]
  · have e : masked l ⟨single x, single g, single x, single x⟩ 0 = F32.mul
        (if F32.gt (F32.add (F32.add (mk' false 0) (F32.mul ⟨0x3f800000⟩ x)) ⟨0x3f800000⟩) (mk' false 0)
          then ⟨0x3f800000⟩ else mk' false 0) g := by
      rw [← unit_preact _ _ _ h5 h6]
      rfl
    rw [h8, e]
    rfl

/-- C125: where a product underflows it is false.  In the network `max(0, x + 1)` with the input `1/2`, the gradient
`3 * 2^-149` of the loss gives the weight gradient `2 * 2^-149`, and twice that gradient gives `3 * 2^-149`. -/
theorem C125_underflow (b : Build) : ∃ (n n0 n1 n1' : Net F32) (l l1 l1' : FullyConnectedLayer F32), Trains b n ∧
    n.get_layers = [.fc l] ∧ l.weights_gradients.get_item b (ix 0 0 0) = .ok ⟨0⟩ ∧
    Example.Scaled 1 ⟨single ⟨0x3f000000⟩, single ⟨3⟩⟩ ⟨single ⟨0x3f000000⟩, single ⟨6⟩⟩ ∧
    n.infer b (single ⟨0x3f000000⟩) = .ok (.ok (), n0) ∧
    n0.backward b (single ⟨3⟩) = .ok (.ok (), n1) ∧ n1.get_layers = [.fc l1] ∧
    n0.backward b (single ⟨6⟩) = .ok (.ok (), n1') ∧ n1'.get_layers = [.fc l1'] ∧
    l1.weights_gradients.get_item b (ix 0 0 0) = .ok ⟨2⟩ ∧
    l1'.weights_gradients.get_item b (ix 0 0 0) = .ok ⟨3⟩ ∧ ¬ Scales 1 ⟨2⟩ ⟨3⟩ := by
  obtain ⟨n, l, h1, h2, h3, h4, h5, h6, h7, h8⟩ := exUnit_trains b
  obtain ⟨n0, n1, l1, a1, a2, a3, _, _, a4⟩ := exUnit_round b ⟨0x3f000000⟩ ⟨3⟩ h1 h2 h3 h4 h5 h6 h8
  obtain ⟨n0', n1', l1', c1, c2, c3, _, _, c4⟩ := exUnit_round b ⟨0x3f000000⟩ ⟨6⟩ h1 h2 h3 h4 h5 h6 h8
  obtain rfl : n0 = n0' := (Prod.mk.inj (Except.ok.inj (a1.symm.trans c1))).2
  refine ⟨n, n0, n1, n1', l, l1, l1', h1, h2, by rw [h8]; cases b <;> rfl, ⟨rfl, fun i j k hin => ?_⟩, a1, a2, a3,
    c2, c3, a4.trans (congrArg _ (by decide +kernel)), c4.trans (congrArg _ (by decide +kernel)), fun h => ?_⟩
  · obtain ⟨rfl, rfl, rfl⟩ := single_inside hin
    intro _ _
    change (⟨6⟩ : F32).toReal = 2 ^ 1 * (⟨3⟩ : F32).toReal
    unfold toReal
    rw [show (⟨6⟩ : F32).toInt = 6 by decide, show (⟨3⟩ : F32).toInt = 3 by decide]
    norm_num
  · have := h (by decide) (by decide)
    unfold toReal at this
    rw [show (⟨2⟩ : F32).toInt = 2 by decide, show (⟨3⟩ : F32).toInt = 3 by decide] at this
    norm_num at this

/-- The hypotheses of `C125_zero` hold for the network `max(0, x + 1)`, the input 1 and the gradients 1 and 2. -/
example (b : Build) : ∃ (n : Net F32) (l : FullyConnectedLayer F32), Trains b n ∧ n.get_layers = [.fc l] ∧
    (val l.bias_gradients 0 0 0).code = 0 ∧ (val l.weights_gradients 0 0 0).code = 0 ∧
    (⟨single ⟨0x3f800000⟩, single ⟨0x3f800000⟩⟩ : Example F32).Fits n ∧
    (⟨single ⟨0x3f800000⟩, single ⟨0x40000000⟩⟩ : Example F32).Fits n ∧
    Example.Scaled 1 ⟨single ⟨0x3f800000⟩, single ⟨0x3f800000⟩⟩ ⟨single ⟨0x3f800000⟩, single ⟨0x40000000⟩⟩ ∧
    ∀ n1 n2, n.infer b (single ⟨0x3f800000⟩) = .ok (.ok (), n1) →
      n1.backward b (single ⟨0x3f800000⟩) = .ok (.ok (), n2) →
      ∀ i l s s' g, n.get_layers[i]? = some l → n1.get_intermediate_state i = .ok s →
        n1.get_intermediate_state (i + 1) = .ok s' → n2.intermediate_gradients[i + 1]? = some g →
        Lossless l s s' g := by
  obtain ⟨n, l, h1, h2, h3, h4, h5, h6, h7, h8⟩ := exUnit_trains b
  refine ⟨n, l, h1, h2, by rw [h7]; exact (by decide : (⟨0⟩ : F32).code = 0),
    by rw [h8]; exact (by decide : (⟨0⟩ : F32).code = 0), ⟨⟨single_wf _, h3.symm⟩, ⟨single_wf _, h4.symm⟩⟩,
    ⟨⟨single_wf _, h3.symm⟩, ⟨single_wf _, h4.symm⟩⟩, ⟨rfl, fun i j k hin => ?_⟩, fun n1 n2 i1 i2 i l' s s' g hi hs hs' hg => ?_⟩
  · obtain ⟨rfl, rfl, rfl⟩ := single_inside hin
    intro _ _
    change (⟨0x40000000⟩ : F32).toReal = 2 ^ 1 * (⟨0x3f800000⟩ : F32).toReal
    rw [one_grid.2, two_real]
    norm_num
  · obtain ⟨n0, m1, l1, a1, a2, _, a4, a5, _⟩ :=
      exUnit_round b ⟨0x3f800000⟩ ⟨0x3f800000⟩ h1 h2 h3 h4 h5 h6 h8
    obtain rfl : n1 = n0 := (Prod.mk.inj (Except.ok.inj (i1.symm.trans a1))).2
    obtain rfl : n2 = m1 := (Prod.mk.inj (Except.ok.inj (i2.symm.trans a2))).2
    rw [h2] at hi
    match i, hi with
    | 0, hi =>
      obtain rfl := Option.some.inj hi
      unfold Network.get_intermediate_state at hs
      rw [a4] at hs
      obtain rfl := Except.ok.inj hs
      rw [a5] at hg
      obtain rfl := Option.some.inj hg
      intro o i ho hi _
      rw [h5] at ho hi ⊢
      obtain rfl : o = 0 := Nat.lt_one_iff.mp ho
      obtain rfl : i = 0 := Nat.lt_one_iff.mp hi
      change NoUnderflow ((⟨0x3f800000⟩ : F32).toReal * (⟨0x3f800000⟩ : F32).toReal) ∧
        NoUnderflow ((⟨0x3f800000⟩ : F32).toReal * (⟨0x3f800000⟩ : F32).toReal)
      rw [one_grid.2]
      have : NoUnderflow (1 * 1) := .inl (by norm_num)
      exact ⟨this, this⟩

end Rusty
