import Verif.Lemmas.Rescaling
import Verif.Props.Homogeneous
import Verif.Props.Linear

/-! # C107: networks with rescaled parameters -/

namespace Rusty

open F32Ops Spec Exact

/-- the states of the two networks -/
theorem rescaled_states {b : Build} {n n' : Net ℝ} (hn : NetOk n) (hn' : NetOk n') (hne : n.layers ≠ [])
    {c : Nat → ℝ} (hr : RescaledBy c n.layers n'.layers) {x y : Tensor ℝ} (hx : x.WF) (hy : y.WF)
    (hxs : x.shape = n.input_shape) (h : Scaled (c 0) x y)
    (hfirst : (∃ m, n.layers.head? = some (.mp m)) → ∀ v ∈ x.data, 0 ≤ v) {n1 n1' : Net ℝ}
    (i1 : n.infer b x = .ok (.ok (), n1)) (i2 : n'.infer b y = .ok (.ok (), n1'))
    (hys : y.shape = n'.input_shape) :
    ∀ i, i ≤ n.layers.length → ∃ s t, n1.intermediate_states[i]? = some s ∧
      n1'.intermediate_states[i]? = some t ∧ s.WF ∧ t.WF ∧ Scaled (c i) s t ∧
      ((i = 0 → ∃ m, n.layers.head? = some (.mp m)) → ∀ v ∈ s.data, 0 ≤ v) := by
  obtain ⟨hpos, hlen, hr⟩ := hr
  have hne' : n'.layers ≠ [] := fun e => hne (by
    rw [e] at hlen
    exact List.length_eq_zero_iff.mp hlen.symm)
  obtain ⟨m1, p1, p2, p3⟩ := infer_ok (b := b) hn hne hx hxs
  obtain ⟨m2, q1, q2, q3⟩ := infer_ok (b := b) hn' hne' hy hys
  obtain rfl : n1 = m1 := by rw [i1] at p1; cases p1; rfl
  obtain rfl : n1' = m2 := by rw [i2] at q1; cases q1; rfl
  intro i
  induction i with
  | zero => exact fun _ => ⟨x, y, p2, q2, hx, hy, h, fun h0 => hfirst (h0 rfl)⟩
  | succ i ih =>
    intro hi
    obtain ⟨s, t, e1, e2, e3, e4, e5, e6⟩ := ih (by omega)
    have hl : n.layers[i]? = some n.layers[i] := List.getElem?_eq_getElem hi
    have hl' : n'.layers[i]? = some (n'.layers[i]'(by omega)) := List.getElem?_eq_getElem (by omega)
    have hres := hr i _ _ hl hl'
    have ok := hn.layers _ (List.mem_of_getElem? hl)
    have ok' := hn'.layers _ (List.mem_of_getElem? hl')
    obtain ⟨s0, s', f1, f2, f3, _⟩ := p3 i _ hl
    obtain ⟨t0, t', g1, g2, g3, _⟩ := q3 i _ hl'
    obtain rfl : s = s0 := by rw [e1] at f1; exact Option.some.inj f1
    obtain rfl : t = t0 := by rw [e2] at g1; exact Option.some.inj g1
    have hmp : (∃ m, n.layers[i] = .mp m) → ∀ v ∈ s.data, 0 ≤ v := by
      rintro ⟨m, hm⟩
      refine e6 fun hz => ⟨m, ?_⟩
      subst hz
      rw [← hm, List.head?_eq_getElem?]
      exact hl
    have hsh := (rescaled_shapes ok ok' hres).2
    refine ⟨s', t', f2, g2, f3.1, g3.1, ⟨g3.2.1.trans (hsh.trans f3.2.1.symm), fun a d k hin => ?_⟩,
      fun _ v hv => ?_⟩
    · rw [f3.2.1] at hin
      rw [applies_val f3 hin, applies_val g3 (by rw [hsh]; exact hin)]
      exact layerAt_rescaled (hpos _) (hpos _) ok ok' hres e3 e4 e5 hmp a d k
    · rw [data_indices f3.1] at hv
      obtain ⟨p, hp, rfl⟩ := List.mem_map.mp hv
      rw [applies_val f3 (by rw [← f3.2.1]; exact mem_indices.mp hp)]
      exact layerAt_nonneg' hres hmp _ _ _

theorem rescaled_input {n n' : Net ℝ} (hn : NetOk n) (hn' : NetOk n') (hne : n.layers ≠ []) {c : Nat → ℝ}
    (hr : RescaledBy c n.layers n'.layers) : n'.input_shape = n.input_shape ∧ n'.output_shape = n.output_shape := by
  obtain ⟨_, hlen, hr⟩ := hr
  have h0 := List.length_pos_iff.mpr hne
  have a1 : n.layers[0]? = some n.layers[0] := List.getElem?_eq_getElem h0
  have a2 : n'.layers[0]? = some (n'.layers[0]'(by omega)) := List.getElem?_eq_getElem (by omega)
  have a3 : n.layers[n.layers.length - 1]? = some n.layers[n.layers.length - 1] :=
    List.getElem?_eq_getElem (by omega)
  have a4 : n'.layers[n.layers.length - 1]? = some (n'.layers[n.layers.length - 1]'(by omega)) :=
    List.getElem?_eq_getElem (by omega)
  have f1 : n.input_shape = _ := hn.chain.first _ (by rw [List.head?_eq_getElem?]; exact a1)
  have f2 : n'.input_shape = _ := hn'.chain.first _ (by rw [List.head?_eq_getElem?]; exact a2)
  have f3 : n.output_shape = _ := hn.chain.last _ (by rw [List.getLast?_eq_getElem?]; exact a3)
  have f4 : n'.output_shape = _ := hn'.chain.last _ (by rw [List.getLast?_eq_getElem?, hlen]; exact a4)
  rw [f1, f2, f3, f4]
  exact ⟨(rescaled_shapes (hn.layers _ (List.getElem_mem _)) (hn'.layers _ (List.getElem_mem _)) (hr _ _ _ a1 a2)).1,
    (rescaled_shapes (hn.layers _ (List.getElem_mem _)) (hn'.layers _ (List.getElem_mem _)) (hr _ _ _ a3 a4)).2⟩

/-- C107: let the parameters of `n'` be those of `n`, rescaled with any positive factors `c i` for the states
between the layers.  Then for `c 0` times the input all states, and the output, are those of `n` times
these factors.  If the first and the last factor are 1, both networks compute the same function. -/
theorem C107_infer (b : Build) (n n' : Net ℝ) (hn : Built b n) (hn' : Built b n') (hne : n.get_layers ≠ [])
    (c : Nat → ℝ) (hr : RescaledBy c n.get_layers n'.get_layers) (x y : Tensor ℝ) (hx : x.WF) (hy : y.WF)
    (hxs : x.shape = n.get_input_shape) (h : Scaled (c 0) x y)
    (hfirst : (∃ m, n.get_layers.head? = some (.mp m)) → ∀ v ∈ x.data, 0 ≤ v) :
    ∃ n1 n1' u v, n.infer b x = .ok (.ok (), n1) ∧ n'.infer b y = .ok (.ok (), n1') ∧
      n1.get_output = .ok u ∧ n1'.get_output = .ok v ∧ Scaled (c n.get_layers.length) u v ∧
      (c n.get_layers.length = 1 → v = u) ∧
      ∀ i, i ≤ n.get_layers.length → ∃ s t, n1.get_intermediate_state i = .ok s ∧
        n1'.get_intermediate_state i = .ok t ∧ Scaled (c i) s t := by
  have hok := built_netOk hn
  have hok' := built_netOk hn'
  have hne' : n'.get_layers ≠ [] := fun e => hne (by
    have := hr.2.1
    rw [e] at this
    exact List.length_eq_zero_iff.mp this.symm)
  have hys : y.shape = n'.get_input_shape := (h.1.trans hxs).trans (rescaled_input hok hok' hne hr).1.symm
  obtain ⟨n1, c1, _, _, c4⟩ := C36_infer b n hn hne x hx hxs
  obtain ⟨n1', d1, _, _, d4⟩ := C36_infer b n' hn' hne' y hy hys
  have key := rescaled_states hok hok' hne hr hx hy hxs h hfirst c1 d1 hys
  have get : ∀ i, i ≤ n.get_layers.length → ∃ s t, n1.get_intermediate_state i = .ok s ∧
      n1'.get_intermediate_state i = .ok t ∧ s.WF ∧ t.WF ∧ Scaled (c i) s t := fun i hi => by
    obtain ⟨s, t, e1, e2, e3, e4, e5, _⟩ := key i hi
    refine ⟨s, t, ?_, ?_, e3, e4, e5⟩
    · unfold Network.get_intermediate_state; rw [e1]
    · unfold Network.get_intermediate_state; rw [e2]
  obtain ⟨u, v, g1, g2, g3, g4, g5⟩ := get _ (Nat.le_refl _)
  have hlen : n'.get_layers.length = n.get_layers.length := hr.2.1
  refine ⟨n1, n1', u, v, c1, d1, c4.trans g1, d4.trans (by rw [hlen]; exact g2), g5,
    fun e => scaled_one g3 g4 (by rw [← e]; exact g5), fun i hi => ?_⟩
  obtain ⟨s, t, e1, e2, _, _, e3⟩ := get i hi
  exact ⟨s, t, e1, e2, e3⟩

/-- C107, training: after `infer` and `backward` on both networks, with the last gradient divided by the last
factor, the gradients that the fully connected layers collect are scaled the other way: those of the
weights by `c q / c (q + 1)`, those of the biases by `1 / c (q + 1)`. -/
theorem C107_training (b : Build) (n n' : Net ℝ) (hn : Trains b n) (hn' : Trains b n') (hne : n.get_layers ≠ [])
    (hbk : ∀ l ∈ n.get_layers, backable l) (c : Nat → ℝ) (hr : RescaledBy c n.get_layers n'.get_layers)
    (x y : Tensor ℝ) (hx : x.WF) (hy : y.WF) (hxs : x.shape = n.get_input_shape) (h : Scaled (c 0) x y)
    (hfirst : (∃ m, n.get_layers.head? = some (.mp m)) → ∀ v ∈ x.data, 0 ≤ v)
    (g f : Tensor ℝ) (hg : g.WF) (hf : f.WF) (hgs : g.shape = n.get_output_shape)
    (hgf : Scaled (1 / c n.get_layers.length) g f) :
    ∃ n1 n1' n2 n2', n.infer b x = .ok (.ok (), n1) ∧ n'.infer b y = .ok (.ok (), n1') ∧
      n1.backward b g = .ok (.ok (), n2) ∧ n1'.backward b f = .ok (.ok (), n2') ∧
      ∀ (q : Nat) l l', n.get_layers[q]? = some (.fc l) → n'.get_layers[q]? = some (.fc l') →
        ∃ l2 l2', n2.get_layers[q]? = some (.fc l2) ∧ n2'.get_layers[q]? = some (.fc l2') ∧
        ∀ o, o < l.weights.shape.di.toNat →
          (∃ v v', l2.bias_gradients.get_item b (ix o 0 0) = .ok v ∧
            l2'.bias_gradients.get_item b (ix o 0 0) = .ok v' ∧
            v' - val l'.bias_gradients o 0 0 = 1 / c (q + 1) * (v - val l.bias_gradients o 0 0)) ∧
          ∀ i, i < l.weights.shape.dj.toNat → ∃ v v', l2.weights_gradients.get_item b (ix o i 0) = .ok v ∧
            l2'.weights_gradients.get_item b (ix o i 0) = .ok v' ∧
            v' - val l'.weights_gradients o i 0 =
              c q / c (q + 1) * (v - val l.weights_gradients o i 0) := by
  obtain ⟨hok, ht⟩ := trains_ready hn
  obtain ⟨hok', ht'⟩ := trains_ready hn'
  have hlen : n'.layers.length = n.layers.length := hr.2.1
  have hne' : n'.layers ≠ [] := fun e => hne (by
    rw [e] at hlen
    exact List.length_eq_zero_iff.mp hlen.symm)
  have hshapes := rescaled_input hok hok' hne hr
  have hys : y.shape = n'.input_shape := (h.1.trans hxs).trans hshapes.1.symm
  have hfs : f.shape = n'.output_shape := (hgf.1.trans hgs).trans hshapes.2.symm
  have hl' : ∀ (i : Nat) l, n.layers[i]? = some l → ∃ l', n'.layers[i]? = some l' ∧
      Rescaled (c i) (c (i + 1)) l l' := by
    intro i l hi
    have hlt := (List.getElem?_eq_some_iff.mp hi).1
    have e : n'.layers[i]? = some (n'.layers[i]'(by omega)) := List.getElem?_eq_getElem (by omega)
    exact ⟨_, e, hr.2.2 i _ _ hi e⟩
  have hbk' : ∀ l' ∈ n'.layers, backable l' := by
    intro l' hm
    obtain ⟨i, hi, rfl⟩ := List.mem_iff_getElem.mp hm
    have e : n.layers[i]? = some (n.layers[i]'(by omega)) := List.getElem?_eq_getElem (by omega)
    exact rescaled_backable (hr.2.2 i _ _ e (List.getElem?_eq_getElem hi)) (hbk _ (List.mem_of_getElem? e))
  obtain ⟨n1, n2, a1, a2, a3, a4⟩ := net_round (b := b) hok ht hne hbk hx hxs hg hgs
  obtain ⟨n1', n2', c1, c2, c3, c4⟩ := net_round (b := b) hok' ht' hne' hbk' hy hys hf hfs
  have key := rescaled_states hok hok' hne hr hx hy hxs h hfirst a1 c1 hys
  -- the layers of both networks, side by side
  have both : ∀ (i : Nat) l, n.layers[i]? = some l → ∃ l' l2 l2' s s' t t' gi gi' fi fi',
      n'.layers[i]? = some l' ∧ Rescaled (c i) (c (i + 1)) l l' ∧
      n2.layers[i]? = some l2 ∧ n2'.layers[i]? = some l2' ∧
      n2.intermediate_gradients[i + 1]? = some gi ∧ n2.intermediate_gradients[i]? = some gi' ∧
      n2'.intermediate_gradients[i + 1]? = some fi ∧ n2'.intermediate_gradients[i]? = some fi' ∧
      LayerRound b l l2 s s' gi gi' ∧ LayerRound b l' l2' t t' fi fi' ∧ Scaled (c i) s t ∧
      Scaled (c (i + 1)) s' t' ∧ ((∃ m, l = .mp m) → ∀ v ∈ s.data, 0 ≤ v) := by
    intro i l hi
    have hlt := (List.getElem?_eq_some_iff.mp hi).1
    obtain ⟨l', e1, e2⟩ := hl' i l hi
    obtain ⟨l2, s, s', gi, gi', b1, b2, b3, b4, b5, b6⟩ := a4 i l hi
    obtain ⟨l2', t, t', fi, fi', d1, d2, d3, d4, d5, d6⟩ := c4 i l' e1
    obtain ⟨s0, t0, k1, k2, _, _, k3, k4⟩ := key i (by omega)
    obtain ⟨s1, t1, m1, m2, _, _, m3, _⟩ := key (i + 1) (by omega)
    obtain rfl : s = s0 := by rw [b2] at k1; exact Option.some.inj k1
    obtain rfl : t = t0 := by rw [d2] at k2; exact Option.some.inj k2
    obtain rfl : s' = s1 := by rw [b3] at m1; exact Option.some.inj m1
    obtain rfl : t' = t1 := by rw [d3] at m2; exact Option.some.inj m2
    refine ⟨l', l2, l2', s, s', t, t', gi, gi', fi, fi', e1, e2, b1, d1, b4, b5, d4, d5, b6, d6, k3, m3, ?_⟩
    rintro ⟨m, rfl⟩
    refine k4 fun hz => ⟨m, ?_⟩
    subst hz
    rw [List.head?_eq_getElem?]
    exact hi
  have grads : ∀ e i, i + e = n.layers.length → ∃ gi fi, n2.intermediate_gradients[i]? = some gi ∧
      n2'.intermediate_gradients[i]? = some fi ∧ Multiple (1 / c i) gi fi := by
    intro e
    induction e with
    | zero =>
      intro i hi
      obtain rfl : i = n.layers.length := by omega
      exact ⟨g, f, a3, by rw [← hlen]; exact c3, multiple_of_scaled hg hf hgf⟩
    | succ e ih =>
      intro i hi
      have hi' : n.layers[i]? = some (n.layers[i]'(by omega)) := List.getElem?_eq_getElem (by omega)
      obtain ⟨l', l2, l2', s, s', t, t', gi, gi', fi, fi', e1, e2, e3, e4, e5, e6, e7, e8, e9, e10, e11, e12, e13⟩ :=
        both i _ hi'
      obtain ⟨g0, f0, k1, k2, k3⟩ := ih (i + 1) (by omega)
      obtain rfl : gi = g0 := by rw [e5] at k1; exact Option.some.inj k1
      obtain rfl : fi = f0 := by rw [e7] at k2; exact Option.some.inj k2
      have ml := List.mem_of_getElem? hi'
      have ml' := List.mem_of_getElem? e1
      exact ⟨gi', fi', e6, e8, round_rescaled (hr.1 _) (hr.1 _) (hok.layers _ ml) (hok'.layers _ ml') e2
        (hbk _ ml) (ht.layers _ ml) (ht'.layers _ ml') e9 e10 e11 e12 e13 k3⟩
  refine ⟨n1, n1', n2, n2', a1, c1, a2, c2, fun q l l' hq hq' => ?_⟩
  have hq : n.layers[q]? = some (.fc l) := hq
  have hq' : n'.layers[q]? = some (.fc l') := hq'
  have hlt := (List.getElem?_eq_some_iff.mp hq).1
  obtain ⟨l0, l2, l2', s, s', t, t', gi, gi', fi, fi', e1, e2, e3, e4, e5, e6, e7, e8, e9, e10, e11, e12, e13⟩ :=
    both q _ hq
  obtain rfl : AnyLayer.fc l' = l0 := by rw [hq'] at e1; exact Option.some.inj e1
  obtain ⟨g0, f0, k1, k2, k3⟩ := grads (n.layers.length - (q + 1)) (q + 1) (by omega)
  obtain rfl : gi = g0 := by rw [e5] at k1; exact Option.some.inj k1
  obtain rfl : fi = f0 := by rw [e7] at k2; exact Option.some.inj k2
  have okl : l.Ok := hok.layers _ (List.mem_of_getElem? hq)
  have okl' : l'.Ok := hok'.layers _ (List.mem_of_getElem? hq')
  obtain ⟨_, _, _, u, rfl, hu⟩ := fc_round okl (ht.layers _ (List.mem_of_getElem? hq)) e9
  obtain ⟨_, _, _, u', rfl, hu'⟩ := fc_round okl' (ht'.layers _ (List.mem_of_getElem? hq')) e10
  have hws : l'.weights.shape = l.weights.shape := e2.1.1
  have hsh := rescaled_shapes (hok.layers _ (List.mem_of_getElem? hq)) (hok'.layers _ (List.mem_of_getElem? hq')) e2
  have hgv : ∀ o, val fi o 0 0 = 1 / c (q + 1) * val gi o 0 0 := fun o =>
    multiple_val (e10.hg.2.trans (hsh.2.trans e9.hg.2.symm)) k3 o 0 0
  have hmk := masked_rescaled (hr.1 q) (hr.1 (q + 1)) okl okl' e2 e9.hx.1 e10.hx.1 e11 hgv
  refine ⟨u, u', e3, e4, fun o ho => ?_⟩
  obtain ⟨w1, w2⟩ := hu o ho
  obtain ⟨z1, z2⟩ := hu' o (by rw [hws]; exact ho)
  refine ⟨⟨_, _, w1, z1, ?_⟩, fun i hi => ⟨_, _, w2 i hi, z2 i (by rw [hws]; exact hi), ?_⟩⟩
  · rw [hmk]
    simp only [real_add]
    ring
  · have hc := hr.1 (q + 1)
    rw [hmk, scaled_val e9.hx.1 e10.hx.1 e11]
    simp only [real_add, real_mul, sum_real, List.sum_cons, List.sum_nil]
    field_simp
    ring

/-! ## Example -/

/-- the tensor with the single entry `v` -/
def unitT (v : ℝ) : Tensor ℝ := ⟨⟨1, 1, 1⟩, ⟨1, 1, 1⟩, [v]⟩

theorem unitT_wf (v : ℝ) : (unitT v).WF := ⟨by change TensorShape.Fits ⟨1, 1, 1⟩; decide, rfl, rfl, rfl, rfl⟩

theorem unitT_scaled {c v w : ℝ} (h : w = c * v) : Scaled c (unitT v) (unitT w) := by
  refine ⟨rfl, fun i j k hin => ?_⟩
  obtain ⟨hi, hj, hk⟩ : i < 1 ∧ j < 1 ∧ k < 1 := hin
  obtain rfl : i = 0 := by omega
  obtain rfl : j = 0 := by omega
  obtain rfl : k = 0 := by omega
  exact h

/-- the layer `max(0, w * x + v)` -/
def exOneR (w v : ℝ) : FullyConnectedLayer ℝ :=
  ⟨unitT w, unitT 0, unitT 0, unitT v, unitT 0, unitT 0, "u", .Training⟩

theorem exOneR_ok (w v : ℝ) : (exOneR w v).Ok :=
  ⟨unitT_wf w, unitT_wf v, rfl, rfl, fun _ => ⟨⟨unitT_wf 0, rfl⟩, ⟨unitT_wf 0, rfl⟩, ⟨unitT_wf 0, rfl⟩,
    ⟨unitT_wf 0, rfl⟩⟩⟩

theorem exOneR_trains (b : Build) (w v w' v' : ℝ) : ∃ n : Net ℝ, Trains b n ∧
    n.get_layers = [.fc (exOneR w v), .fc (exOneR w' v')] ∧ n.get_input_shape = ⟨1, 1, 1⟩ ∧
    n.get_output_shape = ⟨1, 1, 1⟩ := by
  cases b <;> exact ⟨_, .add_layer _ (.fc (exOneR w' v')) _ _
    (.add_layer _ (.fc (exOneR w v)) _ _ .new (exOneR_ok w v) rfl) (exOneR_ok w' v') rfl, rfl, rfl, rfl⟩

/-- The hypotheses of C107 hold for `max(0, 3 max(0, 2 x + 1) + 1)` and `max(0, 3/2 max(0, 4 x + 2) + 1)`. -/
example (b : Build) : ∃ (n n' : Net ℝ) (c : Nat → ℝ), Trains b n ∧ Trains b n' ∧
    n.get_layers = [.fc (exOneR 2 1), .fc (exOneR 3 1)] ∧ n'.get_layers = [.fc (exOneR 4 2), .fc (exOneR (3 / 2) 1)] ∧
    RescaledBy c n.get_layers n'.get_layers ∧ (∀ l ∈ n.get_layers, backable l) ∧ c 0 = 1 ∧
    c n.get_layers.length = 1 ∧ (unitT 5).shape = n.get_input_shape ∧ (unitT 1).shape = n.get_output_shape ∧
    Scaled (c 0) (unitT 5) (unitT 5) ∧ Scaled (1 / c n.get_layers.length) (unitT 1) (unitT 1) := by
  obtain ⟨n, h1, h2, h3, h4⟩ := exOneR_trains b 2 1 3 1
  obtain ⟨n', g1, g2, _, _⟩ := exOneR_trains b 4 2 (3 / 2) 1
  refine ⟨n, n', fun i => if i = 1 then 2 else 1, h1, g1, h2, g2, ⟨fun i => ?_, by rw [h2, g2]; rfl, ?_⟩, ?_, by simp,
    by rw [h2]; simp, h3.symm, h4.symm, unitT_scaled (by simp), unitT_scaled (by rw [h2]; simp)⟩
  · dsimp only
    split <;> norm_num
  · rw [h2, g2]
    intro i l l' e e'
    rcases i with _ | _ | i
    · obtain rfl := Option.some.inj e
      obtain rfl := Option.some.inj e'
      exact ⟨unitT_scaled (by norm_num), unitT_scaled (by norm_num)⟩
    · obtain rfl := Option.some.inj e
      obtain rfl := Option.some.inj e'
      exact ⟨unitT_scaled (by norm_num), unitT_scaled (by norm_num)⟩
    · cases e
  · rw [h2]
    intro l hl
    simp only [List.mem_cons, List.not_mem_nil, or_false] at hl
    rcases hl with rfl | rfl <;> trivial

end Rusty
