import Verif.Lemmas.NaNParameter
import Verif.Props.DeadUnits
import Verif.Props.NaNInput
import Verif.Props.Pruning

/-! # C146: NaN among the parameters -/

namespace Rusty

open F32Ops Spec F32

variable [Libm]

/-- C146: a unit with NaN among its weights or as its bias gives +0 for every input, in both run modes. -/
theorem C146_unit (b : Build) (n : Net F32) (hn : Built b n) (x : Tensor F32) (hx : x.WF)
    (hxs : x.shape = n.get_input_shape) (c : Nat) (l : FullyConnectedLayer F32) (hc : n.get_layers[c]? = some (.fc l)) :
    ∃ n' s', n.infer b x = .ok (.ok (), n') ∧ n'.get_intermediate_state (c + 1) = .ok s' ∧
      ∀ o, o < l.weights.shape.di.toNat → NaNUnit l o → s'.get_item b (ix o 0 0) = .ok ⟨0⟩ := by
  have hne : n.get_layers ≠ [] := List.ne_nil_of_mem (List.mem_of_getElem? hc)
  obtain ⟨n', h1, _, h3, _⟩ := C36_infer b n hn hne x hx hxs
  obtain ⟨s, s', e1, e2, e3⟩ := h3 c _ hc
  refine ⟨n', s', h1, e2, fun o ho hnan => ?_⟩
  have hl : l.Ok := (built_netOk hn).layers _ (List.mem_of_getElem? hc)
  rw [e3.2.2 o 0 0 (by
    change l.bias.shape.Inside o 0 0
    rw [hl.rows]
    exact ⟨ho, Nat.one_pos, Nat.one_pos⟩)]
  exact congrArg _ (act_nan _ (summed_preact _ _ _) (nan_unit hnan s))

/-- C146: a channel of a convolutional layer whose kernel contains NaN, or whose bias is NaN, is +0 everywhere. -/
theorem C146_channel (b : Build) (n : Net F32) (hn : Built b n) (x : Tensor F32) (hx : x.WF)
    (hxs : x.shape = n.get_input_shape) (c : Nat) (l : ConvolutionalLayer F32)
    (hc : n.get_layers[c]? = some (.conv l)) :
    ∃ n' s', n.infer b x = .ok (.ok (), n') ∧ n'.get_intermediate_state (c + 1) = .ok s' ∧
      ∀ i j k, l.output_shape.Inside i j k → NaNChannel l k → s'.get_item b (ix i j k) = .ok ⟨0⟩ := by
  have hne : n.get_layers ≠ [] := List.ne_nil_of_mem (List.mem_of_getElem? hc)
  obtain ⟨n', h1, _, h3, _⟩ := C36_infer b n hn hne x hx hxs
  obtain ⟨s, s', e1, e2, e3⟩ := h3 c _ hc
  refine ⟨n', s', h1, e2, fun i j k hin hnan => ?_⟩
  rw [e3.2.2 i j k hin]
  exact congrArg _ (act_void _ (summed_convPre _ _ _ _ _) (nan_channel hnan s i j))

/-- C146: NaN in a unit is the same as zeros.  If two networks differ in one fully connected layer only, and each unit of
this layer is the same in both or has NaN in one and only zeros in the other, then the networks give the same outputs,
bit for bit, for all inputs. -/
theorem C146_zeros (b : Build) (n n' : Net F32) (hn : Built b n) (hn' : Built b n') (c : Nat)
    (l l' : FullyConnectedLayer F32) (hc : n.get_layers[c]? = some (.fc l)) (hc' : n'.get_layers[c]? = some (.fc l'))
    (hrest : ∀ q, q ≠ c → n'.get_layers[q]? = n.get_layers[q]?) (hs : l'.weights.shape = l.weights.shape)
    (hu : ∀ o, o < l.weights.shape.di.toNat → EqualUnit l l' o ∨ NaNUnit l o ∧ ZeroUnit l' o)
    (x : Tensor F32) (hx : x.WF) (hxs : x.shape = n.get_input_shape) (hxs' : x.shape = n'.get_input_shape) :
    ∃ n1 n2 y, n.infer b x = .ok (.ok (), n1) ∧ n'.infer b x = .ok (.ok (), n2) ∧ n1.get_output = .ok y ∧
      n2.get_output = .ok y := by
  have hne : n.get_layers ≠ [] := List.ne_nil_of_mem (List.mem_of_getElem? hc)
  have hne' : n'.get_layers ≠ [] := List.ne_nil_of_mem (List.mem_of_getElem? hc')
  obtain ⟨n1, a1, a2, a3, a4⟩ := C36_infer b n hn hne x hx hxs
  obtain ⟨n2, c1, c2, c3, c4⟩ := C36_infer b n' hn' hne' x hx hxs'
  have hl : l.Ok := (built_netOk hn).layers _ (List.mem_of_getElem? hc)
  have hl' : l'.Ok := (built_netOk hn').layers _ (List.mem_of_getElem? hc')
  have hlen : n'.get_layers.length = n.get_layers.length := by
    have hcl := (List.getElem?_eq_some_iff.mp hc).1
    have hcl' := (List.getElem?_eq_some_iff.mp hc').1
    rcases Nat.lt_trichotomy n'.get_layers.length n.get_layers.length with h | h | h
    · have := hrest n'.get_layers.length (by omega)
      rw [List.getElem?_eq_none le_rfl, List.getElem?_eq_getElem h] at this
      cases this
    · exact h
    · have := hrest n.get_layers.length (by omega)
      rw [List.getElem?_eq_none (l := n.get_layers) le_rfl, List.getElem?_eq_getElem h] at this
      cases this
  have same : ∀ q, q ≤ n.get_layers.length → ∃ s, n1.get_intermediate_state q = .ok s ∧
      n2.get_intermediate_state q = .ok s := by
    intro q
    induction q with
    | zero => exact fun _ => ⟨x, a2, c2⟩
    | succ q ih =>
      intro hq
      obtain ⟨s, g1, g2⟩ := ih (by omega)
      by_cases hqc : q = c
      · subst hqc
        obtain ⟨u, u', e1, e2, e3⟩ := a3 q _ hc
        obtain ⟨t, t', f1, f2, f3⟩ := c3 q _ hc'
        obtain rfl := Except.ok.inj (g1.symm.trans e1)
        obtain rfl := Except.ok.inj (g2.symm.trans f1)
        have hout : (AnyLayer.fc l').get_output_shape = (AnyLayer.fc l).get_output_shape := by
          change l'.bias.shape = l.bias.shape
          rw [hl.rows, hl'.rows, hs]
        refine ⟨u', e2, f2.trans (congrArg _ (tensor_ext f3.1 e3.1 (f3.2.1.trans (hout.trans e3.2.1.symm))
          fun o j k hin => ?_))⟩
        rw [f3.2.1] at hin
        rw [applies_val f3 hin, applies_val e3 (by rw [← hout]; exact hin)]
        have ho : o < l.weights.shape.di.toNat := by
          have hin : l'.bias.shape.Inside o j k := hin
          rw [hl'.rows, hs] at hin
          exact hin.1
        simp only [layerAt]
        rcases hu o ho with h | ⟨h, h'⟩
        · rw [act_relu _ (summed_preact _ _ _), act_relu _ (summed_preact _ _ _), same_unit hs h]
        · rw [act_nan _ (summed_preact _ _ _) (nan_unit h s), act_void _ (summed_preact _ _ _) (zero_unit h' s)]
      · have hm := List.getElem?_eq_getElem (l := n.get_layers) (i := q) (by omega)
        obtain ⟨u, u', e1, e2, e3⟩ := a3 q _ hm
        obtain ⟨t, t', f1, f2, f3⟩ := c3 q _ ((hrest q hqc).trans hm)
        obtain rfl := Except.ok.inj (g1.symm.trans e1)
        obtain rfl := Except.ok.inj (g2.symm.trans f1)
        refine ⟨u', e2, f2.trans (congrArg _ (tensor_ext f3.1 e3.1 (f3.2.1.trans e3.2.1.symm) fun a c d hin => ?_))⟩
        rw [f3.2.1] at hin
        rw [applies_val f3 hin, applies_val e3 hin]
  obtain ⟨y, y1, y2⟩ := same _ le_rfl
  rw [hlen] at c4
  exact ⟨n1, n2, y, a1, c1, a4.trans y1, c4.trans y2⟩

/-- C146: such a unit never learns.  For every input and gradient, `backward` leaves the gradients of its weights and its
bias as they are, or makes them NaN. -/
theorem C146_training (b : Build) (n : Net F32) (hn : Trains b n) (hbk : ∀ l ∈ n.get_layers, backable l)
    (x : Tensor F32) (hx : x.WF) (hxs : x.shape = n.get_input_shape)
    (g : Tensor F32) (hg : g.WF ∧ g.shape = n.get_output_shape) (c : Nat) (l : FullyConnectedLayer F32)
    (hc : n.get_layers[c]? = some (.fc l)) (o : Nat) (ho : o < l.weights.shape.di.toNat) (hnan : NaNUnit l o) :
    ∃ n0 n1 l1, n.infer b x = .ok (.ok (), n0) ∧ n0.backward b g = .ok (.ok (), n1) ∧
      n1.get_layers[c]? = some (.fc l1) ∧ UnitGradients b SameOrNaN l l1 o := by
  have hne : n.layers ≠ [] := List.ne_nil_of_mem (List.mem_of_getElem? hc)
  obtain ⟨n0, h1, _, h3, _⟩ := C36_infer b n (trains_built hn) hne x hx hxs
  obtain ⟨s, s', e1, e2, e3⟩ := h3 c _ hc
  have hl : l.Ok := (built_netOk (trains_built hn)).layers _ (List.mem_of_getElem? hc)
  obtain ⟨n1, l1, h4, h5, h6, _⟩ := C144_unit b n hn hbk x hx hxs g hg n0 h1 c l hc o ho ⟨s', e2, by
    rw [applies_val e3 (by
      change l.bias.shape.Inside o 0 0
      rw [hl.rows]
      exact ⟨ho, Nat.one_pos, Nat.one_pos⟩)]
    simp only [layerAt]
    rw [act_nan _ (summed_preact _ _ _) (nan_unit hnan s)]
    decide⟩
  exact ⟨n0, n1, l1, h1, h4, h5, h6⟩

/-- C146: NaN spreads towards the input.  A NaN weight that reads entry `i` of the input of its layer makes every
`backward` record NaN for all weights and the bias of unit `i` of the layer before and, if all layers up to here are
fully connected, for all weights and biases of all earlier layers. -/
theorem C146_spread (b : Build) (n : Net F32) (hn : Trains b n) (hbk : ∀ l ∈ n.get_layers, backable l)
    (x : Tensor F32) (hx : x.WF) (hxs : x.shape = n.get_input_shape)
    (g : Tensor F32) (hg : g.WF ∧ g.shape = n.get_output_shape) (c : Nat) (l : FullyConnectedLayer F32)
    (hc : n.get_layers[c + 1]? = some (.fc l)) (o i : Nat) (ho : o < l.weights.shape.di.toNat)
    (hi : i < l.weights.shape.dj.toNat) (hnan : (val l.weights o i 0).isNaN = true) :
    ∃ n0 n1, n.infer b x = .ok (.ok (), n0) ∧ n0.backward b g = .ok (.ok (), n1) ∧
      (∀ l0, n.get_layers[c]? = some (.fc l0) → ∃ l1, n1.get_layers[c]? = some (.fc l1) ∧ NaNGradients b l1 i) ∧
      ((∀ q ≤ c, ∃ l0, n.get_layers[q]? = some (.fc l0) ∧ 0 < l0.weights.shape.dj.toNat) →
        ∀ q < c, ∃ l1, n1.get_layers[q]? = some (.fc l1) ∧
          ∀ o, o < l1.weights.shape.di.toNat → NaNGradients b l1 o) := by
  obtain ⟨hok, ht⟩ := trains_ready hn
  have hne : n.layers ≠ [] := List.ne_nil_of_mem (List.mem_of_getElem? hc)
  obtain ⟨n0, n1, h1, h2, _, h3⟩ := net_round (b := b) hok ht hne hbk hx hxs hg.1 hg.2
  have hp : n1.layers.map params = n.layers.map params := by
    rw [like_map_params (backward_effect _ _ _ h2).1, like_map_params (infer_effect _ _ _ h1).1]
  -- the gradient in front of the layer with the NaN weight
  obtain ⟨_, s, s', gi, gi', p1, p2, p3, p4, p5, p6⟩ := h3 (c + 1) _ hc
  obtain ⟨g1, g2, g3, _⟩ := fc_round (hok.layers _ (List.mem_of_getElem? hc)) (ht.layers _ (List.mem_of_getElem? hc)) p6
  have hnan' : (val gi' i 0 0).isNaN = true := by
    rw [g3 i hi]
    exact sum_nan ⟨_, List.mem_map.mpr ⟨o, List.mem_range.mpr ho, rfl⟩, void_mul_nan _ hnan⟩
  -- two layers in a row fit
  have fit : ∀ (q : Nat) (l0 m : FullyConnectedLayer F32), n.layers[q]? = some (.fc l0) →
      n.layers[q + 1]? = some (.fc m) → m.weights.shape.dj.toNat = l0.weights.shape.di.toNat := by
    intro q l0 m e e'
    obtain ⟨_, _, _, f, _, _, _, _, r4, _, r6⟩ := h3 q _ e
    obtain ⟨_, _, _, _, f', _, _, _, _, r5, r6'⟩ := h3 (q + 1) _ e'
    obtain rfl := Option.some.inj (r4.symm.trans r5)
    obtain ⟨_, r7, _⟩ := fc_round (hok.layers _ (List.mem_of_getElem? e')) (ht.layers _ (List.mem_of_getElem? e')) r6'
    have r8 : f.shape = l0.bias.shape := r6.hg.2
    have hl0 : l0.Ok := hok.layers _ (List.mem_of_getElem? e)
    rw [hl0.rows] at r8
    exact congrArg (fun s : TensorShape => s.di.toNat) (r7.symm.trans r8)
  -- every entry in front of layer `c` and the layers before it
  have before : (∀ q ≤ c, ∃ l0, n.get_layers[q]? = some (.fc l0) ∧ 0 < l0.weights.shape.dj.toNat) → ∀ d ≤ c,
      ∃ l0 f, n.layers[c - d]? = some (.fc l0) ∧ n1.intermediate_gradients[c - d]? = some f ∧
        ∀ k, k < l0.weights.shape.dj.toNat → (val f k 0 0).isNaN = true := by
    intro all d
    induction d with
    | zero =>
      intro _
      obtain ⟨l0, e, _⟩ := all c le_rfl
      obtain ⟨_, _, _, f, f', r1, r2, r3, r4, r5, r6⟩ := h3 c _ e
      obtain rfl := Option.some.inj (r4.symm.trans p5)
      exact ⟨l0, f', e, r5, (nan_round hn e r6 (by rw [← fit c l0 l e hc]; exact hi) hnan').2⟩
    | succ d ih =>
      intro hd
      obtain ⟨m, fm, e', em, k1⟩ := ih (by omega)
      obtain ⟨l0, e, _⟩ := all (c - (d + 1)) (by omega)
      obtain ⟨m', e'', hpos⟩ := all (c - d) (by omega)
      obtain rfl := AnyLayer.fc.inj (Option.some.inj (e'.symm.trans e''))
      obtain ⟨_, _, _, f, f', r1, r2, r3, r4, r5, r6⟩ := h3 (c - (d + 1)) _ e
      rw [show c - (d + 1) + 1 = c - d by omega] at r4
      obtain rfl := Option.some.inj (r4.symm.trans em)
      have := fit (c - (d + 1)) l0 m e (by rw [show c - (d + 1) + 1 = c - d by omega]; exact e')
      exact ⟨l0, f', e, r5, (nan_round hn e r6 (o := 0) (by omega) (k1 0 hpos)).2⟩
  refine ⟨n0, n1, h1, h2, fun l0 e => ?_, fun all q hq => ?_⟩
  · obtain ⟨_, _, _, f, f', r1, r2, r3, r4, r5, r6⟩ := h3 c _ e
    obtain rfl := Option.some.inj (r4.symm.trans p5)
    have hi' : i < l0.weights.shape.di.toNat := by rw [← fit c l0 l e hc]; exact hi
    obtain ⟨⟨l1, rfl, k⟩, _⟩ := nan_round hn e r6 hi' hnan'
    refine ⟨l1, r1, (k i hi' hnan').1, fun j hj => (k i hi' hnan').2 j ?_⟩
    rwa [fc_weights hp e r1] at hj
  · obtain ⟨m, fm, e', em, k1⟩ := before all (c - (q + 1)) (by omega)
    rw [show c - (c - (q + 1)) = q + 1 by omega] at e' em
    obtain ⟨m', e'', hpos⟩ := all (q + 1) (by omega)
    obtain rfl := AnyLayer.fc.inj (Option.some.inj (e'.symm.trans e''))
    obtain ⟨l0, e, _⟩ := all q (by omega)
    obtain ⟨_, _, _, f, f', r1, r2, r3, r4, r5, r6⟩ := h3 q _ e
    obtain rfl := Option.some.inj (r4.symm.trans em)
    have hd := fit q l0 m e e'
    obtain ⟨⟨l1, rfl, k⟩, _⟩ := nan_round hn e r6 (o := 0) (by omega) (k1 0 hpos)
    have w := fc_weights hp e r1
    refine ⟨l1, r1, fun o ho => ?_⟩
    rw [w] at ho
    refine ⟨(k o ho (k1 o (by omega))).1, fun j hj => (k o ho (k1 o (by omega))).2 j ?_⟩
    rwa [w] at hj

theorem single_val (w : F32) : val (single w) 0 0 0 = w := rfl

theorem exNaN_unit (c : F32) : NaNUnit (exFc ⟨0x7fc00000⟩ c) 0 :=
  .inl ⟨0, by change 0 < (single ⟨0x7fc00000⟩).shape.dj.toNat; decide, nan_val⟩

/-- The hypotheses of `C146_zeros` hold for the networks `max(0, NaN max(0, x) + 1)` and `max(0, 0 max(0, x) + 0)`, and
those of `C146_unit` for the first one. -/
example (b : Build) : ∃ (n n' : Net F32), Built b n ∧ Built b n' ∧
    n.get_layers[1]? = some (.fc (exFc ⟨0x7fc00000⟩ ⟨0x3f800000⟩)) ∧ n'.get_layers[1]? = some (.fc (exFc ⟨0⟩ ⟨0⟩)) ∧
    (∀ q, q ≠ 1 → n'.get_layers[q]? = n.get_layers[q]?) ∧
    (∀ o, o < (exFc ⟨0x7fc00000⟩ ⟨0x3f800000⟩).weights.shape.di.toNat →
      NaNUnit (exFc ⟨0x7fc00000⟩ ⟨0x3f800000⟩) o ∧ ZeroUnit (exFc ⟨0⟩ ⟨0⟩) o) ∧
    (single ⟨0⟩).shape = n.get_input_shape ∧ (single ⟨0⟩).shape = n'.get_input_shape := by
  obtain ⟨n, h1, h2, h3⟩ := exFc2_built b ⟨0x3f800000⟩ ⟨0⟩ ⟨0x7fc00000⟩ ⟨0x3f800000⟩
  obtain ⟨n', g1, g2, g3⟩ := exFc2_built b ⟨0x3f800000⟩ ⟨0⟩ ⟨0⟩ ⟨0⟩
  refine ⟨n, n', h1, g1, by rw [h2]; rfl, by rw [g2]; rfl, fun q hq => ?_, fun o ho => ?_, h3.symm, g3.symm⟩
  · rw [h2, g2]
    match q with
    | 0 => rfl
    | 1 => exact absurd rfl hq
    | q + 2 => rfl
  · obtain rfl : o = 0 := Nat.lt_one_iff.mp ho
    refine ⟨exNaN_unit _, fun i hi => ?_, ?_⟩
    · obtain rfl : i = 0 := Nat.lt_one_iff.mp hi
      change (val (single ⟨0⟩) 0 0 0).code = 0
      rw [single_val]; decide
    · change (val (single ⟨0⟩) 0 0 0).code = 0
      rw [single_val]; decide

/-- The hypotheses of `C146_training` and `C146_spread` hold for the network `max(0, NaN max(0, max(0, x)))`. -/
example (b : Build) : ∃ (n : Net F32) (l : FullyConnectedLayer F32), Trains b n ∧ (∀ l ∈ n.get_layers, backable l) ∧
    (single ⟨0⟩).shape = n.get_input_shape ∧ (single ⟨0⟩).shape = n.get_output_shape ∧
    n.get_layers[1 + 1]? = some (.fc l) ∧ 0 < l.weights.shape.di.toNat ∧ 0 < l.weights.shape.dj.toNat ∧
    (val l.weights 0 0 0).isNaN = true ∧ NaNUnit l 0 ∧
    ∀ q ≤ 1, ∃ l0, n.get_layers[q]? = some (.fc l0) ∧ 0 < l0.weights.shape.dj.toNat := by
  let A : FullyConnectedLayer F32 := { exFc ⟨0x3f800000⟩ ⟨0⟩ with run_state := .Training }
  let C : FullyConnectedLayer F32 := { exFc ⟨0x7fc00000⟩ ⟨0⟩ with run_state := .Training }
  have oA : (AnyLayer.fc A).Ok :=
    ⟨single_wf _, single_wf _, rfl, rfl, fun _ => ⟨⟨single_wf _, rfl⟩, ⟨single_wf _, rfl⟩, ⟨single_wf _, rfl⟩,
    ⟨single_wf _, rfl⟩⟩⟩
  have oC : (AnyLayer.fc C).Ok :=
    ⟨single_wf _, single_wf _, rfl, rfl, fun _ => ⟨⟨single_wf _, rfl⟩, ⟨single_wf _, rfl⟩, ⟨single_wf _, rfl⟩,
    ⟨single_wf _, rfl⟩⟩⟩
  obtain ⟨n, h1, h2, h3, h4⟩ : ∃ n : Net F32, Trains b n ∧ n.get_layers = [.fc A, .fc A, .fc C] ∧
      n.get_input_shape = ⟨1, 1, 1⟩ ∧ n.get_output_shape = ⟨1, 1, 1⟩ := by
    cases b <;> exact ⟨_, .add_layer _ (.fc C) _ _ (.add_layer _ (.fc A) _ _
      (.add_layer _ (.fc A) _ _ .new oA rfl) oA rfl) oC rfl, rfl, rfl, rfl⟩
  refine ⟨n, C, h1, fun l hl => ?_, h3.symm, h4.symm, by rw [h2]; rfl, Nat.one_pos, Nat.one_pos, nan_val,
    exNaN_unit ⟨0⟩, fun q hq => ⟨A, ?_, Nat.one_pos⟩⟩
  · rw [h2] at hl
    simp only [List.mem_cons, List.not_mem_nil, or_false] at hl
    rcases hl with rfl | rfl | rfl <;> trivial
  · rw [h2]
    match q, hq with
    | 0, _ => rfl
    | 1, _ => rfl

/-- the hypotheses of `C146_channel` -/
example (b : Build) : ∃ (n : Net F32) (l : ConvolutionalLayer F32), Built b n ∧ n.get_layers[0]? = some (.conv l) ∧
    (single ⟨0⟩).shape = n.get_input_shape ∧ l.output_shape.Inside 0 0 1 ∧ NaNChannel l 1 := by
  let L : ConvolutionalLayer F32 := { exConv2 with kernels := [single ⟨0x3f800000⟩, single ⟨0x7fc00000⟩] }
  have oL : (AnyLayer.conv L).Ok := by
    refine ⟨by decide, by decide, by decide, rfl, ?_, rfl, ?_, fun h => by cases h⟩
    · intro k hm
      rcases List.mem_pair.mp hm with rfl | rfl <;>
        exact ⟨single_wf _, rfl, by change windowsTile ⟨1, 1, 1⟩ ⟨1, 1, 1⟩ 1 ⟨1, 1, 2⟩; decide⟩
    · intro k hm
      rcases List.mem_pair.mp hm with rfl | rfl <;> exact ⟨single_wf _, rfl⟩
  cases b <;> exact ⟨_, L, .add_layer (Network.new .Inference) (.conv L) (.ok ()) _ (.new _) oL rfl, rfl, rfl, by decide,
    .inl ⟨single ⟨0x7fc00000⟩, 0, 0, 0, rfl, by decide, nan_val⟩⟩

end Rusty
