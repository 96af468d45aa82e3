import Verif.Lemmas.IEEEPruning
import Verif.Props.PowerOfTwo

/-! # C112: units that contribute nothing can be removed -/

namespace Rusty

open F32Ops Spec F32

variable [Libm]

/-- C112: the network `n` is the network `n'` without some units of its fully connected layers: `e i` says which
entries of state `i` are kept (all without a choice).  If, in the run of `n'`, every entry that is left out meets
only zero weights and is finite, or is zero and meets only finite weights, then the run of `n` has the same kept
entries in all states, bit for bit; where all entries are kept, in particular for the output, the states are the
same. -/
theorem C112_infer (b : Build) (n n' : Net F32) (hn : Built b n) (hn' : Built b n') (hne : n.get_layers ≠ [])
    (hlen : n'.get_layers.length = n.get_layers.length) (e : Nat → Option (Nat → Nat)) (x y : Tensor F32) (hx : x.WF)
    (hy : y.WF) (hxs : x.shape = n.get_input_shape) (hys : y.shape = n'.get_input_shape) (hxy : Kept (e 0) x y)
    (n2 : Net F32) (h2 : n'.infer b y = .ok (.ok (), n2))
    (hp : ∀ i l l' s, n.get_layers[i]? = some l → n'.get_layers[i]? = some l' →
      n2.get_intermediate_state i = .ok s → Thinned (e i) (e (i + 1)) l l' s) :
    ∃ n1 u v, n.infer b x = .ok (.ok (), n1) ∧ n1.get_output = .ok u ∧ n2.get_output = .ok v ∧
      Kept (e n.get_layers.length) u v ∧ (e n.get_layers.length = none → v = u) ∧
      ∀ i, i ≤ n.get_layers.length → ∃ s t, n1.get_intermediate_state i = .ok s ∧
        n2.get_intermediate_state i = .ok t ∧ Kept (e i) s t := by
  have hok := built_netOk hn
  have hok' := built_netOk hn'
  have hne' : n'.get_layers ≠ [] := fun h => hne (by
    rw [h] at hlen
    exact List.length_eq_zero_iff.mp hlen.symm)
  have hlen : n'.layers.length = n.layers.length := hlen
  obtain ⟨n1, p1, p2, p3⟩ := infer_ok (b := b) hok hne hx hxs
  obtain ⟨m2, q1, q2, q3⟩ := infer_ok (b := b) hok' hne' hy hys
  obtain rfl : n2 = m2 := by rw [h2] at q1; cases q1; rfl
  obtain ⟨m1, c1, _, _, c4⟩ := C36_infer b n hn hne x hx hxs
  obtain ⟨m2, d1, _, _, d4⟩ := C36_infer b n' hn' hne' y hy hys
  obtain rfl : n1 = m1 := by rw [p1] at c1; cases c1; rfl
  obtain rfl : n2 = m2 := by rw [q1] at d1; cases d1; rfl
  have key : ∀ i, i ≤ n.layers.length → ∃ s t, n1.intermediate_states[i]? = some s ∧
      n2.intermediate_states[i]? = some t ∧ Kept (e i) s t := by
    intro i
    induction i with
    | zero => exact fun _ => ⟨x, y, p2, q2, hxy⟩
    | succ i ih =>
      intro hi
      obtain ⟨s, t, e1, e2, e3⟩ := ih (by omega)
      have hl : n.layers[i]? = some n.layers[i] := List.getElem?_eq_getElem hi
      have hl' : n'.layers[i]? = some (n'.layers[i]'(by omega)) := List.getElem?_eq_getElem (by omega)
      obtain ⟨s0, s', f1, f2, f3, _, _, _, _, f6, _⟩ := p3 i _ hl
      obtain ⟨t0, t', g1, g2, g3, _⟩ := q3 i _ hl'
      obtain rfl : s = s0 := by rw [e1] at f1; exact Option.some.inj f1
      obtain rfl : t = t0 := by rw [e2] at g1; exact Option.some.inj g1
      exact ⟨s', t', f2, g2, layer_pruned (hok.layers _ (List.mem_of_getElem? hl))
        (hok'.layers _ (List.mem_of_getElem? hl'))
        (hp i _ _ t hl hl' (by unfold Network.get_intermediate_state; rw [e2])) f6 e3 f3 g3⟩
  have get : ∀ i, i ≤ n.get_layers.length → ∃ s t, n1.get_intermediate_state i = .ok s ∧
      n2.get_intermediate_state i = .ok t ∧ Kept (e i) s t := fun i hi => by
    obtain ⟨s, t, e1, e2, e5⟩ := key i hi
    refine ⟨s, t, ?_, ?_, e5⟩
    · unfold Network.get_intermediate_state; rw [e1]
    · unfold Network.get_intermediate_state; rw [e2]
  obtain ⟨u, v, g1, g2, g3⟩ := get _ (Nat.le_refl _)
  refine ⟨n1, u, v, p1, c4.trans g1, d4.trans (by rw [show n'.get_layers.length = n.get_layers.length from hlen]; exact g2),
    g3, fun h => ?_, get⟩
  rw [h] at g3
  exact g3

/-- C112, two fully connected layers in a row: units of the first that the second does not listen to (their weights
there are zero) can be removed.  On every input on which their values are finite, the output stays the same, bit for
bit. -/
theorem C112_two (b : Build) (n n' : Net F32) (hn : Built b n) (hn' : Built b n') (pre post : List (AnyLayer F32))
    (l1 l1' l2 l2' : FullyConnectedLayer F32) (hls : n.get_layers = pre ++ .fc l1 :: .fc l2 :: post)
    (hls' : n'.get_layers = pre ++ .fc l1' :: .fc l2' :: post) (f : Nat → Nat)
    (hf : Picks l1.weights.shape.di.toNat l1'.weights.shape.di.toNat f)
    (hj : l1'.weights.shape.dj = l1.weights.shape.dj) (hi : l2'.weights.shape.di = l2.weights.shape.di)
    (h1 : ∀ o, o < l1.weights.shape.di.toNat → val l1'.bias (f o) 0 0 = val l1.bias o 0 0 ∧
      ∀ i, i < l1.weights.shape.dj.toNat → val l1'.weights (f o) i 0 = val l1.weights o i 0)
    (h2 : ∀ o, o < l2.weights.shape.di.toNat → val l2'.bias o 0 0 = val l2.bias o 0 0 ∧
      (∀ i, i < l1.weights.shape.di.toNat → val l2'.weights o (f i) 0 = val l2.weights o i 0) ∧
      ∀ c, c < l1'.weights.shape.di.toNat → (∀ i, i < l1.weights.shape.di.toNat → f i ≠ c) →
        (val l2'.weights o c 0).code = 0)
    (x : Tensor F32) (hx : x.WF) (hxs : x.shape = n'.get_input_shape) (n2 : Net F32)
    (hr : n'.infer b x = .ok (.ok (), n2))
    (hfin : ∀ s, n2.get_intermediate_state (pre.length + 1) = .ok s → ∀ c, c < l1'.weights.shape.di.toNat →
      (∀ i, i < l1.weights.shape.di.toNat → f i ≠ c) → (val s c 0 0).isFinite = true) :
    ∃ n1, n.infer b x = .ok (.ok (), n1) ∧ n1.get_output = n2.get_output := by
  have hok := built_netOk hn
  have hok' := built_netOk hn'
  have hlen : n.get_layers.length = pre.length + 2 + post.length := by rw [hls]; simp; omega
  have hlen' : n'.get_layers.length = n.get_layers.length := by rw [hls, hls']; simp
  have a1 : n.get_layers[pre.length]? = some (.fc l1) := by rw [hls]; simp
  have a2 : n.get_layers[pre.length + 1]? = some (.fc l2) := by
    rw [hls, List.getElem?_append_right (by omega)]; simp
  have c1 : n'.get_layers[pre.length]? = some (.fc l1') := by rw [hls']; simp
  have c2 : n'.get_layers[pre.length + 1]? = some (.fc l2') := by
    rw [hls', List.getElem?_append_right (by omega)]; simp
  have ok1 : l1.Ok := hok.layers (.fc l1) (List.mem_of_getElem? a1)
  have ok1' : l1'.Ok := hok'.layers (.fc l1') (List.mem_of_getElem? c1)
  have d2 : l2.weights.shape.dj = l1.weights.shape.di := by
    have := congrArg TensorShape.di (hok.chain.links _ _ _ a1 a2)
    change l1.bias.shape.di = l2.weights.shape.dj at this
    rw [← this, ok1.rows]
  have d2' : l2'.weights.shape.dj = l1'.weights.shape.di := by
    have := congrArg TensorShape.di (hok'.chain.links _ _ _ c1 c2)
    change l1'.bias.shape.di = l2'.weights.shape.dj at this
    rw [← this, ok1'.rows]
  have rest : ∀ i l l', i ≠ pre.length → i ≠ pre.length + 1 → n.get_layers[i]? = some l →
      n'.get_layers[i]? = some l' → l' = l := by
    intro i l l' g1 g2 g3 g4
    rw [hls] at g3
    rw [hls'] at g4
    rcases Nat.lt_or_ge i pre.length with h | h
    · rw [List.getElem?_append_left h] at g3 g4
      rw [g3] at g4
      exact (Option.some.inj g4).symm
    · rw [List.getElem?_append_right h] at g3 g4
      obtain ⟨k, hk⟩ : ∃ k, i - pre.length = k + 2 := ⟨i - pre.length - 2, by omega⟩
      rw [hk] at g3 g4
      simp only [List.getElem?_cons_succ] at g3 g4
      rw [g3] at g4
      exact (Option.some.inj g4).symm
  have hin : n'.get_input_shape = n.get_input_shape := by
    have z1 : n.layers[0]? = some (n.layers[0]'(by change 0 < n.get_layers.length; omega)) :=
      List.getElem?_eq_getElem _
    have z2 : n'.layers[0]? = some (n'.layers[0]'(by change 0 < n'.get_layers.length; omega)) :=
      List.getElem?_eq_getElem _
    have f1 : n.input_shape = _ := hok.chain.first _ (by rw [List.head?_eq_getElem?]; exact z1)
    have f2 : n'.input_shape = _ := hok'.chain.first _ (by rw [List.head?_eq_getElem?]; exact z2)
    change n'.input_shape = n.input_shape
    rw [f1, f2]
    by_cases h0 : 0 = pre.length
    · rw [← h0] at a1 c1
      rw [show n.layers[0]? = some (.fc l1) from a1] at z1
      rw [show n'.layers[0]? = some (.fc l1') from c1] at z2
      rw [← Option.some.inj z1, ← Option.some.inj z2]
      change (⟨l1'.weights.shape.dj, 1, 1⟩ : TensorShape) = ⟨l1.weights.shape.dj, 1, 1⟩
      rw [hj]
    · rw [rest 0 _ _ h0 (by omega) z1 z2]
  have picks_id : ∀ k, Picks k k (number none) := fun k => ⟨fun _ h => h, fun _ _ h _ => h⟩
  obtain ⟨n1, u, v, r1, r2, r3, _, r5, _⟩ := C112_infer b n n' hn hn' (by rw [hls]; simp) hlen'
    (fun i => if i = pre.length + 1 then some f else none) x x hx hx (hxs.trans hin) hxs
    (by rw [if_neg (by omega)]; rfl) n2 hr (fun i l l' s g1 g2 g3 => by
      by_cases e1 : i = pre.length
      · subst e1
        rw [a1] at g1
        rw [c1] at g2
        cases g1
        cases g2
        simp only [if_pos, if_neg (show pre.length ≠ pre.length + 1 by omega)]
        refine .inr ⟨l1, l1', rfl, rfl, ?_, hf, nofun, fun o ho => (h1 o ho).1, fun o i ho hi => (h1 o ho).2 i hi,
          fun o c _ hc hne => ?_⟩
        · rw [hj]; exact picks_id _
        · exact absurd rfl (hne c (by rw [← hj]; exact hc))
      · by_cases e2 : i = pre.length + 1
        · subst e2
          rw [a2] at g1
          rw [c2] at g2
          cases g1
          cases g2
          simp only [if_pos, if_neg (show pre.length + 1 + 1 ≠ pre.length + 1 by omega)]
          refine .inr ⟨l2, l2', rfl, rfl, ?_, ?_, fun _ => hi, fun o ho => (h2 o ho).1, fun o i ho hi => ?_,
            fun o c ho hc hne => ?_⟩
          · rw [d2, d2']; exact hf
          · rw [hi]; exact picks_id _
          · rw [d2] at hi
            exact (h2 o ho).2.1 i hi
          · rw [d2'] at hc
            rw [d2] at hne
            exact .inl ⟨(h2 o ho).2.2 c hc hne, hfin s g3 c hc hne⟩
        · simp only [if_neg e2, if_neg (show i + 1 ≠ pre.length + 1 by omega)]
          exact .inl ⟨rfl, rfl, by rw [rest i _ _ e1 e2 g1 g2]⟩)
  refine ⟨n1, r1, ?_⟩
  rw [r2, r3, r5 (by
    rw [if_neg (by omega)])]

/-- a layer from one input to two units -/
def exUp (w w' : F32) : FullyConnectedLayer F32 :=
  { weights := ⟨⟨1, 2, 2⟩, ⟨2, 1, 1⟩, [w, w']⟩, bias := ⟨⟨1, 2, 2⟩, ⟨2, 1, 1⟩, [⟨0⟩, ⟨0⟩]⟩
    weights_gradients := single ⟨0⟩, weights_gradients_intermediate := single ⟨0⟩, bias_gradients := single ⟨0⟩
    relu_mask := single ⟨0⟩, name := "up", run_state := .Inference }

/-- a layer from two inputs to one unit -/
def exDown (u u' : F32) : FullyConnectedLayer F32 :=
  { weights := ⟨⟨1, 1, 2⟩, ⟨1, 2, 1⟩, [u, u']⟩, bias := single ⟨0⟩
    weights_gradients := single ⟨0⟩, weights_gradients_intermediate := single ⟨0⟩, bias_gradients := single ⟨0⟩
    relu_mask := single ⟨0⟩, name := "down", run_state := .Inference }

omit [Libm] in
theorem exUp_ok (w w' : F32) : (AnyLayer.fc (exUp w w')).Ok :=
  ⟨⟨(by decide : (⟨2, 1, 1⟩ : TensorShape).Fits), rfl, rfl, rfl, rfl⟩,
    ⟨(by decide : (⟨2, 1, 1⟩ : TensorShape).Fits), rfl, rfl, rfl, rfl⟩, rfl, rfl, nofun⟩

theorem exDown_ok (u u' : F32) : (AnyLayer.fc (exDown u u')).Ok :=
  ⟨⟨(by decide : (⟨1, 2, 1⟩ : TensorShape).Fits), rfl, rfl, rfl, rfl⟩, single_wf _, rfl, rfl, nofun⟩

theorem exUpDown_built (b : Build) (w w' u u' : F32) : ∃ n : Net F32, Built b n ∧
    n.get_layers = [.fc (exUp w w'), .fc (exDown u u')] ∧ n.get_input_shape = ⟨1, 1, 1⟩ :=
  ⟨_, .add_layer _ (.fc (exDown u u')) (.ok ()) _
    (.add_layer (Network.new .Inference) (.fc (exUp w w')) (.ok ()) _ (.new _) (exUp_ok w w')
      (by cases b <;> rfl)) (exDown_ok u u') (by cases b <;> rfl), rfl, rfl⟩

/-- a run of such a network -/
theorem exUpDown_run (b : Build) (w w' u u' a v v' r : F32)
    (h1 : Spec.relu (F32.add (F32.add (mk' false 0) (F32.mul w a)) ⟨0⟩) = v)
    (h2 : Spec.relu (F32.add (F32.add (mk' false 0) (F32.mul w' a)) ⟨0⟩) = v')
    (h3 : Spec.relu (F32.add (F32.add (F32.add (mk' false 0) (F32.mul u v)) (F32.mul u' v')) ⟨0⟩) = r) (n : Net F32)
    (hn : Built b n) (hl : n.get_layers = [.fc (exUp w w'), .fc (exDown u u')])
    (hs : n.get_input_shape = ⟨1, 1, 1⟩) :
    ∃ n' t y, n.infer b (single a) = .ok (.ok (), n') ∧ n'.get_intermediate_state 1 = .ok t ∧ val t 0 0 0 = v ∧
      val t 1 0 0 = v' ∧ n'.get_output = .ok y ∧ y.get_item b (ix 0 0 0) = .ok r := by
  have up : ∀ (s : Tensor F32) o, layerAt (.fc (exUp w w')) s o 0 0 = Spec.relu (preact (exUp w w') s o) :=
    fun s o => by
      simp only [layerAt]
      exact act_relu _ (summed_preact _ _ _)
  have down : ∀ s : Tensor F32, layerAt (.fc (exDown u u')) s 0 0 0 = Spec.relu (preact (exDown u u') s 0) :=
    fun s => by
      simp only [layerAt]
      exact act_relu _ (summed_preact _ _ _)
  obtain ⟨n', q1, q2, q3⟩ := infer_ok (b := b) (built_netOk hn) (by
    change n.get_layers ≠ []
    rw [hl]; exact List.cons_ne_nil _ _) (single_wf a) hs.symm
  obtain ⟨_, c1, _, _, c4⟩ := C36_infer b n hn (by rw [hl]; exact List.cons_ne_nil _ _) (single a) (single_wf a) hs.symm
  rw [q1] at c1
  cases c1
  obtain ⟨s0, t, r4, r5, a1, _⟩ := q3 0 (.fc (exUp w w')) (by
    change n.get_layers[0]? = _
    rw [hl]; rfl)
  obtain ⟨t0, y, r6, r7, a2, _⟩ := q3 1 (.fc (exDown u u')) (by
    change n.get_layers[1]? = _
    rw [hl]; rfl)
  obtain rfl : single a = s0 := by rw [q2] at r4; exact Option.some.inj r4
  obtain rfl : t = t0 := by rw [r5] at r6; exact Option.some.inj r6
  have e1 : val t 0 0 0 = v := by
    rw [applies_val a1 (show (⟨2, 1, 1⟩ : TensorShape).Inside 0 0 0 from ⟨by decide, by decide, by decide⟩), up, ← h1]
    rfl
  have e2 : val t 1 0 0 = v' := by
    rw [applies_val a1 (show (⟨2, 1, 1⟩ : TensorShape).Inside 1 0 0 from ⟨by decide, by decide, by decide⟩), up, ← h2]
    rfl
  refine ⟨n', t, y, q1, by unfold Network.get_intermediate_state; rw [r5], e1, e2, ?_, ?_⟩
  · rw [c4, hl]
    unfold Network.get_intermediate_state
    have r7 : n'.intermediate_states[([.fc (exUp w w'), .fc (exDown u u')] : List (AnyLayer F32)).length]? = some y := r7
    rw [r7]
  · rw [a2.2.2 0 0 0 (show (⟨1, 1, 1⟩ : TensorShape).Inside 0 0 0 from ⟨by decide, by decide, by decide⟩), down, ← h3,
      ← e1, ← e2]
    rfl

/-- C112: the values that are left out have to be finite.  A unit with an infinite value spoils the next layer even
though its weight there is zero: with it the output is 0, without it 2. -/
theorem C112_infinite (b : Build) : ∃ (n n' n1 n2 : Net F32) (t y z : Tensor F32), Built b n ∧ Built b n' ∧
    n.get_layers = [.fc (exFc ⟨0x3f800000⟩ ⟨0⟩), .fc (exFc ⟨0x3f800000⟩ ⟨0⟩)] ∧
    n'.get_layers = [.fc (exUp ⟨0x3f800000⟩ ⟨0x7f7fffff⟩), .fc (exDown ⟨0x3f800000⟩ ⟨0⟩)] ∧
    n'.infer b (single ⟨0x40000000⟩) = .ok (.ok (), n2) ∧ n2.get_intermediate_state 1 = .ok t ∧
    val t 1 0 0 = ⟨0x7f800000⟩ ∧ n2.get_output = .ok z ∧ z.get_item b (ix 0 0 0) = .ok ⟨0⟩ ∧
    n.infer b (single ⟨0x40000000⟩) = .ok (.ok (), n1) ∧ n1.get_output = .ok y ∧
    y.get_item b (ix 0 0 0) = .ok ⟨0x40000000⟩ := by
  have relu : ∀ x : F32, Spec.relu x = if F32.gt x (mk' false 0) then x else mk' false 0 := fun _ => rfl
  obtain ⟨n, h1, h2, h3⟩ := exFc2_built b ⟨0x3f800000⟩ ⟨0⟩ ⟨0x3f800000⟩ ⟨0⟩
  obtain ⟨n', g1, g2, g3⟩ := exUpDown_built b ⟨0x3f800000⟩ ⟨0x7f7fffff⟩ ⟨0x3f800000⟩ ⟨0⟩
  obtain ⟨n1, y, q1, q2, q3⟩ := exFc2_run b _ _ _ _ ⟨0x40000000⟩ ⟨0x40000000⟩ ⟨0x40000000⟩
    (by rw [relu]; decide +kernel) (by rw [relu]; decide +kernel) n h1 h2 h3
  obtain ⟨n2, t, z, r1, r2, _, r4, r5, r6⟩ := exUpDown_run b _ _ _ _ ⟨0x40000000⟩ ⟨0x40000000⟩ ⟨0x7f800000⟩ ⟨0⟩
    (by rw [relu]; decide +kernel) (by rw [relu]; decide +kernel) (by rw [relu]; decide +kernel) n' g1 g2 g3
  exact ⟨n, n', n1, n2, t, y, z, h1, g1, h2, g2, r1, r2, r4, r5, r6, q1, q2, q3⟩

/-- The assumptions of `C112_two` can be met: the second unit of a 1 -> 2 -> 1 network is left out. -/
example (b : Build) : ∃ n n' n1 n2 : Net F32, Built b n ∧ Built b n' ∧
    n.get_layers = [.fc (exFc ⟨0x3f800000⟩ ⟨0⟩), .fc (exFc ⟨0x3f800000⟩ ⟨0⟩)] ∧
    n'.get_layers = [.fc (exUp ⟨0x3f800000⟩ ⟨0x40400000⟩), .fc (exDown ⟨0x3f800000⟩ ⟨0⟩)] ∧
    n'.infer b (single ⟨0x40000000⟩) = .ok (.ok (), n2) ∧ n.infer b (single ⟨0x40000000⟩) = .ok (.ok (), n1) ∧
    n1.get_output = n2.get_output := by
  have relu : ∀ x : F32, Spec.relu x = if F32.gt x (mk' false 0) then x else mk' false 0 := fun _ => rfl
  obtain ⟨n, h1, h2, h3⟩ := exFc2_built b ⟨0x3f800000⟩ ⟨0⟩ ⟨0x3f800000⟩ ⟨0⟩
  obtain ⟨n', g1, g2, g3⟩ := exUpDown_built b ⟨0x3f800000⟩ ⟨0x40400000⟩ ⟨0x3f800000⟩ ⟨0⟩
  obtain ⟨n2, t, z, r1, r2, _, r4, _⟩ := exUpDown_run b _ _ _ _ ⟨0x40000000⟩ ⟨0x40000000⟩ ⟨0x40c00000⟩ ⟨0x40000000⟩
    (by rw [relu]; decide +kernel) (by rw [relu]; decide +kernel) (by rw [relu]; decide +kernel) n' g1 g2 g3
  obtain ⟨n1, e1, e2⟩ := C112_two b n n' h1 g1 [] [] _ _ _ _ h2 g2 id
    ⟨fun i (hi : i < 1) => show i < 2 by omega, fun i j h _ => h⟩ rfl rfl
    (fun o (ho : o < 1) => by
      obtain rfl : o = 0 := by omega
      exact ⟨rfl, fun i (hi : i < 1) => by
        obtain rfl : i = 0 := by omega
        rfl⟩)
    (fun o (ho : o < 1) => by
      obtain rfl : o = 0 := by omega
      refine ⟨rfl, fun i (hi : i < 1) => ?_, fun c (hc : c < 2) hne => ?_⟩
      · obtain rfl : i = 0 := by omega
        rfl
      · have : c ≠ 0 := fun h => hne 0 Nat.one_pos h.symm
        obtain rfl : c = 1 := by omega
        exact (by decide : (⟨0⟩ : F32).code = 0))
    (single ⟨0x40000000⟩) (single_wf _) g3.symm n2 r1 (fun s hs c (hc : c < 2) hne => by
      have hs : n2.get_intermediate_state 1 = .ok s := hs
      rw [r2] at hs
      cases hs
      have : c ≠ 0 := fun h => hne 0 Nat.one_pos h.symm
      obtain rfl : c = 1 := by omega
      rw [r4]
      decide)
  exact ⟨n, n', n1, n2, h1, g1, h2, g2, r1, e1, e2⟩

end Rusty
