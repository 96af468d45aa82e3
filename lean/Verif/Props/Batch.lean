import Verif.Lemmas.Batch
import Verif.Props.NetworkDerivative

/-! # C91: training on several examples adds up the gradients of the examples -/

namespace Rusty

open F32Ops Spec

section
variable {F : Type} [F32Ops F] {b : Build}

/-- C91, for every arithmetic: there are numbers `dW e c o i` and `dB e c o`, given by the parameters of the network
and the example `e` alone, such that training on any list of examples, from any state of a network with these
parameters, succeeds and adds the numbers of the examples in order to the weight and bias gradients of every fully
connected layer `c`. -/
theorem C91_batch (b : Build) (n : Net F) (hn : Trains b n) (hne : n.get_layers ≠ [])
    (hbk : ∀ l ∈ n.get_layers, backable l) :
    ∃ (dW : Example F → Nat → Nat → Nat → F) (dB : Example F → Nat → Nat → F),
      ∀ (m : Net F) (es : List (Example F)), Trains b m → m.get_layers.map params = n.get_layers.map params →
        (∀ e ∈ es, e.Fits n) →
        ∃ m', Batch b m es m' ∧ Trains b m' ∧ m'.get_layers.map params = n.get_layers.map params ∧
          ∀ (c : Nat) l, m.get_layers[c]? = some (.fc l) → ∃ l', m'.get_layers[c]? = some (.fc l') ∧
            ∀ o, o < l.weights.shape.di.toNat →
              l'.bias_gradients.get_item b (ix o 0 0) =
                .ok ((es.map fun e => dB e c o).foldl add (val l.bias_gradients o 0 0)) ∧
              ∀ i, i < l.weights.shape.dj.toNat → l'.weights_gradients.get_item b (ix o i 0) =
                .ok ((es.map fun e => dW e c o i).foldl add (val l.weights_gradients o i 0)) := by
  classical
  obtain ⟨hok, ht⟩ := trains_ready hn
  have hne : n.layers ≠ [] := hne
  have H : ∀ e : Example F, ∃ n1 n2 : Net F, e.Fits n → n.infer b e.x = .ok (.ok (), n1) ∧
      n1.backward b e.g = .ok (.ok (), n2) := by
    intro e
    by_cases h : e.Fits n
    · obtain ⟨n1, n2, h1, h2, _⟩ := net_round (b := b) hok ht hne hbk h.x.1 h.x.2 h.g.1 h.g.2
      exact ⟨n1, n2, fun _ => ⟨h1, h2⟩⟩
    · exact ⟨n, n, fun h' => absurd h' h⟩
  choose N1 N2 hN using H
  let S : Example F → Nat → Tensor F := fun e c => ((N1 e).intermediate_states[c]?).getD e.x
  let G : Example F → Nat → Tensor F := fun e c => ((N2 e).intermediate_gradients[c]?).getD e.x
  let dB : Example F → Nat → Nat → F := fun e c o => match n.layers[c]? with
    | some (.fc l) => masked l ⟨S e c, G e (c + 1), S e c, S e c⟩ o
    | _ => zero
  let dW : Example F → Nat → Nat → Nat → F := fun e c o i => sum [mul (dB e c o) (val (S e c) i 0 0)]
  refine ⟨dW, dB, fun m es => ?_⟩
  induction es generalizing m with
  | nil =>
    intro hm hp _
    refine ⟨m, .done m, hm, hp, fun c l hc => ⟨l, hc, fun o ho => ?_⟩⟩
    obtain ⟨hokm, htm⟩ := trains_ready hm
    have hl : l.Ok := hokm.layers _ (List.mem_of_getElem? hc)
    have hb := hl.buffers (htm.layers _ (List.mem_of_getElem? hc))
    refine ⟨get_item_ok hb.2.2.1.1 (by rw [hb.2.2.1.2, hl.rows]; exact col_inside ho), fun i hi => ?_⟩
    exact get_item_ok hb.1.1 (by rw [hb.1.2]; exact ⟨ho, hi, by rw [hl.depth]; decide⟩)
  | cons e es ih =>
    intro hm hp hes
    have hfit := hes e (List.mem_cons_self ..)
    obtain ⟨a1, a2⟩ := hN e hfit
    obtain ⟨hokm, htm⟩ := trains_ready hm
    have hsh := params_shapes hok.chain hokm.chain hp hne
    have hnem : m.layers ≠ [] := by
      intro h
      have hp : m.layers.map params = n.layers.map params := hp
      rw [h] at hp
      exact hne (List.map_eq_nil_iff.mp hp.symm)
    have hbm : ∀ l ∈ m.layers, backable l := by
      intro l hl
      obtain ⟨i, hi, rfl⟩ := List.mem_iff_getElem.mp hl
      obtain ⟨l0, h1, h2⟩ := map_get hp (List.getElem?_eq_getElem hi)
      exact params_backable h2 (hbk l0 (List.mem_of_getElem? h1))
    obtain ⟨m1, m2, i1, i2, i3, i4⟩ := net_round (b := b) hokm htm hnem hbm hfit.x.1 (by rw [hsh.1]; exact hfit.x.2)
      hfit.g.1 (by rw [hsh.2]; exact hfit.g.2)
    obtain ⟨r1, r2⟩ := rounds_same (b := b) hok ht hokm htm hp hne hbk hfit.x.1 hfit.x.2 hfit.g.1 hfit.g.2 hsh hbm a1 i1 a2 i2
    have hm2 : Trains b m2 := .backward _ _ _ _ (.infer _ _ _ _ hm i1) hfit.g.1 i2
    have hp2 : m2.layers.map params = n.layers.map params := by
      rw [like_map_params (backward_effect _ _ _ i2).1, like_map_params (infer_effect _ _ _ i1).1]
      exact hp
    obtain ⟨m', j1, j2, j3, j4⟩ := ih m2 hm2 hp2 fun e he => hes e (List.mem_cons_of_mem _ he)
    refine ⟨m', .step _ _ _ _ _ _ i1 i2 j1, j2, j3, fun c l hc => ?_⟩
    obtain ⟨l2, s, s', gi, gi', k1, k2, k3, k4, k5, k6⟩ := i4 c _ hc
    have hl : l.Ok := hokm.layers _ (List.mem_of_getElem? hc)
    have hlm : l.run_state = .Training := htm.layers _ (List.mem_of_getElem? hc)
    obtain ⟨_, _, _, f, rfl, hf⟩ := fc_round hl hlm k6
    obtain ⟨l', q1, q2⟩ := j4 c f k1
    -- the weights of the layer before, after and in `n`
    obtain ⟨l0, e1, e2⟩ := map_get hp hc
    have hlt : c < n.layers.length := (List.getElem?_eq_some_iff.mp e1).1
    cases l0 with
    | conv l0 => cases e2
    | mp l0 => cases e2
    | sm l0 => cases e2
    | fc l0 =>
      simp only [params, AnyLayer.fc.injEq, FullyConnectedLayer.mk.injEq, true_and] at e2
      obtain ⟨p1, p2, -⟩ := e2
      obtain ⟨l0', e3, e4⟩ := map_get hp2 k1
      have e1' : n.layers[c]? = some (.fc l0) := e1
      rw [e1'] at e3
      obtain rfl := Option.some.inj e3
      simp only [params, AnyLayer.fc.injEq, FullyConnectedLayer.mk.injEq, true_and] at e4
      obtain ⟨p3, p4, -⟩ := e4
      have hS : S e c = s := by
        change ((N1 e).intermediate_states[c]?).getD e.x = s
        rw [← r1, k2]
        rfl
      have hG : G e (c + 1) = gi := by
        change ((N2 e).intermediate_gradients[c + 1]?).getD e.x = gi
        rw [← r2 (c + 1) (by omega), k4]
        rfl
      have hdB : ∀ o, dB e c o = masked l ⟨s, gi, s, s⟩ o := by
        intro o
        change (match n.layers[c]? with
          | some (.fc l) => masked l ⟨S e c, G e (c + 1), S e c, S e c⟩ o
          | _ => zero) = _
        rw [e1', hS, hG]
        unfold masked preact
        rw [p1, p2]
      have hfo : f.Ok := (trains_ready hm2).1.layers _ (List.mem_of_getElem? k1)
      have hb := hfo.buffers ((trains_ready hm2).2.layers _ (List.mem_of_getElem? k1))
      refine ⟨l', q1, fun o ho => ?_⟩
      have ho' : o < f.weights.shape.di.toNat := by rw [p3, ← p1]; exact ho
      obtain ⟨q3, q4⟩ := q2 o ho'
      obtain ⟨hf1, hf2⟩ := hf o ho
      rw [get_item_ok hb.2.2.1.1 (by rw [hb.2.2.1.2, hfo.rows]; exact col_inside ho')] at hf1
      refine ⟨?_, fun i hi => ?_⟩
      · rw [q3, Except.ok.inj hf1, List.map_cons, List.foldl_cons, hdB o]
      · have hi' : i < f.weights.shape.dj.toNat := by rw [p3, ← p1]; exact hi
        have hf2 := hf2 i hi
        rw [get_item_ok hb.1.1 (by rw [hb.1.2]; exact ⟨ho', hi', by rw [hfo.depth]; decide⟩)] at hf2
        rw [q4 i hi', Except.ok.inj hf2, List.map_cons, List.foldl_cons]
        have : dW e c o i = sum [mul (masked l ⟨s, gi, s, s⟩ o) (val s i 0 0)] := by
          change sum [mul (dB e c o) (val (S e c) i 0 0)] = _
          rw [hdB o, hS]
        rw [this]

end

open Exact

/-- in exact arithmetic the order of the additions does not matter -/
theorem foldl_add_sum (L : List ℝ) (a : ℝ) : L.foldl F32Ops.add a = a + L.sum := by
  induction L generalizing a with
  | nil => simp
  | cons x L ih =>
    rw [List.foldl_cons, ih, List.sum_cons]
    change a + x + L.sum = _
    ring

/-- C91 in exact arithmetic: the order of the examples does not matter. -/
theorem C91_order (b : Build) (n m m' : Net ℝ) (hn : Trains b n) (hne : n.get_layers ≠ [])
    (hbk : ∀ l ∈ n.get_layers, backable l) (es es' : List (Example ℝ)) (hes : ∀ e ∈ es, e.Fits n)
    (hp : es.Perm es') (h : Batch b n es m) (h' : Batch b n es' m') (c : Nat) (l l1 l1' : FullyConnectedLayer ℝ)
    (hc : n.get_layers[c]? = some (.fc l)) (h1 : m.get_layers[c]? = some (.fc l1))
    (h1' : m'.get_layers[c]? = some (.fc l1')) :
    ∀ o, o < l.weights.shape.di.toNat →
      l1.bias_gradients.get_item b (ix o 0 0) = l1'.bias_gradients.get_item b (ix o 0 0) ∧
      ∀ i, i < l.weights.shape.dj.toNat →
        l1.weights_gradients.get_item b (ix o i 0) = l1'.weights_gradients.get_item b (ix o i 0) := by
  obtain ⟨dW, dB, H⟩ := C91_batch b n hn hne hbk
  obtain ⟨k, a1, _, _, a4⟩ := H n es hn rfl hes
  obtain ⟨k', c1, _, _, c4⟩ := H n es' hn rfl fun e he => hes e (hp.mem_iff.mpr he)
  obtain rfl := batch_unique h a1
  obtain rfl := batch_unique h' c1
  obtain ⟨q, e1, e2⟩ := a4 c l hc
  obtain ⟨q', f1, f2⟩ := c4 c l hc
  rw [h1] at e1
  rw [h1'] at f1
  obtain rfl := AnyLayer.fc.inj (Option.some.inj e1)
  obtain rfl := AnyLayer.fc.inj (Option.some.inj f1)
  intro o ho
  rw [(e2 o ho).1, (f2 o ho).1, foldl_add_sum, foldl_add_sum, (hp.map _).sum_eq]
  refine ⟨rfl, fun i hi => ?_⟩
  rw [(e2 o ho).2 i hi, (f2 o ho).2 i hi, foldl_add_sum, foldl_add_sum, (hp.map _).sum_eq]

theorem list_sum_hasDerivAt {α : Type} (L : List α) (f : α → ℝ → ℝ) (f' : α → ℝ) (t : ℝ)
    (h : ∀ a ∈ L, HasDerivAt (f a) (f' a) t) :
    HasDerivAt (fun t => (L.map fun a => f a t).sum) (L.map f').sum t := by
  induction L with
  | nil => simpa using hasDerivAt_const t (0 : ℝ)
  | cons a L ih =>
    have h1 := h a (List.mem_cons_self ..)
    have h2 := ih fun a ha => h a (List.mem_cons_of_mem _ ha)
    exact h1.add h2

/-- the derivative of the sum over the examples, from the derivatives for single examples -/
theorem batch_deriv {b : Build} {n : Net ℝ} {c : Nat} {l : FullyConnectedLayer ℝ} {m : ℝ → Net ℝ} {t0 : ℝ}
    (hm0 : m t0 = n) (q : FullyConnectedLayer ℝ → ℝ) (d : Example ℝ → ℝ) (es : List (Example ℝ))
    (H : ∀ fs : List (Example ℝ), (∀ e ∈ fs, e ∈ es) → ∃ n' l', Batch b n fs n' ∧ n'.layers[c]? = some (.fc l') ∧
      q l' = q l + (fs.map d).sum)
    (D : ∀ e ∈ es, ∃ (n1 : ℝ → Net ℝ) (y : ℝ → Tensor ℝ) (n2 : Net ℝ) (l2 : FullyConnectedLayer ℝ),
      (∀ t, (m t).infer b e.x = .ok (.ok (), n1 t)) ∧ (∀ t, (n1 t).get_output = .ok (y t)) ∧
      (n1 t0).backward b e.g = .ok (.ok (), n2) ∧ n2.get_layers[c]? = some (.fc l2) ∧
      HasDerivAt (fun t => inner n.get_output_shape e.g (y t)) (q l2 - q l) t0) :
    ∃ (n1 : Example ℝ → ℝ → Net ℝ) (y : Example ℝ → ℝ → Tensor ℝ) (n' : Net ℝ) (l' : FullyConnectedLayer ℝ),
      (∀ e ∈ es, ∀ t, (m t).infer b e.x = .ok (.ok (), n1 e t) ∧ (n1 e t).get_output = .ok (y e t)) ∧
      Batch b n es n' ∧ n'.get_layers[c]? = some (.fc l') ∧
      HasDerivAt (fun t => (es.map fun e => inner n.get_output_shape e.g (y e t)).sum) (q l' - q l) t0 := by
  classical
  obtain ⟨n', l', a1, a2, a3⟩ := H es fun e he => he
  have D : ∀ e : Example ℝ, ∃ (n1 : ℝ → Net ℝ) (y : ℝ → Tensor ℝ), e ∈ es →
      (∀ t, (m t).infer b e.x = .ok (.ok (), n1 t)) ∧ (∀ t, (n1 t).get_output = .ok (y t)) ∧
      HasDerivAt (fun t => inner n.get_output_shape e.g (y t)) (d e) t0 := by
    intro e
    by_cases he : e ∈ es
    · obtain ⟨n1, y, n2, l2, h1, h2, h3, h4, h5⟩ := D e he
      refine ⟨n1, y, fun _ => ⟨h1, h2, h5.congr_deriv ?_⟩⟩
      obtain ⟨k, l3, b1, b2, b3⟩ := H [e] fun e' he' => by rw [List.mem_singleton.mp he']; exact he
      have h1' := h1 t0
      rw [hm0] at h1'
      obtain rfl := batch_unique b1 (.step _ _ _ _ _ _ h1' h3 (.done _))
      have h4 : n2.layers[c]? = some (.fc l2) := h4
      rw [h4] at b2
      obtain rfl := AnyLayer.fc.inj (Option.some.inj b2)
      rw [b3]
      simp
    · exact ⟨fun _ => n, fun _ => zeros ⟨1, 1, 1⟩, fun h => absurd h he⟩
  choose n1 y hD using D
  refine ⟨n1, y, n', l', fun e he t => ⟨(hD e he).1 t, (hD e he).2.1 t⟩, a1, a2, ?_⟩
  refine (list_sum_hasDerivAt es (fun e t => inner n.get_output_shape e.g (y e t)) d _
    fun e he => (hD e he).2.2).congr_deriv ?_
  rw [a3]
  ring

/-- C91 in exact arithmetic, one weight: train on any list of examples.  What is added to entry `(o,i)` of the weight
gradient of layer `c` is the derivative, by that weight, of the sum over the examples of `<g, infer(x)>`. -/
theorem C91_weight (b : Build) (n : Net ℝ) (hn : Trains b n) (hbk : ∀ l ∈ n.get_layers, backable l)
    (c : Nat) (l : FullyConnectedLayer ℝ) (hc : n.get_layers[c]? = some (.fc l)) (o i : Nat)
    (ho : o < l.weights.shape.di.toNat) (hi : i < l.weights.shape.dj.toNat) (W : ℝ → Tensor ℝ)
    (hW : ∀ t, (W t).WF ∧ (W t).shape = l.weights.shape)
    (hv : ∀ t i' j' k', l.weights.shape.Inside i' j' k' →
      val (W t) i' j' k' = if (i', j', k') = (o, i, 0) then t else val l.weights i' j' k')
    (m : ℝ → Net ℝ) (hm : ∀ t, m t = { n with layers := n.layers.set c (.fc { l with weights := W t }) })
    (es : List (Example ℝ)) (hes : ∀ e ∈ es, e.Fits n)
    (hs : ∀ e ∈ es, ∀ m', n.infer b e.x = .ok (.ok (), m') → ∀ (i : Nat) l s,
      n.get_layers[i]? = some l → m'.get_intermediate_state i = .ok s → smoothAt l s) :
    ∃ (n1 : Example ℝ → ℝ → Net ℝ) (y : Example ℝ → ℝ → Tensor ℝ) (n' : Net ℝ) (l' : FullyConnectedLayer ℝ),
      (∀ e ∈ es, ∀ t, (m t).infer b e.x = .ok (.ok (), n1 e t) ∧ (n1 e t).get_output = .ok (y e t)) ∧
      Batch b n es n' ∧ n'.get_layers[c]? = some (.fc l') ∧
      HasDerivAt (fun t => (es.map fun e => inner n.get_output_shape e.g (y e t)).sum)
        (val l'.weights_gradients o i 0 - val l.weights_gradients o i 0) (val l.weights o i 0) := by
  classical
  have hne : n.get_layers ≠ [] := by
    intro h
    rw [h] at hc
    cases hc
  have hok := (trains_ready hn).1
  have hl : l.Ok := hok.layers _ (List.mem_of_getElem? hc)
  have hW0 : W (val l.weights o i 0) = l.weights := by
    refine tensor_ext (hW _).1 hl.weights (hW _).2 fun i' j' k' hin => ?_
    rw [hv _ i' j' k' (by rw [← (hW _).2]; exact hin)]
    split
    · rename_i h
      rw [(Prod.mk.inj h).1, (Prod.mk.inj (Prod.mk.inj h).2).1, (Prod.mk.inj (Prod.mk.inj h).2).2]
    · rfl
  have hm0 : m (val l.weights o i 0) = n := by
    have hc' : n.layers[c]? = some (.fc l) := hc
    obtain ⟨hlt, he⟩ := List.getElem?_eq_some_iff.mp hc'
    rw [hm, hW0]
    change { n with layers := n.layers.set c (.fc l) } = n
    rw [← he, List.set_getElem_self]
  obtain ⟨dW, dB, H⟩ := C91_batch b n hn hne hbk
  refine batch_deriv hm0 (fun l => val l.weights_gradients o i 0) (fun e => dW e c o i) es (fun fs hfs => ?_)
    fun e he => ?_
  · obtain ⟨n', a1, a2, a3, a4⟩ := H n fs hn rfl fun e he => hes e (hfs e he)
    obtain ⟨l', a5, a6⟩ := a4 c l hc
    refine ⟨n', l', a1, a5, ?_⟩
    obtain ⟨w1, w2⟩ := (fc_grad_inside a2 a3 hc a5).2 o i ho hi
    rw [get_item_inj w1 w2 ((a6 o ho).2 i hi), foldl_add_sum]
  · have hf := hes e he
    exact C58_weight b n hn hbk c l hc o i ho hi W hW hv (val l.weights o i 0)
      m hm e.x hf.x.1 hf.x.2 (by rw [hm0]; exact hs e he) e.g hf.g.1 hf.g.2

/-- C91 in exact arithmetic, one bias: train on any list of examples.  What is added to entry `o` of the bias gradient
of layer `c` is the derivative, by that bias, of the sum over the examples of `<g, infer(x)>`. -/
theorem C91_bias (b : Build) (n : Net ℝ) (hn : Trains b n) (hbk : ∀ l ∈ n.get_layers, backable l)
    (c : Nat) (l : FullyConnectedLayer ℝ) (hc : n.get_layers[c]? = some (.fc l)) (o : Nat)
    (ho : o < l.weights.shape.di.toNat) (bi : ℝ → Tensor ℝ)
    (hb : ∀ t, (bi t).WF ∧ (bi t).shape = l.bias.shape)
    (hv : ∀ t i' j' k', l.bias.shape.Inside i' j' k' →
      val (bi t) i' j' k' = if (i', j', k') = (o, 0, 0) then t else val l.bias i' j' k')
    (m : ℝ → Net ℝ) (hm : ∀ t, m t = { n with layers := n.layers.set c (.fc { l with bias := bi t }) })
    (es : List (Example ℝ)) (hes : ∀ e ∈ es, e.Fits n)
    (hs : ∀ e ∈ es, ∀ m', n.infer b e.x = .ok (.ok (), m') → ∀ (i : Nat) l s,
      n.get_layers[i]? = some l → m'.get_intermediate_state i = .ok s → smoothAt l s) :
    ∃ (n1 : Example ℝ → ℝ → Net ℝ) (y : Example ℝ → ℝ → Tensor ℝ) (n' : Net ℝ) (l' : FullyConnectedLayer ℝ),
      (∀ e ∈ es, ∀ t, (m t).infer b e.x = .ok (.ok (), n1 e t) ∧ (n1 e t).get_output = .ok (y e t)) ∧
      Batch b n es n' ∧ n'.get_layers[c]? = some (.fc l') ∧
      HasDerivAt (fun t => (es.map fun e => inner n.get_output_shape e.g (y e t)).sum)
        (val l'.bias_gradients o 0 0 - val l.bias_gradients o 0 0) (val l.bias o 0 0) := by
  classical
  have hne : n.get_layers ≠ [] := by
    intro h
    rw [h] at hc
    cases hc
  have hok := (trains_ready hn).1
  have hl : l.Ok := hok.layers _ (List.mem_of_getElem? hc)
  have hb0 : bi (val l.bias o 0 0) = l.bias := by
    refine tensor_ext (hb _).1 hl.bias (hb _).2 fun i' j' k' hin => ?_
    rw [hv _ i' j' k' (by rw [← (hb _).2]; exact hin)]
    split
    · rename_i h
      rw [(Prod.mk.inj h).1, (Prod.mk.inj (Prod.mk.inj h).2).1, (Prod.mk.inj (Prod.mk.inj h).2).2]
    · rfl
  have hm0 : m (val l.bias o 0 0) = n := by
    have hc' : n.layers[c]? = some (.fc l) := hc
    obtain ⟨hlt, he⟩ := List.getElem?_eq_some_iff.mp hc'
    rw [hm, hb0]
    change { n with layers := n.layers.set c (.fc l) } = n
    rw [← he, List.set_getElem_self]
  obtain ⟨dW, dB, H⟩ := C91_batch b n hn hne hbk
  refine batch_deriv hm0 (fun l => val l.bias_gradients o 0 0) (fun e => dB e c o) es (fun fs hfs => ?_)
    fun e he => ?_
  · obtain ⟨n', a1, a2, a3, a4⟩ := H n fs hn rfl fun e he => hes e (hfs e he)
    obtain ⟨l', a5, a6⟩ := a4 c l hc
    refine ⟨n', l', a1, a5, ?_⟩
    obtain ⟨w1, w2⟩ := (fc_grad_inside a2 a3 hc a5).1 o ho
    rw [get_item_inj w1 w2 (a6 o ho).1, foldl_add_sum]
  · have hf := hes e he
    exact C58_bias b n hn hbk c l hc o (by rw [hl.rows]; exact col_inside ho) bi hb hv (val l.bias o 0 0)
      m hm e.x hf.x.1 hf.x.2 (by rw [hm0]; exact hs e he) e.g hf.g.1 hf.g.2

/-- The hypotheses of C91 hold for a fully connected layer followed by softmax, for any number of examples. -/
example (b : Build) : ∃ n : Net ℝ, Trains b n ∧ n.get_layers = [.fc exFCR, .sm exSMR2] ∧
    (∀ l ∈ n.get_layers, backable l) ∧
    (∀ k, ∃ es : List (Example ℝ), es.length = k ∧ ∀ e ∈ es, e.Fits n) := by
  have h1 : ∃ n1 : Net ℝ, (Network.new .Training : Net ℝ).add_layer b (.fc exFCR) = .ok (.ok (), n1) ∧
      ∃ n2 : Net ℝ, n1.add_layer b (.sm exSMR2) = .ok (.ok (), n2) ∧
      n2.get_layers = [.fc exFCR, .sm exSMR2] ∧
      n2.get_input_shape = ⟨3, 1, 1⟩ ∧ n2.get_output_shape = ⟨2, 1, 1⟩ := by
    cases b <;> exact ⟨_, rfl, _, rfl, rfl, rfl, rfl⟩
  obtain ⟨n1, h1, n2, h2, h3, h4, h5⟩ := h1
  refine ⟨n2, .add_layer _ (.sm exSMR2) _ _ (.add_layer _ (.fc exFCR) _ _ .new exFCR_ok h1) exSMR2_ok h2, h3, ?_, ?_⟩
  · rw [h3]
    intro l hl
    simp only [List.mem_cons, List.not_mem_nil, or_false] at hl
    rcases hl with rfl | rfl
    · trivial
    · exact ⟨rfl, rfl⟩
  · intro k
    refine ⟨List.replicate k ⟨zeros ⟨3, 1, 1⟩, zeros ⟨2, 1, 1⟩⟩, List.length_replicate .., fun e he => ?_⟩
    obtain rfl := List.eq_of_mem_replicate he
    exact ⟨⟨zeros_wf (by decide), h4.symm⟩, ⟨zeros_wf (by decide), h5.symm⟩⟩

open Toy in
/-- Two examples in turn. -/
example : ∃ m l, Batch .debug exNet [⟨⟨⟨1, 2, 2⟩, ⟨2, 1, 1⟩, [10, 1]⟩, ⟨⟨1, 3, 3⟩, ⟨3, 1, 1⟩, [2, 7, 1]⟩⟩,
      ⟨⟨⟨1, 2, 2⟩, ⟨2, 1, 1⟩, [20, 1]⟩, ⟨⟨1, 3, 3⟩, ⟨3, 1, 1⟩, [3, 7, 1]⟩⟩] m ∧
    m.get_layers[0]? = some (.fc l) ∧ l.bias_gradients.data = [5, 0, 0] :=
  ⟨_, _, .step _ _ _ _ _ _ rfl rfl (.step _ _ _ _ _ _ rfl rfl (.done _)), rfl, rfl⟩

end Rusty
