import Verif.Lemmas.Balance
import Verif.Lemmas.Split
import Verif.Props.Rescaling

/-! # C108: the balance of values and gradients -/

namespace Rusty

open F32Ops Spec Exact

/-- the states are not negative, except perhaps the input -/
theorem states_nonneg {b : Build} {n : Net ℝ} (hok : NetOk n) (hne : n.layers ≠ [])
    (hp : ∀ l ∈ n.layers, Piecewise l) {x : Tensor ℝ} (hx : x.WF) (hxs : x.shape = n.input_shape)
    (hfirst : (∃ m, n.layers.head? = some (.mp m)) → ∀ v ∈ x.data, 0 ≤ v) {n1 : Net ℝ}
    (h : n.infer b x = .ok (.ok (), n1)) :
    ∀ i l, n.layers[i]? = some l → ∃ s s', n1.intermediate_states[i]? = some s ∧
      n1.intermediate_states[i + 1]? = some s' ∧ applies b l s s' ∧ ∀ v ∈ s'.data, 0 ≤ v := by
  obtain ⟨m, p1, p2, p3⟩ := infer_ok (b := b) hok hne hx hxs
  obtain rfl : n1 = m := by rw [h] at p1; cases p1; rfl
  have step : ∀ l, Piecewise l → ∀ s s', applies b l s s' → ((∃ m, l = .mp m) → ∀ v ∈ s.data, 0 ≤ v) →
      ∀ v ∈ s'.data, 0 ≤ v := by
    intro l hl s s' ha h0 v hv
    rw [data_indices ha.1] at hv
    obtain ⟨p, hp, rfl⟩ := List.mem_map.mp hv
    rw [applies_val ha (by rw [← ha.2.1]; exact mem_indices.mp hp)]
    cases l with
    | fc l => exact act_nonneg _ _
    | conv l => exact hl.elim
    | mp l => exact maxOf_nonneg _ (window_ne hl) (window_nonneg (h0 ⟨l, rfl⟩))
    | sm l => exact hl.elim
  intro i
  induction i with
  | zero =>
    intro l hl
    obtain ⟨s, s', f1, f2, f3, _⟩ := p3 0 _ hl
    refine ⟨s, s', f1, f2, f3, step l (hp _ (List.mem_of_getElem? hl)) _ _ f3 ?_⟩
    rintro ⟨m, rfl⟩
    obtain rfl : x = s := by rw [p2] at f1; exact Option.some.inj f1
    exact hfirst ⟨m, by rw [List.head?_eq_getElem?]; exact hl⟩
  | succ i ih =>
    intro l hl
    have hlt := (List.getElem?_eq_some_iff.mp hl).1
    obtain ⟨s, s', f1, f2, f3, _⟩ := p3 _ _ hl
    obtain ⟨_, s0, _, g2, _, g4⟩ := ih _ (List.getElem?_eq_getElem (show i < n.layers.length by omega))
    obtain rfl : s0 = s := by rw [g2] at f1; exact Option.some.inj f1
    exact ⟨s0, s', f1, f2, f3, step l (hp _ (List.mem_of_getElem? hl)) _ _ f3 fun _ => g4⟩

/-- C108: take a network of fully connected and max-pool layers.  After `infer` and `backward`, the sum of
outputs times gradients equals, for each fully connected layer, the sum of its weights times what was
collected for them, plus the sum of biases times what was collected for them in this and the later layers. -/
theorem C108_balance (b : Build) (n : Net ℝ) (hn : Trains b n) (hne : n.get_layers ≠ [])
    (hp : ∀ l ∈ n.get_layers, Piecewise l) (hbk : ∀ l ∈ n.get_layers, backable l)
    (x g : Tensor ℝ) (hx : x.WF) (hxs : x.shape = n.get_input_shape) (hg : g.WF)
    (hgs : g.shape = n.get_output_shape)
    (hfirst : (∃ m, n.get_layers.head? = some (.mp m)) → ∀ v ∈ x.data, 0 ≤ v) :
    ∃ n1 n2 out, n.infer b x = .ok (.ok (), n1) ∧ n1.backward b g = .ok (.ok (), n2) ∧
      n1.get_output = .ok out ∧
      ∀ (q : Nat) l, n.get_layers[q]? = some (.fc l) → ∃ l2, n2.get_layers[q]? = some (.fc l2) ∧
        dot out g = weightFlow l l2 + (((n.get_layers.zip n2.get_layers).drop q).map biasFlow).sum := by
  obtain ⟨hok, ht⟩ := trains_ready hn
  obtain ⟨n1, n2, a1, a2, a3, a4⟩ := net_round (b := b) hok ht hne hbk hx hxs hg hgs
  have hn2 : Trains b n2 := .backward _ _ _ _ (.infer _ _ _ _ hn a1) hg a2
  obtain ⟨hok2, ht2⟩ := trains_ready hn2
  have hpar : n2.layers.map params = n.layers.map params := by
    rw [like_map_params (backward_effect _ _ _ a2).1, like_map_params (infer_effect _ _ _ a1).1]
  have hlen : n2.layers.length = n.layers.length := by simpa using congrArg List.length hpar
  have hst := states_nonneg hok hne hp hx hxs hfirst a1
  -- a round of layer `i`
  have layer : ∀ (i : Nat) l, n.layers[i]? = some l → ∃ l2 s s' gi gi', n2.layers[i]? = some l2 ∧
      n1.intermediate_states[i]? = some s ∧ n1.intermediate_states[i + 1]? = some s' ∧
      n2.intermediate_gradients[i + 1]? = some gi ∧ n2.intermediate_gradients[i]? = some gi' ∧
      dot s' gi = dot s gi' + biasFlow (l, l2) ∧
      ∀ f, l = .fc f → ∃ f2, l2 = .fc f2 ∧ dot s gi' = weightFlow f f2 := by
    intro i l hi
    obtain ⟨l2, s, s', gi, gi', b1, b2, b3, b4, b5, b6⟩ := a4 i l hi
    obtain ⟨s0, s1, d1, d2, d3, d4⟩ := hst i l hi
    obtain rfl : s = s0 := by rw [b2] at d1; exact Option.some.inj d1
    obtain rfl : s' = s1 := by rw [b3] at d2; exact Option.some.inj d2
    refine ⟨l2, s, s', gi, gi', b1, b2, b3, b4, b5, ?_⟩
    have ml := List.mem_of_getElem? hi
    have ml2 := List.mem_of_getElem? b1
    cases l with
    | conv l => exact (hp _ ml).elim
    | sm l => exact (hp _ ml).elim
    | mp l =>
      have e := mp_balance (hok.layers _ ml) (ht.layers _ ml) (hbk _ ml) b6 (fun i j k hin => d4 _ (by
        rw [data_indices d3.1]
        refine List.mem_map.mpr ⟨(i, j, k), mem_indices.mpr ?_, rfl⟩
        rw [d3.2.1]
        exact hin))
      exact ⟨by rw [e]; exact (add_zero _).symm, fun f hf => by cases hf⟩
    | fc l =>
      obtain ⟨f, rfl, e1, e2⟩ := fc_balance (hok.layers _ ml) (ht.layers _ ml) b6 d3 (fun f hf => by
        subst hf
        refine ⟨hok2.layers _ ml2, ht2.layers _ ml2, ?_⟩
        obtain ⟨l0, e1, e2⟩ := map_get hpar b1
        rw [hi] at e1
        obtain rfl := Option.some.inj e1
        simp only [params, AnyLayer.fc.injEq, FullyConnectedLayer.mk.injEq, true_and] at e2
        exact ⟨e2.1, e2.2.1⟩)
      refine ⟨by rw [e1, e2], ?_⟩
      rintro f' h
      obtain rfl := AnyLayer.fc.inj h
      exact ⟨f, rfl, e1⟩
  -- the output
  obtain ⟨out, hout, ho⟩ := infer_last_state hok hne a1
  have key : ∀ e i, i + e = n.layers.length → ∃ s gi, n1.intermediate_states[i]? = some s ∧
      n2.intermediate_gradients[i]? = some gi ∧
      dot out g = dot s gi + (((n.layers.zip n2.layers).drop i).map biasFlow).sum := by
    intro e
    induction e with
    | zero =>
      intro i hi
      obtain rfl : i = n.layers.length := by omega
      refine ⟨out, g, ho, a3, ?_⟩
      rw [List.drop_of_length_le (by rw [List.length_zip]; omega)]
      simp
    | succ e ih =>
      intro i hi
      have hi' : n.layers[i]? = some (n.layers[i]'(by omega)) := List.getElem?_eq_getElem (by omega)
      obtain ⟨l2, s, s', gi, gi', e1, e2, e3, e4, e5, e6, _⟩ := layer i _ hi'
      obtain ⟨s0, g0, k1, k2, k3⟩ := ih (i + 1) (by omega)
      obtain rfl : s' = s0 := by rw [e3] at k1; exact Option.some.inj k1
      obtain rfl : gi = g0 := by rw [e4] at k2; exact Option.some.inj k2
      refine ⟨s, gi', e2, e5, ?_⟩
      have hz : i < (n.layers.zip n2.layers).length := by rw [List.length_zip]; omega
      have hd : (n.layers.zip n2.layers).drop i =
          (n.layers[i]'(by omega), l2) :: (n.layers.zip n2.layers).drop (i + 1) := by
        rw [List.drop_eq_getElem_cons hz]
        congr 1
        rw [List.getElem_zip]
        congr 1
        exact (List.getElem?_eq_some_iff.mp e1).2
      rw [hd, List.map_cons, List.sum_cons, k3, e6]
      ring
  refine ⟨n1, n2, out, a1, a2, hout, fun q l hq => ?_⟩
  obtain ⟨l2, s, s', gi, gi', e1, e2, e3, e4, e5, e6, e7⟩ := layer q _ hq
  obtain ⟨f, rfl, e8⟩ := e7 l rfl
  have hlt := (List.getElem?_eq_some_iff.mp hq).1
  obtain ⟨s0, g0, k1, k2, k3⟩ := key (n.layers.length - q) q (by
    change q < n.layers.length at hlt; omega)
  obtain rfl : s = s0 := by rw [e2] at k1; exact Option.some.inj k1
  obtain rfl : gi' = g0 := by rw [e5] at k2; exact Option.some.inj k2
  exact ⟨f, e1, by rw [k3, e8]; rfl⟩

/-- C108 without biases: the sum of the weights times what was collected for them is the same number for all
fully connected layers, the sum of outputs times gradients. -/
theorem C108_unbiased (b : Build) (n : Net ℝ) (hn : Trains b n) (hne : n.get_layers ≠ [])
    (hp : ∀ l ∈ n.get_layers, Piecewise l) (hbk : ∀ l ∈ n.get_layers, backable l)
    (h0 : ∀ l : FullyConnectedLayer ℝ, .fc l ∈ n.get_layers → ∀ v ∈ l.bias.data, v = 0)
    (x g : Tensor ℝ) (hx : x.WF) (hxs : x.shape = n.get_input_shape) (hg : g.WF)
    (hgs : g.shape = n.get_output_shape)
    (hfirst : (∃ m, n.get_layers.head? = some (.mp m)) → ∀ v ∈ x.data, 0 ≤ v) :
    ∃ n1 n2 out, n.infer b x = .ok (.ok (), n1) ∧ n1.backward b g = .ok (.ok (), n2) ∧
      n1.get_output = .ok out ∧
      ∀ (q : Nat) l, n.get_layers[q]? = some (.fc l) → ∃ l2, n2.get_layers[q]? = some (.fc l2) ∧
        weightFlow l l2 = dot out g := by
  obtain ⟨n1, n2, out, a1, a2, a3, a4⟩ := C108_balance b n hn hne hp hbk x g hx hxs hg hgs hfirst
  refine ⟨n1, n2, out, a1, a2, a3, fun q l hq => ?_⟩
  obtain ⟨l2, e1, e2⟩ := a4 q l hq
  refine ⟨l2, e1, ?_⟩
  rw [e2, List.sum_eq_zero fun v hv => ?_, add_zero]
  obtain ⟨⟨k, k2⟩, hk, rfl⟩ := List.mem_map.mp hv
  have mk := (List.of_mem_zip (List.mem_of_mem_drop hk)).1
  cases k with
  | fc k =>
    cases k2 with
    | fc k2 =>
      refine Finset.sum_eq_zero fun o _ => ?_
      rw [val_of_zeros (h0 k mk), zero_mul]
    | conv k2 => rfl
    | mp k2 => rfl
    | sm k2 => rfl
  | conv k => rfl
  | mp k => rfl
  | sm k => rfl

/-- The hypotheses of C108 hold for `max(0, 3 max(0, 2 x + 1) + 1)`. -/
example (b : Build) : ∃ n : Net ℝ, Trains b n ∧ n.get_layers = [.fc (exOneR 2 1), .fc (exOneR 3 1)] ∧
    (∀ l ∈ n.get_layers, Piecewise l) ∧ (∀ l ∈ n.get_layers, backable l) ∧ (unitT 5).WF ∧ (unitT 1).WF ∧
    (unitT 5).shape = n.get_input_shape ∧ (unitT 1).shape = n.get_output_shape := by
  obtain ⟨n, h1, h2, h3, h4⟩ := exOneR_trains b 2 1 3 1
  refine ⟨n, h1, h2, ?_, ?_, unitT_wf 5, unitT_wf 1, h3.symm, h4.symm⟩ <;>
  · rw [h2]
    intro l hl
    simp only [List.mem_cons, List.not_mem_nil, or_false] at hl
    rcases hl with rfl | rfl <;> trivial

end Rusty
