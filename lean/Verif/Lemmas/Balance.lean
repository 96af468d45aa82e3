import Verif.Lemmas.Rescaling
import Verif.Lemmas.Derivative
import Verif.Props.Pooling
import Verif.Spec.Balance

/-! # Helper lemmas: the balance of values and gradients -/

namespace Rusty

open F32Ops Spec Exact

variable {b : Build}

theorem dot_sum (t u : Tensor ℝ) :
    dot t u = Spec.sum (t.shape.indices.map fun x => val t x.1 x.2.1 x.2.2 * val u x.1 x.2.1 x.2.2) := by
  rw [sum_indices_real]
  rfl

/-- `dot` of columns -/
theorem dot_column {t u : Tensor ℝ} (h1 : t.shape.dj = 1) (h2 : t.shape.dk = 1) :
    dot t u = ∑ i ∈ Finset.range t.shape.di.toNat, val t i 0 0 * val u i 0 0 := by
  unfold dot
  rw [h1, h2]
  change ∑ k ∈ Finset.range 1, ∑ j ∈ Finset.range 1, _ = _
  simp

theorem relu_real (v : ℝ) : relu v = max v 0 := by
  unfold relu
  by_cases h : (0 : ℝ) < v
  · rw [if_pos (by rw [real_gt]; exact h), max_eq_left h.le]
  · rw [if_neg (by rw [real_gt]; exact h), max_eq_right (not_lt.mp h)]; rfl

theorem act_real (m : NetworkRunState) (v : ℝ) : act m v = max v 0 := by
  rw [act_any m .Inference]
  first | exact relu_real v | rfl

/-- what passes the ReLU, times the value before it, is the gradient times the value after it -/
theorem masked_preact (l : FullyConnectedLayer ℝ) (s g : Tensor ℝ) (o : Nat) :
    masked l ⟨s, g, s, s⟩ o * preact l s o = act l.run_state (preact l s o) * val g o 0 0 := by
  rw [act_real]
  change mul (if gt (preact l s o) (zero : ℝ) then one else zero) (val g o 0 0) * _ = _
  by_cases h : 0 < preact l s o
  · rw [if_pos (by rw [real_gt]; exact h), max_eq_left h.le]
    simp only [real_mul, real_one]
    ring
  · rw [if_neg (by rw [real_gt]; exact h), max_eq_right (not_lt.mp h)]
    simp

/-- a round of a fully connected layer -/
theorem fc_balance {l : FullyConnectedLayer ℝ} (hl : l.Ok) (hm : l.run_state = .Training) {l2 : AnyLayer ℝ}
    {s s' g g' : Tensor ℝ} (h : LayerRound b (.fc l) l2 s s' g g') (ha : applies b (.fc l) s s')
    (hb2 : ∀ f, l2 = .fc f → f.Ok ∧ f.run_state = .Training ∧ f.weights = l.weights ∧ f.bias = l.bias) :
    ∃ f, l2 = .fc f ∧ dot s g' = weightFlow l f ∧ dot s' g = weightFlow l f + biasFlow (.fc l, .fc f) := by
  obtain ⟨a1, a2, a3, f, rfl, a4⟩ := fc_round hl hm h
  obtain ⟨f1, f2, f3, f4⟩ := hb2 f rfl
  have hs : s.shape = ⟨l.weights.shape.dj, 1, 1⟩ := h.hx.2
  have hs' : s'.shape = l.bias.shape := h.hy.2
  have hb := f1.buffers f2
  have wg : ∀ o ∈ Finset.range l.weights.shape.di.toNat, ∀ i ∈ Finset.range l.weights.shape.dj.toNat,
      val f.weights_gradients o i 0 - val l.weights_gradients o i 0 = masked l ⟨s, g, s, s⟩ o * val s i 0 0 := by
    intro o ho i hi
    have ho := Finset.mem_range.mp ho
    have hi := Finset.mem_range.mp hi
    have e := (a4 o ho).2 i hi
    rw [get_item_ok hb.1.1 (by rw [hb.1.2, f3]; exact ⟨ho, hi, by rw [hl.depth]; decide⟩)] at e
    rw [Except.ok.inj e]
    simp only [real_add, sum_real, List.sum_cons, List.sum_nil, real_mul]
    ring
  have bg : ∀ o ∈ Finset.range l.weights.shape.di.toNat,
      val f.bias_gradients o 0 0 - val l.bias_gradients o 0 0 = masked l ⟨s, g, s, s⟩ o := by
    intro o ho
    have ho := Finset.mem_range.mp ho
    have e := (a4 o ho).1
    rw [get_item_ok hb.2.2.1.1 (by rw [hb.2.2.1.2, f4, hl.rows]; exact col_inside ho)] at e
    rw [Except.ok.inj e]
    simp only [real_add]
    ring
  have wf : weightFlow l f = ∑ o ∈ Finset.range l.weights.shape.di.toNat,
      masked l ⟨s, g, s, s⟩ o * ∑ i ∈ Finset.range l.weights.shape.dj.toNat, val l.weights o i 0 * val s i 0 0 := by
    unfold weightFlow
    refine Finset.sum_congr rfl fun o ho => ?_
    rw [Finset.mul_sum]
    refine Finset.sum_congr rfl fun i hi => ?_
    rw [wg o ho i hi]
    ring
  refine ⟨f, rfl, ?_, ?_⟩
  · rw [wf, dot_column (by rw [hs]) (by rw [hs]), hs]
    simp only [Finset.mul_sum]
    rw [Finset.sum_comm]
    refine Finset.sum_congr rfl fun i hi => ?_
    rw [a3 i (Finset.mem_range.mp hi), sum_range_real, Finset.mul_sum]
    refine Finset.sum_congr rfl fun o _ => ?_
    simp only [real_mul]
    ring
  · have bf : biasFlow (.fc l, .fc f) = ∑ o ∈ Finset.range l.weights.shape.di.toNat,
        masked l ⟨s, g, s, s⟩ o * val l.bias o 0 0 := by
      change ∑ o ∈ Finset.range l.weights.shape.di.toNat, _ = _
      refine Finset.sum_congr rfl fun o ho => ?_
      rw [bg o ho]
      ring
    rw [wf, bf, ← Finset.sum_add_distrib, dot_column (by rw [hs', hl.rows]) (by rw [hs', hl.rows]), hs', hl.rows]
    refine Finset.sum_congr rfl fun o ho => ?_
    rw [← mul_add, ← preact_real, masked_preact]
    congr 1
    have hin : (AnyLayer.fc l).get_output_shape.Inside o 0 0 := by
      change l.bias.shape.Inside o 0 0
      rw [hl.rows]
      exact col_inside (Finset.mem_range.mp ho)
    exact applies_val ha hin

/-- a round of a max-pool layer -/
theorem mp_balance {l : MaxPoolLayer} (hl : l.Ok) (hm : l.run_state = .Training)
    (hb : 0 < l.output_shape.count → 0 < l.input_shape.count) {l2 : AnyLayer ℝ}
    {s s' g g' : Tensor ℝ} (h : LayerRound b (.mp l) l2 s s' g g')
    (h0 : ∀ i j k, l.output_shape.Inside i j k → 0 ≤ val s' i j k) : dot s' g = dot s g' := by
  have := realOrder
  have := realExact
  obtain ⟨⟨x1, x2⟩, ⟨y1, y2⟩, ⟨g1, g2⟩, out, og, l1, r1, r2, r3, r4, r5, r6⟩ := h
  have x2 : s.shape = l.input_shape := x2
  have y2 : s'.shape = l.output_shape := y2
  have g2 : g.shape = l.output_shape := g2
  obtain ⟨k1, out', og', origin, q1, q2, q3, q4, q5, q6⟩ :=
    C23_backward b l hl hm s out g og x1 r1 g1 r3 x2 r2 g2 r4 hb
  have e1 : (AnyLayer.mp l : AnyLayer ℝ).forward b s out = .ok (.ok (), .mp k1, out') := by
    change MaxPoolLayer.forward b l s out >>= _ = _
    rw [q1]
    rfl
  obtain ⟨_, e2⟩ := Prod.mk.inj (Except.ok.inj (r5.symm.trans e1))
  obtain ⟨rfl, rfl⟩ := Prod.mk.inj e2
  have e3 : (AnyLayer.mp k1 : AnyLayer ℝ).backward b s s' g og = .ok (.ok (), .mp k1, og') := by
    change MaxPoolLayer.backward b k1 s s' g og >>= _ = _
    rw [q2]
    rfl
  obtain ⟨_, e4⟩ := Prod.mk.inj (Except.ok.inj (r6.symm.trans e3))
  obtain ⟨_, rfl⟩ := Prod.mk.inj e4
  -- the value at the winner of a window is the maximum
  have win : ∀ x ∈ l.output_shape.indices, origin x.1 x.2.1 x.2.2 < l.input_shape.count ∧
      s.data[origin x.1 x.2.1 x.2.2]?.getD 0 = val s' x.1 x.2.1 x.2.2 := by
    rintro ⟨i, j, k⟩ hx
    have hin := mem_indices.mp hx
    obtain ⟨_, e, _⟩ := q5 i j k hin
    obtain ⟨ii, jj, _, _, _, ins, e5, e6, _⟩ := e (by
      rw [real_gt]; exact lt_of_lt_of_le (show (-2 ^ 128 : ℝ) < 0 by norm_num) (h0 i j k hin))
    simp only
    rw [e5]
    refine ⟨by rw [← x2]; exact pos_lt ins, ?_⟩
    rw [← e6]
    rfl
  rw [dot_sum, dot_sum, y2, x2]
  have a1 : ∀ x ∈ l.input_shape.indices, val s x.1 x.2.1 x.2.2 * val g' x.1 x.2.1 x.2.2 =
      (fun p => sum ((l.output_shape.indices.filter fun x => origin x.1 x.2.1 x.2.2 = p).map
        fun x => val s' x.1 x.2.1 x.2.2 * val g x.1 x.2.1 x.2.2)) (pos l.input_shape x.1 x.2.1 x.2.2) := by
    rintro ⟨a, c, e⟩ hx
    have hin := mem_indices.mp hx
    have := q6 a c e hin
    rw [get_item_ok q3 (by rw [q4]; exact hin)] at this
    simp only
    rw [Except.ok.inj this]
    symm
    refine sum_scaled _ _ _ _ fun y hy => ?_
    obtain ⟨y1, y2⟩ := List.mem_filter.mp hy
    rw [← (win y y1).2, of_decide_eq_true y2]
    unfold val
    rw [x2]
    rfl
  rw [List.map_congr_left a1]
  have e2 := congrArg (List.map (fun p => sum ((l.output_shape.indices.filter fun x =>
      origin x.1 x.2.1 x.2.2 = p).map fun x => val s' x.1 x.2.1 x.2.2 * val g x.1 x.2.1 x.2.2)))
    (pos_indices l.input_shape)
  rw [List.map_map] at e2
  refine Eq.symm ((congrArg Spec.sum e2).trans ?_)
  exact sum_scatter _ _ _ _ fun x hx => (win x hx).1

end Rusty
