import Mathlib.Tactic.IntervalCases
import Verif.Lemmas.Balance
import Verif.Props.Scores
import Verif.Props.Equality
import Mathlib.Analysis.SpecialFunctions.Pow.Real
import Mathlib.Analysis.SpecialFunctions.Exp

/-! # C158: scaling the scores -/

namespace Rusty

open F32Ops Spec Exact

theorem scale_real {t : Tensor ℝ} (ht : t.WF) (c : ℝ) : (t.scale_self c).WF ∧ (t.scale_self c).shape = t.shape ∧
    ∀ i j k, t.shape.Inside i j k → val (t.scale_self c) i j k = val t i j k * c :=
  scale_self_ok c ht

/-- C158: the probabilities of scaled scores are the normalised powers of the probabilities: the odds of two entries are
raised to the power `c`. -/
theorem C158_odds (x out y y' : Tensor ℝ) (hx : x.WF) (ho : out.WF) (hs : x.shape = out.shape) (c : ℝ)
    (h : Tensor.softmax x out = .ok y) (h' : Tensor.softmax (x.scale_self c) out = .ok y')
    (i j k i' j' k' : Nat) (hi : x.shape.Inside i j k) (hi' : x.shape.Inside i' j' k') :
    0 < val y i j k ∧ 0 < val y' i j k ∧
      val y' i j k / val y' i' j' k' = (val y i j k / val y i' j' k') ^ c := by
  obtain ⟨w, s, v⟩ := scale_real hx c
  obtain ⟨_, h1, _, _, h4⟩ := softmax_real hx ho hs
  rw [h] at h1
  cases h1
  obtain ⟨_, h1', _, _, h4'⟩ := softmax_real w ho (s.trans hs)
  rw [h'] at h1'
  cases h1'
  have tot : ∀ z : Tensor ℝ, z.shape = x.shape → 0 < total z.shape fun i j k => Real.exp (val z i j k) := fun z e => by
    rw [total_prod, e]
    exact Finset.sum_pos (fun q _ => Real.exp_pos _) ⟨(k, j, i), mem_idxSet.mpr hi⟩
  have p : ∀ i j k, x.shape.Inside i j k → 0 < val y i j k ∧ 0 < val y' i j k := fun i j k hi => by
    rw [h4 i j k (hs ▸ hi), h4' i j k (hs ▸ hi)]
    exact ⟨div_pos (Real.exp_pos _) (tot x rfl), div_pos (Real.exp_pos _) (tot _ s)⟩
  refine ⟨(p i j k hi).1, (p i j k hi).2, ?_⟩
  rw [C154_odds x out y hx ho hs h i j k i' j' k' hi hi',
    C154_odds _ out y' w ho (s.trans hs) h' i j k i' j' k' (s ▸ hi) (s ▸ hi'),
    mul_div_cancel_left₀ _ (p i' j' k' hi').1.ne', mul_div_cancel_left₀ _ (p i' j' k' hi').2.ne',
    v i j k hi, v i' j' k' hi', ← Real.exp_mul]
  congr 1
  ring

/-- C158: scaling the scores up raises the largest probability and lowers the smallest. -/
theorem C158_sharper (x out y y' : Tensor ℝ) (hx : x.WF) (ho : out.WF) (hs : x.shape = out.shape) (c : ℝ) (hc : 1 ≤ c)
    (h : Tensor.softmax x out = .ok y) (h' : Tensor.softmax (x.scale_self c) out = .ok y')
    (i j k : Nat) (hi : x.shape.Inside i j k) :
    ((∀ i' j' k', x.shape.Inside i' j' k' → val x i' j' k' ≤ val x i j k) → val y i j k ≤ val y' i j k) ∧
    ((∀ i' j' k', x.shape.Inside i' j' k' → val x i j k ≤ val x i' j' k') → val y' i j k ≤ val y i j k) := by
  obtain ⟨w, s, v⟩ := scale_real hx c
  obtain ⟨_, h1, _, _, h4⟩ := softmax_real hx ho hs
  rw [h] at h1
  cases h1
  obtain ⟨_, h1', _, _, h4'⟩ := softmax_real w ho (s.trans hs)
  rw [h'] at h1'
  cases h1'
  rw [h4 i j k (hs ▸ hi), h4' i j k (hs ▸ hi), total_prod, total_prod, s]
  have t0 : ∀ f : Nat × Nat × Nat → ℝ, 0 < ∑ p ∈ idxSet x.shape, Real.exp (f p) := fun f =>
    Finset.sum_pos (fun q _ => Real.exp_pos _) ⟨(k, j, i), mem_idxSet.mpr hi⟩
  rw [div_le_div_iff₀ (t0 _) (t0 _), div_le_div_iff₀ (t0 _) (t0 _), v i j k hi, Finset.mul_sum, Finset.mul_sum]
  constructor
  · intro hm
    refine Finset.sum_le_sum fun p hp => ?_
    have hp := mem_idxSet.mp hp
    rw [v _ _ _ hp, ← Real.exp_add, ← Real.exp_add]
    refine Real.exp_le_exp.mpr ?_
    nlinarith [hm _ _ _ hp]
  · intro hm
    refine Finset.sum_le_sum fun p hp => ?_
    have hp := mem_idxSet.mp hp
    rw [v _ _ _ hp, ← Real.exp_add, ← Real.exp_add]
    refine Real.exp_le_exp.mpr ?_
    nlinarith [hm _ _ _ hp]

/-- C158: scores multiplied by zero give equal probabilities; and a score above all others gets a probability as close to
1 as one likes, if the scores are scaled up enough. -/
theorem C158_limits (x out : Tensor ℝ) (hx : x.WF) (ho : out.WF) (hs : x.shape = out.shape) (i j k : Nat)
    (hi : x.shape.Inside i j k) :
    (∃ y, Tensor.softmax (x.scale_self 0) out = .ok y ∧ val y i j k = 1 / x.shape.count) ∧
    ((∀ i' j' k', x.shape.Inside i' j' k' → (i', j', k') ≠ (i, j, k) → val x i' j' k' < val x i j k) →
      ∀ ε, 0 < ε → ∃ C, ∀ c, C ≤ c → ∃ y, Tensor.softmax (x.scale_self c) out = .ok y ∧ 1 - ε ≤ val y i j k) := by
  have hp : (k, j, i) ∈ idxSet x.shape := mem_idxSet.mpr hi
  have hcard : (idxSet x.shape).card = x.shape.count := by
    unfold idxSet
    rw [Finset.card_product, Finset.card_product, Finset.card_range, Finset.card_range, Finset.card_range]
    unfold TensorShape.count
    ring
  constructor
  · obtain ⟨w, s, v⟩ := scale_real hx 0
    obtain ⟨y, h1, _, _, h4⟩ := softmax_real w ho (s.trans hs)
    refine ⟨y, h1, ?_⟩
    rw [h4 i j k (hs ▸ hi), v i j k hi, mul_zero, Real.exp_zero, total_prod, s]
    congr 1
    rw [Finset.sum_congr rfl (g := fun _ => (1 : ℝ)) fun p hp => by
      rw [v _ _ _ (mem_idxSet.mp hp), mul_zero, Real.exp_zero]]
    rw [Finset.sum_const, hcard, nsmul_eq_mul, mul_one]
  · intro hm ε hε
    obtain ⟨m, m0, hm1⟩ : ∃ m : ℝ, 0 < m ∧ ∀ q ∈ (idxSet x.shape).erase (k, j, i),
        val x q.2.2 q.2.1 q.1 + m ≤ val x i j k := by
      have hlt : ∀ q ∈ (idxSet x.shape).erase (k, j, i), val x q.2.2 q.2.1 q.1 < val x i j k := fun q hq =>
        hm _ _ _ (mem_idxSet.mp (Finset.mem_of_mem_erase hq)) fun e => Finset.ne_of_mem_erase hq (by
          obtain ⟨a, d, f⟩ := q
          simp only [Prod.mk.injEq] at e ⊢
          tauto)
      rcases ((idxSet x.shape).erase (k, j, i)).eq_empty_or_nonempty with e | e
      · exact ⟨1, one_pos, fun q hq => by rw [e] at hq; cases hq⟩
      · obtain ⟨q, hq, hmax⟩ := Finset.exists_max_image _ (fun q : Nat × Nat × Nat => val x q.2.2 q.2.1 q.1) e
        refine ⟨val x i j k - val x q.2.2 q.2.1 q.1, sub_pos.mpr (hlt q hq), fun r hr => ?_⟩
        linarith [hmax r hr]
    have hc0 : (0 : ℝ) ≤ (x.shape.count : ℝ) - 1 := by
      have : 1 ≤ x.shape.count := by rw [← hcard]; exact Finset.card_pos.mpr ⟨_, hp⟩
      have := (Nat.one_le_cast (α := ℝ)).mpr this
      linarith
    have hlim : Filter.Tendsto (fun c : ℝ => ((x.shape.count : ℝ) - 1) * Real.exp (-(c * m))) Filter.atTop (nhds 0) := by
      have h1 : Filter.Tendsto (fun c : ℝ => c * m) Filter.atTop Filter.atTop :=
        Filter.tendsto_id.atTop_mul_const m0
      have h2 := (Real.tendsto_exp_neg_atTop_nhds_zero.comp h1).const_mul ((x.shape.count : ℝ) - 1)
      rw [mul_zero] at h2
      exact h2
    obtain ⟨C, hC⟩ := Filter.eventually_atTop.mp (hlim.eventually (gt_mem_nhds hε))
    refine ⟨max C 0, fun c hc => ?_⟩
    have hc1 : C ≤ c := (le_max_left _ _).trans hc
    have hc2 : 0 ≤ c := (le_max_right _ _).trans hc
    obtain ⟨w, s, v⟩ := scale_real hx c
    obtain ⟨y, h1, _⟩ := softmax_real w ho (s.trans hs)
    refine ⟨y, h1, ?_⟩
    have := (C154_margin _ out y w ho (s.trans hs) h1 i j k (s ▸ hi) (c * m)).1 fun i' j' k' g1 g2 => by
      rw [s] at g1
      rw [v _ _ _ g1, v _ _ _ hi]
      have := hm1 (k', j', i') (Finset.mem_erase.mpr ⟨fun e => g2 (by
        simp only [Prod.mk.injEq] at e ⊢
        tauto), mem_idxSet.mpr g1⟩)
      nlinarith
    rw [s] at this
    refine le_trans ?_ this
    have q := hC c hc1
    have q0 : 0 ≤ ((x.shape.count : ℝ) - 1) * Real.exp (-(c * m)) := mul_nonneg hc0 (Real.exp_pos _).le
    generalize ((x.shape.count : ℝ) - 1) * Real.exp (-(c * m)) = r at *
    rw [le_div_iff₀ (by linarith)]
    nlinarith

/-- C158: in two networks that end with a fully connected layer and softmax and differ only in that the weights and
biases of this fully connected layer are multiplied by `c`, which is not negative, the scores of the second are those of
the first, scaled by `c`, and the outputs are what softmax makes of them.  So the above holds for their predictions. -/
theorem C158_network (b : Build) (n n' : Net ℝ) (hn : Built b n) (hn' : Built b n') (pre : List (AnyLayer ℝ))
    (l l' : FullyConnectedLayer ℝ) (m m' : SoftmaxLayer ℝ) (hl : n.get_layers = pre ++ [.fc l, .sm m])
    (hl' : n'.get_layers = pre ++ [.fc l', .sm m']) (c : ℝ) (hc : 0 ≤ c) (hw : l'.weights.shape = l.weights.shape)
    (hv : ∀ o, o < l.weights.shape.di.toNat → val l'.bias o 0 0 = val l.bias o 0 0 * c ∧
      ∀ i, i < l.weights.shape.dj.toNat → val l'.weights o i 0 = val l.weights o i 0 * c)
    (x : Tensor ℝ) (hx : x.WF) (hxs : x.shape = n.get_input_shape) (hxs' : x.shape = n'.get_input_shape) :
    ∃ n1 n2 z y y', n.infer b x = .ok (.ok (), n1) ∧ n'.infer b x = .ok (.ok (), n2) ∧
      n1.get_intermediate_state (pre.length + 1) = .ok z ∧
      n2.get_intermediate_state (pre.length + 1) = .ok (z.scale_self c) ∧
      n1.get_output = .ok y ∧ n2.get_output = .ok y' ∧ z.WF ∧ y.WF ∧ z.shape = y.shape ∧
      Tensor.softmax z y = .ok y ∧ Tensor.softmax (z.scale_self c) y = .ok y' ∧
      (1 ≤ c → ∀ i j k, y.shape.Inside i j k →
        (∀ i' j' k', y.shape.Inside i' j' k' → val y i' j' k' ≤ val y i j k) → val y i j k ≤ val y' i j k) := by
  have hlen : n.get_layers.length = pre.length + 2 := by rw [hl]; simp
  have hlen' : n'.get_layers.length = pre.length + 2 := by rw [hl']; simp
  have hla : n.get_layers.getLast? = some (.sm m) := by rw [hl]; simp
  have hla' : n'.get_layers.getLast? = some (.sm m') := by rw [hl']; simp
  have hne : n.get_layers ≠ [] := by rw [hl]; simp
  have hne' : n'.get_layers ≠ [] := by rw [hl']; simp
  have hok := built_netOk hn
  obtain ⟨n1, z, y, a1, a2, a3, a4, a5, a6, a7, a8, a9⟩ := C154_network b n hn m hla x hx hxs
  obtain ⟨n2, z', y', b1, b2, b3, b4, b5, b6, b7, b8, _⟩ := C154_network b n' hn' m' hla' x hx hxs'
  obtain ⟨n1', c1, c2, c3⟩ := infer_ok (b := b) hok hne hx hxs
  obtain rfl : n1 = n1' := by rw [a1] at c1; cases c1; rfl
  obtain ⟨n2', d1, d2, d3⟩ := infer_ok (b := b) (built_netOk hn') hne' hx hxs'
  obtain rfl : n2 = n2' := by rw [b1] at d1; cases d1; rfl
  have hat : n.layers[pre.length]? = some (.fc l) := by
    change n.get_layers[pre.length]? = _
    rw [hl]; simp
  have hat' : n'.layers[pre.length]? = some (.fc l') := by
    change n'.get_layers[pre.length]? = _
    rw [hl']; simp
  have hpre : ∀ (ls : List (AnyLayer ℝ)) (q : List (AnyLayer ℝ)) (i : Nat) k, ls = pre ++ q → pre[i]? = some k →
      ls[i]? = some k := fun ls q i k e h => by
    rw [e, List.getElem?_append_left (List.getElem?_eq_some_iff.mp h).1, h]
  obtain ⟨s, t, g1, g2, g3, _, _, _, _, gs, _⟩ := c3 _ _ hat
  obtain ⟨s', t', f1, f2, f3, _⟩ := d3 _ _ hat'
  have hss := states_follow (b := b) (ls := n.layers) (ls' := pre) (ss := n1.intermediate_states)
    (ss' := n2.intermediate_states) 0
    (fun i k h => ⟨k, by rw [Nat.zero_add]; exact hpre _ _ i k hl h, rfl, fun _ _ _ _ => rfl⟩) (by rw [c2, d2])
    (fun i k h => by
      obtain ⟨u, v, e1, e2, e3, _⟩ := c3 i k h
      exact ⟨u, v, e1, e2, e3⟩)
    (fun i k h => by
      obtain ⟨u, v, e1, e2, e3, _⟩ := d3 i k (hpre _ _ i k hl' h)
      exact ⟨u, v, e1, e2, e3⟩) pre.length (le_refl _)
  rw [Nat.zero_add, g1, f1] at hss
  obtain rfl : s = s' := Option.some.inj hss
  rw [hlen] at a2
  rw [hlen'] at b2
  obtain rfl : z = t := by
    unfold Network.get_intermediate_state at a2
    rw [show pre.length + 2 - 1 = pre.length + 1 from rfl, g2] at a2
    cases a2
    rfl
  obtain rfl : z' = t' := by
    unfold Network.get_intermediate_state at b2
    rw [show pre.length + 2 - 1 = pre.length + 1 from rfl, f2] at b2
    cases b2
    rfl
  obtain ⟨w, ws, wv⟩ := scale_real a4 c
  have hzz : z' = z.scale_self c := by
    have o1 : l.Ok := hok.layers (.fc l) (by change _ ∈ n.get_layers; rw [hl]; simp)
    have o2 : l'.Ok := (built_netOk hn').layers (.fc l') (by change _ ∈ n'.get_layers; rw [hl']; simp)
    have e1 : z.shape = ⟨l.weights.shape.di, 1, 1⟩ := g3.2.1.trans o1.rows
    have e2 : z'.shape = ⟨l'.weights.shape.di, 1, 1⟩ := f3.2.1.trans o2.rows
    have hsh : z'.shape = z.shape := by rw [e1, e2, hw]
    refine tensor_ext b4 w (hsh.trans ws.symm) fun i j k hin => ?_
    have hin0 := hin
    rw [hsh] at hin
    rw [wv i j k hin, applies_val g3 (by rw [← g3.2.1]; exact hin), applies_val f3 (by rw [← f3.2.1]; exact hin0)]
    change act l'.run_state (preact l' s i) = act l.run_state (preact l s i) * c
    rw [e1] at hin
    have hi : i < l.weights.shape.di.toNat := hin.1
    rw [act_real, act_real, max_mul_of_nonneg _ _ hc, zero_mul, preact_real, preact_real, hw, (hv i hi).1, add_mul,
      Finset.sum_mul]
    congr 2
    refine Finset.sum_congr rfl fun a ha => ?_
    rw [(hv i hi).2 a (Finset.mem_range.mp ha)]
    ring
  subst hzz
  have hyz : z.shape = y.shape := a6.trans a7.symm
  have hy : Tensor.softmax (z.scale_self c) y = .ok y' := b8 y a5 (by rw [← hyz, ← ws]; exact b6)
  refine ⟨n1, n2, z, y, y', a1, b1, a2, b2, a3, b3, a4, a5, hyz, a8 y a5 a7, hy, fun h1 i j k hin hmax => ?_⟩
  refine (C158_sharper z y y y' a4 a5 hyz c h1 (a8 y a5 a7) hy i j k (hyz ▸ hin)).1 fun i' j' k' hin' => ?_
  by_contra hlt
  rw [not_le] at hlt
  have := hmax i' j' k' (hyz ▸ hin')
  rw [a9 i' j' k' i j k (by rw [← a6]; exact hin') (by rw [← a7]; exact hin)] at this
  have he : 1 < Real.exp (val z i' j' k' - val z i j k) := Real.one_lt_exp_iff.mpr (by linarith)
  have hp := (C158_odds z y y y' a4 a5 hyz c (a8 y a5 a7) hy i j k i j k (hyz ▸ hin) (hyz ▸ hin)).1
  nlinarith

/-! ## Non-vacuity -/

/-- the scores 1 and 0: the first is above all others -/
example : ∃ x out y y' : Tensor ℝ, x.WF ∧ out.WF ∧ x.shape = out.shape ∧ Tensor.softmax x out = .ok y ∧
    Tensor.softmax (x.scale_self 2) out = .ok y' ∧ x.shape.Inside 0 0 0 ∧
    ∀ i' j' k', x.shape.Inside i' j' k' → (i', j', k') ≠ (0, 0, 0) → val x i' j' k' < val x 0 0 0 := by
  have w : ({ (zeros ⟨2, 1, 1⟩ : Tensor ℝ) with data := [1, 0] } : Tensor ℝ).WF :=
    wf_data (zeros_wf (s := ⟨2, 1, 1⟩) (by decide)) _ rfl
  obtain ⟨y, h1, _⟩ := softmax_real w w rfl
  obtain ⟨w', s', _⟩ := scale_real w 2
  obtain ⟨y', h1', _⟩ := softmax_real w' w s'
  refine ⟨_, _, y, y', w, w, rfl, h1, h1', by decide, ?_⟩
  rintro i j k ⟨a1, a2, a3⟩ h
  have a1 : i < 2 := a1
  obtain rfl : j = 0 := Nat.lt_one_iff.mp a2
  obtain rfl : k = 0 := Nat.lt_one_iff.mp a3
  obtain rfl : i = 1 := by
    have : i ≠ 0 := fun e => h (by rw [e])
    omega
  change (0 : ℝ) < 1
  norm_num

/-- the layer `exFCR` with its parameters doubled -/
noncomputable def exDouble : FullyConnectedLayer ℝ :=
  { exFCR with bias := { (zeros ⟨2, 1, 1⟩ : Tensor ℝ) with data := [2, -2] } }

theorem exDouble_ok : exDouble.Ok :=
  ⟨zeros_wf (by decide), wf_data (zeros_wf (s := ⟨2, 1, 1⟩) (by decide)) _ rfl, rfl, rfl, fun _ =>
    ⟨⟨zeros_wf (by decide), rfl⟩, ⟨zeros_wf (by decide), rfl⟩, ⟨zeros_wf (by decide), rfl⟩,
      ⟨zeros_wf (by decide), rfl⟩⟩⟩

/-- two networks with this layer and its double, each followed by softmax; the scores are 1 and 0, and 2 and 0 -/
example (b : Build) : ∃ n n' : Net ℝ, Built b n ∧ Built b n' ∧ n.get_layers = [] ++ [.fc exFCR, .sm exSMR2] ∧
    n'.get_layers = [] ++ [.fc exDouble, .sm exSMR2] ∧ n.get_input_shape = n'.get_input_shape ∧
    exDouble.weights.shape = exFCR.weights.shape ∧ ∀ o, o < exFCR.weights.shape.di.toNat →
      val exDouble.bias o 0 0 = val exFCR.bias o 0 0 * 2 ∧
      ∀ i, i < exFCR.weights.shape.dj.toNat → val exDouble.weights o i 0 = val exFCR.weights o i 0 * 2 := by
  have h : ∀ l, l = exFCR ∨ l = exDouble → ∃ n1 : Net ℝ,
      (Network.new .Training : Net ℝ).add_layer b (.fc l) = .ok (.ok (), n1) ∧
      ∃ n : Net ℝ, n1.add_layer b (.sm exSMR2) = .ok (.ok (), n) ∧ n.get_layers = [.fc l, .sm exSMR2] ∧
        n.get_input_shape = ⟨3, 1, 1⟩ := by
    rintro l (rfl | rfl) <;> cases b <;> exact ⟨_, rfl, _, rfl, rfl, rfl⟩
  obtain ⟨n1, a1, n, a2, a3, a4⟩ := h _ (.inl rfl)
  obtain ⟨m1, c1, m, c2, c3, c4⟩ := h _ (.inr rfl)
  refine ⟨n, m, .add_layer _ (.sm exSMR2) _ _ (.add_layer _ (.fc exFCR) _ _ (.new _) exFCR_ok a1) exSMR2_ok a2,
    .add_layer _ (.sm exSMR2) _ _ (.add_layer _ (.fc exDouble) _ _ (.new _) exDouble_ok c1) exSMR2_ok c2, a3, c3,
    a4.trans c4.symm, rfl, fun o ho => ⟨?_, fun i hi => ?_⟩⟩
  · have ho : o < 2 := ho
    have : o = 0 ∨ o = 1 := by omega
    rcases this with rfl | rfl
    · change (2 : ℝ) = 1 * 2
      norm_num
    · change (-2 : ℝ) = -1 * 2
      norm_num
  · have ho : o < 2 := ho
    have hi : i < 3 := hi
    rw [show exDouble.weights = zeros ⟨2, 3, 1⟩ from rfl, show exFCR.weights = zeros ⟨2, 3, 1⟩ from rfl]
    have : val (zeros ⟨2, 3, 1⟩ : Tensor ℝ) o i 0 = 0 := by
      interval_cases o <;> interval_cases i <;> rfl
    rw [this, zero_mul]

end Rusty
