import Verif.Lemmas.Descent
import Mathlib.Analysis.Calculus.Deriv.Slope
import Mathlib.Analysis.SpecialFunctions.Log.Deriv
import Mathlib.Analysis.Calculus.Deriv.Pow

/-! # C88: a small step against the recorded gradients lowers the loss -/

namespace Rusty

open F32Ops Spec Exact

/-- C88: Take a network of fully connected, max-pool and softmax layers in training mode, in exact arithmetic, an
input at which nothing is decided by a tie, and a loss with gradient `g` at the prediction.  Run `infer` and
`backward(g)` and replace the parameters of all fully connected layers by the parameters minus `η` times what
`backward` added to their recorded gradients.  All these networks predict, the one for `η = 0` predicts as before,
and the derivative of the loss at `η = 0` is minus the square sum of the recorded gradients. -/
theorem C88_rate (b : Build) (n : Net ℝ) (hn : Trains b n) (hne : n.get_layers ≠ [])
    (hbk : ∀ l ∈ n.get_layers, backable l) (x : Tensor ℝ) (hx : x.WF) (hxs : x.shape = n.get_input_shape)
    (hs : ∀ m, n.infer b x = .ok (.ok (), m) → ∀ (i : Nat) l s,
      n.get_layers[i]? = some l → m.get_intermediate_state i = .ok s → smoothAt l s)
    (n1 n2 : Net ℝ) (y0 g : Tensor ℝ) (h1 : n.infer b x = .ok (.ok (), n1)) (hy : n1.get_output = .ok y0)
    (hg : g.WF) (hgs : g.shape = n.get_output_shape) (h2 : n1.backward b g = .ok (.ok (), n2))
    (L : Tensor ℝ → ℝ) (hL : GradientOf L n.get_output_shape y0 g)
    (W bi : ℝ → Nat → Tensor ℝ) (hm : ∀ η, Moved η n n2 (W η) (bi η)) :
    ∃ (m : ℝ → Net ℝ) (y : ℝ → Tensor ℝ),
      (∀ η, (replaceNet n (W η) (bi η)).infer b x = .ok (.ok (), m η)) ∧
      (∀ η, (m η).get_output = .ok (y η)) ∧ y 0 = y0 ∧
      HasDerivAt (fun η => L (y η))
        (-∑ c ∈ Finset.range n.get_layers.length, gradSq n.get_layers[c]? n2.get_layers[c]?) 0 := by
  obtain ⟨hok, ht⟩ := trains_ready hn
  -- the layers keep their types
  have hpar := (C51_network b n n2 (.more _ _ _ (.more _ _ _ (.none _) (.infer _ _ _ _ h1))
    (.backward _ _ _ _ h2))).1
  have hk : ∀ (c : Nat) l, n.layers[c]? = some (.fc l) → ∃ l2, n2.layers[c]? = some (.fc l2) := by
    intro c l hc
    have e := congrArg (fun q => q[c]?) hpar
    unfold Network.get_layers at e
    simp only [List.getElem?_map] at e
    rw [hc] at e
    cases h : n2.layers[c]? with
    | none => rw [h] at e; cases e
    | some l2 =>
      rw [h] at e
      cases l2 with
      | fc l2 => exact ⟨l2, rfl⟩
      | conv l2 => cases e
      | mp l2 => cases e
      | sm l2 => cases e
  have h0 : replaceNet n (W 0) (bi 0) = n := by
    unfold replaceNet
    have : (n.layers.mapIdx fun i l => replaceParams l (W 0 i) (bi 0 i)) = n.layers := by
      apply List.ext_getElem?
      intro i
      rw [List.getElem?_mapIdx]
      cases h : n.layers[i]? with
      | none => rfl
      | some l =>
        cases l with
        | fc l =>
          obtain ⟨l2, e2⟩ := hk i l h
          have hl : l.Ok := hok.layers _ (List.mem_of_getElem? h)
          obtain ⟨m1, m2⟩ := hm 0 i l l2 h e2
          rw [Option.map_some, movedBy_zero hl.weights m1, movedBy_zero hl.bias m2]
          rfl
        | conv l => rfl
        | mp l => rfl
        | sm l => rfl
    rw [this]
  -- derivatives of the parameters
  let W' : Nat → Nat → Nat → Nat → ℝ →L[ℝ] ℝ := fun c i j k =>
    match n.layers[c]?, n2.layers[c]? with
    | some (.fc l), some (.fc l2) =>
      (-(val l2.weights_gradients i j k - val l.weights_gradients i j k)) • ContinuousLinearMap.id ℝ ℝ
    | _, _ => 0
  let b' : Nat → Nat → Nat → Nat → ℝ →L[ℝ] ℝ := fun c i j k =>
    match n.layers[c]?, n2.layers[c]? with
    | some (.fc l), some (.fc l2) =>
      (-(val l2.bias_gradients i j k - val l.bias_gradients i j k)) • ContinuousLinearMap.id ℝ ℝ
    | _, _ => 0
  have hp : ∀ (i : Nat) l, n.get_layers[i]? = some l →
      ParamsVary l (fun e => W e i) (fun e => bi e i) (W' i) (b' i) 0 := by
    intro i l h
    cases l with
    | fc l =>
      obtain ⟨l2, e2⟩ := hk i l h
      have q := fun η => hm η i l l2 h e2
      refine ⟨fun η => ⟨(q η).1.1, (q η).1.2.1⟩, fun η => ⟨(q η).2.1, (q η).2.2.1⟩, ?_, ?_⟩
      · have e : W' i = fun a c d => (-(val l2.weights_gradients a c d - val l.weights_gradients a c d)) •
            ContinuousLinearMap.id ℝ ℝ := by
          simp only [W']
          rw [show n.layers[i]? = some (.fc l) from h, e2]
        rw [e]
        exact movedBy_diff fun η => (q η).1
      · have e : b' i = fun a c d => (-(val l2.bias_gradients a c d - val l.bias_gradients a c d)) •
            ContinuousLinearMap.id ℝ ℝ := by
          simp only [b']
          rw [show n.layers[i]? = some (.fc l) from h, e2]
        rw [e]
        exact movedBy_diff fun η => (q η).2
    | conv l => trivial
    | mp l => trivial
    | sm l => trivial
  have joint := C58_joint b n hn hne hbk W bi W' b' 0 hp (fun _ => x) (fun _ => ⟨hx, hxs⟩) _
    (diffAt_const _ _ _) (by rw [h0]; exact hs)
  obtain ⟨m, y, n2', og, j1, j2, j3, j4, j5⟩ := joint g hg hgs
  have em : m 0 = n1 := by
    have := j1 0
    rw [h0, h1] at this
    cases this
    rfl
  have ey : y 0 = y0 := by
    have := j2 0
    rw [em, hy] at this
    cases this
    rfl
  have e2 : n2' = n2 := by
    rw [em, h2] at j3
    cases j3
    rfl
  subst e2
  refine ⟨m, y, j1, j2, ey, ?_⟩
  -- every entry of the prediction is differentiable
  have hout : ∀ η, (y η).WF ∧ (y η).shape = n.get_output_shape := by
    intro η
    have hok' : NetOk (replaceNet n (W η) (bi η)) := replaceNet_ok hok hp η
    refine infer_output hok' ?_ hx hxs (j1 η) (j2 η)
    intro h
    unfold replaceNet at h
    exact hne (show n.layers = [] by simpa using h)
  have hent : ∀ i j k, n.get_output_shape.Inside i j k →
      ∃ d, HasDerivAt (fun η => val (y η) i j k) d 0 := by
    intro i j k hin
    obtain ⟨u, u1, u2, u3⟩ := unit_tensor ((hout 0).2 ▸ (hout 0).1.fits) hin
    obtain ⟨m', y', _, _, k1, k2, _, _, k5⟩ := joint u u1 u2
    have : y' = y := by
      funext η
      have a := k1 η
      rw [j1 η] at a
      have a : m η = m' η := (Prod.mk.inj (Except.ok.inj a)).2
      have c := k2 η
      rw [← a, j2 η] at c
      exact (Except.ok.inj c).symm
    subst this
    simp only [u3] at k5
    exact ⟨_, k5.hasDerivAt⟩
  choose! d hd using hent
  have hL' := hL y d ey hout hd
  -- the two expressions for the rate agree
  have r1 : HasDerivAt (fun η => inner n.get_output_shape g (y η))
      (total n.get_output_shape fun i j k => val g i j k * d i j k) 0 :=
    hasDerivAt_total fun i j k hin => (hd i j k hin).const_mul _
  have r2 := j5.hasDerivAt
  rw [r1.unique r2, total_zero_smul, zero_add] at hL'
  convert hL' using 1
  rw [_root_.sum_apply, ← Finset.sum_neg_distrib]
  refine Finset.sum_congr rfl fun c _ => ?_
  simp only [W', b']
  unfold Network.get_layers
  cases e1 : n.layers[c]? with
  | none => exact neg_zero
  | some l =>
    cases l with
    | fc l =>
      obtain ⟨l2, e2⟩ := hk c l e1
      rw [e2]
      change -(total _ _ + total _ _) = (total _ _ + total _ _ : ℝ →L[ℝ] ℝ) 1
      rw [_root_.add_apply, total_apply, total_apply, neg_add]
    | conv l => exact neg_zero
    | mp l => exact neg_zero
    | sm l => exact neg_zero

/-- C88: if `backward` added anything to a recorded gradient, every small enough step lowers the loss. -/
theorem C88_lower (b : Build) (n : Net ℝ) (hn : Trains b n) (hne : n.get_layers ≠ [])
    (hbk : ∀ l ∈ n.get_layers, backable l) (x : Tensor ℝ) (hx : x.WF) (hxs : x.shape = n.get_input_shape)
    (hs : ∀ m, n.infer b x = .ok (.ok (), m) → ∀ (i : Nat) l s,
      n.get_layers[i]? = some l → m.get_intermediate_state i = .ok s → smoothAt l s)
    (n1 n2 : Net ℝ) (y0 g : Tensor ℝ) (h1 : n.infer b x = .ok (.ok (), n1)) (hy : n1.get_output = .ok y0)
    (hg : g.WF) (hgs : g.shape = n.get_output_shape) (h2 : n1.backward b g = .ok (.ok (), n2))
    (L : Tensor ℝ → ℝ) (hL : GradientOf L n.get_output_shape y0 g)
    (W bi : ℝ → Nat → Tensor ℝ) (hm : ∀ η, Moved η n n2 (W η) (bi η))
    (c i j k : Nat) (l l2 : FullyConnectedLayer ℝ) (hc : n.get_layers[c]? = some (.fc l))
    (hc2 : n2.get_layers[c]? = some (.fc l2))
    (hd : (l.weights.shape.Inside i j k ∧ val l2.weights_gradients i j k ≠ val l.weights_gradients i j k) ∨
      (l.bias.shape.Inside i j k ∧ val l2.bias_gradients i j k ≠ val l.bias_gradients i j k)) :
    ∃ η0 > 0, ∀ η, 0 < η → η < η0 → ∃ m y,
      (replaceNet n (W η) (bi η)).infer b x = .ok (.ok (), m) ∧ m.get_output = .ok y ∧ L y < L y0 := by
  obtain ⟨m, y, r1, r2, r3, r4⟩ := C88_rate b n hn hne hbk x hx hxs hs n1 n2 y0 g h1 hy hg hgs h2 L hL W bi hm
  have hpos : 0 < ∑ c ∈ Finset.range n.get_layers.length, gradSq n.get_layers[c]? n2.get_layers[c]? := by
    refine lt_of_lt_of_le ?_ (Finset.single_le_sum (f := fun c => gradSq n.get_layers[c]? n2.get_layers[c]?)
      (fun c _ => gradSq_nonneg _ _) (Finset.mem_range.mpr (List.getElem?_eq_some_iff.mp hc).1))
    rw [hc, hc2]
    unfold gradSq
    rcases hd with ⟨d1, d2⟩ | ⟨d1, d2⟩
    · refine add_pos_of_pos_of_nonneg ?_ (total_nonneg' fun _ _ _ => sq_nonneg _)
      exact lt_of_lt_of_le (sq_pos_of_ne_zero (sub_ne_zero.mpr d2))
        (total_le_of_mem (f := fun i j k => (val l2.weights_gradients i j k - val l.weights_gradients i j k) ^ 2)
          (fun _ _ _ => sq_nonneg _) d1)
    · refine add_pos_of_nonneg_of_pos (total_nonneg' fun _ _ _ => sq_nonneg _) ?_
      exact lt_of_lt_of_le (sq_pos_of_ne_zero (sub_ne_zero.mpr d2))
        (total_le_of_mem (f := fun i j k => (val l2.bias_gradients i j k - val l.bias_gradients i j k) ^ 2)
          (fun _ _ _ => sq_nonneg _) d1)
  obtain ⟨η0, q1, q2⟩ := lower_of_deriv r4 (neg_neg_of_pos hpos)
  refine ⟨η0, q1, fun η a1 a2 => ⟨m η, y η, r1 η, r2 η, ?_⟩⟩
  have := q2 η a1 a2
  rw [r3] at this
  exact this

/-- C88: half the squared distance to a target has the gradient `y0 - target`. -/
theorem C88_squared_error (s : TensorShape) (target y0 g : Tensor ℝ)
    (hg : ∀ i j k, s.Inside i j k → val g i j k = val y0 i j k - val target i j k) :
    GradientOf (squaredError s target) s y0 g := by
  intro y y' h0 _ hd
  unfold squaredError
  refine hasDerivAt_total fun i j k hin => ?_
  have := (((hd i j k hin).sub_const (val target i j k)).pow 2).div_const 2
  rw [h0] at this
  refine this.congr_deriv ?_
  rw [hg i j k hin]
  simp
  ring

/-- C88: the cross entropy of positive predictions has the gradient `-target / y0`. -/
theorem C88_cross_entropy (s : TensorShape) (target y0 g : Tensor ℝ)
    (hp : ∀ i j k, s.Inside i j k → 0 < val y0 i j k)
    (hg : ∀ i j k, s.Inside i j k → val g i j k = -(val target i j k / val y0 i j k)) :
    GradientOf (crossEntropy s target) s y0 g := by
  intro y y' h0 _ hd
  unfold crossEntropy
  refine hasDerivAt_total fun i j k hin => ?_
  have hne : val (y 0) i j k ≠ 0 := by rw [h0]; exact (hp i j k hin).ne'
  have := (((hd i j k hin).log hne).const_mul (val target i j k)).neg
  rw [h0] at this
  refine this.congr_deriv ?_
  rw [hg i j k hin]
  ring

/-- C88: the last layer of such a network records a gradient if it is fully connected and the loss depends on one
of its positive outputs; so then every small enough step lowers the loss. -/
theorem C88_output (b : Build) (n : Net ℝ) (hn : Trains b n)
    (hbk : ∀ l ∈ n.get_layers, backable l) (x : Tensor ℝ) (hx : x.WF) (hxs : x.shape = n.get_input_shape)
    (hs : ∀ m, n.infer b x = .ok (.ok (), m) → ∀ (i : Nat) l s,
      n.get_layers[i]? = some l → m.get_intermediate_state i = .ok s → smoothAt l s)
    (n1 n2 : Net ℝ) (y0 g : Tensor ℝ) (h1 : n.infer b x = .ok (.ok (), n1)) (hy : n1.get_output = .ok y0)
    (hg : g.WF) (hgs : g.shape = n.get_output_shape) (h2 : n1.backward b g = .ok (.ok (), n2))
    (L : Tensor ℝ → ℝ) (hL : GradientOf L n.get_output_shape y0 g)
    (W bi : ℝ → Nat → Tensor ℝ) (hm : ∀ η, Moved η n n2 (W η) (bi η))
    (l : FullyConnectedLayer ℝ) (hl : n.get_layers.getLast? = some (.fc l)) (o : Nat)
    (ho : o < l.weights.shape.di.toNat) (hpos : 0 < val y0 o 0 0) (hgo : val g o 0 0 ≠ 0) :
    ∃ η0 > 0, ∀ η, 0 < η → η < η0 → ∃ m y,
      (replaceNet n (W η) (bi η)).infer b x = .ok (.ok (), m) ∧ m.get_output = .ok y ∧ L y < L y0 := by
  obtain ⟨hok, ht⟩ := trains_ready hn
  have hne : n.layers ≠ [] := by
    intro h
    unfold Network.get_layers at hl
    rw [h] at hl
    cases hl
  have hlast : n.layers[n.layers.length - 1]? = some (.fc l) := by
    rw [← List.getLast?_eq_getElem?]
    exact hl
  have hp0 : n.layers.length ≠ 0 := fun e => hne (List.length_eq_zero_iff.mp e)
  have hlo : l.Ok := hok.layers _ (List.mem_of_getElem? hlast)
  have hlm : l.run_state = .Training := ht.layers _ (List.mem_of_getElem? hlast)
  have hlg : n.output_shape = l.get_output_shape := hok.chain.last _ hl
  obtain ⟨n', i1, _, i3⟩ := infer_ok (b := b) hok hne hx hxs
  cases i1.symm.trans h1
  obtain ⟨s, s', e1, e2, e3, out, l', e4, e5, e6, e7, e8, e9⟩ := i3 _ _ hlast
  have hok1 := uses_netOk hok (.infer _ _ _ _ h1)
  have ht1 := infer_trainReady hok ht h1
  have hlen : n1.layers.length = n.layers.length := forall₂_length (infer_effect n x _ h1).1
  have hlen2 := chain_length hok1.chain
  rw [if_neg (fun h => hp0 (by rw [← hlen, h]; rfl)), hlen] at hlen2
  have hsy : y0 = s' := by
    rw [show n.layers.length - 1 + 1 = n.layers.length by omega] at e2
    unfold Network.get_output at hy
    rw [if_neg (by omega), List.getLast?_eq_getElem?, hlen2, show n.layers.length + 1 - 1 =
      n.layers.length by omega, e2] at hy
    exact (Except.ok.inj hy).symm
  subst hsy
  obtain ⟨c1, c2, _⟩ := C43_chain b n1 n2 g h2
  obtain ⟨x', y', gi, og, og', l2, b1, b2, b3, b4, b5, b6, b7⟩ := c2 _ _ e4
  have hx' : x' = s := by
    unfold Network.get_intermediate_state at b1
    rw [e1] at b1
    exact (Except.ok.inj b1).symm
  have hy' : y' = y0 := by
    unfold Network.get_intermediate_state at b2
    rw [e2] at b2
    exact (Except.ok.inj b2).symm
  have hgi : gi = g := by
    unfold Network.get_layers at c1
    rw [show n.layers.length - 1 + 1 = n1.layers.length by omega, c1] at b3
    exact (Option.some.inj b3).symm
  subst hx' hy' hgi
  have hog : og.WF ∧ og.shape = l.get_input_shape := by
    refine ⟨ht1.wf og (List.mem_of_getElem? b4), ?_⟩
    have := congrArg (fun q => q[n.layers.length - 1]?) ht1.grads
    simp only [List.getElem?_map, b4, e1, Option.map_some] at this
    exact (Option.some.inj this).trans e6
  obtain ⟨l1, out', l2', og2, f1, f2, fok, fsp, _, _, _, f3⟩ := C28_round b l hlo hlm ⟨x', gi, out, og⟩
    ⟨⟨e5, e6⟩, ⟨hg, hgs.trans hlg⟩, ⟨e7, e8⟩, hog⟩
  have e9' : (AnyLayer.fc l).forward b x' out = .ok (.ok (), .fc l1, out') := by
    change FullyConnectedLayer.forward b l x' out >>= _ = _
    rw [f1]
    rfl
  obtain ⟨_, e10⟩ := Prod.mk.inj (Except.ok.inj (e9.symm.trans e9'))
  obtain ⟨rfl, rfl⟩ := Prod.mk.inj e10
  have b7' : (AnyLayer.fc l1).backward b x' y' gi og = .ok (.ok (), .fc l2', og2) := by
    change FullyConnectedLayer.backward b l1 x' y' gi og >>= _ = _
    rw [f2]
    rfl
  obtain ⟨_, e11⟩ := Prod.mk.inj (Except.ok.inj (b7.symm.trans b7'))
  obtain ⟨rfl, rfl⟩ := Prod.mk.inj e11
  have hin : l.bias.shape.Inside o 0 0 := by rw [hlo.rows]; exact col_inside ho
  refine C88_lower b n hn hne hbk x hx hxs hs n1 n2 y' gi h1 hy hg hgs h2 L hL W bi hm _ o 0 0 l l2' hlast b6
    (.inr ⟨hin, ?_⟩)
  -- what was added is the gradient itself
  have hino : (AnyLayer.fc l).get_output_shape.Inside o 0 0 := hin
  have hgt : gt (preact l x' o) zero = true := by
    have hv := get_item_ok (b := b) e3.1 (i := o) (j := 0) (k := 0) (by rw [e3.2.1]; exact hino)
    rw [e3.2.2 o 0 0 hino] at hv
    have hv := Except.ok.inj hv
    rw [← hv] at hpos
    simp only [layerAt, hlm, act, relu] at hpos
    by_contra hc
    rw [if_neg hc] at hpos
    exact lt_irrefl _ hpos
  have hb := (f3 o ho).1
  unfold masked at hb
  rw [if_pos hgt] at hb
  have hbw : val l2'.bias_gradients o 0 0 = val l.bias_gradients o 0 0 + 1 * val gi o 0 0 := by
    obtain ⟨_, _, ⟨w1, w2⟩, _⟩ := fok.buffers (fsp.2.2.2.trans hlm)
    rw [get_item_ok w1 (by rw [w2, fsp.2.1]; exact hin)] at hb
    exact Except.ok.inj hb
  rw [hbw, one_mul]
  intro h
  exact hgo (by linarith)

/-- A network of one fully connected layer, an input, a loss and a path of steps for which all hypotheses of
`C88_output` hold: the outputs are 1 and 0, the target of the squared error is 0. -/
example (b : Build) : ∃ (n n1 n2 : Net ℝ) (x y0 g : Tensor ℝ) (W bi : ℝ → Nat → Tensor ℝ),
    Trains b n ∧ (∀ l ∈ n.get_layers, backable l) ∧ x.WF ∧ x.shape = n.get_input_shape ∧
    (∀ m, n.infer b x = .ok (.ok (), m) → ∀ (i : Nat) l s,
      n.get_layers[i]? = some l → m.get_intermediate_state i = .ok s → smoothAt l s) ∧
    n.infer b x = .ok (.ok (), n1) ∧ n1.get_output = .ok y0 ∧ g.WF ∧ g.shape = n.get_output_shape ∧
    n1.backward b g = .ok (.ok (), n2) ∧
    GradientOf (squaredError n.get_output_shape (zeros ⟨2, 1, 1⟩)) n.get_output_shape y0 g ∧
    (∀ η, Moved η n n2 (W η) (bi η)) ∧ n.get_layers.getLast? = some (.fc exFCR) ∧
    0 < val y0 0 0 0 ∧ val g 0 0 0 ≠ 0 := by
  obtain ⟨n, h1, h2, h3, h4⟩ : ∃ n : Net ℝ, (Network.new .Training : Net ℝ).add_layer b (.fc exFCR) =
      .ok (.ok (), n) ∧ n.layers = [.fc exFCR] ∧ n.input_shape = ⟨3, 1, 1⟩ ∧ n.output_shape = ⟨2, 1, 1⟩ := by
    cases b <;> exact ⟨_, rfl, rfl, rfl, rfl⟩
  have hn : Trains b n := .add_layer _ (.fc exFCR) _ _ .new exFCR_ok h1
  obtain ⟨hok, ht⟩ := trains_ready hn
  have hx : (zeros ⟨3, 1, 1⟩ : Tensor ℝ).WF := zeros_wf (by decide)
  have hne : n.layers ≠ [] := by rw [h2]; exact fun h => by cases h
  obtain ⟨n1, i1, _, i3⟩ := infer_ok (b := b) hok hne hx h3.symm
  obtain ⟨s, y0, _, e2, e3, _⟩ := i3 0 (.fc exFCR) (by rw [h2]; rfl)
  have hok1 := uses_netOk hok (.infer _ _ _ _ i1)
  have hlen : n1.layers.length = 1 := by
    rw [forall₂_length (infer_effect n _ _ i1).1, h2]
    rfl
  have hlen2 := chain_length hok1.chain
  rw [if_neg (fun h => by rw [h] at hlen; cases hlen), hlen] at hlen2
  have hy : n1.get_output = .ok y0 := by
    unfold Network.get_output
    rw [if_neg (by omega), List.getLast?_eq_getElem?, hlen2, e2]
  have hbk : ∀ l ∈ n.layers, backable l := by
    rw [h2]
    intro l hl
    rw [List.mem_singleton.mp hl]
    trivial
  have hys : y0.shape = n.output_shape := by rw [h4]; exact e3.2.1
  obtain ⟨n1', r, n2, j1, j2, j3⟩ := infer_backward_ok (b := b) hok ht hne (fun l hl => by
    have := hbk l hl
    cases l <;> first | exact this.elim | trivial) hx h3.symm e3.1 hys
  cases j1.symm.trans i1
  rw [j3 hbk] at j2
  have hv : val y0 0 0 0 = 1 := by
    have hin : y0.shape.Inside 0 0 0 := by rw [hys, h4]; exact ⟨by decide, by decide, by decide⟩
    have hg := e3.2.2 0 0 0 (by rw [← e3.2.1]; exact hin)
    rw [get_item_ok e3.1 hin] at hg
    rw [Except.ok.inj hg]
    have hp : preact exFCR s 0 = 1 := by
      rw [preact_real, Finset.sum_eq_zero fun i _ => by
        rw [show val exFCR.weights 0 i 0 = 0 from val_zeros _ _ _ _, zero_mul], zero_add]
      rfl
    change relu (preact exFCR s 0) = 1
    rw [hp]
    unfold relu
    exact if_pos (decide_eq_true (zero_lt_one' ℝ))
  have step : ∀ (u g1 g2 : Tensor ℝ) (η : ℝ), ∃ t, u.WF → MovedBy η u g1 g2 t := by
    intro u g1 g2 η
    by_cases hu : u.WF
    · obtain ⟨t, t1, t2, t3⟩ := tensor_of_fn hu.fits
        fun i j k => val u i j k - η * (val g2 i j k - val g1 i j k)
      exact ⟨t, fun _ => ⟨t1, t2, t3⟩⟩
    · exact ⟨u, fun h => absurd h hu⟩
  choose T hT using step
  let gw : Nat → Tensor ℝ := fun c => match n2.layers[c]? with
    | some (.fc l2) => l2.weights_gradients
    | _ => blank
  let gb : Nat → Tensor ℝ := fun c => match n2.layers[c]? with
    | some (.fc l2) => l2.bias_gradients
    | _ => blank
  refine ⟨n, n1, n2, zeros ⟨3, 1, 1⟩, y0, y0,
    fun η c => T exFCR.weights exFCR.weights_gradients (gw c) η,
    fun η c => T exFCR.bias exFCR.bias_gradients (gb c) η, hn, hbk, hx, h3.symm, ?_, i1, hy, e3.1, hys, j2,
    C88_squared_error _ _ _ _ (fun i j k _ => ?_), ?_, ?_, ?_, ?_⟩
  · intro m _ i l s hi _
    unfold Network.get_layers at hi
    rw [h2] at hi
    match i, hi with
    | 0, hi => cases hi; exact fun o h => exFCR_preact _ o h
  · rw [val_zeros]
    exact (sub_zero _).symm
  · intro η c l l2 hc hc2
    unfold Network.get_layers at hc hc2
    rw [h2] at hc
    match c, hc with
    | 0, hc =>
      cases hc
      simp only [gw, gb, hc2]
      exact ⟨hT _ _ _ _ exFCR_ok.weights, hT _ _ _ _ exFCR_ok.bias⟩
  · unfold Network.get_layers
    rw [h2]
    rfl
  · rw [hv]
    exact zero_lt_one
  · rw [hv]
    exact one_ne_zero

end Rusty
