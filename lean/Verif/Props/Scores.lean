import Verif.Props.Softmax
import Verif.Props.Network
import Verif.Lemmas.Split
import Verif.Props.FinalSoftmax
import Verif.Lemmas.LayerDerivative

/-! # C154: what differences of scores mean for the probabilities -/

namespace Rusty

open F32Ops Spec Exact

/-- C154: in exact arithmetic the ratio of two probabilities is the exponential of the difference of the scores. -/
theorem C154_odds (x out y : Tensor ℝ) (hx : x.WF) (ho : out.WF) (hs : x.shape = out.shape)
    (h : Tensor.softmax x out = .ok y) (i j k i' j' k' : Nat) (hi : x.shape.Inside i j k)
    (hi' : x.shape.Inside i' j' k') :
    val y i j k = val y i' j' k' * Real.exp (val x i j k - val x i' j' k') := by
  obtain ⟨y', h1, _, _, h4⟩ := softmax_real hx ho hs
  rw [h] at h1
  cases h1
  rw [h4 i j k (hs ▸ hi), h4 i' j' k' (hs ▸ hi'), div_mul_eq_mul_div, ← Real.exp_add, add_sub_cancel]

/-- C154: raising one score raises its probability, if there are others, and lowers all other probabilities. -/
theorem C154_raise (x x' out y y' : Tensor ℝ) (hx : x.WF) (hx' : x'.WF) (ho : out.WF) (hs : x.shape = out.shape)
    (hs' : x'.shape = out.shape) (h : Tensor.softmax x out = .ok y) (h' : Tensor.softmax x' out = .ok y')
    (i j k : Nat) (hi : x.shape.Inside i j k) (hr : val x i j k < val x' i j k)
    (he : ∀ i' j' k', x.shape.Inside i' j' k' → (i', j', k') ≠ (i, j, k) → val x' i' j' k' = val x i' j' k') :
    (∀ i' j' k', x.shape.Inside i' j' k' → (i', j', k') ≠ (i, j, k) →
      val y i j k < val y' i j k ∧ val y' i' j' k' < val y i' j' k') ∧ val y i j k ≤ val y' i j k := by
  obtain ⟨_, h1, _, _, h4⟩ := softmax_real hx ho hs
  rw [h] at h1
  cases h1
  obtain ⟨_, h1', _, _, h4'⟩ := softmax_real hx' ho hs'
  rw [h'] at h1'
  cases h1'
  have hsx : x'.shape = x.shape := hs'.trans hs.symm
  rw [hsx] at h4'
  have hp : (k, j, i) ∈ idxSet x.shape := mem_idxSet.mpr hi
  have hne : ∀ q ∈ (idxSet x.shape).erase (k, j, i), x.shape.Inside q.2.2 q.2.1 q.1 ∧ (q.2.2, q.2.1, q.1) ≠ (i, j, k) := by
    rintro ⟨a, c, d⟩ hq
    refine ⟨mem_idxSet.mp (Finset.mem_of_mem_erase hq), fun h => Finset.ne_of_mem_erase hq ?_⟩
    simp only [Prod.mk.injEq] at h ⊢
    tauto
  have hR : ∑ q ∈ (idxSet x.shape).erase (k, j, i), Real.exp (val x' q.2.2 q.2.1 q.1) =
      ∑ q ∈ (idxSet x.shape).erase (k, j, i), Real.exp (val x q.2.2 q.2.1 q.1) :=
    Finset.sum_congr rfl fun q hq => by rw [he _ _ _ (hne q hq).1 (hne q hq).2]
  have hnn : (0 : ℝ) ≤ ∑ q ∈ (idxSet x.shape).erase (k, j, i), Real.exp (val x q.2.2 q.2.1 q.1) :=
    Finset.sum_nonneg fun q _ => (Real.exp_pos _).le
  have hpos : ∀ i' j' k', x.shape.Inside i' j' k' → (i', j', k') ≠ (i, j, k) →
      0 < ∑ q ∈ (idxSet x.shape).erase (k, j, i), Real.exp (val x q.2.2 q.2.1 q.1) := fun i' j' k' g1 g2 =>
    Finset.sum_pos (fun q _ => Real.exp_pos _) ⟨(k', j', i'), Finset.mem_erase.mpr ⟨fun h => g2 (by
      simp only [Prod.mk.injEq] at h ⊢
      tauto), mem_idxSet.mpr g1⟩⟩
  have hE := Real.exp_lt_exp.mpr hr
  have hE0 := Real.exp_pos (val x i j k)
  have hE1 := Real.exp_pos (val x' i j k)
  have t1 : (total x.shape fun i j k => Real.exp (val x i j k)) = Real.exp (val x i j k) +
      ∑ q ∈ (idxSet x.shape).erase (k, j, i), Real.exp (val x q.2.2 q.2.1 q.1) := by
    rw [total_prod, ← Finset.add_sum_erase _ _ hp]
  have t2 : (total x.shape fun i j k => Real.exp (val x' i j k)) = Real.exp (val x' i j k) +
      ∑ q ∈ (idxSet x.shape).erase (k, j, i), Real.exp (val x q.2.2 q.2.1 q.1) := by
    rw [total_prod, ← Finset.add_sum_erase _ _ hp, hR]
  refine ⟨fun i' j' k' g1 g2 => ⟨?_, ?_⟩, ?_⟩
  · rw [h4 i j k (hs ▸ hi), h4' i j k (hs ▸ hi), t1, t2, div_lt_div_iff₀ (by positivity) (by positivity)]
    have := hpos i' j' k' g1 g2
    nlinarith
  · rw [h4 i' j' k' (hs ▸ g1), h4' i' j' k' (hs ▸ g1), t1, t2, he i' j' k' g1 g2]
    exact div_lt_div_of_pos_left (Real.exp_pos _) (by positivity) (by linarith)
  · rw [h4 i j k (hs ▸ hi), h4' i j k (hs ▸ hi), t1, t2, div_le_div_iff₀ (by positivity) (by positivity)]
    nlinarith

/-- C154: a score that exceeds all others by `m` gets at least the probability `1 / (1 + (N - 1) exp (-m))`, and a score
that exceeds no other by more than `m` gets at most that. -/
theorem C154_margin (x out y : Tensor ℝ) (hx : x.WF) (ho : out.WF) (hs : x.shape = out.shape)
    (h : Tensor.softmax x out = .ok y) (i j k : Nat) (hi : x.shape.Inside i j k) (m : ℝ) :
    ((∀ i' j' k', x.shape.Inside i' j' k' → (i', j', k') ≠ (i, j, k) → val x i' j' k' + m ≤ val x i j k) →
      1 / (1 + (x.shape.count - 1) * Real.exp (-m)) ≤ val y i j k) ∧
    ((∀ i' j' k', x.shape.Inside i' j' k' → (i', j', k') ≠ (i, j, k) → val x i j k ≤ val x i' j' k' + m) →
      val y i j k ≤ 1 / (1 + (x.shape.count - 1) * Real.exp (-m))) := by
  obtain ⟨y', h1, _, _, h4⟩ := softmax_real hx ho hs
  rw [h] at h1
  cases h1
  rw [h4 i j k (hs ▸ hi), total_prod]
  have hp : (k, j, i) ∈ idxSet x.shape := mem_idxSet.mpr hi
  have hcard : (idxSet x.shape).card = x.shape.count := by
    unfold idxSet
    rw [Finset.card_product, Finset.card_product, Finset.card_range, Finset.card_range, Finset.card_range]
    unfold TensorShape.count
    ring
  have hc1 : ((idxSet x.shape).erase (k, j, i)).card = (x.shape.count : ℝ) - 1 := by
    rw [Finset.card_erase_of_mem hp, hcard, Nat.cast_sub (by rw [← hcard]; exact Finset.card_pos.mpr ⟨_, hp⟩),
      Nat.cast_one]
  have hc0 : (0 : ℝ) ≤ (x.shape.count : ℝ) - 1 := by
    rw [← hc1]
    positivity
  rw [← Finset.add_sum_erase _ _ hp]
  have hpos : 0 < 1 + ((x.shape.count : ℝ) - 1) * Real.exp (-m) := by positivity
  have hnn : (0 : ℝ) ≤ ∑ q ∈ (idxSet x.shape).erase (k, j, i), Real.exp (val x q.2.2 q.2.1 q.1) :=
    Finset.sum_nonneg fun q _ => (Real.exp_pos _).le
  have he := Real.exp_pos (val x i j k)
  have e : Real.exp (val x i j k) * (1 + ((x.shape.count : ℝ) - 1) * Real.exp (-m)) =
      Real.exp (val x i j k) + ∑ q ∈ (idxSet x.shape).erase (k, j, i), Real.exp (val x i j k - m) := by
    rw [Finset.sum_const, nsmul_eq_mul, hc1, Real.exp_sub, Real.exp_neg]
    ring
  have hne : ∀ q ∈ (idxSet x.shape).erase (k, j, i), x.shape.Inside q.2.2 q.2.1 q.1 ∧ (q.2.2, q.2.1, q.1) ≠ (i, j, k) := by
    rintro ⟨a, c, d⟩ hq
    refine ⟨mem_idxSet.mp (Finset.mem_of_mem_erase hq), fun h => Finset.ne_of_mem_erase hq ?_⟩
    simp only [Prod.mk.injEq] at h ⊢
    tauto
  constructor
  · intro hm
    rw [div_le_div_iff₀ hpos (by positivity), one_mul, e]
    refine add_le_add_right (Finset.sum_le_sum fun q hq => Real.exp_le_exp.mpr ?_) _
    have := hm _ _ _ (hne q hq).1 (hne q hq).2
    linarith
  · intro hm
    rw [div_le_div_iff₀ (by positivity) hpos, one_mul, e]
    refine add_le_add_right (Finset.sum_le_sum fun q hq => Real.exp_le_exp.mpr ?_) _
    have := hm _ _ _ (hne q hq).1 (hne q hq).2
    linarith

/-- C154: in a network that ends with softmax, the output is what `softmax` makes of the values before the last layer, so
the above holds for every prediction. -/
theorem C154_network (b : Build) (n : Net ℝ) (hn : Built b n) (l : SoftmaxLayer ℝ)
    (hl : n.get_layers.getLast? = some (.sm l)) (x : Tensor ℝ) (hx : x.WF) (hxs : x.shape = n.get_input_shape) :
    ∃ n' z y, n.infer b x = .ok (.ok (), n') ∧ n'.get_intermediate_state (n.get_layers.length - 1) = .ok z ∧
      n'.get_output = .ok y ∧ z.WF ∧ y.WF ∧ z.shape = n.get_output_shape ∧ y.shape = n.get_output_shape ∧
      (∀ out : Tensor ℝ, out.WF → out.shape = n.get_output_shape → Tensor.softmax z out = .ok y) ∧
      ∀ i j k i' j' k', n.get_output_shape.Inside i j k → n.get_output_shape.Inside i' j' k' →
        val y i j k = val y i' j' k' * Real.exp (val z i j k - val z i' j' k') := by
  have hok := built_netOk hn
  have hne : n.get_layers ≠ [] := fun e => by rw [e] at hl; cases hl
  have hpos : 0 < n.get_layers.length := List.length_pos_iff.mpr hne
  have hi : n.layers[n.get_layers.length - 1]? = some (.sm l) := by
    rw [← hl, List.getLast?_eq_getElem?]; rfl
  have hout : n.get_output_shape = l.shape := hok.chain.last _ hl
  obtain ⟨n', h1, _, h3⟩ := infer_ok (b := b) hok hne hx hxs
  obtain ⟨z, y, g1, g2, g3, _, _, _, gz, gs, _⟩ := h3 _ _ hi
  obtain ⟨u, u1, u2⟩ := infer_last_state hok hne h1
  have e : n.layers.length - 1 + 1 = n.layers.length := Nat.sub_add_cancel hpos
  obtain rfl : u = y := by
    have g2 : n'.intermediate_states[n.layers.length - 1 + 1]? = some y := g2
    rw [e, u2] at g2
    exact Option.some.inj g2
  have gs : z.shape = l.shape := gs
  have hy : u.shape = l.shape := g3.2.1
  have hsm : ∀ out : Tensor ℝ, out.WF → out.shape = n.get_output_shape → Tensor.softmax z out = .ok u := by
    intro out ho hos
    obtain ⟨w, w1, w2, w3, w4⟩ := softmax_ok gz ho (gs.trans (hout.symm.trans hos.symm))
    rw [w1]
    refine congrArg _ (tensor_ext w2 g3.1 (w3.trans (hos.trans (hout.trans hy.symm))) fun i j k hin => ?_)
    rw [w3] at hin
    rw [w4 i j k hin]
    exact (applies_val g3 (show l.shape.Inside i j k by rw [← hout, ← hos]; exact hin)).symm
  refine ⟨n', z, u, h1, ?_, u1, gz, g3.1, gs.trans hout.symm, hy.trans hout.symm, hsm,
    fun i j k i' j' k' q1 q2 => ?_⟩
  · unfold Network.get_intermediate_state
    rw [g1]
  · rw [hout, ← gs] at q1 q2
    exact C154_odds z u u gz g3.1 (gs.trans hy.symm) (hsm u g3.1 (hy.trans hout.symm)) i j k i' j' k' q1 q2

/-! ## Non-vacuity -/

/-- two scores, one of them raised -/
example : ∃ x x' out y y' : Tensor ℝ, x.WF ∧ x'.WF ∧ out.WF ∧ x.shape = out.shape ∧ x'.shape = out.shape ∧
    Tensor.softmax x out = .ok y ∧ Tensor.softmax x' out = .ok y' ∧ x.shape.Inside 0 0 0 ∧ x.shape.Inside 1 0 0 ∧
    val x 0 0 0 < val x' 0 0 0 ∧
    ∀ i' j' k', x.shape.Inside i' j' k' → (i', j', k') ≠ (0, 0, 0) → val x' i' j' k' = val x i' j' k' := by
  have w : ∀ v : ℝ, ({ (zeros ⟨2, 1, 1⟩ : Tensor ℝ) with data := [v, 0] } : Tensor ℝ).WF := fun v =>
    wf_data (zeros_wf (s := ⟨2, 1, 1⟩) (by decide)) _ rfl
  obtain ⟨y, h1, _⟩ := softmax_real (w 0) (w 0) rfl
  obtain ⟨y', h1', _⟩ := softmax_real (w 1) (w 0) rfl
  refine ⟨_, _, _, y, y', w 0, w 1, w 0, rfl, rfl, h1, h1', by decide, by decide, ?_, ?_⟩
  · change (0 : ℝ) < 1
    norm_num
  · rintro i j k ⟨a1, a2, a3⟩ h
    have a1 : i < 2 := a1
    obtain rfl : j = 0 := Nat.lt_one_iff.mp a2
    obtain rfl : k = 0 := Nat.lt_one_iff.mp a3
    obtain rfl : i = 1 := by
      have : i ≠ 0 := fun e => h (by rw [e])
      omega
    rfl

/-- a network of a softmax layer -/
example (b : Build) : ∃ n : Net ℝ, Built b n ∧ n.get_layers.getLast? = some (.sm exSMR2) := by
  have h : ∃ n : Net ℝ, (Network.new .Training : Net ℝ).add_layer b (.sm exSMR2) = .ok (.ok (), n) ∧
      n.get_layers = [.sm exSMR2] := by
    cases b <;> exact ⟨_, rfl, rfl⟩
  obtain ⟨n, h1, h2⟩ := h
  exact ⟨n, .add_layer _ (.sm exSMR2) _ _ (.new _) exSMR2_ok h1, by rw [h2]; rfl⟩

end Rusty
