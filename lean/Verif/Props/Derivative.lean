import Verif.Lemmas.Derivative

/-! # C29: fully connected layers compute derivatives -/

namespace Rusty

open F32Ops Spec Exact

/-! ## C29 -/

section

variable {E : Type} [NormedAddCommGroup E] [NormedSpace ℝ E]

/-- C29: in exact arithmetic let the weights, the biases and the input of a fully connected layer
depend differentiably on a parameter `e`, with derivatives `W'`, `b'`, `x'` at `e0`, and let no
pre-activation be zero there.  Then `forward` returns `Ok` for all `e`, `backward` returns `Ok` at
`e0`, and the derivative of `<g, forward(x)>` is the sum of outgoing gradient times `x'`, added weight
gradient times `W'` and added bias gradient times `b'`. -/
theorem C29_derivative (b : Build) (l : FullyConnectedLayer ℝ) (hl : l.Ok)
    (hm : l.run_state = .Training) (W bi x : E → Tensor ℝ)
    (hW : ∀ e, (W e).WF ∧ (W e).shape = l.weights.shape)
    (hb : ∀ e, (bi e).WF ∧ (bi e).shape = l.bias.shape)
    (hx : ∀ e, (x e).WF ∧ (x e).shape = l.get_input_shape) (e0 : E)
    (W' b' x' : Nat → Nat → Nat → E →L[ℝ] ℝ) (dW : DiffAt l.weights.shape W W' e0)
    (db : DiffAt l.bias.shape bi b' e0) (dx : DiffAt l.get_input_shape x x' e0)
    (hne : ∀ o, o < l.weights.shape.di.toNat →
      preact { l with weights := W e0, bias := bi e0 } (x e0) o ≠ 0)
    (out g og : Tensor ℝ) (ho : out.WF) (hos : out.shape = l.get_output_shape)
    (hg : g.WF) (hgs : g.shape = l.get_output_shape)
    (hog : og.WF) (hogs : og.shape = l.get_input_shape) :
    ∃ (l1 : E → FullyConnectedLayer ℝ) (y : E → Tensor ℝ) (l2 : FullyConnectedLayer ℝ)
      (og' : Tensor ℝ),
      (∀ e, ({ l with weights := W e, bias := bi e } : FullyConnectedLayer ℝ).forward b (x e) out =
        .ok (.ok (), l1 e, y e)) ∧
      (l1 e0).backward b (x e0) (y e0) g og = .ok (.ok (), l2, og') ∧
      HasFDerivAt (fun e => inner l.get_output_shape g (y e))
        ((total l.get_input_shape fun i j k => val og' i j k • x' i j k) +
          (total l.weights.shape fun i j k =>
            (val l2.weights_gradients i j k - val l.weights_gradients i j k) • W' i j k) +
          (total l.bias.shape fun i j k =>
            (val l2.bias_gradients i j k - val l.bias_gradients i j k) • b' i j k)) e0 := by
  obtain ⟨mask, y, y', h1, h2, h3, h4⟩ := fc_vjp (b := b) hl hm hW hb hx dW db dx hne
    (out := fun _ => out) fun _ => ⟨ho, hos⟩
  obtain ⟨l2, og', q1, _, _, q2⟩ := h4 (y e0) g og hg hgs hog hogs
  exact ⟨_, y, l2, og', h1, q1, q2 ▸ inner_deriv h3 g⟩

end

/-- derivative of a tensor in which only entry `(i,j,k)` varies -/
theorem diffAt_entry {s : TensorShape} {x : ℝ → Tensor ℝ} {x0 : Tensor ℝ} {i j k : Nat}
    (h : ∀ t i' j' k', s.Inside i' j' k' →
      val (x t) i' j' k' = if (i', j', k') = (i, j, k) then t else val x0 i' j' k') (t0 : ℝ) :
    DiffAt s x (fun i' j' k' => if (i', j', k') = (i, j, k) then ContinuousLinearMap.id ℝ ℝ else 0)
      t0 := by
  intro i' j' k' hin
  simp only
  have e1 : (fun t => val (x t) i' j' k') =
      fun t => if (i', j', k') = (i, j, k) then t else val x0 i' j' k' := by
    funext t
    exact h t i' j' k' hin
  rw [e1]
  split
  · exact hasFDerivAt_id t0
  · exact hasFDerivAt_const _ _

/-- derivative of a constant tensor -/
theorem diffAt_const {E : Type} [NormedAddCommGroup E] [NormedSpace ℝ E] (s : TensorShape)
    (x : Tensor ℝ) (e0 : E) : DiffAt s (fun _ => x) (fun _ _ _ => 0) e0 :=
  fun _ _ _ _ => hasFDerivAt_const _ _

theorem total_zero_smul (s : TensorShape) (f : Nat → Nat → Nat → ℝ) :
    (total s fun i j k => f i j k • (0 : ℝ →L[ℝ] ℝ)) = 0 := by
  unfold total
  simp

theorem total_single {s : TensorShape} {i j k : Nat} (h : s.Inside i j k)
    (f : Nat → Nat → Nat → ℝ) :
    (total s fun i' j' k' => f i' j' k' •
      (if (i', j', k') = (i, j, k) then ContinuousLinearMap.id ℝ ℝ else 0)) 1 = f i j k := by
  have e : (total s fun i' j' k' => f i' j' k' •
      (if (i', j', k') = (i, j, k) then ContinuousLinearMap.id ℝ ℝ else 0)) =
      f i j k • ContinuousLinearMap.id ℝ ℝ := by
    unfold total
    beta_reduce
    rw [Finset.sum_eq_single k, Finset.sum_eq_single j, Finset.sum_eq_single i]
    · rw [if_pos rfl]
    · intro i' _ hne
      rw [if_neg (by simp [hne]), smul_zero]
    · intro hn; exact absurd (Finset.mem_range.mpr h.1) hn
    · intro j' _ hne
      exact Finset.sum_eq_zero fun i' _ => by rw [if_neg (by simp [hne]), smul_zero]
    · intro hn; exact absurd (Finset.mem_range.mpr h.2.1) hn
    · intro k' _ hne
      exact Finset.sum_eq_zero fun j' _ => Finset.sum_eq_zero fun i' _ => by
        rw [if_neg (by simp [hne]), smul_zero]
    · intro hn; exact absurd (Finset.mem_range.mpr h.2.2) hn
  rw [e]
  simp

/-- C29, input: vary entry `i` of the input, keep everything else.  The ordinary derivative of
`<g, forward(x)>` is entry `i` of the outgoing gradient. -/
theorem C29_input (b : Build) (l : FullyConnectedLayer ℝ) (hl : l.Ok)
    (hm : l.run_state = .Training) (x0 : Tensor ℝ) (i : Nat) (x : ℝ → Tensor ℝ)
    (hx : ∀ t, (x t).WF ∧ (x t).shape = l.get_input_shape)
    (hv : ∀ t i' j' k', l.get_input_shape.Inside i' j' k' →
      val (x t) i' j' k' = if (i', j', k') = (i, 0, 0) then t else val x0 i' j' k') (t0 : ℝ)
    (hi : i < l.weights.shape.dj.toNat)
    (hne : ∀ o, o < l.weights.shape.di.toNat → preact l (x t0) o ≠ 0)
    (out g og : Tensor ℝ) (ho : out.WF) (hos : out.shape = l.get_output_shape)
    (hg : g.WF) (hgs : g.shape = l.get_output_shape)
    (hog : og.WF) (hogs : og.shape = l.get_input_shape) :
    ∃ (l1 : ℝ → FullyConnectedLayer ℝ) (y : ℝ → Tensor ℝ) (l2 : FullyConnectedLayer ℝ)
      (og' : Tensor ℝ),
      (∀ t, l.forward b (x t) out = .ok (.ok (), l1 t, y t)) ∧
      (l1 t0).backward b (x t0) (y t0) g og = .ok (.ok (), l2, og') ∧
      HasDerivAt (fun t => inner l.get_output_shape g (y t)) (val og' i 0 0) t0 := by
  obtain ⟨l1, y, l2, og', h1, h2, h3⟩ := C29_derivative b l hl hm (fun _ => l.weights)
    (fun _ => l.bias) x (fun _ => ⟨hl.weights, rfl⟩) (fun _ => ⟨hl.bias, rfl⟩) hx t0 _ _ _
    (diffAt_const _ _ _) (diffAt_const _ _ _) (diffAt_entry hv t0) hne out g og ho hos hg hgs hog hogs
  refine ⟨l1, y, l2, og', h1, h2, ?_⟩
  have := h3.hasDerivAt
  rw [total_zero_smul, total_zero_smul, add_zero, add_zero, total_single (s := l.get_input_shape) (col_inside hi)] at this
  exact this

/-- C29, weights: vary weight `(o,i)`, keep everything else.  The ordinary derivative of
`<g, forward(x)>` is what `backward` adds to entry `(o,i)` of the weight gradient. -/
theorem C29_weight (b : Build) (l : FullyConnectedLayer ℝ) (hl : l.Ok)
    (hm : l.run_state = .Training) (o i : Nat) (W : ℝ → Tensor ℝ)
    (hW : ∀ t, (W t).WF ∧ (W t).shape = l.weights.shape)
    (hv : ∀ t i' j' k', l.weights.shape.Inside i' j' k' →
      val (W t) i' j' k' = if (i', j', k') = (o, i, 0) then t else val l.weights i' j' k') (t0 : ℝ)
    (ho' : o < l.weights.shape.di.toNat) (hi : i < l.weights.shape.dj.toNat) (x : Tensor ℝ)
    (hx : x.WF) (hxs : x.shape = l.get_input_shape)
    (hne : ∀ o, o < l.weights.shape.di.toNat → preact { l with weights := W t0 } x o ≠ 0)
    (out g og : Tensor ℝ) (ho : out.WF) (hos : out.shape = l.get_output_shape)
    (hg : g.WF) (hgs : g.shape = l.get_output_shape)
    (hog : og.WF) (hogs : og.shape = l.get_input_shape) :
    ∃ (l1 : ℝ → FullyConnectedLayer ℝ) (y : ℝ → Tensor ℝ) (l2 : FullyConnectedLayer ℝ)
      (og' : Tensor ℝ),
      (∀ t, ({ l with weights := W t } : FullyConnectedLayer ℝ).forward b x out =
        .ok (.ok (), l1 t, y t)) ∧
      (l1 t0).backward b x (y t0) g og = .ok (.ok (), l2, og') ∧
      HasDerivAt (fun t => inner l.get_output_shape g (y t))
        (val l2.weights_gradients o i 0 - val l.weights_gradients o i 0) t0 := by
  obtain ⟨l1, y, l2, og', h1, h2, h3⟩ := C29_derivative b l hl hm W
    (fun _ => l.bias) (fun _ => x) hW (fun _ => ⟨hl.bias, rfl⟩) (fun _ => ⟨hx, hxs⟩) t0 _ _ _
    (diffAt_entry hv t0) (diffAt_const _ _ _) (diffAt_const _ _ _) hne out g og ho hos hg hgs hog hogs
  refine ⟨l1, y, l2, og', h1, h2, ?_⟩
  have := h3.hasDerivAt
  rw [total_zero_smul, total_zero_smul, add_zero, zero_add,
    total_single ⟨ho', hi, by rw [hl.depth]; decide⟩ fun i j k =>
      val l2.weights_gradients i j k - val l.weights_gradients i j k] at this
  exact this

/-- C29, biases: vary bias `o`, keep everything else.  The ordinary derivative of `<g, forward(x)>`
is what `backward` adds to entry `o` of the bias gradient. -/
theorem C29_bias (b : Build) (l : FullyConnectedLayer ℝ) (hl : l.Ok)
    (hm : l.run_state = .Training) (o : Nat) (bi : ℝ → Tensor ℝ)
    (hb : ∀ t, (bi t).WF ∧ (bi t).shape = l.bias.shape)
    (hv : ∀ t i' j' k', l.bias.shape.Inside i' j' k' →
      val (bi t) i' j' k' = if (i', j', k') = (o, 0, 0) then t else val l.bias i' j' k') (t0 : ℝ)
    (ho' : o < l.weights.shape.di.toNat) (x : Tensor ℝ)
    (hx : x.WF) (hxs : x.shape = l.get_input_shape)
    (hne : ∀ o, o < l.weights.shape.di.toNat → preact { l with bias := bi t0 } x o ≠ 0)
    (out g og : Tensor ℝ) (ho : out.WF) (hos : out.shape = l.get_output_shape)
    (hg : g.WF) (hgs : g.shape = l.get_output_shape)
    (hog : og.WF) (hogs : og.shape = l.get_input_shape) :
    ∃ (l1 : ℝ → FullyConnectedLayer ℝ) (y : ℝ → Tensor ℝ) (l2 : FullyConnectedLayer ℝ)
      (og' : Tensor ℝ),
      (∀ t, ({ l with bias := bi t } : FullyConnectedLayer ℝ).forward b x out =
        .ok (.ok (), l1 t, y t)) ∧
      (l1 t0).backward b x (y t0) g og = .ok (.ok (), l2, og') ∧
      HasDerivAt (fun t => inner l.get_output_shape g (y t))
        (val l2.bias_gradients o 0 0 - val l.bias_gradients o 0 0) t0 := by
  obtain ⟨l1, y, l2, og', h1, h2, h3⟩ := C29_derivative b l hl hm (fun _ => l.weights) bi
    (fun _ => x) (fun _ => ⟨hl.weights, rfl⟩) hb (fun _ => ⟨hx, hxs⟩) t0 _ _ _
    (diffAt_const _ _ _) (diffAt_entry hv t0) (diffAt_const _ _ _) hne out g og ho hos hg hgs hog hogs
  refine ⟨l1, y, l2, og', h1, h2, ?_⟩
  have := h3.hasDerivAt
  rw [total_zero_smul, total_zero_smul, zero_add, zero_add,
    total_single (by rw [hl.rows]; exact col_inside ho') fun i j k =>
      val l2.bias_gradients i j k - val l.bias_gradients i j k] at this
  exact this

/-! ### The hypotheses can be met -/

/-- a 3 to 2 layer with zero weights and biases 1, -1 -/
noncomputable def exFCR : FullyConnectedLayer ℝ where
  weights := zeros ⟨2, 3, 1⟩
  weights_gradients := zeros ⟨2, 3, 1⟩
  weights_gradients_intermediate := zeros ⟨2, 3, 1⟩
  bias := { (zeros ⟨2, 1, 1⟩ : Tensor ℝ) with data := [1, -1] }
  bias_gradients := zeros ⟨2, 1, 1⟩
  relu_mask := zeros ⟨2, 1, 1⟩
  name := "fc"
  run_state := .Training

theorem exFCR_bias_wf : exFCR.bias.WF := wf_data (zeros_wf (by decide)) _ rfl

theorem exFCR_ok : exFCR.Ok :=
  ⟨zeros_wf (by decide), exFCR_bias_wf, rfl, rfl, fun _ =>
    ⟨⟨zeros_wf (by decide), rfl⟩, ⟨zeros_wf (by decide), rfl⟩, ⟨zeros_wf (by decide), rfl⟩,
      ⟨zeros_wf (by decide), rfl⟩⟩⟩

theorem exFCR_preact (x : Tensor ℝ) (o : Nat) (h : o < 2) : preact exFCR x o ≠ 0 := by
  rw [preact_real]
  have hz : ∀ i, i ∈ Finset.range exFCR.weights.shape.dj.toNat →
      val exFCR.weights o i 0 * val x i 0 0 = 0 := by
    intro i _
    have : val exFCR.weights o i 0 = 0 := val_zeros _ _ _ _
    rw [this, zero_mul]
  rw [Finset.sum_eq_zero hz, zero_add]
  have : o = 0 ∨ o = 1 := by omega
  rcases this with rfl | rfl
  · change (1 : ℝ) ≠ 0
    norm_num
  · change (-1 : ℝ) ≠ 0
    norm_num

example : ∃ (l : FullyConnectedLayer ℝ) (x : ℝ → Tensor ℝ), l.Ok ∧ l.run_state = .Training ∧
    (∀ t, (x t).WF ∧ (x t).shape = l.get_input_shape) ∧
    (∀ t i' j' k', l.get_input_shape.Inside i' j' k' → val (x t) i' j' k' =
      if (i', j', k') = (1, 0, 0) then t else val (zeros l.get_input_shape) i' j' k') ∧
    ∀ t o, o < l.weights.shape.di.toNat → preact l (x t) o ≠ 0 := by
  refine ⟨exFCR, fun t => { (zeros ⟨3, 1, 1⟩ : Tensor ℝ) with data := [0, t, 0] }, exFCR_ok, rfl,
    fun t => ⟨wf_data (zeros_wf (by decide)) _ rfl, rfl⟩,
    ?_, fun t o h => exFCR_preact _ o h⟩
  intro t i' j' k' hin
  obtain ⟨h1, rfl, rfl⟩ := col_inside_iff.mp hin
  have h1 : i' < 3 := h1
  have : i' = 0 ∨ i' = 1 ∨ i' = 2 := by omega
  rcases this with rfl | rfl | rfl <;> rfl

end Rusty
