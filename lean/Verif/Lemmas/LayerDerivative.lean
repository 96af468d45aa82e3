import Verif.Lemmas.Derivative
import Verif.Props.Pooling
import Verif.Props.Softmax
import Mathlib.Analysis.Calculus.Deriv.Inv

/-! # Helper lemmas: backward passes of all layers as derivatives -/

namespace Rusty

open F32Ops Spec Exact

variable {E : Type} [NormedAddCommGroup E] [NormedSpace ℝ E] {b : Build}

/-! ## Softmax -/

theorem softmax_algebra {M : Type} [AddCommGroup M] [Module ℝ M] (n : Nat) (g y : Nat → ℝ)
    (x' : Nat → M) :
    (∑ i ∈ Finset.range n, g i • y i • (x' i - ∑ j ∈ Finset.range n, y j • x' j)) =
    ∑ i ∈ Finset.range n,
      (y i * g i + y i * ((∑ o ∈ Finset.range n, y o * g o) * -1)) • x' i := by
  have h : ∀ i, g i • y i • (x' i - ∑ j ∈ Finset.range n, y j • x' j) =
      (y i * g i) • x' i - (y i * g i) • ∑ j ∈ Finset.range n, y j • x' j := by
    intro i; module
  rw [Finset.sum_congr rfl fun i _ => h i, Finset.sum_sub_distrib, ← Finset.sum_smul,
    Finset.smul_sum, ← Finset.sum_sub_distrib]
  refine Finset.sum_congr rfl fun i _ => ?_
  module

/-- the derivative of one entry of a normalised exponential -/
theorem softmax_deriv {n : Nat} {x : Nat → E → ℝ} {x' : Nat → E →L[ℝ] ℝ} {e0 : E}
    (dx : ∀ i, i < n → HasFDerivAt (x i) (x' i) e0) {i : Nat} (hi : i < n) (y : Nat → ℝ)
    (hy : ∀ i, i < n → y i = Real.exp (x i e0) / ∑ j ∈ Finset.range n, Real.exp (x j e0)) :
    HasFDerivAt (fun e => Real.exp (x i e) / ∑ j ∈ Finset.range n, Real.exp (x j e))
      (y i • (x' i - ∑ j ∈ Finset.range n, y j • x' j)) e0 := by
  have hpos : 0 < ∑ j ∈ Finset.range n, Real.exp (x j e0) :=
    Finset.sum_pos (fun _ _ => Real.exp_pos _) ⟨i, Finset.mem_range.mpr hi⟩
  have dS : HasFDerivAt (fun e => ∑ j ∈ Finset.range n, Real.exp (x j e))
      (∑ j ∈ Finset.range n, Real.exp (x j e0) • x' j) e0 :=
    HasFDerivAt.fun_sum fun j hj => (dx j (Finset.mem_range.mp hj)).exp
  have dI := (hasDerivAt_inv hpos.ne').comp_hasFDerivAt e0 dS
  have d := (dx i hi).exp.mul dI
  have e1 : (fun e => Real.exp (x i e) / ∑ j ∈ Finset.range n, Real.exp (x j e)) =
      fun e => Real.exp (x i e) * ((fun y => y⁻¹) ∘ fun e =>
        ∑ j ∈ Finset.range n, Real.exp (x j e)) e := by
    funext e
    rw [div_eq_mul_inv]
    rfl
  rw [e1]
  refine d.congr_fderiv ?_
  have e2 : ∑ j ∈ Finset.range n, y j • x' j =
      (∑ j ∈ Finset.range n, Real.exp (x j e0))⁻¹ • ∑ j ∈ Finset.range n, Real.exp (x j e0) • x' j := by
    rw [Finset.smul_sum]
    refine Finset.sum_congr rfl fun j hj => ?_
    rw [hy j (Finset.mem_range.mp hj), smul_smul, div_eq_inv_mul]
  rw [e2, hy i hi]
  simp only [Function.comp]
  generalize (∑ j ∈ Finset.range n, Real.exp (x j e0) • x' j) = T at *
  generalize (∑ j ∈ Finset.range n, Real.exp (x j e0)) = S at *
  rw [div_eq_mul_inv, ← inv_pow]
  generalize Real.exp (x i e0) = a
  generalize S⁻¹ = c
  module

theorem sm_vjp {l : SoftmaxLayer ℝ} (hl : l.Ok) (hm : l.run_state = .Training)
    (hj : l.shape.dj = 1) (hk : l.shape.dk = 1) {x out y : E → Tensor ℝ} {l' : E → SoftmaxLayer ℝ}
    (hx : ∀ e, (x e).WF ∧ (x e).shape = l.shape) (ho : ∀ e, (out e).WF ∧ (out e).shape = l.shape)
    (hf : ∀ e, l.forward b (x e) (out e) = .ok (.ok (), l' e, y e)) {e0 : E}
    {x' : Nat → Nat → Nat → E →L[ℝ] ℝ} (dx : DiffAt l.shape x x' e0) :
    ∃ y', DiffAt l.shape y y' e0 ∧ ∀ g og l2 og', g.WF → g.shape = l.shape → og.WF →
      og.shape = l.shape → (l' e0).backward b (x e0) (y e0) g og = .ok (.ok (), l2, og') →
      (total l.shape fun i j k => val g i j k • y' i j k) =
        total l.shape fun i j k => val og' i j k • x' i j k := by
  have hin : ∀ i, i < l.shape.di.toNat → l.shape.Inside i 0 0 := fun i h =>
    ⟨h, by rw [hj]; decide, by rw [hk]; decide⟩
  have H : ∀ e, l' e = l ∧ (y e).WF ∧ (y e).shape = l.shape ∧ ∀ i, i < l.shape.di.toNat →
      val (y e) i 0 0 = Real.exp (val (x e) i 0 0) /
        ∑ j ∈ Finset.range l.shape.di.toNat, Real.exp (val (x e) j 0 0) := by
    intro e
    obtain ⟨u, h1, h2, h3, h4⟩ := softmax_real (hx e).1 (ho e).1 ((hx e).2.trans (ho e).2.symm)
    have := hf e
    unfold SoftmaxLayer.forward at this
    rw [h1, ok_bind] at this
    have := Except.ok.inj this
    simp only [Prod.mk.injEq, true_and] at this
    obtain ⟨rfl, e2⟩ := this
    rw [← e2]
    refine ⟨rfl, h2, h3.trans (ho e).2, fun i hi => ?_⟩
    rw [h4 i 0 0 (by rw [(ho e).2]; exact hin i hi), (hx e).2, total_column hj hk]
  refine ⟨fun i _ _ => val (y e0) i 0 0 • (x' i 0 0 -
    ∑ j ∈ Finset.range l.shape.di.toNat, val (y e0) j 0 0 • x' j 0 0), ?_, ?_⟩
  · intro i j k hio
    obtain ⟨h1, h2, h3⟩ := hio
    rw [hj] at h2
    rw [hk] at h3
    have h2 : j = 0 := Nat.lt_one_iff.mp h2
    have h3 : k = 0 := Nat.lt_one_iff.mp h3
    subst h2 h3
    have e1 : (fun e => val (y e) i 0 0) = fun e => Real.exp (val (x e) i 0 0) /
        ∑ j ∈ Finset.range l.shape.di.toNat, Real.exp (val (x e) j 0 0) := by
      funext e
      exact (H e).2.2.2 i h1
    rw [e1]
    exact softmax_deriv (x := fun i e => val (x e) i 0 0) (x' := fun i => x' i 0 0)
      (fun i h => dx i 0 0 (hin i h)) h1 (fun i => val (y e0) i 0 0) fun i h => (H e0).2.2.2 i h
  · intro g og l2 og' hg hgs hog hogs hb
    obtain ⟨l3, og3, q1, q2, q3, q4⟩ := sm_backward_column (b := b) (x := x e0) hl hm hj hk
      (H e0).2.1 (H e0).2.2.1 hg hgs hog hogs
    rw [(H e0).1, q1] at hb
    have := Except.ok.inj hb
    simp only [Prod.mk.injEq, true_and] at this
    obtain ⟨_, rfl⟩ := this
    rw [total_column hj hk, total_column hj hk]
    refine (softmax_algebra _ (fun i => val g i 0 0) (fun i => val (y e0) i 0 0)
      fun i => x' i 0 0).trans (Finset.sum_congr rfl fun i hi => ?_)
    rw [q4 i (Finset.mem_range.mp hi), sum_range_real, sum_real]
    simp

/-! ## Max pooling -/

/-- all index triples of a shape -/
def idxSet (s : TensorShape) : Finset (Nat × Nat × Nat) :=
  Finset.range s.dk.toNat ×ˢ Finset.range s.dj.toNat ×ˢ Finset.range s.di.toNat

theorem total_prod {M : Type} [AddCommMonoid M] (s : TensorShape) (f : Nat → Nat → Nat → M) :
    total s f = ∑ p ∈ idxSet s, f p.2.2 p.2.1 p.1 := by
  unfold total idxSet
  rw [Finset.sum_product]
  refine Finset.sum_congr rfl fun k _ => ?_
  rw [Finset.sum_product]

theorem mem_idxSet {s : TensorShape} {p : Nat × Nat × Nat} :
    p ∈ idxSet s ↔ s.Inside p.2.2 p.2.1 p.1 := by
  unfold idxSet TensorShape.Inside
  simp only [Finset.mem_product, Finset.mem_range]
  tauto

theorem sum_filter_real (s : TensorShape) (p : Nat × Nat × Nat → Prop) [DecidablePred p]
    (f : Nat × Nat × Nat → ℝ) :
    Spec.sum ((s.indices.filter fun x => p x).map f) =
      total s fun i j k => if p (i, j, k) then f (i, j, k) else 0 := by
  have h : ∀ L : List (Nat × Nat × Nat), ((L.filter fun x => p x).map f).sum =
      (L.map fun x => if p x then f x else 0).sum := by
    intro L
    induction L with
    | nil => rfl
    | cons a L ih =>
      by_cases ha : p a
      · rw [List.filter_cons_of_pos (by simpa using ha)]
        simp [ih, ha]
      · rw [List.filter_cons_of_neg (by simpa using ha)]
        simp [ih, ha]
  rw [sum_real, h, ← sum_real, sum_indices_real]
  rfl

theorem max_value {w : List ℝ} {m v : ℝ} (h : isMax w m) (hv : v ∈ w) (hn : negInf < v)
    (hu : ∀ e ∈ w, e ≤ v) : m = v := by
  have h1 := h.1 v hv
  rw [real_gt_false] at h1
  rcases h.2 with ⟨h2, _⟩ | ⟨h2, _⟩
  · exact le_antisymm (hu m h2) h1
  · rw [h2] at h1
    exact absurd hn (not_lt.mpr h1)

theorem mp_vjp {l : MaxPoolLayer} (hl : l.Ok) (hm : l.run_state = .Training)
    (hne : 0 < l.output_shape.count → 0 < l.input_shape.count)
    {x out y : E → Tensor ℝ} {l' : E → MaxPoolLayer}
    (hx : ∀ e, (x e).WF ∧ (x e).shape = l.input_shape)
    (ho : ∀ e, (out e).WF ∧ (out e).shape = l.output_shape)
    (hf : ∀ e, l.forward b (x e) (out e) = .ok (.ok (), l' e, y e)) {e0 : E}
    {x' : Nat → Nat → Nat → E →L[ℝ] ℝ} (dx : DiffAt l.input_shape x x' e0)
    (hs : smoothAt (.mp l) (x e0)) :
    ∃ y', DiffAt l.output_shape y y' e0 ∧ ∀ g og l2 og', g.WF → g.shape = l.output_shape → og.WF →
      og.shape = l.input_shape → (l' e0).backward b (x e0) (y e0) g og = .ok (.ok (), l2, og') →
      (total l.output_shape fun i j k => val g i j k • y' i j k) =
        total l.input_shape fun i j k => val og' i j k • x' i j k := by
  have _ := realOrder
  have hs : ∀ i j k, l.output_shape.Inside i j k → ∃ ii jj, ii < l.mask_shape.di.toNat ∧
      jj < l.mask_shape.dj.toNat ∧
      F32Ops.negInf < val (x e0) (i * l.stride.toNat + ii) (j * l.stride.toNat + jj) k ∧
      ∀ ii' jj', ii' < l.mask_shape.di.toNat → jj' < l.mask_shape.dj.toNat →
        (ii', jj') ≠ (ii, jj) →
        val (x e0) (i * l.stride.toNat + ii') (j * l.stride.toNat + jj') k <
          val (x e0) (i * l.stride.toNat + ii) (j * l.stride.toNat + jj) k := hs
  choose! wi wj w1 w2 w3 w4 using hs
  have hwin : ∀ i j k ii jj, l.output_shape.Inside i j k → ii < l.mask_shape.di.toNat →
      jj < l.mask_shape.dj.toNat →
      l.input_shape.Inside (i * l.stride.toNat + ii) (j * l.stride.toNat + jj) k :=
    fun i j k ii jj h h1 h2 => window_inside hl.tiles hl.depth h h1 h2
  -- every output is the largest entry of its window
  have H : ∀ e i j k, l.output_shape.Inside i j k →
      isMax (window (x e) l.mask_shape l.stride.toNat i j k) (val (y e) i j k) := by
    intro e i j k hin
    obtain ⟨l1, y1, og1, _, q1, _, _, _, q5, _⟩ := C23_backward b l hl hm (x e) (out e) (out e)
      (zeros l.input_shape) (hx e).1 (ho e).1 (ho e).1 (zeros_wf hl.input) (hx e).2 (ho e).2 (ho e).2 rfl hne
    rw [hf e] at q1
    have := Except.ok.inj q1
    simp only [Prod.mk.injEq, true_and] at this
    obtain ⟨_, rfl⟩ := this
    exact (q5 i j k hin).1
  have hmem : ∀ e i j k ii jj, ii < l.mask_shape.di.toNat → jj < l.mask_shape.dj.toNat →
      val (x e) (i * l.stride.toNat + ii) (j * l.stride.toNat + jj) k ∈
        window (x e) l.mask_shape l.stride.toNat i j k := by
    intro e i j k ii jj h1 h2
    exact List.mem_map.mpr ⟨(ii, jj), mem_idx2.mpr ⟨h1, h2⟩, rfl⟩
  refine ⟨fun i j k => x' (i * l.stride.toNat + wi i j k) (j * l.stride.toNat + wj i j k) k, ?_, ?_⟩
  · intro i j k hin
    have a1 := w1 i j k hin
    have a2 := w2 i j k hin
    have dv := dx _ _ _ (hwin i j k _ _ hin a1 a2)
    refine dv.congr_of_eventuallyEq ?_
    have ev1 := (continuousAt_const (y := (negInf : ℝ))).eventually_lt dv.continuousAt
      (w3 i j k hin)
    have ev2 : ∀ᶠ e in nhds e0, ∀ p ∈ idx2 l.mask_shape.di.toNat l.mask_shape.dj.toNat,
        val (x e) (i * l.stride.toNat + p.1) (j * l.stride.toNat + p.2) k ≤
          val (x e) (i * l.stride.toNat + wi i j k) (j * l.stride.toNat + wj i j k) k := by
      have := (Filter.eventually_all_finset (l := nhds e0)
        (idx2 l.mask_shape.di.toNat l.mask_shape.dj.toNat).toFinset
        (p := fun p e => val (x e) (i * l.stride.toNat + p.1) (j * l.stride.toNat + p.2) k ≤
          val (x e) (i * l.stride.toNat + wi i j k) (j * l.stride.toNat + wj i j k) k)).mpr ?_
      · filter_upwards [this] with e he p hp
        exact he p (List.mem_toFinset.mpr hp)
      · rintro ⟨ii, jj⟩ hp
        have hp := mem_idx2.mp (List.mem_toFinset.mp hp)
        by_cases hne : (ii, jj) = (wi i j k, wj i j k)
        · cases hne
          exact Filter.Eventually.of_forall fun _ => le_rfl
        · have d2 := dx _ _ _ (hwin i j k _ _ hin hp.1 hp.2)
          filter_upwards [d2.continuousAt.eventually_lt dv.continuousAt
            (w4 i j k hin ii jj hp.1 hp.2 hne)] with e he
          exact le_of_lt he
    filter_upwards [ev1, ev2] with e h1 h2
    refine max_value (H e i j k hin) (hmem e i j k _ _ a1 a2) h1 fun v hv => ?_
    obtain ⟨⟨ii, jj⟩, hp, rfl⟩ := List.mem_map.mp hv
    exact h2 (ii, jj) hp
  · intro g og l2 og' hg hgs hog hogs hb
    obtain ⟨l1, y1, og1, origin, q1, q2, q3, q4, q5, q6⟩ := C23_backward b l hl hm (x e0) (out e0) g og
      (hx e0).1 (ho e0).1 hg hog (hx e0).2 (ho e0).2 hgs hogs hne
    rw [hf e0] at q1
    have := Except.ok.inj q1
    simp only [Prod.mk.injEq, true_and] at this
    obtain ⟨rfl, rfl⟩ := this
    rw [q2] at hb
    have := Except.ok.inj hb
    simp only [Prod.mk.injEq, true_and] at this
    obtain ⟨_, rfl⟩ := this
    have horig : ∀ i j k, l.output_shape.Inside i j k → origin i j k =
        pos l.input_shape (i * l.stride.toNat + wi i j k) (j * l.stride.toNat + wj i j k) k := by
      intro i j k hin
      have a1 := w1 i j k hin
      have a2 := w2 i j k hin
      have hv : val (y e0) i j k =
          val (x e0) (i * l.stride.toNat + wi i j k) (j * l.stride.toNat + wj i j k) k := by
        refine max_value (H e0 i j k hin) (hmem e0 i j k _ _ a1 a2) (w3 i j k hin) fun v hv => ?_
        obtain ⟨⟨ii, jj⟩, hp, rfl⟩ := List.mem_map.mp hv
        have hp := mem_idx2.mp hp
        by_cases hne : (ii, jj) = (wi i j k, wj i j k)
        · cases hne
          exact le_rfl
        · exact le_of_lt (w4 i j k hin ii jj hp.1 hp.2 hne)
      obtain ⟨ii, jj, pre, post, f1, f2, f3, f4, _⟩ := (q5 i j k hin).2.1
        (by rw [real_gt, hv]; exact w3 i j k hin)
      have hp := mem_idx2.mp (show (ii, jj) ∈ idx2 l.mask_shape.di.toNat l.mask_shape.dj.toNat by
        rw [f1]; simp)
      have : (ii, jj) = (wi i j k, wj i j k) := by
        by_contra hne
        have := w4 i j k hin ii jj hp.1 hp.2 hne
        rw [f4, hv] at this
        exact lt_irrefl _ this
      cases this
      rw [f3, (hx e0).2]
    have hval : ∀ p ∈ idxSet l.input_shape, val og1 p.2.2 p.2.1 p.1 =
        ∑ q ∈ idxSet l.output_shape, if origin q.2.2 q.2.1 q.1 = pos l.input_shape p.2.2 p.2.1 p.1
          then val g q.2.2 q.2.1 q.1 else 0 := by
      intro p hp
      have hin := mem_idxSet.mp hp
      have h := q6 _ _ _ hin
      rw [get_item_ok q3 (by rw [q4]; exact hin)] at h
      rw [Except.ok.inj h]
      rw [sum_filter_real l.output_shape
        (fun x => origin x.1 x.2.1 x.2.2 = pos l.input_shape p.2.2 p.2.1 p.1)
        (fun x => val g x.1 x.2.1 x.2.2), total_prod]
    rw [total_prod, total_prod]
    symm
    calc ∑ p ∈ idxSet l.input_shape, val og1 p.2.2 p.2.1 p.1 • x' p.2.2 p.2.1 p.1
        = ∑ p ∈ idxSet l.input_shape, ∑ q ∈ idxSet l.output_shape,
            (if origin q.2.2 q.2.1 q.1 = pos l.input_shape p.2.2 p.2.1 p.1
              then val g q.2.2 q.2.1 q.1 else 0) • x' p.2.2 p.2.1 p.1 :=
          Finset.sum_congr rfl fun p hp => by rw [hval p hp, Finset.sum_smul]
      _ = ∑ q ∈ idxSet l.output_shape, ∑ p ∈ idxSet l.input_shape,
            (if origin q.2.2 q.2.1 q.1 = pos l.input_shape p.2.2 p.2.1 p.1
              then val g q.2.2 q.2.1 q.1 else 0) • x' p.2.2 p.2.1 p.1 := Finset.sum_comm
      _ = _ := Finset.sum_congr rfl fun q hq => by
          obtain ⟨k, j, i⟩ := q
          have hin := mem_idxSet.mp hq
          simp only at hin ⊢
          have hw := hwin i j k _ _ hin (w1 i j k hin) (w2 i j k hin)
          rw [horig i j k hin]
          rw [Finset.sum_eq_single (k, j * l.stride.toNat + wj i j k, i * l.stride.toNat + wi i j k)]
          · rw [if_pos rfl]
          · rintro ⟨c, a, e⟩ hp hne
            simp only at hp ⊢
            rw [if_neg, zero_smul]
            intro h
            obtain ⟨h1, h2, h3⟩ := pos_inj hw (mem_idxSet.mp hp) h
            simp only at h1 h2 h3
            exact hne (by rw [← h1, ← h2, ← h3])
          · intro h
            exact absurd (mem_idxSet.mpr hw) h

/-! ## All layers -/

theorem rewrap_ok {α : Type} {w : α → AnyLayer ℝ} {e : Exec (Res × α × Tensor ℝ)} {r : Res}
    {l : AnyLayer ℝ} {t : Tensor ℝ} (h : AnyLayer.rewrap w e = .ok (r, l, t)) :
    ∃ a, e = .ok (r, a, t) ∧ l = w a := by
  unfold AnyLayer.rewrap at h
  cases e with
  | error p => cases h
  | ok q =>
    obtain ⟨r', a, t'⟩ := q
    have h := Except.ok.inj h
    simp only [Prod.mk.injEq] at h
    obtain ⟨rfl, rfl, rfl⟩ := h
    exact ⟨a, rfl, rfl⟩

theorem replace_input {l : AnyLayer ℝ} {W bi : E → Tensor ℝ}
    {W' b' : Nat → Nat → Nat → E →L[ℝ] ℝ} {e0 : E} (h : ParamsVary l W bi W' b' e0) (e : E) :
    (replaceParams l (W e) (bi e)).get_input_shape = l.get_input_shape := by
  cases l with
  | fc l =>
    change TensorShape.mk (W e).shape.dj 1 1 = TensorShape.mk l.weights.shape.dj 1 1
    rw [(h.1 e).2]
  | conv l => rfl
  | mp l => rfl
  | sm l => rfl

theorem replace_output {l : AnyLayer ℝ} {W bi : E → Tensor ℝ}
    {W' b' : Nat → Nat → Nat → E →L[ℝ] ℝ} {e0 : E} (h : ParamsVary l W bi W' b' e0) (e : E) :
    (replaceParams l (W e) (bi e)).get_output_shape = l.get_output_shape := by
  cases l with
  | fc l => exact (h.2.1 e).2
  | conv l => rfl
  | mp l => rfl
  | sm l => rfl

theorem replace_mode (l : AnyLayer ℝ) (W bi : Tensor ℝ) :
    (replaceParams l W bi).get_run_mode = l.get_run_mode := by
  cases l <;> rfl

theorem replace_ok {l : AnyLayer ℝ} (hl : l.Ok) {W bi : E → Tensor ℝ}
    {W' b' : Nat → Nat → Nat → E →L[ℝ] ℝ} {e0 : E} (h : ParamsVary l W bi W' b' e0) (e : E) :
    (replaceParams l (W e) (bi e)).Ok := by
  cases l with
  | fc l => exact withParams_ok hl (h.1 e).1 (h.1 e).2 (h.2.1 e).1 (h.2.1 e).2
  | conv l => exact hl
  | mp l => exact hl
  | sm l => exact hl

theorem replace_backable {l : AnyLayer ℝ} (hl : backable l) (W bi : Tensor ℝ) :
    backable (replaceParams l W bi) := by
  cases l <;> exact hl

/-- One layer: if the input and the parameters vary differentiably and nothing is decided by a tie,
so does the output, and `backward` pairs the derivatives. -/
theorem layer_vjp {l : AnyLayer ℝ} (hl : l.Ok) (hbk : backable l) (hm : l.get_run_mode = .Training)
    {W bi : E → Tensor ℝ} {W' b' : Nat → Nat → Nat → E →L[ℝ] ℝ} {e0 : E}
    (hp : ParamsVary l W bi W' b' e0) {x out y : E → Tensor ℝ} {l' : E → AnyLayer ℝ}
    (hx : ∀ e, (x e).WF ∧ (x e).shape = l.get_input_shape)
    (ho : ∀ e, (out e).WF ∧ (out e).shape = l.get_output_shape)
    (hf : ∀ e, (replaceParams l (W e) (bi e)).forward b (x e) (out e) = .ok (.ok (), l' e, y e))
    {x' : Nat → Nat → Nat → E →L[ℝ] ℝ} (dx : DiffAt l.get_input_shape x x' e0)
    (hs : smoothAt (replaceParams l (W e0) (bi e0)) (x e0)) :
    ∃ y', DiffAt l.get_output_shape y y' e0 ∧ ∀ g og l2 og', g.WF → g.shape = l.get_output_shape →
      og.WF → og.shape = l.get_input_shape →
      (l' e0).backward b (x e0) (y e0) g og = .ok (.ok (), l2, og') →
      (total l.get_output_shape fun i j k => val g i j k • y' i j k) =
        (total l.get_input_shape fun i j k => val og' i j k • x' i j k) +
          gradTerm W' b' (some l) (some l2) := by
  cases l with
  | conv l => exact hbk.elim
  | fc l =>
    have H := fun e => rewrap_ok (hf e)
    choose l1 h1 h2 using H
    obtain ⟨hW, hb, dW, db⟩ := hp
    obtain ⟨mask, y2, y', q1, q2, q3, q4⟩ := fc_vjp (b := b) hl hm hW hb hx dW db dx
      (fun o h => hs o (by change o < (W e0).shape.di.toNat; rw [(hW e0).2]; exact h)) ho
    have hy : ∀ e, l1 e = { withParams l (W e) (bi e) with relu_mask := mask e } ∧ y2 e = y e := by
      intro e
      have a := q1 e
      have h1' : (withParams l (W e) (bi e)).forward b (x e) (out e) = .ok (.ok (), l1 e, y e) := h1 e
      rw [h1'] at a
      have a := Except.ok.inj a
      simp only [Prod.mk.injEq, true_and] at a
      exact ⟨a.1, a.2.symm⟩
    have hy2 : y2 = y := funext fun e => (hy e).2
    rw [hy2] at q3
    refine ⟨y', q3, fun g og l2 og' hg hgs hog hogs hbw => ?_⟩
    obtain ⟨l3, og3, r1, _, _, r2⟩ := q4 (y e0) g og hg hgs hog hogs
    rw [h2 e0, (hy e0).1] at hbw
    obtain ⟨l4, r3, r4⟩ := rewrap_ok hbw
    rw [r1] at r3
    have r3 := Except.ok.inj r3
    simp only [Prod.mk.injEq, true_and] at r3
    obtain ⟨rfl, rfl⟩ := r3
    subst r4
    refine r2.trans ?_
    rw [add_assoc]
    rfl
  | mp l =>
    have H := fun e => rewrap_ok (hf e)
    choose l1 h1 h2 using H
    obtain ⟨y', q1, q2⟩ := mp_vjp (b := b) hl hm hbk hx ho h1 dx hs
    refine ⟨y', q1, fun g og l2 og' hg hgs hog hogs hbw => ?_⟩
    rw [h2 e0] at hbw
    obtain ⟨l4, r3, _⟩ := rewrap_ok hbw
    refine (q2 g og l4 og' hg hgs hog hogs r3).trans ?_
    change _ = _ + (0 : E →L[ℝ] ℝ)
    rw [add_zero]
    rfl
  | sm l =>
    have H := fun e => rewrap_ok (hf e)
    choose l1 h1 h2 using H
    obtain ⟨y', q1, q2⟩ := sm_vjp (b := b) hl hm hbk.1 hbk.2 hx ho h1 dx
    refine ⟨y', q1, fun g og l2 og' hg hgs hog hogs hbw => ?_⟩
    rw [h2 e0] at hbw
    obtain ⟨l4, r3, _⟩ := rewrap_ok hbw
    refine (q2 g og l4 og' hg hgs hog hogs r3).trans ?_
    change _ = _ + (0 : E →L[ℝ] ℝ)
    rw [add_zero]
    rfl

end Rusty
