import Verif.Lemmas.Homogeneous
import Verif.Lemmas.Linear
import Verif.Spec.Rescaling

/-! # Helper lemmas: networks with rescaled parameters -/

namespace Rusty

open F32Ops Spec Exact

variable {b : Build}

theorem rescaled_shapes {c c' : ℝ} {l l' : AnyLayer ℝ} (hl : l.Ok) (hl' : l'.Ok) (h : Rescaled c c' l l') :
    l'.get_input_shape = l.get_input_shape ∧ l'.get_output_shape = l.get_output_shape := by
  cases l with
  | fc l =>
    cases l' with
    | fc l' =>
      obtain ⟨⟨h1, _⟩, h2, _⟩ := h
      refine ⟨?_, h2⟩
      change (⟨l'.weights.shape.dj, 1, 1⟩ : TensorShape) = ⟨l.weights.shape.dj, 1, 1⟩
      rw [h1]
    | conv l' => exact h.elim
    | mp l' => exact h.elim
    | sm l' => exact h.elim
  | conv l =>
    cases l' with
    | conv l' => exact ⟨h.2.1, h.2.2.1⟩
    | fc l' => exact h.elim
    | mp l' => exact h.elim
    | sm l' => exact h.elim
  | mp l =>
    cases l' with
    | mp l' => exact ⟨h.2.2.2.1, h.2.2.2.2.1⟩
    | fc l' => exact h.elim
    | conv l' => exact h.elim
    | sm l' => exact h.elim
  | sm l =>
    cases l' with
    | sm l' => exact ⟨h.2.2, h.2.2⟩
    | fc l' => exact h.elim
    | mp l' => exact h.elim
    | conv l' => exact h.elim

theorem act_any (m m' : NetworkRunState) (v : ℝ) : act m v = act m' v := by
  have r : ∀ v : ℝ, relu v = max v 0 := fun v => by
    unfold relu
    by_cases h : (0 : ℝ) < v
    · rw [if_pos (by rw [real_gt]; exact h), max_eq_left h.le]
    · rw [if_neg (by rw [real_gt]; exact h), max_eq_right (not_lt.mp h)]; rfl
  cases m <;> cases m'
  · rfl
  · exact (r v).symm
  · exact r v
  · rfl

/-- pre-activations of a rescaled fully connected layer -/
theorem preact_rescaled {c c' : ℝ} (hc : 0 < c) {l l' : FullyConnectedLayer ℝ} (hl : l.Ok) (hl' : l'.Ok)
    (h : Rescaled c c' (.fc l) (.fc l')) {x y : Tensor ℝ} (hx : x.WF) (hy : y.WF) (hs : Scaled c x y) (o : Nat) :
    preact l' y o = c' * preact l x o := by
  obtain ⟨h1, h2⟩ := h
  have hw := scaled_val hl.weights hl'.weights h1
  have hb := scaled_val hl.bias hl'.bias h2
  have hv := scaled_val hx hy hs
  unfold preact
  rw [h1.1, hb]
  simp only [real_add]
  rw [mul_add]
  congr 1
  refine sum_scaled c' _ _ _ fun a _ => ?_
  simp only [real_mul]
  rw [hv, hw]
  field_simp

theorem convPre_rescaled {c c' : ℝ} (hc : 0 < c) {l l' : ConvolutionalLayer ℝ} (hl : l.Ok) (hl' : l'.Ok)
    (h : Rescaled c c' (.conv l) (.conv l')) {x y : Tensor ℝ} (hx : x.WF) (hy : y.WF) (hs : Scaled c x y)
    (i j k : Nat) : convPre l' y i j k = c' * convPre l x i j k := by
  obtain ⟨h1, h2, h3, h4, h5⟩ := h
  have hv := scaled_val hx hy hs
  have e4 := List.Forall₂.length_eq h4
  have e5 := List.Forall₂.length_eq h5
  unfold convPre
  rcases Nat.lt_or_ge k l.kernels.length with hk | hk
  · have hb : k < l.biases.length := by rw [hl.biasCount]; exact hk
    have hk' : k < l'.kernels.length := by omega
    have hb' : k < l'.biases.length := by omega
    have q4 := List.Forall₂.get h4 hk hk'
    have q5 := List.Forall₂.get h5 hb hb'
    simp only [List.get_eq_getElem] at q4 q5
    rw [List.getElem?_eq_getElem hk, List.getElem?_eq_getElem hb, List.getElem?_eq_getElem hk',
      List.getElem?_eq_getElem hb']
    simp only [real_add]
    rw [scaled_val (hl.biases _ (List.getElem_mem hb)).1 (hl'.biases _ (List.getElem_mem hb')).1 q5, mul_add]
    congr 1
    unfold conv
    rw [q4.1, h1]
    refine sum_scaled c' _ _ _ fun a _ => ?_
    simp only [real_mul]
    rw [hv, scaled_val (hl.kernels _ (List.getElem_mem hk)).1 (hl'.kernels _ (List.getElem_mem hk')).1 q4]
    field_simp
  · rw [List.getElem?_eq_none hk, List.getElem?_eq_none (by omega)]
    simp

theorem scaled_one {x y : Tensor ℝ} (hx : x.WF) (hy : y.WF) (h : Scaled 1 x y) : y = x :=
  tensor_ext hy hx h.1 fun i j k hin => by rw [h.2 i j k (h.1 ▸ hin), one_mul]

theorem layerAt_rescaled {c c' : ℝ} (hc : 0 < c) (hc' : 0 < c') {l l' : AnyLayer ℝ} (hl : l.Ok) (hl' : l'.Ok)
    (h : Rescaled c c' l l') {x y : Tensor ℝ} (hx : x.WF) (hy : y.WF) (hs : Scaled c x y)
    (h0 : (∃ m, l = .mp m) → ∀ v ∈ x.data, 0 ≤ v) (i j k : Nat) :
    layerAt l' y i j k = c' * layerAt l x i j k := by
  have hv := scaled_val hx hy hs
  cases l with
  | fc l =>
    cases l' with
    | fc l' =>
      change act l'.run_state (preact l' y i) = c' * act l.run_state (preact l x i)
      rw [← act_scaled hc'.le, act_any _ l.run_state, preact_rescaled hc hl hl' h hx hy hs]
    | conv l' => exact h.elim
    | mp l' => exact h.elim
    | sm l' => exact h.elim
  | conv l =>
    cases l' with
    | conv l' =>
      change act l'.run_state (convPre l' y i j k) = c' * act l.run_state (convPre l x i j k)
      rw [← act_scaled hc'.le, act_any _ l.run_state, convPre_rescaled hc hl hl' h hx hy hs]
    | fc l' => exact h.elim
    | mp l' => exact h.elim
    | sm l' => exact h.elim
  | mp l =>
    cases l' with
    | mp l' =>
      obtain ⟨rfl, h1, h2, h3, h4, h5⟩ := h
      change maxOf (window y _ _ i j k) = c' * maxOf (window x _ _ i j k)
      have hw : window y l'.mask_shape l'.stride.toNat i j k =
          (window x l.mask_shape l.stride.toNat i j k).map (c' * ·) := by
        unfold window
        rw [List.map_map, h1, h2]
        exact List.map_congr_left fun p _ => hv _ _ _
      rw [hw]
      exact maxOf_scaled hc.le _ (window_ne h5) (window_nonneg (h0 ⟨l, rfl⟩))
    | fc l' => exact h.elim
    | conv l' => exact h.elim
    | sm l' => exact h.elim
  | sm l =>
    cases l' with
    | sm l' =>
      obtain ⟨rfl, rfl, _⟩ := h
      rw [scaled_one hx hy hs, one_mul]
      rfl
    | fc l' => exact h.elim
    | mp l' => exact h.elim
    | conv l' => exact h.elim

theorem layerAt_nonneg' {c c' : ℝ} {l l' : AnyLayer ℝ} (h : Rescaled c c' l l') {x : Tensor ℝ}
    (h0 : (∃ m, l = .mp m) → ∀ v ∈ x.data, 0 ≤ v) (i j k : Nat) : 0 ≤ layerAt l x i j k := by
  cases l with
  | fc l => exact act_nonneg _ _
  | conv l => exact act_nonneg _ _
  | mp l =>
    cases l' with
    | mp l' => exact maxOf_nonneg _ (window_ne h.2.2.2.2.2) (window_nonneg (h0 ⟨l, rfl⟩))
    | fc l' => exact h.elim
    | conv l' => exact h.elim
    | sm l' => exact h.elim
  | sm l =>
    change 0 ≤ softmaxAt x i j k
    unfold softmaxAt
    rw [real_div, sum_real]
    refine div_nonneg (Real.exp_pos _).le (List.sum_nonneg fun v hv => ?_)
    obtain ⟨p, _, rfl⟩ := List.mem_map.mp hv
    exact (Real.exp_pos _).le

/-- the winners of the windows do not change -/
theorem winners_rescaled {c : ℝ} (hc : 0 < c) {l l' : MaxPoolLayer} (h : Rescaled c c (.mp l) (.mp l'))
    {x y : Tensor ℝ} (hx : x.WF) (hy : y.WF) (hs : Scaled c x y) (h0 : ∀ v ∈ x.data, 0 ≤ v) :
    winners l' y = winners l x := by
  obtain ⟨_, h1, h2, h3, h4, h5⟩ := h
  have hv := scaled_val hx hy hs
  have v0 : ∀ i j k, 0 ≤ val x i j k := fun i j k => by
    unfold val
    cases e : x.data[pos x.shape i j k]? with
    | none => exact le_refl _
    | some v => exact h0 v (List.mem_of_getElem? e)
  unfold winners
  rw [h4]
  refine List.map_congr_left fun p _ => ?_
  have hw : windowPos y l'.mask_shape l'.stride.toNat p.1 p.2.1 p.2.2 =
      (windowPos x l.mask_shape l.stride.toNat p.1 p.2.1 p.2.2).map fun e => (c * e.1, e.2) := by
    unfold windowPos
    rw [List.map_map, h1, h2]
    refine List.map_congr_left fun q _ => ?_
    simp only [Function.comp]
    rw [hv, hs.1]
  have hn : ∀ e ∈ windowPos x l.mask_shape l.stride.toNat p.1 p.2.1 p.2.2, 0 ≤ e.1 := by
    intro e he
    unfold windowPos at he
    obtain ⟨q, _, rfl⟩ := List.mem_map.mp he
    exact v0 _ _ _
  rw [hw]
  generalize windowPos x l.mask_shape l.stride.toNat p.1 p.2.1 p.2.2 = w at hn
  have key : ∀ (w : List (ℝ × UInt32)) (m : ℝ) (q : UInt32),
      ((w.map fun e => (c * e.1, e.2)).foldl argStep (c * m, q)).2 = (w.foldl argStep (m, q)).2 := by
    intro w
    induction w with
    | nil => intro m q; rfl
    | cons e w ih =>
      intro m q
      rw [List.map_cons, List.foldl_cons, List.foldl_cons]
      unfold argStep
      simp only
      by_cases hem : m < e.1
      · rw [if_pos (by rw [real_gt]; exact mul_lt_mul_of_pos_left hem hc), if_pos (by rw [real_gt]; exact hem)]
        exact ih _ _
      · rw [if_neg (by rw [real_gt]; exact not_lt.mpr (mul_le_mul_of_nonneg_left (not_lt.mp hem) hc.le)),
          if_neg (by rw [real_gt]; exact hem)]
        exact ih _ _
  unfold runArg
  cases w with
  | nil => rfl
  | cons e w =>
    have low : ∀ {v : ℝ}, 0 ≤ v → gt v (negInf : ℝ) = true := fun hv => by
      rw [real_gt]; exact lt_of_lt_of_le (show (-2 ^ 128 : ℝ) < 0 by norm_num) hv
    have he := hn e List.mem_cons_self
    rw [List.map_cons, List.foldl_cons, List.foldl_cons]
    have s1 : argStep ((negInf : ℝ), 0) (c * e.1, e.2) = (c * e.1, e.2) := by
      unfold argStep; rw [if_pos (low (mul_nonneg hc.le he))]
    have s2 : argStep ((negInf : ℝ), 0) e = e := by
      unfold argStep; rw [if_pos (low he)]
    rw [s1, s2]
    exact key w e.1 e.2

/-- all entries of `u` are `a` times those of `t` -/
def Multiple (a : ℝ) (t u : Tensor ℝ) : Prop := ∀ p : Nat, u.data[p]?.getD 0 = a * t.data[p]?.getD 0

theorem multiple_val {a : ℝ} {t u : Tensor ℝ} (hs : u.shape = t.shape) (h : Multiple a t u) (i j k : Nat) :
    val u i j k = a * val t i j k := by
  unfold val
  rw [hs]
  exact h _

theorem multiple_of_scaled {a : ℝ} {t u : Tensor ℝ} (ht : t.WF) (hu : u.WF) (h : Scaled a t u) :
    Multiple a t u := by
  have e : u = { t with data := t.data.map (a * ·) } := by
    refine tensor_ext hu (wf_data ht _ (by simp)) h.1 fun i j k hin => ?_
    rw [h.2 i j k (h.1 ▸ hin), val_map ht _ (h.1 ▸ hin)]
  intro p
  rw [e]
  simp only [List.getElem?_map]
  cases t.data[p]? <;> simp

theorem multiple_respected (a : ℝ) : Respected (F := ℝ) fun x y _ => y = a * x where
  zero := by simp
  add := fun x y z x' y' z' h h' => by simp only [real_add]; rw [h, h']; ring
  left := fun v x y z h => by simp only [real_mul]; rw [h]; ring
  right := fun v x y z h => by simp only [real_mul]; rw [h]; ring

theorem masked_rescaled {c c' : ℝ} (hc : 0 < c) (hc' : 0 < c') {l l' : FullyConnectedLayer ℝ} (hl : l.Ok)
    (hl' : l'.Ok) (h : Rescaled c c' (.fc l) (.fc l')) {s t g g' : Tensor ℝ} (hs : s.WF) (ht : t.WF)
    (hst : Scaled c s t) (hg : ∀ o, val g' o 0 0 = 1 / c' * val g o 0 0) (o : Nat) :
    masked l' ⟨t, g', t, t⟩ o = 1 / c' * masked l ⟨s, g, s, s⟩ o := by
  unfold masked
  have e : gt (preact l' t o) (zero : ℝ) = gt (preact l s o) zero := by
    rw [preact_rescaled hc hl hl' h hs ht hst]
    rw [Bool.eq_iff_iff, real_gt, real_gt]
    exact ⟨fun h => by
      by_contra hn
      exact absurd h (not_lt.mpr (mul_nonpos_of_nonneg_of_nonpos hc'.le (not_lt.mp hn))), fun h => mul_pos hc' h⟩
  change mul (if gt (preact l' t o) (zero : ℝ) then one else zero) (val g' o 0 0) =
    1 / c' * mul (if gt (preact l s o) (zero : ℝ) then one else zero) (val g o 0 0)
  rw [e, hg]
  simp only [real_mul]
  ring

/-- rounds of a layer and its rescaled version pass on gradients that are scaled the other way -/
theorem round_rescaled {c c' : ℝ} (hc : 0 < c) (hc' : 0 < c') {l l' l2 l2' : AnyLayer ℝ} (hl : l.Ok)
    (hl' : l'.Ok) (h : Rescaled c c' l l') (hb : backable l) (hm : l.get_run_mode = .Training)
    (hm' : l'.get_run_mode = .Training) {s s' g g1 t t' f f1 : Tensor ℝ}
    (r : LayerRound b l l2 s s' g g1) (r' : LayerRound b l' l2' t t' f f1) (hst : Scaled c s t)
    (hst' : Scaled c' s' t') (h0 : (∃ m, l = .mp m) → ∀ v ∈ s.data, 0 ≤ v) (hg : Multiple (1 / c') g f) :
    Multiple (1 / c) g1 f1 := by
  have hsh := rescaled_shapes hl hl' h
  have hgv : ∀ i j k, val f i j k = 1 / c' * val g i j k :=
    multiple_val (r'.hg.2.trans (hsh.2.trans r.hg.2.symm)) hg
  cases l with
  | conv l => exact hb.elim
  | fc l =>
    cases l' with
    | fc l' =>
      obtain ⟨a1, a2, a3, _⟩ := fc_round hl hm r
      obtain ⟨c1, c2, c3, _⟩ := fc_round hl' hm' r'
      refine multiple_of_scaled a1 c1 ⟨c2.trans (hsh.1.trans a2.symm), fun i j k hin => ?_⟩
      rw [a2] at hin
      obtain ⟨hi, hj, hk⟩ := hin
      have hj : j = 0 := Nat.lt_one_iff.mp hj
      have hk : k = 0 := Nat.lt_one_iff.mp hk
      subst hj hk
      have hws : l'.weights.shape = l.weights.shape := h.1.1
      rw [a3 i hi, c3 i (by rw [hws]; exact hi), hws]
      refine sum_scaled _ _ _ _ fun o _ => ?_
      rw [masked_rescaled hc hc' hl hl' h r.hx.1 r'.hx.1 hst (fun o => hgv o 0 0)]
      have hl : l.Ok := hl
      have hl' : l'.Ok := hl'
      simp only [real_mul]
      rw [scaled_val hl.weights hl'.weights h.1]
      field_simp
    | conv l' => exact h.elim
    | mp l' => exact h.elim
    | sm l' => exact h.elim
  | mp l =>
    cases l' with
    | mp l' =>
      obtain rfl : c' = c := h.1
      intro p
      have e1 := mp_round (b := b) hl hm r.hx.1 r.hx.2 r p
      have e2 := mp_round (b := b) hl' hm' r'.hx.1 r'.hx.2 r' p
      have hi : l'.input_shape = l.input_shape := hsh.1
      rw [winners_rescaled hc h r.hx.1 r'.hx.1 hst (h0 ⟨l, rfl⟩), hi] at e2
      change f1.data[p]?.getD (zero : ℝ) = 1 / c' * g1.data[p]?.getD (zero : ℝ)
      rw [e1, e2]
      unfold scatter
      refine foldl_respected (multiple_respected (1 / c')) _
        (fun e : UInt32 × Nat => g.data[e.2]?.getD zero) (fun e => f.data[e.2]?.getD zero) (fun _ => zero) (fun e _ => hg _) (z := zero) ?_
      rw [List.getElem?_replicate]
      split <;> simp
    | fc l' => exact h.elim
    | conv l' => exact h.elim
    | sm l' => exact h.elim
  | sm l =>
    cases l' with
    | sm l' =>
      obtain ⟨rfl, rfl, hss⟩ := h
      obtain ⟨hj, hk⟩ := hb
      obtain ⟨a1, a2⟩ := sm_round hl hj hk hm r
      obtain ⟨c1, c2⟩ := sm_round hl' (by rw [hss]; exact hj) (by rw [hss]; exact hk) hm' r'
      have es := scaled_one r.hy.1 r'.hy.1 hst'
      subst es
      refine multiple_of_scaled a1.1 c1.1 ⟨c1.2.trans (hss.trans a1.2.symm), fun i j k hin => ?_⟩
      rw [a1.2] at hin
      obtain ⟨hi, hj', hk'⟩ := hin
      rw [hj] at hj'
      rw [hk] at hk'
      have hj' : j = 0 := Nat.lt_one_iff.mp hj'
      have hk' : k = 0 := Nat.lt_one_iff.mp hk'
      subst hj' hk'
      rw [a2 i hi, c2 i (by rw [hss]; exact hi), hss]
      have hgv : ∀ i j k, val f i j k = val g i j k := fun i j k => by rw [hgv]; simp
      simp only [hgv]
      simp
    | fc l' => exact h.elim
    | mp l' => exact h.elim
    | conv l' => exact h.elim

theorem rescaled_backable {c c' : ℝ} {l l' : AnyLayer ℝ} (h : Rescaled c c' l l') (hb : backable l) :
    backable l' := by
  cases l with
  | conv l => exact hb.elim
  | fc l =>
    cases l' with
    | fc l' => trivial
    | conv l' => exact h.elim
    | mp l' => exact h.elim
    | sm l' => exact h.elim
  | mp l =>
    cases l' with
    | mp l' =>
      obtain ⟨_, _, _, h3, h4, _⟩ := h
      change 0 < l'.output_shape.count → 0 < l'.input_shape.count
      rw [h3, h4]
      exact hb
    | fc l' => exact h.elim
    | conv l' => exact h.elim
    | sm l' => exact h.elim
  | sm l =>
    cases l' with
    | sm l' =>
      obtain ⟨_, _, h3⟩ := h
      change l'.shape.dj = 1 ∧ l'.shape.dk = 1
      rw [h3]
      exact hb
    | fc l' => exact h.elim
    | conv l' => exact h.elim
    | mp l' => exact h.elim

end Rusty
