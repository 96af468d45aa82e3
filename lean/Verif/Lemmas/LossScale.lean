import Verif.Spec.LossScale
import Verif.Lemmas.IEEEScaling
import Verif.Lemmas.IEEEGate
import Verif.Lemmas.SoftmaxGradient
import Verif.Lemmas.Linear

/-! # Lemmas: gradients multiplied by a power of two -/

namespace Rusty

open F32Ops Spec F32

variable [Libm] {b : Build} {k : Nat}

theorem scales_zero : Scales k (zero : F32) zero := fun _ _ => by rw [toReal_zero, mul_zero]

omit [Libm] in
theorem scales_add {x x' y y' : F32} (hx : Scales k x x') (hy : Scales k y y') :
    Scales k (F32.add x y) (F32.add x' y') := by
  intro h h'
  obtain ⟨p1, p2⟩ := finite_of_add h
  obtain ⟨p3, p4⟩ := finite_of_add h'
  exact add_scaled h h' (hx p1 p3) (hy p2 p4)

omit [Libm] in
theorem scales_mul {v x x' : F32} (hx : Scales k x x')
    (hu : v.isFinite = true → x.isFinite = true → NoUnderflow (v.toReal * x.toReal)) :
    Scales k (F32.mul v x) (F32.mul v x') := by
  intro h h'
  obtain ⟨p1, p2⟩ := finite_of_mul h
  obtain ⟨_, p4⟩ := finite_of_mul h'
  exact mul_scaled h h' (hx p2 p4) (hu p1 p2)

omit [Libm] in
theorem scales_mul_left {v x x' : F32} (hx : Scales k x x')
    (hu : x.isFinite = true → v.isFinite = true → NoUnderflow (x.toReal * v.toReal)) :
    Scales k (F32.mul x v) (F32.mul x' v) := by
  intro h h'
  obtain ⟨p1, p2⟩ := finite_of_mul h
  obtain ⟨p3, _⟩ := finite_of_mul h'
  exact mul_scaled_left h h' (hx p1 p3) (hu p1 p2)

omit [Libm] in
theorem scales_foldl {α : Type} (L : List α) (f g : α → F32) (H : ∀ a ∈ L, Scales k (f a) (g a)) {x y : F32}
    (h0 : Scales k x y) : Scales k ((L.map f).foldl F32.add x) ((L.map g).foldl F32.add y) := by
  induction L generalizing x y with
  | nil => exact h0
  | cons a L ih =>
    simp only [List.map_cons, List.foldl_cons]
    exact ih (fun a ha => H a (List.mem_cons_of_mem _ ha)) (scales_add h0 (H a List.mem_cons_self))

theorem scales_sum {α : Type} (L : List α) (f g : α → F32) (H : ∀ a ∈ L, Scales k (f a) (g a)) :
    Scales k (sum (L.map f)) (sum (L.map g)) :=
  scales_foldl L f g H scales_zero

omit [Libm] in
theorem noUnderflow_self (v : F32) : NoUnderflow v.toReal := .inr ⟨v.toInt, rfl⟩

omit [Libm] in
theorem noUnderflow_neg (v : F32) : NoUnderflow (-v.toReal) := by
  refine .inr ⟨-v.toInt, ?_⟩
  unfold toReal
  push_cast
  ring

omit [Libm] in
theorem noUnderflow_zero : NoUnderflow 0 := .inr ⟨0, by simp⟩

theorem one_real' : (one : F32).toReal = 1 := by
  change (mk' false (127 * 2 ^ 23)).toReal = 1
  rw [toReal_mk' (by decide), show units (127 * 2 ^ 23) = 2 ^ 149 by decide +kernel]
  norm_num

theorem negOne_real' : (negOne : F32).toReal = -1 := by
  have h := (mul_negOne (x := one) (by change (mk' false (127 * 2 ^ 23)).isFinite = true; decide)).2
  have e := (one_mul_toReal (x := (negOne : F32)) (by change (mk' true (127 * 2 ^ 23)).isFinite = true; decide)).2
  rw [h, one_real'] at e
  exact e.symm

/-- the gradient behind the gate of a ReLU -/
theorem scales_gate {p g g' : F32} (h : Scales k g g') :
    Scales k (F32.mul (if F32.gt p zero then one else zero) g) (F32.mul (if F32.gt p zero then one else zero) g') := by
  refine scales_mul h fun _ hg => ?_
  split
  · rw [one_real', one_mul]
    exact noUnderflow_self g
  · rw [toReal_zero, zero_mul]
    exact noUnderflow_zero

/-- what the gate lets through -/
theorem gate_toReal {p g : F32} (h : g.isFinite = true) :
    (F32.mul (if F32.gt p zero then one else zero) g).toReal = if F32.gt p zero then g.toReal else 0 := by
  split
  · exact (one_mul_toReal h).2
  · exact (zero_mul_toReal h).2

/-- the entries of two tensors -/
def Related2 (k : Nat) (t u : Tensor F32) : Prop :=
  ∀ p : Nat, Scales k (t.data[p]?.getD F32Ops.zero) (u.data[p]?.getD F32Ops.zero)

theorem related2_of_val {t u : Tensor F32} (ht : t.WF) (hu : u.WF) (hs : u.shape = t.shape)
    (h : ∀ i j l, t.shape.Inside i j l → Scales k (val t i j l) (val u i j l)) : Related2 k t u := by
  intro p
  by_cases hp : p < t.data.length
  · obtain ⟨i, j, l, hi, hj, hl, e⟩ := lin_surj (a := t.shape.di.toNat) (b := t.shape.dj.toNat)
      (c := t.shape.dk.toNat) (p := p) (by rw [ht.len] at hp; exact hp)
    have := h i j l ⟨hi, hj, hl⟩
    unfold val pos at this
    rw [hs, ← e] at this
    exact this
  · have h1 : t.data.length ≤ p := by omega
    have h2 : u.data.length ≤ p := by rw [hu.len, hs, ← ht.len]; exact h1
    rw [List.getElem?_eq_none h1, List.getElem?_eq_none h2]
    exact scales_zero

theorem related2_val {t u : Tensor F32} (hs : u.shape = t.shape) (h : Related2 k t u) (i j l : Nat) :
    Scales k (val t i j l) (val u i j l) := by
  unfold val
  rw [hs]
  exact h _

/-- the gate of a ReLU is open where its output is positive -/
theorem fc_gate {l : FullyConnectedLayer F32} (hl : l.Ok) {l2 : AnyLayer F32} {s s' g g' : Tensor F32}
    (r : LayerRound b (.fc l) l2 s s' g g') {o : Nat} (ho : o < l.weights.shape.di.toNat)
    (h : F32.gt (preact l s o) zero = true) : F32.gt (val s' o 0 0) zero = true := by
  obtain ⟨hx, hy, _, out, og, l1, a1, a2, a3, a4, a5, a6⟩ := r
  obtain ⟨l', y, e1, e2, e3, e4⟩ := forward_ok (b := b) (l := .fc l) hl hx.1 hx.2 a1 a2
  rw [a5] at e1
  obtain ⟨_, e1⟩ := Prod.mk.inj (Except.ok.inj e1)
  obtain ⟨_, rfl⟩ := Prod.mk.inj e1
  have hin : (AnyLayer.fc l).get_output_shape.Inside o 0 0 := by
    change l.bias.shape.Inside o 0 0
    rw [hl.rows]
    exact col_inside ho
  rw [e4 o 0 0 hin]
  simp only [layerAt]
  rw [act_relu _ (summed_preact _ _ _)]
  unfold Spec.relu
  change F32.gt (if F32.gt (preact l s o) zero then _ else _) zero = true
  rw [if_pos h]
  exact h

/-- the products with what the gate lets through -/
theorem masked_facts {l : FullyConnectedLayer F32} (hl : l.Ok) {l2 : AnyLayer F32} {s s' g g' : Tensor F32}
    (r : LayerRound b (.fc l) l2 s s' g g') (hu : Lossless (.fc l) s s' g) {o i : Nat}
    (ho : o < l.weights.shape.di.toNat) (hi : i < l.weights.shape.dj.toNat)
    (hf : (masked l ⟨s, g, s, s⟩ o).isFinite = true) :
    NoUnderflow ((val l.weights o i 0).toReal * (masked l ⟨s, g, s, s⟩ o).toReal) ∧
      NoUnderflow ((masked l ⟨s, g, s, s⟩ o).toReal * (val s i 0 0).toReal) := by
  have e : (masked l ⟨s, g, s, s⟩ o).toReal = if F32.gt (preact l s o) zero then (val g o 0 0).toReal else 0 :=
    gate_toReal (finite_of_mul hf).2
  rw [e]
  split
  · exact hu o i ho hi (fc_gate hl r ho (by assumption))
  · rw [mul_zero, zero_mul]
    exact ⟨noUnderflow_zero, noUnderflow_zero⟩

/-- rounds of one layer with the same input: a larger gradient is passed on as a larger one -/
theorem round_scales {l l1 l2 : AnyLayer F32} (hl : l.Ok) (hb : backable l)
    (hm : l.get_run_mode = .Training) {s s' g1 g2 g1' g2' : Tensor F32} (r1 : LayerRound b l l1 s s' g1 g1')
    (r2 : LayerRound b l l2 s s' g2 g2') (hu : Lossless l s s' g1) (hg : Related2 k g1 g2) : Related2 k g1' g2' := by
  have hgv : ∀ i j l, Scales k (val g1 i j l) (val g2 i j l) :=
    related2_val (r2.hg.2.trans r1.hg.2.symm) hg
  cases l with
  | conv l => exact hb.elim
  | fc l =>
    obtain ⟨a1, a2, a3, _⟩ := fc_round hl hm r1
    obtain ⟨c1, c2, c3, _⟩ := fc_round hl hm r2
    refine related2_of_val a1 c1 (c2.trans a2.symm) fun i j l' hin => ?_
    rw [a2] at hin
    obtain ⟨hi, hj, hk⟩ := hin
    have hj : j = 0 := Nat.lt_one_iff.mp hj
    have hk : l' = 0 := Nat.lt_one_iff.mp hk
    subst hj hk
    rw [a3 i hi, c3 i hi]
    refine scales_sum _ _ _ fun o ho => scales_mul (scales_gate (hgv o 0 0)) fun _ hf => ?_
    exact (masked_facts hl r1 hu (List.mem_range.mp ho) hi hf).1
  | mp l =>
    have ho := @mp_round F32 _ b _ hl hm _ r1.hx.1 r1.hx.2
    intro p
    rw [ho r1, ho r2]
    unfold scatter
    refine scales_foldl _ _ _ (fun e _ => hg _) ?_
    rw [List.getElem?_replicate]
    split <;> exact scales_zero
  | sm l =>
    obtain ⟨hj, hk⟩ := hb
    obtain ⟨a1, a2⟩ := sm_round hl hj hk hm r1
    obtain ⟨c1, c2⟩ := sm_round hl hj hk hm r2
    refine related2_of_val a1.1 c1.1 (c1.2.trans a1.2.symm) fun i j l' hin => ?_
    rw [a1.2] at hin
    obtain ⟨hi, hj', hk'⟩ := hin
    rw [hj] at hj'
    rw [hk] at hk'
    have hj' : j = 0 := Nat.lt_one_iff.mp hj'
    have hk' : l' = 0 := Nat.lt_one_iff.mp hk'
    subst hj' hk'
    rw [a2 i hi, c2 i hi]
    refine scales_add (scales_mul (hgv i 0 0) fun _ _ => hu.1 i hi) (scales_add scales_zero
      (scales_mul (scales_mul_left (scales_sum _ _ _ fun o ho => scales_mul (hgv o 0 0)
        fun _ _ => hu.1 o (List.mem_range.mp ho)) fun hf _ => ?_) fun _ hf => ?_))
    · rw [show (negOne : F32).toReal = -1 from negOne_real', mul_neg_one]
      exact noUnderflow_neg _
    · have hf := (finite_of_mul hf).1
      have e := (mul_negOne hf).2
      rw [show (F32Ops.mul _ negOne : F32).toReal = _ from e]
      have := hu.2 i hi
      rw [mul_neg]
      rcases this with h | ⟨z, h⟩
      · left; rw [abs_neg]; exact h
      · right; exact ⟨-z, (congrArg Neg.neg h).trans (by push_cast; ring)⟩

/-- two calls of `backward` after the same `infer` -/
theorem net_scales {n n1 m1 m2 : Net F32} (hok : NetOk n) (ht : TrainReady n)
    (hne : n.layers ≠ []) (hbk : ∀ l ∈ n.layers, backable l) {x g1 g2 : Tensor F32} (hx : x.WF)
    (hxs : x.shape = n.input_shape) (hg1 : g1.WF ∧ g1.shape = n.output_shape)
    (hg2 : g2.WF ∧ g2.shape = n.output_shape)
    (hg : Related2 k g1 g2) (i0 : n.infer b x = .ok (.ok (), n1)) (i1 : n1.backward b g1 = .ok (.ok (), m1))
    (i2 : n1.backward b g2 = .ok (.ok (), m2))
    (hu : ∀ (i : Nat) l s s' g, n.layers[i]? = some l → n1.intermediate_states[i]? = some s →
      n1.intermediate_states[i + 1]? = some s' → m1.intermediate_gradients[i + 1]? = some g → Lossless l s s' g) :
    ∀ i, i ≤ n.layers.length → ∃ t1 t2, m1.intermediate_gradients[i]? = some t1 ∧
      m2.intermediate_gradients[i]? = some t2 ∧ Related2 k t1 t2 := by
  obtain ⟨n1', m1', a1, a2, a3, a4⟩ := net_round (b := b) hok ht hne hbk hx hxs hg1.1 hg1.2
  obtain rfl : n1 = n1' := (Prod.mk.inj (Except.ok.inj (i0.symm.trans a1))).2
  obtain rfl : m1 = m1' := (Prod.mk.inj (Except.ok.inj (i1.symm.trans a2))).2
  obtain ⟨n1', m2', c1, c2, c3, c4⟩ := net_round (b := b) hok ht hne hbk hx hxs hg2.1 hg2.2
  obtain rfl : n1 = n1' := (Prod.mk.inj (Except.ok.inj (i0.symm.trans c1))).2
  obtain rfl : m2 = m2' := (Prod.mk.inj (Except.ok.inj (i2.symm.trans c2))).2
  have main : ∀ d i, i + d = n.layers.length → ∃ t1 t2, m1.intermediate_gradients[i]? = some t1 ∧
      m2.intermediate_gradients[i]? = some t2 ∧ Related2 k t1 t2 := by
    intro d
    induction d with
    | zero =>
      intro i hi
      obtain rfl : i = n.layers.length := by omega
      exact ⟨_, _, a3, c3, hg⟩
    | succ d ih =>
      intro i hi
      have hlt : i < n.layers.length := by omega
      obtain ⟨t1, t2, e1, e2, e4⟩ := ih (i + 1) (by omega)
      have hi' := List.getElem?_eq_getElem hlt
      obtain ⟨_, s, s', gi, gi', _, p2, p3, p4, p5, p6⟩ := a4 i n.layers[i] hi'
      obtain ⟨_, t, t', hi, hi', _, q2, q3, q4, q5, q6⟩ := c4 i n.layers[i] hi'
      obtain rfl := Option.some.inj (p2.symm.trans q2)
      obtain rfl := Option.some.inj (p3.symm.trans q3)
      obtain rfl := Option.some.inj (e1.symm.trans p4)
      obtain rfl := Option.some.inj (e2.symm.trans q4)
      exact ⟨_, _, p5, q5, round_scales (hok.layers _ (List.getElem_mem hlt))
        (hbk _ (List.getElem_mem hlt)) (ht.layers _ (List.getElem_mem hlt)) p6 q6
        (hu i _ _ _ _ (List.getElem?_eq_getElem hlt) p2 p3 p4) e4⟩
  exact fun i hi => main (n.layers.length - i) i (by omega)

end Rusty
