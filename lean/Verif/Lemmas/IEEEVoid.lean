import Verif.Lemmas.IEEEIdle
import Verif.Lemmas.Opposite

/-! # Single precision: what a zero gradient passes on -/

namespace Rusty

open Spec

/-- the gradient at the input of a network -/
theorem gradient_shape {F : Type} [F32Ops F] {b : Build} {n n1 n2 : Net F} (hok : NetOk n) (ht : TrainReady n)
    (hne : n.layers ≠ []) {x g : Tensor F} (hx : x.WF) (hxs : x.shape = n.input_shape) (hg : g.WF)
    (h1 : n.infer b x = .ok (.ok (), n1)) {r : Res} (h2 : n1.backward b g = .ok (r, n2)) {t : Tensor F}
    (h : n2.intermediate_gradients[0]? = some t) : t.WF ∧ t.shape = n.input_shape := by
  have ht2 := backward_trainReady (uses_netOk hok (.infer _ _ _ _ h1)) (infer_trainReady hok ht h1) hg h2
  refine ⟨ht2.wf _ (List.mem_of_getElem? h), ?_⟩
  obtain ⟨_, i1, i2, _⟩ := infer_ok (b := b) hok hne hx hxs
  obtain rfl := (Prod.mk.inj (Except.ok.inj (i1.symm.trans h1))).2
  have e1 := congrArg (·[0]?) ht2.grads
  have e2 : n2.intermediate_states = _ := (backward_effect _ g _ h2).2.2.1
  simp only [List.getElem?_map, h, e2, i2, Option.map_some, Option.some.injEq] at e1
  rw [e1, hxs]

namespace F32

/-- zero or NaN -/
def Void (x : F32) : Prop := x.isNaN = true ∨ x.code = 0

theorem void_mul_nan (x : F32) {v : F32} (h : v.isNaN = true) : (F32.mul v x).isNaN = true := by
  unfold F32.mul
  rw [h]
  simpa using nan_isNaN

theorem void_mul {x : F32} (h : Void x) (v : F32) : Void (F32.mul x v) := by
  rcases h with h | h
  · exact .inl (void_mul_nan _ h)
  · cases hn : v.isNaN
    · cases hi : v.isInf
      · exact .inr (zero_mul_code h (isFinite_iff.mpr ⟨hn, hi⟩))
      · left
        obtain ⟨h1, h2, _⟩ := zero_tests h
        unfold F32.mul
        rw [h1, h2, hn, hi, h]
        simpa using nan_isNaN
    · left
      rw [mul_comm']
      exact void_mul_nan _ hn

/-- adding zero to any number that is not NaN does not change it -/
theorem add_zero_any {s z : F32} (hs : s.isNaN = false) (hz : z.code = 0) : SameNumber (F32.add s z) s := by
  cases hi : s.isInf
  · exact add_zero_same (isFinite_iff.mpr ⟨hs, hi⟩) hz
  · left
    obtain ⟨h1, h2, _⟩ := zero_tests hz
    unfold F32.add
    rw [hs, h1, hi, h2]
    simp

theorem void_nan_left (x : F32) {v : F32} (h : v.isNaN = true) : (F32.add v x).isNaN = true := by
  unfold F32.add
  rw [h]
  simpa using nan_isNaN

theorem void_nan_right (x : F32) {v : F32} (h : v.isNaN = true) : (F32.add x v).isNaN = true := by
  unfold F32.add
  rw [h]
  simpa using nan_isNaN

/-- adding zero or NaN gives the same number or NaN -/
theorem add_void (s : F32) {z : F32} (hz : Void z) : (F32.add s z).isNaN = true ∨ SameNumber (F32.add s z) s := by
  rcases hz with hz | hz
  · exact .inl (void_nan_right _ hz)
  · cases hs : s.isNaN
    · exact .inr (add_zero_any hs hz)
    · exact .inl (void_nan_left _ hs)

theorem zero_add_zero {s z : F32} (hs : s.code = 0) (hz : z.code = 0) : (F32.add s z).code = 0 := by
  rcases add_zero_any (zero_tests hs).1 hz with h | h
  · rw [h]; exact hs
  · exact h.1

theorem void_add {x y : F32} (hx : Void x) (hy : Void y) : Void (F32.add x y) := by
  rcases hx with hx | hx
  · exact .inl (void_nan_left _ hx)
  · rcases add_void x hy with h | h | h
    · exact .inl h
    · rw [h]; exact .inr hx
    · exact .inr h.1

variable [Libm]

theorem void_respected : Respected (fun x _ _ : F32 => Void x) where
  zero := .inr (mk'_code (by decide))
  add := fun _ _ _ _ _ _ h h' => void_add h h'
  left := fun v x _ _ h => by
    change Void (F32.mul v x)
    rw [mul_comm']
    exact void_mul h v
  right := fun v _ _ _ h => void_mul h v

/-! ## Finite numbers -/

omit [Libm] in
theorem mul_zero_code {z x : F32} (hz : z.code = 0) (h : x.isFinite = true) : (F32.mul x z).code = 0 := by
  rw [mul_comm']
  exact zero_mul_code hz h

theorem foldl_zero_code (L : List F32) (h : ∀ z ∈ L, z.code = 0) (s : F32) (hs : s.code = 0) :
    (L.foldl F32Ops.add s).code = 0 := by
  induction L generalizing s with
  | nil => exact hs
  | cons z L ih =>
    exact ih (fun z hz => h z (List.mem_cons_of_mem _ hz)) _ (zero_add_zero hs (h z List.mem_cons_self))

theorem sum_zeros_code {L : List F32} (h : ∀ z ∈ L, z.code = 0) : (Spec.sum L).code = 0 :=
  foldl_zero_code L h _ (mk'_code (by decide))

theorem masked_zero {l : FullyConnectedLayer F32} {r : Round F32} {o : Nat} (h : (val r.g o 0 0).code = 0) :
    (masked l r o).code = 0 := by
  unfold masked
  refine mul_zero_code h ?_
  cases F32Ops.gt (preact l r.x o) F32Ops.zero
  · exact (by decide : (mk' false 0).isFinite = true)
  · exact (by decide : (⟨0x3f800000⟩ : F32).isFinite = true)

/-- every number of the tensor is zero -/
def ZeroData (t : Tensor F32) : Prop := ∀ p : Nat, (t.data[p]?.getD F32Ops.zero).code = 0

theorem zeroData_of_val {t : Tensor F32} (ht : t.WF)
    (h : ∀ i j k, t.shape.Inside i j k → (val t i j k).code = 0) : ZeroData t := by
  intro p
  by_cases hp : p < t.data.length
  · obtain ⟨i, j, k, hi, hj, hk, e⟩ := lin_surj (a := t.shape.di.toNat) (b := t.shape.dj.toNat)
      (c := t.shape.dk.toNat) (p := p) (by rw [ht.len] at hp; exact hp)
    have := h i j k ⟨hi, hj, hk⟩
    unfold val pos at this
    rw [← e] at this
    exact this
  · rw [List.getElem?_eq_none (by omega)]
    exact mk'_code (by decide)

theorem zeroData_val {t : Tensor F32} (h : ZeroData t) (i j k : Nat) : (val t i j k).code = 0 := h _

/-- a round of one layer with finite weights, input and output passes on a zero gradient -/
theorem round_zero {b : Build} {l l1 : AnyLayer F32} (hl : l.Ok) (hb : backable l)
    (hm : l.get_run_mode = .Training) {s s' g g' : Tensor F32} (r : LayerRound b l l1 s s' g g')
    (hw : ∀ f, l = .fc f → ∀ o i, o < f.weights.shape.di.toNat → i < f.weights.shape.dj.toNat →
      (val f.weights o i 0).isFinite = true)
    (hs' : ∀ i j k, s'.shape.Inside i j k → (val s' i j k).isFinite = true)
    (hg : ZeroData g) : ZeroData g' := by
  have hgv := zeroData_val hg
  cases l with
  | conv l => exact hb.elim
  | fc l =>
    obtain ⟨a1, a2, a3, _⟩ := fc_round hl hm r
    refine zeroData_of_val a1 fun i j k hin => ?_
    rw [a2] at hin
    obtain ⟨hi, hj, hk⟩ := hin
    have hj : j = 0 := Nat.lt_one_iff.mp hj
    have hk : k = 0 := Nat.lt_one_iff.mp hk
    subst hj hk
    rw [a3 i hi]
    refine sum_zeros_code fun z hz => ?_
    obtain ⟨o, ho, rfl⟩ := List.mem_map.mp hz
    exact mul_zero_code (masked_zero (hgv o 0 0)) (hw l rfl o i (List.mem_range.mp ho) hi)
  | mp l =>
    have ho := mp_round hl hm r.hx.1 r.hx.2 r
    intro p
    rw [ho]
    unfold scatter
    refine foldl_zero_code _ (fun z hz => ?_) _ ?_
    · obtain ⟨e, _, rfl⟩ := List.mem_map.mp hz
      exact hg _
    · rw [List.getElem?_replicate]
      split <;> exact mk'_code (by decide)
  | sm l =>
    obtain ⟨hj, hk⟩ := hb
    obtain ⟨a1, a2⟩ := sm_round hl hj hk hm r
    have hin' : ∀ o, o < l.shape.di.toNat → (val s' o 0 0).isFinite = true := fun o ho =>
      hs' o 0 0 (by
        have e : s'.shape = l.shape := r.hy.2
        rw [e]
        exact ⟨ho, by rw [hj]; decide, by rw [hk]; decide⟩)
    refine zeroData_of_val a1.1 fun i j k hin => ?_
    rw [a1.2] at hin
    obtain ⟨hi, hj', hk'⟩ := hin
    rw [hj] at hj'
    rw [hk] at hk'
    have hj' : j = 0 := Nat.lt_one_iff.mp hj'
    have hk' : k = 0 := Nat.lt_one_iff.mp hk'
    subst hj' hk'
    rw [a2 i hi]
    refine zero_add_zero (mul_zero_code (hgv i 0 0) (hin' i hi)) (sum_zero_code (mul_zero_code ?_ (hin' i hi)))
    refine zero_mul_code (sum_zeros_code fun z hz => ?_) (by decide : (⟨0xbf800000⟩ : F32).isFinite = true)
    obtain ⟨o, ho, rfl⟩ := List.mem_map.mp hz
    exact mul_zero_code (hgv o 0 0) (hin' o (List.mem_range.mp ho))

/-- a call of `backward` with a zero gradient after an `infer` that produced finite numbers -/
theorem net_zero {b : Build} {n n1 m : Net F32} (hok : NetOk n) (ht : TrainReady n) (hne : n.layers ≠ [])
    (hbk : ∀ l ∈ n.layers, backable l) {x g : Tensor F32} (hx : x.WF) (hxs : x.shape = n.input_shape)
    (hg : g.WF ∧ g.shape = n.output_shape) (hgz : ZeroData g)
    (hw : ∀ f, .fc f ∈ n.layers → ∀ o i, o < f.weights.shape.di.toNat → i < f.weights.shape.dj.toNat →
      (val f.weights o i 0).isFinite = true)
    (i0 : n.infer b x = .ok (.ok (), n1)) (i1 : n1.backward b g = .ok (.ok (), m))
    (hst : ∀ (q : Nat) s, n1.intermediate_states[q]? = some s →
      ∀ i j k, s.shape.Inside i j k → (val s i j k).isFinite = true) :
    (∀ i, i ≤ n.layers.length → ∃ t, m.intermediate_gradients[i]? = some t ∧ ZeroData t) ∧
    ∀ (c : Nat) l, n.layers[c]? = some (.fc l) → ∃ l1, m.layers[c]? = some (.fc l1) ∧
      ∀ o, o < l.weights.shape.di.toNat →
        (∃ d, d.code = 0 ∧
          l1.bias_gradients.get_item b (ix o 0 0) = .ok (F32.add (val l.bias_gradients o 0 0) d)) ∧
        ∀ i, i < l.weights.shape.dj.toNat → ∃ d, d.code = 0 ∧
          l1.weights_gradients.get_item b (ix o i 0) = .ok (F32.add (val l.weights_gradients o i 0) d) := by
  obtain ⟨n1', m1', a1, a2, a3, a4⟩ := net_round (b := b) hok ht hne hbk hx hxs hg.1 hg.2
  obtain rfl : n1 = n1' := (Prod.mk.inj (Except.ok.inj (i0.symm.trans a1))).2
  obtain rfl : m = m1' := (Prod.mk.inj (Except.ok.inj (i1.symm.trans a2))).2
  have main : ∀ d i, i + d = n.layers.length → ∃ t, m.intermediate_gradients[i]? = some t ∧ ZeroData t := by
    intro d
    induction d with
    | zero =>
      intro i hi
      obtain rfl : i = n.layers.length := by omega
      exact ⟨_, a3, hgz⟩
    | succ d ih =>
      intro i hi
      have hlt : i < n.layers.length := by omega
      obtain ⟨t1, e1, e4⟩ := ih (i + 1) (by omega)
      obtain ⟨_, s, s', gi, gi', _, p2, p3, p4, p5, p6⟩ := a4 i n.layers[i] (List.getElem?_eq_getElem hlt)
      obtain rfl := Option.some.inj (e1.symm.trans p4)
      have hmem : n.layers[i] ∈ n.layers := List.getElem_mem hlt
      exact ⟨_, p5, round_zero (hok.layers _ hmem) (hbk _ hmem) (ht.layers _ hmem) p6
        (fun f hf => hw f (hf ▸ hmem)) (hst _ _ p3) e4⟩
  have main' := fun i (hi : i ≤ n.layers.length) => main (n.layers.length - i) i (by omega)
  refine ⟨main', fun c l hc => ?_⟩
  have hlt : c < n.layers.length := (List.getElem?_eq_some_iff.mp hc).1
  have hl : l.Ok := hok.layers _ (List.mem_of_getElem? hc)
  have hlm : l.run_state = .Training := ht.layers _ (List.mem_of_getElem? hc)
  obtain ⟨t1, e1, e4⟩ := main' (c + 1) hlt
  obtain ⟨_, s, s', gi, gi', p1, p2, p3, p4, p5, p6⟩ := a4 c _ hc
  obtain rfl := Option.some.inj (e1.symm.trans p4)
  obtain ⟨_, _, _, f1, rfl, h1⟩ := fc_round hl hlm p6
  have hz := fun o => masked_zero (l := l) (r := ⟨s, t1, s, s⟩) (zeroData_val e4 o 0 0)
  refine ⟨f1, p1, fun o ho => ⟨⟨_, hz o, (h1 o ho).1⟩, fun i hi => ⟨_, sum_zero_code (zero_mul_code (hz o)
    (hst _ _ p2 i 0 0 ?_)), (h1 o ho).2 i hi⟩⟩⟩
  have e : s.shape = l.get_input_shape := p6.hx.2
  rw [e]
  exact ⟨hi, Nat.one_pos, Nat.one_pos⟩

end F32

end Rusty
