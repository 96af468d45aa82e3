import Verif.Lemmas.IEEEVoid
import Verif.Spec.DeadUnits

/-! # Helper lemmas: units that give zero -/

namespace Rusty

open Spec

namespace F32

variable [Libm]

/-- a unit that gives zero was cut off by relu -/
theorem dead_gate {b : Build} {l : FullyConnectedLayer F32} (hl : l.Ok) (hm : l.run_state = .Training) {l2 : AnyLayer F32}
    {s s' g g' : Tensor F32} (r : LayerRound b (.fc l) l2 s s' g g') {o : Nat} (ho : o < l.weights.shape.di.toNat)
    (h0 : (val s' o 0 0).code = 0) : F32Ops.gt (preact l s o) F32Ops.zero = false := by
  obtain ⟨out, og, l1, w1, w2, _, _, w5, _⟩ := r.run
  obtain ⟨l', y, f1, _, _, f4⟩ := forward_ok (b := b) (l := .fc l) hl r.hx.1 r.hx.2 w1 w2
  have hin : (AnyLayer.fc l).get_output_shape.Inside o 0 0 := by
    change l.bias.shape.Inside o 0 0
    rw [hl.rows]
    exact ⟨ho, Nat.one_pos, Nat.one_pos⟩
  have f4 := f4 o 0 0 hin
  obtain ⟨_, rfl⟩ := Prod.mk.inj (Prod.mk.inj (Except.ok.inj (w5.symm.trans f1))).2
  rw [f4] at h0
  simp only [layerAt, hm, act] at h0
  cases hg : F32Ops.gt (preact l s o) F32Ops.zero
  · rfl
  · unfold relu at h0
    rw [hg, if_pos rfl] at h0
    have e : F32.gt (preact l s o) (mk' false 0) = F32.gt (mk' false 0) (mk' false 0) :=
      gt_zeq (.inr ⟨h0, mk'_code (by decide)⟩) (.inl rfl)
    rw [show F32.gt (mk' false 0) (mk' false 0) = false by decide] at e
    exact (Bool.false_ne_true (e.symm.trans hg)).elim

theorem dead_masked {l : FullyConnectedLayer F32} {s g : Tensor F32} {o : Nat}
    (h : F32Ops.gt (preact l s o) F32Ops.zero = false) :
    Void (masked l ⟨s, g, s, s⟩ o) ∧ ((val g o 0 0).isFinite = true → (masked l ⟨s, g, s, s⟩ o).code = 0) := by
  have z : (F32Ops.zero : F32).code = 0 := mk'_code (by decide)
  unfold masked
  rw [h]
  exact ⟨void_mul (.inr z) _, fun hf => zero_mul_code z hf⟩

/-- every number of the tensor is zero or NaN -/
def VoidData (t : Tensor F32) : Prop := Related (fun x _ _ : F32 => Void x) t t t

/-- zeros and NaNs that reach some place of a network are passed on to all places before it -/
theorem void_from {b : Build} {n n1 m : Net F32} (hok : NetOk n) (ht : TrainReady n)
    (hbk : ∀ l ∈ n.layers, backable l)
    (a4 : ∀ (i : Nat) l, n.layers[i]? = some l → ∃ l2 s s' gi gi', m.layers[i]? = some l2 ∧
        n1.intermediate_states[i]? = some s ∧ n1.intermediate_states[i + 1]? = some s' ∧
        m.intermediate_gradients[i + 1]? = some gi ∧ m.intermediate_gradients[i]? = some gi' ∧
        LayerRound b l l2 s s' gi gi')
    {D : Nat} (hD : D ≤ n.layers.length) {t : Tensor F32} (e : m.intermediate_gradients[D]? = some t)
    (hv : VoidData t) (i : Nat) (hi : i ≤ D) : ∃ t, m.intermediate_gradients[i]? = some t ∧ VoidData t := by
  obtain ⟨d, rfl⟩ := Nat.exists_eq_add_of_le hi
  clear hi
  induction d generalizing i with
  | zero => exact ⟨t, e, hv⟩
  | succ d ih =>
    have hlt : i < n.layers.length := by omega
    obtain ⟨t1, e1, e4⟩ := ih (i + 1) (by omega) (by rw [← e]; congr 1; omega)
    obtain ⟨_, s, s', gi, gi', _, p2, p3, p4, p5, p6⟩ := a4 i n.layers[i] (List.getElem?_eq_getElem hlt)
    obtain rfl := Option.some.inj (e1.symm.trans p4)
    have hmem : n.layers[i] ∈ n.layers := List.getElem_mem hlt
    exact ⟨_, p5, round_respected void_respected (hok.layers _ hmem) (hbk _ hmem) (ht.layers _ hmem) p6 p6 p6 e4⟩

/-- with finite numbers, the zeros stay zeros -/
theorem zero_from {b : Build} {n n1 m : Net F32} (hok : NetOk n) (ht : TrainReady n)
    (hbk : ∀ l ∈ n.layers, backable l)
    (a4 : ∀ (i : Nat) l, n.layers[i]? = some l → ∃ l2 s s' gi gi', m.layers[i]? = some l2 ∧
        n1.intermediate_states[i]? = some s ∧ n1.intermediate_states[i + 1]? = some s' ∧
        m.intermediate_gradients[i + 1]? = some gi ∧ m.intermediate_gradients[i]? = some gi' ∧
        LayerRound b l l2 s s' gi gi')
    {D : Nat} (hD : D ≤ n.layers.length) {t : Tensor F32} (e : m.intermediate_gradients[D]? = some t)
    (hv : ZeroData t)
    (hw : ∀ (c : Nat) f, c < D → n.layers[c]? = some (.fc f) → ∀ o i, o < f.weights.shape.di.toNat →
      i < f.weights.shape.dj.toNat → (val f.weights o i 0).isFinite = true)
    (hst : ∀ (q : Nat) s, q ≤ D → n1.intermediate_states[q]? = some s →
      ∀ i j k, s.shape.Inside i j k → (val s i j k).isFinite = true)
    (i : Nat) (hi : i ≤ D) : ∃ t, m.intermediate_gradients[i]? = some t ∧ ZeroData t := by
  obtain ⟨d, rfl⟩ := Nat.exists_eq_add_of_le hi
  clear hi
  induction d generalizing i with
  | zero => exact ⟨t, e, hv⟩
  | succ d ih =>
    have hlt : i < n.layers.length := by omega
    obtain ⟨t1, e1, e4⟩ := ih (i + 1) (by omega) (by rw [← e]; congr 1; omega)
      (fun c f hc => hw c f (by omega)) (fun q s hq => hst q s (by omega))
    obtain ⟨_, s, s', gi, gi', _, p2, p3, p4, p5, p6⟩ := a4 i n.layers[i] (List.getElem?_eq_getElem hlt)
    obtain rfl := Option.some.inj (e1.symm.trans p4)
    have hmem : n.layers[i] ∈ n.layers := List.getElem_mem hlt
    refine ⟨_, p5, round_zero (hok.layers _ hmem) (hbk _ hmem) (ht.layers _ hmem) p6
      (fun f hf => hw i f (by omega) ?_) (hst _ _ (by omega) p3) e4⟩
    rw [List.getElem?_eq_getElem hlt, hf]

/-- what a round does to the gradients of a unit whose masked gradient is zero -/
theorem unit_gradients {b : Build} {n : Net F32} (hn : Trains b n) {c : Nat} {l : FullyConnectedLayer F32}
    (hc : n.layers[c]? = some (.fc l)) {l2 : AnyLayer F32} {s s' g g' : Tensor F32}
    (r : LayerRound b (.fc l) l2 s s' g g') : ∃ l1, l2 = .fc l1 ∧ ∀ o, o < l.weights.shape.di.toNat →
      (Void (masked l ⟨s, g, s, s⟩ o) → UnitGradients b SameOrNaN l l1 o) ∧
      ((masked l ⟨s, g, s, s⟩ o).code = 0 → (∀ i j k, s.shape.Inside i j k → (val s i j k).isFinite = true) →
        UnitGradients b (fun v u => u.isNaN = false → SameNumber v u) l l1 o) := by
  obtain ⟨hok, ht⟩ := trains_ready hn
  have hl : l.Ok := hok.layers _ (List.mem_of_getElem? hc)
  have hlm : l.run_state = .Training := ht.layers _ (List.mem_of_getElem? hc)
  obtain ⟨_, _, _, l1, rfl, q⟩ := fc_round hl hlm r
  obtain ⟨w, w'⟩ := fc_grad_inside hn rfl hc hc
  refine ⟨l1, rfl, fun o ho => ?_⟩
  obtain ⟨q1, q2⟩ := q o ho
  refine ⟨fun h => ⟨⟨_, _, get_item_ok (w o ho).1 (w o ho).2, q1, add_void _ h⟩, fun i hi =>
    ⟨_, _, get_item_ok (w' o i ho hi).1 (w' o i ho hi).2, q2 i hi, add_void _ ?_⟩⟩,
    fun z hf => ⟨⟨_, _, get_item_ok (w o ho).1 (w o ho).2, q1, fun h => add_zero_any h z⟩, fun i hi =>
      ⟨_, _, get_item_ok (w' o i ho hi).1 (w' o i ho hi).2, q2 i hi, fun h => add_zero_any h ?_⟩⟩⟩
  · exact sum1_respected void_respected (y := F32Ops.zero) (z := F32Ops.zero) (void_mul h _)
  · refine sum_zero_code (zero_mul_code z (hf i 0 0 ?_))
    rw [r.hx.2]
    exact ⟨hi, Nat.one_pos, Nat.one_pos⟩

/-- a masked gradient is zero or NaN if the gradient is -/
theorem masked_void {l : FullyConnectedLayer F32} {r : Round F32} {o : Nat} (h : Void (val r.g o 0 0)) :
    Void (masked l r o) := void_respected.left _ _ F32Ops.zero F32Ops.zero h

omit [Libm] in
theorem state_ok {n : Net F32} {q : Nat} {s : Tensor F32} (h : n.intermediate_states[q]? = some s) :
    n.get_intermediate_state q = .ok s := by
  unfold Network.get_intermediate_state
  rw [h]

end F32

end Rusty
