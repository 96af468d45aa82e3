import Verif.Lemmas.StepDown
import Verif.Lemmas.Descent
import Verif.Props.BatchAccuracy

/-! # C128: a small step against the gradients recorded in `f32` lowers the exact loss -/

namespace Rusty

open F32Ops Spec F32

/-- C128: Take layers that fit together and labelled inputs at which no relu is at its kink.  Let `V` and `U` be
within `εW` and `εU` of the partial derivatives of the total cross entropy for the weights and biases.  If the sum of
the squares of `V` and `U` is larger than the sum of `εW |V|` and `εU |U|`, then all small enough steps against `V`
and `U` lower the total cross entropy. -/
theorem C128_direction {n m : Nat} (ls : List RealLayer) (hd : Dims n ls m) (ss : List ((Nat → ℝ) × Nat))
    (hss : ∀ s ∈ ss, NoKink ls s.1 ∧ s.2 < m) (V εW : Nat → Nat → Nat → ℝ) (U εU : Nat → Nat → ℝ)
    (hV : ∀ (k : Nat) l, ls[k]? = some l → ∀ o < l.rows, ∀ i < l.cols, ∀ D,
      HasDerivAt (fun t => totalLoss m (ls.modify k fun r => r.withWeight o i t) ss) D (l.weight o i) →
      |V k o i - D| ≤ εW k o i)
    (hU : ∀ (k : Nat) l, ls[k]? = some l → ∀ o < l.rows, ∀ D,
      HasDerivAt (fun t => totalLoss m (ls.modify k fun r => r.withBias o t) ss) D (l.bias o) →
      |U k o - D| ≤ εU k o)
    (h : paramSum ls (fun k o i => εW k o i * |V k o i|) (fun k o => εU k o * |U k o|) <
      paramSum ls (fun k o i => V k o i ^ 2) (fun k o => U k o ^ 2)) :
    ∃ τ > 0, ∀ t, 0 < t → t < τ → totalLoss m (stepNet ls V U t) ss < totalLoss m ls ss := by
  have deriv : ∀ (f : (Nat → ℝ) × Nat → ℝ → ℝ) (D : (Nat → ℝ) × Nat → ℝ) (w : ℝ) (L : List ((Nat → ℝ) × Nat)),
      (∀ s ∈ L, HasDerivAt (f s) (D s) w) →
      HasDerivAt (fun t => (L.map fun s => f s t).sum) (L.map D).sum w := by
    intro f D w L
    induction L with
    | nil => intro _; simpa using hasDerivAt_const w (0 : ℝ)
    | cons s L ih =>
      intro h
      simp only [List.map_cons, List.sum_cons]
      exact (h s (List.mem_cons_self ..)).add (ih fun s hs => h s (List.mem_cons_of_mem _ hs))
  have key : HasDerivAt (fun t => totalLoss m (stepNet ls V U t) ss)
      (ss.map fun s => -paramSum ls (fun k o i => lossWeightGrad m ls s.1 s.2 k o i * V k o i)
        (fun k o => lossBiasGrad m ls s.1 s.2 k o * U k o)).sum 0 :=
    deriv (fun s t => classLoss m (realNet (stepNet ls V U t) s.1) s.2) _ 0 ss
      fun s hs => loss_step_deriv hd (hss s hs).1 (hss s hs).2 V U
  have hneg : ∀ (L : List ((Nat → ℝ) × Nat)) (f : (Nat → ℝ) × Nat → ℝ), (L.map fun s => -f s).sum = -(L.map f).sum := by
    intro L f
    induction L with
    | nil => simp
    | cons s L ih =>
      simp only [List.map_cons, List.sum_cons, ih]
      ring
  have hmul : ∀ (L : List ((Nat → ℝ) × Nat)) (f : (Nat → ℝ) × Nat → ℝ) (v : ℝ),
      (L.map fun s => f s * v).sum = (L.map f).sum * v := by
    intro L f v
    induction L with
    | nil => simp
    | cons s L ih =>
      simp only [List.map_cons, List.sum_cons, ih]
      ring
  rw [hneg, paramSum_list] at key
  simp only [hmul] at key
  have hquad : ∀ {v D ε : ℝ}, |v - D| ≤ ε → v ^ 2 ≤ D * v + ε * |v| := by
    intro v D ε h
    have h1 : (v - D) * v ≤ ε * |v| :=
      (le_abs_self _).trans (by rw [abs_mul]; exact mul_le_mul_of_nonneg_right h (abs_nonneg _))
    nlinarith
  have hle : paramSum ls (fun k o i => V k o i ^ 2) (fun k o => U k o ^ 2) ≤
      paramSum ls (fun k o i => (ss.map fun s => lossWeightGrad m ls s.1 s.2 k o i).sum * V k o i)
        (fun k o => (ss.map fun s => lossBiasGrad m ls s.1 s.2 k o).sum * U k o) +
      paramSum ls (fun k o i => εW k o i * |V k o i|) (fun k o => εU k o * |U k o|) := by
    rw [paramSum_add]
    refine paramSum_le (fun k l hl o ho i hi => ?_) (fun k l hl o ho => ?_)
    · exact hquad (hV k l hl o ho i hi _ (deriv
        (fun s t => classLoss m (realNet (ls.modify k fun r => r.withWeight o i t) s.1) s.2) _ _ ss
        fun s hs => loss_weight_deriv hd (hss s hs).1 (hss s hs).2 hl o i ho hi))
    · exact hquad (hU k l hl o ho _ (deriv
        (fun s t => classLoss m (realNet (ls.modify k fun r => r.withBias o t) s.1) s.2) _ _ ss
        fun s hs => loss_bias_deriv hd (hss s hs).1 (hss s hs).2 hl o ho))
  obtain ⟨τ, h1, h2⟩ := lower_of_deriv key (by linarith)
  refine ⟨τ, h1, fun t a1 a2 => ?_⟩
  have := h2 t a1 a2
  rwa [stepNet_zero] at this

variable [Libm]

/-- C128: Take a classifier of fully connected layers followed by softmax and labelled examples as in C127.  The
client trains on all of them and reads the recorded gradients, which are finite.  Let `εW` and `εU` be at least the
error bounds of C127.  If the sum of the squares of the recorded gradients is larger than the sum of their absolute
values times these bounds, then all small enough steps against the recorded gradients lower the total cross entropy of
the exact network. -/
theorem C128_step [ExpAccurate] (b : Build) (n : Net F32) (hn : Trains b n)
    (fs : List (FullyConnectedLayer F32)) (l : SoftmaxLayer F32)
    (hfs : n.get_layers = fs.map .fc ++ [.sm l]) (hne : fs ≠ [])
    (hfin : ∀ l ∈ fs, (∀ o i, o < l.weights.shape.di.toNat → i < l.weights.shape.dj.toNat →
        (val l.weights o i 0).isFinite = true) ∧
      ∀ o, o < l.weights.shape.di.toNat → (val l.bias o 0 0).isFinite = true)
    (hclear : ∀ l ∈ fs, (∀ o i, o < l.weights.shape.di.toNat → i < l.weights.shape.dj.toNat →
        val l.weights_gradients o i 0 = zero) ∧
      ∀ o, o < l.weights.shape.di.toNat → val l.bias_gradients o 0 0 = zero)
    (M e M' e' G' d' : ℝ) (bs : List (ℝ × ℝ)) (hM : 0 ≤ M) (he : 0 ≤ e)
    (hA : Accuracy (fs.map .fc) M e M' e') (hr : M' + e' ≤ 71) (hm : n.get_output_shape.di.toNat < 2 ^ 22)
    (ss : List Labelled) (hss : ∀ s ∈ ss, s.Ready b n fs M e e' G' d' bs) (hs0 : ss ≠ []) (hN : ss.length < 2 ^ 22) :
    let ls := fs.map realLayer
    let m := n.get_output_shape.di.toNat
    let examples := ss.map fun s => (s.ξ, s.class_)
    ∃ n', Batch b n (ss.map (·.ex)) n' ∧ (RecordedFinite b n' → ∀ (εW : Nat → Nat → Nat → ℝ) (εU : Nat → Nat → ℝ),
      (∀ (k : Nat) l ew eb, ls[k]? = some l → bs[k]? = some (ew, eb) → ∀ o < l.rows,
        (ss.length * eb + ss.length / 2 ^ 23 *
          (ss.map fun s => |lossBiasGrad m ls s.ξ s.class_ k o| + eb).sum ≤ εU k o) ∧
        ∀ i < l.cols, ss.length * ew + ss.length / 2 ^ 23 *
          (ss.map fun s => |lossWeightGrad m ls s.ξ s.class_ k o i| + ew).sum ≤ εW k o i) →
      paramSum ls (fun k o i => εW k o i * |recordedWeight b n' k o i|)
          (fun k o => εU k o * |recordedBias b n' k o|) <
        paramSum ls (fun k o i => recordedWeight b n' k o i ^ 2) (fun k o => recordedBias b n' k o ^ 2) →
      ∃ τ > 0, ∀ t, 0 < t → t < τ →
        totalLoss m (stepNet ls (recordedWeight b n') (recordedBias b n') t) examples < totalLoss m ls examples) := by
  intro ls m examples
  obtain ⟨n', h1, h2⟩ := C127_cross_entropy b n hn fs l hfs hne hfin hclear M e M' e' G' d' bs hM he hA hr hm ss hss
    hs0 hN
  have hd := classifier_dims (trains_ready hn).1 hfs hne
  refine ⟨n', h1, fun hrec εW εU hε hsum => ?_⟩
  have htot : ∀ ls', totalLoss m ls' examples =
      (ss.map fun s => classLoss m (realNet ls' s.ξ) s.class_).sum := by
    intro ls'
    unfold totalLoss
    rw [List.map_map]
    rfl
  have hlayer : ∀ (k : Nat) r, ls[k]? = some r → ∃ f, fs[k]? = some f ∧ r = realLayer f := by
    intro k r hr
    rw [List.getElem?_map] at hr
    cases hf : fs[k]? with
    | none => rw [hf] at hr; cases hr
    | some f => rw [hf] at hr; exact ⟨f, rfl, (Option.some.inj hr).symm⟩
  have hshape : ∀ (k : Nat) f f', fs[k]? = some f → n'.get_layers[k]? = some (.fc f') →
      f'.weights.shape = f.weights.shape := by
    intro k f f' h3 h4
    have hk : n.get_layers[k]? = some (.fc f) := by
      have := (List.getElem?_eq_some_iff.mp h3).1
      rw [hfs, List.getElem?_append_left (by rw [List.length_map]; exact this), List.getElem?_map, h3]
      rfl
    have := congrArg (fun q => q[k]?) (batch_params h1)
    simp only [List.getElem?_map, hk, h4, Option.map_some] at this
    injection this with this
    injection this with this
    injection this with hw
    rw [hw]
  refine C128_direction ls hd examples (fun s hs => ?_) _ εW _ εU (fun k r hr o ho i hi D hD => ?_)
    (fun k r hr o ho D hD => ?_) hsum
  · obtain ⟨s, hs', rfl⟩ := List.mem_map.mp hs
    exact ⟨gradBounds_noKink (hss s hs').bounds hM he, (hss s hs').label⟩
  · obtain ⟨f, hf, rfl⟩ := hlayer k r hr
    obtain ⟨f', ew, eb, k1, k2, k3, _⟩ := h2 k f hf
    obtain ⟨k4, _, v, k5, _, k6⟩ := k3 o i ho hi
    obtain rfl := ((funext fun t => htot _ : _ = _) ▸ hD).unique k4
    have hv : recordedWeight b n' k o i = v.toReal := by
      unfold recordedWeight readReal
      rw [k1]
      simp only [k5]
    have hs := hshape k f f' hf k1
    rw [hv]
    exact (k6 ((hrec k f' k1 o (by rw [hs]; exact ho)).2 i (by rw [hs]; exact hi) v k5)).trans
      ((hε k _ ew eb hr k2 o ho).2 i hi)
  · obtain ⟨f, hf, rfl⟩ := hlayer k r hr
    obtain ⟨f', ew, eb, k1, k2, _, k3⟩ := h2 k f hf
    obtain ⟨k4, _, v, k5, _, k6⟩ := k3 o ho
    obtain rfl := ((funext fun t => htot _ : _ = _) ▸ hD).unique k4
    have hv : recordedBias b n' k o = v.toReal := by
      unfold recordedBias readReal
      rw [k1]
      simp only [k5]
    have hs := hshape k f f' hf k1
    rw [hv]
    exact (k6 ((hrec k f' k1 o (by rw [hs]; exact ho)).1 v k5)).trans (hε k _ ew eb hr k2 o ho).1

/-- The assumptions of C128 can be met: one layer with two scores and softmax, trained twice on the input 1 with the
second class as the right one. -/
example [ExpAccurate] : ∃ (n : Net F32) (s : Labelled) (M' e' G' d' : ℝ) (bs : List (ℝ × ℝ)), Trains .debug n ∧
    n.get_layers = [exScores].map .fc ++ [.sm exSM2] ∧ n.get_output_shape.di.toNat = 2 ∧
    Accuracy ([exScores].map .fc) 1 0 M' e' ∧ M' + e' ≤ 71 ∧
    (∀ s' ∈ [s, s], s'.Ready .debug n [exScores] 1 0 e' G' d' bs) ∧
    ∀ n', Batch .debug n [s.ex, s.ex] n' → RecordedFinite .debug n' ∧
      (∀ (k : Nat) l ew eb, ([exScores].map realLayer)[k]? = some l → bs[k]? = some (ew, eb) → ∀ o < l.rows,
        (2 * eb + 2 / 2 ^ 23 *
          ([s, s].map fun s => |lossBiasGrad 2 ([exScores].map realLayer) s.ξ s.class_ k o| + eb).sum ≤ 1 / 8) ∧
        ∀ i < l.cols, 2 * ew + 2 / 2 ^ 23 *
          ([s, s].map fun s => |lossWeightGrad 2 ([exScores].map realLayer) s.ξ s.class_ k o i| + ew).sum ≤ 1 / 8) ∧
      paramSum ([exScores].map realLayer) (fun k o i => 1 / 8 * |recordedWeight .debug n' k o i|)
          (fun k o => 1 / 8 * |recordedBias .debug n' k o|) <
        paramSum ([exScores].map realLayer) (fun k o i => recordedWeight .debug n' k o i ^ 2)
          (fun k o => recordedBias .debug n' k o ^ 2) := by
  obtain ⟨n, s, M', e', G', d', bs, h1, h2, h3, h4, h5, h6, h7, ⟨hξ, hc⟩, ew, eb, rfl, b1, b2, b3, b4⟩ :=
    exScores_ready
  refine ⟨n, s, M', e', G', d', _, h1, h2, h3, h5, h6, h7, fun n' hn' => ?_⟩
  have one : (⟨0x3f800000⟩ : F32).toReal = 1 := by
    unfold toReal
    rw [show (⟨0x3f800000⟩ : F32).toInt = 2 ^ 149 by decide]
    norm_num
  have zero0 : (⟨0⟩ : F32).toReal = 0 := by
    unfold toReal
    rw [show (⟨0⟩ : F32).toInt = 0 by decide]
    norm_num
  have hpre : ∀ o, o < 2 → (realLayer exScores).pre (fun _ => 1) o = 1 := by
    intro o ho
    unfold RealLayer.pre
    change ∑ i ∈ Finset.range 1, (val exScores.weights o i 0).toReal * 1 + (val exScores.bias o 0 0).toReal = 1
    obtain rfl | rfl : o = 0 ∨ o = 1 := by omega
    all_goals
      rw [Finset.sum_range_one]
      change (⟨0x3f800000⟩ : F32).toReal * 1 + (⟨0⟩ : F32).toReal = 1
      rw [one, zero0]
      norm_num
  have hsoft : ∀ o, o < 2 → softmaxOf 2 (realNet ([exScores].map realLayer) fun _ => 1) o = 1 / 2 := by
    intro o ho
    have hout : ∀ o, o < 2 → realNet ([exScores].map realLayer) (fun _ => 1) o = 1 := by
      intro o ho
      change max 0 ((realLayer exScores).pre (fun _ => 1) o) = 1
      rw [hpre o ho]
      norm_num
    unfold softmaxOf
    rw [Finset.sum_range_succ, Finset.sum_range_one, hout o ho, hout 0 (by omega), hout 1 (by omega)]
    have := (Real.exp_pos 1).ne'
    field_simp
    ring
  have hB : ∀ o, o < 2 → lossBiasGrad 2 ([exScores].map realLayer) (fun _ => 1) 1 0 o = if o = 1 then -1 / 2 else 1 / 2 := by
    intro o ho
    change (if 0 < (realLayer exScores).pre (fun _ => 1) o then
      softmaxOf 2 (realNet ([exScores].map realLayer) fun _ => 1) o - oneHot 1 o else 0) = _
    rw [hpre o ho, if_pos one_pos, hsoft o ho]
    unfold oneHot
    split <;> norm_num
  have hW : ∀ o, o < 2 → lossWeightGrad 2 ([exScores].map realLayer) (fun _ => 1) 1 0 o 0 =
      if o = 1 then -1 / 2 else 1 / 2 := by
    intro o ho
    have : lossWeightGrad 2 ([exScores].map realLayer) (fun _ => 1) 1 0 o 0 =
      lossBiasGrad 2 ([exScores].map realLayer) (fun _ => 1) 1 0 o * 1 := rfl
    rw [this, hB o ho, mul_one]
  simp only [List.map_cons, List.map_nil] at hB hW
  have habs : ∀ o, |if o = 1 then (-1 / 2 : ℝ) else 1 / 2| = 1 / 2 := by
    intro o
    split <;> norm_num
  have hbound : ∀ E : ℝ, 0 ≤ E → E ≤ 1 / 64 → 2 * E + 2 / 2 ^ 23 * ((1 / 2 + E) + ((1 / 2 + E) + 0)) ≤ 1 / 8 := by
    intro E _ h
    norm_num
    linarith
  obtain ⟨n2, k1, k2⟩ := C127_cross_entropy .debug n h1 [exScores] exSM2 h2 (List.cons_ne_nil _ _)
    (fun l hl => ⟨fun o i ho hi => ((h4 l hl).1 o i ho hi).1, fun o ho => ((h4 l hl).2 o ho).1⟩)
    (fun l hl => ⟨fun o i ho hi => ((h4 l hl).1 o i ho hi).2, fun o ho => ((h4 l hl).2 o ho).2⟩)
    1 0 M' e' G' d' [(ew, eb)] zero_le_one le_rfl h5 h6 (by rw [h3]; decide) [s, s] h7 (List.cons_ne_nil _ _)
    (by change 2 < 2 ^ 22; decide)
  obtain rfl := batch_unique k1 hn'
  obtain ⟨l', ew', eb', m1, m2, m3, m4⟩ := k2 0 exScores rfl
  obtain ⟨rfl, rfl⟩ := Prod.mk.inj (Option.some.inj m2)
  rw [h3] at m3 m4
  have h126 : ∀ E : ℝ, E ≤ 1 / 64 → 1 / 2 + E + (1 / 2 + E + 0) ≤ 2 ^ 126 := by
    intro E h
    norm_num
    linarith
  have vW : ∀ o, o < 2 → ∃ v, l'.weights_gradients.get_item .debug (ix o 0 0) = .ok v ∧ v.isFinite = true ∧
      |v.toReal - (if o = 1 then -1 else 1)| ≤ 1 / 8 := by
    intro o ho
    obtain ⟨-, -, v, q1, q2, q3⟩ := m3 o 0 ho (by change 0 < 1; decide)
    simp only [List.map_cons, List.map_nil, List.sum_cons, List.sum_nil, List.length_cons, List.length_nil, hξ, hc,
      hW o ho, habs] at q2 q3
    have hf := q2 (h126 _ b2)
    refine ⟨v, q1, hf, (le_of_eq ?_).trans ((q3 hf).trans ((le_of_eq ?_).trans (hbound ew b1 b2)))⟩
    · congr 1
      split <;> norm_num
    · norm_num
  have vB : ∀ o, o < 2 → ∃ v, l'.bias_gradients.get_item .debug (ix o 0 0) = .ok v ∧ v.isFinite = true ∧
      |v.toReal - (if o = 1 then -1 else 1)| ≤ 1 / 8 := by
    intro o ho
    obtain ⟨-, -, v, q1, q2, q3⟩ := m4 o ho
    simp only [List.map_cons, List.map_nil, List.sum_cons, List.sum_nil, List.length_cons, List.length_nil, hξ, hc,
      hB o ho, habs] at q2 q3
    have hf := q2 (h126 _ b4)
    refine ⟨v, q1, hf, (le_of_eq ?_).trans ((q3 hf).trans ((le_of_eq ?_).trans (hbound eb b3 b4)))⟩
    · congr 1
      split <;> norm_num
    · norm_num
  have hsq : ∀ (o : Nat) (v : ℝ), |v - (if o = 1 then -1 else 1)| ≤ 1 / 8 → 1 / 8 * |v| < v ^ 2 := by
    intro o v h
    have h1 : |(if o = 1 then (-1 : ℝ) else 1)| = 1 := by split <;> norm_num
    have h2 := abs_sub_abs_le_abs_sub (if o = 1 then (-1 : ℝ) else 1) v
    rw [abs_sub_comm, h1] at h2
    have h3 := sq_abs v
    nlinarith
  refine ⟨?_, ?_, ?_⟩
  · intro k f hf o ho
    obtain rfl : k = 0 := by
      by_contra hk
      have h := congrArg (fun q => q[k]?) (batch_params hn')
      simp only [List.getElem?_map, hf, h2] at h
      obtain ⟨k, rfl⟩ := Nat.exists_eq_succ_of_ne_zero hk
      cases k with
      | zero => cases h
      | succ k => cases h
    rw [m1] at hf
    obtain rfl := AnyLayer.fc.inj (Option.some.inj hf)
    have hs : l'.weights.shape = exScores.weights.shape := by
      have h := congrArg (fun q => q[0]?) (batch_params hn')
      simp only [List.getElem?_map, m1, h2] at h
      injection h with h
      injection h with h
      injection h with hw
      rw [hw]
    rw [hs] at ho ⊢
    refine ⟨fun v hv => ?_, fun i hi v hv => ?_⟩
    · obtain ⟨w, w1, w2, _⟩ := vB o ho
      obtain rfl := Except.ok.inj (hv.symm.trans w1)
      exact w2
    · obtain rfl : i = 0 := Nat.lt_one_iff.mp hi
      obtain ⟨w, w1, w2, _⟩ := vW o ho
      obtain rfl := Except.ok.inj (hv.symm.trans w1)
      exact w2
  · intro k r ew' eb' hr hb o ho
    cases k with
    | succ k => cases hr
    | zero =>
      obtain rfl := Option.some.inj hr
      obtain ⟨rfl, rfl⟩ := Prod.mk.inj (Option.some.inj hb)
      simp only [List.map_cons, List.map_nil, List.sum_cons, List.sum_nil, hξ, hc]
      have hB' := hB o ho
      refine ⟨?_, fun i hi => ?_⟩
      · rw [hB', habs]
        exact hbound _ b3 b4
      · obtain rfl : i = 0 := Nat.lt_one_iff.mp hi
        have hW' := hW o ho
        rw [hW', habs]
        exact hbound _ b1 b2
  · have rW : ∀ o, o < 2 → 1 / 8 * |recordedWeight .debug n' 0 o 0| < recordedWeight .debug n' 0 o 0 ^ 2 := by
      intro o ho
      obtain ⟨v, q1, _, q2⟩ := vW o ho
      have : recordedWeight .debug n' 0 o 0 = v.toReal := by
        unfold recordedWeight readReal
        rw [m1]
        simp only [q1]
      rw [this]
      exact hsq o _ q2
    have rB : ∀ o, o < 2 → 1 / 8 * |recordedBias .debug n' 0 o| < recordedBias .debug n' 0 o ^ 2 := by
      intro o ho
      obtain ⟨v, q1, _, q2⟩ := vB o ho
      have : recordedBias .debug n' 0 o = v.toReal := by
        unfold recordedBias readReal
        rw [m1]
        simp only [q1]
      rw [this]
      exact hsq o _ q2
    change (∑ o ∈ Finset.range 2, ((∑ i ∈ Finset.range 1, 1 / 8 * |recordedWeight .debug n' 0 o i|) +
        1 / 8 * |recordedBias .debug n' 0 o|)) + 0 <
      (∑ o ∈ Finset.range 2, ((∑ i ∈ Finset.range 1, recordedWeight .debug n' 0 o i ^ 2) +
        recordedBias .debug n' 0 o ^ 2)) + 0
    simp only [Finset.sum_range_succ, Finset.sum_range_zero]
    linarith [rW 0 (by omega), rW 1 (by omega), rB 0 (by omega), rB 1 (by omega)]

end Rusty
