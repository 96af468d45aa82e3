import Verif.Lemmas.IEEEScaling
import Verif.Props.Monotone

/-! # C105: multiplying the input by a power of two, in `f32` -/

namespace Rusty

open F32Ops Spec F32

variable [Libm]

/-- C105: let the input `x'` be `2^k` times the input `x`.  If, in the run of a network without biases on
`x`, no product underflows and no sum would overflow if multiplied by `2^k` (`Gentle`), then in the run on
`x'` all states between the layers and the output are finite and exactly `2^k` times those of the run
on `x`. -/
theorem C105_infer (b : Build) (n : Net F32) (hn : Built b n) (hne : n.get_layers ≠ []) (k : Nat)
    (x x' : Tensor F32) (hx : x.WF) (hx' : x'.WF) (hxs : x.shape = n.get_input_shape)
    (hsc : ScaledBy k x x') (n1 : Net F32) (h1 : n.infer b x = .ok (.ok (), n1))
    (hg : ∀ i l s, n.get_layers[i]? = some l → n1.get_intermediate_state i = .ok s → Gentle k l s) :
    ∃ n2 y y', n.infer b x' = .ok (.ok (), n2) ∧ n1.get_output = .ok y ∧ n2.get_output = .ok y' ∧
      ScaledBy k y y' ∧ ∀ i, i ≤ n.get_layers.length → ∃ s s', n1.get_intermediate_state i = .ok s ∧
        n2.get_intermediate_state i = .ok s' ∧ ScaledBy k s s' := by
  have hok := built_netOk hn
  have hxs' : x'.shape = n.get_input_shape := hsc.1.trans hxs
  obtain ⟨m1, p1, p2, p3⟩ := infer_ok (b := b) hok hne hx hxs
  obtain rfl : n1 = m1 := by rw [h1] at p1; cases p1; rfl
  obtain ⟨n2, q1, q2, q3⟩ := infer_ok (b := b) hok hne hx' hxs'
  obtain ⟨m1, c1, _, _, c4⟩ := C36_infer b n hn hne x hx hxs
  obtain ⟨m2, d1, _, _, d4⟩ := C36_infer b n hn hne x' hx' hxs'
  obtain rfl : n1 = m1 := by rw [p1] at c1; cases c1; rfl
  obtain rfl : n2 = m2 := by rw [q1] at d1; cases d1; rfl
  have key : ∀ i, i ≤ n.get_layers.length → ∃ s s', n1.intermediate_states[i]? = some s ∧
      n2.intermediate_states[i]? = some s' ∧ ScaledBy k s s' := by
    intro i
    induction i with
    | zero => exact fun _ => ⟨x, x', p2, q2, hsc⟩
    | succ i ih =>
      intro hi
      obtain ⟨s, t, e1, e2, e3⟩ := ih (by omega)
      have hl : n.layers[i]? = some n.layers[i] := List.getElem?_eq_getElem hi
      obtain ⟨s0, s', f1, f2, ⟨f3, f4, f5⟩, _, _, _, _, f6, _⟩ := p3 i _ hl
      obtain ⟨t0, t', g1, g2, ⟨g3, g4, g5⟩, _⟩ := q3 i _ hl
      obtain rfl : s = s0 := by rw [e1] at f1; exact Option.some.inj f1
      obtain rfl : t = t0 := by rw [e2] at g1; exact Option.some.inj g1
      refine ⟨s', t', f2, g2, g4.trans f4.symm, fun a c d hin => ?_⟩
      have hin' : t'.shape.Inside a c d := by rw [g4, ← f4]; exact hin
      have hv := f5 a c d (f4 ▸ hin)
      have hv' := g5 a c d (g4 ▸ hin')
      rw [get_item_ok f3 hin] at hv
      rw [get_item_ok g3 hin'] at hv'
      rw [Except.ok.inj hv, Except.ok.inj hv']
      exact layer_scaled (hok.layers _ (List.mem_of_getElem? hl))
        (hg i _ s hl (by unfold Network.get_intermediate_state; rw [e1])) f6 e3 (f4 ▸ hin)
  have get : ∀ i, i ≤ n.get_layers.length → ∃ s s', n1.get_intermediate_state i = .ok s ∧
      n2.get_intermediate_state i = .ok s' ∧ ScaledBy k s s' := fun i hi => by
    obtain ⟨s, t, e1, e2, e5⟩ := key i hi
    refine ⟨s, t, ?_, ?_, e5⟩
    · unfold Network.get_intermediate_state; rw [e1]
    · unfold Network.get_intermediate_state; rw [e2]
  obtain ⟨u, v, g1, g2, g3⟩ := get _ (Nat.le_refl _)
  exact ⟨n2, u, v, q1, c4.trans g1, d4.trans g2, g3, get⟩

/-- C105, with conditions on the parameters and the inputs only: the network has no biases, `x` has `p`
binary places, so few that no product has more than 149 (`Places`), and the sums stay in range for inputs
of at most `M`, as those of `x'` are (`Accuracy`). -/
theorem C105_places (b : Build) (n : Net F32) (hn : Built b n) (hne : n.get_layers ≠ []) (k p : Nat)
    (hp : Places n.get_layers p) (M M' e' : ℝ) (hM : 0 ≤ M) (hA : Accuracy n.get_layers M 0 M' e')
    (x x' : Tensor F32) (hx : x.WF) (hx' : x'.WF) (hxs : x.shape = n.get_input_shape)
    (hgrid : ∀ a c d, x.shape.Inside a c d → Grid p (val x a c d)) (hw : Within x' M)
    (hsc : ScaledBy k x x') :
    ∃ n1 y n2 y', n.infer b x = .ok (.ok (), n1) ∧ n1.get_output = .ok y ∧
      n.infer b x' = .ok (.ok (), n2) ∧ n2.get_output = .ok y' ∧ ScaledBy k y y' := by
  obtain ⟨n1, t, r1, r2, r3, r4, r5, r6⟩ := run_states b hn hne hx hxs
  obtain ⟨n2, t', s1, s2, s3, s4, s5, s6⟩ := run_states b hn hne hx' (hsc.1.trans hxs)
  refine ⟨n1, _, n2, _, r1, r3, s1, s3, ?_⟩
  refine layers_places b k hA p hp (built_netOk hn).layers t t' hM (le_refl _)
    (fun i j k => (val x' i j k).toReal) ?_ (by rw [r2]; exact hgrid) (by rw [r2, s2]; exact hsc) r6 s6
  rw [s2]
  exact fun i j k hin => ⟨(hw i j k hin).1, by simp, (hw i j k hin).2⟩

/-! ## Examples -/

/-- the bounds of a 1 -> 1 layer -/
theorem exFc_bounds (w c : F32) (hw : w.isFinite = true) (hc : c.isFinite = true) :
    (∀ o i, o < (exFc w c).weights.shape.di.toNat → i < (exFc w c).weights.shape.dj.toNat →
      (val (exFc w c).weights o i 0).isFinite = true) ∧
    ∀ o, o < (exFc w c).weights.shape.di.toNat → (val (exFc w c).bias o 0 0).isFinite = true ∧
      ((List.range (exFc w c).weights.shape.dj.toNat).map fun i =>
        |(val (exFc w c).weights o i 0).toReal|).sum ≤ |w.toReal| ∧
      |(val (exFc w c).bias o 0 0).toReal| ≤ |c.toReal| := by
  have d1 : (exFc w c).weights.shape.dj.toNat = 1 := rfl
  have d2 : (exFc w c).weights.shape.di.toNat = 1 := rfl
  have v (c : F32) : val (single c) 0 0 0 = c := rfl
  rw [d1, d2]
  refine ⟨fun o i ho hi => ?_, fun o ho => ?_⟩
  · obtain rfl : o = 0 := by omega
    obtain rfl : i = 0 := by omega
    exact hw
  · obtain rfl : o = 0 := by omega
    refine ⟨hc, ?_⟩
    change ((List.range 1).map fun i => |(val (single w) 0 i 0).toReal|).sum ≤ _ ∧
      |(val (single c) 0 0 0).toReal| ≤ _
    simp only [List.range_succ, List.range_zero, List.nil_append, List.map_cons, List.map_nil,
      List.sum_cons, List.sum_nil, v, add_zero]
    exact ⟨le_refl _, le_refl _⟩

theorem scaled_one_two : ScaledBy 1 (single (⟨0x3f800000⟩ : F32)) (single ⟨0x40000000⟩) := by
  refine ⟨rfl, fun i j k hin => ?_⟩
  obtain ⟨rfl, rfl, rfl⟩ := single_inside hin
  change (⟨0x3f800000⟩ : F32).isFinite = true ∧ (⟨0x40000000⟩ : F32).isFinite = true ∧
    (⟨0x40000000⟩ : F32).toReal = 2 ^ 1 * (⟨0x3f800000⟩ : F32).toReal
  rw [one_grid.2, two_real]
  exact ⟨by decide, by decide, by norm_num⟩

/-- The assumptions of `C105_places` can be met: the network `max(0, 1 * max(0, 2 * x))`, `k = 1`, and the
inputs 1 and 2. -/
example (b : Build) : ∃ (n : Net F32) (M' e' : ℝ), Built b n ∧ n.get_layers ≠ [] ∧
    Places n.get_layers 0 ∧ Accuracy n.get_layers 2 0 M' e' ∧
    (single ⟨0x3f800000⟩).shape = n.get_input_shape ∧
    (∀ a c d, (single (⟨0x3f800000⟩ : F32)).shape.Inside a c d → Grid 0 (val (single ⟨0x3f800000⟩) a c d)) ∧
    Within (single ⟨0x40000000⟩) 2 ∧ ScaledBy 1 (single ⟨0x3f800000⟩) (single ⟨0x40000000⟩) := by
  obtain ⟨n, h1, h2, h3⟩ := exFc2_built b ⟨0x40000000⟩ ⟨0⟩ ⟨0x3f800000⟩ ⟨0⟩
  have one := one_grid.2
  have P : ∀ (w : F32) (ls : List (AnyLayer F32)), Grid 0 w → Places ls 0 →
      Places (.fc (exFc w ⟨0⟩) :: ls) 0 := by
    intro w ls hw h
    refine .fc _ _ 0 0 (fun o i ho hi => ?_) (fun o ho => ?_) (by omega) h
    · have ho : o < 1 := ho
      have hi : i < 1 := hi
      obtain rfl : o = 0 := by omega
      obtain rfl : i = 0 := by omega
      exact hw
    · have ho : o < 1 := ho
      obtain rfl : o = 0 := by omega
      exact zero_real
  have g1 : Grid 0 (⟨0x3f800000⟩ : F32) := ⟨by decide, 1, by rw [one]; norm_num⟩
  have g2 : Grid 0 (⟨0x40000000⟩ : F32) := ⟨by decide, 2, by rw [two_real]; norm_num⟩
  have hacc : ∃ M' e', Accuracy n.get_layers 2 0 M' e' := by
    rw [h2]
    obtain ⟨w1, w2⟩ := exFc_bounds ⟨0x40000000⟩ ⟨0⟩ (by decide) (by decide)
    obtain ⟨w3, w4⟩ := exFc_bounds ⟨0x3f800000⟩ ⟨0⟩ (by decide) (by decide)
    refine ⟨_, _, .fc _ _ _ _ _ _ _ _ w1 w2 (abs_nonneg _) (abs_nonneg _) ?_ ?_
      (.fc _ _ _ _ _ _ _ _ w3 w4 (abs_nonneg _) (abs_nonneg _) ?_ ?_ (.nil _ _))⟩
    · change (1 : Nat) < _
      norm_num
    · rw [two_real, zero_real]
      norm_num
    · change (1 : Nat) < _
      norm_num
    · rw [two_real, zero_real, one]
      change |(1 : ℝ)| * ((|2| * 2 + |0|) + (|2| * 0 + ((((1 : Nat) : ℝ) + 2) / 2 ^ 23 *
        (|2| * (2 + 0) + |0|) + (((1 : Nat) : ℝ) + 1) / 2 ^ 149))) + |0| ≤ 2 ^ 125
      norm_num
  obtain ⟨M', e', hacc⟩ := hacc
  refine ⟨n, M', e', h1, by rw [h2]; exact List.cons_ne_nil _ _, ?_, hacc, h3.symm, ?_, ?_, scaled_one_two⟩
  · rw [h2]
    exact P _ _ g2 (P _ _ g1 (.nil _))
  · intro a c d hin
    obtain ⟨rfl, rfl, rfl⟩ := single_inside hin
    exact g1
  · intro i j k hin
    obtain ⟨rfl, rfl, rfl⟩ := single_inside hin
    change (⟨0x40000000⟩ : F32).isFinite = true ∧ |(⟨0x40000000⟩ : F32).toReal| ≤ 2
    rw [two_real]
    exact ⟨by decide, by norm_num⟩

/-- The assumptions of `C105_infer` can be met: the network `max(0, 2 * x)`, `k = 1`, and the inputs 1
and 2. -/
example (b : Build) : ∃ n n1 : Net F32, Built b n ∧ n.get_layers ≠ [] ∧
    (single ⟨0x3f800000⟩).shape = n.get_input_shape ∧
    ScaledBy 1 (single ⟨0x3f800000⟩) (single ⟨0x40000000⟩) ∧
    n.infer b (single ⟨0x3f800000⟩) = .ok (.ok (), n1) ∧
    ∀ i l s, n.get_layers[i]? = some l → n1.get_intermediate_state i = .ok s → Gentle 1 l s := by
  obtain ⟨n, hn, hl, hs⟩ : ∃ n : Net F32, Built b n ∧ n.get_layers = [.fc (exFc ⟨0x40000000⟩ ⟨0⟩)] ∧
      n.get_input_shape = ⟨1, 1, 1⟩ :=
    ⟨_, .add_layer (Network.new .Inference) (.fc (exFc ⟨0x40000000⟩ ⟨0⟩)) (.ok ()) _ (.new _)
      (exFc_ok _ _) (by cases b <;> rfl), rfl, rfl⟩
  have hne : n.get_layers ≠ [] := by rw [hl]; exact List.cons_ne_nil _ _
  obtain ⟨n1, p1, p2, p3⟩ := infer_ok (b := b) (built_netOk hn) hne (single_wf (⟨0x3f800000⟩ : F32)) hs.symm
  refine ⟨n, n1, hn, hne, hs.symm, scaled_one_two, p1, fun i l s hi hst => ?_⟩
  rw [hl] at hi
  cases i with
  | succ i => cases hi
  | zero =>
    cases hi
    unfold Network.get_intermediate_state at hst
    rw [p2] at hst
    cases hst
    refine ⟨by change (1 : Nat) < _; norm_num, fun o ho => ?_⟩
    have ho : o < 1 := ho
    obtain rfl : o = 0 := by omega
    refine ⟨⟨show (⟨0⟩ : F32).isFinite = true by decide, zero_real⟩, fun i hi => ?_, ?_⟩
    · have hi : i < 1 := hi
      obtain rfl : i = 0 := by omega
      refine ⟨show (⟨0x40000000⟩ : F32).isFinite = true by decide, .inl ?_⟩
      change 1 / 2 ^ 126 ≤ |(⟨0x40000000⟩ : F32).toReal * (⟨0x3f800000⟩ : F32).toReal|
      rw [one_grid.2, two_real]
      norm_num
    · change 2 ^ 1 * ((List.range 1).map fun i => |(val (single (⟨0x40000000⟩ : F32)) 0 i 0).toReal *
        (val (single (⟨0x3f800000⟩ : F32)) i 0 0).toReal|).sum ≤ 2 ^ 125
      simp only [List.range_succ, List.range_zero, List.nil_append, List.map_cons, List.map_nil,
        List.sum_cons, List.sum_nil, add_zero]
      change 2 ^ 1 * |(⟨0x40000000⟩ : F32).toReal * (⟨0x3f800000⟩ : F32).toReal| ≤ 2 ^ 125
      rw [one_grid.2, two_real]
      norm_num

/-- C105: where a product underflows it is false.  The weights are `1/2` and 1.  The input `3 * 2^-149`
gives `2 * 2^-149` instead of `1.5 * 2^-149`; twice that input gives `3 * 2^-149`, less than twice as
much. -/
theorem C105_underflow (b : Build) : ∃ n : Net F32, Built b n ∧
    (single ⟨3⟩).shape = n.get_input_shape ∧ ScaledBy 1 (single (⟨3⟩ : F32)) (single ⟨6⟩) ∧
    ∃ n1 y n2 y' v v', n.infer b (single ⟨3⟩) = .ok (.ok (), n1) ∧ n1.get_output = .ok y ∧
      n.infer b (single ⟨6⟩) = .ok (.ok (), n2) ∧ n2.get_output = .ok y' ∧
      y.get_item b (ix 0 0 0) = .ok v ∧ y'.get_item b (ix 0 0 0) = .ok v' ∧
      v'.toReal < 2 * v.toReal := by
  obtain ⟨n, h1, h2, h3⟩ := exFc2_built b ⟨0x3f000000⟩ ⟨0⟩ ⟨0x3f800000⟩ ⟨0⟩
  have relu : ∀ x : F32, Spec.relu x = if F32.gt x (mk' false 0) then x else mk' false 0 := fun _ => rfl
  obtain ⟨n1, y, r1, r2, r3⟩ := exFc2_run b ⟨0x3f000000⟩ ⟨0⟩ ⟨0x3f800000⟩ ⟨0⟩ ⟨3⟩ ⟨2⟩
    ⟨2⟩ (by rw [relu]; decide +kernel) (by rw [relu]; decide +kernel) n h1 h2 h3
  obtain ⟨n2, y', s1, s2, s3⟩ := exFc2_run b ⟨0x3f000000⟩ ⟨0⟩ ⟨0x3f800000⟩ ⟨0⟩ ⟨6⟩ ⟨3⟩
    ⟨3⟩ (by rw [relu]; decide +kernel) (by rw [relu]; decide +kernel) n h1 h2 h3
  refine ⟨n, h1, h3.symm, ⟨rfl, fun i j k hin => ?_⟩, n1, y, n2, y', _, _, r1, r2, s1, s2, r3, s3, ?_⟩
  · obtain ⟨rfl, rfl, rfl⟩ := single_inside hin
    change (⟨3⟩ : F32).isFinite = true ∧ (⟨6⟩ : F32).isFinite = true ∧
      (⟨6⟩ : F32).toReal = 2 ^ 1 * (⟨3⟩ : F32).toReal
    refine ⟨by decide, by decide, ?_⟩
    unfold toReal
    rw [show (⟨6⟩ : F32).toInt = 6 by decide, show (⟨3⟩ : F32).toInt = 3 by decide]
    norm_num
  · unfold toReal
    rw [show (⟨2⟩ : F32).toInt = 2 by decide, show (⟨3⟩ : F32).toInt = 3 by decide]
    norm_num

end Rusty
