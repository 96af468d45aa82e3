import Verif.Lemmas.Drift
import Verif.Props.Robust
import Verif.Props.PowerOfTwo

/-! # C126: small changes of the parameters -/

namespace Rusty

open F32Ops Spec F32

variable [Libm]

/-- C126, exact arithmetic: networks whose parameters differ as little as `Drift` says, and inputs that differ by at
most `d`, give outputs that differ by at most `d'`. -/
theorem C126_exact (b : Build) (n n' : Net F32) (hn : Built b n) (hn' : Built b n') (hne : n.get_layers ≠ [])
    (x : Tensor F32) (hx : x.WF) (hxs : x.shape = n.get_input_shape) (ξ ξ' : Nat → Nat → Nat → ℝ)
    (M d M' d' : ℝ) (hM : 0 ≤ M) (hd : 0 ≤ d) (hD : Drift n.get_layers n'.get_layers M d M' d')
    (hξ : ∀ i j k, n.get_input_shape.Inside i j k → |ξ i j k| ≤ M ∧ |ξ i j k - ξ' i j k| ≤ d) (i j k : Nat)
    (hin : n.get_output_shape.Inside i j k) :
    |exactNet n.get_layers ξ i j k - exactNet n'.get_layers ξ' i j k| ≤ d' := by
  have hok := built_netOk hn
  obtain ⟨n1, _, h2, h3⟩ := infer_ok (b := b) hok hne hx hxs
  have hstep : ∀ i l, n.layers[i]? = some l →
      ((n1.intermediate_states[i]?).getD x).shape = l.get_input_shape ∧
      applies b l ((n1.intermediate_states[i]?).getD x) ((n1.intermediate_states[i + 1]?).getD x) := by
    intro i l hi
    obtain ⟨s, s', e1, e2, e3, _, _, _, _, e5, _⟩ := h3 i l hi
    rw [e1, e2]
    exact ⟨e5, e3⟩
  refine (layers_drift b hD hok.layers (built_netOk hn').layers (fun i => (n1.intermediate_states[i]?).getD x) hM hd
    ξ ξ' (by simpa only [h2, Option.getD_some, hxs] using hξ) hstep i j k ?_).2
  have hpos : 0 < n.layers.length := List.length_pos_of_ne_nil hne
  have hlast := List.getElem?_eq_getElem (l := n.layers) (i := n.layers.length - 1) (by omega)
  generalize n.layers[n.layers.length - 1] = last at hlast
  obtain ⟨_, e3⟩ := hstep _ _ hlast
  rw [show n.layers.length - 1 + 1 = n.layers.length by omega] at e3
  change ((n1.intermediate_states[n.layers.length]?).getD x).shape.Inside i j k
  rw [e3.2.1, ← hok.chain.last last (by rw [List.getLast?_eq_getElem?]; exact hlast)]
  exact hin

/-- C126, `f32`: the outputs that `infer` of the two networks computes are finite and differ by at most
`d' + e1 + e2`, where `d'` is the bound of `Drift` and `e1`, `e2` are the rounding error bounds of `Accuracy` for the
two networks. -/
theorem C126_infer (b : Build) (n n' : Net F32) (hn : Built b n) (hn' : Built b n')
    (hne : n.get_layers ≠ []) (hi : n'.get_input_shape = n.get_input_shape)
    (ho : n'.get_output_shape = n.get_output_shape) (x x2 : Tensor F32) (hx : x.WF)
    (hxs : x.shape = n.get_input_shape) (hx2 : x2.WF) (hxs2 : x2.shape = n.get_input_shape)
    (M d M' d' M1 e1 M2 e2 : ℝ) (hM : 0 ≤ M) (hd : 0 ≤ d) (hw : NearBy x x2 M d)
    (hA : Accuracy n.get_layers M 0 M1 e1) (hA' : Accuracy n'.get_layers M 0 M2 e2)
    (hD : Drift n.get_layers n'.get_layers M d M' d') :
    ∃ n1 y n2 y2, n.infer b x = .ok (.ok (), n1) ∧ n1.get_output = .ok y ∧
      n'.infer b x2 = .ok (.ok (), n2) ∧ n2.get_output = .ok y2 ∧
      ∀ i j k, n.get_output_shape.Inside i j k → ∃ v v2, y.get_item b (ix i j k) = .ok v ∧
        y2.get_item b (ix i j k) = .ok v2 ∧ v.isFinite = true ∧ v2.isFinite = true ∧
        |v.toReal - v2.toReal| ≤ d' + e1 + e2 := by
  have h12 : x.shape = x2.shape := hxs.trans hxs2.symm
  have hne' : n'.get_layers ≠ [] := by
    intro h
    rw [h] at hD
    cases hl : n.get_layers with
    | nil => exact hne hl
    | cons a l => rw [hl] at hD; cases hD
  obtain ⟨n1, y, h1, h2, h3, h4⟩ := C74_infer b n hn hne x hx hxs (fun i j k => (val x i j k).toReal)
    M 0 M1 e1 hM le_rfl (fun i j k hin => ⟨(hw i j k hin).1.1, by simp, (hw i j k hin).1.2⟩) hA
  obtain ⟨n2, y2, g1, g2, g3, g4⟩ := C74_infer b n' hn' hne' x2 hx2 (hxs2.trans hi.symm)
    (fun i j k => (val x2 i j k).toReal) M 0 M2 e2 hM le_rfl
    (fun i j k hin => ⟨(hw i j k (h12 ▸ hin)).2.1.1, by simp, (hw i j k (h12 ▸ hin)).2.1.2⟩) hA'
  refine ⟨n1, y, n2, y2, h1, h2, g1, g2, fun i j k hin => ?_⟩
  obtain ⟨v, a1, a2, a3, _⟩ := h4 i j k (h3 ▸ hin)
  obtain ⟨v2, c1, c2, c3, _⟩ := g4 i j k (by rw [g3, ho]; exact hin)
  have hc := C126_exact b n n' hn hn' hne x hx hxs (fun i j k => (val x i j k).toReal)
    (fun i j k => (val x2 i j k).toReal) M d M' d' hM hd hD
    (fun i j k hin => ⟨(hw i j k (hxs ▸ hin)).1.2, (hw i j k (hxs ▸ hin)).2.2⟩) i j k hin
  refine ⟨v, v2, a1, c1, a2, c2, ?_⟩
  rw [abs_le] at a3 c3 hc ⊢
  constructor <;> linarith

/-- C126, a certificate: if `infer` of the first network gives two outputs that differ by more than
`2(d' + e1 + e2)`, the second network, for instance with rounded parameters, computes the first of the two to be the
larger one as well, for every input within `d`. -/
theorem C126_certificate (b : Build) (n n' : Net F32) (hn : Built b n) (hn' : Built b n')
    (hne : n.get_layers ≠ []) (hi : n'.get_input_shape = n.get_input_shape)
    (ho : n'.get_output_shape = n.get_output_shape) (x : Tensor F32) (hx : x.WF)
    (hxs : x.shape = n.get_input_shape) (M d M' d' M1 e1 M2 e2 : ℝ) (hM : 0 ≤ M) (hd : 0 ≤ d)
    (hA : Accuracy n.get_layers M 0 M1 e1) (hA' : Accuracy n'.get_layers M 0 M2 e2)
    (hD : Drift n.get_layers n'.get_layers M d M' d') (n1 : Net F32) (y : Tensor F32)
    (hrun : n.infer b x = .ok (.ok (), n1)) (hy : n1.get_output = .ok y) (i j k i' j' k' : Nat)
    (hin : n.get_output_shape.Inside i j k) (hin' : n.get_output_shape.Inside i' j' k') (v v' : F32)
    (hv : y.get_item b (ix i j k) = .ok v) (hv' : y.get_item b (ix i' j' k') = .ok v')
    (hgap : v'.toReal + 2 * (d' + e1 + e2) < v.toReal) (x2 : Tensor F32) (hx2 : x2.WF)
    (hxs2 : x2.shape = n.get_input_shape) (hw : NearBy x x2 M d) :
    ∃ n2 y2 w w', n'.infer b x2 = .ok (.ok (), n2) ∧ n2.get_output = .ok y2 ∧
      y2.get_item b (ix i j k) = .ok w ∧ y2.get_item b (ix i' j' k') = .ok w' ∧ F32.gt w w' = true := by
  obtain ⟨m1, z, n2, y2, h1, h2, h3, h4, h5⟩ := C126_infer b n n' hn hn' hne hi ho x x2 hx hxs hx2 hxs2 M d M' d'
    M1 e1 M2 e2 hM hd hw hA hA' hD
  obtain rfl : n1 = m1 := by rw [h1] at hrun; injection hrun with h; exact (Prod.mk.inj h).2.symm
  obtain rfl : y = z := by rw [h2] at hy; injection hy with h; exact h.symm
  obtain ⟨u, w, a1, a2, a3, a4, a5⟩ := h5 i j k hin
  obtain ⟨u', w', c1, c2, c3, c4, c5⟩ := h5 i' j' k' hin'
  obtain rfl : u = v := by rw [a1] at hv; injection hv
  obtain rfl : u' = v' := by rw [c1] at hv'; injection hv'
  refine ⟨n2, y2, w, w', h3, h4, a2, c2, (gt_real a4 c4).mpr ?_⟩
  rw [abs_le] at a5 c5
  linarith

/-- The assumptions of `C126_infer` can be met: the networks `max(0, max(0, x))` and
`max(0, max(0, (1 + 2^-23) * x))`, the same input 1 for both. -/
example (b : Build) : ∃ (n n' : Net F32) (M' M1 e1 M2 e2 : ℝ), Built b n ∧ Built b n' ∧ n.get_layers ≠ [] ∧
    n'.get_input_shape = n.get_input_shape ∧ n'.get_output_shape = n.get_output_shape ∧
    (single ⟨0x3f800000⟩).shape = n.get_input_shape ∧ NearBy (single ⟨0x3f800000⟩) (single ⟨0x3f800000⟩) 1 0 ∧
    Accuracy n.get_layers 1 0 M1 e1 ∧ Accuracy n'.get_layers 1 0 M2 e2 ∧
    Drift n.get_layers n'.get_layers 1 0 M' (1 / 2 ^ 23) := by
  obtain ⟨n, h1, h2, h3⟩ := exFc2_built b ⟨0x3f800000⟩ ⟨0⟩ ⟨0x3f800000⟩ ⟨0⟩
  obtain ⟨n', g1, g2, g3⟩ := exFc2_built b ⟨0x3f800001⟩ ⟨0⟩ ⟨0x3f800000⟩ ⟨0⟩
  have one := one_grid.2
  have more : (⟨0x3f800001⟩ : F32).toReal = 1 + 1 / 2 ^ 23 := by
    unfold toReal
    rw [show (⟨0x3f800001⟩ : F32).toInt = (2 ^ 23 + 1) * 2 ^ 126 by decide]
    norm_num
  have out : ∀ {n : Net F32} {l1 l2 : FullyConnectedLayer F32}, Built b n → n.get_layers = [.fc l1, .fc l2] →
      n.get_output_shape = l2.get_output_shape := by
    intro n l1 l2 hn hl
    exact (built_netOk hn).chain.last (.fc l2) (by change n.get_layers.getLast? = _; rw [hl]; rfl)
  have acc : ∀ w : F32, w.isFinite = true → |w.toReal| ≤ 2 → ∃ M' e',
      Accuracy [.fc (exFc w ⟨0⟩), .fc (exFc ⟨0x3f800000⟩ ⟨0⟩)] 1 0 M' e' := by
    intro w hf hw
    obtain ⟨w1, w2⟩ := exFc_bounds w ⟨0⟩ hf (by decide)
    obtain ⟨w3, w4⟩ := exFc_bounds ⟨0x3f800000⟩ ⟨0⟩ (by decide) (by decide)
    refine ⟨_, _, .fc _ _ 2 0 _ _ _ _ w1 (fun o ho => ⟨(w2 o ho).1, (w2 o ho).2.1.trans hw, ?_⟩) (by norm_num)
      le_rfl ?_ (by norm_num) (.fc _ _ 1 0 _ _ _ _ w3 (fun o ho => ⟨(w4 o ho).1, ?_, ?_⟩) (by norm_num) le_rfl ?_ ?_
        (.nil _ _))⟩
    · have := (w2 o ho).2.2
      rwa [zero_real, abs_zero] at this
    · change (1 : Nat) < _
      norm_num
    · have := (w4 o ho).2.1
      rwa [one, abs_one] at this
    · have := (w4 o ho).2.2
      rwa [zero_real, abs_zero] at this
    · change (1 : Nat) < _
      norm_num
    · change (1 : ℝ) * ((2 * 1 + 0) + (2 * 0 + ((((1 : Nat) : ℝ) + 2) / 2 ^ 23 *
        (2 * (1 + 0) + 0) + (((1 : Nat) : ℝ) + 1) / 2 ^ 149))) + 0 ≤ 2 ^ 125
      norm_num
  obtain ⟨M1, e1, a1⟩ := acc ⟨0x3f800000⟩ (by decide) (by rw [one]; norm_num)
  obtain ⟨M2, e2, a2⟩ := acc ⟨0x3f800001⟩ (by decide) (by rw [more]; norm_num)
  have dr : ∀ (w w' : F32) (δ M d M' d' : ℝ) (ls ls' : List (AnyLayer F32)), |w.toReal| ≤ 1 → 0 ≤ δ →
      |w'.toReal - w.toReal| ≤ δ → Drift ls ls' (1 * M + 0) ((1 + δ) * d + δ * M + 0) M' d' →
      Drift (.fc (exFc w ⟨0⟩) :: ls) (.fc (exFc w' ⟨0⟩) :: ls') M d M' d' := by
    intro w w' δ M d M' d' ls ls' hw hδ hd h
    refine .fc _ _ _ _ 1 0 δ 0 M d M' d' rfl (fun o ho => ?_) (by norm_num) le_rfl hδ le_rfl h
    have ho : o < 1 := ho
    obtain rfl : o = 0 := by omega
    change ((List.range 1).map fun i => |(val (single w) 0 i 0).toReal|).sum ≤ _ ∧ |(⟨0⟩ : F32).toReal| ≤ 0 ∧
      ((List.range 1).map fun i => |(val (single w') 0 i 0).toReal - (val (single w) 0 i 0).toReal|).sum ≤ _ ∧
      |(⟨0⟩ : F32).toReal - (⟨0⟩ : F32).toReal| ≤ 0
    simp only [List.range_succ, List.range_zero, List.nil_append, List.map_cons, List.map_nil,
      List.sum_cons, List.sum_nil, add_zero, zero_real, sub_self, abs_zero]
    exact ⟨hw, le_rfl, hd, le_rfl⟩
  refine ⟨n, n', 1 * (1 * 1 + 0) + 0, M1, e1, M2, e2, h1, g1, by rw [h2]; exact List.cons_ne_nil _ _, by rw [h3, g3],
    by rw [out h1 h2, out g1 g2], h3.symm, fun i j k hin => ?_, by rw [h2]; exact a1, by rw [g2]; exact a2, ?_⟩
  · obtain ⟨rfl, rfl, rfl⟩ := single_inside hin
    change ((⟨0x3f800000⟩ : F32).isFinite = true ∧ |(⟨0x3f800000⟩ : F32).toReal| ≤ 1) ∧
      ((⟨0x3f800000⟩ : F32).isFinite = true ∧ |(⟨0x3f800000⟩ : F32).toReal| ≤ 1) ∧
      |(⟨0x3f800000⟩ : F32).toReal - (⟨0x3f800000⟩ : F32).toReal| ≤ 0
    rw [one]
    exact ⟨⟨by decide, by norm_num⟩, ⟨by decide, by norm_num⟩, by norm_num⟩
  · rw [h2, g2]
    refine dr _ _ (1 / 2 ^ 23) _ _ _ _ _ _ (by rw [one]; norm_num) (by positivity) (by rw [one, more]; norm_num)
      (dr _ _ 0 _ _ _ _ _ _ (by rw [one]; norm_num) le_rfl (by simp) ?_)
    have e : (1 + 0 : ℝ) * ((1 + 1 / 2 ^ 23) * 0 + 1 / 2 ^ 23 * 1 + 0) + 0 * (1 * 1 + 0) + 0 = 1 / 2 ^ 23 := by
      norm_num
    rw [e]
    exact .nil _ _

end Rusty
