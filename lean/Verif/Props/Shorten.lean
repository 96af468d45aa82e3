import Verif.Lemmas.Shorten
import Verif.Props.Drift

/-! # C131: parameters in a shorter format -/

namespace Rusty

open F32Ops Spec F32

variable [Libm]

omit [Libm] in
/-- C131, numbers: clearing the lowest `k` bits of a finite number (`k ≤ 23`) gives a finite number that is not larger
in absolute value and differs from it by at most the `2^(k-23)`-th part of it plus `2^(k-149)`. -/
theorem C131_number (k : Nat) (hk : k ≤ 23) (x : F32) (hx : x.isFinite = true) :
    (shorten k x).isFinite = true ∧ |(shorten k x).toReal| ≤ |x.toReal| ∧
    |(shorten k x).toReal - x.toReal| ≤ 2 ^ k / 2 ^ 23 * |x.toReal| + 2 ^ k / 2 ^ 149 :=
  ⟨(shorten_near hk x).1 hx, (shorten_near hk x).2⟩

/-- C131: if all parameters of a network lose their lowest `k` bits, the predictions of `infer` stay finite and move by
at most `d' + 2 e'`, where `d'` is the bound of `ShortDrift` and `e'` the rounding error bound of the given
network. -/
theorem C131_infer (b : Build) (k : Nat) (hk : k ≤ 23) (n n' : Net F32) (hn : Built b n) (hn' : Built b n')
    (hne : n.get_layers ≠ []) (hi : n'.get_input_shape = n.get_input_shape)
    (ho : n'.get_output_shape = n.get_output_shape)
    (hl : List.Forall₂ (ShortLayer k) n.get_layers n'.get_layers) (x : Tensor F32) (hx : x.WF)
    (hxs : x.shape = n.get_input_shape) (M M' d' M1 e' : ℝ) (hM : 0 ≤ M) (hxM : Within x M)
    (hA : Accuracy n.get_layers M 0 M1 e') (hD : ShortDrift k n.get_layers M 0 M' d') :
    ∃ n1 y n2 y2, n.infer b x = .ok (.ok (), n1) ∧ n1.get_output = .ok y ∧
      n'.infer b x = .ok (.ok (), n2) ∧ n2.get_output = .ok y2 ∧
      ∀ i j m, n.get_output_shape.Inside i j m → ∃ v v2, y.get_item b (ix i j m) = .ok v ∧
        y2.get_item b (ix i j m) = .ok v2 ∧ v.isFinite = true ∧ v2.isFinite = true ∧
        |v.toReal - v2.toReal| ≤ d' + 2 * e' := by
  have hok := (built_netOk hn).layers
  have hw : NearBy x x M 0 := fun i j m hin => ⟨hxM i j m hin, hxM i j m hin, by simp⟩
  obtain ⟨n1, y, n2, y2, h1, h2, h3, h4, h5⟩ := C126_infer b n n' hn hn' hne hi ho x x hx hxs hx hxs M 0 M' d' M1 e'
    M1 e' hM le_rfl hw hA (accuracy_short hk hA hok hl) (drift_short hk hD hok hl)
  refine ⟨n1, y, n2, y2, h1, h2, h3, h4, fun i j m hin => ?_⟩
  obtain ⟨v, v2, a1, a2, a3, a4, a5⟩ := h5 i j m hin
  exact ⟨v, v2, a1, a2, a3, a4, by linarith⟩

/-- C131, ranking: two outputs that are further apart than twice that keep their order when the parameters are
shortened. -/
theorem C131_order (b : Build) (k : Nat) (hk : k ≤ 23) (n n' : Net F32) (hn : Built b n) (hn' : Built b n')
    (hne : n.get_layers ≠ []) (hi : n'.get_input_shape = n.get_input_shape)
    (ho : n'.get_output_shape = n.get_output_shape)
    (hl : List.Forall₂ (ShortLayer k) n.get_layers n'.get_layers) (x : Tensor F32) (hx : x.WF)
    (hxs : x.shape = n.get_input_shape) (M M' d' M1 e' : ℝ) (hM : 0 ≤ M) (hxM : Within x M)
    (hA : Accuracy n.get_layers M 0 M1 e') (hD : ShortDrift k n.get_layers M 0 M' d') (n1 : Net F32) (y : Tensor F32)
    (hrun : n.infer b x = .ok (.ok (), n1)) (hy : n1.get_output = .ok y) (p q : Nat × Nat × Nat)
    (hp : n.get_output_shape.Inside p.1 p.2.1 p.2.2) (hq : n.get_output_shape.Inside q.1 q.2.1 q.2.2) (v v' : F32)
    (hv : y.get_item b (ix p.1 p.2.1 p.2.2) = .ok v) (hv' : y.get_item b (ix q.1 q.2.1 q.2.2) = .ok v')
    (hgap : v'.toReal + 2 * (d' + 2 * e') < v.toReal) :
    ∃ n2 y2 w w', n'.infer b x = .ok (.ok (), n2) ∧ n2.get_output = .ok y2 ∧
      y2.get_item b (ix p.1 p.2.1 p.2.2) = .ok w ∧ y2.get_item b (ix q.1 q.2.1 q.2.2) = .ok w' ∧
      F32.gt w w' = true := by
  obtain ⟨m1, z, n2, y2, h1, h2, h3, h4, h5⟩ :=
    C131_infer b k hk n n' hn hn' hne hi ho hl x hx hxs M M' d' M1 e' hM hxM hA hD
  obtain rfl : n1 = m1 := by rw [h1] at hrun; injection hrun with h; exact (Prod.mk.inj h).2.symm
  obtain rfl : y = z := by rw [h2] at hy; injection hy with h; exact h.symm
  obtain ⟨u, w, a1, a2, _, a4, a5⟩ := h5 _ _ _ hp
  obtain ⟨u', w', c1, c2, _, c4, c5⟩ := h5 _ _ _ hq
  obtain rfl : u = v := by rw [a1] at hv; injection hv
  obtain rfl : u' = v' := by rw [c1] at hv'; injection hv'
  refine ⟨n2, y2, w, w', h3, h4, a2, c2, (gt_real a4 c4).mpr ?_⟩
  rw [abs_le] at a5 c5
  linarith

/-- The assumptions of `C131_infer` can be met, with a parameter that does change: the network
`max(0, max(0, (1 + 2^-23) * x))` in bfloat16 is `max(0, max(0, x))`. -/
example (b : Build) : ∃ (n n' : Net F32) (M' d' M1 e' : ℝ), Built b n ∧ Built b n' ∧ n.get_layers ≠ [] ∧
    n'.get_input_shape = n.get_input_shape ∧ n'.get_output_shape = n.get_output_shape ∧
    List.Forall₂ (ShortLayer 16) n.get_layers n'.get_layers ∧ n.get_layers ≠ n'.get_layers ∧
    (single ⟨0x3f800000⟩).shape = n.get_input_shape ∧ Within (single ⟨0x3f800000⟩) 1 ∧
    Accuracy n.get_layers 1 0 M1 e' ∧ ShortDrift 16 n.get_layers 1 0 M' d' := by
  obtain ⟨n, h1, h2, h3⟩ := exFc2_built b ⟨0x3f800001⟩ ⟨0⟩ ⟨0x3f800000⟩ ⟨0⟩
  obtain ⟨n', g1, g2, g3⟩ := exFc2_built b ⟨0x3f800000⟩ ⟨0⟩ ⟨0x3f800000⟩ ⟨0⟩
  have one := one_grid.2
  have more : (⟨0x3f800001⟩ : F32).toReal = 1 + 1 / 2 ^ 23 := by
    unfold toReal
    rw [show (⟨0x3f800001⟩ : F32).toInt = (2 ^ 23 + 1) * 2 ^ 126 by decide]
    norm_num
  have out : ∀ {n : Net F32} {l1 l2 : FullyConnectedLayer F32}, Built b n → n.get_layers = [.fc l1, .fc l2] →
      n.get_output_shape = l2.get_output_shape := by
    intro n l1 l2 hn hl
    exact (built_netOk hn).chain.last (.fc l2) (by change n.get_layers.getLast? = _; rw [hl]; rfl)
  have hw : |(⟨0x3f800001⟩ : F32).toReal| ≤ 2 := by rw [more]; norm_num
  obtain ⟨w1, w2⟩ := exFc_bounds ⟨0x3f800001⟩ ⟨0⟩ (by decide) (by decide)
  obtain ⟨w3, w4⟩ := exFc_bounds ⟨0x3f800000⟩ ⟨0⟩ (by decide) (by decide)
  have b1 : ∀ o, o < (exFc ⟨0x3f800001⟩ ⟨0⟩).weights.shape.di.toNat → _ := fun o ho =>
    (⟨(w2 o ho).1, (w2 o ho).2.1.trans hw, by have := (w2 o ho).2.2; rwa [zero_real, abs_zero] at this⟩ :
      (val (exFc ⟨0x3f800001⟩ ⟨0⟩).bias o 0 0).isFinite = true ∧
      ((List.range (exFc ⟨0x3f800001⟩ ⟨0⟩).weights.shape.dj.toNat).map fun i =>
        |(val (exFc ⟨0x3f800001⟩ ⟨0⟩).weights o i 0).toReal|).sum ≤ 2 ∧
      |(val (exFc ⟨0x3f800001⟩ ⟨0⟩).bias o 0 0).toReal| ≤ 0)
  have b2 : ∀ o, o < (exFc ⟨0x3f800000⟩ ⟨0⟩).weights.shape.di.toNat → _ := fun o ho =>
    (⟨(w4 o ho).1, by have := (w4 o ho).2.1; rwa [one, abs_one] at this,
        by have := (w4 o ho).2.2; rwa [zero_real, abs_zero] at this⟩ :
      (val (exFc ⟨0x3f800000⟩ ⟨0⟩).bias o 0 0).isFinite = true ∧
      ((List.range (exFc ⟨0x3f800000⟩ ⟨0⟩).weights.shape.dj.toNat).map fun i =>
        |(val (exFc ⟨0x3f800000⟩ ⟨0⟩).weights o i 0).toReal|).sum ≤ 1 ∧
      |(val (exFc ⟨0x3f800000⟩ ⟨0⟩).bias o 0 0).toReal| ≤ 0)
  have short : ∀ v v' : F32, v' = shorten 16 v → ShortTensor 16 (single v) (single v') := by
    rintro v v' rfl
    refine ⟨rfl, fun i j m hin => ?_⟩
    obtain ⟨rfl, rfl, rfl⟩ := single_inside hin
    rfl
  have acc : ∃ M1 e', Accuracy n.get_layers 1 0 M1 e' := by
    rw [h2]
    refine ⟨_, _, .fc _ _ 2 0 _ _ _ _ w1 b1 (by norm_num) le_rfl ?_ (by norm_num) (.fc _ _ 1 0 _ _ _ _ w3 b2
      (by norm_num) le_rfl ?_ ?_ (.nil _ _))⟩
    · change (1 : Nat) < _
      norm_num
    · change (1 : Nat) < _
      norm_num
    · change (1 : ℝ) * ((2 * 1 + 0) + (2 * 0 + ((((1 : Nat) : ℝ) + 2) / 2 ^ 23 *
        (2 * (1 + 0) + 0) + (((1 : Nat) : ℝ) + 1) / 2 ^ 149))) + 0 ≤ 2 ^ 125
      norm_num
  have dr : ∃ M' d', ShortDrift 16 n.get_layers 1 0 M' d' := by
    rw [h2]
    exact ⟨_, _, .fc _ _ 2 0 _ _ _ _ (fun o ho => (b1 o ho).2) (by norm_num) le_rfl
      (.fc _ _ 1 0 _ _ _ _ (fun o ho => (b2 o ho).2) (by norm_num) le_rfl (.nil _ _))⟩
  obtain ⟨M1, e', a1⟩ := acc
  obtain ⟨M', d', a2⟩ := dr
  refine ⟨n, n', M', d', M1, e', h1, g1, by rw [h2]; exact List.cons_ne_nil _ _, by rw [h3, g3],
    by rw [out h1 h2, out g1 g2], ?_, ?_, h3.symm, fun i j m hin => ?_, a1, a2⟩
  · rw [h2, g2]
    exact .cons ⟨short _ _ (by decide), short _ _ (by decide)⟩ (.cons ⟨short _ _ (by decide), short _ _ (by decide)⟩ .nil)
  · rw [h2, g2]
    intro h
    have e := congrArg (fun ls : List (AnyLayer F32) => match ls with
      | .fc l :: _ => val l.weights 0 0 0
      | _ => zero) h
    exact absurd e (by change ¬ (⟨0x3f800001⟩ : F32) = ⟨0x3f800000⟩; decide)
  · obtain ⟨rfl, rfl, rfl⟩ := single_inside hin
    change (⟨0x3f800000⟩ : F32).isFinite = true ∧ |(⟨0x3f800000⟩ : F32).toReal| ≤ 1
    rw [one]
    exact ⟨by decide, by norm_num⟩

end Rusty
