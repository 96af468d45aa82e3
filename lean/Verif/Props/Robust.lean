import Verif.Lemmas.Robust
import Verif.Props.NetworkRounding

/-! # C84: how far a small change of the input can move the predictions of a network -/

namespace Rusty

open F32Ops Spec F32

variable [Libm]

/-- C84, exact arithmetic: inputs that differ by at most `d` give outputs that differ by at most `d'`. -/
theorem C84_exact (b : Build) (n : Net F32) (hn : Built b n) (hne : n.get_layers ≠ [])
    (x : Tensor F32) (hx : x.WF) (hxs : x.shape = n.get_input_shape) (ξ η : Nat → Nat → Nat → ℝ)
    (d d' : ℝ) (hd : 0 ≤ d) (hG : Gain n.get_layers d d')
    (hξ : ∀ i j k, n.get_input_shape.Inside i j k → |ξ i j k - η i j k| ≤ d) (i j k : Nat)
    (hin : n.get_output_shape.Inside i j k) :
    |exactNet n.get_layers ξ i j k - exactNet n.get_layers η i j k| ≤ d' := by
  have hok := built_netOk hn
  obtain ⟨n', _, h2, h3⟩ := infer_ok (b := b) hok hne hx hxs
  have hstep : ∀ i l, n.layers[i]? = some l →
      ((n'.intermediate_states[i]?).getD x).shape = l.get_input_shape ∧
      applies b l ((n'.intermediate_states[i]?).getD x)
        ((n'.intermediate_states[i + 1]?).getD x) := by
    intro i l hi
    obtain ⟨s, s', e1, e2, e3, _, _, _, _, e5, _⟩ := h3 i l hi
    rw [e1, e2]
    exact ⟨e5, e3⟩
  refine layers_close b hG hok.layers (fun i => (n'.intermediate_states[i]?).getD x) hd ξ η
    (by simpa only [h2, Option.getD_some, hxs] using hξ) hstep i j k ?_
  have hpos : 0 < n.layers.length := List.length_pos_of_ne_nil hne
  obtain ⟨last, hlast⟩ : ∃ l, n.layers[n.layers.length - 1]? = some l :=
    ⟨_, List.getElem?_eq_getElem (by omega)⟩
  obtain ⟨s, s', _, e2, e3, _⟩ := h3 _ _ hlast
  rw [Nat.sub_add_cancel hpos] at e2
  simp only [Network.get_layers, e2, Option.getD_some]
  rw [e3.2.1, ← hok.chain.last last (by rw [List.getLast?_eq_getElem?]; exact hlast)]
  exact hin

/-- C84, `f32`: if two inputs differ by at most `d`, the outputs that `infer` computes for them are finite and
differ by at most `d' + 2e'`, where `d'` is the bound of `Gain` and `e'` the rounding error bound of
`Accuracy` for exact inputs. -/
theorem C84_infer (b : Build) (n : Net F32) (hn : Built b n) (hne : n.get_layers ≠ [])
    (x x2 : Tensor F32) (hx : x.WF) (hxs : x.shape = n.get_input_shape) (hx2 : x2.WF)
    (hxs2 : x2.shape = n.get_input_shape) (M d M' e' d' : ℝ) (hM : 0 ≤ M) (hd : 0 ≤ d)
    (hw : NearBy x x2 M d) (hA : Accuracy n.get_layers M 0 M' e') (hG : Gain n.get_layers d d') :
    ∃ n1 y n2 y2, n.infer b x = .ok (.ok (), n1) ∧ n1.get_output = .ok y ∧
      n.infer b x2 = .ok (.ok (), n2) ∧ n2.get_output = .ok y2 ∧
      ∀ i j k, n.get_output_shape.Inside i j k → ∃ v v2, y.get_item b (ix i j k) = .ok v ∧
        y2.get_item b (ix i j k) = .ok v2 ∧ v.isFinite = true ∧ v2.isFinite = true ∧
        |v.toReal - v2.toReal| ≤ d' + 2 * e' := by
  have h12 : x.shape = x2.shape := hxs.trans hxs2.symm
  obtain ⟨n1, y, h1, h2, h3, h4⟩ := C74_infer b n hn hne x hx hxs (fun i j k => (val x i j k).toReal)
    M 0 M' e' hM le_rfl (fun i j k hin => ⟨(hw i j k hin).1.1, by simp, (hw i j k hin).1.2⟩) hA
  obtain ⟨n2, y2, g1, g2, g3, g4⟩ := C74_infer b n hn hne x2 hx2 hxs2
    (fun i j k => (val x2 i j k).toReal) M 0 M' e' hM le_rfl
    (fun i j k hin => ⟨(hw i j k (h12 ▸ hin)).2.1.1, by simp, (hw i j k (h12 ▸ hin)).2.1.2⟩) hA
  refine ⟨n1, y, n2, y2, h1, h2, g1, g2, fun i j k hin => ?_⟩
  obtain ⟨v, a1, a2, a3, _⟩ := h4 i j k (h3 ▸ hin)
  obtain ⟨v2, c1, c2, c3, _⟩ := g4 i j k (g3 ▸ hin)
  have hc := C84_exact b n hn hne x hx hxs (fun i j k => (val x i j k).toReal)
    (fun i j k => (val x2 i j k).toReal) d d' hd hG
    (fun i j k h => (hw i j k (hxs ▸ h)).2.2) i j k hin
  refine ⟨v, v2, a1, c1, a2, c2, ?_⟩
  rw [abs_le] at a3 c3 hc ⊢
  constructor <;> linarith

/-- C84, a certificate: if one run of `infer` gives two outputs that differ by more than `2(d' + 2e')`, then for
every input within `d` the first of the two is still computed to be the larger one. -/
theorem C84_certificate (b : Build) (n : Net F32) (hn : Built b n)
    (hne : n.get_layers ≠ []) (x : Tensor F32) (hx : x.WF) (hxs : x.shape = n.get_input_shape)
    (M d M' e' d' : ℝ) (hM : 0 ≤ M) (hd : 0 ≤ d) (hA : Accuracy n.get_layers M 0 M' e')
    (hG : Gain n.get_layers d d') (n1 : Net F32) (y : Tensor F32) (hrun : n.infer b x = .ok (.ok (), n1))
    (hy : n1.get_output = .ok y) (i j k i' j' k' : Nat) (hin : n.get_output_shape.Inside i j k)
    (hin' : n.get_output_shape.Inside i' j' k') (v v' : F32) (hv : y.get_item b (ix i j k) = .ok v)
    (hv' : y.get_item b (ix i' j' k') = .ok v') (hgap : v'.toReal + 2 * (d' + 2 * e') < v.toReal)
    (x2 : Tensor F32) (hx2 : x2.WF) (hxs2 : x2.shape = n.get_input_shape) (hw : NearBy x x2 M d) :
    ∃ n2 y2 w w', n.infer b x2 = .ok (.ok (), n2) ∧ n2.get_output = .ok y2 ∧
      y2.get_item b (ix i j k) = .ok w ∧ y2.get_item b (ix i' j' k') = .ok w' ∧ F32.gt w w' = true := by
  obtain ⟨m1, z, n2, y2, h1, h2, h3, h4, h5⟩ :=
    C84_infer b n hn hne x x2 hx hxs hx2 hxs2 M d M' e' d' hM hd hw hA hG
  obtain rfl : n1 = m1 := by rw [h1] at hrun; injection hrun with h; exact (Prod.mk.inj h).2.symm
  obtain rfl : y = z := by rw [h2] at hy; injection hy with h; exact h.symm
  obtain ⟨u, w, a1, a2, a3, a4, a5⟩ := h5 i j k hin
  obtain ⟨u', w', c1, c2, c3, c4, c5⟩ := h5 i' j' k' hin'
  obtain rfl : u = v := by rw [a1] at hv; injection hv
  obtain rfl : u' = v' := by rw [c1] at hv'; injection hv'
  refine ⟨n2, y2, w, w', h3, h4, a2, c2, (gt_real a4 c4).mpr ?_⟩
  rw [abs_le] at a5 c5
  linarith

/-- The assumptions of C84 can be met, the gap included: a convolution and max pooling with the outputs 2 and 1 for
the input 1, and inputs that differ by at most 1/8. -/
example : ∃ (n : Net F32) (M' e' : ℝ) (n1 : Net F32) (y : Tensor F32) (v v' : F32),
    Built .debug n ∧ n.get_layers ≠ [] ∧ n.get_input_shape = ⟨1, 1, 1⟩ ∧
    Accuracy n.get_layers 1 0 M' e' ∧ Gain n.get_layers (1 / 8) (1 / 8) ∧
    n.infer .debug (single ⟨0x3f800000⟩) = .ok (.ok (), n1) ∧ n1.get_output = .ok y ∧
    n.get_output_shape.Inside 0 0 0 ∧ n.get_output_shape.Inside 0 0 1 ∧
    y.get_item .debug (ix 0 0 0) = .ok v ∧ y.get_item .debug (ix 0 0 1) = .ok v' ∧
    v'.toReal + 2 * (1 / 8 + 2 * e') < v.toReal := by
  have e0 : (⟨0x3f800000⟩ : F32).toReal = 1 := by
    unfold toReal
    rw [show (⟨0x3f800000⟩ : F32).toInt = 2 ^ 149 by decide]
    norm_num
  have e1 : (⟨0⟩ : F32).toReal = 0 := by
    unfold toReal
    rw [show (⟨0⟩ : F32).toInt = 0 by decide]
    norm_num
  have v (c : F32) : val (single c) 0 0 0 = c := rfl
  have d (c : F32) : (single c).shape.indices = [(0, 0, 0)] := rfl
  obtain ⟨n, h1, h2, h3, h3', M', e', h4, h5, h6⟩ := ex_order
  have hne : n.get_layers ≠ [] := by rw [h2]; simp
  obtain ⟨n1, y, g1, g2, g3, g4⟩ := C74_infer .debug n h1 hne (single ⟨0x3f800000⟩) (single_wf _)
    (by rw [h3]; rfl) (fun _ _ _ => 1) 1 0 M' e' zero_le_one le_rfl (by
      rintro i j k ⟨i1, i2, i3⟩
      obtain rfl : i = 0 := Nat.lt_one_iff.mp i1
      obtain rfl : j = 0 := Nat.lt_one_iff.mp i2
      obtain rfl : k = 0 := Nat.lt_one_iff.mp i3
      rw [v, e0]
      exact ⟨by decide, by norm_num, by norm_num⟩) h4
  have o0 : n.get_output_shape.Inside 0 0 0 := by rw [h3']; decide
  have o1 : n.get_output_shape.Inside 0 0 1 := by rw [h3']; decide
  obtain ⟨w, a1, _, a3, _⟩ := g4 0 0 0 (g3 ▸ o0)
  obtain ⟨w', c1, _, c3, _⟩ := g4 0 0 1 (g3 ▸ o1)
  refine ⟨n, M', e', n1, y, w, w', h1, hne, h3, h4, ?_, g1, g2, o0, o1, a1, c1, ?_⟩
  · rw [h2]
    refine .conv exConv2 _ 1 _ _ (fun kernel hm => ?_) zero_le_one
      (.mp exMP2 _ _ _ (by decide) (by decide) ?_)
    · have : ∃ c : F32, kernel = single c ∧ |c.toReal| ≤ 1 := by
        rcases List.mem_pair.mp hm with rfl | rfl
        · exact ⟨_, rfl, by rw [e0]; norm_num⟩
        · exact ⟨_, rfl, by rw [e1]; norm_num⟩
      obtain ⟨c, rfl, hc⟩ := this
      rw [d]
      simpa only [List.map_cons, List.map_nil, List.sum_cons, List.sum_nil, v, add_zero] using hc
    · rw [one_mul]
      exact .nil _
  · rw [abs_le] at a3 c3
    have : (1 : ℝ) / 2 ^ 16 < 1 / 16 := by norm_num
    linarith

end Rusty
