import Verif.Lemmas.Influence
import Verif.Props.Turned
import Verif.Props.Pruning

/-! # C121: influence flows along non-zero weights only -/

namespace Rusty

open F32Ops Spec F32

variable [Libm]

/-- C121: choose places `D i` in every state such that every layer shields the places outside of `D (i + 1)` from
those in `D i`.  If two inputs agree outside of `D 0`, and the entries at the chosen places are finite in both runs, then
in every state, and in the output, the entries outside of the chosen places are the same, bit for bit. -/
theorem C121_infer (b : Build) (n : Net F32) (hn : Built b n) (hne : n.get_layers ≠ []) (D : Nat → Places3)
    (hD : ∀ i l, n.get_layers[i]? = some l → Shields (D i) (D (i + 1)) l) (x y : Tensor F32) (hx : x.WF)
    (hy : y.WF) (hxs : x.shape = n.get_input_shape) (hxy : SameOutside (D 0) x y) :
    ∃ n1 n2, n.infer b x = .ok (.ok (), n1) ∧ n.infer b y = .ok (.ok (), n2) ∧
      ((∀ i s, i < n.get_layers.length → n1.get_intermediate_state i = .ok s ∨ n2.get_intermediate_state i = .ok s →
        FiniteAt (D i) s) →
      (∀ i, i ≤ n.get_layers.length → ∃ s t, n1.get_intermediate_state i = .ok s ∧
        n2.get_intermediate_state i = .ok t ∧ SameOutside (D i) s t) ∧
      ∃ u v, n1.get_output = .ok u ∧ n2.get_output = .ok v ∧ v.shape = u.shape ∧
        ∀ i j k, u.shape.Inside i j k → ¬D n.get_layers.length i j k →
          v.get_item b (ix i j k) = u.get_item b (ix i j k)) := by
  have hok := built_netOk hn
  have hys : y.shape = n.get_input_shape := hxy.1.trans hxs
  obtain ⟨n1, p1, p2, p3⟩ := infer_ok (b := b) hok hne hx hxs
  obtain ⟨n2, q1, q2, q3⟩ := infer_ok (b := b) hok hne hy hys
  obtain ⟨m1, c1, _, _, c4⟩ := C36_infer b n hn hne x hx hxs
  obtain ⟨m2, d1, _, _, d4⟩ := C36_infer b n hn hne y hy hys
  obtain rfl : n1 = m1 := by rw [p1] at c1; cases c1; rfl
  obtain rfl : n2 = m2 := by rw [q1] at d1; cases d1; rfl
  refine ⟨n1, n2, p1, q1, fun hfin => ?_⟩
  have key : ∀ i, i ≤ n.layers.length → ∃ s t, n1.intermediate_states[i]? = some s ∧
      n2.intermediate_states[i]? = some t ∧ s.WF ∧ t.WF ∧ SameOutside (D i) s t := by
    intro i
    induction i with
    | zero => exact fun _ => ⟨x, y, p2, q2, hx, hy, hxy⟩
    | succ i ih =>
      intro hi
      obtain ⟨s, t, e1, e2, _, _, e3⟩ := ih (by omega)
      have hl : n.layers[i]? = some n.layers[i] := List.getElem?_eq_getElem hi
      obtain ⟨s0, s', f1, f2, f3, _, _, _, _, f6, _⟩ := p3 i _ hl
      obtain ⟨t0, t', g1, g2, g3, _⟩ := q3 i _ hl
      obtain rfl : s = s0 := by rw [e1] at f1; exact Option.some.inj f1
      obtain rfl : t = t0 := by rw [e2] at g1; exact Option.some.inj g1
      exact ⟨s', t', f2, g2, f3.1, g3.1, layer_shields (hok.layers _ (List.mem_of_getElem? hl)) (hD i _ hl) f6 e3
        (hfin i s hi (.inl (by unfold Network.get_intermediate_state; rw [e1])))
        (hfin i t hi (.inr (by unfold Network.get_intermediate_state; rw [e2]))) f3 g3⟩
  refine ⟨fun i hi => ?_, ?_⟩
  · obtain ⟨s, t, e1, e2, _, _, e5⟩ := key i hi
    refine ⟨s, t, ?_, ?_, e5⟩
    · unfold Network.get_intermediate_state; rw [e1]
    · unfold Network.get_intermediate_state; rw [e2]
  · obtain ⟨s, t, e1, e2, w1, w2, e5⟩ := key _ (Nat.le_refl _)
    refine ⟨s, t, ?_, ?_, e5.1, fun i j k hin hd => ?_⟩
    · rw [c4, show n.get_layers.length = n.layers.length from rfl]
      unfold Network.get_intermediate_state
      rw [e1]
    · rw [d4, show n.get_layers.length = n.layers.length from rfl]
      unfold Network.get_intermediate_state
      rw [e2]
    · rw [get_item_ok w1 hin, get_item_ok w2 (by rw [e5.1]; exact hin), e5.2 i j k hin hd]

/-- C121 for the input: entries of the input that the first layer multiplies by zero only have no influence on the
prediction, bit for bit, as long as they are finite. -/
theorem C121_input (b : Build) (n : Net F32) (hn : Built b n) (l : AnyLayer F32) (hl : n.get_layers.head? = some l)
    (D : Places3) (hD : Shields D (fun _ _ _ => False) l) (x y : Tensor F32) (hx : x.WF)
    (hy : y.WF) (hxs : x.shape = n.get_input_shape) (hxy : SameOutside D x y) (fx : FiniteAt D x)
    (fy : FiniteAt D y) :
    ∃ n1 n2 u, n.infer b x = .ok (.ok (), n1) ∧ n.infer b y = .ok (.ok (), n2) ∧ n1.get_output = .ok u ∧
      n2.get_output = .ok u := by
  have hok := built_netOk hn
  have hne : n.get_layers ≠ [] := by
    intro h
    rw [h] at hl
    cases hl
  have hys : y.shape = n.get_input_shape := hxy.1.trans hxs
  obtain ⟨n1, p1, p2, p3⟩ := infer_ok (b := b) hok hne hx hxs
  obtain ⟨n2, q1, q2, q3⟩ := infer_ok (b := b) hok hne hy hys
  have h0 : n.layers[0]? = some l := by rw [← List.head?_eq_getElem?]; exact hl
  let E : Nat → Places3 := fun i => if i = 0 then D else fun _ _ _ => False
  obtain ⟨m1, m2, c1, c2, c3⟩ := C121_infer b n hn hne E (fun i k hk => by
    by_cases hi : i = 0
    · subst hi
      have hk : n.layers[0]? = some k := hk
      rw [h0] at hk
      cases hk
      exact hD
    · simp only [E, hi, if_false, Nat.succ_ne_zero]
      cases k with
      | fc l => exact fun _ _ _ _ _ h => h.elim
      | conv l => exact fun _ _ _ _ _ _ _ _ _ _ _ h => h.elim
      | mp l => exact fun _ _ _ _ _ _ _ _ _ h => h
      | sm l => exact fun _ _ _ _ h => h) x y hx hy hxs hxy
  obtain rfl : n1 = m1 := by rw [p1] at c1; cases c1; rfl
  obtain rfl : n2 = m2 := by rw [q1] at c2; cases c2; rfl
  obtain ⟨_, u, v, g1, g2, g3, g4⟩ := c3 (fun i s _ hs => by
    by_cases hi : i = 0
    · subst hi
      unfold Network.get_intermediate_state at hs
      rw [p2, q2] at hs
      rcases hs with h | h <;> cases h
      · exact fx
      · exact fy
    · intro i j k _ h
      simp only [E, hi, if_false] at h)
  have wf : ∀ {m : Net F32} {x u : Tensor F32}, n.infer b x = .ok (.ok (), m) → m.get_output = .ok u → x.WF →
      x.shape = n.get_input_shape → u.WF := by
    intro m x u h1 h2 hx hxs
    obtain ⟨m', t, r1, _, r3, r4, _⟩ := run_states b hn hne hx hxs
    obtain rfl : m = m' := by rw [h1] at r1; cases r1; rfl
    rw [r3] at h2
    cases h2
    exact r4
  have w1 := wf p1 g1 hx hxs
  have w2 := wf q1 g2 hy hys
  refine ⟨n1, n2, u, p1, q1, g1, ?_⟩
  rw [g2]
  congr 1
  refine tensor_ext w2 w1 g3 fun i j k hin => ?_
  have hin : u.shape.Inside i j k := g3 ▸ hin
  have hlen : n.get_layers.length ≠ 0 := fun h => hne (List.length_eq_zero_iff.mp h)
  have := g4 i j k hin (by simp only [E, hlen, if_false, not_false_eq_true])
  rw [get_item_ok w1 hin, get_item_ok w2 (by rw [g3]; exact hin)] at this
  exact Except.ok.inj this

/-- A network of one unit with two inputs, the second of which has weight zero. -/
theorem exDown_built (b : Build) (u u' : F32) : ∃ n : Net F32, Built b n ∧
    n.get_layers = [.fc (exDown u u')] ∧ n.get_input_shape = ⟨2, 1, 1⟩ :=
  ⟨_, .add_layer (Network.new .Inference) (.fc (exDown u u')) (.ok ()) _ (.new _) (exDown_ok u u')
    (by cases b <;> rfl), rfl, rfl⟩

/-- The assumptions of C121 can be met: two inputs that differ in the second entry. -/
example : ∃ (n : Net F32) (l : AnyLayer F32) (D : Places3) (x y : Tensor F32), Built .debug n ∧
    n.get_layers.head? = some l ∧ Shields D (fun _ _ _ => False) l ∧ x.WF ∧ y.WF ∧
    x.shape = n.get_input_shape ∧ SameOutside D x y ∧ FiniteAt D x ∧ FiniteAt D y ∧ x ≠ y := by
  obtain ⟨n, h1, h2, h3⟩ := exDown_built .debug ⟨0x3f800000⟩ ⟨0⟩
  have fin : ∀ (a c : F32), c.isFinite = true → FiniteAt (fun i _ _ => i = 1) (pairOf a c) := by
    rintro a c hc i j k ⟨_, hj, hk⟩ rfl
    obtain rfl : j = 0 := Nat.lt_one_iff.mp hj
    obtain rfl : k = 0 := Nat.lt_one_iff.mp hk
    exact hc
  refine ⟨n, _, fun i _ _ => i = 1, pairOf ⟨0x3f800000⟩ ⟨0⟩, pairOf ⟨0x3f800000⟩ ⟨0x40000000⟩, h1, by rw [h2]; rfl, ?_,
    pairOf_wf _ _, pairOf_wf _ _, h3.symm, ⟨rfl, ?_⟩, fin _ _ (by decide), fin _ _ (by decide), ?_⟩
  · rintro o i (ho : o < 1) _ _ rfl
    obtain rfl : o = 0 := by omega
    exact (by decide : (⟨0⟩ : F32).code = 0)
  · rintro i j k ⟨(hi : i < 2), hj, hk⟩ hne
    obtain rfl : i = 0 := by omega
    obtain rfl : j = 0 := Nat.lt_one_iff.mp hj
    obtain rfl : k = 0 := Nat.lt_one_iff.mp hk
    rfl
  · intro h
    have := congrArg Tensor.data h
    revert this
    decide

/-- C121: the entries have to be finite.  An infinite entry is not stopped by a weight of zero: the output is 0 instead
of 1. -/
theorem C121_infinite (b : Build) : ∃ (n n1 n2 : Net F32) (u v : Tensor F32), Built b n ∧
    n.get_layers = [.fc (exDown ⟨0x3f800000⟩ ⟨0⟩)] ∧
    n.infer b (pairOf ⟨0x3f800000⟩ ⟨0⟩) = .ok (.ok (), n1) ∧ n1.get_output = .ok u ∧
    u.get_item b (ix 0 0 0) = .ok ⟨0x3f800000⟩ ∧
    n.infer b (pairOf ⟨0x3f800000⟩ ⟨0x7f800000⟩) = .ok (.ok (), n2) ∧ n2.get_output = .ok v ∧
    v.get_item b (ix 0 0 0) = .ok ⟨0⟩ := by
  obtain ⟨n, h1, h2, h3⟩ := exDown_built b ⟨0x3f800000⟩ ⟨0⟩
  have run : ∀ a c r : F32, Spec.relu (F32.add (F32.add (F32.add (mk' false 0) (F32.mul ⟨0x3f800000⟩ a))
      (F32.mul ⟨0⟩ c)) ⟨0⟩) = r → ∃ (m : Net F32) (u : Tensor F32), n.infer b (pairOf a c) = .ok (.ok (), m) ∧
        m.get_output = .ok u ∧ u.get_item b (ix 0 0 0) = .ok r := by
    intro a c r hr
    obtain ⟨m, t, r1, r2, r3, _, _, r6⟩ := run_states b h1 (by rw [h2]; simp) (pairOf_wf a c) h3.symm
    rw [h2] at r3 r6
    obtain ⟨_, _, a3⟩ := r6 0 _ rfl
    refine ⟨m, t 1, r1, r3, ?_⟩
    change applies b _ (t 0) (t 1) at a3
    rw [get_item_ok a3.1 (by rw [a3.2.1]; exact ⟨Nat.zero_lt_one, Nat.zero_lt_one, Nat.zero_lt_one⟩),
      applies_val a3 ⟨Nat.zero_lt_one, Nat.zero_lt_one, Nat.zero_lt_one⟩, r2]
    simp only [layerAt]
    rw [act_relu _ (summed_preact _ _ _)]
    exact congrArg Except.ok hr
  have relu : ∀ x : F32, Spec.relu x = if F32.gt x (mk' false 0) then x else mk' false 0 := fun _ => rfl
  obtain ⟨n1, u, e1, e2, e3⟩ := run ⟨0x3f800000⟩ ⟨0⟩ ⟨0x3f800000⟩ (by rw [relu]; decide +kernel)
  obtain ⟨n2, v, f1, f2, f3⟩ := run ⟨0x3f800000⟩ ⟨0x7f800000⟩ ⟨0⟩ (by rw [relu]; decide +kernel)
  exact ⟨n, n1, n2, u, v, h1, h2, e1, e2, e3, f1, f2, f3⟩

end Rusty
