import Verif.Lemmas.IEEEShifting
import Verif.Props.PowerOfTwo

/-! # C109: parameters multiplied by powers of two, in `f32` -/

namespace Rusty

open F32Ops Spec F32

variable [Libm]

theorem follows_shapes {z z' : ℤ} {l l' : AnyLayer F32} {s : Tensor F32} (h : Follows z z' l l' s) :
    l'.get_input_shape = l.get_input_shape ∧ l'.get_output_shape = l.get_output_shape := by
  rcases h with ⟨_, _, h⟩ | ⟨h, _⟩
  · exact ⟨params_input h, params_output h⟩
  · exact shifts_shapes h

theorem multiple2_shape {z : ℤ} {s t : Tensor F32} (h : Multiple2 z s t) : t.shape = s.shape := by
  unfold Multiple2 at h
  split at h
  · rw [h]
  · exact h.1

/-- one layer -/
theorem layer_follows {b : Build} {z z' : ℤ} {l l' : AnyLayer F32} (hl : l.Ok) {s t s' t' : Tensor F32}
    (h : Follows z z' l l' s) (hss : s.shape = l.get_input_shape) (hst : Multiple2 z s t)
    (hs' : applies b l s s') (ht' : applies b l' t t') : Multiple2 z' s' t' := by
  have hsh := (follows_shapes h).2
  have hts : t'.shape = s'.shape := by rw [ht'.2.1, hs'.2.1, hsh]
  have same : (∀ i j k, l.get_output_shape.Inside i j k → layerAt l' t i j k = layerAt l s i j k) → t' = s' :=
    fun h => tensor_ext ht'.1 hs'.1 hts fun i j k hin => by
      rw [hts, hs'.2.1] at hin
      rw [applies_val hs' hin, applies_val ht' (by rw [hsh]; exact hin)]
      exact h i j k hin
  rcases h with ⟨rfl, rfl, h⟩ | ⟨h, hr, hf⟩
  · rw [Multiple2, if_pos rfl] at hst ⊢
    subst hst
    exact same fun i j k _ => layerAt_mode h _ i j k
  · have hst' : ShiftedBy z s t := by
      unfold Multiple2 at hst
      split at hst
      · next hz =>
        subst hz hst
        exact ⟨rfl, fun a c d hin => ⟨hf a c d hin, hf a c d hin, by rw [zpow_zero, one_mul]⟩⟩
      · exact hst
    have key := fun i j k (hin : l.get_output_shape.Inside i j k) => layer_shifted hl h hr hss hst' hin
    by_cases hz : z' = 0
    · subst hz
      rw [Multiple2, if_pos rfl]
      refine same fun i j k hin => ?_
      by_cases hmp : ∃ p, l = .mp p
      · obtain ⟨p, rfl⟩ := hmp
        cases l' with
        | mp p' =>
          obtain ⟨rfl, _, g2, _, g4, _⟩ := h
          rw [Multiple2, if_pos rfl] at hst
          rw [hst]
          simp only [layerAt]
          rw [g2, g4]
        | _ => exact h.elim
      · obtain ⟨k1, k2, k3⟩ := key i j k hin
        exact shifted_same h (fun p hp => hmp ⟨p, hp⟩) k1 k2 k3
    · rw [Multiple2, if_neg hz]
      refine ⟨hts, fun i j k hin => ?_⟩
      rw [hs'.2.1] at hin
      rw [applies_val hs' hin, applies_val ht' (by rw [hsh]; exact hin)]
      exact key i j k hin

/-- C109: the parameters of `n'` are those of `n`, multiplied by powers of two, so that every state between the
layers should be multiplied by `2^(e i)`, positive or negative `e i`.  If in the run of `n` on `x` there is room for
that (`Follows`: no product underflows and no sum overflows, in either network), then in the run of `n'` all states
are exactly `2^(e i)` times those of `n`; where `e i = 0`, in particular for the output if the last factor is 1,
they are the same bit for bit. -/
theorem C109_infer (b : Build) (n n' : Net F32) (hn : Built b n) (hn' : Built b n') (hne : n.get_layers ≠ [])
    (hlen : n'.get_layers.length = n.get_layers.length) (e : Nat → ℤ) (x y : Tensor F32) (hx : x.WF) (hy : y.WF)
    (hxs : x.shape = n.get_input_shape) (hxy : Multiple2 (e 0) x y) (n1 : Net F32)
    (h1 : n.infer b x = .ok (.ok (), n1))
    (hf : ∀ i l l' s, n.get_layers[i]? = some l → n'.get_layers[i]? = some l' →
      n1.get_intermediate_state i = .ok s → Follows (e i) (e (i + 1)) l l' s) :
    ∃ n2 u v, n'.infer b y = .ok (.ok (), n2) ∧ n1.get_output = .ok u ∧ n2.get_output = .ok v ∧
      Multiple2 (e n.get_layers.length) u v ∧ (e n.get_layers.length = 0 → v = u) ∧
      ∀ i, i ≤ n.get_layers.length → ∃ s t, n1.get_intermediate_state i = .ok s ∧
        n2.get_intermediate_state i = .ok t ∧ Multiple2 (e i) s t := by
  have hok := built_netOk hn
  have hok' := built_netOk hn'
  have hne' : n'.get_layers ≠ [] := fun h => hne (by
    rw [h] at hlen
    exact List.length_eq_zero_iff.mp hlen.symm)
  have h0 : 0 < n.layers.length := List.length_pos_iff.mpr hne
  have hlen : n'.layers.length = n.layers.length := hlen
  obtain ⟨m1, p1, p2, p3⟩ := infer_ok (b := b) hok hne hx hxs
  obtain rfl : n1 = m1 := by rw [h1] at p1; cases p1; rfl
  have hl0 : n.layers[0]? = some n.layers[0] := List.getElem?_eq_getElem h0
  have hl0' : n'.layers[0]? = some (n'.layers[0]'(by omega)) := List.getElem?_eq_getElem (by omega)
  have f1 : n.input_shape = _ := hok.chain.first _ (by rw [List.head?_eq_getElem?]; exact hl0)
  have f2 : n'.input_shape = _ := hok'.chain.first _ (by rw [List.head?_eq_getElem?]; exact hl0')
  have hys : y.shape = n'.get_input_shape := by
    rw [multiple2_shape hxy, hxs]
    change n.input_shape = n'.input_shape
    rw [f1, f2]
    exact (follows_shapes (hf 0 _ _ x hl0 hl0' (by unfold Network.get_intermediate_state; rw [p2]))).1.symm
  obtain ⟨n2, q1, q2, q3⟩ := infer_ok (b := b) hok' hne' hy hys
  obtain ⟨m1, c1, _, _, c4⟩ := C36_infer b n hn hne x hx hxs
  obtain ⟨m2, d1, _, _, d4⟩ := C36_infer b n' hn' hne' y hy hys
  obtain rfl : n1 = m1 := by rw [p1] at c1; cases c1; rfl
  obtain rfl : n2 = m2 := by rw [q1] at d1; cases d1; rfl
  have key : ∀ i, i ≤ n.layers.length → ∃ s t, n1.intermediate_states[i]? = some s ∧
      n2.intermediate_states[i]? = some t ∧ Multiple2 (e i) s t := by
    intro i
    induction i with
    | zero => exact fun _ => ⟨x, y, p2, q2, hxy⟩
    | succ i ih =>
      intro hi
      obtain ⟨s, t, e1, e2, e3⟩ := ih (by omega)
      have hl : n.layers[i]? = some n.layers[i] := List.getElem?_eq_getElem hi
      have hl' : n'.layers[i]? = some (n'.layers[i]'(by omega)) := List.getElem?_eq_getElem (by omega)
      obtain ⟨s0, s', f1, f2, f3, _, _, _, _, f6, _⟩ := p3 i _ hl
      obtain ⟨t0, t', g1, g2, g3, _⟩ := q3 i _ hl'
      obtain rfl : s = s0 := by rw [e1] at f1; exact Option.some.inj f1
      obtain rfl : t = t0 := by rw [e2] at g1; exact Option.some.inj g1
      exact ⟨s', t', f2, g2, layer_follows (hok.layers _ (List.mem_of_getElem? hl))
        (hf i _ _ s hl hl' (by unfold Network.get_intermediate_state; rw [e1])) f6 e3 f3 g3⟩
  have get : ∀ i, i ≤ n.get_layers.length → ∃ s t, n1.get_intermediate_state i = .ok s ∧
      n2.get_intermediate_state i = .ok t ∧ Multiple2 (e i) s t := fun i hi => by
    obtain ⟨s, t, e1, e2, e5⟩ := key i hi
    refine ⟨s, t, ?_, ?_, e5⟩
    · unfold Network.get_intermediate_state; rw [e1]
    · unfold Network.get_intermediate_state; rw [e2]
  obtain ⟨u, v, g1, g2, g3⟩ := get _ (Nat.le_refl _)
  refine ⟨n2, u, v, q1, c4.trans g1, d4.trans (by rw [show n'.get_layers.length = n.get_layers.length from hlen]; exact g2),
    g3, fun h => ?_, get⟩
  rw [Multiple2, if_pos h] at g3
  exact g3

/-- C109, two fully connected layers in a row: multiply the weights and biases of the first by `2^z` and the weights
of the second by `2^-z`, and leave the other layers as they are.  Where there is room, the predictions are the same,
bit for bit. -/
theorem C109_neighbours (b : Build) (n n' : Net F32) (hn : Built b n) (hn' : Built b n')
    (pre post : List (AnyLayer F32)) (l1 l1' l2 l2' : FullyConnectedLayer F32)
    (hls : n.get_layers = pre ++ .fc l1 :: .fc l2 :: post)
    (hls' : n'.get_layers = pre ++ .fc l1' :: .fc l2' :: post) (z : ℤ)
    (hw1 : ShiftedBy z l1.weights l1'.weights) (hb1 : ShiftedBy z l1.bias l1'.bias)
    (hw2 : ShiftedBy (-z) l2.weights l2'.weights) (hb2 : ShiftedBy 0 l2.bias l2'.bias)
    (x : Tensor F32) (hx : x.WF) (hxs : x.shape = n.get_input_shape) (n1 : Net F32)
    (h1 : n.infer b x = .ok (.ok (), n1)) (s1 s2 : Tensor F32)
    (hs1 : n1.get_intermediate_state pre.length = .ok s1)
    (hs2 : n1.get_intermediate_state (pre.length + 1) = .ok s2)
    (hf1 : ∀ a c d, s1.shape.Inside a c d → (val s1 a c d).isFinite = true)
    (hf2 : ∀ a c d, s2.shape.Inside a c d → (val s2 a c d).isFinite = true)
    (hr1 : Roomy z (.fc l1) s1) (hr2 : Roomy 0 (.fc l2) s2) :
    ∃ n2 y, n1.get_output = .ok y ∧ n'.infer b x = .ok (.ok (), n2) ∧ n2.get_output = .ok y := by
  have hne : n.get_layers ≠ [] := by rw [hls]; simp
  obtain ⟨n2, u, v, q1, q2, q3, _, q5, _⟩ := C109_infer b n n' hn hn' hne (by rw [hls, hls']; simp)
    (fun i => if i = pre.length + 1 then z else 0) x x hx hx hxs (by
      rw [Multiple2, if_pos (if_neg (by omega))]) n1 h1 (by
    intro i l l' s hi hi' hs
    rw [hls] at hi
    rw [hls'] at hi'
    rcases Nat.lt_trichotomy i pre.length with h | rfl | h
    · rw [List.getElem?_append_left h] at hi hi'
      rw [if_neg (by omega), if_neg (by omega)]
      rw [hi] at hi'
      cases hi'
      exact .inl ⟨rfl, rfl, rfl⟩
    · rw [List.getElem?_append_right (Nat.le_refl _), Nat.sub_self] at hi hi'
      cases hi
      cases hi'
      rw [hs1] at hs
      cases hs
      rw [if_neg (by omega), if_pos rfl]
      exact .inr ⟨⟨by rw [sub_zero]; exact hw1, hb1⟩, hr1, hf1⟩
    · rcases Nat.lt_or_ge (pre.length + 1) i with h2 | h2
      · rw [List.getElem?_append_right h.le] at hi hi'
        obtain ⟨m, hm⟩ : ∃ m, i - pre.length = m + 2 := ⟨i - pre.length - 2, by omega⟩
        rw [hm] at hi hi'
        rw [if_neg (by omega), if_neg (by omega)]
        simp only [List.getElem?_cons_succ] at hi hi'
        rw [hi] at hi'
        cases hi'
        exact .inl ⟨rfl, rfl, rfl⟩
      · obtain rfl : i = pre.length + 1 := by omega
        rw [List.getElem?_append_right h.le, Nat.add_sub_cancel_left] at hi hi'
        cases hi
        cases hi'
        rw [hs2] at hs
        cases hs
        rw [if_pos rfl, if_neg (by omega)]
        exact .inr ⟨⟨by rw [zero_sub]; exact hw2, hb2⟩, hr2, hf2⟩)
  have := q5 (if_neg (by rw [hls]; simp))
  subst this
  exact ⟨n2, _, q2, q1, q3⟩

/-- C109: with a factor that is no power of two it is false.  `max(0, 9 max(0, x))` and `max(0, 3 max(0, 3 x))`
differ in the last bit for `x = 1 + 2^-23`. -/
theorem C109_three (b : Build) : ∃ n n' : Net F32, Built b n ∧ Built b n' ∧
    n.get_layers = [.fc (exFc ⟨0x3f800000⟩ ⟨0⟩), .fc (exFc ⟨0x41100000⟩ ⟨0⟩)] ∧
    n'.get_layers = [.fc (exFc ⟨0x40400000⟩ ⟨0⟩), .fc (exFc ⟨0x40400000⟩ ⟨0⟩)] ∧
    ∃ n1 y n2 y', n.infer b (single ⟨0x3f800001⟩) = .ok (.ok (), n1) ∧ n1.get_output = .ok y ∧
      n'.infer b (single ⟨0x3f800001⟩) = .ok (.ok (), n2) ∧ n2.get_output = .ok y' ∧
      y.get_item b (ix 0 0 0) = .ok ⟨0x41100001⟩ ∧ y'.get_item b (ix 0 0 0) = .ok ⟨0x41100002⟩ := by
  obtain ⟨n, h1, h2, h3⟩ := exFc2_built b ⟨0x3f800000⟩ ⟨0⟩ ⟨0x41100000⟩ ⟨0⟩
  obtain ⟨n', g1, g2, g3⟩ := exFc2_built b ⟨0x40400000⟩ ⟨0⟩ ⟨0x40400000⟩ ⟨0⟩
  have relu : ∀ x : F32, Spec.relu x = if F32.gt x (mk' false 0) then x else mk' false 0 := fun _ => rfl
  obtain ⟨n1, y, r1, r2, r3⟩ := exFc2_run b ⟨0x3f800000⟩ ⟨0⟩ ⟨0x41100000⟩ ⟨0⟩ ⟨0x3f800001⟩ ⟨0x3f800001⟩
    ⟨0x41100001⟩ (by rw [relu]; decide +kernel) (by rw [relu]; decide +kernel) n h1 h2 h3
  obtain ⟨n2, y', s1, s2, s3⟩ := exFc2_run b ⟨0x40400000⟩ ⟨0⟩ ⟨0x40400000⟩ ⟨0⟩ ⟨0x3f800001⟩ ⟨0x40400002⟩
    ⟨0x41100002⟩ (by rw [relu]; decide +kernel) (by rw [relu]; decide +kernel) n' g1 g2 g3
  exact ⟨n, n', h1, g1, h2, g2, n1, y, n2, y', r1, r2, s1, s2, r3, s3⟩

/-- C109: where a product underflows it is false.  `max(0, 2 max(0, x / 2))` and `max(0, max(0, x))` give
`4 * 2^-149` and `3 * 2^-149` for `x = 3 * 2^-149`. -/
theorem C109_underflow (b : Build) : ∃ n n' : Net F32, Built b n ∧ Built b n' ∧
    n.get_layers = [.fc (exFc ⟨0x3f000000⟩ ⟨0⟩), .fc (exFc ⟨0x40000000⟩ ⟨0⟩)] ∧
    n'.get_layers = [.fc (exFc ⟨0x3f800000⟩ ⟨0⟩), .fc (exFc ⟨0x3f800000⟩ ⟨0⟩)] ∧
    ∃ n1 y n2 y', n.infer b (single ⟨3⟩) = .ok (.ok (), n1) ∧ n1.get_output = .ok y ∧
      n'.infer b (single ⟨3⟩) = .ok (.ok (), n2) ∧ n2.get_output = .ok y' ∧
      y.get_item b (ix 0 0 0) = .ok ⟨4⟩ ∧ y'.get_item b (ix 0 0 0) = .ok ⟨3⟩ := by
  obtain ⟨n, h1, h2, h3⟩ := exFc2_built b ⟨0x3f000000⟩ ⟨0⟩ ⟨0x40000000⟩ ⟨0⟩
  obtain ⟨n', g1, g2, g3⟩ := exFc2_built b ⟨0x3f800000⟩ ⟨0⟩ ⟨0x3f800000⟩ ⟨0⟩
  have relu : ∀ x : F32, Spec.relu x = if F32.gt x (mk' false 0) then x else mk' false 0 := fun _ => rfl
  obtain ⟨n1, y, r1, r2, r3⟩ := exFc2_run b ⟨0x3f000000⟩ ⟨0⟩ ⟨0x40000000⟩ ⟨0⟩ ⟨3⟩ ⟨2⟩
    ⟨4⟩ (by rw [relu]; decide +kernel) (by rw [relu]; decide +kernel) n h1 h2 h3
  obtain ⟨n2, y', s1, s2, s3⟩ := exFc2_run b ⟨0x3f800000⟩ ⟨0⟩ ⟨0x3f800000⟩ ⟨0⟩ ⟨3⟩ ⟨3⟩
    ⟨3⟩ (by rw [relu]; decide +kernel) (by rw [relu]; decide +kernel) n' g1 g2 g3
  exact ⟨n, n', h1, g1, h2, g2, n1, y, n2, y', r1, r2, s1, s2, r3, s3⟩

/-! ## Example -/

theorem single_shifted {z : ℤ} {u v : F32} (hu : u.isFinite = true) (hv : v.isFinite = true)
    (h : v.toReal = 2 ^ z * u.toReal) : ShiftedBy z (single u) (single v) := by
  refine ⟨rfl, fun i j k hin => ?_⟩
  obtain ⟨rfl, rfl, rfl⟩ := single_inside hin
  exact ⟨hu, hv, h⟩

/-- The assumptions of `C109_neighbours` can be met: `max(0, 2 max(0, x))` and `max(0, max(0, 2 x))`, for the
input 1. -/
example (b : Build) : ∃ (n n' n1 : Net F32) (s1 s2 : Tensor F32), Built b n ∧ Built b n' ∧
    n.get_layers = [.fc (exFc ⟨0x3f800000⟩ ⟨0⟩), .fc (exFc ⟨0x40000000⟩ ⟨0⟩)] ∧
    n'.get_layers = [.fc (exFc ⟨0x40000000⟩ ⟨0⟩), .fc (exFc ⟨0x3f800000⟩ ⟨0⟩)] ∧
    ShiftedBy 1 (exFc ⟨0x3f800000⟩ ⟨0⟩).weights (exFc ⟨0x40000000⟩ ⟨0⟩).weights ∧
    ShiftedBy 1 (exFc ⟨0x3f800000⟩ ⟨0⟩).bias (exFc ⟨0x40000000⟩ ⟨0⟩).bias ∧
    ShiftedBy (-1) (exFc ⟨0x40000000⟩ ⟨0⟩).weights (exFc ⟨0x3f800000⟩ ⟨0⟩).weights ∧
    ShiftedBy 0 (exFc ⟨0x40000000⟩ ⟨0⟩).bias (exFc ⟨0x3f800000⟩ ⟨0⟩).bias ∧
    (single ⟨0x3f800000⟩).shape = n.get_input_shape ∧
    n.infer b (single ⟨0x3f800000⟩) = .ok (.ok (), n1) ∧ n1.get_intermediate_state 0 = .ok s1 ∧
    n1.get_intermediate_state 1 = .ok s2 ∧
    (∀ a c d, s1.shape.Inside a c d → (val s1 a c d).isFinite = true) ∧
    (∀ a c d, s2.shape.Inside a c d → (val s2 a c d).isFinite = true) ∧
    Roomy 1 (.fc (exFc ⟨0x3f800000⟩ ⟨0⟩)) s1 ∧ Roomy 0 (.fc (exFc ⟨0x40000000⟩ ⟨0⟩)) s2 := by
  obtain ⟨n, h1, h2, h3⟩ := exFc2_built b ⟨0x3f800000⟩ ⟨0⟩ ⟨0x40000000⟩ ⟨0⟩
  obtain ⟨n', g1, g2, g3⟩ := exFc2_built b ⟨0x40000000⟩ ⟨0⟩ ⟨0x3f800000⟩ ⟨0⟩
  have hne : n.get_layers ≠ [] := by rw [h2]; exact List.cons_ne_nil _ _
  have one := one_grid.2
  obtain ⟨n1, p1, p2, p3⟩ := infer_ok (b := b) (built_netOk h1) hne (single_wf (⟨0x3f800000⟩ : F32)) h3.symm
  obtain ⟨s, s', a1, a2, a3, _⟩ := p3 0 (.fc (exFc ⟨0x3f800000⟩ ⟨0⟩)) (by
    change n.get_layers[0]? = _
    rw [h2]; rfl)
  rw [p2] at a1
  cases a1
  have relu : ∀ x : F32, Spec.relu x = if F32.gt x (mk' false 0) then x else mk' false 0 := fun _ => rfl
  have hv : val s' 0 0 0 = ⟨0x3f800000⟩ := by
    rw [applies_val a3 (show (⟨1, 1, 1⟩ : TensorShape).Inside 0 0 0 from ⟨Nat.one_pos, Nat.one_pos, Nat.one_pos⟩)]
    have run : ∀ w c a : F32, layerAt (.fc (exFc w c)) (single a) 0 0 0 =
        Spec.relu (F32.add (F32.add (mk' false 0) (F32.mul w a)) c) := fun w c a => by
      simp only [layerAt]
      rw [act_relu _ (summed_preact _ _ _)]
      rfl
    rw [run, relu]; decide +kernel
  have hs' : s'.shape = ⟨1, 1, 1⟩ := a3.2.1
  have room : ∀ (z : ℤ) (w : F32) (t : Tensor F32), val t 0 0 0 = ⟨0x3f800000⟩ → 1 ≤ w.toReal → w.toReal ≤ 2 →
      0 ≤ z → z ≤ 1 → Roomy z (.fc (exFc w ⟨0⟩)) t := by
    intro z w t ht hw hw' hz hz' o ho
    have ho : o < 1 := ho
    obtain rfl : o = 0 := by omega
    change Room z ((List.range 1).map fun i => (val (single w) 0 i 0).toReal * (val t i 0 0).toReal)
      (⟨0⟩ : F32).toReal
    have e : (List.range 1).map (fun i => (val (single w) 0 i 0).toReal * (val t i 0 0).toReal) = [w.toReal] := by
      simp only [List.range_succ, List.range_zero, List.nil_append, List.map_cons, List.map_nil, ht, one, mul_one]
      rfl
    have hzz : (2 : ℝ) ^ z ≤ 2 := by
      rcases (show z = 0 ∨ z = 1 by omega) with rfl | rfl <;> norm_num
    rw [e, zero_real]
    refine ⟨by simp, fun p hp => ?_, ?_, ?_⟩
    · rw [List.mem_singleton] at hp
      subst hp
      refine ⟨fun _ => .inl ?_, fun h => by omega⟩
      rw [abs_of_nonneg (by linarith)]
      norm_num
      linarith
    · simp only [List.map_cons, List.map_nil, List.sum_cons, List.sum_nil, abs_zero, add_zero]
      rw [abs_of_nonneg (by linarith)]
      norm_num
      linarith
    · simp only [List.map_cons, List.map_nil, List.sum_cons, List.sum_nil, abs_zero, add_zero]
      rw [abs_of_nonneg (by linarith)]
      have : (2 : ℝ) ^ z * w.toReal ≤ 2 * 2 := mul_le_mul hzz hw' (by linarith) (by norm_num)
      norm_num
      linarith
  refine ⟨n, n', n1, single ⟨0x3f800000⟩, s', h1, g1, h2, g2,
    single_shifted (by decide) (by decide) (by rw [one, two_real]; norm_num),
    single_shifted (by decide) (by decide) (by rw [zero_real]; norm_num),
    single_shifted (by decide) (by decide) (by rw [one, two_real]; norm_num),
    single_shifted (by decide) (by decide) (by rw [zero_real]; norm_num), h3.symm, p1, ?_, ?_, ?_, ?_,
    room 1 _ _ rfl (by rw [one]) (by rw [one]; norm_num) (by norm_num) (by norm_num),
    room 0 _ _ hv (by rw [two_real]; norm_num) (by rw [two_real]) (by norm_num) (by norm_num)⟩
  · unfold Network.get_intermediate_state; rw [p2]
  · unfold Network.get_intermediate_state; rw [a2]
  · intro a c d hin
    obtain ⟨rfl, rfl, rfl⟩ := single_inside hin
    change (⟨0x3f800000⟩ : F32).isFinite = true
    decide
  · intro a c d hin
    rw [hs'] at hin
    obtain ⟨hi, hj, hk⟩ : a < 1 ∧ c < 1 ∧ d < 1 := hin
    obtain rfl : a = 0 := by omega
    obtain rfl : c = 0 := by omega
    obtain rfl : d = 0 := by omega
    rw [hv]
    decide

end Rusty
