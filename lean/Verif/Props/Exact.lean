import Verif.Lemmas.IEEEExact
import Verif.Props.NetworkRounding

/-! # C77: networks with small fixed-point parameters compute without any rounding error -/

namespace Rusty

open F32Ops Spec F32

variable [Libm]

/-- C77: if no sum in a network exceeds `2^24` in the units of its last place (`Exact`), then `infer`
succeeds and every entry of the output is finite, equal to what the network computes in exact arithmetic,
a number with `p'` binary places, and at most `M'` in absolute value. -/
theorem C77_infer (b : Build) (n : Net F32) (hn : Built b n) (hne : n.get_layers ≠ [])
    (x : Tensor F32) (hx : x.WF) (hxs : x.shape = n.get_input_shape) (ξ : Nat → Nat → Nat → ℝ)
    (p p' : Nat) (M M' : ℝ) (hM : 0 ≤ M) (hgrid : OnGrid x ξ p M) (hE : Exact n.get_layers p M p' M') :
    ∃ n' y, n.infer b x = .ok (.ok (), n') ∧ n'.get_output = .ok y ∧ y.shape = n.get_output_shape ∧
      ∀ i j k, y.shape.Inside i j k → ∃ v, y.get_item b (ix i j k) = .ok v ∧ v.isFinite = true ∧
        v.toReal = exactNet n.get_layers ξ i j k ∧ (∃ z : Int, v.toReal = z / 2 ^ p') ∧
        |v.toReal| ≤ M' := by
  have hok := built_netOk hn
  obtain ⟨n', h1, h2, h3⟩ := infer_ok (b := b) hok hne hx hxs
  obtain ⟨n'', g1, _, _, g4⟩ := C36_infer b n hn hne x hx hxs
  obtain rfl : n'' = n' := by rw [h1] at g1; injection g1 with g1; exact (Prod.mk.inj g1).2.symm
  have hstep : ∀ i l, n.layers[i]? = some l →
      ((n''.intermediate_states[i]?).getD x).WF ∧
      ((n''.intermediate_states[i]?).getD x).shape = l.get_input_shape ∧
      applies b l ((n''.intermediate_states[i]?).getD x)
        ((n''.intermediate_states[i + 1]?).getD x) := by
    intro i l hi
    obtain ⟨s, s', e1, e2, e3, _, _, _, e4, e5, _⟩ := h3 i l hi
    rw [e1, e2]
    exact ⟨e4, e5, e3⟩
  have hfin := layers_grid b hE hok.layers (fun i => (n''.intermediate_states[i]?).getD x) hM ξ
    (by simpa only [h2, Option.getD_some] using hgrid) hstep
  have hpos : 0 < n.layers.length := List.length_pos_of_ne_nil hne
  obtain ⟨last, hlast⟩ : ∃ l, n.layers[n.layers.length - 1]? = some l :=
    ⟨_, List.getElem?_eq_getElem (by omega)⟩
  obtain ⟨s, s', _, e2, e3, _⟩ := h3 _ _ hlast
  rw [Nat.sub_add_cancel hpos] at e2
  have hfin : OnGrid s' (exactNet n.layers ξ) p' M' := by
    have := hfin
    simp only [Network.get_layers, e2, Option.getD_some] at this
    exact this
  refine ⟨n'', s', h1, ?_, ?_, fun i j k hin => ⟨_, get_item_ok e3.1 hin, ?_⟩⟩
  · rw [g4]
    unfold Network.get_intermediate_state Network.get_layers
    rw [e2]
  · rw [e3.2.1, hok.chain.last last (by rw [List.getLast?_eq_getElem?]; exact hlast)]
  · obtain ⟨⟨f, z, hz⟩, k1, k2⟩ := hfin i j k hin
    exact ⟨f, k1, ⟨z, hz⟩, by rw [k1]; exact k2⟩

/-- C77: under the assumptions of `C77_infer`, the program finds one output greater than another exactly
if it is greater in exact arithmetic. -/
theorem C77_order (b : Build) (n : Net F32) (hn : Built b n) (hne : n.get_layers ≠ [])
    (x : Tensor F32) (hx : x.WF) (hxs : x.shape = n.get_input_shape) (ξ : Nat → Nat → Nat → ℝ)
    (p p' : Nat) (M M' : ℝ) (hM : 0 ≤ M) (hgrid : OnGrid x ξ p M) (hE : Exact n.get_layers p M p' M') :
    ∃ n' y, n.infer b x = .ok (.ok (), n') ∧ n'.get_output = .ok y ∧
      ∀ i j k i' j' k', y.shape.Inside i j k → y.shape.Inside i' j' k' →
        ∃ v v', y.get_item b (ix i j k) = .ok v ∧ y.get_item b (ix i' j' k') = .ok v' ∧
          (F32.gt v v' = true ↔
            exactNet n.get_layers ξ i' j' k' < exactNet n.get_layers ξ i j k) := by
  obtain ⟨n', y, h1, h2, _, h4⟩ := C77_infer b n hn hne x hx hxs ξ p p' M M' hM hgrid hE
  refine ⟨n', y, h1, h2, fun i j k i' j' k' hin hin' => ?_⟩
  obtain ⟨v, q1, q2, q3, _⟩ := h4 i j k hin
  obtain ⟨v', r1, r2, r3, _⟩ := h4 i' j' k' hin'
  refine ⟨v, v', q1, r1, ?_⟩
  rw [gt_real q2 r2, q3, r3]

/-- C77 for `matrix_multiply`: factors with `p` and `q` binary places whose products add up, in absolute
value, to at most `2^24` units of the last place of the result are multiplied exactly. -/
theorem C77_matrix_multiply (b : Build) (t1 t2 r : Tensor F32) (h1 : t1.WF) (h2 : t2.WF)
    (hr : r.WF) (hs : mmShapes t1.shape t2.shape r.shape) (p q : Nat) (hp : p + q ≤ 149) :
    ∃ r', Tensor.matrix_multiply b t1 t2 r = .ok r' ∧
      ∀ i j k, r.shape.Inside i j k →
        (∀ l, l < t1.shape.dj.toNat → Grid p (val t1 i l k) ∧ Grid q (val t2 l j k)) →
        ((List.range t1.shape.dj.toNat).map fun l =>
            |(val t1 i l k).toReal * (val t2 l j k).toReal|).sum ≤ 2 ^ 24 / 2 ^ (p + q) →
        ∃ v, r'.get_item b (ix i j k) = .ok v ∧ Grid (p + q) v ∧
          v.toReal = ((List.range t1.shape.dj.toNat).map fun l =>
              (val t1 i l k).toReal * (val t2 l j k).toReal).sum := by
  obtain ⟨r', q1, _, _, q4⟩ := (C11_matrix_multiply b t1 t2 r h1 h2 hr).1 hs
  exact ⟨r', q1, fun i j k hin hf hA => ⟨_, q4 i j k hin,
    dot_grid _ _ _ hp (fun l hl => (hf l (List.mem_range.mp hl)).1)
      (fun l hl => (hf l (List.mem_range.mp hl)).2) hA⟩⟩

omit [Libm] in
theorem one_grid : Grid 0 (⟨0x3f800000⟩ : F32) ∧ (⟨0x3f800000⟩ : F32).toReal = 1 := by
  have e0 : (⟨0x3f800000⟩ : F32).toReal = 1 := by
    unfold toReal
    rw [show (⟨0x3f800000⟩ : F32).toInt = 2 ^ 149 by decide]
    norm_num
  exact ⟨⟨by decide, 1, by rw [e0]; norm_num⟩, e0⟩

omit [Libm] in
theorem single_inside {c : F32} {i j k : Nat} (h : (single c).shape.Inside i j k) :
    i = 0 ∧ j = 0 ∧ k = 0 := by
  obtain ⟨h1, h2, h3⟩ : i < 1 ∧ j < 1 ∧ k < 1 := h
  omega

/-- the network `max(0, x + 1)` can be built -/
theorem exNet1_built (b : Build) : ∃ n : Net F32, Built b n ∧ n.get_layers = [.fc exUnit] ∧
    n.get_input_shape = ⟨1, 1, 1⟩ :=
  ⟨_, .add_layer (Network.new .Inference) (.fc exUnit) (.ok ()) _ (.new _)
      ⟨single_wf _, single_wf _, rfl, rfl, fun _ => ⟨⟨single_wf _, rfl⟩, ⟨single_wf _, rfl⟩,
        ⟨single_wf _, rfl⟩, ⟨single_wf _, rfl⟩⟩⟩ (by cases b <;> rfl), rfl, rfl⟩

/-- The assumptions of C77 can be met, up to the limit: the network `max(0, x + 1)` and the input
`2^24 - 1`, where the greatest sum is `2^24`. -/
example (b : Build) : ∃ n : Net F32, Built b n ∧ n.get_layers = [.fc exUnit] ∧
    (single ⟨0x4b7fffff⟩).WF ∧ (single ⟨0x4b7fffff⟩).shape = n.get_input_shape ∧
    OnGrid (single ⟨0x4b7fffff⟩) (fun _ _ _ => 2 ^ 24 - 1) 0 (2 ^ 24 - 1) ∧
    Exact n.get_layers 0 (2 ^ 24 - 1) 0 (2 ^ 24) := by
  obtain ⟨n, h1, h2, h3⟩ := exNet1_built b
  have v (c : F32) : val (single c) 0 0 0 = c := rfl
  have d1 : exUnit.weights.shape.dj.toNat = 1 := rfl
  have d2 : exUnit.weights.shape.di.toNat = 1 := rfl
  have e : (⟨0x4b7fffff⟩ : F32).toReal = 2 ^ 24 - 1 := by
    unfold toReal
    rw [show (⟨0x4b7fffff⟩ : F32).toInt = (2 ^ 24 - 1) * 2 ^ 149 by decide]
    push_cast
    norm_num
  refine ⟨n, h1, h2, single_wf _, h3.symm, fun i j k hin => ?_, ?_⟩
  · obtain ⟨rfl, rfl, rfl⟩ := single_inside hin
    rw [v, e]
    exact ⟨⟨by decide, 2 ^ 24 - 1, by rw [e]; push_cast; norm_num⟩, rfl, by norm_num⟩
  · rw [h2]
    have := Exact.fc exUnit [] 0 1 1 0 (2 ^ 24 - 1) 0 (2 ^ 24) ?_ ?_ (by norm_num) (by norm_num)
      (by norm_num) (by norm_num) (by rw [show (1 : ℝ) * (2 ^ 24 - 1) + 1 = 2 ^ 24 by norm_num]; exact .nil _ _)
    · exact this
    · intro o i ho hi
      rw [d2] at ho
      rw [d1] at hi
      obtain rfl : o = 0 := by omega
      obtain rfl : i = 0 := by omega
      exact one_grid.1
    · intro o ho
      rw [d2] at ho
      obtain rfl : o = 0 := by omega
      rw [d1]
      refine ⟨one_grid.1, ?_⟩
      change ((List.range 1).map fun i => |(val (single ⟨0x3f800000⟩) 0 i 0).toReal|).sum ≤ 1 ∧
        |(val (single ⟨0x3f800000⟩) 0 0 0).toReal| ≤ 1
      simp only [List.range_succ, List.range_zero, List.nil_append, List.map_cons, List.map_nil,
        List.sum_cons, List.sum_nil, v, one_grid.2]
      exact ⟨by norm_num, by norm_num⟩

/-- C77: beyond the limit it is false.  For the input `2^24` the network `max(0, x + 1)` returns `2^24`,
although both the input and the parameters are integers. -/
theorem C77_limit (b : Build) : ∃ n : Net F32, Built b n ∧ n.get_layers = [.fc exUnit] ∧
    OnGrid (single ⟨0x4b800000⟩) (fun _ _ _ => 2 ^ 24) 0 (2 ^ 24) ∧
    exactNet n.get_layers (fun _ _ _ => 2 ^ 24) 0 0 0 = 2 ^ 24 + 1 ∧
    ∃ n' y v, n.infer b (single ⟨0x4b800000⟩) = .ok (.ok (), n') ∧ n'.get_output = .ok y ∧
      y.get_item b (ix 0 0 0) = .ok v ∧ v.toReal = 2 ^ 24 := by
  obtain ⟨n, h1, h2, h3⟩ := exNet1_built b
  have v (c : F32) : val (single c) 0 0 0 = c := rfl
  have e : (⟨0x4b800000⟩ : F32).toReal = 2 ^ 24 := by
    unfold toReal
    rw [show (⟨0x4b800000⟩ : F32).toInt = 2 ^ 24 * 2 ^ 149 by decide]
    push_cast
    norm_num
  refine ⟨n, h1, h2, fun i j k hin => ?_, ?_, ?_⟩
  · obtain ⟨rfl, rfl, rfl⟩ := single_inside hin
    rw [v, e]
    exact ⟨⟨by decide, 2 ^ 24, by rw [e]; push_cast; norm_num⟩, rfl, by norm_num⟩
  · rw [h2]
    change max 0 ([(⟨0x3f800000⟩ : F32).toReal * 2 ^ 24].sum + (⟨0x3f800000⟩ : F32).toReal) = 2 ^ 24 + 1
    rw [one_grid.2]
    norm_num
  · have hne : n.get_layers ≠ [] := by rw [h2]; exact List.cons_ne_nil _ _
    obtain ⟨n', q1, q2, q3⟩ := infer_ok (b := b) (built_netOk h1) hne (single_wf _) h3.symm
    obtain ⟨n'', g1, _, _, g4⟩ := C36_infer b n h1 hne (single ⟨0x4b800000⟩) (single_wf _) h3.symm
    obtain rfl : n'' = n' := by rw [q1] at g1; injection g1 with g1; exact (Prod.mk.inj g1).2.symm
    obtain ⟨s, s', e1, e2, e3, _⟩ := q3 0 (.fc exUnit) (by
      change n.get_layers[0]? = _
      rw [h2]
      rfl)
    obtain rfl : single ⟨0x4b800000⟩ = s := Option.some.inj (q2.symm.trans e1)
    refine ⟨n'', s', _, q1, ?_, e3.2.2 0 0 0 ⟨Nat.one_pos, Nat.one_pos, Nat.one_pos⟩, ?_⟩
    · rw [g4, h2]
      unfold Network.get_intermediate_state
      rw [show [AnyLayer.fc exUnit].length = 0 + 1 from rfl, e2]
    · have h4 : F32.add (F32.add (mk' false 0) (F32.mul ⟨0x3f800000⟩ ⟨0x4b800000⟩)) ⟨0x3f800000⟩ =
          ⟨0x4b800000⟩ := by decide +kernel
      have h5 : preact exUnit (single ⟨0x4b800000⟩) 0 = ⟨0x4b800000⟩ := by
        unfold preact Spec.sum
        rw [show exUnit.weights.shape.dj.toNat = 1 from rfl, List.range_succ, List.range_zero,
          List.nil_append, List.map_singleton, List.foldl_cons, List.foldl_nil]
        exact h4
      change (act exUnit.run_state (preact exUnit (single ⟨0x4b800000⟩) 0)).toReal = _
      rw [act_relu _ (summed_preact _ _ _), h5, (relu_spec _).2.2 (by decide) |>.2, e]
      norm_num

end Rusty
