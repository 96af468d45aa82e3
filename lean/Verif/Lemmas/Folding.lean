import Verif.Spec.Folding
import Verif.Lemmas.Split
import Verif.Lemmas.Balance
import Verif.Lemmas.Infer
import Verif.Lemmas.Serialization

/-! # Helper lemmas: an affine preparation of the input taken over by the first layer -/

namespace Rusty

open F32Ops Spec Exact

theorem takesOver_shape {a c : Nat → Nat → Nat → ℝ} {l l' : AnyLayer ℝ} (h : TakesOver a c l l') (hl : l.Ok)
    (hl' : l'.Ok) : l'.get_input_shape = l.get_input_shape ∧ l'.get_output_shape = l.get_output_shape := by
  cases l with
  | fc l =>
    cases l' with
    | fc l' =>
      obtain ⟨h1, _⟩ := h
      have hl : l.Ok := hl
      have hl' : l'.Ok := hl'
      refine ⟨?_, ?_⟩
      · change FullyConnectedLayer.get_input_shape l' = FullyConnectedLayer.get_input_shape l
        unfold FullyConnectedLayer.get_input_shape
        rw [h1]
      · change FullyConnectedLayer.get_output_shape l' = FullyConnectedLayer.get_output_shape l
        unfold FullyConnectedLayer.get_output_shape
        rw [hl.rows, hl'.rows, h1]
    | _ => exact h.elim
  | conv l =>
    cases l' with
    | conv l' => exact ⟨h.2.2.1, h.2.2.2.1⟩
    | _ => exact h.elim
  | mp l => cases l' <;> exact h.elim
  | sm l => cases l' <;> exact h.elim

theorem takesOver_value {a c : Nat → Nat → Nat → ℝ} {l l' : AnyLayer ℝ} (h : TakesOver a c l l') (hl : l.Ok)
    (hl' : l'.Ok) {x y : Tensor ℝ} (hxs : x.shape = l.get_input_shape) (hp : Prepared a c x y) {i j k : Nat}
    (hin : l.get_output_shape.Inside i j k) : layerAt l y i j k = layerAt l' x i j k := by
  cases l with
  | fc l =>
    cases l' with
    | fc l' =>
      obtain ⟨h1, h2⟩ := h
      have hl : l.Ok := hl
      have hxs : x.shape = l.get_input_shape := hxs
      have hin : l.get_output_shape.Inside i j k := hin
      have ho : i < l.weights.shape.di.toNat := by
        have := hin.1
        unfold FullyConnectedLayer.get_output_shape at this
        rw [hl.rows] at this
        exact this
      obtain ⟨h3, h4⟩ := h2 i ho
      change act l.run_state (preact l y i) = act l'.run_state (preact l' x i)
      rw [act_real, act_real]
      congr 1
      unfold preact
      rw [h1, sum_range_real, sum_range_real, h3]
      simp only [real_add, real_mul]
      rw [add_comm (val l.bias i 0 0), ← add_assoc, ← Finset.sum_add_distrib]
      congr 1
      refine Finset.sum_congr rfl fun m hm => ?_
      have hm := Finset.mem_range.mp hm
      rw [h4 m hm, hp.2 m 0 0 (by rw [hxs]; exact col_inside hm)]
      ring
    | _ => exact h.elim
  | conv l =>
    cases l' with
    | conv l' =>
      obtain ⟨h0, h1, h2, h3, h4⟩ := h
      have hl : l.Ok := hl
      have hl' : l'.Ok := hl'
      have hxs : x.shape = l.input_shape := hxs
      have hin : l.output_shape.Inside i j k := hin
      have hk : k < l.kernels.length := by rw [hl.count]; exact hin.2.2
      have hk' : k < l'.kernels.length := by rw [hl'.count, h3]; exact hin.2.2
      have e1 : l.kernels[k]? = some l.kernels[k] := List.getElem?_eq_getElem hk
      have e2 : l'.kernels[k]? = some l'.kernels[k] := List.getElem?_eq_getElem hk'
      have e3 : l.biases[k]? = some (l.biases[k]'(by rw [hl.biasCount]; exact hk)) := List.getElem?_eq_getElem _
      have e4 : l'.biases[k]? = some (l'.biases[k]'(by rw [hl'.biasCount]; exact hk')) := List.getElem?_eq_getElem _
      obtain ⟨h5, h6, h7⟩ := h4 k _ _ _ _ e1 e2 e3 e4
      obtain ⟨_, d1, t1, t2⟩ := hl.kernels _ (List.mem_of_getElem? e1)
      change act l.run_state (convPre l y i j k) = act l'.run_state (convPre l' x i j k)
      rw [act_real, act_real]
      congr 1
      unfold convPre
      rw [e1, e2, e3, e4]
      simp only
      rw [h6]
      unfold conv
      rw [h5, h1]
      change F32Ops.add (Spec.sum (l.kernels[k].shape.indices.map _)) _ =
        F32Ops.add (Spec.sum (l.kernels[k].shape.indices.map _)) _
      rw [sum_indices_real, sum_indices_real]
      simp only [real_add, real_mul]
      unfold total
      rw [add_comm (val _ 0 0 0), ← add_assoc]
      congr 1
      simp only [← Finset.sum_add_distrib]
      refine Finset.sum_congr rfl fun r hr => Finset.sum_congr rfl fun q hq => Finset.sum_congr rfl fun p hp' => ?_
      have hr := Finset.mem_range.mp hr
      have hq := Finset.mem_range.mp hq
      have hp' := Finset.mem_range.mp hp'
      have hix : x.shape.Inside (i * l.stride.toNat + p) (j * l.stride.toNat + q) r := by
        rw [hxs]
        exact ⟨tiles_lt t1 hin.1 hp', tiles_lt t2 hin.2.1 hq, by rw [← d1]; exact hr⟩
      rw [h7 p q r ⟨hp', hq, hr⟩, hp.2 _ _ _ hix, (h0 _ _ r).1, (h0 _ _ r).2]
      ring
    | _ => exact h.elim
  | mp l => cases l' <;> exact h.elim
  | sm l => cases l' <;> exact h.elim

/-! ## The layer that takes over -/

section
variable {F : Type} [F32Ops F]

omit [F32Ops F] in
/-- the tensor with given entries -/
def tabulated (t : Tensor F) (f : Nat → Nat → Nat → F) : Tensor F :=
  { t with data := t.shape.indices.map fun p => f p.1 p.2.1 p.2.2 }

theorem tabulated_wf {t : Tensor F} (ht : t.WF) (f : Nat → Nat → Nat → F) : (tabulated t f).WF :=
  wf_data ht _ (by rw [List.length_map, indices_length, ht.len])

theorem val_tabulated (t : Tensor F) (f : Nat → Nat → Nat → F) {i j k : Nat} (h : t.shape.Inside i j k) :
    val (tabulated t f) i j k = f i j k := by
  have hp : pos t.shape i j k < t.shape.indices.length := by rw [indices_length]; exact pos_lt h
  have e : t.shape.indices[pos t.shape i j k] = (i, j, k) := by
    have h1 := congrArg (fun z => z[pos t.shape i j k]?) (pos_indices t.shape)
    simp only [List.getElem?_map, List.getElem?_eq_getElem hp, Option.map_some] at h1
    rw [List.getElem?_range (pos_lt h), Option.some.injEq] at h1
    obtain ⟨h2, h3, h4⟩ := pos_inj (mem_indices.mp (List.getElem_mem hp)) h h1
    ext1
    · exact h2
    · ext1
      · exact h3
      · exact h4
  change ((t.shape.indices.map fun p => f p.1 p.2.1 p.2.2)[pos t.shape i j k]?).getD zero = _
  rw [List.getElem?_map, List.getElem?_eq_getElem hp, e]
  rfl

/-- well formed layers whose shapes fit make up a network -/
theorem assemble (b : Build) (m : NetworkRunState) (ls : List (AnyLayer F)) (hok : ∀ l ∈ ls, l.Ok)
    (hch : ∀ (i : Nat) l l', ls[i]? = some l → ls[i + 1]? = some l' → l.get_output_shape = l'.get_input_shape) :
    ∃ n : Net F, Built b n ∧ n.layers.map params = ls.map params ∧ n.run_state = m := by
  induction ls using List.reverseRecOn with
  | nil => exact ⟨_, .new m, rfl, rfl⟩
  | append_singleton ls l ih =>
    obtain ⟨n, h1, h2, h3⟩ := ih (fun k hk => hok k (List.mem_append_left _ hk)) fun i k k' e e' => by
      refine hch i k k' ?_ ?_
      · rw [List.getElem?_append_left (List.getElem?_eq_some_iff.mp e).1]; exact e
      · rw [List.getElem?_append_left (List.getElem?_eq_some_iff.mp e').1]; exact e'
    have hl := hok l (List.mem_append_right _ (List.mem_singleton.mpr rfl))
    obtain ⟨n', l', q1, q2, q3, q4, _⟩ := add_layer_fits (b := b) n hl fun last hlast => by
      have hlen : n.layers.length = ls.length := by simpa using congrArg List.length h2
      rw [List.getLast?_eq_getElem?, hlen] at hlast
      have hpos := (List.getElem?_eq_some_iff.mp hlast).1
      have e : ls[ls.length - 1]? = some (ls[ls.length - 1]'(by omega)) := List.getElem?_eq_getElem _
      have := congrArg (fun z => z[ls.length - 1]?) h2
      simp only [List.getElem?_map, e, hlast, Option.map_some, Option.some.injEq] at this
      rw [params_output this]
      refine hch (ls.length - 1) _ _ ?_ ?_
      · rw [List.getElem?_append_left (by omega)]
        exact e
      · rw [show ls.length - 1 + 1 = ls.length by omega]
        simp
    exact ⟨n', .add_layer _ _ _ _ h1 hl q1, by rw [q2]; simp [h2, q3], q4.trans h3⟩

end

theorem takesOver_params {a c : Nat → Nat → Nat → ℝ} {l l' l'' : AnyLayer ℝ} (h : TakesOver a c l l')
    (hp : params l'' = params l') : TakesOver a c l l'' := by
  cases l <;> cases l' <;> first | exact h.elim | skip
  all_goals
    cases l'' <;> simp only [params, AnyLayer.conv.injEq, AnyLayer.fc.injEq, ConvolutionalLayer.mk.injEq,
      FullyConnectedLayer.mk.injEq, reduceCtorEq] at hp
  · obtain ⟨h0, h1, h2, h3, h4⟩ := h
    obtain ⟨p1, p2, _, _, p3, _, p4, p5, _⟩ := hp
    refine ⟨h0, p3.trans h1, p4.trans h2, p5.trans h3, ?_⟩
    rw [p1, p2]
    exact h4
  · unfold TakesOver at h ⊢
    simp_all

/-- the layer that takes over exists -/
theorem takesOver_exists {a c : Nat → Nat → Nat → ℝ} {l : AnyLayer ℝ} (h : CanTakeOver a c l) (hl : l.Ok) :
    ∃ l', l'.Ok ∧ TakesOver a c l l' := by
  cases l with
  | fc l =>
    have hl : l.Ok := hl
    let f : Nat → Nat → Nat → ℝ := fun o i _ => val l.weights o i 0 * a i 0 0
    let g : Nat → Nat → Nat → ℝ := fun o _ _ => val l.bias o 0 0 +
        ∑ i ∈ Finset.range l.weights.shape.dj.toNat, val l.weights o i 0 * c i 0 0
    refine ⟨.fc { l with weights := tabulated l.weights f, bias := tabulated l.bias g },
      ?_, rfl, fun o ho => ⟨?_, fun i hi => ?_⟩⟩
    · refine FullyConnectedLayer.Ok.mk ?_ ?_ hl.rows hl.depth hl.buffers
      · exact tabulated_wf hl.weights f
      · exact tabulated_wf hl.bias g
    · exact val_tabulated _ _ (by rw [hl.rows]; exact ⟨ho, Nat.one_pos, Nat.one_pos⟩)
    · exact val_tabulated _ _ ⟨ho, hi, by rw [hl.depth]; decide⟩
  | conv l =>
    have hl : l.Ok := hl
    refine ⟨.conv { l with
      kernels := l.kernels.map fun w => tabulated w fun i j k => val w i j k * a 0 0 k
      biases := List.zipWith (fun w β => tabulated β fun _ _ _ => val β 0 0 0 +
        total w.shape fun i j k => val w i j k * c 0 0 k) l.kernels l.biases
      run_state := .Inference }, ?_, h, rfl, rfl, rfl, ?_⟩
    · refine ⟨hl.stride, hl.input, hl.output, ?_, ?_, ?_, ?_, fun h => by cases h⟩
      · simp only [List.length_map]; exact hl.count
      · intro k hk
        obtain ⟨w, hw, rfl⟩ := List.mem_map.mp hk
        obtain ⟨h1, h2, h3⟩ := hl.kernels w hw
        exact ⟨tabulated_wf h1 _, h2, h3⟩
      · simp [hl.biasCount]
      · intro k hk
        obtain ⟨i, hi, rfl⟩ := List.getElem_of_mem hk
        rw [List.getElem_zipWith]
        have hi' : i < l.biases.length := by
          rw [List.length_zipWith] at hi
          exact lt_of_lt_of_le hi (Nat.min_le_right _ _)
        obtain ⟨h1, h2⟩ := hl.biases _ (List.getElem_mem hi')
        exact ⟨tabulated_wf h1 _, h2⟩
    · intro q w w' β β' e1 e2 e3 e4
      simp only [List.getElem?_map, e1, Option.map_some, Option.some.injEq] at e2
      simp only [List.getElem?_zipWith, e1, e3, Option.some.injEq] at e4
      subst e2 e4
      refine ⟨rfl, ?_, fun i j k hin => val_tabulated _ _ hin⟩
      obtain ⟨_, h2⟩ := hl.biases β (List.mem_of_getElem? e3)
      exact val_tabulated _ _ (by rw [h2]; exact ⟨by decide, by decide, by decide⟩)
  | mp l => exact h.elim
  | sm l => exact h.elim

end Rusty
