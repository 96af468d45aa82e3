import Verif.Lemmas.Infer
import Verif.Lemmas.Scatter

set_option linter.unusedSectionVars false

/-! # Helper lemmas: backward passes of layers and networks -/

namespace Rusty

open F32Ops Spec

variable {F : Type} [F32Ops F] {b : Build}

/-! ## Loops -/

/-- a loop whose body always returns -/
theorem forListE_run {α σ : Type} (L : List α) (s : σ) (body : α → σ → Exec (Res × σ))
    (P : List α → σ → Prop) (h0 : P [] s)
    (step : ∀ pre x post s, L = pre ++ x :: post → P pre s →
      ∃ r s', body x s = .ok (r, s') ∧ (r = .ok () → P (pre ++ [x]) s')) :
    ∃ r s', forListE L s body = .ok (r, s') ∧ (r = .ok () → P L s') := by
  suffices H : ∀ post pre s, L = pre ++ post → P pre s →
      ∃ r s', forListE post s body = .ok (r, s') ∧ (r = .ok () → P L s') from H L [] s rfl h0
  intro post
  induction post with
  | nil =>
    intro pre s hL hp
    rw [List.append_nil] at hL
    exact ⟨.ok (), s, rfl, fun _ => hL ▸ hp⟩
  | cons x post ih =>
    intro pre s hL hp
    obtain ⟨r, s', h1, h2⟩ := step pre x post s hL hp
    rw [forListE_cons, h1, ok_bind]
    cases r with
    | error e => exact ⟨.error e, s', rfl, fun h => by cases h⟩
    | ok u => exact ih (pre ++ [x]) s' (by rw [hL]; simp) (h2 rfl)

/-- what holds after a loop that returned `Ok` -/
theorem forListE_after {α σ : Type} (L : List α) (s : σ) (body : α → σ → Exec (Res × σ))
    (P : List α → σ → Prop) (h0 : P [] s)
    (step : ∀ pre x post s s', L = pre ++ x :: post → P pre s → body x s = .ok (.ok (), s') →
      P (pre ++ [x]) s') (s' : σ) (h : forListE L s body = .ok (.ok (), s')) : P L s' := by
  suffices H : ∀ post pre s, L = pre ++ post → P pre s →
      forListE post s body = .ok (.ok (), s') → P L s' from H L [] s rfl h0 h
  intro post
  induction post with
  | nil =>
    intro pre s hL hp h
    rw [List.append_nil] at hL
    cases h
    exact hL ▸ hp
  | cons x post ih =>
    intro pre s hL hp h
    rw [forListE_cons] at h
    cases hb : body x s with
    | error e => rw [hb] at h; cases h
    | ok p =>
      obtain ⟨r, s1⟩ := p
      rw [hb, ok_bind] at h
      cases r with
      | error e => cases h
      | ok u => exact ih (pre ++ [x]) s1 (by rw [hL]; simp) (step pre x post s s1 hL hp hb) h

theorem rev_range_prefix {n c : Nat} {pre post : List Nat}
    (h : (List.range n).reverse = pre ++ c :: post) :
    c < n ∧ ∀ i, i ∈ pre ↔ c < i ∧ i < n := by
  have h' : List.range n = post.reverse ++ c :: pre.reverse := by
    have := congrArg List.reverse h
    rw [List.reverse_reverse] at this
    rw [this]; simp
  obtain ⟨h1, h2⟩ := range_prefix h'
  refine ⟨h2, fun i => ?_⟩
  have hmem : ∀ i, i < n ↔ i < c ∨ i = c ∨ i ∈ pre := by
    intro i
    rw [← List.mem_range, h', List.mem_append, List.mem_cons, h1, List.mem_range, List.mem_reverse]
  have hnd : (post.reverse ++ c :: pre.reverse).Nodup := h' ▸ List.nodup_range
  have hnd2 := List.nodup_append.mp hnd
  have hc : c ∉ pre := fun hm => (List.nodup_cons.mp hnd2.2.1).1 (List.mem_reverse.mpr hm)
  constructor
  · intro hi
    have hn : i < n := (hmem i).mpr (.inr (.inr hi))
    refine ⟨?_, hn⟩
    rcases Nat.lt_trichotomy i c with h | h | h
    · exfalso
      have h3 : i ∈ post.reverse := by rw [h1]; exact List.mem_range.mpr h
      exact hnd2.2.2 i h3 i (List.mem_cons_of_mem _ (List.mem_reverse.mpr hi)) rfl
    · exact absurd (h ▸ hi) hc
    · exact h
  · rintro ⟨h3, h4⟩
    rcases (hmem i).mp h4 with h | h | h
    · omega
    · omega
    · exact h

/-! ## Layers -/

theorem index_list_returns {t1 t2 : Tensor F} (h1 : t1.WF) (h2 : t2.WF) (l : List UInt32) :
    ∃ r t', Tensor.add_from_index_list b t1 t2 l = .ok (r, t') ∧
      (l.length ≤ t1.shape.count → (∀ p ∈ l, p.toNat < t2.shape.count) → r = .ok ()) := by
  unfold Tensor.add_from_index_list
  rw [total_size_ok h1.fits, ok_bind, toNat_ofNat_lt h1.fits.2]
  split
  · exact ⟨_, _, rfl, fun h => by omega⟩
  · rename_i hlen
    rw [total_size_ok h2.fits, ok_bind]
    have hn : (UInt32.ofNat t2.shape.count).toNat = t2.data.length := by
      rw [toNat_ofNat_lt h2.fits.2, h2.len]
    have hm : ∀ e ∈ l.zipIdx, e.2 < t1.data.length := by
      rintro ⟨p, n⟩ he
      have := (List.mem_zipIdx he).2.1
      rw [h1.len]
      simp only
      omega
    by_cases hv : ∀ p ∈ l, p.toNat < t2.shape.count
    · obtain ⟨t', r1, _⟩ := scatter_loop t1 t2 _ hn l.zipIdx
        (by
          rintro ⟨p, n⟩ he
          rw [h2.len]
          exact hv p (List.fst_mem_of_mem_zipIdx he)) hm
      exact ⟨_, t', r1, fun _ _ => rfl⟩
    · obtain ⟨r, t', q1, _⟩ := forListE_run l.zipIdx t2 (fun (t2_index, t1_index) t2' =>
        if t2_index ≥ UInt32.ofNat t2.shape.count then
          pure (.error "Tensor 2 index out of bounds", t2')
        else do
          let x ← vget t1.data t1_index
          let y ← vget t2'.data t2_index.toNat
          let d ← vset t2'.data t2_index.toNat (F32Ops.add y x)
          pure (.ok (), { t2' with data := d }))
        (fun _ t => t.data.length = t2.data.length) rfl
        (by
          rintro pre ⟨q, m⟩ post t hL ht
          simp only
          split
          · exact ⟨_, _, rfl, fun h => by cases h⟩
          · rename_i hq
            rw [ge_iff_le, UInt32.le_iff_toNat_le, hn] at hq
            have hq' : q.toNat < t.data.length := by omega
            have hm1 := hm (q, m) (by rw [hL]; simp)
            rw [vget_getD zero hm1, ok_bind, vget_getD zero hq', ok_bind, vset_ok hq', ok_bind]
            exact ⟨_, _, rfl, fun _ => by simpa using ht⟩)
      exact ⟨r, t', q1, fun _ h => absurd h hv⟩

theorem runArg_snd (w : List (F × UInt32)) : (runArg w).2 = 0 ∨ ∃ e ∈ w, (runArg w).2 = e.2 := by
  unfold runArg
  suffices H : ∀ p : F × UInt32, (w.foldl argStep p).2 = p.2 ∨ ∃ e ∈ w, (w.foldl argStep p).2 = e.2
    from H _
  induction w with
  | nil => intro p; exact .inl rfl
  | cons e w ih =>
    intro p
    rw [List.foldl_cons]
    rcases ih (argStep p e) with h | ⟨e', h1, h2⟩
    · rw [h]
      unfold argStep
      split
      · exact .inr ⟨e, List.mem_cons_self .., rfl⟩
      · exact .inl rfl
    · exact .inr ⟨e', List.mem_cons_of_mem _ h1, h2⟩

/-- every stored origin is a position of the input -/
def originsIn : AnyLayer F → Prop
  | .mp l => ∀ o ∈ l.max_pool_origin, o.toNat < l.input_shape.count
  | _ => True

/-- after a training-mode `forward` the stored origins are positions of the input -/
theorem forward_origins {l : AnyLayer F} (hl : l.Ok) (hb : backable l)
    (hm : l.get_run_mode = .Training) {x out : Tensor F} (hx : x.WF)
    (hxs : x.shape = l.get_input_shape) (ho : out.WF) (hos : out.shape = l.get_output_shape) :
    Sat (l.forward b x out) fun p => originsIn p.2.1 := by
  cases l with
  | conv l => exact hb.elim
  | fc l =>
    refine sat_bind' (Q := fun _ => True) (fun _ _ => trivial) fun p _ => sat_pure trivial
  | sm l =>
    refine sat_bind' (Q := fun _ => True) (fun _ _ => trivial) fun p _ => sat_pure trivial
  | mp l =>
    have hl : l.Ok := hl
    have hm : l.run_state = .Training := hm
    have hxs : x.shape = l.input_shape := hxs
    have hos : out.shape = l.output_shape := hos
    have ht : windowsTile x.shape l.mask_shape l.stride out.shape := by
      rw [hos, hxs]; exact hl.tiles
    have hk : out.shape.dk = x.shape.dk := by rw [hos, hxs]; exact hl.depth
    obtain ⟨y, o, q1, q2, q3, q4, q5⟩ := track_ok (b := b) hx ho
      (fun h => hl.stride (u32_ext h)) hk ht (by rw [hos]; exact hl.buffers hm)
    have hol : o.length = l.output_shape.count := by rw [q4]; exact hl.buffers hm
    have hf : l.forward b x out = .ok (.ok (), { l with max_pool_origin := o }, y) := by
      unfold MaxPoolLayer.forward
      rw [hm]
      simp only
      rw [q1]
      rfl
    refine sat_bind' (Q := fun p => originsIn (.mp p.2.1 : AnyLayer F)) ?_ fun p hp => sat_pure hp
    rw [hf]
    refine sat_ok ?_
    intro p hp
    change p ∈ o at hp
    change p.toNat < l.input_shape.count
    rw [list_indices l.output_shape o 0 hol] at hp
    obtain ⟨⟨i, j, k⟩, hx', rfl⟩ := List.mem_map.mp hp
    have hin : l.output_shape.Inside i j k := mem_indices.mp hx'
    have hin' : out.shape.Inside i j k := by rw [hos]; exact hin
    simp only
    rw [← hos, (q5 i j k hin').2]
    change (runArg _).2.toNat < _
    rcases runArg_snd (windowPos x l.mask_shape l.stride.toNat i j k) with h | ⟨e, h1, h2⟩
    · rw [h]
      exact hb (Nat.lt_of_le_of_lt (Nat.zero_le _) (pos_lt hin))
    · rw [h2]
      unfold windowPos at h1
      obtain ⟨⟨ii, jj⟩, h3, rfl⟩ := List.mem_map.mp h1
      simp only
      have hins := window_inside ht hk hin' (mem_idx2.mp h3).1 (mem_idx2.mp h3).2
      rw [toNat_ofNat_lt (Nat.lt_trans (pos_lt hins) hx.fits.2), ← hxs]
      exact pos_lt hins

/-- softmax `backward` in training mode, in terms of the output and the incoming gradient -/
theorem sm_backward_column {l : SoftmaxLayer F} (hl : l.Ok) (hm : l.run_state = .Training)
    (hj : l.shape.dj = 1) (hk : l.shape.dk = 1) {x y g og : Tensor F} (hy : y.WF)
    (hys : y.shape = l.shape) (hg : g.WF) (hgs : g.shape = l.shape) (ho : og.WF)
    (hos : og.shape = l.shape) :
    ∃ l' og', l.backward b x y g og = .ok (.ok (), l', og') ∧ og'.WF ∧ og'.shape = l.shape ∧
      ∀ i, i < l.shape.di.toNat → val og' i 0 0 = add (mul (val y i 0 0) (val g i 0 0))
        (sum [mul (val y i 0 0) (mul (sum ((List.range l.shape.di.toNat).map fun o =>
          mul (val y o 0 0) (val g o 0 0))) negOne)]) := by
  obtain ⟨⟨i1, i2⟩, ⟨j1, j2⟩⟩ := hl.buffers hm
  obtain ⟨t1, a1, a2, a3, a4⟩ := matmul_tf_ok (b := b) hy hg i1 (by
    rw [check_mm_iff, hys, hgs, i2]
    unfold TensorShape.transpose_ij
    exact ⟨rfl, hk, rfl, hj, hj⟩)
  obtain ⟨c1, c2, c3⟩ := scale_self_ok (negOne : F) a2
  obtain ⟨t2, d1, d2, d3, d4⟩ := matmul_ok (b := b) hy c1 j1 (by
    rw [check_mm_iff, hys, c2, a3, i2, j2]
    exact ⟨hk, rfl, hj, rfl, hj.symm⟩)
  obtain ⟨e1, e2, e3⟩ := mul_ok hy hg ho (by rw [hys, hgs]) (by rw [hys, hos])
  obtain ⟨f1, f2, f3⟩ := add_to_self_ok e1 d2 (by rw [e2, d3, hos, j2])
  refine ⟨{ l with intermediate1 := Tensor.scale_self t1 negOne, intermediate2 := t2 },
    Tensor.add_to_self (Tensor.multiply_elementwise y g og) t2, ?_, f1,
    f2.trans (e2.trans hos), ?_⟩
  · unfold SoftmaxLayer.backward
    rw [if_neg (by rw [hm]; exact fun h => by cases h), a1, ok_bind]
    simp only
    rw [d1, ok_bind]
    rfl
  · intro i hi
    have hin : l.shape.Inside i 0 0 := ⟨hi, by rw [hj]; decide, by rw [hk]; decide⟩
    rw [f3 i 0 0 (by rw [e2, hos]; exact hin), e3 i 0 0 (by rw [hos]; exact hin),
      d4 i 0 0 (by rw [j2]; exact hin), hys, hj]
    have one : (1 : UInt32).toNat = 1 := rfl
    rw [one, List.range_one, List.map_cons, List.map_nil]
    rw [c3 0 0 0 (by rw [a3, i2]; decide), a4 0 0 0 (by rw [i2]; decide), hys]

/-- softmax `backward` always returns -/
theorem sm_backward_returns {l : SoftmaxLayer F} (hl : l.Ok) (hm : l.run_state = .Training)
    {x y g og : Tensor F} (hy : y.WF)
    (hys : y.shape = l.shape) (hg : g.WF) (hgs : g.shape = l.shape) (ho : og.WF)
    (hos : og.shape = l.shape) :
    ∃ r l' og', l.backward b x y g og = .ok (r, l', og') ∧
      (l.shape.dj = 1 ∧ l.shape.dk = 1 ↔ r = .ok ()) := by
  by_cases h : l.shape.dj = 1 ∧ l.shape.dk = 1
  · obtain ⟨l', og', h1, _⟩ := sm_backward_column (b := b) (x := x) hl hm h.1 h.2 hy hys hg hgs ho hos
    exact ⟨_, l', og', h1, fun _ => rfl, fun _ => h⟩
  · obtain ⟨⟨i1, i2⟩, _⟩ := hl.buffers hm
    have hc : ¬ Tensor.check_matrix_multiply_dimensions y.shape.transpose_ij g.shape
        l.intermediate1.shape = true := by
      rw [check_mm_iff, hys, hgs, i2]
      unfold TensorShape.transpose_ij
      rintro ⟨_, h2, _, h4, _⟩
      exact h ⟨h4, h2⟩
    refine ⟨.error "Shapes do not match for matrix multiply transpose", l, og, ?_,
      fun h' => absurd h' h, fun h' => ?_⟩
    · unfold SoftmaxLayer.backward Tensor.matrix_multiply_transpose_first
      rw [if_neg (by rw [hm]; exact fun h => by cases h)]
      simp only
      rw [if_pos hc]
      rfl
    · cases h'

/-- `backward` of any layer but a convolutional one returns, and `Ok` under the right conditions -/
theorem backward_returns {l : AnyLayer F} (hl : l.Ok) (hn : notConv l)
    (hm : l.get_run_mode = .Training) {x y g og : Tensor F} (hx : x.WF)
    (hxs : x.shape = l.get_input_shape) (hy : y.WF) (hys : y.shape = l.get_output_shape)
    (hg : g.WF) (hgs : g.shape = l.get_output_shape) (ho : og.WF)
    (hos : og.shape = l.get_input_shape) :
    ∃ r l' og', l.backward b x y g og = .ok (r, l', og') ∧
      (backable l → originsIn l → r = .ok ()) := by
  cases l with
  | conv l => exact hn.elim
  | fc l =>
    obtain ⟨l', og', h, _⟩ := fc_backward_training (b := b) (out := y) hl hm hx hxs hg hgs ho hos
    exact ⟨_, .fc l', og', by unfold AnyLayer.backward AnyLayer.rewrap; simp only; rw [h]; rfl, fun _ _ => rfl⟩
  | mp l =>
    have hl : l.Ok := hl
    have hos : og.shape = l.input_shape := hos
    have hgs : g.shape = l.output_shape := hgs
    obtain ⟨f1, f2, _⟩ := fill_ok (zero : F) ho
    obtain ⟨r, t, h1, h2⟩ := index_list_returns (b := b) hg f1 l.max_pool_origin
    refine ⟨r, .mp l, t, ?_, fun _ h => h2 ?_ ?_⟩
    · unfold AnyLayer.backward AnyLayer.rewrap MaxPoolLayer.backward
      simp only
      rw [h1]
      rfl
    · rw [hl.buffers hm, hgs]
    · intro p hp
      rw [f2, hos]
      exact h p hp
  | sm l =>
    obtain ⟨r, l', og', h1, h2⟩ := sm_backward_returns (b := b) (x := x) hl hm hy hys hg hgs ho hos
    exact ⟨r, .sm l', og', by unfold AnyLayer.backward AnyLayer.rewrap; simp only; rw [h1]; rfl, fun h _ => h2.mp h⟩

/-! ## Networks -/

/-- After a `backward` that returned `Ok`: each layer's `backward` was called on the states around
it, with the gradient of the state after it, and gave the gradient of the state before it. -/
theorem backward_after {n n' : Net F} {g : Tensor F} (h : n.backward b g = .ok (.ok (), n')) :
    n'.intermediate_gradients[n.layers.length]? = some g ∧
    BackDone b n 0 n'.layers n'.intermediate_gradients := by
  unfold Network.backward at h
  split at h
  · cases h
  · split at h
    · cases h
    · split at h
      · cases h
      · rename_i hpos _
        cases hv : vset n.intermediate_gradients n.layers.length g with
        | error e => rw [hv] at h; cases h
        | ok gs0 =>
          obtain ⟨rfl, hlen⟩ := set_of_vset hv
          rw [hv, ok_bind] at h
          cases hf : forListE (List.range n.layers.length).reverse
              (n.layers, n.intermediate_gradients.set n.layers.length g)
              (fun i s => Network.backward_step b n.intermediate_states s i) with
          | error e => rw [hf] at h; cases h
          | ok p =>
            obtain ⟨r, ls, gs⟩ := p
            rw [hf, ok_bind] at h
            have h := Except.ok.inj h
            simp only [Prod.mk.injEq] at h
            obtain ⟨hr, rfl⟩ := h
            subst hr
            have key := forListE_after _ _ _
              (fun pre (p : List (AnyLayer F) × List (Tensor F)) =>
                (∀ i, i ∉ pre → p.1[i]? = n.layers[i]?) ∧
                (∀ i, i ∉ pre →
                  p.2[i]? = (n.intermediate_gradients.set n.layers.length g)[i]?) ∧
                ∀ (i : Nat) l, i ∈ pre → n.layers[i]? = some l → ∃ x y g og og' l',
                  n.intermediate_states[i]? = some x ∧
                  n.intermediate_states[i + 1]? = some y ∧ p.2[i + 1]? = some g ∧
                  n.intermediate_gradients[i]? = some og ∧ p.2[i]? = some og' ∧ p.1[i]? = some l' ∧
                  l.backward b x y g og = .ok (.ok (), l', og'))
              ⟨fun _ _ => rfl, fun _ _ => rfl, fun _ _ h => by cases h⟩
              (by
                rintro pre c post ⟨ls, gs⟩ ⟨ls', gs'⟩ hL ⟨t1, t2, t3⟩ hb
                obtain ⟨hc, hpre⟩ := rev_range_prefix hL
                have hcp : c ∉ pre := fun h => by have := (hpre c).mp h; omega
                simp only at t1 t2 t3
                unfold Network.backward_step at hb
                simp only at hb
                split at hb
                · cases hb
                · cases e1 : vget ls c with
                  | error e => rw [e1] at hb; cases hb
                  | ok l =>
                    rw [e1, ok_bind] at hb
                    have e1 := get_of_vget e1
                    split at hb
                    · rename_i inc out e2 e3
                      cases e4 : vget n.intermediate_states c with
                      | error e => rw [e4] at hb; cases hb
                      | ok x =>
                        rw [e4, ok_bind] at hb
                        cases e5 : vget n.intermediate_states (c + 1) with
                        | error e => rw [e5] at hb; cases hb
                        | ok y =>
                          rw [e5, ok_bind] at hb
                          cases e6 : l.backward b x y inc out with
                          | error e =>
                            have e6' : LayerOps.backward b l x y inc out = .error e := e6
                            rw [e6'] at hb; cases hb
                          | ok q =>
                            obtain ⟨r, l', og'⟩ := q
                            have e6' : LayerOps.backward b l x y inc out = .ok (r, l', og') := e6
                            rw [e6', ok_bind] at hb
                            simp only at hb
                            cases e7 : vset ls c l' with
                            | error e => rw [e7] at hb; cases hb
                            | ok ls1 =>
                              rw [e7, ok_bind] at hb
                              cases e8 : vset gs c og' with
                              | error e => rw [e8] at hb; cases hb
                              | ok gs1 =>
                                rw [e8, ok_bind] at hb
                                have hb := Except.ok.inj hb
                                simp only [Prod.mk.injEq] at hb
                                obtain ⟨rfl, rfl, rfl⟩ := hb
                                obtain ⟨rfl, h7⟩ := set_of_vset e7
                                obtain ⟨rfl, h8⟩ := set_of_vset e8
                                have hnot : ∀ i, i ∉ pre ++ [c] → i ∉ pre ∧ i ≠ c := by
                                  intro i hi
                                  exact ⟨fun h => hi (List.mem_append_left _ h),
                                    fun h => hi (List.mem_append_right _ (by simp [h]))⟩
                                refine ⟨fun i hi => ?_, fun i hi => ?_, fun i l0 hi hil => ?_⟩
                                · simp only
                                  rw [List.getElem?_set_ne (hnot i hi).2.symm]
                                  exact t1 i (hnot i hi).1
                                · simp only
                                  rw [List.getElem?_set_ne (hnot i hi).2.symm]
                                  exact t2 i (hnot i hi).1
                                · simp only
                                  rcases List.mem_append.mp hi with hi | hi
                                  · have hlt := (hpre i).mp hi
                                    obtain ⟨x, y, g', og, og', l', a1, a2, a3, a4, a5, a6, a7⟩ :=
                                      t3 i l0 hi hil
                                    refine ⟨x, y, g', og, og', l', a1, a2, ?_, a4, ?_, ?_, a7⟩
                                    · rw [List.getElem?_set_ne (by omega)]; exact a3
                                    · rw [List.getElem?_set_ne (by omega)]; exact a5
                                    · rw [List.getElem?_set_ne (by omega)]; exact a6
                                  · have := List.mem_singleton.mp hi
                                    subst this
                                    rw [t1 i hcp, hil] at e1
                                    cases e1
                                    refine ⟨x, y, inc, out, og', l', get_of_vget e4,
                                      get_of_vget e5, ?_, ?_, ?_, ?_, e6⟩
                                    · rw [List.getElem?_set_ne (by omega)]; exact e2
                                    · rw [t2 i hcp, List.getElem?_set_ne (by omega)] at e3
                                      exact e3
                                    · rw [List.getElem?_set_self h8]
                                    · rw [List.getElem?_set_self h7]
                    · cases hb)
              _ hf
            obtain ⟨_, k2, k3⟩ := key
            simp only at k2 k3
            refine ⟨?_, fun i l _ hi => ?_⟩
            · simp only
              rw [k2 _ (by simp), List.getElem?_set_self hlen]
            · have hlt : i < n.layers.length := by
                rcases Nat.lt_or_ge i n.layers.length with h | h
                · exact h
                · rw [List.getElem?_eq_none h] at hi; cases hi
              exact k3 i l (by simpa using hlt) hi

theorem map_shape_get {ts us : List (Tensor F)} (h : ts.map (·.shape) = us.map (·.shape)) {i : Nat}
    {u : Tensor F} (hu : us[i]? = some u) : ∃ t, ts[i]? = some t ∧ t.shape = u.shape := by
  obtain ⟨t, h1, h2⟩ := map_get h.symm hu
  exact ⟨t, h1, h2.symm⟩

/-- `backward` on a network in training mode, without convolutional layers, after an `infer` -/
theorem backward_net_returns {n : Net F} (hn : NetOk n) (ht : TrainReady n) (hne : n.layers ≠ [])
    (hc : ∀ l ∈ n.layers, notConv l) (h0 : ∀ x, n.intermediate_states[0]? = some x → x.WF)
    {g : Tensor F} (hg : g.WF) (hgs : g.shape = n.output_shape) :
    ∃ r n', n.backward b g = .ok (r, n') ∧
      ((∀ l ∈ n.layers, backable l ∧ originsIn l) → r = .ok ()) := by
  have hlen := chain_length hn.chain
  rw [if_neg hne] at hlen
  have hglen : n.intermediate_gradients.length = n.layers.length + 1 := by
    rw [← hlen]
    have := congrArg List.length ht.grads
    simpa using this
  have hpos : n.layers.length ≠ 0 := fun e => hne (List.length_eq_zero_iff.mp e)
  have stWF : ∀ (i : Nat) s, n.intermediate_states[i]? = some s → s.WF := by
    intro i s hs
    cases i with
    | zero => exact h0 s hs
    | succ i =>
      apply hn.states
      cases hst : n.intermediate_states with
      | nil => rw [hst] at hs; cases hs
      | cons a as =>
        rw [hst, List.getElem?_cons_succ] at hs
        exact List.mem_of_getElem? hs
  -- the invariant of the loop
  let P : List Nat → List (AnyLayer F) × List (Tensor F) → Prop := fun pre p =>
    (p.1.length = n.layers.length ∧ ∀ i, i ∉ pre → p.1[i]? = n.layers[i]?) ∧
    p.2.length = n.layers.length + 1 ∧ ∀ (i : Nat) t s, p.2[i]? = some t →
      n.intermediate_states[i]? = some s → t.WF ∧ t.shape = s.shape
  have hP0 : P [] (n.layers, n.intermediate_gradients.set n.layers.length g) := by
    refine ⟨⟨rfl, fun _ _ => rfl⟩, by simpa using hglen, ?_⟩
    intro i t s hi hs
    simp only at hi
    by_cases hin : i = n.layers.length
    · subst hin
      rw [List.getElem?_set_self (by omega)] at hi
      cases hi
      refine ⟨hg, hgs.trans ?_⟩
      have hl : n.layers[n.layers.length - 1]? = some n.layers[n.layers.length - 1] :=
        List.getElem?_eq_getElem (by omega)
      obtain ⟨_, u', _, e2, _, e4⟩ := chain_state hn.chain hl
      rw [show n.layers.length - 1 + 1 = n.layers.length by omega, hs] at e2
      cases e2
      rw [e4]
      exact hn.chain.last _ (by rw [List.getLast?_eq_getElem?]; exact hl)
    · rw [List.getElem?_set_ne (fun h => hin h.symm)] at hi
      have hlt : i < n.intermediate_gradients.length := by
        rcases Nat.lt_or_ge i n.intermediate_gradients.length with h | h
        · exact h
        · rw [List.getElem?_eq_none h] at hi; cases hi
      refine ⟨ht.wf t (List.mem_of_getElem? hi), ?_⟩
      obtain ⟨t', h1, h2⟩ := map_shape_get ht.grads hs
      rw [hi] at h1
      cases h1
      exact h2
  have step : ∀ pre c post (p : List (AnyLayer F) × List (Tensor F)),
      (List.range n.layers.length).reverse = pre ++ c :: post → P pre p →
      ∃ r p', Network.backward_step b n.intermediate_states p c = .ok (r, p') ∧
        P (pre ++ [c]) p' ∧
        ((∀ l ∈ n.layers, backable l ∧ originsIn l) → r = .ok ()) := by
    rintro pre c post ⟨ls, gs⟩ hL ⟨⟨t1, t2⟩, t3, t4⟩
    obtain ⟨hclt, hpre⟩ := rev_range_prefix hL
    have hcp : c ∉ pre := fun h => by have := (hpre c).mp h; omega
    simp only at t1 t2 t3 t4
    have hl : n.layers[c]? = some n.layers[c] := List.getElem?_eq_getElem hclt
    have hmem : n.layers[c] ∈ n.layers := List.getElem_mem hclt
    obtain ⟨x, y, e1, e2, e3, e4⟩ := chain_state hn.chain hl
    have hgc : gs[c]? = some gs[c] := List.getElem?_eq_getElem (by omega)
    have hgc1 : gs[c + 1]? = some gs[c + 1] := List.getElem?_eq_getElem (by omega)
    obtain ⟨g1, g2⟩ := t4 _ _ _ hgc e1
    obtain ⟨g3, g4⟩ := t4 _ _ _ hgc1 e2
    obtain ⟨r, l', og', q1, q2⟩ := backward_returns (b := b) (hn.layers _ hmem) (hc _ hmem)
      (ht.layers _ hmem) (stWF _ _ e1) e3 (stWF _ _ e2) e4 g3 (g4.trans e4) g1 (g2.trans e3)
    have hlay := (backward_like (b := b) _ _ _ _ _ _ q1).2
    refine ⟨r, (ls.set c l', gs.set c og'), ?_, ⟨⟨by simpa using t1, ?_⟩, by simpa using t3, ?_⟩,
      fun h => q2 (h _ hmem).1 (h _ hmem).2⟩
    · unfold Network.backward_step
      simp only
      rw [if_neg (by omega)]
      have hv : vget ls c = .ok n.layers[c] := by unfold vget; rw [t2 c hcp, hl]
      have hv1 : vget n.intermediate_states c = .ok x := by unfold vget; rw [e1]
      have hv2 : vget n.intermediate_states (c + 1) = .ok y := by unfold vget; rw [e2]
      have q1' : LayerOps.backward b n.layers[c] x y gs[c + 1] gs[c] = .ok (r, l', og') := q1
      rw [hv, ok_bind, hgc, hgc1]
      simp only
      rw [hv1, ok_bind, hv2, ok_bind, q1', ok_bind]
      simp only
      rw [vset_ok (by omega), ok_bind, vset_ok (by omega), ok_bind]
      rfl
    · intro i hi
      simp only
      rw [List.getElem?_set_ne (fun h => hi (List.mem_append_right _ (by simp [h])))]
      exact t2 i (fun h => hi (List.mem_append_left _ h))
    · intro i t s hi hs
      simp only at hi
      by_cases hic : i = c
      · subst hic
        rw [List.getElem?_set_self (by omega)] at hi
        cases hi
        rw [e1] at hs
        cases hs
        obtain ⟨w1, w2⟩ := sameLayout_wf hlay g1
        exact ⟨w1, w2.trans g2⟩
      · rw [List.getElem?_set_ne (fun h => hic h.symm)] at hi
        exact t4 i t s hi hs
  have fin : ∀ (r : Res) (p : List (AnyLayer F) × List (Tensor F)),
      forListE (List.range n.layers.length).reverse
        (n.layers, n.intermediate_gradients.set n.layers.length g)
        (fun i s => Network.backward_step b n.intermediate_states s i) = .ok (r, p) →
      n.backward b g = .ok (r, { n with layers := p.1, intermediate_gradients := p.2 }) := by
    intro r p h
    unfold Network.backward
    rw [if_neg (fun h => h hgs), if_neg (by omega), if_neg (fun h => h ht.mode),
      vset_ok (by omega), ok_bind, h]
    rfl
  by_cases hall : ∀ l ∈ n.layers, backable l ∧ originsIn l
  · obtain ⟨p, h1, _⟩ := forListE_prefix (List.range n.layers.length).reverse
      (n.layers, n.intermediate_gradients.set n.layers.length g)
      (fun i s => Network.backward_step b n.intermediate_states s i) P hP0
      (fun pre c post p hL hp => by
        obtain ⟨r, p', h1, h2, h3⟩ := step pre c post p hL hp
        rw [h3 hall] at h1
        exact ⟨p', h1, h2⟩)
    exact ⟨_, _, fin _ _ h1, fun _ => rfl⟩
  · obtain ⟨r, p, h1, _⟩ := forListE_run (List.range n.layers.length).reverse
      (n.layers, n.intermediate_gradients.set n.layers.length g)
      (fun i s => Network.backward_step b n.intermediate_states s i) P hP0
      (fun pre c post p hL hp => by
        obtain ⟨r, p', h1, h2, _⟩ := step pre c post p hL hp
        exact ⟨r, p', h1, fun _ => h2⟩)
    exact ⟨_, _, fin _ _ h1, fun h => absurd h hall⟩

/-! ## Histories in training mode -/

theorem trainReady_new : TrainReady (Network.new .Training : Net F) :=
  ⟨rfl, (fun _ h => by cases h), rfl, (fun _ h => by cases h)⟩

theorem states_fit {n : Net F} (hn : NetOk n) : ∀ s ∈ n.intermediate_states, s.shape.Fits := by
  intro s hs
  have : s.shape ∈ n.intermediate_states.map (·.shape) := List.mem_map.mpr ⟨s, hs, rfl⟩
  rw [hn.chain.states] at this
  cases hl : n.layers with
  | nil => rw [hl] at this; cases this
  | cons l ls =>
    rw [hl] at this
    unfold stateShapes at this
    rcases List.mem_cons.mp this with h | h
    · rw [h]
      exact ok_input_fits (hn.layers l (by rw [hl]; exact List.mem_cons_self ..))
    · obtain ⟨l', h1, h2⟩ := List.mem_map.mp h
      rw [← h2]
      exact ok_output_fits (hn.layers l' (by rw [hl]; exact h1))

theorem switch_trainReady {n n' : Net F} (hn : NetOk n) (h : n.switch_to_training b = .ok n') :
    TrainReady n' := by
  obtain ⟨e1, e2, e3, _, _, e6⟩ := net_switch_training_effect n _ h
  refine ⟨e1, ?_, ?_, ?_⟩
  · intro l hl
    obtain ⟨l0, _, h2⟩ := forall₂_mem e2 hl
    exact (switch_training_effect l0 l h2).1
  · rw [e3]
    exact forall₂_map_eq e6 _ _ fun t s h => new_shape _ _ h
  · intro g hg
    obtain ⟨s, h1, h2⟩ := forall₂_mem e6 hg
    have hf := states_fit hn s h1
    rw [new_ok hf] at h2
    cases h2
    exact zeros_wf hf

/-- what `infer` can change does not matter to training -/
theorem infer_ready_of {n n' : Net F} {x : Tensor F} (hn : NetOk n) (ht : TrainReady n)
    (h : List.Forall₂ Like n'.layers n.layers ∧
      (n.input_shape = x.shape ∧ sameLayouts n'.intermediate_states (n.intermediate_states.set 0 x) ∨
        n'.intermediate_states = n.intermediate_states) ∧
      n'.intermediate_gradients = n.intermediate_gradients ∧ n'.input_shape = n.input_shape ∧
      n'.output_shape = n.output_shape ∧ n'.run_state = n.run_state) : TrainReady n' := by
  obtain ⟨e1, e2, e3, e4, e5, e6⟩ := h
  refine ⟨e6.trans ht.mode, ?_, ?_, ?_⟩
  · intro l hl
    obtain ⟨l0, h1, h2⟩ := forall₂_mem e1 hl
    rw [like_mode h2]
    exact ht.layers l0 h1
  · rw [e3, ht.grads]
    rcases e2 with ⟨e, e2⟩ | e2
    · rw [sameLayouts_shapes e2]
      exact (set_zero_shapes (chain_head hn.chain) e.symm).symm
    · rw [e2]
  · rw [e3]
    exact ht.wf

theorem infer_trainReady {n n' : Net F} {x : Tensor F} {r : Res} (hn : NetOk n) (ht : TrainReady n)
    (h : n.infer b x = .ok (r, n')) : TrainReady n' :=
  infer_ready_of hn ht (infer_effect n x _ h)

/-- what `backward` can change does not matter to training -/
theorem backward_ready_of {n n' : Net F} {g : Tensor F} (hn : NetOk n) (ht : TrainReady n) (hg : g.WF)
    (h : List.Forall₂ Like n'.layers n.layers ∧
      (n.output_shape = g.shape ∧ sameLayouts n'.intermediate_gradients
          (n.intermediate_gradients.set n.layers.length g) ∨
        n'.intermediate_gradients = n.intermediate_gradients) ∧
      n'.intermediate_states = n.intermediate_states ∧ n'.input_shape = n.input_shape ∧
      n'.output_shape = n.output_shape ∧ n'.run_state = n.run_state) : TrainReady n' := by
  obtain ⟨e1, e2, e3, e4, e5, e6⟩ := h
  refine ⟨e6.trans ht.mode, ?_, ?_, ?_⟩
  · intro l hl
    obtain ⟨l0, h1, h2⟩ := forall₂_mem e1 hl
    rw [like_mode h2]
    exact ht.layers l0 h1
  · rw [e3, ← ht.grads]
    rcases e2 with ⟨e, e2⟩ | e2
    · rw [sameLayouts_shapes e2]
      apply List.ext_getElem?
      intro i
      rw [List.getElem?_map, List.getElem?_map]
      by_cases hin : i = n.layers.length
      · subst hin
        rcases Nat.lt_or_ge n.layers.length n.intermediate_gradients.length with hlt | hge
        · rw [List.getElem?_set_self hlt, List.getElem?_eq_getElem hlt]
          have hslen : n.intermediate_states.length = n.intermediate_gradients.length := by
            have := congrArg List.length ht.grads
            simpa using this.symm
          have hne : n.layers ≠ [] := by
            intro hnil
            have := chain_length hn.chain
            rw [if_pos hnil] at this
            rw [hnil] at hlt
            omega
          have hpos : n.layers.length ≠ 0 := fun e => hne (List.length_eq_zero_iff.mp e)
          have hl : n.layers[n.layers.length - 1]? = some n.layers[n.layers.length - 1] :=
            List.getElem?_eq_getElem (by omega)
          obtain ⟨_, u', _, f2, _, f4⟩ := chain_state hn.chain hl
          rw [show n.layers.length - 1 + 1 = n.layers.length by omega] at f2
          obtain ⟨t, f5, f6⟩ := map_shape_get ht.grads f2
          rw [List.getElem?_eq_getElem hlt] at f5
          cases f5
          have hlast := hn.chain.last _ (by rw [List.getLast?_eq_getElem?]; exact hl)
          change some g.shape = some (n.intermediate_gradients[n.layers.length]).shape
          rw [f6, f4, ← hlast, ← e]
          rfl
        · rw [List.set_eq_of_length_le hge]
      · rw [List.getElem?_set_ne (fun h => hin h.symm)]
    · rw [e2]
  · intro t hit
    rcases e2 with ⟨_, e2⟩ | e2
    · obtain ⟨u, h1, h2⟩ := forall₂_mem e2 hit
      refine (sameLayout_wf h2 ?_).1
      rcases List.mem_or_eq_of_mem_set h1 with h | h
      · exact ht.wf u h
      · rw [h]; exact hg
    · rw [e2] at hit
      exact ht.wf t hit

theorem backward_trainReady {n n' : Net F} {g : Tensor F} {r : Res} (hn : NetOk n)
    (ht : TrainReady n) (hg : g.WF) (h : n.backward b g = .ok (r, n')) : TrainReady n' :=
  backward_ready_of hn ht hg (backward_effect n g _ h)

theorem add_layer_trainReady {n n' : Net F} {l : AnyLayer F} {r : Res} (hn : NetOk n)
    (ht : TrainReady n) (hl : l.Ok) (h : n.add_layer b l = .ok (r, n')) : TrainReady n' := by
  rcases add_layer_effect n l _ h with ⟨_, _, rfl⟩ | ⟨h1, _, l', ts, gs, h3, h4, h5, rfl⟩
  · exact ht
  · rw [if_pos ht.mode] at h5
    obtain ⟨hmode, _, _, _⟩ := switchTo_effect _ _ _ h3
    refine ⟨ht.mode, ?_, ?_, ?_⟩
    · intro a ha
      rcases List.mem_append.mp ha with ha | ha
      · exact ht.layers a ha
      · rw [List.mem_singleton.mp ha, hmode]
        exact ht.mode
    · simp only [List.map_append]
      rw [ht.grads, fresh_shapes h4, fresh_shapes h5]
    · intro g hg
      rcases List.mem_append.mp hg with hg | hg
      · exact ht.wf g hg
      · exact fresh_wf h5 (newShapes_fit hl) g hg

theorem trains_ready {n : Net F} (h : Trains b n) : NetOk n ∧ TrainReady n := by
  induction h with
  | new => exact ⟨new_netOk _, trainReady_new⟩
  | switch_to_training n n' hb h =>
    exact ⟨uses_netOk (built_netOk hb) (.switch_to_training _ _ h),
      switch_trainReady (built_netOk hb) h⟩
  | add_layer n l r n' _ hl h ih =>
    exact ⟨add_layer_netOk ih.1 hl h, add_layer_trainReady ih.1 ih.2 hl h⟩
  | infer n x r n' _ h ih =>
    exact ⟨uses_netOk ih.1 (.infer _ _ _ _ h), infer_trainReady ih.1 ih.2 h⟩
  | backward n g r n' _ hg h ih =>
    exact ⟨uses_netOk ih.1 (.backward _ _ _ _ h), backward_trainReady ih.1 ih.2 hg h⟩

/-- `infer` and then `backward` in training mode, without convolutional layers -/
theorem infer_backward_ok {n : Net F} (hok : NetOk n) (ht : TrainReady n) (hne : n.layers ≠ [])
    (hc : ∀ l ∈ n.layers, notConv l) {x g : Tensor F} (hx : x.WF)
    (hxs : x.shape = n.input_shape) (hg : g.WF) (hgs : g.shape = n.output_shape) :
    ∃ n1 r n2, n.infer b x = .ok (.ok (), n1) ∧ n1.backward b g = .ok (r, n2) ∧
      ((∀ l ∈ n.layers, backable l) → r = .ok ()) := by
  obtain ⟨n1, h1, h2, h3⟩ := infer_ok (b := b) hok hne hx hxs
  have hok1 := uses_netOk hok (.infer _ _ _ _ h1)
  have ht1 := infer_trainReady hok ht h1
  obtain ⟨e1, _, _, _, e5, _⟩ := infer_effect n x _ h1
  simp only at e1 e5
  have hl := forall₂_length e1
  have hpos : n.layers.length ≠ 0 := fun e => hne (List.length_eq_zero_iff.mp e)
  obtain ⟨r, n2, h4, h5⟩ := backward_net_returns (b := b) hok1 ht1
    (fun e => hpos (by rw [← hl, e]; rfl))
    (by
      intro l hlm
      obtain ⟨l0, a1, a2⟩ := forall₂_mem e1 hlm
      have := hc l0 a1
      cases l0 <;> cases l <;> first | exact a2.elim | exact this)
    (by intro x' hx'; rw [h2] at hx'; cases hx'; exact hx) hg (hgs.trans e5.symm)
  refine ⟨n1, r, n2, h1, h4, fun hb => h5 ?_⟩
  intro l' hlm
  obtain ⟨i, hi, rfl⟩ := List.mem_iff_getElem.mp hlm
  have hi0 : n.layers[i]? = some n.layers[i] := List.getElem?_eq_getElem (by omega)
  obtain ⟨s, s', _, _, _, out, l', a1, a2, a3, a4, a5, a6⟩ := h3 i _ hi0
  rw [List.getElem?_eq_getElem hi] at a1
  cases a1
  have hm0 : n.layers[i] ∈ n.layers := List.getElem_mem (by omega)
  refine ⟨?_, forward_origins (b := b) (hok.layers _ hm0) (hb _ hm0) (ht.layers _ hm0) a2 a3 a4 a5 _ a6⟩
  have hp := forall₂_get e1 (List.getElem?_eq_getElem hi) hi0
  have hb0 := hb _ hm0
  have hpar := like_params hp
  revert hp hb0 hpar
  generalize n.layers[i] = l0
  generalize n1.layers[i] = l1
  intro hp hb0 hpar
  cases l0 <;> cases l1 <;> first | exact hp.elim | skip
  · exact hb0.elim
  · trivial
  · simp only [params, AnyLayer.mp.injEq, MaxPoolLayer.mk.injEq] at hpar
    simp only [backable] at hb0 ⊢
    rw [hpar.1, hpar.2.2.1]
    exact hb0
  · simp only [params, AnyLayer.sm.injEq, SoftmaxLayer.mk.injEq] at hpar
    simp only [backable] at hb0 ⊢
    rw [hpar.1]
    exact hb0

end Rusty
