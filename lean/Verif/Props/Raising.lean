import Verif.Lemmas.IEEERaising
import Verif.Props.Monotone

/-! # C110: raising parameters does not lower the predictions, in spite of rounding -/

namespace Rusty

open F32Ops Spec F32

variable [Libm]

/-- two runs whose layers are raised, with the signs that this needs -/
theorem runs_raised {b : Build} {ls ls' : List (AnyLayer F32)} (hlen : ls'.length = ls.length)
    (hok : ∀ l ∈ ls, l.Ok) {t t' : Nat → Tensor F32}
    (hr : ∀ i l l', ls[i]? = some l → ls'[i]? = some l' → Raised l l' ∧
      (Below (t i) (t' i) → Signs l l' (t i) (t' i)))
    (ht : ∀ i l, ls[i]? = some l → Tame l (t i) ∧ (t i).shape = l.get_input_shape ∧ applies b l (t i) (t (i + 1)))
    (ht' : ∀ i l, ls'[i]? = some l → Tame l (t' i) ∧ (t' i).shape = l.get_input_shape ∧
      applies b l (t' i) (t' (i + 1)))
    (h0 : Below (t 0) (t' 0)) : ∀ i, i ≤ ls.length → Below (t i) (t' i) := by
  intro i
  induction i with
  | zero => exact fun _ => h0
  | succ i ih =>
    intro hi
    have ih := ih (by omega)
    have hl : ls[i]? = some ls[i] := List.getElem?_eq_getElem hi
    have hl' : ls'[i]? = some (ls'[i]'(by omega)) := List.getElem?_eq_getElem (by omega)
    obtain ⟨r1, r2⟩ := hr i _ _ hl hl'
    obtain ⟨a1, a2, a3⟩ := ht i _ hl
    obtain ⟨c1, c2, c3⟩ := ht' i _ hl'
    intro a c d hin
    obtain ⟨f1, f2⟩ := applies_entry a3 hin
    rw [f2, applies_val c3 (by rw [(raised_shapes r1).2]; exact f1)]
    exact layer_raised (hok _ (List.mem_of_getElem? hl)) r1 a2 c2 a1 c1 ih (r2 ih) f1

/-- what the outputs of two runs look like -/
theorem raised_outputs (b : Build) {y y' : Tensor F32} (hy : y.WF) (hy' : y'.WF) (hs : y'.shape = y.shape)
    (hf : ∀ i j k, y.shape.Inside i j k → (val y i j k).isFinite = true)
    (hf' : ∀ i j k, y'.shape.Inside i j k → (val y' i j k).isFinite = true) (hle : Below y y') :
    ∀ i j k, y.shape.Inside i j k → ∃ v v', y.get_item b (ix i j k) = .ok v ∧
      y'.get_item b (ix i j k) = .ok v' ∧ v.isFinite = true ∧ v'.isFinite = true ∧
      v.toReal ≤ v'.toReal ∧ F32.gt v v' = false := by
  intro i j k hin
  have hin' : y'.shape.Inside i j k := by rw [hs]; exact hin
  have hv := hle i j k hin
  refine ⟨_, _, get_item_ok hy hin, get_item_ok hy' hin', hf i j k hin, hf' i j k hin', hv, ?_⟩
  by_contra hc
  simp only [Bool.not_eq_false] at hc
  have := (gt_real (hf i j k hin) (hf' i j k hin')).mp hc
  linarith

/-- C110: two networks without softmax layers, whose sums stay in range for inputs of at most `M` (`Accuracy`).  No
parameter of the second one is smaller than the same parameter of the first (`Raised`), and its weights are not
negative.  Then for inputs that are not negative, the second network never gives a smaller output, in any entry,
whatever the rounding does; its input may be larger too. -/
theorem C110_network (b : Build) (n n' : Net F32) (hn : Built b n) (hn' : Built b n') (hne : n.get_layers ≠ [])
    (hlen : n'.get_layers.length = n.get_layers.length)
    (hr : ∀ (i : Nat) l l', n.get_layers[i]? = some l → n'.get_layers[i]? = some l' → Raised l l' ∧ Nonneg l')
    (M M1 e1 M2 e2 : ℝ) (hM : 0 ≤ M) (hA : Accuracy n.get_layers M 0 M1 e1)
    (hA' : Accuracy n'.get_layers M 0 M2 e2) (x x' : Tensor F32) (hx : x.WF) (hx' : x'.WF)
    (hxs : x.shape = n.get_input_shape) (hxs' : x'.shape = n.get_input_shape) (hw : Within x M)
    (hw' : Within x' M) (hpos : NoneNegative x) (hle : Below x x') :
    ∃ n1 y n2 y', n.infer b x = .ok (.ok (), n1) ∧ n1.get_output = .ok y ∧
      n'.infer b x' = .ok (.ok (), n2) ∧ n2.get_output = .ok y' ∧ y'.shape = y.shape ∧
      ∀ i j k, y.shape.Inside i j k → ∃ v v', y.get_item b (ix i j k) = .ok v ∧
        y'.get_item b (ix i j k) = .ok v' ∧ v.isFinite = true ∧ v'.isFinite = true ∧
        v.toReal ≤ v'.toReal ∧ F32.gt v v' = false := by
  have hok := built_netOk hn
  have hok' := built_netOk hn'
  have hpos0 : 0 < n.get_layers.length := List.length_pos_iff.mpr hne
  have hne' : n'.get_layers ≠ [] := List.length_pos_iff.mp (by omega)
  have hl0 : n.get_layers[0]? = some n.get_layers[0] := List.getElem?_eq_getElem hpos0
  have hl0' : n'.get_layers[0]? = some (n'.get_layers[0]'(by omega)) := List.getElem?_eq_getElem (by omega)
  have f1 : n.input_shape = _ := hok.chain.first _ (by rw [List.head?_eq_getElem?]; exact hl0)
  have f2 : n'.input_shape = _ := hok'.chain.first _ (by rw [List.head?_eq_getElem?]; exact hl0')
  have hxs2 : x'.shape = n'.get_input_shape := by
    rw [hxs']
    change n.input_shape = n'.input_shape
    rw [f1, f2]
    exact (raised_shapes (hr 0 _ _ hl0 hl0').1).1.symm
  obtain ⟨n1, t, r1, r2, r3, r4, r5, r6⟩ := run_states b hn hne hx hxs
  obtain ⟨n2, t', s1, s2, s3, s4, s5, s6⟩ := run_states b hn' hne' hx' hxs2
  have near : ∀ {x : Tensor F32}, Within x M → Near x (fun i j k => (val x i j k).toReal) M 0 :=
    fun h i j k hin => ⟨(h i j k hin).1, by simp, (h i j k hin).2⟩
  have pair : ∀ {i l}, n.get_layers[i]? = some l → ∃ l', n'.get_layers[i]? = some l' := fun {i l} hi => by
    have := (List.getElem?_eq_some_iff.mp hi).1
    exact ⟨_, List.getElem?_eq_getElem (by omega)⟩
  have ns' : ∀ l ∈ n'.get_layers, ∀ p, l ≠ .sm p := fun l hl p h => by
    obtain ⟨i, hi, rfl⟩ := List.mem_iff_getElem.mp hl
    have := (hr i _ _ (List.getElem?_eq_getElem (by omega)) (List.getElem?_eq_getElem hi)).2
    rw [h] at this
    exact this
  have ns : ∀ l ∈ n.get_layers, ∀ p, l ≠ .sm p := fun l hl p h => by
    obtain ⟨i, hi, rfl⟩ := List.mem_iff_getElem.mp hl
    have := (hr i _ _ (List.getElem?_eq_getElem hi) (List.getElem?_eq_getElem (by omega))).1
    rw [h] at this
    cases h' : (n'.get_layers[i]'(by omega)) <;> rw [h'] at this <;> exact this
  obtain ⟨g1, g2⟩ := accuracy_tame b hA hok.layers ns t hM (le_refl _) _ (by rw [r2]; exact near hw) r6
  obtain ⟨g3, g4⟩ := accuracy_tame b hA' hok'.layers ns' t' hM (le_refl _) _ (by rw [s2]; exact near hw') s6
  have hnn : ∀ i, i ≤ n.get_layers.length → NoneNegative (t i) := by
    intro i
    induction i with
    | zero => intro _; rw [r2]; exact hpos
    | succ i ih =>
      intro hi
      have hl : n.get_layers[i]? = some n.get_layers[i] := List.getElem?_eq_getElem hi
      exact layer_noneNegative (hok.layers _ (List.mem_of_getElem? hl)) (ns _ (List.mem_of_getElem? hl))
        (r6 i _ hl).2.1 (g1 i _ hl) (ih (by omega)) (r6 i _ hl).2.2
  have key := runs_raised hlen hok.layers (b := b) (t := t) (t' := t')
    (fun i l l' hl hl' => ⟨(hr i l l' hl hl').1, fun _ => ⟨.inl (hr i l l' hl hl').2,
      .inl (hnn i (Nat.le_of_lt (List.getElem?_eq_some_iff.mp hl).1))⟩⟩)
    (fun i l hl => ⟨g1 i l hl, (r6 i l hl).2⟩) (fun i l hl => ⟨g3 i l hl, (s6 i l hl).2⟩)
    (by rw [r2, s2]; exact hle) _ (Nat.le_refl _)
  rw [hlen] at s3 s4 s5 g4
  have hlast : (t' n.get_layers.length).shape = (t n.get_layers.length).shape := by
    rw [r5, s5]
    change n'.output_shape = n.output_shape
    have q := pair (i := n.get_layers.length - 1) (List.getElem?_eq_getElem (by omega))
    obtain ⟨l', hl'⟩ := q
    have hl : n.get_layers[n.get_layers.length - 1]? = some (n.get_layers[n.get_layers.length - 1]'(by omega)) :=
      List.getElem?_eq_getElem (by omega)
    have e1 : n.output_shape = _ := hok.chain.last _ (by rw [List.getLast?_eq_getElem?]; exact hl)
    have e2 : n'.output_shape = _ := hok'.chain.last _ (by
      rw [List.getLast?_eq_getElem?]
      rw [← hlen] at hl'
      exact hl')
    rw [e1, e2]
    exact (raised_shapes (hr _ _ _ hl hl').1).2
  exact ⟨n1, _, n2, _, r1, r3, s1, s3, hlast, raised_outputs b r4 s4 hlast
    (g2 _ (Nat.le_refl _)) (g4 _ (Nat.le_refl _)) key⟩

/-- the states of a run, as the network reports them -/
theorem run_reports (b : Build) {n : Net F32} (hn : Built b n) (hne : n.get_layers ≠ []) {x : Tensor F32}
    (hx : x.WF) (hxs : x.shape = n.get_input_shape) : ∃ (n' : Net F32) (t : Nat → Tensor F32),
    n.infer b x = .ok (.ok (), n') ∧ t 0 = x ∧ n'.get_output = .ok (t n.get_layers.length) ∧
    (t n.get_layers.length).WF ∧ (t n.get_layers.length).shape = n.get_output_shape ∧
    (∀ i l, n.get_layers[i]? = some l → n'.get_intermediate_state i = .ok (t i) ∧ (t i).WF ∧
      (t i).shape = l.get_input_shape ∧ applies b l (t i) (t (i + 1))) := by
  obtain ⟨n', t, r1, r2, r3, r4, r5, r6⟩ := run_states b hn hne hx hxs
  have hok := built_netOk hn
  obtain ⟨n'', h1, h2, h3⟩ := infer_ok (b := b) hok hne hx hxs
  obtain rfl : n'' = n' := by rw [h1] at r1; injection r1 with r1; exact (Prod.mk.inj r1).2
  refine ⟨n'', t, r1, r2, r3, r4, r5, fun i l hl => ⟨?_, r6 i l hl⟩⟩
  have key : ∀ i, i < n.layers.length → n''.intermediate_states[i]? = some (t i) := by
    intro i
    induction i with
    | zero => intro _; rw [r2]; exact h2
    | succ i ih =>
      intro hi
      have hl : n.layers[i]? = some n.layers[i] := List.getElem?_eq_getElem (by omega)
      obtain ⟨s, s', e1, e2, e3, _⟩ := h3 i _ hl
      have := ih (by omega)
      rw [e1] at this
      cases this
      rw [e2]
      obtain ⟨_, _, a⟩ := r6 i _ hl
      refine congrArg some (tensor_ext e3.1 a.1 (by rw [e3.2.1, a.2.1]) fun i j k hin => ?_)
      rw [(applies_entry e3 hin).2, applies_val a (applies_entry e3 hin).1]
  unfold Network.get_intermediate_state
  rw [key i (List.getElem?_eq_some_iff.mp hl).1]

theorem raised_params {l l' : AnyLayer F32} (h : params l' = params l) (hsm : ∀ p, l ≠ .sm p) :
    Raised l l' ∧ EqualWeights l l' := by
  have self : ∀ t : Tensor F32, Larger t t := fun t => ⟨rfl, fun _ _ _ _ => le_refl _⟩
  have selves : ∀ L : List (Tensor F32), List.Forall₂ Larger L L := fun L =>
    List.forall₂_same.mpr fun t _ => self t
  cases l <;> cases l' <;> simp only [params, AnyLayer.conv.injEq, AnyLayer.fc.injEq,
    AnyLayer.mp.injEq, AnyLayer.sm.injEq, ConvolutionalLayer.mk.injEq,
    FullyConnectedLayer.mk.injEq, MaxPoolLayer.mk.injEq, SoftmaxLayer.mk.injEq, reduceCtorEq] at h
  · obtain ⟨h1, h2, _, _, h3, _, h4, h5, _⟩ := h
    refine ⟨⟨h3, h4, h5, ?_, ?_⟩, h1⟩
    · rw [h1]; exact selves _
    · rw [h2]; exact selves _
  · obtain ⟨h1, _, _, h2, _⟩ := h
    refine ⟨⟨?_, ?_⟩, h1⟩
    · rw [h1]; exact self _
    · rw [h2]; exact self _
  · obtain ⟨h1, h2, h3, h4, _⟩ := h
    exact ⟨⟨h4, h2, h1, h3⟩, trivial⟩
  · exact absurd rfl (hsm _)

theorem nonneg_params {l l' : AnyLayer F32} (h : params l' = params l) (hl : Nonneg l) : Nonneg l' := by
  cases l <;> cases l' <;> simp only [params, AnyLayer.conv.injEq, AnyLayer.fc.injEq,
    AnyLayer.mp.injEq, AnyLayer.sm.injEq, ConvolutionalLayer.mk.injEq,
    FullyConnectedLayer.mk.injEq, MaxPoolLayer.mk.injEq, SoftmaxLayer.mk.injEq, reduceCtorEq] at h
  · change ∀ kernel ∈ _, _
    rw [h.1]
    exact hl
  · change ∀ o i, _ → _ → _
    rw [h.1]
    exact hl
  · trivial
  · exact hl

/-- C110, one layer: two networks differ in the parameters of one layer, none of which is smaller in the second one;
weights of any sign.  If the layers behind it have no negative weights and stay in range (`Accuracy`), and if the
input `s` of this layer has no negative entry or only biases have changed, then the second network never gives a
smaller output, in any entry, whatever the rounding does.  The layers before it can be any layers. -/
theorem C110_layer (b : Build) (n n' : Net F32) (hn : Built b n) (hn' : Built b n')
    (pre pre' post post' : List (AnyLayer F32)) (l l' : AnyLayer F32) (hls : n.get_layers = pre ++ l :: post)
    (hls' : n'.get_layers = pre' ++ l' :: post') (hpre : pre'.map params = pre.map params)
    (hpost : post'.map params = post.map params) (hr : Raised l l') (hnn : ∀ m ∈ post, Nonneg m)
    (x : Tensor F32) (hx : x.WF) (hxs : x.shape = n.get_input_shape) (n1 : Net F32)
    (h1 : n.infer b x = .ok (.ok (), n1)) (s : Tensor F32)
    (hs : n1.get_intermediate_state pre.length = .ok s) (hsg : NoneNegative s ∨ EqualWeights l l')
    (M M1 e1 M2 e2 : ℝ) (hM : 0 ≤ M) (hw : Within s M) (hA : Accuracy (l :: post) M 0 M1 e1)
    (hA' : Accuracy (l' :: post') M 0 M2 e2) :
    ∃ y n2 y', n1.get_output = .ok y ∧ n'.infer b x = .ok (.ok (), n2) ∧ n2.get_output = .ok y' ∧
      y'.shape = y.shape ∧ ∀ i j k, y.shape.Inside i j k → ∃ v v', y.get_item b (ix i j k) = .ok v ∧
        y'.get_item b (ix i j k) = .ok v' ∧ v.isFinite = true ∧ v'.isFinite = true ∧
        v.toReal ≤ v'.toReal ∧ F32.gt v v' = false := by
  have hok := built_netOk hn
  have hok' := built_netOk hn'
  have lpre : pre'.length = pre.length := by have := congrArg List.length hpre; simpa using this
  have lpost : post'.length = post.length := by have := congrArg List.length hpost; simpa using this
  have hne : n.get_layers ≠ [] := by rw [hls]; simp
  have hne' : n'.get_layers ≠ [] := by rw [hls']; simp
  have hlen : n.get_layers.length = pre.length + (post.length + 1) := by rw [hls]; simp
  have hlen' : n'.get_layers.length = pre.length + (post.length + 1) := by rw [hls']; simp [lpre, lpost]
  -- layers before, at and behind the change
  have at1 : ∀ i, n.get_layers[pre.length + i]? = (l :: post)[i]? := fun i => by
    rw [hls, List.getElem?_append_right (by omega)]
    congr 1
    omega
  have at2 : ∀ i, n'.get_layers[pre.length + i]? = (l' :: post')[i]? := fun i => by
    rw [hls', List.getElem?_append_right (by omega)]
    congr 1
    omega
  have samePre : ∀ (i : Nat) m m', i < pre.length → n.get_layers[i]? = some m → n'.get_layers[i]? = some m' →
      params m' = params m := fun i m m' hi hm hm' => by
    rw [hls, List.getElem?_append_left hi] at hm
    rw [hls', List.getElem?_append_left (by omega)] at hm'
    have := congrArg (·[i]?) hpre
    simp only [List.getElem?_map, hm, hm', Option.map_some] at this
    exact Option.some.inj this
  have samePost : ∀ (i : Nat) m m', post[i]? = some m → post'[i]? = some m' → params m' = params m :=
    fun i m m' hm hm' => by
      have := congrArg (·[i]?) hpost
      simp only [List.getElem?_map, hm, hm', Option.map_some] at this
      exact Option.some.inj this
  have notSm : ∀ m ∈ post, ∀ p, m ≠ .sm p := fun m hm p h => by have := hnn m hm; rw [h] at this; exact this
  have notSm' : ∀ m ∈ post', Nonneg m := fun m hm => by
    obtain ⟨i, hi, rfl⟩ := List.mem_iff_getElem.mp hm
    exact nonneg_params (samePost i _ _ (List.getElem?_eq_getElem (by omega)) (List.getElem?_eq_getElem hi))
      (hnn _ (List.getElem_mem (by omega)))
  have lns : (∀ p, l ≠ .sm p) ∧ ∀ p, l' ≠ .sm p := by
    refine ⟨fun p h => ?_, fun p h => ?_⟩
    · rw [h] at hr; cases l' <;> exact hr
    · rw [h] at hr; cases l <;> exact hr
  have raisedTail : ∀ (i : Nat) m m', (l :: post)[i]? = some m → (l' :: post')[i]? = some m' → Raised m m' := by
    intro i m m' hm hm'
    cases i with
    | zero => cases hm; cases hm'; exact hr
    | succ i => exact (raised_params (samePost i m m' hm hm') (notSm m (List.mem_of_getElem? hm))).1
  -- the same input shape
  have hxs' : x.shape = n'.get_input_shape := by
    rw [hxs]
    change n.input_shape = n'.input_shape
    have hl0 : n.get_layers[0]? = some (n.get_layers[0]'(by omega)) := List.getElem?_eq_getElem (by omega)
    have hl0' : n'.get_layers[0]? = some (n'.get_layers[0]'(by omega)) := List.getElem?_eq_getElem (by omega)
    have f1 : n.input_shape = _ := hok.chain.first _ (by rw [List.head?_eq_getElem?]; exact hl0)
    have f2 : n'.input_shape = _ := hok'.chain.first _ (by rw [List.head?_eq_getElem?]; exact hl0')
    rw [f1, f2]
    by_cases hp : 0 < pre.length
    · exact (params_input (samePre 0 _ _ hp hl0 hl0')).symm
    · have hp : pre.length = 0 := by omega
      have a1 := at1 0
      have a2 := at2 0
      rw [hp, Nat.zero_add, hl0] at a1
      rw [hp, Nat.zero_add, hl0'] at a2
      exact (raised_shapes (raisedTail 0 _ _ a1.symm a2.symm)).1.symm
  obtain ⟨m1, t, r1, r2, r3, r4, r5, r6⟩ := run_reports b hn hne hx hxs
  obtain ⟨n2, t', s1, s2, s3, s4, s5, s6⟩ := run_reports b hn' hne' hx hxs'
  obtain rfl : m1 = n1 := by rw [r1] at h1; injection h1 with h1; exact (Prod.mk.inj h1).2
  -- up to the change, both runs are the same
  have same : ∀ i, i ≤ pre.length → t' i = t i := by
    intro i
    induction i with
    | zero => intro _; rw [r2, s2]
    | succ i ih =>
      intro hi
      have hl : n.get_layers[i]? = some (n.get_layers[i]'(by omega)) := List.getElem?_eq_getElem (by omega)
      have hl' : n'.get_layers[i]? = some (n'.get_layers[i]'(by omega)) := List.getElem?_eq_getElem (by omega)
      have hp := samePre i _ _ (by omega) hl hl'
      obtain ⟨_, _, _, a⟩ := r6 i _ hl
      obtain ⟨_, _, _, c⟩ := s6 i _ hl'
      refine tensor_ext c.1 a.1 (by rw [c.2.1, a.2.1, params_output hp]) fun i j k hin => ?_
      obtain ⟨f1, f2⟩ := applies_entry c hin
      rw [f2, applies_val a (by rw [← params_output hp]; exact f1), ih (by omega)]
      exact layerAt_mode hp _ _ _ _
  obtain rfl : s = t pre.length := by
    have := (r6 pre.length l (at1 0)).1
    rw [hs] at this
    exact Except.ok.inj this
  have near : Near (t pre.length) (fun i j k => (val (t pre.length) i j k).toReal) M 0 :=
    fun i j k hin => ⟨(hw i j k hin).1, by simp, (hw i j k hin).2⟩
  have okTail : ∀ m ∈ l :: post, m.Ok := fun m hm => hok.layers m (by
    change m ∈ n.get_layers
    rw [hls]
    exact List.mem_append_right _ hm)
  have okTail' : ∀ m ∈ l' :: post', m.Ok := fun m hm => hok'.layers m (by
    change m ∈ n'.get_layers
    rw [hls']
    exact List.mem_append_right _ hm)
  have q6 : ∀ i m, (l :: post)[i]? = some m → (t (pre.length + i)).WF ∧
      (t (pre.length + i)).shape = m.get_input_shape ∧
      applies b m (t (pre.length + i)) (t (pre.length + (i + 1))) := fun i m hm => (r6 _ m ((at1 i).trans hm)).2
  have q6' : ∀ i m, (l' :: post')[i]? = some m → (t' (pre.length + i)).WF ∧
      (t' (pre.length + i)).shape = m.get_input_shape ∧
      applies b m (t' (pre.length + i)) (t' (pre.length + (i + 1))) := fun i m hm => (s6 _ m ((at2 i).trans hm)).2
  obtain ⟨g1, g2⟩ := accuracy_tame b hA okTail (fun m hm => by
      rcases List.mem_cons.mp hm with rfl | hm
      · exact lns.1
      · exact notSm m hm) (fun i => t (pre.length + i)) hM (le_refl _) _ near q6
  obtain ⟨g3, g4⟩ := accuracy_tame b hA' okTail' (fun m hm => by
      rcases List.mem_cons.mp hm with rfl | hm
      · exact lns.2
      · exact fun p h => by have := notSm' m hm; rw [h] at this; exact this)
    (fun i => t' (pre.length + i)) hM (le_refl _) (fun i j k => (val (t pre.length) i j k).toReal)
    (by simp only [Nat.add_zero]; rw [same _ (Nat.le_refl _)]; exact near) q6'
  have key := runs_raised (b := b) (ls := l :: post) (ls' := l' :: post')
    (by rw [List.length_cons, List.length_cons, lpost]) okTail (t := fun i => t (pre.length + i))
    (t' := fun i => t' (pre.length + i))
    (fun i m m' hm hm' => ⟨raisedTail i m m' hm hm', fun _ => by
      cases i with
      | zero =>
        cases hm
        cases hm'
        exact ⟨.inr fun i j k _ => by simp only [Nat.add_zero]; rw [same _ (Nat.le_refl _)], hsg⟩
      | succ i =>
        exact ⟨.inl (notSm' m' (List.mem_of_getElem? hm')),
          .inr (raised_params (samePost i m m' hm hm') (notSm m (List.mem_of_getElem? hm))).2⟩⟩)
    (fun i m hm => ⟨g1 i m hm, (q6 i m hm).2⟩) (fun i m hm => ⟨g3 i m hm, (q6' i m hm).2⟩)
    (by
      simp only [Nat.add_zero]
      rw [same _ (Nat.le_refl _)]
      exact fun _ _ _ _ => le_refl _) _ (Nat.le_refl _)
  have g2 := g2 _ (Nat.le_refl _)
  have g4 := g4 _ (Nat.le_refl _)
  simp only [List.length_cons, lpost] at key g2 g4
  rw [hlen] at r3 r4
  rw [hlen'] at s3 s4
  have hlast : (t' (pre.length + (post.length + 1))).shape = (t (pre.length + (post.length + 1))).shape := by
    have hm : (l :: post)[post.length]? = some ((l :: post)[post.length]'(by simp)) :=
      List.getElem?_eq_getElem (by simp)
    have hm' : (l' :: post')[post.length]? = some ((l' :: post')[post.length]'(by simp [lpost])) :=
      List.getElem?_eq_getElem (by simp [lpost])
    rw [(q6 _ _ hm).2.2.2.1, (q6' _ _ hm').2.2.2.1]
    exact (raised_shapes (raisedTail _ _ _ hm hm')).2
  exact ⟨_, n2, _, r3, s1, s3, hlast, raised_outputs b r4 s4 hlast g2 g4 key⟩

/-- small parameters of two 1 -> 1 layers stay in range -/
theorem exFc2_accuracy {w c w' c' : F32} (h1 : w.isFinite = true) (h2 : c.isFinite = true)
    (h3 : w'.isFinite = true) (h4 : c'.isFinite = true) (g1 : |w.toReal| ≤ 2) (g2 : |c.toReal| ≤ 2)
    (g3 : |w'.toReal| ≤ 2) (g4 : |c'.toReal| ≤ 2) :
    ∃ M' e', Accuracy [.fc (exFc w c), .fc (exFc w' c')] 2 0 M' e' := by
  have W : ∀ (w c : F32), w.isFinite = true → c.isFinite = true → |w.toReal| ≤ 2 → |c.toReal| ≤ 2 →
      (∀ o i, o < (exFc w c).weights.shape.di.toNat → i < (exFc w c).weights.shape.dj.toNat →
        (val (exFc w c).weights o i 0).isFinite = true) ∧
      ∀ o, o < (exFc w c).weights.shape.di.toNat → (val (exFc w c).bias o 0 0).isFinite = true ∧
        ((List.range (exFc w c).weights.shape.dj.toNat).map fun i =>
          |(val (exFc w c).weights o i 0).toReal|).sum ≤ (2 : ℝ) ∧
        |(val (exFc w c).bias o 0 0).toReal| ≤ 2 := by
    intro w c hw hc gw gc
    have d1 : (exFc w c).weights.shape.dj.toNat = 1 := rfl
    have d2 : (exFc w c).weights.shape.di.toNat = 1 := rfl
    have v (c : F32) : val (single c) 0 0 0 = c := rfl
    rw [d1, d2]
    refine ⟨fun o i ho hi => ?_, fun o ho => ?_⟩
    · obtain rfl : o = 0 := by omega
      obtain rfl : i = 0 := by omega
      exact hw
    · obtain rfl : o = 0 := by omega
      refine ⟨hc, ?_⟩
      change ((List.range 1).map fun i => |(val (single w) 0 i 0).toReal|).sum ≤ (2 : ℝ) ∧
        |(val (single c) 0 0 0).toReal| ≤ 2
      simp only [List.range_succ, List.range_zero, List.nil_append, List.map_cons, List.map_nil,
        List.sum_cons, List.sum_nil, v, add_zero]
      exact ⟨gw, gc⟩
  obtain ⟨w1, w2⟩ := W w c h1 h2 g1 g2
  obtain ⟨w3, w4⟩ := W w' c' h3 h4 g3 g4
  refine ⟨_, _, .fc _ _ 2 2 _ _ _ _ w1 w2 (by norm_num) (by norm_num) ?_ ?_
    (.fc _ _ 2 2 _ _ _ _ w3 w4 (by norm_num) (by norm_num) ?_ ?_ (.nil _ _))⟩
  · change (1 : Nat) < _
    norm_num
  · norm_num
  · change (1 : Nat) < _
    norm_num
  · change (2 : ℝ) * ((2 * 2 + 2) + (2 * 0 + ((((1 : Nat) : ℝ) + 2) / 2 ^ 23 *
      (2 * (2 + 0) + 2) + (((1 : Nat) : ℝ) + 1) / 2 ^ 149))) + 2 ≤ 2 ^ 125
    norm_num

theorem single_larger {u v : F32} (h : u.toReal ≤ v.toReal) : Larger (single u) (single v) :=
  ⟨rfl, fun i j k hin => by
    obtain ⟨rfl, rfl, rfl⟩ := single_inside hin
    exact h⟩

theorem exFc_nonneg {w : F32} (c : F32) (h : 0 ≤ w.toReal) : Nonneg (.fc (exFc w c)) := by
  intro o i ho hi
  have ho : o < 1 := ho
  have hi : i < 1 := hi
  obtain rfl : o = 0 := by omega
  obtain rfl : i = 0 := by omega
  exact h

/-- The assumptions of C110 can be met: `max(0, 1 * max(0, 1 * x + 0) + 1)` becomes
`max(0, 2 * max(0, 2 * x + 1) + 1)`, and the input 1 becomes 2. -/
example (b : Build) : ∃ (n n' : Net F32) (M1 e1 M2 e2 : ℝ), Built b n ∧ Built b n' ∧
    n.get_layers = [.fc (exFc ⟨0x3f800000⟩ ⟨0⟩), .fc (exFc ⟨0x3f800000⟩ ⟨0x3f800000⟩)] ∧
    n'.get_layers = [.fc (exFc ⟨0x40000000⟩ ⟨0x3f800000⟩), .fc (exFc ⟨0x40000000⟩ ⟨0x3f800000⟩)] ∧
    (∀ (i : Nat) l l', n.get_layers[i]? = some l → n'.get_layers[i]? = some l' → Raised l l' ∧ Nonneg l') ∧
    Accuracy n.get_layers 2 0 M1 e1 ∧ Accuracy n'.get_layers 2 0 M2 e2 ∧
    (single ⟨0x3f800000⟩).shape = n.get_input_shape ∧ NoneNegative (single ⟨0x3f800000⟩) ∧
    Within (single ⟨0x3f800000⟩) 2 ∧ Within (single ⟨0x40000000⟩) 2 ∧
    Below (single ⟨0x3f800000⟩) (single ⟨0x40000000⟩) := by
  obtain ⟨n, h1, h2, h3⟩ := exFc2_built b ⟨0x3f800000⟩ ⟨0⟩ ⟨0x3f800000⟩ ⟨0x3f800000⟩
  obtain ⟨n', k1, k2, _⟩ := exFc2_built b ⟨0x40000000⟩ ⟨0x3f800000⟩ ⟨0x40000000⟩ ⟨0x3f800000⟩
  have one := one_grid.2
  obtain ⟨M1, e1, hA⟩ := exFc2_accuracy (w := ⟨0x3f800000⟩) (c := ⟨0⟩) (w' := ⟨0x3f800000⟩) (c' := ⟨0x3f800000⟩)
    (by decide) (by decide) (by decide) (by decide) (by rw [one]; norm_num) (by rw [zero_real]; norm_num)
    (by rw [one]; norm_num) (by rw [one]; norm_num)
  obtain ⟨M2, e2, hA'⟩ := exFc2_accuracy (w := ⟨0x40000000⟩) (c := ⟨0x3f800000⟩) (w' := ⟨0x40000000⟩)
    (c' := ⟨0x3f800000⟩) (by decide) (by decide) (by decide) (by decide) (by rw [two_real]; norm_num)
    (by rw [one]; norm_num) (by rw [two_real]; norm_num) (by rw [one]; norm_num)
  have v (c : F32) : val (single c) 0 0 0 = c := rfl
  refine ⟨n, n', M1, e1, M2, e2, h1, k1, h2, k2, ?_, by rw [h2]; exact hA, by rw [k2]; exact hA', h3.symm,
    ?_, ?_, ?_, ?_⟩
  · rw [h2, k2]
    intro i l l' hl hl'
    rcases i with _ | _ | i
    · cases hl
      cases hl'
      exact ⟨⟨single_larger (by rw [one, two_real]; norm_num), single_larger (by rw [one, zero_real]; norm_num)⟩,
        exFc_nonneg _ (by rw [two_real]; norm_num)⟩
    · cases hl
      cases hl'
      exact ⟨⟨single_larger (by rw [one, two_real]; norm_num), single_larger (le_refl _)⟩,
        exFc_nonneg _ (by rw [two_real]; norm_num)⟩
    · cases hl
  · intro i j k hin
    obtain ⟨rfl, rfl, rfl⟩ := single_inside hin
    rw [v, one]
    norm_num
  · intro i j k hin
    obtain ⟨rfl, rfl, rfl⟩ := single_inside hin
    rw [v, one]
    exact ⟨by decide, by norm_num⟩
  · intro i j k hin
    obtain ⟨rfl, rfl, rfl⟩ := single_inside hin
    rw [v, two_real]
    exact ⟨by decide, by norm_num⟩
  · exact (single_larger (by rw [one, two_real]; norm_num)).2

/-- The assumptions of `C110_layer` can be met, also with a negative weight and a negative input:
`max(0, 1 * max(0, -1 * x + c) + 1)` for `x = -1`, where `c` becomes 1. -/
example (b : Build) : ∃ (n n' n1 : Net F32) (l l' m : AnyLayer F32) (s : Tensor F32) (M1 e1 M2 e2 : ℝ),
    Built b n ∧ Built b n' ∧ n.get_layers = [] ++ l :: [m] ∧ n'.get_layers = [] ++ l' :: [m] ∧ Raised l l' ∧
    l ≠ l' ∧ (∀ a ∈ [m], Nonneg a) ∧ (single ⟨0xbf800000⟩).shape = n.get_input_shape ∧
    n.infer b (single ⟨0xbf800000⟩) = .ok (.ok (), n1) ∧ n1.get_intermediate_state 0 = .ok s ∧
    EqualWeights l l' ∧ Within s 2 ∧ Accuracy (l :: [m]) 2 0 M1 e1 ∧ Accuracy (l' :: [m]) 2 0 M2 e2 := by
  obtain ⟨n, h1, h2, h3⟩ := exFc2_built b ⟨0xbf800000⟩ ⟨0⟩ ⟨0x3f800000⟩ ⟨0x3f800000⟩
  obtain ⟨n', k1, k2, _⟩ := exFc2_built b ⟨0xbf800000⟩ ⟨0x3f800000⟩ ⟨0x3f800000⟩ ⟨0x3f800000⟩
  have one := one_grid.2
  have neg : (⟨0xbf800000⟩ : F32).toReal = -1 := by
    unfold toReal
    rw [show (⟨0xbf800000⟩ : F32).toInt = -2 ^ 149 by decide]
    norm_num
  obtain ⟨M1, e1, hA⟩ := exFc2_accuracy (w := ⟨0xbf800000⟩) (c := ⟨0⟩) (w' := ⟨0x3f800000⟩) (c' := ⟨0x3f800000⟩)
    (by decide) (by decide) (by decide) (by decide) (by rw [neg]; norm_num) (by rw [zero_real]; norm_num)
    (by rw [one]; norm_num) (by rw [one]; norm_num)
  obtain ⟨M2, e2, hA'⟩ := exFc2_accuracy (w := ⟨0xbf800000⟩) (c := ⟨0x3f800000⟩) (w' := ⟨0x3f800000⟩)
    (c' := ⟨0x3f800000⟩) (by decide) (by decide) (by decide) (by decide) (by rw [neg]; norm_num)
    (by rw [one]; norm_num) (by rw [one]; norm_num) (by rw [one]; norm_num)
  obtain ⟨n1, t, r1, r2, _, _, _, r6⟩ := run_reports b h1 (by rw [h2]; exact List.cons_ne_nil _ _)
    (single_wf ⟨0xbf800000⟩) h3.symm
  refine ⟨n, n', n1, _, _, _, t 0, M1, e1, M2, e2, h1, k1, h2, k2,
    ⟨single_larger (le_refl _), single_larger (by rw [one, zero_real]; norm_num)⟩, ?_, ?_, h3.symm, r1,
    (r6 0 _ (by rw [h2]; rfl)).1, rfl, ?_, hA, hA'⟩
  · intro h
    injection h with h
    have h := congrArg (fun l : FullyConnectedLayer F32 => (val l.bias 0 0 0).toReal) h
    change (⟨0⟩ : F32).toReal = (⟨0x3f800000⟩ : F32).toReal at h
    rw [one, zero_real] at h
    norm_num at h
  · intro a ha
    obtain rfl := List.mem_singleton.mp ha
    exact exFc_nonneg _ (by rw [one]; norm_num)
  · rw [r2]
    intro i j k hin
    obtain ⟨rfl, rfl, rfl⟩ := single_inside hin
    change (⟨0xbf800000⟩ : F32).isFinite = true ∧ |(⟨0xbf800000⟩ : F32).toReal| ≤ 2
    rw [neg]
    exact ⟨by decide, by norm_num⟩

/-- C110: raising a weight can lower the prediction if the input is negative.  `max(0, w * x + 1)` for `x = -1` is
1 with `w = 0` and 0 with `w = 1`. -/
theorem C110_negative_input (b : Build) : ∃ n n' : Net F32, Built b n ∧ Built b n' ∧
    n.get_layers = [.fc (exFc ⟨0⟩ ⟨0x3f800000⟩), .fc (exFc ⟨0x3f800000⟩ ⟨0⟩)] ∧
    n'.get_layers = [.fc (exFc ⟨0x3f800000⟩ ⟨0x3f800000⟩), .fc (exFc ⟨0x3f800000⟩ ⟨0⟩)] ∧
    Raised (.fc (exFc ⟨0⟩ ⟨0x3f800000⟩)) (.fc (exFc ⟨0x3f800000⟩ ⟨0x3f800000⟩)) ∧
    ∃ n1 y n2 y' v v', n.infer b (single ⟨0xbf800000⟩) = .ok (.ok (), n1) ∧ n1.get_output = .ok y ∧
      n'.infer b (single ⟨0xbf800000⟩) = .ok (.ok (), n2) ∧ n2.get_output = .ok y' ∧
      y.get_item b (ix 0 0 0) = .ok v ∧ y'.get_item b (ix 0 0 0) = .ok v' ∧ v.toReal = 1 ∧ v'.toReal = 0 := by
  obtain ⟨n, h1, h2, h3⟩ := exFc2_built b ⟨0⟩ ⟨0x3f800000⟩ ⟨0x3f800000⟩ ⟨0⟩
  obtain ⟨n', k1, k2, k3⟩ := exFc2_built b ⟨0x3f800000⟩ ⟨0x3f800000⟩ ⟨0x3f800000⟩ ⟨0⟩
  have relu : ∀ x : F32, Spec.relu x = if F32.gt x (mk' false 0) then x else mk' false 0 := fun _ => rfl
  obtain ⟨n1, y, r1, r2, r3⟩ := exFc2_run b ⟨0⟩ ⟨0x3f800000⟩ ⟨0x3f800000⟩ ⟨0⟩ ⟨0xbf800000⟩ ⟨0x3f800000⟩
    ⟨0x3f800000⟩ (by rw [relu]; decide +kernel) (by rw [relu]; decide +kernel) n h1 h2 h3
  obtain ⟨n2, y', s1, s2, s3⟩ := exFc2_run b ⟨0x3f800000⟩ ⟨0x3f800000⟩ ⟨0x3f800000⟩ ⟨0⟩ ⟨0xbf800000⟩ ⟨0⟩
    ⟨0⟩ (by rw [relu]; decide +kernel) (by rw [relu]; decide +kernel) n' k1 k2 k3
  refine ⟨n, n', h1, k1, h2, k2, ⟨single_larger ?_, single_larger (le_refl _)⟩, n1, y, n2, y', _, _, r1, r2, s1, s2,
    r3, s3, one_grid.2, zero_real⟩
  rw [one_grid.2, zero_real]
  norm_num

/-- C110: raising a bias can lower the prediction if a weight behind it is negative.  With `x = 1`,
`max(0, -1 * max(0, 1 * x + c) + 2)` is 1 with `c = 0` and 0 with `c = 1`. -/
theorem C110_negative_weight (b : Build) : ∃ n n' : Net F32, Built b n ∧ Built b n' ∧
    n.get_layers = [.fc (exFc ⟨0x3f800000⟩ ⟨0⟩), .fc (exFc ⟨0xbf800000⟩ ⟨0x40000000⟩)] ∧
    n'.get_layers = [.fc (exFc ⟨0x3f800000⟩ ⟨0x3f800000⟩), .fc (exFc ⟨0xbf800000⟩ ⟨0x40000000⟩)] ∧
    Raised (.fc (exFc ⟨0x3f800000⟩ ⟨0⟩)) (.fc (exFc ⟨0x3f800000⟩ ⟨0x3f800000⟩)) ∧
    ∃ n1 y n2 y' v v', n.infer b (single ⟨0x3f800000⟩) = .ok (.ok (), n1) ∧ n1.get_output = .ok y ∧
      n'.infer b (single ⟨0x3f800000⟩) = .ok (.ok (), n2) ∧ n2.get_output = .ok y' ∧
      y.get_item b (ix 0 0 0) = .ok v ∧ y'.get_item b (ix 0 0 0) = .ok v' ∧ v.toReal = 1 ∧ v'.toReal = 0 := by
  obtain ⟨n, h1, h2, h3⟩ := exFc2_built b ⟨0x3f800000⟩ ⟨0⟩ ⟨0xbf800000⟩ ⟨0x40000000⟩
  obtain ⟨n', k1, k2, k3⟩ := exFc2_built b ⟨0x3f800000⟩ ⟨0x3f800000⟩ ⟨0xbf800000⟩ ⟨0x40000000⟩
  have relu : ∀ x : F32, Spec.relu x = if F32.gt x (mk' false 0) then x else mk' false 0 := fun _ => rfl
  obtain ⟨n1, y, r1, r2, r3⟩ := exFc2_run b ⟨0x3f800000⟩ ⟨0⟩ ⟨0xbf800000⟩ ⟨0x40000000⟩ ⟨0x3f800000⟩ ⟨0x3f800000⟩
    ⟨0x3f800000⟩ (by rw [relu]; decide +kernel) (by rw [relu]; decide +kernel) n h1 h2 h3
  obtain ⟨n2, y', s1, s2, s3⟩ := exFc2_run b ⟨0x3f800000⟩ ⟨0x3f800000⟩ ⟨0xbf800000⟩ ⟨0x40000000⟩ ⟨0x3f800000⟩
    ⟨0x40000000⟩ ⟨0⟩ (by rw [relu]; decide +kernel) (by rw [relu]; decide +kernel) n' k1 k2 k3
  refine ⟨n, n', h1, k1, h2, k2, ⟨single_larger (le_refl _), single_larger ?_⟩, n1, y, n2, y', _, _, r1, r2, s1, s2,
    r3, s3, one_grid.2, zero_real⟩
  rw [one_grid.2, zero_real]
  norm_num

end Rusty
