import Verif.Spec.Memory
import Verif.Lemmas.Backward

/-! # Helper lemmas: how many numbers a network stores -/

namespace Rusty

open F32Ops Spec

variable {F : Type} [F32Ops F] {b : Build}

/-! ## Lists of tensors -/

omit [F32Ops F] in
theorem cells_layout {ts us : List (Tensor F)} (h : sameLayouts ts us) : cells ts = cells us := by
  unfold cells
  induction h with
  | nil => rfl
  | cons h _ ih => simp only [List.map_cons, List.sum_cons, ih, h.2.2]

omit [F32Ops F] in
theorem cells_wf {ts : List (Tensor F)} (h : ∀ t ∈ ts, t.WF) :
    cells ts = ((ts.map (·.shape)).map TensorShape.count).sum := by
  unfold cells
  induction ts with
  | nil => rfl
  | cons t ts ih =>
    simp only [List.map_cons, List.sum_cons, ih fun t ht => h t (List.mem_cons_of_mem _ ht),
      (h t (List.mem_cons_self ..)).len]

theorem sameLayouts_wf {ts us : List (Tensor F)} (h : sameLayouts ts us) (hu : ∀ u ∈ us, u.WF) : ∀ t ∈ ts, t.WF := by
  intro t ht
  obtain ⟨u, h1, h2⟩ := forall₂_mem h ht
  exact (sameLayout_wf h2 (hu u h1)).1

/-! ## Layers -/

theorem like_cells {l l' : AnyLayer F} (h : Like l' l) : layerCells l' = layerCells l := by
  have hp := like_params h
  cases l <;> cases l' <;> first | exact h.elim | skip
  · rename_i l l'
    have hp : l'.kernels = l.kernels ∧ l'.biases = l.biases := by
      simp only [params, AnyLayer.conv.injEq, ConvolutionalLayer.mk.injEq] at hp
      exact ⟨hp.1, hp.2.1⟩
    simp only [layerCells, hp.1, hp.2, cells_layout h.1, cells_layout h.2.1]
    simp only [cells, List.map_cons, List.map_nil, h.2.2.1.2.2]
  · rename_i l l'
    have hp : l'.weights = l.weights ∧ l'.bias = l.bias := by
      simp only [params, AnyLayer.fc.injEq, FullyConnectedLayer.mk.injEq, true_and] at hp
      exact ⟨hp.1, hp.2.1⟩
    simp only [layerCells, cells, List.map_cons, List.map_nil, hp.1, hp.2, h.1.2.2, h.2.1.2.2, h.2.2.1.2.2,
      h.2.2.2.1.2.2]
  · exact h.1
  · simp only [layerCells, cells, List.map_cons, List.map_nil, h.1.2.2, h.2.1.2.2]

omit [F32Ops F] in
theorem params_cells {l l' : AnyLayer F} (h : params l' = params l) :
    paramCells l' = paramCells l ∧ ∀ m, bufferCells m l' = bufferCells m l := by
  have e1 : ∀ l : AnyLayer F, paramCells (params l) = paramCells l := fun l => by cases l <;> rfl
  have e2 : ∀ m (l : AnyLayer F), bufferCells m (params l) = bufferCells m l := fun m l => by
    cases l <;> cases m <;> rfl
  exact ⟨by rw [← e1 l', h, e1], fun m => by rw [← e2 m l', h, e2]⟩

omit [F32Ops F] in
theorem conv_param_cells {l : ConvolutionalLayer F} (hl : l.Ok) :
    cells l.kernels = (l.kernels.map fun k => k.shape.count).sum ∧ cells l.biases = l.kernels.length := by
  constructor
  · rw [cells_wf fun k hk => (hl.kernels k hk).1, List.map_map]
    rfl
  · have : ∀ ts : List (Tensor F), (∀ t ∈ ts, t.WF ∧ t.shape = ⟨1, 1, 1⟩) → cells ts = ts.length := by
      intro ts
      induction ts with
      | nil => exact fun _ => rfl
      | cons t ts ih =>
        intro h
        have h1 := h t (List.mem_cons_self ..)
        have : cells (t :: ts) = t.data.length + cells ts := rfl
        rw [this, ih fun t ht => h t (List.mem_cons_of_mem _ ht), h1.1.len, h1.2, List.length_cons]
        exact Nat.add_comm 1 _
    rw [this _ hl.biases, hl.biasCount]

omit [F32Ops F] in
theorem training_cells {l : AnyLayer F} (hl : l.Ok) (hm : l.get_run_mode = .Training) :
    layerCells l = paramCells l + bufferCells .Training l := by
  cases l with
  | conv l =>
    have hl : l.Ok := hl
    obtain ⟨⟨k1, k2⟩, ⟨b1, b2⟩, r1, r2⟩ := hl.buffers hm
    obtain ⟨p1, p2⟩ := conv_param_cells hl
    have e1 : cells l.kernel_gradients = (l.kernels.map fun k => k.shape.count).sum := by
      rw [cells_wf]
      · have : l.kernel_gradients.map (·.shape) = l.kernels.map (·.shape) := by
          apply List.ext_getElem
          · rw [List.length_map, List.length_map, k1]
          · intro i h1 h2
            rw [List.getElem_map, List.getElem_map]
            exact (k2 i (by rwa [List.length_map] at h1) (by rwa [List.length_map] at h2)).2
        rw [this, List.map_map]
        rfl
      · intro t ht
        obtain ⟨i, hi, rfl⟩ := List.mem_iff_getElem.mp ht
        exact (k2 i hi (k1 ▸ hi)).1
    have e2 : cells l.bias_gradients = l.kernels.length := by
      rw [← b1, cells_wf fun g hg => (b2 g hg).1]
      have : ∀ gs : List (Tensor F), (∀ g ∈ gs, g.shape = ⟨1, 1, 1⟩) →
          ((gs.map (·.shape)).map TensorShape.count).sum = gs.length := by
        intro gs
        induction gs with
        | nil => exact fun _ => rfl
        | cons g gs ih =>
          intro h
          rw [List.map_cons, List.map_cons, List.sum_cons, ih fun t ht => h t (List.mem_cons_of_mem _ ht),
            h g (List.mem_cons_self ..), List.length_cons]
          exact Nat.add_comm 1 _
      exact this _ fun g hg => (b2 g hg).2
    have e3 : cells [l.relu_mask] = l.output_shape.count := by
      rw [cells_wf fun t ht => by rw [List.mem_singleton.mp ht]; exact r1]
      simp [r2]
    simp only [layerCells, paramCells, bufferCells, p1, p2, e1, e2, e3]
    omega
  | fc l =>
    have hl : l.Ok := hl
    obtain ⟨⟨a1, a2⟩, ⟨b1, b2⟩, ⟨c1, c2⟩, d1, d2⟩ := hl.buffers hm
    simp only [layerCells, paramCells, bufferCells, cells, List.map_cons, List.map_nil, List.sum_cons, List.sum_nil,
      hl.weights.len, hl.bias.len, a1.len, a2, b1.len, b2, c1.len, c2, d1.len, d2]
    omega
  | mp l =>
    have hl : l.Ok := hl
    simp only [layerCells, paramCells, bufferCells, hl.buffers hm, Nat.zero_add]
  | sm l =>
    have hl : l.Ok := hl
    obtain ⟨⟨a1, a2⟩, b1, b2⟩ := hl.buffers hm
    simp only [layerCells, paramCells, bufferCells, cells, List.map_cons, List.map_nil, List.sum_cons, List.sum_nil,
      a1.len, a2, b1.len, b2]
    have : (⟨1, 1, 1⟩ : TensorShape).count = 1 := rfl
    omega

theorem inference_cells {l l' : AnyLayer F} (hl : l.Ok) (h : l.switch_to_inference b = .ok l') :
    layerCells l' = paramCells l' + bufferCells .Inference l' := by
  have z : (zeros ⟨1, 1, 1⟩ : Tensor F).data.length = 1 := rfl
  cases l with
  | conv l =>
    obtain ⟨p1, p2⟩ := conv_param_cells (show l.Ok from hl)
    simp only [AnyLayer.switch_to_inference, ConvolutionalLayer.switch_to_inference,
      ConvolutionalLayer.update_tensors, empty_ok, ok_bind] at h
    cases h
    simp only [layerCells, paramCells, bufferCells, p1, p2]
    rfl
  | fc l =>
    have hl : l.Ok := hl
    simp only [AnyLayer.switch_to_inference, FullyConnectedLayer.switch_to_inference,
      FullyConnectedLayer.update_tensors, empty_ok, ok_bind] at h
    cases h
    simp only [layerCells, paramCells, bufferCells, cells, List.map_cons, List.map_nil, List.sum_cons, List.sum_nil,
      hl.weights.len, hl.bias.len, z]
    omega
  | mp l => cases h; rfl
  | sm l =>
    simp only [AnyLayer.switch_to_inference, SoftmaxLayer.switch_to_inference,
      SoftmaxLayer.update_tensors, empty_ok, ok_bind] at h
    cases h
    rfl

theorem switchTo_cells {m : NetworkRunState} {l l' : AnyLayer F} (hl : l.Ok) (h : switchTo b m l = .ok l') :
    layerCells l' = paramCells l' + bufferCells l'.get_run_mode l' := by
  obtain ⟨h1, _, _, h4⟩ := switchTo_effect _ _ _ h
  cases m with
  | Inference => rw [h1]; exact inference_cells hl h
  | Training => rw [h1]; exact training_cells (h4 hl) h1

/-! ## Networks -/

/-- the invariant of all histories -/
structure Sized (n : Net F) : Prop where
  ok : NetOk n
  states : ∀ s ∈ n.intermediate_states, s.WF
  layers : ∀ l ∈ n.layers, layerCells l = paramCells l + bufferCells l.get_run_mode l
  grads : ∀ g ∈ n.intermediate_gradients, g.WF
  empty : n.run_state = .Inference → n.intermediate_gradients = []
  suffix : n.intermediate_gradients.map (·.shape) <:+ n.intermediate_states.map (·.shape)

theorem likes_sized {ls ls' : List (AnyLayer F)} (h : List.Forall₂ Like ls' ls)
    (hl : ∀ l ∈ ls, layerCells l = paramCells l + bufferCells l.get_run_mode l) :
    ∀ l ∈ ls', layerCells l = paramCells l + bufferCells l.get_run_mode l := by
  intro l' hl'
  obtain ⟨l, h1, h2⟩ := forall₂_mem h hl'
  obtain ⟨p1, p2⟩ := params_cells (like_params h2)
  rw [like_cells h2, hl l h1, p1, p2, like_mode h2]

theorem likes_cells {ls ls' : List (AnyLayer F)} (h : List.Forall₂ Like ls' ls) :
    (ls'.map layerCells).sum = (ls.map layerCells).sum := by
  induction h with
  | nil => rfl
  | cons h _ ih => rw [List.map_cons, List.map_cons, List.sum_cons, List.sum_cons, ih, like_cells h]

omit [F32Ops F] in
theorem wf_layout {t u : Tensor F} (ht : t.WF) (hu : u.WF) (h : t.shape = u.shape) : sameLayout t u := by
  refine ⟨h, ?_, by rw [ht.len, hu.len, h]⟩
  have e1 := ht.si; have e2 := ht.sj; have e3 := ht.sk
  have f1 := hu.si; have f2 := hu.sj; have f3 := hu.sk
  rw [← h] at f2 f3
  have ext : ∀ p q : TensorStride, p.i = q.i → p.j = q.j → p.k = q.k → p = q := by
    rintro ⟨_, _, _⟩ ⟨_, _, _⟩ rfl rfl rfl; rfl
  exact ext _ _ (e1.trans f1.symm) (e2.trans f2.symm) (u32_ext (e3.trans f3.symm))

/-- replacing a tensor by a well formed one of the same shape -/
theorem set_layout {ts : List (Tensor F)} (hw : ∀ t ∈ ts, t.WF) (i : Nat) {x : Tensor F} (hx : x.WF)
    (hs : ∀ t, ts[i]? = some t → t.shape = x.shape) : sameLayouts (ts.set i x) ts := by
  induction ts generalizing i with
  | nil => exact .nil
  | cons t ts ih =>
    cases i with
    | zero =>
      exact .cons (wf_layout hx (hw t (List.mem_cons_self ..)) (hs t rfl).symm) (sameLayouts_refl _)
    | succ i =>
      exact .cons (sameLayout_refl t) (ih (fun t ht => hw t (List.mem_cons_of_mem _ ht)) i hs)

/-- replacing the first state by a well formed input of the right shape -/
theorem set_first {n : Net F} (hn : Sized n) {x : Tensor F} (hx : x.WF) (hs : n.input_shape = x.shape) :
    sameLayouts (n.intermediate_states.set 0 x) n.intermediate_states := by
  refine set_layout hn.states 0 hx fun s h0 => ?_
  cases el : n.layers with
  | nil =>
    have := chain_length hn.ok.chain
    rw [if_pos el] at this
    rw [List.length_eq_zero_iff.mp this] at h0
    cases h0
  | cons l ls =>
    have h1 := congrArg (fun q => q[0]?) hn.ok.chain.states
    rw [el] at h1
    simp only [List.getElem?_map, h0, Option.map_some] at h1
    have h2 := hn.ok.chain.first l (by rw [el]; rfl)
    rw [← hs]
    exact (Option.some.inj h1).trans h2.symm

/-- replacing the last gradient by a well formed gradient of the output's shape -/
theorem set_last {n : Net F} (hn : Sized n) {g : Tensor F} (hg : g.WF) (hs : n.output_shape = g.shape) :
    sameLayouts (n.intermediate_gradients.set n.layers.length g) n.intermediate_gradients := by
  refine set_layout hn.grads _ hg fun t h0 => ?_
  obtain ⟨p, hp⟩ := hn.suffix
  have hlt : n.layers.length < n.intermediate_gradients.length := (List.getElem?_eq_some_iff.mp h0).1
  have hlen := chain_length hn.ok.chain
  have hl : p.length + n.intermediate_gradients.length = n.intermediate_states.length := by
    have := congrArg List.length hp
    simpa only [List.length_append, List.length_map] using this
  have hne : n.layers ≠ [] := by
    intro h
    rw [if_pos h] at hlen
    omega
  rw [if_neg hne] at hlen
  have hp0 : p = [] := List.length_eq_zero_iff.mp (by omega)
  rw [hp0, List.nil_append] at hp
  have h1 := congrArg (fun q => q[n.layers.length]?) (hp.trans hn.ok.chain.states)
  simp only [List.getElem?_map, h0, Option.map_some] at h1
  have hpos : n.layers.length ≠ 0 := fun e => hne (List.length_eq_zero_iff.mp e)
  cases el : n.layers.getLast? with
  | none => exact absurd (List.getLast?_eq_none_iff.mp el) hne
  | some l =>
    have h2 := hn.ok.chain.last l el
    have h3 : (stateShapes n.layers)[n.layers.length]? = some l.get_output_shape := by
      rw [List.getLast?_eq_getElem?] at el
      cases e : n.layers with
      | nil => exact absurd e hne
      | cons a as =>
        rw [e] at el
        unfold stateShapes
        rw [List.length_cons, List.getElem?_cons_succ, List.getElem?_map]
        rw [List.length_cons, Nat.add_sub_cancel] at el
        rw [el]
        rfl
    rw [h3] at h1
    rw [← hs]
    exact (Option.some.inj h1).trans h2.symm

theorem infer_sized {n n' : Net F} {x : Tensor F} {r : Res} (hn : Sized n) (hx : x.WF)
    (h : n.infer b x = .ok (r, n')) : Sized n' ∧ netCells n' = netCells n := by
  obtain ⟨h1, h2, h3, _, _, h6⟩ := infer_effect n x _ h
  simp only at h1 h2 h3 h6
  have hs : sameLayouts n'.intermediate_states n.intermediate_states := by
    rcases h2 with ⟨a, c⟩ | a
    · exact sameLayouts_trans c (set_first hn hx a)
    · rw [a]; exact sameLayouts_refl _
  refine ⟨⟨uses_netOk hn.ok (.infer _ _ _ _ h), sameLayouts_wf hs hn.states, likes_sized h1 hn.layers,
    by rw [h3]; exact hn.grads, by rw [h6, h3]; exact hn.empty, by
      rw [h3, sameLayouts_shapes hs]; exact hn.suffix⟩, ?_⟩
  unfold netCells Network.get_layers
  rw [likes_cells h1, cells_layout hs, h3]

theorem backward_sized {n n' : Net F} {g : Tensor F} {r : Res} (hn : Sized n) (hg : g.WF)
    (h : n.backward b g = .ok (r, n')) : Sized n' ∧ netCells n' = netCells n := by
  obtain ⟨h1, h2, h3, _, _, h6⟩ := backward_effect n g _ h
  simp only at h1 h2 h3 h6
  have hs : sameLayouts n'.intermediate_gradients n.intermediate_gradients := by
    rcases h2 with ⟨a, c⟩ | a
    · exact sameLayouts_trans c (set_last hn hg a)
    · rw [a]; exact sameLayouts_refl _
  refine ⟨⟨uses_netOk hn.ok (.backward _ _ _ _ h), by rw [h3]; exact hn.states, likes_sized h1 hn.layers,
    sameLayouts_wf hs hn.grads, ?_, by rw [h3, sameLayouts_shapes hs]; exact hn.suffix⟩, ?_⟩
  · intro hm
    rw [h6] at hm
    rw [hn.empty hm] at hs
    exact List.length_eq_zero_iff.mp (sameLayouts_length hs)
  · unfold netCells Network.get_layers
    rw [likes_cells h1, cells_layout hs, h3]

theorem switched_sized {n n' : Net F} (m : NetworkRunState) (hn : NetOk n)
    (h : List.Forall₂ (fun l' l => switchTo b m l = .ok l') n'.layers n.layers) :
    (∀ l ∈ n'.layers, layerCells l = paramCells l + bufferCells l.get_run_mode l) ∧
    (n'.layers.map layerCells).sum = (n.layers.map fun l => paramCells l + bufferCells m l).sum := by
  have hl := hn.layers
  generalize n.layers = ls at h hl
  generalize n'.layers = ls' at h
  clear hn
  induction h with
  | nil => exact ⟨(fun l hl => by cases hl), rfl⟩
  | cons h _ ih =>
    rename_i l' l ls' ls _
    obtain ⟨i1, i2⟩ := ih fun l hl' => hl l (List.mem_cons_of_mem _ hl')
    have hc := switchTo_cells (hl l (List.mem_cons_self ..)) h
    obtain ⟨e1, e2, _, _⟩ := switchTo_effect _ _ _ h
    obtain ⟨p1, p2⟩ := params_cells e2
    constructor
    · intro a ha
      rcases List.mem_cons.mp ha with rfl | ha
      · exact hc
      · exact i1 a ha
    · rw [List.map_cons, List.map_cons, List.sum_cons, List.sum_cons, i2, hc, e1, p1, p2]

theorem switch_training_sized {n n' : Net F} (hn : Sized n) (h : n.switch_to_training b = .ok n') :
    Sized n' ∧ netCells n' = (n.layers.map fun l => paramCells l + bufferCells .Training l).sum +
      cells n.intermediate_states + cells n.intermediate_states := by
  obtain ⟨h1, h2, h3, _, _, h6⟩ := net_switch_training_effect n _ h
  obtain ⟨s1, s2⟩ := switched_sized (n' := n') .Training hn.ok h2
  have hf : fresh b n'.intermediate_gradients (n.intermediate_states.map (·.shape)) := by
    unfold fresh
    generalize n'.intermediate_gradients = gs at h6
    generalize n.intermediate_states = ss at h6
    clear * - h6
    induction h6 with
    | nil => exact .nil
    | cons h _ ih => exact .cons h ih
  have hg : ∀ g ∈ n'.intermediate_gradients, g.WF := fresh_wf hf (by
    intro s hs
    obtain ⟨t, ht, rfl⟩ := List.mem_map.mp hs
    exact (hn.states t ht).fits)
  refine ⟨⟨uses_netOk hn.ok (.switch_to_training _ _ h), by rw [h3]; exact hn.states, s1, hg,
    (fun hm => by rw [h1] at hm; cases hm), by rw [fresh_shapes hf, h3]; exact List.suffix_refl _⟩, ?_⟩
  unfold netCells Network.get_layers
  rw [s2, h3, cells_wf hg, fresh_shapes hf, ← cells_wf hn.states]

theorem switch_inference_sized {n n' : Net F} (hn : Sized n) (h : n.switch_to_inference b = .ok n') :
    Sized n' ∧ netCells n' = (n.layers.map fun l => paramCells l + bufferCells .Inference l).sum +
      cells n.intermediate_states := by
  obtain ⟨h1, h2, h3, _, _, h6⟩ := net_switch_inference_effect n _ h
  obtain ⟨s1, s2⟩ := switched_sized (n' := n') .Inference hn.ok h2
  refine ⟨⟨uses_netOk hn.ok (.switch_to_inference _ _ h), by rw [h3]; exact hn.states, s1,
    (fun g hg => by rw [h6] at hg; cases hg), fun _ => h6, by rw [h6]; exact List.nil_suffix⟩, ?_⟩
  unfold netCells Network.get_layers
  rw [s2, h3, h6]
  rfl

theorem add_layer_sized {n n' : Net F} {l : AnyLayer F} {r : Res} (hn : Sized n) (hl : l.Ok)
    (h : n.add_layer b l = .ok (r, n')) : Sized n' := by
  have hok := add_layer_netOk hn.ok hl h
  rcases add_layer_effect n l _ h with ⟨_, _, rfl⟩ | ⟨h1, _, l', ts, gs, h3, h4, h5, rfl⟩
  · exact hn
  · have hgs : ∀ s ∈ (if n.run_state = .Training then newShapes n l else []), s.Fits := by
      intro s hs
      split at hs
      · exact newShapes_fit hl s hs
      · cases hs
    refine ⟨hok, ?_, ?_, ?_, ?_, ?_⟩
    · intro s hs
      rcases List.mem_append.mp hs with hs | hs
      · exact hn.states s hs
      · exact fresh_wf h4 (newShapes_fit hl) s hs
    · intro a ha
      rcases List.mem_append.mp ha with ha | ha
      · exact hn.layers a ha
      · rw [List.mem_singleton.mp ha]
        exact switchTo_cells hl h3
    · intro g hg
      rcases List.mem_append.mp hg with hg | hg
      · exact hn.grads g hg
      · exact fresh_wf h5 hgs g hg
    · intro hm
      have hm : n.run_state = .Inference := hm
      rw [if_neg (by rw [hm]; decide)] at h5
      cases h5
      change n.intermediate_gradients ++ [] = []
      rw [hn.empty hm]
      rfl
    · change (n.intermediate_gradients ++ gs).map _ <:+ (n.intermediate_states ++ ts).map _
      rw [List.map_append, List.map_append, fresh_shapes h4, fresh_shapes h5]
      split
      · obtain ⟨p, hp⟩ := hn.suffix
        exact ⟨p, by rw [← List.append_assoc, hp]⟩
      · rename_i hm
        have hm : n.run_state = .Inference := by
          cases e : n.run_state with
          | Inference => rfl
          | Training => exact absurd e hm
        rw [hn.empty hm]
        exact List.nil_suffix

theorem lives_sized {n : Net F} (h : Lives b n) : Sized n := by
  induction h with
  | new m => exact ⟨new_netOk _, (fun s hs => by cases hs), (fun l hl => by cases hl), (fun g hg => by cases hg),
      fun _ => rfl, List.suffix_refl _⟩
  | add_layer n l r n' _ hl h ih => exact add_layer_sized ih hl h
  | infer n x r n' _ hx h ih => exact (infer_sized ih hx h).1
  | backward n g r n' _ hg h ih => exact (backward_sized ih hg h).1
  | switch_to_training n n' _ h ih => exact (switch_training_sized ih h).1
  | switch_to_inference n n' _ h ih => exact (switch_inference_sized ih h).1

end Rusty
