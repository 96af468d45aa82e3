import Verif.Lemmas.Loading
import Verif.Lemmas.Backward

/-! # Helper lemmas: networks of layers that need not be well formed -/

set_option linter.unusedSectionVars false

namespace Rusty

open F32Ops Spec

variable {F : Type} [F32Ops F] {b : Build}

theorem total_debug_fits {s : TensorShape} {k : UInt32} (h : s.total_size .debug = .ok k) :
    s.Fits := by
  by_contra hn
  have : s.total_size .debug = .error .overflow := by
    unfold TensorShape.total_size
    by_cases h1 : s.di.toNat * s.dj.toNat < 2 ^ 32
    · have h2 : ¬ s.di.toNat * s.dj.toNat * s.dk.toNat < 2 ^ 32 := fun h2 => hn ⟨h1, h2⟩
      rw [mulU_ok h1, ok_bind]
      unfold mulU
      rw [toNat_ofNat_lt h1, if_neg h2]
    · unfold mulU
      rw [if_neg h1]
      rfl
  rw [this] at h
  cases h

theorem new_debug_fits {s : TensorShape} {t : Tensor F} (h : Tensor.new .debug s = .ok t) :
    s.Fits := by
  unfold Tensor.new at h
  obtain ⟨k, h, _⟩ := bind_inv h
  exact total_debug_fits h

theorem shapesFit_params {l l' : AnyLayer F} (h : params l' = params l) (hf : ShapesFit l) :
    ShapesFit l' := by
  cases l <;> cases l' <;> simp only [params, AnyLayer.conv.injEq, AnyLayer.fc.injEq,
    AnyLayer.mp.injEq, AnyLayer.sm.injEq, ConvolutionalLayer.mk.injEq,
    FullyConnectedLayer.mk.injEq, MaxPoolLayer.mk.injEq, SoftmaxLayer.mk.injEq, reduceCtorEq] at h
  · obtain ⟨h1, h2, _, _, h3, _, h4, h5, h6, _⟩ := h
    unfold ShapesFit at hf ⊢
    simp only [h1, h5]
    exact hf
  · obtain ⟨h1, _, _, h2, _⟩ := h
    unfold ShapesFit at hf ⊢
    simp only [h1, h2]
    exact hf
  · obtain ⟨_, _, h1, _⟩ := h
    unfold ShapesFit at hf ⊢
    simp only [h1]
    exact hf
  · obtain ⟨h1, _⟩ := h
    unfold ShapesFit at hf ⊢
    simp only [h1]
    exact hf

/-- a property of layers that depends on their parameters only, and that all new layers have -/
theorem add_layer_all {P : AnyLayer F → Prop} (hp : ∀ l l', params l' = params l → P l → P l')
    {n n' : Net F} {l : AnyLayer F} {r : Res} (hn : ∀ k ∈ n.layers, P k) (hl : P l)
    (h : n.add_layer b l = .ok (r, n')) : ∀ k ∈ n'.layers, P k := by
  rcases add_layer_effect n l _ h with ⟨_, _, rfl⟩ | ⟨_, _, l', _, _, h3, _, _, rfl⟩
  · exact hn
  · intro k hk
    rcases List.mem_append.mp hk with h | h
    · exact hn k h
    · rw [List.mem_singleton.mp h]
      exact hp l l' (switchTo_effect _ _ _ h3).2.1 hl

theorem all_params {P : AnyLayer F → Prop} (hp : ∀ l l', params l' = params l → P l → P l')
    {ls ls' : List (AnyLayer F)} (h : ls'.map params = ls.map params) (hn : ∀ k ∈ ls, P k) :
    ∀ k ∈ ls', P k := by
  intro k hk
  obtain ⟨i, hi⟩ := List.getElem?_of_mem hk
  obtain ⟨a, ha, e⟩ := map_get h hi
  exact hp a k e (hn a (List.mem_of_getElem? ha))

/-- shapes of a layer's input and output have representable element counts -/
def EndsFit (l : AnyLayer F) : Prop := l.get_input_shape.Fits ∧ l.get_output_shape.Fits

theorem endsFit_params (l l' : AnyLayer F) (h : params l' = params l) (hf : EndsFit l) :
    EndsFit l' := by
  unfold EndsFit
  rw [params_input h, params_output h]
  exact hf

/-- in debug builds layers with larger shapes are never added -/
theorem add_layer_ends {n n' : Net F} {l : AnyLayer F} {r : Res} (hn : ∀ k ∈ n.layers, EndsFit k)
    (h : n.add_layer .debug l = .ok (r, n')) : ∀ k ∈ n'.layers, EndsFit k := by
  rcases add_layer_effect n l _ h with ⟨_, _, rfl⟩ | ⟨h1, _, l', ts, _, h3, h4, _, rfl⟩
  · exact hn
  · intro k hk
    rcases List.mem_append.mp hk with h | h
    · exact hn k h
    · rw [List.mem_singleton.mp h]
      refine endsFit_params l l' (switchTo_effect _ _ _ h3).2.1 ?_
      unfold newShapes at h4
      split at h4
      · cases h4 with
        | cons a h4 =>
          cases h4 with
          | cons c _ => exact ⟨new_debug_fits a, new_debug_fits c⟩
      · next hne =>
        cases h4 with
        | cons c _ =>
          refine ⟨?_, new_debug_fits c⟩
          have hlast := List.getLast?_eq_some_getLast hne
          rw [← h1 _ hlast]
          exact (hn _ (List.getLast_mem hne)).2

variable [F32Bits F]

/-- a property kept by adding layers that passed construction is kept by loading -/
theorem load_made (P : Net F → Prop)
    (hadd : ∀ n l r n', P n → Made b l → n.add_layer b l = .ok (r, n') → P n') (n : Net F) (fs : FS)
    (name : String) (hn : P n) : Sat (n.load_from_file b fs name) fun p => P p.2 := by
  have hlay : ∀ (s : SerializedLayer) (n : Net F), P n →
      Sat (s.add_to_network b n) fun p => P p.2 := by
    intro s n hn
    have key : ∀ (r : Res) (l : AnyLayer F), (r = .ok () → Made b l) → Sat (match r with
        | .error e => pure (.error e, n)
        | .ok () => n.add_layer b l : Exec (Res × Net F)) fun p => P p.2 := by
      intro r l hm
      cases r with
      | error e => exact sat_pure hn
      | ok u => exact fun p hp => hadd n l p.1 p.2 hn (hm rfl) hp
    cases s with
    | SerialConvolutionalLayer m =>
      exact sat_bind fun l0 _ => sat_bind fun p hp => key p.1 (.conv p.2)
        fun e => .conv_load l0 _ p.2 (by rw [hp, ← e])
    | SerialFullyConnectedLayer m =>
      exact sat_bind fun l0 _ => sat_bind fun p hp => key p.1 (.fc p.2)
        fun e => .fc_load l0 _ p.2 (by rw [hp, ← e])
    | SerialMaxPoolLayer m =>
      exact sat_bind fun p hp => key p.1 (.mp p.2)
        fun e => .mp_load _ _ p.2 (by rw [hp, ← e])
    | SerialSoftMaxLayer m =>
      exact sat_bind fun _ _ => sat_bind fun p _ => key p.1 (.sm p.2) fun _ => .sm _
  unfold Network.load_from_file
  split
  · exact sat_pure hn
  · split
    · exact sat_pure hn
    · exact sat_forListE P hn fun s _ n hn => hlay s n hn

theorem assembled_reach {n : Net F} (h : Assembled b n) : Reach b n := by
  induction h with
  | new m => exact .new m
  | add_layer n l r n' _ _ h ih => exact .add_layer n l r n' ih h
  | uses n n' _ h ih => exact .uses n n' ih h
  | load_from_file n fs name r n' _ h ih => exact .load_from_file n fs name r n' ih h

omit [F32Ops F] [F32Bits F] in
theorem hasKernels_params {l l' : AnyLayer F} (h : params l' = params l) (hk : hasKernels l) :
    hasKernels l' := by
  cases l <;> cases l' <;> simp only [params, AnyLayer.conv.injEq, ConvolutionalLayer.mk.injEq,
    reduceCtorEq] at h <;> try trivial
  obtain ⟨h1, _⟩ := h
  unfold hasKernels at hk ⊢
  simp only [h1]
  exact hk

theorem made_kernels {l : AnyLayer F} (h : Made b l) : hasKernels l := by
  have := made_fills h
  cases l with
  | conv l =>
    intro e
    have h := this l
    unfold ConvolutionalLayer.fill_from_state at h
    rw [e] at h
    cases h
  | fc l => trivial
  | mp l => trivial
  | sm l => trivial

theorem obtained_fills {l : AnyLayer F} (h : Obtained b l) (hk : hasKernels l) : Fills b l := by
  rcases h with h | ⟨c, h1, h2⟩
  · exact made_fills h
  · exfalso
    have hp : params l = params (.conv c) := by
      induction h2 with
      | none => rfl
      | more l' l'' _ h ih => exact (C51_call b _ _ h).1.trans (ih (hasKernels_params
          (C51_call b _ _ h).1.symm hk))
    have h3 : hasKernels (.conv c : AnyLayer F) := hasKernels_params hp.symm hk
    unfold ConvolutionalLayer.empty at h1
    rw [empty_ok] at h1
    cases h1
    exact h3 rfl

theorem assembled_fills {n : Net F} (h : Assembled b n) :
    ∀ l ∈ n.layers, hasKernels l → Fills b l := by
  have hp : ∀ l l' : AnyLayer F, params l' = params l → (hasKernels l → Fills b l) →
      hasKernels l' → Fills b l' :=
    fun _ _ h hf hk => fills_params h (hf (hasKernels_params h.symm hk))
  induction h with
  | new m => exact fun _ h => by cases h
  | add_layer n l r n' _ hm h ih => exact add_layer_all hp ih (obtained_fills hm) h
  | uses n n' _ h ih => exact all_params hp (uses_params h) ih
  | load_from_file n fs name r n' _ h ih =>
    exact load_made (fun n => ∀ l ∈ n.layers, hasKernels l → Fills b l)
      (fun _ _ _ _ hn hm h => add_layer_all hp hn (fun _ => made_fills hm) h) n fs name ih _ h

theorem reach_ends {n : Net F} (h : Reach .debug n) : ∀ l ∈ n.layers, EndsFit l := by
  induction h with
  | new m => exact fun _ h => by cases h
  | add_layer n l r n' _ h ih => exact add_layer_ends ih h
  | uses n n' _ h ih => exact all_params endsFit_params (uses_params h) ih
  | load_from_file n fs name r n' _ h ih =>
    exact load_inv (fun n => ∀ l ∈ n.layers, EndsFit l)
      (fun _ _ _ _ hn h => add_layer_ends hn h) n fs name ih _ h

/-- Loading the layers of a network one after the other into a network they fit. -/
theorem populate_made {n n0 : Net F} (hc : Chain n) (hf : ∀ l ∈ n.layers, Fills b l)
    (hsz : b = .release ∨
      ∀ l ∈ n.layers, (n0.run_state = .Training → ShapesFit l) ∧ EndsFit l) (o : HashOrder)
    (hl : (encSerializedNetwork (o.network (SerializedNetwork.new_from_network n))).length < 2 ^ 64)
    (hfit0 : ∀ last first, n0.layers.getLast? = some last →
      n.layers.head? = some first → last.get_output_shape = first.get_input_shape) :
    ∃ n' ls, (o.network (SerializedNetwork.new_from_network n)).populate_network b n0 =
        .ok (.ok (), n') ∧ n'.layers = n0.layers ++ ls ∧
      ls.map params = n.layers.map params ∧ n'.run_state = n0.run_state ∧
      ∀ l ∈ ls, l.get_run_mode = n0.run_state := by
  have hlen : (o.network (SerializedNetwork.new_from_network n)).serial_layers.length =
      n.layers.length := by
    simp [HashOrder.network, SerializedNetwork.new_from_network, Network.get_layers]
  have hget : ∀ i (h : i < n.layers.length),
      (o.network (SerializedNetwork.new_from_network n)).serial_layers[i]'(by rw [hlen]; exact h) =
        o.layer i n.layers[i].get_serialized := by
    intro i h
    simp [HashOrder.network, SerializedNetwork.new_from_network, Network.get_layers]
  obtain ⟨n', h1, ls, h3, h4, h5, h6⟩ := forListE_prefix
    (o.network (SerializedNetwork.new_from_network n)).serial_layers n0
    (fun layer n => layer.add_to_network b n)
    (fun pre n' => ∃ ls, n'.layers = n0.layers ++ ls ∧
      ls.map params = (n.layers.take pre.length).map params ∧
      n'.run_state = n0.run_state ∧ ∀ l ∈ ls, l.get_run_mode = n0.run_state)
    ⟨[], (List.append_nil _).symm, rfl, rfl, fun _ h => by cases h⟩
    (by
      intro pre s post n1 hsplit ⟨ls, he, hp, hm, hms⟩
      have hi : pre.length < n.layers.length := by
        rw [← hlen, hsplit]
        simp
      have hs : s = o.layer pre.length n.layers[pre.length].get_serialized := by
        rw [← hget _ hi]
        simp only [hsplit]
        rw [List.getElem_append_right (Nat.le_refl _)]
        simp
      have hmem : n.layers[pre.length] ∈ n.layers := List.getElem_mem hi
      obtain ⟨l', p1, p2, p3⟩ := load_any (b := b) (hf _ hmem) o
        pre.length (Nat.lt_of_le_of_lt (layer_le_network o n hmem) hl)
      have hlen1 : ls.length = pre.length := by
        have := congrArg List.length hp
        simp only [List.length_map, List.length_take] at this
        omega
      have hfit : ∀ last, n1.layers.getLast? = some last →
          last.get_output_shape = l'.get_input_shape := by
        intro last hlast
        rw [params_input p1]
        rw [he] at hlast
        rcases Nat.eq_zero_or_pos pre.length with h | h
        · rw [List.length_eq_zero_iff.mp (hlen1.trans h), List.append_nil] at hlast
          refine hfit0 last _ hlast ?_
          rw [List.head?_eq_getElem?]
          simp only [h]
          exact List.getElem?_eq_getElem _
        · have hne : ls ≠ [] := fun e => by rw [e] at hlen1; simp at hlen1; omega
          rw [List.getLast?_append_of_ne_nil _ hne, List.getLast?_eq_getElem?, hlen1] at hlast
          obtain ⟨a, ha, hpa⟩ := map_get hp hlast
          rw [params_output hpa]
          have hpos : pre.length - 1 + 1 = pre.length := by omega
          have ha : n.layers[pre.length - 1]? = some a := by
            rw [List.getElem?_take] at ha
            split at ha
            · exact ha
            · cases ha
          exact hc.links _ _ _ ha (by rw [hpos]; exact List.getElem?_eq_getElem hi)
      obtain ⟨r, n2, q1⟩ := add_layer_returns' b n1 l' (hsz.imp_right fun h => by
        obtain ⟨s1, s2⟩ := h _ hmem
        exact ⟨fun e => shapesFit_params p1 (s1 (hm ▸ e)), endsFit_params _ _ p1 s2⟩)
      rcases add_layer_effect n1 l' _ q1 with ⟨⟨last, e1, e2⟩, _⟩ | ⟨_, q2, l2, _, _, q3, _, _, q4⟩
      · exact absurd (hfit last e1) e2
      · simp only at q2 q4
        subst q2
        obtain ⟨q6, q5, _⟩ := switchTo_effect _ _ _ q3
        refine ⟨n2, by rw [hs, p3]; exact q1, ls ++ [l2], by rw [q4, he, List.append_assoc], ?_,
          by rw [q4, hm], ?_⟩
        · rw [List.map_append, hp, List.length_append, List.length_singleton,
            List.take_add_one, List.map_append, List.getElem?_eq_getElem hi]
          simp only [List.map_cons, List.map_nil, Option.toList_some]
          rw [q5, p1]
        · intro l hl
          rcases List.mem_append.mp hl with h | h
          · exact hms l h
          · rw [List.mem_singleton.mp h, q6, hm])
  refine ⟨n', ls, h1, h3, ?_, h5, h6⟩
  rw [h4, hlen, List.take_length]

/-- Loading the layers of a network into a network they do not fit. -/
theorem populate_made_refused {n n0 : Net F} (hf : ∀ l ∈ n.layers, Fills b l)
    (hsz : b = .release ∨
      ∀ l ∈ n.layers, (n0.run_state = .Training → ShapesFit l) ∧ EndsFit l) (o : HashOrder)
    (hl : (encSerializedNetwork (o.network (SerializedNetwork.new_from_network n))).length < 2 ^ 64)
    {last first : AnyLayer F} (h1 : n0.layers.getLast? = some last)
    (h2 : n.layers.head? = some first) (hne : last.get_output_shape ≠ first.get_input_shape) :
    ∃ e, (o.network (SerializedNetwork.new_from_network n)).populate_network b n0 =
        .ok (.error e, n0) := by
  cases hls : n.layers with
  | nil => rw [hls] at h2; cases h2
  | cons l ls =>
    rw [hls] at h2
    cases h2
    have hmem : first ∈ n.layers := by rw [hls]; exact List.mem_cons_self
    obtain ⟨l', p1, p2, p3⟩ := load_any (b := b) (hf _ hmem) o
      0 (Nat.lt_of_le_of_lt (layer_le_network o n hmem) hl)
    obtain ⟨r, n', hr⟩ := add_layer_returns' b n0 l' (hsz.imp_right fun h => by
      obtain ⟨s1, s2⟩ := h _ hmem
      exact ⟨fun e => shapesFit_params p1 (s1 e), endsFit_params _ _ p1 s2⟩)
    rcases add_layer_effect n0 l' _ hr with ⟨_, ⟨e, he⟩, h⟩ | ⟨h, _⟩
    · simp only at he h
      subst he h
      refine ⟨e, ?_⟩
      unfold SerializedNetwork.populate_network
      simp only [HashOrder.network, SerializedNetwork.new_from_network, Network.get_layers, hls,
        List.map_cons, List.mapIdx_cons]
      rw [forListE_cons, p3, hr]
      rfl
    · exact absurd ((h last h1).trans (params_input p1)) hne

/-! ## Layers in training mode have representable shapes -/

omit [F32Bits F] in
theorem kernel_grads_fit (ks : List (Tensor F)) (acc kg : List (Tensor F))
    (h : ks.foldlM (fun kg k => do
      let g ← Tensor.new .debug k.shape
      pure (kg ++ [g])) acc = .ok kg) : ∀ k ∈ ks, k.shape.Fits := by
  induction ks generalizing acc with
  | nil => exact fun _ h => by cases h
  | cons k ks ih =>
    rw [List.foldlM_cons] at h
    obtain ⟨a1, h1, h2⟩ := bind_inv h
    obtain ⟨g, h3, _⟩ := bind_inv h1
    intro x hx
    rcases List.mem_cons.mp hx with rfl | hx
    · exact new_debug_fits h3
    · exact ih _ h2 x hx

omit [F32Bits F] in
theorem switch_training_fits (l : AnyLayer F) : Sat (l.switch_to_training .debug) fun l' =>
    ShapesFit l' := by
  intro l' h
  refine shapesFit_params (switch_training_effect l l' h).2.1 ?_
  revert h
  refine (?_ : Sat (l.switch_to_training .debug) fun _ => ShapesFit l) l'
  cases l with
  | conv l =>
    simp only [AnyLayer.switch_to_training, ConvolutionalLayer.switch_to_training,
      ConvolutionalLayer.update_tensors, bind_assoc]
    exact sat_bind fun kg hk => sat_bind fun bg hb => sat_bind fun rm hr => sat_pure
      ⟨kernel_grads_fit _ _ _ hk, new_debug_fits hr⟩
  | fc l =>
    simp only [AnyLayer.switch_to_training, FullyConnectedLayer.switch_to_training,
      FullyConnectedLayer.update_tensors, bind_assoc]
    exact sat_bind fun w hw => sat_bind fun w' hw' => sat_bind fun bg hb => sat_bind fun rm hr =>
      sat_pure ⟨new_debug_fits hw, new_debug_fits hb⟩
  | mp l =>
    simp only [AnyLayer.switch_to_training, MaxPoolLayer.switch_to_training,
      MaxPoolLayer.update_tensors, bind_assoc]
    exact sat_bind fun n hn => sat_pure (total_debug_fits hn)
  | sm l =>
    simp only [AnyLayer.switch_to_training, SoftmaxLayer.switch_to_training,
      SoftmaxLayer.update_tensors, bind_assoc]
    exact sat_bind fun w hw => sat_bind fun w' hw' => sat_pure (new_debug_fits hw')

theorem training_fits {n : Net F} (h : Reach .debug n) :
    ∀ l ∈ n.layers, l.get_run_mode = .Training → ShapesFit l := by
  have hadd : ∀ (n : Net F) (l : AnyLayer F) (r : Res) (n' : Net F),
      (∀ l ∈ n.layers, l.get_run_mode = .Training → ShapesFit l) →
      n.add_layer .debug l = .ok (r, n') →
      ∀ l ∈ n'.layers, l.get_run_mode = .Training → ShapesFit l := by
    intro n l r n' ih h
    rcases add_layer_effect n l _ h with ⟨_, _, rfl⟩ | ⟨_, _, l', ts, gs, h3, _, _, rfl⟩
    · exact ih
    · intro a ha hm
      rcases List.mem_append.mp ha with ha | ha
      · exact ih a ha hm
      · rw [List.mem_singleton.mp ha] at hm ⊢
        rw [(switchTo_effect _ _ _ h3).1] at hm
        rw [hm] at h3
        exact switch_training_fits l _ h3
  have hlike : ∀ {n n' : Net F}, (∀ l ∈ n.layers, l.get_run_mode = .Training → ShapesFit l) →
      List.Forall₂ Like n'.layers n.layers →
      ∀ l ∈ n'.layers, l.get_run_mode = .Training → ShapesFit l := by
    intro n n' ih h1 l hl hm
    obtain ⟨l0, h3, h4⟩ := forall₂_mem h1 hl
    exact shapesFit_params (like_params h4) (ih l0 h3 ((like_mode h4).symm.trans hm))
  induction h with
  | new m => intro l h; cases h
  | add_layer n l r n' _ h ih => exact hadd n l r n' ih h
  | uses n n' _ h ih =>
    cases h with
    | infer x r _ h => exact hlike ih (infer_effect n x _ h).1
    | backward g r _ h => exact hlike ih (backward_effect n g _ h).1
    | switch_to_training _ h =>
      intro l hl _
      obtain ⟨l0, _, h2⟩ := forall₂_mem (net_switch_training_effect n _ h).2.1 hl
      exact switch_training_fits l0 _ h2
    | switch_to_inference _ h =>
      intro l hl hm
      obtain ⟨l0, _, h2⟩ := forall₂_mem (net_switch_inference_effect n _ h).2.1 hl
      rw [(switch_inference_effect l0 l h2).1] at hm
      cases hm
  | load_from_file n fs name r n' _ h ih =>
    exact load_inv (fun n => ∀ l ∈ n.layers, l.get_run_mode = .Training → ShapesFit l) hadd n fs
      name ih _ h

/-- a file with a convolutional layer without kernels never loads with `Ok` -/
theorem populate_no_kernels {n n0 n' : Net F} {l : ConvolutionalLayer F}
    (hmem : AnyLayer.conv l ∈ n.layers) (hk : l.kernels = []) (o : HashOrder)
    (hl : (encSerializedNetwork (o.network (SerializedNetwork.new_from_network n))).length < 2 ^ 64)
    (h : (o.network (SerializedNetwork.new_from_network n)).populate_network b n0 =
      .ok (.ok (), n')) : False := by
  obtain ⟨i, hi⟩ := List.getElem?_of_mem hmem
  have hs : o.layer i (AnyLayer.conv l).get_serialized ∈
      (o.network (SerializedNetwork.new_from_network n)).serial_layers := by
    refine List.mem_of_getElem? (i := i) ?_
    simp [HashOrder.network, SerializedNetwork.new_from_network, Network.get_layers, hi]
  refine forListE_after _ _ _ (fun pre _ => o.layer i (AnyLayer.conv l).get_serialized ∉ pre)
    (fun h => by cases h) ?_ n' h hs
  intro pre x post s s' _ hp he hx
  rcases List.mem_append.mp hx with hx | hx
  · exact hp hx
  · rw [← List.mem_singleton.mp hx] at he
    change (do
        let l0 ← ConvolutionalLayer.empty b
        let (r, l1) ← l0.load_from_serialized b (o.layer i l.get_serialized)
        match r with
        | .error e => pure (.error e, s)
        | .ok () => s.add_layer b (.conv l1) : Exec (Res × Net F)) = _ at he
    obtain ⟨l0, _, he⟩ := bind_inv he
    rw [conv_load l0 l o i (Nat.lt_of_le_of_lt (layer_le_network o n hmem) hl), hk] at he
    cases he

end Rusty
