import Verif.Lemmas.Loading

/-! # Helper lemmas: which sizes make loading panic when overflow is checked -/

namespace Rusty

open F32Ops Spec

theorem subU_debug {x y : UInt32} (h : x < y) : subU .debug x y = .error .overflow := by
  unfold subU
  rw [if_neg (by have := UInt32.lt_iff_toNat_lt.mp h; omega)]

theorem addU_debug {x y : UInt32} (h : 2 ^ 32 ≤ x.toNat + y.toNat) : addU .debug x y = .error .overflow := by
  unfold addU
  rw [if_neg (by omega)]

theorem mulU_debug {x y : UInt32} (h : 2 ^ 32 ≤ x.toNat * y.toNat) : mulU .debug x y = .error .overflow := by
  unfold mulU
  rw [if_neg (by omega)]

theorem total_panics {s : TensorShape} (h : ¬ s.Fits) : s.total_size .debug = .error .overflow := by
  unfold TensorShape.total_size
  by_cases h1 : s.di.toNat * s.dj.toNat < 2 ^ 32
  · rw [mulU_ok h1, ok_bind]
    refine mulU_debug ?_
    rw [toNat_ofNat_lt h1]
    by_contra h2
    exact h ⟨h1, by unfold TensorShape.count; omega⟩
  · rw [mulU_debug (by omega)]
    rfl

/-- what the two window computations do with overflow checks -/
theorem fit_debug (im w : TensorShape) (st : UInt32) (hs : st ≠ 0) :
    (WindowPanics im w st ∧ ((∃ p, Tensor.does_kernel_stride_fit_image .debug im w st = .error p) ∨
      Tensor.does_kernel_stride_fit_image .debug im w st = .ok true ∧
      ∃ p, Tensor.get_convolution_dim_fit .debug im w st = .error p)) ∨
    (¬ WindowPanics im w st ∧ Tensor.does_kernel_stride_fit_image .debug im w st = .ok false ∧
      ∀ out, ¬ windowsTile im w st out) ∨
    (¬ WindowPanics im w st ∧ ∃ n m, Tensor.does_kernel_stride_fit_image .debug im w st = .ok true ∧
      Tensor.get_convolution_dim_fit .debug im w st = .ok (n, m) ∧
      ∀ out : TensorShape, windowsTile im w st out ↔ out.di = n ∧ out.dj = m) := by
  have hs' : st.toNat ≠ 0 := fun e => hs (UInt32.toNat_inj.mp e)
  have li := u32_lt im.di
  have lj := u32_lt im.dj
  by_cases hi : im.di < w.di
  · refine .inl ⟨.inl hi, .inl ⟨.overflow, ?_⟩⟩
    unfold Tensor.does_kernel_stride_fit_image
    rw [subU_debug hi]
    rfl
  have hi' : w.di.toNat ≤ im.di.toNat := by
    by_contra h; exact hi (UInt32.lt_iff_toNat_lt.mpr (by omega))
  by_cases mi : (im.di.toNat - w.di.toNat) % st.toNat = 0
  swap
  · refine .inr (.inl ⟨?_, ?_, ?_⟩)
    · rintro (h | ⟨h, _⟩)
      · exact hi h
      · exact mi h
    · unfold Tensor.does_kernel_stride_fit_image
      rw [subU_ok hi', ok_bind, rem_ok hs, ok_bind]
      rw [if_pos]
      · rfl
      · intro e
        apply mi
        have := congrArg UInt32.toNat e
        rw [UInt32.toNat_mod, toNat_ofNat_lt (by omega)] at this
        exact this
    · rintro out ⟨⟨_, h⟩, _⟩
      apply mi
      rw [← h, Nat.add_sub_cancel]
      exact Nat.mul_mod_left _ _
  by_cases hj : im.dj < w.dj
  · refine .inl ⟨.inr ⟨mi, .inl hj⟩, .inl ⟨.overflow, ?_⟩⟩
    unfold Tensor.does_kernel_stride_fit_image
    rw [subU_ok hi', ok_bind, rem_ok hs, ok_bind, if_neg, subU_debug hj]
    · rfl
    · simp only [ne_eq, not_not]
      refine UInt32.toNat_inj.mp ?_
      rw [UInt32.toNat_mod, toNat_ofNat_lt (by omega), mi]
      rfl
  have hj' : w.dj.toNat ≤ im.dj.toNat := by
    by_contra h; exact hj (UInt32.lt_iff_toNat_lt.mpr (by omega))
  have spec := does_fit_spec (b := .debug) hs' hi' hj'
  by_cases mj : (im.dj.toNat - w.dj.toNat) % st.toNat = 0
  swap
  · refine .inr (.inl ⟨?_, ?_, ?_⟩)
    · rintro (h | ⟨_, h | ⟨h, _⟩⟩)
      · exact hi h
      · exact hj h
      · exact mj h
    · rw [spec, decide_eq_false fun h => mj h.2]
    · rintro out ⟨_, ⟨_, h⟩⟩
      apply mj
      rw [← h, Nat.add_sub_cancel]
      exact Nat.mul_mod_left _ _
  rw [decide_eq_true ⟨mi, mj⟩] at spec
  have one : (1 : UInt32).toNat = 1 := rfl
  have quot : ∀ a : Nat, a < 2 ^ 32 → (UInt32.ofNat a / st).toNat = a / st.toNat := by
    intro a ha
    rw [UInt32.toNat_div, toNat_ofNat_lt ha]
  by_cases oi : (im.di.toNat - w.di.toNat) / st.toNat + 1 < 2 ^ 32
  swap
  · refine .inl ⟨.inr ⟨mi, .inr ⟨mj, .inl (by omega)⟩⟩, .inr ⟨spec, .overflow, ?_⟩⟩
    unfold Tensor.get_convolution_dim_fit
    rw [subU_ok hi', ok_bind, div_ok hs, ok_bind, addU_debug]
    · rfl
    · rw [quot _ (by omega), one]; omega
  by_cases oj : (im.dj.toNat - w.dj.toNat) / st.toNat + 1 < 2 ^ 32
  swap
  · refine .inl ⟨.inr ⟨mi, .inr ⟨mj, .inr (by omega)⟩⟩, .inr ⟨spec, .overflow, ?_⟩⟩
    unfold Tensor.get_convolution_dim_fit
    rw [subU_ok hi', ok_bind, div_ok hs, ok_bind, addU_ok, ok_bind, subU_ok hj', ok_bind, div_ok hs,
      ok_bind, addU_debug]
    · rfl
    · rw [quot _ (by omega), one]; omega
    · rw [quot _ (by omega), one]; omega
  refine .inr (.inr ⟨?_, _, _, spec, dim_fit_spec hs' hi' hj' oi oj, fun out => ?_⟩)
  · rintro (h | ⟨_, h | ⟨_, h | h⟩⟩)
    · exact hi h
    · exact hj h
    · omega
    · omega
  · rw [show windowsTile im w st out ↔ _ from
      and_congr (tiles_u32 hs' hi' oi out.di) (tiles_u32 hs' hj' oj out.dj)]
    exact ⟨fun h => ⟨h.1.2, h.2.2⟩, fun h => ⟨⟨mi, h.1⟩, mj, h.2⟩⟩

variable {F : Type} [F32Ops F]

theorem new_panics {s : TensorShape} (h : ¬ s.Fits) : (Tensor.new .debug s : Exec (Tensor F)) = .error .overflow := by
  unfold Tensor.new
  rw [total_panics h]
  rfl

/-- making kernel gradients panics when a kernel is too large -/
theorem kernel_grads_panic (ks : List (Tensor F)) (h : ¬ ∀ k ∈ ks, k.shape.Fits) (acc : List (Tensor F)) :
    ∃ p, ks.foldlM (fun kg k => do
      let g ← Tensor.new .debug k.shape
      pure (kg ++ [g])) acc = (.error p : Exec _) := by
  induction ks generalizing acc with
  | nil => exact absurd (fun k hk => by cases hk) h
  | cons k ks ih =>
    rw [List.foldlM_cons]
    by_cases hk : k.shape.Fits
    · rw [new_ok hk, ok_bind]
      simp only [pure_bind]
      refine ih (fun hks => h fun x hx => ?_) _
      rcases List.mem_cons.mp hx with rfl | hx
      · exact hk
      · exact hks x hx
    · rw [new_panics hk]
      exact ⟨_, rfl⟩

theorem switch_training_panics (l : AnyLayer F) (h : ¬ ShapesFit l) :
    ∃ p, l.switch_to_training .debug = .error p := by
  cases l with
  | conv l =>
    simp only [AnyLayer.switch_to_training, ConvolutionalLayer.switch_to_training,
      ConvolutionalLayer.update_tensors]
    by_cases h1 : ∀ k ∈ l.kernels, k.shape.Fits
    · obtain ⟨gs, h2⟩ := kernel_grads_return .debug l.kernels (.inr h1) []
      simp only [h2, ok_bind, TensorShape.new_1d, new_ok (F := F) (s := ⟨1, 1, 1⟩) (by decide),
        new_panics (F := F) (s := l.output_shape) fun h2 => h ⟨h1, h2⟩]
      exact ⟨_, rfl⟩
    · obtain ⟨p, h2⟩ := kernel_grads_panic l.kernels h1 []
      simp only [h2]
      exact ⟨_, rfl⟩
  | fc l =>
    simp only [AnyLayer.switch_to_training, FullyConnectedLayer.switch_to_training,
      FullyConnectedLayer.update_tensors]
    by_cases h1 : l.weights.shape.Fits
    · simp only [new_ok h1, ok_bind, new_panics (F := F) (s := l.bias.shape) fun h2 => h ⟨h1, h2⟩]
      exact ⟨_, rfl⟩
    · simp only [new_panics (F := F) h1]
      exact ⟨_, rfl⟩
  | mp l =>
    simp only [AnyLayer.switch_to_training, MaxPoolLayer.switch_to_training,
      MaxPoolLayer.update_tensors, total_panics h]
    exact ⟨_, rfl⟩
  | sm l =>
    simp only [AnyLayer.switch_to_training, SoftmaxLayer.switch_to_training,
      SoftmaxLayer.update_tensors, ok_bind, TensorShape.new_1d, new_panics (F := F) h,
      new_ok (F := F) (s := ⟨1, 1, 1⟩) (by decide)]
    exact ⟨_, rfl⟩

/-- when adding a layer panics with overflow checks -/
theorem add_layer_debug (n : Net F) (l : AnyLayer F) :
    (∃ p, n.add_layer .debug l = .error p) ↔ n.run_state = .Training ∧ ¬ ShapesFit l ∨
      NoRoom n l.get_input_shape l.get_output_shape := by
  have mode : Network.enter_mode .debug n.run_state l = switchTo .debug n.run_state l := by
    cases n.run_state <;> rfl
  by_cases hm : n.run_state = .Training ∧ ¬ ShapesFit l
  · obtain ⟨p, hp⟩ := switch_training_panics l hm.2
    refine ⟨fun _ => .inl hm, fun _ => ⟨p, ?_⟩⟩
    unfold Network.add_layer
    rw [show Network.enter_mode .debug n.run_state l = .error p by rw [hm.1]; exact hp]
    rfl
  · obtain ⟨l', hl'⟩ : ∃ l', switchTo .debug n.run_state l = .ok l' := by
      cases hr : n.run_state with
      | Inference =>
        obtain ⟨l', h, _⟩ := switch_inference_ok (b := .debug) l
        exact ⟨l', h⟩
      | Training =>
        exact switch_training_returns .debug l (.inr (Classical.byContradiction fun h => hm ⟨hr, h⟩))
    obtain ⟨_, hp, _, _⟩ := switchTo_effect _ _ _ hl'
    have hin : (LayerOps.get_input_shape l' : TensorShape) = l.get_input_shape := params_input hp
    have hout : (LayerOps.get_output_shape l' : TensorShape) = l.get_output_shape := params_output hp
    rw [or_iff_right hm]
    unfold Network.add_layer NoRoom
    rw [mode, hl', ok_bind]
    simp only [hin, hout]
    cases hlast : n.layers.getLast? with
    | none =>
      simp only
      by_cases h1 : l.get_input_shape.Fits
      · by_cases h2 : l.get_output_shape.Fits
        · simp only [new_ok (F := F) h1, new_ok (F := F) h2, ok_bind, h1, h2, not_true_eq_false, or_false,
            iff_false]
          rintro ⟨p, hp⟩
          split at hp <;> cases hp
        · simp only [new_ok (F := F) h1, new_panics (F := F) h2, ok_bind, error_bind, h1, h2,
            not_false_eq_true, or_true, iff_true]
          exact ⟨_, rfl⟩
      · simp only [new_panics (F := F) h1, error_bind, h1, not_false_eq_true, true_or, iff_true]
        exact ⟨_, rfl⟩
    | some last =>
      simp only
      by_cases he : last.get_output_shape = l.get_input_shape
      · rw [if_neg fun h => h he]
        by_cases h2 : l.get_output_shape.Fits
        · simp only [new_ok (F := F) h2, ok_bind, h2, not_true_eq_false, and_false, iff_false]
          rintro ⟨p, hp⟩
          split at hp <;> cases hp
        · simp only [new_panics (F := F) h2, error_bind, h2, he, not_false_eq_true, and_true, iff_true]
          exact ⟨_, rfl⟩
      · rw [if_pos (show LayerOps.get_output_shape last ≠ l.get_input_shape from he)]
        simp only [he, false_and, iff_false]
        rintro ⟨p, hp⟩
        cases hp

variable [F32Bits F]

/-- one layer of a file whose fields decode, with overflow checks -/
theorem add_debug (n : Net F) (s : SerializedLayer) (hd : Decodes F s) (hz : ¬ ZeroStride F s) :
    (∃ p, s.add_to_network .debug n = .error p) ↔ SizePanics n s := by
  cases s with
  | SerialConvolutionalLayer m =>
    obtain ⟨⟨ks, h1⟩, ⟨bs, h2⟩, ⟨is, h3⟩, ⟨st, h4⟩, ⟨name, h5⟩⟩ := hd
    simp only [SerializedLayer.add_to_network, ConvolutionalLayer.empty, empty_ok, ok_bind, pure_bind,
      ConvolutionalLayer.load_from_serialized, ConvolutionalLayer.load_from_serialized_data,
      contains_holds h1, contains_holds h2, contains_holds h3, contains_holds h4, contains_holds h5,
      Bool.not_true, Bool.false_eq_true, if_false, fetch_holds h1, fetch_holds h2, fetch_holds h3,
      fetch_holds h4, fetch_holds h5]
    unfold ConvolutionalLayer.fill_from_state
    cases ks with
    | nil =>
      refine ⟨fun ⟨p, hp⟩ => (nomatch hp), fun ⟨k, ks, is, st, g, _⟩ => ?_⟩
      have := holds_unique h1 g
      cases this
    | cons k ks =>
      simp only
      split
      · next hany =>
        refine ⟨fun ⟨p, hp⟩ => (nomatch hp), fun ⟨k', ks', is, st, g, g', _⟩ => ?_⟩
        have := holds_unique h1 g
        injection this with e1 e2
        subst e1 e2
        simp only [List.any_cons, ne_eq, not_true_eq_false, decide_false, Bool.false_or,
          List.any_eq_true, decide_eq_true_eq] at hany
        obtain ⟨x, hx, hne⟩ := hany
        exact absurd (g' x hx) hne
      · next hall =>
        have hall : ∀ k' ∈ ks, k'.shape = k.shape := by
          simpa using hall
        have hs : st ≠ 0 := fun e => hz ⟨⟨k, ks, h1, hall⟩, e ▸ h4⟩
        have red : SizePanics n (.SerialConvolutionalLayer m) ↔
            (WindowPanics is k.shape st ∨ ∃ out, windowsTile is k.shape st out ∧
              out.dk = UInt32.ofNat (ks.length + 1) ∧
              (n.run_state = .Training ∧ (¬ k.shape.Fits ∨ ¬ out.Fits) ∨ NoRoom n is out)) := by
          constructor
          · rintro ⟨k', ks', is', st', g1, _, g3, g4, g5⟩
            have := holds_unique h1 g1
            injection this with e1 e2
            obtain rfl := holds_unique h3 g3
            obtain rfl := holds_unique h4 g4
            subst e1 e2
            exact g5
          · exact fun g => ⟨k, ks, is, st, h1, hall, h3, h4, g⟩
        rw [red]
        rcases fit_debug is k.shape st hs with ⟨e1, e2⟩ | ⟨e1, e2, e3⟩ | ⟨e1, d0, d1, e2, e3, e4⟩
        · refine ⟨fun _ => .inl e1, fun _ => ?_⟩
          rcases e2 with ⟨p, e2⟩ | ⟨e2, p, e3⟩
          · simp only [e2]; exact ⟨_, rfl⟩
          · simp only [e2, e3, ok_bind, not_true_eq_false, if_false]; exact ⟨_, rfl⟩
        · simp only [e2, ok_bind]
          refine ⟨fun ⟨p, hp⟩ => (nomatch hp), fun h => ?_⟩
          rcases h with h | ⟨out, h, _⟩
          · exact absurd h e1
          · exact absurd h (e3 out)
        · simp only [e2, e3, ok_bind, not_true_eq_false, if_false, pure_bind]
          rw [add_layer_debug, or_iff_right e1]
          have hsf : ∀ o : TensorShape, ((∀ k' ∈ k :: ks, k'.shape.Fits) ∧ o.Fits) ↔ k.shape.Fits ∧ o.Fits := by
            intro o
            refine and_congr_left fun _ => ⟨fun h => h k List.mem_cons_self, fun h x hx => ?_⟩
            rcases List.mem_cons.mp hx with rfl | hx
            · exact h
            · rw [hall x hx]; exact h
          have hsf' : ∀ o : TensorShape, ¬ ((∀ k' ∈ k :: ks, k'.shape.Fits) ∧ o.Fits) ↔
              ¬ k.shape.Fits ∨ ¬ o.Fits := by
            intro o
            rw [hsf, not_and_or]
          constructor
          · intro h
            refine ⟨⟨d0, d1, UInt32.ofNat (ks.length + 1)⟩, (e4 _).mpr ⟨rfl, rfl⟩, rfl, ?_⟩
            rcases h with ⟨a, h⟩ | h
            · exact .inl ⟨a, (hsf' _).mp h⟩
            · exact .inr h
          · rintro ⟨out, t1, t2, h⟩
            obtain ⟨o1, o2, o3⟩ := out
            obtain ⟨rfl, rfl⟩ := (e4 _).mp t1
            simp only at t2
            subst t2
            rcases h with ⟨a, h⟩ | h
            · exact .inl ⟨a, (hsf' _).mpr h⟩
            · exact .inr h
  | SerialFullyConnectedLayer m =>
    obtain ⟨⟨w, h1⟩, ⟨bi, h2⟩, ⟨name, h3⟩⟩ := hd
    have red : SizePanics n (.SerialFullyConnectedLayer m) ↔
        w.shape.dk = bi.shape.dk ∧ w.shape.di = bi.shape.di ∧ bi.shape.dj = 1 ∧
        (n.run_state = .Training ∧ (¬ w.shape.Fits ∨ ¬ bi.shape.Fits) ∨
          NoRoom n ⟨w.shape.dj, 1, 1⟩ bi.shape) := by
      constructor
      · rintro ⟨w', bi', g1, g2, g⟩
        obtain rfl := holds_unique h1 g1
        obtain rfl := holds_unique h2 g2
        exact g
      · exact fun g => ⟨w, bi, h1, h2, g⟩
    rw [red]
    simp only [SerializedLayer.add_to_network, FullyConnectedLayer.empty, empty_ok, ok_bind, pure_bind,
      FullyConnectedLayer.load_from_serialized, FullyConnectedLayer.load_from_serialized_data,
      contains_holds h1, contains_holds h2, contains_holds h3,
      Bool.not_true, Bool.false_eq_true, if_false, fetch_holds h1, fetch_holds h2, fetch_holds h3]
    unfold FullyConnectedLayer.fill_from_state
    simp only
    split
    · next c => exact ⟨fun ⟨p, hp⟩ => (nomatch hp), fun g => absurd g.1 c⟩
    · next c1 =>
      split
      · next c => exact ⟨fun ⟨p, hp⟩ => (nomatch hp), fun g => absurd g.2.1 c⟩
      · next c2 =>
        split
        · next c => exact ⟨fun ⟨p, hp⟩ => (nomatch hp), fun g => absurd g.2.2.1 c⟩
        · next c3 =>
          simp only [FullyConnectedLayer.update_tensors, empty_ok, ok_bind, pure_bind]
          rw [add_layer_debug]
          have c1 : w.shape.dk = bi.shape.dk := Classical.not_not.mp c1
          have c2 : w.shape.di = bi.shape.di := Classical.not_not.mp c2
          have c3 : bi.shape.dj = 1 := Classical.not_not.mp c3
          have hsf : ¬ (w.shape.Fits ∧ bi.shape.Fits) ↔ ¬ w.shape.Fits ∨ ¬ bi.shape.Fits := not_and_or
          constructor
          · rintro (⟨a, h⟩ | h)
            · exact ⟨c1, c2, c3, .inl ⟨a, hsf.mp h⟩⟩
            · exact ⟨c1, c2, c3, .inr h⟩
          · rintro ⟨_, _, _, ⟨a, h⟩ | h⟩
            · exact .inl ⟨a, hsf.mpr h⟩
            · exact .inr h
  | SerialMaxPoolLayer m =>
    obtain ⟨⟨ma, h1⟩, ⟨is, h2⟩, ⟨st, h3⟩, ⟨name, h4⟩⟩ := hd
    have hs : st ≠ 0 := fun e => by subst e; exact hz h3
    have red : SizePanics n (.SerialMaxPoolLayer m) ↔
        (WindowPanics is ma st ∨ ∃ out, windowsTile is ma st out ∧ out.dk = is.dk ∧
          (n.run_state = .Training ∧ ¬ out.Fits ∨ NoRoom n is out)) := by
      constructor
      · rintro ⟨ma', is', st', g1, g2, g3, g⟩
        obtain rfl := holds_unique h1 g1
        obtain rfl := holds_unique h2 g2
        obtain rfl := holds_unique h3 g3
        exact g
      · exact fun g => ⟨ma, is, st, h1, h2, h3, g⟩
    rw [red]
    simp only [SerializedLayer.add_to_network,
      MaxPoolLayer.load_from_serialized, MaxPoolLayer.load_from_serialized_data,
      contains_holds h1, contains_holds h2, contains_holds h3, contains_holds h4,
      Bool.not_true, Bool.false_eq_true, if_false, fetch_holds h1, fetch_holds h2, fetch_holds h3,
      fetch_holds h4, ok_bind]
    unfold MaxPoolLayer.fill_from_state
    rcases fit_debug is ma st hs with ⟨e1, e2⟩ | ⟨e1, e2, e3⟩ | ⟨e1, d0, d1, e2, e3, e4⟩
    · refine ⟨fun _ => .inl e1, fun _ => ?_⟩
      rcases e2 with ⟨p, e2⟩ | ⟨e2, p, e3⟩
      · simp only [e2]; exact ⟨_, rfl⟩
      · simp only [e2, e3, ok_bind, not_true_eq_false, if_false]; exact ⟨_, rfl⟩
    · simp only [e2, ok_bind]
      refine ⟨fun ⟨p, hp⟩ => (nomatch hp), fun h => ?_⟩
      rcases h with h | ⟨out, h, _⟩
      · exact absurd h e1
      · exact absurd h (e3 out)
    · simp only [e2, e3, ok_bind, not_true_eq_false, if_false, pure_bind]
      rw [add_layer_debug, or_iff_right e1]
      constructor
      · intro h
        exact ⟨⟨d0, d1, is.dk⟩, (e4 _).mpr ⟨rfl, rfl⟩, rfl, h⟩
      · rintro ⟨⟨o1, o2, o3⟩, t1, t2, h⟩
        obtain ⟨rfl, rfl⟩ := (e4 _).mp t1
        simp only at t2
        subst t2
        exact h
  | SerialSoftMaxLayer m =>
    obtain ⟨⟨sh, h1⟩, ⟨name, h2⟩⟩ := hd
    have red : SizePanics n (.SerialSoftMaxLayer m) ↔
        (n.run_state = .Training ∧ ¬ sh.Fits ∨ NoRoom n sh sh) := by
      constructor
      · rintro ⟨sh', g1, g⟩
        obtain rfl := holds_unique h1 g1
        exact g
      · exact fun g => ⟨sh, h1, g⟩
    rw [red]
    simp only [SerializedLayer.add_to_network, SoftmaxLayer.empty, empty_ok, ok_bind, pure_bind,
      SoftmaxLayer.load_from_serialized, SoftmaxLayer.load_from_serialized_data,
      contains_holds h1, contains_holds h2,
      Bool.not_true, Bool.false_eq_true, if_false, fetch_holds h1, fetch_holds h2]
    exact add_layer_debug n _

end Rusty
