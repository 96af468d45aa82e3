import Verif.Lemmas.GradientNear
import Verif.Lemmas.LogSoftmax
import Verif.Props.SoftmaxGradient

/-! # Helper lemmas for C123: fully connected layers followed by softmax -/

namespace Rusty

open F32Ops Spec F32

variable [Libm]

omit [Libm] in
theorem trains_built {F : Type} [F32Ops F] {b : Build} {n : Net F} (h : Trains b n) : Built b n := by
  induction h with
  | new => exact .new _
  | switch_to_training n n' hb h => exact .uses _ _ hb (.switch_to_training _ _ h)
  | add_layer n l r n' _ hl h ih => exact .add_layer _ _ _ _ ih hl h
  | infer n x r n' _ h ih => exact .uses _ _ ih (.infer _ _ _ _ h)
  | backward n g r n' _ _ h ih => exact .uses _ _ ih (.backward _ _ _ _ h)

/-- What `infer` and `backward` do layer by layer, for a network of layers that have a backward pass. -/
theorem layer_rounds (b : Build) {n : Net F32} (hn : Trains b n) (hne : n.layers ≠ [])
    (hbk : ∀ l ∈ n.layers, notConv l ∧ backable l) {x g : Tensor F32} (hx : x.WF)
    (hxs : x.shape = n.input_shape) (hg : g.WF) (hgs : g.shape = n.output_shape) {n1 : Net F32}
    (i1 : n.infer b x = .ok (.ok (), n1)) :
    ∃ n2, n1.backward b g = .ok (.ok (), n2) ∧ n1.intermediate_states[0]? = some x ∧
      n2.intermediate_gradients[n.layers.length]? = some g ∧
      ∀ (i : Nat) l, n.layers[i]? = some l → ∃ s s' gi og og' out l1 l2,
        n1.intermediate_states[i]? = some s ∧ n1.intermediate_states[i + 1]? = some s' ∧
        n2.intermediate_gradients[i + 1]? = some gi ∧ n2.intermediate_gradients[i]? = some og' ∧
        n2.layers[i]? = some l2 ∧ (s.WF ∧ s.shape = l.get_input_shape) ∧
        (gi.WF ∧ gi.shape = l.get_output_shape) ∧ (out.WF ∧ out.shape = l.get_output_shape) ∧
        (og.WF ∧ og.shape = l.get_input_shape) ∧ (og'.WF ∧ og'.shape = l.get_input_shape) ∧
        applies b l s s' ∧
        l.forward b s out = .ok (.ok (), l1, s') ∧ l1.backward b s s' gi og = .ok (.ok (), l2, og') := by
  obtain ⟨hok, ht⟩ := trains_ready hn
  obtain ⟨n1', i1', i2, i3⟩ := infer_ok (b := b) hok hne hx hxs
  obtain rfl : n1 = n1' := (Prod.mk.inj (Except.ok.inj (i1.symm.trans i1'))).2
  obtain ⟨n1', r, n2, j1, j2, j3⟩ := infer_backward_ok (b := b) hok ht hne (fun l hl => (hbk l hl).1) hx hxs hg hgs
  obtain rfl : n1' = n1 := (Prod.mk.inj (Except.ok.inj (j1.symm.trans i1))).2
  have j3 := j3 fun l hl => (hbk l hl).2
  subst j3
  obtain ⟨c1, c2, c3⟩ := C43_chain b n1' n2 g j2
  have ht1 := infer_trainReady hok ht i1
  have ht2 := (trains_ready (.backward _ _ _ _ (.infer _ _ _ _ hn i1) hg j2)).2
  have hlen : n1'.layers.length = n.layers.length := forall₂_length (infer_effect n x _ i1).1
  refine ⟨n2, j2, i2, ?_, fun i l hi => ?_⟩
  · rw [← hlen]
    exact c1
  obtain ⟨s, s', e1, e2, e3, out, l', e4, e5, e6, e7, e8, e9⟩ := i3 _ _ hi
  obtain ⟨x', y', gi, og, og', l2, b1, b2, b3, b4, b5, b6, b7⟩ := c2 _ _ e4
  have hx' : x' = s := by
    unfold Network.get_intermediate_state at b1
    rw [e1] at b1
    exact (Except.ok.inj b1).symm
  have hy' : y' = s' := by
    unfold Network.get_intermediate_state at b2
    rw [e2] at b2
    exact (Except.ok.inj b2).symm
  subst hx' hy'
  refine ⟨x', y', gi, og, og', out, l', l2, e1, e2, b3, b5, b6, ⟨e5, e6⟩, ⟨?_, ?_⟩, ⟨e7, e8⟩, ⟨?_, ?_⟩,
    ⟨?_, ?_⟩, e3, e9, b7⟩
  · exact ht2.wf gi (List.mem_of_getElem? b3)
  · have := congrArg (fun q => q[i + 1]?) ht2.grads
    simp only [List.getElem?_map, b3, c3, e2, Option.map_some] at this
    exact (Option.some.inj this).trans e3.2.1
  · exact ht1.wf og (List.mem_of_getElem? b4)
  · have := congrArg (fun q => q[i]?) ht1.grads
    simp only [List.getElem?_map, b4, e1, Option.map_some] at this
    exact (Option.some.inj this).trans e6
  · exact ht2.wf og' (List.mem_of_getElem? b5)
  · have := congrArg (fun q => q[i]?) ht2.grads
    simp only [List.getElem?_map, b5, c3, e1, Option.map_some] at this
    exact (Option.some.inj this).trans e6

/-- the exact network of fully connected layers, as `exactNet` and as `realNet` -/
theorem exactNet_real (fs : List (FullyConnectedLayer F32)) (ξ : Nat → ℝ) :
    exactNet (fs.map .fc) (fun i _ _ => ξ i) = fun i _ _ => realNet (fs.map realLayer) ξ i := by
  induction fs generalizing ξ with
  | nil => rfl
  | cons f fs ih =>
    have e : exactLayer (.fc f) (fun i _ _ => ξ i) = fun i _ _ => (realLayer f).out ξ i := by
      funext o j k
      change max 0 (((List.range f.weights.shape.dj.toNat).map fun i =>
        (val f.weights o i 0).toReal * ξ i).sum + (val f.bias o 0 0).toReal) = _
      rw [list_sum_range]
      rfl
    change exactNet (fs.map .fc) (exactLayer (.fc f) fun i _ _ => ξ i) = _
    rw [e, ih]
    rfl

omit [Libm] in
theorem modify_same {α : Type} {ls : List α} {k : Nat} {a : α} {f : α → α} (h : ls[k]? = some a)
    (hf : f a = a) : ls.modify k f = ls := by
  refine List.ext_getElem? fun i => ?_
  rw [List.getElem?_modify]
  by_cases hi : k = i
  · subst hi
    rw [h]
    simp [hf]
  · simp [hi]

omit [Libm] in
/-- the derivative of the cross entropy of a network from the derivative of linear losses -/
theorem loss_deriv {m c : Nat} (hc : c < m) {z : ℝ → Nat → ℝ} {u : ℝ} {D : (Nat → ℝ) → ℝ}
    (h : ∀ g : Nat → ℝ, HasDerivAt (fun t => ∑ k ∈ Finset.range m, g k * z t k) (D g) u) :
    HasDerivAt (fun t => classLoss m (z t) c)
      (D fun k => softmaxOf m (z u) k - oneHot c k) u := by
  have h1 : ∀ o < m, HasDerivAt (fun t => z t o) (D fun k => if k = o then 1 else 0) u := by
    intro o ho
    refine (h fun k => if k = o then 1 else 0).congr_of_eventuallyEq
      (Filter.Eventually.of_forall fun t => ?_)
    simp only [ite_mul, one_mul, zero_mul]
    rw [Finset.sum_ite_eq' _ o, if_pos (Finset.mem_range.mpr ho)]
  have h2 := classLoss_deriv hc h1
  refine h2.congr_deriv ?_
  exact (HasDerivAt.fun_sum fun k hk => (h1 k (Finset.mem_range.mp hk)).const_mul
    (softmaxOf m (z u) k - oneHot c k)).unique (h _)

end Rusty
