import Verif.Lemmas.BatchError
import Verif.Lemmas.LossGradient
import Verif.Lemmas.Split
import Verif.Spec.BatchAccuracy
import Verif.Props.Batch
import Verif.Props.Classifier

/-! # C127: accuracy of the gradients of a batch in `f32` -/

namespace Rusty

open F32Ops Spec F32

variable [Libm]

/-- C127: Take a network of fully connected, max pool and softmax layers in training mode whose gradients are
cleared, and examples `ex e`, for `e` in the list `es`, that fit
it.  Suppose that training on the example of `e` alone leaves, as the gradient of a
weight, a finite float within `ε e` of the number `D e`.  Then training on all the examples leaves a float that is
finite if `∑(|D| + ε) ≤ 2^126`, and if it is finite it is within `∑ε + N/2^23 ∑(|D| + ε)` of `∑D`, `N < 2^22` being
the number of examples.  Likewise for the biases. -/
theorem C127_batch (b : Build) (n : Net F32) (hn : Trains b n) (hne : n.get_layers ≠ [])
    (hbk : ∀ l ∈ n.get_layers, backable l) {ι : Type} (ex : ι → Example F32)
    (es : List ι) (hes : ∀ e ∈ es, (ex e).Fits n)
    (hN : es.length < 2 ^ 22) :
    ∃ n', Batch b n (es.map ex) n' ∧ ∀ (c : Nat) l, n.get_layers[c]? = some (.fc l) →
      ∃ l', n'.get_layers[c]? = some (.fc l') ∧ ∀ o, o < l.weights.shape.di.toNat → ∀ D ε : ι → ℝ,
      (val l.bias_gradients o 0 0 = zero →
        (∀ e ∈ es, ∀ n1 l1 v, Batch b n [ex e] n1 → n1.get_layers[c]? = some (.fc l1) →
          l1.bias_gradients.get_item b (ix o 0 0) = .ok v → v.isFinite = true ∧ |v.toReal - D e| ≤ ε e) →
        ∃ v, l'.bias_gradients.get_item b (ix o 0 0) = .ok v ∧
          ((es.map fun e => |D e| + ε e).sum ≤ 2 ^ 126 → v.isFinite = true) ∧
          (v.isFinite = true → |v.toReal - (es.map D).sum| ≤
            (es.map ε).sum + es.length / 2 ^ 23 * (es.map fun e => |D e| + ε e).sum)) ∧
      ∀ i, i < l.weights.shape.dj.toNat → val l.weights_gradients o i 0 = zero →
        (∀ e ∈ es, ∀ n1 l1 v, Batch b n [ex e] n1 → n1.get_layers[c]? = some (.fc l1) →
          l1.weights_gradients.get_item b (ix o i 0) = .ok v → v.isFinite = true ∧ |v.toReal - D e| ≤ ε e) →
        ∃ v, l'.weights_gradients.get_item b (ix o i 0) = .ok v ∧
          ((es.map fun e => |D e| + ε e).sum ≤ 2 ^ 126 → v.isFinite = true) ∧
          (v.isFinite = true → |v.toReal - (es.map D).sum| ≤
            (es.map ε).sum + es.length / 2 ^ 23 * (es.map fun e => |D e| + ε e).sum) := by
  obtain ⟨dW, dB, H⟩ := C91_batch b n hn hne hbk
  obtain ⟨n', h1, -, -, h2⟩ := H n (es.map ex) hn rfl fun e' he' => by
    obtain ⟨e, he, rfl⟩ := List.mem_map.mp he'
    exact hes e he
  refine ⟨n', h1, fun c l hc => ?_⟩
  obtain ⟨l', h3, h4⟩ := h2 c l hc
  have one : ∀ e ∈ es, ∃ n1 l1, Batch b n [ex e] n1 ∧ n1.get_layers[c]? = some (.fc l1) ∧
      ∀ o, o < l.weights.shape.di.toNat →
        l1.bias_gradients.get_item b (ix o 0 0) = .ok (F32.add (val l.bias_gradients o 0 0) (dB (ex e) c o)) ∧
        ∀ i, i < l.weights.shape.dj.toNat → l1.weights_gradients.get_item b (ix o i 0) =
          .ok (F32.add (val l.weights_gradients o i 0) (dW (ex e) c o i)) := by
    intro e he
    obtain ⟨n1, k1, -, -, k2⟩ := H n [ex e] hn rfl fun e' he' => by
      obtain rfl := List.mem_singleton.mp he'
      exact hes e he
    obtain ⟨l1, k3, k4⟩ := k2 c l hc
    exact ⟨n1, l1, k1, k3, k4⟩
  have z0 : (zero : F32).code = 0 := rfl
  refine ⟨l', h3, fun o ho D ε => ⟨fun hz hsingle => ?_, fun i hi hz hsingle => ?_⟩⟩
  · obtain ⟨r1, r2⟩ := sum_near es (fun e => dB (ex e) c o) D ε hN (fun e he => by
      obtain ⟨n1, l1, k1, k3, k4⟩ := one e he
      obtain ⟨q1, q2⟩ := hsingle e he n1 l1 _ k1 k3 (k4 o ho).1
      rw [hz] at q1 q2
      obtain ⟨q3, q4⟩ := zero_add_toReal z0 q1
      exact ⟨q3, q4 ▸ q2⟩)
    have h5 := (h4 o ho).1
    rw [hz, List.map_map] at h5
    exact ⟨_, h5, r1, r2⟩
  · obtain ⟨r1, r2⟩ := sum_near es (fun e => dW (ex e) c o i) D ε hN (fun e he => by
      obtain ⟨n1, l1, k1, k3, k4⟩ := one e he
      obtain ⟨q1, q2⟩ := hsingle e he n1 l1 _ k1 k3 ((k4 o ho).2 i hi)
      rw [hz] at q1 q2
      obtain ⟨q3, q4⟩ := zero_add_toReal z0 q1
      exact ⟨q3, q4 ▸ q2⟩)
    have h5 := (h4 o ho).2 i hi
    rw [hz, List.map_map] at h5
    exact ⟨_, h5, r1, r2⟩

/-- C127: Take a classifier of fully connected layers followed by softmax in training mode with finite parameters
and cleared gradients, whose scores are within `e'` of the exact ones, by `Accuracy`, and in the range of softmax.
Let the labelled examples be ready for it.  Then the client can train on all of them.  Let `D` run through the partial
derivatives of the cross entropy of the exact network for the single examples and let `E` be the bound listed in `bs`
for the layer.  A recorded weight or bias gradient is finite if `∑(|D| + E) ≤ 2^126`, and if it is finite it is
within `N·E + N/2^23 ∑(|D| + E)` of the partial derivative `∑D` of the total cross entropy. -/
theorem C127_cross_entropy [ExpAccurate] (b : Build) (n : Net F32) (hn : Trains b n)
    (fs : List (FullyConnectedLayer F32)) (l : SoftmaxLayer F32)
    (hfs : n.get_layers = fs.map .fc ++ [.sm l]) (hne : fs ≠ [])
    (hfin : ∀ l ∈ fs, (∀ o i, o < l.weights.shape.di.toNat → i < l.weights.shape.dj.toNat →
        (val l.weights o i 0).isFinite = true) ∧
      ∀ o, o < l.weights.shape.di.toNat → (val l.bias o 0 0).isFinite = true)
    (hclear : ∀ l ∈ fs, (∀ o i, o < l.weights.shape.di.toNat → i < l.weights.shape.dj.toNat →
        val l.weights_gradients o i 0 = zero) ∧
      ∀ o, o < l.weights.shape.di.toNat → val l.bias_gradients o 0 0 = zero)
    (M e M' e' G' d' : ℝ) (bs : List (ℝ × ℝ)) (hM : 0 ≤ M) (he : 0 ≤ e)
    (hA : Accuracy (fs.map .fc) M e M' e') (hr : M' + e' ≤ 71) (hm : n.get_output_shape.di.toNat < 2 ^ 22)
    (ss : List Labelled) (hss : ∀ s ∈ ss, s.Ready b n fs M e e' G' d' bs) (hs0 : ss ≠ []) (hN : ss.length < 2 ^ 22) :
    ∃ n', Batch b n (ss.map (·.ex)) n' ∧
      ∀ (k : Nat) l, fs[k]? = some l → ∃ l' ew eb, n'.get_layers[k]? = some (.fc l') ∧ bs[k]? = some (ew, eb) ∧
        (∀ o i, o < l.weights.shape.di.toNat → i < l.weights.shape.dj.toNat → 
          let D := fun s : Labelled =>
            lossWeightGrad n.get_output_shape.di.toNat (fs.map realLayer) s.ξ s.class_ k o i
          HasDerivAt (fun t => (ss.map fun s => classLoss n.get_output_shape.di.toNat
            (realNet ((fs.map realLayer).modify k fun r => r.withWeight o i t) s.ξ) s.class_).sum) (ss.map D).sum
            (val l.weights o i 0).toReal ∧
          (∀ s ∈ ss, HasDerivAt (fun t => classLoss n.get_output_shape.di.toNat
            (realNet ((fs.map realLayer).modify k fun r => r.withWeight o i t) s.ξ) s.class_) (D s)
            (val l.weights o i 0).toReal) ∧
          ∃ v, l'.weights_gradients.get_item b (ix o i 0) = .ok v ∧
            ((ss.map fun s => |D s| + ew).sum ≤ 2 ^ 126 → v.isFinite = true) ∧
            (v.isFinite = true → |v.toReal - (ss.map D).sum| ≤
              ss.length * ew + ss.length / 2 ^ 23 * (ss.map fun s => |D s| + ew).sum)) ∧
        (∀ o, o < l.weights.shape.di.toNat → 
          let D := fun s : Labelled =>
            lossBiasGrad n.get_output_shape.di.toNat (fs.map realLayer) s.ξ s.class_ k o
          HasDerivAt (fun t => (ss.map fun s => classLoss n.get_output_shape.di.toNat
            (realNet ((fs.map realLayer).modify k fun r => r.withBias o t) s.ξ) s.class_).sum) (ss.map D).sum
            (val l.bias o 0 0).toReal ∧
          (∀ s ∈ ss, HasDerivAt (fun t => classLoss n.get_output_shape.di.toNat
            (realNet ((fs.map realLayer).modify k fun r => r.withBias o t) s.ξ) s.class_) (D s)
            (val l.bias o 0 0).toReal) ∧
          ∃ v, l'.bias_gradients.get_item b (ix o 0 0) = .ok v ∧
            ((ss.map fun s => |D s| + eb).sum ≤ 2 ^ 126 → v.isFinite = true) ∧
            (v.isFinite = true → |v.toReal - (ss.map D).sum| ≤
              ss.length * eb + ss.length / 2 ^ 23 * (ss.map fun s => |D s| + eb).sum)) := by
  classical
  obtain ⟨hok, ht⟩ := trains_ready hn
  have hfs' : n.layers = fs.map .fc ++ [.sm l] := hfs
  have hlast : n.layers[fs.length]? = some (.sm l) := by
    rw [hfs', List.getElem?_append_right (by rw [List.length_map]), List.length_map, Nat.sub_self]
    rfl
  have hith : ∀ (i : Nat) f, fs[i]? = some f → n.layers[i]? = some (.fc f) := by
    intro i f h
    have := (List.getElem?_eq_some_iff.mp h).1
    rw [hfs', List.getElem?_append_left (by rw [List.length_map]; exact this), List.getElem?_map, h]
    rfl
  have hne' : n.layers ≠ [] := by rw [hfs']; simp
  have hpos : 0 < fs.length := List.length_pos_of_ne_nil hne
  obtain ⟨f0, hf0⟩ : ∃ f, fs[fs.length - 1]? = some f := ⟨_, List.getElem?_eq_getElem (by omega)⟩
  have hlink := hok.chain.links (fs.length - 1) (.fc f0) (.sm l) (hith _ _ hf0)
    (by rw [Nat.sub_add_cancel hpos]; exact hlast)
  have hf0o : f0.Ok := hok.layers _ (List.mem_of_getElem? (hith _ _ hf0))
  have hls : l.shape = ⟨f0.weights.shape.di, 1, 1⟩ := by
    change f0.bias.shape = l.shape at hlink
    rw [← hlink]
    exact hf0o.rows
  have hdim : Dims n.get_input_shape.di.toNat (fs.map realLayer) n.get_output_shape.di.toNat :=
    classifier_dims hok hfs hne
  have hbk : ∀ a ∈ n.layers, backable a := by
    intro a ha
    rw [hfs'] at ha
    rcases List.mem_append.mp ha with ha | ha
    · obtain ⟨f, _, rfl⟩ := List.mem_map.mp ha
      trivial
    · obtain rfl := List.mem_singleton.mp ha
      exact ⟨by rw [hls], by rw [hls]⟩
  -- one example
  have one : ∀ s ∈ ss, ∃ n2, Batch b n [s.ex] n2 ∧
      ∀ (k : Nat) l, fs[k]? = some l → ∃ l2 ew eb, n2.get_layers[k]? = some (.fc l2) ∧
        bs[k]? = some (ew, eb) ∧
        (∀ o i, o < l.weights.shape.di.toNat → i < l.weights.shape.dj.toNat →
          ∃ v D, l2.weights_gradients.get_item b (ix o i 0) = .ok v ∧ v.isFinite = true ∧
            HasDerivAt (fun t => classLoss n.get_output_shape.di.toNat
              (realNet ((fs.map realLayer).modify k fun r => r.withWeight o i t) s.ξ) s.class_) D
              (val l.weights o i 0).toReal ∧
            |v.toReal - D| ≤ ew) ∧
        (∀ o, o < l.weights.shape.di.toNat →
          ∃ v D, l2.bias_gradients.get_item b (ix o 0 0) = .ok v ∧ v.isFinite = true ∧
            HasDerivAt (fun t => classLoss n.get_output_shape.di.toNat
              (realNet ((fs.map realLayer).modify k fun r => r.withBias o t) s.ξ) s.class_) D
              (val l.bias o 0 0).toReal ∧
            |v.toReal - D| ≤ eb) := by
    intro s hs
    obtain ⟨r1, r2, r3, r4, r5⟩ := hss s hs
    obtain ⟨n1, i1, _⟩ := infer_ok (b := b) hok hne' r1.x.1 r1.x.2
    obtain ⟨p, p1, _⟩ := infer_last_state hok hne' i1
    obtain ⟨g1, g2⟩ := r5 n1 p i1 p1
    obtain ⟨n2, g0, q1, _, _, q4⟩ := C123_step b n hn fs l hfs hne hfin hclear s.ex.x r1.x.1 r1.x.2 s.ξ M e M' e' G' d'
      bs hM he r2 hA hr hm r3 n1 i1 p p1 s.class_ r4 g1 s.ex.g r1.g.1 r1.g.2 g2
    exact ⟨n2, .step _ _ _ _ _ _ i1 q1 (.done _), q4⟩
  have deriv : ∀ (f : Labelled → ℝ → ℝ) (D : Labelled → ℝ) (w : ℝ) (L : List Labelled),
      (∀ s ∈ L, HasDerivAt (f s) (D s) w) →
      HasDerivAt (fun t => (L.map fun s => f s t).sum) (L.map D).sum w := by
    intro f D w L
    induction L with
    | nil => intro _; simpa using hasDerivAt_const w (0 : ℝ)
    | cons s L ih =>
      intro h
      simp only [List.map_cons, List.sum_cons]
      exact (h s (List.mem_cons_self ..)).add (ih fun s hs => h s (List.mem_cons_of_mem _ hs))
  have const : ∀ x : ℝ, (ss.map fun _ => x).sum = ss.length * x := by
    intro x
    simp [List.map_const', List.sum_replicate]
  obtain ⟨n', h1, h2⟩ := C127_batch b n hn hne' hbk Labelled.ex ss (fun s hs => (hss s hs).fits) hN
  refine ⟨n', h1, fun k f hk => ?_⟩
  obtain ⟨l', h3, h4⟩ := h2 k f (hith k f hk)
  obtain ⟨s0, hs0⟩ := List.exists_mem_of_ne_nil ss hs0
  obtain ⟨_, _, o1⟩ := one s0 hs0
  obtain ⟨_, ew, eb, _, hbk, _⟩ := o1 k f hk
  have hml : (fs.map realLayer)[k]? = some (realLayer f) := by rw [List.getElem?_map, hk]; rfl
  refine ⟨l', ew, eb, h3, hbk, fun o i ho hi => ?_, fun o ho => ?_⟩
  · intro D
    have key : ∀ s ∈ ss, HasDerivAt (fun t => classLoss n.get_output_shape.di.toNat
        (realNet ((fs.map realLayer).modify k fun r => r.withWeight o i t) s.ξ) s.class_) (D s)
        (val f.weights o i 0).toReal ∧ ∀ n1 l1 v, Batch b n [s.ex] n1 → n1.get_layers[k]? = some (.fc l1) →
          l1.weights_gradients.get_item b (ix o i 0) = .ok v → v.isFinite = true ∧ |v.toReal - D s| ≤ ew := by
      intro s hs
      obtain ⟨n2, k1, k2⟩ := one s hs
      obtain ⟨l2, ew', eb', k3, k4, k5, _⟩ := k2 k f hk
      obtain ⟨v, D', k6, k7, k8, k9⟩ := k5 o i ho hi
      have hd := loss_weight_deriv hdim (gradBounds_noKink (hss s hs).bounds hM he) (hss s hs).label hml o i ho hi
      obtain rfl : D' = D s := k8.unique hd
      obtain ⟨rfl, rfl⟩ := Prod.mk.inj (Option.some.inj (k4.symm.trans hbk))
      refine ⟨k8, fun n1 l1 v1 m1 m2 m3 => ?_⟩
      rw [batch_unique k1 m1, k3] at m2
      obtain rfl := AnyLayer.fc.inj (Option.some.inj m2)
      obtain rfl := Except.ok.inj (m3.symm.trans k6)
      exact ⟨k7, k9⟩
    refine ⟨deriv _ D _ ss fun s hs => (key s hs).1, fun s hs => (key s hs).1, ?_⟩
    have := (h4 o ho D (fun _ => ew)).2 i hi ((hclear f (List.mem_of_getElem? hk)).1 o i ho hi)
      fun s hs => (key s hs).2
    rwa [const] at this
  · intro D
    have key : ∀ s ∈ ss, HasDerivAt (fun t => classLoss n.get_output_shape.di.toNat
        (realNet ((fs.map realLayer).modify k fun r => r.withBias o t) s.ξ) s.class_) (D s)
        (val f.bias o 0 0).toReal ∧ ∀ n1 l1 v, Batch b n [s.ex] n1 → n1.get_layers[k]? = some (.fc l1) →
          l1.bias_gradients.get_item b (ix o 0 0) = .ok v → v.isFinite = true ∧ |v.toReal - D s| ≤ eb := by
      intro s hs
      obtain ⟨n2, k1, k2⟩ := one s hs
      obtain ⟨l2, ew', eb', k3, k4, _, k5⟩ := k2 k f hk
      obtain ⟨v, D', k6, k7, k8, k9⟩ := k5 o ho
      have hd := loss_bias_deriv hdim (gradBounds_noKink (hss s hs).bounds hM he) (hss s hs).label hml o ho
      obtain rfl : D' = D s := k8.unique hd
      obtain ⟨rfl, rfl⟩ := Prod.mk.inj (Option.some.inj (k4.symm.trans hbk))
      refine ⟨k8, fun n1 l1 v1 m1 m2 m3 => ?_⟩
      rw [batch_unique k1 m1, k3] at m2
      obtain rfl := AnyLayer.fc.inj (Option.some.inj m2)
      obtain rfl := Except.ok.inj (m3.symm.trans k6)
      exact ⟨k7, k9⟩
    refine ⟨deriv _ D _ ss fun s hs => (key s hs).1, fun s hs => (key s hs).1, ?_⟩
    have := (h4 o ho D (fun _ => eb)).1 ((hclear f (List.mem_of_getElem? hk)).2 o ho)
      fun s hs => (key s hs).2
    rwa [const] at this

/-- The assumptions of C127 can be met: one layer with two scores and softmax, trained twice on the input 1 with the
second class as the right one. -/
theorem exScores_ready [ExpAccurate] : ∃ (n : Net F32) (s : Labelled) (M' e' G' d' : ℝ) (bs : List (ℝ × ℝ)), Trains .debug n ∧
    n.get_layers = [exScores].map .fc ++ [.sm exSM2] ∧ n.get_output_shape.di.toNat = 2 ∧
    (∀ l ∈ [exScores], (∀ o i, o < l.weights.shape.di.toNat → i < l.weights.shape.dj.toNat →
        (val l.weights o i 0).isFinite = true ∧ val l.weights_gradients o i 0 = zero) ∧
      ∀ o, o < l.weights.shape.di.toNat → (val l.bias o 0 0).isFinite = true ∧
        val l.bias_gradients o 0 0 = zero) ∧
    Accuracy ([exScores].map .fc) 1 0 M' e' ∧ M' + e' ≤ 71 ∧
    (∀ s' ∈ [s, s], s'.Ready .debug n [exScores] 1 0 e' G' d' bs) ∧
    ((s.ξ = fun _ => 1) ∧ s.class_ = 1) ∧
    ∃ ew eb, bs = [(ew, eb)] ∧ 0 ≤ ew ∧ ew ≤ 1 / 64 ∧ 0 ≤ eb ∧ eb ≤ 1 / 64 := by
  obtain ⟨n, n1, p, g, M', e', G', d', bs, h1, h2, h3, h4, h5, h6, h7, h8, h9, h10, h11, h12, h13, h14, h15⟩ :=
    exScores_step
  refine ⟨n, ⟨⟨single ⟨0x3f800000⟩, g⟩, fun _ => 1, 1⟩, M', e', G', d', bs, h1, h2, h4, ?_, h6, h7, ?_, ⟨rfl, rfl⟩, h15⟩
  · intro l hl
    obtain rfl := List.mem_singleton.mp hl
    refine ⟨fun o i ho hi => ?_, fun o ho => ?_⟩
    · have ho : o < 2 := ho
      have hi : i < 1 := hi
      obtain rfl : i = 0 := by omega
      obtain rfl | rfl : o = 0 ∨ o = 1 := by omega
      all_goals exact ⟨by change (⟨0x3f800000⟩ : F32).isFinite = true; decide, rfl⟩
    · have ho : o < 2 := ho
      obtain rfl | rfl : o = 0 ∨ o = 1 := by omega
      all_goals exact ⟨by change (⟨0⟩ : F32).isFinite = true; decide, rfl⟩
  · intro s' hs'
    obtain rfl : s' = ⟨⟨single ⟨0x3f800000⟩, g⟩, fun _ => 1, 1⟩ := by simpa using hs'
    refine ⟨⟨⟨single_wf _, h3⟩, h12, h13⟩, h5, h8, by rw [h4]; exact Nat.one_lt_two, fun n1' p' i1 i2 => ?_⟩
    obtain rfl := (Prod.mk.inj (Except.ok.inj (h9.symm.trans i1))).2
    obtain rfl := Except.ok.inj (h10.symm.trans i2)
    exact ⟨h11, h14⟩

/-- The assumptions of C127 can be met. -/
example [ExpAccurate] : ∃ (n : Net F32) (s : Labelled) (M' e' G' d' : ℝ) (bs : List (ℝ × ℝ)), Trains .debug n ∧
    n.get_layers = [exScores].map .fc ++ [.sm exSM2] ∧ n.get_output_shape.di.toNat = 2 ∧
    (∀ l ∈ [exScores], (∀ o i, o < l.weights.shape.di.toNat → i < l.weights.shape.dj.toNat →
        (val l.weights o i 0).isFinite = true ∧ val l.weights_gradients o i 0 = zero) ∧
      ∀ o, o < l.weights.shape.di.toNat → (val l.bias o 0 0).isFinite = true ∧
        val l.bias_gradients o 0 0 = zero) ∧
    Accuracy ([exScores].map .fc) 1 0 M' e' ∧ M' + e' ≤ 71 ∧
    ∀ s' ∈ [s, s], s'.Ready .debug n [exScores] 1 0 e' G' d' bs := by
  obtain ⟨n, s, M', e', G', d', bs, h1, h2, h3, h4, h5, h6, h7, -⟩ := exScores_ready
  exact ⟨n, s, M', e', G', d', bs, h1, h2, h3, h4, h5, h6, h7⟩

end Rusty
