import Verif.Lemmas.Saturation
import Verif.Props.Batch
import Verif.Props.Monotone

/-! # C140: recorded gradients stop growing -/

namespace Rusty

open F32Ops Spec F32

variable [Libm]

/-- what training on a list of examples leaves, in terms of what the single examples leave -/
theorem batch_gradients (b : Build) (n : Net F32) (hn : Trains b n) (hne : n.get_layers ≠ [])
    (hbk : ∀ l ∈ n.get_layers, backable l) (es : List (Example F32)) (hes : ∀ e ∈ es, e.Fits n) :
    ∃ n', Batch b n es n' ∧ ∀ (c : Nat) l, n.get_layers[c]? = some (.fc l) →
      ∃ l', n'.get_layers[c]? = some (.fc l') ∧ ∀ o, o < l.weights.shape.di.toNat → ∀ P : F32 → Prop,
      (val l.bias_gradients o 0 0 = zero →
        (∀ e ∈ es, ∀ n1 l1 v, Batch b n [e] n1 → n1.get_layers[c]? = some (.fc l1) →
          l1.bias_gradients.get_item b (ix o 0 0) = .ok v → P v) →
        ∃ L : List F32, L.length = es.length ∧ (∀ v ∈ L, P (F32.add zero v)) ∧
          l'.bias_gradients.get_item b (ix o 0 0) = .ok (L.foldl F32.add zero)) ∧
      ∀ i, i < l.weights.shape.dj.toNat → val l.weights_gradients o i 0 = zero →
        (∀ e ∈ es, ∀ n1 l1 v, Batch b n [e] n1 → n1.get_layers[c]? = some (.fc l1) →
          l1.weights_gradients.get_item b (ix o i 0) = .ok v → P v) →
        ∃ L : List F32, L.length = es.length ∧ (∀ v ∈ L, P (F32.add zero v)) ∧
          l'.weights_gradients.get_item b (ix o i 0) = .ok (L.foldl F32.add zero) := by
  obtain ⟨dW, dB, H⟩ := C91_batch b n hn hne hbk
  obtain ⟨n', h1, -, -, h2⟩ := H n es hn rfl hes
  refine ⟨n', h1, fun c l hc => ?_⟩
  obtain ⟨l', h3, h4⟩ := h2 c l hc
  refine ⟨l', h3, fun o ho P => ?_⟩
  have one : ∀ e ∈ es, ∃ n1 l1, Batch b n [e] n1 ∧ n1.get_layers[c]? = some (.fc l1) ∧
      l1.bias_gradients.get_item b (ix o 0 0) = .ok (F32.add (val l.bias_gradients o 0 0) (dB e c o)) ∧
      ∀ i, i < l.weights.shape.dj.toNat → l1.weights_gradients.get_item b (ix o i 0) =
        .ok (F32.add (val l.weights_gradients o i 0) (dW e c o i)) := by
    intro e he
    obtain ⟨n1, k1, -, -, k2⟩ := H n [e] hn rfl fun e' he' => by
      rw [List.mem_singleton.mp he']
      exact hes e he
    obtain ⟨l1, k3, k4⟩ := k2 c l hc
    exact ⟨n1, l1, k1, k3, (k4 o ho).1, (k4 o ho).2⟩
  refine ⟨fun hz hP => ⟨es.map fun e => dB e c o, List.length_map _, fun v hv => ?_, ?_⟩, fun i hi hz hP =>
    ⟨es.map fun e => dW e c o i, List.length_map _, fun v hv => ?_, ?_⟩⟩
  · obtain ⟨e, he, rfl⟩ := List.mem_map.mp hv
    obtain ⟨n1, l1, k1, k3, k4, _⟩ := one e he
    rw [hz] at k4
    exact hP e he n1 l1 _ k1 k3 k4
  · rw [(h4 o ho).1, hz]; rfl
  · obtain ⟨e, he, rfl⟩ := List.mem_map.mp hv
    obtain ⟨n1, l1, k1, k3, _, k4⟩ := one e he
    have k4 := k4 i hi
    rw [hz] at k4
    exact hP e he n1 l1 _ k1 k3 k4
  · rw [(h4 o ho).2 i hi, hz]; rfl

/-- C140: Take a network of fully connected, max pool and softmax layers in training mode and any number of
examples that fit it.  Let the gradient of a weight, or of a bias, be cleared.  If every example alone would leave
there a finite number of at most the magnitude of the float `B`, then all examples together leave a finite number
of at most the magnitude `2^25 B`, no matter how many examples there are. -/
theorem C140_bound (b : Build) (n : Net F32) (hn : Trains b n) (hne : n.get_layers ≠ [])
    (hbk : ∀ l ∈ n.get_layers, backable l) (es : List (Example F32)) (hes : ∀ e ∈ es, e.Fits n) :
    ∃ n', Batch b n es n' ∧ ∀ (c : Nat) l, n.get_layers[c]? = some (.fc l) →
      ∃ l', n'.get_layers[c]? = some (.fc l') ∧ ∀ o, o < l.weights.shape.di.toNat →
      ∀ B : F32, 2 ^ 25 * |B.toReal| < 2 ^ 128 →
      (val l.bias_gradients o 0 0 = zero →
        (∀ e ∈ es, ∀ n1 l1 v, Batch b n [e] n1 → n1.get_layers[c]? = some (.fc l1) →
          l1.bias_gradients.get_item b (ix o 0 0) = .ok v → v.isFinite = true ∧ |v.toReal| ≤ |B.toReal|) →
        ∃ v, l'.bias_gradients.get_item b (ix o 0 0) = .ok v ∧ v.isFinite = true ∧
          |v.toReal| ≤ 2 ^ 25 * |B.toReal|) ∧
      ∀ i, i < l.weights.shape.dj.toNat → val l.weights_gradients o i 0 = zero →
        (∀ e ∈ es, ∀ n1 l1 v, Batch b n [e] n1 → n1.get_layers[c]? = some (.fc l1) →
          l1.weights_gradients.get_item b (ix o i 0) = .ok v → v.isFinite = true ∧ |v.toReal| ≤ |B.toReal|) →
        ∃ v, l'.weights_gradients.get_item b (ix o i 0) = .ok v ∧ v.isFinite = true ∧
          |v.toReal| ≤ 2 ^ 25 * |B.toReal| := by
  obtain ⟨n', h1, h2⟩ := batch_gradients b n hn hne hbk es hes
  refine ⟨n', h1, fun c l hc => ?_⟩
  obtain ⟨l', h3, h4⟩ := h2 c l hc
  refine ⟨l', h3, fun o ho B hB => ?_⟩
  obtain ⟨h5, h6⟩ := h4 o ho fun v => v.isFinite = true ∧ |v.toReal| ≤ |B.toReal|
  have z0 : (zero : F32).code = 0 := rfl
  have key : ∀ L : List F32, (∀ v ∈ L, (F32.add zero v).isFinite = true ∧ |(F32.add zero v).toReal| ≤ |B.toReal|) →
      (L.foldl F32.add zero).isFinite = true ∧ |(L.foldl F32.add zero).toReal| ≤ 2 ^ 25 * |B.toReal| :=
    fun L hL => foldl_saturated_real B hB L (fun y hy => by
      obtain ⟨q1, q2⟩ := hL y hy
      obtain ⟨q3, q4⟩ := zero_add_toReal z0 q1
      exact ⟨q3, q4 ▸ q2⟩) _ (by rfl) toReal_zero
  refine ⟨fun hz hs => ?_, fun i hi hz hs => ?_⟩
  · obtain ⟨L, _, l2, l3⟩ := h5 hz hs
    exact ⟨_, l3, key L l2⟩
  · obtain ⟨L, _, l2, l3⟩ := h6 i hi hz hs
    exact ⟨_, l3, key L l2⟩

/-- C140: If every example alone would leave the gradient 1, then `N` examples leave the gradient `N` as long as
`N ≤ 2^24`, and exactly `2^24` from then on. -/
theorem C140_stops (b : Build) (n : Net F32) (hn : Trains b n) (hne : n.get_layers ≠ [])
    (hbk : ∀ l ∈ n.get_layers, backable l) (es : List (Example F32)) (hes : ∀ e ∈ es, e.Fits n) :
    ∃ n', Batch b n es n' ∧ ∀ (c : Nat) l, n.get_layers[c]? = some (.fc l) →
      ∃ l', n'.get_layers[c]? = some (.fc l') ∧ ∀ o, o < l.weights.shape.di.toNat →
      (val l.bias_gradients o 0 0 = zero →
        (∀ e ∈ es, ∀ n1 l1 v, Batch b n [e] n1 → n1.get_layers[c]? = some (.fc l1) →
          l1.bias_gradients.get_item b (ix o 0 0) = .ok v → v.isFinite = true ∧ v.toReal = 1) →
        ∃ v, l'.bias_gradients.get_item b (ix o 0 0) = .ok v ∧ v.isFinite = true ∧
          v.toReal = (min es.length (2 ^ 24) : Nat)) ∧
      ∀ i, i < l.weights.shape.dj.toNat → val l.weights_gradients o i 0 = zero →
        (∀ e ∈ es, ∀ n1 l1 v, Batch b n [e] n1 → n1.get_layers[c]? = some (.fc l1) →
          l1.weights_gradients.get_item b (ix o i 0) = .ok v → v.isFinite = true ∧ v.toReal = 1) →
        ∃ v, l'.weights_gradients.get_item b (ix o i 0) = .ok v ∧ v.isFinite = true ∧
          v.toReal = (min es.length (2 ^ 24) : Nat) := by
  obtain ⟨n', h1, h2⟩ := batch_gradients b n hn hne hbk es hes
  refine ⟨n', h1, fun c l hc => ?_⟩
  obtain ⟨l', h3, h4⟩ := h2 c l hc
  refine ⟨l', h3, fun o ho => ?_⟩
  obtain ⟨h5, h6⟩ := h4 o ho fun v => v.isFinite = true ∧ v.toReal = 1
  have z0 : (zero : F32).code = 0 := rfl
  have key : ∀ L : List F32, (∀ v ∈ L, (F32.add zero v).isFinite = true ∧ (F32.add zero v).toReal = 1) →
      (L.foldl F32.add zero).isFinite = true ∧ (L.foldl F32.add zero).toReal = (min L.length (2 ^ 24) : Nat) := by
    intro L hL
    have := foldl_count L (fun y hy => by
      obtain ⟨q1, q2⟩ := hL y hy
      obtain ⟨q3, q4⟩ := zero_add_toReal z0 q1
      exact ⟨q3, q4 ▸ q2⟩) (zero : F32) (by rfl) 0 (Nat.zero_le _) (toReal_zero.trans Nat.cast_zero.symm)
    rwa [Nat.zero_add] at this
  refine ⟨fun hz hs => ?_, fun i hi hz hs => ?_⟩
  · obtain ⟨L, l1, l2, l3⟩ := h5 hz hs
    exact ⟨_, l3, l1 ▸ key L l2⟩
  · obtain ⟨L, l1, l2, l3⟩ := h6 i hi hz hs
    exact ⟨_, l3, l1 ▸ key L l2⟩

/-- a 1 -> 1 layer with weight 1 and bias 0 for training -/
def exOne : FullyConnectedLayer F32 :=
  { exFc ⟨0x3f800000⟩ ⟨0⟩ with run_state := .Training }

theorem exOne_ok : (AnyLayer.fc exOne).Ok :=
  ⟨single_wf _, single_wf _, rfl, rfl, fun _ => ⟨⟨single_wf _, rfl⟩, ⟨single_wf _, rfl⟩,
    ⟨single_wf _, rfl⟩, ⟨single_wf _, rfl⟩⟩⟩

/-- input 1 and loss gradient 1 -/
def exOneStep : Example F32 := ⟨single ⟨0x3f800000⟩, single ⟨0x3f800000⟩⟩

theorem exOne_masked (g : Tensor F32) (hg : val g 0 0 0 = ⟨0x3f800000⟩) :
    masked exOne ⟨exOneStep.x, g, exOneStep.x, exOneStep.x⟩ 0 = ⟨0x3f800000⟩ := by
  have e : preact exOne exOneStep.x 0 =
      F32.add (F32.add (mk' false 0) (F32.mul ⟨0x3f800000⟩ ⟨0x3f800000⟩)) ⟨0⟩ := by
    unfold preact Spec.sum
    rw [show exOne.weights.shape.dj.toNat = 1 from rfl, List.range_succ, List.range_zero,
      List.nil_append, List.map_singleton, List.foldl_cons, List.foldl_nil]
    rfl
  unfold masked
  rw [e, hg]
  change F32.mul (if F32.gt (F32.add (F32.add (mk' false 0) (F32.mul ⟨0x3f800000⟩ ⟨0x3f800000⟩)) ⟨0⟩) (mk' false 0)
    then mk' false (127 * 2 ^ 23) else mk' false 0) ⟨0x3f800000⟩ = _
  decide +kernel

/-- C140: The limit is reached.  A network of one 1 -> 1 layer, trained `N` times on the same example, records the
gradients `N` of the weight and of the bias for `N ≤ 2^24`, and `2^24` for all larger `N`. -/
theorem C140_witness (b : Build) : ∃ (n : Net F32) (e : Example F32), Trains b n ∧ n.get_layers = [.fc exOne] ∧
    e.Fits n ∧ ∀ N, ∃ n' l', Batch b n (List.replicate N e) n' ∧ n'.get_layers[0]? = some (.fc l') ∧
      ∃ v w, l'.bias_gradients.get_item b (ix 0 0 0) = .ok v ∧ l'.weights_gradients.get_item b (ix 0 0 0) = .ok w ∧
        v.isFinite = true ∧ w.isFinite = true ∧ v.toReal = ((min N (2 ^ 24) : Nat) : ℝ) ∧
        w.toReal = ((min N (2 ^ 24) : Nat) : ℝ) := by
  obtain ⟨n, a1, a2, a3, a4⟩ : ∃ n : Net F32, (Network.new .Training : Net F32).add_layer b (.fc exOne) =
      .ok (.ok (), n) ∧ n.get_layers = [.fc exOne] ∧ n.get_input_shape = ⟨1, 1, 1⟩ ∧
      n.get_output_shape = ⟨1, 1, 1⟩ := by
    cases b <;> exact ⟨_, rfl, rfl, rfl, rfl⟩
  have hn : Trains b n := .add_layer _ (.fc exOne) _ _ .new exOne_ok a1
  have hne : n.get_layers ≠ [] := by rw [a2]; exact List.cons_ne_nil _ _
  have hbk : ∀ l ∈ n.get_layers, backable l := by
    rw [a2]
    intro l hl
    rw [List.mem_singleton.mp hl]
    trivial
  have hfit : exOneStep.Fits n := ⟨⟨single_wf _, a3.symm⟩, ⟨single_wf _, a4.symm⟩⟩
  refine ⟨n, exOneStep, hn, a2, hfit, fun N => ?_⟩
  have hes : ∀ e ∈ List.replicate N exOneStep, e.Fits n := fun e he => by
    rw [List.eq_of_mem_replicate he]; exact hfit
  have h0 : n.get_layers[0]? = some (.fc exOne) := by rw [a2]; rfl
  have single_run : ∀ e ∈ List.replicate N exOneStep, ∀ n1 l1, Batch b n [e] n1 →
      n1.get_layers[0]? = some (.fc l1) →
      l1.bias_gradients.get_item b (ix 0 0 0) = .ok ⟨0x3f800000⟩ ∧
      l1.weights_gradients.get_item b (ix 0 0 0) = .ok ⟨0x3f800000⟩ := by
    intro e he n1 l1 hb h1
    rw [List.eq_of_mem_replicate he] at hb
    obtain ⟨hok, ht⟩ := trains_ready hn
    obtain ⟨k1, k2, i1, i2, i3, i4⟩ := net_round (b := b) hok ht hne hbk hfit.x.1 hfit.x.2 hfit.g.1 hfit.g.2
    obtain rfl := batch_unique hb (.step _ _ _ _ _ _ i1 i2 (.done _))
    obtain ⟨l2, s, s', gi, gi', c1, c2, c3, c4, c5, c6⟩ := i4 0 _ h0
    obtain ⟨_, j1, j2, _⟩ := infer_ok (b := b) hok hne hfit.x.1 hfit.x.2
    obtain rfl := (Prod.mk.inj (Except.ok.inj (j1.symm.trans i1))).2
    obtain rfl : s = exOneStep.x := Option.some.inj (c2.symm.trans j2)
    have hlen : n.layers.length = 1 := by
      change n.get_layers.length = 1
      rw [a2]; rfl
    rw [hlen] at i3
    obtain rfl : gi = exOneStep.g := Option.some.inj (c4.symm.trans i3)
    obtain ⟨_, _, _, f, f1, f2⟩ := fc_round exOne_ok rfl c6
    have h1 : k2.layers[0]? = some (.fc l1) := h1
    rw [c1, f1] at h1
    obtain rfl := AnyLayer.fc.inj (Option.some.inj h1)
    obtain ⟨g1, g2⟩ := f2 0 Nat.one_pos
    have e1 : val exOne.bias_gradients 0 0 0 = ⟨0⟩ := rfl
    have e2 : val exOne.weights_gradients 0 0 0 = ⟨0⟩ := rfl
    have e3 : val exOneStep.x 0 0 0 = ⟨0x3f800000⟩ := rfl
    have e4 : ∀ v : F32, Spec.sum [v] = F32.add (mk' false 0) v := fun _ => rfl
    have e5 : ∀ v w : F32, F32Ops.add v w = F32.add v w := fun _ _ => rfl
    have e6 : ∀ v w : F32, F32Ops.mul v w = F32.mul v w := fun _ _ => rfl
    rw [g1, g2 0 Nat.one_pos, exOne_masked _ rfl, e1, e2, e3, e4, e5, e5, e6]
    rw [show F32.add ⟨0⟩ ⟨0x3f800000⟩ = ⟨0x3f800000⟩ by decide +kernel,
      show F32.add ⟨0⟩ (F32.add (mk' false 0) (F32.mul ⟨0x3f800000⟩ ⟨0x3f800000⟩)) = ⟨0x3f800000⟩ by decide +kernel]
    exact ⟨rfl, rfl⟩
  have val1 : (⟨0x3f800000⟩ : F32).isFinite = true ∧ (⟨0x3f800000⟩ : F32).toReal = 1 := ⟨by decide, one_value⟩
  obtain ⟨n', h1, h2⟩ := C140_stops b n hn hne hbk (List.replicate N exOneStep) hes
  obtain ⟨l', h3, h4⟩ := h2 0 _ h0
  obtain ⟨h5, h6⟩ := h4 0 Nat.one_pos
  obtain ⟨v, v1, v2, v3⟩ := h5 rfl fun e he n1 l1 v hb hl hv => by
    rw [(single_run e he n1 l1 hb hl).1] at hv
    rw [← Except.ok.inj hv]
    exact val1
  obtain ⟨w, w1, w2, w3⟩ := h6 0 Nat.one_pos rfl fun e he n1 l1 v hb hl hv => by
    rw [(single_run e he n1 l1 hb hl).2] at hv
    rw [← Except.ok.inj hv]
    exact val1
  rw [List.length_replicate] at v3 w3
  exact ⟨n', l', h1, h3, v, w, v1, w1, v2, w2, v3, w3⟩

end Rusty
