import Verif.Spec.ReadOff
import Verif.Lemmas.ReadOff
import Verif.Props.Network
import Verif.Props.Monotone
import Verif.Props.NetworkRounding
import Verif.Props.Folding

/-! # C150: what the parameters of the first layer are can be seen from outside -/

namespace Rusty

open F32Ops Spec

section
open Exact

/-- C150: in exact arithmetic, two networks that begin with fully connected layers of the same shape have the same values
behind this layer for all inputs exactly if, unit by unit, the parameters are the same or the unit is silent in both. -/
theorem C150_determined (b : Build) (n n' : Net ℝ) (hn : Built b n) (hn' : Built b n') (l l' : FullyConnectedLayer ℝ)
    (hl : n.get_layers[0]? = some (.fc l)) (hl' : n'.get_layers[0]? = some (.fc l'))
    (hs : l'.weights.shape = l.weights.shape) :
    (∀ x : Tensor ℝ, x.WF → x.shape = n.get_input_shape → ∃ n1 n1' s, n.infer b x = .ok (.ok (), n1) ∧
      n'.infer b x = .ok (.ok (), n1') ∧ n1.get_intermediate_state 1 = .ok s ∧ n1'.get_intermediate_state 1 = .ok s) ↔
    ∀ o, o < l.weights.shape.di.toNat → SameUnit l l' o ∨ Silent l o ∧ Silent l' o := by
  have hne : n.get_layers ≠ [] := List.ne_nil_of_mem (List.mem_of_getElem? hl)
  have hne' : n'.get_layers ≠ [] := List.ne_nil_of_mem (List.mem_of_getElem? hl')
  have hok : l.Ok := (built_netOk hn).layers _ (List.mem_of_getElem? hl)
  have hok' : l'.Ok := (built_netOk hn').layers _ (List.mem_of_getElem? hl')
  have hsh : n.get_input_shape = ⟨l.weights.shape.dj, 1, 1⟩ :=
    (built_netOk hn).chain.first (.fc l) (by rw [List.head?_eq_getElem?]; exact hl)
  have hsh' : n'.get_input_shape = ⟨l.weights.shape.dj, 1, 1⟩ :=
    ((built_netOk hn').chain.first (.fc l') (by rw [List.head?_eq_getElem?]; exact hl')).trans (by
      change (⟨l'.weights.shape.dj, 1, 1⟩ : TensorShape) = _
      rw [hs])
  constructor
  · intro h o ho
    have key : ∀ v : Nat → ℝ,
        max ((∑ i ∈ Finset.range l.weights.shape.dj.toNat, val l.weights o i 0 * v i) + val l.bias o 0 0) 0 =
        max ((∑ i ∈ Finset.range l.weights.shape.dj.toNat, val l'.weights o i 0 * v i) + val l'.bias o 0 0) 0 := by
      intro v
      have hf : TensorShape.Fits ⟨l.weights.shape.dj, 1, 1⟩ := by
        have := l.weights.shape.dj.toNat_lt
        constructor
        · change l.weights.shape.dj.toNat * 1 < 2 ^ 32
          omega
        · change l.weights.shape.dj.toNat * 1 * 1 < 2 ^ 32
          omega
      have hz : (zeros ⟨l.weights.shape.dj, 1, 1⟩ : Tensor ℝ).WF := zeros_wf hf
      obtain ⟨n1, n1', s, i1, i2, i3, i4⟩ := h (tabulated (zeros ⟨l.weights.shape.dj, 1, 1⟩) fun i _ _ => v i)
        (tabulated_wf hz _) hsh.symm
      obtain ⟨m1, a1, a2, a3, _⟩ := C36_infer b n hn hne _ (tabulated_wf hz fun i _ _ => v i) hsh.symm
      obtain ⟨m2, c1, c2, c3, _⟩ := C36_infer b n' hn' hne' _ (tabulated_wf hz fun i _ _ => v i) hsh'.symm
      rw [(Prod.mk.inj (Except.ok.inj (i1.symm.trans a1))).2] at i3
      rw [(Prod.mk.inj (Except.ok.inj (i2.symm.trans c1))).2] at i4
      obtain ⟨s1, s2, e1, e2, e3⟩ := a3 0 _ hl
      obtain ⟨t1, t2, f1, f2, f3⟩ := c3 0 _ hl'
      obtain rfl := Except.ok.inj (a2.symm.trans e1)
      obtain rfl := Except.ok.inj (c2.symm.trans f1)
      have hin : (AnyLayer.fc l).get_output_shape.Inside o 0 0 := by
        change l.bias.shape.Inside o 0 0
        rw [hok.rows]
        exact ⟨ho, Nat.one_pos, Nat.one_pos⟩
      have hin' : (AnyLayer.fc l').get_output_shape.Inside o 0 0 := by
        change l'.bias.shape.Inside o 0 0
        rw [hok'.rows, hs]
        exact ⟨ho, Nat.one_pos, Nat.one_pos⟩
      have p1 := applies_val e3 hin
      have p2 := applies_val f3 hin'
      rw [← Except.ok.inj (i3.symm.trans e2)] at p1
      rw [← Except.ok.inj (i4.symm.trans f2)] at p2
      have p := p1.symm.trans p2
      simp only [layerAt] at p
      rw [act_real, act_real, preact_real, preact_real, hs] at p
      have e : ∀ w : Nat → ℝ, ∑ i ∈ Finset.range l.weights.shape.dj.toNat,
          w i * val (tabulated (zeros ⟨l.weights.shape.dj, 1, 1⟩ : Tensor ℝ) fun i _ _ => v i) i 0 0 =
          ∑ i ∈ Finset.range l.weights.shape.dj.toNat, w i * v i := fun w =>
        Finset.sum_congr rfl fun i hi => by
          rw [val_tabulated]
          exact ⟨Finset.mem_range.mp hi, Nat.one_pos, Nat.one_pos⟩
      rw [e, e] at p
      exact p
    rcases positive_part_unique _ _ _ _ _ key with ⟨h1, h2⟩ | ⟨⟨h1, h2⟩, h3, h4⟩
    · exact .inl ⟨fun i hi => h1 i (Finset.mem_range.mpr hi), h2⟩
    · exact .inr ⟨⟨fun i hi => h1 i (Finset.mem_range.mpr hi), h2⟩,
        fun i hi => h3 i (Finset.mem_range.mpr (by rw [← hs]; exact hi)), h4⟩
  · intro h x hx hxs
    obtain ⟨m1, a1, a2, a3, _⟩ := C36_infer b n hn hne x hx hxs
    obtain ⟨m2, c1, c2, c3, _⟩ := C36_infer b n' hn' hne' x hx (hxs.trans (hsh.trans hsh'.symm))
    obtain ⟨s1, s2, e1, e2, e3⟩ := a3 0 _ hl
    obtain ⟨t1, t2, f1, f2, f3⟩ := c3 0 _ hl'
    obtain rfl := Except.ok.inj (a2.symm.trans e1)
    obtain rfl := Except.ok.inj (c2.symm.trans f1)
    have ho : (AnyLayer.fc l').get_output_shape = (AnyLayer.fc l).get_output_shape := by
      change l'.bias.shape = l.bias.shape
      rw [hok'.rows, hok.rows, hs]
    refine ⟨m1, m2, s2, a1, c1, e2, f2.trans (congrArg _
      (tensor_ext f3.1 e3.1 (f3.2.1.trans (ho.trans e3.2.1.symm)) fun o j k hin => ?_))⟩
    rw [f3.2.1] at hin
    rw [applies_val f3 hin, applies_val e3 (ho ▸ hin)]
    have hlt : o < l.weights.shape.di.toNat := by
      rw [ho] at hin
      change l.bias.shape.Inside o j k at hin
      rw [hok.rows] at hin
      exact hin.1
    simp only [layerAt]
    rw [act_real, act_real, preact_real, preact_real, hs]
    rcases h o hlt with ⟨h1, h2⟩ | ⟨⟨h1, h2⟩, h3, h4⟩
    · rw [h2]
      exact congrArg (fun z => max (z + val l'.bias o 0 0) 0)
        (Finset.sum_congr rfl fun i hi => by rw [h1 i (Finset.mem_range.mp hi)])
    · rw [hs] at h3
      rw [Finset.sum_eq_zero fun i hi => by rw [h3 i (Finset.mem_range.mp hi), zero_mul],
        Finset.sum_eq_zero fun i hi => by rw [h1 i (Finset.mem_range.mp hi), zero_mul], zero_add, zero_add,
        max_eq_right h4, max_eq_right h2]

/-- C150: the same for networks that begin with convolutional layers of the same shapes and stride, channel by
channel. -/
theorem C150_convolutional (b : Build) (n n' : Net ℝ) (hn : Built b n) (hn' : Built b n') (l l' : ConvolutionalLayer ℝ)
    (hl : n.get_layers[0]? = some (.conv l)) (hl' : n'.get_layers[0]? = some (.conv l'))
    (hi : l'.input_shape = l.input_shape) (ho : l'.output_shape = l.output_shape) (hs : l'.stride = l.stride) :
    (∀ x : Tensor ℝ, x.WF → x.shape = n.get_input_shape → ∃ n1 n1' s, n.infer b x = .ok (.ok (), n1) ∧
      n'.infer b x = .ok (.ok (), n1') ∧ n1.get_intermediate_state 1 = .ok s ∧ n1'.get_intermediate_state 1 = .ok s) ↔
    ∀ (k : Nat) (kernel kernel' bias bias' : Tensor ℝ), l.kernels[k]? = some kernel → l'.kernels[k]? = some kernel' →
      l.biases[k]? = some bias → l'.biases[k]? = some bias' →
      SameChannel kernel kernel' bias bias' ∨ SilentChannel kernel bias ∧ SilentChannel kernel' bias' := by
  have hne : n.get_layers ≠ [] := List.ne_nil_of_mem (List.mem_of_getElem? hl)
  have hne' : n'.get_layers ≠ [] := List.ne_nil_of_mem (List.mem_of_getElem? hl')
  have hok : l.Ok := (built_netOk hn).layers _ (List.mem_of_getElem? hl)
  have hok' : l'.Ok := (built_netOk hn').layers _ (List.mem_of_getElem? hl')
  have hsh : n.get_input_shape = l.input_shape :=
    (built_netOk hn).chain.first (.conv l) (by rw [List.head?_eq_getElem?]; exact hl)
  have hsh' : n'.get_input_shape = l.input_shape :=
    ((built_netOk hn').chain.first (.conv l') (by rw [List.head?_eq_getElem?]; exact hl')).trans hi
  have shapes : ∀ (k : Nat) (K K' : Tensor ℝ), l.kernels[k]? = some K → l'.kernels[k]? = some K' →
      K.shape = K'.shape := by
    intro k K K' h1 h2
    obtain ⟨_, a2, ⟨a3, a4⟩, a5, a6⟩ := hok.kernels K (List.mem_of_getElem? h1)
    obtain ⟨_, c2, ⟨c3, c4⟩, c5, c6⟩ := hok'.kernels K' (List.mem_of_getElem? h2)
    rw [hi, ho, hs] at c4
    rw [hi, ho, hs] at c6
    rw [hi] at c2
    have d1 : K.shape.di = K'.shape.di := UInt32.toNat_inj.mp (by omega)
    have d2 : K.shape.dj = K'.shape.dj := UInt32.toNat_inj.mp (by omega)
    have d3 := a2.trans c2.symm
    generalize K.shape = S at d1 d2 d3
    generalize K'.shape = S' at d1 d2 d3
    obtain ⟨_, _, _⟩ := S
    obtain ⟨_, _, _⟩ := S'
    simp only at d1 d2 d3
    rw [d1, d2, d3]
  have value : ∀ (l : ConvolutionalLayer ℝ) (K B x : Tensor ℝ) (i j k : Nat), l.kernels[k]? = some K →
      l.biases[k]? = some B → layerAt (.conv l) x i j k = max ((∑ p ∈ K.shape.indices.toFinset,
        val K p.1 p.2.1 p.2.2 * val x (i * l.stride.toNat + p.1) (j * l.stride.toNat + p.2.1) p.2.2) + val B 0 0 0) 0 := by
    intro l K B x i j k h1 h2
    simp only [layerAt]
    rw [act_real, convPre, h1, h2]
    exact congrArg (fun z => max (z + val B 0 0 0) 0) (conv_real x K l.stride.toNat i j)
  constructor
  · intro h k K K' B B' hK hK' hB hB'
    have hshape := shapes k K K' hK hK'
    obtain ⟨k1, k2, ⟨k3, k4⟩, k5, k6⟩ := hok.kernels K (List.mem_of_getElem? hK)
    have hkk : k < l.output_shape.dk.toNat := by
      rw [← hok.count]
      exact (List.getElem?_eq_some_iff.mp hK).1
    have key : ∀ v : Nat × Nat × Nat → ℝ,
        max ((∑ p ∈ K.shape.indices.toFinset, val K p.1 p.2.1 p.2.2 * v p) + val B 0 0 0) 0 =
        max ((∑ p ∈ K.shape.indices.toFinset, val K' p.1 p.2.1 p.2.2 * v p) + val B' 0 0 0) 0 := by
      intro v
      have hz : (zeros l.input_shape : Tensor ℝ).WF := zeros_wf hok.input
      obtain ⟨n1, n1', s, i1, i2, i3, i4⟩ := h (tabulated (zeros l.input_shape) fun i j k => v (i, j, k))
        (tabulated_wf hz _) hsh.symm
      obtain ⟨m1, a1, a2, a3, _⟩ := C36_infer b n hn hne _ (tabulated_wf hz fun i j k => v (i, j, k)) hsh.symm
      obtain ⟨m2, c1, c2, c3, _⟩ := C36_infer b n' hn' hne' _ (tabulated_wf hz fun i j k => v (i, j, k)) hsh'.symm
      rw [(Prod.mk.inj (Except.ok.inj (i1.symm.trans a1))).2] at i3
      rw [(Prod.mk.inj (Except.ok.inj (i2.symm.trans c1))).2] at i4
      obtain ⟨s1, s2, e1, e2, e3⟩ := a3 0 _ hl
      obtain ⟨t1, t2, f1, f2, f3⟩ := c3 0 _ hl'
      obtain rfl := Except.ok.inj (a2.symm.trans e1)
      obtain rfl := Except.ok.inj (c2.symm.trans f1)
      have hin : l.output_shape.Inside 0 0 k := ⟨k3, k5, hkk⟩
      have hin' : l'.output_shape.Inside 0 0 k := by rw [ho]; exact hin
      have p1 := applies_val e3 hin
      have p2 := applies_val f3 hin'
      rw [← Except.ok.inj (i3.symm.trans e2)] at p1
      rw [← Except.ok.inj (i4.symm.trans f2)] at p2
      have p := p1.symm.trans p2
      rw [value l K B _ 0 0 k hK hB, value l' K' B' _ 0 0 k hK' hB', ← hshape] at p
      have e : ∀ (s : Nat) (w : Nat × Nat × Nat → ℝ), ∑ p ∈ K.shape.indices.toFinset,
          w p * val (tabulated (zeros l.input_shape : Tensor ℝ) fun i j k => v (i, j, k)) (0 * s + p.1)
            (0 * s + p.2.1) p.2.2 = ∑ p ∈ K.shape.indices.toFinset, w p * v p := fun s w =>
        Finset.sum_congr rfl fun p hp => by
          obtain ⟨i, j, m⟩ := p
          obtain ⟨h1, h2, h3⟩ := mem_indices.mp (List.mem_toFinset.mp hp)
          simp only
          rw [Nat.zero_mul, Nat.zero_add, Nat.zero_add, val_tabulated]
          refine ⟨?_, ?_, ?_⟩
          · change i < l.input_shape.di.toNat
            omega
          · change j < l.input_shape.dj.toNat
            omega
          · change m < l.input_shape.dk.toNat
            rw [← k2]
            exact h3
      rw [e, e] at p
      exact p
    have inside : ∀ i j k, K.shape.Inside i j k → (i, j, k) ∈ K.shape.indices.toFinset := fun i j k h =>
      List.mem_toFinset.mpr (mem_indices.mpr h)
    rcases positive_part_unique _ _ _ _ _ key with ⟨h1, h2⟩ | ⟨⟨h1, h2⟩, h3, h4⟩
    · exact .inl ⟨hshape, fun i j k h => h1 _ (inside i j k h), h2⟩
    · exact .inr ⟨⟨fun i j k h => h1 _ (inside i j k h), h2⟩,
        fun i j k h => h3 _ (inside i j k (by rw [hshape]; exact h)), h4⟩
  · intro h x hx hxs
    obtain ⟨m1, a1, a2, a3, _⟩ := C36_infer b n hn hne x hx hxs
    obtain ⟨m2, c1, c2, c3, _⟩ := C36_infer b n' hn' hne' x hx (hxs.trans (hsh.trans hsh'.symm))
    obtain ⟨s1, s2, e1, e2, e3⟩ := a3 0 _ hl
    obtain ⟨t1, t2, f1, f2, f3⟩ := c3 0 _ hl'
    obtain rfl := Except.ok.inj (a2.symm.trans e1)
    obtain rfl := Except.ok.inj (c2.symm.trans f1)
    refine ⟨m1, m2, s2, a1, c1, e2, f2.trans (congrArg _
      (tensor_ext f3.1 e3.1 (f3.2.1.trans (Eq.trans ho e3.2.1.symm)) fun i j k hin => ?_))⟩
    rw [f3.2.1] at hin
    have hin' : l.output_shape.Inside i j k := by rw [← ho]; exact hin
    rw [applies_val f3 hin, applies_val e3 hin']
    have g1 := List.getElem?_eq_getElem (l := l.kernels) (i := k) (by rw [hok.count]; exact hin'.2.2)
    have g2 := List.getElem?_eq_getElem (l := l'.kernels) (i := k) (by rw [hok'.count, ho]; exact hin'.2.2)
    have g3 := List.getElem?_eq_getElem (l := l.biases) (i := k) (by rw [hok.biasCount, hok.count]; exact hin'.2.2)
    have g4 := List.getElem?_eq_getElem (l := l'.biases) (i := k) (by
      rw [hok'.biasCount, hok'.count, ho]; exact hin'.2.2)
    rw [value l _ _ x i j k g1 g3, value l' _ _ x i j k g2 g4, hs]
    have mem : ∀ (K : Tensor ℝ) (p : Nat × Nat × Nat), p ∈ K.shape.indices.toFinset → K.shape.Inside p.1 p.2.1 p.2.2 :=
      fun K p hp => mem_indices.mp (List.mem_toFinset.mp hp)
    rcases h k _ _ _ _ g1 g2 g3 g4 with ⟨h0, h1, h2⟩ | ⟨⟨h1, h2⟩, h3, h4⟩
    · rw [h2, ← h0]
      exact congrArg (fun z => max (z + _) 0)
        (Finset.sum_congr rfl fun p hp => by rw [h1 _ _ _ (mem _ p hp)])
    · rw [Finset.sum_eq_zero fun p hp => by rw [h3 _ _ _ (mem _ p hp), zero_mul],
        Finset.sum_eq_zero fun p hp => by rw [h1 _ _ _ (mem _ p hp), zero_mul], zero_add, zero_add,
        max_eq_right h4, max_eq_right h2]

end

open F32

variable [Libm]

/-- C150: in f32, two inputs for each entry show the weights of a unit without bias exactly: the weight of entry `i` is
the difference of the answers to `1` and `-1` in this entry. -/
theorem C150_read (b : Build) (n : Net F32) (hn : Built b n) (l : FullyConnectedLayer F32)
    (hl : n.get_layers[0]? = some (.fc l)) (o i : Nat) (ho : o < l.weights.shape.di.toNat)
    (hi : i < l.weights.shape.dj.toNat)
    (hw : ∀ m, m < l.weights.shape.dj.toNat → (val l.weights o m 0).isFinite = true)
    (hb : (val l.bias o 0 0).code = 0) (x x' : Tensor F32) (hx : x.WF) (hxs : x.shape = n.get_input_shape)
    (hx' : x'.WF) (hxs' : x'.shape = n.get_input_shape) (hu : UnitInput x i ⟨0x3f800000⟩)
    (hu' : UnitInput x' i ⟨0xbf800000⟩) :
    ∃ n1 n2 s s' v v', n.infer b x = .ok (.ok (), n1) ∧ n1.get_intermediate_state 1 = .ok s ∧
      s.get_item b (ix o 0 0) = .ok v ∧ n.infer b x' = .ok (.ok (), n2) ∧ n2.get_intermediate_state 1 = .ok s' ∧
      s'.get_item b (ix o 0 0) = .ok v' ∧ v.isFinite = true ∧ v'.isFinite = true ∧
      (v.toReal = 0 ∨ v'.toReal = 0) ∧ (val l.weights o i 0).toReal = v.toReal - v'.toReal := by
  have hne : n.get_layers ≠ [] := List.ne_nil_of_mem (List.mem_of_getElem? hl)
  have hok : l.Ok := (built_netOk hn).layers _ (List.mem_of_getElem? hl)
  have hsh : n.get_input_shape = ⟨l.weights.shape.dj, 1, 1⟩ :=
    (built_netOk hn).chain.first (.fc l) (by rw [List.head?_eq_getElem?]; exact hl)
  obtain ⟨m1, a1, a2, a3, _⟩ := C36_infer b n hn hne x hx hxs
  obtain ⟨m2, c1, c2, c3, _⟩ := C36_infer b n hn hne x' hx' hxs'
  obtain ⟨s1, s2, e1, e2, e3⟩ := a3 0 _ hl
  obtain ⟨t1, t2, f1, f2, f3⟩ := c3 0 _ hl
  obtain rfl := Except.ok.inj (a2.symm.trans e1)
  obtain rfl := Except.ok.inj (c2.symm.trans f1)
  have hin : l.bias.shape.Inside o 0 0 := by
    rw [hok.rows]
    exact ⟨ho, Nat.one_pos, Nat.one_pos⟩
  have hone : (⟨0x3f800000⟩ : F32).toReal = 1 := one_grid.2
  have hneg : (⟨0xbf800000⟩ : F32).toReal = -1 := by
    rw [← hone]
    unfold toReal
    rw [show (⟨0xbf800000⟩ : F32).toInt = -(⟨0x3f800000⟩ : F32).toInt by decide +kernel]
    push_cast
    ring
  have hux : ∀ m, m < l.weights.shape.dj.toNat → val x m 0 0 = if m = i then (⟨0x3f800000⟩ : F32) else ⟨0⟩ :=
    fun m hm => hu m (by rw [hxs, hsh]; exact hm)
  have hux' : ∀ m, m < l.weights.shape.dj.toNat → val x' m 0 0 = if m = i then (⟨0xbf800000⟩ : F32) else ⟨0⟩ :=
    fun m hm => hu' m (by rw [hxs', hsh]; exact hm)
  obtain ⟨p1, p2⟩ := act_unit_input l.run_state l x o i hi (by decide) (hw i hi) hw hb hux (by rw [hone, mul_one])
  obtain ⟨q1, q2⟩ := act_unit_input l.run_state l x' o i hi (by decide)
    (c := mk' (!(val l.weights o i 0).sign) (val l.weights o i 0).code)
    (finite_iff.mpr (by rw [mk'_code (code_lt _)]; exact finite_iff.mp (hw i hi))) hw hb hux' (by
      rw [hneg, toReal_mk' (code_lt _), toReal_eq]
      cases (val l.weights o i 0).sign <;> simp)
  have hminus : (mk' (!(val l.weights o i 0).sign) (val l.weights o i 0).code).toReal = -(val l.weights o i 0).toReal := by
    rw [toReal_mk' (code_lt _), toReal_eq]
    cases (val l.weights o i 0).sign <;> simp
  rw [hminus] at q2
  refine ⟨m1, m2, s2, t2, _, _, a1, e2, e3.2.2 o 0 0 hin, c1, f2, f3.2.2 o 0 0 hin, p1, q1, ?_, ?_⟩
  all_goals
    simp only [layerAt]
    rw [p2, q2]
  · rcases le_total (val l.weights o i 0).toReal 0 with h | h
    · exact .inl (max_eq_left h)
    · exact .inr (max_eq_left (by linarith))
  · rcases le_total (val l.weights o i 0).toReal 0 with h | h
    · rw [max_eq_left h, max_eq_right (by linarith)]
      ring
    · rw [max_eq_right h, max_eq_left (by linarith)]
      ring

/-! ## Non-vacuity -/

section
open Exact

/-- the hypotheses of `C150_determined`, with parameters that cannot be told apart and others that can -/
example (b : Build) (w v w' v' : ℝ) : ∃ n n' : Net ℝ, Built b n ∧ Built b n' ∧
    n.get_layers[0]? = some (.fc (exScalar w v)) ∧ n'.get_layers[0]? = some (.fc (exScalar w' v')) ∧
    (exScalar w' v').weights.shape = (exScalar w v).weights.shape := by
  cases b <;> exact ⟨_, _, .add_layer (Network.new .Inference) (.fc (exScalar w v)) (.ok ()) _ (.new _)
    (exScalar_ok _ _) rfl, .add_layer (Network.new .Inference) (.fc (exScalar w' v')) (.ok ()) _ (.new _)
    (exScalar_ok _ _) rfl, rfl, rfl, rfl⟩

example : Silent (exScalar 0 (-1)) 0 ∧ Silent (exScalar 0 (-2)) 0 ∧ ¬ SameUnit (exScalar 0 (-1)) (exScalar 0 (-2)) 0 ∧
    ¬ SameUnit (exScalar 1 0) (exScalar 2 0) 0 ∧ ¬ Silent (exScalar 1 0) 0 := by
  refine ⟨⟨fun i hi => ?_, ?_⟩, ⟨fun i hi => ?_, ?_⟩, fun h => ?_, fun h => ?_, fun h => ?_⟩
  · obtain rfl : i = 0 := Nat.lt_one_iff.mp hi
    rfl
  · change (-1 : ℝ) ≤ 0
    norm_num
  · obtain rfl : i = 0 := Nat.lt_one_iff.mp hi
    rfl
  · change (-2 : ℝ) ≤ 0
    norm_num
  · have : (-1 : ℝ) = -2 := h.2
    norm_num at this
  · have : (1 : ℝ) = 2 := h.1 0 Nat.one_pos
    norm_num at this
  · have : (1 : ℝ) = 0 := h.1 0 Nat.one_pos
    norm_num at this

/-- one kernel with one entry, on images of 2x2 pixels -/
noncomputable def exOneKernel (w v : ℝ) : ConvolutionalLayer ℝ :=
  { kernels := [⟨⟨1, 1, 1⟩, ⟨1, 1, 1⟩, [w]⟩]
    biases := [⟨⟨1, 1, 1⟩, ⟨1, 1, 1⟩, [v]⟩]
    kernel_gradients := [], bias_gradients := [], stride := 1, relu_mask := zeros ⟨2, 2, 1⟩
    input_shape := ⟨2, 2, 1⟩, output_shape := ⟨2, 2, 1⟩, name := "c", run_state := .Inference }

/-- the hypotheses of `C150_convolutional` -/
example (b : Build) : ∃ (n n' : Net ℝ) (l l' : ConvolutionalLayer ℝ), Built b n ∧ Built b n' ∧
    n.get_layers[0]? = some (.conv l) ∧ n'.get_layers[0]? = some (.conv l') ∧ l'.input_shape = l.input_shape ∧
    l'.output_shape = l.output_shape ∧ l'.stride = l.stride ∧ l.kernels.length = 1 := by
  have ok : ∀ w v : ℝ, (exOneKernel w v).Ok := fun w v =>
    ⟨(by decide : (1 : UInt32) ≠ 0), (by decide : TensorShape.Fits ⟨2, 2, 1⟩), (by decide : TensorShape.Fits ⟨2, 2, 1⟩), rfl,
    fun k hk => by
      obtain rfl := List.mem_singleton.mp hk
      exact ⟨wf_data (zeros_wf (s := ⟨1, 1, 1⟩) (by decide)) _ rfl, rfl,
        (by decide : windowsTile ⟨2, 2, 1⟩ ⟨1, 1, 1⟩ 1 ⟨2, 2, 1⟩)⟩, rfl, fun k hk => by
      obtain rfl := List.mem_singleton.mp hk
      exact ⟨wf_data (zeros_wf (s := ⟨1, 1, 1⟩) (by decide)) _ rfl, rfl⟩, fun h => by cases h⟩
  cases b <;> exact ⟨_, _, _, _, .add_layer (Network.new .Inference) (.conv (exOneKernel 1 0)) (.ok ()) _ (.new _)
    (ok _ _) rfl, .add_layer (Network.new .Inference) (.conv (exOneKernel 2 0)) (.ok ()) _ (.new _)
    (ok _ _) rfl, rfl, rfl, rfl, rfl, rfl, rfl⟩

end

/-- the hypotheses of `C150_read` -/
example (b : Build) : ∃ n : Net F32, Built b n ∧ n.get_layers[0]? = some (.fc (exFc ⟨0xc0490fdb⟩ ⟨0⟩)) ∧
    (single ⟨0x3f800000⟩).shape = n.get_input_shape ∧ UnitInput (single ⟨0x3f800000⟩) 0 ⟨0x3f800000⟩ ∧
    UnitInput (single ⟨0xbf800000⟩) 0 ⟨0xbf800000⟩ ∧
    (∀ m, m < (exFc ⟨0xc0490fdb⟩ ⟨0⟩).weights.shape.dj.toNat →
      (val (exFc ⟨0xc0490fdb⟩ ⟨0⟩).weights 0 m 0).isFinite = true) ∧
    (val (exFc ⟨0xc0490fdb⟩ ⟨0⟩).bias 0 0 0).code = 0 := by
  obtain ⟨n, h1, h2, h3⟩ := exFc2_built b ⟨0xc0490fdb⟩ ⟨0⟩ ⟨0x3f800000⟩ ⟨0⟩
  refine ⟨n, h1, by rw [h2]; rfl, h3.symm, fun m hm => ?_, fun m hm => ?_, fun m hm => ?_,
    (by decide : (⟨0⟩ : F32).code = 0)⟩
  all_goals obtain rfl : m = 0 := Nat.lt_one_iff.mp hm
  · rfl
  · rfl
  · exact (by decide : (⟨0xc0490fdb⟩ : F32).isFinite = true)

end Rusty
