import Verif.Spec.Layers
import Verif.Lemmas.Matrix
import Verif.Lemmas.ConvolutionBackward

set_option linter.unusedSectionVars false

/-! # Helper lemmas: the convolutional layer -/

namespace Rusty

open F32Ops Spec

variable {F : Type} [F32Ops F]

section

variable {l : ConvolutionalLayer F} (hl : l.Ok)

include hl

/-- the loop over the channels, for either of the two convolution routines -/
theorem conv_channels {x out : Tensor F} (hxs : x.shape = l.input_shape)
    (ho : out.WF) (hos : out.shape = l.output_shape)
    (op : Tensor F → Tensor F → Tensor F → UInt32 → Tensor F → UInt32 → Exec (Res × Tensor F))
    (act : F → F)
    (hop : ∀ (kernel bias result : Tensor F) (c : UInt32), kernel.WF → bias.WF → result.WF →
      convFits x.shape kernel.shape l.stride result.shape c.toNat → bias.shape = ⟨1, 1, 1⟩ →
      ∃ r', op x kernel bias l.stride result c = .ok (.ok (), r') ∧ r'.WF ∧
        r'.shape = result.shape ∧ ∀ i j k, result.shape.Inside i j k → val r' i j k =
          if k = c.toNat then act (F32Ops.add (conv x kernel l.stride.toNat i j) (val bias 0 0 0))
          else val result i j k) :
    ∃ y, forListE (List.range l.output_shape.dk.toNat) out (fun i out => do
        let kernel ← vget l.kernels i
        let bias ← vget l.biases i
        op x kernel bias l.stride out (UInt32.ofNat i)) = .ok (.ok (), y) ∧ y.WF ∧
      y.shape = l.output_shape ∧
      ∀ i j k, l.output_shape.Inside i j k → val y i j k = act (convPre l x i j k) := by
  obtain ⟨y, q1, q2, q3, q4⟩ := forListE_prefix (List.range l.output_shape.dk.toNat) out
    (fun i out => do
        let kernel ← vget l.kernels i
        let bias ← vget l.biases i
        op x kernel bias l.stride out (UInt32.ofNat i))
    (fun pre t => t.WF ∧ t.shape = l.output_shape ∧
      ∀ i j k, l.output_shape.Inside i j k → k ∈ pre → val t i j k = act (convPre l x i j k))
    ⟨ho, hos, fun _ _ _ _ h => by cases h⟩
    (by
      rintro pre c post t hL ⟨t1, t2, t3⟩
      obtain ⟨_, hc⟩ := range_prefix hL
      have hk : c < l.kernels.length := by rw [hl.count]; exact hc
      have hb : c < l.biases.length := by rw [hl.biasCount]; exact hk
      obtain ⟨k1, k2, k3⟩ := hl.kernels l.kernels[c] (List.getElem_mem hk)
      obtain ⟨b1, b2⟩ := hl.biases l.biases[c] (List.getElem_mem hb)
      have e : (UInt32.ofNat c).toNat = c :=
        toNat_ofNat_lt (Nat.lt_trans hc (u32_lt _))
      obtain ⟨r', p1, p2, p3, p4⟩ := hop l.kernels[c] l.biases[c] t (UInt32.ofNat c) k1 b1 t1
        ⟨by rw [hxs, k2], by rw [hxs, t2]; exact k3, by rw [e, t2]; exact hc⟩ b2
      refine ⟨r', ?_, p2, p3.trans t2, ?_⟩
      · rw [vget_ok hk, ok_bind, vget_ok hb,
          ok_bind]
        exact p1
      · intro i j k hin hmem
        rw [p4 i j k (by rw [t2]; exact hin), e]
        by_cases hkc : k = c
        · rw [if_pos hkc]
          unfold convPre
          rw [hkc, List.getElem?_eq_getElem hk, List.getElem?_eq_getElem hb]
        · rw [if_neg hkc]
          apply t3 i j k hin
          rcases List.mem_append.mp hmem with h | h
          · exact h
          · exact absurd (List.mem_singleton.mp h) hkc)
  exact ⟨y, q1, q2, q3, fun i j k hin => q4 i j k hin (List.mem_range.mpr hin.2.2)⟩

theorem conv_forward_inference {b : Build} {x out : Tensor F} (hm : l.run_state = .Inference)
    (hx : x.WF) (hxs : x.shape = l.input_shape) (ho : out.WF) (hos : out.shape = l.output_shape) :
    ∃ y, l.forward b x out = .ok (.ok (), l, y) ∧ y.WF ∧ y.shape = l.output_shape ∧
      ∀ i j k, l.output_shape.Inside i j k → val y i j k = fmax (convPre l x i j k) zero := by
  have hs : l.stride.toNat ≠ 0 := fun h => hl.stride (u32_ext h)
  obtain ⟨y, q1, q2, q3, q4⟩ := conv_channels hl hxs ho hos
    (convolution_bias_relu b) (fun v => fmax v zero)
    (fun kernel bias result c k1 k2 k3 k4 k5 =>
      conv_bias_relu_ok hx k1 k2 k3 hs k4 (by rw [k5]; decide))
  refine ⟨y, ?_, q2, q3, q4⟩
  unfold ConvolutionalLayer.forward
  rw [hm]
  simp only
  rw [q1]
  rfl

theorem conv_forward_training {b : Build} {x out : Tensor F} (hm : l.run_state = .Training)
    (hx : x.WF) (hxs : x.shape = l.input_shape) (ho : out.WF) (hos : out.shape = l.output_shape) :
    ∃ mask y, l.forward b x out = .ok (.ok (), { l with relu_mask := mask }, y) ∧ y.WF ∧
      y.shape = l.output_shape ∧ mask.WF ∧ mask.shape = l.output_shape ∧
      ∀ i j k, l.output_shape.Inside i j k →
        val y i j k = relu (convPre l x i j k) ∧ val mask i j k = step (convPre l x i j k) := by
  have hs : l.stride.toNat ≠ 0 := fun h => hl.stride (u32_ext h)
  obtain ⟨_, _, m1, m2⟩ := hl.buffers hm
  obtain ⟨y, q1, q2, q3, q4⟩ := conv_channels hl hxs ho hos
    (convolution_bias b) (fun v => v)
    (fun kernel bias result c k1 k2 k3 k4 k5 =>
      conv_bias_ok hx k1 k2 k3 hs k4 (by rw [k5]; decide))
  obtain ⟨t', m', p1, p2, p3, p4, p5, p6⟩ := relu_mask_ok q2 m1 (by rw [q3, m2])
  refine ⟨m', t', ?_, p2, p4.trans q3, p3, p5.trans m2, fun i j k hin => ?_⟩
  · unfold ConvolutionalLayer.forward
    rw [hm]
    simp only
    rw [q1, ok_bind]
    simp only
    rw [p1]
    rfl
  · obtain ⟨e1, e2⟩ := p6 i j k (by rw [q3]; exact hin)
    rw [e1, e2, q4 i j k hin]
    exact ⟨rfl, rfl⟩

/-- `forward` in training mode needs no gradient buffers, only a mask of the right shape -/
theorem conv_forward_mask {b : Build} {m : NetworkRunState} {x out : Tensor F}
    (hm : m = .Training) (h1 : l.relu_mask.WF) (h2 : l.relu_mask.shape = l.output_shape)
    (hx : x.WF) (hxs : x.shape = l.input_shape) (ho : out.WF) (hos : out.shape = l.output_shape) :
    ∃ mask y, ({ l with run_state := m } : ConvolutionalLayer F).forward b x out =
        .ok (.ok (), { l with run_state := m, relu_mask := mask }, y) ∧ y.WF ∧
      y.shape = l.output_shape ∧ mask.WF ∧ mask.shape = l.output_shape ∧
      ∀ i j k, l.output_shape.Inside i j k →
        val y i j k = relu (convPre l x i j k) ∧ val mask i j k = step (convPre l x i j k) := by
  have hs : l.stride.toNat ≠ 0 := fun h => hl.stride (u32_ext h)
  obtain ⟨y, q1, q2, q3, q4⟩ := conv_channels hl hxs ho hos
    (convolution_bias b) (fun v => v)
    (fun kernel bias result c k1 k2 k3 k4 k5 =>
      conv_bias_ok hx k1 k2 k3 hs k4 (by rw [k5]; decide))
  obtain ⟨t', m', p1, p2, p3, p4, p5, p6⟩ := relu_mask_ok q2 h1 (by rw [q3, h2])
  refine ⟨m', t', ?_, p2, p4.trans q3, p3, p5.trans h2, fun i j k hin => ?_⟩
  · unfold ConvolutionalLayer.forward
    subst hm
    simp only
    rw [q1, ok_bind]
    simp only
    rw [p1]
    rfl
  · obtain ⟨e1, e2⟩ := p6 i j k (by rw [q3]; exact hin)
    rw [e1, e2, q4 i j k hin]
    exact ⟨rfl, rfl⟩

/-- with a mask of another shape it answers `Err` -/
theorem conv_forward_mask_refuses {b : Build} {m : NetworkRunState} {x out : Tensor F}
    (hm : m = .Training) (h2 : l.relu_mask.shape ≠ l.output_shape)
    (hx : x.WF) (hxs : x.shape = l.input_shape) (ho : out.WF) (hos : out.shape = l.output_shape) :
    ∃ e y, ({ l with run_state := m } : ConvolutionalLayer F).forward b x out =
      .ok (.error e, { l with run_state := m }, y) := by
  have hs : l.stride.toNat ≠ 0 := fun h => hl.stride (u32_ext h)
  obtain ⟨y, q1, q2, q3, q4⟩ := conv_channels hl hxs ho hos
    (convolution_bias b) (fun v => v)
    (fun kernel bias result c k1 k2 k3 k4 k5 =>
      conv_bias_ok hx k1 k2 k3 hs k4 (by rw [k5]; decide))
  refine ⟨"relu_self_and_store_mask: Input and mask must have the same shape", y, ?_⟩
  unfold ConvolutionalLayer.forward
  subst hm
  simp only
  rw [q1, ok_bind]
  simp only
  unfold Tensor.relu_self_and_store_mask
  rw [if_pos (by rw [q3]; exact fun h => h2 h.symm)]
  rfl

theorem conv_ok_mask (mask : Tensor F) (h1 : mask.WF) (h2 : mask.shape = l.output_shape) :
    ({ l with relu_mask := mask } : ConvolutionalLayer F).Ok :=
  ⟨hl.stride, hl.input, hl.output, hl.count, hl.kernels, hl.biasCount, hl.biases, fun hm =>
    ⟨(hl.buffers hm).1, (hl.buffers hm).2.1, h1, h2⟩⟩

/-- What `backward` does in training mode: kernel gradients and outgoing gradient come from the raw
incoming gradient, bias gradients stay as they are. -/
theorem conv_backward_char {b : Build} {x y g og : Tensor F} (hm : l.run_state = .Training)
    (hx : x.WF) (hxs : x.shape = l.input_shape) (hg : g.WF) (hgs : g.shape = l.output_shape)
    (o : Res × Tensor F)
    (ho : convolution_backprop_outgoing_gradient b g l.kernels l.stride og = .ok o) :
    ∃ kg, l.backward b x y g og = .ok (o.1, { l with
        relu_mask := Tensor.multiply_elementwise_self l.relu_mask g
        kernel_gradients := kg }, o.2) ∧ kg.length = l.kernels.length ∧
      ∀ i (h : i < kg.length) (h' : i < l.kernels.length), kg[i].WF ∧
        kg[i].shape = l.kernels[i].shape ∧
        ∀ a c d, l.kernels[i].shape.Inside a c d → val kg[i] a c d =
          sum ((idx3 g.shape.di.toNat g.shape.dj.toNat g.shape.dk.toNat).map fun (i, j, k) =>
            mul (val x (a + i * l.stride.toNat) (c + j * l.stride.toNat) d) (val g i j k)) := by
  have hs : l.stride.toNat ≠ 0 := fun h => hl.stride (u32_ext h)
  obtain ⟨⟨n1, n2⟩, _⟩ := hl.buffers hm
  obtain ⟨kg, q1, q2, q3⟩ := forListE_prefix (List.range l.kernels.length) l.kernel_gradients
    (fun i kg => do
      let gr ← vget kg i
      let (r, gr) ← convolution_backprop_kernel b g x l.stride (UInt32.ofNat i) gr
      let kg ← vset kg i gr
      pure (r, kg))
    (fun pre kg => kg.length = l.kernels.length ∧
      ∀ i (h : i < kg.length) (h' : i < l.kernels.length), kg[i].WF ∧
        kg[i].shape = l.kernels[i].shape ∧ (i ∈ pre →
        ∀ a c d, l.kernels[i].shape.Inside a c d → val kg[i] a c d =
          sum ((idx3 g.shape.di.toNat g.shape.dj.toNat g.shape.dk.toNat).map fun (i, j, k) =>
            mul (val x (a + i * l.stride.toNat) (c + j * l.stride.toNat) d) (val g i j k))))
    ⟨n1, fun i h h' => ⟨(n2 i h h').1, (n2 i h h').2, fun h => by cases h⟩⟩
    (by
      rintro pre c post kg hL ⟨t1, t2⟩
      obtain ⟨_, hc⟩ := range_prefix hL
      have hk : c < kg.length := by rw [t1]; exact hc
      obtain ⟨w1, w2, _⟩ := t2 c hk hc
      obtain ⟨k1, k2, k3⟩ := hl.kernels l.kernels[c] (List.getElem_mem hc)
      have e : (UInt32.ofNat c).toNat = c :=
        toNat_ofNat_lt (by have := hl.count ▸ u32_lt l.output_shape.dk; omega)
      obtain ⟨g', p1, p2, p3, p4⟩ := kernel_grad_char (b := b) (s := l.stride)
        (c := UInt32.ofNat c) hg hx w1 hs
        ⟨by rw [hxs, w2, k2], by rw [hxs, hgs, w2]; exact k3, by rw [e, hgs, ← hl.count]; exact hc⟩
      refine ⟨kg.set c g', ?_, by simp [t1], ?_⟩
      · rw [vget_ok hk, ok_bind, p1, ok_bind]
        simp only
        rw [vset_ok hk, ok_bind]
        rfl
      · intro i h h'
        rw [List.getElem_set]
        by_cases hic : c = i
        · subst hic
          rw [if_pos rfl]
          exact ⟨p2, p3.trans w2, fun _ a c d hin => p4 a c d (by rw [w2]; exact hin)⟩
        · simp only [if_neg hic]
          rw [List.length_set] at h
          obtain ⟨a1, a2, a3⟩ := t2 i h h'
          refine ⟨a1, a2, fun hmem => a3 ?_⟩
          rcases List.mem_append.mp hmem with h | h
          · exact h
          · exact absurd (List.mem_singleton.mp h).symm hic)
  refine ⟨kg, ?_, q2, fun i h h' => ⟨(q3 i h h').1, (q3 i h h').2.1,
    (q3 i h h').2.2 (List.mem_range.mpr h')⟩⟩
  obtain ⟨r, o⟩ := o
  unfold ConvolutionalLayer.backward
  simp only
  rw [q1, ok_bind]
  simp only
  rw [ho, ok_bind]
  cases r <;> rfl

end

end Rusty
