import Verif.Lemmas.Infer
import Verif.Lemmas.Constructors

/-! # Helper lemmas: tensors of the wrong shape -/

set_option linter.unusedSectionVars false

namespace Rusty

open F32Ops Spec

variable {F : Type} [F32Ops F]

/-- windows of one kind tile lines of one length only -/
theorem tiles_unique {d d' w s n : Nat} (h : tiles d w s n) (h' : tiles d' w s n) : d = d' := by
  unfold tiles at h h'
  omega

theorem tiles_count_unique {d w s n n' : Nat} (hs : s ≠ 0) (h : tiles d w s n)
    (h' : tiles d w s n') : n = n' := by
  have hw := tiles_le h
  rw [tiles_iff hs hw] at h h'
  omega

theorem shape_ext {s t : TensorShape} (h1 : s.di.toNat = t.di.toNat)
    (h2 : s.dj.toNat = t.dj.toNat) (h3 : s.dk = t.dk) : s = t := by
  cases s; cases t
  simp only [TensorShape.mk.injEq]
  exact ⟨u32_ext h1, u32_ext h2, h3⟩

/-- the first channel refuses the tensors -/
theorem conv_first_refuses {b : Build} {l : ConvolutionalLayer F} (hd : l.output_shape.dk ≠ 0)
    {kernel bias : Tensor F} (hk : l.kernels[0]? = some kernel) (hb : l.biases[0]? = some bias)
    {x out : Tensor F} {e : String} (h : check_convolution_dimensions b x.shape kernel.shape l.stride
      out.shape 0 = .ok (.error e)) : l.forward b x out = .ok (.error e, l, out) := by
  obtain ⟨n, hn⟩ := u32_succ hd
  unfold ConvolutionalLayer.forward
  cases hm : l.run_state with
  | Inference =>
    simp only [hn]
    rw [List.range_succ_eq_map, forListE_cons]
    unfold vget
    rw [hk, hb]
    simp only [ok_bind]
    unfold convolution_bias_relu
    rw [show UInt32.ofNat 0 = 0 from rfl, h]
    rfl
  | Training =>
    simp only [hn]
    rw [List.range_succ_eq_map, forListE_cons]
    unfold vget
    rw [hk, hb]
    simp only [ok_bind]
    unfold convolution_bias
    rw [show UInt32.ofNat 0 = 0 from rfl, h]
    rfl

/-- the pooling check on tensors one of which has the wrong shape -/
theorem pool_refuses {b : Build} {l : MaxPoolLayer} (hl : l.Ok) {x out : TensorShape}
    (hm : l.mask_shape.di ≠ 0 ∧ l.mask_shape.dj ≠ 0 ∧ l.mask_shape.di ≤ x.di ∧
      l.mask_shape.dj ≤ x.dj)
    (h : (x ≠ l.input_shape ∧ out = l.output_shape) ∨
      (x = l.input_shape ∧ out ≠ l.output_shape)) :
    Tensor.check_max_pooling_dimensions b x l.mask_shape l.stride out = .ok false := by
  have hs : l.stride.toNat ≠ 0 := fun h => hl.stride (u32_ext h)
  obtain ⟨d1, d2, d3, d4⟩ := hm
  rw [UInt32.le_iff_toNat_le] at d3 d4
  have d1' : l.mask_shape.di.toNat ≠ 0 := fun h => d1 (u32_ext h)
  have d2' : l.mask_shape.dj.toNat ≠ 0 := fun h => d2 (u32_ext h)
  have hbound : ∀ {d w : UInt32}, w.toNat ≠ 0 → w.toNat ≤ d.toNat →
      (d.toNat - w.toNat) / l.stride.toNat + 1 < 2 ^ 32 := by
    intro d w hw hle
    have := Nat.div_le_self (d.toNat - w.toNat) l.stride.toNat
    have := u32_lt d
    omega
  rw [check_pool_spec hs d3 d4 (hbound d1' d3) (hbound d2' d4), decide_eq_false]
  rintro ⟨c1, c2, c3⟩
  rcases h with ⟨h1, h2⟩ | ⟨h1, h2⟩
  · rw [h2] at c1 c2 c3
    exact h1 (shape_ext (tiles_unique c2 hl.tiles.1) (tiles_unique c3 hl.tiles.2)
      (c1.symm.trans hl.depth))
  · rw [h1] at c1 c2 c3
    exact h2 (shape_ext (tiles_count_unique hs c2 hl.tiles.1)
      (tiles_count_unique hs c3 hl.tiles.2) (c1.trans hl.depth.symm))

/-- the product check on tensors one of which has the wrong shape, given that the output is as the
bias -/
theorem fc_refuses {l : FullyConnectedLayer F} (hl : l.Ok) {x : TensorShape}
    (h : x ≠ l.get_input_shape) :
    ¬ Tensor.check_matrix_multiply_dimensions l.weights.shape x l.bias.shape = true := by
  rw [check_mm_iff]
  rintro ⟨c1, c2, c3, c4, c5⟩
  rw [hl.rows] at c2 c4 c5
  apply h
  unfold FullyConnectedLayer.get_input_shape
  cases x
  simp only [TensorShape.mk.injEq]
  exact ⟨c3.symm, c5, c1.symm.trans hl.depth⟩

/-- one kernel as large as the image is accepted -/
theorem fill_single (b : Build) (l : ConvolutionalLayer F) (kernel : Tensor F)
    (biases : List (Tensor F)) (input : TensorShape) (name : String)
    (hi : input.di = kernel.shape.di) (hj : input.dj = kernel.shape.dj) :
    l.fill_from_state b [kernel] biases input 1 name =
      .ok (.ok (), { l with kernels := [kernel], biases := biases, input_shape := input,
                            output_shape := ⟨1, 1, 1⟩, stride := 1, name := name }) := by
  have h1 : (1 : UInt32).toNat ≠ 0 := by decide
  unfold ConvolutionalLayer.fill_from_state
  simp only [List.any_cons, List.any_nil, Bool.or_false]
  rw [if_neg (by simp), does_fit_spec h1 (by rw [hi]) (by rw [hj]), ok_bind,
    dim_fit_spec h1 (by rw [hi]) (by rw [hj]) (by rw [hi]; simp) (by rw [hj]; simp), ok_bind]
  rw [if_neg (by simp [hi, hj]), hi, hj, Nat.sub_self, Nat.sub_self, Nat.zero_div]
  rfl

/-- the loop over the first `n` channels on tensors of any shapes that fit the kernels -/
theorem conv_channels_any {l : ConvolutionalLayer F} (hl : l.Ok) {x out : Tensor F}
    (ho : out.WF)
    (hfit : ∀ k ∈ l.kernels, x.shape.dk = k.shape.dk ∧
      windowsTile x.shape k.shape l.stride out.shape)
    (n : Nat) (hn : n ≤ l.kernels.length) (hno : n ≤ out.shape.dk.toNat)
    (op : Tensor F → Tensor F → Tensor F → UInt32 → Tensor F → UInt32 → Exec (Res × Tensor F))
    (act : F → F)
    (hop : ∀ (kernel bias result : Tensor F) (c : UInt32), kernel.WF → bias.WF → result.WF →
      convFits x.shape kernel.shape l.stride result.shape c.toNat → bias.shape = ⟨1, 1, 1⟩ →
      ∃ r', op x kernel bias l.stride result c = .ok (.ok (), r') ∧ r'.WF ∧
        r'.shape = result.shape ∧ ∀ i j k, result.shape.Inside i j k → val r' i j k =
          if k = c.toNat then act (F32Ops.add (conv x kernel l.stride.toNat i j) (val bias 0 0 0))
          else val result i j k) :
    ∃ y, forListE (List.range n) out (fun i out => do
        let kernel ← vget l.kernels i
        let bias ← vget l.biases i
        op x kernel bias l.stride out (UInt32.ofNat i)) = .ok (.ok (), y) ∧ y.WF ∧
      y.shape = out.shape ∧
      ∀ i j k, out.shape.Inside i j k →
        val y i j k = if k < n then act (convPre l x i j k) else val out i j k := by
  obtain ⟨y, q1, q2, q3, q4⟩ := forListE_prefix (List.range n) out
    (fun i out => do
        let kernel ← vget l.kernels i
        let bias ← vget l.biases i
        op x kernel bias l.stride out (UInt32.ofNat i))
    (fun pre t => t.WF ∧ t.shape = out.shape ∧
      ∀ i j k, out.shape.Inside i j k →
        val t i j k = if k ∈ pre then act (convPre l x i j k) else val out i j k)
    ⟨ho, rfl, fun _ _ _ _ => by simp⟩
    (by
      rintro pre c post t hL ⟨t1, t2, t3⟩
      obtain ⟨_, hc⟩ := range_prefix hL
      have hk : c < l.kernels.length := Nat.lt_of_lt_of_le hc hn
      have hb : c < l.biases.length := by rw [hl.biasCount]; exact hk
      obtain ⟨k1, k2, k3⟩ := hl.kernels l.kernels[c] (List.getElem_mem hk)
      obtain ⟨b1, b2⟩ := hl.biases l.biases[c] (List.getElem_mem hb)
      obtain ⟨f1, f2⟩ := hfit l.kernels[c] (List.getElem_mem hk)
      have e : (UInt32.ofNat c).toNat = c :=
        toNat_ofNat_lt (Nat.lt_trans (Nat.lt_of_lt_of_le hc hno) (u32_lt _))
      obtain ⟨r', p1, p2, p3, p4⟩ := hop l.kernels[c] l.biases[c] t (UInt32.ofNat c) k1 b1 t1
        ⟨f1, by rw [t2]; exact f2, by rw [e, t2]; exact Nat.lt_of_lt_of_le hc hno⟩ b2
      refine ⟨r', ?_, p2, p3.trans t2, ?_⟩
      · rw [vget_ok hk, ok_bind, vget_ok hb, ok_bind]
        exact p1
      · intro i j k hin
        rw [p4 i j k (by rw [t2]; exact hin), e]
        by_cases hkc : k = c
        · rw [if_pos hkc, if_pos (by rw [hkc]; simp)]
          unfold convPre
          rw [hkc, List.getElem?_eq_getElem hk, List.getElem?_eq_getElem hb]
        · rw [if_neg hkc, t3 i j k hin]
          simp only [List.mem_append, List.mem_singleton, hkc, or_false])
  exact ⟨y, q1, q2, q3, fun i j k hin => by rw [q4 i j k hin]; simp only [List.mem_range]⟩

/-- a channel the output does not have is refused -/
theorem check_conv_channel {b : Build} {im ke : TensorShape} {s : UInt32} {re : TensorShape}
    {c : UInt32} (hs : s.toNat ≠ 0) (h : windowsTile im ke s re)
    (hc : re.dk.toNat ≤ c.toNat) :
    ∃ e, check_convolution_dimensions b im ke s re c = .ok (.error e) := by
  have hi := tiles_le h.1
  have hj := tiles_le h.2
  have oi := ((tiles_iff hs hi).mp h.1).2
  have oj := ((tiles_iff hs hj).mp h.2).2
  refine (check_conv_spec hs hi hj (by rw [← oi]; exact u32_lt _)
    (by rw [← oj]; exact u32_lt _)).2 ?_
  rintro ⟨_, _, h3⟩
  omega

end Rusty
