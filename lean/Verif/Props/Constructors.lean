import Verif.Spec.Toy
import Verif.Lemmas.Switch
import Verif.Lemmas.Constructors
import Verif.Lemmas.ConvolutionUnsafe

/-! # C52: what the constructors build -/

namespace Rusty

open F32Ops Spec

variable {F : Type} [F32Ops F]

/-- C52: the dimensions of `TensorShape::new` are the arguments, except that 0 becomes 1. -/
theorem C52_shape (x y z : UInt32) :
    (TensorShape.new x y z).di = (if x = 0 then 1 else x) ∧
    (TensorShape.new x y z).dj = (if y = 0 then 1 else y) ∧
    (TensorShape.new x y z).dk = (if z = 0 then 1 else z) := by
  have key : ∀ x : UInt32, maxU x 1 = if x = 0 then 1 else x := by
    intro x
    unfold maxU
    have h1 : (1 : UInt32).toNat = 1 := rfl
    have h0 : x = 0 ↔ x.toNat = 0 := by
      rw [← UInt32.toNat_inj]; rfl
    by_cases hx : x = 0
    · rw [if_pos hx, if_pos (by rw [h0.mp hx]; decide)]
    · rw [if_neg hx]
      have : x.toNat ≠ 0 := fun h => hx (h0.mpr h)
      split
      · apply UInt32.toNat_inj.mp; omega
      · rfl
  exact ⟨key x, key y, key z⟩

example : TensorShape.new 3 0 5 = ⟨3, 1, 5⟩ := by decide

/-! ## Fully connected layers -/

/-- C52: `FullyConnectedLayer::new(n, m)` with positive sizes whose product is representable returns
a well formed layer in inference mode, with input shape `(n,1,1)`, output shape `(m,1,1)`, the given
name and zero parameters.

Partial: false for sizes that are zero, see `C52_fully_connected_zero_negation`. -/
theorem C52_fully_connected_partial (b : Build) (n m : UInt32) (name : String) (hn : n ≠ 0)
    (hm : m ≠ 0) (hf : n.toNat * m.toNat < 2 ^ 32) :
    ∃ l : FullyConnectedLayer F, FullyConnectedLayer.new b n m name = .ok l ∧ l.Ok ∧
      l.get_input_shape = ⟨n, 1, 1⟩ ∧ l.get_output_shape = ⟨m, 1, 1⟩ ∧ l.name = name ∧
      l.run_state = .Inference ∧ allZero l.weights ∧ allZero l.bias := by
  have hs : TensorShape.new m n 1 = ⟨m, n, 1⟩ := by
    obtain ⟨h1, h2, h3⟩ := C52_shape m n 1
    rw [if_neg hm] at h1
    rw [if_neg hn] at h2
    cases h : TensorShape.new m n 1
    rw [h] at h1 h2 h3
    simp only at h1 h2 h3
    subst h1 h2 h3
    rfl
  have hw : (⟨m, n, 1⟩ : TensorShape).Fits := by
    refine ⟨by rw [Nat.mul_comm]; exact hf, ?_⟩
    simp only [TensorShape.count]
    rw [Nat.mul_comm m.toNat, show (1 : UInt32).toNat = 1 from rfl, Nat.mul_one]; exact hf
  have hb : (⟨m, 1, 1⟩ : TensorShape).Fits := by
    have := m.toNat_lt
    refine ⟨?_, ?_⟩ <;> simp only [TensorShape.count, show (1 : UInt32).toNat = 1 from rfl,
      Nat.mul_one] <;> exact this
  have e : FullyConnectedLayer.new b n m name = .ok
      ({ weights := zeros ⟨m, n, 1⟩, bias := zeros ⟨m, 1, 1⟩, weights_gradients := zeros ⟨1, 1, 1⟩,
         weights_gradients_intermediate := zeros ⟨1, 1, 1⟩, bias_gradients := zeros ⟨1, 1, 1⟩,
         relu_mask := zeros ⟨1, 1, 1⟩, name := name, run_state := .Inference } :
        FullyConnectedLayer F) := by
    unfold FullyConnectedLayer.new FullyConnectedLayer.empty
    simp only [empty_ok, ok_bind]
    rw [hs, new_ok hw, new_ok hb]
    simp only [FullyConnectedLayer.fill_from_state, FullyConnectedLayer.update_tensors, empty_ok,
      zeros_shape, ne_eq, not_true_eq_false, if_false, pure, Except.pure, bind,
      Except.bind]
  refine ⟨_, e, ⟨zeros_wf hw, zeros_wf hb, rfl, rfl, fun h => by cases h⟩, rfl, rfl, rfl, rfl,
    zeros_zero _, zeros_zero _⟩

open Toy in
example : ∃ l : FullyConnectedLayer Int, FullyConnectedLayer.new .debug 3 2 "fc" = .ok l ∧
    l.get_input_shape = ⟨3, 1, 1⟩ := ⟨_, rfl, rfl⟩

/-- C52: whatever layer `FullyConnectedLayer::new(n, m)` returns, in either profile and also when
`n` is 0 or the product overflows, its output shape is `(m,1,1)`, its input shape `(max(n,1),1,1)`,
and `m` is not 0.

Partial: the input shape is not `(n,1,1)` for `n = 0`. -/
theorem C52_fully_connected_shapes_partial (b : Build) (n m : UInt32) (name : String)
    (l : FullyConnectedLayer F) (h : FullyConnectedLayer.new b n m name = .ok l) :
    l.get_output_shape = ⟨m, 1, 1⟩ ∧ l.get_input_shape = ⟨if n = 0 then 1 else n, 1, 1⟩ ∧
      m ≠ 0 ∧ l.name = name ∧ l.run_state = .Inference := by
  have hd : (TensorShape.new m n 1).di = if m = 0 then 1 else m := (C52_shape m n 1).1
  have hj : (TensorShape.new m n 1).dj = if n = 0 then 1 else n := (C52_shape m n 1).2.1
  have hshape : ∀ s : TensorShape, Sat (Tensor.new b s : Exec (Tensor F)) fun t => t.shape = s := by
    intro s
    unfold Tensor.new
    exact sat_bind fun _ _ => sat_bind fun _ _ => sat_pure rfl
  revert h
  refine (?_ : Sat (FullyConnectedLayer.new b n m name) fun l : FullyConnectedLayer F =>
    l.get_output_shape = ⟨m, 1, 1⟩ ∧ l.get_input_shape = ⟨if n = 0 then 1 else n, 1, 1⟩ ∧
      m ≠ 0 ∧ l.name = name ∧ l.run_state = .Inference) l
  unfold FullyConnectedLayer.new FullyConnectedLayer.empty
  simp only [empty_ok, ok_bind, pure_bind_exec]
  refine sat_bind' (hshape _) fun w hw => sat_bind' (hshape _) fun bi hb => ?_
  unfold FullyConnectedLayer.fill_from_state
  simp only [hw, hb]
  split
  · exact sat_error _
  · split
    · exact sat_error _
    · rename_i hdi
      simp only [ne_eq, not_true_eq_false, if_false, FullyConnectedLayer.update_tensors, empty_ok,
        pure, Except.pure, bind, Except.bind]
      refine sat_ok ⟨?_, ?_, ?_, ?_, ?_⟩
      · exact hb
      · show TensorShape.mk w.shape.dj 1 1 = _
        rw [hw, hj]
      · rintro rfl
        rw [hd] at hdi
        exact hdi (by decide)
      · rfl
      · rfl

/-- C52 is false for sizes that are zero: `FullyConnectedLayer::new(0, m)` has the input shape
`(1,1,1)` instead of `(0,1,1)`, and `FullyConnectedLayer::new(n, 0)` never returns. -/
theorem C52_fully_connected_zero_negation (b : Build) (n m : UInt32) (name : String) :
    (∀ l : FullyConnectedLayer F, FullyConnectedLayer.new b 0 m name = .ok l →
      l.get_input_shape = ⟨1, 1, 1⟩) ∧
    ∃ e, (FullyConnectedLayer.new b n 0 name : Exec (FullyConnectedLayer F)) = .error e := by
  constructor
  · intro l h
    exact (C52_fully_connected_shapes_partial b 0 m name l h).2.1
  · cases h : (FullyConnectedLayer.new b n 0 name : Exec (FullyConnectedLayer F)) with
    | error e => exact ⟨e, rfl⟩
    | ok l => exact absurd rfl (C52_fully_connected_shapes_partial b n 0 name l h).2.2.1

open Toy in
example : (FullyConnectedLayer.new .debug 3 0 "fc" : Exec (FullyConnectedLayer Int)) =
    .error .unwrap := rfl

/-! ## Max-pool layers -/

/-- C52: `MaxPoolLayer::new` with a mask no larger than the input and a positive stride.  If windows
tile the input, the result is a layer in inference mode with the given input shape, mask, stride and
name, and the output shape of that tiling; it is well formed if the element counts are representable.
If not, the result is `Err`.

Partial: false for larger masks and stride 0, see the negations below. -/
theorem C52_max_pool_partial (b : Build) (mask input : TensorShape) (stride : UInt32) (name : String)
    (hs : stride ≠ 0) (hdi : mask.di ≤ input.di) (hdj : mask.dj ≤ input.dj)
    (hi : mask.di = 0 → input.di.toNat + 1 < 2 ^ 32)
    (hj : mask.dj = 0 → input.dj.toNat + 1 < 2 ^ 32) :
    (∀ out : TensorShape, windowsTile input mask stride out → out.dk = input.dk →
      ∃ l, MaxPoolLayer.new b mask input stride name = .ok (.ok l) ∧ l.input_shape = input ∧
        l.mask_shape = mask ∧ l.stride = stride ∧ l.name = name ∧ l.output_shape = out ∧
        l.run_state = .Inference ∧ (input.Fits → out.Fits → l.Ok)) ∧
    ((∀ out, ¬ windowsTile input mask stride out) →
      ∃ e, MaxPoolLayer.new b mask input stride name = .ok (.error e)) := by
  rcases fit_cases (b := b) hs hdi hdj hi hj with ⟨n, m, h1, h2, h3⟩ | ⟨h1, h3⟩
  · refine ⟨fun out ho hk => ?_, fun hno => absurd ((h3 ⟨n, m, 0⟩).mpr ⟨rfl, rfl⟩) (hno _)⟩
    obtain ⟨e1, e2⟩ := (h3 out).mp ho
    have e : out = ⟨n, m, input.dk⟩ := by
      cases out; simp only at e1 e2 hk; subst e1 e2 hk; rfl
    refine ⟨_, by unfold MaxPoolLayer.new MaxPoolLayer.fill_from_state; rw [h1, ok_bind]
                  simp only [not_true_eq_false, if_false]; rw [h2]; rfl,
      rfl, rfl, rfl, rfl, e.symm, rfl, fun f1 f2 => ?_⟩
    exact ⟨hs, by rw [e] at ho; exact ho, rfl, f1, by rw [e] at f2; exact f2, fun h => by cases h⟩
  · refine ⟨fun out ho _ => absurd ho (h3 out), fun _ => ?_⟩
    unfold MaxPoolLayer.new MaxPoolLayer.fill_from_state
    rw [h1]
    exact ⟨_, rfl⟩

example : ∃ l, MaxPoolLayer.new .debug ⟨2, 2, 1⟩ ⟨4, 4, 3⟩ 2 "pool" = .ok (.ok l) ∧
    l.output_shape = ⟨2, 2, 3⟩ := ⟨_, rfl, rfl⟩

example : windowsTile ⟨4, 4, 3⟩ ⟨2, 2, 1⟩ 2 ⟨2, 2, 3⟩ := by decide

/-- C52 is false for stride 0 (no windows tile anything): the constructors of max-pool and
convolutional layers panic instead of returning `Err`. -/
theorem C52_stride_zero_negation (b : Build) (w input : TensorShape) (depth : UInt32) (name : String)
    (hd : depth ≠ 0) (hf : w.Fits) :
    (∃ e, MaxPoolLayer.new b w input 0 name = .error e) ∧
    ∃ e, (ConvolutionalLayer.new b w input 0 depth name :
      Exec (Except String (ConvolutionalLayer F))) = .error e := by
  have h : ∃ e, Tensor.does_kernel_stride_fit_image b input w 0 = .error e := by
    unfold Tensor.does_kernel_stride_fit_image
    cases h : subU b input.di w.di with
    | error e => exact ⟨e, rfl⟩
    | ok d => exact ⟨.divZero, rfl⟩
  obtain ⟨e, he⟩ := h
  constructor
  · refine ⟨e, ?_⟩
    unfold MaxPoolLayer.new MaxPoolLayer.fill_from_state
    rw [he]; rfl
  · refine ⟨e, ?_⟩
    unfold ConvolutionalLayer.new ConvolutionalLayer.empty
    obtain ⟨n, hn⟩ := u32_succ hd
    simp only [empty_ok, ok_bind, new_ok hf, TensorShape.new_1d, hn, List.replicate_succ,
      new_ok (F := F) (s := ⟨1, 1, 1⟩) (by decide), pure_bind_exec, ConvolutionalLayer.fill_from_state]
    rw [if_neg (by simp), zeros_shape, he]
    rfl

/-- C52 is false for masks larger than the input: with overflow checks `MaxPoolLayer::new` panics,
without them it can accept the mask. -/
theorem C52_large_mask_negation :
    (∀ mask input : TensorShape, ∀ stride name, input.di < mask.di →
      MaxPoolLayer.new .debug mask input stride name = .error .overflow) ∧
    ∃ mask input : TensorShape, ∃ stride l, input.di < mask.di ∧ stride ≠ 0 ∧
      MaxPoolLayer.new .release mask input stride "pool" = .ok (.ok l) := by
  constructor
  · intro mask input stride name h
    have : subU .debug input.di mask.di = .error .overflow := by
      unfold subU
      rw [if_neg (by have := UInt32.lt_iff_toNat_lt.mp h; omega)]
    unfold MaxPoolLayer.new MaxPoolLayer.fill_from_state Tensor.does_kernel_stride_fit_image
    rw [this]; rfl
  · exact ⟨⟨3, 1, 1⟩, ⟨2, 1, 1⟩, 4294967295, _, by decide, by decide, rfl⟩

/-! ## Softmax layers -/

/-- C52: `SoftmaxLayer::new` always returns a layer of the given shape and name in inference mode;
it is well formed if the element count is representable. -/
theorem C52_softmax (b : Build) (shape : TensorShape) (name : String) :
    ∃ l : SoftmaxLayer F, SoftmaxLayer.new b shape name = .ok (.ok l) ∧ l.shape = shape ∧
      l.name = name ∧ l.run_state = .Inference ∧ (shape.Fits → l.Ok) := by
  refine ⟨⟨shape, name, zeros ⟨1, 1, 1⟩, zeros ⟨1, 1, 1⟩, .Inference⟩, ?_, rfl, rfl, rfl,
    fun h => ⟨h, fun h => by cases h⟩⟩
  unfold SoftmaxLayer.new SoftmaxLayer.empty
  simp only [empty_ok, SoftmaxLayer.fill_from_state, SoftmaxLayer.update_tensors,
    pure, Except.pure, bind, Except.bind]

open Toy in
example : ∃ l : SoftmaxLayer Int, SoftmaxLayer.new .debug ⟨3, 1, 1⟩ "sm" = .ok (.ok l) := ⟨_, rfl⟩

/-! ## Convolutional layers -/

/-- C52: `ConvolutionalLayer::new` with a kernel of representable size, no larger than the input, and
a positive stride.  For depth 0 the result is `Err`.  Otherwise, if windows tile the input, the
result is a layer in inference mode with the given input shape, stride and name, `depth` zero
kernels of the given shape and as many biases, and the output shape of the tiling; it is well formed
if the kernel is as deep as the input and the element counts are representable.  If no windows tile
the input, the result is `Err`.

Partial: false for larger kernels and stride 0, see the negations. -/
theorem C52_convolutional_partial (b : Build) (kernel input : TensorShape) (stride depth : UInt32)
    (name : String) (hs : stride ≠ 0) (hk : kernel.Fits) (hdi : kernel.di ≤ input.di)
    (hdj : kernel.dj ≤ input.dj) (hi : kernel.di = 0 → input.di.toNat + 1 < 2 ^ 32)
    (hj : kernel.dj = 0 → input.dj.toNat + 1 < 2 ^ 32) :
    (depth = 0 → ∃ e, (ConvolutionalLayer.new b kernel input stride depth name :
      Exec (Except String (ConvolutionalLayer F))) = .ok (.error e)) ∧
    (∀ out : TensorShape, depth ≠ 0 → windowsTile input kernel stride out → out.dk = depth →
      ∃ l : ConvolutionalLayer F,
        ConvolutionalLayer.new b kernel input stride depth name = .ok (.ok l) ∧
        l.input_shape = input ∧ l.stride = stride ∧ l.name = name ∧ l.output_shape = out ∧
        l.run_state = .Inference ∧ l.kernels.length = depth.toNat ∧ l.biases.length = depth.toNat ∧
        (∀ k ∈ l.kernels, k.WF ∧ k.shape = kernel ∧ allZero k) ∧
        (∀ k ∈ l.biases, k.WF ∧ k.shape = ⟨1, 1, 1⟩ ∧ allZero k) ∧
        (kernel.dk = input.dk → input.Fits → out.Fits → l.Ok)) ∧
    ((∀ out, ¬ windowsTile input kernel stride out) →
      ∃ e, (ConvolutionalLayer.new b kernel input stride depth name :
        Exec (Except String (ConvolutionalLayer F))) = .ok (.error e)) := by
  have hnew : (ConvolutionalLayer.new b kernel input stride depth name :
      Exec (Except String (ConvolutionalLayer F))) = (do
        let (r, l) ← ConvolutionalLayer.fill_from_state b
          { kernels := [], biases := [], kernel_gradients := [], bias_gradients := [],
            relu_mask := zeros ⟨1, 1, 1⟩, stride := 1, input_shape := ⟨1, 1, 1⟩,
            output_shape := ⟨1, 1, 1⟩, name := "Empty convolutional layer",
            run_state := .Inference }
          (List.replicate depth.toNat (zeros kernel))
          (List.replicate depth.toNat (zeros ⟨1, 1, 1⟩)) input stride name
        match r with
        | .ok () => pure (.ok l)
        | .error e => pure (.error e)) := by
    unfold ConvolutionalLayer.new ConvolutionalLayer.empty
    simp only [empty_ok, ok_bind, new_ok hk, TensorShape.new_1d,
      new_ok (F := F) (s := ⟨1, 1, 1⟩) (by decide), pure_bind_exec]
    rfl
  have h0 : depth = 0 → ∃ e, (ConvolutionalLayer.new b kernel input stride depth name :
      Exec (Except String (ConvolutionalLayer F))) = .ok (.error e) := by
    rintro rfl
    exact ⟨_, hnew⟩
  refine ⟨h0, ?_⟩
  by_cases hd : depth = 0
  · exact ⟨fun _ h => absurd hd h, fun _ => h0 hd⟩
  obtain ⟨n, hn⟩ := u32_succ hd
  have hr1 : List.replicate depth.toNat (zeros kernel : Tensor F) ≠ [] := by
    rw [hn, List.replicate_succ]; exact List.cons_ne_nil _ _
  have hr2 : ∀ k ∈ List.replicate depth.toNat (zeros kernel : Tensor F), k.shape = kernel :=
    fun k hk => by rw [List.eq_of_mem_replicate hk]; rfl
  rcases fit_cases (b := b) hs hdi hdj hi hj with ⟨p, q, h1, h2, h3⟩ | ⟨h1, h3⟩
  · refine ⟨fun out _ ho hok => ?_, fun hno => absurd ((h3 ⟨p, q, 0⟩).mpr ⟨rfl, rfl⟩) (hno _)⟩
    obtain ⟨o1, o2⟩ := (h3 out).mp ho
    have e : out = ⟨p, q, depth⟩ := by
      cases out; simp only at o1 o2 hok; subst o1 o2 hok; rfl
    have hl : (List.replicate depth.toNat (zeros kernel : Tensor F)).length = depth.toNat := by simp
    refine ⟨{ kernels := List.replicate depth.toNat (zeros kernel),
              biases := List.replicate depth.toNat (zeros ⟨1, 1, 1⟩),
              kernel_gradients := [], bias_gradients := [],
              relu_mask := zeros ⟨1, 1, 1⟩, stride := stride, input_shape := input,
              output_shape := out, name := name, run_state := .Inference }, ?_,
      rfl, rfl, rfl, rfl, rfl, hl, by simp, ?_, ?_, ?_⟩
    · rw [hnew, (conv_fill_same hr1 hr2).2 p q h1 h2, e, hl, UInt32.ofNat_toNat]
      rfl
    · intro k hk'
      rw [List.eq_of_mem_replicate hk']
      exact ⟨zeros_wf hk, rfl, zeros_zero _⟩
    · intro k hk'
      rw [List.eq_of_mem_replicate hk']
      exact ⟨zeros_wf (by decide), rfl, zeros_zero _⟩
    · intro g1 g2 g3
      refine ⟨hs, g2, g3, by rw [hl]; simp only [hok], ?_, by simp, ?_, fun h => by cases h⟩
      · intro k hk'
        rw [List.eq_of_mem_replicate hk']
        exact ⟨zeros_wf hk, g1, ho⟩
      · intro k hk'
        rw [List.eq_of_mem_replicate hk']
        exact ⟨zeros_wf (by decide), rfl⟩
  · refine ⟨fun out _ ho _ => absurd ho (h3 out), fun _ => ?_⟩
    rw [hnew, (conv_fill_same hr1 hr2).1 h1]
    exact ⟨_, rfl⟩

open Toy in
example : ∃ l : ConvolutionalLayer Int,
    ConvolutionalLayer.new .debug ⟨2, 2, 3⟩ ⟨4, 4, 3⟩ 2 5 "conv" = .ok (.ok l) ∧
    l.output_shape = ⟨2, 2, 5⟩ := ⟨_, rfl, rfl⟩

/-! ## The getters of the `Layer` trait -/

/-- C52: whatever a constructor was given, if it returns a layer then the getters of the `Layer` trait report the input
shape, name and mode asked for, and the depth of the output is the one asked for. -/
theorem C52_getters (b : Build) (name : String) :
    (∀ mask input stride l, MaxPoolLayer.new b mask input stride name = .ok (.ok l) →
      let l : AnyLayer F := .mp l
      l.get_input_shape = input ∧ l.get_output_shape.dk = input.dk ∧ l.get_name = name ∧
        l.get_run_mode = .Inference) ∧
    (∀ kernel input stride depth l, ConvolutionalLayer.new b kernel input stride depth name = .ok (.ok l) →
      let l : AnyLayer F := .conv l
      l.get_input_shape = input ∧ l.get_output_shape.dk = depth ∧ l.get_name = name ∧
        l.get_run_mode = .Inference) ∧
    (∀ shape l, SoftmaxLayer.new b shape name = .ok (.ok l) →
      let l : AnyLayer F := .sm l
      l.get_input_shape = shape ∧ l.get_output_shape = shape ∧ l.get_name = name ∧ l.get_run_mode = .Inference) ∧
    ∀ n m l, FullyConnectedLayer.new b n m name = .ok l →
      let l : AnyLayer F := .fc l
      l.get_input_shape = ⟨if n = 0 then 1 else n, 1, 1⟩ ∧ l.get_output_shape = ⟨m, 1, 1⟩ ∧ l.get_name = name ∧
        l.get_run_mode = .Inference := by
  refine ⟨fun mask input stride l h => ?_, fun kernel input stride depth l h => ?_, fun shape l h => ?_,
    fun n m l h => ?_⟩
  · unfold MaxPoolLayer.new MaxPoolLayer.fill_from_state at h
    obtain ⟨⟨r, l1⟩, e, h⟩ := bind_inv h
    obtain ⟨ok, _, e⟩ := bind_inv e
    split at e
    · obtain ⟨rfl, -⟩ := Prod.mk.inj (Except.ok.inj e)
      cases Except.ok.inj h
    · obtain ⟨⟨d0, d1⟩, _, e⟩ := bind_inv e
      obtain ⟨rfl, rfl⟩ := Prod.mk.inj (Except.ok.inj e)
      obtain rfl := Except.ok.inj (Except.ok.inj h)
      exact ⟨rfl, rfl, rfl, rfl⟩
  · unfold ConvolutionalLayer.new at h
    obtain ⟨l0, e0, h⟩ := bind_inv h
    obtain ⟨k, _, h⟩ := bind_inv h
    obtain ⟨bi, _, h⟩ := bind_inv h
    obtain ⟨⟨r, l1⟩, e, h⟩ := bind_inv h
    have hm : l0.run_state = .Inference := by
      unfold ConvolutionalLayer.empty at e0
      simp only [empty_ok, ok_bind] at e0
      obtain rfl := Except.ok.inj e0
      rfl
    unfold ConvolutionalLayer.fill_from_state at e
    split at e
    · obtain ⟨rfl, -⟩ := Prod.mk.inj (Except.ok.inj e)
      cases Except.ok.inj h
    · simp only at e
      split at e
      · obtain ⟨rfl, -⟩ := Prod.mk.inj (Except.ok.inj e)
        cases Except.ok.inj h
      · obtain ⟨ok, _, e⟩ := bind_inv e
        split at e
        · obtain ⟨rfl, -⟩ := Prod.mk.inj (Except.ok.inj e)
          cases Except.ok.inj h
        · obtain ⟨⟨d0, d1⟩, _, e⟩ := bind_inv e
          obtain ⟨rfl, rfl⟩ := Prod.mk.inj (Except.ok.inj e)
          obtain rfl := Except.ok.inj (Except.ok.inj h)
          refine ⟨rfl, ?_, rfl, hm⟩
          change UInt32.ofNat (List.replicate depth.toNat k).length = depth
          rw [List.length_replicate, UInt32.ofNat_toNat]
  · obtain ⟨l', h1, h2, h3, h4, _⟩ := C52_softmax (F := F) b shape name
    rw [h1] at h
    obtain rfl := Except.ok.inj (Except.ok.inj h)
    exact ⟨h2, h2, h3, h4⟩
  · obtain ⟨h1, h2, _, h3, h4⟩ := C52_fully_connected_shapes_partial b n m name l h
    exact ⟨h2, h1, h3, h4⟩

end Rusty
