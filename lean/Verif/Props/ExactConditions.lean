import Verif.Props.Geometry
import Verif.Lemmas.ExactConditions
import Verif.Lemmas.LoadingDebug
import Verif.Props.Constructors

/-! # C15, C50, C52: exact conditions, with and without overflow checks -/

namespace Rusty

open F32Ops Spec

/-- C15 with overflow checks, for all arguments: the check accepts exactly the exact tilings.

Partial: without overflow checks it accepts more, see `C15_release_partial`. -/
theorem C15_debug_partial (image kernel result : TensorShape) (stride channel : UInt32) :
    check_convolution_dimensions .debug image kernel stride result channel = .ok (.ok ()) ↔
      stride ≠ 0 ∧ image.dk = kernel.dk ∧
      (1 ≤ result.di.toNat ∧ (result.di.toNat - 1) * stride.toNat + kernel.di.toNat = image.di.toNat) ∧
      (1 ≤ result.dj.toNat ∧ (result.dj.toNat - 1) * stride.toNat + kernel.dj.toNat = image.dj.toNat) ∧
      channel < result.dk := by
  by_cases hs : stride = 0
  · subst hs
    exact ⟨fun h => absurd h (C15_zero_stride _ _ _ _ _), fun h => absurd rfl h.1⟩
  · rw [check_conv_steps _ _ _ _ _ _ hs, axis_debug _ _ _ _ hs, axis_debug _ _ _ _ hs]
    exact ⟨fun h => ⟨hs, h⟩, fun h => h.2⟩

/-- C15 without overflow checks, for all arguments: the check accepts exactly the tilings modulo 2^32, where
a kernel wider than the image leaves a very long rest.

Partial: these include tilings that are not exact, see `C15_release_negation`. -/
theorem C15_release_partial (image kernel result : TensorShape) (stride channel : UInt32) :
    check_convolution_dimensions .release image kernel stride result channel = .ok (.ok ()) ↔
      stride ≠ 0 ∧ image.dk = kernel.dk ∧
      ((image.di.toNat + (2 ^ 32 - kernel.di.toNat)) % 2 ^ 32 % stride.toNat = 0 ∧ result.di.toNat =
        ((image.di.toNat + (2 ^ 32 - kernel.di.toNat)) % 2 ^ 32 / stride.toNat + 1) % 2 ^ 32) ∧
      ((image.dj.toNat + (2 ^ 32 - kernel.dj.toNat)) % 2 ^ 32 % stride.toNat = 0 ∧ result.dj.toNat =
        ((image.dj.toNat + (2 ^ 32 - kernel.dj.toNat)) % 2 ^ 32 / stride.toNat + 1) % 2 ^ 32) ∧
      channel < result.dk := by
  by_cases hs : stride = 0
  · subst hs
    exact ⟨fun h => absurd h (C15_zero_stride _ _ _ _ _), fun h => absurd rfl h.1⟩
  · have axis : ∀ d w n : UInt32, (∃ e m, subU .release d w = .ok e ∧ e % stride = 0 ∧
        addU .release (e / stride) 1 = .ok m ∧ n = m) ↔
        ((d.toNat + (2 ^ 32 - w.toNat)) % 2 ^ 32 % stride.toNat = 0 ∧
          n.toNat = ((d.toNat + (2 ^ 32 - w.toNat)) % 2 ^ 32 / stride.toNat + 1) % 2 ^ 32) := by
      intro d w n
      have q : (d - w).toNat = (d.toNat + (2 ^ 32 - w.toNat)) % 2 ^ 32 := by
        rw [UInt32.toNat_sub, Nat.add_comm]
      have e1 : (d - w) % stride = 0 ↔ (d.toNat + (2 ^ 32 - w.toNat)) % 2 ^ 32 % stride.toNat = 0 := by
        rw [← UInt32.toNat_inj, UInt32.toNat_mod, q]
        rfl
      have e2 : n = (d - w) / stride + 1 ↔
          n.toNat = ((d.toNat + (2 ^ 32 - w.toNat)) % 2 ^ 32 / stride.toNat + 1) % 2 ^ 32 := by
        rw [← UInt32.toNat_inj, UInt32.toNat_add, UInt32.toNat_div, q]
        rfl
      simp only [subU_release, addU_release, Except.ok.injEq]
      rw [← e1, ← e2]
      constructor
      · rintro ⟨e, m, rfl, h1, rfl, rfl⟩
        exact ⟨h1, rfl⟩
      · rintro ⟨h1, h2⟩
        exact ⟨_, _, rfl, h1, rfl, h2⟩
    rw [check_conv_steps _ _ _ _ _ _ hs, axis, axis]
    exact ⟨fun h => ⟨hs, h⟩, fun h => h.2⟩

variable {F : Type} [F32Ops F]

/-- C50, which tensors read from a file are usable, for all of them: in debug builds those whose strides take
every index inside the shape to a position in the data; in release builds the position is taken modulo 2^32.

Partial: others are accepted as well, see `C50_negation`. -/
theorem C50_usable_partial [F32Bits F] (b : Build) (fs : FS) (name : String) (u : Tensor F)
    (_ : Tensor.from_file fs name = .ok u) :
    (∀ i j k, u.shape.Inside i j k →
      (∃ v, u.get_item b (ix i j k) = .ok v) ∧ ∀ v, ∃ u', u.set_item b (ix i j k) v = .ok u') ↔
    ∀ i j k, u.shape.Inside i j k → match b with
      | .debug => u.strides.i.toNat * i + u.strides.j.toNat * j + u.strides.k.toNat * k < 2 ^ 32 ∧
          u.strides.i.toNat * i + u.strides.j.toNat * j + u.strides.k.toNat * k < u.data.length
      | .release => (u.strides.i.toNat * i + u.strides.j.toNat * j + u.strides.k.toNat * k) % 2 ^ 32 <
          u.data.length := by
  refine forall_congr' fun i => forall_congr' fun j => forall_congr' fun k => forall_congr' fun hin => ?_
  obtain ⟨l1, l2, l3⟩ := inside_lt hin
  have f := fits_index_ix hin
  have read : ∀ p : UInt32, u.get_data_index b (ix i j k) = .ok p →
      (((∃ v, u.get_item b (ix i j k) = .ok v) ∧ ∀ v, ∃ u', u.set_item b (ix i j k) v = .ok u') ↔
        p.toNat < u.data.length) := by
    intro p hp
    unfold Tensor.get_item Tensor.set_item
    simp only [f, if_true, Tensor.read, Tensor.write, hp, ok_bind]
    by_cases hl : p.toNat < u.data.length
    · simp only [hl, iff_true]
      refine ⟨⟨u.data[p.toNat], ?_⟩, fun v => ⟨{ u with data := u.data.set p.toNat v }, ?_⟩⟩
      · simp [vget, hl]
      · simp [vset, hl]
    · simp only [hl, iff_false]
      rintro ⟨⟨v, hv⟩, _⟩
      simp [vget, List.getElem?_eq_none (Nat.not_lt.mp hl)] at hv
  cases b with
  | release =>
    obtain ⟨p, h1, h2⟩ := mulIndex_release u.strides (ix i j k)
    simp only [ix, toNat_ofNat_lt l1, toNat_ofNat_lt l2, toNat_ofNat_lt l3] at h2
    rw [read p h1, h2]
  | debug =>
    by_cases h : u.strides.i.toNat * i + u.strides.j.toNat * j + u.strides.k.toNat * k < 2 ^ 32
    · have h1 := (mulIndex_debug u.strides (ix i j k) (UInt32.ofNat
        (u.strides.i.toNat * i + u.strides.j.toNat * j + u.strides.k.toNat * k))).mpr (by
          rw [toNat_ofNat_lt h]
          simp only [ix, toNat_ofNat_lt l1, toNat_ofNat_lt l2, toNat_ofNat_lt l3])
      rw [read _ h1, toNat_ofNat_lt h]
      exact ⟨fun g => ⟨h, g⟩, fun g => g.2⟩
    · refine ⟨fun ⟨⟨v, hv⟩, _⟩ => ?_, fun g => absurd g.1 h⟩
      unfold Tensor.get_item at hv
      rw [f, if_pos rfl] at hv
      obtain ⟨p, hp, _⟩ := bind_inv hv
      have := (mulIndex_debug u.strides (ix i j k) p).mp hp
      simp only [ix, toNat_ofNat_lt l1, toNat_ofNat_lt l2, toNat_ofNat_lt l3] at this
      have := u32_lt p
      omega

/-! ## Constructors -/

/-- C52, when `FullyConnectedLayer::new(n, m)` returns a layer at all, in both profiles and for all sizes.  The
shapes it then has are in `C52_fully_connected_shapes_partial`. -/
theorem C52_fully_connected_returns_partial (b : Build) (n m : UInt32) (name : String) :
    (∃ l : FullyConnectedLayer F, FullyConnectedLayer.new b n m name = .ok l) ↔
      m ≠ 0 ∧ (b = .debug → n.toNat * m.toNat < 2 ^ 32) := by
  have hd : (TensorShape.new m n 1).di = if m = 0 then 1 else m := (C52_shape m n 1).1
  have hj : (TensorShape.new m n 1).dj = if n = 0 then 1 else n := (C52_shape m n 1).2.1
  have hk : (TensorShape.new m n 1).dk = 1 := (C52_shape m n 1).2.2
  have hm := u32_lt m
  have hb : (⟨m, 1, 1⟩ : TensorShape).Fits := by
    refine ⟨?_, ?_⟩ <;> simp only [TensorShape.count, show (1 : UInt32).toNat = 1 from rfl,
      Nat.mul_one] <;> exact hm
  have hw : m ≠ 0 → ((TensorShape.new m n 1).Fits ↔ n.toNat * m.toNat < 2 ^ 32) := by
    intro hm0
    unfold TensorShape.Fits TensorShape.count
    rw [hd, hj, hk, if_neg hm0, show (1 : UInt32).toNat = 1 from rfl, Nat.mul_one, and_self]
    split
    · rename_i h
      subst h
      simp only [show (1 : UInt32).toNat = 1 from rfl, show (0 : UInt32).toNat = 0 from rfl]
      omega
    · rw [Nat.mul_comm]
  constructor
  · rintro ⟨l, h⟩
    have hm0 := (C52_fully_connected_shapes_partial b n m name l h).2.2.1
    refine ⟨hm0, ?_⟩
    rintro rfl
    rw [← hw hm0]
    by_contra hf
    unfold FullyConnectedLayer.new FullyConnectedLayer.empty at h
    simp only [empty_ok, ok_bind, pure_bind_exec, new_panics hf, error_bind] at h
    cases h
  · rintro ⟨hm0, hf⟩
    obtain ⟨w, h1⟩ := new_returns (F := F) b (TensorShape.new m n 1) (by
      cases b with
      | release => exact .inl rfl
      | debug => exact .inr ((hw hm0).mpr (hf rfl)))
    have hs : w.shape = TensorShape.new m n 1 := by
      unfold Tensor.new at h1
      obtain ⟨_, _, h1⟩ := bind_inv h1
      obtain ⟨_, _, h1⟩ := bind_inv h1
      cases h1
      rfl
    unfold FullyConnectedLayer.new FullyConnectedLayer.empty
    simp only [empty_ok, ok_bind, pure_bind_exec, h1, new_ok (F := F) hb]
    unfold FullyConnectedLayer.fill_from_state
    have e1 : w.shape.di = m := by rw [hs, hd, if_neg hm0]
    have e2 : w.shape.dk = 1 := by rw [hs, hk]
    simp only [zeros_shape, e1, e2, ne_eq, not_true_eq_false, if_false, FullyConnectedLayer.update_tensors, empty_ok,
      pure, Except.pure, bind, Except.bind]
    exact ⟨_, rfl⟩

/-- C52, `MaxPoolLayer::new` with overflow checks, for all arguments: when it panics, when it returns `Err` and
which layers it returns. -/
theorem C52_max_pool_debug_partial (mask input : TensorShape) (stride : UInt32) (name : String) :
    ((∃ p, MaxPoolLayer.new .debug mask input stride name = .error p) ↔
      stride = 0 ∨ WindowPanics input mask stride) ∧
    ((∃ e, MaxPoolLayer.new .debug mask input stride name = .ok (.error e)) ↔
      stride ≠ 0 ∧ ¬ WindowPanics input mask stride ∧ ∀ out, ¬ windowsTile input mask stride out) ∧
    ∀ l, MaxPoolLayer.new .debug mask input stride name = .ok (.ok l) ↔
      stride ≠ 0 ∧ windowsTile input mask stride l.output_shape ∧ l.output_shape.dk = input.dk ∧
      l.input_shape = input ∧ l.mask_shape = mask ∧ l.stride = stride ∧ l.name = name ∧
      l.run_state = .Inference ∧ l.max_pool_origin = [] := by
  by_cases hs : stride = 0
  · subst hs
    have h : ∃ e, Tensor.does_kernel_stride_fit_image .debug input mask 0 = .error e := by
      unfold Tensor.does_kernel_stride_fit_image
      cases h : subU .debug input.di mask.di with
      | error e => exact ⟨e, rfl⟩
      | ok d => exact ⟨.divZero, rfl⟩
    obtain ⟨e, he⟩ := h
    have hp : MaxPoolLayer.new .debug mask input 0 name = .error e := by
      unfold MaxPoolLayer.new MaxPoolLayer.fill_from_state
      rw [he]; rfl
    rw [hp]
    simp
  · unfold MaxPoolLayer.new MaxPoolLayer.fill_from_state
    rcases fit_debug input mask stride hs with ⟨hw, ⟨p, h1⟩ | ⟨h1, p, h2⟩⟩ | ⟨hw, h1, h3⟩ | ⟨hw, n, m, h1, h2, h3⟩
    · have nt : ∀ out, ¬ windowsTile input mask stride out := fun out ho => windows_no_panic hs ho hw
      simp only [h1, error_bind, hw, hs, nt, not_true_eq_false, false_and, and_false, or_true, iff_true,
        reduceCtorEq, exists_const, not_false_eq_true, implies_true, and_true]
      exact ⟨p, rfl⟩
    · have nt : ∀ out, ¬ windowsTile input mask stride out := fun out ho => windows_no_panic hs ho hw
      simp only [h1, h2, ok_bind, error_bind, hw, hs, nt, not_true_eq_false, false_and, and_false, or_true, iff_true,
        reduceCtorEq, exists_const, not_false_eq_true, implies_true, and_true, if_false]
      exact ⟨p, rfl⟩
    · simp [h1, ok_bind, hw, hs, h3]
    · simp only [h1, h2, ok_bind, hw, hs, or_self, not_true_eq_false, if_false, pure_bind_exec]
      refine ⟨⟨fun ⟨p, h⟩ => (nomatch h), fun h => h.elim⟩, ⟨fun ⟨p, h⟩ => (nomatch h),
        fun h => absurd ((h3 ⟨n, m, 0⟩).mpr ⟨rfl, rfl⟩) (h.2.2 _)⟩, fun l => ?_⟩
      constructor
      · intro h
        cases h
        exact ⟨hs, (h3 _).mpr ⟨rfl, rfl⟩, rfl, rfl, rfl, rfl, rfl, rfl, rfl⟩
      · rintro ⟨_, h4, h5, h6, h7, h8, h9, h10, h11⟩
        obtain ⟨e1, e2⟩ := (h3 _).mp h4
        obtain ⟨a1, a2, a3, a4, a5, a6, a7⟩ := l
        obtain ⟨o1, o2, o3⟩ := a3
        simp only at *
        subst_vars
        rfl

/-- C52, `ConvolutionalLayer::new` with overflow checks, for all arguments: when it panics, when it returns `Err`
and when it returns a layer.  What the layer is then is in `C52_convolutional_partial`. -/
theorem C52_convolutional_debug_partial (kernel input : TensorShape) (stride depth : UInt32) (name : String) :
    ((∃ p, (ConvolutionalLayer.new .debug kernel input stride depth name :
        Exec (Except String (ConvolutionalLayer F))) = .error p) ↔
      ¬ kernel.Fits ∨ depth ≠ 0 ∧ (stride = 0 ∨ WindowPanics input kernel stride)) ∧
    ((∃ e, (ConvolutionalLayer.new .debug kernel input stride depth name :
        Exec (Except String (ConvolutionalLayer F))) = .ok (.error e)) ↔
      kernel.Fits ∧ (depth = 0 ∨ stride ≠ 0 ∧ ¬ WindowPanics input kernel stride ∧
        ∀ out, ¬ windowsTile input kernel stride out)) ∧
    ((∃ l, (ConvolutionalLayer.new .debug kernel input stride depth name :
        Exec (Except String (ConvolutionalLayer F))) = .ok (.ok l)) ↔
      kernel.Fits ∧ depth ≠ 0 ∧ stride ≠ 0 ∧ ∃ out, windowsTile input kernel stride out) := by
  by_cases hk : kernel.Fits
  swap
  · have hp : (ConvolutionalLayer.new .debug kernel input stride depth name :
        Exec (Except String (ConvolutionalLayer F))) = .error .overflow := by
      unfold ConvolutionalLayer.new ConvolutionalLayer.empty
      simp only [empty_ok, ok_bind, pure_bind_exec, new_panics hk, error_bind]
    rw [hp]
    simp [hk]
  have hnew : (ConvolutionalLayer.new .debug kernel input stride depth name :
      Exec (Except String (ConvolutionalLayer F))) = (do
        let (r, l) ← ConvolutionalLayer.fill_from_state .debug
          { kernels := [], biases := [], kernel_gradients := [], bias_gradients := [],
            relu_mask := zeros ⟨1, 1, 1⟩, stride := 1, input_shape := ⟨1, 1, 1⟩,
            output_shape := ⟨1, 1, 1⟩, name := "Empty convolutional layer",
            run_state := .Inference }
          (List.replicate depth.toNat (zeros kernel))
          (List.replicate depth.toNat (zeros ⟨1, 1, 1⟩)) input stride name
        match r with
        | .ok () => pure (.ok l)
        | .error e => pure (.error e)) := by
    unfold ConvolutionalLayer.new ConvolutionalLayer.empty
    simp only [empty_ok, ok_bind, new_ok hk, TensorShape.new_1d,
      new_ok (F := F) (s := ⟨1, 1, 1⟩) (by decide), pure_bind_exec]
    rfl
  by_cases hd : depth = 0
  · subst hd
    have : (ConvolutionalLayer.new .debug kernel input stride 0 name :
        Exec (Except String (ConvolutionalLayer F))) =
        .ok (.error "Kernel list should contain at least 1 kernel") := hnew
    rw [this]
    simp [hk]
  obtain ⟨n, hn⟩ := u32_succ hd
  have hr1 : List.replicate depth.toNat (zeros kernel : Tensor F) ≠ [] := by
    rw [hn, List.replicate_succ]; exact List.cons_ne_nil _ _
  have hr2 : ∀ k ∈ List.replicate depth.toNat (zeros kernel : Tensor F), k.shape = kernel :=
    fun k hk => by rw [List.eq_of_mem_replicate hk]; rfl
  have hpanic : (∀ p, Tensor.does_kernel_stride_fit_image .debug input kernel stride = .error p →
        (ConvolutionalLayer.new .debug kernel input stride depth name :
          Exec (Except String (ConvolutionalLayer F))) = .error p) ∧
      ∀ p, Tensor.does_kernel_stride_fit_image .debug input kernel stride = .ok true →
        Tensor.get_convolution_dim_fit .debug input kernel stride = .error p →
        (ConvolutionalLayer.new .debug kernel input stride depth name :
          Exec (Except String (ConvolutionalLayer F))) = .error p := by
    rw [hnew]
    refine ⟨fun p h => ?_, fun p h1 h2 => ?_⟩
    · rw [(conv_fill_panics hr1 hr2).1 p h]; rfl
    · rw [(conv_fill_panics hr1 hr2).2 p h1 h2]; rfl
  by_cases hs : stride = 0
  · subst hs
    obtain ⟨e, he⟩ : ∃ e, Tensor.does_kernel_stride_fit_image .debug input kernel 0 = .error e := by
      unfold Tensor.does_kernel_stride_fit_image
      cases h : subU .debug input.di kernel.di with
      | error e => exact ⟨e, rfl⟩
      | ok d => exact ⟨.divZero, rfl⟩
    rw [hpanic.1 e he]
    simp [hk, hd]
  · rcases fit_debug input kernel stride hs with ⟨hw, h⟩ | ⟨hw, h1, h3⟩ | ⟨hw, p, q, h1, h2, h3⟩
    · have nt : ∀ out, ¬ windowsTile input kernel stride out := fun out ho => windows_no_panic hs ho hw
      obtain ⟨p, hp⟩ : ∃ p, (ConvolutionalLayer.new .debug kernel input stride depth name :
          Exec (Except String (ConvolutionalLayer F))) = .error p := by
        rcases h with ⟨p, h⟩ | ⟨h, p, h'⟩
        · exact ⟨p, hpanic.1 p h⟩
        · exact ⟨p, hpanic.2 p h h'⟩
      rw [hp]
      simp [hk, hd, hs, hw, nt]
    · rw [hnew, (conv_fill_same hr1 hr2).1 h1]
      simp [hk, hd, hs, hw, h3, pure, Except.pure, bind, Except.bind]
    · have ht : windowsTile input kernel stride ⟨p, q, 0⟩ := (h3 _).mpr ⟨rfl, rfl⟩
      rw [hnew, (conv_fill_same hr1 hr2).2 p q h1 h2]
      simp only [pure, Except.pure, bind, Except.bind, hk, hd, hs, hw]
      refine ⟨by simp, ⟨fun ⟨e, h⟩ => (nomatch h), fun h => ?_⟩, ⟨fun _ => ⟨trivial, hd, hs, _, ht⟩,
        fun _ => ⟨_, rfl⟩⟩⟩
      rcases h.2 with h | h
      · exact h.elim
      · exact absurd ht (h.2.2 _)

example : check_convolution_dimensions .debug ⟨4, 4, 1⟩ ⟨2, 2, 1⟩ 2 ⟨2, 2, 3⟩ 2 = .ok (.ok ()) := by
  rw [C15_debug_partial]; decide

example : ¬ check_convolution_dimensions .debug ⟨2, 1, 1⟩ ⟨3, 1, 1⟩ 4294967295 ⟨2, 1, 1⟩ 0 = .ok (.ok ()) ∧
    check_convolution_dimensions .release ⟨2, 1, 1⟩ ⟨3, 1, 1⟩ 4294967295 ⟨2, 1, 1⟩ 0 = .ok (.ok ()) := by
  rw [C15_debug_partial, C15_release_partial]; decide

open Toy in
/-- strides that are not those of the shape can still be usable: here every index reads the only value -/
example : ∀ i j k, (⟨⟨0, 0, 0⟩, ⟨2, 1, 1⟩, [5]⟩ : Tensor UInt32).shape.Inside i j k →
    0 * i + 0 * j + 0 * k < 2 ^ 32 ∧ 0 * i + 0 * j + 0 * k < [5].length := by
  intro i j k _
  rw [Nat.zero_mul, Nat.zero_mul, Nat.zero_mul]
  decide

open Toy in
/-- and those of the shape are not if there is too little data -/
example : ¬ ∀ i j k, (⟨⟨1, 2, 2⟩, ⟨2, 1, 1⟩, [5]⟩ : Tensor UInt32).shape.Inside i j k →
    1 * i + 2 * j + 2 * k < 2 ^ 32 ∧ 1 * i + 2 * j + 2 * k < [5].length :=
  fun h => absurd (h 1 0 0 (by decide)).2 (by decide)

open Toy in
example : ∃ l : FullyConnectedLayer UInt32, FullyConnectedLayer.new .release 65536 65537 "fc" = .ok l := by
  rw [C52_fully_connected_returns_partial]; decide

example : WindowPanics ⟨2, 2, 1⟩ ⟨3, 1, 1⟩ 1 ∧ ¬ WindowPanics ⟨4, 4, 1⟩ ⟨2, 2, 1⟩ 2 := by
  unfold WindowPanics; decide

/-! ## C16 -/

/-- C16: whenever the fit test accepts and the sizes are computed, the windows all lie inside the image if and only
if the kernel is no larger than the image, or there is no window or no entry in a window at all.

Partial: the first alternative can fail without overflow checks. -/
theorem C16_exact_partial (b : Build) (image kernel : TensorShape) (stride n m : UInt32)
    (hfit : Tensor.does_kernel_stride_fit_image b image kernel stride = .ok true)
    (hdim : Tensor.get_convolution_dim_fit b image kernel stride = .ok (n, m)) :
    (∀ i j ki kj k, i < n.toNat → j < m.toNat → ki < kernel.di.toNat → kj < kernel.dj.toNat →
      k < image.dk.toNat → image.Inside (i * stride.toNat + ki) (j * stride.toNat + kj) k) ↔
    kernel.di ≤ image.di ∧ kernel.dj ≤ image.dj ∨
      n = 0 ∨ m = 0 ∨ kernel.di = 0 ∨ kernel.dj = 0 ∨ image.dk = 0 := by
  have z : ∀ x : UInt32, x = 0 ↔ x.toNat = 0 := fun x => ⟨fun h => by rw [h]; rfl, fun h => u32_ext h⟩
  simp only [UInt32.le_iff_toNat_le, z]
  constructor
  · intro h
    by_contra hc
    have h := h 0 0 (kernel.di.toNat - 1) (kernel.dj.toNat - 1) 0 (by omega) (by omega) (by omega)
      (by omega) (by omega)
    have h1 := h.1
    have h2 := h.2.1
    omega
  · intro h
    by_cases he : n.toNat = 0 ∨ m.toNat = 0 ∨ kernel.di.toNat = 0 ∨ kernel.dj.toNat = 0 ∨
        image.dk.toNat = 0
    · intro i j ki kj k a1 a2 a3 a4 a5
      omega
    · obtain ⟨n', m', e, _, _, _, _, hw⟩ := C16_windows_inside_partial b image kernel stride hfit
        (.inr (by simp only [UInt32.le_iff_toNat_le]; omega)) (fun h => by rw [z] at h; omega)
        (fun h => by rw [z] at h; omega)
      rw [hdim] at e
      cases e
      exact hw

/-- Both sides occur: windows outside in `C16_release_negation`, no windows here. -/
example : Tensor.does_kernel_stride_fit_image .release ⟨2, 1, 1⟩ ⟨3, 1, 1⟩ 1 = .ok true ∧
    Tensor.get_convolution_dim_fit .release ⟨2, 1, 1⟩ ⟨3, 1, 1⟩ 1 = .ok (0, 1) := ⟨rfl, rfl⟩

end Rusty
