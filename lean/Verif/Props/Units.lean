import Verif.Lemmas.IEEEIdle
import Verif.Lemmas.Opposite
import Verif.Lemmas.IEEELaws
import Verif.Spec.Units
import Verif.Props.FullyConnected
import Verif.Props.ConvLayer

/-! # C97: units and channels have nothing to do with each other -/

namespace Rusty

open F32Ops Spec

section

variable {F : Type} [F32Ops F]

private theorem act_any [MaxZero F] (m m' : NetworkRunState) (v : F) (hv : Summed v) : act m v = act m' v := by
  cases m <;> cases m' <;> simp only [act, MaxZero.fmax_zero v hv, relu]

private theorem preact_same {l l' : FullyConnectedLayer F} {o o' : Nat} (h : SameUnit l o l' o') (x : Tensor F) :
    preact l' x o' = preact l x o := by
  unfold preact
  rw [h.bias, h.inputs]
  congr 2
  refine List.map_congr_left fun i hi => ?_
  rw [h.weights i (List.mem_range.mp hi)]

/-- C97, fully connected layers: the output of a unit is the same in all layers that contain it, in any place and
whatever the other units and the modes are. -/
theorem C97_unit [MaxZero F] (b : Build) (l l' : FullyConnectedLayer F) (o o' : Nat) (h : SameUnit l o l' o')
    (hl : l.Ok) (hl' : l'.Ok) (x out out' : Tensor F) (hx : x.WF) (hxs : x.shape = l.get_input_shape)
    (ho : out.WF) (hos : out.shape = l.get_output_shape) (ho' : out'.WF)
    (hos' : out'.shape = l'.get_output_shape) :
    ∃ l1 y l1' y' v, l.forward b x out = .ok (.ok (), l1, y) ∧ l'.forward b x out' = .ok (.ok (), l1', y') ∧
      y.get_item b (ix o 0 0) = .ok v ∧ y'.get_item b (ix o' 0 0) = .ok v := by
  have hxs' : x.shape = l'.get_input_shape := by
    rw [hxs]; unfold FullyConnectedLayer.get_input_shape; rw [h.inputs]
  have key : ∀ (l : FullyConnectedLayer F) (hl : l.Ok) (out : Tensor F), x.shape = l.get_input_shape → out.WF →
      out.shape = l.get_output_shape → ∀ o, o < l.weights.shape.di.toNat →
      ∃ l1 y, l.forward b x out = .ok (.ok (), l1, y) ∧
        y.get_item b (ix o 0 0) = .ok (act l.run_state (preact l x o)) := by
    intro l hl out hxs ho hos o hlt
    cases hm : l.run_state with
    | Inference =>
      obtain ⟨y, q1, _, _, q4⟩ := C27_forward_inference b l hl hm x out hx hxs ho hos
      exact ⟨l, y, q1, q4 o hlt⟩
    | Training =>
      obtain ⟨mask, y, q1, _, _, q6⟩ := C27_forward_training b l hl hm x out hx hxs ho hos
      exact ⟨_, y, q1, (q6 o hlt).1⟩
  obtain ⟨l1, y, a1, a2⟩ := key l hl out hxs ho hos o h.inside
  obtain ⟨l1', y', c1, c2⟩ := key l' hl' out' hxs' ho' hos' o' h.inside'
  refine ⟨l1, y, l1', y', _, a1, c1, a2, ?_⟩
  rw [c2, preact_same h, act_any l'.run_state l.run_state _ (summed_preact _ _ _)]

/-- C97, convolutional layers: likewise for output channels. -/
theorem C97_channel [MaxZero F] (b : Build) (l l' : ConvolutionalLayer F) (c c' : Nat) (h : SameChannel l c l' c')
    (hl : l.Ok) (hl' : l'.Ok) (x out out' : Tensor F) (hx : x.WF) (hxs : x.shape = l.input_shape)
    (ho : out.WF) (hos : out.shape = l.output_shape) (ho' : out'.WF)
    (hos' : out'.shape = l'.output_shape) :
    ∃ l1 y l1' y', l.forward b x out = .ok (.ok (), l1, y) ∧ l'.forward b x out' = .ok (.ok (), l1', y') ∧
      y'.shape.di = y.shape.di ∧ y'.shape.dj = y.shape.dj ∧
      ∀ i j, i < y.shape.di.toNat → j < y.shape.dj.toNat →
        ∃ v, y.get_item b (ix i j c) = .ok v ∧ y'.get_item b (ix i j c') = .ok v := by
  have hc' : c' < l'.output_shape.dk.toNat := by rw [← hl'.count]; exact h.inside'
  have hc : c < l.output_shape.dk.toNat := by rw [← hl.count]; exact h.inside
  have hp : ∀ i j, convPre l' x i j c' = convPre l x i j c := by
    intro i j
    have e1 := List.getElem?_eq_getElem (l := l.biases) (i := c) (by rw [hl.biasCount]; exact h.inside)
    have e2 := List.getElem?_eq_getElem (l := l'.biases) (i := c') (by rw [hl'.biasCount]; exact h.inside')
    have e3 := List.getElem?_eq_getElem h.inside
    unfold convPre
    rw [h.kernel, e1, e2, e3, h.stride]
    simp only []
    rw [h.bias _ _ e1 e2]
  have hd : l'.output_shape.di = l.output_shape.di ∧ l'.output_shape.dj = l.output_shape.dj := by
    have e := h.kernel
    rw [List.getElem?_eq_getElem h.inside, List.getElem?_eq_getElem h.inside'] at e
    have e := Option.some.inj e
    obtain ⟨_, _, t1, t2⟩ := hl.kernels _ (List.getElem_mem h.inside)
    obtain ⟨_, _, t3, t4⟩ := hl'.kernels _ (List.getElem_mem h.inside')
    rw [e, h.input, h.stride] at t3 t4
    have hs : 0 < l.stride.toNat := Nat.pos_of_ne_zero fun e => hl.stride (u32_ext e)
    have key : ∀ {d w n n' : Nat}, tiles d w l.stride.toNat n → tiles d w l.stride.toNat n' → n = n' := by
      rintro d w n n' ⟨a1, a2⟩ ⟨b1, b2⟩
      have : (n - 1) * l.stride.toNat = (n' - 1) * l.stride.toNat := by omega
      have := Nat.eq_of_mul_eq_mul_right hs this
      omega
    exact ⟨u32_ext (key t3 t1), u32_ext (key t4 t2)⟩
  have hxs' : x.shape = l'.input_shape := hxs.trans h.input.symm
  have key : ∀ (l : ConvolutionalLayer F) (hl : l.Ok) (out : Tensor F), x.shape = l.input_shape → out.WF →
      out.shape = l.output_shape → ∃ l1 y, l.forward b x out = .ok (.ok (), l1, y) ∧ y.shape = l.output_shape ∧
      ∀ i j k, l.output_shape.Inside i j k →
        y.get_item b (ix i j k) = .ok (act l.run_state (convPre l x i j k)) := by
    intro l hl out hxs ho hos
    cases hm : l.run_state with
    | Inference =>
      obtain ⟨y, q1, _, q3, q4⟩ := C30_forward_inference b l x out hl hm hx hxs ho hos
      exact ⟨l, y, q1, q3, q4⟩
    | Training =>
      obtain ⟨mask, y, q1, _, q3, _, _, q6⟩ := C30_forward_training b l x out hl hm hx hxs ho hos
      exact ⟨_, y, q1, q3, fun i j k hin => (q6 i j k hin).1⟩
  obtain ⟨l1, y, a1, a2, a3⟩ := key l hl out hxs ho hos
  obtain ⟨l1', y', c1, c2, c3⟩ := key l' hl' out' hxs' ho' hos'
  refine ⟨l1, y, l1', y', a1, c1, by rw [a2, c2, hd.1], by rw [a2, c2, hd.2], fun i j hi hj => ?_⟩
  rw [a2] at hi hj
  refine ⟨_, a3 i j c ⟨hi, hj, hc⟩, ?_⟩
  rw [c3 i j c' ⟨hd.1 ▸ hi, hd.2 ▸ hj, hc'⟩, hp, act_any l'.run_state l.run_state _ (summed_convPre _ _ _ _ _)]

/-- C97, training: what a unit records as gradients depends on the inputs and on its own entries of the incoming
gradients only. -/
theorem C97_training (b : Build) (l l' : FullyConnectedLayer F) (o o' : Nat) (h : SameUnit l o l' o') (hl : l.Ok)
    (hl' : l'.Ok) (hm : l.run_state = .Training) (hm' : l'.run_state = .Training) (rs rs' : List (Round F))
    (hr : ∀ r ∈ rs, r.FitsFC l) (hr' : ∀ r ∈ rs', r.FitsFC l')
    (hrr : List.Forall₂ (fun r r' => r'.x = r.x ∧ val r'.g o' 0 0 = val r.g o 0 0) rs rs')
    (hb : val l'.bias_gradients o' 0 0 = val l.bias_gradients o 0 0)
    (hw : ∀ i, i < l.weights.shape.dj.toNat → val l'.weights_gradients o' i 0 = val l.weights_gradients o i 0) :
    ∃ m m', FCRun b l rs m ∧ FCRun b l' rs' m' ∧
      (∃ v, m.bias_gradients.get_item b (ix o 0 0) = .ok v ∧ m'.bias_gradients.get_item b (ix o' 0 0) = .ok v) ∧
      ∀ i, i < l.weights.shape.dj.toNat → ∃ v, m.weights_gradients.get_item b (ix o i 0) = .ok v ∧
        m'.weights_gradients.get_item b (ix o' i 0) = .ok v := by
  obtain ⟨m, a1, _, _, a2⟩ := C28_accumulate b l hl hm rs hr
  obtain ⟨m', c1, _, _, c2⟩ := C28_accumulate b l' hl' hm' rs' hr'
  have hmask : ∀ r r' : Round F, r'.x = r.x ∧ val r'.g o' 0 0 = val r.g o 0 0 → masked l' r' o' = masked l r o := by
    rintro r r' ⟨e1, e2⟩
    unfold masked
    rw [e1, e2, preact_same h]
  have e1 : rs'.map (fun r => masked l' r o') = rs.map fun r => masked l r o := by
    clear hr hr' a1 a2 c1 c2
    induction hrr with
    | nil => rfl
    | cons e _ ih => rw [List.map_cons, List.map_cons, ih, hmask _ _ e]
  have e2 : ∀ i, rs'.map (fun r => sum [mul (masked l' r o') (val r.x i 0 0)]) =
      rs.map fun r => sum [mul (masked l r o) (val r.x i 0 0)] := by
    intro i
    clear hr hr' a1 a2 c1 c2 e1
    induction hrr with
    | nil => rfl
    | cons e _ ih => rw [List.map_cons, List.map_cons, ih, hmask _ _ e, e.1]
  refine ⟨m, m', a1, c1, ⟨_, (a2 o h.inside).1, ?_⟩, fun i hi => ⟨_, (a2 o h.inside).2 i hi, ?_⟩⟩
  · rw [(c2 o' h.inside').1, e1, hb]
  · rw [(c2 o' h.inside').2 i (h.inputs ▸ hi), e2, hw i hi]

end

section

open F32

variable [Libm]

/-- C97: a unit whose pre-activation is not positive in any round records nothing, whatever (finite) gradients and
inputs come in. -/
theorem C97_dead (b : Build) (l : FullyConnectedLayer F32) (o : Nat) (ho : o < l.weights.shape.di.toNat) (hl : l.Ok)
    (hm : l.run_state = .Training) (rs : List (Round F32)) (hr : ∀ r ∈ rs, r.FitsFC l)
    (hd : ∀ r ∈ rs, F32Ops.gt (preact l r.x o) F32Ops.zero = false)
    (hg : ∀ r ∈ rs, (val r.g o 0 0).isFinite = true)
    (hx : ∀ r ∈ rs, ∀ i, i < l.weights.shape.dj.toNat → (val r.x i 0 0).isFinite = true)
    (hb : (val l.bias_gradients o 0 0).isFinite = true)
    (hw : ∀ i, i < l.weights.shape.dj.toNat → (val l.weights_gradients o i 0).isFinite = true) :
    ∃ m, FCRun b l rs m ∧
      (∃ v w, l.bias_gradients.get_item b (ix o 0 0) = .ok v ∧ m.bias_gradients.get_item b (ix o 0 0) = .ok w ∧
        SameNumber w v) ∧
      ∀ i, i < l.weights.shape.dj.toNat → ∃ v w, l.weights_gradients.get_item b (ix o i 0) = .ok v ∧
        m.weights_gradients.get_item b (ix o i 0) = .ok w ∧ SameNumber w v := by
  obtain ⟨m, a1, _, _, a2⟩ := C28_accumulate b l hl hm rs hr
  have hz : ∀ r ∈ rs, (masked l r o).code = 0 := by
    intro r h
    unfold masked
    rw [hd r h]
    exact zero_mul_code (z := mk' false 0) (by decide) (hg r h)
  obtain ⟨hw1, _, hb1, _⟩ := hl.buffers hm
  refine ⟨m, a1, ⟨_, _, get_item_ok hb1.1 (by rw [hb1.2, hl.rows]; exact col_inside ho), (a2 o ho).1, ?_⟩,
    fun i hi => ⟨_, _, get_item_ok hw1.1 (by rw [hw1.2]; exact ⟨ho, hi, by rw [hl.depth]; decide⟩),
      (a2 o ho).2 i hi, ?_⟩⟩
  · refine (foldl_zeros _ (fun z h => ?_) _ hb).2
    obtain ⟨r, h1, rfl⟩ := List.mem_map.mp h
    exact hz r h1
  · refine (foldl_zeros _ (fun z h => ?_) _ (hw i hi)).2
    obtain ⟨r, h1, rfl⟩ := List.mem_map.mp h
    exact sum_zero_code (zero_mul_code (hz r h1) (hx r h1 i hi))

/-- C97: the weights of an input that is zero in every round record nothing. -/
theorem C97_idle (b : Build) (l : FullyConnectedLayer F32) (i : Nat) (hi : i < l.weights.shape.dj.toNat) (hl : l.Ok)
    (hm : l.run_state = .Training) (rs : List (Round F32)) (hr : ∀ r ∈ rs, r.FitsFC l)
    (hx : ∀ r ∈ rs, (val r.x i 0 0).code = 0) (o : Nat) (ho : o < l.weights.shape.di.toNat)
    (hg : ∀ r ∈ rs, (val r.g o 0 0).isFinite = true)
    (hw : (val l.weights_gradients o i 0).isFinite = true) :
    ∃ m, FCRun b l rs m ∧ ∃ v w, l.weights_gradients.get_item b (ix o i 0) = .ok v ∧
        m.weights_gradients.get_item b (ix o i 0) = .ok w ∧ SameNumber w v := by
  obtain ⟨m, a1, _, _, a2⟩ := C28_accumulate b l hl hm rs hr
  obtain ⟨hw1, _, _, _⟩ := hl.buffers hm
  refine ⟨m, a1, _, _, get_item_ok hw1.1 (by rw [hw1.2]; exact ⟨ho, hi, by rw [hl.depth]; decide⟩),
    (a2 o ho).2 i hi, ?_⟩
  refine (foldl_zeros _ (fun z h => ?_) _ hw).2
  obtain ⟨r, h1, rfl⟩ := List.mem_map.mp h
  have hz := zero_mul_code (hx r h1) (gate_toReal (F32Ops.gt (preact l r.x o) F32Ops.zero) (hg r h1)).1
  refine sum_zero_code ?_
  change (F32.mul _ _).code = 0
  rw [F32.mul_comm']
  exact hz

end

open Toy in
/-- The assumptions can be met: unit 0 of the 2 -> 3 layer of C27, alone in a layer of its own, in inference mode. -/
example : ∃ l' : FullyConnectedLayer Int, SameUnit exFC 0 l' 0 ∧ l'.Ok ∧ l'.run_state = .Inference ∧
    ∃ y, l'.forward .debug ⟨⟨1, 2, 2⟩, ⟨2, 1, 1⟩, [10, 1]⟩ (zeros ⟨1, 1, 1⟩) = .ok (.ok (), l', y) ∧ y.data = [9] := by
  refine ⟨{ exFC with
    weights := ⟨⟨1, 1, 2⟩, ⟨1, 2, 1⟩, [1, -2]⟩
    bias := ⟨⟨1, 1, 1⟩, ⟨1, 1, 1⟩, [1]⟩
    run_state := .Inference }, ⟨by decide, by decide, rfl, rfl, ?_⟩, ⟨⟨by decide, rfl, rfl, rfl, rfl⟩,
      ⟨by decide, rfl, rfl, rfl, rfl⟩, rfl, rfl, nofun⟩, rfl, _, rfl, rfl⟩
  intro i hi
  match i, hi with
  | 0, _ => rfl
  | 1, _ => rfl
  | i + 2, h => exact absurd (show i + 2 < 2 from h) (by omega)

open Toy in
/-- The second channel of the layer of C30 as the only channel of another layer. -/
example : ∃ l' : ConvolutionalLayer Int, SameChannel exConv 1 l' 0 ∧ l'.Ok ∧
    ∃ l1 y, l'.forward .debug exImg (zeros ⟨2, 2, 1⟩) = .ok (.ok (), l1, y) ∧ y.data = [1, 0, 0, 0] := by
  refine ⟨{ exConv with
    kernels := [{ exKer with data := [0, 0, 0, -1] }]
    biases := [{ exBias with data := [6] }]
    output_shape := ⟨2, 2, 1⟩
    run_state := .Inference }, ⟨by decide, by decide, rfl, rfl, rfl, ?_⟩, ⟨by decide, by decide, by decide, rfl, ?_,
      rfl, ?_, nofun⟩, _, _, rfl, rfl⟩
  · intro t t' h h'
    obtain rfl := Option.some.inj h
    obtain rfl := Option.some.inj h'
    rfl
  · intro k hk
    obtain rfl := List.mem_singleton.mp hk
    exact ⟨⟨by decide, rfl, rfl, rfl, rfl⟩, rfl, by decide⟩
  · intro k hk
    obtain rfl := List.mem_singleton.mp hk
    exact ⟨⟨by decide, rfl, rfl, rfl, rfl⟩, rfl⟩

open F32 in
/-- A layer with one unit of weight 1 and bias -1, in training mode, and rounds with input 0.5 (dead unit) and with
input 0 (idle input). -/
example [Libm] : ∃ l : FullyConnectedLayer F32, l.Ok ∧ l.run_state = .Training ∧ ∃ r r' : Round F32,
    r.FitsFC l ∧ r'.FitsFC l ∧ F32Ops.gt (preact l r.x 0) F32Ops.zero = false ∧ (val r.x 0 0 0).code ≠ 0 ∧
    (val r'.x 0 0 0).code = 0 ∧ (val r.g 0 0 0).code ≠ 0 ∧ (val r'.g 0 0 0).code ≠ 0 := by
  have w : ∀ v : F32, (⟨⟨1, 1, 1⟩, ⟨1, 1, 1⟩, [v]⟩ : Tensor F32).WF :=
    fun v => ⟨(by decide : (⟨1, 1, 1⟩ : TensorShape).Fits), rfl, rfl, rfl, rfl⟩
  let t : F32 → Tensor F32 := fun v => ⟨⟨1, 1, 1⟩, ⟨1, 1, 1⟩, [v]⟩
  have e : ∀ w c x z : F32, preact ⟨t w, t z, t z, t c, t z, t z, "one", .Training⟩ (t x) 0 =
      F32.add (F32.add (mk' false 0) (F32.mul w x)) c := fun _ _ _ _ => rfl
  refine ⟨⟨t ⟨0x3f800000⟩, t ⟨0⟩, t ⟨0⟩, t ⟨0xbf800000⟩, t ⟨0⟩, t ⟨0⟩, "one", .Training⟩,
    ⟨w _, w _, rfl, rfl, fun _ => ⟨⟨w _, rfl⟩, ⟨w _, rfl⟩, ⟨w _, rfl⟩, ⟨w _, rfl⟩⟩⟩, rfl,
    ⟨t ⟨0x3f000000⟩, t ⟨0x3f800000⟩, t ⟨0⟩, t ⟨0⟩⟩, ⟨t ⟨0⟩, t ⟨0x3f800000⟩, t ⟨0⟩, t ⟨0⟩⟩,
    ⟨⟨w _, rfl⟩, ⟨w _, rfl⟩, ⟨w _, rfl⟩, ⟨w _, rfl⟩⟩, ⟨⟨w _, rfl⟩, ⟨w _, rfl⟩, ⟨w _, rfl⟩, ⟨w _, rfl⟩⟩, ?_, ?_, ?_, ?_, ?_⟩
  · rw [e]
    exact (by decide +kernel : F32.gt (F32.add (F32.add (mk' false 0)
      (F32.mul ⟨0x3f800000⟩ ⟨0x3f000000⟩)) ⟨0xbf800000⟩) (mk' false 0) = false)
  · change (⟨0x3f000000⟩ : F32).code ≠ 0; decide
  · change (⟨0⟩ : F32).code = 0; decide
  · change (⟨0x3f800000⟩ : F32).code ≠ 0; decide
  · change (⟨0x3f800000⟩ : F32).code ≠ 0; decide

end Rusty
