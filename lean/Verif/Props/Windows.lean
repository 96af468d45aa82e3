import Verif.Lemmas.Windows
import Verif.Lemmas.IEEEMono
import Verif.Lemmas.IEEELaws
import Verif.Props.ConvLayer

/-! # C82: a convolutional layer is a fully connected layer applied to every window -/

namespace Rusty

open F32Ops Spec

variable {F : Type} [F32Ops F]

/-- C82: the outputs of a convolutional layer at one position are the outputs of the fully connected layer with the
same weights, applied to the entries under the window at this position.  Both layers may be in either mode. -/
theorem C82_windows [MaxZero F] (hc : ∀ x y : F, mul x y = mul y x) (b : Build) (l : ConvolutionalLayer F)
    (f : FullyConnectedLayer F) (hl : l.Ok) (hf : f.Ok) (h : SameWeights l f) (x out : Tensor F) (hx : x.WF)
    (hxs : x.shape = l.input_shape) (ho : out.WF) (hos : out.shape = l.output_shape) :
    ∃ l' y, l.forward b x out = .ok (.ok (), l', y) ∧
      ∀ i j, i < l.output_shape.di.toNat → j < l.output_shape.dj.toNat →
        ∀ w out' : Tensor F, w.WF → w.shape = f.get_input_shape → out'.WF → out'.shape = f.get_output_shape →
          (∀ k ∈ l.kernels, w.data = windowOf x k.shape l.stride.toNat i j) →
          ∃ f' z, f.forward b w out' = .ok (.ok (), f', z) ∧
            ∀ o, o < l.kernels.length → y.get_item b (ix i j o) = z.get_item b (ix o 0 0) := by
  obtain ⟨l', y, hy, ywf, ysh, yv⟩ : ∃ l' y, l.forward b x out = .ok (.ok (), l', y) ∧ y.WF ∧
      y.shape = l.output_shape ∧ ∀ i j k, l.output_shape.Inside i j k →
        val y i j k = fmax (convPre l x i j k) zero := by
    cases hm : l.run_state with
    | Inference =>
      obtain ⟨y, q1, q2, q3, q4⟩ := conv_forward_inference (b := b) hl hm hx hxs ho hos
      exact ⟨l, y, q1, q2, q3, q4⟩
    | Training =>
      obtain ⟨m, y, q1, q2, q3, _, _, q6⟩ := conv_forward_training (b := b) hl hm hx hxs ho hos
      refine ⟨_, y, q1, q2, q3, fun i j k hin => ?_⟩
      rw [(q6 i j k hin).1, MaxZero.fmax_zero _ (summed_convPre l x i j k)]
      rfl
  refine ⟨l', y, hy, fun i j hi hj w out' hw hws ho' hos' hwin => ?_⟩
  obtain ⟨f', z, hz, zwf, zsh, zv⟩ : ∃ f' z, f.forward b w out' = .ok (.ok (), f', z) ∧ z.WF ∧
      z.shape = f.get_output_shape ∧ ∀ o, o < f.weights.shape.di.toNat →
        val z o 0 0 = fmax (preact f w o) zero := by
    cases hm : f.run_state with
    | Inference =>
      obtain ⟨z, q1, q2, q3, q4⟩ := fc_forward_inference (b := b) hf hm hw hws ho' hos'
      exact ⟨f, z, q1, q2, q3, q4⟩
    | Training =>
      obtain ⟨m, z, q1, q2, q3, _, _, q6⟩ := fc_forward_training (b := b) hf hm hw hws ho' hos'
      refine ⟨_, z, q1, q2, q3, fun o hin => ?_⟩
      rw [(q6 o hin).1, MaxZero.fmax_zero _ (summed_preact f w o)]
      rfl
  refine ⟨f', z, hz, fun o hk => ?_⟩
  have hin : l.output_shape.Inside i j o := ⟨hi, hj, by rw [← hl.count]; exact hk⟩
  have hr : o < f.weights.shape.di.toNat := by rw [h.rows]; exact hk
  rw [get_item_ok ywf (by rw [ysh]; exact hin), yv i j o hin, get_item_ok zwf (by
    rw [zsh]; unfold FullyConnectedLayer.get_output_shape; rw [hf.rows]; exact col_inside hr), zv o hr,
    same_pre hc hl h hws hwin hk]

/-- C82, kernels as large as the image: the convolutional layer has one output position and computes what the
fully connected layer computes from the same data as a column. -/
theorem C82_whole_image [MaxZero F] (hc : ∀ x y : F, mul x y = mul y x) (b : Build)
    (l : ConvolutionalLayer F) (f : FullyConnectedLayer F) (hl : l.Ok) (hf : f.Ok) (h : SameWeights l f)
    (hk : ∀ k ∈ l.kernels, k.shape = l.input_shape)
    (x w out out' : Tensor F) (hx : x.WF) (hxs : x.shape = l.input_shape) (ho : out.WF)
    (hos : out.shape = l.output_shape) (hw : w.WF) (hws : w.shape = f.get_input_shape) (hd : w.data = x.data)
    (ho' : out'.WF) (hos' : out'.shape = f.get_output_shape) :
    ∃ l' y f' z, l.forward b x out = .ok (.ok (), l', y) ∧ f.forward b w out' = .ok (.ok (), f', z) ∧
      ∀ o, o < l.kernels.length → y.get_item b (ix 0 0 o) = z.get_item b (ix o 0 0) := by
  obtain ⟨l', y, hy, H⟩ := C82_windows hc b l f hl hf h x out hx hxs ho hos
  by_cases hn : l.kernels = []
  · obtain ⟨f', z, hz⟩ : ∃ f' z, f.forward b w out' = .ok (.ok (), f', z) := by
      cases hm : f.run_state with
      | Inference =>
        obtain ⟨z, q1, _⟩ := fc_forward_inference (b := b) hf hm hw hws ho' hos'
        exact ⟨f, z, q1⟩
      | Training =>
        obtain ⟨m, z, q1, _⟩ := fc_forward_training (b := b) hf hm hw hws ho' hos'
        exact ⟨_, z, q1⟩
    exact ⟨l', y, f', z, hy, hz, fun o h => by rw [hn] at h; exact absurd h (Nat.not_lt_zero _)⟩
  · obtain ⟨k, hmem⟩ := List.exists_mem_of_ne_nil _ hn
    obtain ⟨_, _, t1, t2⟩ := hl.kernels k hmem
    obtain ⟨f', z, hz, hv⟩ := H 0 0 t1.1 t2.1 w out' hw hws ho' hos' fun k hm => by
      rw [hd, data_indices hx, hxs, hk k hm]
      unfold windowOf
      simp only [Nat.zero_mul, Nat.zero_add]
    exact ⟨l', y, f', z, hy, hz, hv⟩

open F32 in
/-- C82 over IEEE binary32: multiplication is commutative there, to the last bit. -/
theorem C82_f32 [Libm] (b : Build) (l : ConvolutionalLayer F32)
    (f : FullyConnectedLayer F32) (hl : l.Ok) (hf : f.Ok) (h : SameWeights l f) (x out : Tensor F32) (hx : x.WF)
    (hxs : x.shape = l.input_shape) (ho : out.WF) (hos : out.shape = l.output_shape) :
    ∃ l' y, l.forward b x out = .ok (.ok (), l', y) ∧
      ∀ i j, i < l.output_shape.di.toNat → j < l.output_shape.dj.toNat →
        ∀ w out' : Tensor F32, w.WF → w.shape = f.get_input_shape → out'.WF → out'.shape = f.get_output_shape →
          (∀ k ∈ l.kernels, w.data = windowOf x k.shape l.stride.toNat i j) →
          ∃ f' z, f.forward b w out' = .ok (.ok (), f', z) ∧
            ∀ o, o < l.kernels.length → y.get_item b (ix i j o) = z.get_item b (ix o 0 0) :=
  C82_windows mul_comm' b l f hl hf h x out hx hxs ho hos

/-- the two 2x2x1 kernels of `exConv` as rows -/
def exRows : FullyConnectedLayer Int :=
  { weights := ⟨⟨1, 2, 8⟩, ⟨2, 4, 1⟩, [1, 0, 10, 0, 100, 0, -1000, -1]⟩
    bias := ⟨⟨1, 2, 2⟩, ⟨2, 1, 1⟩, exConv.biases.map fun c => c.data.getD 0 0⟩
    weights_gradients := exImg, weights_gradients_intermediate := exImg, bias_gradients := exImg
    relu_mask := exImg, name := "rows", run_state := .Inference }

open Toy in
/-- `exConv` and `exRows` have the same weights -/
example : exRows.Ok ∧ SameWeights exConv exRows := by
  refine ⟨⟨⟨by decide, rfl, rfl, rfl, rfl⟩, ⟨by decide, rfl, rfl, rfl, rfl⟩, rfl, rfl, fun h => nomatch h⟩,
    rfl, ?_, ?_⟩
  · intro o k h
    match o, h with
    | 0, h => cases h; decide
    | 1, h => cases h; decide
  · intro o k h
    match o, h with
    | 0, h => cases h; decide
    | 1, h => cases h; decide

end Rusty
