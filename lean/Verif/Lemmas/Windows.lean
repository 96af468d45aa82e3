import Verif.Spec.Windows
import Verif.Lemmas.Order
import Verif.Lemmas.ConvLayer
import Verif.Lemmas.FullyConnected

/-! # Convolutional and fully connected layers with the same weights -/

namespace Rusty

open F32Ops Spec

variable {F : Type} [F32Ops F]

/-- the two layers compute the same pre-activation, to the last bit -/
theorem same_pre (hc : ∀ x y : F, mul x y = mul y x) {l : ConvolutionalLayer F} {f : FullyConnectedLayer F}
    (hl : l.Ok) (h : SameWeights l f) {x w : Tensor F}
    (hws : w.shape = f.get_input_shape) {i j : Nat}
    (hwin : ∀ k ∈ l.kernels, w.data = windowOf x k.shape l.stride.toNat i j) {o : Nat} (ho : o < l.kernels.length) :
    convPre l x i j o = preact f w o := by
  obtain ⟨k, hk⟩ : ∃ k, l.kernels[o]? = some k := ⟨_, List.getElem?_eq_getElem ho⟩
  obtain ⟨c, hb⟩ : ∃ c, l.biases[o]? = some c := ⟨_, List.getElem?_eq_getElem (by rw [hl.biasCount]; exact ho)⟩
  have hmem := List.mem_of_getElem? hk
  obtain ⟨kwf, _, _⟩ := hl.kernels k hmem
  unfold convPre preact
  rw [hk, hb]
  simp only
  rw [h.biases o c hb]
  congr 1
  unfold conv
  congr 1
  have hlen : k.shape.indices.length = f.weights.shape.dj.toNat := by
    rw [indices_length, ← kwf.len, ← h.weights o k hk]
    simp
  refine List.ext_getElem (by simpa [TensorShape.indices] using hlen) fun p h1 h2 => ?_
  have hp : p < k.shape.indices.length := by simpa [TensorShape.indices] using h1
  have hp' : p < f.weights.shape.dj.toNat := by rw [← hlen]; exact hp
  simp only [List.getElem_map, List.getElem_range]
  have e1 : val w p 0 0 = val x (i * l.stride.toNat + k.shape.indices[p].1)
      (j * l.stride.toNat + k.shape.indices[p].2.1) k.shape.indices[p].2.2 := by
    have : w.data[p]? = (windowOf x k.shape l.stride.toNat i j)[p]? := by rw [hwin k hmem]
    unfold windowOf at this
    rw [List.getElem?_map, List.getElem?_eq_getElem hp] at this
    unfold val
    rw [show pos w.shape p 0 0 = p by
      rw [hws]; unfold pos; simp, this]
    rfl
  have e2 : val f.weights o p 0 = val k k.shape.indices[p].1 k.shape.indices[p].2.1 k.shape.indices[p].2.2 := by
    have h3 : ((List.range f.weights.shape.dj.toNat).map (fun p => val f.weights o p 0))[p]? =
        (k.shape.indices.map fun q => val k q.1 q.2.1 q.2.2)[p]? := by
      rw [h.weights o k hk, ← data_indices kwf]
    rw [List.getElem?_map, List.getElem?_map, List.getElem?_eq_getElem hp,
      List.getElem?_eq_getElem (by rw [List.length_range]; exact hp')] at h3
    simpa using h3
  rw [e1, e2, hc]
  rfl

end Rusty
