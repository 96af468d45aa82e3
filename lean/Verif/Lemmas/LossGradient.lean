import Verif.Lemmas.Classifier
import Verif.Lemmas.RealGradient
import Verif.Lemmas.GradientNear
import Verif.Spec.BatchAccuracy

/-! # Helper lemmas: derivatives of the cross entropy of networks of fully connected layers -/

namespace Rusty

open F32Ops Spec F32

/-- the layers of a classifier fit together -/
theorem classifier_dims [Libm] {n : Net F32} (hok : NetOk n) {fs : List (FullyConnectedLayer F32)}
    {l : SoftmaxLayer F32} (hfs : n.get_layers = fs.map .fc ++ [.sm l]) (hne : fs ≠ []) :
    Dims n.get_input_shape.di.toNat (fs.map realLayer) n.get_output_shape.di.toNat := by
  have hfs' : n.layers = fs.map .fc ++ [.sm l] := hfs
  have hlast : n.layers[fs.length]? = some (.sm l) := by
    rw [hfs', List.getElem?_append_right (by rw [List.length_map]), List.length_map, Nat.sub_self]
    rfl
  have hith : ∀ (i : Nat) f, fs[i]? = some f → n.layers[i]? = some (.fc f) := by
    intro i f h
    have := (List.getElem?_eq_some_iff.mp h).1
    rw [hfs', List.getElem?_append_left (by rw [List.length_map]; exact this), List.getElem?_map, h]
    rfl
  have hos : n.get_output_shape = l.shape := hok.chain.last (.sm l) (by rw [hfs']; simp)
  have hfo : ∀ f ∈ fs, f.Ok := by
    intro f hf
    exact hok.layers (.fc f) (by rw [hfs']; exact List.mem_append_left _ (List.mem_map_of_mem hf))
  have hpos : 0 < fs.length := List.length_pos_of_ne_nil hne
  obtain ⟨f1, ft, rfl⟩ := List.exists_cons_of_ne_nil hne
  have hin0 : n.get_input_shape = ⟨f1.weights.shape.dj, 1, 1⟩ := hok.chain.first (.fc f1) (by rw [hfs']; rfl)
  rw [hin0, hos]
  refine dims_of_links (f1 :: ft) _ hfo (fun i a a' h1 h2 => ?_) (fun a ha => ?_) f1 ft rfl
  · exact hok.chain.links i (.fc a) (.fc a') (hith i a h1) (hith (i + 1) a' h2)
  · rw [List.getLast?_eq_getElem?] at ha
    have hlink := hok.chain.links _ (.fc a) (.sm l) (hith _ _ ha)
      (by rw [Nat.sub_add_cancel hpos]; exact hlast)
    change a.bias.shape = l.shape at hlink
    rw [← hlink, (hfo a (List.mem_of_getElem? ha)).rows]

/-- the partial derivative of the cross entropy for a weight -/
theorem loss_weight_deriv {n m : Nat} {ls : List RealLayer} (hd : Dims n ls m) {x : Nat → ℝ} (hk : NoKink ls x)
    {c : Nat} (hc : c < m) {k : Nat} {l : RealLayer} (hl : ls[k]? = some l) (o i : Nat) (ho : o < l.rows)
    (hi : i < l.cols) :
    HasDerivAt (fun t => classLoss m (realNet (ls.modify k fun r => r.withWeight o i t) x) c)
      (lossWeightGrad m ls x c k o i) (l.weight o i) := by
  have h := loss_deriv hc (z := fun t => realNet (ls.modify k fun r => r.withWeight o i t) x)
    (u := l.weight o i) (D := fun g => realWeightGrad ls x g k o i)
    (fun g => net_weight_deriv hd g hk hl ho hi)
  rw [modify_same hl (withWeight_self l o i)] at h
  exact h

/-- the partial derivative of the cross entropy for a bias -/
theorem loss_bias_deriv {n m : Nat} {ls : List RealLayer} (hd : Dims n ls m) {x : Nat → ℝ} (hk : NoKink ls x)
    {c : Nat} (hc : c < m) {k : Nat} {l : RealLayer} (hl : ls[k]? = some l) (o : Nat) (ho : o < l.rows) :
    HasDerivAt (fun t => classLoss m (realNet (ls.modify k fun r => r.withBias o t) x) c)
      (lossBiasGrad m ls x c k o) (l.bias o) := by
  have h := loss_deriv hc (z := fun t => realNet (ls.modify k fun r => r.withBias o t) x)
    (u := l.bias o) (D := fun g => realBiasGrad ls x g k o)
    (fun g => net_bias_deriv hd g hk hl ho)
  rw [modify_same hl (withBias_self l o)] at h
  exact h

end Rusty
