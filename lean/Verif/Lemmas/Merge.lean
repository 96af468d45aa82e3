import Verif.Spec.Merge
import Verif.Lemmas.Real
import Verif.Lemmas.Renumber
import Verif.Props.NetworkRounding

/-! # Helper lemmas: two layers that can be replaced by two others (C119) -/

namespace Rusty

open F32Ops Spec F32

variable [Libm]

/-- Two fully connected layers can be replaced by two others that compute the same. -/
theorem exact_swap (b : Build) (n : Net F32) (hn : Built b n) (pre post : List (AnyLayer F32))
    (l1 l1' l2 l2' : FullyConnectedLayer F32) (hls : n.get_layers = pre ++ .fc l1 :: .fc l2 :: post)
    (hmid : l2.weights.shape.dj = l1.weights.shape.di → ∀ (x : Nat → Nat → Nat → ℝ) {o : Nat},
      o < l2.weights.shape.di.toNat → ∀ j k, exactLayer (.fc l2') (exactLayer (.fc l1') x) o j k =
        exactLayer (.fc l2) (exactLayer (.fc l1) x) o j k)
    (x : Tensor F32) (hx : x.WF) (hxs : x.shape = n.get_input_shape) (ξ : Nat → Nat → Nat → ℝ) (i j k : Nat)
    (hin : n.get_output_shape.Inside i j k) :
    exactNet (pre ++ .fc l1' :: .fc l2' :: post) ξ i j k = exactNet n.get_layers ξ i j k := by
  have hok := built_netOk hn
  have hne : n.get_layers ≠ [] := by rw [hls]; simp
  have hlen : n.layers.length = post.length + (pre.length + 2) := by
    have := congrArg List.length hls
    simp only [Network.get_layers, List.length_append, List.length_cons] at this
    omega
  obtain ⟨nf, _, _, h3⟩ := infer_ok (b := b) hok hne hx hxs
  have hstep : ∀ i l, n.layers[i]? = some l →
      ((nf.intermediate_states[i]?).getD x).shape = l.get_input_shape ∧
      applies b l ((nf.intermediate_states[i]?).getD x)
        ((nf.intermediate_states[i + 1]?).getD x) := by
    intro i l hi
    obtain ⟨s, s', e1, e2, e3, _, _, _, _, e5, _⟩ := h3 i l hi
    rw [e1, e2]
    exact ⟨e5, e3⟩
  have g1 : n.layers[pre.length]? = some (.fc l1) := by
    change n.get_layers[pre.length]? = _
    rw [hls]; simp
  have g2 : n.layers[pre.length + 1]? = some (.fc l2) := by
    change n.get_layers[pre.length + 1]? = _
    rw [hls, List.getElem?_append_right (by omega)]
    simp
  have hok1 : l1.Ok := hok.layers (.fc l1) (List.mem_of_getElem? g1)
  have hok2 : l2.Ok := hok.layers (.fc l2) (List.mem_of_getElem? g2)
  -- the shapes between the two layers agree
  have hs : l2.weights.shape.dj = l1.weights.shape.di := by
    have a := (hstep _ _ g1).2.2.1
    have c := (hstep _ _ g2).1
    rw [c] at a
    have := congrArg TensorShape.di a
    change l2.weights.shape.dj = l1.bias.shape.di at this
    rw [this, hok1.rows]
  have hsplit : ∀ (m1 m2 : AnyLayer F32) (y : Nat → Nat → Nat → ℝ),
      exactNet (pre ++ m1 :: m2 :: post) y =
        exactNet post (exactLayer m2 (exactLayer m1 (exactNet pre y))) := by
    intro m1 m2 y
    unfold exactNet
    rw [List.foldl_append]
    rfl
  have hpost : ∀ m, post[m]? = n.layers[m + (pre.length + 2)]? := by
    intro m
    change _ = n.get_layers[_]?
    rw [hls, List.getElem?_append_right (by omega)]
    rw [show m + (pre.length + 2) - pre.length = m + 2 by omega]
    rfl
  have hc := layers_agree b post
    (fun l hl => hok.layers l (by
      change l ∈ n.get_layers
      rw [hls]; simp [hl]))
    (fun m => (nf.intermediate_states[m + (pre.length + 2)]?).getD x)
    (exactLayer (.fc l2') (exactLayer (.fc l1') (exactNet pre ξ)))
    (exactLayer (.fc l2) (exactLayer (.fc l1) (exactNet pre ξ)))
    (fun i j k h => by
      rw [hmid hs, sub_self, abs_zero]
      have a := (hstep _ _ g2).2.2.1
      rw [Nat.zero_add] at h
      rw [show pre.length + 2 = pre.length + 1 + 1 from rfl, a] at h
      have h := h.1
      change i < l2.bias.shape.di.toNat at h
      rwa [hok2.rows] at h)
    (fun m l hm => by
      have := hstep (m + (pre.length + 2)) l (by rw [← hpost]; exact hm)
      rwa [show m + (pre.length + 2) + 1 = m + 1 + (pre.length + 2) by omega] at this)
    i j k (by
      have hpos : 0 < n.layers.length := by omega
      obtain ⟨last, hlast⟩ : ∃ l, n.layers[n.layers.length - 1]? = some l :=
        ⟨_, List.getElem?_eq_getElem (by omega)⟩
      have a := (hstep _ _ hlast).2.2.1
      rw [Nat.sub_add_cancel hpos] at a
      rw [← hlen, a, ← hok.chain.last last (by rw [List.getLast?_eq_getElem?]; exact hlast)]
      exact hin)
  rw [hls, hsplit, hsplit]
  exact sub_eq_zero.mp (abs_eq_zero.mp (le_antisymm hc (abs_nonneg _)))

/-- two layers with several copies of units compute the same -/
theorem exact_merged {f : Nat → Nat} {l1 l2 l1' l2' : FullyConnectedLayer F32} (h : Copies f l1 l2 l1' l2')
    (hs : l2.weights.shape.dj = l1.weights.shape.di) (hs' : l2'.weights.shape.dj = l1'.weights.shape.di)
    (x : Nat → Nat → Nat → ℝ) {o : Nat} (ho : o < l2.weights.shape.di.toNat) (j k : Nat) :
    exactLayer (.fc l2') (exactLayer (.fc l1') x) o j k =
      exactLayer (.fc l2) (exactLayer (.fc l1) x) o j k := by
  have hy : ∀ c, c < l1'.weights.shape.di.toNat → exactLayer (.fc l1') x c 0 0 =
      exactLayer (.fc l1) x (f c) 0 0 := by
    intro c hc
    simp only [exactLayer]
    rw [h.inputs, h.bias c hc]
    refine congrArg (fun s => max 0 (s + _)) (congrArg List.sum (List.map_congr_left fun i hi => ?_))
    rw [h.row c i hc (List.mem_range.mp hi)]
  generalize hz : exactLayer (.fc l1) x = z at hy ⊢
  generalize hz' : exactLayer (.fc l1') x = z' at hy ⊢
  simp only [exactLayer]
  rw [h.last o ho, hs, hs', list_sum_range, list_sum_range]
  refine congrArg (fun s => max 0 (s + _)) ?_
  rw [Finset.sum_congr rfl fun c hc => by rw [hy c (Finset.mem_range.mp hc)]]
  rw [← Finset.sum_fiberwise_of_maps_to (t := Finset.range l1.weights.shape.di.toNat) (g := f)
    fun c hc => Finset.mem_range.mpr (h.range c (Finset.mem_range.mp hc))]
  refine Finset.sum_congr rfl fun u hu => ?_
  rw [← h.shares o u ho (Finset.mem_range.mp hu), Finset.sum_mul]
  exact Finset.sum_congr rfl fun c hc => by rw [(Finset.mem_filter.mp hc).2]

end Rusty
