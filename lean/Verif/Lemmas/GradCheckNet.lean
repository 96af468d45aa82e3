import Verif.Lemmas.GradCheck
import Verif.Lemmas.GradientNear
import Verif.Lemmas.Classifier
import Verif.Props.NetworkRounding

/-! # Helper lemmas: networks that differ in one parameter -/

namespace Rusty

open F32Ops Spec F32

theorem modify_dims {n m c : Nat} {ls : List RealLayer} (hd : Dims n ls m) {f : RealLayer → RealLayer}
    (hf : ∀ l, (f l).rows = l.rows ∧ (f l).cols = l.cols := by intro l; exact ⟨rfl, rfl⟩) :
    Dims n (ls.modify c f) m := by
  induction hd generalizing c with
  | nil n => cases c <;> exact .nil n
  | cons l ls m hd ih =>
    cases c with
    | zero =>
      rw [List.modify_zero_cons, ← (hf l).2]
      exact .cons _ _ _ (by rw [(hf l).1]; exact hd)
    | succ c =>
      rw [List.modify_succ_cons]
      exact .cons _ _ _ ih

variable [Libm]

/-- the outputs of `infer`, read with `get_item`, are near those of the exact network -/
theorem outputs_near (b : Build) (n : Net F32) (hn : Built b n) (fs : List (FullyConnectedLayer F32))
    (hfs : n.get_layers = fs.map .fc) (hne : fs ≠ []) (x : Tensor F32) (hx : x.WF) (hxs : x.shape = n.get_input_shape)
    (ξ : Nat → ℝ) (M e M1 e1 : ℝ) (hM : 0 ≤ M) (he : 0 ≤ e) (hnx : Near x (fun i _ _ => ξ i) M e)
    (hA : Accuracy n.get_layers M e M1 e1) :
    ∃ n1 y, n.infer b x = .ok (.ok (), n1) ∧ n1.get_output = .ok y ∧ y.shape = n.get_output_shape ∧
      ∀ k, k < n.get_output_shape.di.toNat →
        |readReal b y (ix k 0 0) - realNet (fs.map realLayer) ξ k| ≤ e1 := by
  obtain ⟨n1, y, h1, h2, h3, h4⟩ := C74_infer b n hn (by rw [hfs]; simpa using hne) x hx hxs _ M e M1 e1 hM he hnx hA
  refine ⟨n1, y, h1, h2, h3, fun k hk => ?_⟩
  have hok := built_netOk hn
  have hcol : ∃ d, n.get_output_shape = ⟨d, 1, 1⟩ := by
    have hl : fs.getLast? = some (fs.getLast hne) := List.getLast?_eq_getLast_of_ne_nil hne
    have := hok.chain.last (.fc (fs.getLast hne)) (by
      rw [show n.layers = _ from hfs, List.getLast?_map, hl]; rfl)
    rw [this]
    have ok : (fs.getLast hne).Ok := hok.layers (.fc (fs.getLast hne)) (by
      rw [show n.layers = _ from hfs]
      exact List.mem_map_of_mem (List.getLast_mem hne))
    exact ⟨_, ok.rows⟩
  obtain ⟨d, hd⟩ := hcol
  obtain ⟨v, v1, _, v3, _⟩ := h4 k 0 0 (by rw [h3, hd]; rw [hd] at hk; exact col_inside hk)
  rw [hfs, exactNet_real] at v3
  unfold readReal
  rw [v1]
  exact v3

/-- the layers have parameters of the same shapes -/
def SameShapes (l l' : FullyConnectedLayer F32) : Prop :=
  l'.weights.shape = l.weights.shape ∧ l'.bias.shape = l.bias.shape

theorem weightSet_each {b : Build} {fs fs' : List (FullyConnectedLayer F32)} {c o i : Nat} {w : F32}
    {l : FullyConnectedLayer F32} (hok : ∀ l ∈ fs, l.Ok) (hc : fs[c]? = some l) (ho : o < l.weights.shape.di.toNat)
    (hi : i < l.weights.shape.dj.toNat) (h : WeightSet b fs fs' c o i w) :
    ∀ (k : Nat) f f', fs[k]? = some f → fs'[k]? = some f' → f'.bias = f.bias ∧
      f'.weights = if k = c then setE f.weights o i 0 w else f.weights := by
  intro k f f' e e'
  obtain ⟨h1, h2⟩ := h.2 k f f' e e'
  refine ⟨h1, ?_⟩
  by_cases hk : k = c
  · subst hk
    rw [if_pos rfl] at h2 ⊢
    rw [hc] at e
    cases e
    have ok := hok _ (List.mem_of_getElem? hc)
    rw [set_item_ok ok.weights ⟨ho, hi, by rw [ok.depth]; decide⟩] at h2
    injection h2 with h2
    exact h2.symm
  · rw [if_neg hk] at h2 ⊢
    exact h2

theorem biasSet_each {b : Build} {fs fs' : List (FullyConnectedLayer F32)} {c o : Nat} {w : F32}
    {l : FullyConnectedLayer F32} (hok : ∀ l ∈ fs, l.Ok) (hc : fs[c]? = some l) (ho : o < l.weights.shape.di.toNat)
    (h : BiasSet b fs fs' c o w) :
    ∀ (k : Nat) f f', fs[k]? = some f → fs'[k]? = some f' → f'.weights = f.weights ∧
      f'.bias = if k = c then setE f.bias o 0 0 w else f.bias := by
  intro k f f' e e'
  obtain ⟨h1, h2⟩ := h.2 k f f' e e'
  refine ⟨h1, ?_⟩
  by_cases hk : k = c
  · subst hk
    rw [if_pos rfl] at h2 ⊢
    rw [hc] at e
    cases e
    have ok := hok _ (List.mem_of_getElem? hc)
    rw [set_item_ok ok.bias (by rw [ok.rows]; exact col_inside ho)] at h2
    injection h2 with h2
    exact h2.symm
  · rw [if_neg hk] at h2 ⊢
    exact h2

theorem weightSet_shapes {b : Build} {fs fs' : List (FullyConnectedLayer F32)} {c o i : Nat} {w : F32}
    {l : FullyConnectedLayer F32} (hok : ∀ l ∈ fs, l.Ok) (hc : fs[c]? = some l) (ho : o < l.weights.shape.di.toNat)
    (hi : i < l.weights.shape.dj.toNat) (h : WeightSet b fs fs' c o i w) : List.Forall₂ SameShapes fs fs' := by
  refine List.forall₂_iff_get.mpr ⟨h.1.symm, fun k hk hk' => ?_⟩
  obtain ⟨e1, e2⟩ := weightSet_each hok hc ho hi h k fs[k] fs'[k] (List.getElem?_eq_getElem hk) (List.getElem?_eq_getElem hk')
  change SameShapes fs[k] fs'[k]
  unfold SameShapes
  rw [e1, e2]
  by_cases hk : k = c
  · rw [if_pos hk]; exact ⟨rfl, rfl⟩
  · rw [if_neg hk]; exact ⟨rfl, rfl⟩

theorem biasSet_shapes {b : Build} {fs fs' : List (FullyConnectedLayer F32)} {c o : Nat} {w : F32}
    {l : FullyConnectedLayer F32} (hok : ∀ l ∈ fs, l.Ok) (hc : fs[c]? = some l) (ho : o < l.weights.shape.di.toNat)
    (h : BiasSet b fs fs' c o w) : List.Forall₂ SameShapes fs fs' := by
  refine List.forall₂_iff_get.mpr ⟨h.1.symm, fun k hk hk' => ?_⟩
  obtain ⟨e1, e2⟩ := biasSet_each hok hc ho h k fs[k] fs'[k] (List.getElem?_eq_getElem hk) (List.getElem?_eq_getElem hk')
  change SameShapes fs[k] fs'[k]
  unfold SameShapes
  rw [e1, e2]
  by_cases hk : k = c
  · rw [if_pos hk]; exact ⟨rfl, rfl⟩
  · rw [if_neg hk]; exact ⟨rfl, rfl⟩

theorem weightSet_agree {b : Build} {fs fs' : List (FullyConnectedLayer F32)} {c o i : Nat} {w : F32}
    {l : FullyConnectedLayer F32} (hok : ∀ l ∈ fs, l.Ok) (hc : fs[c]? = some l) (ho : o < l.weights.shape.di.toNat)
    (hi : i < l.weights.shape.dj.toNat) (h : WeightSet b fs fs' c o i w) :
    List.Forall₂ Agree ((fs.map realLayer).modify c fun r => r.withWeight o i w.toReal) (fs'.map realLayer) := by
  refine List.forall₂_iff_get.mpr ⟨by simp [h.1], fun k hk hk' => ?_⟩
  have hkf : k < fs.length := by simpa using hk
  have hkf' : k < fs'.length := by simpa using hk'
  obtain ⟨e1, e2⟩ := weightSet_each hok hc ho hi h k fs[k] fs'[k] (List.getElem?_eq_getElem hkf)
    (List.getElem?_eq_getElem hkf')
  simp only [List.get_eq_getElem, List.getElem_map, List.getElem_modify]
  have ok := hok fs[k] (List.getElem_mem _)
  by_cases hk : c = k
  · subst hk
    rw [if_pos rfl] at e2 ⊢
    refine ⟨?_, ?_, fun p hp => ⟨fun q hq => ?_, ?_⟩⟩
    · change fs[c].weights.shape.di.toNat = fs'[c].weights.shape.di.toNat
      rw [e2]; rfl
    · change fs[c].weights.shape.dj.toNat = fs'[c].weights.shape.dj.toNat
      rw [e2]; rfl
    · change (if p = o ∧ q = i then w.toReal else (val fs[c].weights p q 0).toReal) = (val fs'[c].weights p q 0).toReal
      have hce : fs[c] = l := by
        rw [List.getElem?_eq_getElem hkf] at hc
        exact Option.some.inj hc
      rw [e2, val_setE ok.weights ⟨by rw [hce]; exact ho, by rw [hce]; exact hi, by rw [ok.depth]; decide⟩
        ⟨hp, hq, by rw [ok.depth]; decide⟩]
      by_cases hpq : p = o ∧ q = i
      · rw [if_pos hpq, if_pos ⟨hpq.1.symm, hpq.2.symm, rfl⟩]
      · rw [if_neg hpq, if_neg fun hh => hpq ⟨hh.1.symm, hh.2.1.symm⟩]
    · change (val fs[c].bias p 0 0).toReal = (val fs'[c].bias p 0 0).toReal
      rw [e1]
  · rw [if_neg fun hh => hk hh.symm] at e2
    rw [if_neg hk]
    unfold realLayer
    rw [e1, e2]
    exact ⟨rfl, rfl, fun _ _ => ⟨fun _ _ => rfl, rfl⟩⟩

theorem biasSet_agree {b : Build} {fs fs' : List (FullyConnectedLayer F32)} {c o : Nat} {w : F32}
    {l : FullyConnectedLayer F32} (hok : ∀ l ∈ fs, l.Ok) (hc : fs[c]? = some l) (ho : o < l.weights.shape.di.toNat)
    (h : BiasSet b fs fs' c o w) :
    List.Forall₂ Agree ((fs.map realLayer).modify c fun r => r.withBias o w.toReal) (fs'.map realLayer) := by
  refine List.forall₂_iff_get.mpr ⟨by simp [h.1], fun k hk hk' => ?_⟩
  have hkf : k < fs.length := by simpa using hk
  have hkf' : k < fs'.length := by simpa using hk'
  obtain ⟨e1, e2⟩ := biasSet_each hok hc ho h k fs[k] fs'[k] (List.getElem?_eq_getElem hkf)
    (List.getElem?_eq_getElem hkf')
  simp only [List.get_eq_getElem, List.getElem_map, List.getElem_modify]
  have ok := hok fs[k] (List.getElem_mem _)
  by_cases hk : c = k
  · subst hk
    rw [if_pos rfl] at e2 ⊢
    refine ⟨?_, ?_, fun p hp => ⟨fun q hq => ?_, ?_⟩⟩
    · change fs[c].weights.shape.di.toNat = fs'[c].weights.shape.di.toNat
      rw [e1]
    · change fs[c].weights.shape.dj.toNat = fs'[c].weights.shape.dj.toNat
      rw [e1]
    · change (val fs[c].weights p q 0).toReal = (val fs'[c].weights p q 0).toReal
      rw [e1]
    · change (if p = o then w.toReal else (val fs[c].bias p 0 0).toReal) = (val fs'[c].bias p 0 0).toReal
      have hce : fs[c] = l := by
        rw [List.getElem?_eq_getElem hkf] at hc
        exact Option.some.inj hc
      rw [e2, val_setE ok.bias (by rw [ok.rows, hce]; exact col_inside ho) (by rw [ok.rows]; exact col_inside hp)]
      by_cases hpq : p = o
      · rw [if_pos hpq, if_pos ⟨hpq.symm, rfl, rfl⟩]
      · rw [if_neg hpq, if_neg fun hh => hpq hh.1.symm]
  · rw [if_neg fun hh => hk hh.symm] at e2
    rw [if_neg hk]
    unfold realLayer
    rw [e1, e2]
    exact ⟨rfl, rfl, fun _ _ => ⟨fun _ _ => rfl, rfl⟩⟩

omit [Libm] in
/-- networks with parameters of the same shapes have the same interface -/
theorem agree_shapes {n n' : Net F32} (hok : NetOk n) {fs fs' : List (FullyConnectedLayer F32)}
    (hfs : n.get_layers = fs.map .fc) (hne : fs ≠ []) (hok' : NetOk n') (hfs' : n'.get_layers = fs'.map .fc)
    (hs : List.Forall₂ SameShapes fs fs') :
    fs' ≠ [] ∧ n'.get_input_shape = n.get_input_shape ∧ n'.get_output_shape = n.get_output_shape := by
  have hlen := hs.length_eq
  have hpos := List.length_pos_of_ne_nil hne
  have hne' : fs' ≠ [] := List.ne_nil_of_length_pos (by omega)
  have each : ∀ k (hk : k < fs.length) (hk' : k < fs'.length), SameShapes fs[k] fs'[k] :=
    fun k hk hk' => (List.forall₂_iff_get.mp hs).2 k hk hk'
  refine ⟨hne', ?_, ?_⟩
  · have a := hok.chain.first (.fc fs[0]) (by
      rw [show n.layers = _ from hfs, List.head?_map, List.head?_eq_getElem?, List.getElem?_eq_getElem hpos]; rfl)
    have a' := hok'.chain.first (.fc (fs'[0]'(by omega))) (by
      rw [show n'.layers = _ from hfs', List.head?_map, List.head?_eq_getElem?,
        List.getElem?_eq_getElem (by omega : 0 < fs'.length)]; rfl)
    rw [a, a']
    change (⟨fs'[0].weights.shape.dj, 1, 1⟩ : TensorShape) = ⟨fs[0].weights.shape.dj, 1, 1⟩
    rw [(each 0 hpos (by omega)).1]
  · have a := hok.chain.last (.fc (fs[fs.length - 1]'(by omega))) (by
      rw [show n.layers = _ from hfs, List.getLast?_map, List.getLast?_eq_getElem?,
        List.getElem?_eq_getElem (by omega : fs.length - 1 < fs.length)]; rfl)
    have a' := hok'.chain.last (.fc (fs'[fs.length - 1]'(by omega))) (by
      rw [show n'.layers = _ from hfs', List.getLast?_map, List.getLast?_eq_getElem?,
        show fs'[fs'.length - 1]? = fs'[fs.length - 1]? by rw [hlen],
        List.getElem?_eq_getElem (by omega : fs.length - 1 < fs'.length)]; rfl)
    rw [a, a']
    exact (each _ (by omega) (by omega)).2

end Rusty
