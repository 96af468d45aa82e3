import Verif.Spec.GradCheckReal
import Verif.Lemmas.Balance
import Verif.Lemmas.Classifier

/-! # Helper lemmas: two runs in exact arithmetic with the same active units -/

namespace Rusty

open F32Ops Spec Exact

theorem masked_if (l : FullyConnectedLayer ℝ) (s g : Tensor ℝ) (o : Nat) :
    masked l ⟨s, g, s, s⟩ o = if 0 < preact l s o then val g o 0 0 else 0 := by
  change mul (if gt (preact l s o) (zero : ℝ) then one else zero) (val g o 0 0) = _
  by_cases h : 0 < preact l s o
  · rw [if_pos (by rw [real_gt]; exact h), if_pos h]
    exact one_mul _
  · rw [if_neg (by rw [real_gt]; exact h), if_neg h]
    exact zero_mul _

/-- one layer: the change of the output, weighted with the gradient -/
theorem fc_change {b : Build} {l l' : FullyConnectedLayer ℝ} (hl : l.Ok) (hl' : l'.Ok) (hm : l.run_state = .Training)
    (hsh : l'.weights.shape = l.weights.shape) {l2 : AnyLayer ℝ} {s s' g g' t t' : Tensor ℝ}
    (h : LayerRound b (.fc l) l2 s s' g g') (hs : applies b (.fc l) s s') (ht : applies b (.fc l') t t')
    (hact : ∀ o < l.weights.shape.di.toNat, (0 < val s' o 0 0 ↔ 0 < val t' o 0 0)) :
    ∑ o ∈ Finset.range l.weights.shape.di.toNat, val g o 0 0 * (val t' o 0 0 - val s' o 0 0) =
      ∑ i ∈ Finset.range l.weights.shape.dj.toNat, val g' i 0 0 * (val t i 0 0 - val s i 0 0) +
      ∑ o ∈ Finset.range l.weights.shape.di.toNat, masked l ⟨s, g, s, s⟩ o *
        ((∑ i ∈ Finset.range l.weights.shape.dj.toNat, (val l'.weights o i 0 - val l.weights o i 0) * val t i 0 0) +
          (val l'.bias o 0 0 - val l.bias o 0 0)) := by
  obtain ⟨_, _, hg', _⟩ := fc_round hl hm h
  have h1 : ∑ i ∈ Finset.range l.weights.shape.dj.toNat, val g' i 0 0 * (val t i 0 0 - val s i 0 0) =
      ∑ o ∈ Finset.range l.weights.shape.di.toNat, masked l ⟨s, g, s, s⟩ o *
        ∑ i ∈ Finset.range l.weights.shape.dj.toNat, val l.weights o i 0 * (val t i 0 0 - val s i 0 0) := by
    simp only [Finset.mul_sum]
    rw [Finset.sum_comm]
    refine Finset.sum_congr rfl fun i hi => ?_
    rw [hg' i (Finset.mem_range.mp hi), sum_range_real, Finset.sum_mul]
    refine Finset.sum_congr rfl fun o _ => ?_
    rw [real_mul]
    ring
  rw [h1, ← Finset.sum_add_distrib]
  refine Finset.sum_congr rfl fun o ho => ?_
  have ho := Finset.mem_range.mp ho
  have hs' : val s' o 0 0 = max (preact l s o) 0 := by
    rw [applies_val hs (by
      change l.bias.shape.Inside o 0 0
      rw [hl.rows]
      exact col_inside ho)]
    exact act_real _ _
  have ht' : val t' o 0 0 = max (preact l' t o) 0 := by
    rw [applies_val ht (by
      change l'.bias.shape.Inside o 0 0
      rw [hl'.rows, hsh]
      exact col_inside ho)]
    exact act_real _ _
  have hpos : 0 < preact l s o ↔ 0 < preact l' t o := by
    have := hact o ho
    rw [hs', ht', lt_max_iff, lt_max_iff] at this
    simpa using this
  have hdiff : preact l' t o - preact l s o =
      (∑ i ∈ Finset.range l.weights.shape.dj.toNat, val l.weights o i 0 * (val t i 0 0 - val s i 0 0)) +
      ((∑ i ∈ Finset.range l.weights.shape.dj.toNat, (val l'.weights o i 0 - val l.weights o i 0) * val t i 0 0) +
          (val l'.bias o 0 0 - val l.bias o 0 0)) := by
    rw [preact_real, preact_real, hsh, ← add_assoc, ← Finset.sum_add_distrib, add_sub_add_comm,
      ← Finset.sum_sub_distrib]
    congr 1
    exact Finset.sum_congr rfl fun i _ => by ring
  rw [hs', ht', masked_if, ← mul_add, ← hdiff]
  by_cases hp : 0 < preact l s o
  · rw [if_pos hp, max_eq_left hp.le, max_eq_left (hpos.mp hp).le]
  · rw [if_neg hp, max_eq_right (not_lt.mp hp), max_eq_right (not_lt.mp (fun h => hp (hpos.mpr h)))]
    ring

/-- what `backward` collects in a fully connected layer -/
theorem fc_collects {b : Build} {l : FullyConnectedLayer ℝ} (hl : l.Ok) (hm : l.run_state = .Training) {l2 : AnyLayer ℝ}
    {s s' g g' : Tensor ℝ} (h : LayerRound b (.fc l) l2 s s' g g')
    (hb2 : ∀ f, l2 = .fc f → f.Ok ∧ f.run_state = .Training ∧ f.weights = l.weights ∧ f.bias = l.bias) :
    ∃ f, l2 = .fc f ∧ ∀ o < l.weights.shape.di.toNat,
      val f.bias_gradients o 0 0 - val l.bias_gradients o 0 0 = masked l ⟨s, g, s, s⟩ o ∧
      ∀ i < l.weights.shape.dj.toNat,
        val f.weights_gradients o i 0 - val l.weights_gradients o i 0 = masked l ⟨s, g, s, s⟩ o * val s i 0 0 := by
  obtain ⟨a1, a2, a3, f, rfl, a4⟩ := fc_round hl hm h
  obtain ⟨f1, f2, f3, f4⟩ := hb2 f rfl
  have hb := f1.buffers f2
  refine ⟨f, rfl, fun o ho => ⟨?_, fun i hi => ?_⟩⟩
  · have e := (a4 o ho).1
    rw [get_item_ok hb.2.2.1.1 (by rw [hb.2.2.1.2, f4, hl.rows]; exact col_inside ho)] at e
    rw [Except.ok.inj e]
    simp only [real_add]
    ring
  · have e := (a4 o ho).2 i hi
    rw [get_item_ok hb.1.1 (by rw [hb.1.2, f3]; exact ⟨ho, hi, by rw [hl.depth]; decide⟩)] at e
    rw [Except.ok.inj e]
    simp only [real_add, sum_real, List.sum_cons, List.sum_nil, real_mul]
    ring

/-- two runs of networks with parameters of the same shapes, layer by layer -/
theorem two_runs (b : Build) (n m : Net ℝ) (hn : Trains b n) (hm : Built b m) (fs fs' : List (FullyConnectedLayer ℝ))
    (hfs : n.get_layers = fs.map .fc) (hfs' : m.get_layers = fs'.map .fc) (hne : fs ≠ []) (hlen : fs'.length = fs.length)
    (hsh : ∀ (k : Nat) l l', fs[k]? = some l → fs'[k]? = some l' → l'.weights.shape = l.weights.shape)
    (x y g : Tensor ℝ) (hx : x.WF) (hxs : x.shape = n.get_input_shape) (hy : y.WF) (hys : y.shape = n.get_input_shape)
    (hg : g.WF) (hgs : g.shape = n.get_output_shape) (hact : SameActive b n x m y) :
    ∃ (n1 n2 m1 : Net ℝ) (S T G : Nat → Tensor ℝ), n.infer b x = .ok (.ok (), n1) ∧
      n1.backward b g = .ok (.ok (), n2) ∧ m.infer b y = .ok (.ok (), m1) ∧ S 0 = x ∧ T 0 = y ∧ G fs.length = g ∧
      n1.get_output = .ok (S fs.length) ∧ m1.get_output = .ok (T fs.length) ∧
      n2.intermediate_gradients[0]? = some (G 0) ∧
      ∀ (k : Nat) l l', fs[k]? = some l → fs'[k]? = some l' → l.Ok ∧ l'.Ok ∧
        applies b (.fc l) (S k) (S (k + 1)) ∧ applies b (.fc l') (T k) (T (k + 1)) ∧
        ∃ l2, n2.get_layers[k]? = some (.fc l2) ∧
          (∀ o < l.weights.shape.di.toNat, ∀ i < l.weights.shape.dj.toNat,
            val l2.weights_gradients o i 0 - val l.weights_gradients o i 0 =
              (val l2.bias_gradients o 0 0 - val l.bias_gradients o 0 0) * val (S k) i 0 0) ∧
          ∑ o ∈ Finset.range l.weights.shape.di.toNat, val (G (k + 1)) o 0 0 * (val (T (k + 1)) o 0 0 - val (S (k + 1)) o 0 0) =
            ∑ i ∈ Finset.range l.weights.shape.dj.toNat, val (G k) i 0 0 * (val (T k) i 0 0 - val (S k) i 0 0) +
            ∑ o ∈ Finset.range l.weights.shape.di.toNat, (val l2.bias_gradients o 0 0 - val l.bias_gradients o 0 0) *
              ((∑ i ∈ Finset.range l.weights.shape.dj.toNat,
                (val l'.weights o i 0 - val l.weights o i 0) * val (T k) i 0 0) +
                (val l'.bias o 0 0 - val l.bias o 0 0)) := by
  obtain ⟨hok, ht⟩ := trains_ready hn
  have hokm := built_netOk hm
  have hnl : n.layers = fs.map .fc := hfs
  have hml : m.layers = fs'.map .fc := hfs'
  have hpos : 0 < fs.length := List.length_pos_of_ne_nil hne
  have hnne : n.layers ≠ [] := by rw [hnl]; simpa using hne
  have hmne : m.layers ≠ [] := by
    rw [hml]
    intro e
    rw [List.map_eq_nil_iff] at e
    rw [e] at hlen
    simp at hlen
    omega
  have hbk : ∀ l ∈ n.layers, backable l := by
    intro l hl
    rw [hnl] at hl
    obtain ⟨f, _, rfl⟩ := List.mem_map.mp hl
    trivial
  have hmin : m.input_shape = n.input_shape := by
    have a := hok.chain.first (.fc fs[0]) (by
      rw [hnl, List.head?_map, List.head?_eq_getElem?, List.getElem?_eq_getElem hpos]; rfl)
    have a' := hokm.chain.first (.fc (fs'[0]'(by omega))) (by
      rw [hml, List.head?_map, List.head?_eq_getElem?, List.getElem?_eq_getElem (by omega : 0 < fs'.length)]; rfl)
    refine a'.trans (Eq.trans ?_ a.symm)
    change (⟨fs'[0].weights.shape.dj, 1, 1⟩ : TensorShape) = ⟨fs[0].weights.shape.dj, 1, 1⟩
    rw [hsh 0 _ _ (List.getElem?_eq_getElem hpos) (List.getElem?_eq_getElem (by omega))]
  obtain ⟨n1, n2, a1, a2, a3, a4⟩ := net_round (b := b) hok ht hnne hbk hx hxs hg hgs
  obtain ⟨q1, c1, c2, c3⟩ := infer_ok (b := b) hok hnne hx hxs
  rw [(Prod.mk.inj (Except.ok.inj (c1.symm.trans a1))).2] at c2 c3
  obtain ⟨m1, d1, d2, d3⟩ := infer_ok (b := b) hokm hmne hy (hys.trans hmin.symm)
  obtain ⟨n1', e1, _, _, e2⟩ := C36_infer b n (trains_built hn) hnne x hx hxs
  rw [(Prod.mk.inj (Except.ok.inj (e1.symm.trans a1))).2] at e2
  obtain ⟨m1', e3, _, _, e4⟩ := C36_infer b m hm hmne y hy (hys.trans hmin.symm)
  rw [(Prod.mk.inj (Except.ok.inj (e3.symm.trans d1))).2] at e4
  have hn2 : Trains b n2 := .backward _ _ _ _ (.infer _ _ _ _ hn a1) hg a2
  obtain ⟨hok2, ht2⟩ := trains_ready hn2
  have hpar : n2.layers.map params = n.layers.map params := by
    rw [like_map_params (backward_effect _ _ _ a2).1, like_map_params (infer_effect _ _ _ a1).1]
  have hN : n.layers.length = fs.length := by rw [hnl, List.length_map]
  have hM : m.layers.length = fs.length := by rw [hml, List.length_map, hlen]
  have hlast : ∃ k, fs.length = k + 1 := ⟨fs.length - 1, by omega⟩
  obtain ⟨k0, hk0⟩ := hlast
  have getn : ∀ k l, fs[k]? = some l → n.layers[k]? = some (AnyLayer.fc l) := fun k l h => by
    rw [hnl, List.getElem?_map, h]; rfl
  have getm : ∀ k l, fs'[k]? = some l → m.layers[k]? = some (AnyLayer.fc l) := fun k l h => by
    rw [hml, List.getElem?_map, h]; rfl
  refine ⟨n1, n2, m1, fun i => (n1.intermediate_states[i]?).getD x, fun i => (m1.intermediate_states[i]?).getD x,
    fun i => (n2.intermediate_gradients[i]?).getD g, a1, a2, d1, by simp only [c2, Option.getD_some],
    by simp only [d2, Option.getD_some], ?_, ?_, ?_, ?_, ?_⟩
  · change (n2.intermediate_gradients[fs.length]?).getD g = g
    rw [← hN, a3]; rfl
  · obtain ⟨s, s', _, p2, _⟩ := c3 k0 _ (getn k0 _ (List.getElem?_eq_getElem (by omega)))
    rw [e2]
    unfold Network.get_intermediate_state Network.get_layers
    simp only [hN, hk0, p2, Option.getD_some]
  · obtain ⟨s, s', _, p2, _⟩ := d3 k0 _ (getm k0 _ (List.getElem?_eq_getElem (by omega)))
    rw [e4]
    unfold Network.get_intermediate_state Network.get_layers
    simp only [hM, hk0, p2, Option.getD_some]
  · obtain ⟨_, _, _, _, gi', _, _, _, _, p, _⟩ := a4 0 _ (getn 0 _ (List.getElem?_eq_getElem hpos))
    simp only [p, Option.getD_some]
  · intro k l l' hl hl'
    obtain ⟨l2, s, s', gi, gi', b1, b2, b3, b4, b5, b6⟩ := a4 k _ (getn k l hl)
    obtain ⟨s0, s1, q1, q2, q3, _⟩ := c3 k _ (getn k l hl)
    obtain ⟨t, t', r1, r2, r3, _⟩ := d3 k _ (getm k l' hl')
    rw [b2] at q1
    cases q1
    rw [b3] at q2
    cases q2
    have okl : l.Ok := hok.layers _ (List.mem_of_getElem? (getn k l hl))
    have okl' : l'.Ok := hokm.layers _ (List.mem_of_getElem? (getm k l' hl'))
    have hmode : l.run_state = .Training := ht.layers _ (List.mem_of_getElem? (getn k l hl))
    obtain ⟨f, rfl, hf⟩ := fc_collects okl hmode b6 fun f hf => by
      subst hf
      obtain ⟨a, ha, hpa⟩ := map_get hpar b1
      have ha : n.layers[k]? = some a := ha
      rw [getn k l hl] at ha
      cases ha
      have ok2 : f.Ok := hok2.layers _ (List.mem_of_getElem? b1)
      have m2 : f.run_state = .Training := ht2.layers _ (List.mem_of_getElem? b1)
      simp only [params, AnyLayer.fc.injEq, FullyConnectedLayer.mk.injEq, true_and] at hpa
      exact ⟨ok2, m2, hpa.1, hpa.2.1⟩
    simp only [b2, b3, b4, b5, r1, r2, Option.getD_some]
    refine ⟨okl, okl', q3, r3, f, b1, fun o ho i hi => ?_, ?_⟩
    · rw [(hf o ho).2 i hi, (hf o ho).1]
    · rw [fc_change okl okl' hmode (hsh k l l' hl hl') b6 q3 r3 fun o ho => ?_]
      · congr 1
        refine Finset.sum_congr rfl fun o ho => ?_
        rw [(hf o (Finset.mem_range.mp ho)).1]
      · refine hact n1 m1 a1 d1 k s' t' ?_ ?_ o ?_
        · unfold Network.get_intermediate_state
          rw [b3]
        · unfold Network.get_intermediate_state
          rw [r2]
        · rw [q3.2.1]
          change o < l.bias.shape.di.toNat
          rw [okl.rows]
          exact ho

/-- telescoping over the layers -/
theorem two_runs_sum {N : Nat} {W : Nat → Nat} {D : Nat → Nat → ℝ} {E : Nat → ℝ}
    (h : ∀ k < N, ∑ o ∈ Finset.range (W (k + 1)), D (k + 1) o = ∑ o ∈ Finset.range (W k), D k o + E k) :
    ∑ o ∈ Finset.range (W N), D N o = ∑ o ∈ Finset.range (W 0), D 0 o + ∑ k ∈ Finset.range N, E k := by
  induction N with
  | zero => simp
  | succ N ih =>
    rw [h N (by omega), ih fun k hk => h k (by omega), Finset.sum_range_succ, add_assoc]

/-- the number of numbers between the layers -/
def width (n : Net ℝ) (fs : List (FullyConnectedLayer ℝ)) : Nat → Nat
  | 0 => n.get_input_shape.di.toNat
  | k + 1 => match fs[k]? with
    | some l => l.weights.shape.di.toNat
    | none => 0

theorem width_in {b : Build} {n : Net ℝ} (hn : Built b n) {fs : List (FullyConnectedLayer ℝ)} (hfs : n.get_layers = fs.map .fc)
    {k : Nat} {l : FullyConnectedLayer ℝ} (hl : fs[k]? = some l) : width n fs k = l.weights.shape.dj.toNat := by
  have hok := built_netOk hn
  have hnl : n.layers = fs.map .fc := hfs
  have getn : ∀ k l, fs[k]? = some l → n.layers[k]? = some (AnyLayer.fc l) := fun k l h => by
    rw [hnl, List.getElem?_map, h]; rfl
  cases k with
  | zero =>
    have a := hok.chain.first (.fc l) (by rw [List.head?_eq_getElem?]; exact getn 0 l hl)
    change n.get_input_shape.di.toNat = _
    rw [a]
    rfl
  | succ k =>
    have hk : k < fs.length := by
      have := (List.getElem?_eq_some_iff.mp hl).1
      omega
    have a := hok.chain.links k _ _ (getn k _ (List.getElem?_eq_getElem hk)) (getn _ l hl)
    have okl : fs[k].Ok := hok.layers _ (List.mem_of_getElem? (getn k _ (List.getElem?_eq_getElem hk)))
    change fs[k].bias.shape = (⟨l.weights.shape.dj, 1, 1⟩ : TensorShape) at a
    rw [okl.rows] at a
    simp only [TensorShape.mk.injEq] at a
    simp only [width, List.getElem?_eq_getElem hk, a.1]

theorem width_out {b : Build} {n : Net ℝ} (hn : Built b n) {fs : List (FullyConnectedLayer ℝ)} (hfs : n.get_layers = fs.map .fc)
    (hne : fs ≠ []) : width n fs fs.length = n.get_output_shape.di.toNat := by
  have hok := built_netOk hn
  have hnl : n.layers = fs.map .fc := hfs
  have hpos : 0 < fs.length := List.length_pos_of_ne_nil hne
  obtain ⟨k, hk⟩ : ∃ k, fs.length = k + 1 := ⟨fs.length - 1, by omega⟩
  have hkl : k < fs.length := by omega
  have hg : n.layers[k]? = some (.fc fs[k]) := by rw [hnl, List.getElem?_map, List.getElem?_eq_getElem hkl]; rfl
  have a := hok.chain.last (.fc fs[k]) (by
    rw [List.getLast?_eq_getElem?, show n.layers.length - 1 = k from by rw [hnl, List.length_map]; omega]; exact hg)
  have okl : fs[k].Ok := hok.layers _ (List.mem_of_getElem? hg)
  rw [a, hk]
  change _ = fs[k].bias.shape.di.toNat
  rw [okl.rows]
  simp only [width, List.getElem?_eq_getElem hkl]

end Rusty
