import Verif.Spec.Unrolled
import Verif.Lemmas.IEEEPruning
import Verif.Lemmas.IEEEMono
import Mathlib.Data.List.Sort

/-! # Helper lemmas: convolutional layers written out as fully connected layers -/

namespace Rusty

open F32Ops Spec F32

/-- the order in which a loop nest visits index triples -/
def Before (x y : Nat × Nat × Nat) : Prop :=
  x.2.2 < y.2.2 ∨ x.2.2 = y.2.2 ∧ (x.2.1 < y.2.1 ∨ x.2.1 = y.2.1 ∧ x.1 < y.1)

instance : Std.Irrefl Before := ⟨fun a h => by unfold Before at h; omega⟩

instance : Std.Antisymm Before := ⟨fun a b h h' => by unfold Before at h h'; omega⟩

theorem idx3_before (di dj dk : Nat) : (idx3 di dj dk).Pairwise Before := by
  unfold idx3
  rw [List.pairwise_flatMap]
  refine ⟨fun k _ => ?_, List.pairwise_lt_range.imp fun {a b} hab x hx y hy => ?_⟩
  · rw [List.pairwise_flatMap]
    refine ⟨fun j _ => ?_, List.pairwise_lt_range.imp fun {a b} hab x hx y hy => ?_⟩
    · rw [List.pairwise_map]
      exact List.pairwise_lt_range.imp fun {a b} hab => .inr ⟨rfl, .inr ⟨rfl, hab⟩⟩
    · simp only [List.mem_map] at hx hy
      obtain ⟨_, _, rfl⟩ := hx
      obtain ⟨_, _, rfl⟩ := hy
      exact .inr ⟨rfl, .inl hab⟩
  · simp only [List.mem_flatMap, List.mem_map] at hx hy
    obtain ⟨_, _, _, _, rfl⟩ := hx
    obtain ⟨_, _, _, _, rfl⟩ := hy
    exact .inl hab

/-- the indices under a window, in the order of the image, are those of the window -/
theorem filter_window {D T : TensorShape} {s i j : Nat} (hk : T.dk = D.dk) (hi : i * s + T.di.toNat ≤ D.di.toNat)
    (hj : j * s + T.dj.toNat ≤ D.dj.toNat) (p : Nat × Nat × Nat → Bool)
    (hp : ∀ x, p x = true ↔ covers s T.di.toNat i x.1 ∧ covers s T.dj.toNat j x.2.1) :
    D.indices.filter p = T.indices.map fun x => (i * s + x.1, j * s + x.2.1, x.2.2) := by
  refine List.Pairwise.eq_of_mem_iff (r := Before) ((idx3_before _ _ _).filter _) ?_ fun x => ?_
  · rw [List.pairwise_map]
    refine (idx3_before _ _ _).imp fun {a b} h => ?_
    unfold Before at h ⊢
    simp only
    omega
  · rw [List.mem_filter, List.mem_map, hp]
    obtain ⟨a, b, c⟩ := x
    rw [mem_indices]
    unfold covers TensorShape.Inside
    constructor
    · rintro ⟨⟨h1, h2, h3⟩, ⟨h4, h5⟩, h6, h7⟩
      simp only at h4 h5 h6 h7
      refine ⟨(a - i * s, b - j * s, c), mem_indices.mpr ⟨?_, ?_, ?_⟩, ?_⟩
      · omega
      · omega
      · rw [hk]; exact h3
      · simp only [Prod.mk.injEq, and_true]; omega
    · rintro ⟨⟨u, v, w⟩, h, e⟩
      obtain ⟨h1, h2, h3⟩ := mem_indices.mp h
      simp only [Prod.mk.injEq] at e
      obtain ⟨rfl, rfl, rfl⟩ := e
      refine ⟨⟨?_, ?_, ?_⟩, ⟨?_, ?_⟩, ?_, ?_⟩ <;> first | omega | exact (by rw [← hk]; exact h3) | (simp only; omega)

variable [Libm]

/-- entries of a tensor and of the column with the same data -/
theorem flat_val {t u : Tensor F32} (h : Flat t u) {i j k : Nat} :
    val u (pos t.shape i j k) 0 0 = val t i j k := by
  unfold val
  rw [h.data]
  congr 2

/-- unrolled, a convolutional layer computes the same sums -/
theorem unrolled_pre {l : ConvolutionalLayer F32} {f : FullyConnectedLayer F32} (hl : l.Ok) (h : Unrolled l f)
    {s u : Tensor F32} (hs : s.shape = l.input_shape) (hu : Flat s u)
    (hf : ∀ i j k, l.input_shape.Inside i j k → (val s i j k).isFinite = true) {i j k : Nat}
    (hin : l.output_shape.Inside i j k) : preact f u (pos l.output_shape i j k) = convPre l s i j k := by
  have hk : k < l.kernels.length := by rw [hl.count]; exact hin.2.2
  obtain ⟨t, ht⟩ : ∃ t, l.kernels[k]? = some t := ⟨_, List.getElem?_eq_getElem hk⟩
  obtain ⟨c, hc⟩ : ∃ c, l.biases[k]? = some c := ⟨_, List.getElem?_eq_getElem (by rw [hl.biasCount]; exact hk)⟩
  obtain ⟨_, hd, ⟨a1, a2⟩, b1, b2⟩ := hl.kernels t (List.mem_of_getElem? ht)
  have hi : i * l.stride.toNat + t.shape.di.toNat ≤ l.input_shape.di.toNat := by
    have := Nat.mul_le_mul_right l.stride.toNat (show i ≤ l.output_shape.di.toNat - 1 by have := hin.1; omega)
    omega
  have hj : j * l.stride.toNat + t.shape.dj.toNat ≤ l.input_shape.dj.toNat := by
    have := Nat.mul_le_mul_right l.stride.toNat (show j ≤ l.output_shape.dj.toNat - 1 by have := hin.2.1; omega)
    omega
  unfold preact convPre
  rw [ht, hc]
  simp only
  rw [h.bias i j k c hin hc]
  congr 1
  unfold conv
  rw [h.inputs, ← pos_indices, List.map_map]
  classical
  have key := sum_filter l.input_shape.indices
    (fun x => decide (covers l.stride.toNat t.shape.di.toNat i x.1 ∧ covers l.stride.toNat t.shape.dj.toNat j x.2.1))
    (fun x => F32Ops.mul (val f.weights (pos l.output_shape i j k) (pos l.input_shape x.1 x.2.1 x.2.2) 0)
      (val u (pos l.input_shape x.1 x.2.1 x.2.2) 0 0)) (fun x hx hp => by
        have hx' := mem_indices.mp hx
        refine zero_mul_code (h.zeros i j k t hin ht _ _ _ hx' (by simpa using hp)) ?_
        rw [← hs, flat_val hu]
        exact hf _ _ _ hx')
  refine key.symm.trans ?_
  rw [filter_window hd hi hj _ (fun x => by simp), List.map_map]
  change _ = Spec.sum (t.shape.indices.map _)
  congr 1
  refine List.map_congr_left fun x hx => ?_
  simp only [Function.comp]
  rw [h.under i j k t hin ht _ _ _ (mem_indices.mp hx), ← hs, flat_val hu]
  exact mul_comm' _ _

/-- a column with the right entries is the flat version of a tensor -/
theorem flat_of_val {t u : Tensor F32} (ht : t.WF) (hu : u.WF) (hc : u.shape.dj = 1 ∧ u.shape.dk = 1)
    (hl : u.shape.di.toNat = t.shape.count)
    (h : ∀ i j k, t.shape.Inside i j k → val u (pos t.shape i j k) 0 0 = val t i j k) : Flat t u := by
  refine ⟨hc, hl, ?_⟩
  have hn : u.data.length = t.shape.count := by
    rw [hu.len, ← hl]
    unfold TensorShape.count
    rw [hc.1, hc.2]
    simp
  rw [list_indices t.shape u.data F32Ops.zero hn, data_indices ht]
  exact List.map_congr_left fun x hx => h _ _ _ (mem_indices.mp hx)

/-- one layer, on images and on columns -/
theorem layer_flat {b : Build} {l l' : AnyLayer F32} (hok : l.Ok) (hok' : l'.Ok) (h : Flattened l l')
    {s u s' u' : Tensor F32} (hs : s.shape = l.get_input_shape) (hswf : s.WF) (huwf : u.WF)
    (hf : (∃ c, l = .conv c) → ∀ i j k, s.shape.Inside i j k → (val s i j k).isFinite = true) (hsu : Flat s u)
    (hs' : applies b l s s') (hu' : applies b l' u u') : Flat s' u' := by
  cases h with
  | conv l f h =>
    have hl : l.Ok := hok
    have hfo : f.Ok := hok'
    have hs : s.shape = l.input_shape := hs
    have e1 : s'.shape = l.output_shape := hs'.2.1
    have e2 : u'.shape = ⟨f.weights.shape.di, 1, 1⟩ := hu'.2.1.trans hfo.rows
    refine flat_of_val hs'.1 hu'.1 ⟨by rw [e2], by rw [e2]⟩ (by rw [e1, e2]; exact h.units) fun i j k hin => ?_
    rw [e1] at hin ⊢
    have hp : pos l.output_shape i j k < f.weights.shape.di.toNat := by
      rw [h.units]; exact pos_lt hin
    rw [applies_val hs' (by exact hin), applies_val hu' (by
      change f.bias.shape.Inside _ _ _
      rw [hfo.rows]
      exact ⟨hp, Nat.one_pos, Nat.one_pos⟩)]
    unfold layerAt
    simp only
    rw [act_relu _ (summed_preact _ _ _), act_relu _ (summed_convPre _ _ _ _ _),
      unrolled_pre hl h hs hsu (fun i j k hi => hf ⟨_, rfl⟩ i j k (by rw [hs]; exact hi)) hin]
  | fc l f hw hb =>
    have hl : l.Ok := hok
    have hfo : f.Ok := hok'
    have e1 : s'.shape = ⟨l.weights.shape.di, 1, 1⟩ := hs'.2.1.trans hl.rows
    have e2 : u'.shape = ⟨f.weights.shape.di, 1, 1⟩ := hu'.2.1.trans hfo.rows
    refine flat_of_val hs'.1 hu'.1 ⟨by rw [e2], by rw [e2]⟩ (by
      rw [e1, e2, hw]; unfold TensorShape.count; simp) fun i j k hin => ?_
    rw [e1] at hin ⊢
    obtain ⟨hi, hj, hk⟩ := hin
    have hj : j = 0 := by simpa using hj
    have hk : k = 0 := by simpa using hk
    subst hj hk
    have hp : pos ⟨l.weights.shape.di, 1, 1⟩ i 0 0 = i := by unfold pos; simp
    rw [hp, applies_val hs' (by
      change l.bias.shape.Inside _ _ _
      rw [hl.rows]
      exact ⟨hi, Nat.one_pos, Nat.one_pos⟩), applies_val hu' (by
      change f.bias.shape.Inside _ _ _
      rw [hfo.rows, hw]
      exact ⟨hi, Nat.one_pos, Nat.one_pos⟩)]
    unfold layerAt
    simp only
    rw [act_relu _ (summed_preact _ _ _), act_relu _ (summed_preact _ _ _)]
    congr 1
    unfold preact
    rw [hw, hb]
    congr 2
    refine List.map_congr_left fun c _ => ?_
    congr 1
    unfold val
    rw [hsu.data]
    rfl
  | sm l f h1 h2 h3 =>
    have hl : l.Ok := hok
    have e0 : s.shape = l.shape := hs
    have e1 : s'.shape = l.shape := hs'.2.1
    have e2 : u'.shape = f.shape := hu'.2.1
    refine flat_of_val hs'.1 hu'.1 ⟨by rw [e2]; exact h2, by rw [e2]; exact h3⟩ (by rw [e1, e2]; exact h1)
      fun i j k hin => ?_
    rw [e1] at hin ⊢
    have hp : pos l.shape i j k < f.shape.di.toNat := by rw [h1]; exact pos_lt hin
    rw [applies_val hs' (by exact hin), applies_val hu' (by
      change f.shape.Inside _ _ _
      exact ⟨hp, by rw [h2]; decide, by rw [h3]; decide⟩)]
    unfold layerAt
    simp only
    unfold softmaxAt
    rw [← e0, flat_val hsu]
    have e : ∀ t : Tensor F32, t.WF →
        (t.shape.indices.map fun p => F32Ops.exp (val t p.1 p.2.1 p.2.2)) = t.data.map F32Ops.exp := by
      intro t ht
      conv_rhs => rw [data_indices ht, List.map_map]
      rfl
    rw [e s hswf, e u huwf, hsu.data]

/-- the matrix of shape `n x m` with the entries `g` -/
def table (n m : Nat) (g : Nat → Nat → F32) : Tensor F32 :=
  ⟨⟨1, UInt32.ofNat n, UInt32.ofNat (n * m)⟩, ⟨UInt32.ofNat n, UInt32.ofNat m, 1⟩,
    (List.range (n * m)).map fun c => g (c % n) (c / n)⟩

omit [Libm] in
theorem table_wf {n m : Nat} (g : Nat → Nat → F32) (hn : n < 2 ^ 32) (hm : m < 2 ^ 32) (h : n * m < 2 ^ 32) :
    (table n m g).WF := by
  have e1 : (UInt32.ofNat n).toNat = n := toNat_ofNat_lt hn
  have e2 : (UInt32.ofNat m).toNat = m := toNat_ofNat_lt hm
  have e3 : (UInt32.ofNat (n * m)).toNat = n * m := toNat_ofNat_lt h
  refine ⟨⟨?_, ?_⟩, rfl, rfl, ?_, ?_⟩
  · change (UInt32.ofNat n).toNat * (UInt32.ofNat m).toNat < 2 ^ 32
    rw [e1, e2]; exact h
  · change (UInt32.ofNat n).toNat * (UInt32.ofNat m).toNat * 1 < 2 ^ 32
    rw [e1, e2, Nat.mul_one]; exact h
  · change (UInt32.ofNat (n * m)).toNat = (UInt32.ofNat n).toNat * (UInt32.ofNat m).toNat
    rw [e1, e2, e3]
  · change ((List.range (n * m)).map _).length = (UInt32.ofNat n).toNat * (UInt32.ofNat m).toNat * 1
    rw [e1, e2]; simp

theorem table_val {n m : Nat} (g : Nat → Nat → F32) (hn : n < 2 ^ 32) {i j : Nat} (hi : i < n) (hj : j < m) :
    val (table n m g) i j 0 = g i j := by
  have e1 : (UInt32.ofNat n).toNat = n := toNat_ofNat_lt hn
  unfold val
  have hp : pos (table n m g).shape i j 0 = i + n * j := by
    change i + (UInt32.ofNat n).toNat * j + (UInt32.ofNat n).toNat * (UInt32.ofNat m).toNat * 0 = _
    rw [e1]; omega
  have hlt : i + n * j < n * m := by
    have := Nat.mul_le_mul_left n (show j + 1 ≤ m from hj)
    rw [Nat.mul_succ] at this
    omega
  rw [hp]
  change ((List.range (n * m)).map fun c => g (c % n) (c / n))[i + n * j]?.getD _ = _
  rw [List.getElem?_map, List.getElem?_range hlt]
  simp only [Option.map_some, Option.getD_some]
  rw [Nat.add_mul_mod_self_left, Nat.mod_eq_of_lt hi, Nat.add_mul_div_left _ _ (by omega), Nat.div_eq_of_lt hi,
    Nat.zero_add]

/-- every convolutional layer of moderate size can be unrolled -/
theorem unrolled_exists {l : ConvolutionalLayer F32} (hl : l.Ok)
    (hs : l.output_shape.count * l.input_shape.count < 2 ^ 32) : ∃ w c : Tensor F32, w.WF ∧ c.WF ∧
      w.shape.dk = 1 ∧ c.shape = ⟨w.shape.di, 1, 1⟩ ∧
      ∀ f : FullyConnectedLayer F32, f.weights = w → f.bias = c → Unrolled l f := by
  classical
  have ho : l.output_shape.count < 2 ^ 32 := hl.output.2
  have hi : l.input_shape.count < 2 ^ 32 := hl.input.2
  let P : Nat → Nat → F32 → Prop := fun o c v => ∃ i j k t p q r, l.output_shape.Inside i j k ∧
    o = pos l.output_shape i j k ∧ l.kernels[k]? = some t ∧ t.shape.Inside p q r ∧
    c = pos l.input_shape (i * l.stride.toNat + p) (j * l.stride.toNat + q) r ∧ v = val t p q r
  let Q : Nat → F32 → Prop := fun o v => ∃ i j k c, l.output_shape.Inside i j k ∧
    o = pos l.output_shape i j k ∧ l.biases[k]? = some c ∧ v = val c 0 0 0
  let g : Nat → Nat → F32 := fun o c => if h : ∃ v, P o c v then h.choose else mk' false 0
  let g' : Nat → Nat → F32 := fun o _ => if h : ∃ v, Q o v then h.choose else mk' false 0
  -- the window of an output lies inside the image
  have win : ∀ i j k t p q r, l.output_shape.Inside i j k → l.kernels[k]? = some t → t.shape.Inside p q r →
      l.input_shape.Inside (i * l.stride.toNat + p) (j * l.stride.toNat + q) r := by
    intro i j k t p q r hin ht hp
    obtain ⟨_, hd, ⟨a1, a2⟩, b1, b2⟩ := hl.kernels t (List.mem_of_getElem? ht)
    have h1 := Nat.mul_le_mul_right l.stride.toNat (show i ≤ l.output_shape.di.toNat - 1 by have := hin.1; omega)
    have h2 := Nat.mul_le_mul_right l.stride.toNat (show j ≤ l.output_shape.dj.toNat - 1 by have := hin.2.1; omega)
    obtain ⟨p1, p2, p3⟩ := hp
    refine ⟨by omega, by omega, ?_⟩
    rw [← hd]; exact p3
  have gP : ∀ i j k t p q r, l.output_shape.Inside i j k → l.kernels[k]? = some t → t.shape.Inside p q r →
      g (pos l.output_shape i j k) (pos l.input_shape (i * l.stride.toNat + p) (j * l.stride.toNat + q) r) =
        val t p q r := by
    intro i j k t p q r hin ht hp
    have h : ∃ v, P (pos l.output_shape i j k)
        (pos l.input_shape (i * l.stride.toNat + p) (j * l.stride.toNat + q) r) v :=
      ⟨_, i, j, k, t, p, q, r, hin, rfl, ht, hp, rfl, rfl⟩
    change (if h : _ then _ else _) = _
    rw [dif_pos h]
    obtain ⟨i', j', k', t', p', q', r', c1, c2, c3, c4, c5, c6⟩ := h.choose_spec
    rw [c6]
    obtain ⟨rfl, rfl, rfl⟩ := pos_inj hin c1 c2
    obtain rfl : t = t' := by rw [ht] at c3; exact Option.some.inj c3
    obtain ⟨d1, d2, rfl⟩ := pos_inj (win i j k t p q r hin ht hp) (win i j k t p' q' r' hin ht c4) c5
    obtain rfl : p = p' := by omega
    obtain rfl : q = q' := by omega
    rfl
  refine ⟨table l.output_shape.count l.input_shape.count g, table l.output_shape.count 1 g',
    table_wf g ho hi hs, table_wf g' ho (by decide) (by rw [Nat.mul_one]; exact ho), rfl, rfl, fun f hw hb => ?_⟩
  refine ⟨?_, ?_, ?_, ?_, ?_⟩
  · rw [hw]; exact toNat_ofNat_lt hi
  · rw [hw]; exact toNat_ofNat_lt ho
  · intro i j k c hin hc
    rw [hb, table_val g' ho (pos_lt hin) Nat.one_pos]
    have h : ∃ v, Q (pos l.output_shape i j k) v := ⟨_, i, j, k, c, hin, rfl, hc, rfl⟩
    change (if h : _ then _ else _) = _
    rw [dif_pos h]
    obtain ⟨i', j', k', c', c1, c2, c3, c4⟩ := h.choose_spec
    rw [c4]
    obtain ⟨rfl, rfl, rfl⟩ := pos_inj hin c1 c2
    rw [hc] at c3
    rw [Option.some.inj c3]
  · intro i j k t hin ht p q r hp
    rw [hw, table_val g ho (pos_lt hin) (pos_lt (win i j k t p q r hin ht hp))]
    exact gP i j k t p q r hin ht hp
  · intro i j k t hin ht p q r hp hnot
    rw [hw, table_val g ho (pos_lt hin) (pos_lt hp)]
    change (if h : _ then _ else _ : F32).code = 0
    rw [dif_neg]
    · decide
    · rintro ⟨v, i', j', k', t', p', q', r', c1, c2, c3, c4, c5, c6⟩
      obtain ⟨rfl, rfl, rfl⟩ := pos_inj hin c1 c2
      obtain rfl : t = t' := by rw [ht] at c3; exact Option.some.inj c3
      obtain ⟨rfl, rfl, rfl⟩ := pos_inj hp (win i j k t p' q' r' hin ht c4) c5
      refine hnot ⟨⟨by omega, ?_⟩, by omega, ?_⟩
      · have := c4.1; omega
      · have := c4.2.1; omega

end Rusty
