import Verif.Spec.Beside
import Verif.Props.Pruning

/-! # C118: two networks side by side in one -/

namespace Rusty

open F32Ops Spec F32

variable [Libm]

/-- C118: the layers of `n` are those of `n1` and `n2` side by side, the first one with shared inputs if `shared`.  If
all values in the run of `n` that enter a layer are finite, its output is the output of `n1` followed by that of `n2`,
bit for bit. -/
theorem C118_infer (b : Build) (shared : Bool) (n1 n2 n : Net F32) (hn1 : Built b n1) (hn2 : Built b n2)
    (hn : Built b n) (hne : n.get_layers ≠ []) (hlen1 : n1.get_layers.length = n.get_layers.length)
    (hlen2 : n2.get_layers.length = n.get_layers.length)
    (hl : ∀ i l1 l2 l, n1.get_layers[i]? = some l1 → n2.get_layers[i]? = some l2 → n.get_layers[i]? = some l →
      ∃ k1 k2 k, l1 = .fc k1 ∧ l2 = .fc k2 ∧ l = .fc k ∧ Beside (shared && i == 0) k1 k2 k)
    (x1 x2 x : Tensor F32) (hx1 : x1.WF) (hx2 : x2.WF) (hx : x.WF) (hxs1 : x1.shape = n1.get_input_shape)
    (hxs2 : x2.shape = n2.get_input_shape) (hxs : x.shape = n.get_input_shape)
    (hin : if shared then x1 = x ∧ x2 = x else Joined x1 x2 x) (m : Net F32)
    (hm : n.infer b x = .ok (.ok (), m))
    (hfin : ∀ i s, i < n.get_layers.length → m.get_intermediate_state i = .ok s → ∀ c, c < s.shape.di.toNat →
      (val s c 0 0).isFinite = true) :
    ∃ m1 m2 y1 y2 y, n1.infer b x1 = .ok (.ok (), m1) ∧ n2.infer b x2 = .ok (.ok (), m2) ∧
      m1.get_output = .ok y1 ∧ m2.get_output = .ok y2 ∧ m.get_output = .ok y ∧ Joined y1 y2 y := by
  have hpos : 0 < n.get_layers.length := List.length_pos_of_ne_nil hne
  have hne1 : n1.get_layers ≠ [] := fun h => by rw [h] at hlen1; simp at hlen1; omega
  have hne2 : n2.get_layers ≠ [] := fun h => by rw [h] at hlen2; simp at hlen2; omega
  obtain ⟨m1, t1, p1, p2, p3, p4, p5, p6⟩ := run_states b hn1 hne1 hx1 hxs1
  obtain ⟨m2, t2, q1, q2, q3, q4, q5, q6⟩ := run_states b hn2 hne2 hx2 hxs2
  obtain ⟨m', t, r1, r2, r3, r4, r5, r6⟩ := run_states b hn hne hx hxs
  obtain rfl : m = m' := by rw [hm] at r1; cases r1; rfl
  -- the layers at one place
  have get : ∀ i, i < n.get_layers.length → ∃ k1 k2 k, n1.get_layers[i]? = some (.fc k1) ∧
      n2.get_layers[i]? = some (.fc k2) ∧ n.get_layers[i]? = some (.fc k) ∧
      Beside (shared && i == 0) k1 k2 k := by
    intro i hi
    have a1 := List.getElem?_eq_getElem (l := n1.get_layers) (i := i) (by omega)
    have a2 := List.getElem?_eq_getElem (l := n2.get_layers) (i := i) (by omega)
    have a3 := List.getElem?_eq_getElem (l := n.get_layers) (i := i) hi
    obtain ⟨k1, k2, k, h1, h2, h3, h4⟩ := hl i _ _ _ a1 a2 a3
    exact ⟨k1, k2, k, by rw [a1, h1], by rw [a2, h2], by rw [a3, h3], h4⟩
  have fcShapes : ∀ {n : Net F32} {t : Nat → Tensor F32}, Built b n → (∀ i l, n.get_layers[i]? = some l →
      (t i).WF ∧ (t i).shape = l.get_input_shape ∧ applies b l (t i) (t (i + 1))) → ∀ i k,
      n.get_layers[i]? = some (.fc k) → (t i).shape = ⟨k.weights.shape.dj, 1, 1⟩ ∧
        (t (i + 1)).shape = ⟨k.weights.shape.di, 1, 1⟩ := by
    intro n t hn h i k hk
    obtain ⟨_, h2, h3⟩ := h i _ hk
    have ok : k.Ok := (built_netOk hn).layers (.fc k) (List.mem_of_getElem? hk)
    refine ⟨h2, h3.2.1.trans ?_⟩
    exact ok.rows
  have sizes1 := fcShapes hn1 p6
  have sizes2 := fcShapes hn2 q6
  have sizes := fcShapes hn r6
  -- the values that enter a layer are finite
  have fin : ∀ i k s, n.get_layers[i]? = some (.fc k) → m.get_intermediate_state i = .ok s →
      ∀ c, c < k.weights.shape.dj.toNat → (val s c 0 0).isFinite = true := by
    intro i k s hk hs c hc
    obtain ⟨m', w1, _, w3⟩ := infer_ok (b := b) (built_netOk hn) hne hx hxs
    obtain rfl : m = m' := by rw [hm] at w1; cases w1; rfl
    obtain ⟨s0, _, e1, _, _, _, _, _, _, e5, _⟩ := w3 i _ hk
    have hs0 := hs
    unfold Network.get_intermediate_state at hs0
    rw [e1] at hs0
    injection hs0 with hs0
    subst hs0
    have hi : i < n.get_layers.length := (List.getElem?_eq_some_iff.mp hk).1
    exact hfin i _ hi hs c (by rw [e5]; exact hc)
  have flag : ∀ i, (shared && (i + 1) == 0) = false := fun i => by
    cases shared <;> rfl
  -- the first network
  obtain ⟨m1', u1, v1, a1, a2, a3, a4, _⟩ := C112_infer b n1 n hn1 hn hne1 hlen1.symm
    (fun i => if (shared && i == 0) = true then none else some id) x1 x hx1 hx hxs1 hxs (by
      cases shared with
      | true => exact hin.1.symm
      | false =>
        have h : Joined x1 x2 x := hin
        refine ⟨h.first.1, h.first.2, h.column.1, h.column.2, ⟨fun i hi => ?_, fun i j hij _ => hij⟩, h.left⟩
        rw [h.length]
        exact Nat.lt_add_right _ hi) m hm (fun i l l' s g1 g2 g3 => by
      obtain ⟨k1, k2, k, c1, c2, c3, c4⟩ := get i (List.getElem?_eq_some_iff.mp g2).1
      rw [c1] at g1
      rw [c3] at g2
      cases g1
      cases g2
      have nid : ∀ i j, number (if (shared && i == 0) = true then none else some id) j = j := by
        intro i j
        split <;> rfl
      refine .inr ⟨k1, k, rfl, rfl, ⟨fun j hj => ?_, fun j j' h _ => ?_⟩, ⟨fun o ho => ?_, fun o o' h _ => ?_⟩,
        ?_, fun o ho => ?_, fun o j ho hj => ?_, fun o c ho hc hno => ?_⟩
      · rw [nid]
        have := c4.inputs
        split at this
        · rw [this.1]; exact hj
        · rw [this]; exact Nat.lt_add_right _ hj
      · rw [nid, nid]; exact h
      · rw [nid, c4.units]; exact Nat.lt_add_right _ ho
      · rw [nid, nid]; exact h
      · rw [flag i]; nofun
      · rw [nid]; exact c4.bias1 o ho
      · rw [nid, nid]; exact c4.weights1 o j ho hj
      · rw [nid]
        simp only [nid] at hno
        have hge : k1.weights.shape.dj.toNat ≤ c := by
          by_contra h
          exact hno c (by omega) rfl
        have hin' := c4.inputs
        split at hin'
        · rw [hin'.1] at hc
          omega
        · rename_i hf
          have hf : (shared && i == 0) = false := by simpa using hf
          refine .inl ⟨?_, fin i k s c3 g3 c hc⟩
          have := c4.zeros1 hf o (c - k1.weights.shape.dj.toNat) ho (by omega)
          rw [Nat.add_sub_cancel' hge] at this
          exact this)
  -- the second network
  obtain ⟨m2', u2, v2, b1, b2, b3, b4, _⟩ := C112_infer b n2 n hn2 hn hne2 hlen2.symm
    (fun i => if (shared && i == 0) = true then none else some ((t1 i).shape.di.toNat + ·)) x2 x hx2 hx hxs2 hxs (by
      cases shared with
      | true => exact hin.2.symm
      | false =>
        have h : Joined x1 x2 x := hin
        refine ⟨h.second.1, h.second.2, h.column.1, h.column.2, ⟨fun i hi => ?_, fun i j hij _ => ?_⟩, ?_⟩
        · rw [h.length, p2]
          exact Nat.add_lt_add_left hi _
        · exact Nat.add_lt_add_left hij _
        · rw [p2]
          exact h.right) m hm (fun i l l' s g1 g2 g3 => by
      obtain ⟨k1, k2, k, c1, c2, c3, c4⟩ := get i (List.getElem?_eq_some_iff.mp g2).1
      rw [c2] at g1
      rw [c3] at g2
      cases g1
      cases g2
      obtain ⟨d1, d2⟩ := sizes1 i k1 c1
      have nin : ∀ j, number (if (shared && i == 0) = true then none else some ((t1 i).shape.di.toNat + ·)) j =
          if (shared && i == 0) = true then j else k1.weights.shape.dj.toNat + j := by
        intro j
        rw [d1]
        split <;> rfl
      have nout : ∀ j, number (if (shared && (i + 1) == 0) = true then none else
          some ((t1 (i + 1)).shape.di.toNat + ·)) j = k1.weights.shape.di.toNat + j := by
        intro j
        rw [d2, flag i]
        rfl
      refine .inr ⟨k2, k, rfl, rfl, ⟨fun j hj => ?_, fun j j' h _ => ?_⟩, ⟨fun o ho => ?_, fun o o' h _ => ?_⟩,
        ?_, fun o ho => ?_, fun o j ho hj => ?_, fun o c ho hc hno => ?_⟩
      · rw [nin]
        have := c4.inputs
        split at this
        · rw [if_pos (by assumption), this.2]; exact hj
        · rw [if_neg (by assumption), this]; exact Nat.add_lt_add_left hj _
      · rw [nin, nin]
        split
        · exact h
        · exact Nat.add_lt_add_left h _
      · rw [nout, c4.units]; exact Nat.add_lt_add_left ho _
      · rw [nout, nout]; exact Nat.add_lt_add_left h _
      · rw [flag i]; nofun
      · rw [nout]; exact c4.bias2 o ho
      · rw [nout, nin]; exact c4.weights2 o j ho hj
      · rw [nout]
        simp only [nin] at hno
        have hin' := c4.inputs
        split at hin'
        · rename_i hf
          rw [hin'.2] at hc
          exact absurd (by rw [if_pos hf]) (hno c hc)
        · rename_i hf
          have hf' : (shared && i == 0) = false := by simpa using hf
          have hlt : c < k1.weights.shape.dj.toNat := by
            by_contra h
            refine hno (c - k1.weights.shape.dj.toNat) (by omega) ?_
            rw [if_neg hf]
            omega
          exact .inl ⟨c4.zeros2 hf' o c ho hlt, fin i k s c3 g3 c hc⟩)
  obtain ⟨i, hi⟩ : ∃ i, n.get_layers.length = i + 1 := ⟨n.get_layers.length - 1, by omega⟩
  rw [hlen1, hi, flag i] at a4
  rw [hlen2, hi, flag i] at b4
  obtain ⟨k1, k2, k, c1, c2, c3, c4⟩ := get i (by omega)
  have hu1 : u1 = t1 (i + 1) := by
    rw [p1] at a1
    cases a1
    rw [a2, hlen1, hi] at p3
    injection p3
  have hu2 : u2 = t2 (i + 1) := by
    rw [q1] at b1
    cases b1
    rw [b2, hlen2, hi] at q3
    injection q3
  have hv1 : v1 = t (i + 1) := by
    rw [a3, hi] at r3
    injection r3
  have hv2 : v2 = t (i + 1) := by
    rw [b3, hi] at r3
    injection r3
  subst hu1 hu2 hv1 hv2
  obtain ⟨f1, f2, f3, f4, _, f6⟩ := a4
  obtain ⟨g1, g2, _, _, _, g6⟩ := b4
  refine ⟨m1', m2', _, _, _, a1, b1, a2, b2, a3, ⟨f1, f2⟩, ⟨g1, g2⟩, ⟨f3, f4⟩, ?_, f6, g6⟩
  rw [(sizes1 i k1 c1).2, (sizes2 i k2 c2).2, (sizes i k c3).2]
  exact c4.units

/-- a layer from two inputs to two units without weights between them -/
def exDiag (u u' : F32) : FullyConnectedLayer F32 :=
  { weights := ⟨⟨1, 2, 4⟩, ⟨2, 2, 1⟩, [u, ⟨0⟩, ⟨0⟩, u']⟩, bias := ⟨⟨1, 2, 2⟩, ⟨2, 1, 1⟩, [⟨0⟩, ⟨0⟩]⟩
    weights_gradients := single ⟨0⟩, weights_gradients_intermediate := single ⟨0⟩, bias_gradients := single ⟨0⟩
    relu_mask := single ⟨0⟩, name := "diag", run_state := .Inference }

omit [Libm] in
theorem exDiag_ok (u u' : F32) : (AnyLayer.fc (exDiag u u')).Ok :=
  ⟨⟨(by decide : (⟨2, 2, 1⟩ : TensorShape).Fits), rfl, rfl, rfl, rfl⟩,
    ⟨(by decide : (⟨2, 1, 1⟩ : TensorShape).Fits), rfl, rfl, rfl, rfl⟩, rfl, rfl, nofun⟩

theorem exUpDiag_built (b : Build) (w w' u u' : F32) : ∃ n : Net F32, Built b n ∧
    n.get_layers = [.fc (exUp w w'), .fc (exDiag u u')] ∧ n.get_input_shape = ⟨1, 1, 1⟩ :=
  ⟨_, .add_layer _ (.fc (exDiag u u')) (.ok ()) _
    (.add_layer (Network.new .Inference) (.fc (exUp w w')) (.ok ()) _ (.new _) (exUp_ok w w')
      (by cases b <;> rfl)) (exDiag_ok u u') (by cases b <;> rfl), rfl, rfl⟩

theorem exUp_beside (w w' : F32) : Beside true (exFc w ⟨0⟩) (exFc w' ⟨0⟩) (exUp w w') where
  units := rfl
  inputs := ⟨rfl, rfl⟩
  bias1 := fun o (h : o < 1) => by obtain rfl : o = 0 := by omega
                                   rfl
  bias2 := fun o (h : o < 1) => by obtain rfl : o = 0 := by omega
                                   rfl
  weights1 := fun o i (h : o < 1) (h' : i < 1) => by
    obtain rfl : o = 0 := by omega
    obtain rfl : i = 0 := by omega
    rfl
  weights2 := fun o i (h : o < 1) (h' : i < 1) => by
    obtain rfl : o = 0 := by omega
    obtain rfl : i = 0 := by omega
    rfl
  zeros1 := nofun
  zeros2 := nofun

theorem exDiag_beside (u u' : F32) : Beside false (exFc u ⟨0⟩) (exFc u' ⟨0⟩) (exDiag u u') where
  units := rfl
  inputs := rfl
  bias1 := fun o (h : o < 1) => by obtain rfl : o = 0 := by omega
                                   rfl
  bias2 := fun o (h : o < 1) => by obtain rfl : o = 0 := by omega
                                   rfl
  weights1 := fun o i (h : o < 1) (h' : i < 1) => by
    obtain rfl : o = 0 := by omega
    obtain rfl : i = 0 := by omega
    rfl
  weights2 := fun o i (h : o < 1) (h' : i < 1) => by
    obtain rfl : o = 0 := by omega
    obtain rfl : i = 0 := by omega
    rfl
  zeros1 := fun _ o i (h : o < 1) (h' : i < 1) => by
    obtain rfl : o = 0 := by omega
    obtain rfl : i = 0 := by omega
    rfl
  zeros2 := fun _ o i (h : o < 1) (h' : i < 1) => by
    obtain rfl : o = 0 := by omega
    obtain rfl : i = 0 := by omega
    rfl

/-- The assumptions of `C118_infer` can be met: two 1 -> 1 -> 1 networks that share their input 2. -/
example (b : Build) : ∃ n1 n2 n m : Net F32, Built b n1 ∧ Built b n2 ∧ Built b n ∧
    n1.get_layers = [.fc (exFc ⟨0x3f800000⟩ ⟨0⟩), .fc (exFc ⟨0x3f800000⟩ ⟨0⟩)] ∧
    n2.get_layers = [.fc (exFc ⟨0x40400000⟩ ⟨0⟩), .fc (exFc ⟨0x40000000⟩ ⟨0⟩)] ∧
    n.get_layers = [.fc (exUp ⟨0x3f800000⟩ ⟨0x40400000⟩), .fc (exDiag ⟨0x3f800000⟩ ⟨0x40000000⟩)] ∧
    n.infer b (single ⟨0x40000000⟩) = .ok (.ok (), m) ∧
    ∃ m1 m2 y1 y2 y, n1.infer b (single ⟨0x40000000⟩) = .ok (.ok (), m1) ∧
      n2.infer b (single ⟨0x40000000⟩) = .ok (.ok (), m2) ∧ m1.get_output = .ok y1 ∧
      m2.get_output = .ok y2 ∧ m.get_output = .ok y ∧ Joined y1 y2 y := by
  obtain ⟨n1, h1, h2, h3⟩ := exFc2_built b ⟨0x3f800000⟩ ⟨0⟩ ⟨0x3f800000⟩ ⟨0⟩
  obtain ⟨n2, g1, g2, g3⟩ := exFc2_built b ⟨0x40400000⟩ ⟨0⟩ ⟨0x40000000⟩ ⟨0⟩
  obtain ⟨n, k1, k2, k3⟩ := exUpDiag_built b ⟨0x3f800000⟩ ⟨0x40400000⟩ ⟨0x3f800000⟩ ⟨0x40000000⟩
  have hne : n.get_layers ≠ [] := by rw [k2]; exact List.cons_ne_nil _ _
  obtain ⟨m, q1, q2, q3⟩ := infer_ok (b := b) (built_netOk k1) hne (single_wf ⟨0x40000000⟩) k3.symm
  obtain ⟨s0, t, r4, r5, a1, _⟩ := q3 0 (.fc (exUp ⟨0x3f800000⟩ ⟨0x40400000⟩)) (by
    change n.get_layers[0]? = _
    rw [k2]; rfl)
  obtain rfl : single ⟨0x40000000⟩ = s0 := by rw [q2] at r4; exact Option.some.inj r4
  have relu : ∀ x : F32, Spec.relu x = if F32.gt x (mk' false 0) then x else mk' false 0 := fun _ => rfl
  have up : ∀ (w w' : F32) (s : Tensor F32) o,
      layerAt (.fc (exUp w w')) s o 0 0 = Spec.relu (preact (exUp w w') s o) := fun w w' s o => by
    simp only [layerAt]
    exact act_relu _ (summed_preact _ _ _)
  have pre0 : ∀ w w' a : F32, preact (exUp w w') (single a) 0 =
      F32.add (F32.add (mk' false 0) (F32.mul w a)) ⟨0⟩ := fun _ _ _ => rfl
  have pre1 : ∀ w w' a : F32, preact (exUp w w') (single a) 1 =
      F32.add (F32.add (mk' false 0) (F32.mul w' a)) ⟨0⟩ := fun _ _ _ => rfl
  have e1 : (val t 0 0 0).isFinite = true := by
    rw [applies_val a1 (show (⟨2, 1, 1⟩ : TensorShape).Inside 0 0 0 from ⟨by decide, by decide, by decide⟩), up,
      pre0, relu]
    decide +kernel
  have e2 : (val t 1 0 0).isFinite = true := by
    rw [applies_val a1 (show (⟨2, 1, 1⟩ : TensorShape).Inside 1 0 0 from ⟨by decide, by decide, by decide⟩), up,
      pre1, relu]
    decide +kernel
  refine ⟨n1, n2, n, m, h1, g1, k1, h2, g2, k2, q1, C118_infer b true n1 n2 n h1 g1 k1 hne
    (by rw [h2, k2]; rfl) (by rw [g2, k2]; rfl) (fun i l1 l2 l w1 w2 w3 => ?_) _ _ _ (single_wf _) (single_wf _)
    (single_wf _) h3.symm g3.symm k3.symm ⟨rfl, rfl⟩ m q1 fun i s hi hs c hc => ?_⟩
  · rw [h2] at w1
    rw [g2] at w2
    rw [k2] at w3
    match i with
    | 0 =>
      cases w1
      cases w2
      cases w3
      exact ⟨_, _, _, rfl, rfl, rfl, exUp_beside _ _⟩
    | 1 =>
      cases w1
      cases w2
      cases w3
      exact ⟨_, _, _, rfl, rfl, rfl, exDiag_beside _ _⟩
    | i + 2 => cases w1
  · rw [k2] at hi
    unfold Network.get_intermediate_state at hs
    match i with
    | 0 =>
      rw [q2] at hs
      cases hs
      have hc : c < 1 := hc
      obtain rfl : c = 0 := by omega
      change (⟨0x40000000⟩ : F32).isFinite = true
      decide
    | 1 =>
      rw [r5] at hs
      cases hs
      rw [a1.2.1] at hc
      have hc : c < 2 := hc
      obtain rfl | rfl : c = 0 ∨ c = 1 := by omega
      · exact e1
      · exact e2
    | i + 2 =>
      have : i + 2 < 2 := hi
      omega

end Rusty
