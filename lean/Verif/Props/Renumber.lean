import Verif.Lemmas.Renumber
import Verif.Props.Robust
import Verif.Props.FullyConnected

/-! # C86: the numbering of hidden units -/

namespace Rusty

open F32Ops Spec F32

/-- C86, any arithmetic: renumbering the units of a layer renumbers its outputs, bit for bit. -/
theorem C86_rows {F : Type} [F32Ops F] (b : Build) (l l' : FullyConnectedLayer F) (hl : l.Ok)
    (hl' : l'.Ok) (σ : Nat → Nat) (hσ : Renumbers l.weights.shape.di.toNat σ) (h : RowsBy σ l l')
    (x out out' : Tensor F) (hx : x.WF) (hxs : x.shape = l.get_input_shape) (ho : out.WF)
    (hos : out.shape = l.get_output_shape) (ho' : out'.WF) (hos' : out'.shape = l.get_output_shape) :
    ∃ l1 l1' y y', l.forward b x out = .ok (.ok (), l1, y) ∧
      l'.forward b x out' = .ok (.ok (), l1', y') ∧ y'.shape = y.shape ∧
      ∀ o, o < l.weights.shape.di.toNat → y'.get_item b (ix o 0 0) = y.get_item b (ix (σ o) 0 0) := by
  have hi : l'.get_input_shape = l.get_input_shape := by
    unfold FullyConnectedLayer.get_input_shape; rw [h.shape]
  have hoo : l'.get_output_shape = l.get_output_shape := by
    unfold FullyConnectedLayer.get_output_shape; rw [hl.rows, hl'.rows, h.shape]
  have hp : ∀ o, o < l.weights.shape.di.toNat → preact l' x o = preact l x (σ o) := by
    intro o h0
    unfold preact
    rw [h.bias o h0, h.shape]
    congr 2
    refine List.map_congr_left fun i hm => ?_
    rw [h.weights o i h0 (List.mem_range.mp hm)]
  cases hm : l.run_state with
  | Inference =>
    obtain ⟨y, q1, _, q3, q4⟩ := C27_forward_inference b l hl hm x out hx hxs ho hos
    obtain ⟨y', p1, _, p3, p4⟩ := C27_forward_inference b l' hl' (h.mode.trans hm) x out' hx
      (hxs.trans hi.symm) ho' (hos'.trans hoo.symm)
    refine ⟨_, _, y, y', q1, p1, p3.trans (hoo.trans q3.symm), fun o h0 => ?_⟩
    rw [p4 o (by rw [h.shape]; exact h0), q4 _ (hσ.1 o h0), hp o h0]
  | Training =>
    obtain ⟨_, y, q1, _, q3, q4⟩ := C27_forward_training b l hl hm x out hx hxs ho hos
    obtain ⟨_, y', p1, _, p3, p4⟩ := C27_forward_training b l' hl' (h.mode.trans hm) x out' hx
      (hxs.trans hi.symm) ho' (hos'.trans hoo.symm)
    refine ⟨_, _, y, y', q1, p1, p3.trans (hoo.trans q3.symm), fun o h0 => ?_⟩
    rw [(p4 o (by rw [h.shape]; exact h0)).1, (q4 _ (hσ.1 o h0)).1, hp o h0]

variable [Libm]

/-- C86, exact arithmetic: two networks that differ only in the numbering of the units between two fully
connected layers compute the same. -/
theorem C86_exact (b : Build) (n n' : Net F32) (hn : Built b n) (pre post : List (AnyLayer F32))
    (l1 l1' l2 l2' : FullyConnectedLayer F32) (hls : n.get_layers = pre ++ .fc l1 :: .fc l2 :: post)
    (hls' : n'.get_layers = pre ++ .fc l1' :: .fc l2' :: post) (σ : Nat → Nat)
    (hσ : Renumbers l1.weights.shape.di.toNat σ) (h1 : RowsBy σ l1 l1') (h2 : ColumnsBy σ l2 l2')
    (x : Tensor F32) (hx : x.WF) (hxs : x.shape = n.get_input_shape) (ξ : Nat → Nat → Nat → ℝ) (i j k : Nat)
    (hin : n.get_output_shape.Inside i j k) :
    exactNet n'.get_layers ξ i j k = exactNet n.get_layers ξ i j k := by
  have hok := built_netOk hn
  have hne : n.get_layers ≠ [] := by rw [hls]; simp
  have hlen : n.layers.length = post.length + (pre.length + 2) := by
    have := congrArg List.length hls
    simp only [Network.get_layers, List.length_append, List.length_cons] at this
    omega
  obtain ⟨nf, _, _, h3⟩ := infer_ok (b := b) hok hne hx hxs
  have hstep : ∀ i l, n.layers[i]? = some l →
      ((nf.intermediate_states[i]?).getD x).shape = l.get_input_shape ∧
      applies b l ((nf.intermediate_states[i]?).getD x)
        ((nf.intermediate_states[i + 1]?).getD x) := by
    intro i l hi
    obtain ⟨s, s', e1, e2, e3, _, _, _, _, e5, _⟩ := h3 i l hi
    rw [e1, e2]
    exact ⟨e5, e3⟩
  have g1 : n.layers[pre.length]? = some (.fc l1) := by
    change n.get_layers[pre.length]? = _
    rw [hls]; simp
  have g2 : n.layers[pre.length + 1]? = some (.fc l2) := by
    change n.get_layers[pre.length + 1]? = _
    rw [hls, List.getElem?_append_right (by omega)]
    simp
  have hok1 : l1.Ok := hok.layers (.fc l1) (List.mem_of_getElem? g1)
  have hok2 : l2.Ok := hok.layers (.fc l2) (List.mem_of_getElem? g2)
  -- the shapes between the two layers agree
  have hs : l2.weights.shape.dj = l1.weights.shape.di := by
    have a := (hstep _ _ g1).2.2.1
    have c := (hstep _ _ g2).1
    rw [c] at a
    have := congrArg TensorShape.di a
    change l2.weights.shape.dj = l1.bias.shape.di at this
    rw [this, hok1.rows]
  have hsplit : ∀ (m1 m2 : AnyLayer F32) (y : Nat → Nat → Nat → ℝ),
      exactNet (pre ++ m1 :: m2 :: post) y =
        exactNet post (exactLayer m2 (exactLayer m1 (exactNet pre y))) := by
    intro m1 m2 y
    unfold exactNet
    rw [List.foldl_append]
    rfl
  have hpost : ∀ m, post[m]? = n.layers[m + (pre.length + 2)]? := by
    intro m
    change _ = n.get_layers[_]?
    rw [hls, List.getElem?_append_right (by omega)]
    rw [show m + (pre.length + 2) - pre.length = m + 2 by omega]
    rfl
  have hc := layers_agree b post
    (fun l hl => hok.layers l (by
      change l ∈ n.get_layers
      rw [hls]; simp [hl]))
    (fun m => (nf.intermediate_states[m + (pre.length + 2)]?).getD x)
    (exactLayer (.fc l2') (exactLayer (.fc l1') (exactNet pre ξ)))
    (exactLayer (.fc l2) (exactLayer (.fc l1) (exactNet pre ξ)))
    (fun i j k h => by
      rw [exact_renumbered hσ h1 h2 hs, sub_self, abs_zero]
      have a := (hstep _ _ g2).2.2.1
      rw [Nat.zero_add] at h
      rw [show pre.length + 2 = pre.length + 1 + 1 from rfl, a] at h
      have h := h.1
      change i < l2.bias.shape.di.toNat at h
      rwa [hok2.rows] at h)
    (fun m l hm => by
      have := hstep (m + (pre.length + 2)) l (by rw [← hpost]; exact hm)
      rwa [show m + (pre.length + 2) + 1 = m + 1 + (pre.length + 2) by omega] at this)
    i j k (by
      have hpos : 0 < n.layers.length := by omega
      obtain ⟨last, hlast⟩ : ∃ l, n.layers[n.layers.length - 1]? = some l :=
        ⟨_, List.getElem?_eq_getElem (by omega)⟩
      have a := (hstep _ _ hlast).2.2.1
      rw [Nat.sub_add_cancel hpos] at a
      rw [← hlen, a, ← hok.chain.last last (by rw [List.getLast?_eq_getElem?]; exact hlast)]
      exact hin)
  rw [hls, hls', hsplit, hsplit]
  exact sub_eq_zero.mp (abs_eq_zero.mp (le_antisymm hc (abs_nonneg _)))

/-- C86, `f32`: the predictions of two networks that differ only in the numbering of hidden units differ by at most
the sum of their rounding error bounds. -/
theorem C86_infer (b : Build) (n n' : Net F32) (hn : Built b n) (hn' : Built b n')
    (pre post : List (AnyLayer F32)) (l1 l1' l2 l2' : FullyConnectedLayer F32)
    (hls : n.get_layers = pre ++ .fc l1 :: .fc l2 :: post)
    (hls' : n'.get_layers = pre ++ .fc l1' :: .fc l2' :: post) (σ : Nat → Nat)
    (hσ : Renumbers l1.weights.shape.di.toNat σ) (h1 : RowsBy σ l1 l1') (h2 : ColumnsBy σ l2 l2')
    (x : Tensor F32) (hx : x.WF) (hxs : x.shape = n.get_input_shape)
    (hxs' : x.shape = n'.get_input_shape) (hos : n'.get_output_shape = n.get_output_shape)
    (M M1 e1 M2 e2 : ℝ) (hM : 0 ≤ M)
    (hfin : ∀ i j k, x.shape.Inside i j k → (val x i j k).isFinite = true ∧ |(val x i j k).toReal| ≤ M)
    (hA : Accuracy n.get_layers M 0 M1 e1) (hA' : Accuracy n'.get_layers M 0 M2 e2) :
    ∃ m y m' y', n.infer b x = .ok (.ok (), m) ∧ m.get_output = .ok y ∧
      n'.infer b x = .ok (.ok (), m') ∧ m'.get_output = .ok y' ∧
      ∀ i j k, n.get_output_shape.Inside i j k → ∃ v v', y.get_item b (ix i j k) = .ok v ∧
        y'.get_item b (ix i j k) = .ok v' ∧ v.isFinite = true ∧ v'.isFinite = true ∧
        |v.toReal - v'.toReal| ≤ e1 + e2 := by
  have hne : n.get_layers ≠ [] := by rw [hls]; simp
  have hne' : n'.get_layers ≠ [] := by rw [hls']; simp
  have hnear : Near x (fun i j k => (val x i j k).toReal) M 0 := fun i j k h =>
    ⟨(hfin i j k h).1, by simp, (hfin i j k h).2⟩
  obtain ⟨m, y, a1, a2, a3, a4⟩ := C74_infer b n hn hne x hx hxs _ M 0 M1 e1 hM le_rfl hnear hA
  obtain ⟨m', y', c1, c2, c3, c4⟩ := C74_infer b n' hn' hne' x hx hxs' _ M 0 M2 e2 hM le_rfl hnear hA'
  refine ⟨m, y, m', y', a1, a2, c1, c2, fun i j k hin => ?_⟩
  obtain ⟨v, p1, p2, p3, _⟩ := a4 i j k (a3 ▸ hin)
  obtain ⟨v', q1, q2, q3, _⟩ := c4 i j k (by rw [c3, hos]; exact hin)
  refine ⟨v, v', p1, q1, p2, q2, ?_⟩
  rw [C86_exact b n n' hn pre post l1 l1' l2 l2' hls hls' σ hσ h1 h2 x hx hxs _ i j k hin]
    at q3
  rw [abs_le] at p3 q3 ⊢
  constructor <;> linarith

/-! ## Examples -/

/-- a layer with one input and three units without biases -/
def exHidden (a c e : F32) : FullyConnectedLayer F32 :=
  { weights := ⟨⟨1, 3, 3⟩, ⟨3, 1, 1⟩, [a, c, e]⟩, bias := ⟨⟨1, 3, 3⟩, ⟨3, 1, 1⟩, [⟨0⟩, ⟨0⟩, ⟨0⟩]⟩
    weights_gradients := single ⟨0⟩, weights_gradients_intermediate := single ⟨0⟩
    bias_gradients := single ⟨0⟩, relu_mask := single ⟨0⟩, name := "hidden", run_state := .Inference }

/-- the sum of three inputs -/
def exTotal : FullyConnectedLayer F32 :=
  { weights := ⟨⟨1, 1, 3⟩, ⟨1, 3, 1⟩, [⟨0x3f800000⟩, ⟨0x3f800000⟩, ⟨0x3f800000⟩]⟩, bias := single ⟨0⟩
    weights_gradients := single ⟨0⟩, weights_gradients_intermediate := single ⟨0⟩
    bias_gradients := single ⟨0⟩, relu_mask := single ⟨0⟩, name := "total", run_state := .Inference }

omit [Libm] in
theorem exHidden_ok (a c e : F32) : (exHidden a c e).Ok :=
  ⟨⟨(by decide : TensorShape.Fits ⟨3, 1, 1⟩), rfl, rfl, rfl, rfl⟩,
    ⟨(by decide : TensorShape.Fits ⟨3, 1, 1⟩), rfl, rfl, rfl, rfl⟩, rfl, rfl, nofun⟩

theorem exTotal_ok : exTotal.Ok :=
  ⟨⟨(by decide : TensorShape.Fits ⟨1, 3, 1⟩), rfl, rfl, rfl, rfl⟩, single_wf _, rfl, rfl, nofun⟩

/-- above zero -/
def Positive (v : F32) : Prop := v.isNaN = false ∧ (⟨0⟩ : F32).key < v.key

instance (v : F32) : Decidable (Positive v) := inferInstanceAs (Decidable (_ ∧ _))

theorem fmax_positive {v : F32} (h : Positive v) : F32.fmax v ⟨0⟩ = v := by
  unfold F32.fmax
  rw [h.1, if_neg (by simp), if_neg (by decide), if_pos h.2]

/-- what the two layers compute of the input 1 -/
theorem exRun {n : Net F32} (hn : Built .debug n) {a c e r : F32}
    (hls : n.get_layers = [.fc (exHidden a c e), .fc exTotal])
    (hp : ∀ v ∈ [a, c, e], Positive v ∧ F32.add (F32.add ⟨0⟩ (F32.mul v ⟨0x3f800000⟩)) ⟨0⟩ = v)
    (hr : Positive r ∧ F32.add (F32.add (F32.add (F32.add ⟨0⟩ (F32.mul ⟨0x3f800000⟩ a))
      (F32.mul ⟨0x3f800000⟩ c)) (F32.mul ⟨0x3f800000⟩ e)) ⟨0⟩ = r) :
    ∃ m y, n.infer .debug (single ⟨0x3f800000⟩) = .ok (.ok (), m) ∧ m.get_output = .ok y ∧
      y.get_item .debug (ix 0 0 0) = .ok r := by
  have hne : n.get_layers ≠ [] := by rw [hls]; simp
  have hok := built_netOk hn
  have g0 : n.layers[0]? = some (.fc (exHidden a c e)) := by
    change n.get_layers[0]? = _; rw [hls]; rfl
  have g1 : n.layers[1]? = some (.fc exTotal) := by
    change n.get_layers[1]? = _; rw [hls]; rfl
  have hxs : (single ⟨0x3f800000⟩ : Tensor F32).shape = n.get_input_shape := by
    rw [hok.chain.first (.fc (exHidden a c e)) (by
      change n.get_layers.head? = _; rw [hls]; rfl)]
    rfl
  obtain ⟨m, h1, h2, h3⟩ := infer_ok (b := .debug) hok hne (single_wf _) hxs
  obtain ⟨m', k1, _, _, k4⟩ := C36_infer .debug n hn hne _ (single_wf _) hxs
  obtain rfl : m' = m := by rw [h1] at k1; injection k1 with k1; exact (Prod.mk.inj k1).2.symm
  obtain ⟨s, s1, e1, e2, e3, _⟩ := h3 0 _ g0
  obtain ⟨t1, s2, f1, f2, f3, _⟩ := h3 1 _ g1
  rw [h2] at e1
  obtain rfl : single ⟨0x3f800000⟩ = s := by injection e1
  obtain rfl : s1 = t1 := by rw [e2] at f1; injection f1
  have v : ∀ o, o < 3 → val s1 o 0 0 = layerAt (.fc (exHidden a c e)) (single ⟨0x3f800000⟩) o 0 0 := by
    intro o ho
    have hin : (exHidden a c e).get_output_shape.Inside o 0 0 := ⟨ho, Nat.zero_lt_one, Nat.zero_lt_one⟩
    have := e3.2.2 o 0 0 hin
    rw [get_item_ok e3.1 (by rw [e3.2.1]; exact hin)] at this
    injection this
  refine ⟨m', s2, h1, ?_, ?_⟩
  · rw [k4]
    unfold Network.get_intermediate_state
    rw [hls]
    rw [show [AnyLayer.fc (exHidden a c e), AnyLayer.fc exTotal].length = 1 + 1 from rfl, f2]
  · rw [f3.2.2 0 0 0 ⟨Nat.zero_lt_one, Nat.zero_lt_one, Nat.zero_lt_one⟩]
    change Except.ok (F32.fmax (F32.add (F32.add (F32.add (F32.add ⟨0⟩
      (F32.mul ⟨0x3f800000⟩ (val s1 0 0 0))) (F32.mul ⟨0x3f800000⟩ (val s1 1 0 0)))
      (F32.mul ⟨0x3f800000⟩ (val s1 2 0 0))) ⟨0⟩) ⟨0⟩) = _
    have q : ∀ u ∈ [a, c, e],
        F32.fmax (F32.add (F32.add ⟨0⟩ (F32.mul u ⟨0x3f800000⟩)) ⟨0⟩) ⟨0⟩ = u := by
      intro u hu
      rw [(hp u hu).2, fmax_positive (hp u hu).1]
    have v0 : val s1 0 0 0 = a := (v 0 (by decide)).trans (q a (by simp))
    have v1 : val s1 1 0 0 = c := (v 1 (by decide)).trans (q c (by simp))
    have v2 : val s1 2 0 0 = e := (v 2 (by decide)).trans (q e (by simp))
    rw [v0, v1, v2, hr.2, fmax_positive hr.1]

/-- C86: the order of summation shows in `f32`.  With the weights 2^24, 1, 1 of the hidden units the sum comes out
as 2^24, with 1, 1, 2^24 as 2^24 + 2. -/
theorem C86_differs : ∃ n n' m m' y y', Built .debug n ∧ Built .debug n' ∧
    n.get_layers = [.fc (exHidden ⟨0x4b800000⟩ ⟨0x3f800000⟩ ⟨0x3f800000⟩), .fc exTotal] ∧
    n'.get_layers = [.fc (exHidden ⟨0x3f800000⟩ ⟨0x3f800000⟩ ⟨0x4b800000⟩), .fc exTotal] ∧
    n.infer .debug (single ⟨0x3f800000⟩) = .ok (.ok (), m) ∧ m.get_output = .ok y ∧
    y.get_item .debug (ix 0 0 0) = .ok ⟨0x4b800000⟩ ∧
    n'.infer .debug (single ⟨0x3f800000⟩) = .ok (.ok (), m') ∧ m'.get_output = .ok y' ∧
    y'.get_item .debug (ix 0 0 0) = .ok ⟨0x4b800001⟩ := by
  have mk : ∀ a c e : F32, ∃ n : Net F32, Built .debug n ∧
      n.get_layers = [.fc (exHidden a c e), .fc exTotal] := fun a c e =>
    ⟨_, .add_layer _ (.fc exTotal) (.ok ()) _ (.add_layer (Network.new .Inference)
      (.fc (exHidden a c e)) (.ok ()) _ (.new _) (exHidden_ok _ _ _) rfl) exTotal_ok rfl, rfl⟩
  obtain ⟨n, h1, h2⟩ := mk ⟨0x4b800000⟩ ⟨0x3f800000⟩ ⟨0x3f800000⟩
  obtain ⟨n', g1, g2⟩ := mk ⟨0x3f800000⟩ ⟨0x3f800000⟩ ⟨0x4b800000⟩
  obtain ⟨m, y, a1, a2, a3⟩ := exRun h1 h2 (r := ⟨0x4b800000⟩) (by decide +kernel) (by decide +kernel)
  obtain ⟨m', y', c1, c2, c3⟩ := exRun g1 g2 (r := ⟨0x4b800001⟩) (by decide +kernel) (by decide +kernel)
  exact ⟨n, n', m, m', y, y', h1, g1, h2, g2, a1, a2, a3, c1, c2, c3⟩

/-- The assumptions of C86 can be met: the two networks of `C86_differs`, whose units are numbered in opposite
order. -/
example : ∃ n n' : Net F32, Built .debug n ∧ Built .debug n' ∧ ∃ l1 l1' l2 l2' σ,
    n.get_layers = [] ++ .fc l1 :: .fc l2 :: [] ∧ n'.get_layers = [] ++ .fc l1' :: .fc l2' :: [] ∧
    Renumbers l1.weights.shape.di.toNat σ ∧ RowsBy σ l1 l1' ∧ ColumnsBy σ l2 l2' ∧
    ∃ M1 e1 M2 e2, Accuracy n.get_layers 1 0 M1 e1 ∧ Accuracy n'.get_layers 1 0 M2 e2 := by
  obtain ⟨n, n', _, _, _, _, h1, h2, h3, h4, _⟩ := C86_differs
  have one : (⟨0x3f800000⟩ : F32).toReal = 1 := by
    unfold toReal
    rw [show (⟨0x3f800000⟩ : F32).toInt = 2 ^ 149 by decide]
    norm_num
  have big : (⟨0x4b800000⟩ : F32).toReal = 2 ^ 24 := by
    unfold toReal
    rw [show (⟨0x4b800000⟩ : F32).toInt = 2 ^ 173 by decide]
    norm_num
  have zero : (⟨0⟩ : F32).toReal = 0 := by
    unfold toReal
    rw [show (⟨0⟩ : F32).toInt = 0 by decide]
    norm_num
  have acc : ∀ a c e : F32, (∀ v ∈ [a, c, e], v.isFinite = true ∧ |v.toReal| ≤ 2 ^ 24) →
      ∃ M' e', Accuracy [.fc (exHidden a c e), .fc exTotal] 1 0 M' e' := by
    intro a c e hv
    refine ⟨_, _, .fc _ _ (2 ^ 24) 0 1 0 _ _ ?_ ?_ (by norm_num) le_rfl
      (by change 1 < 2 ^ 22; decide) (by norm_num)
      (.fc _ _ 3 0 _ _ _ _ ?_ ?_ (by norm_num) le_rfl (by decide) ?_ (.nil _ _))⟩
    · intro o i ho hi
      change o < 3 at ho
      obtain rfl : i = 0 := Nat.lt_one_iff.mp hi
      obtain rfl | rfl | rfl : o = 0 ∨ o = 1 ∨ o = 2 := by omega
      · exact (hv a (by simp)).1
      · exact (hv c (by simp)).1
      · exact (hv e (by simp)).1
    · intro o ho
      change o < 3 at ho
      have hb : ∀ w : F32, w = ⟨0⟩ → w.isFinite = true ∧ |w.toReal| ≤ 0 := by
        rintro w rfl
        rw [zero]
        exact ⟨by decide, by norm_num⟩
      have hs : ∀ w : F32, |w.toReal| ≤ 2 ^ 24 → ([|w.toReal|] : List ℝ).sum ≤ 2 ^ 24 := by
        intro w hw
        simpa using hw
      obtain rfl | rfl | rfl : o = 0 ∨ o = 1 ∨ o = 2 := by omega
      · exact ⟨(hb _ rfl).1, hs a (hv a (by simp)).2, (hb _ rfl).2⟩
      · exact ⟨(hb _ rfl).1, hs c (hv c (by simp)).2, (hb _ rfl).2⟩
      · exact ⟨(hb _ rfl).1, hs e (hv e (by simp)).2, (hb _ rfl).2⟩
    · intro o i ho hi
      change i < 3 at hi
      obtain rfl : o = 0 := Nat.lt_one_iff.mp ho
      obtain rfl | rfl | rfl : i = 0 ∨ i = 1 ∨ i = 2 := by omega
      all_goals exact (by decide : (⟨0x3f800000⟩ : F32).isFinite = true)
    · intro o ho
      obtain rfl : o = 0 := Nat.lt_one_iff.mp ho
      refine ⟨(by decide : (⟨0⟩ : F32).isFinite = true), ?_, ?_⟩
      · change ([|(⟨0x3f800000⟩ : F32).toReal|, |(⟨0x3f800000⟩ : F32).toReal|,
          |(⟨0x3f800000⟩ : F32).toReal|] : List ℝ).sum ≤ 3
        rw [one]
        norm_num
      · change |(⟨0⟩ : F32).toReal| ≤ 0
        rw [zero]
        norm_num
    · change 3 * (2 ^ 24 * 1 + 0 + (2 ^ 24 * 0 + (((1 : ℕ) + 2 : ℝ) / 2 ^ 23 *
        (2 ^ 24 * (1 + 0) + 0) + ((1 : ℕ) + 1) / 2 ^ 149))) + 0 ≤ (2 : ℝ) ^ 125
      norm_num
  refine ⟨n, n', h1, h2, _, _, _, _, fun o => 2 - o, h3, h4, ⟨fun o ho => ?_, fun o p ho hp h => ?_⟩,
    ⟨rfl, rfl, fun o ho => ?_, fun o i ho hi => ?_⟩, ⟨rfl, rfl, rfl, fun o i ho hi => ?_⟩, ?_⟩
  · change o < 3 at ho
    change 2 - o < 3
    omega
  · change o < 3 at ho
    change p < 3 at hp
    change 2 - o = 2 - p at h
    omega
  · change o < 3 at ho
    obtain rfl | rfl | rfl : o = 0 ∨ o = 1 ∨ o = 2 := by omega
    all_goals rfl
  · change o < 3 at ho
    obtain rfl : i = 0 := Nat.lt_one_iff.mp hi
    obtain rfl | rfl | rfl : o = 0 ∨ o = 1 ∨ o = 2 := by omega
    all_goals rfl
  · change i < 3 at hi
    obtain rfl : o = 0 := Nat.lt_one_iff.mp ho
    obtain rfl | rfl | rfl : i = 0 ∨ i = 1 ∨ i = 2 := by omega
    all_goals rfl
  · rw [h3, h4]
    obtain ⟨M1, e1, q⟩ := acc ⟨0x4b800000⟩ ⟨0x3f800000⟩ ⟨0x3f800000⟩ (by
      intro v hv
      simp only [List.mem_cons, List.not_mem_nil, or_false, or_self] at hv
      rcases hv with rfl | rfl
      · rw [big]; exact ⟨by decide, by norm_num⟩
      · rw [one]; exact ⟨by decide, by norm_num⟩)
    obtain ⟨M2, e2, r⟩ := acc ⟨0x3f800000⟩ ⟨0x3f800000⟩ ⟨0x4b800000⟩ (by
      intro v hv
      simp only [List.mem_cons, List.not_mem_nil, or_false] at hv
      rcases hv with rfl | rfl | rfl
      · rw [one]; exact ⟨by decide, by norm_num⟩
      · rw [one]; exact ⟨by decide, by norm_num⟩
      · rw [big]; exact ⟨by decide, by norm_num⟩)
    exact ⟨M1, e1, M2, e2, q, r⟩

end Rusty
