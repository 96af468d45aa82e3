import Verif.Lemmas.Merge
import Verif.Props.Pruning
import Verif.Props.Renumber

/-! # C119: copies of a unit can be merged into one, and a unit can be split into copies -/

namespace Rusty

open F32Ops Spec F32

variable [Libm]

/-- C119, exact arithmetic: a network and one that has several copies of some hidden units, which share the weights
to the next layer, compute the same. -/
theorem C119_exact (b : Build) (n n' : Net F32) (hn : Built b n) (hn' : Built b n') (pre post : List (AnyLayer F32))
    (l1 l1' l2 l2' : FullyConnectedLayer F32) (hls : n.get_layers = pre ++ .fc l1 :: .fc l2 :: post)
    (hls' : n'.get_layers = pre ++ .fc l1' :: .fc l2' :: post) (f : Nat → Nat) (h : Copies f l1 l2 l1' l2')
    (x : Tensor F32) (hx : x.WF) (hxs : x.shape = n.get_input_shape) (ξ : Nat → Nat → Nat → ℝ) (i j k : Nat)
    (hin : n.get_output_shape.Inside i j k) :
    exactNet n'.get_layers ξ i j k = exactNet n.get_layers ξ i j k := by
  have c1 : n'.get_layers[pre.length]? = some (.fc l1') := by rw [hls']; simp
  have c2 : n'.get_layers[pre.length + 1]? = some (.fc l2') := by
    rw [hls', List.getElem?_append_right (by omega)]; simp
  have ok1' : l1'.Ok := (built_netOk hn').layers (.fc l1') (List.mem_of_getElem? c1)
  have d2' : l2'.weights.shape.dj = l1'.weights.shape.di := by
    have := congrArg TensorShape.di ((built_netOk hn').chain.links _ _ _ c1 c2)
    change l1'.bias.shape.di = l2'.weights.shape.dj at this
    rw [← this, ok1'.rows]
  rw [hls']
  exact exact_swap b n hn pre post l1 l1' l2 l2' hls
    (fun hs y _ ho j k => exact_merged h hs d2' y ho j k) x hx hxs ξ i j k hin

/-- C119, `f32`: the predictions of the two networks differ by at most the sum of their rounding error bounds. -/
theorem C119_infer (b : Build) (n n' : Net F32) (hn : Built b n) (hn' : Built b n')
    (pre post : List (AnyLayer F32)) (l1 l1' l2 l2' : FullyConnectedLayer F32)
    (hls : n.get_layers = pre ++ .fc l1 :: .fc l2 :: post)
    (hls' : n'.get_layers = pre ++ .fc l1' :: .fc l2' :: post) (f : Nat → Nat) (h : Copies f l1 l2 l1' l2')
    (x : Tensor F32) (hx : x.WF) (hxs : x.shape = n.get_input_shape) (M M1 e1 M2 e2 : ℝ) (hM : 0 ≤ M)
    (hfin : ∀ i j k, x.shape.Inside i j k → (val x i j k).isFinite = true ∧ |(val x i j k).toReal| ≤ M)
    (hA : Accuracy n.get_layers M 0 M1 e1) (hA' : Accuracy n'.get_layers M 0 M2 e2) :
    ∃ m y m' y', n.infer b x = .ok (.ok (), m) ∧ m.get_output = .ok y ∧
      n'.infer b x = .ok (.ok (), m') ∧ m'.get_output = .ok y' ∧ y'.shape = y.shape ∧
      ∀ i j k, n.get_output_shape.Inside i j k → ∃ v v', y.get_item b (ix i j k) = .ok v ∧
        y'.get_item b (ix i j k) = .ok v' ∧ v.isFinite = true ∧ v'.isFinite = true ∧
        |v.toReal - v'.toReal| ≤ e1 + e2 := by
  have hne : n.get_layers ≠ [] := by rw [hls]; simp
  have hne' : n'.get_layers ≠ [] := by rw [hls']; simp
  have hok := built_netOk hn
  have hok' := built_netOk hn'
  have hio : n'.get_input_shape = n.get_input_shape ∧ n'.get_output_shape = n.get_output_shape := by
    have ok2 : l2.Ok := hok.layers (.fc l2) (by
      change _ ∈ n.get_layers
      rw [hls]; simp)
    have ok2' : l2'.Ok := hok'.layers (.fc l2') (by
      change _ ∈ n'.get_layers
      rw [hls']; simp)
    have first := hok.chain.first
    have first' := hok'.chain.first
    have last := hok.chain.last
    have last' := hok'.chain.last
    change ∀ l, n.get_layers.head? = some l → _ at first
    change ∀ l, n'.get_layers.head? = some l → _ at first'
    change ∀ l, n.get_layers.getLast? = some l → _ at last
    change ∀ l, n'.get_layers.getLast? = some l → _ at last'
    rw [hls] at first last
    rw [hls'] at first' last'
    constructor
    · cases pre with
      | nil =>
        rw [first (.fc l1) rfl, first' (.fc l1') rfl]
        change (⟨l1'.weights.shape.dj, 1, 1⟩ : TensorShape) = ⟨l1.weights.shape.dj, 1, 1⟩
        rw [h.inputs]
      | cons l pre => rw [first l rfl, first' l rfl]
    · rcases List.eq_nil_or_concat post with rfl | ⟨post, l, rfl⟩
      · rw [last (.fc l2) (by simp), last' (.fc l2') (by simp)]
        change l2'.bias.shape = l2.bias.shape
        rw [ok2.rows, ok2'.rows, h.outputs]
      · rw [last l (by simp [List.getLast?_cons, List.getLast?_append]),
          last' l (by simp [List.getLast?_cons, List.getLast?_append])]
  have hnear : Near x (fun i j k => (val x i j k).toReal) M 0 := fun i j k h =>
    ⟨(hfin i j k h).1, by simp, (hfin i j k h).2⟩
  obtain ⟨m, y, a1, a2, a3, a4⟩ := C74_infer b n hn hne x hx hxs _ M 0 M1 e1 hM le_rfl hnear hA
  obtain ⟨m', y', c1, c2, c3, c4⟩ := C74_infer b n' hn' hne' x hx (hxs.trans hio.1.symm) _ M 0 M2 e2 hM
    le_rfl hnear hA'
  refine ⟨m, y, m', y', a1, a2, c1, c2, by rw [c3, a3, hio.2], fun i j k hin => ?_⟩
  obtain ⟨v, p1, p2, p3, _⟩ := a4 i j k (a3 ▸ hin)
  obtain ⟨v', q1, q2, q3, _⟩ := c4 i j k (by rw [c3, hio.2]; exact hin)
  refine ⟨v, v', p1, q1, p2, q2, ?_⟩
  rw [C119_exact b n n' hn hn' pre post l1 l1' l2 l2' hls hls' f h x hx hxs _ i j k hin] at q3
  rw [abs_le] at p3 q3 ⊢
  constructor <;> linarith

/-- The bounds of C74 hold for a small network and inputs of at most 1. -/
theorem exUpDown_accuracy : ∃ M1 e1 : ℝ, Accuracy [.fc (exUp ⟨0x3f800000⟩ ⟨0x3f800000⟩),
    .fc (exDown ⟨0x40000000⟩ ⟨0x3f800000⟩)] 1 0 M1 e1 := by
  have one : (⟨0x3f800000⟩ : F32).toReal = 1 := by
    unfold toReal
    rw [show (⟨0x3f800000⟩ : F32).toInt = 2 ^ 149 by decide]
    norm_num
  have two : (⟨0x40000000⟩ : F32).toReal = 2 := by
    unfold toReal
    rw [show (⟨0x40000000⟩ : F32).toInt = 2 ^ 150 by decide]
    norm_num
  have zero : (⟨0⟩ : F32).toReal = 0 := by
    unfold toReal
    rw [show (⟨0⟩ : F32).toInt = 0 by decide]
    norm_num
  have fin1 : (⟨0x3f800000⟩ : F32).isFinite = true := by decide
  have fin2 : (⟨0x40000000⟩ : F32).isFinite = true := by decide
  have fin0 : (⟨0⟩ : F32).isFinite = true := by decide
  refine ⟨_, _, .fc _ _ 1 0 1 0 _ _ ?_ ?_ (by norm_num) le_rfl
    (by change 1 < 2 ^ 22; decide) (by norm_num)
    (.fc _ _ 3 0 _ _ _ _ ?_ ?_ (by norm_num) le_rfl (by change 2 < 2 ^ 22; decide) ?_ (.nil _ _))⟩
  · intro o i (ho : o < 2) (hi : i < 1)
    obtain rfl : i = 0 := by omega
    obtain rfl | rfl : o = 0 ∨ o = 1 := by omega
    all_goals exact fin1
  · intro o (ho : o < 2)
    have hs : ([|(⟨0x3f800000⟩ : F32).toReal|] : List ℝ).sum ≤ 1 := by rw [one]; norm_num
    have hb : |(⟨0⟩ : F32).toReal| ≤ 0 := by rw [zero]; norm_num
    obtain rfl | rfl : o = 0 ∨ o = 1 := by omega
    all_goals exact ⟨fin0, hs, hb⟩
  · intro o i (ho : o < 1) (hi : i < 2)
    obtain rfl : o = 0 := by omega
    obtain rfl | rfl : i = 0 ∨ i = 1 := by omega
    · exact fin2
    · exact fin1
  · intro o (ho : o < 1)
    have hs : ([|(⟨0x40000000⟩ : F32).toReal|, |(⟨0x3f800000⟩ : F32).toReal|] : List ℝ).sum ≤ 3 := by
      rw [one, two]; norm_num
    have hb : |(⟨0⟩ : F32).toReal| ≤ 0 := by rw [zero]; norm_num
    obtain rfl : o = 0 := by omega
    exact ⟨fin0, hs, hb⟩
  · change 3 * (1 * 1 + 0 + (1 * 0 + (((1 : ℕ) + 2 : ℝ) / 2 ^ 23 * (1 * (1 + 0) + 0) +
      ((1 : ℕ) + 1) / 2 ^ 149))) + 0 ≤ (2 : ℝ) ^ 125
    norm_num

/-- The assumptions of C119 can be met: the first of two units is replaced by two copies. -/
example : ∃ (n n' : Net F32) (l1 l2 l1' l2' : FullyConnectedLayer F32) (f : Nat → Nat) (M1 e1 M2 e2 : ℝ),
    Built .debug n ∧ Built .debug n' ∧ n.get_layers = [] ++ .fc l1 :: .fc l2 :: [] ∧
    n'.get_layers = [] ++ .fc l1' :: .fc l2' :: [] ∧ Copies f l1 l2 l1' l2' ∧
    l1.weights.shape.di = 2 ∧ l1'.weights.shape.di = 3 ∧
    Accuracy n.get_layers 1 0 M1 e1 ∧ Accuracy n'.get_layers 1 0 M2 e2 := by
  have one : (⟨0x3f800000⟩ : F32).toReal = 1 := by
    unfold toReal
    rw [show (⟨0x3f800000⟩ : F32).toInt = 2 ^ 149 by decide]
    norm_num
  have two : (⟨0x40000000⟩ : F32).toReal = 2 := by
    unfold toReal
    rw [show (⟨0x40000000⟩ : F32).toInt = 2 ^ 150 by decide]
    norm_num
  have zero : (⟨0⟩ : F32).toReal = 0 := by
    unfold toReal
    rw [show (⟨0⟩ : F32).toInt = 0 by decide]
    norm_num
  have fin1 : (⟨0x3f800000⟩ : F32).isFinite = true := by decide
  have fin0 : (⟨0⟩ : F32).isFinite = true := by decide
  obtain ⟨n, h1, h2, _⟩ := exUpDown_built .debug ⟨0x3f800000⟩ ⟨0x3f800000⟩ ⟨0x40000000⟩ ⟨0x3f800000⟩
  obtain ⟨n', g1, g2⟩ : ∃ n : Net F32, Built .debug n ∧ n.get_layers =
      [.fc (exHidden ⟨0x3f800000⟩ ⟨0x3f800000⟩ ⟨0x3f800000⟩), .fc exTotal] :=
    ⟨_, .add_layer _ (.fc exTotal) (.ok ()) _ (.add_layer (Network.new .Inference)
      (.fc (exHidden _ _ _)) (.ok ()) _ (.new _) (exHidden_ok _ _ _) rfl) exTotal_ok rfl, rfl⟩
  have hA' : ∃ M1 e1, Accuracy [.fc (exHidden ⟨0x3f800000⟩ ⟨0x3f800000⟩ ⟨0x3f800000⟩), .fc exTotal]
      1 0 M1 e1 := by
    refine ⟨_, _, .fc _ _ 1 0 1 0 _ _ ?_ ?_ (by norm_num) le_rfl
      (by change 1 < 2 ^ 22; decide) (by norm_num)
      (.fc _ _ 3 0 _ _ _ _ ?_ ?_ (by norm_num) le_rfl (by decide) ?_ (.nil _ _))⟩
    · intro o i (ho : o < 3) (hi : i < 1)
      obtain rfl : i = 0 := by omega
      obtain rfl | rfl | rfl : o = 0 ∨ o = 1 ∨ o = 2 := by omega
      all_goals exact fin1
    · intro o (ho : o < 3)
      have hs : ([|(⟨0x3f800000⟩ : F32).toReal|] : List ℝ).sum ≤ 1 := by rw [one]; norm_num
      have hb : |(⟨0⟩ : F32).toReal| ≤ 0 := by rw [zero]; norm_num
      obtain rfl | rfl | rfl : o = 0 ∨ o = 1 ∨ o = 2 := by omega
      all_goals exact ⟨fin0, hs, hb⟩
    · intro o i (ho : o < 1) (hi : i < 3)
      obtain rfl : o = 0 := by omega
      obtain rfl | rfl | rfl : i = 0 ∨ i = 1 ∨ i = 2 := by omega
      all_goals exact fin1
    · intro o (ho : o < 1)
      have hs : ([|(⟨0x3f800000⟩ : F32).toReal|, |(⟨0x3f800000⟩ : F32).toReal|,
          |(⟨0x3f800000⟩ : F32).toReal|] : List ℝ).sum ≤ 3 := by rw [one]; norm_num
      have hb : |(⟨0⟩ : F32).toReal| ≤ 0 := by rw [zero]; norm_num
      obtain rfl : o = 0 := by omega
      exact ⟨fin0, hs, hb⟩
    · change 3 * (1 * 1 + 0 + (1 * 0 + (((1 : ℕ) + 2 : ℝ) / 2 ^ 23 * (1 * (1 + 0) + 0) +
        ((1 : ℕ) + 1) / 2 ^ 149))) + 0 ≤ (2 : ℝ) ^ 125
      norm_num
  obtain ⟨M1, e1, hA⟩ := exUpDown_accuracy
  obtain ⟨M2, e2, hA'⟩ := hA'
  refine ⟨n, n', _, _, _, _, fun c => if c = 2 then 1 else 0, M1, e1, M2, e2, h1, g1, h2, g2, ?_, rfl, rfl,
    by rw [h2]; exact hA, by rw [g2]; exact hA'⟩
  refine ⟨fun c (hc : c < 3) => ?_, rfl, rfl, fun c (hc : c < 3) => ?_, fun c i (hc : c < 3) (hi : i < 1) => ?_,
    fun o (ho : o < 1) => ?_, fun o u (ho : o < 1) (hu : u < 2) => ?_⟩
  · change (if c = 2 then 1 else 0) < 2
    split <;> omega
  · obtain rfl | rfl | rfl : c = 0 ∨ c = 1 ∨ c = 2 := by omega
    all_goals rfl
  · obtain rfl : i = 0 := by omega
    obtain rfl | rfl | rfl : c = 0 ∨ c = 1 ∨ c = 2 := by omega
    all_goals rfl
  · obtain rfl : o = 0 := by omega
    rfl
  · obtain rfl : o = 0 := by omega
    obtain rfl | rfl : u = 0 ∨ u = 1 := by omega
    · change ∑ c ∈ (Finset.range 3).filter fun c => (if c = 2 then 1 else 0) = 0,
        (val exTotal.weights 0 c 0).toReal = (⟨0x40000000⟩ : F32).toReal
      rw [show (Finset.range 3).filter (fun c => (if c = 2 then 1 else 0) = 0) = {0, 1} by decide,
        Finset.sum_pair (by decide), two]
      change (⟨0x3f800000⟩ : F32).toReal + (⟨0x3f800000⟩ : F32).toReal = 2
      rw [one]
      norm_num
    · change ∑ c ∈ (Finset.range 3).filter fun c => (if c = 2 then 1 else 0) = 1,
        (val exTotal.weights 0 c 0).toReal = (⟨0x3f800000⟩ : F32).toReal
      rw [show (Finset.range 3).filter (fun c => (if c = 2 then 1 else 0) = 1) = {2} by decide,
        Finset.sum_singleton]
      rfl

end Rusty
