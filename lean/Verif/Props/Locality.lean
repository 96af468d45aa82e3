import Verif.Lemmas.Locality
import Verif.Props.Network
import Verif.Props.ConvLayer

/-! # C79: convolution and max pooling only look at their window, and commute with shifts -/

namespace Rusty

open F32Ops Spec

variable {F : Type} [F32Ops F]

/-- one run of a network, as a sequence of states -/
theorem run_all (b : Build) {n : Net F} (hn : Built b n) (hne : n.get_layers ≠ []) {x : Tensor F}
    (hx : x.WF) (hxs : x.shape = n.get_input_shape) : ∃ (n' : Net F) (t : Nat → Tensor F),
    n.infer b x = .ok (.ok (), n') ∧ t 0 = x ∧
    (∀ m, m ≤ n.get_layers.length → n'.get_intermediate_state m = .ok (t m) ∧ (t m).WF) ∧
    ∀ i l, n.get_layers[i]? = some l → (t i).WF ∧ (t i).shape = l.get_input_shape ∧
      applies b l (t i) (t (i + 1)) := by
  have hok := built_netOk hn
  obtain ⟨n', h1, h2, h3⟩ := infer_ok (b := b) hok hne hx hxs
  refine ⟨n', fun i => (n'.intermediate_states[i]?).getD x, h1, ?_, ?_, ?_⟩
  · simp only [h2, Option.getD_some]
  · intro m hm
    unfold Network.get_intermediate_state
    cases m with
    | zero => simp only [h2, Option.getD_some]; exact ⟨trivial, hx⟩
    | succ m =>
      obtain ⟨s, s', _, e2, e3, _⟩ := h3 m n.layers[m] (List.getElem?_eq_getElem hm)
      simp only [e2, Option.getD_some]
      exact ⟨trivial, e3.1⟩
  · intro i l hi
    obtain ⟨s, s', e1, e2, e3, _, _, _, e4, e5, _⟩ := h3 i l hi
    simp only [e1, e2, Option.getD_some]
    exact ⟨e4, e5, e3⟩

/-- C79: when the first `m` layers of a network are convolutions and max pooling, the entries of its state
`m` at position `(i,j)` depend on nothing but a patch of the input of size `field`, at `jump` times
`(i,j)`; and equal patches give equal entries, also at different positions. -/
theorem C79_local (b : Build) (n : Net F) (hn : Built b n) (hne : n.get_layers ≠ []) (m : Nat)
    (hm : m ≤ n.get_layers.length) (hs : ∀ l ∈ n.get_layers.take m, Sliding l) (x x' : Tensor F)
    (hx : x.WF) (hx' : x'.WF) (hxs : x.shape = n.get_input_shape) (hxs' : x'.shape = n.get_input_shape)
    (i j i' j' : Nat)
    (hp : SamePatch x x' (i * jump (n.get_layers.take m)) (j * jump (n.get_layers.take m))
      (i' * jump (n.get_layers.take m)) (j' * jump (n.get_layers.take m))
      (field (n.get_layers.take m)).1 (field (n.get_layers.take m)).2) :
    ∃ n1 y n2 y', n.infer b x = .ok (.ok (), n1) ∧ n1.get_intermediate_state m = .ok y ∧
      n.infer b x' = .ok (.ok (), n2) ∧ n2.get_intermediate_state m = .ok y' ∧ y.shape = y'.shape ∧
      ∀ k, y.shape.Inside i j k → y.shape.Inside i' j' k →
        ∃ v, y.get_item b (ix i j k) = .ok v ∧ y'.get_item b (ix i' j' k) = .ok v := by
  obtain ⟨n1, t, r1, r2, r3, r4⟩ := run_all b hn hne hx hxs
  obtain ⟨n2, t', s1, s2, s3, s4⟩ := run_all b hn hne hx' hxs'
  have hlen : (n.get_layers.take m).length = m := by rw [List.length_take]; omega
  have hat : ∀ (i : Nat) l, (n.get_layers.take m)[i]? = some l → n.get_layers[i]? = some l := by
    intro i l h
    rw [List.getElem?_take] at h
    split at h
    · exact h
    · exact absurd h (by simp)
  have hsh : (t m).shape = (t' m).shape := by
    cases m with
    | zero => rw [r2, s2, hxs, hxs']
    | succ m =>
      have hl := List.getElem?_eq_getElem (show m < n.get_layers.length from hm)
      rw [(r4 m _ hl).2.2.2.1, (s4 m _ hl).2.2.2.1]
  have := layers_local b (n.get_layers.take m)
    (fun l hl => (built_netOk hn).layers l (List.mem_of_mem_take hl)) hs t t' i j i' j'
    (by rw [r2, s2, hxs, hxs'])
    (fun u v k hu hv hin _ => by
      rw [r2, s2]
      rw [r2] at hin
      exact hp u v k hu hv hin.2.2)
    (fun i l h => r4 i l (hat i l h)) (fun i l h => s4 i l (hat i l h))
  rw [hlen] at this
  refine ⟨n1, _, n2, _, r1, (r3 m hm).1, s1, (s3 m hm).1, hsh, fun k hin hin' => ⟨_, get_item_ok (r3 m hm).2 hin, ?_⟩⟩
  rw [this k hin hin']
  exact get_item_ok (s3 m hm).2 (by rw [← hsh]; exact hin')

/-- C79: with windows that are not empty, those patches, one every `jump`, tile the input exactly, and
there are as many of them as the state has rows and columns. -/
theorem C79_tiles (b : Build) (n : Net F) (hn : Built b n) (m : Nat) (hm0 : 0 < m)
    (hm : m ≤ n.get_layers.length) (hs : ∀ l ∈ n.get_layers.take m, Sliding l)
    (hw : ∀ l ∈ n.get_layers.take m, 1 ≤ (windowSize l).1 ∧ 1 ≤ (windowSize l).2)
    (x : Tensor F) (hx : x.WF) (hxs : x.shape = n.get_input_shape) :
    ∃ n1 y, n.infer b x = .ok (.ok (), n1) ∧ n1.get_intermediate_state m = .ok y ∧
      tiles n.get_input_shape.di.toNat (field (n.get_layers.take m)).1 (jump (n.get_layers.take m))
        y.shape.di.toNat ∧
      tiles n.get_input_shape.dj.toNat (field (n.get_layers.take m)).2 (jump (n.get_layers.take m))
        y.shape.dj.toNat := by
  have hne : n.get_layers ≠ [] := by intro e; rw [e] at hm; simp at hm; omega
  obtain ⟨n1, t, r1, r2, r3, r4⟩ := run_all b hn hne hx hxs
  have hlen : (n.get_layers.take m).length = m := by rw [List.length_take]; omega
  have hat : ∀ (i : Nat) l, (n.get_layers.take m)[i]? = some l → n.get_layers[i]? = some l := by
    intro i l h
    rw [List.getElem?_take] at h
    split at h
    · exact h
    · exact absurd h (by simp)
  have hok : ∀ l ∈ n.get_layers.take m, l.Ok :=
    fun l hl => (built_netOk hn).layers l (List.mem_of_mem_take hl)
  refine ⟨n1, _, r1, (r3 m hm).1, ?_⟩
  cases hL : n.get_layers.take m with
  | nil => rw [hL] at hlen; simp at hlen; omega
  | cons l ls =>
    rw [hL] at hlen hs hw hok hat
    have := layers_tiles l ls (fun i => (t i).shape) hok hs hw
      (fun i l h => ⟨(r4 i l (hat i l h)).2.1, (r4 i l (hat i l h)).2.2.2.1⟩)
    rw [hlen] at this
    simp only [r2, hxs] at this
    exact ⟨this.1.1, this.2.1⟩

/-- C79: shifting the input by `p` times `jump` rows and `q` times `jump` columns shifts the state by `p`
rows and `q` columns. -/
theorem C79_shift (b : Build) (n : Net F) (hn : Built b n) (m : Nat) (hm0 : 0 < m)
    (hm : m ≤ n.get_layers.length) (hs : ∀ l ∈ n.get_layers.take m, Sliding l)
    (hw : ∀ l ∈ n.get_layers.take m, 1 ≤ (windowSize l).1 ∧ 1 ≤ (windowSize l).2)
    (x x' : Tensor F) (hx : x.WF) (hx' : x'.WF) (hxs : x.shape = n.get_input_shape)
    (hxs' : x'.shape = n.get_input_shape) (p q : Nat)
    (hp : ∀ r c k,
      n.get_input_shape.Inside (r + p * jump (n.get_layers.take m)) (c + q * jump (n.get_layers.take m)) k →
      val x' r c k = val x (r + p * jump (n.get_layers.take m)) (c + q * jump (n.get_layers.take m)) k) :
    ∃ n1 y n2 y', n.infer b x = .ok (.ok (), n1) ∧ n1.get_intermediate_state m = .ok y ∧
      n.infer b x' = .ok (.ok (), n2) ∧ n2.get_intermediate_state m = .ok y' ∧ y.shape = y'.shape ∧
      ∀ i j k, y.shape.Inside (i + p) (j + q) k →
        ∃ v, y'.get_item b (ix i j k) = .ok v ∧ y.get_item b (ix (i + p) (j + q) k) = .ok v := by
  have hne : n.get_layers ≠ [] := by intro e; rw [e] at hm; simp at hm; omega
  obtain ⟨n1, t, r1, _, r3, r4⟩ := run_all b hn hne hx hxs
  obtain ⟨n2, t', s1, _, s3, s4⟩ := run_all b hn hne hx' hxs'
  obtain ⟨n1', y, e1, e2, ti, tj⟩ := C79_tiles b n hn m hm0 hm hs hw x hx hxs
  obtain rfl : n1' = n1 := by rw [r1] at e1; injection e1 with e1; exact (Prod.mk.inj e1).2.symm
  obtain rfl : y = t m := by rw [(r3 m hm).1] at e2; injection e2 with e2; exact e2.symm
  have main : ∀ i j, SamePatch x' x (i * jump (n.get_layers.take m)) (j * jump (n.get_layers.take m))
      ((i + p) * jump (n.get_layers.take m)) ((j + q) * jump (n.get_layers.take m))
      (field (n.get_layers.take m)).1 (field (n.get_layers.take m)).2 →
      (t m).shape = (t' m).shape ∧ ∀ k, (t m).shape.Inside i j k → (t m).shape.Inside (i + p) (j + q) k →
        ∃ v, (t' m).get_item b (ix i j k) = .ok v ∧ (t m).get_item b (ix (i + p) (j + q) k) = .ok v := by
    intro i j h
    obtain ⟨m2, y2, m1, y1, f1, f2, f3, f4, f5, f6⟩ := C79_local b n hn hne m hm hs x' x hx' hx hxs' hxs i j
      (i + p) (j + q) h
    obtain rfl : m2 = n2 := by rw [s1] at f1; injection f1 with f1; exact (Prod.mk.inj f1).2.symm
    obtain rfl : m1 = n1' := by rw [r1] at f3; injection f3 with f3; exact (Prod.mk.inj f3).2.symm
    obtain rfl : y2 = t' m := by rw [(s3 m hm).1] at f2; injection f2 with f2; exact f2.symm
    obtain rfl : y1 = t m := by rw [(r3 m hm).1] at f4; injection f4 with f4; exact f4.symm
    exact ⟨f5.symm, fun k h1 h2 => f6 k (by rw [f5]; exact h1) (by rw [f5]; exact h2)⟩
  have hsh : (t m).shape = (t' m).shape := by
    have hl := List.getElem?_eq_getElem (show m - 1 < n.get_layers.length by omega)
    have q1 := (r4 _ _ hl).2.2.2.1
    have q2 := (s4 _ _ hl).2.2.2.1
    rw [Nat.sub_add_cancel hm0] at q1 q2
    rw [q1, q2]
  refine ⟨_, _, n2, _, r1, (r3 m hm).1, s1, (s3 m hm).1, hsh, fun i j k hin => ?_⟩
  have hin0 : (t m).shape.Inside i j k :=
    ⟨Nat.lt_of_le_of_lt (Nat.le_add_right _ _) hin.1, Nat.lt_of_le_of_lt (Nat.le_add_right _ _) hin.2.1,
      hin.2.2⟩
  refine (main i j ?_).2 k hin0 hin
  intro u v c hu hv hc
  have a1 := tiles_lt ti hin.1 hu
  have a2 := tiles_lt tj hin.2.1 hv
  rw [Nat.add_mul] at a1 a2
  rw [Nat.add_mul, Nat.add_mul, Nat.add_right_comm _ _ u, Nat.add_right_comm _ _ v] at *
  rw [hxs'] at hc
  exact hp _ _ c ⟨a1, a2, hc⟩

/-- a 2x1 max-pool layer behind `exConv` -/
def exMPc : MaxPoolLayer := ⟨⟨2, 2, 2⟩, ⟨2, 1, 1⟩, ⟨1, 2, 2⟩, 1, "p", .Training, [0, 0, 0, 0]⟩

theorem exMPc_ok : exMPc.Ok :=
  ⟨by decide, by decide, rfl, by decide, by decide, fun _ => rfl⟩

open Toy in
/-- The assumptions of C79 can be met: in the network of a 2x2 convolution and a 2x1 max-pool layer, every
output sees a 3x2 patch of the 3x3 input, and shifting the input by one column shifts the output by one
column. -/
example (b : Build) : ∃ (n : Net Int) (x x' : Tensor Int), Built b n ∧
    n.get_layers = [.conv exConv, .mp exMPc] ∧ (∀ l ∈ n.get_layers.take 2, Sliding l) ∧
    (∀ l ∈ n.get_layers.take 2, 1 ≤ (windowSize l).1 ∧ 1 ≤ (windowSize l).2) ∧
    field (n.get_layers.take 2) = (3, 2) ∧ jump (n.get_layers.take 2) = 1 ∧
    x.WF ∧ x'.WF ∧ x.shape = n.get_input_shape ∧ x'.shape = n.get_input_shape ∧
    (∀ r c k, n.get_input_shape.Inside (r + 0 * 1) (c + 1 * 1) k →
      val x' r c k = val x (r + 0 * 1) (c + 1 * 1) k) ∧ val x 0 0 0 ≠ val x' 0 0 0 := by
  have hl : ∀ l ∈ ([.conv exConv, .mp exMPc] : List (AnyLayer Int)),
      Sliding l ∧ 1 ≤ (windowSize l).1 ∧ 1 ≤ (windowSize l).2 := by
    intro l h
    simp only [List.mem_cons, List.not_mem_nil, or_false] at h
    rcases h with rfl | rfl
    · exact ⟨List.cons_ne_nil _ _, by decide, by decide⟩
    · exact ⟨trivial, by decide, by decide⟩
  obtain ⟨n, h1, h2, h3⟩ : ∃ n : Net Int, Built b n ∧ n.get_layers = [.conv exConv, .mp exMPc] ∧
      n.get_input_shape = ⟨3, 3, 1⟩ :=
    ⟨_, .add_layer _ (.mp exMPc) (.ok ()) _ (.add_layer (Network.new .Training) (.conv exConv) (.ok ()) _
      (.new _) exConv_ok (by cases b <;> rfl)) exMPc_ok (by cases b <;> rfl), rfl, rfl⟩
  refine ⟨n, ⟨⟨1, 3, 9⟩, ⟨3, 3, 1⟩, [1, 2, 3, 4, 5, 6, 7, 8, 9]⟩,
    ⟨⟨1, 3, 9⟩, ⟨3, 3, 1⟩, [4, 5, 6, 7, 8, 9, 0, 0, 0]⟩,
    h1, h2, by rw [h2]; exact fun l h => (hl l h).1, by rw [h2]; exact fun l h => (hl l h).2,
    by rw [h2]; rfl, by rw [h2]; rfl, ⟨by decide, rfl, rfl, rfl, rfl⟩,
    ⟨by decide, rfl, rfl, rfl, rfl⟩, h3.symm, h3.symm, ?_, by decide⟩
  rw [h3]
  rintro r c k ⟨h1, h2, h3⟩
  change r + 0 * 1 < 3 at h1
  change c + 1 * 1 < 3 at h2
  change k < 1 at h3
  obtain rfl : k = 0 := by omega
  have h1 : r < 3 := by omega
  have h2 : c < 2 := by omega
  rw [Nat.zero_mul, Nat.add_zero]
  have all : ∀ r < 3, ∀ c < 2, val (⟨⟨1, 3, 9⟩, ⟨3, 3, 1⟩, [4, 5, 6, 7, 8, 9, 0, 0, 0]⟩ : Tensor Int) r c 0 =
      val (⟨⟨1, 3, 9⟩, ⟨3, 3, 1⟩, [1, 2, 3, 4, 5, 6, 7, 8, 9]⟩ : Tensor Int) r (c + 1) 0 := by decide
  exact all r h1 c h2

end Rusty
