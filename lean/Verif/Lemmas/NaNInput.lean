import Verif.Lemmas.IEEEVoid
import Verif.Lemmas.IEEENetwork
import Verif.Lemmas.Infer
import Verif.Lemmas.Batch
import Verif.Spec.Batch

/-! # Helper lemmas: NaN in the input of a layer -/

namespace Rusty

open Spec

namespace F32

variable [Libm]

theorem foldl_nan_start (L : List F32) (s : F32) (hs : s.isNaN = true) : (L.foldl F32Ops.add s).isNaN = true := by
  induction L generalizing s with
  | nil => exact hs
  | cons z L ih => exact ih _ (void_nan_left _ hs)

theorem foldl_nan (L : List F32) (s : F32) (h : ∃ z ∈ L, z.isNaN = true) : (L.foldl F32Ops.add s).isNaN = true := by
  induction L generalizing s with
  | nil => obtain ⟨z, hz, _⟩ := h; cases hz
  | cons y L ih =>
    obtain ⟨z, hz, hn⟩ := h
    rcases List.mem_cons.mp hz with rfl | hz
    · exact foldl_nan_start L (F32.add s z) (void_nan_right _ hn)
    · exact ih _ ⟨z, hz, hn⟩

theorem sum_nan {L : List F32} (h : ∃ z ∈ L, z.isNaN = true) : (Spec.sum L).isNaN = true := foldl_nan L _ h

omit [Libm] in
theorem mul_nan_right (v : F32) {x : F32} (h : x.isNaN = true) : (F32.mul v x).isNaN = true := by
  rw [mul_comm']
  exact void_mul_nan _ h

omit [Libm] in
theorem gt_nan_left {x : F32} (h : x.isNaN = true) (y : F32) : F32.gt x y = false := by
  unfold F32.gt
  rw [h]
  rfl

/-- the activation function turns NaN into zero, in both modes -/
theorem act_nan (m : NetworkRunState) {v : F32} (hs : Summed v) (h : v.isNaN = true) : act m v = ⟨0⟩ := by
  rw [act_relu m hs]
  unfold relu
  rw [show F32Ops.gt v F32Ops.zero = false from gt_nan_left h _]
  rfl

theorem preact_nan (l : FullyConnectedLayer F32) (x : Tensor F32) (o : Nat) {i : Nat}
    (hi : i < l.weights.shape.dj.toNat) (h : (val x i 0 0).isNaN = true) : (preact l x o).isNaN = true :=
  void_nan_left _ (sum_nan ⟨_, List.mem_map.mpr ⟨i, List.mem_range.mpr hi, rfl⟩, mul_nan_right _ h⟩)

/-- max pooling takes NaN for minus infinity -/
theorem maxOf_nan (L : List F32) :
    maxOf L = maxOf (L.map fun e => if e.isNaN then ⟨0xff800000⟩ else e) := by
  unfold maxOf
  generalize (F32Ops.negInf : F32) = m
  induction L generalizing m with
  | nil => rfl
  | cons e L ih =>
    simp only [List.map_cons, List.foldl_cons]
    cases hn : e.isNaN
    · simp only [Bool.false_eq_true, if_false]
      exact ih _
    · have h1 : F32Ops.gt e m = false := gt_nan_left hn m
      have h2 : F32Ops.gt (⟨0xff800000⟩ : F32) m = false := by
        change F32.gt _ _ = false
        unfold F32.gt
        cases hm : m.isNaN
        · have : -(infCode : Int) ≤ m.key := by
            have hc : m.code ≤ infCode := by
              unfold isNaN at hm
              simpa using hm
            unfold key
            split <;> omega
          rw [show (⟨0xff800000⟩ : F32).key = -(infCode : Int) by decide]
          simp
          intro _
          exact this
        · simp
      simp only [if_true, h1, h2, Bool.false_eq_true, if_false]
      exact ih _

end F32

variable {F : Type} [F32Ops F]

/-- two lists of examples one after the other -/
theorem batch_join {b : Build} {n m k : Net F} {es fs : List (Example F)} (h : Batch b n es m)
    (h' : Batch b m fs k) : Batch b n (es ++ fs) k := by
  induction h with
  | done n => exact h'
  | step n n1 n2 n' e es h1 h2 _ ih => exact .step _ _ _ _ _ _ h1 h2 (ih h')

omit [F32Ops F] in
theorem fc_weights {n m : Net F} (hp : m.layers.map params = n.layers.map params) {c : Nat}
    {l l' : FullyConnectedLayer F} (hc : n.layers[c]? = some (.fc l)) (hc' : m.layers[c]? = some (.fc l')) :
    l'.weights = l.weights := by
  obtain ⟨l0, e1, e2⟩ := map_get hp hc'
  rw [hc] at e1
  obtain rfl := Option.some.inj e1
  simp only [params, AnyLayer.fc.injEq, FullyConnectedLayer.mk.injEq, true_and] at e2
  exact e2.1

end Rusty
