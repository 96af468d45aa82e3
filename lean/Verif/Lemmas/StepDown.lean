import Verif.Spec.StepDown
import Verif.Lemmas.LossGradient
import Verif.Props.Network

/-! # Lemmas for C128: the derivative along a step of all parameters -/

namespace Rusty

open Spec

theorem stepNet_cons (l : RealLayer) (ls : List RealLayer) (V : Nat → Nat → Nat → ℝ) (U : Nat → Nat → ℝ) (t : ℝ) :
    stepNet (l :: ls) V U t = l.step (V 0) (U 0) t :: stepNet ls (fun k => V (k + 1)) (fun k => U (k + 1)) t := by
  unfold stepNet
  rw [List.mapIdx_cons]

theorem step_zero (l : RealLayer) (V : Nat → Nat → ℝ) (U : Nat → ℝ) : l.step V U 0 = l := by
  unfold RealLayer.step
  simp

theorem stepNet_zero (ls : List RealLayer) (V : Nat → Nat → Nat → ℝ) (U : Nat → Nat → ℝ) :
    stepNet ls V U 0 = ls := by
  unfold stepNet
  simp only [step_zero]
  exact List.ext_getElem? fun i => by rw [List.getElem?_mapIdx]; cases ls[i]? <;> rfl

/-- the outputs of a layer whose parameters and inputs move -/
theorem step_pre_deriv (l : RealLayer) (V : Nat → Nat → ℝ) (U : Nat → ℝ) {x : ℝ → Nat → ℝ} {x' : Nat → ℝ}
    (hx : ∀ i < l.cols, HasDerivAt (fun t => x t i) (x' i) 0) (o : Nat) :
    HasDerivAt (fun t => (l.step V U t).pre (x t) o)
      ((∑ i ∈ Finset.range l.cols, (l.weight o i * x' i - V o i * x 0 i)) - U o) 0 := by
  have h1 : ∀ a v : ℝ, HasDerivAt (fun t : ℝ => a - t * v) (-v) 0 := fun a v => by
    simpa using ((hasDerivAt_id (0 : ℝ)).mul_const v).const_sub a
  have h2 := (HasDerivAt.fun_sum fun i hi =>
    (h1 (l.weight o i) (V o i)).mul (hx i (Finset.mem_range.mp hi))).add (h1 (l.bias o) (U o))
  refine h2.congr_deriv ?_
  rw [sub_eq_add_neg]
  congr 1
  refine Finset.sum_congr rfl fun i _ => ?_
  ring

/-- the chain rule for layers whose parameters and input move -/
theorem joint_deriv {n m : Nat} {ls : List RealLayer} (hd : Dims n ls m) (g : Nat → ℝ) (V : Nat → Nat → Nat → ℝ)
    (U : Nat → Nat → ℝ) {x : ℝ → Nat → ℝ} {x' : Nat → ℝ} (hk : NoKink ls (x 0))
    (hx : ∀ i < n, HasDerivAt (fun t => x t i) (x' i) 0) :
    HasDerivAt (fun t => ∑ k ∈ Finset.range m, g k * realNet (stepNet ls V U t) (x t) k)
      ((∑ i ∈ Finset.range n, realBack ls (x 0) g i * x' i) -
        paramSum ls (fun k o i => realWeightGrad ls (x 0) g k o i * V k o i)
          (fun k o => realBiasGrad ls (x 0) g k o * U k o)) 0 := by
  induction hd generalizing x x' V U with
  | nil n =>
    have h : paramSum [] (fun k o i => realWeightGrad [] (x 0) g k o i * V k o i)
        (fun k o => realBiasGrad [] (x 0) g k o * U k o) = 0 := rfl
    rw [h, sub_zero]
    exact HasDerivAt.fun_sum fun i hi => (hx i (Finset.mem_range.mp hi)).const_mul (g i)
  | cons l ls m _ ih =>
    have hpre := step_pre_deriv l (V 0) (U 0) hx
    have hz : ∀ o, (l.step (V 0) (U 0) 0).pre (x 0) o = l.pre (x 0) o := fun o => by rw [step_zero]
    have h0 : (l.step (V 0) (U 0) 0).out (x 0) = l.out (x 0) := by rw [step_zero]
    have := ih (fun k => V (k + 1)) (fun k => U (k + 1)) (x := fun t => (l.step (V 0) (U 0) t).out (x t))
      (x' := fun o => if 0 < l.pre (x 0) o then
        (∑ i ∈ Finset.range l.cols, (l.weight o i * x' i - V 0 o i * x 0 i)) - U 0 o else 0)
      (by simp only [h0]; exact hk.2)
      (fun o ho => by
        have := hasDerivAt_max_zero (hpre o) (by rw [hz]; exact hk.1 o ho)
        rw [hz] at this
        exact this)
    simp only [stepNet_cons]
    refine this.congr_deriv ?_
    simp only [h0, paramSum, realBack, realWeightGrad, realBiasGrad]
    rw [← sub_sub]
    congr 1
    simp only [Finset.sum_mul]
    rw [Finset.sum_comm, ← Finset.sum_sub_distrib]
    refine Finset.sum_congr rfl fun o _ => ?_
    unfold RealLayer.through
    by_cases h : 0 < l.pre (x 0) o
    · simp only [if_pos h]
      rw [mul_sub, Finset.mul_sum, ← sub_sub, ← Finset.sum_sub_distrib]
      congr 1
      exact Finset.sum_congr rfl fun i _ => by ring
    · simp only [if_neg h]
      simp

/-- the derivative of the cross entropy along a step -/
theorem loss_step_deriv {n m : Nat} {ls : List RealLayer} (hd : Dims n ls m) {x : Nat → ℝ} (hk : NoKink ls x)
    {c : Nat} (hc : c < m) (V : Nat → Nat → Nat → ℝ) (U : Nat → Nat → ℝ) :
    HasDerivAt (fun t => classLoss m (realNet (stepNet ls V U t) x) c)
      (-paramSum ls (fun k o i => lossWeightGrad m ls x c k o i * V k o i)
        (fun k o => lossBiasGrad m ls x c k o * U k o)) 0 := by
  have h := loss_deriv hc (z := fun t => realNet (stepNet ls V U t) x) (u := 0)
    (D := fun g => -paramSum ls (fun k o i => realWeightGrad ls x g k o i * V k o i)
      (fun k o => realBiasGrad ls x g k o * U k o))
    (fun g => by
      refine (joint_deriv hd g V U (x := fun _ => x) (x' := fun _ => 0) hk
        fun i _ => hasDerivAt_const _ _).congr_deriv ?_
      simp)
  simp only [stepNet_zero] at h
  exact h

theorem paramSum_add (ls : List RealLayer) (f f' : Nat → Nat → Nat → ℝ) (g g' : Nat → Nat → ℝ) :
    paramSum ls f g + paramSum ls f' g' =
      paramSum ls (fun k o i => f k o i + f' k o i) (fun k o => g k o + g' k o) := by
  induction ls generalizing f f' g g' with
  | nil => simp [paramSum]
  | cons l ls ih =>
    simp only [paramSum]
    rw [← ih, add_add_add_comm, ← Finset.sum_add_distrib]
    congr 1
    refine Finset.sum_congr rfl fun o _ => ?_
    rw [add_add_add_comm, Finset.sum_add_distrib]

theorem paramSum_le {ls : List RealLayer} {f f' : Nat → Nat → Nat → ℝ} {g g' : Nat → Nat → ℝ}
    (hf : ∀ (k : Nat) l, ls[k]? = some l → ∀ o < l.rows, ∀ i < l.cols, f k o i ≤ f' k o i)
    (hg : ∀ (k : Nat) l, ls[k]? = some l → ∀ o < l.rows, g k o ≤ g' k o) :
    paramSum ls f g ≤ paramSum ls f' g' := by
  induction ls generalizing f f' g g' with
  | nil => exact le_refl _
  | cons l ls ih =>
    refine add_le_add (Finset.sum_le_sum fun o ho => add_le_add (Finset.sum_le_sum fun i hi => ?_) ?_)
      (ih (fun k a h => hf (k + 1) a h) fun k a h => hg (k + 1) a h)
    · exact hf 0 l rfl o (Finset.mem_range.mp ho) i (Finset.mem_range.mp hi)
    · exact hg 0 l rfl o (Finset.mem_range.mp ho)

theorem paramSum_zero (ls : List RealLayer) : paramSum ls (fun _ _ _ => 0) (fun _ _ => 0) = 0 := by
  induction ls with
  | nil => rfl
  | cons l ls ih => simp only [paramSum]; rw [ih]; simp

theorem paramSum_list {ι : Type} (ls : List RealLayer) (ss : List ι) (f : ι → Nat → Nat → Nat → ℝ)
    (g : ι → Nat → Nat → ℝ) :
    (ss.map fun s => paramSum ls (f s) (g s)).sum =
      paramSum ls (fun k o i => (ss.map fun s => f s k o i).sum) (fun k o => (ss.map fun s => g s k o).sum) := by
  induction ss with
  | nil => simp [paramSum_zero]
  | cons s ss ih =>
    simp only [List.map_cons, List.sum_cons]
    rw [ih, paramSum_add]

/-- training does not change the parameters -/
theorem batch_params {F : Type} [F32Ops F] {b : Build} {n n' : Net F} {es : List (Example F)} (h : Batch b n es n') :
    n'.get_layers.map params = n.get_layers.map params := by
  induction h with
  | done n => rfl
  | step n n1 n2 n' e es h1 h2 _ ih =>
    exact ih.trans (C51_network b n n2 (.more _ _ _ (.more _ _ _ (.none _) (.infer _ _ _ _ h1))
      (.backward _ _ _ _ h2))).1

end Rusty
