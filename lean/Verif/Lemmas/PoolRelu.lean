import Verif.Lemmas.Pooling
import Verif.Lemmas.Matrix
import Verif.Spec.AnyLayer

/-! # Running maxima and functions applied to the entries -/

namespace Rusty

open F32Ops Spec

variable {F : Type} [F32Ops F]

/-- a function that keeps comparisons and the start of the running maximum can be applied afterwards -/
theorem runMax_map (f : F → F) (hf : ∀ x y, gt (f x) (f y) = gt x y) (h0 : f negInf = negInf) (w : List F) :
    runMax (w.map f) = f (runMax w) := by
  have key : ∀ (w : List F) (m : F), (w.map f).foldl (fun m e => if gt e m then e else m) (f m) =
      f (w.foldl (fun m e => if gt e m then e else m) m) := by
    intro w
    induction w with
    | nil => intro m; rfl
    | cons e w ih =>
      intro m
      rw [List.map_cons, List.foldl_cons, List.foldl_cons, ← ih, hf]
      congr 1
      split <;> rfl
  have := key w negInf
  rw [h0] at this
  exact this

/-- one step of the running maximum, with and without `relu` -/
private theorem relu_step [F32Order F] (e m : F) (hm : feq m m = true) :
    (if gt (relu e) (relu m) then relu e else relu m) = relu (if gt e m then e else m) := by
  have irr := F32Order.gt_irrefl (F := F)
  have tr := F32Order.gt_trans (F := F)
  have asymm : ∀ x y : F, gt x y = true → gt y x = false := fun x y h => by
    cases h' : gt y x
    · rfl
    · have := tr x y x h h'
      rw [irr] at this
      cases this
  unfold relu
  cases he : gt e zero <;> cases hz : gt m zero <;> cases hem : gt e m <;>
    simp only [he, hz, hem, irr, if_true, if_false, Bool.false_eq_true, ite_self]
  · rw [asymm _ _ hz]; simp
  · have := tr e m zero hem hz
    rw [he] at this
    cases this
  · rcases F32Order.gt_cotrans e zero m he hm with h | h
    · rw [hem] at h; cases h
    · rw [hz] at h; cases h

/-- `relu` can be applied before or after the running maximum of a window that is not empty -/
theorem runMax_relu [F32Order F] (hnum : ∀ x y : F, gt x y = true → feq x x = true ∧ feq y y = true)
    (hz : gt (zero : F) negInf = true) (w : List F) (hw : w ≠ []) :
    runMax (w.map relu) = relu (runMax w) := by
  have key : ∀ (w : List F) (m : F), feq m m = true →
      (w.map relu).foldl (fun m e => if gt e m then e else m) (relu m) =
        relu (w.foldl (fun m e => if gt e m then e else m) m) := by
    intro w
    induction w with
    | nil => intro m _; rfl
    | cons e w ih =>
      intro m hm
      rw [List.map_cons, List.foldl_cons, List.foldl_cons, relu_step e m hm]
      refine ih _ ?_
      split
      · next h => exact (hnum _ _ h).1
      · exact hm
  cases w with
  | nil => exact absurd rfl hw
  | cons e w =>
    change (w.map relu).foldl _ (if gt (relu e) negInf then relu e else negInf) =
      relu (w.foldl _ (if gt e negInf then e else negInf))
    have hn := (hnum _ _ hz).2
    have first : (if gt (relu e) negInf then relu e else negInf) = relu (if gt e negInf then e else negInf) := by
      rw [← relu_step e negInf hn]
      have hr : relu (negInf : F) = zero := by
        unfold relu
        cases h : gt (negInf : F) zero
        · rfl
        · have := F32Order.gt_trans _ _ _ hz h
          rw [F32Order.gt_irrefl] at this
          cases this
      rw [hr]
      unfold relu
      cases he : gt e zero
      · simp [hz, F32Order.gt_irrefl]
      · simp [he, F32Order.gt_trans _ _ _ he hz]
    rw [first]
    refine key w _ ?_
    split
    · next h => exact (hnum _ _ h).1
    · exact hn

end Rusty
