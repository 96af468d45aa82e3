import Verif.Lemmas.Memory
import Verif.Props.Network

/-! # C90: using a network does not make it grow -/

namespace Rusty

open F32Ops Spec

variable {F : Type} [F32Ops F] {b : Build}

omit [F32Ops F] in
/-- the states hold the numbers between the layers -/
theorem states_cells {n : Net F} (hn : Sized n) : cells n.intermediate_states = stateCells n.get_layers := by
  rw [cells_wf hn.states, hn.ok.chain.states]
  rfl

/-- C90: forward and backward passes, whether they succeed or are refused, leave the amount of stored numbers as it
was. -/
theorem C90_use {n : Net F} (hn : Lives b n) :
    (∀ x r n', x.WF → n.infer b x = .ok (r, n') → netCells n' = netCells n) ∧
    (∀ g r n', g.WF → n.backward b g = .ok (r, n') → netCells n' = netCells n) :=
  ⟨fun _ _ _ hx h => (infer_sized (lives_sized hn) hx h).2, fun _ _ _ hg h => (backward_sized (lives_sized hn) hg h).2⟩

/-- C90: the amount stored after switching to training mode depends on the layers only. -/
theorem C90_training {n n' : Net F} (hn : Lives b n) (h : n.switch_to_training b = .ok n') :
    netCells n' = (n.get_layers.map fun l => paramCells l + bufferCells .Training l).sum +
      2 * stateCells n.get_layers := by
  have := (switch_training_sized (lives_sized hn) h).2
  rw [states_cells (lives_sized hn)] at this
  rw [this, Network.get_layers]
  omega

/-- C90: switching to inference mode gives the buffers of training back, whatever happened before. -/
theorem C90_inference {n n' : Net F} (hn : Lives b n) (h : n.switch_to_inference b = .ok n') :
    netCells n' = (n.get_layers.map fun l => paramCells l + bufferCells .Inference l).sum +
      stateCells n.get_layers := by
  have := (switch_inference_sized (lives_sized hn) h).2
  rw [states_cells (lives_sized hn)] at this
  exact this

/-- C90: at any time a network stores at most a fixed amount given by its layers. -/
theorem C90_bound {n : Net F} (hn : Lives b n) :
    netCells n ≤ (n.get_layers.map fun l =>
      paramCells l + max (bufferCells .Training l) (bufferCells .Inference l)).sum +
      2 * stateCells n.get_layers := by
  have hs := lives_sized hn
  have h1 : cells n.intermediate_gradients ≤ stateCells n.get_layers := by
    rw [← states_cells hs, cells_wf hs.grads, cells_wf hs.states]
    obtain ⟨p, hp⟩ := hs.suffix
    rw [← hp, List.map_append, List.sum_append]
    exact Nat.le_add_left ..
  have h2 : (n.get_layers.map layerCells).sum ≤ (n.get_layers.map fun l =>
      paramCells l + max (bufferCells .Training l) (bufferCells .Inference l)).sum := by
    have hl := hs.layers
    unfold Network.get_layers
    generalize n.layers = ls at hl
    clear * - hl
    induction ls with
    | nil => exact Nat.le_refl _
    | cons l ls ih =>
      have h1 : layerCells l ≤ paramCells l + max (bufferCells .Training l) (bufferCells .Inference l) := by
        rw [hl l (List.mem_cons_self ..)]
        cases l.get_run_mode <;> omega
      rw [List.map_cons, List.map_cons, List.sum_cons, List.sum_cons]
      exact Nat.add_le_add h1 (ih fun l h => hl l (List.mem_cons_of_mem _ h))
  unfold netCells
  rw [states_cells hs]
  omega

open Toy in
/-- The assumptions of C90 can be met, and training mode does store more. -/
example : Lives .debug exNet ∧ netCells exNet = 37 ∧ ∃ n', exNet.switch_to_inference .debug = .ok n' ∧
    netCells n' = 18 ∧ ∃ r n'', n'.infer .debug (zeros ⟨2, 1, 1⟩) = .ok (r, n'') ∧ netCells n'' = 18 :=
  ⟨.add_layer _ (.fc exFC) _ _ (.new _) exFC_ok (exNet_add _), rfl, _, rfl, rfl, _, _, rfl, rfl⟩

end Rusty
