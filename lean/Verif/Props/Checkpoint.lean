import Verif.Props.FreshStart
import Verif.Props.NetworkFiles

/-! # C129: work can be resumed from a saved file -/

namespace Rusty

open F32Ops Spec

variable {F : Type} [F32Ops F] [F32Bits F]

/-- C129: Save a network, and let `m` be what it became after any further calls, with any arguments and with panics that
the caller caught.  Load the file into a new network, in any mode and by any build.  After a switch of both networks to
the same mode and an `infer` of the same input the loaded network is `m` in every respect: layers with their gradients,
states, shapes and mode. -/
theorem C129_resume (b0 b : Build) (n m : Net F) (hn : Built b0 n) (hm : AttemptsMany b n m)
    (hk : ∀ l ∈ n.get_layers, hasKernels l) (hne : n.get_layers ≠ []) (o : HashOrder)
    (hl : (fileOf o n).length < 2 ^ 64) (fs fs' : FS) (name : String)
    (hs : n.save_to_file o .done fs name = (.ok (), fs')) (mode : NetworkRunState) :
    ∃ n', (Network.new mode : Net F).load_from_file b fs' name = .ok (.ok (), n') ∧
      (∃ n1 m1, n'.switch_to_training b = .ok n1 ∧ m.switch_to_training b = .ok m1 ∧
        ∀ x : Tensor F, x.WF → x.shape = n.get_input_shape →
          ∃ k, n1.infer b x = .ok (.ok (), k) ∧ m1.infer b x = .ok (.ok (), k)) ∧
      ∃ n1 m1, n'.switch_to_inference b = .ok n1 ∧ m.switch_to_inference b = .ok m1 ∧
        ∀ x : Tensor F, x.WF → x.shape = n.get_input_shape →
          ∃ k, n1.infer b x = .ok (.ok (), k) ∧ m1.infer b x = .ok (.ok (), k) := by
  obtain ⟨n', h1, h2, h3, _, _, _, h4⟩ := C46_load_partial b0 b n hn hk o hl fs fs' name hs mode
  obtain ⟨k1, k2, _⟩ := attemptsMany_ok (built_netOk hn) hm
  have h5 : n'.layers.map params = n.layers.map params := h3
  have hne' : n'.layers ≠ [] := by
    intro e
    rw [e] at h5
    exact hne (List.map_eq_nil_iff.mp h5.symm)
  obtain ⟨q1, q2⟩ := fresh_start (b := b) (built_netOk h2) k1 (k2.trans h5.symm) hne'
  have hin : n.get_input_shape = n'.input_shape := (h4 hne).1.symm
  rw [hin]
  exact ⟨n', h1, q1, q2⟩

/-- C129: Saving the loaded network writes the file it was loaded from, if the hash maps iterate in the same order. -/
theorem C129_again (b0 b : Build) (n : Net F) (hn : Built b0 n) (hk : ∀ l ∈ n.get_layers, hasKernels l)
    (o : HashOrder) (hl : (fileOf o n).length < 2 ^ 64) (fs fs' : FS) (name : String)
    (hs : n.save_to_file o .done fs name = (.ok (), fs')) (mode : NetworkRunState) :
    ∃ n', (Network.new mode : Net F).load_from_file b fs' name = .ok (.ok (), n') ∧
      n'.save_to_file o .done fs' name = (.ok (), fs') := by
  obtain ⟨n', h1, h2, h3, _⟩ := C46_load_partial b0 b n hn hk o hl fs fs' name hs mode
  refine ⟨n', h1, ?_⟩
  have : SerializedNetwork.new_from_network n' = SerializedNetwork.new_from_network n := by
    unfold SerializedNetwork.new_from_network
    congr 1
    refine List.ext_getElem? fun i => ?_
    simp only [List.getElem?_map]
    cases hi : n'.get_layers[i]? with
    | none =>
      have := congrArg List.length h3
      simp only [List.length_map] at this
      rw [List.getElem?_eq_none_iff.mpr (by rw [← this]; exact List.getElem?_eq_none_iff.mp hi)]
    | some l' =>
      obtain ⟨l, hl, hpl⟩ := map_get h3 hi
      rw [hl, Option.map_some, Option.map_some, serialized_params hpl]
  have hs' := hs
  unfold Network.save_to_file at hs' ⊢
  rw [this]
  cases hs'
  refine Prod.ext rfl ?_
  funext s
  simp only [fs_write, FS.set]
  split <;> rfl

open Toy in
/-- C129: a network is saved and used further, a release build resumes from the file -/
example (fs : FS) : ∃ (n m n' : Net UInt32) (fs' : FS), n.get_layers.length = 2 ∧ AttemptsMany .release n m ∧
    m = (Network.switch_to_inference_u .release n).2 ∧
    n.save_to_file HashOrder.rev .done fs "f" = (.ok (), fs') ∧
    (Network.new .Inference : Net UInt32).load_from_file .release fs' "f" = .ok (.ok (), n') ∧
    n'.save_to_file HashOrder.rev .done fs' "f" = (.ok (), fs') ∧
    ∃ n1 m1 k x, n'.switch_to_training .release = .ok n1 ∧ m.switch_to_training .release = .ok m1 ∧
      n1.infer .release x = .ok (.ok (), k) ∧ m1.infer .release x = .ok (.ok (), k) := by
  obtain ⟨n, h1, h2, h3, h4, h5⟩ := exFile_built
  have hne : n.get_layers ≠ [] := by
    intro e
    rw [e] at h2
    cases h2
  obtain ⟨n', q1, ⟨n1, m1, q2, q3, q4⟩, _⟩ := C129_resume .debug .release n _ h1
    (.more _ _ _ (.none _) (.switch_to_inference n)) (fun l hl => (h3 l hl).2) hne HashOrder.rev
    (by rw [h5]; decide) fs _ "f" rfl .Inference
  obtain ⟨n'', r1, r2⟩ := C129_again .debug .release n h1 (fun l hl => (h3 l hl).2) HashOrder.rev
    (by rw [h5]; decide) fs _ "f" rfl .Inference
  obtain rfl : n' = n'' := (Prod.mk.inj (Except.ok.inj (q1.symm.trans r1))).2
  obtain ⟨k, k1, k2⟩ := q4 (zeros ⟨4, 1, 1⟩) (zeros_wf (by decide)) (by rw [h4]; rfl)
  exact ⟨n, _, n', _, h2, .more _ _ _ (.none _) (.switch_to_inference n), rfl, rfl, q1, r2, n1, m1, k, _, q2, q3, k1, k2⟩

end Rusty
