import Verif.Lemmas.Custom
import Verif.Lemmas.Damage
import Verif.Lemmas.Loading
import Verif.Props.FileSize

/-! # C147: damage to the structure of a saved file -/

namespace Rusty

open F32Ops Spec

variable {F : Type} [F32Ops F] [F32Bits F]

/-- what loading a file does in which the type of one layer was overwritten -/
theorem type_damage (b : Build) (n n0 : Net F) (o : HashOrder) (hl : (fileOf o n).length < 2 ^ 64) (k : Nat)
    (l : AnyLayer F) (hk : n.get_layers[k]? = some l) (t : UInt32) (ht : t ≠ typeNumber l) (fs : FS) (name : String)
    (hf : fs name = some (overwrite (fileOf o n) (typeAt n k) (encU32 t))) :
    (∃ e, n0.load_from_file b fs name = .ok (.error e, n0)) ∨
      ¬ numKeys t < numKeys (typeNumber l) ∧ ∃ A B s, lacksKey s ∧
        (∀ n1 : Net F, n1.layers = n.layers.take k → o.network (SerializedNetwork.new_from_network n1) = ⟨A⟩) ∧
        (encSerializedNetwork ⟨A⟩).length < 2 ^ 64 ∧
        n0.load_from_file b fs name = SerializedNetwork.populate_network b ⟨A ++ s :: B⟩ n0 := by
  have hkl := (List.getElem?_eq_some_iff.mp hk).1
  obtain ⟨A, B, h1, h2, h3, h4, h5, h6, h7⟩ := saved_parts o n k (by omega)
  obtain ⟨B', rfl⟩ := h6 l hk
  obtain ⟨w, hw⟩ := enc_type o k l
  obtain ⟨q1, q2, q3, q4⟩ := saved_small o n h2 hl
  have hbytes : overwrite (fileOf o n) (typeAt n k) (encU32 t) = encLen n.get_layers.length ++
      (A.flatMap encSerializedLayer ++ (encU32 t ++ (w ++ B'.flatMap encSerializedLayer))) := by
    rw [h1, List.flatMap_cons, hw, ← List.append_assoc, ← List.append_assoc,
      List.append_assoc (encLen _ ++ _), List.append_assoc (encU32 _)]
    rw [overwrite_append _ _ _ _ _ (by rw [List.length_append, len_len]; exact h5) (by rw [len_u32, len_u32])]
    rw [List.append_assoc]
  have hdec : decSerializedNetwork (overwrite (fileOf o n) (typeAt n k) (encU32 t)) =
      (do
        let (s, r) ← decSerializedLayer (encU32 t ++ (w ++ B'.flatMap encSerializedLayer))
        let (ys, r') ← decN decSerializedLayer B'.length r
        pure (⟨A ++ s :: ys⟩, r')) := by
    unfold decSerializedNetwork decVec
    rw [hbytes]
    simp only [Option.bind_eq_bind]
    rw [rt_len _ _ q1]
    simp only [Option.bind_some]
    have hlen : n.get_layers.length = A.length + (B'.length + 1) := by
      rw [List.length_cons] at h4
      omega
    rw [hlen, decN_two, decN_flatMap A _ fun s hs => q3 s (List.mem_append_left _ hs)]
    simp only [Option.bind_eq_bind, Option.bind_some, Option.pure_def, decN]
    cases decSerializedLayer (encU32 t ++ (w ++ B'.flatMap encSerializedLayer)) with
    | none => rfl
    | some p =>
      simp only [Option.bind_some]
      cases decN decSerializedLayer B'.length p.2 <;> rfl
  have hload : ∀ x, decSerializedNetwork (overwrite (fileOf o n) (typeAt n k) (encU32 t)) = x →
      n0.load_from_file b fs name = match x with
        | none => .ok (.error "bincode error", n0)
        | some p => p.1.populate_network b n0 := by
    intro x hx
    unfold Network.load_from_file
    rw [hf]
    simp only
    unfold deserialize
    rw [hx]
    cases x <;> rfl
  cases hs : decSerializedLayer (encU32 t ++ (w ++ B'.flatMap encSerializedLayer)) with
  | none =>
    rw [hs] at hdec
    exact .inl ⟨_, hload _ hdec⟩
  | some p =>
    obtain ⟨s, r⟩ := p
    obtain ⟨p1, p2, p3⟩ := read_other o k l w hw (q2 _ (List.mem_append_right _ List.mem_cons_self)) t ht _ _ _ hs
    refine .inr ⟨p3, A, B', s, p2, h7, q4, ?_⟩
    rw [hs] at hdec
    simp only [Option.bind_eq_bind, Option.bind_some] at hdec
    have hB := decN_flatMap (e := encSerializedLayer) B' [] fun s hs =>
      q3 s (List.mem_append_right _ (List.mem_cons_of_mem _ hs))
    rw [List.append_nil] at hB
    rw [p1, hB] at hdec
    exact hload _ hdec

/-- C147: the type of one layer is overwritten with the number of a type that has fewer fields, or with a number
that is not the number of a type: loading returns an error and changes nothing. -/
theorem C147_unreadable (b : Build) (n n0 : Net F) (o : HashOrder) (hl : (fileOf o n).length < 2 ^ 64) (k : Nat)
    (l : AnyLayer F) (hk : n.get_layers[k]? = some l) (t : UInt32) (ht : numKeys t < numKeys (typeNumber l))
    (fs : FS) (name : String) (hf : fs name = some (overwrite (fileOf o n) (typeAt n k) (encU32 t))) :
    ∃ e, n0.load_from_file b fs name = .ok (.error e, n0) := by
  rcases type_damage b n n0 o hl k l hk t (fun e => by rw [e] at ht; omega) fs name hf with h | ⟨h, _⟩
  · exact h
  · exact (h ht).elim

/-- C147: the type of one layer of a network built with the API is overwritten with any other number: loading
returns an error, and at most the layers before that layer have been added. -/
theorem C147_type (b0 b : Build) (n n0 : Net F) (hn : Built b0 n) (hks : ∀ l ∈ n.get_layers, hasKernels l)
    (h0 : Built b n0) (o : HashOrder) (hl : (fileOf o n).length < 2 ^ 64) (k : Nat) (l : AnyLayer F)
    (hk : n.get_layers[k]? = some l) (t : UInt32) (ht : t ≠ typeNumber l) (fs : FS) (name : String)
    (hf : fs name = some (overwrite (fileOf o n) (typeAt n k) (encU32 t))) :
    ∃ e n' ls, n0.load_from_file b fs name = .ok (.error e, n') ∧ Built b n' ∧
      n'.get_layers = n0.get_layers ++ ls ∧
      (ls = [] ∨ ls.map params = (n.get_layers.take k).map params) := by
  rcases type_damage b n n0 o hl k l hk t ht fs name hf with ⟨e, h⟩ | ⟨_, A, B, s, hs, hA, hAl, h⟩
  · exact ⟨e, n0, [], h, h0, (List.append_nil _).symm, .inl rfl⟩
  · obtain ⟨n1, hn1, hn1l⟩ := first_layers (built_netOk hn) k
    have hA1 := hA n1 hn1l
    have hks1 : ∀ l ∈ n1.layers, hasKernels l := fun l hl => hks l (by
      rw [hn1l] at hl
      exact List.mem_of_mem_take hl)
    rw [h]
    unfold SerializedNetwork.populate_network
    by_cases hfit : ∀ last first, n0.layers.getLast? = some last →
        n1.layers.head? = some first → last.get_output_shape = first.get_input_shape
    · obtain ⟨n2, ls, p1, p2, p3, p4, _⟩ := populate_ok (b := b) hn1 hks1 o (by rw [hA1]; exact hAl) h0 hfit
      rw [hA1] at p1
      unfold SerializedNetwork.populate_network at p1
      simp only at p1 ⊢
      rw [forListE_append _ _ _ _ _ p1, forListE_cons]
      obtain ⟨e, he⟩ := add_lacking b n2 s hs
      rw [he]
      exact ⟨e, n2, ls, rfl, p2, p3, .inr (by rw [p4, hn1l]; rfl)⟩
    · simp only [not_forall] at hfit
      obtain ⟨last, first, r1, r2, r3⟩ := hfit
      obtain ⟨e, he⟩ := populate_refused (b := b) hn1 hks1 o (by rw [hA1]; exact hAl) r1 r2 r3
      rw [hA1] at he
      unfold SerializedNetwork.populate_network at he
      simp only at he ⊢
      rw [forListE_two, he]
      exact ⟨e, n0, [], rfl, h0, (List.append_nil _).symm, .inl rfl⟩

/-- C147: the number of layers at the start of the file is overwritten with a larger one: loading returns an
error and changes nothing. -/
theorem C147_more (b : Build) (n n0 : Net F) (o : HashOrder) (hl : (fileOf o n).length < 2 ^ 64) (m : Nat)
    (hm : n.get_layers.length < m) (hm2 : m < 2 ^ 64) (fs : FS) (name : String)
    (hf : fs name = some (overwrite (fileOf o n) 0 (encLen m))) :
    ∃ e, n0.load_from_file b fs name = .ok (.error e, n0) := by
  obtain ⟨A, B, h1, h2, h3, h4, h5, h6, h7⟩ := saved_parts o n n.get_layers.length (by omega)
  obtain ⟨q1, q2, q3, q4⟩ := saved_small o n h2 hl
  have hB : B = [] := List.length_eq_zero_iff.mp (by omega)
  subst hB
  rw [List.flatMap_nil, List.append_nil] at h1
  have hbytes : overwrite (fileOf o n) 0 (encLen m) = encLen m ++ A.flatMap encSerializedLayer := by
    rw [h1]
    exact overwrite_append [] _ _ _ 0 rfl ((len_len _).trans (len_len _).symm)
  have hdec : decSerializedNetwork (overwrite (fileOf o n) 0 (encLen m)) = none := by
    unfold decSerializedNetwork decVec
    rw [hbytes]
    simp only [Option.bind_eq_bind]
    rw [rt_len _ _ hm2]
    simp only [Option.bind_some]
    obtain ⟨d, rfl⟩ : ∃ d, m = A.length + (d + 1) := ⟨m - n.get_layers.length - 1, by omega⟩
    have hA := decN_flatMap (e := encSerializedLayer) A [] fun s hs => q3 s (List.mem_append_left _ hs)
    rw [List.append_nil] at hA
    rw [decN_two, hA]
    rfl
  unfold Network.load_from_file
  rw [hf]
  simp only
  unfold deserialize
  rw [hdec]
  exact ⟨_, rfl⟩

/-- C147: the number of layers at the start of the file is overwritten with a smaller one: loading into a new
network succeeds and gives that many layers, the first ones.  Nothing tells the caller that layers are missing. -/
theorem C147_fewer (b0 b : Build) (n : Net F) (hn : Built b0 n) (hks : ∀ l ∈ n.get_layers, hasKernels l)
    (o : HashOrder) (hl : (fileOf o n).length < 2 ^ 64) (m : Nat) (hm : m ≤ n.get_layers.length) (fs : FS)
    (name : String) (hf : fs name = some (overwrite (fileOf o n) 0 (encLen m))) (md : NetworkRunState) :
    ∃ n', (Network.new md : Net F).load_from_file b fs name = .ok (.ok (), n') ∧ Built b n' ∧
      n'.get_layers.map params = (n.get_layers.take m).map params ∧ n'.get_layers.length = m := by
  obtain ⟨A, B, h1, h2, h3, h4, h5, h6, h7⟩ := saved_parts o n m hm
  obtain ⟨q1, q2, q3, q4⟩ := saved_small o n h2 hl
  have hbytes : overwrite (fileOf o n) 0 (encLen m) = encLen m ++
      (A.flatMap encSerializedLayer ++ B.flatMap encSerializedLayer) := by
    rw [h1]
    exact overwrite_append [] _ _ _ 0 rfl ((len_len _).trans (len_len _).symm)
  have hdec : decSerializedNetwork (overwrite (fileOf o n) 0 (encLen m)) =
      some (⟨A⟩, B.flatMap encSerializedLayer) := by
    unfold decSerializedNetwork decVec
    rw [hbytes]
    simp only [Option.bind_eq_bind]
    rw [rt_len _ _ (by omega)]
    simp only [Option.bind_some]
    rw [← h3, decN_flatMap A _ fun s hs => q3 s (List.mem_append_left _ hs)]
    rfl
  obtain ⟨n1, hn1, hn1l⟩ := first_layers (built_netOk hn) m
  have hA1 := h7 n1 hn1l
  obtain ⟨n2, ls, p1, p2, p3, p4, _⟩ := populate_ok (b := b) (n0 := Network.new md) hn1
    (fun l hl => hks l (by rw [hn1l] at hl; exact List.mem_of_mem_take hl)) o (by rw [hA1]; exact q4) (.new md)
    (fun _ _ h => by cases h)
  have p3 : n2.layers = ls := p3
  subst p3
  rw [hn1l] at p4
  refine ⟨n2, ?_, p2, p4, ?_⟩
  · unfold Network.load_from_file
    rw [hf]
    simp only
    unfold deserialize
    rw [hdec, ← hA1]
    exact p1
  · have := congrArg List.length p4
    rw [List.length_map, List.length_map, List.length_take] at this
    have hm' : m ≤ n.layers.length := hm
    exact this.trans (by omega)

open Toy in
/-- a file of a max-pool layer and a softmax layer: the type of the first is at position 8, that of the second at
position 105 -/
example : ∃ n : Net UInt32, Built .debug n ∧ (∀ l ∈ n.get_layers, hasKernels l) ∧
    (fileOf HashOrder.rev n).length = 162 ∧ typeAt n 0 = 8 ∧ typeAt n 1 = 105 ∧ n.get_layers.map typeNumber = [2, 3] ∧
    ∀ name t, ∃ fs : FS, fs name = some (overwrite (fileOf HashOrder.rev n) (typeAt n 1) (encU32 t)) := by
  have h1 : (AnyLayer.mp ⟨⟨4, 1, 1⟩, ⟨2, 1, 1⟩, ⟨2, 1, 1⟩, 2, "m", .Inference, []⟩ :
      AnyLayer UInt32).Ok :=
    (⟨by decide, by decide, rfl, by decide, by decide, fun h => by cases h⟩ : MaxPoolLayer.Ok _)
  have h2 : (AnyLayer.sm ⟨⟨2, 1, 1⟩, "s", zeros ⟨1, 1, 1⟩, zeros ⟨1, 1, 1⟩, .Inference⟩ :
      AnyLayer UInt32).Ok := (⟨by decide, fun h => by cases h⟩ : SoftmaxLayer.Ok _)
  refine ⟨_, .add_layer _ _ _ _ (.add_layer _ _ _ _ (.new .Training) h1 rfl) h2 rfl, ?_, rfl, rfl, rfl, rfl,
    fun name t => ⟨fun _ => some _, rfl⟩⟩
  intro l hl
  simp only [Network.get_layers, List.mem_append, List.mem_cons, List.not_mem_nil, or_false,
    Network.new, List.nil_append] at hl
  rcases hl with rfl | rfl <;> trivial

end Rusty
