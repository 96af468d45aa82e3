import Verif.Spec.Damage
import Verif.Lemmas.FileSize

/-! # Helper lemmas: damaged files -/

namespace Rusty

open F32Ops Spec

theorem overwrite_append (a x c w : Bytes) (p : Nat) (ha : a.length = p) (hx : x.length = w.length) :
    overwrite (a ++ (x ++ c)) p w = a ++ (w ++ c) := by
  subst ha
  unfold overwrite
  rw [List.take_left, ← List.drop_drop, List.drop_left, ← hx, List.drop_left, List.append_assoc]

theorem decN_two {α : Type} (d : Dec α) (a c : Nat) (bs : Bytes) :
    decN d (a + c) bs = (do
      let (xs, r) ← decN d a bs
      let (ys, r') ← decN d c r
      pure (xs ++ ys, r')) := by
  induction a generalizing bs with
  | zero =>
    rw [Nat.zero_add]
    simp only [decN, Option.bind_eq_bind, Option.bind_some, List.nil_append, Option.pure_def]
    cases decN d c bs <;> rfl
  | succ a ih =>
    rw [Nat.succ_add]
    simp only [decN, Option.bind_eq_bind, Option.pure_def]
    cases d bs with
    | none => rfl
    | some p =>
      simp only [Option.bind_some]
      rw [ih]
      cases decN d a p.2 with
      | none => rfl
      | some q =>
        simp only [Option.bind_eq_bind, Option.bind_some, Option.pure_def]
        cases decN d c q.2 <;> rfl

/-! ## Reading the fields of a layer as those of another type -/

section

variable {K K' : Type} [SerKey K] [LawfulKey K] [SerKey K']

theorem other_entries (es : List (K × Bytes)) (r r' : Bytes) (es' : List (K' × Bytes))
    (hl : (es.flatMap encEntry).length < 2 ^ 64)
    (h : decN decEntry es.length (es.flatMap encEntry ++ r) = some (es', r')) :
    r' = r ∧ List.Forall₂ (fun e e' => SerKey.ofIdx (SerKey.idx e.1) = some e'.1) es es' := by
  induction es generalizing es' with
  | nil =>
    cases h
    exact ⟨rfl, .nil⟩
  | cons e es ih =>
    rw [List.flatMap_cons, List.length_append] at hl
    rw [List.flatMap_cons, List.append_assoc, List.length_cons] at h
    unfold decN at h
    simp only [Option.bind_eq_bind, Option.bind_eq_some_iff, Option.pure_def, Prod.exists,
      Option.some.injEq, Prod.mk.injEq] at h
    obtain ⟨k', v', r1, h1, es1, r2, h2, h3, h4⟩ := h
    unfold decEntry decKey at h1
    have he : encEntry e = encU32 (UInt32.ofNat (SerKey.idx e.1)) ++ encVec encU8 e.2 := rfl
    rw [he] at h1 hl
    rw [List.append_assoc, u32_append] at h1
    simp only [Option.bind_eq_bind, Option.bind_some] at h1
    rw [UInt32.toNat_ofNat', Nat.mod_eq_of_lt (LawfulKey.small e.1)] at h1
    cases hk : (SerKey.ofIdx (SerKey.idx e.1) : Option K') with
    | none => rw [hk] at h1; cases h1
    | some k =>
      rw [hk] at h1
      rw [List.length_append] at hl
      simp only [Option.bind_some, Option.pure_def] at h1
      rw [rt_vec rt_u8 (fun _ => Nat.zero_lt_one) _ _ (by omega)] at h1
      cases h1
      obtain ⟨p1, p2⟩ := ih es1 (by omega) (by rw [h2, h4])
      subst h3
      exact ⟨p1, .cons hk p2⟩

omit [SerKey K] [LawfulKey K] [SerKey K'] in
theorem insert_keys [DecidableEq K'] (es : List (K' × Bytes)) (m : HMap K') :
    ∀ e ∈ (es.foldl (fun m e => m.insert e.1 e.2) m).entries, e ∈ m.entries ∨ e ∈ es := by
  induction es generalizing m with
  | nil => exact fun e h => .inl h
  | cons x es ih =>
    intro e he
    rcases ih _ e he with h | h
    · rcases List.mem_append.mp h with h | h
      · exact .inl (List.mem_filter.mp h).1
      · exact .inr (by rw [List.mem_singleton.mp h]; exact List.mem_cons_self)
    · exact .inr (List.mem_cons_of_mem _ h)

theorem other_map [DecidableEq K'] (m : HMap K) (r r' : Bytes) (m' : HMap K') (hl : (encHMap m).length < 2 ^ 64)
    (h : decHMap (encHMap m ++ r) = some (m', r')) :
    r' = r ∧ (∀ e ∈ m.entries, ∃ k' : K', SerKey.ofIdx (SerKey.idx e.1) = some k') ∧
      ∀ e' ∈ m'.entries, ∃ k : K, SerKey.ofIdx (SerKey.idx k) = some e'.1 := by
  unfold encHMap at h hl
  unfold decHMap at h
  rw [len_vec] at hl
  have hn := count_le_flatMap (e := encEntry (K := K)) len_entry_pos m.entries
  unfold encVec decVec at h
  rw [List.append_assoc, rt_len _ _ (by omega)] at h
  simp only [Option.bind_eq_bind, Option.bind_some, Option.bind_eq_some_iff, Option.pure_def, Prod.exists,
    Option.some.injEq, Prod.mk.injEq] at h
  obtain ⟨es', r1, h1, h2, h3⟩ := h
  obtain ⟨p1, p2⟩ := other_entries _ _ _ _ (by omega) h1
  refine ⟨h3 ▸ p1, fun e he => ?_, fun e' he' => ?_⟩
  · obtain ⟨i, hi, rfl⟩ := List.getElem_of_mem he
    have hi' : i < es'.length := p2.length_eq ▸ hi
    exact ⟨_, p2.get hi hi'⟩
  · subst h2
    rcases insert_keys es' HMap.new e' he' with h | h
    · cases h
    · obtain ⟨i, hi, rfl⟩ := List.getElem_of_mem h
      exact ⟨_, p2.get (p2.length_eq.symm ▸ hi) hi⟩

end

variable {F : Type} [F32Bits F]

theorem enc_type (o : HashOrder) (i : Nat) (l : AnyLayer F) : ∃ w, encSerializedLayer (o.layer i l.get_serialized) =
    encU32 (typeNumber l) ++ w := by
  cases l <;> exact ⟨_, rfl⟩

omit [F32Bits F] in
theorem dec_type (t : UInt32) (w r' : Bytes) (s' : SerializedLayer)
    (h : decSerializedLayer (encU32 t ++ w) = some (s', r')) :
    (t = 0 ∧ ∃ m, decHMap w = some (m, r') ∧ s' = .SerialConvolutionalLayer m) ∨
    (t = 1 ∧ ∃ m, decHMap w = some (m, r') ∧ s' = .SerialFullyConnectedLayer m) ∨
    (t = 2 ∧ ∃ m, decHMap w = some (m, r') ∧ s' = .SerialMaxPoolLayer m) ∨
    (t = 3 ∧ ∃ m, decHMap w = some (m, r') ∧ s' = .SerialSoftMaxLayer m) := by
  unfold decSerializedLayer at h
  rw [u32_append] at h
  simp only [Option.bind_eq_bind, Option.bind_some] at h
  have ht : ∀ k : UInt32, t.toNat = k.toNat → t = k := fun k => UInt32.toNat_inj.mp
  split at h <;> rename_i e
  · simp only [Option.bind_eq_some_iff, Option.pure_def, Option.some.injEq, Prod.mk.injEq, Prod.exists] at h
    obtain ⟨m, r1, h1, h2, rfl⟩ := h
    exact .inl ⟨ht 0 e, m, h1, h2.symm⟩
  · simp only [Option.bind_eq_some_iff, Option.pure_def, Option.some.injEq, Prod.mk.injEq, Prod.exists] at h
    obtain ⟨m, r1, h1, h2, rfl⟩ := h
    exact .inr (.inl ⟨ht 1 e, m, h1, h2.symm⟩)
  · simp only [Option.bind_eq_some_iff, Option.pure_def, Option.some.injEq, Prod.mk.injEq, Prod.exists] at h
    obtain ⟨m, r1, h1, h2, rfl⟩ := h
    exact .inr (.inr (.inl ⟨ht 2 e, m, h1, h2.symm⟩))
  · simp only [Option.bind_eq_some_iff, Option.pure_def, Option.some.injEq, Prod.mk.injEq, Prod.exists] at h
    obtain ⟨m, r1, h1, h2, rfl⟩ := h
    exact .inr (.inr (.inr ⟨ht 3 e, m, h1, h2.symm⟩))
  · cases h

theorem read_other (o : HashOrder) (i : Nat) (l : AnyLayer F) (w : Bytes)
    (hw : encSerializedLayer (o.layer i l.get_serialized) = encU32 (typeNumber l) ++ w)
    (hl : (encSerializedLayer (o.layer i l.get_serialized)).length < 2 ^ 64) (t : UInt32) (ht : t ≠ typeNumber l)
    (r r' : Bytes) (s' : SerializedLayer) (h : decSerializedLayer (encU32 t ++ (w ++ r)) = some (s', r')) :
    r' = r ∧ lacksKey s' ∧ ¬ numKeys t < numKeys (typeNumber l) := by
  have hmem : ∀ {K : Type} (es : List (K × Bytes)) {e}, e ∈ es → e ∈ o.pick i es :=
    fun es e he => (o.perm i es).mem_iff.mpr he
  rw [hw, List.length_append] at hl
  have hl0 : w.length < 2 ^ 64 := by omega
  clear hl
  have h := dec_type _ _ _ _ h
  cases l with
  | conv l =>
    obtain ⟨m0, v1, hm1, v2, hm2, hw⟩ : ∃ (m : HMap ConvKey) (v1 : Bytes) (_ : (ConvKey.Name, v1) ∈ m.entries) (v2 : Bytes) (_ : (ConvKey.Stride, v2) ∈ m.entries),
        w = encHMap m :=
      ⟨_, _, hmem _ (List.mem_append_right _ List.mem_cons_self), encU32 l.stride, hmem _ (by simp [HMap.insert]), (List.append_cancel_left hw).symm⟩
    subst hw
    rcases h with ⟨e, m, h, e'⟩ | ⟨e, m, h, e'⟩ | ⟨e, m, h, e'⟩ | ⟨e, m, h, e'⟩
    · exact (ht e).elim
    · obtain ⟨_, q, _⟩ := other_map m0 _ _ _ hl0 h
      obtain ⟨k, hk⟩ := q _ hm2
      cases hk
    · obtain ⟨_, q, _⟩ := other_map m0 _ _ _ hl0 h
      obtain ⟨k, hk⟩ := q _ hm1
      cases hk
    · obtain ⟨_, q, _⟩ := other_map m0 _ _ _ hl0 h
      obtain ⟨k, hk⟩ := q _ hm1
      cases hk
  | fc l =>
    obtain ⟨m0, v1, hm1, hw⟩ : ∃ (m : HMap FCKey) (v1 : Bytes) (_ : (FCKey.Name, v1) ∈ m.entries),
        w = encHMap m :=
      ⟨_, _, hmem _ (List.mem_append_right _ List.mem_cons_self), (List.append_cancel_left hw).symm⟩
    subst hw
    rcases h with ⟨e, m, h, e'⟩ | ⟨e, m, h, e'⟩ | ⟨e, m, h, e'⟩ | ⟨e, m, h, e'⟩
    · obtain ⟨p, _, q⟩ := other_map m0 _ _ _ hl0 h
      subst e e'
      refine ⟨p, ⟨.Name, by decide, fun e' he' hk => ?_⟩, by simp only [typeNumber]; decide⟩
      obtain ⟨k, hk'⟩ := q e' he'
      rw [hk] at hk'
      cases k <;> cases hk'
    · exact (ht e).elim
    · obtain ⟨p, _, q⟩ := other_map m0 _ _ _ hl0 h
      subst e e'
      refine ⟨p, ⟨.Name, by decide, fun e' he' hk => ?_⟩, by simp only [typeNumber]; decide⟩
      obtain ⟨k, hk'⟩ := q e' he'
      rw [hk] at hk'
      cases k <;> cases hk'
    · obtain ⟨_, q, _⟩ := other_map m0 _ _ _ hl0 h
      obtain ⟨k, hk⟩ := q _ hm1
      cases hk
  | mp l =>
    obtain ⟨m0, v1, hm1, hw⟩ : ∃ (m : HMap MPKey) (v1 : Bytes) (_ : (MPKey.Name, v1) ∈ m.entries),
        w = encHMap m :=
      ⟨_, _, hmem _ (List.mem_append_right _ List.mem_cons_self), (List.append_cancel_left hw).symm⟩
    subst hw
    rcases h with ⟨e, m, h, e'⟩ | ⟨e, m, h, e'⟩ | ⟨e, m, h, e'⟩ | ⟨e, m, h, e'⟩
    · obtain ⟨p, _, q⟩ := other_map m0 _ _ _ hl0 h
      subst e e'
      refine ⟨p, ⟨.Name, by decide, fun e' he' hk => ?_⟩, by simp only [typeNumber]; decide⟩
      obtain ⟨k, hk'⟩ := q e' he'
      rw [hk] at hk'
      cases k <;> cases hk'
    · obtain ⟨_, q, _⟩ := other_map m0 _ _ _ hl0 h
      obtain ⟨k, hk⟩ := q _ hm1
      cases hk
    · exact (ht e).elim
    · obtain ⟨_, q, _⟩ := other_map m0 _ _ _ hl0 h
      obtain ⟨k, hk⟩ := q _ hm1
      cases hk
  | sm l =>
    obtain ⟨m0, v1, hm1, hw⟩ : ∃ (m : HMap SMKey) (v1 : Bytes) (_ : (SMKey.Name, v1) ∈ m.entries),
        w = encHMap m :=
      ⟨_, _, hmem _ (List.mem_append_right _ List.mem_cons_self), (List.append_cancel_left hw).symm⟩
    subst hw
    rcases h with ⟨e, m, h, e'⟩ | ⟨e, m, h, e'⟩ | ⟨e, m, h, e'⟩ | ⟨e, m, h, e'⟩
    · obtain ⟨p, _, q⟩ := other_map m0 _ _ _ hl0 h
      subst e e'
      refine ⟨p, ⟨.Name, by decide, fun e' he' hk => ?_⟩, by simp only [typeNumber]; decide⟩
      obtain ⟨k, hk'⟩ := q e' he'
      rw [hk] at hk'
      cases k <;> cases hk'
    · obtain ⟨p, _, q⟩ := other_map m0 _ _ _ hl0 h
      subst e e'
      refine ⟨p, ⟨.Name, by decide, fun e' he' hk => ?_⟩, by simp only [typeNumber]; decide⟩
      obtain ⟨k, hk'⟩ := q e' he'
      rw [hk] at hk'
      cases k <;> cases hk'
    · obtain ⟨p, _, q⟩ := other_map m0 _ _ _ hl0 h
      subst e e'
      refine ⟨p, ⟨.Name, by decide, fun e' he' hk => ?_⟩, by simp only [typeNumber]; decide⟩
      obtain ⟨k, hk'⟩ := q e' he'
      rw [hk] at hk'
      cases k <;> cases hk'
    · exact (ht e).elim

/-! ## The first layers of a network -/

section

variable [F32Ops F]

omit [F32Bits F] [F32Ops F] in
theorem first_layers {n : Net F} (hn : NetOk n) (k : Nat) :
    ∃ n1 : Net F, NetOk n1 ∧ n1.layers = n.layers.take k := by
  rcases Nat.eq_zero_or_pos k with rfl | hk
  · refine ⟨{ n with layers := [], intermediate_states := [] }, ⟨⟨?_, ?_, ?_, rfl⟩, ?_, ?_⟩, rfl⟩
    · intro i l l' h
      cases h
    · intro l h
      cases h
    · intro l h
      cases h
    · intro l h
      cases h
    · intro s h
      cases h
  · refine ⟨{ n with layers := n.layers.take k, intermediate_states := n.intermediate_states.take (k + 1)
                     output_shape := ((n.layers.take k).getLast?.map AnyLayer.get_output_shape).getD n.output_shape },
      ⟨⟨?_, ?_, ?_, ?_⟩, ?_, ?_⟩, rfl⟩
    · intro i l l' h h'
      have hi : i + 1 < k := by
        have := (List.getElem?_eq_some_iff.mp h').1
        rw [List.length_take] at this
        omega
      simp only [List.getElem?_take, if_pos hi, if_pos (show i < k by omega)] at h h'
      exact hn.chain.links i l l' h h'
    · intro l h
      refine hn.chain.first l ?_
      simp only [List.head?_take] at h
      rw [if_neg (by omega)] at h
      exact h
    · intro l h
      simp only [Network.get_output_shape]
      simp only at h
      rw [h]
      rfl
    · have hs := hn.chain.states
      simp only [List.map_take, hs]
      cases n.layers with
      | nil => simp [stateShapes]
      | cons l ls =>
        cases k with
        | zero => omega
        | succ k => simp [stateShapes, List.map_take]
    · intro l h
      exact hn.layers l (List.mem_of_mem_take h)
    · intro s h
      simp only at h
      refine hn.states s ?_
      cases hst : n.intermediate_states with
      | nil => rw [hst] at h; cases h
      | cons a as =>
        rw [hst, List.take_succ_cons] at h
        exact List.mem_of_mem_take h

theorem saved_parts (o : HashOrder) (n : Net F) (k : Nat) (hk : k ≤ n.get_layers.length) :
    ∃ A B, fileOf o n = encLen n.get_layers.length ++
        (A.flatMap encSerializedLayer ++ B.flatMap encSerializedLayer) ∧
      (o.network (SerializedNetwork.new_from_network n)).serial_layers = A ++ B ∧
      A.length = k ∧ B.length = n.get_layers.length - k ∧ 8 + (A.flatMap encSerializedLayer).length = typeAt n k ∧
      (∀ l, n.get_layers[k]? = some l → ∃ B', B = o.layer k l.get_serialized :: B') ∧
      ∀ n1 : Net F, n1.layers = n.layers.take k →
        o.network (SerializedNetwork.new_from_network n1) = ⟨A⟩ := by
  generalize hS : (o.network (SerializedNetwork.new_from_network n)).serial_layers = S
  have hget : ∀ i, S[i]? = (n.get_layers[i]?).map fun l => o.layer i l.get_serialized := by
    intro i
    rw [← hS]
    simp only [HashOrder.network, SerializedNetwork.new_from_network, List.getElem?_mapIdx, List.getElem?_map,
      Option.map_map]
    rfl
  have hlen : S.length = n.get_layers.length := by
    rw [← hS]
    simp [HashOrder.network, SerializedNetwork.new_from_network]
  have h1 : ∀ n1 : Net F, n1.layers = n.layers.take k →
      o.network (SerializedNetwork.new_from_network n1) = ⟨S.take k⟩ := by
    intro n1 hn1
    unfold HashOrder.network
    congr 1
    refine List.ext_getElem? fun i => ?_
    simp only [SerializedNetwork.new_from_network, List.getElem?_mapIdx, List.getElem?_map, Network.get_layers, hn1,
      List.getElem?_take]
    by_cases hi : i < k
    · rw [if_pos hi, if_pos hi, hget, Option.map_map]
      rfl
    · rw [if_neg hi, if_neg hi]
      rfl
  refine ⟨S.take k, S.drop k, ?_, (List.take_append_drop k S).symm, ?_, ?_, ?_, fun l hl => ?_, h1⟩
  · rw [← List.flatMap_append, List.take_append_drop, ← hlen, ← hS]
    rfl
  · rw [List.length_take]
    omega
  · rw [List.length_drop, hlen]
  · have e := len_file o ({ n with layers := n.layers.take k } : Net F)
    unfold fileOf at e
    rw [h1 _ rfl] at e
    unfold encSerializedNetwork at e
    rw [len_vec] at e
    exact e
  · have hk' : k < S.length := by rw [hlen]; exact (List.getElem?_eq_some_iff.mp hl).1
    refine ⟨S.drop (k + 1), ?_⟩
    rw [List.drop_eq_getElem_cons hk']
    congr 1
    have := hget k
    rw [hl, List.getElem?_eq_getElem hk'] at this
    exact Option.some.inj this

omit [F32Ops F] in
theorem saved_small (o : HashOrder) (n : Net F) {A B : List SerializedLayer}
    (hS : (o.network (SerializedNetwork.new_from_network n)).serial_layers = A ++ B)
    (hl : (fileOf o n).length < 2 ^ 64) :
    n.get_layers.length < 2 ^ 64 ∧ (∀ s ∈ A ++ B, (encSerializedLayer s).length < 2 ^ 64) ∧
      (∀ s ∈ A ++ B, ∀ r, decSerializedLayer (encSerializedLayer s ++ r) = some (s, r)) ∧
      (encSerializedNetwork ⟨A⟩).length < 2 ^ 64 := by
  have hlen : (A ++ B).length = n.get_layers.length := by
    rw [← hS]
    simp [HashOrder.network, SerializedNetwork.new_from_network]
  have hd := network_distinct o n
  unfold fileOf encSerializedNetwork at hl
  rw [hS] at hd hl
  rw [len_vec] at hl
  have h1 := count_le_flatMap len_serialized_pos (A ++ B)
  have h2 : ∀ s ∈ A ++ B, (encSerializedLayer s).length < 2 ^ 64 := fun s hs => by
    have := length_le_flatMap (e := encSerializedLayer) hs
    omega
  refine ⟨by omega, h2, fun s hs r => rt_serialized s (hd s hs) r (h2 s hs), ?_⟩
  unfold encSerializedNetwork
  rw [len_vec]
  rw [List.flatMap_append, List.length_append] at hl
  simp only
  omega

end

end Rusty
