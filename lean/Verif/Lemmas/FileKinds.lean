import Verif.Lemmas.LoadMemory
import Verif.Lemmas.Loading
import Verif.Lemmas.FileSize

/-! # Helper lemmas: reading a file of one kind as a file of another kind -/

namespace Rusty

open F32Ops Spec

/-! ## A length is two words -/

theorem leBytes_add (a c n : Nat) : leBytes (a + c) n = leBytes a n ++ leBytes c (n / 256 ^ a) := by
  induction a generalizing n with
  | zero => simp [leBytes]
  | succ a ih =>
    rw [Nat.add_right_comm]
    simp only [leBytes, List.cons_append, ih]
    rw [Nat.div_div_eq_div_mul, Nat.pow_succ, Nat.mul_comm (256 ^ a)]

theorem leBytes_mod (w n : Nat) : leBytes w (n % 256 ^ w) = leBytes w n := by
  induction w generalizing n with
  | zero => rfl
  | succ w ih =>
    simp only [leBytes]
    have e : (256 : Nat) ^ (w + 1) = 256 * 256 ^ w := by rw [Nat.pow_succ, Nat.mul_comm]
    rw [e, Nat.mod_mul_right_mod, Nat.mod_mul_right_div_self, ih]

theorem encLen_words (n : Nat) : encLen n = encU32 (UInt32.ofNat n) ++ encU32 (UInt32.ofNat (n / 2 ^ 32)) := by
  unfold encLen encU32
  rw [show (8 : Nat) = 4 + 4 from rfl, leBytes_add]
  have h : ∀ m, leBytes 4 (UInt32.ofNat m).toNat = leBytes 4 m := by
    intro m
    rw [UInt32.toNat_ofNat', ← leBytes_mod 4 m]
    rfl
  rw [h, h]
  rfl

theorem words_len (x y : UInt32) (r : Bytes) :
    decLen (encU32 x ++ (encU32 y ++ r)) = some (x.toNat + 2 ^ 32 * y.toNat, r) := by
  have hx := x.toNat_lt
  have hy := y.toNat_lt
  have h := rt_len (x.toNat + 2 ^ 32 * y.toNat) r (by omega)
  rw [encLen_words] at h
  have e1 : UInt32.ofNat (x.toNat + 2 ^ 32 * y.toNat) = x := by
    apply UInt32.toNat.inj
    rw [UInt32.toNat_ofNat']
    omega
  have e2 : UInt32.ofNat ((x.toNat + 2 ^ 32 * y.toNat) / 2 ^ 32) = y := by
    apply UInt32.toNat.inj
    rw [UInt32.toNat_ofNat']
    omega
  rw [e1, e2, List.append_assoc] at h
  exact h

/-! ## A decoded vector of many elements takes many bytes -/

theorem decN_length {α : Type} {d : Dec α} {n : Nat} {bs r : Bytes} {xs : List α}
    (h : decN d n bs = some (xs, r)) : xs.length = n := by
  induction n generalizing bs xs r with
  | zero => unfold decN at h; cases h; rfl
  | succ n ih =>
    unfold decN at h
    simp only [Option.bind_eq_bind, Option.bind_eq_some_iff, Option.pure_def, Prod.exists,
      Option.some.injEq, Prod.mk.injEq] at h
    obtain ⟨x, r1, h1, xs', r2, h2, h3, h4⟩ := h
    subst h3
    rw [List.length_cons, ih h2]

theorem weighs_tag : Weighs decSerializedLayer (fun _ => 12) := by
  intro bs a r h
  unfold decSerializedLayer at h
  simp only [Option.bind_eq_bind, Option.bind_eq_some_iff, Option.pure_def, Prod.exists] at h
  obtain ⟨tag, r1, h1, h2⟩ := h
  have e1 := weighs_u32 _ _ _ h1
  have map : ∀ {K : Type} [DecidableEq K] [SerKey K] (m : HMap K) (r' : Bytes),
      decHMap r1 = some (m, r') → 8 + r'.length ≤ r1.length := by
    intro K _ _ m r' hm
    unfold decHMap at hm
    simp only [Option.bind_eq_bind, Option.bind_eq_some_iff, Option.pure_def, Prod.exists,
      Option.some.injEq, Prod.mk.injEq] at hm
    obtain ⟨es, r2, h3, _, rfl⟩ := hm
    have := weighs_vec weighs_entry _ _ _ h3
    simp only at this
    omega
  split at h2
  all_goals first
    | (simp only [Option.bind_eq_some_iff, Prod.exists,
        Option.some.injEq, Prod.mk.injEq] at h2
       obtain ⟨m, r2, h3, _, rfl⟩ := h2
       have := map _ _ h3
       simp only at *
       omega)
    | cases h2

theorem weighs_entry12 {K : Type} [SerKey K] : Weighs (decEntry (K := K)) (fun _ => 12) := by
  intro bs a r h
  unfold decEntry decKey at h
  simp only [Option.bind_eq_bind, Option.bind_eq_some_iff, Option.pure_def, Prod.exists,
    Option.some.injEq, Prod.mk.injEq] at h
  obtain ⟨k, r1, ⟨i, r0, h0, k', h1, h2, h3⟩, v, r2, h4, h5, h6⟩ := h
  subst h6
  subst h3
  have e1 := weighs_u32 _ _ _ h0
  have e2 := weighs_vec weighs_u8 _ _ _ h4
  simp only at *
  omega

theorem decN_bytes {α : Type} {d : Dec α} {c n : Nat} (hw : Weighs d (fun _ => c)) {bs r : Bytes} {xs : List α}
    (h : decN d n bs = some (xs, r)) : c * n ≤ bs.length := by
  have := weighs_n hw n _ _ _ h
  simp only [sum_const, decN_length h] at this
  omega

/-! ## The bytes of a tensor as a network -/

variable {F : Type} [F32Bits F]

/-- all that the bytes of a well formed tensor can pass for is one convolutional layer without data -/
theorem tensor_as_network {t : Tensor F} (hw : t.WF) {sn : SerializedNetwork} {r : Bytes}
    (h : decSerializedNetwork (encTensor t) = some (sn, r)) :
    sn.serial_layers = [.SerialConvolutionalLayer HMap.new] := by
  have hlen := len_tensor t
  have hfit := hw.fits
  unfold decSerializedNetwork decVec at h
  simp only [Option.bind_eq_bind, Option.bind_eq_some_iff, Option.pure_def, Prod.exists,
    Option.some.injEq, Prod.mk.injEq] at h
  obtain ⟨ls, r1, ⟨n, r2, h1, h2⟩, h3, _⟩ := h
  subst h3
  have e : encTensor t = encU32 t.strides.i ++ (encU32 t.strides.j ++ (encU32 t.strides.k ++
      (encU32 t.shape.di ++ (encU32 t.shape.dj ++ (encU32 t.shape.dk ++ encVec encF32 t.data))))) := by
    unfold encTensor encStride encShape
    simp only [List.append_assoc]
  have hl2 : r2.length ≤ (encTensor t).length := by
    have := weighs_len _ _ _ h1
    simp only at this
    omega
  rw [e, words_len] at h1
  obtain ⟨rfl, rfl⟩ := Prod.mk.inj (Option.some.inj h1)
  have hdata := hw.len
  have hb := decN_bytes weighs_tag h2
  have hcount : t.shape.count < 2 ^ 32 := hfit.2
  have hdi : t.shape.di.toNat = 0 := by
    rw [hw.si, hw.sj] at hb
    rw [hlen, hdata] at hl2
    have h0 : (1 : UInt32).toNat = 1 := rfl
    omega
  rw [hw.si, hw.sj, hdi] at h2
  change decN decSerializedLayer 1 _ = _ at h2
  unfold decN at h2
  simp only [Option.bind_eq_bind, Option.bind_eq_some_iff, Option.pure_def, Prod.exists,
    Option.some.injEq, Prod.mk.injEq] at h2
  obtain ⟨s, r3, h4, xs, r4, h5, h6, h7⟩ := h2
  unfold decN at h5
  cases h5
  subst h6
  have hk : t.strides.k = 0 := by
    apply UInt32.toNat.inj
    rw [hw.sk, hdi, Nat.zero_mul]
    rfl
  have hz : t.shape.count = 0 := by
    unfold TensorShape.count
    rw [hdi]
    simp
  unfold decSerializedLayer at h4
  rw [u32_append, hk] at h4
  simp only [Option.bind_eq_bind, Option.bind_some] at h4
  change (do let (m, r) ← decHMap _; pure (SerializedLayer.SerialConvolutionalLayer m, r) : Option _) = _ at h4
  simp only [Option.bind_eq_bind, Option.bind_eq_some_iff, Option.pure_def, Prod.exists,
    Option.some.injEq, Prod.mk.injEq] at h4
  obtain ⟨m, r5, h8, h9, _⟩ := h4
  subst h9
  unfold decHMap decVec at h8
  simp only [Option.bind_eq_bind, Option.bind_eq_some_iff, Option.pure_def, Prod.exists,
    Option.some.injEq, Prod.mk.injEq] at h8
  obtain ⟨es, r6, ⟨n', r7, h10, h11⟩, h12, _⟩ := h8
  subst h12
  rw [words_len] at h10
  obtain ⟨rfl, rfl⟩ := Prod.mk.inj (Option.some.inj h10)
  have hb' := decN_bytes weighs_entry12 h11
  have hdj : t.shape.dj.toNat = 0 := by
    rw [List.length_append, len_u32, len_vec, flatMap_length_const (e := encF32) len_f32, hdata, hz] at hb'
    omega
  rw [hdi, hdj] at h11
  change decN decEntry 0 _ = _ at h11
  unfold decN at h11
  cases h11
  rfl

/-! ## The bytes of a network as a tensor -/

/-- the first bytes of a serialised map -/
theorem hmap_head {K : Type} [SerKey K] (es ds : List (K × Bytes)) (hp : es.Perm ds) (h0 : ds ≠ [])
    (h1 : ds.length < 2 ^ 32) (hv : ∀ e ∈ ds, e.2 ≠ []) :
    ∃ (c key : UInt32) (e : K × Bytes) (rest : Bytes), e ∈ ds ∧ e.2 ≠ [] ∧
      encHMap (⟨es⟩ : HMap K) =
        encU32 c ++ (encU32 0 ++ (encU32 key ++ (encLen e.2.length ++ (e.2 ++ rest)))) := by
  cases es with
  | nil => exact absurd (List.nil_perm.mp hp) h0
  | cons e es =>
    have hm : e ∈ ds := hp.subset List.mem_cons_self
    have hl : (e :: es).length < 2 ^ 32 := by rw [hp.length_eq]; exact h1
    refine ⟨UInt32.ofNat (e :: es).length, UInt32.ofNat (SerKey.idx e.1), e, es.flatMap encEntry, hm, hv e hm, ?_⟩
    unfold encHMap encVec
    rw [encLen_words, Nat.div_eq_of_lt hl, List.flatMap_cons]
    have e1 : encEntry e = encU32 (UInt32.ofNat (SerKey.idx e.1)) ++ (encLen e.2.length ++ e.2) := by
      unfold encEntry encKey encVec
      have : e.2.flatMap encU8 = e.2 := by
        change e.2.flatMap (fun x => [x]) = e.2
        exact List.flatMap_singleton' _
      rw [this]
    rw [e1]
    simp only [List.append_assoc]
    rfl

/-- the values a layer is saved as -/
def savedValues : AnyLayer F → List Bytes
  | .conv l => [encVec encTensor l.kernels, encVec encTensor l.biases, encShape l.input_shape,
      encU32 l.stride, encString l.name]
  | .fc l => [encTensor l.weights, encTensor l.bias, encString l.name]
  | .mp l => [encShape l.mask_shape, encShape l.input_shape, encU32 l.stride, encString l.name]
  | .sm l => [encShape l.shape, encString l.name]

theorem savedValues_ne {l : AnyLayer F} {v : Bytes} (h : v ∈ savedValues l) : v ≠ [] := by
  have hp : 0 < v.length := by
    cases l <;> simp only [savedValues, List.mem_cons, List.not_mem_nil, or_false] at h
    · rcases h with rfl | rfl | rfl | rfl | rfl <;>
        simp only [len_vec, len_shape, len_u32, len_string] <;> omega
    · rcases h with rfl | rfl | rfl <;> simp only [len_tensor, len_string] <;> omega
    · rcases h with rfl | rfl | rfl | rfl <;> simp only [len_shape, len_u32, len_string] <;> omega
    · rcases h with rfl | rfl <;> simp only [len_shape, len_string] <;> omega
  intro e
  rw [e] at hp
  exact absurd hp (Nat.lt_irrefl 0)

theorem layer_head (o : HashOrder) (i : Nat) (l : AnyLayer F) :
    ∃ (tag c key : UInt32) (v rest : Bytes), v ∈ savedValues l ∧
      encSerializedLayer (o.layer i l.get_serialized) = encU32 tag ++ (encU32 c ++ (encU32 0 ++
        (encU32 key ++ (encLen v.length ++ (v ++ rest))))) := by
  cases l with
  | conv l =>
    obtain ⟨c, key, e, rest, hm, _, he⟩ := hmap_head
      (o.pick i [(ConvKey.Kernels, encVec encTensor l.kernels),
        (.Biases, encVec encTensor l.biases), (.InputShape, encShape l.input_shape),
        (.Stride, encU32 l.stride), (.Name, encString l.name)]) _ (o.perm i _) (by simp) (by simp)
      (fun e he => savedValues_ne (l := .conv l) (by
        simp only [List.mem_cons, List.not_mem_nil, or_false] at he
        rcases he with rfl | rfl | rfl | rfl | rfl <;> simp [savedValues]))
    refine ⟨0, c, key, e.2, rest, ?_, congrArg (encU32 0 ++ ·) he⟩
    simp only [List.mem_cons, List.not_mem_nil, or_false] at hm
    rcases hm with rfl | rfl | rfl | rfl | rfl <;> simp [savedValues]
  | fc l =>
    obtain ⟨c, key, e, rest, hm, _, he⟩ := hmap_head
      (o.pick i [(FCKey.Weights, encTensor l.weights), (.Bias, encTensor l.bias),
        (.Name, encString l.name)]) _ (o.perm i _) (by simp) (by simp)
      (fun e he => savedValues_ne (l := .fc l) (by
        simp only [List.mem_cons, List.not_mem_nil, or_false] at he
        rcases he with rfl | rfl | rfl <;> simp [savedValues]))
    refine ⟨1, c, key, e.2, rest, ?_, congrArg (encU32 1 ++ ·) he⟩
    simp only [List.mem_cons, List.not_mem_nil, or_false] at hm
    rcases hm with rfl | rfl | rfl <;> simp [savedValues]
  | mp l =>
    obtain ⟨c, key, e, rest, hm, _, he⟩ := hmap_head
      (o.pick i [(MPKey.MaskShape, encShape l.mask_shape),
        (.InputShape, encShape l.input_shape), (.Stride, encU32 l.stride), (.Name, encString l.name)])
      _ (o.perm i _) (by simp) (by simp)
      (fun e he => savedValues_ne (F := F) (l := .mp l) (by
        simp only [List.mem_cons, List.not_mem_nil, or_false] at he
        rcases he with rfl | rfl | rfl | rfl <;> simp [savedValues]))
    refine ⟨2, c, key, e.2, rest, ?_, congrArg (encU32 2 ++ ·) he⟩
    simp only [List.mem_cons, List.not_mem_nil, or_false] at hm
    rcases hm with rfl | rfl | rfl | rfl <;> simp [savedValues]
  | sm l =>
    obtain ⟨c, key, e, rest, hm, _, he⟩ := hmap_head
      (o.pick i [(SMKey.Shape, encShape l.shape), (.Name, encString l.name)]) _ (o.perm i _) (by simp) (by simp)
      (fun e he => savedValues_ne (l := .sm l) (by
        simp only [List.mem_cons, List.not_mem_nil, or_false] at he
        rcases he with rfl | rfl <;> simp [savedValues]))
    refine ⟨3, c, key, e.2, rest, ?_, congrArg (encU32 3 ++ ·) he⟩
    simp only [List.mem_cons, List.not_mem_nil, or_false] at hm
    rcases hm with rfl | rfl <;> simp [savedValues]

/-- the beginning of the file of a network -/
theorem file_head (o : HashOrder) (n : Net F) {l : AnyLayer F} {ls : List (AnyLayer F)} (hn : n.layers = l :: ls) :
    ∃ (a d tag c key : UInt32) (v rest : Bytes), v ∈ savedValues l ∧
      fileOf o n = encU32 a ++ (encU32 d ++ (encU32 tag ++ (encU32 c ++ (encU32 0 ++
        (encU32 key ++ (encLen v.length ++ (v ++ rest))))))) := by
  obtain ⟨tag, c, key, v, rest, hm, he⟩ := layer_head o 0 l
  unfold fileOf encSerializedNetwork HashOrder.network SerializedNetwork.new_from_network Network.get_layers encVec
  rw [hn, encLen_words]
  simp only [List.map_cons, List.mapIdx_cons, List.flatMap_cons, he, List.append_assoc]
  exact ⟨_, _, tag, c, key, v, _, hm, rfl⟩

/-- the first 32 bytes decide what `from_file` makes of a file -/
theorem words_tensor (a d tag c z key : UInt32) (m : Nat) (hm : m < 2 ^ 64) (r : Bytes) :
    decTensor (F := F) (encU32 a ++ (encU32 d ++ (encU32 tag ++ (encU32 c ++ (encU32 z ++
        (encU32 key ++ (encLen m ++ r))))))) =
      (decN decF32 m r).map fun p => (⟨⟨a, d, tag⟩, ⟨c, z, key⟩, p.1⟩, p.2) := by
  unfold decTensor decStride decShape decVec
  simp only [u32_append, rt_len m _ hm, Option.bind_eq_bind, Option.bind_some, Option.pure_def]
  cases decN (decF32 (F := F)) m r with
  | none => rfl
  | some p => rfl

theorem decN_f32 (m : Nat) (r : Bytes) (h : 4 * m ≤ r.length) : ∃ p, decN (decF32 (F := F)) m r = some p := by
  induction m generalizing r with
  | zero => exact ⟨_, rfl⟩
  | succ m ih =>
    have h1 : decF32 (F := F) r = some (F32Bits.ofBits (UInt32.ofNat (leVal (r.take 4))), r.drop 4) := by
      unfold decF32 decU32 decTake
      rw [if_neg (by omega)]
      rfl
    obtain ⟨p, hp⟩ := ih (r.drop 4) (by rw [List.length_drop]; omega)
    unfold decN
    rw [h1]
    simp only [Option.bind_eq_bind, Option.bind_some, hp]
    exact ⟨_, rfl⟩

variable [F32Ops F]

/-- the file of a network that begins with two small softmax layers is accepted -/
theorem two_softmax_accepted (n : Net F) (o : HashOrder) (s1 s2 : TensorShape) (ls : List (AnyLayer F))
    (p1 p2 q1 q2 : Tensor F) (m1 m2 : NetworkRunState)
    (hn : n.layers = .sm ⟨s1, "a", p1, q1, m1⟩ :: .sm ⟨s2, "b", p2, q2, m2⟩ :: ls)
    (fs : FS) (name : String) :
    ∃ t : Tensor F, Tensor.from_file (n.save_to_file o .done fs name).2 name = .ok t := by
  obtain ⟨a, d, tag, c, key, v, rest, hm, he⟩ := file_head o n hn
  have hlen := len_file o n
  unfold Network.get_layers at hlen
  rw [hn] at hlen
  simp only [List.map_cons, List.sum_cons, layerBytes] at hlen
  have hua : "a".utf8ByteSize = 1 := by decide
  have hub : "b".utf8ByteSize = 1 := by decide
  rw [hua, hub] at hlen
  have hv : v.length ≤ 12 := by
    simp only [savedValues, List.mem_cons, List.not_mem_nil, or_false] at hm
    rcases hm with rfl | rfl
    · rw [len_shape]
    · rw [len_string, hua]; omega
  rw [he] at hlen
  simp only [List.length_append, len_u32, len_len] at hlen
  obtain ⟨p, hp⟩ := decN_f32 (F := F) v.length (v ++ rest) (by rw [List.length_append]; omega)
  refine ⟨⟨⟨a, d, tag⟩, ⟨c, 0, key⟩, p.1⟩, ?_⟩
  unfold Tensor.from_file Network.save_to_file fs_write
  simp only [FS.set, if_true]
  change (match (deserialize decTensor (fileOf o n) : Option (Tensor F)) with
    | none => Except.error "bincode error"
    | some t => Except.ok t) = _
  unfold deserialize
  rw [he, words_tensor _ _ _ _ _ _ _ (by omega), hp]
  rfl

end Rusty
