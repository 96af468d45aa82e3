import Verif.Lemmas.Serialization
import Verif.Lemmas.Custom
import Verif.Lemmas.Switch
import Verif.Spec.LoadMemory

/-! # A decoder makes nothing out of nothing -/

namespace Rusty

open F32Ops Spec

/-- what is decoded weighs no more than the bytes that were consumed -/
def Weighs {α : Type} (d : Dec α) (w : α → Nat) : Prop :=
  ∀ bs a r, d bs = some (a, r) → w a + r.length ≤ bs.length

theorem weighs_take (k : Nat) : Weighs (decTake k) (fun _ => k) := by
  intro bs a r h
  unfold decTake at h
  split at h
  · cases h
  · cases h
    simp only [List.length_drop]
    omega

theorem weighs_u8 : Weighs decU8 (fun _ => 1) := by
  intro bs a r h
  cases bs with
  | nil => cases h
  | cons x xs => cases h; simp only [List.length_cons]; omega

theorem weighs_u32 : Weighs decU32 (fun _ => 4) := by
  intro bs a r h
  unfold decU32 at h
  simp only [Option.bind_eq_bind, Option.bind_eq_some_iff, Option.pure_def, Prod.exists,
    Option.some.injEq, Prod.mk.injEq] at h
  obtain ⟨w, r', h1, h2, h3⟩ := h
  subst h3
  exact weighs_take 4 _ _ _ h1

theorem weighs_len : Weighs decLen (fun _ => 8) := by
  intro bs a r h
  unfold decLen at h
  simp only [Option.bind_eq_bind, Option.bind_eq_some_iff, Option.pure_def, Prod.exists,
    Option.some.injEq, Prod.mk.injEq] at h
  obtain ⟨w, r', h1, h2, h3⟩ := h
  subst h3
  exact weighs_take 8 _ _ _ h1

theorem weighs_n {α : Type} {d : Dec α} {w : α → Nat} (h : Weighs d w) (n : Nat) :
    Weighs (decN d n) (fun xs => (xs.map w).sum) := by
  induction n with
  | zero =>
    intro bs a r h'
    unfold decN at h'
    cases h'
    simp
  | succ n ih =>
    intro bs a r h'
    unfold decN at h'
    simp only [Option.bind_eq_bind, Option.bind_eq_some_iff, Option.pure_def, Prod.exists,
      Option.some.injEq, Prod.mk.injEq] at h'
    obtain ⟨x, r1, h1, xs, r2, h2, h3, h4⟩ := h'
    subst h3
    subst h4
    have e1 := h _ _ _ h1
    have e2 := ih _ _ _ h2
    simp only [List.map_cons, List.sum_cons] at e2 ⊢
    omega

theorem weighs_vec {α : Type} {d : Dec α} {w : α → Nat} (h : Weighs d w) :
    Weighs (decVec d) (fun xs => 8 + (xs.map w).sum) := by
  intro bs a r h'
  unfold decVec at h'
  simp only [Option.bind_eq_bind, Option.bind_eq_some_iff, Prod.exists] at h'
  obtain ⟨n, r1, h1, h2⟩ := h'
  have e1 := weighs_len _ _ _ h1
  have e2 := weighs_n h n _ _ _ h2
  simp only at e1 e2 ⊢
  omega

theorem sum_const {α : Type} (c : Nat) (xs : List α) : (xs.map fun _ => c).sum = c * xs.length := by
  induction xs with
  | nil => rfl
  | cons x xs ih => rw [List.map_cons, List.sum_cons, ih, List.length_cons, Nat.mul_succ, Nat.add_comm]

theorem weighs_f32 {F : Type} [F32Bits F] : Weighs (decF32 (F := F)) (fun _ => 4) := by
  intro bs a r h
  unfold decF32 at h
  simp only [Option.bind_eq_bind, Option.bind_eq_some_iff, Option.pure_def, Prod.exists,
    Option.some.injEq, Prod.mk.injEq] at h
  obtain ⟨w, r', h1, h2, h3⟩ := h
  subst h3
  exact weighs_u32 _ _ _ h1

theorem weighs_shape : Weighs decShape (fun _ => 12) := by
  intro bs a r h
  unfold decShape at h
  simp only [Option.bind_eq_bind, Option.bind_eq_some_iff, Option.pure_def, Prod.exists,
    Option.some.injEq, Prod.mk.injEq] at h
  obtain ⟨x, r1, h1, y, r2, h2, z, r3, h3, h4, h5⟩ := h
  subst h5
  have e1 := weighs_u32 _ _ _ h1
  have e2 := weighs_u32 _ _ _ h2
  have e3 := weighs_u32 _ _ _ h3
  simp only at *
  omega

theorem weighs_stride : Weighs decStride (fun _ => 12) := by
  intro bs a r h
  unfold decStride at h
  simp only [Option.bind_eq_bind, Option.bind_eq_some_iff, Option.pure_def, Prod.exists,
    Option.some.injEq, Prod.mk.injEq] at h
  obtain ⟨x, r1, h1, y, r2, h2, z, r3, h3, h4, h5⟩ := h
  subst h5
  have e1 := weighs_u32 _ _ _ h1
  have e2 := weighs_u32 _ _ _ h2
  have e3 := weighs_u32 _ _ _ h3
  simp only at *
  omega

theorem weighs_tensor {F : Type} [F32Bits F] :
    Weighs (decTensor (F := F)) (fun t => 32 + 4 * t.data.length) := by
  intro bs a r h
  unfold decTensor at h
  simp only [Option.bind_eq_bind, Option.bind_eq_some_iff, Option.pure_def, Prod.exists,
    Option.some.injEq, Prod.mk.injEq] at h
  obtain ⟨x, r1, h1, y, r2, h2, z, r3, h3, h4, h5⟩ := h
  subst h4
  subst h5
  have e1 := weighs_stride _ _ _ h1
  have e2 := weighs_shape _ _ _ h2
  have e3 := weighs_vec weighs_f32 _ _ _ h3
  simp only [sum_const] at *
  omega

theorem sum_le {α : Type} {f g : α → Nat} {xs : List α} (h : ∀ x ∈ xs, f x ≤ g x) :
    (xs.map f).sum ≤ (xs.map g).sum := by
  induction xs with
  | nil => exact Nat.le_refl _
  | cons x xs ih =>
    simp only [List.map_cons, List.sum_cons]
    have h1 := h x List.mem_cons_self
    have h2 := ih fun y hy => h y (List.mem_cons_of_mem _ hy)
    omega

theorem weighs_tensors {F : Type} [F32Ops F] [F32Bits F] :
    Weighs (decVec (decTensor (F := F))) (fun ts => 4 * cells ts) := by
  intro bs a r h
  have e := weighs_vec weighs_tensor _ _ _ h
  have : 4 * cells a ≤ (a.map fun t => 32 + 4 * t.data.length).sum := by
    unfold cells
    clear h e
    induction a with
    | nil => exact Nat.le_refl _
    | cons x xs ih =>
      simp only [List.map_cons, List.sum_cons]
      omega
  simp only at *
  omega

/-! ## Maps -/

section

variable {K : Type} [DecidableEq K] [SerKey K]

/-- the bytes of all values of a map -/
def HMap.bytes (m : HMap K) : Nat := (m.entries.map fun e => e.2.length).sum

omit [DecidableEq K] in
theorem weighs_entry : Weighs (decEntry (K := K)) (fun e => e.2.length) := by
  intro bs a r h
  unfold decEntry decKey at h
  simp only [Option.bind_eq_bind, Option.bind_eq_some_iff, Option.pure_def, Prod.exists,
    Option.some.injEq, Prod.mk.injEq] at h
  obtain ⟨k, r1, ⟨i, r0, h0, k', h1, h2, h3⟩, v, r2, h4, h5, h6⟩ := h
  subst h5
  subst h6
  subst h3
  have e1 := weighs_u32 _ _ _ h0
  have e2 := weighs_vec weighs_u8 _ _ _ h4
  simp only [sum_const] at *
  omega

omit [SerKey K] in
theorem bytes_insert (m : HMap K) (k : K) (v : Bytes) : (m.insert k v).bytes ≤ m.bytes + v.length := by
  unfold HMap.insert HMap.bytes
  simp only [List.map_append, List.sum_append, List.map_cons, List.map_nil, List.sum_cons, List.sum_nil]
  have : ((m.entries.filter (fun e => e.1 ≠ k)).map fun e => e.2.length).sum ≤
      (m.entries.map fun e => e.2.length).sum := by
    induction m.entries with
    | nil => exact Nat.le_refl _
    | cons e es ih =>
      rw [List.filter_cons]
      split
      · simp only [List.map_cons, List.sum_cons]; omega
      · simp only [List.map_cons, List.sum_cons]; omega
  omega

omit [SerKey K] in
theorem bytes_fold (es : List (K × Bytes)) (m : HMap K) :
    (es.foldl (fun m e => m.insert e.1 e.2) m).bytes ≤ m.bytes + (es.map fun e => e.2.length).sum := by
  induction es generalizing m with
  | nil => simp
  | cons e es ih =>
    rw [List.foldl_cons]
    have h1 := ih (m.insert e.1 e.2)
    have h2 := bytes_insert m e.1 e.2
    simp only [List.map_cons, List.sum_cons]
    omega

theorem weighs_hmap : Weighs (decHMap (K := K)) HMap.bytes := by
  intro bs a r h
  unfold decHMap at h
  simp only [Option.bind_eq_bind, Option.bind_eq_some_iff, Option.pure_def, Prod.exists,
    Option.some.injEq, Prod.mk.injEq] at h
  obtain ⟨es, r1, h1, h2, h3⟩ := h
  subst h2
  subst h3
  have e1 := weighs_vec weighs_entry _ _ _ h1
  have e2 := bytes_fold es HMap.new
  have e3 : (HMap.new : HMap K).bytes = 0 := rfl
  simp only at *
  omega

omit [SerKey K] in
theorem get_le {m : HMap K} {k : K} {v : Bytes} (h : m.get k = some v) :
    (k, v) ∈ m.entries := by
  unfold HMap.get at h
  obtain ⟨e, he, rfl⟩ := Option.map_eq_some_iff.mp h
  have h1 := List.find?_some he
  have h2 := List.mem_of_find?_eq_some he
  simp only [decide_eq_true_eq] at h1
  rw [← h1]
  exact h2

omit [SerKey K] in
/-- the values of two different keys are different parts of the map -/
theorem get_two_le {m : HMap K} {k1 k2 : K} {v1 v2 : Bytes} (hk : k1 ≠ k2) (h1 : m.get k1 = some v1)
    (h2 : m.get k2 = some v2) : v1.length + v2.length ≤ m.bytes := by
  have h1 := get_le h1
  have h2 := get_le h2
  unfold HMap.bytes
  generalize m.entries = es at h1 h2
  have single : ∀ (es : List (K × Bytes)) (k : K) (v : Bytes), (k, v) ∈ es →
      v.length ≤ (es.map fun e => e.2.length).sum := by
    intro es k v h
    induction es with
    | nil => cases h
    | cons e es ih =>
      simp only [List.map_cons, List.sum_cons]
      rcases List.mem_cons.mp h with h | h
      · rw [← h]; exact Nat.le_add_right _ _
      · have := ih h; omega
  induction es with
  | nil => cases h1
  | cons e es ih =>
    simp only [List.map_cons, List.sum_cons]
    rcases List.mem_cons.mp h1 with h1 | h1 <;> rcases List.mem_cons.mp h2 with h2 | h2
    · rw [← h1] at h2
      cases h2
      exact absurd rfl hk
    · rw [← h1]
      have := single es _ _ h2
      simp only
      omega
    · rw [← h2]
      have := single es _ _ h1
      simp only
      omega
    · have := ih h1 h2
      omega

omit [SerKey K] in
theorem fetch_inv {α : Type} {m : HMap K} {k : K} {d : Dec α} {a : α} (h : fetch m k d = .ok a) :
    ∃ v r, m.get k = some v ∧ d v = some (a, r) := by
  unfold fetch at h
  split at h
  · cases h
  · rename_i v hv
    split at h
    · cases h
    · rename_i a' ha
      cases h
      unfold deserialize at ha
      obtain ⟨p, hp, rfl⟩ := Option.map_eq_some_iff.mp ha
      exact ⟨v, p.2, hv, hp⟩

omit [SerKey K] in
theorem fetch_two {α β : Type} {m : HMap K} {k1 k2 : K} {d1 : Dec α} {d2 : Dec β} {w1 : α → Nat}
    {w2 : β → Nat} (hd1 : Weighs d1 w1) (hd2 : Weighs d2 w2) {x : α} {y : β} (hk : k1 ≠ k2)
    (h1 : fetch m k1 d1 = .ok x) (h2 : fetch m k2 d2 = .ok y) : w1 x + w2 y ≤ m.bytes := by
  obtain ⟨v1, r1, g1, e1⟩ := fetch_inv h1
  obtain ⟨v2, r2, g2, e2⟩ := fetch_inv h2
  have := get_two_le hk g1 g2
  have := hd1 _ _ _ e1
  have := hd2 _ _ _ e2
  omega

end

/-- the bytes of all values of a serialised layer -/
def SerializedLayer.bytes : SerializedLayer → Nat
  | .SerialConvolutionalLayer m => m.bytes
  | .SerialFullyConnectedLayer m => m.bytes
  | .SerialMaxPoolLayer m => m.bytes
  | .SerialSoftMaxLayer m => m.bytes

theorem weighs_serialized : Weighs decSerializedLayer SerializedLayer.bytes := by
  intro bs a r h
  unfold decSerializedLayer at h
  simp only [Option.bind_eq_bind, Option.bind_eq_some_iff, Prod.exists] at h
  obtain ⟨tag, r1, h1, h2⟩ := h
  have e1 := weighs_u32 _ _ _ h1
  split at h2
  all_goals first
    | cases h2
    | (simp only [Option.bind_eq_some_iff, Option.pure_def, Prod.exists, Option.some.injEq,
        Prod.mk.injEq] at h2
       obtain ⟨m, r2, h3, h4, h5⟩ := h2
       subst h4
       subst h5
       have e2 := weighs_hmap _ _ _ h3
       simp only [SerializedLayer.bytes] at *
       omega)

theorem weighs_network :
    Weighs decSerializedNetwork (fun sn => 8 + (sn.serial_layers.map SerializedLayer.bytes).sum) := by
  intro bs a r h
  unfold decSerializedNetwork at h
  simp only [Option.bind_eq_bind, Option.bind_eq_some_iff, Option.pure_def, Prod.exists,
    Option.some.injEq, Prod.mk.injEq] at h
  obtain ⟨es, r1, h1, h2, h3⟩ := h
  subst h2
  subst h3
  exact weighs_vec weighs_serialized _ _ _ h1

/-! ## Layers -/

variable {F : Type} [F32Ops F] [F32Bits F] {b : Build}

omit [F32Ops F] [F32Bits F] in
theorem stored_params {l l' : AnyLayer F} (h : params l' = params l) : storedParams l' = storedParams l := by
  have e : ∀ l : AnyLayer F, storedParams (params l) = storedParams l := by
    intro l; cases l <;> rfl
  rw [← e l', h, e l]

theorem fc_load_params {l0 l : FullyConnectedLayer F} {m : HMap FCKey}
    (h : l0.load_from_serialized b (.SerialFullyConnectedLayer m) = .ok (.ok (), l)) :
    4 * storedParams (.fc l) ≤ m.bytes := by
  unfold FullyConnectedLayer.load_from_serialized FullyConnectedLayer.load_from_serialized_data at h
  simp only at h
  split at h
  · cases h
  split at h
  · cases h
  split at h
  · cases h
  obtain ⟨w, h1, h⟩ := bind_inv h
  obtain ⟨bi, h2, h⟩ := bind_inv h
  obtain ⟨name, h3, h⟩ := bind_inv h
  have e := fetch_two weighs_tensor weighs_tensor (by decide) h1 h2
  unfold FullyConnectedLayer.fill_from_state at h
  simp only at h
  split at h
  · cases h
  split at h
  · cases h
  split at h
  · cases h
  obtain ⟨l', h4, h⟩ := bind_inv h
  cases h
  obtain ⟨e1, e2, _⟩ := fc_update_params _ _ h4
  simp only [storedParams, cells, e1, e2, List.map_cons, List.map_nil, List.sum_cons, List.sum_nil] at e ⊢
  omega

theorem conv_load_params {l0 l : ConvolutionalLayer F} {m : HMap ConvKey}
    (h : l0.load_from_serialized b (.SerialConvolutionalLayer m) = .ok (.ok (), l)) :
    4 * storedParams (.conv l) ≤ m.bytes := by
  unfold ConvolutionalLayer.load_from_serialized ConvolutionalLayer.load_from_serialized_data at h
  simp only at h
  split at h
  · cases h
  split at h
  · cases h
  split at h
  · cases h
  split at h
  · cases h
  split at h
  · cases h
  obtain ⟨ks, h1, h⟩ := bind_inv h
  obtain ⟨bs, h2, h⟩ := bind_inv h
  obtain ⟨is, h3, h⟩ := bind_inv h
  obtain ⟨st, h4, h⟩ := bind_inv h
  obtain ⟨name, h5, h⟩ := bind_inv h
  have e := fetch_two weighs_tensors weighs_tensors (by decide) h1 h2
  unfold ConvolutionalLayer.fill_from_state at h
  split at h
  · cases h
  simp only at h
  split at h
  · cases h
  obtain ⟨ok, h6, h⟩ := bind_inv h
  split at h
  · cases h
  obtain ⟨d, h7, h⟩ := bind_inv h
  cases h
  simp only [storedParams] at e ⊢
  omega

omit [F32Bits F] in
/-- entering a mode leaves the parameters alone -/
theorem enter_params {m : NetworkRunState} {l l' : AnyLayer F} (h : Network.enter_mode b m l = .ok l') :
    storedParams l' = storedParams l := by
  cases m with
  | Training => exact stored_params (switch_training_effect l l' h).2.1
  | Inference =>
    obtain ⟨l1, e, _, h1, _⟩ := switch_inference_ok (b := b) l
    have h : l.switch_to_inference b = .ok l' := h
    rw [e] at h
    cases h
    exact stored_params h1

omit [F32Bits F] in
theorem add_params {n n' : Net F} {l : AnyLayer F} {r : Res} (h : n.add_layer b l = .ok (r, n')) :
    (n'.layers.map storedParams).sum ≤ (n.layers.map storedParams).sum + storedParams l := by
  obtain ⟨l', h1, ⟨_, _, h2⟩ | ⟨_, _, ts, gs, _, _, h2⟩⟩ := add_any_effect n l _ h
  · have h2 : n' = n := h2
    rw [h2]
    exact Nat.le_add_right _ _
  · have h2 : n'.layers = n.layers ++ [l'] := congrArg Network.layers h2
    rw [h2, List.map_append, List.sum_append, List.map_cons, List.map_nil, List.sum_cons, List.sum_nil,
      enter_params h1]
    omega

theorem add_to_params {n n' : Net F} {s : SerializedLayer} {r : Res} (h : s.add_to_network b n = .ok (r, n')) :
    4 * (n'.layers.map storedParams).sum ≤ 4 * (n.layers.map storedParams).sum + s.bytes := by
  cases s with
  | SerialConvolutionalLayer m =>
    obtain ⟨l0, _, h⟩ := bind_inv h
    obtain ⟨⟨r1, l⟩, h1, h⟩ := bind_inv h
    cases r1 with
    | error e => cases h; exact Nat.le_add_right _ _
    | ok u =>
      have := add_params h
      have := conv_load_params h1
      simp only [SerializedLayer.bytes]
      omega
  | SerialFullyConnectedLayer m =>
    obtain ⟨l0, _, h⟩ := bind_inv h
    obtain ⟨⟨r1, l⟩, h1, h⟩ := bind_inv h
    cases r1 with
    | error e => cases h; exact Nat.le_add_right _ _
    | ok u =>
      have := add_params h
      have := fc_load_params h1
      simp only [SerializedLayer.bytes]
      omega
  | SerialMaxPoolLayer m =>
    obtain ⟨⟨r1, l⟩, h1, h⟩ := bind_inv h
    cases r1 with
    | error e => cases h; exact Nat.le_add_right _ _
    | ok u =>
      have := add_params h
      have e : storedParams (AnyLayer.mp l : AnyLayer F) = 0 := rfl
      rw [e] at this
      omega
  | SerialSoftMaxLayer m =>
    obtain ⟨l0, _, h⟩ := bind_inv h
    obtain ⟨⟨r1, l⟩, h1, h⟩ := bind_inv h
    cases r1 with
    | error e => cases h; exact Nat.le_add_right _ _
    | ok u =>
      have := add_params h
      have e : storedParams (AnyLayer.sm l : AnyLayer F) = 0 := rfl
      rw [e] at this
      omega

end Rusty
