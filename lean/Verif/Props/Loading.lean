import Verif.Lemmas.LoadingDebug
import Verif.Props.NetworkFiles

/-! # C59: when loading a file panics; C35: when adding a layer does -/

namespace Rusty

open F32Ops Spec

variable {F : Type} [F32Ops F] [F32Bits F]

/-- C59 for files without poisonous layers: loading returns, in release builds always, in debug builds
if no size in the file overflows.

Partial: false for files with a poisonous layer, see `C59_poison_negation`. -/
theorem C59_clean_partial (b : Build) (n : Net F) (fs : FS) (name : String)
    (h : ∀ bs sn, fs name = some bs → deserialize decSerializedNetwork bs = some sn →
      ∀ s ∈ sn.serial_layers, ¬ Poison F s ∧ (b = .release ∨ Sized F s)) :
    ∃ r n', n.load_from_file b fs name = .ok (r, n') := by
  unfold Network.load_from_file
  cases hf : fs name with
  | none => exact ⟨_, _, rfl⟩
  | some bs =>
    simp only
    cases hd : deserialize decSerializedNetwork bs with
    | none => exact ⟨_, _, rfl⟩
    | some sn =>
      have h := h bs sn hf hd
      simp only
      unfold SerializedNetwork.populate_network
      obtain ⟨r, n', e, _⟩ := forListE_run sn.serial_layers n
        (fun layer n => layer.add_to_network b n) (fun _ _ => True) trivial
        (fun pre s post n hs _ => by
          obtain ⟨hp, hb⟩ := h s (by rw [hs]; simp)
          by_cases hl : lacksKey s
          · obtain ⟨e, he⟩ := add_lacking b n s hl
            exact ⟨_, _, he, fun _ => trivial⟩
          · have hd : Decodes F s := Classical.byContradiction fun hd => hp ⟨hl, .inl hd⟩
            obtain ⟨r, n', e⟩ := add_returns b n s hd (fun hz => hp ⟨hl, .inr hz⟩) hb
            exact ⟨r, n', e, fun _ => trivial⟩)
      exact ⟨r, n', e⟩

/-- C59 is false of every file with a poisonous layer that is reached: one with all its keys, of which
one holds something else than a value of its type, or with stride 0. -/
theorem C59_poison_negation (b : Build) (n n1 : Net F) (fs : FS) (name : String) (bs : Bytes)
    (pre post : List SerializedLayer) (s : SerializedLayer) (hf : fs name = some bs)
    (hd : deserialize decSerializedNetwork bs = some ⟨pre ++ s :: post⟩)
    (hpre : SerializedNetwork.populate_network b ⟨pre⟩ n = .ok (.ok (), n1)) (hs : Poison F s) :
    ∃ p, n.load_from_file b fs name = .error p := by
  unfold Network.load_from_file
  rw [hf]
  simp only
  rw [hd]
  obtain ⟨p, hp⟩ := add_poison b n1 s hs
  refine ⟨p, ?_⟩
  unfold SerializedNetwork.populate_network at hpre ⊢
  simp only at hpre ⊢
  rw [forListE_append _ _ _ _ _ hpre, forListE_cons, hp]
  rfl

/-- C59: in release builds these are the only files that make loading panic. -/
theorem C59_release_partial (n : Net F) (fs : FS) (name : String) :
    (∃ p, n.load_from_file .release fs name = .error p) ↔
      ∃ bs pre s post n1, fs name = some bs ∧
        deserialize decSerializedNetwork bs = some ⟨pre ++ s :: post⟩ ∧
        SerializedNetwork.populate_network .release ⟨pre⟩ n = .ok (.ok (), n1) ∧ Poison F s := by
  constructor
  · rintro ⟨p, hp⟩
    unfold Network.load_from_file at hp
    cases hf : fs name with
    | none => rw [hf] at hp; cases hp
    | some bs =>
      rw [hf] at hp
      simp only at hp
      cases hd : deserialize decSerializedNetwork bs with
      | none => rw [hd] at hp; cases hp
      | some sn =>
        rw [hd] at hp
        simp only at hp
        by_contra hno
        obtain ⟨r, n', e, _⟩ := forListE_run sn.serial_layers n
          (fun layer n => layer.add_to_network .release n)
          (fun pre n1 => SerializedNetwork.populate_network .release ⟨pre⟩ n = .ok (.ok (), n1)) rfl
          (fun pre s post n1 hs hpre => by
            have hp : ¬ Poison F s := fun hp => hno ⟨bs, pre, s, post, n1, rfl, by rw [hd, ← hs],
              hpre, hp⟩
            have hstep : ∀ n2, s.add_to_network .release n1 = .ok (.ok (), n2) →
                SerializedNetwork.populate_network .release ⟨pre ++ [s]⟩ n = .ok (.ok (), n2) := by
              intro n2 h2
              unfold SerializedNetwork.populate_network at hpre ⊢
              simp only at hpre ⊢
              rw [forListE_append _ _ _ _ _ hpre, forListE_cons, h2]
              rfl
            by_cases hl : lacksKey s
            · obtain ⟨e, he⟩ := add_lacking .release n1 s hl
              exact ⟨_, _, he, fun h => by cases h⟩
            · have hd : Decodes F s := Classical.byContradiction fun hd => hp ⟨hl, .inl hd⟩
              obtain ⟨r, n', e⟩ := add_returns .release n1 s hd (fun hz => hp ⟨hl, .inr hz⟩) (.inl rfl)
              exact ⟨r, n', e, fun hr => hstep n' (hr ▸ e)⟩)
        unfold SerializedNetwork.populate_network at hp
        rw [e] at hp
        cases hp
  · rintro ⟨bs, pre, s, post, n1, h1, h2, h3, h4⟩
    exact C59_poison_negation .release n n1 fs name bs pre post s h1 h2 h3 h4

/-- C59 in debug builds: loading panics exactly when a layer that is reached is poisonous or one of its sizes
overflows on the way into the network. -/
theorem C59_debug_partial (n : Net F) (fs : FS) (name : String) :
    (∃ p, n.load_from_file .debug fs name = .error p) ↔
      ∃ bs pre s post n1, fs name = some bs ∧
        deserialize decSerializedNetwork bs = some ⟨pre ++ s :: post⟩ ∧
        SerializedNetwork.populate_network .debug ⟨pre⟩ n = .ok (.ok (), n1) ∧
        (Poison F s ∨ Decodes F s ∧ ¬ ZeroStride F s ∧ SizePanics n1 s) := by
  constructor
  · rintro ⟨p, hp⟩
    unfold Network.load_from_file at hp
    cases hf : fs name with
    | none => rw [hf] at hp; cases hp
    | some bs =>
      rw [hf] at hp
      simp only at hp
      cases hd : deserialize decSerializedNetwork bs with
      | none => rw [hd] at hp; cases hp
      | some sn =>
        rw [hd] at hp
        simp only at hp
        by_contra hno
        obtain ⟨r, n', e, _⟩ := forListE_run sn.serial_layers n
          (fun layer n => layer.add_to_network .debug n)
          (fun pre n1 => SerializedNetwork.populate_network .debug ⟨pre⟩ n = .ok (.ok (), n1)) rfl
          (fun pre s post n1 hs hpre => by
            have hp : ¬ (Poison F s ∨ Decodes F s ∧ ¬ ZeroStride F s ∧ SizePanics n1 s) :=
              fun hp => hno ⟨bs, pre, s, post, n1, rfl, by rw [hd, ← hs], hpre, hp⟩
            have hstep : ∀ n2, s.add_to_network .debug n1 = .ok (.ok (), n2) →
                SerializedNetwork.populate_network .debug ⟨pre ++ [s]⟩ n = .ok (.ok (), n2) := by
              intro n2 h2
              unfold SerializedNetwork.populate_network at hpre ⊢
              simp only at hpre ⊢
              rw [forListE_append _ _ _ _ _ hpre, forListE_cons, h2]
              rfl
            by_cases hl : lacksKey s
            · obtain ⟨e, he⟩ := add_lacking .debug n1 s hl
              exact ⟨_, _, he, fun h => by cases h⟩
            · have hd : Decodes F s := Classical.byContradiction fun hd => hp (.inl ⟨hl, .inl hd⟩)
              have hz : ¬ ZeroStride F s := fun hz => hp (.inl ⟨hl, .inr hz⟩)
              cases e : s.add_to_network .debug n1 with
              | error p => exact absurd (.inr ⟨hd, hz, (add_debug n1 s hd hz).mp ⟨p, e⟩⟩) hp
              | ok r => exact ⟨r.1, r.2, rfl, fun hr => hstep r.2 (by rw [e, ← hr])⟩)
        unfold SerializedNetwork.populate_network at hp
        rw [e] at hp
        cases hp
  · rintro ⟨bs, pre, s, post, n1, h1, h2, h3, h4 | ⟨h4, h5, h6⟩⟩
    · exact C59_poison_negation .debug n n1 fs name bs pre post s h1 h2 h3 h4
    · obtain ⟨p, hp⟩ := (add_debug n1 s h4 h5).mpr h6
      refine ⟨p, ?_⟩
      unfold Network.load_from_file
      rw [h1]
      simp only
      rw [h2]
      unfold SerializedNetwork.populate_network at h3 ⊢
      simp only at h3 ⊢
      rw [forListE_append _ _ _ _ _ h3, forListE_cons, hp]
      rfl

omit [F32Bits F] in
/-- C35, exactly when `add_layer` panics: never in release builds; in debug builds when the layer's buffers,
which a network in training mode makes it allocate, or the network's states for it are too large. -/
theorem C35_panics (b : Build) (n : Net F) (l : AnyLayer F) :
    (∃ p, n.add_layer b l = .error p) ↔ b = .debug ∧ (n.run_state = .Training ∧ ¬ ShapesFit l ∨
      NoRoom n l.get_input_shape l.get_output_shape) := by
  cases b with
  | debug => rw [add_layer_debug]; simp
  | release =>
    obtain ⟨r, n', h⟩ := add_layer_returns' .release n l (.inl rfl)
    simp [h]

/-- a max-pool layer as it may stand in a file -/
def exPoolMap (stride : UInt32) : HMap MPKey :=
  ⟨[(.MaskShape, encShape ⟨2, 2, 1⟩), (.InputShape, encShape ⟨4, 4, 3⟩), (.Stride, encU32 stride),
    (.Name, encString "pool")]⟩

theorem exPoolMap_keys (st : UInt32) : ¬ lacksKey (.SerialMaxPoolLayer (exPoolMap st)) := by
  rintro ⟨k, _, h⟩
  cases k
  · exact h (.InputShape, encShape ⟨4, 4, 3⟩) (by simp [exPoolMap]) rfl
  · exact h (.MaskShape, encShape ⟨2, 2, 1⟩) (by simp [exPoolMap]) rfl
  · exact h (.Stride, encU32 st) (by simp [exPoolMap]) rfl
  · exact h (.Name, encString "pool") (by simp [exPoolMap]) rfl

open Toy in
/-- stride 0 is poisonous -/
example : Poison UInt32 (.SerialMaxPoolLayer (exPoolMap 0)) := ⟨exPoolMap_keys 0, .inr ⟨_, rfl, by decide⟩⟩

open Toy in
/-- stride 2 is not, and no size overflows -/
example : ¬ Poison UInt32 (.SerialMaxPoolLayer (exPoolMap 2)) ∧
    Sized UInt32 (.SerialMaxPoolLayer (exPoolMap 2)) := by
  have h1 : Holds (exPoolMap 2) .MaskShape decShape ⟨2, 2, 1⟩ := ⟨_, rfl, by decide⟩
  have h2 : Holds (exPoolMap 2) .InputShape decShape ⟨4, 4, 3⟩ := ⟨_, rfl, by decide⟩
  have h3 : Holds (exPoolMap 2) .Stride decU32 2 := ⟨_, rfl, by decide⟩
  have h4 : Holds (exPoolMap 2) .Name decString "pool" := ⟨_, rfl, by rfl⟩
  constructor
  · rintro ⟨_, h | h⟩
    · exact h ⟨⟨_, h1⟩, ⟨_, h2⟩, ⟨_, h3⟩, ⟨_, h4⟩⟩
    · exact absurd (holds_unique h h3) (by decide)
  · intro ma is st g1 g2 g3
    obtain rfl := holds_unique h1 g1
    obtain rfl := holds_unique h2 g2
    obtain rfl := holds_unique h3 g3
    refine ⟨by decide, by refine ⟨by decide, by decide, by decide, by decide⟩, fun out ho hk => ?_⟩
    obtain ⟨⟨a1, a2⟩, b1, b2⟩ := ho
    have e1 : out.di.toNat = 2 := by
      change (out.di.toNat - 1) * 2 + 2 = 4 at a2
      omega
    have e2 : out.dj.toNat = 2 := by
      change (out.dj.toNat - 1) * 2 + 2 = 4 at b2
      omega
    unfold TensorShape.Fits TensorShape.count
    rw [e1, e2, hk]
    decide

/-- a max-pool layer whose mask is larger than its input -/
def exWideMap : HMap MPKey :=
  ⟨[(.MaskShape, encShape ⟨2, 9, 1⟩), (.InputShape, encShape ⟨4, 4, 3⟩), (.Stride, encU32 2),
    (.Name, encString "pool")]⟩

open Toy in
/-- A mask wider than the image makes loading panic in debug builds only: nothing in the file is poisonous. -/
example (n : Net UInt32) : ¬ Poison UInt32 (.SerialMaxPoolLayer exWideMap) ∧
    Decodes UInt32 (.SerialMaxPoolLayer exWideMap) ∧ ¬ ZeroStride UInt32 (.SerialMaxPoolLayer exWideMap) ∧
    SizePanics n (.SerialMaxPoolLayer exWideMap) := by
  have h1 : Holds exWideMap .MaskShape decShape ⟨2, 9, 1⟩ := ⟨_, rfl, by decide⟩
  have h2 : Holds exWideMap .InputShape decShape ⟨4, 4, 3⟩ := ⟨_, rfl, by decide⟩
  have h3 : Holds exWideMap .Stride decU32 2 := ⟨_, rfl, by decide⟩
  have h4 : Holds exWideMap .Name decString "pool" := ⟨_, rfl, by rfl⟩
  have hz : ¬ ZeroStride UInt32 (.SerialMaxPoolLayer exWideMap) :=
    fun h => absurd (holds_unique h h3) (by decide)
  have hd : Decodes UInt32 (.SerialMaxPoolLayer exWideMap) := ⟨⟨_, h1⟩, ⟨_, h2⟩, ⟨_, h3⟩, ⟨_, h4⟩⟩
  refine ⟨?_, hd, hz, _, _, _, h1, h2, h3, .inl (.inr ⟨by decide, .inl (by decide)⟩)⟩
  rintro ⟨_, h | h⟩
  · exact h hd
  · exact hz h

open Toy in
/-- adding a layer may fail to panic, and may panic: the sizes decide -/
example : (∃ p, (Network.new .Inference : Net UInt32).add_layer .debug
      (.sm ⟨⟨65536, 65536, 1⟩, "", zeros ⟨1, 1, 1⟩, zeros ⟨1, 1, 1⟩, .Inference⟩) = .error p) ∧
    ¬ ∃ p, (Network.new .Inference : Net UInt32).add_layer .debug
      (.sm ⟨⟨65536, 65535, 1⟩, "", zeros ⟨1, 1, 1⟩, zeros ⟨1, 1, 1⟩, .Inference⟩) = .error p := by
  constructor
  · exact (C35_panics .debug _ _).mpr ⟨rfl, .inr (.inl (by decide))⟩
  · rw [C35_panics]
    rintro ⟨_, ⟨h, _⟩ | h | h⟩
    · cases h
    · exact h (by decide)
    · exact h (by decide)

open Toy in
/-- a shape of 2^32 elements in a softmax layer, read into an empty network -/
example : SizePanics (⟨[], [], [], ⟨0, 0, 0⟩, ⟨0, 0, 0⟩, .Inference⟩ : Net UInt32)
    (.SerialSoftMaxLayer ⟨[(.Shape, encShape ⟨65536, 65536, 1⟩), (.Name, encString "sm")]⟩) :=
  ⟨⟨65536, 65536, 1⟩, ⟨_, rfl, by decide⟩, .inr (.inl (by decide))⟩

end Rusty
