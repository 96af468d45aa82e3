import Verif.Lemmas.PlatformNaN
import Verif.Spec.Toy

/-! # C100: no result depends on which NaN a platform produces -/

namespace Rusty

open Spec F32

section

variable {F G : Type} [F32Ops F] [F32Ops G] {R : F → G → Prop} {b : Build}

/-- C100: inference on two arithmetics with a relation that all operations respect: the same panic or
the same result, and related outputs.  No network and no tensor is excluded. -/
theorem C100_infer (ho : Respects R) {n : Net F} {m : Net G} (h : SameNet R n m) {x : Tensor F} {y : Tensor G}
    (hx : SameTensor R x y) : SameRun (SameResult True R) (n.infer b x) (m.infer b y) :=
  rel_infer ho h hx

/-- C100: and back propagation. -/
theorem C100_backward (ho : Respects R) {n : Net F} {m : Net G} (h : SameNet R n m) {x : Tensor F} {y : Tensor G}
    (hx : SameTensor R x y) : SameRun (SameResult True R) (n.backward b x) (m.backward b y) :=
  rel_net_backward ho h hx

/-- C100: and any sequence of calls of the methods of a network. -/
theorem C100_uses [F32Bits F] [F32Bits G] (ho : Respects R) (hb : ∀ u, R (F32Bits.ofBits u) (F32Bits.ofBits u))
    {cs : List (Use F)} {ds : List (Use G)} (hc : List.Forall₂ (SameUse True R) cs ds) {n : Net F} {m : Net G}
    (h : SameNet R n m) : SameRun (SameResults True R) (useAll b cs n) (useAll b ds m) :=
  rel_useAll ho hb hc h

omit [F32Ops F] [F32Ops G] in
/-- C100: what `get_output` returns is related too. -/
theorem C100_output {n : Net F} {m : Net G} (h : SameNet R n m) :
    (∃ e, n.get_output = .error e ∧ m.get_output = .error e) ∨
      ∃ t u, n.get_output = .ok t ∧ m.get_output = .ok u ∧ SameTensor R t u :=
  rel_output h

end

section

variable [Libm] {o p : F32Ops F32} {b : Build}

/-- C100: Two platforms that compute by IEEE 754 and differ only in the NaN they produce (the standard
leaves sign and payload open, and processors differ) return the same from every call, or panic both,
in every sequence of calls; all numbers they store are the same, up to NaN. -/
theorem C100_platforms (hexp : ∀ x : F32, x.isNaN = true → (Libm.exp x).isNaN = true) (ho : Platform o)
    (hp : Platform p) (cs : List (Use F32)) (n : Net F32) :
    SameRun (SameResults True UpToNaN) (@useAll F32 o _ b cs n) (@useAll F32 p _ b cs n) :=
  @rel_useAll F32 F32 o p _ _ True UpToNaN b (platforms_respect hexp ho hp) (fun _ => .inl rfl) _ _
    (sameUses_refl .rfl' cs (.inl trivial)) _ _ (sameNet_refl .rfl' n (.inl trivial))

/-- C100: so if one platform predicts with an output without NaN, the other has the same output bit for bit. -/
theorem C100_predict (hexp : ∀ x : F32, x.isNaN = true → (Libm.exp x).isNaN = true) (ho : Platform o)
    (hp : Platform p) {cs : List (Use F32)} {n : Net F32} {rs : List Res} {n' : Net F32} {t : Tensor F32}
    (h : @useAll F32 o _ b cs n = .ok (rs, n')) (ht : n'.get_output = .ok t)
    (hn : ∀ x ∈ t.data, x.isNaN = false) :
    ∃ m', @useAll F32 p _ b cs n = .ok (rs, m') ∧ m'.get_output = .ok t := by
  have H := C100_platforms (b := b) hexp ho hp cs n
  rw [h] at H
  revert H
  cases @useAll F32 p _ b cs n with
  | error e => exact fun H => H.elim
  | ok q =>
    obtain ⟨rs', m'⟩ := q
    rintro ⟨e, hm⟩
    have e : rs = rs' := e
    subst e
    refine ⟨m', rfl, ?_⟩
    rcases C100_output hm with ⟨_, e1, _⟩ | ⟨t', u, e1, e2, e3, e4, e5⟩
    · rw [ht] at e1
      exact absurd e1 (by simp)
    · rw [ht] at e1
      cases e1
      rw [e2]
      have e6 : t.data = u.data := by
        clear e2 e3 e4 ht hm h
        revert hn e5
        generalize t.data = xs
        generalize u.data = ys
        intro hn h
        induction h with
        | nil => rfl
        | cons h _ ih =>
          have h0 := hn _ List.mem_cons_self
          rcases h with rfl | ⟨h1, _⟩
          · rw [ih fun x hx => hn x (List.mem_cons_of_mem _ hx)]
          · rw [h0] at h1
            exact absurd h1 (by decide)
      cases t
      cases u
      simp only [Tensor.mk.injEq, Except.ok.injEq]
      exact ⟨e3.symm, e4.symm, e6.symm⟩

end

/-- the operations of a processor that produces the NaN `0xffc00000`, as x86 does -/
@[reducible] def x86 [Libm] : F32Ops F32 :=
  let fix : F32 → F32 := fun z => if z.isNaN then ⟨0xffc00000⟩ else z
  { zero := F32.ops.zero, one := F32.ops.one, negOne := F32.ops.negOne, negInf := F32.ops.negInf
    add := fun x y => fix (F32.ops.add x y), mul := fun x y => fix (F32.ops.mul x y)
    div := fun x y => fix (F32.ops.div x y), fmax := F32.ops.fmax, gt := F32.ops.gt, feq := F32.ops.feq
    exp := fun x => fix (F32.ops.exp x), sqrt := fun x => fix (F32.ops.sqrt x)
    square := fun x => fix (F32.ops.square x) }

/-- it is one of the platforms meant -/
theorem x86_platform [Libm] : Platform x86 := by
  have fix : ∀ z : F32, UpToNaN (if z.isNaN then ⟨0xffc00000⟩ else z) z := by
    intro z
    by_cases h : z.isNaN = true
    · rw [if_pos h]
      exact .inr ⟨by decide, h⟩
    · rw [if_neg h]
      exact .inl rfl
  exact ⟨rfl, rfl, rfl, rfl, fun _ _ => fix _, fun _ _ => fix _, fun _ _ => fix _, fun _ _ => .inl rfl,
    fun _ _ => rfl, fun _ _ => rfl, fun _ => fix _, fun _ => fix _, fun _ => fix _⟩

/-- so is the one of the model -/
theorem ieee_platform [Libm] : Platform F32.ops :=
  ⟨rfl, rfl, rfl, rfl, fun _ _ => .inl rfl, fun _ _ => .inl rfl, fun _ _ => .inl rfl, fun _ _ => .inl rfl,
    fun _ _ => rfl, fun _ _ => rfl, fun _ => .inl rfl, fun _ => .inl rfl, fun _ => .inl rfl⟩

-- non-vacuity: the two do differ, `∞ - ∞` has different bits
example : ∀ _ : Libm, x86.add ⟨0x7f800000⟩ ⟨0xff800000⟩ ≠ F32.ops.add ⟨0x7f800000⟩ ⟨0xff800000⟩ := by
  intro _
  change (if (F32.add ⟨0x7f800000⟩ ⟨0xff800000⟩).isNaN then (⟨0xffc00000⟩ : F32)
    else F32.add ⟨0x7f800000⟩ ⟨0xff800000⟩) ≠ F32.add ⟨0x7f800000⟩ ⟨0xff800000⟩
  decide

-- non-vacuity: and are covered
example [Libm] (hexp : ∀ x : F32, x.isNaN = true → (Libm.exp x).isNaN = true) (cs : List (Use F32)) :
    SameRun (SameResults True UpToNaN) (@useAll F32 x86 _ .release cs (Network.new .Inference))
      (@useAll F32 F32.ops _ .release cs (Network.new .Inference)) :=
  C100_platforms hexp x86_platform ieee_platform cs _

-- non-vacuity: `UpToNaN` tells numbers apart
example : ¬ UpToNaN ⟨0x3f800000⟩ ⟨0x3f800001⟩ ∧ ¬ UpToNaN ⟨0x80000000⟩ ⟨0⟩ ∧ ¬ UpToNaN ⟨0x7fc00000⟩ ⟨0⟩ := by
  refine ⟨?_, ?_, ?_⟩ <;> rintro (h | ⟨h, h'⟩) <;> revert h <;> (try revert h') <;> decide

-- non-vacuity: a sequence of calls that succeeds on the two, with an error in between
open Toy in
example : (useAll (F := UInt32) .debug [.add (.mp ⟨⟨2, 2, 1⟩, ⟨2, 2, 1⟩, ⟨1, 1, 1⟩, 2, "m", .Inference, []⟩),
    .infer ⟨⟨1, 2, 4⟩, ⟨2, 2, 1⟩, [0, 0, 0, 0]⟩, .backward ⟨⟨1, 1, 1⟩, ⟨1, 1, 1⟩, [0]⟩, .training]
      (Network.new .Inference)).map (·.1.map (·.isOk)) = Except.ok [true, true, false, true] := by
  decide +kernel

end Rusty
