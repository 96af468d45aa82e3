import Verif.Lemmas.PlatformZero
import Verif.Props.Platform

/-! # C101: without softmax, results do not depend on the platform -/

namespace Rusty

open Spec F32

section

variable {o p : F32Ops F32} {b : Build}

/-- C101: Two platforms may differ in `exp` and division altogether, in the NaN they produce and in which of
two zeros `max` returns.  In every sequence of calls that starts from a network without softmax layers
and adds none, they return the same from every call or panic both, and all numbers they store are the
same, up to the sign of zero and the bits of NaN. -/
theorem C101_uses (ho : NoLibm o) (hp : NoLibm p) (n : Net F32) (hn : ∀ l ∈ n.get_layers, ∀ m, l ≠ .sm m)
    (cs : List (Use F32)) (hcs : ∀ c ∈ cs, c.NoSoftmax) :
    SameRun (SameResults False UpToZero) (@useAll F32 o _ b cs n) (@useAll F32 p _ b cs n) :=
  @rel_useAll F32 F32 o p _ _ False UpToZero b (noLibm_respect ho hp) (fun _ => .inl (.inl rfl)) _ _
    (sameUses_refl .rfl' cs (.inr hcs)) _ _ (sameNet_refl .rfl' n (.inr hn))

/-- C101: so the outputs compare equal with `==`, unless there is a NaN in them. -/
theorem C101_outputs (ho : NoLibm o) (hp : NoLibm p) {n : Net F32} (hn : ∀ l ∈ n.get_layers, ∀ m, l ≠ .sm m)
    {cs : List (Use F32)} (hcs : ∀ c ∈ cs, c.NoSoftmax) {rs : List Res} {n' : Net F32} {t : Tensor F32}
    (h : @useAll F32 o _ b cs n = .ok (rs, n')) (ht : n'.get_output = .ok t)
    (hnan : ∀ x ∈ t.data, x.isNaN = false) :
    ∃ m' u, @useAll F32 p _ b cs n = .ok (rs, m') ∧ m'.get_output = .ok u ∧ @Tensor.eq F32 o t u = true := by
  have H := C101_uses (b := b) ho hp n hn cs hcs
  rw [h] at H
  revert H
  cases @useAll F32 p _ b cs n with
  | error e => exact fun H => H.elim
  | ok q =>
    obtain ⟨rs', m'⟩ := q
    rintro ⟨e, hm⟩
    have e : rs = rs' := e
    subst e
    rcases rel_output hm with ⟨_, e1, _⟩ | ⟨t', u, e1, e2, e3, e4, e5⟩
    · rw [ht] at e1
      exact absurd e1 (by simp)
    · rw [ht] at e1
      cases e1
      refine ⟨m', u, rfl, e2, ?_⟩
      have H : ∀ xs ys : List F32, List.Forall₂ UpToZero xs ys → (∀ x ∈ xs, x.isNaN = false) →
          (xs.zip ys).all (fun q => o.feq q.1 q.2) = true := by
        intro xs ys h
        induction h with
        | nil => exact fun _ => rfl
        | cons h _ ih =>
          intro hx
          rw [List.zip_cons_cons, List.all_cons, ih fun x h => hx x (List.mem_cons_of_mem _ h), Bool.and_true]
          have h0 := hx _ List.mem_cons_self
          rw [ho.feq]
          exact feq_iff.mpr ⟨h.same h0, h0⟩
      unfold Tensor.eq
      rw [e4, rel_length e5, H _ _ e5 hnan]
      simp

end

/-- what the model calls a platform is one of those meant, whatever `exp` is and whichever zero `max` returns -/
theorem ieee_noLibm [Libm] : NoLibm F32.ops where
  zero := rfl
  one := rfl
  negOne := rfl
  negInf := rfl
  add := fun _ _ => .inl rfl
  mul := fun _ _ => .inl rfl
  max_nan := fun x y h => .inl (if_pos h)
  max_nan' := fun x y h => by
    change UpToNaN (F32.fmax x y) x
    unfold F32.fmax
    split
    · rename_i h'
      exact .inr ⟨h, h'⟩
    · exact .inl rfl
  max := fun x y h1 h2 => by
    change (F32.fmax x y = x ∧ _) ∨ (F32.fmax x y = y ∧ _)
    unfold F32.fmax
    rw [h1, h2]
    simp only [Bool.false_eq_true, if_false]
    split
    · exact .inl ⟨rfl, by omega⟩
    split
    · exact .inr ⟨rfl, by omega⟩
    split
    · exact .inl ⟨rfl, by omega⟩
    · exact .inr ⟨rfl, by omega⟩
  gt := fun _ _ => rfl
  feq := fun _ _ => rfl
  sqrt := fun _ => .inl rfl
  square := fun _ => .inl rfl

/-- C101: in particular nothing depends on the mathematical library. -/
theorem C101_libm (L M : Libm) (b : Build) (n : Net F32) (hn : ∀ l ∈ n.get_layers, ∀ m, l ≠ .sm m)
    (cs : List (Use F32)) (hcs : ∀ c ∈ cs, c.NoSoftmax) :
    SameRun (SameResults False UpToZero) (@useAll F32 (@F32.ops L) _ b cs n) (@useAll F32 (@F32.ops M) _ b cs n) :=
  C101_uses (@ieee_noLibm L) (@ieee_noLibm M) n hn cs hcs

-- non-vacuity: two libraries that agree nowhere
example : let L : Libm := ⟨fun _ => ⟨0⟩, true⟩
    let M : Libm := ⟨fun _ => ⟨0x3f800000⟩, false⟩
    NoLibm (@F32.ops L) ∧ NoLibm (@F32.ops M) ∧ ∀ x, (@F32.ops L).exp x ≠ (@F32.ops M).exp x :=
  ⟨@ieee_noLibm ⟨fun _ => ⟨0⟩, true⟩, @ieee_noLibm ⟨fun _ => ⟨0x3f800000⟩, false⟩, fun _ h => by cases h⟩

-- non-vacuity: the zeros they return differ
example : let L : Libm := ⟨fun _ => ⟨0⟩, true⟩
    let M : Libm := ⟨fun _ => ⟨0x3f800000⟩, false⟩
    (@F32.ops L).fmax ⟨0x80000000⟩ ⟨0⟩ ≠ (@F32.ops M).fmax ⟨0x80000000⟩ ⟨0⟩ := by
  decide

-- non-vacuity: `UpToZero` tells numbers apart
example : ¬ UpToZero ⟨0x3f800000⟩ ⟨0x3f800001⟩ ∧ ¬ UpToZero ⟨0x00000001⟩ ⟨0⟩ ∧ ¬ UpToZero ⟨0x7fc00000⟩ ⟨0⟩ := by
  refine ⟨?_, ?_, ?_⟩ <;> rintro ((h | ⟨h, h'⟩) | ⟨h, h'⟩) <;> revert h <;> (try revert h') <;> decide

-- non-vacuity: a sequence of calls without softmax; a file that does not exist contains none
example : ∀ c ∈ [Use.add (F := F32) (.mp ⟨⟨2, 2, 1⟩, ⟨2, 2, 1⟩, ⟨1, 1, 1⟩, 2, "m", .Inference, []⟩),
    .training, .load (fun _ => none) "x", .infer ⟨⟨1, 2, 4⟩, ⟨2, 2, 1⟩, [⟨0⟩, ⟨0⟩, ⟨0⟩, ⟨0⟩]⟩], c.NoSoftmax := by
  intro c hc
  simp only [List.mem_cons, List.not_mem_nil, or_false] at hc
  rcases hc with rfl | rfl | rfl | rfl
  · exact fun m h => by cases h
  · trivial
  · exact fun bs sn h => by cases h
  · trivial

-- the condition is needed: with softmax the output is the library's `exp`
example : let L : Libm := ⟨fun _ => ⟨0⟩, true⟩
    let M : Libm := ⟨fun _ => ⟨0x3f800000⟩, false⟩
    let t : Tensor F32 := ⟨⟨1, 1, 1⟩, ⟨1, 1, 1⟩, [⟨0⟩]⟩
    (@Tensor.softmax F32 (@F32.ops L) t t).map (·.data) = .ok [F32.nan] ∧
      (@Tensor.softmax F32 (@F32.ops M) t t).map (·.data) = .ok [⟨0x3f800000⟩] := by
  decide +kernel

end Rusty
