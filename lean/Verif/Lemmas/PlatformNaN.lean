import Verif.Lemmas.PlatformFiles

/-! # Platforms that differ in the NaN they produce -/

namespace Rusty

open Spec F32

namespace Spec.UpToNaN

theorem rfl' (x : F32) : UpToNaN x x := .inl rfl

theorem symm {x y : F32} (h : UpToNaN x y) : UpToNaN y x :=
  h.elim (fun h => .inl h.symm) fun h => .inr h.symm

theorem trans {x y z : F32} (h : UpToNaN x y) (k : UpToNaN y z) : UpToNaN x z := by
  rcases h with rfl | ⟨h1, h2⟩
  · exact k
  · rcases k with rfl | ⟨_, k2⟩
    · exact .inr ⟨h1, h2⟩
    · exact .inr ⟨h1, k2⟩

/-- two-place functions that send NaN arguments to NaN -/
theorem map₂ {f : F32 → F32 → F32} (h : ∀ x y, (x.isNaN || y.isNaN) = true → (f x y).isNaN = true) {x x' y y' : F32}
    (hx : UpToNaN x x') (hy : UpToNaN y y') : UpToNaN (f x y) (f x' y') := by
  rcases hx with rfl | ⟨h1, h2⟩
  · rcases hy with rfl | ⟨h3, h4⟩
    · exact .inl rfl
    · exact .inr ⟨h _ _ (by rw [h3, Bool.or_true]), h _ _ (by rw [h4, Bool.or_true])⟩
  · exact .inr ⟨h _ _ (by rw [h1, Bool.true_or]), h _ _ (by rw [h2, Bool.true_or])⟩

theorem map {f : F32 → F32} (h : ∀ x, x.isNaN = true → (f x).isNaN = true) {x x' : F32} (hx : UpToNaN x x') :
    UpToNaN (f x) (f x') := by
  rcases hx with rfl | ⟨h1, h2⟩
  · exact .inl rfl
  · exact .inr ⟨h _ h1, h _ h2⟩

theorem test {f : F32 → F32 → Bool} (h : ∀ x y, (x.isNaN || y.isNaN) = true → f x y = false) {x x' y y' : F32}
    (hx : UpToNaN x x') (hy : UpToNaN y y') : f x y = f x' y' := by
  rcases hx with rfl | ⟨h1, h2⟩
  · rcases hy with rfl | ⟨h3, h4⟩
    · rfl
    · rw [h _ _ (by rw [h3, Bool.or_true]), h _ _ (by rw [h4, Bool.or_true])]
  · rw [h _ _ (by rw [h1, Bool.true_or]), h _ _ (by rw [h2, Bool.true_or])]

end Spec.UpToNaN

theorem fmax_upToNaN [Libm] {x x' y y' : F32} (hx : UpToNaN x x') (hy : UpToNaN y y') :
    UpToNaN (F32.fmax x y) (F32.fmax x' y') := by
  rcases hx with rfl | ⟨h1, h2⟩
  · rcases hy with rfl | ⟨h3, h4⟩
    · exact .inl rfl
    · unfold F32.fmax
      rw [if_pos h3, if_pos h4]
      split
      · exact .inr ⟨h3, h4⟩
      · exact .inl rfl
  · unfold F32.fmax
    rw [if_pos h1, if_pos h2]
    exact hy

/-- two platforms whose exponential function keeps NaN compute the same up to NaN -/
theorem platforms_respect [Libm] (hexp : ∀ x : F32, x.isNaN = true → (Libm.exp x).isNaN = true) {o p : F32Ops F32}
    (ho : Platform o) (hp : Platform p) : @RespectsIf F32 F32 o p True UpToNaN := by
  have two : ∀ {f g k : F32 → F32 → F32}, (∀ x y, UpToNaN (f x y) (k x y)) → (∀ x y, UpToNaN (g x y) (k x y)) →
      (∀ {x x' y y'}, UpToNaN x x' → UpToNaN y y' → UpToNaN (k x y) (k x' y')) →
      ∀ {x x' y y'}, UpToNaN x x' → UpToNaN y y' → UpToNaN (f x y) (g x' y') :=
    fun h1 h2 h3 _ _ _ _ hx hy => (h1 _ _).trans ((h3 hx hy).trans (h2 _ _).symm)
  have one : ∀ {f g k : F32 → F32}, (∀ x, UpToNaN (f x) (k x)) → (∀ x, UpToNaN (g x) (k x)) →
      (∀ {x x'}, UpToNaN x x' → UpToNaN (k x) (k x')) → ∀ {x x'}, UpToNaN x x' → UpToNaN (f x) (g x') :=
    fun h1 h2 h3 _ _ hx => (h1 _).trans ((h3 hx).trans (h2 _).symm)
  have nn : F32.nan.isNaN = true := by decide
  refine @RespectsIf.mk _ _ o p _ _ ?_ ?_ ?_ ?_ ?_ ?_ ?_ ?_ ?_ ?_ ?_ ?_ ?_
  · exact .inl (ho.zero.trans hp.zero.symm)
  · exact .inl (ho.one.trans hp.one.symm)
  · exact .inl (ho.negOne.trans hp.negOne.symm)
  · exact .inl (ho.negInf.trans hp.negInf.symm)
  · exact two ho.add hp.add (UpToNaN.map₂ fun x y h => by
      change (F32.add x y).isNaN = true; unfold F32.add; rw [if_pos h]; exact nn)
  · exact two ho.mul hp.mul (UpToNaN.map₂ fun x y h => by
      change (F32.mul x y).isNaN = true; unfold F32.mul; rw [if_pos h]; exact nn)
  · exact fun _ => two ho.div hp.div (UpToNaN.map₂ fun x y h => by
      change (F32.div x y).isNaN = true; unfold F32.div; rw [if_pos h]; exact nn)
  · exact two ho.fmax hp.fmax fmax_upToNaN
  · intro x x' y y' hx hy
    rw [ho.gt, hp.gt]
    refine UpToNaN.test (f := F32.gt) (fun x y h => ?_) hx hy
    unfold F32.gt
    revert h
    cases x.isNaN <;> cases y.isNaN <;> simp
  · intro x x' y y' hx hy
    rw [ho.feq, hp.feq]
    refine UpToNaN.test (f := F32.feq) (fun x y h => ?_) hx hy
    unfold F32.feq
    revert h
    cases x.isNaN <;> cases y.isNaN <;> simp
  · exact fun _ => one ho.exp hp.exp (UpToNaN.map hexp)
  · exact one ho.sqrt hp.sqrt (UpToNaN.map fun x h => by
      change (F32.sqrt x).isNaN = true; unfold F32.sqrt; rw [if_pos h]; exact nn)
  · exact one ho.square hp.square (UpToNaN.map fun x h => by
      change (F32.mul x x).isNaN = true; unfold F32.mul; rw [if_pos (by rw [h]; rfl)]; exact nn)

section

variable {F : Type} {S : Prop} {R : F → F → Prop}

theorem sameList {α : Type} {P : α → α → Prop} (h : ∀ x, P x x) : ∀ l : List α, List.Forall₂ P l l
  | [] => .nil
  | x :: l => .cons (h x) (sameList h l)

theorem sameTensor_refl (h : ∀ x, R x x) (t : Tensor F) : SameTensor R t t := ⟨rfl, rfl, sameList h _⟩

/-- layers without softmax, unless it is allowed -/
theorem sameLayer_refl (h : ∀ x, R x x) (l : AnyLayer F) (hS : S ∨ ∀ m, l ≠ .sm m) : SameLayerIf S R l l := by
  have ht := sameTensor_refl h
  cases l with
  | conv l => exact ⟨sameList ht _, sameList ht _, sameList ht _, sameList ht _, rfl, ht _, rfl, rfl, rfl, rfl⟩
  | fc l => exact ⟨ht _, ht _, ht _, ht _, ht _, ht _, rfl, rfl⟩
  | mp l => exact rfl
  | sm l => exact ⟨hS.resolve_right fun h => h l rfl, rfl, rfl, ht _, ht _, rfl⟩

theorem sameNet_refl (h : ∀ x, R x x) (n : Net F) (hS : S ∨ ∀ l ∈ n.layers, ∀ m, l ≠ .sm m) : SameNetIf S R n n := by
  refine ⟨?_, sameList (sameTensor_refl h) _, sameList (sameTensor_refl h) _, rfl, rfl, rfl⟩
  revert hS
  generalize n.layers = ls
  intro hS
  induction ls with
  | nil => exact .nil
  | cons l ls ih =>
    exact .cons (sameLayer_refl h l (hS.imp_right fun h => h l List.mem_cons_self))
      (ih (hS.imp_right fun h m hm => h m (List.mem_cons_of_mem _ hm)))

theorem sameUse_refl (h : ∀ x, R x x) (c : Use F) (hS : S ∨ c.NoSoftmax) : SameUse S R c c := by
  cases c with
  | add l => exact sameLayer_refl h l hS
  | load _ _ => exact ⟨rfl, rfl, hS⟩
  | training => trivial
  | inference => trivial
  | infer t => exact sameTensor_refl h t
  | backward t => exact sameTensor_refl h t

theorem sameUses_refl (h : ∀ x, R x x) (cs : List (Use F)) (hS : S ∨ ∀ c ∈ cs, c.NoSoftmax) :
    List.Forall₂ (SameUse S R) cs cs := by
  induction cs with
  | nil => exact .nil
  | cons c cs ih =>
    exact .cons (sameUse_refl h c (hS.imp_right fun h => h c List.mem_cons_self))
      (ih (hS.imp_right fun h m hm => h m (List.mem_cons_of_mem _ hm)))

end

section

variable {F G : Type} [F32Ops F] [F32Ops G] [F32Bits F] [F32Bits G] {S : Prop} {R : F → G → Prop} {b : Build}

theorem rel_useOnce (ho : RespectsIf S R) (hb : ∀ u, R (F32Bits.ofBits u) (F32Bits.ofBits u)) {n : Net F} {m : Net G}
    (h : SameNetIf S R n m) {c : Use F} {d : Use G} (hc : SameUse S R c d) :
    SameRun (SameResult S R) (useOnce b n c) (useOnce b m d) := by
  cases c <;> cases d <;> try exact hc.elim
  · exact rel_add_layer ho h hc
  · obtain ⟨rfl, rfl, hs⟩ := hc
    exact rel_load ho hb _ _ hs h
  · exact rel_bind (rel_net_training ho h) fun _ _ h => rel_pure ⟨rfl, h⟩
  · exact rel_bind (rel_net_inference ho h) fun _ _ h => rel_pure ⟨rfl, h⟩
  · exact rel_infer ho h hc
  · exact rel_net_backward ho h hc

theorem rel_useAll (ho : RespectsIf S R) (hb : ∀ u, R (F32Bits.ofBits u) (F32Bits.ofBits u)) {cs : List (Use F)}
    {ds : List (Use G)} (hc : List.Forall₂ (SameUse S R) cs ds) : ∀ {n : Net F} {m : Net G}, SameNetIf S R n m →
      SameRun (SameResults S R) (useAll b cs n) (useAll b ds m) := by
  induction hc with
  | nil => exact fun h => ⟨rfl, h⟩
  | cons hc _ ih =>
    intro n m h
    refine rel_bind (rel_useOnce ho hb h hc) ?_
    rintro ⟨r, n1⟩ ⟨r', m1⟩ ⟨e, h1⟩
    have e : r = r' := e
    subst e
    refine rel_bind (ih h1) ?_
    rintro ⟨rs, n2⟩ ⟨rs', m2⟩ ⟨e, h2⟩
    have e : rs = rs' := e
    subst e
    exact rel_pure ⟨rfl, h2⟩

end

end Rusty
