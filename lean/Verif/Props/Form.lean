import Verif.Spec.Form
import Verif.Lemmas.Form
import Verif.Spec.Toy

/-! # C136: the numbers never decide whether a pass fails -/

namespace Rusty

open F32Ops Spec

variable {F G : Type} [F32Ops F] [F32Ops G]

/-- C136, prediction: two networks of the same form, with any numbers and even with different arithmetic, given inputs of
the same form: `infer` panics in both at the same kind of place or returns the same result in both. -/
theorem C136_infer (b : Build) (n : Net F) (n' : Net G) (h : SameFormNet n n') (x : Tensor F) (x' : Tensor G)
    (hx : SameForm x x') :
    SameOutcome (fun p q => p.1 = q.1 ∧ SameFormNet p.2 q.2 ∧
      (p.1 = .ok () → List.Forall₂ SameForm p.2.intermediate_states q.2.intermediate_states))
      (n.infer b x) (n'.infer b x') :=
  infer_form h hx b

/-- C136, training: the same for `backward`, if no layer pools. -/
theorem C136_backward (b : Build) (n : Net F) (n' : Net G) (h : SameFormNet n n') (hp : NoPool n)
    (hs : List.Forall₂ SameForm n.intermediate_states n'.intermediate_states) (g : Tensor F) (g' : Tensor G)
    (hg : SameForm g g') :
    SameOutcome (fun p q => p.1 = q.1 ∧ SameFormNet p.2 q.2) (n.backward b g) (n'.backward b g') := by
  have := net_backward_form h hs hp hg b
  revert this
  cases n.backward b g <;> cases n'.backward b g' <;> intro h
  · exact h
  · exact h
  · exact h
  · exact ⟨h.1, h.2.1⟩

/-- C136, panics: an input for which `infer` panics shows that it panics for all inputs of that form. -/
theorem C136_panic (b : Build) (n : Net F) (x : Tensor F) (p : PanicKind) (h : n.infer b x = .error p) (x' : Tensor F)
    (hx : SameForm x x') : n.infer b x' = .error p := by
  have := infer_form (b := b) (SameFormNet.refl n) hx
  rw [h] at this
  cases e : n.infer b x' with
  | error q =>
    rw [e] at this
    cases this
    rfl
  | ok q =>
    rw [e] at this
    exact this.elim

/-- C136, once is enough: after one successful prediction, every sequence of inputs of that form is predicted
successfully. The network may be any, for example one read from a damaged file. -/
theorem C136_always (b : Build) (n m : Net F) (x : Tensor F) (h : n.infer b x = .ok (.ok (), m))
    (xs : List (Tensor F)) (hx : ∀ x' ∈ xs, SameForm x x') : ∃ k, Predicts b m xs k := by
  induction xs generalizing n m x with
  | nil => exact ⟨m, .nil m⟩
  | cons y ys ih =>
    obtain ⟨k, hk, -⟩ := infer_again (infer_self_form h) h (hx y (List.mem_cons_self ..))
    obtain ⟨k', hk'⟩ := ih m k y hk fun z hz =>
      (hx y (List.mem_cons_self ..)).symm.trans (hx z (List.mem_cons_of_mem _ hz))
    exact ⟨k', .cons hk hk'⟩

/-- C136, one training step is enough: after one successful step, every sequence of examples of that form can be trained
on, if no layer pools. -/
theorem C136_training (b : Build) (n m k : Net F) (hn : NoPool n) (x g : Tensor F) (h : n.infer b x = .ok (.ok (), m))
    (hb : m.backward b g = .ok (.ok (), k)) (xs : List (Tensor F × Tensor F))
    (hx : ∀ p ∈ xs, SameForm x p.1 ∧ SameForm g p.2) : ∃ l, TrainsOn b k xs l := by
  induction xs generalizing n m k x g with
  | nil => exact ⟨k, .nil k⟩
  | cons p ps ih =>
    obtain ⟨y, f⟩ := p
    obtain ⟨hy, hf⟩ := hx _ (List.mem_cons_self ..)
    have hm : NoPool m := infer_noPool h hn
    obtain ⟨hk, -, hkp⟩ := backward_self_form hb
    obtain ⟨m1, e1, f1, s1⟩ := infer_again (infer_self_form h) h (SameForm.refl x)
    obtain ⟨m2, e2, f2, s2⟩ := infer_again hk e1 hy
    have hm1 : NoPool m1 := infer_noPool e1 hm
    obtain ⟨k1, e3⟩ := backward_again f1 (s1 rfl) hm (SameForm.refl g) hb
    obtain ⟨k2, e4⟩ := backward_again f2 (s2 rfl) hm1 hf e3
    obtain ⟨l, hl⟩ := ih k m2 k2 (hkp hm) y f e2 e4 fun q hq => by
      obtain ⟨q1, q2⟩ := hx q (List.mem_cons_of_mem _ hq)
      exact ⟨hy.symm.trans q1, hf.symm.trans q2⟩
    exact ⟨l, .cons e2 e4 hl⟩

omit [F32Ops F] [F32Ops G] in
/-- Tensors as the library makes them have the same form if they have the same shape. -/
theorem C136_shape (t : Tensor F) (u : Tensor G) (ht : t.WF) (hu : u.WF) (h : t.shape = u.shape) : SameForm t u := by
  refine ⟨h, ?_, by rw [ht.len, hu.len, h]⟩
  have e1 := ht.si.trans hu.si.symm
  have e2 := (ht.sj.trans (by rw [h])).trans hu.sj.symm
  have e3 := UInt32.toNat_inj.mp ((ht.sk.trans (by rw [h])).trans hu.sk.symm)
  cases hs : t.strides
  cases hs' : u.strides
  rw [hs, hs'] at e1 e2 e3
  simp only at e1 e2 e3
  rw [e1, e2, e3]

/-- a pooling layer over two items -/
def exFormL : MaxPoolLayer := ⟨⟨1, 2, 1⟩, ⟨1, 2, 1⟩, ⟨1, 1, 1⟩, 1, "", .Training, [0]⟩

open Toy in
/-- the network of `exFormL` after some use -/
def exFormN (o : UInt32) (x y : Tensor UInt32) : Net UInt32 :=
  ⟨[.mp { exFormL with max_pool_origin := [o] }], [x, y], [zeros ⟨1, 2, 1⟩, zeros ⟨1, 1, 1⟩], ⟨1, 2, 1⟩, ⟨1, 1, 1⟩,
    .Training⟩

/-- an input with unusual strides -/
def exFormX (u v : UInt32) : Tensor UInt32 := ⟨⟨1, 2, 2⟩, ⟨1, 2, 1⟩, [u, 0, v]⟩

open Toy in
/-- With a pooling layer one successful training step is not enough: for an input with unusual strides, `backward` returns
`Err` or `Ok` depending on where the maximum is. -/
theorem C136_pool : ∃ (n : Net UInt32) (x x' g : Tensor UInt32), SameForm x x' ∧
    (∃ m k, n.infer .debug x = .ok (.ok (), m) ∧ m.backward .debug g = .ok (.ok (), k)) ∧
    ∃ m k e, n.infer .debug x' = .ok (.ok (), m) ∧ m.backward .debug g = .ok (.error e, k) :=
  ⟨exFormN 0 (zeros ⟨1, 2, 1⟩) (zeros ⟨1, 1, 1⟩), exFormX 5 1, exFormX 1 5, zeros ⟨1, 1, 1⟩, ⟨rfl, rfl, rfl⟩,
    ⟨exFormN 0 (exFormX 5 1) ⟨⟨1, 1, 1⟩, ⟨1, 1, 1⟩, [5]⟩, exFormN 0 (exFormX 5 1) ⟨⟨1, 1, 1⟩, ⟨1, 1, 1⟩, [5]⟩, by rfl, by rfl⟩,
    exFormN 2 (exFormX 1 5) ⟨⟨1, 1, 1⟩, ⟨1, 1, 1⟩, [5]⟩, exFormN 2 (exFormX 1 5) ⟨⟨1, 1, 1⟩, ⟨1, 1, 1⟩, [5]⟩,
    "Tensor 2 index out of bounds", by rfl, by rfl⟩

/-! A network whose weights lack an element panics for every input; with complete weights, one prediction shows that all
inputs of that shape can be predicted. -/

open Toy in
example : ∃ (n n' : Net Int) (x : Tensor Int), x.WF ∧
    (∀ x' : Tensor Int, x'.WF → x'.shape = x.shape → n.infer .debug x' = .error .oob) ∧
    ∃ m, n'.infer .debug x = .ok (.ok (), m) ∧ ∀ xs : List (Tensor Int), (∀ x' ∈ xs, x'.WF ∧ x'.shape = x.shape) →
      ∃ k, Predicts .debug m xs k := by
  let w : Tensor Int := ⟨⟨1, 2, 2⟩, ⟨2, 1, 1⟩, [1, 1]⟩
  let v : Tensor Int := ⟨⟨1, 2, 2⟩, ⟨2, 1, 1⟩, [5, 7]⟩
  let x : Tensor Int := ⟨⟨1, 1, 1⟩, ⟨1, 1, 1⟩, [1]⟩
  let l : FullyConnectedLayer Int :=
    ⟨⟨⟨1, 2, 2⟩, ⟨2, 1, 1⟩, [1]⟩, zeros ⟨1, 1, 1⟩, zeros ⟨1, 1, 1⟩, v, zeros ⟨1, 1, 1⟩, zeros ⟨1, 1, 1⟩, "", .Inference⟩
  let n' : Net Int := ⟨[.fc { l with weights := w }], [zeros ⟨1, 1, 1⟩, zeros ⟨2, 1, 1⟩], [], ⟨1, 1, 1⟩, ⟨2, 1, 1⟩,
    .Inference⟩
  have hx : x.WF := by constructor <;> decide
  exact ⟨{ n' with layers := [.fc l] }, n', x, hx,
    fun x' h e => C136_panic .debug _ x .oob rfl x' (C136_shape _ _ hx h e.symm), _, rfl,
    fun xs h => C136_always .debug n' _ x rfl xs fun x' h' => C136_shape _ _ hx (h x' h').1 (h x' h').2.symm⟩

end Rusty
