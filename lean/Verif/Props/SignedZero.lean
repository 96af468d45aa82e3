import Verif.Lemmas.IEEEZero
import Verif.Props.Equality
import Verif.Props.Locality
import Verif.Props.Exact
import Verif.Props.Serialization

/-! # C53 in `f32`, and C80: the sign of zero does not matter -/

namespace Rusty

open F32Ops Spec F32

variable [Libm]

/-! ## C53 -/

/-- C53: for `f32`, two tensors are `==` exactly when they have the same shape and at every index the same
bits or two zeros, and no NaN. -/
theorem C53_f32 (b : Build) (t u : Tensor F32) (ht : t.WF) (hu : u.WF) :
    t.eq u = true ↔ t.shape = u.shape ∧ ∀ i j k, t.shape.Inside i j k →
      ∃ x y, t.get_item b (ix i j k) = .ok x ∧ u.get_item b (ix i j k) = .ok y ∧
        x.isNaN = false ∧ (x = y ∨ x.code = 0 ∧ y.code = 0) := by
  rw [C53_eq_iff b t u ht hu]
  refine and_congr_right fun _ => forall_congr' fun i => forall_congr' fun j => forall_congr' fun k =>
    imp_congr_right fun _ => exists_congr fun x => exists_congr fun y => ?_
  refine and_congr_right fun _ => and_congr_right fun _ => ?_
  exact feq_iff.trans And.comm

/-- C53: for `f32`, a tensor is `==` itself exactly when it contains no NaN, `==` is symmetric and
transitive. -/
theorem C53_f32_equiv (t u v : Tensor F32) : (t.eq t = true ↔ ∀ x ∈ t.data, x.isNaN = false) ∧
    t.eq u = u.eq t ∧ (t.eq u = true → u.eq v = true → t.eq v = true) := by
  refine ⟨?_, ?_, ?_⟩
  · rw [C53_refl]
    refine forall_congr' fun x => imp_congr_right fun _ => ?_
    exact feq_iff.trans ⟨fun h => h.2, fun h => ⟨.inl rfl, h⟩⟩
  · refine C53_symm (fun x y => ?_) t u
    change F32.feq x y = F32.feq y x
    unfold F32.feq
    rw [Bool.and_comm (!x.isNaN), decide_eq_decide.mpr eq_comm]
  · refine C53_trans (fun x y z h1 h2 => ?_) t u v
    change F32.feq x y = true at h1
    change F32.feq y z = true at h2
    change F32.feq x z = true
    unfold F32.feq at *
    simp only [Bool.and_eq_true, Bool.not_eq_true', decide_eq_true_eq] at *
    exact ⟨⟨h1.1.1, h2.1.2⟩, h1.2.trans h2.2⟩

/-- the two zeros are `==` -/
theorem zeros_eq : (single ⟨0⟩).eq (single ⟨0x80000000⟩) = true := by
  rw [C53_f32 .release _ _ (single_wf _) (single_wf _)]
  refine ⟨rfl, fun i j k hin => ?_⟩
  obtain ⟨rfl, rfl, rfl⟩ := single_inside hin
  exact ⟨_, _, rfl, rfl, by decide, .inr (by decide)⟩

/-- C53: tensors can be `==` and still be saved as different files: zeros of different sign. -/
theorem C53_f32_bytes : ∃ t u : Tensor F32, t.WF ∧ u.WF ∧ t.eq u = true ∧ encTensor t ≠ encTensor u :=
  ⟨single ⟨0⟩, single ⟨0x80000000⟩, single_wf _, single_wf _, zeros_eq, by decide⟩

/-! ## C80 -/

/-- the values of `==` tensors are the same numbers -/
theorem sameNumber_of_eq {x x' : Tensor F32} (hx : x.WF) (hx' : x'.WF) (h : x.eq x' = true) {i j k : Nat}
    (hin : x.shape.Inside i j k) : SameNumber (val x i j k) (val x' i j k) := by
  obtain ⟨hs, h⟩ := (C53_eq_iff .release x x' hx hx').mp h
  obtain ⟨v, v', g1, g2, g3⟩ := h i j k hin
  rw [get_item_ok hx hin] at g1
  rw [get_item_ok hx' (hs ▸ hin)] at g2
  injection g1 with g1
  injection g2 with g2
  rw [g1, g2]
  exact (feq_iff.mp g3).1

/-- without softmax layers the states are the same numbers -/
theorem same_states (b : Build) {ls : List (AnyLayer F32)} (hok : ∀ l ∈ ls, l.Ok)
    {t t' : Nat → Tensor F32}
    (h0 : (t 0).shape = (t' 0).shape ∧
      ∀ i j k, (t 0).shape.Inside i j k → SameNumber (val (t 0) i j k) (val (t' 0) i j k))
    (hst : ∀ (i : Nat) l, ls[i]? = some l → (t i).WF ∧ (t i).shape = l.get_input_shape ∧
      applies b l (t i) (t (i + 1)))
    (hst' : ∀ (i : Nat) l, ls[i]? = some l → (t' i).WF ∧ (t' i).shape = l.get_input_shape ∧
      applies b l (t' i) (t' (i + 1))) (p : Nat) (hp : p ≤ ls.length)
    (hpool : ∀ m l, m < p → ls[m]? = some l → Weighted l ∨ Pooling l) :
    (t p).shape = (t' p).shape ∧
      ∀ i j k, (t p).shape.Inside i j k → SameNumber (val (t p) i j k) (val (t' p) i j k) := by
  induction p with
  | zero => exact h0
  | succ p ih =>
    obtain ⟨e1, e2⟩ := ih (by omega) (fun m l hm => hpool m l (by omega))
    have hl := List.getElem?_eq_getElem (show p < ls.length by omega)
    have hP := hpool p _ (by omega) hl
    have hO := hok _ (List.mem_of_getElem? hl)
    obtain ⟨_, a2, a3⟩ := hst p _ hl
    obtain ⟨_, b2, b3⟩ := hst' p _ hl
    refine ⟨a3.2.1.trans b3.2.1.symm, fun i j k hin => ?_⟩
    rw [a3.2.1] at hin
    rw [applies_val a3 hin, applies_val b3 hin]
    revert hP hO a2 hin
    cases ls[p] with
    | mp l =>
      intro _ hO a2 hin
      exact pooled_zeq hO (fun i j k h => e2 i j k (by rw [a2]; exact h)) hin
    | fc l =>
      intro _ hO a2 hin
      exact .inl (weighted_zeq hO trivial (fun i j k h => e2 i j k (by rw [a2]; exact h)) hin)
    | conv l =>
      intro _ hO a2 hin
      exact .inl (weighted_zeq hO trivial (fun i j k h => e2 i j k (by rw [a2]; exact h)) hin)
    | sm l => exact fun h => h.elim False.elim False.elim

/-- C80: let the first layer of a network that is not max pooling be fully connected or convolutional, or
let `exp` have the same value at both zeros.  Inputs that are `==` give outputs with the same bits. -/
theorem C80_bits (b : Build) (n : Net F32) (hn : Built b n) (p : Nat) (l : AnyLayer F32)
    (hl : n.get_layers[p]? = some l) (hpool : ∀ m l, m < p → n.get_layers[m]? = some l → Pooling l)
    (hw : Weighted l ∨ ¬ Pooling l ∧ Libm.exp (mk' true 0) = Libm.exp (mk' false 0))
    (x x' : Tensor F32) (hx : x.WF) (hx' : x'.WF) (hxs : x.shape = n.get_input_shape)
    (heq : x.eq x' = true) :
    ∃ n1 n2 y, n.infer b x = .ok (.ok (), n1) ∧ n.infer b x' = .ok (.ok (), n2) ∧
      n1.get_output = .ok y ∧ n2.get_output = .ok y ∧
      ∀ m, p < m → m ≤ n.get_layers.length →
        n1.get_intermediate_state m = n2.get_intermediate_state m := by
  have hp : p < n.get_layers.length := (List.getElem?_eq_some_iff.mp hl).1
  have hne : n.get_layers ≠ [] := by intro e; rw [e] at hp; simp at hp
  have hs : x.shape = x'.shape := ((C53_eq_iff b x x' hx hx').mp heq).1
  obtain ⟨n1, t, r1, r2, r3, r4⟩ := run_all b hn hne hx hxs
  obtain ⟨n2, t', s1, s2, s3, s4⟩ := run_all b hn hne hx' (by rw [← hs, hxs])
  have hok := (built_netOk hn).layers
  obtain ⟨e1, e2⟩ := same_states b hok
    (by rw [r2, s2]; exact ⟨hs, fun i j k => sameNumber_of_eq hx hx' heq⟩) r4 s4 p (Nat.le_of_lt hp)
    (fun m l h h' => .inr (hpool m l h h'))
  have hO : l.Ok := hok l (List.mem_of_getElem? hl)
  obtain ⟨a1, a2, a3⟩ := r4 p l hl
  obtain ⟨b1, b2, b3⟩ := s4 p l hl
  have first : t (p + 1) = t' (p + 1) := by
    refine tensor_ext a3.1 b3.1 (a3.2.1.trans b3.2.1.symm) fun i j k hin => ?_
    rw [a3.2.1] at hin
    rw [applies_val a3 hin, applies_val b3 hin]
    have e2' : ∀ i j k, l.get_input_shape.Inside i j k → SameNumber (val (t p) i j k) (val (t' p) i j k) :=
      fun i j k h => e2 i j k (by rw [a2]; exact h)
    rcases hw with hw | ⟨hw, hexp⟩
    · exact weighted_zeq hO hw e2' hin
    · clear hl
      cases l with
      | mp l => exact absurd trivial hw
      | fc l => exact weighted_zeq hO trivial e2' hin
      | conv l => exact weighted_zeq hO trivial e2' hin
      | sm l =>
        have hE : ∀ u v : F32, SameNumber u v → (F32Ops.exp u : F32) = F32Ops.exp v := by
          rintro u v (rfl | ⟨h1, h2⟩)
          · rfl
          · have z : ∀ u : F32, u.code = 0 → Libm.exp u = Libm.exp (mk' false 0) := by
              intro u hu
              rw [← mk'_eta u, hu]
              cases u.sign
              · rfl
              · exact hexp
            exact (z u h1).trans (z v h2).symm
        simp only [layerAt]
        unfold softmaxAt
        rw [← e1, hE _ _ (e2' i j k hin)]
        congr 2
        refine List.map_congr_left ?_
        rintro ⟨i, j, k⟩ hm
        exact hE _ _ (e2 i j k (mem_indices.mp hm))
  have rest : ∀ m, p < m → m ≤ n.get_layers.length → t m = t' m := by
    intro m h1 h2
    induction m with
    | zero => omega
    | succ m ih =>
      rcases Nat.lt_or_ge p m with h | h
      · have hm := ih h (by omega)
        have hl := List.getElem?_eq_getElem (show m < n.get_layers.length by omega)
        obtain ⟨_, _, a3⟩ := r4 m _ hl
        obtain ⟨_, _, b3⟩ := s4 m _ hl
        refine tensor_ext a3.1 b3.1 (a3.2.1.trans b3.2.1.symm) fun i j k hin => ?_
        rw [a3.2.1] at hin
        rw [applies_val a3 hin, applies_val b3 hin, hm]
      · obtain rfl : m = p := by omega
        exact first
  obtain ⟨m1, g1, _, _, g4⟩ := C36_infer b n hn hne x hx hxs
  obtain ⟨m2, k1, _, _, k4⟩ := C36_infer b n hn hne x' hx' (by rw [← hs, hxs])
  obtain rfl : m1 = n1 := by rw [r1] at g1; injection g1 with g1; exact (Prod.mk.inj g1).2.symm
  obtain rfl : m2 = n2 := by rw [s1] at k1; injection k1 with k1; exact (Prod.mk.inj k1).2.symm
  refine ⟨_, _, _, r1, s1, g4.trans (r3 _ (Nat.le_refl _)).1, ?_, fun m hm h => ?_⟩
  · rw [k4, (s3 _ (Nat.le_refl _)).1, rest _ hp (Nat.le_refl _)]
  · rw [(r3 m h).1, (s3 m h).1, rest m hm h]

/-- C80: in a network without softmax layers, inputs that are `==` give outputs that are `==`. -/
theorem C80_eq (b : Build) (n : Net F32) (hn : Built b n) (hne : n.get_layers ≠ [])
    (hsm : ∀ l ∈ n.get_layers, Weighted l ∨ Pooling l) (x x' : Tensor F32) (hx : x.WF) (hx' : x'.WF)
    (hxs : x.shape = n.get_input_shape) (heq : x.eq x' = true) :
    ∃ n1 n2 y y', n.infer b x = .ok (.ok (), n1) ∧ n.infer b x' = .ok (.ok (), n2) ∧
      n1.get_output = .ok y ∧ n2.get_output = .ok y' ∧ y.eq y' = true := by
  have nn : ∀ l, Weighted l ∨ Pooling l → ∀ s, l ≠ .sm s := by
    rintro l h s rfl
    exact h.elim id id
  obtain ⟨last, hlast⟩ : ∃ l, n.get_layers.getLast? = some l := ⟨_, List.getLast?_eq_some_getLast hne⟩
  have hs : x.shape = x'.shape := ((C53_eq_iff b x x' hx hx').mp heq).1
  obtain ⟨q1, y, c1, c2, c3, c4⟩ := C66_network b n hn last hlast (nn _ (hsm _ (List.mem_of_getLast? hlast))) x hx hxs
  obtain ⟨n1, t, r1, r2, r3, r4⟩ := run_all b hn hne hx hxs
  obtain ⟨n2, t', s1, s2, s3, s4⟩ := run_all b hn hne hx' (by rw [← hs, hxs])
  obtain ⟨e1, e2⟩ := same_states b (built_netOk hn).layers
    (by rw [r2, s2]; exact ⟨hs, fun i j k => sameNumber_of_eq hx hx' heq⟩) r4 s4 _ (Nat.le_refl _)
    (fun m l _ h => hsm l (List.mem_of_getElem? h))
  obtain ⟨m1, g1, _, _, g4⟩ := C36_infer b n hn hne x hx hxs
  obtain ⟨m2, k1, _, _, k4⟩ := C36_infer b n hn hne x' hx' (by rw [← hs, hxs])
  obtain rfl : m1 = n1 := by rw [r1] at g1; injection g1 with g1; exact (Prod.mk.inj g1).2.symm
  obtain rfl : m2 = n2 := by rw [s1] at k1; injection k1 with k1; exact (Prod.mk.inj k1).2.symm
  obtain rfl : q1 = m1 := by rw [r1] at c1; injection c1 with c1; exact (Prod.mk.inj c1).2.symm
  obtain ⟨w1, w2⟩ := r3 _ (Nat.le_refl _)
  obtain ⟨w3, w4⟩ := s3 _ (Nat.le_refl _)
  obtain rfl : y = t n.get_layers.length := by rw [g4, w1] at c2; injection c2 with c2; exact c2.symm
  refine ⟨_, _, _, _, r1, s1, c2, k4.trans w3, ?_⟩
  refine (C53_f32 b _ _ w2 w4).mpr ⟨e1, fun i j k hin => ?_⟩
  obtain ⟨v, v1, v2⟩ := c4 i j k hin
  refine ⟨v, _, v1, get_item_ok w4 (e1 ▸ hin), v2, ?_⟩
  rw [get_item_ok w2 hin] at v1
  injection v1 with v1
  rw [← v1]
  exact e2 i j k hin

/-- The assumptions of C80 can be met: the network `max(0, x + 1)` and the two zeros, which are `==` but
differ in their bits. -/
example (b : Build) : ∃ n : Net F32, Built b n ∧ n.get_layers[0]? = some (.fc exUnit) ∧
    Weighted (.fc exUnit) ∧ (∀ l ∈ n.get_layers, Weighted l ∨ Pooling l) ∧
    (single ⟨0⟩).shape = n.get_input_shape ∧ (single ⟨0⟩).eq (single ⟨0x80000000⟩) = true ∧
    single ⟨0⟩ ≠ single ⟨0x80000000⟩ := by
  obtain ⟨n, h1, h2, h3⟩ := exNet1_built b
  refine ⟨n, h1, by rw [h2]; rfl, trivial, ?_, h3.symm, zeros_eq, by decide⟩
  rw [h2]
  intro l hl
  rw [List.mem_singleton.mp hl]
  exact .inl trivial

end Rusty
