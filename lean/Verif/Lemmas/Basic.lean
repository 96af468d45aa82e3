import Verif.Model.Base
import Verif.Spec.Index

/-! # Helper lemmas: the panic monad, u32 arithmetic, loops -/

namespace Rusty

/-! ## The panic monad -/

@[simp] theorem ok_bind {α β : Type} (a : α) (f : α → Exec β) :
    ((Except.ok a : Exec α) >>= f) = f a := rfl

@[simp] theorem error_bind {α β : Type} (e : PanicKind) (f : α → Exec β) :
    ((Except.error e : Exec α) >>= f) = Except.error e := rfl

@[simp] theorem pure_ok {α : Type} (a : α) : (pure a : Exec α) = Except.ok a := rfl

/-! ## u32 -/

theorem toNat_ofNat_lt {n : Nat} (h : n < 2 ^ 32) : (UInt32.ofNat n).toNat = n :=
  UInt32.toNat_ofNat_of_lt' h

theorem ofNat_toNat_u32 (x : UInt32) : UInt32.ofNat x.toNat = x := by simp

theorem u32_lt (x : UInt32) : x.toNat < 2 ^ 32 := x.toNat_lt

theorem u32_ext {x y : UInt32} (h : x.toNat = y.toNat) : x = y := UInt32.toNat_inj.mp h

theorem u32_eq_iff {x y : UInt32} : x = y ↔ x.toNat = y.toNat := UInt32.toNat_inj.symm

theorem u32_ne_iff {x y : UInt32} : x ≠ y ↔ x.toNat ≠ y.toNat := by
  rw [Ne, u32_eq_iff]

theorem addU_ok {b : Build} {x y : UInt32} (h : x.toNat + y.toNat < 2 ^ 32) :
    addU b x y = .ok (UInt32.ofNat (x.toNat + y.toNat)) := by
  unfold addU
  rw [if_pos h]
  exact congrArg _ (u32_ext (by rw [toNat_ofNat_lt h, UInt32.toNat_add, Nat.mod_eq_of_lt h]))

theorem mulU_ok {b : Build} {x y : UInt32} (h : x.toNat * y.toNat < 2 ^ 32) :
    mulU b x y = .ok (UInt32.ofNat (x.toNat * y.toNat)) := by
  unfold mulU
  rw [if_pos h]
  exact congrArg _ (u32_ext (by rw [toNat_ofNat_lt h, UInt32.toNat_mul, Nat.mod_eq_of_lt h]))

theorem subU_ok {b : Build} {x y : UInt32} (h : y.toNat ≤ x.toNat) :
    subU b x y = .ok (UInt32.ofNat (x.toNat - y.toNat)) := by
  unfold subU
  rw [if_pos h]
  congr 1
  apply u32_ext
  have hx := u32_lt x
  rw [toNat_ofNat_lt (by omega), UInt32.toNat_sub_of_le _ _ (UInt32.le_iff_toNat_le.mpr h)]

theorem divU_ok {x y : UInt32} (h : y.toNat ≠ 0) :
    divU x y = .ok (UInt32.ofNat (x.toNat / y.toNat)) := by
  unfold divU
  rw [if_neg h]
  congr 1
  apply u32_ext
  have hx := u32_lt x
  rw [toNat_ofNat_lt (lt_of_le_of_lt (Nat.div_le_self _ _) hx), UInt32.toNat_div]
where
  lt_of_le_of_lt {a b c : Nat} (h1 : a ≤ b) (h2 : b < c) : a < c := Nat.lt_of_le_of_lt h1 h2

theorem remU_ok {x y : UInt32} (h : y.toNat ≠ 0) :
    remU x y = .ok (UInt32.ofNat (x.toNat % y.toNat)) := by
  unfold remU
  rw [if_neg h]
  congr 1
  apply u32_ext
  have hx := u32_lt x
  rw [toNat_ofNat_lt (Nat.lt_of_le_of_lt (Nat.mod_le _ _) hx), UInt32.toNat_mod]

theorem maxU_toNat (x y : UInt32) : (maxU x y).toNat = max x.toNat y.toNat := by
  unfold maxU; split <;> omega

theorem minU_toNat (x y : UInt32) : (minU x y).toNat = min x.toNat y.toNat := by
  unfold minU; split <;> omega

/-! ## Vectors -/

theorem vget_ok {α : Type} {v : List α} {i : Nat} (h : i < v.length) : vget v i = .ok v[i] := by
  unfold vget
  rw [List.getElem?_eq_getElem h]

theorem vget_getD {α : Type} {v : List α} {i : Nat} (d : α) (h : i < v.length) :
    vget v i = .ok (v[i]?.getD d) := by
  rw [vget_ok h, List.getElem?_eq_getElem h]; rfl

theorem vget_oob {α : Type} {v : List α} {i : Nat} (h : v.length ≤ i) :
    vget v i = .error .oob := by
  unfold vget
  rw [List.getElem?_eq_none h]

theorem vset_ok {α : Type} {v : List α} {i : Nat} {x : α} (h : i < v.length) :
    vset v i x = .ok (v.set i x) := by
  unfold vset; rw [if_pos h]

/-! ## Loops -/

theorem forRange_zero {σ : Type} (hi : UInt32) (s : σ) (body : UInt32 → σ → Exec σ) :
    forRange 0 hi s body =
      (List.range hi.toNat).foldlM (fun s i => body (UInt32.ofNat i) s) s := by
  unfold forRange
  rw [List.range_eq_range']
  rfl

theorem foldlM_flatMap {α β σ : Type} (l : List α) (g : α → List β) (f : σ → β → Exec σ) (s : σ) :
    (l.flatMap g).foldlM f s = l.foldlM (fun s x => (g x).foldlM f s) s := by
  induction l generalizing s with
  | nil => rfl
  | cons x xs ih =>
    rw [List.flatMap_cons, List.foldlM_append, List.foldlM_cons]
    congr 1
    funext s'
    exact ih s'

/-- A loop over a list, proved with an invariant on (processed prefix, state). -/
theorem foldlM_prefix {α σ : Type} (L : List α) (f : σ → α → Exec σ) (s : σ)
    (P : List α → σ → Prop) (h0 : P [] s)
    (step : ∀ pre x post s, L = pre ++ x :: post → P pre s →
      ∃ s', f s x = .ok s' ∧ P (pre ++ [x]) s') :
    ∃ s', L.foldlM f s = .ok s' ∧ P L s' := by
  suffices H : ∀ post pre s, L = pre ++ post → P pre s →
      ∃ s', post.foldlM f s = .ok s' ∧ P L s' from H L [] s rfl h0
  intro post
  induction post with
  | nil =>
    intro pre s hL hP
    rw [List.append_nil] at hL
    exact ⟨s, rfl, hL ▸ hP⟩
  | cons x post ih =>
    intro pre s hL hP
    obtain ⟨s', hs', hP'⟩ := step pre x post s hL hP
    obtain ⟨s'', h1, h2⟩ := ih (pre ++ [x]) s' (by rw [hL, List.append_assoc]; rfl) hP'
    refine ⟨s'', ?_, h2⟩
    rw [List.foldlM_cons, hs', ok_bind, h1]

/-- A loop whose every step succeeds is the pure fold. -/
theorem foldlM_pure {α σ : Type} (L : List α) (f : σ → α → Exec σ) (g : σ → α → σ) (s : σ)
    (h : ∀ x ∈ L, ∀ s, f s x = .ok (g s x)) : L.foldlM f s = .ok (L.foldl g s) := by
  induction L generalizing s with
  | nil => rfl
  | cons x xs ih =>
    rw [List.foldlM_cons, h x (List.mem_cons_self ..), ok_bind, List.foldl_cons]
    exact ih _ (fun y hy => h y (List.mem_cons_of_mem _ hy))

theorem foldlM_congr {α σ : Type} (L : List α) (f g : σ → α → Exec σ) (s : σ)
    (h : ∀ x ∈ L, ∀ s, f s x = g s x) : L.foldlM f s = L.foldlM g s := by
  induction L generalizing s with
  | nil => rfl
  | cons x xs ih =>
    rw [List.foldlM_cons, List.foldlM_cons, h x (List.mem_cons_self ..)]
    congr 1
    funext s'
    exact ih _ (fun y hy => h y (List.mem_cons_of_mem _ hy))

theorem mem_idx3 {di dj dk i j k : Nat} :
    (i, j, k) ∈ idx3 di dj dk ↔ i < di ∧ j < dj ∧ k < dk := by
  unfold idx3
  simp only [List.mem_flatMap, List.mem_map, List.mem_range, Prod.mk.injEq]
  constructor
  · rintro ⟨k', hk, j', hj, i', hi, rfl, rfl, rfl⟩
    exact ⟨hi, hj, hk⟩
  · rintro ⟨hi, hj, hk⟩
    exact ⟨k, hk, j, hj, i, hi, rfl, rfl, rfl⟩

/-- flatten a triple loop nest starting at zero -/
theorem forRange3 {σ : Type} (di dj dk : UInt32) (s : σ)
    (body : UInt32 → UInt32 → UInt32 → σ → Exec σ) :
    (forRange 0 dk s fun k s => forRange 0 dj s fun j s => forRange 0 di s fun i s =>
      body k j i s) =
    (idx3 di.toNat dj.toNat dk.toNat).foldlM
      (fun s x => body (UInt32.ofNat x.2.2) (UInt32.ofNat x.2.1) (UInt32.ofNat x.1) s) s := by
  unfold idx3
  rw [foldlM_flatMap, forRange_zero]
  congr 1
  funext s k
  rw [foldlM_flatMap, forRange_zero]
  congr 1
  funext s j
  rw [List.foldlM_map, forRange_zero]

theorem mem_idx2 {di dj i j : Nat} : (i, j) ∈ idx2 di dj ↔ i < di ∧ j < dj := by
  unfold idx2
  simp only [List.mem_flatMap, List.mem_map, List.mem_range, Prod.mk.injEq]
  constructor
  · rintro ⟨j', hj, i', hi, rfl, rfl⟩
    exact ⟨hi, hj⟩
  · rintro ⟨hi, hj⟩
    exact ⟨j, hj, i, hi, rfl, rfl⟩

/-- flatten a double loop nest starting at zero -/
theorem forRange2 {σ : Type} (di dj : UInt32) (s : σ)
    (body : UInt32 → UInt32 → σ → Exec σ) :
    (forRange 0 dj s fun j s => forRange 0 di s fun i s => body j i s) =
    (idx2 di.toNat dj.toNat).foldlM
      (fun s x => body (UInt32.ofNat x.2) (UInt32.ofNat x.1) s) s := by
  unfold idx2
  rw [foldlM_flatMap, forRange_zero]
  congr 1
  funext s j
  rw [List.foldlM_map, forRange_zero]

/-- a loop `for i in 0..n { acc = op(acc, g(i)) }` -/
theorem forRange_fold {σ τ : Type} (n : UInt32) (s : σ) (body : UInt32 → σ → Exec σ)
    (op : σ → τ → σ) (g : Nat → τ)
    (h : ∀ i, i < n.toNat → ∀ s, body (UInt32.ofNat i) s = .ok (op s (g i))) :
    forRange 0 n s body = .ok (((List.range n.toNat).map g).foldl op s) := by
  rw [forRange_zero, foldlM_pure _ _ (fun s i => op s (g i)), List.foldl_map]
  intro i hi s
  exact h i (List.mem_range.mp hi) s

theorem forNat_fold {σ : Type} (n : Nat) (s : σ) (body : Nat → σ → Exec σ) (g : σ → Nat → σ)
    (h : ∀ i, i < n → ∀ s, body i s = .ok (g s i)) :
    forNat n s body = .ok ((List.range n).foldl g s) := by
  unfold forNat
  apply foldlM_pure
  intro i hi s
  exact h i (List.mem_range.mp hi) s

theorem forListE_nil {α σ : Type} (s : σ) (body : α → σ → Exec (Res × σ)) :
    forListE [] s body = .ok (.ok (), s) := rfl

theorem forListE_cons {α σ : Type} (x : α) (xs : List α) (s : σ) (body : α → σ → Exec (Res × σ)) :
    forListE (x :: xs) s body = (do
      let (r, s') ← body x s
      match r with
      | .error e => .ok (.error e, s')
      | .ok () => forListE xs s' body) := rfl

theorem forListE_ok {α σ : Type} (L : List α) (s : σ) (body : α → σ → Exec (Res × σ))
    (g : σ → α → σ) (h : ∀ x ∈ L, ∀ s, body x s = .ok (.ok (), g s x)) :
    forListE L s body = .ok (.ok (), L.foldl g s) := by
  induction L generalizing s with
  | nil => rfl
  | cons x xs ih =>
    unfold forListE
    rw [h x (List.mem_cons_self ..), ok_bind]
    exact ih _ (fun y hy => h y (List.mem_cons_of_mem _ hy))

/-- a prefix of `List.range n` -/
theorem range_prefix {n c : Nat} {pre post : List Nat} (h : List.range n = pre ++ c :: post) :
    pre = List.range c ∧ c < n := by
  have hlen : pre.length < n := by
    have := congrArg List.length h
    simp at this
    omega
  have hc : c = pre.length := by
    have h1 : (List.range n)[pre.length]? = some c := by rw [h]; simp
    rw [List.getElem?_range hlen] at h1
    exact (Option.some.inj h1).symm
  have hp : pre = List.range pre.length := by
    have h1 : (List.range n).take pre.length = pre := by rw [h]; simp
    rw [← h1, List.take_range]
    simp
  exact ⟨by rw [hc]; exact hp, by omega⟩

/-- `forListE` with an invariant on (processed prefix, state), all steps `Ok` -/
theorem forListE_prefix {α σ : Type} (L : List α) (s : σ) (body : α → σ → Exec (Res × σ))
    (P : List α → σ → Prop) (h0 : P [] s)
    (step : ∀ pre x post s, L = pre ++ x :: post → P pre s →
      ∃ s', body x s = .ok (.ok (), s') ∧ P (pre ++ [x]) s') :
    ∃ s', forListE L s body = .ok (.ok (), s') ∧ P L s' := by
  suffices H : ∀ post pre s, L = pre ++ post → P pre s →
      ∃ s', forListE post s body = .ok (.ok (), s') ∧ P L s' from H L [] s rfl h0
  intro post
  induction post with
  | nil =>
    intro pre s hL hP
    rw [List.append_nil] at hL
    exact ⟨s, rfl, hL ▸ hP⟩
  | cons x post ih =>
    intro pre s hL hP
    obtain ⟨s', hs', hP'⟩ := step pre x post s hL hP
    obtain ⟨s'', h1, h2⟩ := ih (pre ++ [x]) s' (by rw [hL, List.append_assoc]; rfl) hP'
    refine ⟨s'', ?_, h2⟩
    unfold forListE
    rw [hs', ok_bind]
    exact h1

theorem forListE_append {α σ : Type} (L1 L2 : List α) (s s1 : σ) (body : α → σ → Exec (Res × σ))
    (h : forListE L1 s body = .ok (.ok (), s1)) :
    forListE (L1 ++ L2) s body = forListE L2 s1 body := by
  induction L1 generalizing s with
  | nil =>
    unfold forListE at h
    injection h with h
    injection h with _ h
    rw [h]; rfl
  | cons x xs ih =>
    rw [List.cons_append, forListE_cons]
    rw [forListE_cons] at h
    cases hb : body x s with
    | error e => rw [hb] at h; cases h
    | ok p =>
      obtain ⟨r, s'⟩ := p
      rw [hb, ok_bind] at h
      rw [ok_bind]
      cases r with
      | error e =>
        simp only at h
        injection h with h
        injection h with h _
        cases h
      | ok u => exact ih s' h

/-- an invariant preserved by every step of an early-exit loop, whatever the results -/
theorem forListE_inv {α σ : Type} (L : List α) (s : σ) (body : α → σ → Exec (Res × σ))
    (P : σ → Prop) (h0 : P s)
    (step : ∀ x ∈ L, ∀ s r s', P s → body x s = .ok (r, s') → P s') :
    ∀ r s', forListE L s body = .ok (r, s') → P s' := by
  induction L generalizing s with
  | nil =>
    intro r s' h
    unfold forListE at h
    injection h with h
    injection h with _ h
    exact h ▸ h0
  | cons x xs ih =>
    intro r s' h
    unfold forListE at h
    cases hb : body x s with
    | error e => rw [hb] at h; cases h
    | ok p =>
      obtain ⟨r1, s1⟩ := p
      have hP1 := step x (List.mem_cons_self ..) s r1 s1 h0 hb
      rw [hb, ok_bind] at h
      cases r1 with
      | error e =>
        simp only at h
        injection h with h
        injection h with _ h
        exact h ▸ hP1
      | ok u =>
        exact ih s1 hP1 (fun y hy => step y (List.mem_cons_of_mem _ hy)) r s' h

/-- outcomes related by `R`: both panic alike, or both succeed with related values -/
def ExecRel {σ τ : Type} (R : σ → τ → Prop) : Exec σ → Exec τ → Prop
  | .ok a, .ok b => R a b
  | .error e, .error e' => e = e'
  | _, _ => False

/-- two loops whose steps keep their states related have related outcomes -/
theorem foldlM_rel {α σ τ : Type} (R : σ → τ → Prop) (L : List α) (f : σ → α → Exec σ)
    (g : τ → α → Exec τ) (h : ∀ x ∈ L, ∀ s t, R s t → ExecRel R (f s x) (g t x))
    (s : σ) (t : τ) (hR : R s t) : ExecRel R (L.foldlM f s) (L.foldlM g t) := by
  induction L generalizing s t with
  | nil => exact hR
  | cons x xs ih =>
    rw [List.foldlM_cons, List.foldlM_cons]
    have h1 := h x (List.mem_cons_self ..) s t hR
    cases e1 : f s x with
    | error e =>
      cases e2 : g t x with
      | error e' => rw [e1, e2] at h1; exact h1
      | ok b => rw [e1, e2] at h1; exact h1.elim
    | ok a =>
      cases e2 : g t x with
      | error e' => rw [e1, e2] at h1; exact h1.elim
      | ok b =>
        rw [e1, e2] at h1
        exact ih (fun y hy => h y (List.mem_cons_of_mem _ hy)) a b h1

end Rusty
