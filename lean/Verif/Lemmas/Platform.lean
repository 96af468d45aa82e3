import Verif.Spec.Platform

/-! # Runs on two arithmetics side by side -/

namespace Rusty

open F32Ops Spec

section

variable {α β γ δ : Type} {P : α → β → Prop} {Q : γ → δ → Prop}

theorem rel_pure {a : α} {c : β} (h : P a c) : SameRun P (pure a) (pure c) := h

theorem rel_ok {a : α} {c : β} (h : P a c) : SameRun P (.ok a) (.ok c) := h

theorem rel_err (e : PanicKind) : SameRun P (.error e) (.error e) := rfl

theorem rel_bind {x : Exec α} {y : Exec β} {f : α → Exec γ} {g : β → Exec δ} (h : SameRun P x y)
    (hf : ∀ a c, P a c → SameRun Q (f a) (g c)) : SameRun Q (x >>= f) (y >>= g) := by
  cases x with
  | error e =>
    cases y with
    | error e' => exact h
    | ok c => exact h.elim
  | ok a =>
    cases y with
    | error e' => exact h.elim
    | ok c => exact hf a c h

/-- a computation that both sides have in common -/
theorem rel_same {x : Exec α} {f : α → Exec γ} {g : α → Exec δ} (hf : ∀ a, SameRun Q (f a) (g a)) :
    SameRun Q (x >>= f) (x >>= g) := by
  cases x with
  | error e => exact rfl
  | ok a => exact hf a

theorem rel_ite {c : Prop} {i i' : Decidable c} {x x' : Exec α} {y y' : Exec β} (h : SameRun P x y)
    (h' : SameRun P x' y') : SameRun P (@ite _ c i x x') (@ite _ c i' y y') := by
  by_cases hc : c
  · rw [if_pos hc, if_pos hc]; exact h
  · rw [if_neg hc, if_neg hc]; exact h'

theorem rel_foldlM {ι : Type} (L : List ι) {f : α → ι → Exec α} {g : β → ι → Exec β} {s : α} {t : β}
    (h : P s t) (hf : ∀ i s t, P s t → SameRun P (f s i) (g t i)) : SameRun P (L.foldlM f s) (L.foldlM g t) := by
  induction L generalizing s t with
  | nil => exact h
  | cons i L ih => exact rel_bind (hf i s t h) fun _ _ h' => ih h'

theorem rel_range {lo hi : UInt32} {s : α} {t : β} {f : UInt32 → α → Exec α} {g : UInt32 → β → Exec β}
    (h : P s t) (hf : ∀ i s t, P s t → SameRun P (f i s) (g i t)) :
    SameRun P (forRange lo hi s f) (forRange lo hi t g) :=
  rel_foldlM _ h fun _ _ _ h' => hf _ _ _ h'

theorem rel_nat {n : Nat} {s : α} {t : β} {f : Nat → α → Exec α} {g : Nat → β → Exec β}
    (h : P s t) (hf : ∀ i s t, P s t → SameRun P (f i s) (g i t)) :
    SameRun P (forNat n s f) (forNat n t g) :=
  rel_foldlM _ h fun _ _ _ h' => hf _ _ _ h'

/-- the same message, and related values -/
def Both (P : α → β → Prop) (p : Res × α) (q : Res × β) : Prop := p.1 = q.1 ∧ P p.2 q.2

theorem rel_listE {ι κ : Type} {I : ι → κ → Prop} {L : List ι} {M : List κ} {s : α} {t : β}
    {f : ι → α → Exec (Res × α)} {g : κ → β → Exec (Res × β)} (hL : List.Forall₂ I L M) (h : P s t)
    (hf : ∀ i k s t, I i k → P s t → SameRun (Both P) (f i s) (g k t)) :
    SameRun (Both P) (forListE L s f) (forListE M t g) := by
  induction hL generalizing s t with
  | nil => exact ⟨rfl, h⟩
  | cons hi _ ih =>
    refine rel_bind (hf _ _ _ _ hi h) ?_
    rintro ⟨r, a⟩ ⟨r', c⟩ ⟨hr, hp⟩
    have hr : r = r' := hr
    subst hr
    cases r with
    | error e => exact ⟨rfl, hp⟩
    | ok u => exact ih hp

theorem forall₂_eq (L : List ι) : List.Forall₂ (· = ·) L L := by
  induction L with
  | nil => exact .nil
  | cons x xs ih => exact .cons rfl ih

theorem rel_listE_same {ι : Type} {L : List ι} {s : α} {t : β}
    {f : ι → α → Exec (Res × α)} {g : ι → β → Exec (Res × β)} (h : P s t)
    (hf : ∀ i s t, P s t → SameRun (Both P) (f i s) (g i t)) :
    SameRun (Both P) (forListE L s f) (forListE L t g) :=
  rel_listE (forall₂_eq L) h fun i k s t e h => by subst e; exact hf i s t h

theorem rel_mapM {L : List α} {M : List β} {f : α → Exec γ} {g : β → Exec δ} (hL : List.Forall₂ P L M)
    (hf : ∀ i k, P i k → SameRun Q (f i) (g k)) : SameRun (List.Forall₂ Q) (L.mapM f) (M.mapM g) := by
  induction hL with
  | nil => exact .nil
  | cons hi _ ih =>
    rw [List.mapM_cons, List.mapM_cons]
    exact rel_bind (hf _ _ hi) fun _ _ h1 => rel_bind ih fun _ _ h2 => rel_pure (.cons h1 h2)

theorem rel_vget {L : List α} {M : List β} (h : List.Forall₂ P L M) (i : Nat) :
    SameRun P (vget L i) (vget M i) := by
  unfold vget
  induction h generalizing i with
  | nil => exact rfl
  | cons h _ ih =>
    cases i with
    | zero => exact h
    | succ i => exact ih i

theorem rel_get? {L : List α} {M : List β} (h : List.Forall₂ P L M) (i : Nat) :
    (L[i]? = none ∧ M[i]? = none) ∨ ∃ a c, L[i]? = some a ∧ M[i]? = some c ∧ P a c := by
  induction h generalizing i with
  | nil => exact .inl ⟨rfl, rfl⟩
  | cons h _ ih =>
    cases i with
    | zero => exact .inr ⟨_, _, rfl, rfl, h⟩
    | succ i => exact ih i

theorem rel_length {L : List α} {M : List β} (h : List.Forall₂ P L M) : L.length = M.length := by
  induction h with
  | nil => rfl
  | cons _ _ ih => rw [List.length_cons, List.length_cons, ih]

theorem rel_set {L : List α} {M : List β} (h : List.Forall₂ P L M) (i : Nat) {a : α} {c : β} (ha : P a c) :
    List.Forall₂ P (L.set i a) (M.set i c) := by
  induction h generalizing i with
  | nil => exact .nil
  | cons h hs ih =>
    cases i with
    | zero => exact .cons ha hs
    | succ i => exact .cons h (ih i)

theorem rel_vset {L : List α} {M : List β} (h : List.Forall₂ P L M) (i : Nat) {a : α} {c : β} (ha : P a c) :
    SameRun (List.Forall₂ P) (vset L i a) (vset M i c) := by
  unfold vset
  rw [rel_length h]
  exact rel_ite (rel_ok (rel_set h i ha)) (rel_err _)

theorem rel_map {L : List α} {M : List β} {f : α → γ} {g : β → δ} (h : List.Forall₂ P L M)
    (hf : ∀ a c, P a c → Q (f a) (g c)) : List.Forall₂ Q (L.map f) (M.map g) := by
  induction h with
  | nil => exact .nil
  | cons h _ ih => exact .cons (hf _ _ h) ih

theorem rel_replicate (n : Nat) {a : α} {c : β} (h : P a c) :
    List.Forall₂ P (List.replicate n a) (List.replicate n c) := by
  induction n with
  | zero => exact .nil
  | succ n ih => exact .cons h ih

theorem rel_append {L L' : List α} {M M' : List β} (h : List.Forall₂ P L M) (h' : List.Forall₂ P L' M') :
    List.Forall₂ P (L ++ L') (M ++ M') := by
  induction h with
  | nil => exact h'
  | cons h _ ih => exact .cons h ih

end

variable {F G : Type} [F32Ops F] [F32Ops G] {S : Prop} {R : F → G → Prop} {b : Build}

/-! ## Tensors -/

theorem rel_new (ho : RespectsIf S R) (s : TensorShape) : SameRun (SameTensor R) (Tensor.new b s) (Tensor.new b s) :=
  rel_same fun _ => rel_same fun _ => rel_pure ⟨rfl, rfl, rel_replicate _ ho.zero⟩

theorem rel_empty (ho : RespectsIf S R) : SameRun (SameTensor R) (Tensor.empty b) (Tensor.empty b) := rel_new ho _

section

variable {t t1 t2 r : Tensor F} {u u1 u2 v : Tensor G}

omit [F32Ops F] [F32Ops G] in
theorem rel_read (h : SameTensor R t u) (ix : TensorIndex) : SameRun R (t.read b ix) (u.read b ix) := by
  unfold Tensor.read Tensor.get_data_index
  rw [h.1]
  exact rel_same fun _ => rel_vget h.2.2 _

omit [F32Ops F] [F32Ops G] in
theorem rel_write (h : SameTensor R t u) (ix : TensorIndex) {x : F} {y : G} (hx : R x y) :
    SameRun (SameTensor R) (t.write b ix x) (u.write b ix y) := by
  unfold Tensor.write Tensor.get_data_index
  rw [h.1]
  exact rel_same fun _ => rel_bind (rel_vset h.2.2 _ hx) fun _ _ hd => rel_pure ⟨rfl, h.2.1, hd⟩

theorem rel_get_item (ho : RespectsIf S R) (h : SameTensor R t u) (ix : TensorIndex) :
    SameRun R (t.get_item b ix) (u.get_item b ix) := by
  unfold Tensor.get_item
  rw [h.2.1]
  exact rel_ite (rel_read h ix) (rel_pure ho.zero)

omit [F32Ops F] [F32Ops G] in
theorem rel_set_item (h : SameTensor R t u) (ix : TensorIndex) {x : F} {y : G} (hx : R x y) :
    SameRun (SameTensor R) (t.set_item b ix x) (u.set_item b ix y) := by
  unfold Tensor.set_item
  rw [h.2.1]
  exact rel_ite (rel_write h ix hx) (rel_pure h)

omit [F32Ops F] [F32Ops G] in
theorem rel_fill (h : SameTensor R t u) {x : F} {y : G} (hx : R x y) :
    SameTensor R (t.fill_with_value x) (u.fill_with_value y) :=
  ⟨h.1, h.2.1, rel_map h.2.2 fun _ _ _ => hx⟩

omit [F32Ops F] [F32Ops G] in
theorem rel_fill_vec (h : SameTensor R t u) {xs : List F} {ys : List G} (hx : List.Forall₂ R xs ys) :
    SameRun (Both (SameTensor R)) (t.fill_with_vec b xs) (u.fill_with_vec b ys) := by
  unfold Tensor.fill_with_vec Tensor.total_items
  rw [h.2.1, rel_length hx]
  exact rel_same fun _ => rel_ite (rel_pure ⟨rfl, h⟩) (rel_pure ⟨rfl, h.1, rfl, hx⟩)

omit [F32Ops F] [F32Ops G] in
theorem rel_zipUpdate {xs zs : List F} {ys ws : List G} {f : F → F → F} {g : G → G → G}
    (hf : ∀ {x x' y y'}, R x x' → R y y' → R (f x y) (g x' y')) (h : List.Forall₂ R xs ys)
    (h' : List.Forall₂ R zs ws) : List.Forall₂ R (zipUpdate f xs zs) (zipUpdate g ys ws) := by
  induction h generalizing zs ws with
  | nil => exact .nil
  | cons h hs ih =>
    cases h' with
    | nil => exact .cons h hs
    | cons h1 h2 => exact .cons (hf h h1) (ih h2)

omit [F32Ops F] [F32Ops G] in
theorem rel_zipAssign {rs xs zs : List F} {ss ys ws : List G} {f : F → F → F} {g : G → G → G}
    (hf : ∀ {x x' y y'}, R x x' → R y y' → R (f x y) (g x' y')) (hr : List.Forall₂ R rs ss)
    (h : List.Forall₂ R xs ys) (h' : List.Forall₂ R zs ws) :
    List.Forall₂ R (zipAssign2 f rs xs zs) (zipAssign2 g ss ys ws) := by
  induction hr generalizing xs ys zs ws with
  | nil => exact .nil
  | cons h0 hs ih =>
    cases h with
    | nil => exact .cons h0 hs
    | cons h1 h2 =>
      cases h' with
      | nil => exact .cons h0 hs
      | cons h3 h4 => exact .cons (hf h1 h3) (ih h2 h4)

theorem rel_add_to_self (ho : RespectsIf S R) (h : SameTensor R t u) (h' : SameTensor R t1 u1) :
    SameTensor R (t.add_to_self t1) (u.add_to_self u1) := by
  unfold Tensor.add_to_self
  rw [h.2.1, h'.2.1]
  split
  · exact ⟨h.1, rfl, rel_zipUpdate ho.add h.2.2 h'.2.2⟩
  · exact h

theorem rel_mul_self (ho : RespectsIf S R) (h : SameTensor R t u) (h' : SameTensor R t1 u1) :
    SameTensor R (t.multiply_elementwise_self t1) (u.multiply_elementwise_self u1) := by
  unfold Tensor.multiply_elementwise_self
  rw [h.2.1, h'.2.1]
  split
  · exact ⟨h.1, rfl, rel_zipUpdate ho.mul h.2.2 h'.2.2⟩
  · exact h

theorem rel_mul_elem (ho : RespectsIf S R) (h1 : SameTensor R t1 u1) (h2 : SameTensor R t2 u2)
    (h : SameTensor R r v) :
    SameTensor R (Tensor.multiply_elementwise t1 t2 r) (Tensor.multiply_elementwise u1 u2 v) := by
  unfold Tensor.multiply_elementwise
  rw [h1.2.1, h2.2.1, h.2.1]
  split
  · exact ⟨h.1, rfl, rel_zipAssign ho.mul h.2.2 h1.2.2 h2.2.2⟩
  · exact h

theorem rel_scale_self (ho : RespectsIf S R) (h : SameTensor R t u) {x : F} {y : G} (hx : R x y) :
    SameTensor R (t.scale_self x) (u.scale_self y) :=
  ⟨h.1, h.2.1, rel_map h.2.2 fun _ _ h => ho.mul h hx⟩

theorem rel_index_list (ho : RespectsIf S R) (h1 : SameTensor R t1 u1) (h2 : SameTensor R t2 u2) (L : List UInt32) :
    SameRun (Both (SameTensor R)) (Tensor.add_from_index_list b t1 t2 L) (Tensor.add_from_index_list b u1 u2 L) := by
  unfold Tensor.add_from_index_list
  rw [h1.2.1, h2.2.1]
  refine rel_same fun _ => rel_ite (rel_pure ⟨rfl, h2⟩) ?_
  refine rel_same fun _ => rel_listE_same h2 ?_
  rintro ⟨i, j⟩ s t hs
  refine rel_ite (rel_pure ⟨rfl, hs⟩) ?_
  exact rel_bind (rel_vget h1.2.2 _) fun _ _ hx => rel_bind (rel_vget hs.2.2 _) fun _ _ hy =>
    rel_bind (rel_vset hs.2.2 _ (ho.add hy hx)) fun _ _ hd => rel_pure ⟨rfl, hs.1, hs.2.1, hd⟩

theorem rel_reluZip (ho : RespectsIf S R) {xs ms : List F} {ys ns : List G} (h : List.Forall₂ R xs ys)
    (h' : List.Forall₂ R ms ns) : List.Forall₂ R (Tensor.reluZip xs ms).1 (Tensor.reluZip ys ns).1 ∧
      List.Forall₂ R (Tensor.reluZip xs ms).2 (Tensor.reluZip ys ns).2 := by
  induction h generalizing ms ns with
  | nil => exact ⟨.nil, h'⟩
  | cons h hs ih =>
    cases h' with
    | nil => exact ⟨.cons h hs, .nil⟩
    | cons h1 h2 =>
      unfold Tensor.reluZip
      simp only [ho.gt h ho.zero]
      split
      · exact ⟨.cons h (ih h2).1, .cons ho.one (ih h2).2⟩
      · exact ⟨.cons ho.zero (ih h2).1, .cons ho.zero (ih h2).2⟩

theorem rel_relu_mask (ho : RespectsIf S R) (h1 : SameTensor R t1 u1) (h2 : SameTensor R t2 u2) :
    (Tensor.relu_self_and_store_mask t1 t2).1 = (Tensor.relu_self_and_store_mask u1 u2).1 ∧
    SameTensor R (Tensor.relu_self_and_store_mask t1 t2).2.1 (Tensor.relu_self_and_store_mask u1 u2).2.1 ∧
    SameTensor R (Tensor.relu_self_and_store_mask t1 t2).2.2 (Tensor.relu_self_and_store_mask u1 u2).2.2 := by
  unfold Tensor.relu_self_and_store_mask
  rw [h1.2.1, h2.2.1]
  split
  · exact ⟨rfl, h1, h2⟩
  · have := rel_reluZip ho h1.2.2 h2.2.2
    exact ⟨rfl, ⟨h1.1, rfl, this.1⟩, h2.1, rfl, this.2⟩

omit [F32Ops F] [F32Ops G] in
theorem rel_transpose (h1 : SameTensor R t1 u1) (h : SameTensor R r v) :
    SameRun (Both (SameTensor R)) (Tensor.transpose_ij b t1 r) (Tensor.transpose_ij b u1 v) := by
  unfold Tensor.transpose_ij
  rw [h1.2.1, h.2.1]
  refine rel_ite (rel_pure ⟨rfl, h⟩) (rel_ite (rel_pure ⟨rfl, h⟩) (rel_ite (rel_pure ⟨rfl, h⟩) ?_))
  refine rel_bind (P := SameTensor R) ?_ fun _ _ h => rel_pure ⟨rfl, h⟩
  exact rel_range h fun k _ _ h => rel_range h fun j _ _ h => rel_range h fun i _ _ h =>
    rel_bind (rel_read h1 _) fun _ _ hv => rel_write h _ hv

theorem rel_mm_first (ho : RespectsIf S R) (h1 : SameTensor R t1 u1) (h2 : SameTensor R t2 u2) (h : SameTensor R r v) :
    SameRun (Both (SameTensor R)) (Tensor.matrix_multiply_transpose_first b t1 t2 r)
      (Tensor.matrix_multiply_transpose_first b u1 u2 v) := by
  unfold Tensor.matrix_multiply_transpose_first
  rw [h1.2.1, h2.2.1, h.2.1]
  refine rel_ite (rel_pure ⟨rfl, h⟩) (rel_bind (P := SameTensor R) ?_ fun _ _ h => rel_pure ⟨rfl, h⟩)
  exact rel_range h fun k _ _ h => rel_range h fun j _ _ h => rel_range h fun i _ _ h =>
    rel_bind (rel_range ho.zero fun ii _ _ ha => rel_bind (rel_read h1 _) fun _ _ hx =>
      rel_bind (rel_read h2 _) fun _ _ hy => rel_pure (ho.add ha (ho.mul hx hy))) fun _ _ hv => rel_write h _ hv

theorem rel_mm_second (ho : RespectsIf S R) (h1 : SameTensor R t1 u1) (h2 : SameTensor R t2 u2) (h : SameTensor R r v) :
    SameRun (Both (SameTensor R)) (Tensor.matrix_multiply_transpose_second b t1 t2 r)
      (Tensor.matrix_multiply_transpose_second b u1 u2 v) := by
  unfold Tensor.matrix_multiply_transpose_second
  rw [h1.2.1, h2.2.1, h.2.1]
  refine rel_ite (rel_pure ⟨rfl, h⟩) (rel_bind (P := SameTensor R) ?_ fun _ _ h => rel_pure ⟨rfl, h⟩)
  exact rel_range h fun k _ _ h => rel_range h fun j _ _ h => rel_range h fun i _ _ h =>
    rel_bind (rel_range ho.zero fun ii _ _ ha => rel_bind (rel_read h1 _) fun _ _ hx =>
      rel_bind (rel_read h2 _) fun _ _ hy => rel_pure (ho.add ha (ho.mul hx hy))) fun _ _ hv => rel_write h _ hv

theorem rel_mm (ho : RespectsIf S R) (h1 : SameTensor R t1 u1) (h2 : SameTensor R t2 u2) (h : SameTensor R r v) :
    SameRun (SameTensor R) (Tensor.matrix_multiply b t1 t2 r) (Tensor.matrix_multiply b u1 u2 v) := by
  unfold Tensor.matrix_multiply
  rw [h1.2.1, h2.2.1, h.2.1]
  refine rel_ite ?_ (rel_pure h)
  exact rel_range h fun k _ _ h => rel_range h fun j _ _ h => rel_range h fun i _ _ h =>
    rel_bind (rel_range ho.zero fun ii _ _ ha => rel_bind (rel_read h1 _) fun _ _ hx =>
      rel_bind (rel_read h2 _) fun _ _ hy => rel_pure (ho.add ha (ho.mul hx hy))) fun _ _ hv => rel_write h _ hv

theorem rel_mm_relu (ho : RespectsIf S R) (h2 : SameTensor R t2 u2) (h1 : SameTensor R t1 u1) (h3 : SameTensor R t u)
    (h : SameTensor R r v) :
    SameRun (SameTensor R) (Tensor.matrix_multiply_add_relu b t2 t1 t r)
      (Tensor.matrix_multiply_add_relu b u2 u1 u v) := by
  unfold Tensor.matrix_multiply_add_relu
  rw [h1.2.1, h2.2.1, h3.2.1, h.2.1]
  refine rel_ite (rel_ite ?_ (rel_pure h)) (rel_pure h)
  exact rel_range h fun k _ _ h => rel_range h fun j _ _ h => rel_range h fun i _ _ h =>
    rel_bind (rel_range ho.zero fun ii _ _ ha => rel_bind (rel_read h1 _) fun _ _ hx =>
      rel_bind (rel_read h2 _) fun _ _ hy => rel_pure (ho.add ha (ho.mul hx hy))) fun _ _ ha =>
    rel_bind (rel_read h3 _) fun _ _ hb => rel_write h _ (ho.fmax (ho.add ha hb) ho.zero)

theorem rel_max_pool (ho : RespectsIf S R) (h1 : SameTensor R t1 u1) (mask : TensorShape) (st : UInt32)
    (h : SameTensor R r v) :
    SameRun (SameTensor R) (Tensor.max_pool b t1 mask st r) (Tensor.max_pool b u1 mask st v) := by
  unfold Tensor.max_pool
  rw [h1.2.1, h.2.1]
  refine rel_same fun _ => rel_ite ?_ (rel_pure h)
  refine rel_range h fun k _ _ h => rel_range h fun j _ _ h => rel_range h fun i _ _ h =>
    rel_bind (rel_range ho.negInf fun jj _ _ hm => rel_range hm fun ii _ _ hm => rel_same fun _ =>
      rel_same fun _ => rel_same fun _ => rel_same fun _ => rel_bind (rel_get_item ho h1 _)
      fun x y hx => rel_pure ?_) fun _ _ hv => rel_set_item h _ hv
  rw [ho.gt hx hm]
  split
  · exact hx
  · exact hm

omit [F32Ops F] [F32Ops G] in
theorem data_index_eq (h : SameTensor R t u) (ix : TensorIndex) : t.get_data_index b ix = u.get_data_index b ix := by
  unfold Tensor.get_data_index
  rw [h.1]

theorem rel_max_pool_origin (ho : RespectsIf S R) (h1 : SameTensor R t1 u1) (mask : TensorShape) (st : UInt32)
    (h : SameTensor R r v) (o : List UInt32) :
    SameRun (fun p q => p.1 = q.1 ∧ SameTensor R p.2.1 q.2.1 ∧ p.2.2 = q.2.2)
      (Tensor.max_pool_track_origin b t1 mask st r o) (Tensor.max_pool_track_origin b u1 mask st v o) := by
  unfold Tensor.max_pool_track_origin
  rw [h1.2.1, h.2.1]
  refine rel_same fun _ => rel_ite (rel_pure ⟨rfl, h, rfl⟩) (rel_same fun _ => rel_ite (rel_pure ⟨rfl, h, rfl⟩) ?_)
  refine rel_bind (P := fun p q => SameTensor R p.1 q.1 ∧ p.2 = q.2) ?_ ?_
  · refine rel_range ⟨h, rfl⟩ ?_
    rintro k ⟨s, o⟩ ⟨s', o'⟩ ⟨h, e⟩
    refine rel_range ⟨h, e⟩ ?_
    rintro j ⟨s, o⟩ ⟨s', o'⟩ ⟨h, e⟩
    refine rel_range ⟨h, e⟩ ?_
    rintro i ⟨s, o⟩ ⟨s', o'⟩ ⟨h, e⟩
    have e : o = o' := e
    subst e
    simp only at h ⊢
    rw [data_index_eq h]
    refine rel_same fun _ => rel_bind (P := fun p q => R p.1 q.1 ∧ p.2 = q.2) ?_ ?_
    · refine rel_range ⟨ho.negInf, rfl⟩ ?_
      rintro jj ⟨m, oi⟩ ⟨m', oi'⟩ hm
      refine rel_range hm ?_
      rintro ii ⟨m, oi⟩ ⟨m', oi'⟩ ⟨hm, e⟩
      have e : oi = oi' := e
      subst e
      refine rel_same fun _ => rel_same fun _ => rel_same fun _ => rel_same fun _ =>
        rel_bind (rel_get_item ho h1 _) fun x y hx => ?_
      have hm : R m m' := hm
      simp only [ho.gt hx hm, data_index_eq h1]
      exact rel_ite (rel_same fun _ => rel_pure ⟨hx, rfl⟩) (rel_pure ⟨hm, rfl⟩)
    · rintro ⟨m, oi⟩ ⟨m', oi'⟩ ⟨hm, e⟩
      have e : oi = oi' := e
      subst e
      exact rel_bind (rel_set_item h _ hm) fun _ _ hs => rel_same fun _ => rel_pure ⟨hs, rfl⟩
  · rintro ⟨s, o⟩ ⟨s', o'⟩ ⟨h, e⟩
    exact rel_pure ⟨rfl, h, e⟩

theorem rel_softmax (ho : RespectsIf S R) (hS : S) (h1 : SameTensor R t1 u1) (h : SameTensor R r v) :
    SameRun (SameTensor R) (Tensor.softmax t1 r) (Tensor.softmax u1 v) := by
  unfold Tensor.softmax
  rw [h1.2.1, h.2.1, rel_length h1.2.2]
  refine rel_ite ?_ (rel_pure h)
  refine rel_bind (P := fun p q => List.Forall₂ R p.1 q.1 ∧ R p.2 q.2) ?_ ?_
  · refine rel_nat ⟨h.2.2, ho.zero⟩ ?_
    rintro i ⟨o, s⟩ ⟨o', s'⟩ ⟨hd, hs⟩
    exact rel_bind (rel_vget h1.2.2 _) fun _ _ hx => rel_bind (rel_vset hd _ (ho.exp hS hx)) fun _ _ hd =>
      rel_pure ⟨hd, ho.add hs (ho.exp hS hx)⟩
  · rintro ⟨o, s⟩ ⟨o', s'⟩ ⟨hd, hs⟩
    exact rel_pure ⟨h.1, rfl, rel_map hd fun _ _ hx => ho.div hS hx hs⟩

theorem rel_norm (ho : RespectsIf S R) (h : SameTensor R t u) : R t.get_norm u.get_norm := by
  unfold Tensor.get_norm
  refine ho.sqrt ?_
  have H : ∀ (xs : List F) (ys : List G) (a : F) (c : G), List.Forall₂ R xs ys → R a c →
      R (xs.foldl (fun total d => F32Ops.add total (square d)) a)
        (ys.foldl (fun total d => F32Ops.add total (square d)) c) := by
    intro xs ys a c h
    induction h generalizing a c with
    | nil => exact id
    | cons h _ ih => exact fun ha => ih _ _ (ho.add ha (ho.square h))
  exact H _ _ _ _ h.2.2 ho.zero

theorem rel_eq (ho : RespectsIf S R) (h1 : SameTensor R t1 u1) (h2 : SameTensor R t2 u2) : t1.eq t2 = u1.eq u2 := by
  unfold Tensor.eq
  rw [h1.2.1, h2.2.1, rel_length h1.2.2, rel_length h2.2.2]
  have : (t1.data.zip t2.data).all (fun p => F32Ops.feq p.1 p.2) =
      (u1.data.zip u2.data).all (fun p => F32Ops.feq p.1 p.2) := by
    have H : ∀ {xs zs : List F} {ys ws : List G}, List.Forall₂ R xs ys → List.Forall₂ R zs ws →
        (xs.zip zs).all (fun p => F32Ops.feq p.1 p.2) = (ys.zip ws).all (fun p => F32Ops.feq p.1 p.2) := by
      intro xs zs ys ws h
      induction h generalizing zs ws with
      | nil => intro _; rfl
      | cons h _ ih =>
        intro h'
        cases h' with
        | nil => rfl
        | cons h1 h2 =>
          simp only [List.zip_cons_cons, List.all_cons]
          rw [ho.feq h h1, ih h2]
    exact H h1.2.2 h2.2.2
  rw [this]

/-! ## Convolutions -/

theorem rel_window (ho : RespectsIf S R) (h1 : SameTensor R t1 u1) (h2 : SameTensor R t2 u2) (st i j : UInt32) :
    SameRun R (convolution_window b t1 t2 st i j) (convolution_window b u1 u2 st i j) := by
  unfold convolution_window
  simp only [h2.2.1, data_index_eq h1, data_index_eq h2]
  exact rel_same fun _ => rel_same fun _ => rel_range ho.zero fun _ _ _ h => rel_range h fun _ _ _ h =>
    rel_range h fun _ _ _ h => rel_same fun _ => rel_same fun _ => rel_same fun _ => rel_same fun _ =>
    rel_bind (rel_vget h1.2.2 _) fun _ _ hx => rel_bind (rel_vget h2.2.2 _) fun _ _ hy =>
    rel_pure (ho.add h (ho.mul hx hy))

theorem rel_conv (ho : RespectsIf S R) (h1 : SameTensor R t1 u1) (h2 : SameTensor R t2 u2) (h3 : SameTensor R t u)
    (st : UInt32) (h : SameTensor R r v) (c : UInt32) :
    SameRun (Both (SameTensor R)) (convolution_bias b t1 t2 t st r c) (convolution_bias b u1 u2 u st v c) := by
  unfold convolution_bias
  rw [h1.2.1, h2.2.1, h.2.1, h3.2.1]
  refine rel_same fun chk => ?_
  cases chk with
  | error e => exact rel_pure ⟨rfl, h⟩
  | ok _ =>
    refine rel_ite (rel_pure ⟨rfl, h⟩) (rel_bind (rel_get_item ho h3 _) fun _ _ hb => ?_)
    refine rel_bind (P := SameTensor R) ?_ fun _ _ h => rel_pure ⟨rfl, h⟩
    exact rel_range h fun _ _ _ h => rel_range h fun _ _ _ h => rel_bind (rel_window ho h1 h2 _ _ _)
      fun _ _ ha => rel_write h _ (ho.add ha hb)

theorem rel_conv_relu (ho : RespectsIf S R) (h1 : SameTensor R t1 u1) (h2 : SameTensor R t2 u2) (h3 : SameTensor R t u)
    (st : UInt32) (h : SameTensor R r v) (c : UInt32) :
    SameRun (Both (SameTensor R)) (convolution_bias_relu b t1 t2 t st r c)
      (convolution_bias_relu b u1 u2 u st v c) := by
  unfold convolution_bias_relu
  rw [h1.2.1, h2.2.1, h.2.1, h3.2.1]
  refine rel_same fun chk => ?_
  cases chk with
  | error e => exact rel_pure ⟨rfl, h⟩
  | ok _ =>
    refine rel_ite (rel_pure ⟨rfl, h⟩) (rel_bind (rel_get_item ho h3 _) fun _ _ hb => ?_)
    refine rel_bind (P := SameTensor R) ?_ fun _ _ h => rel_pure ⟨rfl, h⟩
    exact rel_range h fun _ _ _ h => rel_range h fun _ _ _ h => rel_bind (rel_window ho h1 h2 _ _ _)
      fun _ _ ha => rel_write h _ (ho.fmax (ho.add ha hb) ho.zero)

omit [F32Ops F] [F32Ops G] in
theorem rel_zipIdx {xs : List (Tensor F)} {ys : List (Tensor G)} (h : List.Forall₂ (SameTensor R) xs ys) (k : Nat) :
    List.Forall₂ (fun p q => SameTensor R p.1 q.1 ∧ p.2 = q.2) (xs.zipIdx k) (ys.zipIdx k) := by
  induction h generalizing k with
  | nil => exact .nil
  | cons h _ ih => exact .cons ⟨h, rfl⟩ (ih (k + 1))

theorem rel_conv_outgoing (ho : RespectsIf S R) (h1 : SameTensor R t1 u1) {ks : List (Tensor F)} {ms : List (Tensor G)}
    (hk : List.Forall₂ (SameTensor R) ks ms) (st : UInt32) (h : SameTensor R r v) :
    SameRun (Both (SameTensor R)) (convolution_backprop_outgoing_gradient b t1 ks st r)
      (convolution_backprop_outgoing_gradient b u1 ms st v) := by
  unfold convolution_backprop_outgoing_gradient
  rw [h1.2.1, h.2.1, rel_length hk]
  refine rel_bind (P := Both (fun _ _ => True)) ?_ ?_
  · refine rel_listE (rel_zipIdx hk 0) trivial ?_
    rintro ⟨k, i⟩ ⟨k', i'⟩ _ _ ⟨hs, e⟩ _
    have e : i = i' := e
    subst e
    have hs : SameTensor R k k' := hs
    simp only [hs.2.1]
    exact rel_same fun _ => rel_pure ⟨rfl, trivial⟩
  · rintro ⟨chk, _⟩ ⟨chk', _⟩ ⟨e, _⟩
    have e : chk = chk' := e
    subst e
    cases chk with
    | error e => exact rel_pure ⟨rfl, h⟩
    | ok _ =>
      refine rel_ite (rel_pure ⟨rfl, h⟩) ?_
      refine rel_bind (P := SameTensor R) ?_ fun _ _ h => rel_pure ⟨rfl, h⟩
      refine rel_range h fun _ _ _ h => rel_range h fun _ _ _ h => rel_range h fun _ _ _ h =>
        rel_bind (rel_range ho.zero fun _ _ _ ha => rel_bind (rel_vget hk _) fun k k' hs => ?_)
        fun _ _ ha => rel_write h _ ha
      simp only [hs.2.1, data_index_eq h1, data_index_eq hs]
      exact rel_same fun _ => rel_same fun _ => rel_same fun _ => rel_same fun _ =>
        rel_range ha fun _ _ _ ha => rel_range ha fun _ _ _ ha => rel_same fun _ => rel_same fun _ =>
        rel_same fun _ => rel_same fun _ => rel_same fun _ => rel_same fun _ =>
        rel_bind (rel_vget hs.2.2 _) fun _ _ hx => rel_bind (rel_vget h1.2.2 _) fun _ _ hy =>
        rel_pure (ho.add ha (ho.mul hx hy))

theorem rel_conv_kernel (ho : RespectsIf S R) (h1 : SameTensor R t1 u1) (h2 : SameTensor R t2 u2) (st c : UInt32)
    (h : SameTensor R r v) :
    SameRun (Both (SameTensor R)) (convolution_backprop_kernel b t1 t2 st c r)
      (convolution_backprop_kernel b u1 u2 st c v) := by
  unfold convolution_backprop_kernel
  simp only [h1.2.1, h2.2.1, h.2.1, data_index_eq h1, data_index_eq h2]
  refine rel_same fun chk => ?_
  cases chk with
  | error e => exact rel_pure ⟨rfl, h⟩
  | ok _ =>
    refine rel_bind (P := SameTensor R) ?_ fun _ _ h => rel_pure ⟨rfl, h⟩
    exact rel_range h fun _ _ _ h => rel_range h fun _ _ _ h => rel_range h fun _ _ _ h =>
      rel_bind (rel_range ho.zero fun _ _ _ ha => rel_range ha fun _ _ _ ha => rel_range ha fun _ _ _ ha =>
        rel_same fun _ => rel_same fun _ => rel_same fun _ => rel_same fun _ => rel_same fun _ => rel_same fun _ =>
        rel_bind (rel_vget h2.2.2 _) fun _ _ hx => rel_bind (rel_vget h1.2.2 _) fun _ _ hy =>
        rel_pure (ho.add ha (ho.mul hx hy))) fun _ _ ha => rel_write h _ ha

end

end Rusty
