import Verif.Spec.Form
import Verif.Lemmas.ExactConditions
import Verif.Lemmas.Network
import Verif.Lemmas.CutShort

/-! # Helper lemmas: the numbers do not decide what fails -/

namespace Rusty

open F32Ops Spec

/-! ## Outcomes -/

namespace Spec.SameOutcome

theorem bind {α β γ δ : Type} {R : α → β → Prop} {S : γ → δ → Prop} {x : Exec α} {y : Exec β} {f : α → Exec γ}
    {g : β → Exec δ} (h : SameOutcome R x y) (hf : ∀ a c, R a c → SameOutcome S (f a) (g c)) :
    SameOutcome S (x >>= f) (y >>= g) := by
  cases x <;> cases y
  · exact h
  · exact h.elim
  · exact h.elim
  · exact hf _ _ h

theorem bind' {α β γ δ : Type} {R : α → β → Prop} {S : γ → δ → Prop} {x : Exec α} {y : Exec β} {f : α → Exec γ}
    {g : β → Exec δ} (h : SameOutcome R x y) (hf : ∀ a c, x = .ok a → R a c → SameOutcome S (f a) (g c)) :
    SameOutcome S (x >>= f) (y >>= g) := by
  cases x <;> cases y
  · exact h
  · exact h.elim
  · exact h.elim
  · exact hf _ _ rfl h

theorem step {α γ δ : Type} {S : γ → δ → Prop} {x : Exec α} {f : α → Exec γ} {g : α → Exec δ}
    (hf : ∀ a, x = .ok a → SameOutcome S (f a) (g a)) : SameOutcome S (x >>= f) (x >>= g) := by
  cases x
  · exact rfl
  · exact hf _ rfl

theorem foldlM {ι σ τ : Type} {R : σ → τ → Prop} {f : σ → ι → Exec σ} {g : τ → ι → Exec τ} (L : List ι)
    (h : ∀ i ∈ L, ∀ s t, R s t → SameOutcome R (f s i) (g t i)) {s : σ} {t : τ} (hs : R s t) :
    SameOutcome R (L.foldlM f s) (L.foldlM g t) := by
  induction L generalizing s t with
  | nil => exact hs
  | cons i is ih =>
    rw [List.foldlM_cons, List.foldlM_cons]
    exact bind (h i (List.mem_cons_self ..) s t hs) fun a c hac => ih (fun j hj => h j (List.mem_cons_of_mem _ hj)) hac

theorem forRange {σ τ : Type} {R : σ → τ → Prop} {hi : UInt32} {s : σ} {t : τ}
    {f : UInt32 → σ → Exec σ} {g : UInt32 → τ → Exec τ} (hs : R s t)
    (h : ∀ i, i.toNat < hi.toNat → ∀ s t, R s t → SameOutcome R (f i s) (g i t)) :
    SameOutcome R (Rusty.forRange 0 hi s f) (Rusty.forRange 0 hi t g) := by
  rw [forRange_zero, forRange_zero]
  refine foldlM (f := fun s i => f (UInt32.ofNat i) s) (g := fun s i => g (UInt32.ofNat i) s) _
    (fun i hi' s t hst => h _ ?_ s t hst) hs
  have h1 := List.mem_range.mp hi'
  have := u32_lt hi
  rw [toNat_ofNat_lt (by omega)]
  exact h1

theorem forRange' {σ τ : Type} {R : σ → τ → Prop} {lo hi : UInt32} {s : σ} {t : τ}
    {f : UInt32 → σ → Exec σ} {g : UInt32 → τ → Exec τ} (hs : R s t)
    (h : ∀ i s t, R s t → SameOutcome R (f i s) (g i t)) :
    SameOutcome R (Rusty.forRange lo hi s f) (Rusty.forRange lo hi t g) :=
  foldlM (f := fun s i => f (UInt32.ofNat i) s) (g := fun s i => g (UInt32.ofNat i) s) _
    (fun _ _ s t hst => h _ s t hst) hs

theorem forListE {ι σ τ : Type} {R : σ → τ → Prop} {f : ι → σ → Exec (Res × σ)} {g : ι → τ → Exec (Res × τ)}
    (L : List ι) {s : σ} {t : τ} (hs : R s t)
    (h : ∀ i s t, R s t → SameOutcome (fun p q => p.1 = q.1 ∧ R p.2 q.2) (f i s) (g i t)) :
    SameOutcome (fun p q => p.1 = q.1 ∧ R p.2 q.2) (Rusty.forListE L s f) (Rusty.forListE L t g) := by
  induction L generalizing s t with
  | nil => exact ⟨rfl, hs⟩
  | cons i is ih =>
    unfold Rusty.forListE
    refine bind (h i s t hs) ?_
    rintro ⟨r, s'⟩ ⟨r', t'⟩ ⟨e, h'⟩
    cases e
    cases r with
    | error e => exact ⟨rfl, h'⟩
    | ok _ => exact ih h'

end Spec.SameOutcome

variable {F G : Type}

/-! ## Tensors -/

/-- no relation -/
abbrev Any {α β : Type} (_ : α) (_ : β) : Prop := True

theorem vget_outcome {α β : Type} {v : List α} {w : List β} (h : v.length = w.length) (i : Nat) :
    SameOutcome Any (vget v i) (vget w i) := by
  by_cases hi : i < v.length
  · rw [vget_ok hi, vget_ok (h ▸ hi)]
    trivial
  · rw [vget_oob (by omega), vget_oob (by omega)]
    rfl

theorem vset_outcome {α β : Type} {v : List α} {w : List β} (h : v.length = w.length) (i : Nat) (x : α) (y : β) :
    SameOutcome (fun v' w' => v'.length = w'.length) (vset v i x) (vset w i y) := by
  unfold vset
  rw [h]
  split
  · simpa [SameOutcome] using h
  · rfl

theorem forall₂_vget_outcome {α β : Type} {R : α → β → Prop} {v : List α} {w : List β} (h : List.Forall₂ R v w)
    (i : Nat) : SameOutcome R (vget v i) (vget w i) := by
  induction h generalizing i with
  | nil =>
    rw [vget_oob (by simp), vget_oob (by simp)]
    rfl
  | cons hd _ ih =>
    cases i with
    | zero => exact hd
    | succ i => exact ih i

theorem forall₂_set' {α β : Type} {R : α → β → Prop} {v : List α} {w : List β} (h : List.Forall₂ R v w)
    (i : Nat) {x : α} {y : β} (hxy : R x y) : List.Forall₂ R (v.set i x) (w.set i y) := by
  induction h generalizing i with
  | nil => exact .nil
  | cons hd tl ih =>
    cases i with
    | zero => exact .cons hxy tl
    | succ i => exact .cons hd (ih i)

theorem forall₂_vset_outcome {α β : Type} {R : α → β → Prop} {v : List α} {w : List β} (h : List.Forall₂ R v w)
    (i : Nat) {x : α} {y : β} (hxy : R x y) : SameOutcome (List.Forall₂ R) (vset v i x) (vset w i y) := by
  unfold vset
  rw [h.length_eq]
  split
  · exact forall₂_set' h i hxy
  · rfl

theorem Spec.SameForm.index {t : Tensor F} {u : Tensor G} (h : SameForm t u) (b : Build) (x : TensorIndex) :
    t.get_data_index b x = u.get_data_index b x := by
  unfold Tensor.get_data_index
  rw [h.2.1]

theorem Spec.SameForm.data {t t' : Tensor F} {u u' : Tensor G} (h : SameForm t u) (h1 : sameLayout t' t)
    (h2 : sameLayout u' u) : SameForm t' u' :=
  ⟨h1.1.trans (h.1.trans h2.1.symm), h1.2.1.trans (h.2.1.trans h2.2.1.symm), h1.2.2.trans (h.2.2.trans h2.2.2.symm)⟩

theorem Spec.SameForm.read {t : Tensor F} {u : Tensor G} (h : SameForm t u) (b : Build) (x : TensorIndex) :
    SameOutcome Any (t.read b x) (u.read b x) := by
  unfold Tensor.read
  rw [h.index]
  exact .step fun i _ => vget_outcome h.2.2 _

theorem Spec.SameForm.write {t : Tensor F} {u : Tensor G} (h : SameForm t u) (b : Build) (x : TensorIndex) (v : F) (w : G) :
    SameOutcome SameForm (t.write b x v) (u.write b x w) := by
  unfold Tensor.write
  rw [h.index]
  exact .step fun i _ => .bind (vset_outcome h.2.2 _ _ _) fun _ _ e => ⟨h.1, h.2.1, e⟩

variable [F32Ops F] [F32Ops G]

omit [F32Ops F] [F32Ops G] in
theorem Spec.SameForm.set_item {t : Tensor F} {u : Tensor G} (h : SameForm t u) (b : Build) (x : TensorIndex) (v : F)
    (w : G) : SameOutcome SameForm (t.set_item b x v) (u.set_item b x w) := by
  unfold Tensor.set_item
  rw [h.1]
  split
  · exact h.write b x v w
  · exact h

theorem Spec.SameForm.get_item {t : Tensor F} {u : Tensor G} (h : SameForm t u) (b : Build) (x : TensorIndex) :
    SameOutcome Any (t.get_item b x) (u.get_item b x) := by
  unfold Tensor.get_item
  rw [h.1]
  split
  · exact h.read b x
  · trivial

theorem Spec.SameForm.add_to_self {t v : Tensor F} {u w : Tensor G} (h : SameForm t u) :
    SameForm (Tensor.add_to_self t v) (Tensor.add_to_self u w) :=
  h.data (add_to_self_layout _ _) (add_to_self_layout _ _)

theorem Spec.SameForm.mul_self {t v : Tensor F} {u w : Tensor G} (h : SameForm t u) :
    SameForm (Tensor.multiply_elementwise_self t v) (Tensor.multiply_elementwise_self u w) :=
  h.data (mul_self_layout _ _) (mul_self_layout _ _)

theorem Spec.SameForm.relu {t m : Tensor F} {u k : Tensor G} (h : SameForm t u) (hm : SameForm m k) :
    (Tensor.relu_self_and_store_mask t m).1 = (Tensor.relu_self_and_store_mask u k).1 ∧
    SameForm (Tensor.relu_self_and_store_mask t m).2.1 (Tensor.relu_self_and_store_mask u k).2.1 ∧
    SameForm (Tensor.relu_self_and_store_mask t m).2.2 (Tensor.relu_self_and_store_mask u k).2.2 := by
  refine ⟨?_, h.data (relu_layout _ _).1 (relu_layout _ _).1, hm.data (relu_layout _ _).2 (relu_layout _ _).2⟩
  unfold Tensor.relu_self_and_store_mask
  rw [h.1, hm.1]
  split <;> rfl

theorem Spec.SameForm.mm {t v r : Tensor F} {u w q : Tensor G} (h : SameForm t u) (hv : SameForm v w) (hr : SameForm r q)
    (b : Build) : SameOutcome SameForm (Tensor.matrix_multiply b t v r) (Tensor.matrix_multiply b u w q) := by
  unfold Tensor.matrix_multiply
  simp only [h.1, hv.1, hr.1]
  split
  · exact .forRange hr fun k _ _ _ h1 => .forRange h1 fun j _ _ _ h2 => .forRange h2 fun i _ _ _ h3 =>
      .bind (R := Any) (.forRange trivial fun ii _ _ _ _ => .bind (h.read b _) fun _ _ _ =>
        .bind (hv.read b _) fun _ _ _ => trivial) fun _ _ _ => h3.write b _ _ _
  · exact hr

theorem Spec.SameForm.mm_relu {t v s r : Tensor F} {u w s' q : Tensor G} (h : SameForm t u) (hv : SameForm v w)
    (hs : SameForm s s') (hr : SameForm r q) (b : Build) :
    SameOutcome SameForm (Tensor.matrix_multiply_add_relu b t v s r) (Tensor.matrix_multiply_add_relu b u w s' q) := by
  unfold Tensor.matrix_multiply_add_relu
  simp only [h.1, hv.1, hr.1, hs.1]
  split
  · split
    · exact .forRange hr fun k _ _ _ h1 => .forRange h1 fun j _ _ _ h2 => .forRange h2 fun i _ _ _ h3 =>
        .bind (R := Any) (.forRange trivial fun ii _ _ _ _ => .bind (hv.read b _) fun _ _ _ =>
          .bind (h.read b _) fun _ _ _ => trivial) fun _ _ _ => .bind (hs.read b _) fun _ _ _ => h3.write b _ _ _
    · exact hr
  · exact hr

/-- a result and a tensor -/
abbrev ResForm (p : Res × Tensor F) (q : Res × Tensor G) : Prop := p.1 = q.1 ∧ SameForm p.2 q.2

theorem Spec.SameForm.mm_first {t v r : Tensor F} {u w q : Tensor G} (h : SameForm t u) (hv : SameForm v w)
    (hr : SameForm r q) (b : Build) : SameOutcome ResForm (Tensor.matrix_multiply_transpose_first b t v r)
      (Tensor.matrix_multiply_transpose_first b u w q) := by
  unfold Tensor.matrix_multiply_transpose_first
  simp only [h.1, hv.1, hr.1]
  split
  · exact ⟨rfl, hr⟩
  · exact .bind (R := SameForm) (.forRange hr fun k _ _ _ h1 => .forRange h1 fun j _ _ _ h2 => .forRange h2
      fun i _ _ _ h3 => .bind (R := Any) (.forRange trivial fun ii _ _ _ _ => .bind (h.read b _) fun _ _ _ =>
        .bind (hv.read b _) fun _ _ _ => trivial) fun _ _ _ => h3.write b _ _ _) fun _ _ h => ⟨rfl, h⟩

theorem Spec.SameForm.mm_second {t v r : Tensor F} {u w q : Tensor G} (h : SameForm t u) (hv : SameForm v w)
    (hr : SameForm r q) (b : Build) : SameOutcome ResForm (Tensor.matrix_multiply_transpose_second b t v r)
      (Tensor.matrix_multiply_transpose_second b u w q) := by
  unfold Tensor.matrix_multiply_transpose_second
  simp only [h.1, hv.1, hr.1]
  split
  · exact ⟨rfl, hr⟩
  · exact .bind (R := SameForm) (.forRange hr fun k _ _ _ h1 => .forRange h1 fun j _ _ _ h2 => .forRange h2
      fun i _ _ _ h3 => .bind (R := Any) (.forRange trivial fun ii _ _ _ _ => .bind (h.read b _) fun _ _ _ =>
        .bind (hv.read b _) fun _ _ _ => trivial) fun _ _ _ => h3.write b _ _ _) fun _ _ h => ⟨rfl, h⟩

/-! ## Convolution -/

theorem Spec.SameForm.window {t k : Tensor F} {u l : Tensor G} (h : SameForm t u) (hk : SameForm k l) (b : Build)
    (st i j : UInt32) : SameOutcome Any (convolution_window b t k st i j) (convolution_window b u l st i j) := by
  unfold convolution_window
  simp only [h.index, hk.index, hk.1]
  exact .step fun _ _ => .step fun _ _ => .forRange trivial fun _ _ _ _ _ => .forRange trivial fun _ _ _ _ _ =>
    .forRange trivial fun _ _ _ _ _ => .step fun _ _ => .step fun _ _ => .step fun _ _ => .step fun _ _ =>
      .bind (vget_outcome h.2.2 _) fun _ _ _ => .bind (vget_outcome hk.2.2 _) fun _ _ _ => trivial

theorem Spec.SameForm.conv_bias {t k v r : Tensor F} {u l w q : Tensor G} (h : SameForm t u) (hk : SameForm k l)
    (hv : SameForm v w) (hr : SameForm r q) (b : Build) (st c : UInt32) :
    SameOutcome ResForm (convolution_bias b t k v st r c) (convolution_bias b u l w st q c) := by
  unfold convolution_bias
  simp only [h.1, hk.1, hv.1, hr.1]
  refine .step fun o _ => ?_
  cases o with
  | error e => exact ⟨rfl, hr⟩
  | ok _ =>
    simp only
    split
    · exact ⟨rfl, hr⟩
    · exact .bind (hv.get_item b _) fun _ _ _ => .bind (R := SameForm) (.forRange hr fun j _ _ _ h1 =>
        .forRange h1 fun i _ _ _ h2 => .bind (h.window hk b st i j) fun _ _ _ => h2.write b _ _ _) fun _ _ h => ⟨rfl, h⟩

theorem Spec.SameForm.conv_relu {t k v r : Tensor F} {u l w q : Tensor G} (h : SameForm t u) (hk : SameForm k l)
    (hv : SameForm v w) (hr : SameForm r q) (b : Build) (st c : UInt32) :
    SameOutcome ResForm (convolution_bias_relu b t k v st r c) (convolution_bias_relu b u l w st q c) := by
  unfold convolution_bias_relu
  simp only [h.1, hk.1, hv.1, hr.1]
  refine .step fun o _ => ?_
  cases o with
  | error e => exact ⟨rfl, hr⟩
  | ok _ =>
    simp only
    split
    · exact ⟨rfl, hr⟩
    · exact .bind (hv.get_item b _) fun _ _ _ => .bind (R := SameForm) (.forRange hr fun j _ _ _ h1 =>
        .forRange h1 fun i _ _ _ h2 => .bind (h.window hk b st i j) fun _ _ _ => h2.write b _ _ _) fun _ _ h => ⟨rfl, h⟩

theorem Spec.SameForm.conv_kernel {t k r : Tensor F} {u l q : Tensor G} (h : SameForm t u) (hk : SameForm k l)
    (hr : SameForm r q) (b : Build) (st c : UInt32) :
    SameOutcome ResForm (convolution_backprop_kernel b t k st c r) (convolution_backprop_kernel b u l st c q) := by
  unfold convolution_backprop_kernel
  simp only [h.1, hk.1, hr.1, h.index, hk.index]
  refine .step fun o _ => ?_
  cases o with
  | error e => exact ⟨rfl, hr⟩
  | ok _ =>
    exact .bind (R := SameForm) (.forRange hr fun _ _ _ _ h1 => .forRange h1 fun _ _ _ _ h2 => .forRange h2
      fun _ _ _ _ h3 => .bind (R := Any) (.forRange trivial fun _ _ _ _ _ => .forRange trivial fun _ _ _ _ _ =>
        .forRange trivial fun _ _ _ _ _ => .step fun _ _ => .step fun _ _ => .step fun _ _ => .step fun _ _ =>
        .step fun _ _ => .step fun _ _ => .bind (vget_outcome hk.2.2 _) fun _ _ _ =>
          .bind (vget_outcome h.2.2 _) fun _ _ _ => trivial) fun _ _ _ => h3.write b _ _ _) fun _ _ h => ⟨rfl, h⟩

omit [F32Ops F] [F32Ops G] in
theorem checks_form (b : Build) (s s' : TensorShape) (st : UInt32) {ks : List (Tensor F)} {ls : List (Tensor G)}
    (h : List.Forall₂ SameForm ks ls) (m : Nat) :
    (forListE (ks.zipIdx m) () fun (kernel, i) _ => do
      let r ← check_convolution_dimensions b s kernel.shape st s' (UInt32.ofNat i)
      pure (r, ())) =
    (forListE (ls.zipIdx m) () fun (kernel, i) _ => do
      let r ← check_convolution_dimensions b s kernel.shape st s' (UInt32.ofNat i)
      pure (r, ())) := by
  induction h generalizing m with
  | nil => rfl
  | cons hd _ ih =>
    rw [List.zipIdx_cons, List.zipIdx_cons]
    unfold forListE
    simp only [hd.1, ih]

theorem Spec.SameForm.conv_outgoing {t r : Tensor F} {u q : Tensor G} {ks : List (Tensor F)} {ls : List (Tensor G)}
    (h : SameForm t u) (hk : List.Forall₂ SameForm ks ls) (hr : SameForm r q) (b : Build) (st : UInt32) :
    SameOutcome ResForm (convolution_backprop_outgoing_gradient b t ks st r)
      (convolution_backprop_outgoing_gradient b u ls st q) := by
  unfold convolution_backprop_outgoing_gradient
  rw [h.1, hr.1, checks_form b q.shape u.shape st hk 0, hk.length_eq]
  refine .step fun o _ => ?_
  obtain ⟨o, _⟩ := o
  cases o with
  | error e => exact ⟨rfl, hr⟩
  | ok _ =>
    simp only
    split
    · exact ⟨rfl, hr⟩
    refine .bind (R := SameForm) (.forRange hr fun _ _ _ _ h1 => .forRange h1 fun _ _ _ _ h2 => .forRange h2
      fun _ _ _ _ h3 => .bind (R := Any) (.forRange trivial fun k _ _ _ _ => ?_) fun _ _ _ => h3.write b _ _ _)
        fun _ _ h => ⟨rfl, h⟩
    refine .bind (forall₂_vget_outcome hk _) fun x y hxy => ?_
    simp only [hxy.1, hxy.index, h.index]
    exact .step fun _ _ => .step fun _ _ => .step fun _ _ => .step fun _ _ => .forRange' trivial fun _ _ _ _ =>
      .forRange' trivial fun _ _ _ _ => .step fun _ _ => .step fun _ _ => .step fun _ _ => .step fun _ _ =>
        .step fun _ _ => .step fun _ _ => .bind (vget_outcome hxy.2.2 _) fun _ _ _ =>
          .bind (vget_outcome h.2.2 _) fun _ _ _ => trivial

/-! ## Pooling -/

theorem Spec.SameForm.pool {t r : Tensor F} {u q : Tensor G} (h : SameForm t u) (hr : SameForm r q) (b : Build)
    (mask : TensorShape) (st : UInt32) :
    SameOutcome SameForm (Tensor.max_pool b t mask st r) (Tensor.max_pool b u mask st q) := by
  unfold Tensor.max_pool
  simp only [h.1, hr.1]
  refine .step fun o _ => ?_
  split
  · exact .forRange hr fun _ _ _ _ h1 => .forRange h1 fun _ _ _ _ h2 => .forRange h2 fun _ _ _ _ h3 =>
      .bind (R := Any) (.forRange trivial fun _ _ _ _ _ => .forRange trivial fun _ _ _ _ _ =>
        .step fun _ _ => .step fun _ _ => .step fun _ _ => .step fun _ _ => .bind (h.get_item b _) fun _ _ _ =>
          trivial) fun _ _ _ => h3.set_item b _ _ _
  · exact hr

/-- in a debug build, windows that pass the check tile the image -/
theorem check_pool_debug {im ma re : TensorShape} {s : UInt32}
    (h : Tensor.check_max_pooling_dimensions .debug im ma s re = .ok true) :
    re.dk = im.dk ∧ windowsTile im ma s re := by
  unfold Tensor.check_max_pooling_dimensions at h
  split at h
  · cases h
  rename_i hk
  obtain ⟨d0, e0, h⟩ := bind_inv h
  obtain ⟨r0, e1, h⟩ := bind_inv h
  have hs : s ≠ 0 := by
    intro hs
    subst hs
    cases e1
  split at h
  · cases h
  rename_i hr0
  obtain ⟨d1, e2, h⟩ := bind_inv h
  obtain ⟨r1, e3, h⟩ := bind_inv h
  split at h
  · cases h
  rename_i hr1
  rw [e0, ok_bind] at h
  obtain ⟨q0, e4, h⟩ := bind_inv h
  obtain ⟨f0, e5, h⟩ := bind_inv h
  rw [e2, ok_bind] at h
  obtain ⟨q1, e6, h⟩ := bind_inv h
  obtain ⟨f1, e7, h⟩ := bind_inv h
  split at h
  · cases h
  rename_i h0
  split at h
  · cases h
  rename_i h1
  have hz : s.toNat ≠ 0 := fun e => hs (UInt32.toNat_inj.mp e)
  simp only [remU, divU, if_neg hz, Except.ok.injEq] at e1 e3 e4 e6
  subst e1 e3 e4 e6
  exact ⟨not_not.mp hk, (axis_debug _ _ s _ hs).mp ⟨d0, f0, e0, not_not.mp hr0, e5, not_not.mp h0⟩,
    (axis_debug _ _ s _ hs).mp ⟨d1, f1, e2, not_not.mp hr1, e7, not_not.mp h1⟩⟩

/-- an item that could be fetched has a position -/
theorem position {t : Tensor F} {b : Build} {x : TensorIndex} (hx : b = .debug → t.shape.fits_index x = true)
    (h : ∃ v, t.get_item b x = .ok v) : ∃ p, t.get_data_index b x = .ok p := by
  obtain ⟨v, h⟩ := h
  unfold Tensor.get_item at h
  split at h
  · obtain ⟨p, e, _⟩ := bind_inv h
    exact ⟨p, e⟩
  · rename_i hf
    cases b with
    | debug => exact absurd (hx rfl) hf
    | release =>
      obtain ⟨p, e, _⟩ := mulIndex_release t.strides x
      exact ⟨p, e⟩

theorem tiles_within {im w s n i k : Nat} (h : tiles im w s n) (hi : i < n) (hk : k < w) : i * s + k < im := by
  obtain ⟨h1, h2⟩ := h
  have := Nat.mul_le_mul_right s (show i ≤ n - 1 by omega)
  omega

theorem Spec.SameForm.track {t r : Tensor F} {u q : Tensor G} (h : SameForm t u) (hr : SameForm r q) (b : Build)
    (mask : TensorShape) (st : UInt32) {o o' : List UInt32} (ho : o.length = o'.length) :
    SameOutcome (fun p p' => p.1 = p'.1 ∧ SameForm p.2.1 p'.2.1 ∧ p.2.2.length = p'.2.2.length)
      (Tensor.max_pool_track_origin b t mask st r o) (Tensor.max_pool_track_origin b u mask st q o') := by
  unfold Tensor.max_pool_track_origin
  simp only [h.1, hr.1, ho]
  refine .step fun c hc => ?_
  split
  · exact ⟨rfl, hr, ho⟩
  rename_i hct
  have hct : c = true := by simpa using hct
  subst hct
  refine .step fun n _ => ?_
  split
  · exact ⟨rfl, hr, ho⟩
  refine .bind (R := fun p p' => SameForm p.1 p'.1 ∧ p.2.length = p'.2.length) ?_ fun p p' hp => ⟨rfl, hp⟩
  refine .forRange ⟨hr, ho⟩ fun k hk p1 p1' h1 => .forRange h1 fun j hj p2 p2' h2 => .forRange h2
    fun i hi p3 p3' h3 => ?_
  obtain ⟨r3, o3⟩ := p3
  obtain ⟨r3', o3'⟩ := p3'
  simp only at h3 ⊢
  rw [h3.1.index]
  refine .step fun out _ => .bind (R := Any) (.forRange trivial fun jj hjj s s' _ =>
    .forRange trivial fun ii hii s s' _ => ?_) fun m m' _ => ?_
  · obtain ⟨m, oi⟩ := s
    obtain ⟨m', oi'⟩ := s'
    simp only
    refine .step fun i0 e0 => .step fun ix e1 => .step fun j0 e2 => .step fun jx e3 => ?_
    have hfit : b = .debug → u.shape.fits_index ⟨ix, jx, k⟩ = true := by
      intro hb
      subst hb
      obtain ⟨hd, t1, t2⟩ := check_pool_debug hc
      have w1 := tiles_within t1 hi hii
      have w2 := tiles_within t2 hj hjj
      have := u32_lt u.shape.di
      have := u32_lt u.shape.dj
      rw [mulU_ok (by omega)] at e0 e2
      cases e0
      cases e2
      have l1 := toNat_ofNat_lt (show i.toNat * st.toNat < 2 ^ 32 by omega)
      have l2 := toNat_ofNat_lt (show j.toNat * st.toNat < 2 ^ 32 by omega)
      rw [addU_ok (by rw [l1]; omega), l1] at e1
      rw [addU_ok (by rw [l2]; omega), l2] at e3
      cases e1
      cases e3
      rw [fits_index_iff]
      refine ⟨?_, ?_, hd ▸ hk⟩
      · simp only
        rw [toNat_ofNat_lt (by omega)]
        exact w1
      · simp only
        rw [toNat_ofNat_lt (by omega)]
        exact w2
    have hg := h.get_item b ⟨ix, jx, k⟩
    rcases hv : t.get_item b ⟨ix, jx, k⟩ with p | v <;> rcases hw : u.get_item b ⟨ix, jx, k⟩ with p' | w <;>
      rw [hv, hw] at hg
    · exact hg
    · exact hg.elim
    · exact hg.elim
    · obtain ⟨p, hp⟩ := position hfit ⟨w, hw⟩
      rw [ok_bind, ok_bind, h.index, hp]
      split <;> split <;> trivial
  · refine .bind (h3.1.set_item b _ _ _) fun r4 r4' h4 => .bind (vset_outcome h3.2 _ _ _) fun o4 o4' h5 => ⟨h4, h5⟩

theorem Spec.SameForm.softmax {t r : Tensor F} {u q : Tensor G} (h : SameForm t u) (hr : SameForm r q) :
    SameOutcome SameForm (Tensor.softmax t r) (Tensor.softmax u q) := by
  unfold Tensor.softmax
  simp only [h.1, hr.1, h.2.2]
  split
  · refine .bind (R := fun p p' => p.1.length = p'.1.length) (.foldlM _ (fun i _ p p' hp => ?_) hr.2.2)
      fun p p' hp => ⟨rfl, hr.2.1, by simpa using hp⟩
    exact .bind (vget_outcome h.2.2 _) fun _ _ _ => .bind (vset_outcome hp _ _ _) fun _ _ e => e
  · exact hr

/-! ## Layers -/

/-- the outcome of `forward` and `backward` of a layer -/
abbrev LayerForm (p : Res × AnyLayer F × Tensor F) (q : Res × AnyLayer G × Tensor G) : Prop :=
  p.1 = q.1 ∧ SameFormLayer p.2.1 q.2.1 ∧ SameForm p.2.2 q.2.2

theorem forward_form {l : AnyLayer F} {l' : AnyLayer G} (h : SameFormLayer l l') {x y : Tensor F} {x' y' : Tensor G}
    (hx : SameForm x x') (hy : SameForm y y') (b : Build) :
    SameOutcome LayerForm (l.forward b x y) (l'.forward b x' y') := by
  cases l with
  | conv l =>
    cases l' with
    | conv l' =>
      obtain ⟨hk, hb, hg, hm, hs, ho, hr⟩ := h
      simp only [AnyLayer.forward, AnyLayer.rewrap, ConvolutionalLayer.forward]
      rw [← hr, ← ho, ← hs]
      cases hrs : l.run_state with
      | Inference =>
        simp only
        rw [bind_assoc, bind_assoc]
        refine .bind (.forListE (R := SameForm) _ hy fun i s t hst => .bind (forall₂_vget_outcome hk i) fun k k' hkk =>
          .bind (forall₂_vget_outcome hb i) fun v v' hvv => hx.conv_relu hkk hvv hst b _ _) ?_
        rintro ⟨r, o⟩ ⟨r', o'⟩ ⟨e, ho'⟩
        exact ⟨e, ⟨hk, hb, hg, hm, hs, ho, hr⟩, ho'⟩
      | Training =>
        simp only
        rw [bind_assoc, bind_assoc]
        refine .bind (.forListE (R := SameForm) _ hy fun i s t hst => .bind (forall₂_vget_outcome hk i) fun k k' hkk =>
          .bind (forall₂_vget_outcome hb i) fun v v' hvv => hx.conv_bias hkk hvv hst b _ _) ?_
        rintro ⟨r, o⟩ ⟨r', o'⟩ ⟨e, ho'⟩
        simp only at e
        subst e
        cases r with
        | error e => exact ⟨rfl, ⟨hk, hb, hg, hm, hs, ho, hr⟩, ho'⟩
        | ok _ =>
          obtain ⟨e1, e2, e3⟩ := Spec.SameForm.relu ho' hm
          exact ⟨e1, ⟨hk, hb, hg, e3, rfl, rfl, rfl⟩, e2⟩
    | fc _ => exact h.elim
    | mp _ => exact h.elim
    | sm _ => exact h.elim
  | fc l =>
    cases l' with
    | fc l' =>
      obtain ⟨hw, hv, hm, h1, h2, h3, hr⟩ := h
      simp only [AnyLayer.forward, AnyLayer.rewrap, FullyConnectedLayer.forward]
      rw [← hr]
      cases hrs : l.run_state with
      | Inference =>
        simp only
        rw [bind_assoc, bind_assoc]
        exact .bind (hx.mm_relu hw hv hy b) fun o o' ho => ⟨rfl, ⟨hw, hv, hm, h1, h2, h3, hr⟩, ho⟩
      | Training =>
        simp only
        rw [bind_assoc, bind_assoc]
        refine .bind (hw.mm hx hy b) fun o o' ho => ?_
        obtain ⟨e1, e2, e3⟩ := Spec.SameForm.relu (ho.add_to_self (v := l.bias) (w := l'.bias)) hm
        exact ⟨e1, ⟨hw, hv, e3, h1, h2, h3, rfl⟩, e2⟩
    | conv _ => exact h.elim
    | mp _ => exact h.elim
    | sm _ => exact h.elim
  | mp l =>
    cases l' with
    | mp l' =>
      obtain ⟨hm, hs, hr, ho⟩ := h
      simp only [AnyLayer.forward, AnyLayer.rewrap, MaxPoolLayer.forward]
      rw [← hr, ← hm, ← hs]
      cases hrs : l.run_state with
      | Inference =>
        simp only
        rw [bind_assoc, bind_assoc]
        exact .bind (hx.pool hy b _ _) fun o o' h => ⟨rfl, ⟨hm, hs, hr, ho⟩, h⟩
      | Training =>
        simp only
        rw [bind_assoc, bind_assoc]
        refine .bind (hx.track hy b _ _ ho) ?_
        rintro ⟨r, o, p⟩ ⟨r', o', p'⟩ ⟨e1, e2, e3⟩
        exact ⟨e1, ⟨rfl, rfl, rfl, e3⟩, e2⟩
    | conv _ => exact h.elim
    | fc _ => exact h.elim
    | sm _ => exact h.elim
  | sm l =>
    cases l' with
    | sm l' =>
      simp only [AnyLayer.forward, AnyLayer.rewrap, SoftmaxLayer.forward]
      rw [bind_assoc, bind_assoc]
      exact .bind (hx.softmax hy) fun o o' ho => ⟨rfl, h, ho⟩
    | conv _ => exact h.elim
    | fc _ => exact h.elim
    | mp _ => exact h.elim

theorem backward_form {l : AnyLayer F} {l' : AnyLayer G} (h : SameFormLayer l l') (hl : ∀ p, l ≠ .mp p)
    {x y g o : Tensor F} {x' y' g' o' : Tensor G} (hx : SameForm x x') (hy : SameForm y y') (hg : SameForm g g')
    (ho : SameForm o o') (b : Build) :
    SameOutcome LayerForm (l.backward b x y g o) (l'.backward b x' y' g' o') := by
  cases l with
  | conv l =>
    cases l' with
    | conv l' =>
      obtain ⟨hk, hb, hkg, hm, hs, hos, hr⟩ := h
      simp only [AnyLayer.backward, AnyLayer.rewrap, ConvolutionalLayer.backward]
      rw [bind_assoc, bind_assoc, hk.length_eq, ← hs]
      have hm' : SameForm (Tensor.multiply_elementwise_self l.relu_mask g)
          (Tensor.multiply_elementwise_self l'.relu_mask g') := hm.mul_self
      refine .bind (.forListE (R := List.Forall₂ SameForm) _ hkg fun i s t hst => .bind (forall₂_vget_outcome hst i)
        fun k k' hkk => .bind (hg.conv_kernel hx hkk b _ _) fun p q hp => .bind (forall₂_vset_outcome hst i hp.2)
          fun s s' hs => ⟨hp.1, hs⟩) ?_
      rintro ⟨r, kg⟩ ⟨r', kg'⟩ ⟨e, hkg'⟩
      simp only at e hkg'
      subst e
      cases r with
      | error e => exact ⟨rfl, ⟨hk, hb, hkg', hm', rfl, hos, hr⟩, ho⟩
      | ok _ =>
        simp only
        rw [bind_assoc, bind_assoc]
        refine .bind (hg.conv_outgoing hk ho b _) ?_
        rintro ⟨r, og⟩ ⟨r', og'⟩ ⟨e, hog⟩
        simp only at e hog
        subst e
        cases r <;> exact ⟨rfl, ⟨hk, hb, hkg', hm', rfl, hos, hr⟩, hog⟩
    | fc _ => exact h.elim
    | mp _ => exact h.elim
    | sm _ => exact h.elim
  | fc l =>
    cases l' with
    | fc l' =>
      obtain ⟨hw, hv, hm, h1, h2, h3, hr⟩ := h
      have hm' : SameForm (Tensor.multiply_elementwise_self l.relu_mask g)
          (Tensor.multiply_elementwise_self l'.relu_mask g') := hm.mul_self
      simp only [AnyLayer.backward, AnyLayer.rewrap, FullyConnectedLayer.backward]
      rw [← hr]
      split
      · rw [bind_assoc, bind_assoc]
        refine .bind (hm'.mm_second hx h3 b) ?_
        rintro ⟨r, wgi⟩ ⟨r', wgi'⟩ ⟨e, hwgi⟩
        simp only at e hwgi
        subst e
        cases r with
        | error e => exact ⟨rfl, ⟨hw, hv, hm', h1, h2.add_to_self, hwgi, rfl⟩, ho⟩
        | ok _ =>
          simp only
          rw [bind_assoc, bind_assoc]
          refine .bind (hw.mm_first hm' ho b) ?_
          rintro ⟨r, og⟩ ⟨r', og'⟩ ⟨e, hog⟩
          simp only at e hog
          subst e
          cases r <;> exact ⟨rfl, ⟨hw, hv, hm', h1.add_to_self, h2.add_to_self, hwgi, rfl⟩, hog⟩
      · exact ⟨rfl, ⟨hw, hv, hm, h1, h2, h3, hr⟩, ho⟩
    | conv _ => exact h.elim
    | mp _ => exact h.elim
    | sm _ => exact h.elim
  | mp l => exact absurd rfl (hl l)
  | sm l =>
    cases l' with
    | sm l' =>
      obtain ⟨h1, h2, hr⟩ := h
      simp only [AnyLayer.backward, AnyLayer.rewrap, SoftmaxLayer.backward]
      rw [← hr]
      split
      · exact ⟨rfl, ⟨h1, h2, hr⟩, ho⟩
      · rw [bind_assoc, bind_assoc]
        refine .bind (hy.mm_first hg h1 b) ?_
        rintro ⟨r, i1⟩ ⟨r', i1'⟩ ⟨e, hi1⟩
        simp only at e hi1
        subst e
        cases r with
        | error e => exact ⟨rfl, ⟨hi1, h2, rfl⟩, ho⟩
        | ok _ =>
          simp only
          rw [bind_assoc, bind_assoc]
          have hi1' : SameForm (Tensor.scale_self i1 negOne) (Tensor.scale_self i1' negOne) :=
            hi1.data (scale_self_layout _ _) (scale_self_layout _ _)
          have hog : SameForm (Tensor.multiply_elementwise y g o) (Tensor.multiply_elementwise y' g' o') :=
            ho.data (mul_layout _ _ _) (mul_layout _ _ _)
          exact .bind (hy.mm hi1' h2 b) fun i2 i2' hi2 => ⟨rfl, ⟨hi1', hi2, rfl⟩, hog.add_to_self⟩
    | conv _ => exact h.elim
    | fc _ => exact h.elim
    | mp _ => exact h.elim

/-! ## Networks -/

omit [F32Ops F] [F32Ops G] in
theorem SameForms_set {k : Nat} {ts : List (Tensor F)} {us : List (Tensor G)} (h : SameForms k ts us) {x : Tensor F}
    {y : Tensor G} (hxy : SameForm x y) : List.Forall₂ SameForm (ts.set k x) (us.set k y) := by
  rw [List.forall₂_iff_get]
  refine ⟨by simpa using h.1, fun i h1 h2 => ?_⟩
  simp only [List.length_set] at h1 h2
  simp only [List.get_eq_getElem, List.getElem_set]
  split
  · exact hxy
  · rename_i hi
    exact h.2 i _ _ (fun e => hi e.symm) (List.getElem?_eq_getElem h1) (List.getElem?_eq_getElem h2)

omit [F32Ops F] [F32Ops G] in
theorem SameForms_of {ts : List (Tensor F)} {us : List (Tensor G)} (h : List.Forall₂ SameForm ts us) (k : Nat) :
    SameForms k ts us := by
  refine ⟨h.length_eq, fun i t u _ h1 h2 => ?_⟩
  have := forall₂_vget_outcome h i
  simp only [vget, h1, h2] at this
  exact this

/-- the state of the loops -/
abbrev LoopForm (s : List (AnyLayer F) × List (Tensor F)) (t : List (AnyLayer G) × List (Tensor G)) : Prop :=
  List.Forall₂ SameFormLayer s.1 t.1 ∧ List.Forall₂ SameForm s.2 t.2

theorem infer_step_form (b : Build) (i : Nat) {s : List (AnyLayer F) × List (Tensor F)}
    {t : List (AnyLayer G) × List (Tensor G)} (h : LoopForm s t) :
    SameOutcome (fun p q => p.1 = q.1 ∧ LoopForm p.2 q.2) (Network.infer_step b s i) (Network.infer_step b t i) := by
  obtain ⟨ls, ss⟩ := s
  obtain ⟨ls', ss'⟩ := t
  obtain ⟨h, hs⟩ := h
  unfold Network.infer_step
  simp only at h hs ⊢
  rw [hs.length_eq]
  split
  · rfl
  refine .bind (forall₂_vget_outcome h i) fun l l' hl => ?_
  have h1 := forall₂_vget_outcome hs i
  have h2 := forall₂_vget_outcome hs (i + 1)
  unfold vget at h1 h2
  rcases e1 : ss[i]? with _ | x <;> rcases e1' : ss'[i]? with _ | x' <;>
    simp only [e1, e1'] at h1 ⊢ <;> try exact h1.elim
  · rfl
  rcases e2 : ss[i + 1]? with _ | y <;> rcases e2' : ss'[i + 1]? with _ | y' <;>
    simp only [e2, e2'] at h2 ⊢ <;> try exact h2.elim
  · rfl
  refine .bind (forward_form hl h1 h2 b) fun p q hp => ?_
  exact .bind (forall₂_vset_outcome h i hp.2.1) fun a a' ha => .bind (forall₂_vset_outcome hs (i + 1) hp.2.2)
    fun c c' hc => ⟨hp.1, ha, hc⟩

/-- no layer of the list pools -/
abbrev Poolless (ls : List (AnyLayer F)) : Prop := ∀ l ∈ ls, ∀ p, l ≠ .mp p

theorem backward_step_form (b : Build) (i : Nat) {ts : List (Tensor F)} {us : List (Tensor G)}
    (ht : List.Forall₂ SameForm ts us) {s : List (AnyLayer F) × List (Tensor F)}
    {t : List (AnyLayer G) × List (Tensor G)} (h : LoopForm s t ∧ Poolless s.1) :
    SameOutcome (fun p q => p.1 = q.1 ∧ LoopForm p.2 q.2 ∧ Poolless p.2.1)
      (Network.backward_step b ts s i) (Network.backward_step b us t i) := by
  obtain ⟨ls, ss⟩ := s
  obtain ⟨ls', ss'⟩ := t
  obtain ⟨⟨h, hs⟩, hp⟩ := h
  unfold Network.backward_step
  simp only at h hs hp ⊢
  rw [hs.length_eq]
  split
  · rfl
  refine .bind' (forall₂_vget_outcome h i) fun l l' el hl => ?_
  have hlp := hp l (List.mem_of_getElem? (get_of_vget el))
  have h1 := forall₂_vget_outcome hs (i + 1)
  have h2 := forall₂_vget_outcome hs i
  unfold vget at h1 h2
  rcases e1 : ss[i + 1]? with _ | g <;> rcases e1' : ss'[i + 1]? with _ | g' <;>
    simp only [e1, e1'] at h1 ⊢ <;> try exact h1.elim
  · rfl
  rcases e2 : ss[i]? with _ | o <;> rcases e2' : ss'[i]? with _ | o' <;>
    simp only [e2, e2'] at h2 ⊢ <;> try exact h2.elim
  · rfl
  refine .bind (forall₂_vget_outcome ht i) fun x x' hx => .bind (forall₂_vget_outcome ht (i + 1)) fun y y' hy => ?_
  refine .bind' (backward_form hl hlp hx hy h1 h2 b) fun p q ep hpq => ?_
  have hk : ∀ a, p.2.1 ≠ .mp a := by
    intro a e
    have := (backward_like l x y g o p ep).1
    rw [e] at this
    cases l with
    | mp k => exact hlp k rfl
    | conv _ => exact this
    | fc _ => exact this
    | sm _ => exact this
  refine .bind' (forall₂_vset_outcome h i hpq.2.1) fun a a' ea ha => .bind (forall₂_vset_outcome hs i hpq.2.2)
    fun c c' hc => ⟨hpq.1, ⟨ha, hc⟩, ?_⟩
  obtain ⟨rfl, _⟩ := set_of_vset ea
  intro l1 h1 a
  rcases List.mem_or_eq_of_mem_set h1 with h1 | rfl
  · exact hp l1 h1 a
  · exact hk a

theorem infer_form {n : Net F} {n' : Net G} (h : SameFormNet n n') {x : Tensor F} {x' : Tensor G}
    (hx : SameForm x x') (b : Build) :
    SameOutcome (fun p q => p.1 = q.1 ∧ SameFormNet p.2 q.2 ∧
      (p.1 = .ok () → List.Forall₂ SameForm p.2.intermediate_states q.2.intermediate_states))
      (n.infer b x) (n'.infer b x') := by
  unfold Network.infer
  rw [hx.1, h.input_shape, h.states.1]
  split
  · exact ⟨rfl, h, fun e => by cases e⟩
  split
  · exact ⟨rfl, h, fun e => by cases e⟩
  unfold vset
  rw [h.states.1]
  split
  · rw [ok_bind, ok_bind, h.layers.length_eq]
    refine .bind' (.forListE (R := LoopForm) _ ⟨h.layers, SameForms_set h.states hx⟩ fun i s t h => infer_step_form b i h)
      fun p q ep hp => ⟨hp.1, ⟨hp.2.1, SameForms_of hp.2.2 0, ?_, rfl, h.output_shape, h.run_state⟩,
        fun _ => hp.2.2⟩
    have hl : p.2.1.length = n.layers.length :=
      sat_forListE (fun s => s.1.length = n.layers.length) rfl
        (fun i _ s hs p hp => (infer_step_effect s i p hp).1.length_eq.trans hs) p ep
    simp only
    rw [hl]
    exact h.gradients
  · rfl

theorem net_backward_form {n : Net F} {n' : Net G} (h : SameFormNet n n')
    (hs : List.Forall₂ SameForm n.intermediate_states n'.intermediate_states) (hn : Poolless n.layers) {g : Tensor F}
    {g' : Tensor G} (hg : SameForm g g') (b : Build) :
    SameOutcome (fun p q => p.1 = q.1 ∧ SameFormNet p.2 q.2 ∧ Poolless p.2.layers)
      (n.backward b g) (n'.backward b g') := by
  unfold Network.backward
  rw [hg.1, h.output_shape, ← h.layers.length_eq, h.run_state]
  split
  · exact ⟨rfl, h, hn⟩
  split
  · exact ⟨rfl, h, hn⟩
  split
  · exact ⟨rfl, h, hn⟩
  unfold vset
  rw [h.gradients.1]
  split
  · rw [ok_bind, ok_bind]
    refine .bind' (.forListE (R := fun s t => LoopForm s t ∧ Poolless s.1) _
      ⟨⟨h.layers, SameForms_set h.gradients hg⟩, hn⟩ fun i s t h => backward_step_form b i hs h)
      fun p q ep hp => ⟨hp.1, ⟨hp.2.1.1, h.states, SameForms_of hp.2.1.2 _, h.input_shape, rfl, rfl⟩,
        hp.2.2⟩
  · rfl

omit [F32Ops F] in
theorem like_form {l l' : AnyLayer F} (h : Like l' l) : SameFormLayer l l' := by
  have hf : ∀ {t u : Tensor F}, sameLayout t u → SameForm u t := fun h => ⟨h.1.symm, h.2.1.symm, h.2.2.symm⟩
  have hr : ∀ t : Tensor F, SameForm t t := fun t => ⟨rfl, rfl, rfl⟩
  have hrs : ∀ ts : List (Tensor F), List.Forall₂ SameForm ts ts := fun ts => forall₂_refl hr ts
  have hfs : ∀ {ts us : List (Tensor F)}, sameLayouts ts us → List.Forall₂ SameForm us ts := by
    intro ts us h
    induction h with
    | nil => exact .nil
    | cons h _ ih => exact .cons (hf h) ih
  cases l <;> cases l' <;> first | exact h.elim | skip
  · obtain ⟨h1, h2, h3, h4, h5⟩ := h
    simp only [params, AnyLayer.conv.injEq, ConvolutionalLayer.mk.injEq] at h5
    obtain ⟨e1, e2, _, _, e3, _, _, e4, _⟩ := h5
    exact ⟨e1 ▸ hrs _, e2 ▸ hrs _, hfs h1, hf h3, e3.symm, e4.symm, h4.symm⟩
  · obtain ⟨h1, h2, h3, h4, h5, h6⟩ := h
    simp only [params, AnyLayer.fc.injEq, FullyConnectedLayer.mk.injEq] at h6
    obtain ⟨e1, _, _, e2, _⟩ := h6
    exact ⟨e1 ▸ hr _, e2 ▸ hr _, hf h4, hf h1, hf h3, hf h2, h5.symm⟩
  · obtain ⟨h1, h2, h3⟩ := h
    simp only [params, AnyLayer.mp.injEq, MaxPoolLayer.mk.injEq] at h3
    exact ⟨h3.2.1.symm, h3.2.2.2.1.symm, h2.symm, h1.symm⟩
  · exact ⟨hf h.1, hf h.2.1, h.2.2.1.symm⟩

omit [F32Ops F] in
theorem poolless_like {ls ls' : List (AnyLayer F)} (h : List.Forall₂ Like ls' ls) (hl : Poolless ls) : Poolless ls' := by
  induction h with
  | nil => exact hl
  | @cons l' l _ _ h _ ih =>
    intro k hk p
    rcases List.mem_cons.mp hk with rfl | hk
    · intro e
      subst e
      cases l with
      | mp q => exact hl _ (List.mem_cons_self ..) q rfl
      | conv _ => exact h
      | fc _ => exact h
      | sm _ => exact h
    · exact ih (fun a ha => hl a (List.mem_cons_of_mem _ ha)) k hk p

theorem infer_self_form {b : Build} {n m : Net F} {x : Tensor F} {r : Res} (h : n.infer b x = .ok (r, m)) :
    SameFormNet n m := by
  obtain ⟨h1, h2, h3, h4, h5, h6⟩ := infer_effect n x _ h
  simp only at h1 h2 h3 h4 h5 h6
  have hr : ∀ k (ts : List (Tensor F)), SameForms k ts ts := fun k ts =>
    ⟨rfl, fun i t u _ e1 e2 => by rw [e1] at e2; cases e2; exact ⟨rfl, rfl, rfl⟩⟩
  refine ⟨?_, ?_, h3 ▸ hr _ _, h4.symm, h5.symm, h6.symm⟩
  · generalize m.layers = ls at h1
    generalize n.layers = ls' at h1
    induction h1 with
    | nil => exact .nil
    | cons h _ ih => exact .cons (like_form h) ih
  · rcases h2 with ⟨_, h2⟩ | h2
    · refine ⟨by simpa using (sameLayouts_length h2).symm, fun i t u hi e1 e2 => ?_⟩
      have e3 : (n.intermediate_states.set 0 x)[i]? = some t := by
        rw [List.getElem?_set_ne (fun e => hi e.symm)]
        exact e1
      obtain ⟨l1, q1⟩ := List.getElem?_eq_some_iff.mp e2
      obtain ⟨l2, q2⟩ := List.getElem?_eq_some_iff.mp e3
      have := sameLayouts_get h2 i l1 l2
      rw [q1, q2] at this
      exact ⟨this.1.symm, this.2.1.symm, this.2.2.symm⟩
    · rw [h2]
      exact hr _ _

theorem backward_self_form {b : Build} {n m : Net F} {g : Tensor F} {r : Res} (h : n.backward b g = .ok (r, m)) :
    SameFormNet n m ∧ m.intermediate_states = n.intermediate_states ∧ (Poolless n.layers → Poolless m.layers) := by
  obtain ⟨h1, h2, h3, h4, h5, h6⟩ := backward_effect n g _ h
  simp only at h1 h2 h3 h4 h5 h6
  have hr : ∀ k (ts : List (Tensor F)), SameForms k ts ts := fun k ts =>
    ⟨rfl, fun i t u _ e1 e2 => by rw [e1] at e2; cases e2; exact ⟨rfl, rfl, rfl⟩⟩
  refine ⟨⟨?_, h3 ▸ hr _ _, ?_, h4.symm, h5.symm, h6.symm⟩, h3, ?_⟩
  · generalize m.layers = ls at h1
    generalize n.layers = ls' at h1
    induction h1 with
    | nil => exact .nil
    | cons h _ ih => exact .cons (like_form h) ih
  · rcases h2 with ⟨_, h2⟩ | h2
    · refine ⟨by simpa using (sameLayouts_length h2).symm, fun i t u hi e1 e2 => ?_⟩
      have e3 : (n.intermediate_gradients.set n.layers.length g)[i]? = some t := by
        rw [List.getElem?_set_ne (fun e => hi e.symm)]
        exact e1
      obtain ⟨l1, q1⟩ := List.getElem?_eq_some_iff.mp e2
      obtain ⟨l2, q2⟩ := List.getElem?_eq_some_iff.mp e3
      have := sameLayouts_get h2 i l1 l2
      rw [q1, q2] at this
      exact ⟨this.1.symm, this.2.1.symm, this.2.2.symm⟩
    · rw [h2]
      exact hr _ _
  · exact poolless_like h1

omit [F32Ops F] in
theorem Spec.SameForm.refl (t : Tensor F) : SameForm t t := ⟨rfl, rfl, rfl⟩

omit [F32Ops F] in
theorem Spec.SameForm.symm {t u : Tensor F} (h : SameForm t u) : SameForm u t := ⟨h.1.symm, h.2.1.symm, h.2.2.symm⟩

omit [F32Ops F] in
theorem Spec.SameForm.trans {t u v : Tensor F} (h : SameForm t u) (h' : SameForm u v) : SameForm t v :=
  ⟨h.1.trans h'.1, h.2.1.trans h'.2.1, h.2.2.trans h'.2.2⟩

theorem Spec.SameFormNet.refl (n : Net F) : SameFormNet n n := by
  have hr : ∀ k (ts : List (Tensor F)), SameForms k ts ts := fun k ts =>
    ⟨rfl, fun i t u _ e1 e2 => by rw [e1] at e2; cases e2; exact ⟨rfl, rfl, rfl⟩⟩
  exact ⟨forall₂_refl (fun l => like_form (like_refl l)) n.layers, hr _ _, hr _ _, rfl, rfl, rfl⟩

theorem infer_again {b : Build} {n m k : Net F} {x y : Tensor F} {r : Res} (hf : SameFormNet n k)
    (h : n.infer b x = .ok (r, m)) (hy : SameForm x y) : ∃ m', k.infer b y = .ok (r, m') ∧ SameFormNet m m' ∧
      (r = .ok () → List.Forall₂ SameForm m.intermediate_states m'.intermediate_states) := by
  have := infer_form hf hy b
  rw [h] at this
  rcases e : k.infer b y with p | ⟨r', m'⟩
  · rw [e] at this
    exact this.elim
  · rw [e] at this
    obtain ⟨h1, h2, h3⟩ := this
    simp only at h1 h2 h3
    subst h1
    exact ⟨m', rfl, h2, h3⟩

theorem backward_again {b : Build} {n m k : Net F} {g f : Tensor F} {r : Res} (hf : SameFormNet n k)
    (hs : List.Forall₂ SameForm n.intermediate_states k.intermediate_states) (hp : Poolless n.layers)
    (hg : SameForm g f) (h : n.backward b g = .ok (r, m)) : ∃ m', k.backward b f = .ok (r, m') := by
  have := net_backward_form hf hs hp hg b
  rw [h] at this
  rcases e : k.backward b f with p | ⟨r', m'⟩
  · rw [e] at this
    exact this.elim
  · rw [e] at this
    obtain ⟨h1, h2, h3⟩ := this
    simp only at h1
    subst h1
    exact ⟨m', rfl⟩

theorem infer_noPool {b : Build} {n m : Net F} {x : Tensor F} {r : Res} (h : n.infer b x = .ok (r, m))
    (hn : Poolless n.layers) : Poolless m.layers :=
  poolless_like (infer_effect n x _ h).1 hn

end Rusty
