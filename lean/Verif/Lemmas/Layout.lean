import Verif.Lemmas.Tensor
import Verif.Lemmas.Elementwise
import Verif.Model.Convolution

set_option linter.unusedSectionVars false

/-! # Helper lemmas: operations keep the layout of the tensors they write -/

namespace Rusty

open F32Ops Spec

/-- every normal outcome of `e` satisfies `P` -/
def Sat {α : Type} (e : Exec α) (P : α → Prop) : Prop := ∀ a, e = .ok a → P a

theorem sat_pure {α : Type} {P : α → Prop} {a : α} (h : P a) : Sat (pure a : Exec α) P := by
  intro x hx; cases hx; exact h

theorem sat_ok {α : Type} {P : α → Prop} {a : α} (h : P a) : Sat (.ok a : Exec α) P :=
  sat_pure h

theorem sat_error {α : Type} {P : α → Prop} (e : PanicKind) : Sat (.error e : Exec α) P := by
  intro x hx; cases hx

theorem sat_bind {α β : Type} {P : β → Prop} {e : Exec α} {f : α → Exec β}
    (h : ∀ a, e = .ok a → Sat (f a) P) : Sat (e >>= f) P := by
  cases e with
  | error x => exact sat_error x
  | ok a => exact h a rfl

theorem sat_bind' {α β : Type} {P : β → Prop} {Q : α → Prop} {e : Exec α} {f : α → Exec β}
    (h1 : Sat e Q) (h : ∀ a, Q a → Sat (f a) P) : Sat (e >>= f) P :=
  sat_bind fun a ha => h a (h1 a ha)

theorem sat_foldlM {α σ : Type} (P : σ → Prop) (L : List α) (f : σ → α → Exec σ)
    (h : ∀ x ∈ L, ∀ s, P s → Sat (f s x) P) (s : σ) (hs : P s) : Sat (L.foldlM f s) P := by
  induction L generalizing s with
  | nil => exact sat_pure hs
  | cons x xs ih =>
    rw [List.foldlM_cons]
    exact sat_bind' (h x (List.mem_cons_self ..) s hs)
      (fun a ha => ih (fun y hy => h y (List.mem_cons_of_mem _ hy)) a ha)

theorem sat_forRange {σ : Type} (P : σ → Prop) {lo hi : UInt32} {s : σ}
    {body : UInt32 → σ → Exec σ} (hs : P s) (h : ∀ i s, P s → Sat (body i s) P) :
    Sat (forRange lo hi s body) P :=
  sat_foldlM P _ _ (fun i _ s hs => h (UInt32.ofNat i) s hs) s hs

theorem sat_forNat {σ : Type} (P : σ → Prop) {n : Nat} {s : σ}
    {body : Nat → σ → Exec σ} (hs : P s) (h : ∀ i s, P s → Sat (body i s) P) :
    Sat (forNat n s body) P :=
  sat_foldlM P _ _ (fun i _ s hs => h i s hs) s hs

theorem sat_forListE {α σ : Type} (P : σ → Prop) {L : List α} {s : σ}
    {body : α → σ → Exec (Res × σ)} (hs : P s) (h : ∀ x ∈ L, ∀ s, P s →
      Sat (body x s) fun p => P p.2) : Sat (forListE L s body) fun p => P p.2 := by
  rintro ⟨r, s'⟩ he
  exact forListE_inv L s body P hs (fun x hx s r s' hP hb => h x hx s hP _ hb) r s' he

variable {F : Type} [F32Ops F]

/-- same layout -/
def sameLayout (t u : Tensor F) : Prop :=
  t.shape = u.shape ∧ t.strides = u.strides ∧ t.data.length = u.data.length

theorem sameLayout_refl (t : Tensor F) : sameLayout t t := ⟨rfl, rfl, rfl⟩

theorem sameLayout_trans {t u v : Tensor F} (h : sameLayout t u) (h' : sameLayout u v) :
    sameLayout t v := ⟨h.1.trans h'.1, h.2.1.trans h'.2.1, h.2.2.trans h'.2.2⟩

theorem sameLayout_data (t : Tensor F) {d : List F} (h : d.length = t.data.length) :
    sameLayout { t with data := d } t := ⟨rfl, rfl, h⟩

theorem sameLayout_wf {t u : Tensor F} (h : sameLayout t u) (hu : u.WF) :
    t.WF ∧ t.shape = u.shape := by
  obtain ⟨h1, h2, h3⟩ := h
  exact ⟨⟨by rw [h1]; exact hu.fits, by rw [h2]; exact hu.si, by rw [h1, h2]; exact hu.sj,
    by rw [h1, h2]; exact hu.sk, by rw [h1, h3]; exact hu.len⟩, h1⟩

variable {b : Build}

theorem vset_length {α : Type} (v : List α) (i : Nat) (x : α) :
    Sat (vset v i x) fun v' => v'.length = v.length := by
  unfold vset
  split
  · exact sat_ok (by simp)
  · exact sat_error _

theorem write_layout (t : Tensor F) (x : TensorIndex) (v : F) :
    Sat (t.write b x v) fun t' => sameLayout t' t := by
  unfold Tensor.write
  exact sat_bind fun _ _ => sat_bind' (vset_length _ _ _) fun d hd => sat_pure ⟨rfl, rfl, hd⟩

theorem set_item_layout (t : Tensor F) (x : TensorIndex) (v : F) :
    Sat (t.set_item b x v) fun t' => sameLayout t' t := by
  unfold Tensor.set_item
  split
  · exact write_layout t x v
  · exact sat_pure (sameLayout_refl t)

/-- one step of a loop that writes -/
theorem write_step {r t : Tensor F} (h : sameLayout t r) (x : TensorIndex) (v : F) :
    Sat (t.write b x v) fun t' => sameLayout t' r :=
  fun t' ht => sameLayout_trans (write_layout t x v t' ht) h

theorem loop3_layout (r : Tensor F) (body : UInt32 → UInt32 → UInt32 → Tensor F → Exec (Tensor F))
    (dk dj di : UInt32)
    (h : ∀ k j i t, sameLayout t r → Sat (body k j i t) fun t' => sameLayout t' r) :
    Sat (forRange 0 dk r fun k r => forRange 0 dj r fun j r => forRange 0 di r fun i r =>
      body k j i r) fun t' => sameLayout t' r :=
  sat_forRange _ (sameLayout_refl r) fun k _ h1 => sat_forRange _ h1 fun j _ h2 =>
    sat_forRange _ h2 fun i t h3 => h k j i t h3

theorem loop2_layout (r : Tensor F) (body : UInt32 → UInt32 → Tensor F → Exec (Tensor F))
    (dj di : UInt32)
    (h : ∀ j i t, sameLayout t r → Sat (body j i t) fun t' => sameLayout t' r) :
    Sat (forRange 0 dj r fun j r => forRange 0 di r fun i r =>
      body j i r) fun t' => sameLayout t' r :=
  sat_forRange _ (sameLayout_refl r) fun j _ h2 =>
    sat_forRange _ h2 fun i t h3 => h j i t h3

/-! ## Elementwise -/

theorem fill_layout (t : Tensor F) (v : F) : sameLayout (t.fill_with_value v) t :=
  ⟨rfl, rfl, by simp [Tensor.fill_with_value]⟩

theorem fill_samples_layout (rng : Nat → F) (t : Tensor F) :
    sameLayout (t.fill_with_samples rng) t :=
  ⟨rfl, rfl, by simp [Tensor.fill_with_samples]⟩

theorem scale_self_layout (t : Tensor F) (v : F) : sameLayout (t.scale_self v) t :=
  ⟨rfl, rfl, by simp [Tensor.scale_self]⟩

theorem scale_layout (t : Tensor F) (v : F) (r : Tensor F) : sameLayout (t.scale v r) r := by
  unfold Tensor.scale
  split
  · exact sameLayout_data _ (zipUpdate_length ..)
  · exact sameLayout_refl r

theorem add_layout (t1 t2 r : Tensor F) : sameLayout (Tensor.add t1 t2 r) r := by
  unfold Tensor.add
  split
  · exact sameLayout_data _ (zipAssign2_length ..)
  · exact sameLayout_refl r

theorem mul_layout (t1 t2 r : Tensor F) :
    sameLayout (Tensor.multiply_elementwise t1 t2 r) r := by
  unfold Tensor.multiply_elementwise
  split
  · exact sameLayout_data _ (zipAssign2_length ..)
  · exact sameLayout_refl r

theorem add_to_self_layout (t1 t2 : Tensor F) : sameLayout (Tensor.add_to_self t1 t2) t1 := by
  unfold Tensor.add_to_self
  split
  · exact sameLayout_data _ (zipUpdate_length ..)
  · exact sameLayout_refl t1

theorem mul_self_layout (t1 t2 : Tensor F) :
    sameLayout (Tensor.multiply_elementwise_self t1 t2) t1 := by
  unfold Tensor.multiply_elementwise_self
  split
  · exact sameLayout_data _ (zipUpdate_length ..)
  · exact sameLayout_refl t1

theorem relu_layout (t m : Tensor F) :
    sameLayout (Tensor.relu_self_and_store_mask t m).2.1 t ∧
      sameLayout (Tensor.relu_self_and_store_mask t m).2.2 m := by
  unfold Tensor.relu_self_and_store_mask
  split
  · exact ⟨sameLayout_refl t, sameLayout_refl m⟩
  · exact ⟨sameLayout_data _ (reluZip_length ..).1, sameLayout_data _ (reluZip_length ..).2⟩

theorem scatter_layout (t1 t2 : Tensor F) (l : List UInt32) :
    Sat (Tensor.add_from_index_list b t1 t2 l) fun p => sameLayout p.2 t2 := by
  unfold Tensor.add_from_index_list
  refine sat_bind fun _ _ => ?_
  split
  · exact sat_pure (sameLayout_refl t2)
  · refine sat_bind fun _ _ => ?_
    refine sat_forListE (fun t => sameLayout t t2) (sameLayout_refl t2) ?_
    rintro ⟨p, n⟩ _ t ht
    simp only
    split
    · exact sat_pure ht
    · refine sat_bind fun _ _ => sat_bind fun _ _ => sat_bind' (vset_length _ _ _) fun d hd => ?_
      exact sat_pure (sameLayout_trans (sameLayout_data _ hd) ht)

/-! ## Matrix operations -/

theorem transpose_layout (t r : Tensor F) :
    Sat (Tensor.transpose_ij b t r) fun p => sameLayout p.2 r := by
  unfold Tensor.transpose_ij
  simp only
  split
  · exact sat_pure (sameLayout_refl r)
  split
  · exact sat_pure (sameLayout_refl r)
  split
  · exact sat_pure (sameLayout_refl r)
  · exact sat_bind' (loop3_layout r _ _ _ _ fun k j i t ht => sat_bind fun _ _ =>
      write_step ht _ _) fun a ha => sat_pure ha

theorem mm_tf_layout (t1 t2 r : Tensor F) :
    Sat (Tensor.matrix_multiply_transpose_first b t1 t2 r) fun p => sameLayout p.2 r := by
  unfold Tensor.matrix_multiply_transpose_first
  simp only
  split
  · exact sat_pure (sameLayout_refl r)
  · exact sat_bind' (loop3_layout r _ _ _ _ fun k j i t ht => sat_bind fun _ _ =>
      write_step ht _ _) fun a ha => sat_pure ha

theorem mm_ts_layout (t1 t2 r : Tensor F) :
    Sat (Tensor.matrix_multiply_transpose_second b t1 t2 r) fun p => sameLayout p.2 r := by
  unfold Tensor.matrix_multiply_transpose_second
  simp only
  split
  · exact sat_pure (sameLayout_refl r)
  · exact sat_bind' (loop3_layout r _ _ _ _ fun k j i t ht => sat_bind fun _ _ =>
      write_step ht _ _) fun a ha => sat_pure ha

theorem mm_layout (t1 t2 r : Tensor F) :
    Sat (Tensor.matrix_multiply b t1 t2 r) fun t' => sameLayout t' r := by
  unfold Tensor.matrix_multiply
  simp only
  split
  · exact loop3_layout r _ _ _ _ fun k j i t ht => sat_bind fun _ _ => write_step ht _ _
  · exact sat_pure (sameLayout_refl r)

theorem mm_add_relu_layout (x w bias r : Tensor F) :
    Sat (Tensor.matrix_multiply_add_relu b x w bias r) fun t' => sameLayout t' r := by
  unfold Tensor.matrix_multiply_add_relu
  simp only
  split
  · split
    · exact loop3_layout r _ _ _ _ fun k j i t ht => sat_bind fun _ _ => sat_bind fun _ _ =>
        write_step ht _ _
    · exact sat_pure (sameLayout_refl r)
  · exact sat_pure (sameLayout_refl r)

/-! ## Convolutions and pooling -/

theorem conv_bias_layout (image kernel bias r : Tensor F) (s c : UInt32) :
    Sat (convolution_bias b image kernel bias s r c) fun p => sameLayout p.2 r := by
  unfold convolution_bias
  refine sat_bind fun chk _ => ?_
  cases chk with
  | error e => exact sat_pure (sameLayout_refl r)
  | ok u =>
    simp only
    split
    · exact sat_pure (sameLayout_refl r)
    · refine sat_bind fun _ _ => sat_bind' (loop2_layout r _ _ _ fun j i t ht =>
        sat_bind fun _ _ => write_step ht _ _) fun a ha => sat_pure ha

theorem conv_bias_relu_layout (image kernel bias r : Tensor F) (s c : UInt32) :
    Sat (convolution_bias_relu b image kernel bias s r c) fun p => sameLayout p.2 r := by
  unfold convolution_bias_relu
  refine sat_bind fun chk _ => ?_
  cases chk with
  | error e => exact sat_pure (sameLayout_refl r)
  | ok u =>
    simp only
    split
    · exact sat_pure (sameLayout_refl r)
    · refine sat_bind fun _ _ => sat_bind' (loop2_layout r _ _ _ fun j i t ht =>
        sat_bind fun _ _ => write_step ht _ _) fun a ha => sat_pure ha

theorem conv_outgoing_layout (incoming : Tensor F) (kernels : List (Tensor F)) (s : UInt32)
    (r : Tensor F) :
    Sat (convolution_backprop_outgoing_gradient b incoming kernels s r) fun p =>
      sameLayout p.2 r := by
  unfold convolution_backprop_outgoing_gradient
  refine sat_bind fun p _ => ?_
  obtain ⟨chk, _⟩ := p
  simp only
  cases chk with
  | error e => exact sat_pure (sameLayout_refl r)
  | ok u =>
    simp only
    split
    · exact sat_pure (sameLayout_refl r)
    · exact sat_bind' (loop3_layout r _ _ _ _ fun k j i t ht =>
        sat_bind fun _ _ => write_step ht _ _) fun a ha => sat_pure ha

theorem conv_kernel_layout (incoming image : Tensor F) (s c : UInt32) (r : Tensor F) :
    Sat (convolution_backprop_kernel b incoming image s c r) fun p => sameLayout p.2 r := by
  unfold convolution_backprop_kernel
  refine sat_bind fun chk _ => ?_
  cases chk with
  | error e => exact sat_pure (sameLayout_refl r)
  | ok u =>
    simp only
    exact sat_bind' (loop3_layout r _ _ _ _ fun k j i t ht =>
        sat_bind fun _ _ => write_step ht _ _) fun a ha => sat_pure ha

theorem max_pool_layout (image : Tensor F) (ma : TensorShape) (s : UInt32) (r : Tensor F) :
    Sat (Tensor.max_pool b image ma s r) fun t' => sameLayout t' r := by
  unfold Tensor.max_pool
  refine sat_bind fun ok _ => ?_
  split
  · exact loop3_layout r _ _ _ _ fun k j i t ht => sat_bind fun _ _ =>
      fun t' h' => sameLayout_trans (set_item_layout t _ _ t' h') ht
  · exact sat_pure (sameLayout_refl r)

theorem track_layout (image : Tensor F) (ma : TensorShape) (s : UInt32) (r : Tensor F)
    (o : List UInt32) :
    Sat (Tensor.max_pool_track_origin b image ma s r o) fun p =>
      sameLayout p.2.1 r ∧ p.2.2.length = o.length := by
  unfold Tensor.max_pool_track_origin
  refine sat_bind fun ok _ => ?_
  split
  · exact sat_pure ⟨sameLayout_refl r, rfl⟩
  · simp only
    refine sat_bind fun n _ => ?_
    split
    · exact sat_pure ⟨sameLayout_refl r, rfl⟩
    · refine sat_bind' (Q := fun p : Tensor F × List UInt32 =>
        sameLayout p.1 r ∧ p.2.length = o.length) ?_ ?_
      · refine sat_forRange _ ⟨sameLayout_refl r, rfl⟩ fun k p1 h1 => ?_
        refine sat_forRange _ h1 fun j p2 h2 => ?_
        refine sat_forRange _ h2 fun i p3 h3 => ?_
        obtain ⟨r3, o3⟩ := p3
        simp only
        refine sat_bind fun _ _ => sat_bind fun q _ => ?_
        obtain ⟨m, oi⟩ := q
        simp only
        refine sat_bind' (set_item_layout r3 _ _) fun r4 h4 => ?_
        refine sat_bind' (vset_length _ _ _) fun o4 h5 => ?_
        exact sat_pure ⟨sameLayout_trans h4 h3.1, h5.trans h3.2⟩
      · rintro ⟨r', o'⟩ h
        exact sat_pure h

theorem softmax_layout (x r : Tensor F) :
    Sat (Tensor.softmax x r) fun t' => sameLayout t' r := by
  unfold Tensor.softmax
  split
  · refine sat_bind' (Q := fun p : List F × F => p.1.length = r.data.length) ?_ ?_
    · refine sat_forNat _ rfl fun i p hp => ?_
      obtain ⟨o, s⟩ := p
      simp only
      exact sat_bind fun _ _ => sat_bind' (vset_length _ _ _) fun o' h' => sat_pure (h'.trans hp)
    · rintro ⟨o, s⟩ h
      exact sat_pure (sameLayout_data _ (by simpa using h))
  · exact sat_pure (sameLayout_refl r)

end Rusty
