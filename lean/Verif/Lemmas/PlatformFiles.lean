import Verif.Lemmas.PlatformLayers

/-! # Loading on two arithmetics side by side -/

namespace Rusty

open F32Ops Spec

/-- two decoders that consume the same bytes and give related values -/
def SameDec {α β : Type} (P : α → β → Prop) (d : Dec α) (e : Dec β) : Prop :=
  ∀ bs, (d bs = none ∧ e bs = none) ∨ ∃ x y r, d bs = some (x, r) ∧ e bs = some (y, r) ∧ P x y

section

variable {α β : Type} {P : α → β → Prop} {d : Dec α} {e : Dec β}

theorem sameDec_n (h : SameDec P d e) (n : Nat) : SameDec (List.Forall₂ P) (decN d n) (decN e n) := by
  induction n with
  | zero => exact fun bs => .inr ⟨[], [], bs, rfl, rfl, .nil⟩
  | succ n ih =>
    intro bs
    unfold decN
    rcases h bs with ⟨h1, h2⟩ | ⟨x, y, r, h1, h2, hp⟩
    · rw [h1, h2]; exact .inl ⟨rfl, rfl⟩
    · rw [h1, h2]
      simp only [Option.bind_eq_bind, Option.bind_some]
      rcases ih r with ⟨h3, h4⟩ | ⟨xs, ys, r', h3, h4, hq⟩
      · rw [h3, h4]; exact .inl ⟨rfl, rfl⟩
      · rw [h3, h4]; exact .inr ⟨_, _, _, rfl, rfl, .cons hp hq⟩

theorem sameDec_vec (h : SameDec P d e) : SameDec (List.Forall₂ P) (decVec d) (decVec e) := by
  intro bs
  unfold decVec
  cases decLen bs with
  | none => exact .inl ⟨rfl, rfl⟩
  | some p =>
    obtain ⟨n, r⟩ := p
    exact sameDec_n h n r

theorem rel_fetch {K : Type} [DecidableEq K] (m : HMap K) (k : K) (h : SameDec P d e) :
    SameRun P (fetch m k d) (fetch m k e) := by
  unfold fetch
  cases m.get k with
  | none => exact rel_err _
  | some bs =>
    simp only [deserialize]
    rcases h bs with ⟨h1, h2⟩ | ⟨x, y, r, h1, h2, hp⟩
    · rw [h1, h2]; exact rel_err _
    · rw [h1, h2]; exact hp

end

variable {F G : Type} [F32Ops F] [F32Ops G] [F32Bits F] [F32Bits G] {S : Prop} {R : F → G → Prop} {b : Build}

omit [F32Ops F] [F32Ops G] in
theorem sameDec_f32 (hb : ∀ u, R (F32Bits.ofBits u) (F32Bits.ofBits u)) : SameDec R decF32 decF32 := by
  intro bs
  unfold decF32
  cases decU32 bs with
  | none => exact .inl ⟨rfl, rfl⟩
  | some p => exact .inr ⟨_, _, _, rfl, rfl, hb _⟩

omit [F32Ops F] [F32Ops G] in
theorem sameDec_tensor (hb : ∀ u, R (F32Bits.ofBits u) (F32Bits.ofBits u)) :
    SameDec (SameTensor R) decTensor decTensor := by
  intro bs
  unfold decTensor
  cases decStride bs with
  | none => exact .inl ⟨rfl, rfl⟩
  | some p =>
    obtain ⟨st, r⟩ := p
    simp only [Option.bind_eq_bind, Option.bind_some]
    cases decShape r with
    | none => exact .inl ⟨rfl, rfl⟩
    | some p =>
      obtain ⟨sh, r⟩ := p
      simp only [Option.bind_some]
      rcases sameDec_vec (sameDec_f32 hb) r with ⟨h1, h2⟩ | ⟨x, y, r', h1, h2, hp⟩
      · rw [h1, h2]; exact .inl ⟨rfl, rfl⟩
      · rw [h1, h2]; exact .inr ⟨_, _, _, rfl, rfl, rfl, rfl, hp⟩

theorem rel_fc_load (ho : RespectsIf S R) (hb : ∀ u, R (F32Bits.ofBits u) (F32Bits.ofBits u))
    {l : FullyConnectedLayer F} {l' : FullyConnectedLayer G} (h : SameFC R l l') (m : HMap FCKey) :
    SameRun (Both (SameFC R)) (l.load_from_serialized_data b m) (l'.load_from_serialized_data b m) := by
  unfold FullyConnectedLayer.load_from_serialized_data
  refine rel_ite (rel_pure ⟨rfl, h⟩) (rel_ite (rel_pure ⟨rfl, h⟩) (rel_ite (rel_pure ⟨rfl, h⟩) ?_))
  refine rel_bind (rel_fetch m _ (sameDec_tensor hb)) fun w w' hw => rel_bind (rel_fetch m _ (sameDec_tensor hb))
    fun c c' hc => rel_same fun name => ?_
  unfold FullyConnectedLayer.fill_from_state
  simp only [hw.2.1, hc.2.1]
  refine rel_ite (rel_pure ⟨rfl, h⟩) (rel_ite (rel_pure ⟨rfl, h⟩) (rel_ite (rel_pure ⟨rfl, h⟩) ?_))
  obtain ⟨_, hwg, hwi, _, hbg, hm, _, hr⟩ := h
  exact rel_bind (rel_fc_update ho ⟨hw, hwg, hwi, hc, hbg, hm, rfl, hr⟩) fun _ _ h => rel_pure ⟨rfl, h⟩

omit [F32Ops F] [F32Ops G] [F32Bits F] [F32Bits G] in
theorem any_shape_eq {xs : List (Tensor F)} {ys : List (Tensor G)} (h : List.Forall₂ (SameTensor R) xs ys)
    (s : TensorShape) : (xs.any fun k => decide (k.shape ≠ s)) = ys.any fun k => decide (k.shape ≠ s) := by
  induction h with
  | nil => rfl
  | cons h _ ih => rw [List.any_cons, List.any_cons, ih, h.2.1]

omit [F32Ops F] [F32Ops G] in
theorem rel_conv_load (hb : ∀ u, R (F32Bits.ofBits u) (F32Bits.ofBits u))
    {l : ConvolutionalLayer F} {l' : ConvolutionalLayer G} (h : SameConv R l l') (m : HMap ConvKey) :
    SameRun (Both (SameConv R)) (l.load_from_serialized_data b m) (l'.load_from_serialized_data b m) := by
  unfold ConvolutionalLayer.load_from_serialized_data
  refine rel_ite (rel_pure ⟨rfl, h⟩) (rel_ite (rel_pure ⟨rfl, h⟩) (rel_ite (rel_pure ⟨rfl, h⟩)
    (rel_ite (rel_pure ⟨rfl, h⟩) (rel_ite (rel_pure ⟨rfl, h⟩) ?_))))
  refine rel_bind (rel_fetch m _ (sameDec_vec (sameDec_tensor hb))) fun ks ms hk =>
    rel_bind (rel_fetch m _ (sameDec_vec (sameDec_tensor hb))) fun cs ds hc => rel_same fun is => rel_same fun st =>
    rel_same fun name => ?_
  unfold ConvolutionalLayer.fill_from_state
  cases hk with
  | nil => exact rel_pure ⟨rfl, h⟩
  | cons h0 hs =>
    have hk := List.Forall₂.cons h0 hs
    simp only [h0.2.1]
    rw [any_shape_eq hk, rel_length hk]
    refine rel_ite (rel_pure ⟨rfl, h⟩) (rel_same fun _ => rel_ite (rel_pure ⟨rfl, h⟩) (rel_same fun _ => ?_))
    obtain ⟨_, _, hkg, hbg, _, hm, _, _, _, hr⟩ := h
    exact rel_pure ⟨rfl, hk, hc, hkg, hbg, rfl, hm, rfl, rfl, rfl, hr⟩

omit [F32Ops F] [F32Ops G] [F32Bits F] [F32Bits G] in
theorem rel_sm_load {l : SoftmaxLayer F} {l' : SoftmaxLayer G} (h : SameSM R l l') (m : HMap SMKey) :
    SameRun (Both (SameSM R)) (l.load_from_serialized_data m) (l'.load_from_serialized_data m) := by
  unfold SoftmaxLayer.load_from_serialized_data
  refine rel_ite (rel_pure ⟨rfl, h⟩) (rel_ite (rel_pure ⟨rfl, h⟩) (rel_same fun _ => rel_same fun _ => ?_))
  exact rel_pure ⟨rfl, rfl, rfl, h.2.2⟩

theorem rel_add_to (ho : RespectsIf S R) (hb : ∀ u, R (F32Bits.ofBits u) (F32Bits.ofBits u)) (s : SerializedLayer)
    (hs : S ∨ ∀ x, s ≠ .SerialSoftMaxLayer x) {n : Net F} {m : Net G} (h : SameNetIf S R n m) :
    SameRun (SameResult S R) (s.add_to_network b n) (s.add_to_network b m) := by
  cases s with
  | SerialConvolutionalLayer x =>
    refine rel_bind (P := SameConv R) ?_ fun l l' hl => rel_bind (rel_conv_load hb hl x) ?_
    · exact rel_bind (rel_empty ho) fun _ _ h => rel_pure ⟨.nil, .nil, .nil, .nil, rfl, h, rfl, rfl, rfl, rfl⟩
    · rintro ⟨r, a⟩ ⟨r', c⟩ ⟨e, hac⟩
      have e : r = r' := e
      subst e
      cases r with
      | error e => exact rel_pure ⟨rfl, h⟩
      | ok _ => exact rel_add_layer ho h hac
  | SerialFullyConnectedLayer x =>
    refine rel_bind (P := SameFC R) ?_ fun l l' hl => rel_bind (rel_fc_load ho hb hl x) ?_
    · exact rel_bind (rel_empty ho) fun _ _ h1 => rel_bind (rel_empty ho) fun _ _ h2 =>
        rel_bind (rel_empty ho) fun _ _ h3 => rel_bind (rel_empty ho) fun _ _ h4 =>
        rel_bind (rel_empty ho) fun _ _ h5 => rel_bind (rel_empty ho) fun _ _ h6 =>
        rel_pure ⟨h1, h3, h4, h2, h5, h6, rfl, rfl⟩
    · rintro ⟨r, a⟩ ⟨r', c⟩ ⟨e, hac⟩
      have e : r = r' := e
      subst e
      cases r with
      | error e => exact rel_pure ⟨rfl, h⟩
      | ok _ => exact rel_add_layer ho h hac
  | SerialMaxPoolLayer x =>
    refine rel_same fun p => ?_
    obtain ⟨r, a⟩ := p
    cases r with
    | error e => exact rel_pure ⟨rfl, h⟩
    | ok _ => exact rel_add_layer ho h rfl
  | SerialSoftMaxLayer x =>
    have hS : S := hs.resolve_right fun h => h x rfl
    refine rel_bind (P := SameSM R) ?_ fun l l' hl => rel_bind (rel_sm_load hl x) ?_
    · exact rel_bind (rel_empty ho) fun _ _ h1 => rel_bind (rel_empty ho) fun _ _ h2 =>
        rel_pure ⟨rfl, rfl, h1, h2, rfl⟩
    · rintro ⟨r, a⟩ ⟨r', c⟩ ⟨e, hac⟩
      have e : r = r' := e
      subst e
      cases r with
      | error e => exact rel_pure ⟨rfl, h⟩
      | ok _ => exact rel_add_layer ho h ⟨hS, hac⟩

theorem rel_load (ho : RespectsIf S R) (hb : ∀ u, R (F32Bits.ofBits u) (F32Bits.ofBits u)) (fs : FS) (name : String)
    (hs : S ∨ SoftmaxFree fs name) {n : Net F} {m : Net G} (h : SameNetIf S R n m) :
    SameRun (SameResult S R) (n.load_from_file b fs name) (m.load_from_file b fs name) := by
  unfold Network.load_from_file
  cases hf : fs name with
  | none => exact rel_pure ⟨rfl, h⟩
  | some bs =>
    simp only
    cases hd : deserialize decSerializedNetwork bs with
    | none => exact rel_pure ⟨rfl, h⟩
    | some sn =>
      have H : ∀ L : List SerializedLayer, (∀ s ∈ L, S ∨ ∀ x, s ≠ .SerialSoftMaxLayer x) →
          List.Forall₂ (fun s s' => s = s' ∧ (S ∨ ∀ x, s ≠ .SerialSoftMaxLayer x)) L L := by
        intro L
        induction L with
        | nil => exact fun _ => .nil
        | cons s L ih =>
          exact fun h => .cons ⟨rfl, h s List.mem_cons_self⟩ (ih fun s hs => h s (List.mem_cons_of_mem _ hs))
      refine rel_listE (H sn.serial_layers fun s hm => hs.imp_right fun h => h bs sn hf hd s hm) h ?_
      rintro s _ n m ⟨rfl, hs⟩ h
      exact rel_add_to ho hb s hs h

end Rusty
