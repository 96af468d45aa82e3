import Verif.Lemmas.CutNet
import Verif.Lemmas.Infer
import Mathlib.Tactic.Ring

/-! # Helper lemmas: every parameter is read -/

namespace Rusty

open F32Ops Spec

/-! ## Loops that return have run every round -/

theorem foldlM_reads {ι σ : Type} {f : σ → ι → Exec σ} {L : List ι} {s s' : σ} (h : L.foldlM f s = .ok s') {i : ι}
    (hi : i ∈ L) : ∃ s1 s2, f s1 i = .ok s2 := by
  induction L generalizing s with
  | nil => cases hi
  | cons j js ih =>
    rw [List.foldlM_cons] at h
    obtain ⟨s1, h1, h2⟩ := bind_inv h
    rcases List.mem_cons.mp hi with rfl | hi
    · exact ⟨s, s1, h1⟩
    · exact ih h2 hi

theorem forRange_reads {σ : Type} {hi : UInt32} {f : UInt32 → σ → Exec σ} {s s' : σ} (h : forRange 0 hi s f = .ok s')
    {i : Nat} (hlt : i < hi.toNat) : ∃ s1 s2, f (UInt32.ofNat i) s1 = .ok s2 :=
  foldlM_reads (f := fun s i => f (UInt32.ofNat i) s) h (by
    rw [List.mem_range'_1]
    change 0 ≤ i ∧ i < 0 + (hi.toNat - 0)
    omega)

theorem forListE_reads {ι σ : Type} {f : ι → σ → Exec (Res × σ)} {L : List ι} {s s' : σ} (P : σ → Prop)
    (h : forListE L s f = .ok (.ok (), s')) (hP : ∀ i s r s', P s → f i s = .ok (r, s') → P s') (hs : P s)
    {i : ι} (hi : i ∈ L) : ∃ s1 s2, P s1 ∧ f i s1 = .ok (.ok (), s2) := by
  induction L generalizing s with
  | nil => cases hi
  | cons j js ih =>
    unfold forListE at h
    obtain ⟨⟨r, s1⟩, h1, h2⟩ := bind_inv h
    cases r with
    | error e => cases h2
    | ok u =>
      rcases List.mem_cons.mp hi with rfl | hi
      · exact ⟨s, s1, hs, h1⟩
      · exact ih h2 (hP _ _ _ _ hs h1) hi

variable {F : Type} [F32Ops F]

/-! ## Tensors of which the last element can be read are complete -/

omit [F32Ops F] in
theorem cut_full {t t' : Tensor F} (h : Cut t t') (hw : t'.WF)
    (hr : 0 < t'.shape.count → ∃ v, vget t.data (t'.shape.count - 1) = .ok v) : t = t' := by
  obtain ⟨st, sh, d⟩ := t
  obtain ⟨st', sh', d'⟩ := t'
  obtain ⟨rfl, rfl, n, e⟩ := h
  simp only at e hr
  have hl : d'.length = sh.count := hw.len
  congr 1
  rw [e, List.take_eq_self_iff, hl]
  by_contra hn
  obtain ⟨v, hv⟩ := hr (by omega)
  have := get_of_vget hv
  rw [e, List.getElem?_take, if_neg (by omega)] at this
  cases this

theorem last_pos {s : TensorShape} (h : 0 < s.count) :
    s.Inside (s.di.toNat - 1) (s.dj.toNat - 1) (s.dk.toNat - 1) ∧
      pos s (s.di.toNat - 1) (s.dj.toNat - 1) (s.dk.toNat - 1) = s.count - 1 := by
  unfold TensorShape.count at h ⊢
  unfold TensorShape.Inside pos
  rcases hi : s.di.toNat with _ | a
  · rw [hi] at h; simp at h
  rcases hj : s.dj.toNat with _ | c
  · rw [hj] at h; simp at h
  rcases hk : s.dk.toNat with _ | d
  · rw [hk] at h; simp at h
  refine ⟨by omega, ?_⟩
  have : (a + 1) * (c + 1) * (d + 1) = a + (a + 1) * c + (a + 1) * (c + 1) * d + 1 := by ring
  simp only [Nat.add_sub_cancel]
  omega

/-- if the last element is read, the tensor is complete -/
theorem cut_read {t t' : Tensor F} (h : Cut t t') (hw : t'.WF) {b : Build}
    (hr : 0 < t'.shape.count → ∃ v, t.read b (ix (t'.shape.di.toNat - 1) (t'.shape.dj.toNat - 1)
      (t'.shape.dk.toNat - 1)) = .ok v) : t = t' := by
  refine cut_full h hw fun hc => ?_
  obtain ⟨v, hv⟩ := hr hc
  obtain ⟨p1, p2⟩ := last_pos hc
  unfold Tensor.read at hv
  rw [h.index, get_data_index_ok hw p1, ok_bind, pos_toNat hw p1, p2] at hv
  exact ⟨v, hv⟩

/-! ## Layers -/

theorem mm_reads {b : Build} {u v r r' : Tensor F} (h : Tensor.matrix_multiply b u v r = .ok r')
    (hd : Tensor.check_matrix_multiply_dimensions u.shape v.shape r.shape = true) {i j k ii : Nat}
    (hi : r.shape.Inside i j k) (hii : ii < u.shape.dj.toNat) :
    ∃ x, u.read b (ix i ii k) = .ok x := by
  unfold Tensor.matrix_multiply at h
  rw [if_pos hd] at h
  obtain ⟨_, _, h⟩ := forRange_reads h hi.2.2
  obtain ⟨_, _, h⟩ := forRange_reads h hi.2.1
  obtain ⟨_, _, h⟩ := forRange_reads h hi.1
  obtain ⟨_, h, _⟩ := bind_inv h
  obtain ⟨_, _, h⟩ := forRange_reads h hii
  obtain ⟨x, h, _⟩ := bind_inv h
  exact ⟨x, h⟩

theorem mm_relu_reads {b : Build} {x w v r r' : Tensor F} (h : Tensor.matrix_multiply_add_relu b x w v r = .ok r')
    (hd : Tensor.check_matrix_multiply_dimensions w.shape x.shape r.shape = true) (hs : v.shape = r.shape) {i j k : Nat}
    (hi : r.shape.Inside i j k) :
    (∃ y, v.read b (ix i j k) = .ok y) ∧ ∀ ii < w.shape.dj.toNat, ∃ y, w.read b (ix i ii k) = .ok y := by
  unfold Tensor.matrix_multiply_add_relu at h
  rw [if_pos hd, if_pos hs] at h
  obtain ⟨_, _, h⟩ := forRange_reads h hi.2.2
  obtain ⟨_, _, h⟩ := forRange_reads h hi.2.1
  obtain ⟨_, _, h⟩ := forRange_reads h hi.1
  obtain ⟨_, h, h'⟩ := bind_inv h
  obtain ⟨y, h', _⟩ := bind_inv h'
  refine ⟨⟨y, h'⟩, fun ii hii => ?_⟩
  obtain ⟨_, _, h⟩ := forRange_reads h hii
  obtain ⟨z, h, _⟩ := bind_inv h
  exact ⟨z, h⟩

theorem fc_complete {l : FullyConnectedLayer F} {w v : Tensor F} (hw : Cut l.weights w) (hv : Cut l.bias v)
    (ht : l.run_state = .Training → l.bias = v) {b : Build} {x y : Tensor F}
    (hl : ({ l with weights := w, bias := v } : FullyConnectedLayer F).Ok)
    (hx : x.shape = ⟨w.shape.dj, 1, 1⟩) (hy : y.shape = v.shape) {p : Res × FullyConnectedLayer F × Tensor F}
    (h : l.forward b x y = .ok p) : l.weights = w ∧ l.bias = v := by
  have hrows : v.shape = ⟨w.shape.di, 1, 1⟩ := hl.rows
  have hdep : w.shape.dk = 1 := hl.depth
  have hdim : Tensor.check_matrix_multiply_dimensions l.weights.shape x.shape y.shape = true := by
    rw [hw.1, hx, hy, hrows]
    unfold Tensor.check_matrix_multiply_dimensions
    simp [hdep]
  unfold FullyConnectedLayer.forward at h
  have one : (1 : UInt32).toNat = 1 := rfl
  have inw : 0 < w.shape.count → y.shape.Inside (w.shape.di.toNat - 1) 0 (w.shape.dk.toNat - 1) ∧
      w.shape.dj.toNat - 1 < w.shape.dj.toNat := by
    intro hc
    have := (last_pos hc).1
    rw [hy, hrows, hdep]
    unfold TensorShape.Inside at this ⊢
    simp only [one]
    omega
  cases hm : l.run_state with
  | Inference =>
    simp only [hm] at h
    obtain ⟨o, h, _⟩ := bind_inv h
    have key := fun {i j k} hi => mm_relu_reads h hdim (hv.1.trans hy.symm) (i := i) (j := j) (k := k) hi
    refine ⟨cut_read (b := b) hw hl.weights fun hc => ?_, cut_read (b := b) hv hl.bias fun hc => ?_⟩
    · obtain ⟨h1, h2⟩ := inw hc
      rw [← hw.1] at h2
      have := (key h1).2 _ h2
      rwa [hw.1] at this
    · have := (last_pos hc).1
      rw [← hy] at this
      have := (key this).1
      rwa [hy] at this
  | Training =>
    simp only [hm] at h
    obtain ⟨o, h, _⟩ := bind_inv h
    refine ⟨cut_read (b := b) hw hl.weights fun hc => ?_, ht hm⟩
    obtain ⟨h1, h2⟩ := inw hc
    rw [← hw.1] at h2
    have := mm_reads h hdim h1 h2
    rwa [hw.1] at this

theorem window_reads {b : Build} {x k k' : Tensor F} (hk : Cut k k') (hw : k'.WF) {st i j : UInt32} {a : F}
    (h : convolution_window b x k st i j = .ok a) : k = k' := by
  refine cut_read (b := b) hk hw fun hc => ?_
  obtain ⟨h1, h2, h3⟩ := (last_pos hc).1
  unfold convolution_window at h
  obtain ⟨_, _, h⟩ := bind_inv h
  obtain ⟨_, _, h⟩ := bind_inv h
  rw [hk.1] at h
  obtain ⟨_, _, h⟩ := forRange_reads h h3
  obtain ⟨_, _, h⟩ := forRange_reads h h2
  obtain ⟨_, _, h⟩ := forRange_reads h h1
  obtain ⟨id, hid, h⟩ := bind_inv h
  obtain ⟨_, _, h⟩ := bind_inv h
  obtain ⟨_, _, h⟩ := bind_inv h
  obtain ⟨_, _, h⟩ := bind_inv h
  obtain ⟨_, _, h⟩ := bind_inv h
  obtain ⟨v, hv, _⟩ := bind_inv h
  refine ⟨v, ?_⟩
  unfold Tensor.read
  unfold ix
  rw [hid]
  exact hv

theorem bias_reads {b : Build} {v v' : Tensor F} (hv : Cut v v') (hw : v'.WF) (hs : v'.shape = ⟨1, 1, 1⟩) {a : F}
    (h : v.get_item b ⟨0, 0, 0⟩ = .ok a) : v = v' := by
  refine cut_read (b := b) hv hw fun _ => ⟨a, ?_⟩
  unfold Tensor.get_item at h
  have : v.shape.fits_index ⟨0, 0, 0⟩ = true := by
    rw [hv.1, hs]
    rfl
  rw [if_pos this] at h
  rw [hs]
  exact h

theorem conv_bias_reads {b : Build} {x k v t t' : Tensor F} {st c : UInt32}
    (h : convolution_bias b x k v st t c = .ok (.ok (), t')) (h1 : 0 < t.shape.di.toNat) (h2 : 0 < t.shape.dj.toNat) :
    (∃ a, v.get_item b ⟨0, 0, 0⟩ = .ok a) ∧ ∃ i j a, convolution_window b x k st i j = .ok a := by
  unfold convolution_bias at h
  obtain ⟨o, _, h⟩ := bind_inv h
  cases o with
  | error e => cases h
  | ok u =>
    simp only at h
    split at h
    · cases h
    obtain ⟨a, ha, h⟩ := bind_inv h
    obtain ⟨_, h, _⟩ := bind_inv h
    obtain ⟨_, _, h⟩ := forRange_reads h h2
    obtain ⟨_, _, h⟩ := forRange_reads h h1
    obtain ⟨a', h, _⟩ := bind_inv h
    exact ⟨⟨a, ha⟩, _, _, a', h⟩

theorem conv_relu_reads {b : Build} {x k v t t' : Tensor F} {st c : UInt32}
    (h : convolution_bias_relu b x k v st t c = .ok (.ok (), t')) (h1 : 0 < t.shape.di.toNat)
    (h2 : 0 < t.shape.dj.toNat) :
    (∃ a, v.get_item b ⟨0, 0, 0⟩ = .ok a) ∧ ∃ i j a, convolution_window b x k st i j = .ok a := by
  unfold convolution_bias_relu at h
  obtain ⟨o, _, h⟩ := bind_inv h
  cases o with
  | error e => cases h
  | ok u =>
    simp only at h
    split at h
    · cases h
    obtain ⟨a, ha, h⟩ := bind_inv h
    obtain ⟨_, h, _⟩ := bind_inv h
    obtain ⟨_, _, h⟩ := forRange_reads h h2
    obtain ⟨_, _, h⟩ := forRange_reads h h1
    obtain ⟨a', h, _⟩ := bind_inv h
    exact ⟨⟨a, ha⟩, _, _, a', h⟩

theorem conv_complete {l : ConvolutionalLayer F} {ks bs : List (Tensor F)} {n : Nat}
    (hk : List.Forall₂ Cut l.kernels ks) (hb : List.Forall₂ Cut l.biases (bs.take n)) {b : Build} {x y : Tensor F}
    (hl : ({ l with kernels := ks, biases := bs } : ConvolutionalLayer F).Ok) (hy : y.shape = l.output_shape)
    {p : ConvolutionalLayer F × Tensor F} (h : l.forward b x y = .ok (.ok (), p)) :
    l.kernels = ks ∧ l.biases = bs := by
  have hcount : ks.length = l.output_shape.dk.toNat := hl.count
  have hbc : bs.length = ks.length := hl.biasCount
  -- every round has read its kernel and its bias
  have round : ∀ i, i < l.output_shape.dk.toNat → ∃ k v, vget l.kernels i = .ok k ∧ vget l.biases i = .ok v ∧
      (0 < l.output_shape.di.toNat → 0 < l.output_shape.dj.toNat →
        (∃ a, v.get_item b ⟨0, 0, 0⟩ = .ok a) ∧ ∃ i j a, convolution_window b x k l.stride i j = .ok a) := by
    intro i hi
    have hmem : i ∈ List.range l.output_shape.dk.toNat := List.mem_range.mpr hi
    unfold ConvolutionalLayer.forward at h
    cases hm : l.run_state with
    | Inference =>
      simp only [hm] at h
      obtain ⟨⟨r, o⟩, hloop, h'⟩ := bind_inv h
      simp only at h'
      cases h'
      obtain ⟨s, s', hs, h⟩ := forListE_reads (fun t : Tensor F => t.shape = y.shape) hloop (by
        intro i s r s' hs he
        obtain ⟨_, _, he⟩ := bind_inv he
        obtain ⟨_, _, he⟩ := bind_inv he
        exact (conv_bias_relu_layout _ _ _ _ _ _ _ he).1.trans hs) rfl hmem
      obtain ⟨k, e1, h⟩ := bind_inv h
      obtain ⟨v, e2, h⟩ := bind_inv h
      refine ⟨k, v, e1, e2, fun d1 d2 => conv_relu_reads h ?_ ?_⟩
      · rw [hs, hy]; exact d1
      · rw [hs, hy]; exact d2
    | Training =>
      simp only [hm] at h
      obtain ⟨⟨r, o⟩, hloop, h'⟩ := bind_inv h
      cases r with
      | error e => cases h'
      | ok u =>
        obtain ⟨s, s', hs, h⟩ := forListE_reads (fun t : Tensor F => t.shape = y.shape) hloop (by
          intro i s r s' hs he
          obtain ⟨_, _, he⟩ := bind_inv he
          obtain ⟨_, _, he⟩ := bind_inv he
          exact (conv_bias_layout _ _ _ _ _ _ _ he).1.trans hs) rfl hmem
        obtain ⟨k, e1, h⟩ := bind_inv h
        obtain ⟨v, e2, h⟩ := bind_inv h
        refine ⟨k, v, e1, e2, fun d1 d2 => conv_bias_reads h ?_ ?_⟩
        · rw [hs, hy]; exact d1
        · rw [hs, hy]; exact d2
  have per : ∀ i, i < ks.length → l.kernels[i]? = ks[i]? ∧ l.biases[i]? = bs[i]? := by
    intro i hi
    obtain ⟨k, v, e1, e2, h⟩ := round i (hcount ▸ hi)
    rcases forall₂_vget hk i with ⟨q1, _⟩ | ⟨k1, k', q1, q2, hk'⟩
    · rw [e1] at q1
      cases q1
    rw [e1] at q1
    cases q1
    rcases forall₂_vget hb i with ⟨q1, _⟩ | ⟨v1, v', q1, q3, hv'⟩
    · rw [e2] at q1
      cases q1
    rw [e2] at q1
    cases q1
    have q3 := Le.vget bs n i v' q3
    have g1 := get_of_vget q2
    have g2 := get_of_vget q3
    obtain ⟨w1, w2, w3⟩ := hl.kernels k' (List.mem_of_getElem? g1)
    obtain ⟨w4, w5⟩ := hl.biases v' (List.mem_of_getElem? g2)
    obtain ⟨⟨a, ha⟩, _, _, _, hc⟩ := h w3.1.1 w3.2.1
    have r1 := window_reads hk' w1 hc
    have r2 := bias_reads hv' w4 w5 ha
    rw [get_of_vget e1, get_of_vget e2, g1, g2, r1, r2]
    exact ⟨rfl, rfl⟩
  have hlk := hk.length_eq
  have hlb : l.biases.length ≤ ks.length := by
    rw [hb.length_eq, List.length_take]
    omega
  constructor
  · refine List.ext_getElem? fun i => ?_
    by_cases hi : i < ks.length
    · exact (per i hi).1
    · rw [List.getElem?_eq_none (by omega), List.getElem?_eq_none (by omega)]
  · refine List.ext_getElem? fun i => ?_
    by_cases hi : i < ks.length
    · exact (per i hi).2
    · rw [List.getElem?_eq_none (by omega), List.getElem?_eq_none (by omega)]

theorem layer_complete {l l' : AnyLayer F} (h : CutL l l') (hl : l'.Ok) {b : Build} {x y : Tensor F}
    (hx : x.shape = l'.get_input_shape) (hy : y.shape = l'.get_output_shape) {p : AnyLayer F × Tensor F}
    (hf : l.forward b x y = .ok (.ok (), p)) : l = l' := by
  obtain ⟨h, ht⟩ := h
  cases h with
  | conv l ks bs n hk hb =>
    obtain ⟨q, h, e⟩ := bind_inv hf
    obtain ⟨r, q1, q2⟩ := q
    cases e
    obtain ⟨e1, e2⟩ := conv_complete hk hb hl hy h
    subst e1 e2
    rfl
  | fc l w v hw hv =>
    obtain ⟨q, h, e⟩ := bind_inv hf
    obtain ⟨e1, e2⟩ := fc_complete hw hv ht hl hx hy h
    subst e1 e2
    rfl
  | mp l => rfl
  | sm l => rfl

/-! ## Networks -/

/-- where the loop of `infer` is before round `i` -/
structure AtRound (n n' : Net F) (i : Nat) (s : List (AnyLayer F) × List (Tensor F)) : Prop where
  rest : ∀ j, i ≤ j → s.1[j]? = n.layers[j]?
  shapes : s.2.map (·.shape) = n'.intermediate_states.map (·.shape)

theorem forListE_range {σ : Type} {f : Nat → σ → Exec (Res × σ)} (P : Nat → σ → Prop) (N : Nat)
    (a : Nat) {s s' : σ} (h : forListE (List.range' a N) s f = .ok (.ok (), s'))
    (hP : ∀ i s r s', P i s → f i s = .ok (r, s') → P (i + 1) s') (hs : P a s) {i : Nat} (h1 : a ≤ i) (h2 : i < a + N) :
    ∃ s1 s2, P i s1 ∧ f i s1 = .ok (.ok (), s2) := by
  induction N generalizing s a with
  | zero => omega
  | succ N ih =>
    rw [List.range'_succ] at h
    unfold forListE at h
    obtain ⟨⟨r, s1⟩, e1, e2⟩ := bind_inv h
    cases r with
    | error e => cases e2
    | ok u =>
      rcases Nat.eq_or_lt_of_le h1 with rfl | hlt
      · exact ⟨s, s1, hs, e1⟩
      · exact ih (a + 1) e2 (hP _ _ _ _ hs e1) hlt (by omega)

theorem infer_complete {n n' m : Net F} (h : CutNet n n') (hn : NetOk n') {b : Build} {x : Tensor F} (hx : x.WF)
    (hxs : x.shape = n'.input_shape) {r : Res} (hi : n.infer b x = .ok (r, m)) : n = n' := by
  obtain ⟨⟨r', m'⟩, h1, h2, _⟩ := infer_le h b x _ hi
  simp only at h2
  subst h2
  obtain ⟨hl, e⟩ := h
  have hl : List.Forall₂ CutL n.layers n'.layers := hl
  suffices hs : n.layers = n'.layers by
    rw [← hs] at e
    rw [e]
  by_cases hne : n'.layers = []
  · rw [hne] at hl ⊢
    exact List.forall₂_nil_right_iff.mp hl
  obtain ⟨n1, g1, _⟩ := infer_ok (b := b) hn hne hx hxs
  rw [h1] at g1
  cases g1
  have hin : n'.input_shape = n.input_shape := by rw [e]
  have hst : n'.intermediate_states = n.intermediate_states := by rw [e]
  unfold Network.infer at hi
  rw [if_neg (by rw [hxs, hin]; simp)] at hi
  split at hi
  · cases hi
  obtain ⟨ss, hss, hi⟩ := bind_inv hi
  obtain ⟨⟨r, ls, ss'⟩, hloop, hi'⟩ := bind_inv hi
  simp only at hi'
  cases hi'
  rw [List.range_eq_range'] at hloop
  refine List.ext_getElem? fun i => ?_
  by_cases hlt : i < n.layers.length
  case neg => rw [List.getElem?_eq_none (by omega), List.getElem?_eq_none (by rw [← hl.length_eq]; omega)]
  obtain ⟨s1, s2, hb, hf⟩ := forListE_range (AtRound n n') n.layers.length 0 hloop (by
    intro i s r s' hs hf
    refine ⟨fun j hj => ?_, ?_⟩
    · rw [← hs.rest j (by omega)]
      obtain ⟨ls, ss⟩ := s
      unfold Network.infer_step at hf
      simp only at hf
      split at hf
      · cases hf
      obtain ⟨l, hl, hf⟩ := bind_inv hf
      split at hf
      · obtain ⟨⟨r, l', o⟩, _, hf⟩ := bind_inv hf
        obtain ⟨ls', e1, hf⟩ := bind_inv hf
        obtain ⟨ss', e2, hf⟩ := bind_inv hf
        cases hf
        obtain ⟨rfl, _⟩ := set_of_vset e1
        exact List.getElem?_set_ne (by omega)
      · cases hf
    · rw [← hs.shapes]
      exact sameLayouts_shapes (infer_step_effect s i _ hf).2) ⟨fun _ _ => rfl, by
        obtain ⟨rfl, _⟩ := set_of_vset hss
        rw [hst]
        exact set_zero_shapes (hst ▸ hin ▸ chain_head hn.chain) (hxs.trans hin)⟩ (Nat.zero_le i) (by omega)
  obtain ⟨ls, ss⟩ := s1
  unfold Network.infer_step at hf
  simp only at hf
  split at hf
  · cases hf
  obtain ⟨l, hl', hf⟩ := bind_inv hf
  split at hf
  case h_2 => cases hf
  rename_i x o hx ho
  obtain ⟨⟨r, l1, o'⟩, hfw, hf⟩ := bind_inv hf
  obtain ⟨_, _, hf⟩ := bind_inv hf
  obtain ⟨_, _, hf⟩ := bind_inv hf
  cases hf
  have hli : n.layers[i]? = some l := (hb.rest i (Nat.le_refl i)).symm.trans (get_of_vget hl')
  obtain ⟨l', g, hk⟩ : ∃ l', n'.layers[i]? = some l' ∧ CutL l l' := by
    have := hl.get (i := i) hlt (by rw [← hl.length_eq]; exact hlt)
    rw [List.getElem?_eq_getElem hlt] at hli
    cases hli
    exact ⟨_, List.getElem?_eq_getElem (by rw [← hl.length_eq]; exact hlt), this⟩
  obtain ⟨t, t', g1, g2, d1, d2⟩ := chain_state hn.chain g
  have shape : ∀ {j : Nat} {u v : Tensor F}, ss[j]? = some u → n'.intermediate_states[j]? = some v →
      u.shape = v.shape := by
    intro j u v hu hv
    have := congrArg (·[j]?) hb.shapes
    simp only [List.getElem?_map, hu, hv, Option.map_some, Option.some.injEq] at this
    exact this
  rw [hli, g, layer_complete hk (hn.layers l' (List.mem_of_getElem? g)) ((shape hx g1).trans d1)
    ((shape ho g2).trans d2) hfw]

end Rusty
