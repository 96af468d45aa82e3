import Verif.Spec.Tensor
import Verif.Lemmas.Basic
import Mathlib.Tactic.Ring
import Mathlib.Tactic.Linarith

set_option linter.unusedSectionVars false

/-! # Helper lemmas: linear index, element reads and writes, writer loops -/

namespace Rusty

open F32Ops

/-! ## The linear index -/

theorem lin_lt {a b c i j k : Nat} (hi : i < a) (hj : j < b) (hk : k < c) :
    i + a * j + a * b * k < a * b * c := by
  have h1 : a * (j + 1) ≤ a * b := Nat.mul_le_mul_left a hj
  have h2 : a * b * (k + 1) ≤ a * b * c := Nat.mul_le_mul_left (a * b) hk
  have h3 : a * (j + 1) = a * j + a := by ring
  have h4 : a * b * (k + 1) = a * b * k + a * b := by ring
  omega

theorem lin_inj {a b i j k i' j' k' : Nat} (hi : i < a) (hj : j < b)
    (hi' : i' < a) (hj' : j' < b)
    (h : i + a * j + a * b * k = i' + a * j' + a * b * k') : i = i' ∧ j = j' ∧ k = k' := by
  have e : i + a * (j + b * k) = i' + a * (j' + b * k') := by
    have e1 : a * (j + b * k) = a * j + a * b * k := by ring
    have e2 : a * (j' + b * k') = a * j' + a * b * k' := by ring
    omega
  have hi1 : i = i' := by
    have := congrArg (· % a) e
    simpa [Nat.add_mul_mod_self_left, Nat.mod_eq_of_lt hi, Nat.mod_eq_of_lt hi'] using this
  have e2 : j + b * k = j' + b * k' := by
    have ha : 0 < a := by omega
    rw [hi1] at e
    exact Nat.eq_of_mul_eq_mul_left ha (by omega)
  have hj1 : j = j' := by
    have := congrArg (· % b) e2
    simpa [Nat.add_mul_mod_self_left, Nat.mod_eq_of_lt hj, Nat.mod_eq_of_lt hj'] using this
  have hb : 0 < b := by omega
  rw [hj1] at e2
  exact ⟨hi1, hj1, Nat.eq_of_mul_eq_mul_left hb (by omega)⟩

theorem lin_surj {a b c p : Nat} (hp : p < a * b * c) :
    ∃ i j k, i < a ∧ j < b ∧ k < c ∧ p = i + a * j + a * b * k := by
  have hpos : 0 < a * b * c := by omega
  have hab : 0 < a * b := Nat.pos_of_mul_pos_right hpos
  have ha : 0 < a := Nat.pos_of_mul_pos_right hab
  have hb : 0 < b := by
    rcases Nat.eq_zero_or_pos b with h | h
    · subst h; simp at hab
    · exact h
  refine ⟨p % a, p / a % b, p / (a * b), Nat.mod_lt _ ha, Nat.mod_lt _ hb, ?_, ?_⟩
  · exact Nat.div_lt_of_lt_mul hp
  · have h1 := Nat.mod_add_div p a
    have h2 := Nat.mod_add_div (p / a) b
    rw [Nat.div_div_eq_div_mul] at h2
    have h3 : a * (p / a % b + b * (p / (a * b))) = a * (p / a) := by rw [h2]
    have h4 : a * (p / a % b + b * (p / (a * b))) = a * (p / a % b) + a * b * (p / (a * b)) := by
      ring
    omega
where
  Nat.pos_of_mul_pos_right {x y : Nat} (h : 0 < x * y) : 0 < x := by
    rcases Nat.eq_zero_or_pos x with h' | h'
    · subst h'; simp at h
    · exact h'

variable {F : Type} [F32Ops F]

open Spec

theorem pos_lt {s : TensorShape} {i j k : Nat} (h : s.Inside i j k) : pos s i j k < s.count :=
  lin_lt h.1 h.2.1 h.2.2

theorem pos_inj {s : TensorShape} {i j k i' j' k' : Nat} (h : s.Inside i j k)
    (h' : s.Inside i' j' k') (e : pos s i j k = pos s i' j' k') : i = i' ∧ j = j' ∧ k = k' :=
  lin_inj h.1 h.2.1 h'.1 h'.2.1 e

theorem inside_lt {s : TensorShape} {i j k : Nat} (h : s.Inside i j k) :
    i < 2 ^ 32 ∧ j < 2 ^ 32 ∧ k < 2 ^ 32 :=
  ⟨Nat.lt_trans h.1 (u32_lt _), Nat.lt_trans h.2.1 (u32_lt _), Nat.lt_trans h.2.2 (u32_lt _)⟩

theorem ix_eta (x : TensorIndex) : ix x.i.toNat x.j.toNat x.k.toNat = x := by
  simp [ix]

theorem fits_index_iff (s : TensorShape) (x : TensorIndex) :
    s.fits_index x = true ↔ s.Inside x.i.toNat x.j.toNat x.k.toNat := by
  unfold TensorShape.fits_index TensorShape.Inside
  simp only [ge_iff_le, UInt32.le_iff_toNat_le]
  split
  · simp; omega
  · split
    · simp; omega
    · split
      · simp; omega
      · simp; omega

theorem fits_index_ix {s : TensorShape} {i j k : Nat} (h : s.Inside i j k) :
    s.fits_index (ix i j k) = true := by
  rw [fits_index_iff]
  obtain ⟨h1, h2, h3⟩ := inside_lt h
  simpa [ix, toNat_ofNat_lt h1, toNat_ofNat_lt h2, toNat_ofNat_lt h3] using h

/-! ## Element access -/

theorem mulIndex_ok {b : Build} {st : TensorStride} {s : TensorShape} (hf : s.Fits)
    (h1 : st.i = 1) (h2 : st.j = s.di) (h3 : st.k.toNat = s.di.toNat * s.dj.toNat)
    {i j k : Nat} (h : s.Inside i j k) :
    st.mulIndex b (ix i j k) = .ok (UInt32.ofNat (pos s i j k)) := by
  obtain ⟨b1, b2, b3⟩ := inside_lt h
  have hp := pos_lt h
  have hc := hf.2
  have hpc : pos s i j k < 2 ^ 32 := Nat.lt_trans hp hc
  unfold TensorStride.mulIndex
  have ei : st.i.toNat * (UInt32.ofNat i).toNat = i := by
    rw [h1, toNat_ofNat_lt b1]; simp
  have ej : st.j.toNat * (UInt32.ofNat j).toNat = s.di.toNat * j := by
    rw [h2, toNat_ofNat_lt b2]
  have ek : st.k.toNat * (UInt32.ofNat k).toNat = s.di.toNat * s.dj.toNat * k := by
    rw [h3, toNat_ofNat_lt b3]
  have hpos : pos s i j k = i + s.di.toNat * j + s.di.toNat * s.dj.toNat * k := rfl
  simp only [ix]
  rw [mulU_ok (by rw [ei]; omega), ok_bind, mulU_ok (by rw [ej]; omega), ok_bind, ei, ej,
    addU_ok (by rw [toNat_ofNat_lt b1, toNat_ofNat_lt (by omega)]; omega), ok_bind,
    mulU_ok (by rw [ek]; omega), ok_bind, ek, toNat_ofNat_lt b1,
    toNat_ofNat_lt (n := s.di.toNat * j) (by omega),
    addU_ok (by rw [toNat_ofNat_lt (by omega), toNat_ofNat_lt (by omega)]; omega),
    toNat_ofNat_lt (by omega), toNat_ofNat_lt (by omega), hpos]

theorem get_data_index_ok {b : Build} {t : Tensor F} (hw : t.WF) {i j k : Nat}
    (h : t.shape.Inside i j k) :
    t.get_data_index b (ix i j k) = .ok (UInt32.ofNat (pos t.shape i j k)) :=
  mulIndex_ok hw.fits hw.si hw.sj hw.sk h

theorem pos_toNat {t : Tensor F} (hw : t.WF) {i j k : Nat} (h : t.shape.Inside i j k) :
    (UInt32.ofNat (pos t.shape i j k)).toNat = pos t.shape i j k :=
  toNat_ofNat_lt (Nat.lt_trans (pos_lt h) hw.fits.2)

theorem pos_lt_len {t : Tensor F} (hw : t.WF) {i j k : Nat} (h : t.shape.Inside i j k) :
    pos t.shape i j k < t.data.length := by rw [hw.len]; exact pos_lt h

theorem vget_pos {t : Tensor F} (hw : t.WF) {i j k : Nat} (h : t.shape.Inside i j k) :
    vget t.data (UInt32.ofNat (pos t.shape i j k)).toNat = .ok (val t i j k) := by
  rw [pos_toNat hw h, vget_getD zero (pos_lt_len hw h)]; rfl

theorem read_ok {b : Build} {t : Tensor F} (hw : t.WF) {i j k : Nat} (h : t.shape.Inside i j k) :
    t.read b (ix i j k) = .ok (val t i j k) := by
  unfold Tensor.read
  rw [get_data_index_ok hw h, ok_bind, vget_pos hw h]

theorem get_item_ok {b : Build} {t : Tensor F} (hw : t.WF) {i j k : Nat}
    (h : t.shape.Inside i j k) : t.get_item b (ix i j k) = .ok (val t i j k) := by
  unfold Tensor.get_item
  rw [if_pos (fits_index_ix h), read_ok hw h]

theorem get_item_at {b : Build} {t : Tensor F} (hw : t.WF) {x : TensorIndex}
    (h : t.shape.fits_index x = true) :
    t.get_item b x = .ok (val t x.i.toNat x.j.toNat x.k.toNat) := by
  have := get_item_ok (b := b) hw ((fits_index_iff _ _).mp h)
  rwa [ix_eta] at this

/-- the tensor with one element replaced -/
def setE (t : Tensor F) (i j k : Nat) (v : F) : Tensor F :=
  { t with data := t.data.set (pos t.shape i j k) v }

theorem write_ok {b : Build} {t : Tensor F} (hw : t.WF) {i j k : Nat} (h : t.shape.Inside i j k)
    (v : F) : t.write b (ix i j k) v = .ok (setE t i j k v) := by
  unfold Tensor.write
  rw [get_data_index_ok hw h, ok_bind, pos_toNat hw h, vset_ok (pos_lt_len hw h)]
  rfl

theorem set_item_ok {b : Build} {t : Tensor F} (hw : t.WF) {i j k : Nat} (h : t.shape.Inside i j k)
    (v : F) : t.set_item b (ix i j k) v = .ok (setE t i j k v) := by
  unfold Tensor.set_item
  rw [if_pos (fits_index_ix h), write_ok hw h]

theorem wf_data {t : Tensor F} (hw : t.WF) (d : List F) (h : d.length = t.data.length) :
    ({ t with data := d } : Tensor F).WF :=
  ⟨hw.fits, hw.si, hw.sj, hw.sk, by rw [← hw.len]; exact h⟩

theorem setE_wf {t : Tensor F} (hw : t.WF) (i j k : Nat) (v : F) : (setE t i j k v).WF :=
  wf_data hw _ (by simp)

@[simp] theorem setE_shape (t : Tensor F) (i j k : Nat) (v : F) : (setE t i j k v).shape = t.shape :=
  rfl

theorem val_setE {t : Tensor F} (hw : t.WF) {i j k i' j' k' : Nat} (h : t.shape.Inside i j k)
    (h' : t.shape.Inside i' j' k') (v : F) :
    val (setE t i j k v) i' j' k' =
      if i = i' ∧ j = j' ∧ k = k' then v else val t i' j' k' := by
  unfold val setE
  simp only
  rw [List.getElem?_set]
  by_cases e : i = i' ∧ j = j' ∧ k = k'
  · obtain ⟨rfl, rfl, rfl⟩ := e
    simp [pos_lt_len hw h]
  · rw [if_neg e, if_neg]
    intro hp
    exact e (pos_inj h h' hp)

/-- Two well formed tensors of the same shape with the same elements are equal. -/
theorem tensor_ext {t u : Tensor F} (ht : t.WF) (hu : u.WF) (hs : t.shape = u.shape)
    (h : ∀ i j k, t.shape.Inside i j k → val t i j k = val u i j k) : t = u := by
  obtain ⟨st, sh, d⟩ := t
  obtain ⟨st', sh', d'⟩ := u
  simp only at hs
  subst hs
  have hst : st = st' := by
    obtain ⟨a, b, c⟩ := st
    obtain ⟨a', b', c'⟩ := st'
    have h1 := ht.si; have h1' := hu.si
    have h2 := ht.sj; have h2' := hu.sj
    have h3 := ht.sk; have h3' := hu.sk
    simp only at h1 h1' h2 h2' h3 h3'
    rw [h1, h1', h2, h2', u32_ext (h3.trans h3'.symm)]
  have hd : d = d' := by
    have l1 := ht.len
    have l2 := hu.len
    simp only at l1 l2
    apply List.ext_getElem (by rw [l1, l2])
    intro p hp hp'
    obtain ⟨i, j, k, hi, hj, hk, e⟩ := lin_surj (a := sh.di.toNat) (b := sh.dj.toNat)
      (c := sh.dk.toNat) (p := p) (by rw [l1] at hp; exact hp)
    have := h i j k ⟨hi, hj, hk⟩
    unfold val pos at this
    simp only [← e] at this
    rw [List.getElem?_eq_getElem hp, List.getElem?_eq_getElem hp'] at this
    simpa using this
  rw [hst, hd]

/-! ## Writer loops -/

/-- Write elements at a list of inside positions (without repetition), values independent of the
target: the written positions hold the values, all others are as before. -/
theorem foldlM_write (r : Tensor F) (hr : r.WF) (L : List (Nat × Nat × Nat))
    (hL : ∀ x ∈ L, r.shape.Inside x.1 x.2.1 x.2.2)
    (v : Nat → Nat → Nat → F) (f : Tensor F → Nat × Nat × Nat → Exec (Tensor F))
    (hf : ∀ x ∈ L, ∀ t : Tensor F, t.WF → t.shape = r.shape →
      f t x = .ok (setE t x.1 x.2.1 x.2.2 (v x.1 x.2.1 x.2.2))) :
    ∃ r', L.foldlM f r = .ok r' ∧ r'.WF ∧ r'.shape = r.shape ∧
      ∀ i j k, r.shape.Inside i j k →
        ((i, j, k) ∈ L → val r' i j k = v i j k) ∧ ((i, j, k) ∉ L → val r' i j k = val r i j k) := by
  refine foldlM_prefix L f r (fun pre t => t.WF ∧ t.shape = r.shape ∧
      ∀ i j k, r.shape.Inside i j k →
        ((i, j, k) ∈ pre → val t i j k = v i j k) ∧
        ((i, j, k) ∉ pre → val t i j k = val r i j k)) ⟨hr, rfl, ?_⟩ ?_
  · intro i j k _
    simp
  · rintro pre ⟨i, j, k⟩ post t hLe ⟨hw, hs, hv⟩
    have hm : (i, j, k) ∈ L := by rw [hLe]; simp
    have hin : t.shape.Inside i j k := by rw [hs]; exact hL _ hm
    refine ⟨_, hf _ hm t hw hs, setE_wf hw .., hs, ?_⟩
    intro i' j' k' hin'
    have hin'' : t.shape.Inside i' j' k' := by rw [hs]; exact hin'
    simp only
    rw [val_setE hw hin hin'']
    by_cases e : i = i' ∧ j = j' ∧ k = k'
    · obtain ⟨rfl, rfl, rfl⟩ := e
      simp
    · have hne : (i', j', k') ≠ (i, j, k) := by
        intro he
        simp only [Prod.mk.injEq] at he
        exact e ⟨he.1.symm, he.2.1.symm, he.2.2.symm⟩
      rw [if_neg e]
      simpa [hne] using hv i' j' k' hin'

/-- A full triple loop nest that writes `v i j k` at every index. -/
theorem loop3_write {b : Build} (r : Tensor F) (hr : r.WF) (v : Nat → Nat → Nat → F)
    (body : UInt32 → UInt32 → UInt32 → Tensor F → Exec (Tensor F))
    (hb : ∀ i j k, r.shape.Inside i j k → ∀ t : Tensor F, t.WF → t.shape = r.shape →
      body (UInt32.ofNat k) (UInt32.ofNat j) (UInt32.ofNat i) t = t.write b (ix i j k) (v i j k)) :
    ∃ r', (forRange 0 r.shape.dk r fun k t => forRange 0 r.shape.dj t fun j t =>
        forRange 0 r.shape.di t fun i t => body k j i t) = .ok r' ∧ r'.WF ∧
      r'.shape = r.shape ∧ ∀ i j k, r.shape.Inside i j k → val r' i j k = v i j k := by
  rw [forRange3]
  obtain ⟨r', h1, h2, h3, h4⟩ := foldlM_write r hr
    (idx3 r.shape.di.toNat r.shape.dj.toNat r.shape.dk.toNat)
    (fun x hx => mem_idx3.mp hx) v
    (fun s x => body (UInt32.ofNat x.2.2) (UInt32.ofNat x.2.1) (UInt32.ofNat x.1) s)
    (by
      rintro ⟨i, j, k⟩ hx t hw hs
      have hin : r.shape.Inside i j k := mem_idx3.mp hx
      simp only
      rw [hb i j k hin t hw hs, write_ok hw (by rw [hs]; exact hin)])
  exact ⟨r', h1, h2, h3, fun i j k hin => (h4 i j k hin).1 (mem_idx3.mpr hin)⟩

/-- A double loop nest that writes `v i j` at every index of channel `c` and nothing else. -/
theorem loop2_write {b : Build} (r : Tensor F) (hr : r.WF) (c : Nat) (hc : c < r.shape.dk.toNat)
    (v : Nat → Nat → F)
    (body : UInt32 → UInt32 → Tensor F → Exec (Tensor F))
    (hb : ∀ i j, i < r.shape.di.toNat → j < r.shape.dj.toNat → ∀ t : Tensor F, t.WF →
      t.shape = r.shape →
      body (UInt32.ofNat j) (UInt32.ofNat i) t = t.write b (ix i j c) (v i j)) :
    ∃ r', (forRange 0 r.shape.dj r fun j t =>
        forRange 0 r.shape.di t fun i t => body j i t) = .ok r' ∧ r'.WF ∧
      r'.shape = r.shape ∧ ∀ i j k, r.shape.Inside i j k →
        val r' i j k = if k = c then v i j else val r i j k := by
  rw [forRange2]
  obtain ⟨r', h1, h2, h3, h4⟩ := foldlM_write r hr
    ((idx2 r.shape.di.toNat r.shape.dj.toNat).map (fun x => (x.1, x.2, c)))
    (by
      rintro ⟨i, j, k⟩ hx
      simp only [List.mem_map, Prod.mk.injEq, Prod.exists] at hx
      obtain ⟨i', j', hx, rfl, rfl, rfl⟩ := hx
      exact ⟨(mem_idx2.mp hx).1, (mem_idx2.mp hx).2, hc⟩)
    (fun i j _ => v i j)
    (fun s x => body (UInt32.ofNat x.2.1) (UInt32.ofNat x.1) s)
    (by
      rintro ⟨i, j, k⟩ hx t hw hs
      simp only [List.mem_map, Prod.mk.injEq, Prod.exists] at hx
      obtain ⟨i', j', hx, rfl, rfl, rfl⟩ := hx
      have hin := mem_idx2.mp hx
      simp only
      rw [hb i' j' hin.1 hin.2 t hw hs, write_ok hw (by rw [hs]; exact ⟨hin.1, hin.2, hc⟩)])
  rw [List.foldlM_map] at h1
  refine ⟨r', h1, h2, h3, fun i j k hin => ?_⟩
  by_cases hk : k = c
  · subst hk
    rw [if_pos rfl]
    refine (h4 i j k hin).1 ?_
    simp only [List.mem_map, Prod.mk.injEq, Prod.exists]
    exact ⟨i, j, mem_idx2.mpr ⟨hin.1, hin.2.1⟩, rfl, rfl, trivial⟩
  · rw [if_neg hk]
    refine (h4 i j k hin).2 ?_
    simp only [List.mem_map, Prod.mk.injEq, Prod.exists]
    rintro ⟨_, _, _, _, _, h⟩
    exact hk h.symm

/-! ## Construction -/

theorem total_size_ok {b : Build} {s : TensorShape} (h : s.Fits) :
    s.total_size b = .ok (UInt32.ofNat s.count) := by
  unfold TensorShape.total_size
  rw [mulU_ok h.1, ok_bind, mulU_ok (by rw [toNat_ofNat_lt h.1]; exact h.2), toNat_ofNat_lt h.1]
  rfl

theorem new_from_shape_ok {b : Build} {s : TensorShape} (h : s.Fits) :
    TensorStride.new_from_shape b s = .ok ⟨1, s.di, UInt32.ofNat (s.di.toNat * s.dj.toNat)⟩ := by
  unfold TensorStride.new_from_shape
  rw [mulU_ok h.1]; rfl

/-- the tensor `Tensor::new` builds -/
def zeros (s : TensorShape) : Tensor F :=
  ⟨⟨1, s.di, UInt32.ofNat (s.di.toNat * s.dj.toNat)⟩, s, List.replicate s.count zero⟩

theorem new_ok {b : Build} {s : TensorShape} (h : s.Fits) :
    Tensor.new b s = .ok (zeros s : Tensor F) := by
  unfold Tensor.new
  rw [total_size_ok h, ok_bind, new_from_shape_ok h, ok_bind, toNat_ofNat_lt h.2]
  rfl

theorem zeros_wf {s : TensorShape} (h : s.Fits) : (zeros s : Tensor F).WF :=
  ⟨h, rfl, rfl, toNat_ofNat_lt h.1, by simp [zeros]⟩

theorem val_zeros (s : TensorShape) (i j k : Nat) : val (zeros s : Tensor F) i j k = zero := by
  unfold val zeros
  simp only [List.getElem?_replicate]
  split <;> rfl

@[simp] theorem zeros_shape (s : TensorShape) : (zeros s : Tensor F).shape = s := rfl

theorem empty_ok (b : Build) : Tensor.empty b = .ok (zeros ⟨1, 1, 1⟩ : Tensor F) :=
  new_ok (by decide)

end Rusty
