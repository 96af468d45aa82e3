import Verif.Lemmas.Elementwise
import Verif.Spec.Toy

/-! # C01-C06: construction and element access -/

namespace Rusty

open F32Ops Spec

variable {F : Type} [F32Ops F]

/-! ## C01 -/

/-- C01: a new tensor has the shape asked for and reads `0.0` everywhere inside; no panic. -/
theorem C01_new_zeros (b : Build) (s : TensorShape) (h1 : s.di.toNat * s.dj.toNat < 2 ^ 32)
    (h2 : s.di.toNat * s.dj.toNat * s.dk.toNat < 2 ^ 32) :
    ∃ t : Tensor F, Tensor.new b s = .ok t ∧ t.get_shape = s ∧ t.WF ∧
      (∃ n, t.total_items b = .ok n ∧ n.toNat = s.di.toNat * s.dj.toNat * s.dk.toNat) ∧
      ∀ x : TensorIndex, s.Inside x.i.toNat x.j.toNat x.k.toNat → t.get_item b x = .ok zero := by
  have hf : s.Fits := ⟨h1, h2⟩
  refine ⟨zeros s, new_ok hf, rfl, zeros_wf hf, ⟨_, total_size_ok hf, toNat_ofNat_lt h2⟩, ?_⟩
  intro x hx
  rw [← ix_eta x, get_item_ok (zeros_wf hf) hx, val_zeros]

/-- C01, second half: with overflow checks an unrepresentable element count panics. -/
theorem C01_new_overflow_debug (s : TensorShape)
    (h : 2 ^ 32 ≤ s.di.toNat * s.dj.toNat ∨ 2 ^ 32 ≤ s.di.toNat * s.dj.toNat * s.dk.toNat) :
    (Tensor.new .debug s : Exec (Tensor F)) = .error .overflow := by
  unfold Tensor.new TensorShape.total_size
  by_cases h1 : s.di.toNat * s.dj.toNat < 2 ^ 32
  · have h2 : ¬ s.di.toNat * s.dj.toNat * s.dk.toNat < 2 ^ 32 := by omega
    rw [mulU_ok h1, ok_bind]
    unfold mulU
    rw [toNat_ofNat_lt h1, if_neg h2]
    rfl
  · unfold mulU
    rw [if_neg h1]
    rfl

/-- C01, release profile: without overflow checks `Tensor::new` never panics, but the number of
elements it allocates is the true count modulo `2^32`. -/
theorem C01_new_release (s : TensorShape) :
    ∃ t : Tensor F, Tensor.new .release s = .ok t ∧ t.get_shape = s ∧
      t.data.length = s.di.toNat * s.dj.toNat * s.dk.toNat % 2 ^ 32 := by
  have hm : ∀ x y : UInt32, mulU .release x y = .ok (x * y) := by
    intro x y; unfold mulU; split <;> rfl
  unfold Tensor.new TensorShape.total_size TensorStride.new_from_shape
  simp only [hm, ok_bind, pure_ok]
  refine ⟨_, rfl, rfl, ?_⟩
  simp [UInt32.toNat_mul]

open Toy in
example : ∃ t : Tensor Int, Tensor.new .debug ⟨2, 3, 4⟩ = .ok t ∧ t.data.length = 24 ∧
    t.get_item .debug ⟨1, 2, 3⟩ = .ok 0 := ⟨_, rfl, rfl, rfl⟩

open Toy in
example : (Tensor.new .debug ⟨65536, 65536, 1⟩ : Exec (Tensor Int)) = .error .overflow :=
  C01_new_overflow_debug _ (Or.inl (by decide))

/-! ## C02 -/

/-- C02: read-your-write and frame for `set_item`. -/
theorem C02_set_get (b : Build) (t : Tensor F) (hw : t.WF) (x : TensorIndex) (v : F)
    (hx : t.shape.Inside x.i.toNat x.j.toNat x.k.toNat) :
    ∃ t', t.set_item b x v = .ok t' ∧ t'.shape = t.shape ∧ t'.WF ∧ t'.get_item b x = .ok v ∧
      ∀ y : TensorIndex, t.shape.Inside y.i.toNat y.j.toNat y.k.toNat → y ≠ x →
        ∃ w, t.get_item b y = .ok w ∧ t'.get_item b y = .ok w := by
  have hin := hx
  refine ⟨setE t x.i.toNat x.j.toNat x.k.toNat v, ?_, rfl, setE_wf hw .., ?_, ?_⟩
  · conv => lhs; rw [← ix_eta x]
    exact set_item_ok hw hin v
  · rw [get_item_at (setE_wf hw ..) ((fits_index_iff _ _).mpr hx), val_setE hw hin hin]
    simp
  · intro y hy hne
    have hiny := hy
    refine ⟨val t y.i.toNat y.j.toNat y.k.toNat, ?_, ?_⟩
    · conv => lhs; rw [← ix_eta y]
      exact get_item_ok hw hiny
    · conv => lhs; rw [← ix_eta y]
      rw [get_item_ok (setE_wf hw ..) (by exact hiny), val_setE hw hin hiny, if_neg]
      rintro ⟨e1, e2, e3⟩
      apply hne
      rw [← ix_eta y, ← ix_eta x, e1, e2, e3]

/-- a concrete well formed tensor for the examples: shape 2x3x2, data 0..11 -/
def exT : Tensor Int := ⟨⟨1, 2, 6⟩, ⟨2, 3, 2⟩, [0, 1, 2, 3, 4, 5, 6, 7, 8, 9, 10, 11]⟩

theorem exT_wf : exT.WF := ⟨by decide, rfl, rfl, rfl, rfl⟩

open Toy in
example : exT.WF ∧ exT.shape.Inside 1 2 1 ∧
    exT.set_item .debug ⟨1, 2, 1⟩ 77 =
      .ok ⟨⟨1, 2, 6⟩, ⟨2, 3, 2⟩, [0, 1, 2, 3, 4, 5, 6, 7, 8, 9, 10, 77]⟩ :=
  ⟨exT_wf, by decide, rfl⟩

/-! ## C03 -/

/-- C03: out-of-range reads give `0.0` and out-of-range writes change nothing, for any tensor at all. -/
theorem C03_out_of_range (b : Build) (t : Tensor F) (x : TensorIndex) (v : F)
    (hx : x.i ≥ t.shape.di ∨ x.j ≥ t.shape.dj ∨ x.k ≥ t.shape.dk) :
    t.get_item b x = .ok zero ∧ t.set_item b x v = .ok t := by
  have h : ¬ t.shape.fits_index x = true := by
    rw [fits_index_iff]
    unfold TensorShape.Inside
    simp only [ge_iff_le, UInt32.le_iff_toNat_le] at hx
    omega
  unfold Tensor.get_item Tensor.set_item
  rw [if_neg h, if_neg h]
  exact ⟨rfl, rfl⟩

open Toy in
example : exT.get_item .debug ⟨1, 3, 0⟩ = .ok 0 ∧ exT.set_item .release ⟨2, 0, 0⟩ 5 = .ok exT :=
  ⟨rfl, rfl⟩

/-! ## C04 -/

/-- C04: the position of an inside index is the expected one, no overflow, below the count. -/
theorem C04_position (b : Build) (t : Tensor F) (hw : t.WF) (x : TensorIndex)
    (hx : t.shape.Inside x.i.toNat x.j.toNat x.k.toNat) :
    ∃ p, t.get_data_index b x = .ok p ∧
      p.toNat = x.i.toNat + t.shape.di.toNat * x.j.toNat
        + t.shape.di.toNat * t.shape.dj.toNat * x.k.toNat ∧
      p.toNat < t.shape.di.toNat * t.shape.dj.toNat * t.shape.dk.toNat := by
  have hin := hx
  refine ⟨UInt32.ofNat (pos t.shape x.i.toNat x.j.toNat x.k.toNat), ?_, ?_, ?_⟩
  · conv => lhs; rw [← ix_eta x]
    exact get_data_index_ok hw hin
  · rw [pos_toNat hw hin]; rfl
  · rw [pos_toNat hw hin]; exact pos_lt hin

/-- C04: distinct inside indices have distinct positions. -/
theorem C04_injective (b : Build) (t : Tensor F) (hw : t.WF) (x y : TensorIndex)
    (hx : t.shape.Inside x.i.toNat x.j.toNat x.k.toNat) (hy : t.shape.Inside y.i.toNat y.j.toNat y.k.toNat)
    (h : t.get_data_index b x = t.get_data_index b y) : x = y := by
  have hinx := hx
  have hiny := hy
  rw [← ix_eta x, ← ix_eta y, get_data_index_ok hw hinx, get_data_index_ok hw hiny] at h
  injection h with h
  have h' := congrArg UInt32.toNat h
  rw [pos_toNat hw hinx, pos_toNat hw hiny] at h'
  obtain ⟨e1, e2, e3⟩ := pos_inj hinx hiny h'
  rw [← ix_eta x, ← ix_eta y, e1, e2, e3]

/-- C04: every position below the count is the position of an inside index. -/
theorem C04_surjective (b : Build) (t : Tensor F) (hw : t.WF) (p : UInt32)
    (hp : p.toNat < t.shape.di.toNat * t.shape.dj.toNat * t.shape.dk.toNat) :
    ∃ x, t.shape.Inside x.i.toNat x.j.toNat x.k.toNat ∧ t.get_data_index b x = .ok p := by
  obtain ⟨i, j, k, hi, hj, hk, e⟩ := lin_surj hp
  have hin : t.shape.Inside i j k := ⟨hi, hj, hk⟩
  refine ⟨ix i j k, (fits_index_iff _ _).mp (fits_index_ix hin), ?_⟩
  rw [get_data_index_ok hw hin]
  congr 1
  apply u32_ext
  rw [pos_toNat hw hin, e]
  rfl

/-- C04 applies to every tensor `Tensor::new` returns in a checked build, and to every shape with
representable counts in either build. -/
theorem C04_new_wf (b : Build) (s : TensorShape) (h : s.Fits) (t : Tensor F)
    (ht : Tensor.new b s = .ok t) : t.WF := by
  rw [new_ok h] at ht
  injection ht with ht
  exact ht ▸ zeros_wf h

example : exT.get_data_index .debug ⟨1, 2, 1⟩ = .ok 11 := rfl

/-! ## C05 -/

/-- C05: `fill_with_vec` succeeds exactly on the right length and lays data out with `i` fastest. -/
theorem C05_fill_with_vec (b : Build) (t : Tensor F) (hw : t.WF) (v : List F) :
    (v.length = t.shape.di.toNat * t.shape.dj.toNat * t.shape.dk.toNat →
      ∃ t', t.fill_with_vec b v = .ok (.ok (), t') ∧ t'.WF ∧ t'.shape = t.shape ∧
        ∀ i j k : Nat, i < t.shape.di.toNat → j < t.shape.dj.toNat → k < t.shape.dk.toNat →
          ∃ h : i + t.shape.di.toNat * (j + t.shape.dj.toNat * k) < v.length,
            t'.get_item b (ix i j k) = .ok v[i + t.shape.di.toNat * (j + t.shape.dj.toNat * k)]) ∧
    (v.length ≠ t.shape.di.toNat * t.shape.dj.toNat * t.shape.dk.toNat →
      ∃ e, t.fill_with_vec b v = .ok (.error e, t)) := by
  unfold Tensor.fill_with_vec Tensor.total_items
  rw [total_size_ok hw.fits, ok_bind, toNat_ofNat_lt hw.fits.2]
  constructor
  · intro h
    have hw' : ({ t with data := v } : Tensor F).WF := wf_data hw v (by rw [hw.len]; exact h)
    refine ⟨{ t with data := v }, ?_, hw', rfl, ?_⟩
    · rw [if_neg (by rw [h]; simp [TensorShape.count])]; rfl
    · intro i j k hi hj hk
      have hin : t.shape.Inside i j k := ⟨hi, hj, hk⟩
      have e : i + t.shape.di.toNat * (j + t.shape.dj.toNat * k) = pos t.shape i j k := by
        unfold pos; ring
      have hlt : i + t.shape.di.toNat * (j + t.shape.dj.toNat * k) < v.length := by
        rw [h, e]; exact pos_lt hin
      refine ⟨hlt, ?_⟩
      rw [get_item_ok hw' hin]
      unfold val
      simp only
      rw [← e, List.getElem?_eq_getElem hlt]
      rfl
  · intro h
    rw [if_pos (by exact h)]
    exact ⟨_, rfl⟩

/-- C05 for a tensor fresh from `Tensor::new`: `new`, `fill_with_vec`, `get_item` give back the
vector, `i` fastest. -/
theorem C05_new_fill (b : Build) (s : TensorShape) (h1 : s.di.toNat * s.dj.toNat < 2 ^ 32)
    (h2 : s.di.toNat * s.dj.toNat * s.dk.toNat < 2 ^ 32) (v : List F)
    (hv : v.length = s.di.toNat * s.dj.toNat * s.dk.toNat) :
    ∃ t t' : Tensor F, Tensor.new b s = .ok t ∧ t.fill_with_vec b v = .ok (.ok (), t') ∧
      t'.get_shape = s ∧
      ∀ i j k : Nat, i < s.di.toNat → j < s.dj.toNat → k < s.dk.toNat →
        ∃ h : i + s.di.toNat * (j + s.dj.toNat * k) < v.length,
          t'.get_item b (ix i j k) = .ok v[i + s.di.toNat * (j + s.dj.toNat * k)] := by
  have hf : s.Fits := ⟨h1, h2⟩
  obtain ⟨t', p1, p2, p3, p4⟩ :=
    (C05_fill_with_vec b (zeros s : Tensor F) (zeros_wf hf) v).1 hv
  exact ⟨zeros s, t', new_ok hf, p1, p3, p4⟩

open Toy in
example : ∃ t' : Tensor Int,
    exT.fill_with_vec .debug [10, 11, 12, 13, 14, 15, 16, 17, 18, 19, 20, 21] = .ok (.ok (), t') ∧
    t'.get_item .debug ⟨0, 1, 1⟩ = .ok 18 := ⟨_, rfl, rfl⟩

open Toy in
example : ∃ e, exT.fill_with_vec .debug [10, 11] = .ok (.error e, exT) := ⟨_, rfl⟩

/-! ## C06 -/

/-- The mutating calls of a history. -/
inductive TOp (F : Type)
  | set_item (x : TensorIndex) (v : F)
  | fill_with_value (v : F)
  | fill_with_vec (v : List F)
  | scale_self (c : F)

/-- perform one call (a returned `Err` is ignored by the caller) -/
def TOp.run (b : Build) (t : Tensor F) : TOp F → Exec (Tensor F)
  | .set_item x v => t.set_item b x v
  | .fill_with_value v => pure (t.fill_with_value v)
  | .fill_with_vec v => do let (_, t') ← t.fill_with_vec b v; pure t'
  | .scale_self c => pure (t.scale_self c)

/-- The specification: a map from indices to values for a tensor of shape `s`. -/
def TOp.spec (s : TensorShape) (m : TensorIndex → F) : TOp F → TensorIndex → F
  | .set_item x v => fun y => if y = x then v else m y
  | .fill_with_value v => fun _ => v
  | .fill_with_vec v => fun y =>
      if h : y.i.toNat + s.di.toNat * (y.j.toNat + s.dj.toNat * y.k.toNat) < v.length then
        (if v.length = s.di.toNat * s.dj.toNat * s.dk.toNat then v[y.i.toNat + s.di.toNat * (y.j.toNat + s.dj.toNat * y.k.toNat)] else m y)
      else m y
  | .scale_self c => fun y => mul (m y) c

/-- C06, one call: the tensor follows the map. -/
theorem C06_step (b : Build) (t : Tensor F) (hw : t.WF) (m : TensorIndex → F)
    (hm : ∀ x, t.shape.Inside x.i.toNat x.j.toNat x.k.toNat → t.get_item b x = .ok (m x)) (op : TOp F) :
    ∃ t', op.run b t = .ok t' ∧ t'.WF ∧ t'.shape = t.shape ∧
      ∀ x, t.shape.Inside x.i.toNat x.j.toNat x.k.toNat → t'.get_item b x = .ok (op.spec t.shape m x) := by
  have hval : ∀ x : TensorIndex, t.shape.Inside x.i.toNat x.j.toNat x.k.toNat →
      val t x.i.toNat x.j.toNat x.k.toNat = m x := by
    intro x hx
    have h := hm x hx
    rw [← ix_eta x, get_item_ok hw hx] at h
    injection h with h
    rw [ix_eta] at h
    exact h
  cases op with
  | set_item x v =>
    by_cases hx : t.shape.Inside x.i.toNat x.j.toNat x.k.toNat
    · obtain ⟨t', h1, h2, h3, h4, h5⟩ := C02_set_get b t hw x v hx
      refine ⟨t', h1, h3, h2, ?_⟩
      intro y hy
      unfold TOp.spec
      simp only
      by_cases e : y = x
      · rw [if_pos e, e, h4]
      · rw [if_neg e]
        obtain ⟨w, hw1, hw2⟩ := h5 y hy e
        rw [hw2, ← hw1, hm y hy]
    · refine ⟨t, ?_, hw, rfl, ?_⟩
      · unfold TOp.run Tensor.set_item
        simp only
        rw [if_neg (fun h => hx ((fits_index_iff _ _).mp h))]; rfl
      · intro y hy
        unfold TOp.spec
        simp only
        rw [if_neg (by intro e; rw [e] at hy; exact hx hy), hm y hy]
  | fill_with_value v =>
    have hw' : (t.fill_with_value v).WF := wf_data hw _ (by simp)
    refine ⟨_, rfl, hw', rfl, ?_⟩
    intro y hy
    have hin := hy
    conv => lhs; rw [← ix_eta y]
    rw [get_item_ok hw' hin]
    exact congrArg _ (val_map hw (fun _ => v) hin)
  | scale_self c =>
    have hw' : (t.scale_self c).WF := wf_data hw _ (by simp)
    refine ⟨_, rfl, hw', rfl, ?_⟩
    intro y hy
    have hin := hy
    conv => lhs; rw [← ix_eta y]
    rw [get_item_ok hw' hin]
    refine congrArg _ ((val_map hw (fun x => mul x c) hin).trans ?_)
    rw [hval y hy]
    rfl
  | fill_with_vec v =>
    obtain ⟨hok, herr⟩ := C05_fill_with_vec b t hw v
    by_cases hl : v.length = t.shape.di.toNat * t.shape.dj.toNat * t.shape.dk.toNat
    · obtain ⟨t', h1, h2, h3, h4⟩ := hok hl
      refine ⟨t', ?_, h2, h3, ?_⟩
      · unfold TOp.run
        simp only [h1]
        rfl
      · intro y hy
        have hin := hy
        obtain ⟨hlt, hg⟩ := h4 _ _ _ hin.1 hin.2.1 hin.2.2
        rw [ix_eta] at hg
        unfold TOp.spec
        simp only
        rw [hg, dif_pos hlt, if_pos hl]
    · obtain ⟨e, he⟩ := herr hl
      refine ⟨t, ?_, hw, rfl, ?_⟩
      · unfold TOp.run
        simp only [he]
        rfl
      · intro y hy
        unfold TOp.spec
        simp only
        rw [hm y hy]
        split <;> rfl

/-- C06: any history of writes on a new tensor behaves like the map, and no call panics. -/
theorem C06_history (b : Build) (s : TensorShape) (h1 : s.di.toNat * s.dj.toNat < 2 ^ 32)
    (h2 : s.di.toNat * s.dj.toNat * s.dk.toNat < 2 ^ 32) (ops : List (TOp F)) :
    ∃ t : Tensor F, (do let t0 ← Tensor.new b s; ops.foldlM (fun t (op : TOp _) => op.run b t) t0) = .ok t ∧
      t.shape = s ∧
      ∀ x, t.get_item b x = .ok (if s.Inside x.i.toNat x.j.toNat x.k.toNat then
        (ops.foldl (fun m (op : TOp _) => op.spec s m) (fun _ => zero)) x else zero) := by
  have hf : s.Fits := ⟨h1, h2⟩
  rw [new_ok hf, ok_bind]
  have key : ∀ (ops : List (TOp F)) (t : Tensor F) (m : TensorIndex → F), t.WF → t.shape = s →
      (∀ x, s.Inside x.i.toNat x.j.toNat x.k.toNat → t.get_item b x = .ok (m x)) →
      ∃ t', ops.foldlM (fun t (op : TOp _) => op.run b t) t = .ok t' ∧ t'.WF ∧ t'.shape = s ∧
        ∀ x, s.Inside x.i.toNat x.j.toNat x.k.toNat →
          t'.get_item b x = .ok ((ops.foldl (fun m (op : TOp _) => op.spec s m) m) x) := by
    intro ops
    induction ops with
    | nil => intro t m hw hs hm; exact ⟨t, rfl, hw, hs, hm⟩
    | cons op ops ih =>
      intro t m hw hs hm
      obtain ⟨t', r1, r2, r3, r4⟩ := C06_step b t hw m (by rw [hs]; exact hm) op
      obtain ⟨t'', q1, q2, q3, q4⟩ := ih t' (op.spec s m) r2 (r3.trans hs)
        (by rw [hs] at r4; exact r4)
      refine ⟨t'', ?_, q2, q3, q4⟩
      rw [List.foldlM_cons, r1, ok_bind, q1]
  obtain ⟨t', r1, r2, r3, r4⟩ := key ops (zeros s) (fun _ => zero) (zeros_wf hf) rfl (by
    intro x hx
    rw [← ix_eta x, get_item_ok (zeros_wf hf) hx, val_zeros])
  refine ⟨t', r1, r3, ?_⟩
  intro x
  by_cases hx : s.Inside x.i.toNat x.j.toNat x.k.toNat
  · rw [if_pos hx, r4 x hx]
  · rw [if_neg hx]
    unfold Tensor.get_item
    rw [r3, if_neg (fun h => hx ((fits_index_iff _ _).mp h))]
    rfl

open Toy in
example : ∃ t : Tensor Int,
    (do let t0 ← Tensor.new .debug ⟨2, 2, 1⟩
        [TOp.fill_with_vec [1, 2, 3, 4], .set_item ⟨1, 0, 0⟩ 9, .scale_self 2,
          .set_item ⟨5, 0, 0⟩ 7].foldlM (fun t (op : TOp _) => op.run .debug t) t0) = .ok t ∧
    t.data = [2, 18, 6, 8] := ⟨_, rfl, rfl⟩

end Rusty
