import Verif.Lemmas.PoolTwice
import Verif.Lemmas.Real
import Verif.Spec.PoolTwice
import Verif.Props.Pooling

/-! # C95: two max pooling steps are one step with a larger mask -/

namespace Rusty

open F32Ops Spec

variable {F : Type} [F32Ops F]

private theorem u32_pos {x : UInt32} (h : x ≠ 0) : 1 ≤ x.toNat :=
  Nat.pos_of_ne_zero fun h' => h (u32_ext h')

/-- C95: the combined step tiles the image whenever the two steps do, with as many windows as the second step has. -/
theorem C95_geometry (m1 m2 m : TensorShape) (s1 s2 s : UInt32) (hc : Combined m1 s1 m2 s2 m s)
    (image middle result : TensorShape) (h1 : windowsTile image m1 s1 middle)
    (h2 : windowsTile middle m2 s2 result) : windowsTile image m s result := by
  unfold windowsTile
  rw [hc.maski, hc.maskj, hc.stride]
  exact ⟨tiles_twice (u32_pos hc.mask2i) h1.1 h2.1, tiles_twice (u32_pos hc.mask2j) h1.2 h2.2⟩

/-- C95: and it tiles the image with no other number of windows. -/
theorem C95_unique (image mask r r' : TensorShape) (s : UInt32) (hs : s ≠ 0) (h : windowsTile image mask s r)
    (h' : windowsTile image mask s r') : r.di = r'.di ∧ r.dj = r'.dj := by
  have key : ∀ {d w n n' : Nat}, tiles d w s.toNat n → tiles d w s.toNat n' → n = n' := by
    rintro d w n n' ⟨a1, a2⟩ ⟨b1, b2⟩
    have : (n - 1) * s.toNat = (n' - 1) * s.toNat := by omega
    have := Nat.eq_of_mul_eq_mul_right (u32_pos hs) this
    omega
  exact ⟨u32_ext (key h.1 h'.1), u32_ext (key h.2 h'.2)⟩

/-- the two calls and the one call, for any floats in which only numbers are comparable -/
theorem C95_tensors [F32Order F] (hnum : ∀ x y : F, gt x y = true → feq x x = true ∧ feq y y = true) (b : Build)
    (m1 m2 m : TensorShape) (s1 s2 s : UInt32) (hc : Combined m1 s1 m2 s2 m s)
    (image r1 r2 r : Tensor F) (hi : image.WF) (hr1 : r1.WF) (hr2 : r2.WF) (hr : r.WF)
    (hk1 : r1.shape.dk = image.shape.dk) (hk2 : r2.shape.dk = r1.shape.dk)
    (h1 : windowsTile image.shape m1 s1 r1.shape) (h2 : windowsTile r1.shape m2 s2 r2.shape)
    (hs : r.shape = r2.shape) :
    ∃ a c d, Tensor.max_pool b image m1 s1 r1 = .ok a ∧ Tensor.max_pool b a m2 s2 r2 = .ok c ∧
      Tensor.max_pool b image m s r = .ok d ∧ c.WF ∧ d.WF ∧ c.shape = d.shape ∧ d.shape = r.shape ∧
      ∀ i j k, r.shape.Inside i j k → ∃ u v, c.get_item b (ix i j k) = .ok u ∧
        d.get_item b (ix i j k) = .ok v ∧ gt u v = false ∧ gt v u = false ∧
        (∃ w, u = maxOf w) ∧ ∃ w, v = maxOf w := by
  have nz : ∀ {x : UInt32}, x ≠ 0 → x.toNat ≠ 0 := fun h h' => h (u32_ext h')
  have hs0 : s.toNat ≠ 0 := by
    rw [hc.stride]
    exact Nat.mul_ne_zero (nz hc.stride1) (nz hc.stride2)
  obtain ⟨a, p1, p2, p3, p4⟩ := max_pool_ok (b := b) hi hr1 (nz hc.stride1) hk1 h1
  obtain ⟨c, q1, q2, q3, q4⟩ := max_pool_ok (b := b) p2 hr2 (nz hc.stride2) (by rw [p3]; exact hk2)
    (by rw [p3]; exact h2)
  obtain ⟨d, t1, t2, t3, t4⟩ := max_pool_ok (b := b) hi hr hs0 (by rw [hs, hk2, hk1])
    (by rw [hs]; exact C95_geometry _ _ _ _ _ _ hc _ _ _ h1 h2)
  refine ⟨a, c, d, p1, q1, t1, q2, t2, by rw [q3, t3, hs], t3, fun i j k hin => ?_⟩
  have hin2 : r2.shape.Inside i j k := hs ▸ hin
  refine ⟨_, _, get_item_ok q2 (by rw [q3]; exact hin2), get_item_ok t2 (by rw [t3]; exact hin), ?_⟩
  rw [q4 i j k hin2, t4 i j k hin, hc.stride]
  have := maxOf_window_twice hnum (x := image) (y := a) (i := i) (j := j) (k := k) (s2 := s2.toNat)
    (u32_pos hc.stride1) (u32_pos hc.mask2i) (u32_pos hc.mask2j) hc.coversi hc.coversj hc.maski hc.maskj
    fun p hp => p4 _ _ _ (window_inside h2 hk2 hin2 (mem_idx2.mp hp).1 (mem_idx2.mp hp).2)
  exact ⟨this.1, this.2, ⟨_, rfl⟩, _, rfl⟩

open F32 in
/-- C95: in single precision, NaN and infinite entries included, `max_pool` twice gives the numbers of `max_pool` once
with the combined mask and stride (a zero may have the other sign). -/
theorem C95_max_pool [Libm] (b : Build)
    (m1 m2 m : TensorShape) (s1 s2 s : UInt32) (hc : Combined m1 s1 m2 s2 m s)
    (image r1 r2 r : Tensor F32) (hi : image.WF) (hr1 : r1.WF) (hr2 : r2.WF) (hr : r.WF)
    (hk1 : r1.shape.dk = image.shape.dk) (hk2 : r2.shape.dk = r1.shape.dk)
    (h1 : windowsTile image.shape m1 s1 r1.shape) (h2 : windowsTile r1.shape m2 s2 r2.shape)
    (hs : r.shape = r2.shape) :
    ∃ a c d, Tensor.max_pool b image m1 s1 r1 = .ok a ∧ Tensor.max_pool b a m2 s2 r2 = .ok c ∧
      Tensor.max_pool b image m s r = .ok d ∧ c.WF ∧ d.WF ∧ c.shape = d.shape ∧ d.shape = r.shape ∧
      ∀ i j k, r.shape.Inside i j k → ∃ u v, c.get_item b (ix i j k) = .ok u ∧
        d.get_item b (ix i j k) = .ok v ∧ SameNumber u v := by
  obtain ⟨a, c, d, p1, p2, p3, p4, p5, p6, p7, p8⟩ := C95_tensors (F := F32) gt_num b m1 m2 m s1 s2 s hc
    image r1 r2 r hi hr1 hr2 hr hk1 hk2 h1 h2 hs
  refine ⟨a, c, d, p1, p2, p3, p4, p5, p6, p7, fun i j k hin => ?_⟩
  obtain ⟨u, v, q1, q2, q3, q4, ⟨w, rfl⟩, w', rfl⟩ := p8 i j k hin
  exact ⟨_, _, q1, q2, same_of_gt (maxOf_notNaN _) (maxOf_notNaN _) q3 q4⟩

open Exact in
/-- C95: in exact arithmetic the two results are the same. -/
theorem C95_exact (b : Build)
    (m1 m2 m : TensorShape) (s1 s2 s : UInt32) (hc : Combined m1 s1 m2 s2 m s)
    (image r1 r2 r : Tensor ℝ) (hi : image.WF) (hr1 : r1.WF) (hr2 : r2.WF) (hr : r.WF)
    (hk1 : r1.shape.dk = image.shape.dk) (hk2 : r2.shape.dk = r1.shape.dk)
    (h1 : windowsTile image.shape m1 s1 r1.shape) (h2 : windowsTile r1.shape m2 s2 r2.shape)
    (hs : r.shape = r2.shape) :
    ∃ a c, Tensor.max_pool b image m1 s1 r1 = .ok a ∧ Tensor.max_pool b a m2 s2 r2 = .ok c ∧
      Tensor.max_pool b image m s r = .ok c := by
  have := realOrder
  obtain ⟨a, c, d, p1, p2, p3, p4, p5, p6, p7, p8⟩ := C95_tensors (F := ℝ) (by
      intro x y _
      simp [F32Ops.feq]) b m1 m2 m s1 s2 s hc
    image r1 r2 r hi hr1 hr2 hr hk1 hk2 h1 h2 hs
  have : c = d := tensor_ext p4 p5 p6 fun i j k hin => by
    obtain ⟨u, v, q1, q2, q3, q4, _⟩ := p8 i j k (by rw [← p7, ← p6]; exact hin)
    simp only [F32Ops.gt, decide_eq_false_iff_not, not_lt] at q3 q4
    rw [get_item_ok p4 hin] at q1
    rw [get_item_ok p5 (p6 ▸ hin)] at q2
    exact (Except.ok.inj q1).trans ((le_antisymm q3 q4).trans (Except.ok.inj q2).symm)
  exact ⟨a, c, p1, p2, this ▸ p3⟩

open F32 in
/-- C95: the same for layers, in any modes: a layer with the combined mask and stride has the output shape of the second
layer and gives the numbers that the two layers give one after the other. -/
theorem C95_layers [Libm] (b : Build) (l1 l2 l : MaxPoolLayer) (h1 : l1.Ok) (h2 : l2.Ok) (h : l.Ok)
    (hc : Combined l1.mask_shape l1.stride l2.mask_shape l2.stride l.mask_shape l.stride)
    (hi : l.input_shape = l1.input_shape) (hm : l2.input_shape = l1.output_shape) :
    l.output_shape = l2.output_shape ∧
    ∀ x o1 o2 o : Tensor F32, x.WF → x.shape = l1.input_shape → o1.WF → o1.shape = l1.output_shape →
      o2.WF → o2.shape = l2.output_shape → o.WF → o.shape = l.output_shape →
      ∃ l1' l2' l' y z v, l1.forward b x o1 = .ok (.ok (), l1', y) ∧ l2.forward b y o2 = .ok (.ok (), l2', z) ∧
        l.forward b x o = .ok (.ok (), l', v) ∧ z.shape = v.shape ∧
        ∀ i j k, l.output_shape.Inside i j k → ∃ u w, z.get_item b (ix i j k) = .ok u ∧
          v.get_item b (ix i j k) = .ok w ∧ SameNumber u w := by
  have t2 : windowsTile l1.output_shape l2.mask_shape l2.stride l2.output_shape := hm ▸ h2.tiles
  have hk2 : l2.output_shape.dk = l1.output_shape.dk := by rw [h2.depth, hm]
  have hs : l.output_shape = l2.output_shape := by
    obtain ⟨e1, e2⟩ := C95_unique _ _ _ _ _ h.stride (hi ▸ h.tiles)
      (C95_geometry _ _ _ _ _ _ hc _ _ _ h1.tiles t2)
    have e3 : l.output_shape.dk = l2.output_shape.dk := by
      rw [h.depth, hi, h2.depth, hm, h1.depth]
    cases ha : l.output_shape
    cases hb : l2.output_shape
    rw [ha, hb] at e1 e2 e3
    simp only at e1 e2 e3
    rw [e1, e2, e3]
  refine ⟨hs, fun x o1 o2 o hx hxs w1 s1 w2 s2 w s => ?_⟩
  obtain ⟨l1', y, p1, p2, p3, p4⟩ := mp_forward_ok (b := b) h1 hx hxs w1 s1
  obtain ⟨l2', z, q1, q2, q3, q4⟩ := mp_forward_ok (b := b) h2 p2 (p3.trans hm.symm) w2 s2
  obtain ⟨l', v, r1, r2, r3, r4⟩ := mp_forward_ok (b := b) h hx (hxs.trans hi.symm) w s
  refine ⟨l1', l2', l', y, z, v, p1, q1, r1, by rw [q3, r3, hs], fun i j k hin => ?_⟩
  have hin2 : l2.output_shape.Inside i j k := hs ▸ hin
  refine ⟨_, _, get_item_ok q2 (by rw [q3]; exact hin2), get_item_ok r2 (by rw [r3]; exact hin), ?_⟩
  rw [q4 i j k hin2, r4 i j k hin, hc.stride]
  have := maxOf_window_twice (F := F32) gt_num (x := x) (y := y) (i := i) (j := j) (k := k) (s2 := l2.stride.toNat)
    (u32_pos hc.stride1) (u32_pos hc.mask2i) (u32_pos hc.mask2j) hc.coversi hc.coversj hc.maski hc.maskj
    fun p hp => p4 _ _ _ (window_inside t2 hk2 hin2 (mem_idx2.mp hp).1 (mem_idx2.mp hp).2)
  exact same_of_gt (maxOf_notNaN _) (maxOf_notNaN _) this.1 this.2

/-! The hypotheses can be met: a 4x4 image, 2x2 windows that overlap, then 2x2 windows with stride 1 - together 3x3
windows.  If the first windows leave gaps the combined step sees more than the two steps do. -/

example : Combined ⟨2, 2, 1⟩ 1 ⟨2, 2, 1⟩ 1 ⟨3, 3, 1⟩ 1 ∧ windowsTile ⟨4, 4, 1⟩ ⟨2, 2, 1⟩ 1 ⟨3, 3, 1⟩ ∧
    windowsTile ⟨3, 3, 1⟩ ⟨2, 2, 1⟩ 1 ⟨2, 2, 1⟩ ∧ windowsTile ⟨4, 4, 1⟩ ⟨3, 3, 1⟩ 1 ⟨2, 2, 1⟩ :=
  ⟨⟨by decide, by decide, by decide, by decide, by decide, by decide, by decide, by decide, by decide⟩,
    by decide, by decide, by decide⟩

example : Combined ⟨2, 2, 1⟩ 2 ⟨3, 3, 1⟩ 3 ⟨6, 6, 1⟩ 6 :=
  ⟨by decide, by decide, by decide, by decide, by decide, by decide, by decide, by decide, by decide⟩

/-- a 4x4 image -/
def exTwice : Tensor Int := ⟨⟨1, 4, 16⟩, ⟨4, 4, 1⟩, [3, 8, 1, 0, 2, 5, 7, 4, 9, 6, 1, 1, 0, 2, 8, 3]⟩

open Toy in
example : ∃ a c d, Tensor.max_pool .debug exTwice ⟨2, 2, 1⟩ 1 (zeros ⟨3, 3, 1⟩) = .ok a ∧
    Tensor.max_pool .debug a ⟨2, 2, 1⟩ 1 (zeros ⟨2, 2, 1⟩) = .ok c ∧
    Tensor.max_pool .debug exTwice ⟨3, 3, 1⟩ 1 (zeros ⟨2, 2, 1⟩) = .ok d ∧
    c.data = [9, 8, 9, 8] ∧ d.data = [9, 8, 9, 8] :=
  ⟨_, _, _, rfl, rfl, rfl, rfl, rfl⟩

/-- two lines of three -/
def exGap : Tensor Int := ⟨⟨1, 3, 6⟩, ⟨3, 2, 1⟩, [1, 9, 2, 0, 0, 0]⟩

open Toy in
/-- `Combined.coversi` is needed: the windows of the first step leave out the 9 -/
example : ∃ a c d, Tensor.max_pool .debug exGap ⟨1, 2, 1⟩ 2 (zeros ⟨2, 1, 1⟩) = .ok a ∧
    Tensor.max_pool .debug a ⟨2, 1, 1⟩ 1 (zeros ⟨1, 1, 1⟩) = .ok c ∧
    Tensor.max_pool .debug exGap ⟨3, 2, 1⟩ 2 (zeros ⟨1, 1, 1⟩) = .ok d ∧ c.data = [2] ∧ d.data = [9] :=
  ⟨_, _, _, rfl, rfl, rfl, rfl, rfl⟩

end Rusty
