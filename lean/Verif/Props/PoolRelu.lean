import Verif.Lemmas.PoolRelu
import Verif.Lemmas.PoolTwice
import Verif.Props.Pooling

/-! # C103: max pooling and functions applied to every entry -/

namespace Rusty

open F32Ops Spec

variable {F : Type} [F32Ops F]

/-- the windows of an image whose entries are those of another one with `f` applied -/
private theorem window_map {image mask result : TensorShape} {x x' : Tensor F} {s : UInt32} (f : F → F)
    (hx : x.shape = image) (ht : windowsTile image mask s result) (hk : result.dk = image.dk)
    (hv : ∀ i j k, x.shape.Inside i j k → val x' i j k = f (val x i j k)) {i j k : Nat}
    (hin : result.Inside i j k) :
    window x' mask s.toNat i j k = (window x mask s.toNat i j k).map f := by
  unfold window
  rw [List.map_map]
  refine List.map_congr_left fun p hp => ?_
  exact hv _ _ _ (by rw [hx]; exact window_inside ht hk hin (mem_idx2.mp hp).1 (mem_idx2.mp hp).2)

/-- C103: a function that keeps all comparisons (and negative infinity) can be applied to the entries before or after
max pooling. -/
theorem C103_order (b : Build) (f : F → F) (hf : ∀ x y, gt (f x) (f y) = gt x y) (h0 : f negInf = negInf)
    (image image' : Tensor F) (mask : TensorShape) (s : UInt32) (result : Tensor F) (hi : image.WF) (hi' : image'.WF)
    (hr : result.WF) (hs : s ≠ 0) (hsh : image'.shape = image.shape) (hk : result.shape.dk = image.shape.dk)
    (ht : windowsTile image.shape mask s result.shape)
    (hv : ∀ i j k, image.shape.Inside i j k → val image' i j k = f (val image i j k)) :
    ∃ r r', Tensor.max_pool b image mask s result = .ok r ∧ Tensor.max_pool b image' mask s result = .ok r' ∧
      ∀ i j k, result.shape.Inside i j k → ∃ v, r.get_item b (ix i j k) = .ok v ∧
        r'.get_item b (ix i j k) = .ok (f v) := by
  have hs0 : s.toNat ≠ 0 := fun h => hs (u32_ext h)
  obtain ⟨r, q1, q2, q3, q4⟩ := max_pool_ok (b := b) hi hr hs0 hk ht
  obtain ⟨r', t1, t2, t3, t4⟩ := max_pool_ok (b := b) (ma := mask) hi' hr hs0 (by rw [hsh]; exact hk)
    (by rw [hsh]; exact ht)
  refine ⟨r, r', q1, t1, fun i j k hin => ⟨_, get_item_ok q2 (q3 ▸ hin), ?_⟩⟩
  rw [get_item_ok t2 (t3 ▸ hin), t4 i j k hin, q4 i j k hin,
    window_map f rfl ht hk hv hin, runMax_map f hf h0]

/-- C103 for `relu`, for any floats in which only numbers are comparable: pooling the image and then cutting off what
is not positive gives the same tensor as the other way round. -/
theorem C103_relu_general [F32Order F] (hnum : ∀ x y : F, gt x y = true → feq x x = true ∧ feq y y = true)
    (hz : gt (zero : F) negInf = true) (b : Build) (image m1 : Tensor F) (mask : TensorShape) (s : UInt32)
    (result m2 : Tensor F) (hi : image.WF) (h1 : m1.WF) (hr : result.WF) (h2 : m2.WF) (hs : s ≠ 0)
    (hd : mask.di ≠ 0) (hj : mask.dj ≠ 0) (hs1 : m1.shape = image.shape) (hs2 : m2.shape = result.shape)
    (hk : result.shape.dk = image.shape.dk) (ht : windowsTile image.shape mask s result.shape) :
    ∃ image' m1' pooled m2' y, Tensor.relu_self_and_store_mask image m1 = (.ok (), image', m1') ∧
      Tensor.max_pool b image' mask s result = .ok y ∧
      Tensor.max_pool b image mask s result = .ok pooled ∧
      Tensor.relu_self_and_store_mask pooled m2 = (.ok (), y, m2') := by
  have hs0 : s.toNat ≠ 0 := fun h => hs (u32_ext h)
  obtain ⟨im, m1', a1, a2, _, a4, _, a6⟩ := relu_mask_ok hi h1 hs1.symm
  obtain ⟨p, q1, q2, q3, q4⟩ := max_pool_ok (b := b) hi hr hs0 hk ht
  obtain ⟨y, t1, t2, t3, t4⟩ := max_pool_ok (b := b) (ma := mask) a2 hr hs0 (by rw [a4]; exact hk)
    (by rw [a4]; exact ht)
  obtain ⟨y', m2', c1, c2, _, c4, _, c6⟩ := relu_mask_ok q2 h2 (q3.trans hs2.symm)
  have e : y' = y := by
    refine tensor_ext c2 t2 (c4.trans (q3.trans t3.symm)) fun i j k hin => ?_
    have hin : result.shape.Inside i j k := by rw [← q3, ← c4]; exact hin
    rw [(c6 i j k (by rw [q3]; exact hin)).1, q4 i j k hin, t4 i j k hin,
      window_map relu rfl ht hk (fun i j k h => (a6 i j k h).1) hin, runMax_relu hnum hz]
    intro hw
    have := congrArg List.length hw
    have hm : (0, 0) ∈ idx2 mask.di.toNat mask.dj.toNat :=
      mem_idx2.mpr ⟨Nat.pos_of_ne_zero fun h => hd (u32_ext h), Nat.pos_of_ne_zero fun h => hj (u32_ext h)⟩
    unfold window at this
    rw [List.length_map] at this
    rw [List.length_eq_zero_iff.mp this] at hm
    cases hm
  subst e
  exact ⟨im, m1', p, m2', y', a1, t1, q1, c1⟩

open F32 in
/-- C103 for `relu` in f32, for all entries, NaN and infinities included: the two orders give the same bits. -/
theorem C103_relu [Libm] (b : Build) (image m1 : Tensor F32) (mask : TensorShape) (s : UInt32)
    (result m2 : Tensor F32) (hi : image.WF) (h1 : m1.WF) (hr : result.WF) (h2 : m2.WF) (hs : s ≠ 0)
    (hd : mask.di ≠ 0) (hj : mask.dj ≠ 0) (hs1 : m1.shape = image.shape) (hs2 : m2.shape = result.shape)
    (hk : result.shape.dk = image.shape.dk) (ht : windowsTile image.shape mask s result.shape) :
    ∃ image' m1' pooled m2' y, Tensor.relu_self_and_store_mask image m1 = (.ok (), image', m1') ∧
      Tensor.max_pool b image' mask s result = .ok y ∧
      Tensor.max_pool b image mask s result = .ok pooled ∧
      Tensor.relu_self_and_store_mask pooled m2 = (.ok (), y, m2') :=
  C103_relu_general gt_num (show F32.gt (mk' false 0) (mk' true infCode) = true by decide) b image m1 mask s result m2 hi h1 hr h2 hs hd hj hs1 hs2 hk ht

open F32 in
/-- C103: a mask of one entry with stride 1 copies the image, except that NaN becomes negative infinity. -/
theorem C103_copy [Libm] (b : Build) (image result : Tensor F32) (dk : UInt32) (hi : image.WF) (hr : result.WF)
    (hsh : result.shape = image.shape) (h1 : image.shape.di ≠ 0) (h2 : image.shape.dj ≠ 0) :
    ∃ r, Tensor.max_pool b image ⟨1, 1, dk⟩ 1 result = .ok r ∧ ∀ i j k, image.shape.Inside i j k →
      ∃ v w, image.get_item b (ix i j k) = .ok v ∧ r.get_item b (ix i j k) = .ok w ∧
        (v.isNaN = false → w = v) ∧ (v.isNaN = true → w = ⟨0xff800000⟩) := by
  have pos : ∀ {x : UInt32}, x ≠ 0 → 1 ≤ x.toNat := fun h => Nat.pos_of_ne_zero fun h' => h (u32_ext h')
  have ht : windowsTile image.shape ⟨1, 1, dk⟩ 1 result.shape := by
    rw [hsh]
    have p1 := pos h1
    have p2 := pos h2
    refine ⟨⟨p1, ?_⟩, ⟨p2, ?_⟩⟩
    · change (image.shape.di.toNat - 1) * 1 + 1 = _; omega
    · change (image.shape.dj.toNat - 1) * 1 + 1 = _; omega
  obtain ⟨r, q1, q2, q3, q4⟩ := max_pool_ok (b := b) hi hr (by decide) (by rw [hsh]) ht
  refine ⟨r, q1, fun i j k hin => ⟨_, _, get_item_ok hi hin, get_item_ok q2 (by rw [q3, hsh]; exact hin), ?_⟩⟩
  rw [q4 i j k (by rw [hsh]; exact hin)]
  have hw : window image ⟨1, 1, dk⟩ (1 : UInt32).toNat i j k = [val image i j k] := by
    change [val image (i * 1 + 0) (j * 1 + 0) k] = _
    rw [Nat.mul_one, Nat.mul_one, Nat.add_zero, Nat.add_zero]
  rw [hw]
  generalize val image i j k = v
  change (v.isNaN = false → (if F32.gt v ⟨0xff800000⟩ then v else ⟨0xff800000⟩) = v) ∧
    (v.isNaN = true → (if F32.gt v ⟨0xff800000⟩ then v else ⟨0xff800000⟩) = ⟨0xff800000⟩)
  constructor
  · intro hn
    split
    · rfl
    · next hg =>
      unfold F32.gt at hg
      rw [hn, show (⟨0xff800000⟩ : F32).isNaN = false by decide] at hg
      simp only [Bool.not_false, Bool.true_and, decide_eq_true_eq] at hg
      have hk : (⟨0xff800000⟩ : F32).key = -(infCode : Int) := by decide
      rw [hk] at hg
      have hc : v.code ≤ infCode := by unfold isNaN at hn; simpa using hn
      have hi' : 0 < infCode := by decide
      have hs : v.sign = true ∧ v.code = infCode := by
        unfold key at hg
        cases hs : v.sign <;> rw [hs] at hg <;> simp at hg <;> constructor <;> first | rfl | omega
      rw [← mk'_eta v, hs.1, hs.2]
      decide
  · intro hn
    unfold F32.gt
    rw [hn]
    rfl

/-! ## Examples -/

open Toy in
/-- windows of two entries, one of them without a positive entry: both orders give `[3, 0]`, while the pooled image
is `[3, -1]` -/
example : let x : Tensor Int := ⟨⟨1, 4, 4⟩, ⟨4, 1, 1⟩, [-2, 3, -5, -1]⟩
    let r : Tensor Int := zeros ⟨2, 1, 1⟩
    (∃ p, Tensor.max_pool .debug x ⟨2, 1, 1⟩ 2 r = .ok p ∧ p.data = [3, -1] ∧
      (Tensor.relu_self_and_store_mask p r).2.1.data = [3, 0]) ∧
    ∃ y, Tensor.max_pool .debug (Tensor.relu_self_and_store_mask x (zeros ⟨4, 1, 1⟩)).2.1 ⟨2, 1, 1⟩ 2 r = .ok y ∧
      y.data = [3, 0] := ⟨⟨_, rfl, rfl, rfl⟩, _, rfl, rfl⟩

/-- the conditions on the shapes hold there -/
example : windowsTile ⟨4, 1, 1⟩ ⟨2, 1, 1⟩ 2 ⟨2, 1, 1⟩ := by unfold windowsTile; decide

open F32 in
/-- a function that `C103_order` covers: the smallest change of representation, from one zero to the other -/
example [Libm] : ∃ f : F32 → F32, (∀ x y, F32.gt (f x) (f y) = F32.gt x y) ∧ f (mk' true infCode) = mk' true infCode ∧
    f (mk' true 0) ≠ mk' true 0 := by
  have g : ∀ x : F32, (if x = mk' true 0 then mk' false 0 else x).isNaN = x.isNaN ∧
      (if x = mk' true 0 then mk' false 0 else x).key = x.key := by
    intro x
    split
    · next h => subst h; decide
    · exact ⟨rfl, rfl⟩
  refine ⟨fun x => if x = mk' true 0 then mk' false 0 else x, fun x y => ?_, by decide, by decide⟩
  unfold F32.gt
  rw [(g x).1, (g x).2, (g y).1, (g y).2]

end Rusty
