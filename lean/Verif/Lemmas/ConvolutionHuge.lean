import Verif.Lemmas.ConvolutionBackward

/-!
# Convolution gradients of huge images

The index arithmetic of `convolution_backprop_outgoing_gradient` goes through `i32`
(`/repo/src/tensor/operations/convolution.rs` lines 218 and 223).  Beyond 2^31 rows it overflows.
-/

namespace Rusty

open F32Ops Spec

/-- the computation panics -/
def Fails {α : Type} (x : Exec α) : Prop := ∃ e, x = .error e

theorem fails_left {α β : Type} {x : Exec α} {f : α → Exec β} (h : Fails x) : Fails (x >>= f) := by
  obtain ⟨e, rfl⟩ := h
  exact ⟨e, rfl⟩

theorem fails_right {α β : Type} {x : Exec α} {f : α → Exec β} (h : ∀ a, Fails (f a)) :
    Fails (x >>= f) := by
  cases x with
  | error e => exact ⟨e, rfl⟩
  | ok a => exact h a

theorem fails_foldlM {σ α : Type} {f : σ → α → Exec σ} {x : α} (h : ∀ s, Fails (f s x)) :
    ∀ (l : List α) (s : σ), x ∈ l → Fails (l.foldlM f s) := by
  intro l
  induction l with
  | nil => intro s hx; cases hx
  | cons y l ih =>
    intro s hx
    rw [List.foldlM_cons]
    rcases List.mem_cons.mp hx with rfl | hx
    · exact fails_left (h s)
    · exact fails_right fun s' => ih s' hx

/-- a loop one of whose rounds panics in every state panics -/
theorem fails_forRange {σ : Type} {hi : UInt32} {s : σ} {body : UInt32 → σ → Exec σ} {i : Nat}
    (hlt : i < hi.toNat) (h : ∀ s, Fails (body (UInt32.ofNat i) s)) :
    Fails (forRange 0 hi s body) := by
  rw [forRange_zero]
  exact fails_foldlM h _ _ (List.mem_range.mpr hlt)

/-- along an axis of `d` rows and a kernel of `kd` rows some row overflows the `i32` arithmetic -/
theorem start_overflows {d kd : UInt32} (hle : kd.toNat ≤ d.toNat)
    (h : 2 ^ 31 ≤ kd.toNat ∨ 2 ^ 31 < d.toNat ∧ kd ≠ 0) :
    ∃ a, a < d.toNat ∧ ∀ s, backprop_start .debug (UInt32.ofNat a) kd s = .error .overflow := by
  have hd := u32_lt d
  have hk := u32_lt kd
  have out : ∀ z : Int, ¬ (-2 ^ 31 ≤ z ∧ z < 2 ^ 31) → chkI32 .debug z = .error .overflow := by
    intro z hz
    unfold chkI32
    rw [if_neg hz]
  by_cases h1 : 2 ^ 31 ≤ kd.toNat
  · refine ⟨kd.toNat - 2 ^ 31, by omega, fun s => ?_⟩
    unfold backprop_start
    rw [out]
    · rfl
    · unfold asI32
      rw [toNat_ofNat_lt (by omega), if_pos (by omega), if_neg (by omega)]
      omega
  · have h2 : kd.toNat ≠ 0 := fun e => (h.resolve_left h1).2 (u32_ext e)
    refine ⟨2 ^ 31, (h.resolve_left h1).1, fun s => ?_⟩
    unfold backprop_start
    rw [out]
    · rfl
    · unfold asI32
      rw [toNat_ofNat_lt (by omega), if_neg (by omega), if_pos (by omega)]
      omega

variable {F : Type} [F32Ops F]

/-- In a debug build the call panics when one axis has more than 2^31 rows, or a kernel at least
2^31. -/
theorem outgoing_huge {incoming outgoing : Tensor F} {kernels : List (Tensor F)} {s : UInt32}
    (hs : s ≠ 0) (hK : KernelsOk outgoing.shape incoming.shape s kernels)
    (hi : outgoing.shape.di ≠ 0) (hj : outgoing.shape.dj ≠ 0) (hk : outgoing.shape.dk ≠ 0)
    (h : ∃ k, ∃ h : k < kernels.length,
      (2 ^ 31 ≤ kernels[k].shape.di.toNat ∨
        2 ^ 31 < outgoing.shape.di.toNat ∧ kernels[k].shape.di ≠ 0) ∨
      (2 ^ 31 ≤ kernels[k].shape.dj.toNat ∨
        2 ^ 31 < outgoing.shape.dj.toNat ∧ kernels[k].shape.dj ≠ 0)) :
    Fails (convolution_backprop_outgoing_gradient .debug incoming kernels s outgoing) := by
  obtain ⟨k, hk1, h⟩ := h
  have nz : ∀ x : UInt32, x ≠ 0 → 0 < x.toNat := fun x h =>
    Nat.pos_of_ne_zero fun e => h (u32_ext e)
  have hk2 : k < incoming.shape.dk.toNat := by rw [← hK.len]; exact hk1
  have k32 : (UInt32.ofNat k).toNat = k := toNat_ofNat_lt (Nat.lt_trans hk2 (u32_lt _))
  obtain ⟨f1, ⟨f2, f3⟩, f4⟩ := hK.fits k hk1
  have lei := tiles_le f2
  have lej := tiles_le f3
  unfold convolution_backprop_outgoing_gradient
  rw [checks_ok (fun e => hs (u32_ext e)) hK, ok_bind]
  simp only
  rw [if_neg (by rw [hK.len, ofNat_toNat_u32]; exact fun h => h rfl)]
  refine fails_left (fails_forRange (i := 0) (nz _ hk) fun r => ?_)
  rcases h with h | h
  · obtain ⟨a, ha, e⟩ := start_overflows lei h
    refine fails_forRange (i := 0) (nz _ hj) fun r => fails_forRange (i := a) ha fun r =>
      fails_left (fails_forRange (i := k) hk2 fun acc => ?_)
    rw [k32, vget_ok hk1, ok_bind, e]
    exact ⟨_, rfl⟩
  · obtain ⟨a, ha, e⟩ := start_overflows lej h
    refine fails_forRange (i := a) ha fun r => fails_forRange (i := 0) (nz _ hi) fun r =>
      fails_left (fails_forRange (i := k) hk2 fun acc => ?_)
    rw [k32, vget_ok hk1, ok_bind]
    refine fails_right fun _ => fails_right fun _ => ?_
    rw [e]
    exact ⟨_, rfl⟩

/-! ## Release builds

The `i32` arithmetic wraps around there, and comes out right for stride 1 as long as the kernel has at
most 2^31 rows and the image fewer than 2^31 more. -/

theorem start_release {a kd : UInt32} (hk : kd.toNat ≤ 2 ^ 31)
    (ha : a.toNat + 1 < 2 ^ 31 + kd.toNat) :
    backprop_start .release a kd 1 = .ok (UInt32.ofNat (startN a.toNat kd.toNat 1)) := by
  have hl := u32_lt a
  have e1 : chkI32 .release (asI32 a - asI32 kd) = .ok ((a.toNat : Int) - (kd.toNat : Int)) := by
    unfold chkI32 wrapI32
    have ea : asI32 a = a.toNat ∨ 2 ^ 31 ≤ a.toNat ∧ asI32 a = (a.toNat : Int) - 2 ^ 32 := by
      unfold asI32
      split
      · exact .inl rfl
      · exact .inr ⟨by omega, rfl⟩
    have ek : kd.toNat < 2 ^ 31 ∧ asI32 kd = kd.toNat ∨
        kd.toNat = 2 ^ 31 ∧ asI32 kd = (kd.toNat : Int) - 2 ^ 32 := by
      unfold asI32
      split
      · exact .inl ⟨by omega, rfl⟩
      · exact .inr ⟨by omega, rfl⟩
    split
    · simp only [Except.ok.injEq]
      omega
    · simp only [Except.ok.injEq]
      omega
  have one : asI32 1 = 1 := by decide
  unfold backprop_start
  rw [e1, ok_bind, one]
  unfold divI32 chkI32
  rw [if_neg (by omega), if_neg (by omega), ok_bind, Int.tdiv_one, if_pos (by omega), ok_bind]
  have e2 : max ((a.toNat : Int) - (kd.toNat : Int) + 1) 0 =
      ((startN a.toNat kd.toNat 1 : Nat) : Int) := by
    unfold startN
    rw [Nat.div_one]
    split
    · omega
    · split <;> omega
  rw [e2, i32AsU32_nat]
  · rfl
  · unfold startN
    rw [Nat.div_one]
    split
    · omega
    · split <;> omega

theorem axis_bounds_release {d kd : UInt32} (hk : kd.toNat ≤ 2 ^ 31)
    (hd : d.toNat < 2 ^ 31 + kd.toNat) : AxisBounds .release d kd 1 := by
  intro a ha
  have hd' := u32_lt d
  have a32 : (UInt32.ofNat a).toNat = a := toNat_ofNat_lt (by omega)
  have one : (1 : UInt32).toNat = 1 := rfl
  have h1 := start_release (a := UInt32.ofNat a) hk (by omega)
  rw [a32] at h1
  rw [one]
  refine ⟨h1, ?_, ?_, ?_⟩
  · unfold backprop_stop stopN
    rw [divU_ok (by decide), ok_bind, one, a32, Nat.div_one,
      addU_ok (by rw [one, a32]; omega), ok_bind, one, a32, pure_ok]
    congr 1
    apply u32_ext
    rw [minU_toNat, toNat_ofNat_lt (n := a + 1) (by omega), toNat_ofNat_lt (by omega)]
  · unfold startN
    rw [Nat.div_one]
    split
    · omega
    · split <;> omega
  · unfold stopN
    rw [Nat.div_one]
    omega

/-! ## Strides of 2^31 and more

`stride as i32` is negative then. -/

/-- with a huge stride and a single window the loop of an axis starts at row 1 or later -/
theorem start_stride {b : Build} {a kd s : UInt32} (ha : a.toNat < kd.toNat)
    (hk : kd.toNat < 2 ^ 31) (hs : 2 ^ 31 ≤ s.toNat)
    (hx : kd.toNat - a.toNat + 1 < 2 ^ 31 ∨ s.toNat + 1 < 2 ^ 32) :
    ∃ v, backprop_start b a kd s = .ok v ∧ 1 ≤ v.toNat := by
  have hs' := u32_lt s
  have e : ((a.toNat : Int) - (kd.toNat : Int)).tdiv ((s.toNat : Int) - 2 ^ 32) =
      (((kd.toNat - a.toNat) / (2 ^ 32 - s.toNat) : Nat) : Int) := by
    have e1 : (a.toNat : Int) - (kd.toNat : Int) = -((kd.toNat - a.toNat : Nat) : Int) := by omega
    have e2 : (s.toNat : Int) - 2 ^ 32 = -((2 ^ 32 - s.toNat : Nat) : Int) := by omega
    rw [e1, e2, Int.neg_tdiv, Int.tdiv_neg, Int.neg_neg, ← Int.ofNat_tdiv]
  have hq : (kd.toNat - a.toNat) / (2 ^ 32 - s.toNat) + 1 < 2 ^ 31 := by
    have := Nat.div_le_self (kd.toNat - a.toNat) (2 ^ 32 - s.toNat)
    rcases hx with h | h
    · omega
    · have : (kd.toNat - a.toNat) / (2 ^ 32 - s.toNat) ≤ (kd.toNat - a.toNat) / 2 :=
        Nat.div_le_div_left (by omega) (by omega)
      omega
  have es : asI32 s = (s.toNat : Int) - 2 ^ 32 := by
    unfold asI32
    rw [if_neg (by omega)]
  unfold backprop_start
  rw [asI32_small (by omega), asI32_small hk, es]
  unfold chkI32 divI32
  rw [if_pos (by omega), ok_bind, if_neg (by omega), if_neg (by omega), ok_bind, e]
  generalize (kd.toNat - a.toNat) / (2 ^ 32 - s.toNat) = q at *
  rw [if_pos (by omega), ok_bind]
  refine ⟨_, rfl, ?_⟩
  have e2 : max (((q : Nat) : Int) + 1) 0 = ((q + 1 : Nat) : Int) := by omega
  rw [e2, i32AsU32_nat _ (by omega), toNat_ofNat_lt (by omega)]
  omega

/-- and one value overflows -/
theorem start_stride_overflow {kd s : UInt32} (hk : kd.toNat + 1 = 2 ^ 31)
    (hs : s.toNat + 1 = 2 ^ 32) : backprop_start .debug 0 kd s = .error .overflow := by
  have e1 : kd = 2147483647 := u32_ext (by change _ = 2147483647; omega)
  have e2 : s = 4294967295 := u32_ext (by change _ = 4294967295; omega)
  rw [e1, e2]
  decide

theorem forRange_empty {σ : Type} {lo hi : UInt32} {s : σ} {body : UInt32 → σ → Exec σ}
    (h : hi.toNat ≤ lo.toNat) : forRange lo hi s body = .ok s := by
  unfold forRange
  rw [Nat.sub_eq_zero_of_le h]
  rfl

/-- With a stride of 2^31 or more and a single window, a call that does not overflow returns zeros. -/
theorem outgoing_stride {b : Build} {incoming outgoing : Tensor F} {kernels : List (Tensor F)}
    {s : UInt32} (ho : outgoing.WF) (hK : KernelsOk outgoing.shape incoming.shape s kernels)
    (hs : 2 ^ 31 ≤ s.toNat)
    (hk : ∀ k (h : k < kernels.length),
      (kernels[k].shape.di = outgoing.shape.di ∧ kernels[k].shape.dj = outgoing.shape.dj) ∧
      (kernels[k].shape.di.toNat < 2 ^ 31 ∧ kernels[k].shape.dj.toNat < 2 ^ 31) ∧
      ((kernels[k].shape.di.toNat + 1 < 2 ^ 31 ∧ kernels[k].shape.dj.toNat + 1 < 2 ^ 31) ∨
        s.toNat + 1 < 2 ^ 32)) :
    ∃ o', convolution_backprop_outgoing_gradient b incoming kernels s outgoing =
        .ok (.ok (), o') ∧ o'.WF ∧ o'.shape = outgoing.shape ∧
      ∀ a bb c, outgoing.shape.Inside a bb c → val o' a bb c = zero := by
  obtain ⟨o', q1, q2, q3, q4⟩ := loop3_write (b := b) outgoing ho
    (fun _ _ _ => zero)
    (fun c bb a r => do
            let acc ← forRange 0 incoming.shape.dk (zero : F) fun k acc => do
              let kernel ← vget kernels k.toNat
              let i_start ← backprop_start b a kernel.shape.di s
              let i_stop ← backprop_stop b a kernel.shape.di s
              let j_start ← backprop_start b bb kernel.shape.dj s
              let j_stop ← backprop_stop b bb kernel.shape.dj s
              forRange j_start j_stop acc fun j acc =>
                forRange i_start i_stop acc fun i acc => do
                  let incoming_gradient_id ← incoming.get_data_index b ⟨i, j, k⟩
                  let si ← mulU b s i
                  let ki ← subU b a si
                  let sj ← mulU b s j
                  let kj ← subU b bb sj
                  let kernel_id ← kernel.get_data_index b ⟨ki, kj, c⟩
                  let x ← vget kernel.data kernel_id.toNat
                  let y ← vget incoming.data incoming_gradient_id.toNat
                  pure (F32Ops.add acc (mul x y))
            r.write b ⟨a, bb, c⟩ acc)
    (by
      intro a bb c hin t _ _
      obtain ⟨hina, hinb, hinc⟩ := hin
      have a32 : (UInt32.ofNat a).toNat = a := toNat_ofNat_lt (Nat.lt_trans hina (u32_lt _))
      have b32 : (UInt32.ofNat bb).toNat = bb := toNat_ofNat_lt (Nat.lt_trans hinb (u32_lt _))
      rw [forRange_zero, foldlM_pure _ _ (fun acc _ => acc)]
      · rw [ok_bind]
        congr 1
        induction (List.range incoming.shape.dk.toNat) with
        | nil => rfl
        | cons x l ih => exact ih
      · intro k hk' acc
        have hk' : k < incoming.shape.dk.toNat := List.mem_range.mp hk'
        have hkl : k < kernels.length := by rw [hK.len]; exact hk'
        have k32 : (UInt32.ofNat k).toNat = k := toNat_ofNat_lt (Nat.lt_trans hk' (u32_lt _))
        obtain ⟨⟨d1, d2⟩, ⟨l1, l2⟩, hx⟩ := hk k hkl
        rw [← d1] at hina
        rw [← d2] at hinb
        obtain ⟨v, v1, v2⟩ := start_stride (b := b) (a := UInt32.ofNat a)
          (kd := kernels[k].shape.di) (by omega) l1 hs (by omega)
        obtain ⟨w, w1, w2⟩ := start_stride (b := b) (a := UInt32.ofNat bb)
          (kd := kernels[k].shape.dj) (by omega) l2 hs (by omega)
        rw [k32, vget_ok hkl, ok_bind, v1, ok_bind, backprop_stop_ok (by omega) (by omega), ok_bind,
          w1, ok_bind, backprop_stop_ok (by omega) (by omega), ok_bind]
        apply forRange_empty
        unfold stopN
        rw [b32, Nat.div_eq_of_lt (by omega), toNat_ofNat_lt (by omega)]
        omega)
  refine ⟨o', ?_, q2, q3, q4⟩
  unfold convolution_backprop_outgoing_gradient
  rw [checks_ok (by omega) hK, ok_bind]
  simp only
  rw [if_neg (by rw [hK.len, ofNat_toNat_u32]; exact fun h => h rfl), q1]
  rfl

/-- In a debug build one geometry with stride 2^32 - 1 panics. -/
theorem outgoing_stride_overflow {incoming outgoing : Tensor F} {kernels : List (Tensor F)}
    {s : UInt32} (hK : KernelsOk outgoing.shape incoming.shape s kernels)
    (hi : outgoing.shape.di ≠ 0) (hj : outgoing.shape.dj ≠ 0) (hk : outgoing.shape.dk ≠ 0)
    (hs : s.toNat + 1 = 2 ^ 32)
    (h : ∃ k, ∃ h : k < kernels.length,
      kernels[k].shape.di.toNat + 1 = 2 ^ 31 ∨ kernels[k].shape.dj.toNat + 1 = 2 ^ 31) :
    Fails (convolution_backprop_outgoing_gradient .debug incoming kernels s outgoing) := by
  obtain ⟨k, hk1, h⟩ := h
  have nz : ∀ x : UInt32, x ≠ 0 → 0 < x.toNat := fun x h =>
    Nat.pos_of_ne_zero fun e => h (u32_ext e)
  have hk2 : k < incoming.shape.dk.toNat := by rw [← hK.len]; exact hk1
  have k32 : (UInt32.ofNat k).toNat = k := toNat_ofNat_lt (Nat.lt_trans hk2 (u32_lt _))
  unfold convolution_backprop_outgoing_gradient
  rw [checks_ok (by omega) hK, ok_bind]
  simp only
  rw [if_neg (by rw [hK.len, ofNat_toNat_u32]; exact fun h => h rfl)]
  refine fails_left (fails_forRange (i := 0) (nz _ hk) fun r => fails_forRange (i := 0) (nz _ hj)
    fun r => fails_forRange (i := 0) (nz _ hi) fun r =>
      fails_left (fails_forRange (i := k) hk2 fun acc => ?_))
  rw [k32, vget_ok hk1, ok_bind]
  rcases h with h | h
  · rw [show UInt32.ofNat 0 = 0 from rfl, start_stride_overflow h hs]
    exact ⟨_, rfl⟩
  · refine fails_right fun _ => fails_right fun _ => ?_
    rw [show UInt32.ofNat 0 = 0 from rfl, start_stride_overflow h hs]
    exact ⟨_, rfl⟩

open Toy in
/-- the correct gradient at the origin, all data one, is positive -/
theorem ones_outgoing_pos {image kernel result : TensorShape} {s : UInt32}
    (hc : convFits image kernel s result 0) (hdk : image.dk ≠ 0) (hki : kernel.di ≠ 0)
    (hkj : kernel.dj ≠ 0) :
    1 ≤ Spec.outgoing (onesT result) (List.replicate result.dk.toNat (onesT kernel)) s.toNat
      0 0 0 := by
  have nz : ∀ x : UInt32, x ≠ 0 → 0 < x.toNat := fun x h =>
    Nat.pos_of_ne_zero fun e => h (u32_ext e)
  have hd : 0 < kernel.dk.toNat := by rw [← hc.1]; exact nz _ hdk
  have hget : ∀ k, k < result.dk.toNat →
      (List.replicate result.dk.toNat (onesT kernel))[k]? = some (onesT kernel) := by
    intro k h
    rw [List.getElem?_replicate, if_pos h]
  unfold Spec.outgoing
  apply sum_pos_of_mem
  · intro x hx
    rw [List.mem_map] at hx
    obtain ⟨⟨i, j, k⟩, hm, rfl⟩ := hx
    rw [List.mem_filter] at hm
    obtain ⟨m1, m2⟩ := hm
    have m1 := mem_idx3.mp m1
    simp only [decide_eq_true_eq] at m2 ⊢
    rw [hget k m1.2.2] at m2 ⊢
    simp only [Option.map_some, Option.getD_some] at m2 ⊢
    rw [val_onesT (s := kernel) ⟨m2.2.1, m2.2.2.2, hd⟩, val_onesT (s := result) m1]
    decide
  · rw [List.mem_map]
    refine ⟨(0, 0, 0), ?_, ?_⟩
    · rw [List.mem_filter]
      refine ⟨mem_idx3.mpr ⟨hc.2.1.1.1, hc.2.1.2.1, hc.2.2⟩, ?_⟩
      simp only [decide_eq_true_eq]
      rw [hget 0 hc.2.2]
      exact ⟨Nat.le_refl _, nz _ hki, Nat.le_refl _, nz _ hkj⟩
    · simp only
      rw [hget 0 hc.2.2]
      simp only [Option.map_some, Option.getD_some]
      rw [Nat.mul_zero, Nat.sub_zero, val_onesT (s := kernel) ⟨nz _ hki, nz _ hkj, hd⟩,
        val_onesT (s := result) ⟨hc.2.1.1.1, hc.2.1.2.1, hc.2.2⟩]
      rfl

open Toy in
/-- In a debug build no geometry with a stride of 2^31 or more, or with huge tensors, is right. -/
theorem huge_negation (image kernel result : TensorShape) (s : UInt32)
    (hfi : image.Fits) (hfk : kernel.Fits) (hc : convFits image kernel s result 0)
    (hs : s ≠ 0) (hdk : image.dk ≠ 0) (hki : kernel.di ≠ 0) (hkj : kernel.dj ≠ 0)
    (hbad : 2 ^ 31 ≤ s.toNat ∨ 2 ^ 31 < image.di.toNat ∨ 2 ^ 31 < image.dj.toNat ∨
      2 ^ 31 ≤ kernel.di.toNat ∨ 2 ^ 31 ≤ kernel.dj.toNat) :
    ∃ kernels : List (Tensor Int), KernelsOk image result s kernels ∧
      (∀ t ∈ kernels, t.shape = kernel) ∧
      (Fails (convolution_backprop_outgoing_gradient .debug (onesT result) kernels s
          (zeros image)) ∨
        ∃ o' a bb v, convolution_backprop_outgoing_gradient .debug (onesT result) kernels s
            (zeros image) = .ok (.ok (), o') ∧
          image.Inside a bb 0 ∧ o'.get_item .debug (ix a bb 0) = .ok v ∧
          v ≠ Spec.outgoing (onesT result) kernels s.toNat a bb 0) := by
  have nz : ∀ x : UInt32, x ≠ 0 → 1 ≤ x.toNat := fun x h =>
    Nat.one_le_iff_ne_zero.mpr fun e => h (u32_ext e)
  have k1 := nz _ hki
  have k2 := nz _ hkj
  have d1 := nz _ hdk
  have le1 := tiles_le hc.2.1.1
  have le2 := tiles_le hc.2.1.2
  have pos : ∀ x : UInt32, 1 ≤ x.toNat → x ≠ 0 := by
    rintro x h rfl
    exact absurd h (by decide)
  have i0 := pos _ (Nat.le_trans k1 le1)
  have j0 := pos _ (Nat.le_trans k2 le2)
  have hget : ∀ k (h : k < (List.replicate result.dk.toNat (onesT kernel)).length),
      (List.replicate result.dk.toNat (onesT kernel))[k] = onesT kernel :=
    fun k h => List.getElem_replicate h
  have h0 : 0 < (List.replicate result.dk.toNat (onesT kernel)).length := by
    rw [List.length_replicate]; exact hc.2.2
  have hK : KernelsOk image result s (List.replicate result.dk.toNat (onesT kernel)) :=
    ⟨List.length_replicate, fun k h => by rw [hget]; exact onesT_wf hfk, fun k h => by
      rw [hget]
      exact ⟨hc.1, hc.2.1, by rw [List.length_replicate] at h; exact h⟩⟩
  refine ⟨_, hK, fun t ht => by rw [List.eq_of_mem_replicate ht]; rfl, ?_⟩
  by_cases hh : 2 ^ 31 < image.di.toNat ∨ 2 ^ 31 < image.dj.toNat ∨
      2 ^ 31 ≤ kernel.di.toNat ∨ 2 ^ 31 ≤ kernel.dj.toNat
  · refine .inl (outgoing_huge (outgoing := zeros image) (incoming := onesT result) hs hK i0 j0 hdk
      ⟨0, h0, ?_⟩)
    rw [hget]
    change (2 ^ 31 ≤ kernel.di.toNat ∨ 2 ^ 31 < image.di.toNat ∧ kernel.di ≠ 0) ∨
      (2 ^ 31 ≤ kernel.dj.toNat ∨ 2 ^ 31 < image.dj.toNat ∧ kernel.dj ≠ 0)
    by_cases h1 : 2 ^ 31 < image.di.toNat
    · exact .inl (.inr ⟨h1, hki⟩)
    · by_cases h2 : 2 ^ 31 < image.dj.toNat
      · exact .inr (.inr ⟨h2, hkj⟩)
      · omega
  · have hs31 : 2 ^ 31 ≤ s.toNat := by omega
    have one : ∀ d kd n : Nat, tiles d kd s.toNat n → 1 ≤ kd → d ≤ 2 ^ 31 → kd = d := by
      rintro d kd n ⟨t1, t2⟩ t3 t4
      rcases Nat.eq_zero_or_pos (n - 1) with h | h
      · rw [h] at t2; omega
      · have := Nat.le_mul_of_pos_left s.toNat h
        omega
    have e1 : kernel.di = image.di := u32_ext (one _ _ _ hc.2.1.1 k1 (by omega))
    have e2 : kernel.dj = image.dj := u32_ext (one _ _ _ hc.2.1.2 k2 (by omega))
    by_cases hx : s.toNat + 1 = 2 ^ 32 ∧
        (kernel.di.toNat + 1 = 2 ^ 31 ∨ kernel.dj.toNat + 1 = 2 ^ 31)
    · refine .inl (outgoing_stride_overflow (outgoing := zeros image) (incoming := onesT result) hK
        i0 j0 hdk hx.1 ⟨0, h0, ?_⟩)
      rw [hget]
      exact hx.2
    · obtain ⟨o', q1, q2, q3, q4⟩ := outgoing_stride (b := .debug) (incoming := onesT result)
        (zeros_wf hfi) hK hs31 (by
          intro k h
          rw [hget]
          have := u32_lt s
          refine ⟨⟨e1, e2⟩, (?_ : kernel.di.toNat < _ ∧ kernel.dj.toNat < _),
            (?_ : (kernel.di.toNat + 1 < _ ∧ kernel.dj.toNat + 1 < _) ∨ _)⟩ <;> omega)
      have hin : image.Inside 0 0 0 := ⟨Nat.le_trans k1 le1, Nat.le_trans k2 le2, d1⟩
      refine .inr ⟨o', 0, 0, _, q1, hin, get_item_ok q2 (by rw [q3]; exact hin), ?_⟩
      rw [q4 0 0 0 hin]
      have := ones_outgoing_pos (s := s) hc hdk hki hkj
      change (0 : Int) ≠ _
      omega

end Rusty
