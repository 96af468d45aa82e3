import Verif.Lemmas.Convolution
import Verif.Lemmas.Layout
import Verif.Spec.Toy

set_option linter.unusedSectionVars false

/-! # Helper lemmas: gradients of the convolution -/

namespace Rusty

open F32Ops Spec

variable {F : Type} [F32Ops F]

/-! ## The two convolutions succeed, err and panic alike -/

theorem write_rel {b : Build} {t u : Tensor F} (h : sameLayout t u) (x : TensorIndex) (v w : F) :
    ExecRel sameLayout (t.write b x v) (u.write b x w) := by
  obtain ⟨h1, h2, h3⟩ := h
  unfold Tensor.write Tensor.get_data_index
  rw [h2]
  cases e : u.strides.mulIndex b x with
  | error e => exact rfl
  | ok id =>
    rw [ok_bind, ok_bind]
    unfold vset
    rw [h3]
    split
    · exact ⟨h1, rfl, by simp [h3]⟩
    · exact rfl

theorem conv_bias_rel (b : Build) (image kernel bias result : Tensor F) (s c : UInt32) :
    ExecRel (fun p q => p.1 = q.1 ∧ (p.1 ≠ .ok () → p.2 = result ∧ q.2 = result))
      (convolution_bias b image kernel bias s result c)
      (convolution_bias_relu b image kernel bias s result c) := by
  unfold convolution_bias convolution_bias_relu
  cases check_convolution_dimensions b image.shape kernel.shape s result.shape c with
  | error e => exact rfl
  | ok chk =>
    rw [ok_bind, ok_bind]
    cases chk with
    | error e => exact ⟨rfl, fun _ => ⟨rfl, rfl⟩⟩
    | ok u =>
      simp only
      split
      · exact ⟨rfl, fun _ => ⟨rfl, rfl⟩⟩
      · cases bias.get_item b ⟨0, 0, 0⟩ with
        | error e => exact rfl
        | ok bv =>
          rw [ok_bind, ok_bind, forRange2, forRange2]
          have key := foldlM_rel sameLayout
            (idx2 result.shape.di.toNat result.shape.dj.toNat)
            (fun s' x => do
              let acc ← convolution_window b image kernel s (UInt32.ofNat x.1) (UInt32.ofNat x.2)
              s'.write b ⟨UInt32.ofNat x.1, UInt32.ofNat x.2, c⟩ (F32Ops.add acc bv))
            (fun s' x => do
              let acc ← convolution_window b image kernel s (UInt32.ofNat x.1) (UInt32.ofNat x.2)
              s'.write b ⟨UInt32.ofNat x.1, UInt32.ofNat x.2, c⟩ (fmax (F32Ops.add acc bv) zero))
            (by
              rintro ⟨i, j⟩ _ t u h
              simp only
              cases convolution_window b image kernel s (UInt32.ofNat i) (UInt32.ofNat j) with
              | error e => exact rfl
              | ok acc => exact write_rel h _ _ _)
            result result ⟨rfl, rfl, rfl⟩
          revert key
          generalize List.foldlM (m := Exec) _ result _ = x
          generalize List.foldlM (m := Exec) _ result _ = y
          intro key
          cases x with
          | error e => cases y with
            | error e' => exact key
            | ok _ => exact key.elim
          | ok a => cases y with
            | error e' => exact key.elim
            | ok _ => exact ⟨rfl, fun h => absurd rfl h⟩

/-! ## Loop bounds of the outgoing gradient -/

/-- where the code starts: `((a as i32 - kd as i32) / s as i32 + 1).max(0)` -/
def startN (a kd s : Nat) : Nat :=
  if kd ≤ a then (a - kd) / s + 1 else if kd < a + s then 1 else 0

/-- where the code stops: `(a / s + 1).min(kd)` -/
def stopN (a kd s : Nat) : Nat := min (a / s + 1) kd

theorem asI32_small {x : UInt32} (h : x.toNat < 2 ^ 31) : asI32 x = (x.toNat : Int) := by
  unfold asI32; rw [if_pos h]

theorem i32AsU32_nat (n : Nat) (h : n < 2 ^ 32) : i32AsU32 (n : Int) = UInt32.ofNat n := by
  unfold i32AsU32
  congr 1
  rw [Int.emod_eq_of_lt (by omega) (by omega)]
  rfl

theorem backprop_start_ok {b : Build} {a kd s : UInt32} (ha : a.toNat < 2 ^ 31)
    (hk : kd.toNat < 2 ^ 31) (hs : s.toNat < 2 ^ 31) (hs0 : s.toNat ≠ 0) (hk0 : kd.toNat ≠ 0) :
    backprop_start b a kd s = .ok (UInt32.ofNat (startN a.toNat kd.toNat s.toNat)) := by
  unfold backprop_start
  rw [asI32_small ha, asI32_small hk, asI32_small hs]
  unfold chkI32 divI32
  rw [if_pos (by omega), ok_bind, if_neg (by omega), if_neg (by omega), ok_bind]
  unfold startN
  by_cases h : kd.toNat ≤ a.toNat
  · rw [if_pos h]
    have e : ((a.toNat : Int) - (kd.toNat : Int)).tdiv (s.toNat : Int) =
        (((a.toNat - kd.toNat) / s.toNat : Nat) : Int) := by
      rw [← Int.ofNat_sub h, ← Int.ofNat_tdiv]
    have := Nat.div_le_self (a.toNat - kd.toNat) s.toNat
    rw [e]
    generalize (a.toNat - kd.toNat) / s.toNat = q at *
    rw [if_pos (by omega), ok_bind]
    have e2 : max (((q : Nat) : Int) + 1) 0 = ((q + 1 : Nat) : Int) := by omega
    rw [e2, i32AsU32_nat _ (by omega)]
    rfl
  · rw [if_neg h]
    have e : ((a.toNat : Int) - (kd.toNat : Int)).tdiv (s.toNat : Int) =
        -(((kd.toNat - a.toNat) / s.toNat : Nat) : Int) := by
      have : ((a.toNat : Int) - (kd.toNat : Int)) = -((kd.toNat - a.toNat : Nat) : Int) := by omega
      rw [this, Int.neg_tdiv, ← Int.ofNat_tdiv]
    have := Nat.div_le_self (kd.toNat - a.toNat) s.toNat
    have q0 : kd.toNat < a.toNat + s.toNat → (kd.toNat - a.toNat) / s.toNat = 0 :=
      fun h2 => Nat.div_eq_of_lt (by omega)
    have q1 : ¬ kd.toNat < a.toNat + s.toNat → 1 ≤ (kd.toNat - a.toNat) / s.toNat :=
      fun h2 => (Nat.one_le_div_iff (by omega)).mpr (by omega)
    rw [e]
    generalize (kd.toNat - a.toNat) / s.toNat = q at *
    rw [if_pos (by omega), ok_bind]
    by_cases h2 : kd.toNat < a.toNat + s.toNat
    · rw [if_pos h2, q0 h2]
      rfl
    · rw [if_neg h2]
      have h3 := q1 h2
      have e2 : max (-((q : Nat) : Int) + 1) 0 = ((0 : Nat) : Int) := by
        omega
      rw [e2, i32AsU32_nat _ (by omega)]
      rfl

theorem backprop_stop_ok {b : Build} {a kd s : UInt32} (ha : a.toNat < 2 ^ 31)
    (hs0 : s.toNat ≠ 0) :
    backprop_stop b a kd s = .ok (UInt32.ofNat (stopN a.toNat kd.toNat s.toNat)) := by
  unfold backprop_stop
  have := Nat.div_le_self a.toNat s.toNat
  have e1 : (UInt32.ofNat (a.toNat / s.toNat)).toNat = a.toNat / s.toNat :=
    toNat_ofNat_lt (by omega)
  rw [divU_ok hs0, ok_bind, addU_ok (by rw [e1]; change _ + 1 < _; omega), ok_bind, pure_ok]
  congr 1
  apply u32_ext
  have hkd := u32_lt kd
  have : (1 : UInt32).toNat = 1 := rfl
  rw [minU_toNat, e1, this, toNat_ofNat_lt (n := a.toNat / s.toNat + 1) (by omega)]
  unfold stopN
  rw [toNat_ofNat_lt (by omega)]

/-- `for i in lo..hi { acc = op(acc, g(i)) }` -/
theorem forRange_fold' {σ τ : Type} (lo hi : Nat) (hlo : lo < 2 ^ 32) (hhi : hi < 2 ^ 32) (s : σ)
    (body : UInt32 → σ → Exec σ) (op : σ → τ → σ) (g : Nat → τ)
    (h : ∀ i, lo ≤ i → i < hi → ∀ s, body (UInt32.ofNat i) s = .ok (op s (g i))) :
    forRange (UInt32.ofNat lo) (UInt32.ofNat hi) s body =
      .ok (((List.range' lo (hi - lo)).map g).foldl op s) := by
  unfold forRange
  rw [toNat_ofNat_lt hlo, toNat_ofNat_lt hhi, foldlM_pure _ _ (fun s i => op s (g i)),
    List.foldl_map]
  intro i hi s
  have := List.mem_range'_1.mp hi
  exact h i (by omega) (by omega) s

/-- the triples a loop nest with inner bounds visits -/
def box (k is ie js je : Nat) : List (Nat × Nat × Nat) :=
  (List.range' js (je - js)).flatMap fun j => (List.range' is (ie - is)).map fun i => (i, j, k)

theorem mem_box {k is ie js je i j k' : Nat} :
    (i, j, k') ∈ box k is ie js je ↔ (is ≤ i ∧ i < ie) ∧ (js ≤ j ∧ j < je) ∧ k' = k := by
  unfold box
  simp only [List.mem_flatMap, List.mem_map, List.mem_range'_1, Prod.mk.injEq]
  constructor
  · rintro ⟨j', hj, i', hi, rfl, rfl, rfl⟩
    exact ⟨by omega, by omega, rfl⟩
  · rintro ⟨hi, hj, rfl⟩
    exact ⟨j, by omega, i, by omega, rfl, rfl, rfl⟩

theorem forBox_fold {σ τ : Type} (k is ie js je : Nat) (h1 : is < 2 ^ 32) (h2 : ie < 2 ^ 32)
    (h3 : js < 2 ^ 32) (h4 : je < 2 ^ 32) (s : σ)
    (body : UInt32 → UInt32 → σ → Exec σ) (op : σ → τ → σ) (g : Nat × Nat × Nat → τ)
    (h : ∀ i j, is ≤ i → i < ie → js ≤ j → j < je → ∀ s,
      body (UInt32.ofNat j) (UInt32.ofNat i) s = .ok (op s (g (i, j, k)))) :
    (forRange (UInt32.ofNat js) (UInt32.ofNat je) s fun j s =>
      forRange (UInt32.ofNat is) (UInt32.ofNat ie) s fun i s => body j i s) =
    .ok (((box k is ie js je).map g).foldl op s) := by
  unfold forRange
  rw [toNat_ofNat_lt h3, toNat_ofNat_lt h4]
  rw [foldlM_pure _ _ (fun s j => ((List.range' is (ie - is)).map fun i => g (i, j, k)).foldl op s)]
  · unfold box
    rw [List.map_flatMap, List.foldl_flatMap]
    congr 2
    funext s j
    rw [List.map_map]
    rfl
  · intro j hj s
    have hj' := List.mem_range'_1.mp hj
    simp only
    rw [toNat_ofNat_lt h1, toNat_ofNat_lt h2, foldlM_pure _ _ (fun s i => op s (g (i, j, k))),
      List.foldl_map]
    intro i hi s
    have hi' := List.mem_range'_1.mp hi
    exact h i j (by omega) (by omega) (by omega) (by omega) s

/-- extent of kernel `k` along the first axis -/
def kdi (kernels : List (Tensor F)) (k : Nat) : Nat := (kernels[k]?.map (·.shape.di.toNat)).getD 0
/-- extent of kernel `k` along the second axis -/
def kdj (kernels : List (Tensor F)) (k : Nat) : Nat := (kernels[k]?.map (·.shape.dj.toNat)).getD 0
/-- element of kernel `k` -/
def kval (kernels : List (Tensor F)) (k i j c : Nat) : F :=
  (kernels[k]?.map (fun kern => val kern i j c)).getD zero

/-- the index triples the code visits for `(a, b)` -/
def visited (kernels : List (Tensor F)) (s a b dk : Nat) : List (Nat × Nat × Nat) :=
  (List.range dk).flatMap fun k =>
    box k (startN a (kdi kernels k) s) (stopN a (kdi kernels k) s)
      (startN b (kdj kernels k) s) (stopN b (kdj kernels k) s)

theorem checks_ok {b : Build} {image incoming : TensorShape} {s : UInt32}
    {kernels : List (Tensor F)} (hs : s.toNat ≠ 0) (hK : KernelsOk image incoming s kernels) :
    forListE kernels.zipIdx () (fun (kernel, i) _ => do
      let r ← check_convolution_dimensions b image kernel.shape s incoming (UInt32.ofNat i)
      pure (r, ())) = .ok (.ok (), ()) := by
  rw [forListE_ok _ _ _ (fun _ _ => ())]
  · rintro ⟨kernel, i⟩ hx u
    simp only
    have hlt : i < kernels.length ∧ kernels[i]? = some kernel := by
      have := List.mem_zipIdx_iff_getElem?.mp hx
      simp only at this
      refine ⟨?_, this⟩
      rcases Nat.lt_or_ge i kernels.length with h | h
      · exact h
      · rw [List.getElem?_eq_none h] at this
        cases this
    have hk : kernels[i] = kernel := by
      have := hlt.2
      rw [List.getElem?_eq_getElem hlt.1] at this
      injection this
    have hf := hK.fits i hlt.1
    rw [hk] at hf
    have hi32 : i < 2 ^ 32 := by
      have := hK.len ▸ u32_lt incoming.dk
      omega
    rw [check_conv_ok hs (by rw [toNat_ofNat_lt hi32]; exact hf)]
    rfl

theorem startN_lt {a kd s id : Nat} (ha : a < id) (hd : id ≤ 2 ^ 31) : startN a kd s < 2 ^ 32 := by
  unfold startN
  have := Nat.div_le_self (a - kd) s
  split
  · omega
  · split <;> omega

theorem stopN_lt {a kd s id : Nat} (ha : a < id) (hd : id ≤ 2 ^ 31) : stopN a kd s < 2 ^ 32 := by
  unfold stopN
  have := Nat.div_le_self a s
  omega

/-- inside the code's loop bounds the kernel index is right -/
theorem visited_kernel {a kd s i : Nat} (hs : s ≠ 0) (h1 : startN a kd s ≤ i)
    (h2 : i < stopN a kd s) : s * i ≤ a ∧ a - s * i < kd := by
  unfold stopN at h2
  have h3 : i ≤ a / s := by omega
  have h4 : s * i ≤ a := by
    have := Nat.mul_le_of_le_div s i a h3
    rwa [Nat.mul_comm] at this
  refine ⟨h4, ?_⟩
  unfold startN at h1
  split at h1
  · have h5 : (a - kd) / s < i := by omega
    have h6 : a - kd < i * s := (Nat.div_lt_iff_lt_mul (by omega)).mp h5
    rw [Nat.mul_comm] at h6
    omega
  · omega

/-- the code's loop bounds stay below the number of windows -/
theorem visited_row {d a kd s n i : Nat} (ht : tiles d kd s n) (ha : a < d)
    (hsafe : kd ≤ n ∨ kd ≤ s) (h2 : i < stopN a kd s) : i < n := by
  unfold stopN at h2
  rcases hsafe with h | h
  · omega
  · obtain ⟨h3, h4⟩ := ht
    have h5 : i ≤ a / s := by omega
    have h6 : i * s ≤ a := Nat.mul_le_of_le_div s i a h5
    by_contra hge
    have h7 : n * s ≤ i * s := Nat.mul_le_mul_right s (by omega)
    have h8 : n * s = (n - 1) * s + s := by
      conv_lhs => rw [show n = (n - 1) + 1 by omega]
      rw [Nat.add_mul, Nat.one_mul]
    omega

/-- such a kernel has fewer than 2^31 rows -/
theorem tiles_kernel_lt {d kd s n : Nat} (hs : s ≠ 0) (ht : tiles d kd s n) (hd : d ≤ 2 ^ 31)
    (hs31 : s < 2 ^ 31) (hsafe : kd ≤ n ∨ kd ≤ s) : kd < 2 ^ 31 := by
  obtain ⟨h1, h2⟩ := ht
  have := Nat.le_mul_of_pos_right (n - 1) (Nat.pos_of_ne_zero hs)
  omega

/-- the loop bounds along an axis of `d` rows come out as intended -/
def AxisBounds (b : Build) (d kd s : UInt32) : Prop :=
  ∀ a, a < d.toNat →
    backprop_start b (UInt32.ofNat a) kd s =
      .ok (UInt32.ofNat (startN a kd.toNat s.toNat)) ∧
    backprop_stop b (UInt32.ofNat a) kd s = .ok (UInt32.ofNat (stopN a kd.toNat s.toNat)) ∧
    startN a kd.toNat s.toNat < 2 ^ 32 ∧ stopN a kd.toNat s.toNat < 2 ^ 32

theorem axis_bounds_small {b : Build} {d kd s : UInt32} (hd : d.toNat ≤ 2 ^ 31)
    (hk : kd.toNat < 2 ^ 31) (hs : s.toNat < 2 ^ 31) (hs0 : s.toNat ≠ 0) (hk0 : kd.toNat ≠ 0) :
    AxisBounds b d kd s := by
  intro a ha
  have a32 : (UInt32.ofNat a).toNat = a := toNat_ofNat_lt (by omega)
  have h1 := backprop_start_ok (b := b) (a := UInt32.ofNat a) (kd := kd) (s := s) (by omega) hk hs
    hs0 hk0
  have h2 := backprop_stop_ok (b := b) (a := UInt32.ofNat a) (kd := kd) (s := s) (by omega) hs0
  rw [a32] at h1 h2
  exact ⟨h1, h2, startN_lt ha hd, stopN_lt ha hd⟩

/-- Exactly what `convolution_backprop_outgoing_gradient` computes, when its loops stay inside the
incoming gradient. -/
theorem outgoing_bounds {b : Build} {incoming outgoing : Tensor F} {kernels : List (Tensor F)}
    {s : UInt32} (hi : incoming.WF) (ho : outgoing.WF) (hs : s.toNat ≠ 0)
    (hK : KernelsOk outgoing.shape incoming.shape s kernels)
    (hbi : ∀ k (h : k < kernels.length), AxisBounds b outgoing.shape.di kernels[k].shape.di s)
    (hbj : ∀ k (h : k < kernels.length), AxisBounds b outgoing.shape.dj kernels[k].shape.dj s)
    (hki : ∀ k, k < kernels.length →
      (kdi kernels k ≤ incoming.shape.di.toNat ∨ kdi kernels k ≤ s.toNat))
    (hkj : ∀ k, k < kernels.length →
      (kdj kernels k ≤ incoming.shape.dj.toNat ∨ kdj kernels k ≤ s.toNat)) :
    ∃ o', convolution_backprop_outgoing_gradient b incoming kernels s outgoing =
        .ok (.ok (), o') ∧ o'.WF ∧ o'.shape = outgoing.shape ∧
      ∀ a bb c, outgoing.shape.Inside a bb c → val o' a bb c =
        sum ((visited kernels s.toNat a bb incoming.shape.dk.toNat).map fun (i, j, k) =>
          mul (kval kernels k (a - s.toNat * i) (bb - s.toNat * j) c) (val incoming i j k)) := by
  obtain ⟨o', q1, q2, q3, q4⟩ := loop3_write (b := b) outgoing ho
    (fun a bb c => sum ((visited kernels s.toNat a bb incoming.shape.dk.toNat).map
      fun (i, j, k) =>
          mul (kval kernels k (a - s.toNat * i) (bb - s.toNat * j) c) (val incoming i j k)))
    (fun c bb a r => do
            let acc ← forRange 0 incoming.shape.dk (zero : F) fun k acc => do
              let kernel ← vget kernels k.toNat
              let i_start ← backprop_start b a kernel.shape.di s
              let i_stop ← backprop_stop b a kernel.shape.di s
              let j_start ← backprop_start b bb kernel.shape.dj s
              let j_stop ← backprop_stop b bb kernel.shape.dj s
              forRange j_start j_stop acc fun j acc =>
                forRange i_start i_stop acc fun i acc => do
                  let incoming_gradient_id ← incoming.get_data_index b ⟨i, j, k⟩
                  let si ← mulU b s i
                  let ki ← subU b a si
                  let sj ← mulU b s j
                  let kj ← subU b bb sj
                  let kernel_id ← kernel.get_data_index b ⟨ki, kj, c⟩
                  let x ← vget kernel.data kernel_id.toNat
                  let y ← vget incoming.data incoming_gradient_id.toNat
                  pure (F32Ops.add acc (mul x y))
            r.write b ⟨a, bb, c⟩ acc)
    (by
      intro a bb c hin t _ _
      obtain ⟨hina, hinb, hinc⟩ := hin
      have a32 : (UInt32.ofNat a).toNat = a := toNat_ofNat_lt (Nat.lt_trans hina (u32_lt _))
      have b32 : (UInt32.ofNat bb).toNat = bb := toNat_ofNat_lt (Nat.lt_trans hinb (u32_lt _))
      have key : (forRange 0 incoming.shape.dk (zero : F) fun k acc => do
              let kernel ← vget kernels k.toNat
              let i_start ← backprop_start b (UInt32.ofNat a) kernel.shape.di s
              let i_stop ← backprop_stop b (UInt32.ofNat a) kernel.shape.di s
              let j_start ← backprop_start b (UInt32.ofNat bb) kernel.shape.dj s
              let j_stop ← backprop_stop b (UInt32.ofNat bb) kernel.shape.dj s
              forRange j_start j_stop acc fun j acc =>
                forRange i_start i_stop acc fun i acc => do
                  let incoming_gradient_id ← incoming.get_data_index b ⟨i, j, k⟩
                  let si ← mulU b s i
                  let ki ← subU b (UInt32.ofNat a) si
                  let sj ← mulU b s j
                  let kj ← subU b (UInt32.ofNat bb) sj
                  let kernel_id ← kernel.get_data_index b ⟨ki, kj, UInt32.ofNat c⟩
                  let x ← vget kernel.data kernel_id.toNat
                  let y ← vget incoming.data incoming_gradient_id.toNat
                  pure (F32Ops.add acc (mul x y))) =
          .ok (sum ((visited kernels s.toNat a bb incoming.shape.dk.toNat).map
            fun (i, j, k) => mul (kval kernels k (a - s.toNat * i) (bb - s.toNat * j) c)
              (val incoming i j k))) := by
        rw [forRange_zero]
        rw [foldlM_pure _ _ (fun acc k => ((box k (startN a (kdi kernels k) s.toNat)
            (stopN a (kdi kernels k) s.toNat) (startN bb (kdj kernels k) s.toNat)
            (stopN bb (kdj kernels k) s.toNat)).map fun (i, j, k) =>
              mul (kval kernels k (a - s.toNat * i) (bb - s.toNat * j) c)
              (val incoming i j k)).foldl F32Ops.add acc)]
        · unfold visited sum
          rw [List.map_flatMap, List.foldl_flatMap]
        · intro k hk acc
          have hk' : k < incoming.shape.dk.toNat := List.mem_range.mp hk
          have hkl : k < kernels.length := by rw [hK.len]; exact hk'
          have k32 : (UInt32.ofNat k).toNat = k :=
            toNat_ofNat_lt (Nat.lt_trans hk' (u32_lt _))
          have edi : kdi kernels k = kernels[k].shape.di.toNat := by
            unfold kdi; rw [List.getElem?_eq_getElem hkl]; rfl
          have edj : kdj kernels k = kernels[k].shape.dj.toNat := by
            unfold kdj; rw [List.getElem?_eq_getElem hkl]; rfl
          obtain ⟨f1, ⟨f2, f3⟩, f4⟩ := hK.fits k hkl
          have si1 := hki k hkl
          have sj1 := hkj k hkl
          have wf := hK.wf k hkl
          have lei := tiles_le f2
          have lej := tiles_le f3
          have di32 := u32_lt outgoing.shape.di
          have dj32 := u32_lt outgoing.shape.dj
          obtain ⟨u1, u2, u3, u4⟩ := hbi k hkl a hina
          obtain ⟨p1, p2, p3, p4⟩ := hbj k hkl bb hinb
          rw [k32, vget_ok hkl, ok_bind, u1, ok_bind, u2, ok_bind, p1, ok_bind, p2, ok_bind,
            ← edi, ← edj]
          rw [forBox_fold k _ _ _ _ (edi ▸ u3) (edi ▸ u4) (edj ▸ p3) (edj ▸ p4)]
          intro i j i1 i2 j1 j2 acc
          rw [edi] at i1 i2
          rw [edj] at j1 j2
          obtain ⟨v1, v2⟩ := visited_kernel hs i1 i2
          obtain ⟨w1, w2⟩ := visited_kernel hs j1 j2
          have r1 := visited_row f2 hina (edi ▸ si1) i2
          have r2 := visited_row f3 hinb (edj ▸ sj1) j2
          have i32 : (UInt32.ofNat i).toNat = i := toNat_ofNat_lt (Nat.lt_trans r1 (u32_lt _))
          have j32 : (UInt32.ofNat j).toNat = j := toNat_ofNat_lt (Nat.lt_trans r2 (u32_lt _))
          have insk : kernels[k].shape.Inside (a - s.toNat * i) (bb - s.toNat * j) c :=
            ⟨v2, w2, by rw [← f1]; exact hinc⟩
          have e1 := get_data_index_ok (b := b) hi (i := i) (j := j) (k := k) ⟨r1, r2, hk'⟩
          have e2 := get_data_index_ok (b := b) wf insk
          have e3 := vget_pos hi (i := i) (j := j) (k := k) ⟨r1, r2, hk'⟩
          have e4 := vget_pos wf insk
          unfold ix at e1 e2
          have si32 : (UInt32.ofNat (s.toNat * i)).toNat = s.toNat * i := toNat_ofNat_lt (by omega)
          have sj32 : (UInt32.ofNat (s.toNat * j)).toNat = s.toNat * j := toNat_ofNat_lt (by omega)
          rw [e1, ok_bind, mulU_ok (by rw [i32]; omega), ok_bind, i32,
            subU_ok (by rw [si32, a32]; exact v1), ok_bind, mulU_ok (by rw [j32]; omega), ok_bind,
            j32, subU_ok (by rw [sj32, b32]; exact w1), ok_bind, a32, si32, b32, sj32, e2, ok_bind,
            e4, ok_bind, e3, ok_bind]
          simp only [kval, List.getElem?_eq_getElem hkl]
          rfl
      rw [key, ok_bind]
      rfl)
  refine ⟨o', ?_, q2, q3, q4⟩
  unfold convolution_backprop_outgoing_gradient
  rw [checks_ok hs hK, ok_bind]
  simp only
  rw [if_neg (by rw [hK.len, ofNat_toNat_u32]; exact fun h => h rfl), q1]
  rfl

/-! ## When the code's bounds are the right ones -/

/-- The same, below 2^31 rows. -/
theorem outgoing_char {b : Build} {incoming outgoing : Tensor F} {kernels : List (Tensor F)}
    {s : UInt32} (hi : incoming.WF) (ho : outgoing.WF) (hs : s.toNat ≠ 0) (hs31 : s.toNat < 2 ^ 31)
    (hK : KernelsOk outgoing.shape incoming.shape s kernels)
    (hdi : outgoing.shape.di.toNat ≤ 2 ^ 31) (hdj : outgoing.shape.dj.toNat ≤ 2 ^ 31)
    (hki : ∀ k, k < kernels.length → kdi kernels k ≠ 0 ∧
      (kdi kernels k ≤ incoming.shape.di.toNat ∨ kdi kernels k ≤ s.toNat))
    (hkj : ∀ k, k < kernels.length → kdj kernels k ≠ 0 ∧
      (kdj kernels k ≤ incoming.shape.dj.toNat ∨ kdj kernels k ≤ s.toNat)) :
    ∃ o', convolution_backprop_outgoing_gradient b incoming kernels s outgoing =
        .ok (.ok (), o') ∧ o'.WF ∧ o'.shape = outgoing.shape ∧
      ∀ a bb c, outgoing.shape.Inside a bb c → val o' a bb c =
        sum ((visited kernels s.toNat a bb incoming.shape.dk.toNat).map fun (i, j, k) =>
          mul (kval kernels k (a - s.toNat * i) (bb - s.toNat * j) c) (val incoming i j k)) := by
  have edi : ∀ k (h : k < kernels.length), kdi kernels k = kernels[k].shape.di.toNat := by
    intro k h; unfold kdi; rw [List.getElem?_eq_getElem h]; rfl
  have edj : ∀ k (h : k < kernels.length), kdj kernels k = kernels[k].shape.dj.toNat := by
    intro k h; unfold kdj; rw [List.getElem?_eq_getElem h]; rfl
  refine outgoing_bounds hi ho hs hK (fun k h => ?_) (fun k h => ?_) (fun k h => (hki k h).2)
    (fun k h => (hkj k h).2)
  · have h1 := hki k h
    rw [edi k h] at h1
    exact axis_bounds_small hdi (tiles_kernel_lt hs (hK.fits k h).2.1.1 hdi hs31 h1.2) hs31 hs h1.1
  · have h1 := hkj k h
    rw [edj k h] at h1
    exact axis_bounds_small hdj (tiles_kernel_lt hs (hK.fits k h).2.1.2 hdj hs31 h1.2) hs31 hs h1.1

theorem filter_range (n lo hi : Nat) (p : Nat → Bool) (h : ∀ i, i < n → (p i = true ↔ lo ≤ i ∧ i < hi)) :
    (List.range n).filter p = List.range' lo (min hi n - lo) := by
  induction n with
  | zero => simp
  | succ n ih =>
    rw [List.range_succ, List.filter_append, ih (fun i hi' => h i (by omega))]
    by_cases hp : p n = true
    · have := (h n (by omega)).mp hp
      simp only [List.filter_cons, hp, if_true, List.filter_nil]
      rw [show min hi (n + 1) - lo = (min hi n - lo) + 1 by omega, List.range'_concat]
      congr 2
      omega
    · have : ¬ (lo ≤ n ∧ n < hi) := fun hc => hp ((h n (by omega)).mpr hc)
      simp only [List.filter_cons, hp, List.filter_nil]
      simp only [Bool.false_eq_true, if_false, List.append_nil]
      congr 1
      omega

/-- the right bounds -/
theorem window_cond {a kd s i : Nat} (hs : s ≠ 0) (_hk : kd ≠ 0) :
    (s * i ≤ a ∧ a - s * i < kd) ↔
      (if kd ≤ a then (a - kd) / s + 1 else 0) ≤ i ∧ i < a / s + 1 := by
  have e1 : s * i ≤ a ↔ i < a / s + 1 := by
    rw [Nat.lt_succ_iff, Nat.le_div_iff_mul_le (by omega), Nat.mul_comm]
  rw [e1]
  constructor
  · rintro ⟨h1, h2⟩
    refine ⟨?_, h1⟩
    split
    · rename_i h
      have h3 := e1.mpr h1
      have : (a - kd) / s < i := by
        rw [Nat.div_lt_iff_lt_mul (by omega), Nat.mul_comm]
        omega
      omega
    · omega
  · rintro ⟨h1, h2⟩
    refine ⟨h2, ?_⟩
    split at h1
    · have h5 : (a - kd) / s < i := by omega
      have h6 : a - kd < i * s := (Nat.div_lt_iff_lt_mul (by omega)).mp h5
      rw [Nat.mul_comm] at h6
      omega
    · omega

theorem axis_filter {a kd s n : Nat} (hs : s ≠ 0) (hk : kd ≠ 0) (h : axisRight a kd s n) :
    (List.range n).filter (fun i => decide (s * i ≤ a ∧ a - s * i < kd)) =
      List.range' (startN a kd s) (stopN a kd s - startN a kd s) := by
  rw [filter_range n (if kd ≤ a then (a - kd) / s + 1 else 0) (a / s + 1)]
  · have e : (if kd ≤ a then (a - kd) / s + 1 else 0) = startN a kd s := by
      unfold startN
      split
      · rfl
      · rw [if_neg (fun h2 => h.1 ⟨by omega, h2⟩)]
    rw [e]
    unfold stopN
    rw [h.2]
  · intro i _
    rw [decide_eq_true_eq]
    exact window_cond hs hk

theorem flatMap_congr' {α β : Type} {l : List α} {f g : α → List β} (h : ∀ x ∈ l, f x = g x) :
    l.flatMap f = l.flatMap g := by
  induction l with
  | nil => rfl
  | cons x xs ih =>
    rw [List.flatMap_cons, List.flatMap_cons, h x (List.mem_cons_self ..),
      ih (fun y hy => h y (List.mem_cons_of_mem _ hy))]

theorem visited_right {kernels : List (Tensor F)} {s a b : Nat} {re : TensorShape} (hs : s ≠ 0)
    (h : ∀ k, k < re.dk.toNat → kdi kernels k ≠ 0 ∧ kdj kernels k ≠ 0 ∧
      axisRight a (kdi kernels k) s re.di.toNat ∧ axisRight b (kdj kernels k) s re.dj.toNat) :
    (idx3 re.di.toNat re.dj.toNat re.dk.toNat).filter (fun (i, j, k) =>
        s * i ≤ a ∧ a - s * i < kdi kernels k ∧ s * j ≤ b ∧ b - s * j < kdj kernels k) =
      visited kernels s a b re.dk.toNat := by
  unfold idx3 visited
  rw [List.filter_flatMap]
  apply flatMap_congr'
  intro k hk
  obtain ⟨h1, h2, h3, h4⟩ := h k (List.mem_range.mp hk)
  rw [List.filter_flatMap]
  unfold box
  rw [← axis_filter hs h1 h3, ← axis_filter hs h2 h4]
  generalize List.range re.dj.toNat = L
  induction L with
  | nil => rfl
  | cons j L ih =>
    rw [List.flatMap_cons, ih, List.filter_cons]
    by_cases hj : s * j ≤ b ∧ b - s * j < kdj kernels k
    · rw [if_pos (by simpa using hj), List.flatMap_cons]
      congr 1
      rw [List.filter_map]
      congr 1
      apply List.filter_congr
      intro i _
      simp only [Function.comp_apply, decide_eq_decide]
      tauto
    · rw [if_neg (by simpa using hj)]
      conv_rhs => rw [← List.nil_append (List.flatMap _ _)]
      congr 1
      rw [List.filter_eq_nil_iff]
      intro x hx
      rw [List.mem_map] at hx
      obtain ⟨i, _, rfl⟩ := hx
      simp only [decide_eq_true_eq]
      tauto

/-! ## Kernel gradient -/

theorem kernel_grad_char {b : Build} {incoming image grad : Tensor F} {s c : UInt32}
    (hi : incoming.WF) (him : image.WF) (hg : grad.WF) (hs : s.toNat ≠ 0)
    (hc : convFits image.shape grad.shape s incoming.shape c.toNat) :
    ∃ g', convolution_backprop_kernel b incoming image s c grad = .ok (.ok (), g') ∧ g'.WF ∧
      g'.shape = grad.shape ∧
      ∀ l m n, grad.shape.Inside l m n → val g' l m n =
        sum ((idx3 incoming.shape.di.toNat incoming.shape.dj.toNat
            incoming.shape.dk.toNat).map fun (i, j, k) =>
          mul (val image (l + i * s.toNat) (m + j * s.toNat) n) (val incoming i j k)) := by
  obtain ⟨hd, ⟨t1, t2⟩, hch⟩ := hc
  obtain ⟨g', q1, q2, q3, q4⟩ := loop3_write (b := b) grad hg
    (fun l m n => sum ((idx3 incoming.shape.di.toNat incoming.shape.dj.toNat
            incoming.shape.dk.toNat).map fun (i, j, k) =>
          mul (val image (l + i * s.toNat) (m + j * s.toNat) n) (val incoming i j k)))
    (fun n m l r => do
          let acc ← forRange 0 incoming.shape.dk (zero : F) fun k acc =>
            forRange 0 incoming.shape.dj acc fun j acc =>
              forRange 0 incoming.shape.di acc fun i acc => do
                let incoming_gradient_id ← incoming.get_data_index b ⟨i, j, k⟩
                let si ← mulU b i s
                let li ← addU b l si
                let sj ← mulU b j s
                let mj ← addU b m sj
                let image_id ← image.get_data_index b ⟨li, mj, n⟩
                let x ← vget image.data image_id.toNat
                let y ← vget incoming.data incoming_gradient_id.toNat
                pure (F32Ops.add acc (mul x y))
          r.write b ⟨l, m, n⟩ acc)
    (by
      intro l m n hin t _ _
      obtain ⟨h1, h2, h3⟩ := hin
      have n1 := u32_lt image.shape.di
      have n2 := u32_lt image.shape.dj
      rw [forRange3_fold _ _ _ _ _ F32Ops.add (fun (i, j, k) =>
          mul (val image (l + i * s.toNat) (m + j * s.toNat) n) (val incoming i j k))]
      · rfl
      · intro i j k a1 a2 a3 acc
        have b1 := tiles_lt t1 a1 h1
        have b2 := tiles_lt t2 a2 h2
        have i32 : i < 2 ^ 32 := Nat.lt_trans a1 (u32_lt _)
        have j32 : j < 2 ^ 32 := Nat.lt_trans a2 (u32_lt _)
        have ins : image.shape.Inside (l + i * s.toNat) (m + j * s.toNat) n :=
          ⟨by omega, by omega, by rw [hd]; exact h3⟩
        have e1 := get_data_index_ok (b := b) hi (i := i) (j := j) (k := k) ⟨a1, a2, a3⟩
        have e2 := get_data_index_ok (b := b) him ins
        have e3 := vget_pos hi (i := i) (j := j) (k := k) ⟨a1, a2, a3⟩
        have e4 := vget_pos him ins
        unfold ix at e1 e2
        rw [e1, ok_bind, mulU_nat' i32 (by omega), ok_bind, addU_nat (by omega), ok_bind,
          mulU_nat' j32 (by omega), ok_bind, addU_nat (by omega), ok_bind, e2, ok_bind, e4,
          ok_bind, e3, ok_bind]
        rfl)
  refine ⟨g', ?_, q2, q3, q4⟩
  unfold convolution_backprop_kernel
  rw [check_conv_ok hs ⟨hd, ⟨t1, t2⟩, hch⟩, ok_bind]
  simp only
  rw [q1]
  rfl

/-! ## The outgoing gradient is wrong on every other safe geometry -/

section Negation

open Toy

/-- all entries one -/
def onesT (s : TensorShape) : Tensor Int :=
  ⟨⟨1, s.di, UInt32.ofNat (s.di.toNat * s.dj.toNat)⟩, s, List.replicate s.count 1⟩

theorem onesT_wf {s : TensorShape} (h : s.Fits) : (onesT s).WF :=
  ⟨h, rfl, rfl, toNat_ofNat_lt h.1, by simp [onesT]⟩

theorem val_onesT {s : TensorShape} {i j k : Nat} (h : s.Inside i j k) :
    val (onesT s) i j k = 1 := by
  unfold val onesT
  simp only [List.getElem?_replicate]
  rw [if_pos (pos_lt h)]
  rfl

theorem sum_zero_of_forall (L : List Int) (h : ∀ x ∈ L, x = 0) : Spec.sum L = 0 := by
  unfold Spec.sum
  suffices H : ∀ a : Int, L.foldl F32Ops.add a = a from H 0
  induction L with
  | nil => intro a; rfl
  | cons x xs ih =>
    intro a
    rw [List.foldl_cons, h x (List.mem_cons_self ..)]
    rw [ih (fun y hy => h y (List.mem_cons_of_mem _ hy))]
    exact Int.add_zero a

theorem sum_pos_of_mem (L : List Int) (h : ∀ x ∈ L, 0 ≤ x) (h1 : (1 : Int) ∈ L) :
    1 ≤ Spec.sum L := by
  unfold Spec.sum
  have mono : ∀ (L : List Int) (a : Int), (∀ x ∈ L, 0 ≤ x) → a ≤ L.foldl F32Ops.add a := by
    intro L
    induction L with
    | nil => intro a _; exact Int.le_refl a
    | cons x xs ih =>
      intro a h
      rw [List.foldl_cons]
      have h2 := ih (F32Ops.add a x) (fun y hy => h y (List.mem_cons_of_mem _ hy))
      have h3 := h x (List.mem_cons_self ..)
      have h4 : (F32Ops.add a x : Int) = a + x := rfl
      omega
  suffices H : ∀ a : Int, 0 ≤ a → 1 ≤ L.foldl F32Ops.add a from H 0 (Int.le_refl 0)
  induction L with
  | nil => cases h1
  | cons x xs ih =>
    intro a ha
    rw [List.foldl_cons]
    have h4 : (F32Ops.add a x : Int) = a + x := rfl
    have hx := h x (List.mem_cons_self ..)
    rcases List.mem_cons.mp h1 with e | e
    · have := mono xs (F32Ops.add a x) (fun y hy => h y (List.mem_cons_of_mem _ hy))
      omega
    · exact ih (fun y hy => h y (List.mem_cons_of_mem _ hy)) e _ (by omega)

/-- one at `(i0, j0, 0)`, zero elsewhere -/
def deltaT (s : TensorShape) (i0 j0 : Nat) : Tensor Int := setE (zeros s) i0 j0 0 1

theorem val_deltaT {s : TensorShape} (hf : s.Fits) {i0 j0 i j k : Nat} (h0 : s.Inside i0 j0 0)
    (h : s.Inside i j k) :
    val (deltaT s i0 j0) i j k = if i0 = i ∧ j0 = j ∧ 0 = k then 1 else 0 := by
  unfold deltaT
  rw [val_setE (zeros_wf hf) h0 h, val_zeros]
  rfl

theorem outgoing_mismatch (b : Build) (image kernel result : TensorShape) (s : UInt32)
    (hfi : image.Fits) (hfk : kernel.Fits) (hfr : result.Fits)
    (hc : convFits image kernel s result 0)
    (hs : s ≠ 0) (hs31 : s.toNat < 2 ^ 31) (hdi : image.di.toNat ≤ 2 ^ 31)
    (hdj : image.dj.toNat ≤ 2 ^ 31) (hki : kernel.di ≠ 0) (hkj : kernel.dj ≠ 0)
    (si : kernel.di.toNat ≤ result.di.toNat ∨ kernel.di.toNat ≤ s.toNat)
    (sj : kernel.dj.toNat ≤ result.dj.toNat ∨ kernel.dj.toNat ≤ s.toNat)
    (a bb i0 j0 : Nat) (hin : image.Inside a bb 0) (h0 : result.Inside i0 j0 0)
    (hwi : s.toNat * i0 ≤ a ∧ a - s.toNat * i0 < kernel.di.toNat)
    (hwj : s.toNat * j0 ≤ bb ∧ bb - s.toNat * j0 < kernel.dj.toNat)
    (hmiss : ¬ ((startN a kernel.di.toNat s.toNat ≤ i0 ∧ i0 < stopN a kernel.di.toNat s.toNat) ∧
      (startN bb kernel.dj.toNat s.toNat ≤ j0 ∧ j0 < stopN bb kernel.dj.toNat s.toNat))) :
    ∃ (incoming outgoing o' : Tensor Int) (kernels : List (Tensor Int)) (a bb : Nat) (v : Int),
      incoming.WF ∧ incoming.shape = result ∧ outgoing.WF ∧ outgoing.shape = image ∧
      KernelsOk image result s kernels ∧ (∀ t ∈ kernels, t.shape = kernel) ∧
      convolution_backprop_outgoing_gradient b incoming kernels s outgoing = .ok (.ok (), o') ∧
      image.Inside a bb 0 ∧ o'.get_item b (ix a bb 0) = .ok v ∧
      v ≠ Spec.outgoing incoming kernels s.toNat a bb 0 := by
  have hs' : s.toNat ≠ 0 := fun h => hs (u32_ext h)
  have nz : ∀ x : UInt32, x ≠ 0 → x.toNat ≠ 0 := fun x h e => h (u32_ext e)
  let kernels : List (Tensor Int) := List.replicate result.dk.toNat (onesT kernel)
  have hlen : kernels.length = result.dk.toNat := List.length_replicate
  have hget : ∀ k (h : k < kernels.length), kernels[k] = onesT kernel := fun k h =>
    List.getElem_replicate h
  have hK : KernelsOk image result s kernels := ⟨hlen, fun k h => by
      rw [hget k h]; exact onesT_wf hfk, fun k h => by
      rw [hget k h]; exact ⟨hc.1, hc.2.1, by rw [← hlen]; exact h⟩⟩
  have edi : ∀ k, k < kernels.length → kdi kernels k = kernel.di.toNat := by
    intro k h; unfold kdi; rw [List.getElem?_eq_getElem h, hget k h]; rfl
  have edj : ∀ k, k < kernels.length → kdj kernels k = kernel.dj.toNat := by
    intro k h; unfold kdj; rw [List.getElem?_eq_getElem h, hget k h]; rfl
  obtain ⟨o', q1, q2, q3, q4⟩ := outgoing_char (b := b) (incoming := deltaT result i0 j0)
    (outgoing := zeros image) (kernels := kernels) (s := s) (setE_wf (zeros_wf hfr) ..)
    (zeros_wf hfi) hs' hs31 hK hdi hdj
    (fun k h => by rw [edi k h]; exact ⟨nz _ hki, si⟩)
    (fun k h => by rw [edj k h]; exact ⟨nz _ hkj, sj⟩)
  have hd0 : (deltaT result i0 j0).shape = result := rfl
  refine ⟨deltaT result i0 j0, zeros image, o', kernels, a, bb, 0, setE_wf (zeros_wf hfr) ..,
    rfl, zeros_wf hfi, rfl, hK, fun t ht => by rw [List.eq_of_mem_replicate ht]; rfl, q1, hin,
    ?_, ?_⟩
  · rw [get_item_ok q2 (by rw [q3]; exact hin), q4 a bb 0 hin]
    rw [sum_zero_of_forall]
    intro x hx
    rw [List.mem_map] at hx
    obtain ⟨⟨i, j, k⟩, hm, rfl⟩ := hx
    simp only [hd0] at hm ⊢
    unfold visited at hm
    rw [List.mem_flatMap] at hm
    obtain ⟨k', hk', hm⟩ := hm
    have hk'' := List.mem_range.mp hk'
    obtain ⟨m1, m2, rfl⟩ := mem_box.mp hm
    rw [edi k (by rw [hlen]; exact hk'')] at m1
    rw [edj k (by rw [hlen]; exact hk'')] at m2
    have r1 := visited_row hc.2.1.1 hin.1 si m1.2
    have r2 := visited_row hc.2.1.2 hin.2.1 sj m2.2
    rw [val_deltaT hfr h0 ⟨r1, r2, hk''⟩, if_neg]
    · exact Int.mul_zero _
    · rintro ⟨rfl, rfl, rfl⟩
      exact hmiss ⟨m1, m2⟩
  · suffices H : 1 ≤ Spec.outgoing (deltaT result i0 j0) kernels s.toNat a bb 0 by omega
    unfold Spec.outgoing
    apply sum_pos_of_mem
    · intro x hx
      rw [List.mem_map] at hx
      obtain ⟨⟨i, j, k⟩, hm, rfl⟩ := hx
      rw [List.mem_filter] at hm
      obtain ⟨m1, m2⟩ := hm
      have m1 := mem_idx3.mp m1
      simp only [decide_eq_true_eq] at m2 ⊢
      rw [val_deltaT hfr h0 m1]
      have hk : k < kernels.length := by rw [hlen]; exact m1.2.2
      have hkk : kernels[k]? = some (onesT kernel) := by
        rw [List.getElem?_eq_getElem hk, hget k hk]
      rw [hkk] at m2 ⊢
      simp only [Option.map_some, Option.getD_some] at m2 ⊢
      rw [val_onesT (s := kernel) ⟨m2.2.1, m2.2.2.2, by rw [← hc.1]; exact hin.2.2⟩]
      split <;> decide
    · rw [List.mem_map]
      have hk : 0 < kernels.length := by rw [hlen]; exact h0.2.2
      have hkk : kernels[0]? = some (onesT kernel) := by
        rw [List.getElem?_eq_getElem hk, hget 0 hk]
      refine ⟨(i0, j0, 0), ?_, ?_⟩
      · rw [List.mem_filter]
        refine ⟨mem_idx3.mpr h0, ?_⟩
        simp only [decide_eq_true_eq]
        rw [hkk]
        exact ⟨hwi.1, hwi.2, hwj.1, hwj.2⟩
      · simp only
        rw [hkk, val_deltaT hfr h0 h0, if_pos ⟨rfl, rfl, rfl⟩]
        simp only [Option.map_some, Option.getD_some]
        rw [val_onesT ⟨hwi.2, hwj.2, by rw [← hc.1]; exact hin.2.2⟩]
        rfl

theorem outgoing_negation (b : Build) (image kernel result : TensorShape) (s : UInt32)
    (hfi : image.Fits) (hfk : kernel.Fits) (hfr : result.Fits)
    (hc : convFits image kernel s result 0)
    (hs : s ≠ 0) (hs31 : s.toNat < 2 ^ 31) (hdi : image.di.toNat ≤ 2 ^ 31)
    (hdj : image.dj.toNat ≤ 2 ^ 31) (hdk : image.dk ≠ 0) (hki : kernel.di ≠ 0)
    (hkj : kernel.dj ≠ 0)
    (si : kernel.di.toNat ≤ result.di.toNat ∨ kernel.di.toNat ≤ s.toNat)
    (sj : kernel.dj.toNat ≤ result.dj.toNat ∨ kernel.dj.toNat ≤ s.toNat)
    (hbad : 2 ≤ s.toNat ∨ kernel.di.toNat < result.di.toNat ∨ kernel.dj.toNat < result.dj.toNat) :
    ∃ (incoming outgoing o' : Tensor Int) (kernels : List (Tensor Int)) (a bb : Nat) (v : Int),
      incoming.WF ∧ incoming.shape = result ∧ outgoing.WF ∧ outgoing.shape = image ∧
      KernelsOk image result s kernels ∧ (∀ t ∈ kernels, t.shape = kernel) ∧
      convolution_backprop_outgoing_gradient b incoming kernels s outgoing = .ok (.ok (), o') ∧
      image.Inside a bb 0 ∧ o'.get_item b (ix a bb 0) = .ok v ∧
      v ≠ Spec.outgoing incoming kernels s.toNat a bb 0 := by
  have nz : ∀ x : UInt32, x ≠ 0 → 1 ≤ x.toNat := fun x h =>
    Nat.one_le_iff_ne_zero.mpr fun e => h (u32_ext e)
  have hs1 := nz _ hs
  have k1 := nz _ hki
  have k2 := nz _ hkj
  have d1 := nz _ hdk
  obtain ⟨hcd, ⟨t1, t2⟩, hch⟩ := hc
  have le1 := tiles_le t1
  have le2 := tiles_le t2
  have mk := outgoing_mismatch b image kernel result s hfi hfk hfr ⟨hcd, ⟨t1, t2⟩, hch⟩ hs hs31 hdi
    hdj hki hkj si sj
  by_cases h2 : 2 ≤ s.toNat
  · refine mk (kernel.di.toNat - 1) 0 0 0 ⟨by omega, by omega, d1⟩ ⟨t1.1, t2.1, hch⟩ (by omega)
      (by omega) ?_
    rintro ⟨⟨h, _⟩, _⟩
    unfold startN at h
    rw [if_neg (by omega), if_pos (by omega)] at h
    omega
  · have e1 : s.toNat = 1 := by omega
    rw [e1] at t1 t2
    have t1' := t1.2
    have t2' := t2.2
    have t1'' := t1.1
    have t2'' := t2.1
    rcases hbad with h | h | h
    · omega
    · refine mk kernel.di.toNat 0 kernel.di.toNat 0 ⟨by omega, by omega, d1⟩ ⟨h, t2.1, hch⟩
        (by rw [e1]; omega) (by rw [e1]; omega) ?_
      rintro ⟨⟨_, h'⟩, _⟩
      unfold stopN at h'
      omega
    · refine mk 0 kernel.dj.toNat 0 kernel.dj.toNat ⟨by omega, by omega, d1⟩ ⟨t1.1, h, hch⟩
        (by rw [e1]; omega) (by rw [e1]; omega) ?_
      rintro ⟨_, _, h'⟩
      unfold stopN at h'
      omega

end Negation

end Rusty
