import Verif.Spec.Stride
import Verif.Lemmas.Split
import Verif.Lemmas.Pooling
import Verif.Lemmas.Locality

/-! # Helper lemmas: a stride written as a pooling layer -/

namespace Rusty

open F32Ops Spec

variable {F : Type} [F32Ops F]

theorem tiles_unstrided {d w s n n' : Nat} (h : tiles d w s n) (h' : tiles d w 1 n') : n' = (n - 1) * s + 1 := by
  obtain ⟨a1, a2⟩ := h
  obtain ⟨b1, b2⟩ := h'
  omega

theorem tiles_picks {n s m : Nat} (hs : s ≠ 0) (hn : 1 ≤ n) (h : tiles ((n - 1) * s + 1) 1 s m) : m = n := by
  obtain ⟨a1, a2⟩ := h
  have : (m - 1) * s = (n - 1) * s := by omega
  have := Nat.eq_of_mul_eq_mul_right (Nat.pos_of_ne_zero hs) this
  omega

omit [F32Ops F] in
/-- the windows of the two layers -/
theorem unstrided_shape {l l' : AnyLayer F} (hl : l.Ok) (hl' : l'.Ok) (hu : Unstrided l l') :
    l'.get_input_shape = l.get_input_shape ∧ l'.get_output_shape.dk = l.get_output_shape.dk ∧
    1 ≤ l.get_output_shape.di.toNat ∧ 1 ≤ l.get_output_shape.dj.toNat ∧ stride l ≠ 0 ∧
    l'.get_output_shape.di.toNat = (l.get_output_shape.di.toNat - 1) * stride l + 1 ∧
    l'.get_output_shape.dj.toNat = (l.get_output_shape.dj.toNat - 1) * stride l + 1 := by
  have nz : ∀ {x : UInt32}, x ≠ 0 → x.toNat ≠ 0 := fun h h' => h (u32_ext h')
  cases l with
  | conv l =>
    cases l' with
    | conv l' =>
      obtain ⟨h1, h2, h3, h4, h5⟩ := hu
      have hl : l.Ok := hl
      have hl' : l'.Ok := hl'
      cases hks : l.kernels with
      | nil => exact absurd hks h5
      | cons k ks =>
        have hk : k ∈ l.kernels := by rw [hks]; exact List.mem_cons_self
        have t := (hl.kernels k hk).2.2
        have t' := (hl'.kernels k (h2 ▸ hk)).2.2
        rw [h4, h1] at t'
        refine ⟨h4, u32_ext ?_, t.1.1, t.2.1, nz hl.stride, tiles_unstrided t.1 t'.1, tiles_unstrided t.2 t'.2⟩
        change l'.output_shape.dk.toNat = l.output_shape.dk.toNat
        rw [← hl.count, ← hl'.count, h2]
    | _ => exact hu.elim
  | mp l =>
    cases l' with
    | mp l' =>
      obtain ⟨h1, h2, h3⟩ := hu
      have hl : l.Ok := hl
      have hl' : l'.Ok := hl'
      have t := hl.tiles
      have t' := hl'.tiles
      rw [h1, h2, h3] at t'
      refine ⟨h3, ?_, t.1.1, t.2.1, nz hl.stride, tiles_unstrided t.1 t'.1, tiles_unstrided t.2 t'.2⟩
      change l'.output_shape.dk = l.output_shape.dk
      rw [hl.depth, hl'.depth, h3]
    | _ => exact hu.elim
  | fc l => cases l' <;> exact hu.elim
  | sm l => cases l' <;> exact hu.elim

omit [F32Ops F] in
theorem unstrided_inside {l l' : AnyLayer F} (hl : l.Ok) (hl' : l'.Ok) (hu : Unstrided l l') {i j k : Nat}
    (hin : l.get_output_shape.Inside i j k) : l'.get_output_shape.Inside (i * stride l) (j * stride l) k := by
  obtain ⟨_, e1, _, _, _, e2, e3⟩ := unstrided_shape hl hl' hu
  obtain ⟨a1, a2, a3⟩ := hin
  have m1 := Nat.mul_le_mul_right (stride l) (show i ≤ l.get_output_shape.di.toNat - 1 by omega)
  have m2 := Nat.mul_le_mul_right (stride l) (show j ≤ l.get_output_shape.dj.toNat - 1 by omega)
  exact ⟨by rw [e2]; omega, by rw [e3]; omega, by rw [e1]; exact a3⟩

/-- the values, if the modes are the same -/
theorem unstrided_value {l l' : AnyLayer F} (hu : Unstrided l l') (hm : l'.get_run_mode = l.get_run_mode)
    (x : Tensor F) (i j k : Nat) :
    layerAt l x i j k = layerAt l' x (i * stride l) (j * stride l) k := by
  cases l with
  | conv l =>
    cases l' with
    | conv l' =>
      obtain ⟨h1, h2, h3, h4, h5⟩ := hu
      have hm : l'.run_state = l.run_state := hm
      simp only [layerAt, hm, convPre, h2, h3, h1]
      congr 1
      cases l.kernels[k]? with
      | none => rfl
      | some kernel =>
        cases l.biases[k]? with
        | none => rfl
        | some bias =>
          simp only [conv, stride]
          have : (1 : UInt32).toNat = 1 := rfl
          simp only [this, Nat.mul_one]
    | _ => exact hu.elim
  | mp l =>
    cases l' with
    | mp l' =>
      obtain ⟨h1, h2, h3⟩ := hu
      have : (1 : UInt32).toNat = 1 := rfl
      simp only [layerAt, window, h1, h2, stride, this, Nat.mul_one]
    | _ => exact hu.elim
  | fc l => cases l' <;> exact hu.elim
  | sm l => cases l' <;> exact hu.elim

/-- what comes out of a convolution or of pooling is kept by taking the maximum of it alone -/
theorem sliding_kept [F32Order F] [MaxZero F] (hz : gt (zero : F) negInf = true) {l : AnyLayer F} (hs : Sliding l)
    (x : Tensor F) (i j k : Nat) : maxOf [layerAt l x i j k] = layerAt l x i j k := by
  have key : ∀ v : F, gt v negInf = true ∨ v = negInf → maxOf [v] = v := by
    intro v hv
    unfold maxOf
    simp only [List.foldl_cons, List.foldl_nil]
    split
    · rfl
    · rename_i h
      exact (hv.resolve_left h).symm
  cases l with
  | conv l =>
    refine key _ (.inl ?_)
    have ha : ∀ (m : NetworkRunState) (v : F), Summed v → act m v = relu v := by
      intro m v hv
      cases m
      · simp only [act, MaxZero.fmax_zero v hv, relu]
      · rfl
    simp only [layerAt]
    rw [ha _ _ (summed_convPre _ _ _ _ _)]
    unfold relu
    split
    · rename_i h
      exact F32Order.gt_trans _ _ _ h hz
    · exact hz
  | mp l =>
    refine key _ ?_
    simp only [layerAt]
    rcases (runMax_spec (window x l.mask_shape l.stride.toNat i j k)).2 with h | h
    · exact .inl h.2
    · exact .inr h.1
  | fc l => exact hs.elim
  | sm l => exact hs.elim

/-- a layer with stride 1 whatever its mode, then a layer that picks -/
theorem picks_value [F32Order F] [MaxZero F] (hz : gt (zero : F) negInf = true) {l l' p : AnyLayer F} (hl : l.Ok)
    (hl' : l'.Ok) (hu : Unstrided l l') (hp : TakesEvery (stride l) p) {b : Build}
    {x y : Tensor F} (ha : applies b l' x y)
    {i j k : Nat} (hin : l.get_output_shape.Inside i j k) : layerAt p y i j k = layerAt l x i j k := by
  cases p with
  | mp p =>
    obtain ⟨h1, h2, h3⟩ := hp
    have hw : window y p.mask_shape p.stride.toNat i j k = [val y (i * stride l) (j * stride l) k] := by
      have : (1 : UInt32).toNat = 1 := rfl
      unfold window
      rw [h1, h2, h3, this]
      rfl
    have hmode : ∃ l'' : AnyLayer F, Unstrided l l'' ∧ l''.get_run_mode = l.get_run_mode ∧ params l'' = params l' := by
      cases l with
      | conv l =>
        cases l' with
        | conv l' => exact ⟨.conv { l' with run_state := l.run_state }, hu, rfl, rfl⟩
        | _ => exact hu.elim
      | mp l =>
        cases l' with
        | mp l' => exact ⟨.mp { l' with run_state := l.run_state }, hu, rfl, rfl⟩
        | _ => exact hu.elim
      | fc l => cases l' <;> exact hu.elim
      | sm l => cases l' <;> exact hu.elim
    obtain ⟨l'', u1, u2, u3⟩ := hmode
    have hs : Sliding l := by
      cases l with
      | conv l =>
        cases l' with
        | conv l' => exact hu.2.2.2.2
        | _ => exact hu.elim
      | mp l => exact trivial
      | fc l => cases l' <;> exact hu.elim
      | sm l => cases l' <;> exact hu.elim
    have e : val y (i * stride l) (j * stride l) k = layerAt l x i j k := by
      rw [applies_val ha (unstrided_inside hl hl' hu hin), ← layerAt_mode u3, unstrided_value u1 u2]
    change maxOf (window y p.mask_shape p.stride.toNat i j k) = _
    rw [hw, e, sliding_kept hz hs]
  | _ => exact hp.elim

omit [F32Ops F] in
theorem picks_shape {l l' p : AnyLayer F} (hl : l.Ok) (hl' : l'.Ok) (hp' : p.Ok) (hu : Unstrided l l')
    (hp : TakesEvery (stride l) p) (hi : p.get_input_shape = l'.get_output_shape) :
    p.get_output_shape = l.get_output_shape := by
  obtain ⟨_, e1, e2, e3, e4, e5, e6⟩ := unstrided_shape hl hl' hu
  cases p with
  | mp p =>
    obtain ⟨h1, h2, h3⟩ := hp
    have hp' : p.Ok := hp'
    have hi : p.input_shape = l'.get_output_shape := hi
    have t := hp'.tiles
    unfold windowsTile at t
    have one : (1 : UInt32).toNat = 1 := rfl
    rw [hi, h1, h2, h3, e5, e6, one] at t
    have f1 := tiles_picks e4 e2 t.1
    have f2 := tiles_picks e4 e3 t.2
    have f3 : p.output_shape.dk = l.get_output_shape.dk := by rw [hp'.depth, hi, e1]
    change p.output_shape = l.get_output_shape
    cases ha : p.output_shape
    cases hb : l.get_output_shape
    rw [ha, hb] at f1 f2 f3
    simp only at f1 f2 f3
    rw [u32_ext f1, u32_ext f2, f3]
  | _ => exact hp.elim

end Rusty
