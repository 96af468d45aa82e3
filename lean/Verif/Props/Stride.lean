import Verif.Lemmas.Stride
import Verif.Lemmas.IEEELaws
import Verif.Props.PoolTwice

/-! # C139: a stride only leaves out windows -/

namespace Rusty

open F32Ops Spec

variable {F : Type} [F32Ops F]

/-- C139: let `l'` be the convolutional or max-pool layer `l` with stride 1, in the same mode.  Then entry
`(i,j,k)` of the output of `l` is the entry of the output of `l'` at `stride` times `(i,j)`, bit for bit and
in any arithmetic. -/
theorem C139_windows (b : Build) (l l' : AnyLayer F) (hl : l.Ok) (hl' : l'.Ok) (hu : Unstrided l l')
    (hm : l'.get_run_mode = l.get_run_mode) (x o o' : Tensor F) (hx : x.WF) (hxs : x.shape = l.get_input_shape)
    (ho : o.WF) (hos : o.shape = l.get_output_shape) (ho' : o'.WF) (hos' : o'.shape = l'.get_output_shape) :
    ∃ l1 l1' y y', l.forward b x o = .ok (.ok (), l1, y) ∧ l'.forward b x o' = .ok (.ok (), l1', y') ∧
      y.shape = l.get_output_shape ∧ y'.shape = l'.get_output_shape ∧
      ∀ i j k, l.get_output_shape.Inside i j k →
        l'.get_output_shape.Inside (i * stride l) (j * stride l) k ∧
        ∃ v, y.get_item b (ix i j k) = .ok v ∧ y'.get_item b (ix (i * stride l) (j * stride l) k) = .ok v := by
  obtain ⟨e0, _⟩ := unstrided_shape hl hl' hu
  obtain ⟨l1, y, p1, p2, p3, p4⟩ := forward_ok (b := b) hl hx hxs ho hos
  obtain ⟨l1', y', q1, q2, q3, q4⟩ := forward_ok (b := b) hl' hx (hxs.trans e0.symm) ho' hos'
  refine ⟨l1, l1', y, y', p1, q1, p3, q3, fun i j k hin => ?_⟩
  have hin' := unstrided_inside hl hl' hu hin
  refine ⟨hin', _, get_item_ok p2 (by rw [p3]; exact hin), ?_⟩
  rw [get_item_ok q2 (by rw [q3]; exact hin'), p4 i j k hin, q4 _ _ _ hin', unstrided_value hu hm]

/-- C139: in every network a layer with a stride can be replaced by the same layer with stride 1, followed by
a max-pool layer with a 1x1 mask and that stride.  All predictions and all states before and after that place
stay the same, bit for bit, for every input, also with NaN and infinite entries, in any modes. -/
theorem C139_infer [F32Order F] [MaxZero F] (hz : gt (zero : F) negInf = true) (b : Build) (n m : Net F)
    (hn : Built b n) (hm : Built b m) (A A' C C' : List (AnyLayer F)) (l l' p : AnyLayer F)
    (hnl : n.get_layers = A ++ l :: C) (hml : m.get_layers = A' ++ l' :: p :: C')
    (hA : A'.map params = A.map params) (hC : C'.map params = C.map params)
    (hu : Unstrided l l') (hp : TakesEvery (stride l) p)
    (x : Tensor F) (hx : x.WF) (hxs : x.shape = n.get_input_shape) :
    m.get_input_shape = n.get_input_shape ∧
    ∃ n1 m1, n.infer b x = .ok (.ok (), n1) ∧ m.infer b x = .ok (.ok (), m1) ∧ n1.get_output = m1.get_output ∧
      (∀ i, i ≤ A.length → n1.get_intermediate_state i = m1.get_intermediate_state i) ∧
      ∀ i, A.length < i → i ≤ n.get_layers.length →
        n1.get_intermediate_state i = m1.get_intermediate_state (i + 1) := by
  have hokn := built_netOk hn
  have hokm := built_netOk hm
  have hnl : n.layers = A ++ l :: C := hnl
  have hml : m.layers = A' ++ l' :: p :: C' := hml
  have hAl : A'.length = A.length := by simpa using congrArg List.length hA
  have hCl : C'.length = C.length := by simpa using congrArg List.length hC
  have nlen : n.layers.length = A.length + C.length + 1 := by rw [hnl]; simp; omega
  have mlen : m.layers.length = A.length + C.length + 2 := by rw [hml]; simp; omega
  have atl : n.layers[A.length]? = some l := by rw [hnl]; simp
  have atl' : m.layers[A.length]? = some l' := by rw [hml, ← hAl]; simp
  have atp : m.layers[A.length + 1]? = some p := by rw [hml, ← hAl]; simp
  have hl := hokn.layers _ (List.mem_of_getElem? atl)
  have hl' := hokm.layers _ (List.mem_of_getElem? atl')
  have hpo := hokm.layers _ (List.mem_of_getElem? atp)
  have before : ∀ (i : Nat) l', A'[i]? = some l' → ∃ l, n.layers[i]? = some l ∧ params l = params l' := by
    intro i l' h
    have hi : i < A.length := by rw [← hAl]; exact (List.getElem?_eq_some_iff.mp h).1
    have := congrArg (fun z => z[i]?) hA
    simp only [List.getElem?_map, h, Option.map_some] at this
    obtain ⟨l, q1, q2⟩ := Option.map_eq_some_iff.mp this.symm
    exact ⟨l, by rw [hnl, List.getElem?_append_left hi]; exact q1, q2⟩
  have beforem : ∀ (i : Nat) l', A'[i]? = some l' → m.layers[i]? = some l' := by
    intro i l' h
    rw [hml, List.getElem?_append_left (List.getElem?_eq_some_iff.mp h).1]
    exact h
  have after : ∀ (i : Nat) l', C'[i]? = some l' → ∃ l, n.layers[A.length + 1 + i]? = some l ∧ params l = params l' := by
    intro i l' h
    have := congrArg (fun z => z[i]?) hC
    simp only [List.getElem?_map, h, Option.map_some] at this
    obtain ⟨l, q1, q2⟩ := Option.map_eq_some_iff.mp this.symm
    refine ⟨l, ?_, q2⟩
    rw [hnl, List.getElem?_append_right (by omega), show A.length + 1 + i - A.length = i + 1 by omega,
      List.getElem?_cons_succ]
    exact q1
  have afterm : ∀ (i : Nat) l', C'[i]? = some l' → m.layers[A.length + 2 + i]? = some l' := by
    intro i l' h
    rw [hml, List.getElem?_append_right (by omega), show A.length + 2 + i - A'.length = i + 1 + 1 by omega,
      List.getElem?_cons_succ, List.getElem?_cons_succ]
    exact h
  have hsh : m.input_shape = n.input_shape := by
    rcases Nat.eq_zero_or_pos A.length with h0 | h0
    · rw [h0] at atl atl'
      have e1 : n.input_shape = _ := hokn.chain.first _ (by rw [List.head?_eq_getElem?]; exact atl)
      have e2 : m.input_shape = _ := hokm.chain.first _ (by rw [List.head?_eq_getElem?]; exact atl')
      rw [e1, e2, (unstrided_shape hl hl' hu).1]
    · have q0 : A'[0]? = some (A'[0]'(by omega)) := List.getElem?_eq_getElem _
      obtain ⟨l0, q1, q2⟩ := before 0 _ q0
      have e1 : n.input_shape = _ := hokn.chain.first _ (by rw [List.head?_eq_getElem?]; exact q1)
      have e2 : m.input_shape = _ :=
        hokm.chain.first _ (by rw [List.head?_eq_getElem?]; exact beforem _ _ q0)
      rw [e1, e2, params_input q2]
  have hnen : n.layers ≠ [] := fun h => by rw [h] at nlen; simp at nlen
  have hnem : m.layers ≠ [] := fun h => by rw [h] at mlen; simp at mlen
  obtain ⟨n1, c1, c2, c3⟩ := infer_ok (b := b) hokn hnen hx hxs
  obtain ⟨m1, a1, a2, a3⟩ := infer_ok (b := b) hokm hnem hx (hxs.trans hsh.symm)
  refine ⟨hsh, n1, m1, c1, a1, ?_⟩
  have am : ∀ (i : Nat) l, m.layers[i]? = some l → ∃ s s', m1.intermediate_states[i]? = some s ∧
      m1.intermediate_states[i + 1]? = some s' ∧ applies b l s s' := fun i l hi => by
    obtain ⟨s, s', h1, h2, h3, _⟩ := a3 i l hi; exact ⟨s, s', h1, h2, h3⟩
  have an : ∀ (i : Nat) l, n.layers[i]? = some l → ∃ s s', n1.intermediate_states[i]? = some s ∧
      n1.intermediate_states[i + 1]? = some s' ∧ applies b l s s' := fun i l hi => by
    obtain ⟨s, s', h1, h2, h3, _⟩ := c3 i l hi; exact ⟨s, s', h1, h2, h3⟩
  have k1 : ∀ i, i ≤ A.length → n1.intermediate_states[i]? = m1.intermediate_states[i]? := by
    intro i hi
    have := states_follow (b := b) (ls := n.layers) (ls' := A') (ss' := m1.intermediate_states) 0
      (fun i l' h => by
        obtain ⟨l, q1, q2⟩ := before i l' h
        rw [Nat.zero_add]
        exact ⟨l, q1, params_output q2, layerAt_mode q2⟩)
      (c2.trans a2.symm) an (fun i l' h => am i l' (beforem i l' h)) i (by omega)
    rwa [Nat.zero_add] at this
  have k2 : n1.intermediate_states[A.length + 1]? = m1.intermediate_states[A.length + 2]? := by
    obtain ⟨s, y, h1, h2, h3⟩ := an _ _ atl
    obtain ⟨s', y', g1, g2, g3⟩ := am _ _ atl'
    obtain ⟨y'', z, f1, f2, f3⟩ := am _ _ atp
    have e : s = s' := by
      have := k1 _ (Nat.le_refl _)
      rw [h1, g1] at this
      exact Option.some.inj this
    subst e
    obtain rfl : y' = y'' := by rw [g2] at f1; exact Option.some.inj f1
    have hps := picks_shape hl hl' hpo hu hp (hokm.chain.links _ _ _ atl' atp).symm
    rw [h2, f2, tensor_ext h3.1 f3.1 (h3.2.1.trans (hps.symm.trans f3.2.1.symm)) fun i j k hin => ?_]
    rw [h3.2.1] at hin
    rw [applies_val h3 hin, applies_val f3 (by rw [hps]; exact hin), picks_value hz hl hl' hu hp g3 hin]
  have k3 : ∀ i, i ≤ C.length →
      n1.intermediate_states[A.length + 1 + i]? = m1.intermediate_states[A.length + 2 + i]? := by
    intro i hi
    have := states_follow (b := b) (ls := n.layers) (ls' := C')
      (ss' := m1.intermediate_states.drop (A.length + 2)) (ss := n1.intermediate_states) (A.length + 1)
      (fun i l' h => by
        obtain ⟨l, q1, q2⟩ := after i l' h
        exact ⟨l, q1, params_output q2, layerAt_mode q2⟩)
      (by rw [List.getElem?_drop]; exact k2) an
      (fun i l' h => by
        obtain ⟨s, s', h1, h2, h3⟩ := am _ l' (afterm i l' h)
        exact ⟨s, s', by rw [List.getElem?_drop]; exact h1, by rw [List.getElem?_drop]; exact h2, h3⟩)
      i (by omega)
    rwa [List.getElem?_drop] at this
  refine ⟨?_, fun i hi => ?_, fun i hi hi2 => ?_⟩
  · obtain ⟨u, u1, u2⟩ := infer_last_state hokn hnen c1
    obtain ⟨v, v1, v2⟩ := infer_last_state hokm hnem a1
    rw [show n.layers.length = A.length + 1 + C.length by omega, k3 _ (Nat.le_refl _),
      show A.length + 2 + C.length = m.layers.length by omega, v2] at u2
    rw [u1, v1, Option.some.inj u2]
  · unfold Network.get_intermediate_state; rw [k1 i hi]
  · have hi2 : i ≤ n.layers.length := hi2
    have := k3 (i - (A.length + 1)) (by omega)
    rw [show A.length + 1 + (i - (A.length + 1)) = i by omega,
      show A.length + 2 + (i - (A.length + 1)) = i + 1 by omega] at this
    unfold Network.get_intermediate_state
    rw [this]

open F32 in
/-- C139 for IEEE floats, whatever the system's `exp` -/
theorem C139_ieee [Libm] (b : Build) (n m : Net F32) (hn : Built b n) (hm : Built b m)
    (A A' C C' : List (AnyLayer F32)) (l l' p : AnyLayer F32)
    (hnl : n.get_layers = A ++ l :: C) (hml : m.get_layers = A' ++ l' :: p :: C')
    (hA : A'.map params = A.map params) (hC : C'.map params = C.map params)
    (hu : Unstrided l l') (hp : TakesEvery (stride l) p) (x : Tensor F32) (hx : x.WF)
    (hxs : x.shape = n.get_input_shape) :
    ∃ n1 m1, n.infer b x = .ok (.ok (), n1) ∧ m.infer b x = .ok (.ok (), m1) ∧ n1.get_output = m1.get_output := by
  have hz : F32Ops.gt (F32Ops.zero : F32) F32Ops.negInf = true := by
    change F32.gt ⟨0⟩ (F32.mk' true F32.infCode) = true
    decide
  obtain ⟨_, n1, m1, h1, h2, h3, _⟩ := C139_infer hz b n m hn hm A A' C C' l l' p hnl hml hA hC hu hp x hx hxs
  exact ⟨n1, m1, h1, h2, h3⟩

/-! The hypotheses can be met: 2x2 windows with stride 2 on a 4x4 image, and the 2x2 windows with stride 1 of
which every second row and column is taken. -/

/-- a max-pool layer for inference -/
def exStride (m : UInt32) (s : UInt32) (i o : UInt32) : MaxPoolLayer :=
  { mask_shape := ⟨m, m, 1⟩, stride := s, input_shape := ⟨i, i, 1⟩, output_shape := ⟨o, o, 1⟩, name := "m",
    run_state := .Inference, max_pool_origin := [] }

theorem exStride_ok : (exStride 2 2 4 2).Ok ∧ (exStride 2 1 4 3).Ok ∧ (exStride 1 2 3 2).Ok :=
  ⟨⟨by decide, by decide, rfl, by decide, by decide, fun h => by cases h⟩,
    ⟨by decide, by decide, rfl, by decide, by decide, fun h => by cases h⟩,
    ⟨by decide, by decide, rfl, by decide, by decide, fun h => by cases h⟩⟩

open Toy in
example (b : Build) : gt (zero : Int) negInf = true ∧ @F32Order Int toyOps ∧ @MaxZero Int toyOps ∧
    ∃ (n m n1 m1 : Net Int) (y : Tensor Int), Built b n ∧ Built b m ∧
      n.get_layers = [] ++ .mp (exStride 2 2 4 2) :: [] ∧
      m.get_layers = [] ++ .mp (exStride 2 1 4 3) :: .mp (exStride 1 2 3 2) :: [] ∧
      Unstrided (F := Int) (.mp (exStride 2 2 4 2)) (.mp (exStride 2 1 4 3)) ∧
      TakesEvery (F := Int) (stride (.mp (exStride 2 2 4 2) : AnyLayer Int)) (.mp (exStride 1 2 3 2)) ∧
      exTwice.shape = n.get_input_shape ∧ n.infer b exTwice = .ok (.ok (), n1) ∧
      m.infer b exTwice = .ok (.ok (), m1) ∧ n1.get_output = .ok y ∧ m1.get_output = .ok y ∧
      y.data = [8, 7, 9, 8] :=
  ⟨by decide, toyOrder, toyMaxZero, _, _, _, _, _,
    .add_layer (Network.new .Inference) (.mp (exStride 2 2 4 2)) (.ok ()) _ (.new _) exStride_ok.1
      (by cases b <;> rfl),
    .add_layer _ (.mp (exStride 1 2 3 2)) (.ok ()) _ (.add_layer (Network.new .Inference)
      (.mp (exStride 2 1 4 3)) (.ok ()) _ (.new _) exStride_ok.2.1 (by cases b <;> rfl)) exStride_ok.2.2
      (by cases b <;> rfl),
    rfl, rfl, ⟨rfl, rfl, rfl⟩, ⟨rfl, rfl, rfl⟩, rfl, by cases b <;> rfl, by cases b <;> rfl, rfl, rfl, rfl⟩

end Rusty
