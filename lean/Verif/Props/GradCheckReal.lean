import Verif.Lemmas.GradCheckReal
import Verif.Props.Rescaling

/-! # C130 for the networks of the program, in exact arithmetic: the difference of two predictions is
exactly the change times what `backward` collects, as long as the change switches no unit on or off. -/

namespace Rusty

open F32Ops Spec Exact

/-- C130: changing the parameters of one layer (one of them or all at once). -/
theorem C130_real_layer (b : Build) (n m : Net ℝ) (hn : Trains b n) (hm : Built b m) (fs fs' : List (FullyConnectedLayer ℝ))
    (hfs : n.get_layers = fs.map .fc) (hfs' : m.get_layers = fs'.map .fc) (c : Nat) (h : OnlyLayer c fs fs')
    (l l' : FullyConnectedLayer ℝ) (hl : fs[c]? = some l) (hl' : fs'[c]? = some l')
    (x g : Tensor ℝ) (hx : x.WF) (hxs : x.shape = n.get_input_shape) (hg : g.WF) (hgs : g.shape = n.get_output_shape)
    (hact : SameActive b n x m x) :
    ∃ n1 n2 m1 y z l2, n.infer b x = .ok (.ok (), n1) ∧ n1.get_output = .ok y ∧ n1.backward b g = .ok (.ok (), n2) ∧
      m.infer b x = .ok (.ok (), m1) ∧ m1.get_output = .ok z ∧ n2.get_layers[c]? = some (.fc l2) ∧
      ∑ k ∈ Finset.range n.get_output_shape.di.toNat, val g k 0 0 * (val z k 0 0 - val y k 0 0) =
        ∑ o ∈ Finset.range l.weights.shape.di.toNat,
          ((val l'.bias o 0 0 - val l.bias o 0 0) * (val l2.bias_gradients o 0 0 - val l.bias_gradients o 0 0) +
           ∑ i ∈ Finset.range l.weights.shape.dj.toNat, (val l'.weights o i 0 - val l.weights o i 0) *
             (val l2.weights_gradients o i 0 - val l.weights_gradients o i 0)) := by
  have hne : fs ≠ [] := fun e => by rw [e] at hl; simp at hl
  obtain ⟨n1, n2, m1, S, T, G, a1, a2, a3, s0, t0, gN, o1, o2, _, a4⟩ := two_runs b n m hn hm fs fs' hfs hfs' hne h.1
    (fun k l l' p q => (h.2 k l l' p q).1) x x g hx hxs hx hxs hg hgs hact
  obtain ⟨okl, okl', p1, p2, l2, p3, p4, p5⟩ := a4 c l l' hl hl'
  have hc : c < fs.length := (List.getElem?_eq_some_iff.mp hl).1
  have get' : ∀ k (hk : k < fs.length), fs'[k]? = some (fs'[k]'(h.1 ▸ hk)) := fun k hk =>
    List.getElem?_eq_getElem (h.1 ▸ hk)
  have hST : ∀ k, k ≤ c → T k = S k := by
    intro k
    induction k with
    | zero => intro _; rw [s0, t0]
    | succ k ih =>
      intro hk
      have hkl : k < fs.length := by omega
      obtain ⟨ok1, ok1', q1, q2, _⟩ := a4 k _ _ (List.getElem?_eq_getElem hkl) (get' k hkl)
      obtain ⟨e0, e⟩ := h.2 k _ _ (List.getElem?_eq_getElem hkl) (get' k hkl)
      obtain ⟨e1, e2⟩ := e (by omega)
      rw [ih (by omega)] at q2
      have hs : (T (k + 1)).shape = (S (k + 1)).shape := by
        rw [q2.2.1, q1.2.1]
        change (fs'[k]'_).bias.shape = (fs[k]).bias.shape
        rw [e2]
      refine tensor_ext q2.1 q1.1 hs fun i j d hin => ?_
      rw [applies_val q2 (by rw [← q2.2.1]; exact hin), applies_val q1 (by rw [← q1.2.1, ← hs]; exact hin)]
      simp only [layerAt, act_real, preact, e1, e2]
  refine ⟨n1, n2, m1, _, _, l2, a1, o1, a2, a3, o2, p3, ?_⟩
  have key := two_runs_sum (N := fs.length) (W := width n fs) (D := fun k o => val (G k) o 0 0 * (val (T k) o 0 0 - val (S k) o 0 0))
    (E := fun k => if k = c then ∑ o ∈ Finset.range l.weights.shape.di.toNat,
          ((val l'.bias o 0 0 - val l.bias o 0 0) * (val l2.bias_gradients o 0 0 - val l.bias_gradients o 0 0) +
           ∑ i ∈ Finset.range l.weights.shape.dj.toNat, (val l'.weights o i 0 - val l.weights o i 0) *
             (val l2.weights_gradients o i 0 - val l.weights_gradients o i 0)) else 0) fun k hk => by
      rw [width_in (trains_built hn) hfs (List.getElem?_eq_getElem hk)]
      by_cases hkc : k = c
      · subst hkc
        rw [List.getElem?_eq_getElem hk] at hl
        obtain rfl := Option.some.inj hl
        simp only [width, List.getElem?_eq_getElem hk]
        rw [if_pos trivial, p5]
        congr 1
        refine Finset.sum_congr rfl fun o ho => ?_
        rw [mul_add, add_comm, mul_comm, Finset.mul_sum]
        congr 1
        refine Finset.sum_congr rfl fun i hi => ?_
        rw [p4 o (Finset.mem_range.mp ho) i (Finset.mem_range.mp hi), hST k (le_refl k)]
        ring
      · obtain ⟨_, _, _, _, f, _, _, q⟩ := a4 k _ _ (List.getElem?_eq_getElem hk) (get' k hk)
        obtain ⟨e1, e2⟩ := (h.2 k _ _ (List.getElem?_eq_getElem hk) (get' k hk)).2 hkc
        simp only [width, List.getElem?_eq_getElem hk]
        rw [if_neg hkc, q, e1, e2]
        simp
  rw [width_out (trains_built hn) hfs hne, gN, s0, t0, Finset.sum_ite_eq' (Finset.range fs.length) c] at key
  simp only [sub_self, mul_zero, Finset.sum_const_zero, zero_add, Finset.mem_range, hc, if_true] at key
  exact key

/-- C130: changing the input. -/
theorem C130_real_input (b : Build) (n : Net ℝ) (hn : Trains b n) (fs : List (FullyConnectedLayer ℝ))
    (hfs : n.get_layers = fs.map .fc) (hne : fs ≠ []) (x x' g : Tensor ℝ) (hx : x.WF) (hxs : x.shape = n.get_input_shape)
    (hx' : x'.WF) (hxs' : x'.shape = n.get_input_shape) (hg : g.WF) (hgs : g.shape = n.get_output_shape)
    (hact : SameActive b n x n x') :
    ∃ n1 n2 m1 y z g0, n.infer b x = .ok (.ok (), n1) ∧ n1.get_output = .ok y ∧ n1.backward b g = .ok (.ok (), n2) ∧
      n.infer b x' = .ok (.ok (), m1) ∧ m1.get_output = .ok z ∧ n2.intermediate_gradients[0]? = some g0 ∧
      ∑ k ∈ Finset.range n.get_output_shape.di.toNat, val g k 0 0 * (val z k 0 0 - val y k 0 0) =
        ∑ i ∈ Finset.range n.get_input_shape.di.toNat, val g0 i 0 0 * (val x' i 0 0 - val x i 0 0) := by
  obtain ⟨n1, n2, m1, S, T, G, a1, a2, a3, s0, t0, gN, o1, o2, g0, a4⟩ := two_runs b n n hn (trains_built hn) fs fs hfs hfs
    hne rfl (fun k l l' p q => by rw [p] at q; rw [Option.some.inj q]) x x' g hx hxs hx' hxs' hg hgs hact
  refine ⟨n1, n2, m1, _, _, _, a1, o1, a2, a3, o2, g0, ?_⟩
  have key := two_runs_sum (N := fs.length) (W := width n fs) (D := fun k o => val (G k) o 0 0 * (val (T k) o 0 0 - val (S k) o 0 0))
    (E := fun _ => 0) fun k hk => by
      rw [width_in (trains_built hn) hfs (List.getElem?_eq_getElem hk)]
      obtain ⟨_, _, _, _, f, _, _, q⟩ := a4 k _ _ (List.getElem?_eq_getElem hk) (List.getElem?_eq_getElem hk)
      simp only [width, List.getElem?_eq_getElem hk]
      rw [q]
      simp
  rw [width_out (trains_built hn) hfs hne, gN, s0, t0] at key
  simpa [width] using key

theorem exOneR_step {b : Build} {w v : ℝ} (hw : 0 < w) (hv : 0 < v) {s s' : Tensor ℝ} (hs : 0 < val s 0 0 0)
    (h : applies b (.fc (exOneR w v)) s s') : 0 < val s' 0 0 0 := by
  rw [applies_val h (show (unitT v).shape.Inside 0 0 0 by simp only [unitT]; decide)]
  simp only [layerAt, act_real, preact_real]
  have : preact (exOneR w v) s 0 = w * val s 0 0 0 + v := by
    rw [preact_real]
    have e : (exOneR w v).weights.shape.dj.toNat = 1 := rfl
    rw [e, Finset.sum_range_one]
    rfl
  rw [preact_real] at this
  rw [this]
  exact lt_max_of_lt_left (by positivity)

theorem exOneR_active {b : Build} {n : Net ℝ} (hn : Trains b n) {w v w' v' x : ℝ} (hw : 0 < w) (hv : 0 < v) (hw' : 0 < w')
    (hv' : 0 < v') (hx : 0 < x) (hl : n.get_layers = [.fc (exOneR w v), .fc (exOneR w' v')])
    (hi : n.get_input_shape = ⟨1, 1, 1⟩) {n1 : Net ℝ} (h : n.infer b (unitT x) = .ok (.ok (), n1)) {k : Nat} {s : Tensor ℝ}
    (hs : n1.get_intermediate_state (k + 1) = .ok s) : s.shape = ⟨1, 1, 1⟩ ∧ 0 < val s 0 0 0 := by
  obtain ⟨n1', e1, e2, e3, _⟩ := C36_infer b n (trains_built hn) (by rw [hl]; simp) (unitT x) (unitT_wf x) hi.symm
  rw [(Prod.mk.inj (Except.ok.inj (e1.symm.trans h))).2] at e2 e3
  obtain ⟨s0, s1, p1, p2, p3⟩ := e3 0 _ (by rw [hl]; rfl)
  obtain ⟨s1', s2, q1, q2, q3⟩ := e3 1 _ (by rw [hl]; rfl)
  obtain rfl := Except.ok.inj (p1.symm.trans e2)
  obtain rfl := Except.ok.inj (q1.symm.trans p2)
  have a1 := exOneR_step hw hv (show 0 < val (unitT x) 0 0 0 from hx) p3
  have a2 := exOneR_step hw' hv' a1 q3
  match k with
  | 0 =>
    obtain rfl := Except.ok.inj (hs.symm.trans p2)
    exact ⟨p3.2.1, a1⟩
  | 1 =>
    obtain rfl := Except.ok.inj (hs.symm.trans q2)
    exact ⟨q3.2.1, a2⟩
  | k + 2 =>
    exfalso
    have hln : n.layers = [.fc (exOneR w v), .fc (exOneR w' v')] := hl
    have hlen : n1.layers.length = 2 := by
      have := congrArg List.length (like_map_params (infer_effect _ _ _ h).1)
      simpa [hln] using this
    have hst := congrArg List.length (trains_ready (Trains.infer _ _ _ _ hn h)).1.chain.states
    rw [List.length_map, stateShapes_length, if_neg (fun e => by simp [e] at hlen), hlen] at hst
    unfold Network.get_intermediate_state at hs
    rw [List.getElem?_eq_none (by omega)] at hs
    cases hs

/-- The hypotheses of C130 hold for `max(0, 3 max(0, 2 x + 1) + 1)` and `max(0, 3 max(0, 4 x + 5) + 1)` at `x = 5`, and for
the former at `x = 5` and `x = 6`. -/
example (b : Build) : ∃ n m : Net ℝ, Trains b n ∧ Built b m ∧ n.get_layers = [exOneR 2 1, exOneR 3 1].map .fc ∧
    m.get_layers = [exOneR 4 5, exOneR 3 1].map .fc ∧ OnlyLayer 0 [exOneR 2 1, exOneR 3 1] [exOneR 4 5, exOneR 3 1] ∧
    (unitT 5).shape = n.get_input_shape ∧ (unitT 1).shape = n.get_output_shape ∧
    SameActive b n (unitT 5) m (unitT 5) ∧ SameActive b n (unitT 5) n (unitT 6) := by
  obtain ⟨n, h1, h2, h3, h4⟩ := exOneR_trains b 2 1 3 1
  obtain ⟨m, g1, g2, g3, g4⟩ := exOneR_trains b 4 5 3 1
  refine ⟨n, m, h1, trains_built g1, h2, g2, ⟨rfl, fun k l l' p q => ?_⟩, h3.symm, h4.symm, ?_, ?_⟩
  · match k with
    | 0 =>
      cases p
      cases q
      exact ⟨rfl, fun h => absurd rfl h⟩
    | 1 =>
      cases p
      cases q
      exact ⟨rfl, fun _ => ⟨rfl, rfl⟩⟩
    | k + 2 => simp at p
  · intro n1 m1 p q k s t hs ht o ho
    obtain ⟨c1, c2⟩ := exOneR_active h1 (by norm_num) (by norm_num) (by norm_num) (by norm_num)
      (by norm_num) h2 h3 p hs
    obtain ⟨d1, d2⟩ := exOneR_active g1 (by norm_num) (by norm_num) (by norm_num) (by norm_num)
      (by norm_num) g2 g3 q ht
    rw [c1] at ho
    obtain rfl : o = 0 := by
      change o < 1 at ho
      omega
    exact ⟨fun _ => d2, fun _ => c2⟩
  · intro n1 m1 p q k s t hs ht o ho
    obtain ⟨c1, c2⟩ := exOneR_active h1 (by norm_num) (by norm_num) (by norm_num) (by norm_num)
      (by norm_num) h2 h3 p hs
    obtain ⟨d1, d2⟩ := exOneR_active h1 (by norm_num) (by norm_num) (by norm_num) (by norm_num)
      (by norm_num) h2 h3 q ht
    rw [c1] at ho
    obtain rfl : o = 0 := by
      change o < 1 at ho
      omega
    exact ⟨fun _ => d2, fun _ => c2⟩

end Rusty
