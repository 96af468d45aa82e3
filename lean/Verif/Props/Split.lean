import Verif.Lemmas.Split
import Verif.Lemmas.IEEELaws
import Verif.Props.Network
import Verif.Props.NetworkDerivative

/-! # C96: a network can be cut in two -/

namespace Rusty

open F32Ops Spec

variable {F : Type} [F32Ops F]

/-- C96: `infer` of a network with the layers of two networks gives what the second one makes of the output of the
first one, state by state.  The networks may be in any modes and may have been used in any way. -/
theorem C96_infer [MaxZero F] (b : Build) (n n1 n2 : Net F) (hn : Built b n) (h1 : Built b n1) (h2 : Built b n2)
    (hp : n.get_layers.map params = n1.get_layers.map params ++ n2.get_layers.map params)
    (e1 : n1.get_layers ≠ []) (e2 : n2.get_layers ≠ []) (x : Tensor F) (hx : x.WF)
    (hxs : x.shape = n.get_input_shape) :
    ∃ n' n1' n2' y, n.infer b x = .ok (.ok (), n') ∧ n1.infer b x = .ok (.ok (), n1') ∧
      n1'.get_output = .ok y ∧ n2.infer b y = .ok (.ok (), n2') ∧ n'.get_output = n2'.get_output ∧
      (∀ i, i ≤ n1.get_layers.length → n'.get_intermediate_state i = n1'.get_intermediate_state i) ∧
      ∀ i, i ≤ n2.get_layers.length →
        n'.get_intermediate_state (n1.get_layers.length + i) = n2'.get_intermediate_state i := by
  obtain ⟨n', n1', n2', y, q1, q2, q3, _, _, q4, q5, q6, q7⟩ := infer_split (b := b) (built_netOk hn) (built_netOk h1)
    (built_netOk h2) hp e1 e2 (fun l _ l' _ h => layerAt_mode h) hx hxs
  refine ⟨n', n1', n2', y, q1, q2, q3, q4, q7, fun i hi => ?_, fun i hi => ?_⟩
  · unfold Network.get_intermediate_state; rw [q5 i hi]
  · unfold Network.get_intermediate_state
    rw [← q6 i hi]
    rfl

/-- C96: training the last layers alone, on what the first layers make of the input, collects the same gradients in
them as training the whole network: if the gradients were the same before, they are the same afterwards. -/
theorem C96_training [MaxZero F] (b : Build) (n n1 n2 : Net F) (hn : Trains b n) (h1 : Built b n1) (h2 : Trains b n2)
    (hp : n.get_layers.map params = n1.get_layers.map params ++ n2.get_layers.map params)
    (e1 : n1.get_layers ≠ []) (e2 : n2.get_layers ≠ []) (hbk : ∀ l ∈ n.get_layers, backable l)
    (x g : Tensor F) (hx : x.WF) (hxs : x.shape = n.get_input_shape) (hg : g.WF)
    (hgs : g.shape = n.get_output_shape) :
    ∃ n' n'' n1' n2' n2'' y, n.infer b x = .ok (.ok (), n') ∧ n'.backward b g = .ok (.ok (), n'') ∧
      n1.infer b x = .ok (.ok (), n1') ∧ n1'.get_output = .ok y ∧ n2.infer b y = .ok (.ok (), n2') ∧
      n2'.backward b g = .ok (.ok (), n2'') ∧
      ∀ (c : Nat) l k, n.get_layers[n1.get_layers.length + c]? = some (.fc l) → n2.get_layers[c]? = some (.fc k) →
        ∃ l' k', n''.get_layers[n1.get_layers.length + c]? = some (.fc l') ∧ n2''.get_layers[c]? = some (.fc k') ∧
          ∀ o, o < l.weights.shape.di.toNat →
            (val l.bias_gradients o 0 0 = val k.bias_gradients o 0 0 →
              ∃ v, l'.bias_gradients.get_item b (ix o 0 0) = .ok v ∧ k'.bias_gradients.get_item b (ix o 0 0) = .ok v) ∧
            ∀ i, i < l.weights.shape.dj.toNat → val l.weights_gradients o i 0 = val k.weights_gradients o i 0 →
              ∃ v, l'.weights_gradients.get_item b (ix o i 0) = .ok v ∧
                k'.weights_gradients.get_item b (ix o i 0) = .ok v := by
  obtain ⟨hok, ht⟩ := trains_ready hn
  obtain ⟨hok2, ht2⟩ := trains_ready h2
  have hok1 := built_netOk h1
  have hlen := split_length hp
  have hne : n.layers ≠ [] := fun h => by
    rw [h] at hlen
    have e1 : n1.layers ≠ [] := e1
    have := List.length_pos_iff.mpr e1
    simp only [List.length_nil] at hlen
    omega
  obtain ⟨s1, s2, s3⟩ := split_shapes hok.chain hok1.chain hok2.chain hp e1 e2
  obtain ⟨n', n1', n2', y, q1, q2, q3, yw, ys, q4, q5, q6, q7⟩ := infer_split (b := b) hok hok1 hok2 hp e1 e2
    (fun l _ l' _ h => layerAt_mode h) hx hxs
  have hb2 : ∀ l ∈ n2.layers, backable l := by
    intro l hl
    obtain ⟨i, hi, rfl⟩ := List.mem_iff_getElem.mp hl
    obtain ⟨l0, h1, h2⟩ := split_tail hp (List.getElem?_eq_getElem hi)
    exact params_backable h2.symm (hbk l0 (List.mem_of_getElem? h1))
  obtain ⟨n0, n'', k1, k2, k3, k4⟩ := net_round (b := b) hok ht hne hbk hx hxs hg hgs
  obtain rfl : n' = n0 := (Prod.mk.inj (Except.ok.inj (q1.symm.trans k1))).2
  obtain ⟨n0, n2'', t1, t2, t3, t4⟩ := net_round (b := b) hok2 ht2 e2 hb2 yw ys hg (by rw [s3]; exact hgs)
  obtain rfl : n2' = n0 := (Prod.mk.inj (Except.ok.inj (q4.symm.trans t1))).2
  have hgr := rounds_split (b := b) n1.layers.length hok ht hok2 ht2 hlen (fun i l' h => split_tail hp h) hne e2 hbk
    hx hxs yw ys hg hgs s3 q1 q4 q6 k2 t2
  refine ⟨n', n'', n1', n2', n2'', y, q1, k2, q2, q3, q4, t2, fun c l k hl hk => ?_⟩
  have hlt : c < n2.layers.length := (List.getElem?_eq_some_iff.mp hk).1
  obtain ⟨l0, z1, z2⟩ := split_tail hp hk
  obtain rfl : AnyLayer.fc l = l0 := Option.some.inj (hl.symm.trans z1)
  simp only [params, AnyLayer.fc.injEq, FullyConnectedLayer.mk.injEq, true_and] at z2
  obtain ⟨p1, p2, -⟩ := z2
  have hl : n.layers[n1.layers.length + c]? = some (.fc l) := hl
  have hk : n2.layers[c]? = some (.fc k) := hk
  obtain ⟨l2, s, s', gi, gi', a1, a2, a3, a4, a5, a6⟩ := k4 _ _ hl
  obtain ⟨m2, t, t', gj, gj', c1, c2, c3, c4, c5, c6⟩ := t4 _ _ hk
  rw [← q6 c (by omega), a2] at c2
  rw [← q6 (c + 1) (by omega), show n1.layers.length + (c + 1) = n1.layers.length + c + 1 from rfl, a3] at c3
  rw [← hgr (c + 1) (by omega), show n1.layers.length + (c + 1) = n1.layers.length + c + 1 from rfl, a4] at c4
  obtain rfl := Option.some.inj c2
  obtain rfl := Option.some.inj c3
  obtain rfl := Option.some.inj c4
  obtain ⟨_, _, _, f, rfl, hf⟩ := fc_round (hok.layers _ (List.mem_of_getElem? hl)) (ht.layers _ (List.mem_of_getElem? hl)) a6
  obtain ⟨_, _, _, f', rfl, hf'⟩ := fc_round (hok2.layers _ (List.mem_of_getElem? hk)) (ht2.layers _ (List.mem_of_getElem? hk)) c6
  have hmask : ∀ o, masked k ⟨s, gi, s, s⟩ o = masked l ⟨s, gi, s, s⟩ o := by
    intro o
    unfold masked preact
    rw [p1, p2]
  refine ⟨f, f', a1, c1, fun o ho => ?_⟩
  obtain ⟨u1, u2⟩ := hf o ho
  obtain ⟨v1, v2⟩ := hf' o (by rw [← p1]; exact ho)
  refine ⟨fun h => ⟨_, u1, ?_⟩, fun i hi h => ⟨_, u2 i hi, ?_⟩⟩
  · rw [v1, hmask, h]
  · rw [v2 i (by rw [← p1]; exact hi), hmask, h]

open Exact in
/-- The hypotheses of C96 hold for a fully connected layer followed by softmax, cut between the two. -/
example (b : Build) : ∃ n n1 n2 : Net ℝ, Trains b n ∧ Built b n1 ∧ Trains b n2 ∧
    n.get_layers.map params = n1.get_layers.map params ++ n2.get_layers.map params ∧
    n1.get_layers ≠ [] ∧ n2.get_layers ≠ [] ∧ ∀ l ∈ n.get_layers, backable l := by
  have h1 : ∃ n1 : Net ℝ, (Network.new .Training : Net ℝ).add_layer b (.fc exFCR) = .ok (.ok (), n1) ∧
      n1.get_layers = [.fc exFCR] ∧ ∃ n : Net ℝ, n1.add_layer b (.sm exSMR2) = .ok (.ok (), n) ∧
      n.get_layers = [.fc exFCR, .sm exSMR2] := by
    cases b <;> exact ⟨_, rfl, rfl, _, rfl, rfl⟩
  have h2 : ∃ n2 : Net ℝ, (Network.new .Training : Net ℝ).add_layer b (.sm exSMR2) = .ok (.ok (), n2) ∧
      n2.get_layers = [.sm exSMR2] := by
    cases b <;> exact ⟨_, rfl, rfl⟩
  obtain ⟨n1, a1, a2, n, a3, a4⟩ := h1
  obtain ⟨n2, c1, c2⟩ := h2
  refine ⟨n, n1, n2, .add_layer _ (.sm exSMR2) _ _ (.add_layer _ (.fc exFCR) _ _ .new exFCR_ok a1) exSMR2_ok a3,
    .add_layer _ (.fc exFCR) _ _ (.new _) exFCR_ok a1, .add_layer _ (.sm exSMR2) _ _ .new exSMR2_ok c1,
    by rw [a4, a2, c2]; rfl, by rw [a2]; simp, by rw [c2]; simp, ?_⟩
  rw [a4]
  intro l hl
  simp only [List.mem_cons, List.not_mem_nil, or_false] at hl
  rcases hl with rfl | rfl
  · trivial
  · exact ⟨rfl, rfl⟩

end Rusty
