import Verif.Lemmas.NaNParameter
import Verif.Spec.NaNLoss

/-! # Helper lemmas: NaN in the loss gradient -/

namespace Rusty

open F32Ops Spec

namespace F32

variable [Libm]

omit [Libm] in
theorem dense_layer {N : Nat} {n : Net F32} (h : Dense N n) {l : AnyLayer F32} (hl : l ∈ n.layers) :
    (∃ f, l = .fc f) ∨ ∃ f, l = .sm f ∧ f.shape.dj = 1 ∧ f.shape.dk = 1 := by
  obtain ⟨c, hc, rfl⟩ := List.mem_iff_getElem.mp hl
  have e : n.layers[c]? = some n.layers[c] := List.getElem?_eq_getElem hc
  by_cases h' : c < N
  · obtain ⟨f, p, _⟩ := h.fc c h'
    exact .inl ⟨f, Option.some.inj (e.symm.trans p)⟩
  · rcases h.last with p | ⟨p, f, q, r⟩
    · have p : n.layers.length = N := p
      omega
    · have p : n.layers.length = N + 1 := p
      obtain rfl : c = N := by omega
      exact .inr ⟨f, Option.some.inj (e.symm.trans q), r⟩

omit [Libm] in
theorem dense_backable {N : Nat} {n : Net F32} (h : Dense N n) : ∀ l ∈ n.layers, backable l := by
  intro l hl
  rcases dense_layer h hl with ⟨f, rfl⟩ | ⟨f, rfl, r⟩
  · trivial
  · exact r

theorem dense_params {N : Nat} {n m : Net F32} (h : Dense N n) (hp : m.layers.map params = n.layers.map params) :
    Dense N m := by
  have hlen : m.layers.length = n.layers.length := by simpa using congrArg List.length hp
  have back : ∀ (c : Nat) l, n.layers[c]? = some l → ∃ l', m.layers[c]? = some l' ∧ params l = params l' :=
    fun c l hc => map_get hp.symm hc
  refine ⟨h.pos, fun c hc => ?_, ?_⟩
  · obtain ⟨l, p, q⟩ := h.fc c hc
    obtain ⟨l', e1, e2⟩ := back c _ p
    cases l' with
    | fc f =>
      refine ⟨f, e1, ?_⟩
      rwa [fc_weights hp p e1]
    | conv f => simp [params] at e2
    | mp f => simp [params] at e2
    | sm f => simp [params] at e2
  · change m.layers.length = N ∨ m.layers.length = N + 1 ∧ _
    rw [hlen]
    rcases h.last with p | ⟨p, l, q, r⟩
    · exact .inl p
    · refine .inr ⟨p, ?_⟩
      obtain ⟨l', e1, e2⟩ := back N _ q
      cases l' with
      | sm f =>
        refine ⟨f, e1, ?_⟩
        have hs : l.shape = f.shape := params_output e2
        rw [← hs]
        exact r
      | conv f => simp [params] at e2
      | mp f => simp [params] at e2
      | fc f => simp [params] at e2

/-- one round with a loss gradient that has NaN in entry `k` -/
theorem nan_loss_round {b : Build} {N : Nat} {n : Net F32} (hn : Trains b n) (hd : Dense N n) {x g : Tensor F32} (hx : x.WF)
    (hxs : x.shape = n.input_shape) (hg : g.WF) (hgs : g.shape = n.get_output_shape) {k : Nat} (hk : k < g.shape.di.toNat)
    (hnan : (val g k 0 0).isNaN = true) :
    ∃ n1 n2, n.infer b x = .ok (.ok (), n1) ∧ n1.backward b g = .ok (.ok (), n2) ∧
      ∀ (c : Nat) l, n.layers[c]? = some (.fc l) → ∃ l2, n2.layers[c]? = some (.fc l2) ∧
        ∀ o, o < l.weights.shape.di.toNat → (c + 1 < n.layers.length ∨ o = k) →
          (∃ v, l2.bias_gradients.get_item b (ix o 0 0) = .ok v ∧ v.isNaN = true) ∧
          ∀ i, i < l.weights.shape.dj.toNat → ∃ v, l2.weights_gradients.get_item b (ix o i 0) = .ok v ∧ v.isNaN = true := by
  obtain ⟨hok, ht⟩ := trains_ready hn
  have hlen : N ≤ n.layers.length := by
    rcases hd.last with p | ⟨p, _⟩ <;> · have p : n.layers.length = _ := p; omega
  have hnne : n.layers ≠ [] := fun e => by
    have := hd.pos
    rw [e] at hlen
    simp at hlen
    omega
  obtain ⟨n1, n2, h1, h2, h4, h3⟩ := net_round (b := b) hok ht hnne (dense_backable hd) hx hxs hg hgs
  have key : ∀ d ≤ N, ∃ f o0, n2.intermediate_gradients[N - d]? = some f ∧ o0 < f.shape.di.toNat ∧
      (val f o0 0 0).isNaN = true ∧ (N - d < n.layers.length → ∀ i < f.shape.di.toNat, (val f i 0 0).isNaN = true) ∧
      (N - d = n.layers.length → o0 = k) := by
    intro d
    induction d with
    | zero =>
      intro _
      rcases hd.last with p | ⟨p, l, hgl, hj, hk'⟩
      · have p : n.layers.length = N := p
        refine ⟨g, k, ?_, hk, hnan, fun h => ?_, fun _ => rfl⟩
        · rw [← h4, p]; rfl
        · omega
      · have p : n.layers.length = N + 1 := p
        have hgl : n.layers[N]? = some (.sm l) := hgl
        obtain ⟨l2, s, s', gi, gi', p1, p2, p3, p4, p5, p6⟩ := h3 _ _ hgl
        rw [p, p4] at h4
        obtain rfl := Option.some.inj h4
        obtain ⟨⟨q1, q2⟩, q3⟩ := sm_round (hok.layers _ (List.mem_of_getElem? hgl)) hj hk'
          (ht.layers _ (List.mem_of_getElem? hgl)) p6
        have hgsh : gi.shape = l.shape := p6.hg.2
        have hall : ∀ i < l.shape.di.toNat, (val gi' i 0 0).isNaN = true := by
          intro i hi
          rw [q3 i hi]
          refine void_nan_right _ (sum_nan ⟨_, List.mem_singleton.mpr rfl, mul_nan_right _ (void_mul_nan _ (sum_nan
            ⟨_, List.mem_map.mpr ⟨k, List.mem_range.mpr ?_, rfl⟩, mul_nan_right _ hnan⟩))⟩)
          rw [← hgsh]
          exact hk
        rw [hgsh] at hk
        exact ⟨gi', k, p5, by rw [q2]; exact hk, hall k hk, fun _ i hi => hall i (by rw [q2] at hi; exact hi), fun _ => rfl⟩
    | succ d ih =>
      intro hdN
      obtain ⟨f, o0, e1, e2, e3, e4, e5⟩ := ih (by omega)
      have hcc : N - (d + 1) + 1 = N - d := by omega
      obtain ⟨l, hgl, hdj⟩ := hd.fc (N - (d + 1)) (by omega)
      have hgl : n.layers[N - (d + 1)]? = some (.fc l) := hgl
      obtain ⟨l2, s, s', gi, gi', p1, p2, p3, p4, p5, p6⟩ := h3 _ _ hgl
      rw [hcc, e1] at p4
      obtain rfl := Option.some.inj p4
      have okl : l.Ok := hok.layers _ (List.mem_of_getElem? hgl)
      obtain ⟨_, q2, _⟩ := fc_round okl (ht.layers _ (List.mem_of_getElem? hgl)) p6
      have hfs : f.shape = l.bias.shape := p6.hg.2
      rw [okl.rows] at hfs
      have hall := (nan_round hn hgl p6 (o := o0) (by rw [hfs] at e2; exact e2) e3).2
      have hsh : gi'.shape.di.toNat = l.weights.shape.dj.toNat := by rw [q2]; rfl
      exact ⟨gi', 0, p5, by rw [hsh]; exact hdj, hall 0 hdj, fun _ i hi => hall i (by rw [← hsh]; exact hi),
        fun h => by omega⟩
  refine ⟨n1, n2, h1, h2, fun c l hgl => ?_⟩
  have hcl : c < N := by
    by_contra hc
    rcases hd.last with p | ⟨p, f, q, _⟩
    · have p : n.layers.length = N := p
      rw [List.getElem?_eq_none (by omega)] at hgl
      cases hgl
    · have p : n.layers.length = N + 1 := p
      have := (List.getElem?_eq_some_iff.mp hgl).1
      obtain rfl : c = N := by omega
      cases hgl.symm.trans q
  obtain ⟨f, o0, e1, e2, e3, e4, e5⟩ := key (N - (c + 1)) (by omega)
  rw [show N - (N - (c + 1)) = c + 1 by omega] at e1 e4 e5
  obtain ⟨l2, s, s', gi, gi', p1, p2, p3, p4, p5, p6⟩ := h3 _ _ hgl
  rw [e1] at p4
  obtain rfl := Option.some.inj p4
  have okl : l.Ok := hok.layers _ (List.mem_of_getElem? hgl)
  have hfs : f.shape = l.bias.shape := p6.hg.2
  rw [okl.rows] at hfs
  have hdi : f.shape.di.toNat = l.weights.shape.di.toNat := by rw [hfs]
  obtain ⟨⟨l1, rfl, q⟩, _⟩ := nan_round hn hgl p6 (o := o0) (by rw [← hdi]; exact e2) e3
  refine ⟨l1, p1, fun o ho h => q o ho ?_⟩
  by_cases hc2 : c + 1 < n.layers.length
  · exact e4 hc2 o (by rw [hdi]; exact ho)
  · rcases h with h | rfl
    · exact absurd h hc2
    · have := e5 (by omega)
      rw [← this]
      exact e3

end F32

end Rusty
