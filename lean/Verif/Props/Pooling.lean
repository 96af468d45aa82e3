import Verif.Lemmas.Pooling
import Verif.Lemmas.Order
import Verif.Props.Elementwise
import Verif.Props.Convolution

/-! # C21-C23: max pooling -/

namespace Rusty

open F32Ops Spec

variable {F : Type} [F32Ops F]

/-- Integers satisfy the order laws. -/
theorem toyOrder : @F32Order Int Toy.toyOps :=
  let _ := Toy.toyOps
  { gt_irrefl := fun x => by simp [F32Ops.gt]
    gt_trans := fun x y z => by simp only [F32Ops.gt, decide_eq_true_eq]; omega
    gt_cotrans := fun x y z => by simp only [F32Ops.gt, decide_eq_true_eq]; omega }

/-- Integer addition is exact. -/
theorem toyExact : @ExactAdd Int Toy.toyOps :=
  let _ := Toy.toyOps
  { add_assoc := fun x y z => Int.add_assoc x y z
    add_comm := fun x y => Int.add_comm x y
    zero_add := fun x => Int.zero_add x }

/-! ## C21 -/

/-- C21: on an exact tiling every output of `max_pool` is the largest non-NaN entry of its window,
negative infinity if none is above that. -/
theorem C21_max_pool [F32Order F] (b : Build) (image : Tensor F) (mask : TensorShape)
    (s : UInt32) (result : Tensor F) (hi : image.WF) (hr : result.WF) (hs : s ≠ 0)
    (hk : result.shape.dk = image.shape.dk)
    (ht : windowsTile image.shape mask s result.shape) :
    ∃ r', Tensor.max_pool b image mask s result = .ok r' ∧ r'.WF ∧ r'.shape = result.shape ∧
      ∀ i j k, result.shape.Inside i j k → ∃ m, r'.get_item b (ix i j k) = .ok m ∧
        isMax (window image mask s.toNat i j k) m := by
  obtain ⟨r', q1, q2, q3, q4⟩ := max_pool_ok (b := b) hi hr (fun h => hs (u32_ext h)) hk ht
  refine ⟨r', q1, q2, q3, fun i j k hin => ⟨_, get_item_ok q2 (by rw [q3]; exact hin), ?_⟩⟩
  rw [q4 i j k hin]
  exact runMax_spec _

/-- C21: every window entry is an entry of the image (no window leaves it). -/
theorem C21_window_inside (image result mask : TensorShape) (s : UInt32)
    (hk : result.dk = image.dk) (ht : windowsTile image mask s result) (i j k ii jj : Nat)
    (hin : result.Inside i j k) (h1 : ii < mask.di.toNat) (h2 : jj < mask.dj.toNat) :
    image.Inside (i * s.toNat + ii) (j * s.toNat + jj) k :=
  window_inside ht hk hin h1 h2

/-- C21: when the geometry is not accepted the result is unchanged. -/
theorem C21_rejected (b : Build) (image : Tensor F) (mask : TensorShape) (s : UInt32)
    (result : Tensor F)
    (h : Tensor.check_max_pooling_dimensions b image.shape mask s result.shape = .ok false) :
    Tensor.max_pool b image mask s result = .ok result := by
  unfold Tensor.max_pool
  rw [h]
  rfl

/-- C21: for a mask no larger than the image the geometry is accepted exactly on exact tilings. -/
theorem C21_accepts (b : Build) (image result mask : TensorShape) (s : UInt32) (hs : s ≠ 0)
    (h1 : mask.di ≠ 0) (h2 : mask.dj ≠ 0) (h3 : mask.di ≤ image.di) (h4 : mask.dj ≤ image.dj) :
    Tensor.check_max_pooling_dimensions b image mask s result =
      .ok (decide (result.dk = image.dk ∧ windowsTile image mask s result)) := by
  have nz : ∀ x : UInt32, x ≠ 0 → x.toNat = 0 → False := fun x h e => h (u32_ext e)
  exact check_pool_spec (fun h => hs (u32_ext h)) (UInt32.le_iff_toNat_le.mp h3)
    (UInt32.le_iff_toNat_le.mp h4) (fits_bound (fun h => (nz _ h1 h).elim) (u32_lt _))
    (fits_bound (fun h => (nz _ h2 h).elim) (u32_lt _))

/-- a 3x3x1 image with a tie and negative entries -/
def exPool : Tensor Int := ⟨⟨1, 3, 9⟩, ⟨3, 3, 1⟩, [-4, 9, 2, 9, -1, 0, -7, -8, -9]⟩

open Toy in
example : windowsTile exPool.shape ⟨2, 2, 1⟩ 1 ⟨2, 2, 1⟩ ∧
    ∃ r', Tensor.max_pool .debug exPool ⟨2, 2, 1⟩ 1 (zeros ⟨2, 2, 1⟩) = .ok r' ∧
      r'.data = [9, 9, 9, 0] ∧ window exPool ⟨2, 2, 1⟩ 1 0 0 0 = [-4, 9, 9, -1] :=
  ⟨by decide, _, rfl, rfl, rfl⟩

open Toy in
example : Tensor.max_pool .debug exPool ⟨2, 2, 1⟩ 2 (zeros ⟨2, 2, 1⟩) =
    .ok (zeros ⟨2, 2, 1⟩ : Tensor Int) := rfl

/-! ## C22 -/

/-- C22: `max_pool_track_origin` leaves the same tensor as `max_pool`, and for every output whose
window has a value above negative infinity records the position of the first entry of that window
that attains the maximum. -/
theorem C22_track_origin [F32Order F] (b : Build) (image : Tensor F) (mask : TensorShape)
    (s : UInt32) (result : Tensor F) (origins : List UInt32) (hi : image.WF) (hr : result.WF)
    (hs : s ≠ 0) (hk : result.shape.dk = image.shape.dk)
    (ht : windowsTile image.shape mask s result.shape)
    (ho : origins.length = result.shape.count) :
    ∃ r' o', Tensor.max_pool_track_origin b image mask s result origins = .ok (.ok (), r', o') ∧
      Tensor.max_pool b image mask s result = .ok r' ∧ o'.length = origins.length ∧
      ∀ i j k, result.shape.Inside i j k → ∃ o m, o'[pos result.shape i j k]? = some o ∧
        r'.get_item b (ix i j k) = .ok m ∧
        (gt m negInf = true → isFirstArgmax image mask s.toNat i j k m o.toNat) ∧
        (gt m negInf = false → o = 0) := by
  have hs' : s.toNat ≠ 0 := fun h => hs (u32_ext h)
  obtain ⟨r', o', q1, q2, q3, q4, q5⟩ := track_ok (b := b) hi hr hs' hk ht ho
  obtain ⟨r2, p1, p2, p3, p4⟩ := max_pool_ok (b := b) hi hr hs' hk ht
  have e : r2 = r' := by
    apply tensor_ext p2 q2 (by rw [p3, q3])
    intro i j k hin
    rw [p3] at hin
    rw [p4 i j k hin, (q5 i j k hin).1, runArg_fst, windowPos_fst]
  refine ⟨r', o', q1, by rw [p1, e], q4, fun i j k hin => ?_⟩
  obtain ⟨v1, v2⟩ := q5 i j k hin
  refine ⟨_, _, v2, get_item_ok q2 (by rw [q3]; exact hin), ?_, ?_⟩
  · rw [v1]
    intro hg
    rcases runArg_spec (windowPos image mask s.toNat i j k) with ⟨h, _⟩ | ⟨pre, post, h1, h2⟩
    · rw [h, F32Order.gt_irrefl] at hg; cases hg
    · generalize runArg (windowPos image mask s.toNat i j k) = w at *
      unfold windowPos at h1
      obtain ⟨l1, l2, e1, e2, e3⟩ := List.map_eq_append_iff.mp h1
      obtain ⟨⟨ii, jj⟩, l3, e4, e5, e6⟩ := List.map_eq_cons_iff.mp e3
      have hmem : (ii, jj) ∈ idx2 mask.di.toNat mask.dj.toNat := by
        rw [e1, e4]; simp
      obtain ⟨b1, b2⟩ := mem_idx2.mp hmem
      have ins := window_inside ht hk hin b1 b2
      refine ⟨ii, jj, l1, l3, by rw [e1, e4], ins, ?_, ?_, ?_⟩
      · rw [← e5]
        exact pos_toNat hi ins
      · rw [← e5]
      · intro p hp hn
        refine h2 (val image (i * s.toNat + p.1) (j * s.toNat + p.2) k,
          UInt32.ofNat (pos image.shape (i * s.toNat + p.1) (j * s.toNat + p.2) k)) ?_ hn
        rw [← e2]
        exact List.mem_map.mpr ⟨p, hp, rfl⟩
  · rw [v1]
    intro hg
    rcases runArg_spec (windowPos image mask s.toNat i j k) with ⟨h, _⟩ | ⟨pre, post, h1, h2⟩
    · rw [h]
    · have hm := runMax_spec ((windowPos image mask s.toNat i j k).map Prod.fst)
      rw [← runArg_fst] at hm
      by_contra hne
      have : runArg (windowPos image mask s.toNat i j k) = (negInf, 0) := by
        apply runArg_keep
        intro e he
        rcases hm.2 with ⟨_, h'⟩ | ⟨_, h'⟩
        · rw [hg] at h'; cases h'
        · exact h' e.1 (List.mem_map.mpr ⟨e, he, rfl⟩)
      rw [this] at hne
      exact hne rfl

/-- C22: a list of the wrong length, or a geometry that is not accepted, is rejected and nothing
changes. -/
theorem C22_rejected (b : Build) (image : Tensor F) (mask : TensorShape) (s : UInt32)
    (result : Tensor F) (origins : List UInt32) (hr : result.WF) (ok : Bool)
    (hc : Tensor.check_max_pooling_dimensions b image.shape mask s result.shape = .ok ok)
    (h : ok = false ∨ origins.length ≠ result.shape.count) :
    ∃ e, Tensor.max_pool_track_origin b image mask s result origins =
      .ok (.error e, result, origins) := by
  unfold Tensor.max_pool_track_origin
  rw [hc, ok_bind]
  cases ok with
  | false => exact ⟨_, rfl⟩
  | true =>
    rw [if_neg (by simp)]
    simp only
    rw [total_size_ok hr.fits, ok_bind, toNat_ofNat_lt hr.fits.2,
      if_pos (by rcases h with h | h; · cases h
                 · exact fun e => h e.symm)]
    exact ⟨_, rfl⟩

open Toy in
example : ∃ r', Tensor.max_pool_track_origin .debug exPool ⟨2, 2, 1⟩ 1 (zeros ⟨2, 2, 1⟩)
      [0, 0, 0, 0] = .ok (.ok (), r', [1, 1, 3, 5]) ∧ r'.data = [9, 9, 9, 0] :=
  ⟨_, rfl, rfl⟩

open Toy in
example : ∃ e, Tensor.max_pool_track_origin .debug exPool ⟨2, 2, 1⟩ 1 (zeros ⟨2, 2, 1⟩)
      [0, 0, 0] = .ok (.error e, zeros ⟨2, 2, 1⟩, [0, 0, 0]) := ⟨_, rfl⟩

/-! ## C23 -/

/-- C23: after a training-mode `forward`, `backward` succeeds, leaves the layer alone, and the
outgoing gradient at `(a,b,c)` is the sum, in storage order, of the incoming gradients of the
outputs whose winning position is `(a,b,c)`; the winner `origin i j k` is the first entry of the
window that attains its maximum (position 0 for a window without a value above negative infinity).

`hne` says the input is not empty unless there are no outputs, as is the case for every mask of
nonzero extent. -/
theorem C23_backward [F32Order F] (b : Build) (l : MaxPoolLayer) (hl : l.Ok)
    (hm : l.run_state = .Training) (input output incoming outgoing : Tensor F)
    (h1 : input.WF) (h2 : output.WF) (h3 : incoming.WF) (h4 : outgoing.WF)
    (s1 : input.shape = l.input_shape) (s2 : output.shape = l.output_shape)
    (s3 : incoming.shape = l.output_shape) (s4 : outgoing.shape = l.input_shape)
    (hne : 0 < l.output_shape.count → 0 < l.input_shape.count) :
    ∃ l' output' outgoing', ∃ origin : Nat → Nat → Nat → Nat,
      l.forward b input output = .ok (.ok (), l', output') ∧
      l'.backward b input output' incoming outgoing = .ok (.ok (), l', outgoing') ∧
      outgoing'.WF ∧ outgoing'.shape = l.input_shape ∧
      (∀ i j k, l.output_shape.Inside i j k →
        isMax (window input l.mask_shape l.stride.toNat i j k) (val output' i j k) ∧
        (gt (val output' i j k) negInf = true →
          isFirstArgmax input l.mask_shape l.stride.toNat i j k (val output' i j k)
            (origin i j k)) ∧
        (gt (val output' i j k) negInf = false → origin i j k = 0)) ∧
      ∀ a c e, l.input_shape.Inside a c e →
        outgoing'.get_item b (ix a c e) =
          .ok (sum ((l.output_shape.indices.filter fun x =>
            origin x.1 x.2.1 x.2.2 = pos l.input_shape a c e).map
              fun x => val incoming x.1 x.2.1 x.2.2)) := by
  obtain ⟨r', o', q1, q2, q3, q4⟩ := C22_track_origin b input l.mask_shape l.stride output
    l.max_pool_origin h1 h2 hl.stride (by rw [s1, s2]; exact hl.depth)
    (by rw [s1, s2]; exact hl.tiles) (by rw [s2]; exact hl.buffers hm)
  obtain ⟨r2, m1, m2, m3, m4⟩ := C21_max_pool b input l.mask_shape l.stride output h1 h2 hl.stride
    (by rw [s1, s2]; exact hl.depth) (by rw [s1, s2]; exact hl.tiles)
  rw [q2] at m1
  cases m1
  rw [s2] at q4 m3 m4
  have hol : o'.length = l.output_shape.count := by rw [q3]; exact hl.buffers hm
  have hor : ∀ i j k, l.output_shape.Inside i j k →
      (o'[pos l.output_shape i j k]?.getD 0).toNat < l.input_shape.count := by
    intro i j k hin
    obtain ⟨o, m, e1, e2, e3, e4⟩ := q4 i j k hin
    rw [e1]
    by_cases hg : gt m negInf = true
    · obtain ⟨ii, jj, _, _, _, ins, e5, _⟩ := e3 hg
      change o.toNat < _
      rw [e5, ← s1]
      exact pos_lt ins
    · rw [e4 (by simpa using hg)]
      exact hne (Nat.lt_of_le_of_lt (Nat.zero_le _) (pos_lt hin))
  have wfz : (outgoing.fill_with_value (zero : F)).WF := by
    unfold Tensor.fill_with_value
    exact wf_data h4 _ (by simp)
  have hmemo : ∀ p ∈ o', p.toNat < l.input_shape.count := by
    intro p hp
    rw [list_indices l.output_shape o' 0 hol] at hp
    obtain ⟨⟨i, j, k⟩, hx, rfl⟩ := List.mem_map.mp hp
    exact hor i j k (mem_indices.mp hx)
  obtain ⟨og, g1, g2, g3, g4⟩ := C09_scatter_ok b incoming (outgoing.fill_with_value (zero : F))
    h3 wfz o' (by rw [hol, s3])
    (by
      intro p hp
      change p.toNat < outgoing.shape.count
      rw [s4]
      exact hmemo p hp)
  have g3' : og.shape = l.input_shape := by rw [g3]; exact s4
  refine ⟨{ l with max_pool_origin := o' }, r', og,
    fun i j k => (o'[pos l.output_shape i j k]?.getD 0).toNat, ?_, ?_, g2, g3', ?_, ?_⟩
  · unfold MaxPoolLayer.forward
    rw [hm]
    simp only
    rw [q1]
    rfl
  · unfold MaxPoolLayer.backward
    simp only
    rw [g1]
    rfl
  · intro i j k hin
    obtain ⟨o, m, e1, e2, e3, e4⟩ := q4 i j k hin
    obtain ⟨m', e5, e6⟩ := m4 i j k hin
    have e7 := get_item_ok (b := b) m2 (i := i) (j := j) (k := k) (by rw [m3]; exact hin)
    rw [e7] at e2 e5
    cases e2
    cases e5
    simp only
    rw [e1]
    exact ⟨e6, e3, fun hg => by rw [e4 hg]; rfl⟩
  · intro a c e hin
    rw [get_item_ok g2 (by rw [g3']; exact hin)]
    have hlt : pos l.input_shape a c e < (outgoing.fill_with_value (zero : F)).shape.count := by
      change _ < outgoing.shape.count
      rw [s4]; exact pos_lt hin
    have key := g4 _ hlt
    have e0 : val og a c e = og.data[pos l.input_shape a c e]?.getD zero := by
      unfold val; rw [g3']
    rw [e0, key]
    congr 1
    have hz : (outgoing.fill_with_value (zero : F)).data[pos l.input_shape a c e]?.getD zero =
        zero := by
      unfold Tensor.fill_with_value
      simp only [List.getElem?_map]
      cases outgoing.data[pos l.input_shape a c e]? <;> rfl
    unfold scatter Spec.sum
    rw [hz]
    congr 1
    exact filter_zipIdx_indices (α := UInt32) l.output_shape o' 0 hol
      (fun u => u.toNat = pos l.input_shape a c e) (fun n => incoming.data[n]?.getD zero)
      (fun i j k => val incoming i j k) (fun i j k => by unfold val; rw [s3])

/-- C23: in exact arithmetic `backward` neither loses nor creates gradient. -/
theorem C23_total [F32Order F] [ExactAdd F] (b : Build) (l : MaxPoolLayer) (hl : l.Ok)
    (hm : l.run_state = .Training) (input output incoming outgoing : Tensor F)
    (h1 : input.WF) (h2 : output.WF) (h3 : incoming.WF) (h4 : outgoing.WF)
    (s1 : input.shape = l.input_shape) (s2 : output.shape = l.output_shape)
    (s3 : incoming.shape = l.output_shape) (s4 : outgoing.shape = l.input_shape)
    (hne : 0 < l.output_shape.count → 0 < l.input_shape.count) :
    ∃ l' output' outgoing',
      l.forward b input output = .ok (.ok (), l', output') ∧
      l'.backward b input output' incoming outgoing = .ok (.ok (), l', outgoing') ∧
      sum outgoing'.data = sum incoming.data := by
  obtain ⟨l', output', outgoing', origin, q1, q2, q3, q4, q5, q6⟩ :=
    C23_backward b l hl hm input output incoming outgoing h1 h2 h3 h4 s1 s2 s3 s4 hne
  refine ⟨l', output', outgoing', q1, q2, ?_⟩
  rw [data_indices q3, data_indices h3, s3, q4]
  have e : ∀ x ∈ l.input_shape.indices, val outgoing' x.1 x.2.1 x.2.2 =
      (fun p => sum ((l.output_shape.indices.filter fun x => origin x.1 x.2.1 x.2.2 = p).map
              fun x => val incoming x.1 x.2.1 x.2.2)) (pos l.input_shape x.1 x.2.1 x.2.2) := by
    rintro ⟨a, c, e⟩ hx
    have hin := mem_indices.mp hx
    have := q6 a c e hin
    rw [get_item_ok q3 (by rw [q4]; exact hin)] at this
    exact Except.ok.inj this
  rw [List.map_congr_left e]
  have e2 := congrArg (List.map (fun p => sum ((l.output_shape.indices.filter fun x =>
      origin x.1 x.2.1 x.2.2 = p).map fun x => val incoming x.1 x.2.1 x.2.2)))
    (pos_indices l.input_shape)
  rw [List.map_map] at e2
  refine (congrArg Spec.sum e2).trans ?_
  apply sum_scatter
  rintro ⟨i, j, k⟩ hx
  have hin := mem_indices.mp hx
  obtain ⟨_, e3, e4⟩ := q5 i j k hin
  by_cases hg : gt (val output' i j k) negInf = true
  · obtain ⟨ii, jj, _, _, _, ins, e5, _⟩ := e3 hg
    change origin i j k < _
    rw [e5, s1]
    rw [s1] at ins
    exact pos_lt ins
  · change origin i j k < _
    rw [e4 (by simpa using hg)]
    exact hne (Nat.lt_of_le_of_lt (Nat.zero_le _) (pos_lt hin))

/-- C23, why `hne`: a max-pool layer over an empty input with an empty mask is accepted by `new`,
has one output, and its `backward` is refused. -/
theorem C23_empty_negation :
    let _ := Toy.toyOps
    ∃ l l' : MaxPoolLayer, MaxPoolLayer.new .debug ⟨0, 0, 1⟩ ⟨0, 0, 1⟩ 1 "p" = .ok (.ok l) ∧
      l.switch_to_training .debug = .ok l' ∧ l'.Ok ∧ l'.run_state = .Training ∧
      l'.output_shape.count = 1 ∧
      ∃ out e og l'', l'.forward .debug (zeros ⟨0, 0, 1⟩ : Tensor Int) (zeros ⟨1, 1, 1⟩) =
          .ok (.ok (), l'', out) ∧
        l''.backward .debug (zeros ⟨0, 0, 1⟩) out (zeros ⟨1, 1, 1⟩) (zeros ⟨0, 0, 1⟩) =
          .ok (.error e, l'', og) :=
  ⟨_, _, rfl, rfl, ⟨by decide, by decide, rfl, by decide, by decide, fun _ => rfl⟩, rfl, rfl,
    _, _, _, _, rfl, rfl⟩

/-- a 2x2 stride-1 max-pool layer on 3x3x1 in training mode -/
def exMP : MaxPoolLayer := ⟨⟨3, 3, 1⟩, ⟨2, 2, 1⟩, ⟨2, 2, 1⟩, 1, "p", .Training, [0, 0, 0, 0]⟩

example : exMP.Ok := ⟨by decide, by decide, rfl, by decide, by decide, fun _ => rfl⟩

open Toy in
example : ∃ l' out og, exMP.forward .debug exPool (zeros ⟨2, 2, 1⟩) = .ok (.ok (), l', out) ∧
    l'.backward .debug exPool out (⟨⟨1, 2, 4⟩, ⟨2, 2, 1⟩, [1, 10, 100, 1000]⟩) (zeros ⟨3, 3, 1⟩) =
      .ok (.ok (), l', og) ∧ og.data = [0, 11, 0, 100, 0, 1000, 0, 0, 0] :=
  ⟨_, _, _, rfl, rfl, rfl⟩

end Rusty
