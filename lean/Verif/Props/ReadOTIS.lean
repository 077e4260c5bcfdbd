import Verif.Props.ExtractOTIS
/-!
C74: a global OTIS model that is read once and interpolated later gives the interpolation of the field in
its files, for any number of places, and the same as extracting the constants directly.
-/
namespace Verif.Staggered
open Verif Verif.Spec Verif.Extract Verif.Grid

variable {K : Type} [Field K] [LinearOrder K] [IsStrictOrderedRing K]

/-- The first column of a global model in one of the two conventions of longitudes, such that no zonal
current point of the grid lies west of the convention's first meridian. -/
def Starts (node : Node) (a d : K) : Prop :=
  (half node d ≤ a ∧ a ≤ d) ∨ (-180 + half node d ≤ a ∧ a ≤ -180 + d)

/-- A place whose longitude is written in one of the conventions.  With `'bilinear'` not on the last
column of the extended grid. -/
structure Lies (m : Method) (node : Node) (a d : K) (p : K × K) : Prop where
  west : -180 ≤ p.1
  east : p.1 ≤ 360
  edge : m = .bilinear → p.1 ≠ a + 360 - half node d

/-- The adjustment of longitudes to the stored axis is right for every place of a batch. -/
theorem adjust_stored {x : List K} {a d : K} {node : Node} {m : Method} (d0 : 0 < d)
    (h1 : x.min? = some (a - d - half node d)) (h2 : x.max? = some (a + 360 - half node d))
    (start : Starts node a d) {pts : List (K × K)} (hne : pts ≠ []) (hp : ∀ p ∈ pts, Lies m node a d p) :
    ∃ pts', adjust true false x pts = .ok pts' ∧ List.Forall₂ (fun p p' => (SameMeridian 360 p.1 p'.1 ∧
      a - d - half node d ≤ p'.1 ∧ p'.1 ≤ a + 360 - half node d ∧
      (m = .bilinear → p'.1 < a + 360 - half node d)) ∧ p'.2 = p.2) pts pts' := by
  obtain ⟨b0, b1⟩ := half_bounds node d0
  have hx : pts.map Prod.fst ≠ [] := by simpa using hne
  have hr : ∀ v ∈ pts.map Prod.fst, -180 ≤ v ∧ v ≤ 360 ∧ (m = .bilinear → v ≠ a + 360 - half node d) := by
    intro v hv
    obtain ⟨p, hp', rfl⟩ := List.mem_map.1 hv
    exact ⟨(hp p hp').west, (hp p hp').east, (hp p hp').edge⟩
  have key : ∃ l, adjustOTIS (a - d - half node d) (a + 360 - half node d) (pts.map Prod.fst) = .ok l ∧
      List.Forall₂ (fun v v' => SameMeridian 360 v v' ∧ a - d - half node d ≤ v' ∧ v' ≤ a + 360 - half node d ∧
        (m = .bilinear → v' < a + 360 - half node d)) (pts.map Prod.fst) l := by
    generalize pts.map Prod.fst = x at hx hr
    obtain ⟨mn, e1, hm, hmin⟩ := exists_min x hx
    obtain ⟨mx, e2, hM, hmax⟩ := exists_max x hx
    unfold adjustOTIS
    rw [e1]
    simp only
    rcases start with ⟨a0, a1⟩ | ⟨a0, a1⟩
    · by_cases hlo : mn < a - d - half node d
      · rw [if_pos hlo]
        obtain ⟨mx', e3, hM', -⟩ := exists_max (x.map (fun v => if v < 0 then v + 360 else v)) (by simpa using hx)
        have r : ∀ v ∈ x, 0 ≤ (if v < 0 then v + 360 else v) ∧ (if v < 0 then v + 360 else v) ≤ 360 := by
          intro v hv
          obtain ⟨v1, v2, -⟩ := hr v hv
          split_ifs <;> constructor <;> linarith
        obtain ⟨v, hv, rfl⟩ := List.mem_map.1 hM'
        rw [e3]
        simp only
        rw [if_neg (by have := (r v hv).2; linarith)]
        refine ⟨_, rfl, ?_⟩
        rw [List.forall₂_map_right_iff, List.forall₂_same]
        intro v hv
        obtain ⟨v1, v2, v3⟩ := hr v hv
        refine ⟨toPositive_same v, by linarith [(r v hv).1], by linarith [(r v hv).2], fun e => ?_⟩
        by_cases n : v < 0
        · rw [if_pos n]; linarith
        · rw [if_neg n]; exact lt_of_le_of_ne (by linarith) (v3 e)
      · rw [if_neg hlo, e2]
        simp only
        rw [if_neg (by have := (hr mx hM).2.1; linarith)]
        refine ⟨_, rfl, List.forall₂_same.2 fun v hv => ?_⟩
        obtain ⟨v1, v2, v3⟩ := hr v hv
        exact ⟨⟨0, by simp⟩, by linarith [hmin v hv], by linarith, fun e => lt_of_le_of_ne (by linarith) (v3 e)⟩
    · rw [if_neg (by have := (hr mn hm).1; linarith), e2]
      simp only
      by_cases hhi : mx > a + 360 - half node d
      · rw [if_pos hhi]
        refine ⟨_, rfl, ?_⟩
        rw [List.forall₂_map_right_iff, List.forall₂_same]
        intro v hv
        obtain ⟨v1, v2, v3⟩ := hr v hv
        refine ⟨toSigned_same v, ?_⟩
        by_cases n : v > 180
        · rw [if_pos n]
          exact ⟨by linarith, by linarith, fun _ => by linarith⟩
        · rw [if_neg n]
          exact ⟨by linarith, by linarith, fun e => lt_of_le_of_ne (by linarith) (v3 e)⟩
      · rw [if_neg hhi]
        refine ⟨_, rfl, List.forall₂_same.2 fun v hv => ?_⟩
        obtain ⟨v1, v2, v3⟩ := hr v hv
        exact ⟨⟨0, by simp⟩, by linarith, by linarith [hmax v hv],
          fun e => lt_of_le_of_ne (by linarith [hmax v hv]) (v3 e)⟩
  obtain ⟨l, e, hl⟩ := key
  exact ⟨_, adjust_zip h1 h2 hne e, zip_lands hl⟩

/-- **C74**: the constants interpolated from a stored global model are the interpolation of the field in
its files, for every batch of places. -/
theorem C74_stored {s : Site K} {a : K} (h : Around s a) (m : Method) (node : Node) (speed : Bool) (near : Near K)
    (hn : ∀ x y hc q, near x y hc q = none) (hq : speed = true → node ≠ .z)
    (start : Starts node a (360 / (s.x.length : K)))
    (fields : List (List (List (Fld K)))) (hf : ∀ hc ∈ fields, CGrid.Shape hc s.y.length s.x.length ∧
      Complete m true (world s a) node.points (worldValue s hc))
    (pts : List (K × K)) (hne : pts ≠ []) (hs : ∀ p ∈ pts, Lies m node a (360 / (s.x.length : K)) p)
    (hb : ∀ p ∈ pts, Band m node s.y p) :
    ∃ st ds outs, read true node none s fields = .ok st ∧ interpolate m near speed st pts = .ok (ds, outs) ∧
      List.Forall₂ (Sounds m ((world s a).depths node.points)) pts ds ∧
      List.Forall₂ (fun hc os => List.Forall₂ (Agrees m speed
        ((world s a).chart node.points (worldValue s hc)) ((world s a).depths node.points)) pts os) fields outs := by
  obtain ⟨f, ef, fx, fy, fnx, fny, sb, cons⟩ := global_frame h node true
  obtain ⟨d0, d1⟩ := h.step0
  obtain ⟨b0, b1⟩ := half_bounds node d0
  obtain ⟨x0, x1, -, -, rng⟩ := cols_range h node fx
  rw [← fnx] at x0 x1 rng
  obtain ⟨r0, r1, r2⟩ := rows_inside h.asc.2 h.two' node
  have rd : ((world s a).depths node.points).Round s.x.length := world_round h node.points _ (water_round node.points)
  have abound : -180 ≤ a ∧ a ≤ 360 := by
    rcases start with e | e <;> constructor <;> linarith [e.1, e.2]
  have far : m = .bilinear → ∀ c : ℕ, c < f.nx.length → |f.nx.getD c 0| ≤ 720 := by
    intro _ c hc
    have := rng c hc
    rw [abs_le]
    constructor <;> linarith [this.1, this.2]
  obtain ⟨pts', ea, hl⟩ := adjust_stored (x := f.nx) (m := m) d0
    (by rw [min?_increasing sb.asc.1 sb.two, x0]) (by rw [max?_increasing sb.asc.1 sb.two, x1]) start hne hs
  have hin : ∀ q ∈ pts', Inside m f.nx f.ny q ∧ outside f.nx f.ny q = .ok false := by
    intro q hq
    obtain ⟨p, hp, ⟨-, l1, l2, l3⟩, l4⟩ := forall₂_right hl q hq
    have b := hb p hp
    have i : Inside m f.nx f.ny q := by
      rw [fny]
      refine ⟨by rw [x0]; exact l1, by rw [x1]; exact l2, by rw [l4]; exact le_trans r0 b.south,
        by rw [l4, r1]; exact b.north, fun e => ⟨by rw [x1]; exact l3 e, ?_, ?_⟩⟩
      · rw [l4]; exact lt_of_le_of_lt r0 (b.strict e).1
      · rw [l4, r1]; exact (b.strict e).2
    exact ⟨i, i.outside sb.asc sb.two sb.two'⟩
  obtain ⟨hcs, eh, hh⟩ := pyMap_rel (f := constituent true none s.x s.y f) (l := fields)
    (R := fun hc hc' => hc ∈ fields ∧
      Shows f.nx f.ny hc' ((world s a).chart node.points (worldValue s hc)) (-1) 0) fun hc hm => by
        obtain ⟨hc', e, st⟩ := cons hc (hf hc hm).1
        exact ⟨hc', e, hm, st⟩
  obtain ⟨ds, ed, sd⟩ := depths_sound sb m far fun q hq => (hin q hq).1
  have key : ∀ hc' ∈ hcs, ∃ os, evaluate m near speed true f.nx f.ny f.nx f.ny f.bath hc' pts' = .ok os ∧
      ∀ hc ∈ fields, Shows f.nx f.ny hc' ((world s a).chart node.points (worldValue s hc)) (-1) 0 →
      List.Forall₂ (Agrees m speed ((world s a).chart node.points (worldValue s hc))
        ((world s a).depths node.points)) pts os := by
    intro hc' hm'
    obtain ⟨hc0, -, hm0, st0⟩ := forall₂_right hh hc' hm'
    obtain ⟨os, eo, -⟩ := evaluate_agrees st0 sb m near hn speed true (hf hc0 hm0).2
      (fun e => depths_positive _ (hq e)) far hin
    refine ⟨os, eo, fun hc hm st => ?_⟩
    obtain ⟨os', eo', ao⟩ := evaluate_agrees st sb m near hn speed true (hf hc hm).2
      (fun e => depths_positive _ (hq e)) far hin
    rw [eo] at eo'
    cases eo'
    refine forall₂_trans hl ao fun p q o l a' => ?_
    rw [show q = (q.1, p.2) from Prod.ext rfl l.2] at a'
    exact a'.turn (world_round h _ _ (worldValue_round s hc)) rd l.1.1
  obtain ⟨outs, eo, ao⟩ := pyMap_rel key
  refine ⟨⟨true, f.nx, f.ny, f.bath, hcs⟩, ds, outs, ?_, ?_, forall₂_trans hl sd fun p q o l s' => ?_,
    forall₂_trans hh ao fun hc hc' os g1 g2 => g2 hc g1.1 g1.2⟩
  · unfold read
    simp only [Option.filter_none]
    rw [h.step, ok_bind, step_getD h.two', ok_bind]
    simp only [cropIf]
    rw [ok_bind]
    dsimp only
    rw [ok_bind]
    dsimp only
    rw [ef, ok_bind]
    simp only [aliased]
    rw [ok_bind, eh, ok_bind]
  · unfold interpolate
    rw [ea, ok_bind, ed, ok_bind, eo, ok_bind]
  · rw [show q = (q.1, p.2) from Prod.ext rfl l.2] at s'
    exact s'.turn rd l.1.1

theorem Sounds.unique {H : Chart K} (hH : H.Ordered) {m : Method} (hm : m ≠ .bilinear) {q : K × K}
    {d d' : Option K} (a : Sounds m H q d) (b : Sounds m H q d') : d = d' := by
  cases m with
  | bilinear => exact absurd rfl hm
  | spline =>
    obtain ⟨w, hw, rfl⟩ := a
    obtain ⟨w', hw', rfl⟩ := b
    rw [hw.unique hH hw']
  | linear =>
    obtain ⟨w, hw, rfl⟩ := a
    obtain ⟨w', hw', rfl⟩ := b
    rw [hw.unique hH hw']

theorem Complete.extracted {m : Method} {S : Sea K} {p : Points} {value : ℤ → ℤ → Option (K × K)}
    (h : Complete m true S p value) : Complete m false S p value :=
  ⟨fun _ => h.gaps (Or.inr rfl), fun e => h.zeros (e.imp_right fun e => ⟨e.1, rfl⟩)⟩

/-- **C74**: with `'spline'` and `'linear'` the stored model gives what extracting the constants gives, for
one place. -/
theorem C74_same_place {s : Site K} {a : K} (h : Around s a) (r : Ask K) (hg : r.geographic = true)
    (hr : r.crop = false) (hm : r.method ≠ .bilinear) (hn : ∀ x y hc q, r.near x y hc q = none)
    (hq : r.quantity.speed = true → r.quantity.node ≠ .z)
    (start : Starts r.quantity.node a (360 / (s.x.length : K)))
    (fields : List (List (List (Fld K)))) (hf : ∀ hc ∈ fields, CGrid.Shape hc s.y.length s.x.length ∧
      Complete r.method true (world s a) r.quantity.node.points (worldValue s hc))
    (p : K × K) (w : -180 ≤ p.1) (e : p.1 ≤ 360) (hb : Band r.method r.quantity.node s.y p) :
    ∃ res, extract r s fields [p] = .ok res ∧ (do
      let st ← read true r.quantity.node none s fields
      interpolate r.method r.near r.quantity.speed st [p]) = .ok res := by
  obtain ⟨b0, b1⟩ := half_bounds r.quantity.node h.step0.1
  obtain ⟨d, outs, ee, sd, ao⟩ := C73_place h r hg hr hn hq (start.imp_left fun e => ⟨le_trans b0 e.1, e.2⟩) fields
    (fun hc hm => ⟨(hf hc hm).1, (hf hc hm).2.extracted⟩) p ⟨w, e, fun e => absurd e hm⟩ hb
  obtain ⟨st, ds', outs', er, ei, sd', ao'⟩ := C74_stored h r.method r.quantity.node r.quantity.speed r.near hn hq start
    fields hf [p] (by simp) (by
      intro q hq
      rw [List.mem_singleton.1 hq]
      exact ⟨w, e, fun e => absurd e hm⟩) (by simpa using hb)
  have e1 : [d] = ds' := forall₂_unique (.cons sd .nil) sd' fun _ _ _ a b => Sounds.unique (world_ordered h _ _) hm a b
  have e2 : outs = outs' := forall₂_unique ao ao' fun hc os os' a b => by
    obtain ⟨o, rfl, ag⟩ := a
    exact forall₂_unique (.cons ag .nil) b fun _ _ _ a b =>
      Agrees.unique (world_ordered h _ _) (world_ordered h _ _) hm a b
  exact ⟨_, ee, by rw [er, ok_bind, ei, ← e1, ← e2]⟩

/-- **C74** for any number of places; for a model that starts at Greenwich only if none lies beyond its last
column: there extracting goes wrong (`C73_batch_false`), not the stored model. -/
theorem C74_same_partial {s : Site K} {a : K} (h : Around s a) (r : Ask K) (hg : r.geographic = true)
    (hr : r.crop = false) (hm : r.method ≠ .bilinear) (hn : ∀ x y hc q, r.near x y hc q = none)
    (hq : r.quantity.speed = true → r.quantity.node ≠ .z)
    (start : Starts r.quantity.node a (360 / (s.x.length : K)))
    (fields : List (List (List (Fld K)))) (hf : ∀ hc ∈ fields, CGrid.Shape hc s.y.length s.x.length ∧
      Complete r.method true (world s a) r.quantity.node.points (worldValue s hc))
    (pts : List (K × K)) (hne : pts ≠ []) (hl : ∀ p ∈ pts, -180 ≤ p.1 ∧ p.1 ≤ 360)
    (hin : 0 ≤ a → ∀ p ∈ pts, toPositive p.1 ≤ a + 360 - 360 / (s.x.length : K))
    (hb : ∀ p ∈ pts, Band r.method r.quantity.node s.y p) :
    ∃ res, extract r s fields pts = .ok res ∧ (do
      let st ← read true r.quantity.node none s fields
      interpolate r.method r.near r.quantity.speed st pts) = .ok res := by
  obtain ⟨b0, b1⟩ := half_bounds r.quantity.node h.step0.1
  obtain ⟨ds, outs, ee, sd, ao⟩ := C73_places_partial h r hg hr hn hq fields
    (fun hc hm => ⟨(hf hc hm).1, (hf hc hm).2.extracted⟩) pts hne
    (fun p hp => ⟨(hl p hp).1, (hl p hp).2, fun e => absurd e hm⟩) hb
    (start.imp_left fun e => ⟨le_trans b0 e.1, e.2, hin (le_trans b0 e.1)⟩)
  obtain ⟨st, ds', outs', er, ei, sd', ao'⟩ := C74_stored h r.method r.quantity.node r.quantity.speed r.near hn hq start
    fields hf pts hne (fun p hp => ⟨(hl p hp).1, (hl p hp).2, fun e => absurd e hm⟩) hb
  have e1 : ds = ds' := forall₂_unique sd sd' fun _ _ _ a b => Sounds.unique (world_ordered h _ _) hm a b
  have e2 : outs = outs' := forall₂_unique ao ao' fun hc os os' a b =>
    forall₂_unique a b fun _ _ _ a b => Agrees.unique (world_ordered h _ _) (world_ordered h _ _) hm a b
  exact ⟨_, ee, by rw [er, ok_bind, ei, ← e1, ← e2]⟩

/-- The hypotheses hold for the example, with any method, for the batch that `C73_batch_false` loses. -/
example (m : Method) : ∃ st ds outs, read true .u none (ocean 15) [tide] = .ok st ∧
    interpolate m (fun _ _ _ _ => none) true st [(-1, 0), (200, 0), (356, 10)] = .ok (ds, outs) := by
  have len : (ocean 15).x.length = 12 := by simp [ocean, uniform]
  have hy : (ocean 15).y = [-30, 0, 30] := rfl
  obtain ⟨st, ds, outs, e1, e2, -⟩ := C74_stored (ocean_around 15) m .u true (fun _ _ _ _ => none)
    (fun _ _ _ _ => rfl) (fun _ => by simp) (Or.inl (by rw [len]; simp only [half]; norm_num)) [tide]
    (by
      intro hc h
      rw [List.mem_singleton.1 h, len]
      exact ⟨table_shape _, tide_complete m true 15 _⟩) [(-1, 0), (200, 0), (356, 10)] (by simp)
    (by
      intro p hp
      rw [len]
      simp only [List.mem_cons, List.not_mem_nil, or_false] at hp
      rcases hp with rfl | rfl | rfl <;>
        exact ⟨by norm_num, by norm_num, fun _ => by simp only [half]; norm_num⟩)
    (by
      intro p hp
      simp only [List.mem_cons, List.not_mem_nil, or_false] at hp
      rcases hp with rfl | rfl | rfl <;>
        exact ⟨by rw [hy]; norm_num, by rw [hy]; (simp [low] <;> norm_num), fun _ => by rw [hy]; (simp [low] <;> norm_num)⟩)
  exact ⟨st, ds, outs, e1, e2⟩

/-- The masks of the constituents are dropped with `'spline'`: a missing number at a point of the sea gives
an enormous constant where extracting gives none. -/
theorem C74_gap_false :
    (do let s ← read true .z none (ocean 15) [table fun j i => if i = 6 ∧ j = 1 then ⟨10 ^ 20, 0, true⟩
          else ⟨i, j, false⟩]
        interpolate .spline (fun _ _ _ _ => none) false s [(200, 20)]) =
      .ok ([some (4900 / 3)], [[.val (500000000000000000081 / 18) (25 / 18) 1]]) ∧
    extract (ask .z .spline) (ocean 15) [table fun j i => if i = 6 ∧ j = 1 then ⟨10 ^ 20, 0, true⟩
        else ⟨i, j, false⟩] [(200, 20)] = .ok ([some (4900 / 3)], [[.masked]]) := by
  decide +kernel

/-- With `'linear'` a constant that is zero at a point of the sea is taken for a missing one. -/
theorem C74_zero_false :
    (do let s ← read true .z none (ocean 15) [table fun j i => if i = 6 ∧ j = 1 then ⟨0, 0, false⟩
          else ⟨i, j, false⟩]
        interpolate .linear (fun _ _ _ _ => none) false s [(200, 20)]) =
      .ok ([some (4900 / 3)], [[.val (500000000000000000081 / 18) (25 / 18) 1]]) ∧
    extract (ask .z .linear) (ocean 15) [table fun j i => if i = 6 ∧ j = 1 then ⟨0, 0, false⟩
        else ⟨i, j, false⟩] [(200, 20)] = .ok ([some (4900 / 3)], [[.val (9 / 2) (25 / 18) 1]]) := by
  decide +kernel

/-- The start of the grid matters for zonal currents: with the first column at Greenwich a place east of the
last current point moves the others of its batch out of the grid. -/
theorem C74_batch_false :
    (do let s ← read true .u none (ocean 0) [tide]
        interpolate .spline (fun _ _ _ _ => none) true s [(200, 0), (350, 0)]) =
      .ok ([some 2060, some (4430 / 3)], [[.masked, .val (7 / 6) 1 (30 / 443)]]) ∧
    (do let s ← read true .u none (ocean 0) [tide]
        interpolate .spline (fun _ _ _ _ => none) true s [(200, 0)]) =
      .ok ([some (5030 / 3)], [[.val (49 / 6) 1 (30 / 503)]]) := by
  decide +kernel

end Verif.Staggered
