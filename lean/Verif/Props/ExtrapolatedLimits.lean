import Verif.Props.ExtrapolatedSea
/-!
C112: what does not hold, and examples.
-/
namespace Verif.Near
open Verif Verif.Spec Verif.Grid Verif.Extract

variable {K : Type} [Field K] [LinearOrder K] [IsStrictOrderedRing K] {n : ℕ}

/-- The numbers and masks of the cells. -/
def marks (value : Fld K → Option (K × K) × Bool) (x y : List K) (hc : List (List (Fld K))) :
    List (Option (K × K) × Bool) :=
  (y.zip hc).flatMap fun r => (x.zip r.2).map fun c => value c.2

theorem marks_eq (pos : K × K → Extrap.Pt n) (value : Fld K → Option (K × K) × Bool) (x y : List K)
    (hc : List (List (Fld K))) :
    (cells pos value x y hc).map (fun c => (c.val, c.masked)) = marks value x y hc := by
  unfold cells marks
  rw [List.map_flatMap]
  simp only [List.map_map]
  rfl

/-- If all cells with a number have the same one, a masked point gets it, whatever the kd-tree. -/
theorem fillIn_same {β : Type} (t : Tree K n) (hq : Extrap.KDSpec t.query) (hcut : t.cutoff = none)
    (value : Fld K → Option (K × K) × Bool) (x y : List K) (hc : List (List (Fld K))) (make : K × K → β)
    (pts : List (K × K)) (os : List (Option β)) (hl : pts.length = os.length) (z : K × K)
    (all : ∀ k ∈ marks value x y hc, k.2 = false → k.1 ≠ none → k.1 = some z)
    (one : (some z, false) ∈ marks value x y hc) :
    fillIn t (cells t.pos value x y hc) make pts os = os.map fun o => o.or (some (make z)) := by
  obtain ⟨G, eG, hG⟩ := fillIn_eq t hq (cells t.pos value x y hc) make pts os hl
  rw [← marks_eq t.pos] at all one
  have key : ∀ p o, (p, o) ∈ pts.zip os → o = none → G (t.pos p) = some z := by
    intro p o hm ho
    rcases hG p o hm ho with ⟨c, hc', hv, hw, -, -⟩ | ⟨-, h⟩
    · unfold Extrap.Node.valid at hv
      simp only [Bool.and_eq_true, Bool.not_eq_true'] at hv
      rw [← hw]
      exact all (c.val, c.masked) (List.mem_map.2 ⟨c, hc', rfl⟩) hv.1 (Option.isSome_iff_ne_none.1 hv.2)
    · obtain ⟨c, hc', e⟩ := List.mem_map.1 one
      simp only [Prod.mk.injEq] at e
      refine absurd ?_ (h c hc' (by unfold Extrap.Node.valid; rw [e.1, e.2]; rfl))
      rw [hcut]
      intro d hd
      simp at hd
  rw [eG]
  clear eG hG
  induction pts generalizing os with
  | nil => cases os with
    | nil => rfl
    | cons _ _ => simp at hl
  | cons p pts ih => cases os with
    | nil => simp at hl
    | cons o os =>
      rw [List.zipWith_cons_cons, List.map_cons,
        ih os (by simpa using hl) fun p' o' hm ho => key p' o' (by simp [hm]) ho]
      cases o with
      | some b => rfl
      | none => rw [key p none (by simp) rfl]; rfl

/-- If no cell has a number, masked points stay masked. -/
theorem fillIn_none {β : Type} (t : Tree K n) (hq : Extrap.KDSpec t.query)
    (value : Fld K → Option (K × K) × Bool) (x y : List K) (hc : List (List (Fld K))) (make : K × K → β)
    (pts : List (K × K)) (os : List (Option β)) (hl : pts.length = os.length)
    (all : ∀ k ∈ marks value x y hc, k.2 = true ∨ k.1 = none) :
    fillIn t (cells t.pos value x y hc) make pts os = os := by
  obtain ⟨G, eG, hG⟩ := fillIn_eq t hq (cells t.pos value x y hc) make pts os hl
  rw [← marks_eq t.pos] at all
  have key : ∀ p o, (p, o) ∈ pts.zip os → o = none → G (t.pos p) = none := by
    intro p o hm ho
    rcases hG p o hm ho with ⟨c, hc', hv, hw, -, -⟩ | ⟨h, -⟩
    · unfold Extrap.Node.valid at hv
      simp only [Bool.and_eq_true, Bool.not_eq_true'] at hv
      rcases all (c.val, c.masked) (List.mem_map.2 ⟨c, hc', rfl⟩) with e | e
      · simp only at e; rw [hv.1] at e; cases e
      · rw [← hw]; exact e
    · exact h
  rw [eG]
  clear eG hG
  induction pts generalizing os with
  | nil => cases os with
    | nil => rfl
    | cons _ _ => simp at hl
  | cons p pts ih => cases os with
    | nil => simp at hl
    | cons o os =>
      rw [List.zipWith_cons_cons,
        ih os (by simpa using hl) fun p' o' hm ho => key p' o' (by simp [hm]) ho]
      cases o with
      | some b => rfl
      | none => rw [key p none (by simp) rfl]; rfl

/-- A model with sea along one meridian only. -/
def strait : Layer ℚ where
  lon := [0, 30, 60, 90, 120, 150, 180, 210, 240, 270, 300, 330]
  lat := [-60, 0, 60]
  hc := List.replicate 3 (⟨1, 2, false⟩ :: List.replicate 11 ⟨10 ^ 20, 0, true⟩)

def asked (crop : Bool) : Request ℚ := ⟨.spline, crop, none, none, fun _ _ _ _ => none, 1⟩

def narrow : Layer ℚ where
  lon := [60, 90, 120, 150, 180, 210, 240, 270, 300]
  lat := [-60, 0, 60]
  hc := List.replicate 3 (List.replicate 9 ⟨10 ^ 20, 0, true⟩)

def wide : Layer ℚ where
  lon := [-30, 0, 30, 60, 90, 120, 150, 180, 210, 240, 270, 300, 330, 360]
  lat := [-60, 0, 60]
  hc := List.replicate 3 (⟨10 ^ 20, 0, true⟩ :: ⟨1, 2, false⟩ :: List.replicate 11 ⟨10 ^ 20, 0, true⟩ ++
    [⟨1, 2, false⟩])

/-- With cropping, extrapolation finds only points of the sea within the buffer around the points: without
limit on the distance a point on land gets no value, although the model has one. -/
theorem C112_crop_false (t : Tree ℚ n) (hq : Extrap.KDSpec t.query) (hcut : t.cutoff = none) :
    extract fes (asked false) t [strait] [(180, 0)] = .ok [[.val 1 2 1]] ∧
    extract fes (asked true) t [strait] [(180, 0)] = .ok [[.masked]] := by
  have hs : step fes strait.lon = .ok 30 := by decide +kernel
  constructor
  · have e1 : place (asked false) ⟨180, 180, 0, 0⟩ 30 strait [(180, 0)] = .ok (strait, [(180, 0)]) := by decide +kernel
    have e2 : extended fes 30 strait = .ok wide := by decide +kernel
    have e3 : pyMap (fun q => if fes.bounded then outside wide.lon wide.lat q else .ok false) [(180, 0)] =
        .ok [false] := by decide +kernel
    have e4 : pyMap (atPoint (asked false).method false wide.lon wide.lat wide.hc (asked false).scale) [(180, 0)] =
        .ok [.masked] := by decide +kernel
    have e5 := fillIn_same t hq hcut nanCell wide.lon wide.lat wide.hc (fun z => Out.val z.1 z.2 (1 : ℚ)) [(180, 0)]
      [none] rfl (1, 2) (by decide +kernel) (by decide +kernel)
    show (do
      let (outs, pts) ← extractFile fes (asked false) t ⟨180, 180, 0, 0⟩ strait [(180, 0)]
      let rest ← extractFiles fes (asked false) t ⟨180, 180, 0, 0⟩ [] pts
      .ok (outs :: rest)) = Except.ok [[Out.val (1 : ℚ) 2 1]]
    unfold extractFile
    rw [hs, ok_bind, e1, ok_bind]
    simp only
    rw [e2, ok_bind]
    unfold evaluate
    rw [e3, ok_bind, e4, ok_bind]
    simp only [List.map_cons, List.map_nil, unmasked]
    rw [show (asked false).scale = 1 from rfl, e5]
    rfl
  · have e1 : place (asked true) ⟨180, 180, 0, 0⟩ 30 strait [(180, 0)] = .ok (narrow, [(180, 0)]) := by decide +kernel
    have e2 : extended fes 30 narrow = .ok narrow := by decide +kernel
    have e3 : pyMap (fun q => if fes.bounded then outside narrow.lon narrow.lat q else .ok false) [(180, 0)] =
        .ok [false] := by decide +kernel
    have e4 : pyMap (atPoint (asked true).method false narrow.lon narrow.lat narrow.hc (asked true).scale) [(180, 0)] =
        .ok [.masked] := by decide +kernel
    have e5 := fillIn_none t hq nanCell narrow.lon narrow.lat narrow.hc (fun z => Out.val z.1 z.2 (1 : ℚ)) [(180, 0)]
      [none] rfl (by decide +kernel)
    show (do
      let (outs, pts) ← extractFile fes (asked true) t ⟨180, 180, 0, 0⟩ strait [(180, 0)]
      let rest ← extractFiles fes (asked true) t ⟨180, 180, 0, 0⟩ [] pts
      .ok (outs :: rest)) = Except.ok [[Out.masked]]
    unfold extractFile
    rw [hs, ok_bind, e1, ok_bind]
    simp only
    rw [e2, ok_bind]
    unfold evaluate
    rw [e3, ok_bind, e4, ok_bind]
    simp only [List.map_cons, List.map_nil, unmasked]
    rw [show (asked true).scale = 1 from rfl, e5]
    rfl

/-- An ocean 1000 m deep with land in one column, and a transport that is the same everywhere. -/
def shelf : Staggered.Site ℚ :=
  { Staggered.ocean 15 with hz := Staggered.table fun _ i => if i = 6 then 0 else 1000 }

def drift : List (List (Fld ℚ)) := Staggered.table fun _ _ => ⟨7, 8, false⟩

theorem ok_got {α : Type} (d : α) (e : Except PyErr α) (h : e.toOption.isSome = true) : e = .ok (got d e) := by
  cases e with
  | ok v => rfl
  | error _ => cases h

def shelfFrame : Staggered.Frame ℚ :=
  got ⟨[], [], [], [], [], false⟩ (Staggered.frame false true .u 30 30 shelf.x shelf.y shelf.hz shelf.sea)

def shelfDrift : List (List (Fld ℚ)) :=
  got [] (Staggered.constituent true none shelf.x shelf.y shelfFrame drift)

/-- An extrapolated current of an OTIS model is a transport: it is not divided by a depth, since the depth is
masked there.  The first point is next to land. -/
theorem C112_currents_false (t : Tree ℚ n) (hq : Extrap.KDSpec t.query) (hcut : t.cutoff = none) :
    extractOtis (Staggered.ask .u .spline) t shelf [drift] [(200, 0), (100, 0)] =
      .ok ([none, some 1000], [[.val 7 8 1, .val 7 8 (1 / 10)]]) := by
  have e1 : Staggered.step shelf.x = .ok 30 := by decide +kernel
  have e2 : Staggered.step shelf.y = .ok 30 := by decide +kernel
  have e3 : (Staggered.ask .u .spline).region (30 : ℚ) [(200, 0), (100, 0)] = .ok none := rfl
  have e4 : Staggered.adjust true false shelf.x [(200, 0), (100, 0)] = .ok [(200, 0), (100, 0)] := by decide +kernel
  have e5 : Staggered.frame false true .u 30 30 shelf.x shelf.y shelf.hz shelf.sea = .ok shelfFrame :=
    ok_got _ _ (by decide +kernel)
  have e6 : pyMap (Staggered.depthAt .spline shelfFrame.nx shelfFrame.ny shelfFrame.bath) [(200, 0), (100, 0)] =
      .ok [none, some 1000] := by decide +kernel
  have e7 : Staggered.constituent true none shelf.x shelf.y shelfFrame drift = .ok shelfDrift :=
    ok_got _ _ (by decide +kernel)
  have e8 : pyMap (outside shelfFrame.x shelfFrame.y) [(200, 0), (100, 0)] = .ok [false, false] := by decide +kernel
  have e9 : pyMap (fun p => Staggered.constantAt .spline false shelfFrame.nx shelfFrame.ny shelfDrift p.2 p.1)
      [((200, 0), none), ((100, 0), some 1000)] = .ok [none, some (7, 8)] := by decide +kernel
  have e10 := fillIn_same t hq hcut Staggered.nonzeroCell shelfFrame.nx shelfFrame.ny shelfDrift id
    [((200 : ℚ), (0 : ℚ)), (100, 0)] [none, some (7, 8)] rfl (7, 8) (by decide +kernel) (by decide +kernel)
  unfold extractOtis
  rw [e1, ok_bind, e2, ok_bind, e3, ok_bind]
  simp only [Staggered.cropIf]
  rw [ok_bind]
  dsimp only
  rw [ok_bind]
  dsimp only
  rw [show (Staggered.ask .u .spline).geographic = true from rfl,
    show (Staggered.ask .u .spline).quantity.node = .u from rfl, show (Staggered.ask .u .spline).method = .spline from rfl,
    show (none : Staggered.Region ℚ).isSome = false from rfl, e4, ok_bind, e5, ok_bind, e6, ok_bind]
  simp only [Staggered.aliased]
  rw [ok_bind]
  simp only [pyMap]
  rw [e7, ok_bind]
  unfold evaluateOtis
  rw [e6, ok_bind, e8, ok_bind, show ([((200 : ℚ), (0 : ℚ)), (100, 0)].zip [none, some (1000 : ℚ)]) =
    [((200, 0), none), ((100, 0), some 1000)] from rfl, e9, ok_bind]
  simp only [Bool.false_eq_true, false_and, if_false]
  rw [e10]
  decide +kernel

/-! ## Examples -/

def rows {α : Type} (f : ℕ → ℕ → α) : List (List α) := (List.range 3).map fun j => (List.range 4).map fun i => f j i

theorem rows_shape {α : Type} (f : ℕ → ℕ → α) : CGrid.Shape (rows f) 3 4 := by
  refine ⟨by simp [rows], fun r hr => ?_⟩
  obtain ⟨j, -, rfl⟩ := List.mem_map.1 hr
  simp

theorem uniform_quarter : ((uniform (0 : ℝ) 90 4).length : ℝ) = 4 := by
  rw [uniform_length]; norm_num

/-- A global model with land at one point. -/
noncomputable def coral : Layer ℝ where
  lon := uniform 0 90 4
  lat := [-60, 0, 60]
  hc := rows fun j i => ⟨i, j, decide (j = 1 ∧ i = 2)⟩

theorem coral_global : Global coral 0 := by
  have e : (360 : ℝ) / (coral.lon.length : ℝ) = 90 := by
    rw [show coral.lon = uniform 0 90 4 from rfl, uniform_quarter]; norm_num
  have l : coral.lon.length = 4 := by rw [show coral.lon = uniform 0 90 4 from rfl, uniform_length]
  refine ⟨⟨by omega, ?_, ?_, by show 2 ≤ 3; omega, rfl, ?_⟩, Or.inl ?_⟩
  · rw [e, l]; rfl
  · show List.Pairwise (· < ·) [(-60 : ℝ), 0, 60]
    simp
  · rw [l]; exact (rows_shape fun j i => (⟨i, j, decide (j = 1 ∧ i = 2)⟩ : Fld ℝ)).2
  · rw [e]; norm_num

/-- The hypotheses of `C112_got_fes` and `C112_stored_partial` hold for it, at places in the sea, on land and
across the meridian where the file begins. -/
example (f : Fmt) (cutoff : Option ℝ) : ∃ (query : Extrap.Query 3) (outs : List (List (Out ℝ))),
    extract f ⟨.spline, false, none, none, fun _ _ _ _ => none, 1⟩ ⟨query, cutoff, onEarth⟩ [coral]
      [(10, 20), (180, 0), (-10, 5)] = .ok outs := by
  obtain ⟨query, hq⟩ := Extrap.kdspec_satisfiable (n := 3)
  obtain ⟨outs, e, -⟩ := C112_got_fes f ⟨.spline, false, none, none, fun _ _ _ _ => none, 1⟩ rfl query hq cutoff
    [(coral, 0)] (by
      intro g hg
      rw [List.mem_singleton.1 hg]
      exact coral_global) [(10, 20), (180, 0), (-10, 5)] (by simp) (by
      intro g hg p hp
      rw [List.mem_singleton.1 hg]
      have e1 : coral.lat.getD 0 0 = -60 := rfl
      have e2 : coral.lat.getD (coral.lat.length - 1) 0 = 60 := rfl
      simp only [List.mem_cons, List.not_mem_nil, or_false] at hp
      rcases hp with rfl | rfl | rfl <;>
        exact ⟨by norm_num, by norm_num, by rw [e1]; norm_num, by rw [e2]; norm_num, fun h => by cases h⟩)
  exact ⟨query, outs, e⟩

/-- A global ATLAS model with land in one column. -/
noncomputable def reef : AtlasNet.Site ℝ where
  lon := uniform 0 90 4
  lat := [-60, 0, 60]
  depth := rows fun _ i => if i = 2 then 0 else 100

theorem reef_length : reef.lon.length = 4 := by rw [show reef.lon = uniform 0 90 4 from rfl, uniform_length]

theorem reef_around : AtlasNet.Around reef 0 := by
  have e : (360 : ℝ) / (reef.lon.length : ℝ) = 90 := by
    rw [show reef.lon = uniform 0 90 4 from rfl, uniform_quarter]; norm_num
  have l := reef_length
  refine ⟨by omega, ?_, ?_, by show 2 ≤ 3; omega, ?_, Or.inl ?_⟩
  · rw [e, l]; rfl
  · show List.Pairwise (· < ·) [(-60 : ℝ), 0, 60]
    simp
  · rw [l]; exact rows_shape _
  · rw [e]; norm_num

/-- The hypotheses of `C112_atlas_partial` hold for it. -/
example (cutoff : Option ℝ) : ∃ (query : Extrap.Query 3) (ds : List (Option ℝ)) (outs : List (List (Out ℝ))),
    extractAtlas ⟨.spline, false, none, none, fun _ _ _ _ => none, 1⟩ ⟨query, cutoff, onEarth⟩ false reef
      [rows fun j i => ((i : ℝ), (j : ℝ))] [(10, 20), (180, 0), (-10, 5)] = .ok (ds, outs) := by
  obtain ⟨query, hq⟩ := Extrap.kdspec_satisfiable (n := 3)
  have l := reef_length
  have h := reef_around
  obtain ⟨ds, outs, e, -⟩ := C112_atlas_partial h ⟨.spline, false, none, none, fun _ _ _ _ => none, 1⟩ rfl query hq
    cutoff [rows fun j i => ((i : ℝ), (j : ℝ))] (by
      intro hc hm
      rw [List.mem_singleton.1 hm, l]
      exact rows_shape _) [(10, 20), (180, 0), (-10, 5)] (by simp) (by
      intro p hp
      have e1 : reef.lat.getD 0 0 = -60 := rfl
      have e2 : reef.lat.getD (reef.lat.length - 1) 0 = 60 := rfl
      simp only [List.mem_cons, List.not_mem_nil, or_false] at hp
      rcases hp with rfl | rfl | rfl <;>
        exact ⟨by norm_num, by norm_num, by show reef.lat.getD 0 0 ≤ _; rw [e1]; norm_num,
          by show _ ≤ reef.lat.getD (reef.lat.length - 1) 0; rw [e2]; norm_num, fun h => by cases h⟩)
  exact ⟨query, ds, outs, e⟩

/-- A global OTIS model with land in one column. -/
noncomputable def lagoon : Staggered.Site ℝ :=
  ⟨uniform 0 90 4, [-60, 0, 60], rows fun _ i => if i = 2 then 0 else 100, rows fun _ _ => true⟩

theorem lagoon_length : lagoon.x.length = 4 := by rw [show lagoon.x = uniform 0 90 4 from rfl, uniform_length]

theorem lagoon_step : (360 : ℝ) / (lagoon.x.length : ℝ) = 90 := by rw [lagoon_length]; norm_num

theorem lagoon_around : Staggered.Around lagoon 0 := by
  have l := lagoon_length
  have e := lagoon_step
  refine ⟨⟨⟨?_, ?_⟩, by omega, by show 2 ≤ 3; omega, ?_, ?_⟩, by omega, ?_⟩
  · exact uniform_increasing 0 90 (by norm_num) 4
  · show List.Pairwise (· < ·) [(-60 : ℝ), 0, 60]
    simp
  · rw [l]; exact rows_shape _
  · rw [l]; exact rows_shape _
  · rw [e, l]; rfl

/-- A tide in its sea. -/
theorem lagoon_tide (m : Method) (stored : Bool) :
    CGrid.Shape (rows fun j i => (⟨i + 1, j, false⟩ : Fld ℝ)) lagoon.y.length lagoon.x.length ∧
    Staggered.Complete m stored (Staggered.world lagoon 0) .elevation
      (Staggered.worldValue lagoon (rows fun j i => (⟨i + 1, j, false⟩ : Fld ℝ))) ∧
    ∀ k j, (Staggered.world lagoon 0).Wet .elevation k j →
      Staggered.worldValue lagoon (rows fun j i => (⟨i + 1, j, false⟩ : Fld ℝ)) k j ≠ some (0, 0) := by
  have l := lagoon_length
  have val : ∀ j < 3, ∀ i < 4, (Extract.entry (rows fun j i => (⟨i + 1, j, false⟩ : Fld ℝ)) j i).number =
      some ((i : ℝ) + 1, (j : ℝ)) := by
    intro j hj i hi
    unfold Extract.entry rows
    simp [List.getD_eq_getElem?_getD, hj, hi, Extract.Fld.number]
  have wet : ∀ k j, (Staggered.world lagoon 0).Wet .elevation k j → j.toNat < 3 := by
    intro k j hw
    by_contra hn
    refine hw.2 ?_
    show ((lagoon.hz.getD j.toNat [])).getD _ 0 = 0
    rw [List.getD_eq_getElem?_getD (l := lagoon.hz), List.getElem?_eq_none (by
      show (rows _).length ≤ _
      rw [(rows_shape _).1]
      omega)]
    rfl
  have all : ∀ k j, (Staggered.world lagoon 0).Wet .elevation k j →
      Staggered.worldValue lagoon (rows fun j i => (⟨i + 1, j, false⟩ : Fld ℝ)) k j =
        some ((((k % lagoon.x.length).toNat : ℕ) : ℝ) + 1, ((j.toNat : ℕ) : ℝ)) := fun k j hw =>
    val _ (wet k j hw) _ (by rw [l]; omega)
  have nz : ∀ k j, (Staggered.world lagoon 0).Wet .elevation k j →
      Staggered.worldValue lagoon (rows fun j i => (⟨i + 1, j, false⟩ : Fld ℝ)) k j ≠ some (0, 0) := by
    intro k j hw ee
    rw [all k j hw] at ee
    have e1 := (Prod.mk.inj (Option.some.inj ee)).1
    have : (0 : ℝ) ≤ (((k % lagoon.x.length).toNat : ℕ) : ℝ) := Nat.cast_nonneg _
    linarith
  rw [l]
  exact ⟨rows_shape _, ⟨fun _ k j hw => by rw [all k j hw]; simp, fun _ k j hw => nz k j hw⟩, nz⟩

/-- The hypotheses of `C112_otis_partial` hold for its elevations. -/
example (cutoff : Option ℝ) : ∃ (query : Extrap.Query 3) (ds : List (Option ℝ)) (outs : List (List (Out ℝ))),
    extractOtis ⟨⟨.z, false⟩, true, .spline, false, none, none, fun _ _ _ _ => none⟩ ⟨query, cutoff, onEarth⟩ lagoon
      [rows fun j i => ⟨i + 1, j, false⟩] [(10, 20), (180, 0), (250, 5)] = .ok (ds, outs) := by
  obtain ⟨query, hq⟩ := Extrap.kdspec_satisfiable (n := 3)
  have e := lagoon_step
  have h := lagoon_around
  obtain ⟨ds, outs, ee, -⟩ := C112_otis_partial h
    ⟨⟨.z, false⟩, true, .spline, false, none, none, fun _ _ _ _ => none⟩ rfl rfl rfl query hq
    cutoff [rows fun j i => ⟨i + 1, j, false⟩] (by
      intro hc hm
      rw [List.mem_singleton.1 hm]
      exact lagoon_tide _ _)
    [(10, 20), (180, 0), (250, 5)] (by simp)
    (by
      intro p hp
      simp only [List.mem_cons, List.not_mem_nil, or_false] at hp
      rcases hp with rfl | rfl | rfl <;> exact ⟨by norm_num, by norm_num, fun h => by cases h⟩)
    (by
      have e1 : lagoon.y.getD 0 0 = -60 := rfl
      have e2 : lagoon.y.getD (lagoon.y.length - 1) 0 = 60 := rfl
      intro p hp
      simp only [List.mem_cons, List.not_mem_nil, or_false] at hp
      rcases hp with rfl | rfl | rfl <;>
        exact ⟨by rw [e1]; norm_num, by rw [e2, Staggered.low, if_neg (by decide)]; norm_num, fun h => by cases h⟩)
    (Or.inl ⟨le_refl _, by rw [e]; norm_num, Or.inr (by
      intro p hp
      rw [e]
      simp only [List.mem_cons, List.not_mem_nil, or_false] at hp
      rcases hp with rfl | rfl | rfl <;> simp only [toPositive] <;> norm_num)⟩)
  exact ⟨query, ds, outs, ee⟩

end Verif.Near
