import Verif.Props.ExtractATLAS
import Verif.Props.Region
/-!
C109: a regional ATLAS model in netCDF files gives the interpolation of its fields inside the region and
nothing outside.
-/
namespace Verif.AtlasNet
open Verif Verif.Spec Verif.Extract Verif.Grid
open Verif.Staggered (SameMask Positive Sounds number_none zipMatrix_entry zipMatrix zipMatrix_shape entry_getD)

variable {K : Type} [Field K] [LinearOrder K] [IsStrictOrderedRing K]

/-- The chart of a quantity of a regional model: there is no value where the depth is zero. -/
def bay (s : Site K) (value : ℕ → ℕ → Option (K × K)) : Chart K where
  lon k := s.lon.getD k.toNat 0
  lat j := s.lat.getD j.toNat 0
  cols k := 0 ≤ k ∧ k < s.lon.length
  rows j := 0 ≤ j ∧ j < s.lat.length
  value k j := if (s.depth.getD j.toNat []).getD k.toNat 0 = 0 then none else value k.toNat j.toNat

/-- The chart of depths of a regional model. -/
def bayWaters (s : Site K) : Chart K := bay s fun i j => some ((s.depth.getD j []).getD i 0, 0)

/-- The chart of a constituent of a regional model. -/
def bayTides (s : Site K) (hc : List (List (K × K))) : Chart K := bay s fun i j => some ((hc.getD j []).getD i (0, 0))

/-- The grid file of a regional model. -/
structure Sound (s : Site K) : Prop extends Zone s.lon s.lat where
  shape : CGrid.Shape s.depth s.lat.length s.lon.length

/-- What a user expects of a regional model at a place, if they ask for the constant of a tide. -/
def Yields (m : Method) (speed : Bool) (scale : K) (s : Site K) (hc : List (List (K × K))) (p : K × K) (o : Out K) : Prop :=
  (∀ k : ℤ, Inside s.lon s.lat (turned p k) →
    Agrees m speed scale (bayTides s hc) (bayWaters s) (turned p k) o) ∧
  ((∀ k : ℤ, ¬ Inside s.lon s.lat (turned p k)) → o = .masked)

/-- The same for the depth. -/
def Fathoms (m : Method) (s : Site K) (p : K × K) (d : Option K) : Prop :=
  (∀ k : ℤ, Inside s.lon s.lat (turned p k) → Sounds m (bayWaters s) (turned p k) d) ∧
  (m ≠ .spline → (∀ k : ℤ, ¬ Inside s.lon s.lat (turned p k)) → d = none)

/-! ## The matrices -/

theorem bay_shows {s : Site K} (h : Sound s) {m : List (List (Fld K))} (sh : CGrid.Shape m s.lat.length s.lon.length)
    (value : ℕ → ℕ → Option (K × K)) (hv : ∀ j i, j < s.lat.length → i < s.lon.length →
      (Extract.entry m j i).number = if (s.depth.getD j []).getD i 0 = 0 then none else value i j) :
    Shows s.lon s.lat m (bay s value) 0 0 := by
  refine ⟨⟨h.lon, h.lat⟩, h.two, h.two', sh.1, sh.2, ?_, ?_, ?_, ?_, ?_⟩
  · intro c _; show _ = s.lon.getD (0 + (c : ℤ)).toNat 0; rw [zero_add, Int.toNat_natCast]
  · intro c _; show _ = s.lat.getD (0 + (c : ℤ)).toNat 0; rw [zero_add, Int.toNat_natCast]
  · intro c hc; exact ⟨by omega, by simpa using hc⟩
  · intro c hc; exact ⟨by omega, by simpa using hc⟩
  · intro r c hr hc
    rw [hv r c hr hc]
    simp only [bay, zero_add, Int.toNat_natCast]

theorem depths_entry {s : Site K} (h : Sound s) {j i : ℕ} (hj : j < s.lat.length) (hi : i < s.lon.length) :
    Extract.entry (depths s.depth) j i = ⟨(s.depth.getD j []).getD i 0, 0, decide ((s.depth.getD j []).getD i 0 = 0)⟩ :=
  entry_map (fun h : K => (⟨h, 0, decide (h = 0)⟩ : Fld K)) 0 h.shape hj hi

theorem remask_plain (d : List (List K)) : remask (plain d) = depths d := by
  unfold remask plain depths
  rw [List.map_map]
  refine List.map_congr_left fun r _ => ?_
  simp only [Function.comp, List.map_map]
  rfl

theorem depths_bay {s : Site K} (h : Sound s) : Shows s.lon s.lat (depths s.depth) (bayWaters s) 0 0 := by
  refine bay_shows h (m := depths s.depth) (shape_map _ h.shape) _ fun j i hj hi => ?_
  rw [depths_entry h hj hi]
  unfold Fld.number
  by_cases c : (s.depth.getD j []).getD i 0 = 0 <;> simp only [c, decide_true, decide_false, if_true, if_false, Bool.false_eq_true]

theorem tides_bay {s : Site K} (h : Sound s) {hc : List (List (K × K))}
    (sh : CGrid.Shape hc s.lat.length s.lon.length) :
    Shows s.lon s.lat (combine (numbers hc) (depths s.depth)) (bayTides s hc) 0 0 ∧
      SameMask (combine (numbers hc) (depths s.depth)) (depths s.depth) := by
  have sn : CGrid.Shape (numbers hc) s.lat.length s.lon.length := shape_map _ sh
  have sd : CGrid.Shape (depths s.depth) s.lat.length s.lon.length := shape_map _ h.shape
  have sc : CGrid.Shape (combine (numbers hc) (depths s.depth)) s.lat.length s.lon.length := zipMatrix_shape _ sn sd
  have ent : ∀ j i : ℕ, j < s.lat.length → i < s.lon.length → Extract.entry (combine (numbers hc) (depths s.depth)) j i =
      ⟨((hc.getD j []).getD i (0, 0)).1, ((hc.getD j []).getD i (0, 0)).2, decide ((s.depth.getD j []).getD i 0 = 0)⟩ := by
    intro j i hj hi
    have := zipMatrix_entry (fun c b : Fld K => (⟨c.re, c.im, c.masked || b.masked⟩ : Fld K)) (numbers hc) (depths s.depth) j i
    rw [entry_getD]
    show (CGrid.entry (zipMatrix _ (numbers hc) (depths s.depth)) j i).getD _ = _
    rw [this, Staggered.entry_some sn hj hi ⟨0, 0, true⟩, Staggered.entry_some sd hj hi ⟨0, 0, true⟩]
    have e1 : Extract.entry (numbers hc) j i = ⟨((hc.getD j []).getD i (0, 0)).1, ((hc.getD j []).getD i (0, 0)).2, false⟩ :=
      entry_map (fun z : K × K => (⟨z.1, z.2, false⟩ : Fld K)) (0, 0) sh hj hi
    have e2 := depths_entry h hj hi
    rw [entry_getD, Staggered.entry_some sn hj hi ⟨0, 0, true⟩, Option.getD_some] at e1
    rw [entry_getD, Staggered.entry_some sd hj hi ⟨0, 0, true⟩, Option.getD_some] at e2
    simp only [Option.getD_some, Option.bind_some, Option.map_some]
    rw [e1, e2]
    simp only [Bool.false_or]
  have shows := bay_shows h sc (fun i j => some ((hc.getD j []).getD i (0, 0))) (fun j i hj hi => by
    rw [ent j i hj hi]
    unfold Fld.number
    by_cases c : (s.depth.getD j []).getD i 0 = 0 <;> simp only [c, decide_true, decide_false, if_true, if_false, Bool.false_eq_true])
  refine ⟨shows, fun j i => ?_⟩
  by_cases hin : j < s.lat.length ∧ i < s.lon.length
  · rw [ent j i hin.1 hin.2, depths_entry h hin.1 hin.2]
  · rw [Staggered.entry_outside shows hin, Staggered.entry_outside (depths_bay h) hin]

theorem bay_positive {s : Site K} (h : ∀ j i : ℕ, 0 ≤ (s.depth.getD j []).getD i 0) : Positive (bayWaters s) := by
  intro k j z hz
  simp only [bayWaters, bay] at hz
  by_cases h0 : (s.depth.getD j.toNat []).getD k.toNat 0 = 0
  · rw [if_pos h0] at hz; cases hz
  · rw [if_neg h0] at hz
    cases hz
    exact lt_of_le_of_ne (h _ _) (Ne.symm h0)

/-! ## Places outside -/

theorem regular_outside {lon lat : List K} (z : Zone lon lat) (hc : List (List (Fld K))) {q : K × K}
    (hq : ¬ Inside lon lat q) : regularC lon lat hc q.1 q.2 = .ok ((fillRe, 0), true) := by
  have none : ∀ rows : List (List K), Spline.linear lon lat rows q.1 q.2 = none := by
    intro rows
    unfold Spline.linear
    rw [if_neg]
    rintro ⟨h1, h2⟩
    unfold Spline.clamp at h1 h2
    rw [headD_getD, getLastD_getD] at h1 h2
    refine hq ⟨?_, ?_, ?_, ?_⟩
    · rw [← h1]; exact le_max_left _ _
    · have := z.range
      rw [← h1]; exact max_le this.le (min_le_left _ _)
    · rw [← h2]; exact le_max_left _ _
    · have := getD_le z.lat (Nat.zero_le (lat.length - 1)) (by have := z.two'; omega)
      rw [← h2]; exact max_le this (min_le_left _ _)
  unfold regularC
  rw [if_pos (show Ascending lon lat from ⟨z.lon, z.lat⟩), none, none, none]

theorem bilinear_outside {lon lat : List K} (z : Zone lon lat) (cell : ℕ → ℕ → Option (K × K) × Bool) {q : K × K}
    (hq : ¬ Inside lon lat q) : bilinearC lon lat cell q.1 q.2 = .ok (some (fillRe, 0), true) := by
  have e : ∀ (d : ℕ → ℕ → Interp.Cell K) (fill : Option K), Interp.bilinear (ofList lon) (ofList lat) d fill q.1 q.2 =
      .ok ⟨fill, true⟩ := by
    intro d fill
    unfold Interp.bilinear
    rw [ofList_toList, ofList_toList, min?_increasing z.lon z.two, max?_increasing z.lon z.two,
      min?_increasing z.lat z.two', max?_increasing z.lat z.two']
    simp only
    rw [if_neg]
    rintro ⟨h1, h2, h3, h4⟩
    exact hq ⟨h1, h2, h3.le, h4.le⟩
  unfold bilinearC
  rw [e, e, ok_bind, ok_bind]

theorem depthAt_outside {lon lat : List K} (z : Zone lon lat) (m : Method) (b : List (List (Fld K))) {q : K × K}
    (hq : ¬ Inside lon lat q) : ∃ d k, depthAt m lon lat b q = .ok (d, k) ∧ (m ≠ .spline → k = true) := by
  unfold depthAt
  cases m with
  | spline =>
    simp only
    unfold splineC
    rw [if_pos (show Spans lon lat from ⟨⟨z.lon, z.lat⟩, z.two, z.two'⟩), ok_bind]
    exact ⟨_, _, rfl, fun h => absurd rfl h⟩
  | linear =>
    simp only
    rw [regular_outside z _ hq, ok_bind]
    exact ⟨_, _, rfl, fun _ => rfl⟩
  | bilinear =>
    simp only
    rw [bilinear_outside z _ hq, ok_bind]
    exact ⟨_, _, rfl, fun _ => rfl⟩

theorem constantAt_outside {lon lat : List K} (z : Zone lon lat) (m : Method) (stored : Bool) (b : List (List (Fld K)))
    {q : K × K} (hq : ¬ Inside lon lat q) : ∃ v, constantAt m stored lon lat b q = .ok v := by
  unfold constantAt
  cases m with
  | spline =>
    simp only
    unfold splineC
    rw [if_pos (show Spans lon lat from ⟨⟨z.lon, z.lat⟩, z.two, z.two'⟩), ok_bind]
    exact ⟨_, rfl⟩
  | linear =>
    simp only
    rw [regular_outside z _ hq, ok_bind]
    exact ⟨_, rfl⟩
  | bilinear =>
    simp only
    rw [bilinear_outside z _ hq]
    exact ⟨_, rfl⟩

/-! ## Batches -/

theorem pyMap_pairs {α β : Type} (f : K × K → Except PyErr β) (t : K → K) (pts : List (K × K)) :
    pyMap f (pts.map fun p => (t p.1, p.2)) = pyMap (fun p => f (t p.1, p.2)) pts := by
  induction pts with
  | nil => rfl
  | cons p l ih => simp only [List.map_cons, pyMap]; rw [ih]

theorem soundings_bay {s : Site K} (h : Sound s) (m : Method) (t : K → K) (pts : List (K × K))
    (hp : ∀ p ∈ pts, Asked m s.lon s.lat p) (hl : ∀ p ∈ pts, Landed s.lon s.lat p (t p.1, p.2)) :
    ∃ ds, pyMap (sounding m s.lon s.lat (depths s.depth)) (pts.map fun p => (t p.1, p.2)) = .ok ds ∧
      List.Forall₂ (Fathoms m s) pts ds := by
  rw [pyMap_pairs (α := K)]
  refine pyMap_rel fun p hpm => ?_
  have L := hl p hpm
  have hb := depths_bay h
  by_cases hin : Inside s.lon s.lat (t p.1, p.2)
  · obtain ⟨k, ek⟩ := L.turn
    obtain ⟨d, kk, v, k', e1, -, hs, -⟩ := Verif.AtlasNet.point hb hb (fun _ _ => rfl) m false false 1 (t p.1, p.2)
      hin.1 hin.2.1 hin.2.2.1 hin.2.2.2 (fun _ => fun c hc => h.toZone.far c hc) (fun e => by
        have := (hp p hpm).strict e k (by rw [← ek]; exact hin)
        rw [← ek] at this
        exact this) (by simp)
    refine ⟨_, by unfold sounding; rw [e1, ok_bind], fun l hl' => ?_, fun _ hno => ?_⟩
    · rw [← L.there l hl']; exact hs
    · exact absurd (show Inside s.lon s.lat (turned p k) by rw [← ek]; exact hin) (hno k)
  · obtain ⟨d, kk, e1, hk⟩ := depthAt_outside h.toZone m (depths s.depth) hin
    refine ⟨_, by unfold sounding; rw [e1, ok_bind], fun l hl' => ?_, fun hm _ => ?_⟩
    · exact absurd (by rw [L.there l hl']; exact hl') hin
    · rw [hk hm]; rfl

theorem evaluate_bay {s : Site K} (h : Sound s) (r : Request K) (hn : ∀ x y hc q, r.near x y hc q = none)
    (speed stored : Bool) (pos : speed = true → ∀ j i : ℕ, 0 ≤ (s.depth.getD j []).getD i 0)
    {hc : List (List (K × K))} (sh : CGrid.Shape hc s.lat.length s.lon.length) (t : K → K) (pts : List (K × K))
    (hp : ∀ p ∈ pts, Asked r.method s.lon s.lat p) (hl : ∀ p ∈ pts, Landed s.lon s.lat p (t p.1, p.2)) :
    ∃ outs, evaluate r speed stored (fun _ => false) s.lon s.lat (depths s.depth) (combine (numbers hc) (depths s.depth))
        (pts.map fun p => (t p.1, p.2)) = .ok outs ∧ List.Forall₂ (Yields r.method speed r.scale s hc) pts outs := by
  unfold evaluate
  rw [pyMap_pairs (α := K)]
  refine pyMap_rel fun p hpm => ?_
  have L := hl p hpm
  have hb := depths_bay h
  obtain ⟨ht, same⟩ := tides_bay h sh
  obtain ⟨b, eb, hbi⟩ := h.toZone.outside (t p.1, p.2)
  by_cases hin : Inside s.lon s.lat (t p.1, p.2)
  · obtain ⟨k, ek⟩ := L.turn
    obtain ⟨d, kk, v, k', e1, e2, -, ha⟩ := Verif.AtlasNet.point ht hb same r.method stored speed r.scale (t p.1, p.2)
      hin.1 hin.2.1 hin.2.2.1 hin.2.2.2 (fun _ => fun c hc => h.toZone.far c hc) (fun e => by
        have := (hp p hpm).strict e k (by rw [← ek]; exact hin)
        rw [← ek] at this
        exact this) (fun e => bay_positive (pos e))
    have hb0 : b = false := by
      cases b with
      | false => rfl
      | true => exact absurd hin (hbi.1 rfl)
    generalize ho : (if (k' || kk) = true then Out.masked else match v with
        | some z => convert speed false r.scale d z
        | none => .nan) = out at ha
    refine ⟨out, ?_, fun l hl' => ?_, fun hno => ?_⟩
    · rw [e1, ok_bind]
      simp only
      rw [e2, ok_bind]
      simp only
      rw [eb, ok_bind, hb0]
      simp only [Bool.false_eq_true, if_false, hn]
      rw [← ho]
      cases v <;> rfl
    · rw [← L.there l hl']; exact ha
    · exact absurd (show Inside s.lon s.lat (turned p k) by rw [← ek]; exact hin) (hno k)
  · obtain ⟨d, kk, e1, -⟩ := depthAt_outside h.toZone r.method (depths s.depth) hin
    obtain ⟨⟨v, k'⟩, e2⟩ := constantAt_outside h.toZone r.method stored (combine (numbers hc) (depths s.depth)) hin
    refine ⟨.masked, ?_, fun l hl' => ?_, fun _ => rfl⟩
    · rw [e1, ok_bind]
      simp only
      rw [e2, ok_bind]
      simp only
      rw [eb, ok_bind, hbi.2 hin]
      rfl
    · exact absurd (by rw [L.there l hl']; exact hl') hin

/-- **C109** for ATLAS models in netCDF files.  Velocities are transports divided by the depth, and
everything is masked where the depth is zero.  The depth that is returned at a place outside is not
always masked, see `C109_depth_false`. -/
theorem C109_atlas_partial {s : Site K} (h : Sound s) (r : Request K) (hr : r.crop = false)
    (hn : ∀ x y hc q, r.near x y hc q = none) (speed : Bool)
    (pos : speed = true → ∀ j i : ℕ, 0 ≤ (s.depth.getD j []).getD i 0)
    (fields : List (List (List (K × K)))) (sh : ∀ hc ∈ fields, CGrid.Shape hc s.lat.length s.lon.length)
    (pts : List (K × K)) (hne : pts ≠ []) (hp : ∀ p ∈ pts, Asked r.method s.lon s.lat p) :
    ∃ ds outs, extract r speed s fields pts = .ok (ds, outs) ∧ List.Forall₂ (Fathoms r.method s) pts ds ∧
      List.Forall₂ (fun hc row => List.Forall₂ (Yields r.method speed r.scale s hc) pts row) fields outs := by
  obtain ⟨box, hbox⟩ := bounds_ok r pts hne
  obtain ⟨t, et, lt⟩ := adjust_lands h.toZone hne fun p hpm => ⟨(hp p hpm).west, (hp p hpm).east⟩
  obtain ⟨ds, ed, hd⟩ := soundings_bay h r.method t pts hp lt
  have place : ∀ m : List (List (Fld K)), Extract.place r box (s.lon.getD 1 0 - s.lon.getD 0 0) ⟨s.lon, s.lat, m⟩ pts =
      .ok (⟨s.lon, s.lat, m⟩, pts.map fun p => (t p.1, p.2)) := by
    intro m
    unfold Extract.place
    rw [if_neg (by rw [hr]; simp)]
    simp only
    rw [min?_increasing h.lon h.two, max?_increasing h.lon h.two]
    simp only
    rw [et, ok_bind, zip_lands]
  obtain ⟨outs, eo, ho⟩ := pyMap_rel (l := fields) (f := fun hc => do
      let h ← fieldOf r box (s.lon.getD 1 0 - s.lon.getD 0 0) s s.lon s.lat hc
      evaluate r speed false (fun _ => false) s.lon s.lat (depths s.depth) (combine h (depths s.depth))
        (pts.map fun p => (t p.1, p.2)))
    (R := fun hc row => List.Forall₂ (Yields r.method speed r.scale s hc) pts row) (by
      intro hc hmem
      obtain ⟨outs, eo, ho⟩ := evaluate_bay h r hn speed false pos (sh hc hmem) t pts hp lt
      refine ⟨outs, ?_, ho⟩
      have := fieldOf_eq (place (numbers hc))
      simp only at this
      rw [this, h.toZone.extended fes, ok_bind, ok_bind]
      exact eo)
  refine ⟨ds, outs, ?_, hd, ho⟩
  unfold extract
  rw [hbox, ok_bind, h.toZone.step, ok_bind, place, ok_bind]
  simp only
  rw [h.toZone.extended fes, ok_bind]
  simp only
  rw [remask_plain, ed, ok_bind, eo, ok_bind]

/-- **C109** for an object an ATLAS model was read into, before another use of the object (see
`C76_history_false`). -/
theorem C109_atlas_stored_partial {s : Site K} (h : Sound s) (r : Request K)
    (hn : ∀ x y hc q, r.near x y hc q = none) (speed : Bool)
    (pos : speed = true → ∀ j i : ℕ, 0 ≤ (s.depth.getD j []).getD i 0)
    (spread : List K → List K → List (List (Fld K)) → K × K → Bool)
    (fields : List (List (List (K × K)))) (sh : ∀ hc ∈ fields, CGrid.Shape hc s.lat.length s.lon.length)
    (pts : List (K × K)) (hne : pts ≠ []) (hp : ∀ p ∈ pts, Asked r.method s.lon s.lat p) :
    ∃ o ds outs o', read none s fields = .ok o ∧
      interpolate spread r speed o pts = .ok ((ds.map (Option.map some), outs), o') ∧
      List.Forall₂ (Fathoms r.method s) pts ds ∧
      List.Forall₂ (fun hc row => List.Forall₂ (Yields r.method speed r.scale s hc) pts row) fields outs := by
  obtain ⟨t, et, lt⟩ := adjust_lands h.toZone hne fun p hpm => ⟨(hp p hpm).west, (hp p hpm).east⟩
  obtain ⟨ds, ed, hd⟩ := soundings_bay h r.method t pts hp lt
  obtain ⟨outs, eo, ho⟩ := pyMap_rel (l := fields) (f := fun hc =>
      evaluate r speed true (fun _ => false) s.lon s.lat (depths s.depth) (combine (numbers hc) (depths s.depth))
        (pts.map fun p => (t p.1, p.2)))
    (R := fun hc row => List.Forall₂ (Yields r.method speed r.scale s hc) pts row) (by
      intro hc hmem
      exact evaluate_bay h r hn speed true pos (sh hc hmem) t pts hp lt)
  have er : pyMap (fun hc => do
      let h ← (.ok ⟨s.lon, s.lat, numbers hc⟩ : Except PyErr (Layer K))
      let h ← extended fes (s.lon.getD 1 0 - s.lon.getD 0 0) ⟨s.lon, s.lat, h.hc⟩
      .ok (combine h.hc (depths s.depth))) fields = .ok (fields.map fun hc => combine (numbers hc) (depths s.depth)) := by
    clear eo ho sh
    induction fields with
    | nil => rfl
    | cons hc l ih =>
      rw [pyMap, ih, ok_bind]
      simp only
      rw [h.toZone.extended fes, ok_bind]
      rfl
  refine ⟨⟨s.lon, s.lat, depths s.depth, false, fields.map fun hc => combine (numbers hc) (depths s.depth)⟩, ds, outs,
    ⟨s.lon, s.lat, depths s.depth, decide (r.method = .bilinear), fields.map fun hc => combine (numbers hc) (depths s.depth)⟩,
    ?_, ?_, hd, ho⟩
  · unfold read
    simp only
    rw [ok_bind]
    simp only
    rw [h.toZone.step, ok_bind, h.toZone.extended fes, ok_bind]
    simp only
    rw [er, ok_bind]
  · have hd' : pyMap (fun q => do
        let d ← sounding r.method s.lon s.lat (depths s.depth) q
        .ok (level false d)) (pts.map fun p => (t p.1, p.2)) = .ok (ds.map (Option.map some)) := by
      clear hd et lt hp hne eo ho
      generalize (pts.map fun p => (t p.1, p.2)) = l at ed
      induction l generalizing ds with
      | nil => cases ed; rfl
      | cons p l ih =>
        simp only [pyMap] at ed ⊢
        cases h1 : sounding r.method s.lon s.lat (depths s.depth) p with
        | error _ => rw [h1] at ed; cases ed
        | ok d =>
          rw [h1] at ed
          cases h2 : pyMap (sounding r.method s.lon s.lat (depths s.depth)) l with
          | error _ => rw [h2] at ed; cases ed
          | ok rest =>
            rw [h2] at ed
            cases ed
            rw [ih rest h2, ok_bind]
            cases d <;> rfl
    have eo' : pyMap (fun hc => evaluate r speed true (fun _ => false) s.lon s.lat (depths s.depth) hc
        (pts.map fun p => (t p.1, p.2))) (fields.map fun hc => combine (numbers hc) (depths s.depth)) = .ok outs := by
      rw [← eo]
      clear eo ho sh er
      induction fields with
      | nil => rfl
      | cons hc l ih => simp only [List.map_cons, pyMap]; rw [ih]
    have hnan : (⟨s.lon, s.lat, depths s.depth, false, fields.map fun hc => combine (numbers hc) (depths s.depth)⟩ :
        Stored K).nan spread r.method = fun _ => false := by
      funext q
      unfold Stored.nan
      rfl
    unfold interpolate
    simp only
    rw [min?_increasing h.lon h.two, max?_increasing h.lon h.two]
    simp only
    rw [et, ok_bind, zip_lands, hnan]
    simp only
    rw [hd', ok_bind, eo', ok_bind]
    simp

/-! ## Examples -/

/-- A region from 20 degrees west to 20 degrees east, with land in a corner. -/
def inlet : Site ℚ where
  lon := [-20, 0, 20]
  lat := [-10, 10]
  depth := [[100, 200, 0], [300, 400, 500]]

def inflow : List (List (ℚ × ℚ)) := [[(1, 2), (3, 4), (0, 0)], [(5, 6), (7, 8), (9, 10)]]

theorem inlet_sound : Sound inlet := by
  refine ⟨⟨?_, ?_, ?_, ?_, ?_, ?_⟩, rfl, ?_⟩ <;> decide +kernel

example : extract (request .spline) true inlet [inflow] [(350, 0), (-10, 0), (60, 0), (10, 0)] =
    .ok ([some 250, some 250, none, none], [[.val 4 5 (2 / 5), .val 4 5 (2 / 5), .masked, .masked]]) := by
  decide +kernel

example : ∃ ds outs, extract (request .spline) true inlet [inflow] [(350, 0), (60, 0)] = .ok (ds, outs) ∧
    List.Forall₂ (Fathoms .spline inlet) [(350, 0), (60, 0)] ds ∧
    List.Forall₂ (fun hc row => List.Forall₂ (Yields .spline true 1 inlet hc) [(350, 0), (60, 0)] row) [inflow] outs := by
  refine C109_atlas_partial inlet_sound (request .spline) rfl (fun _ _ _ _ => rfl) true ?_ [inflow] ?_ _ (by simp) ?_
  · intro _ j i
    rcases j with _ | _ | j <;> rcases i with _ | _ | _ | i <;> simp [inlet]
  · intro hc hm
    rw [List.mem_singleton] at hm
    subst hm
    exact ⟨rfl, by decide +kernel⟩
  · intro p hp
    exact ⟨(by decide +kernel : ∀ p ∈ ([(350, 0), (60, 0)] : List (ℚ × ℚ)), -180 < p.1) p hp,
      (by decide +kernel : ∀ p ∈ ([(350, 0), (60, 0)] : List (ℚ × ℚ)), p.1 < 360) p hp, fun h => by cases h⟩

/-- The depth at a place outside is not masked with the method `'spline'`: it is that of the rim. -/
theorem C109_depth_false : extract (request .spline) false inlet [inflow] [(-120, 0)] =
      .ok ([some 200], [[.masked]]) ∧
    extract (request .linear) false inlet [inflow] [(-120, 0)] = .ok ([none], [[.masked]]) := by
  decide +kernel

end Verif.AtlasNet
