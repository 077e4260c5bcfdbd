import Verif.Props.CurrentsFiles
import Verif.Props.PipelineRegion
/-!
C127 from the files on: currents predicted with cropped and with regional ATLAS netCDF models.
-/
namespace Verif.Flow
open Verif Verif.Compute Verif.Pipeline Verif.TideModel Verif.Extract Verif.Spec

/-- A model of ATLAS netCDF files for both components, of which `site` and `fields` are the contents, that is
read by `W` for a request at places. -/
structure Files (W : World Column) (m : State) (r : Request ℝ) (site : String → AtlasNet.Site ℝ)
    (fields : String → List (List (List (ℝ × ℝ)))) (b : About) (pts : List (ℝ × ℝ)) : Prop where
  format : m.format = "ATLAS-netcdf"
  read : ∃ fu fv, m.file = .dict [("u", fu), ("v", fv)] ∧ ∀ f t, (f, t) ∈ [(fu, "u"), (fv, "v")] →
    W.atlas f t = (AtlasNet.extract r true (site t) (fields t) pts).map fun q => b.names.zip q.2
  number : ∀ t ∈ ["u", "v"], (fields t).length = b.names.length
  shape : ∀ t ∈ ["u", "v"], ∀ hc ∈ fields t, CGrid.Shape hc (site t).lat.length (site t).lon.length

/-- Currents from extractions whose constants are related to the fields. -/
theorem atlas_currents (P : Predict.Env) (I : Infer.Env) (o : Options) (ny nx : ℕ) {W : World Column} {m : State}
    {r : Request ℝ} {site : String → AtlasNet.Site ℝ} {fields : String → List (List (List (ℝ × ℝ)))} {b : About}
    {pts : List (ℝ × ℝ)} (F : Files W m r site fields b pts) (times : List (ℝ × ℝ))
    (Q : String → List (List (ℝ × ℝ)) → ℝ × ℝ → Option ℂ → Prop)
    (got : ∀ t ∈ ["u", "v"], ∃ ds outs, AtlasNet.extract r true (site t) (fields t) pts = .ok (ds, outs) ∧
      List.Forall₂ (fun hc os => List.Forall₂ (fun p v => Q t hc p (number v)) pts os) (fields t) outs)
    (hs : Suits P I o b pts.length ny nx times) :
    ∃ zs : String → List (List (Option ℂ)),
      tideCurrents P I o ny nx pts.length W m ["u", "v"] b.corrections b.minor times
        = .ok [("u", laid o.type (expected P I o b) (zs "u") times),
          ("v", laid o.type (expected P I o b) (zs "v") times)] ∧
      ∀ t ∈ ["u", "v"], List.Forall₂ (fun p z => List.Forall₂ (fun hc z => Q t hc p z) (fields t) z) pts (zs t) := by
  obtain ⟨fu, fv, hd, hW⟩ := F.read
  have hk : o.type.toLower ∈ ["grid", "drift", "time series"] := by
    rcases hs.kind with ⟨e, _⟩ | ⟨e, _⟩ | ⟨e, _⟩ <;> simp [e]
  have each : ∀ t, ∃ (outs : List Column) (zs : List (List (Option ℂ))), t ∈ ["u", "v"] →
      (∃ ds, AtlasNet.extract r true (site t) (fields t) pts = .ok (ds, outs)) ∧
      outs.length = b.names.length ∧
      tideElevations P I o ny nx (table pts.length outs b.names b.corrections b.minor) times
        = .ok (laid o.type (expected P I o b) zs times) ∧
      List.Forall₂ (fun p z => List.Forall₂ (fun hc z => Q t hc p z) (fields t) z) pts zs := by
    intro t
    by_cases ht : t ∈ ["u", "v"]
    · obtain ⟨ds, outs, e, k⟩ := got t ht
      have len : outs.length = b.names.length := by rw [← k.length_eq, F.number t ht]
      exact ⟨outs, _, fun _ => ⟨⟨ds, e⟩, len, elevations_laid hs outs len, columns_rel (Q t) pts (fields t) outs k⟩⟩
    · exact ⟨[], [], fun h => absurd h ht⟩
  choose outs zs h using each
  refine ⟨zs, ?_, fun t ht => (h t ht).2.2.2⟩
  refine currents_read P I o ny nx pts.length W m b times (fun t => if t = "u" then fu else fv) outs
    (fun t => laid o.type (expected P I o b) (zs t) times) hk ["u", "v"] (fun t ht => ht) ?_ ?_
    (fun t ht => (h t ht).2.1) (fun t ht => (h t ht).2.2.1)
  · intro t ht
    refine .entry _ hd F.format (by simp) ?_
    simp only [List.mem_cons, List.not_mem_nil, or_false] at ht
    rcases ht with rfl | rfl <;> simp
  · intro t ht
    obtain ⟨ds, e⟩ := (h t ht).1
    refine .inr ⟨F.format, ?_⟩
    have hmem : ((if t = "u" then fu else fv), t) ∈ [(fu, "u"), (fv, "v")] := by
      simp only [List.mem_cons, List.not_mem_nil, or_false] at ht
      rcases ht with rfl | rfl <;> simp
    rw [hW _ t hmem, e]
    rfl

section
variable (P : Predict.Env) (I : Infer.Env) (o : Options) (ny nx : ℕ) {W : World Column} {m : State}
  {r : Request ℝ} {site : String → AtlasNet.Site ℝ} {fields : String → List (List (List (ℝ × ℝ)))} {b : About}
  {pts : List (ℝ × ℝ)} (F : Files W m r site fields b pts) (times : List (ℝ × ℝ))

include F

/-- C127, ATLAS netCDF, cropped: with a global model that is cropped to the places both components are the tides
of their own transports, interpolated and divided by the depths at the points of the component.  Missing: places
where the cropped grids are cut (see `C72_seam_false`). -/
theorem C127_atlas_cropped_partial (hr : r.crop = true) (hb : r.bounds = none)
    (hn : ∀ x y hc q, r.near x y hc q = none) (west : String → ℝ)
    (ha : ∀ t ∈ ["u", "v"], AtlasNet.Around (site t) (west t) ∧ 4 ≤ (site t).lon.length ∧
      (site t).lon.length ≤ 10 ^ 5 ∧ r.Covers (⟨(site t).lon, (site t).lat, []⟩ : Layer ℝ))
    (pos : ∀ t ∈ ["u", "v"], ∀ k j, 0 ≤ (site t).at k j) (h0 : ∃ p ∈ pts, p ≠ (0, 0))
    (hp : ∀ t ∈ ["u", "v"], Extract.Within (⟨(site t).lon, (site t).lat, []⟩ : Layer ℝ) (west t) pts ∧
      ∀ p ∈ pts, AtlasNet.Spot r.method (site t) p)
    (hs : Suits P I o b pts.length ny nx times) :
    ∃ zs : String → List (List (Option ℂ)),
      tideCurrents P I o ny nx pts.length W m ["u", "v"] b.corrections b.minor times
        = .ok [("u", laid o.type (expected P I o b) (zs "u") times),
          ("v", laid o.type (expected P I o b) (zs "v") times)] ∧
      ∀ t ∈ ["u", "v"], List.Forall₂ (fun p z => List.Forall₂ (fun hc z => ∃ v w,
        Interpolated (atlasWay r.method) (AtlasNet.tides (site t) (west t) hc) p v ∧
        Interpolated (atlasWay r.method) (AtlasNet.waters (site t) (west t)) p w ∧
        z = flow true r.scale v w) (fields t) z) pts (zs t) := by
  refine atlas_currents P I o ny nx F times (fun t hc p z => ∃ v w,
    Interpolated (atlasWay r.method) (AtlasNet.tides (site t) (west t) hc) p v ∧
    Interpolated (atlasWay r.method) (AtlasNet.waters (site t) (west t)) p w ∧
    z = flow true r.scale v w) (fun t ht => ?_) hs
  obtain ⟨h1, h4, h5, hc⟩ := ha t ht
  obtain ⟨ds, outs, e, -, k⟩ := AtlasNet.C75_cropped_partial h1 h4 h5 r hr hb hc hn true (fun _ => pos t ht)
    (fields t) (F.shape t ht) pts h0 (hp t ht).1 (hp t ht).2
  exact ⟨ds, outs, e, k.imp fun g col h => h.imp fun p v k => (atlas_number k).2⟩

/-- C127, ATLAS netCDF, regions: in the region of a component, however the longitude is written, the constants
of the component are its interpolated transports divided by its interpolated depths, and outside of it there
are none. -/
theorem C127_atlas_region_partial (hr : r.crop = false) (hn : ∀ x y hc q, r.near x y hc q = none)
    (ha : ∀ t ∈ ["u", "v"], AtlasNet.Sound (site t))
    (pos : ∀ t ∈ ["u", "v"], ∀ j i : ℕ, 0 ≤ ((site t).depth.getD j []).getD i 0) (hne : pts ≠ [])
    (hp : ∀ t ∈ ["u", "v"], ∀ p ∈ pts, Asked r.method (site t).lon (site t).lat p)
    (hs : Suits P I o b pts.length ny nx times) :
    ∃ zs : String → List (List (Option ℂ)),
      tideCurrents P I o ny nx pts.length W m ["u", "v"] b.corrections b.minor times
        = .ok [("u", laid o.type (expected P I o b) (zs "u") times),
          ("v", laid o.type (expected P I o b) (zs "v") times)] ∧
      ∀ t ∈ ["u", "v"], List.Forall₂ (fun p z => List.Forall₂ (fun hc z =>
        (∀ k : ℤ, Inside (site t).lon (site t).lat (turned p k) → ∃ v w,
          Interpolated (atlasWay r.method) (AtlasNet.bayTides (site t) hc) (turned p k) v ∧
          Interpolated (atlasWay r.method) (AtlasNet.bayWaters (site t)) (turned p k) w ∧
          z = flow true r.scale v w) ∧
        ((∀ k : ℤ, ¬ Inside (site t).lon (site t).lat (turned p k)) → z = none)) (fields t) z) pts (zs t) := by
  refine atlas_currents P I o ny nx F times (fun t hc p z =>
    (∀ k : ℤ, Inside (site t).lon (site t).lat (turned p k) → ∃ v w,
      Interpolated (atlasWay r.method) (AtlasNet.bayTides (site t) hc) (turned p k) v ∧
      Interpolated (atlasWay r.method) (AtlasNet.bayWaters (site t)) (turned p k) w ∧
      z = flow true r.scale v w) ∧
    ((∀ k : ℤ, ¬ Inside (site t).lon (site t).lat (turned p k)) → z = none)) (fun t ht => ?_) hs
  obtain ⟨ds, outs, e, -, k⟩ := AtlasNet.C109_atlas_partial (ha t ht) r hr hn true (fun _ => pos t ht)
    (fields t) (F.shape t ht) pts hne (hp t ht)
  exact ⟨ds, outs, e, k.imp fun g col h => h.imp fun p v k =>
    ⟨fun l hl => (atlas_number (k.1 l hl)).2, fun hno => by rw [k.2 hno]; rfl⟩⟩

/-- The same with cropping, for places in the regions of both components as the files write them. -/
theorem C127_atlas_region_cropped_partial (hr : r.crop = true) (hb : r.bounds = none)
    (hn : ∀ x y hc q, r.near x y hc q = none)
    (ha : ∀ t ∈ ["u", "v"], AtlasNet.Sound (site t) ∧ r.Reaches ⟨(site t).lon, (site t).lat, []⟩)
    (pos : ∀ t ∈ ["u", "v"], ∀ j i : ℕ, 0 ≤ ((site t).depth.getD j []).getD i 0) (h0 : ∃ p ∈ pts, p ≠ (0, 0))
    (hp : ∀ t ∈ ["u", "v"], ∀ p ∈ pts, Written r.method ⟨(site t).lon, (site t).lat, []⟩ p)
    (hs : Suits P I o b pts.length ny nx times) :
    ∃ zs : String → List (List (Option ℂ)),
      tideCurrents P I o ny nx pts.length W m ["u", "v"] b.corrections b.minor times
        = .ok [("u", laid o.type (expected P I o b) (zs "u") times),
          ("v", laid o.type (expected P I o b) (zs "v") times)] ∧
      ∀ t ∈ ["u", "v"], List.Forall₂ (fun p z => List.Forall₂ (fun hc z => ∃ v w,
        Interpolated (atlasWay r.method) (AtlasNet.bayTides (site t) hc) p v ∧
        Interpolated (atlasWay r.method) (AtlasNet.bayWaters (site t)) p w ∧
        z = flow true r.scale v w) (fields t) z) pts (zs t) := by
  refine atlas_currents P I o ny nx F times (fun t hc p z => ∃ v w,
    Interpolated (atlasWay r.method) (AtlasNet.bayTides (site t) hc) p v ∧
    Interpolated (atlasWay r.method) (AtlasNet.bayWaters (site t)) p w ∧
    z = flow true r.scale v w) (fun t ht => ?_) hs
  obtain ⟨ds, outs, e, -, k⟩ := AtlasNet.C109_atlas_cropped_partial (ha t ht).1 r hr hb hn (ha t ht).2 true
    (fun _ => pos t ht) (fields t) (F.shape t ht) pts h0 (hp t ht)
  exact ⟨ds, outs, e, k.imp fun g col h => h.imp fun p v k => (atlas_number k).2⟩

end

/-- Regions of both components half a step apart, and a place in both, meet the hypotheses of
`C127_atlas_region_partial`; any contents are read by some reader. -/
example (r : Request ℝ) (hm : r.method = .spline) : ∃ (W : World Column) (m : State)
    (site : String → AtlasNet.Site ℝ) (fields : String → List (List (List (ℝ × ℝ)))),
    Files W m r site fields lunar [(5, 0)] ∧ site "u" ≠ site "v" ∧ ∀ t ∈ ["u", "v"], AtlasNet.Sound (site t) ∧
      (∀ j i : ℕ, 0 ≤ ((site t).depth.getD j []).getD i 0) ∧
      Asked r.method (site t).lon (site t).lat (5, 0) := by
  let west : String → ℝ := fun t => if t = "u" then -20 else -10
  have lo : ∀ t, -20 ≤ west t := fun t => by dsimp only [west]; split <;> norm_num
  have hi : ∀ t, west t ≤ -10 := fun t => by dsimp only [west]; split <;> norm_num
  obtain ⟨site, es⟩ : ∃ site : String → AtlasNet.Site ℝ, site = fun t =>
    ⟨[west t, west t + 20, west t + 40], [-10, 10], List.replicate 2 (List.replicate 3 100)⟩ := ⟨_, rfl⟩
  obtain ⟨fields, ef⟩ : ∃ fields : String → List (List (List (ℝ × ℝ))), fields = fun _ =>
    [List.replicate 2 (List.replicate 3 (1, 2))] := ⟨_, rfl⟩
  refine ⟨⟨fun _ => true, fun _ _ => .error .keyError,
      fun _ t => (AtlasNet.extract r true (site t) (fields t) [(5, 0)]).map fun q => lunar.names.zip q.2,
      fun _ _ => .error .keyError, fun _ _ => .error .keyError, []⟩,
    ⟨"ATLAS-netcdf", .dict [("u", .one "u.nc"), ("v", .one "v.nc")], none⟩, site, fields,
    ⟨rfl, ⟨.one "u.nc", .one "v.nc", rfl, fun _ _ _ => rfl⟩, fun t _ => by rw [ef]; rfl, ?_⟩, ?_, fun t _ => ⟨?_, ?_, ?_⟩⟩
  · intro t _ hc hmem
    rw [ef] at hmem
    rw [List.mem_singleton.1 hmem, es]
    exact ⟨by simp, fun q hq => by rw [List.eq_of_mem_replicate hq]; simp⟩
  · rw [es]
    simp [west]
  · rw [es]
    have := lo t
    have := hi t
    refine ⟨⟨by simp, by simp, ?_, .inr ⟨?_, ?_⟩, ?_, ?_⟩, ⟨by simp, fun q hq => ?_⟩⟩
    · simp only [List.length_cons, List.length_nil, List.getD_cons_succ, List.getD_cons_zero]
      norm_num
    · simp only [List.getD_cons_zero]
      linarith
    · simp only [List.length_cons, List.length_nil, Nat.reduceAdd, Nat.reduceSub, List.getD_cons_succ,
        List.getD_cons_zero]
      linarith
    · simp
      norm_num
    · simp
    · rw [List.eq_of_mem_replicate hq]
      simp
  · intro j i
    rw [es]
    dsimp only
    rw [List.getD_eq_getElem?_getD, List.getD_eq_getElem?_getD, List.getElem?_replicate]
    split
    · rw [Option.getD_some, List.getElem?_replicate]
      split <;> simp
    · simp
  · exact ⟨by norm_num, by norm_num, fun k => by rw [hm] at k; cases k⟩

section
variable (P : Predict.Env) (I : Infer.Env) (o : Options) (ny nx : ℕ) (W : World Column)
  (m : State) (hm : m.format ∈ ["OTIS", "ATLAS-compact", "TMD3"]) (file : Paths)
  (hd : m.file = .paths file ∨ m.file = .dict [("u", file)])
  (r : Staggered.Ask ℝ) (hr : r.crop = true) (hbd : r.bounds = none) (lin : r.method ≠ .bilinear)
  (hn : ∀ x y hc q, r.near x y hc q = none) {s : Staggered.Site ℝ}
  (fields : String → List (List (List (Fld ℝ)))) (b : About) (pts times : List (ℝ × ℝ)) (hne : pts ≠ [])
  (nz : ∃ p ∈ pts, p.1 ≠ 0 ∨ p.2 ≠ 0)
  (hW : ∀ t ∈ ["u", "v"], W.otis file t
    = (Staggered.extract (velocity r t) s (fields t) pts).map fun q => b.names.zip q.2)
  (hl : ∀ t ∈ ["u", "v"], (fields t).length = b.names.length)
  (hb : ∀ t ∈ ["u", "v"], ∀ p ∈ pts, Staggered.Band r.method (velocity r t).quantity.node s.y p)
  (hs : Suits P I o b pts.length ny nx times)

include hm hd hr hbd lin hn hne nz hW hl hb hs

/-- C127, OTIS formats, from the file on, for a global model that is cropped to the places.  Missing:
`'bilinear'`, and places for which the window is cut wrongly (see `C111_alias_false` and
`C111_zonal_false`). -/
theorem C127_otis_cropped_partial (hg : r.geographic = true) {a : ℝ} (h : Staggered.Around s a)
    (h4 : 4 ≤ s.x.length) (h5 : s.x.length ≤ 10 ^ 5)
    (start : (0 ≤ a ∧ a ≤ 360 / (s.x.length : ℝ)) ∨ (-180 ≤ a ∧ a ≤ -180 + 360 / (s.x.length : ℝ)))
    (hf : ∀ t ∈ ["u", "v"], ∀ hc ∈ fields t, CGrid.Shape hc s.y.length s.x.length ∧
      Staggered.Complete r.method false (Staggered.world s a) (velocity r t).quantity.node.points
        (Staggered.worldValue s hc))
    (xs : 2 * (360 / (s.x.length : ℝ)) ≤ r.margin (360 / (s.x.length : ℝ)))
    (ys : ∀ c : ℕ, c + 1 < s.y.length → s.y.getD (c + 1) 0 - s.y.getD c 0 ≤ r.margin (360 / (s.x.length : ℝ)) / 2)
    (hx : Staggered.Clear s a pts)
    (span : ∀ p ∈ pts, ∀ q ∈ pts,
      p.1 - q.1 + 2 * r.margin (360 / (s.x.length : ℝ)) < 359 - 360 / (s.x.length : ℝ))
    (hu : (Staggered.Kept s.x (360 / (s.x.length : ℝ) / 2) (r.margin (360 / (s.x.length : ℝ)))
      (pts.map Prod.fst) ∧ (360 / (s.x.length : ℝ) / 2 ≤ a ∨ ∀ p ∈ pts, p.1 ≤ 180)) ∨ (0 ≤ a ∧ ∃ p ∈ pts, p.1 < 0) ∨
        (a < 0 ∧ ∃ p ∈ pts, 180 < p.1))
    (hv : Staggered.Kept s.y ((s.y.getD 1 0 - s.y.getD 0 0) / 2)
      (r.margin (360 / (s.x.length : ℝ))) (pts.map Prod.snd)) :
    ∃ zs : String → List (List (Option ℂ)),
      tideCurrents P I o ny nx pts.length W m ["u", "v"] b.corrections b.minor times
        = .ok [("u", laid o.type (expected P I o b) (zs "u") times),
          ("v", laid o.type (expected P I o b) (zs "v") times)] ∧
      ∀ t ∈ ["u", "v"], List.Forall₂ (fun p z => List.Forall₂ (fun hc z => ∃ v w,
        Interpolated r.method ((Staggered.world s a).chart (velocity r t).quantity.node.points
          (Staggered.worldValue s hc)) p v ∧
        Interpolated .spline ((Staggered.world s a).depths (velocity r t).quantity.node.points) p w ∧
        z = flow true 1 v w) (fields t) z) pts (zs t) := by
  have way : (if r.method = .bilinear then Method.bilinear else .spline) = .spline := if_neg lin
  have := otis_currents P I o ny nx W m hm file hd r s fields b pts times hW hl
    (fun t hc => (Staggered.world s a).chart (velocity r t).quantity.node.points (Staggered.worldValue s hc))
    (fun t => (Staggered.world s a).depths (velocity r t).quantity.node.points) ?_ hs
  · rwa [way] at this
  intro t ht
  obtain ⟨ds, outs, e, -, k⟩ := Staggered.C111_world_partial h h4 h5 start (velocity r t) hg hr hbd hn
    (fun _ => by simp only [velocity]; split <;> simp) (fun e => absurd e lin) (fields t) (hf t ht) pts hne nz xs ys
    hx (hb t ht) span (fun _ => hu) (fun _ => hv)
  exact ⟨ds, outs, e, k⟩

/-- The same for a regional model, in degrees or on a projection. -/
theorem C127_otis_region_cropped_partial (h : Staggered.Rect s)
    (hg : r.geographic = true → (0 ≤ s.x.getD 0 0 ∨ s.x.getD (s.x.length - 1) 0 ≤ 180) ∧
      s.x.getD (s.x.length - 1) 0 - s.x.getD 0 0 < 359 - (s.x.getD 1 0 - s.x.getD 0 0))
    (hf : ∀ t ∈ ["u", "v"], ∀ hc ∈ fields t, CGrid.Shape hc s.y.length s.x.length ∧
      Staggered.Complete r.method false (Staggered.region s) (velocity r t).quantity.node.points
        (Staggered.regionValue hc))
    (bpos : 0 < r.margin (s.x.getD 1 0 - s.x.getD 0 0))
    (xs : ∀ c : ℕ, c + 1 < s.x.length →
      s.x.getD (c + 1) 0 - s.x.getD c 0 ≤ r.margin (s.x.getD 1 0 - s.x.getD 0 0) / 2)
    (ys : ∀ c : ℕ, c + 1 < s.y.length →
      s.y.getD (c + 1) 0 - s.y.getD c 0 ≤ r.margin (s.x.getD 1 0 - s.x.getD 0 0) / 2)
    (hx : ∀ t ∈ ["u", "v"], ∀ p ∈ pts, Staggered.Within r.method (velocity r t).quantity.node s.x p)
    (inner : ∀ p ∈ pts, s.x.getD 1 0 ≤ p.1)
    (hu : Staggered.Kept s.x ((s.x.getD 1 0 - s.x.getD 0 0) / 2)
      (r.margin (s.x.getD 1 0 - s.x.getD 0 0)) (pts.map Prod.fst) ∧
      (r.geographic = true → (s.x.getD 1 0 - s.x.getD 0 0) / 2 ≤ s.x.getD 0 0 ∨ ∀ p ∈ pts, p.1 ≤ 180))
    (hv : Staggered.Kept s.y ((s.y.getD 1 0 - s.y.getD 0 0) / 2)
      (r.margin (s.x.getD 1 0 - s.x.getD 0 0)) (pts.map Prod.snd)) :
    ∃ zs : String → List (List (Option ℂ)),
      tideCurrents P I o ny nx pts.length W m ["u", "v"] b.corrections b.minor times
        = .ok [("u", laid o.type (expected P I o b) (zs "u") times),
          ("v", laid o.type (expected P I o b) (zs "v") times)] ∧
      ∀ t ∈ ["u", "v"], List.Forall₂ (fun p z => List.Forall₂ (fun hc z => ∃ v w,
        Interpolated r.method ((Staggered.region s).chart (velocity r t).quantity.node.points
          (Staggered.regionValue hc)) p v ∧
        Interpolated .spline ((Staggered.region s).depths (velocity r t).quantity.node.points) p w ∧
        z = flow true 1 v w) (fields t) z) pts (zs t) := by
  have way : (if r.method = .bilinear then Method.bilinear else .spline) = .spline := if_neg lin
  have := otis_currents P I o ny nx W m hm file hd r s fields b pts times hW hl
    (fun t hc => (Staggered.region s).chart (velocity r t).quantity.node.points (Staggered.regionValue hc))
    (fun t => (Staggered.region s).depths (velocity r t).quantity.node.points) ?_ hs
  · rwa [way] at this
  intro t ht
  obtain ⟨ds, outs, e, -, k⟩ := Staggered.C111_region_partial h (velocity r t) hr hbd hg hn
    (fun _ => by simp only [velocity]; split <;> simp) (fun e => absurd e lin) (fun e => absurd e lin)
    (fields t) (hf t ht) pts hne nz bpos xs ys (hx t ht) (hb t ht) (fun _ => inner) (fun _ => hu) (fun _ => hv)
  exact ⟨ds, outs, e, k⟩

end

/-- A region, a margin of two steps and a place in the middle meet the hypotheses of
`C127_otis_region_cropped_partial`. -/
example (r : Staggered.Ask ℝ) (hm : r.method = .spline) (hB : r.margin 10 = 20) :
    ∃ (s : Staggered.Site ℝ) (fields : String → List (List (List (Fld ℝ)))), Staggered.Rect s ∧
      fields "u" ≠ fields "v" ∧ s.x.getD 1 0 - s.x.getD 0 0 = 10 ∧
      (∀ t ∈ ["u", "v"], (fields t).length = 1 ∧
        (∀ hc ∈ fields t, CGrid.Shape hc s.y.length s.x.length ∧
          Staggered.Complete r.method false (Staggered.region s) (velocity r t).quantity.node.points
            (Staggered.regionValue hc)) ∧
        Staggered.Within r.method (velocity r t).quantity.node s.x (22, 3) ∧
        Staggered.Band r.method (velocity r t).quantity.node s.y (22, 3)) ∧
      (∀ c : ℕ, c + 1 < s.x.length → s.x.getD (c + 1) 0 - s.x.getD c 0 ≤ r.margin 10 / 2) ∧
      (∀ c : ℕ, c + 1 < s.y.length → s.y.getD (c + 1) 0 - s.y.getD c 0 ≤ r.margin 10 / 2) ∧
      s.x.getD 1 0 ≤ 22 ∧ Staggered.Kept s.x (10 / 2) (r.margin 10) [22] ∧
      Staggered.Kept s.y ((s.y.getD 1 0 - s.y.getD 0 0) / 2) (r.margin 10) [3] := by
  refine ⟨⟨[0, 10, 20, 30], [-20, -10, 0, 10], List.replicate 4 (List.replicate 4 1000),
      List.replicate 4 (List.replicate 4 true)⟩,
    fun t => [List.replicate 4 (List.replicate 4 ⟨if t = "u" then 1 else 2, 0, false⟩)],
    ⟨⟨?_, ?_⟩, by simp, by simp, ⟨by simp, ?_⟩, ⟨by simp, ?_⟩⟩, by simp, by simp, fun t ht => ⟨rfl, ?_, ?_, ?_⟩, ?_, ?_,
    by simp; norm_num, ?_, ?_⟩
  · simp; norm_num
  · simp; norm_num
  · intro q hq
    rw [List.eq_of_mem_replicate hq]; simp
  · intro q hq
    rw [List.eq_of_mem_replicate hq]; simp
  · intro hc hmem
    rw [List.mem_singleton.1 hmem]
    refine ⟨⟨by simp, ?_⟩, ⟨fun e => by simp [hm] at e, fun e => by simp [hm] at e⟩⟩
    intro q hq
    rw [List.eq_of_mem_replicate hq]; simp
  · simp only [List.mem_cons, List.not_mem_nil, or_false] at ht
    rcases ht with rfl | rfl <;>
      refine ⟨by norm_num, ?_, fun e => by simp [hm] at e⟩ <;> simp [velocity, Staggered.half] <;> norm_num
  · simp only [List.mem_cons, List.not_mem_nil, or_false] at ht
    rcases ht with rfl | rfl <;>
      refine ⟨by norm_num, ?_, fun e => by simp [hm] at e⟩ <;> simp [velocity, Staggered.low] <;> norm_num
  · intro c hc
    simp only [List.length_cons, List.length_nil] at hc
    obtain rfl | rfl | rfl : c = 0 ∨ c = 1 ∨ c = 2 := by omega
    all_goals simp [hB]; try norm_num
  · intro c hc
    simp only [List.length_cons, List.length_nil] at hc
    obtain rfl | rfl | rfl : c = 0 ∨ c = 1 ∨ c = 2 := by omega
    all_goals simp [hB]; try norm_num
  · intro w hw _ v hv hle
    rw [hB] at *
    simp only [List.mem_cons, List.not_mem_nil, or_false] at hw hv
    subst hw
    rcases hv with rfl | rfl | rfl | rfl <;> revert hle <;> norm_num
  · intro w hw _ v hv hle
    rw [hB] at *
    simp only [List.mem_cons, List.not_mem_nil, or_false] at hw hv
    subst hw
    rcases hv with rfl | rfl | rfl | rfl <;> revert hle <;> norm_num

end Verif.Flow
