import Verif.Props.Currents
/-!
C127 from the files on: currents predicted with a global ATLAS netCDF model, and with
a global or regional OTIS model.
-/
namespace Verif.Flow
open Verif Verif.Compute Verif.Pipeline Verif.TideModel Verif.Extract Verif.Spec

theorem zip_fst (names : List String) (outs : List Column) (h : outs.length = names.length) :
    (names.zip outs).map Prod.fst = names ∧ (names.zip outs).map Prod.snd = outs :=
  ⟨List.map_fst_zip (by omega), List.map_snd_zip (by omega)⟩

/-- Currents whose components are read and predicted. -/
theorem currents_read (P : Predict.Env) (I : Infer.Env) (o : Options) (ny nx n : ℕ)
    (W : World Column) (s : State) (b : About) (times : List (ℝ × ℝ)) (files : String → Paths)
    (outs : String → List Column) (R : String → Compute.Out)
    (hk : o.type.toLower ∈ ["grid", "drift", "time series"]) (types : List String)
    (ht : ∀ t ∈ types, t ∈ ["u", "v"]) (hf : ∀ t ∈ types, FilesOf s t (files t))
    (hh : ∀ t ∈ types, Holds W s (files t) t (b.names.zip (outs t)))
    (hl : ∀ t ∈ types, (outs t).length = b.names.length)
    (hR : ∀ t ∈ types, tideElevations P I o ny nx (table n (outs t) b.names b.corrections b.minor) times
      = .ok (R t)) :
    tideCurrents P I o ny nx n W s types b.corrections b.minor times
      = .ok (types.map fun t => (t, R t)) := by
  rw [tideCurrents, if_neg (not_not.mpr hk)]
  induction types with
  | nil => rfl
  | cons t ts ih =>
    have low : t.toLower = t := by
      have := ht t (by simp)
      simp only [List.mem_cons, List.not_mem_nil, or_false] at this
      rcases this with rfl | rfl <;> decide +kernel
    obtain ⟨z1, z2⟩ := zip_fst b.names (outs t) (hl t (by simp))
    rw [components, extract_held low (hf t (by simp)) (hh t (by simp)), ok_bind]
    dsimp only [named]
    rw [ok_bind, z1, z2, hR t (by simp), ok_bind, ih (fun u hu => ht u (by simp [hu]))
      (fun u hu => hf u (by simp [hu])) (fun u hu => hh u (by simp [hu])) (fun u hu => hl u (by simp [hu]))
      (fun u hu => hR u (by simp [hu])), ok_bind]
    rfl

/-- C127, ATLAS netCDF, from the files on: for a global model with a grid and files for each component, the
current at every place and time has both components; each is the tide of the constants that are the
interpolated transports of this component in its own files, divided by the interpolated depths at the points
of this component, in centimetres per second. -/
theorem C127_atlas_files (P : Predict.Env) (I : Infer.Env) (o : Options) (ny nx : ℕ) (W : World Column)
    (m : State) (hm : m.format = "ATLAS-netcdf") (fu fv : Paths) (hd : m.file = .dict [("u", fu), ("v", fv)])
    (r : Request ℝ) (hr : r.crop = false) (hn : ∀ x y hc q, r.near x y hc q = none)
    (site : String → AtlasNet.Site ℝ) (west : String → ℝ) (fields : String → List (List (List (ℝ × ℝ))))
    (b : About) (pts times : List (ℝ × ℝ)) (hne : pts ≠ [])
    (hW : ∀ f t, (f, t) ∈ [(fu, "u"), (fv, "v")] →
      W.atlas f t = (AtlasNet.extract r true (site t) (fields t) pts).map fun q => b.names.zip q.2)
    (ha : ∀ t ∈ ["u", "v"], AtlasNet.Around (site t) (west t))
    (pos : ∀ t ∈ ["u", "v"], ∀ k j, 0 ≤ (site t).at k j)
    (sh : ∀ t ∈ ["u", "v"], ∀ hc ∈ fields t, CGrid.Shape hc (site t).lat.length (site t).lon.length)
    (hl : ∀ t ∈ ["u", "v"], (fields t).length = b.names.length)
    (hp : ∀ t ∈ ["u", "v"], ∀ p ∈ pts, AtlasNet.Spot r.method (site t) p)
    (hs : Suits P I o b pts.length ny nx times) :
    ∃ zs : String → List (List (Option ℂ)),
      tideCurrents P I o ny nx pts.length W m ["u", "v"] b.corrections b.minor times
        = .ok [("u", laid o.type (expected P I o b) (zs "u") times),
          ("v", laid o.type (expected P I o b) (zs "v") times)] ∧
      ∀ t ∈ ["u", "v"], List.Forall₂ (fun p z => List.Forall₂ (fun hc z => ∃ v w,
        (if r.method = .bilinear then Interpolated .bilinear (AtlasNet.tides (site t) (west t) hc) p v ∧
            Interpolated .bilinear (AtlasNet.waters (site t) (west t)) p w
          else Interpolated .spline (AtlasNet.tides (site t) (west t) hc) p v ∧
            Interpolated .spline (AtlasNet.waters (site t) (west t)) p w) ∧
        z = flow true r.scale v w) (fields t) z) pts (zs t) := by
  have hk : o.type.toLower ∈ ["grid", "drift", "time series"] := by
    rcases hs.kind with ⟨e, _⟩ | ⟨e, _⟩ | ⟨e, _⟩ <;> simp [e]
  have each : ∀ t, ∃ (outs : List Column) (zs : List (List (Option ℂ))), t ∈ ["u", "v"] →
      (∃ ds, AtlasNet.extract r true (site t) (fields t) pts = .ok (ds, outs)) ∧
      outs.length = b.names.length ∧
      tideElevations P I o ny nx (table pts.length outs b.names b.corrections b.minor) times
        = .ok (laid o.type (expected P I o b) zs times) ∧
      List.Forall₂ (fun p z => List.Forall₂ (fun hc z => ∃ v w,
        (if r.method = .bilinear then Interpolated .bilinear (AtlasNet.tides (site t) (west t) hc) p v ∧
            Interpolated .bilinear (AtlasNet.waters (site t) (west t)) p w
          else Interpolated .spline (AtlasNet.tides (site t) (west t) hc) p v ∧
            Interpolated .spline (AtlasNet.waters (site t) (west t)) p w) ∧
        z = flow true r.scale v w) (fields t) z) pts zs := by
    intro t
    by_cases ht : t ∈ ["u", "v"]
    · obtain ⟨ds, outs, e, -, k⟩ := AtlasNet.C75_global (ha t ht) r hr hn true (fun _ => pos t ht) (fields t)
        (sh t ht) pts hne (hp t ht)
      obtain ⟨zs, e2, k2⟩ := C77_atlas P I o ny nx (ha t ht) r hr hn true (fun _ => pos t ht) (fields t)
        (sh t ht) b (hl t ht) pts times hne (hp t ht) hs
      rw [fromAtlas, e, ok_bind] at e2
      exact ⟨outs, zs, fun _ => ⟨⟨ds, e⟩, by rw [← k.length_eq, hl t ht], e2, k2⟩⟩
    · exact ⟨[], [], fun h => absurd h ht⟩
  choose outs zs h using each
  refine ⟨zs, ?_, fun t ht => (h t ht).2.2.2⟩
  refine currents_read P I o ny nx pts.length W m b times (fun t => if t = "u" then fu else fv) outs
    (fun t => laid o.type (expected P I o b) (zs t) times) hk ["u", "v"] (fun t ht => ht) ?_ ?_
    (fun t ht => (h t ht).2.1) (fun t ht => (h t ht).2.2.1)
  · intro t ht
    refine .entry _ hd hm (by simp) ?_
    simp only [List.mem_cons, List.not_mem_nil, or_false] at ht
    rcases ht with rfl | rfl <;> simp
  · intro t ht
    obtain ⟨ds, e⟩ := (h t ht).1
    refine .inr ⟨hm, ?_⟩
    have hmem : ((if t = "u" then fu else fv), t) ∈ [(fu, "u"), (fv, "v")] := by
      simp only [List.mem_cons, List.not_mem_nil, or_false] at ht
      rcases ht with rfl | rfl <;> simp
    rw [hW _ t hmem, e]
    rfl

/-- The extraction of the velocities of a component from an OTIS model: at the points of this component. -/
def velocity (r : Staggered.Ask ℝ) (t : String) : Staggered.Ask ℝ :=
  { r with quantity := ⟨if t = "u" then .u else .v, true⟩ }

/-- Currents from extractions that agree with charts of the transports and depths. -/
theorem otis_currents (P : Predict.Env) (I : Infer.Env) (o : Options) (ny nx : ℕ) (W : World Column)
    (m : State) (hm : m.format ∈ ["OTIS", "ATLAS-compact", "TMD3"]) (file : Paths)
    (hd : m.file = .paths file ∨ m.file = .dict [("u", file)]) (r : Staggered.Ask ℝ) (s : Staggered.Site ℝ)
    (fields : String → List (List (List (Fld ℝ)))) (b : About) (pts times : List (ℝ × ℝ))
    (hW : ∀ t ∈ ["u", "v"], W.otis file t
      = (Staggered.extract (velocity r t) s (fields t) pts).map fun q => b.names.zip q.2)
    (hl : ∀ t ∈ ["u", "v"], (fields t).length = b.names.length)
    (T : String → List (List (Fld ℝ)) → Chart ℝ) (H : String → Chart ℝ)
    (got : ∀ t ∈ ["u", "v"], ∃ ds outs, Staggered.extract (velocity r t) s (fields t) pts = .ok (ds, outs) ∧
      List.Forall₂ (fun hc os => List.Forall₂ (Staggered.Agrees r.method true (T t hc) (H t)) pts os)
        (fields t) outs)
    (hs : Suits P I o b pts.length ny nx times) :
    ∃ zs : String → List (List (Option ℂ)),
      tideCurrents P I o ny nx pts.length W m ["u", "v"] b.corrections b.minor times
        = .ok [("u", laid o.type (expected P I o b) (zs "u") times),
          ("v", laid o.type (expected P I o b) (zs "v") times)] ∧
      ∀ t ∈ ["u", "v"], List.Forall₂ (fun p z => List.Forall₂ (fun hc z => ∃ v w,
        Interpolated r.method (T t hc) p v ∧
        Interpolated (if r.method = .bilinear then .bilinear else .spline) (H t) p w ∧
        z = flow true 1 v w) (fields t) z) pts (zs t) := by
  have hk : o.type.toLower ∈ ["grid", "drift", "time series"] := by
    rcases hs.kind with ⟨e, _⟩ | ⟨e, _⟩ | ⟨e, _⟩ <;> simp [e]
  have each : ∀ t, ∃ (outs : List Column) (zs : List (List (Option ℂ))), t ∈ ["u", "v"] →
      (∃ ds, Staggered.extract (velocity r t) s (fields t) pts = .ok (ds, outs)) ∧
      outs.length = b.names.length ∧
      tideElevations P I o ny nx (table pts.length outs b.names b.corrections b.minor) times
        = .ok (laid o.type (expected P I o b) zs times) ∧
      List.Forall₂ (fun p z => List.Forall₂ (fun hc z => ∃ v w,
        Interpolated r.method (T t hc) p v ∧
        Interpolated (if r.method = .bilinear then .bilinear else .spline) (H t) p w ∧
        z = flow true 1 v w) (fields t) z) pts zs := by
    intro t
    by_cases ht : t ∈ ["u", "v"]
    · obtain ⟨ds, outs, e, k⟩ := got t ht
      obtain ⟨zs, e2, k2⟩ := otis_laid (r := velocity r t) hs (hl t ht) e k
      rw [fromOtis, e, ok_bind] at e2
      exact ⟨outs, zs, fun _ => ⟨⟨ds, e⟩, by rw [← k.length_eq, hl t ht], e2, k2⟩⟩
    · exact ⟨[], [], fun h => absurd h ht⟩
  choose outs zs h using each
  refine ⟨zs, ?_, fun t ht => (h t ht).2.2.2⟩
  refine currents_read P I o ny nx pts.length W m b times (fun _ => file) outs
    (fun t => laid o.type (expected P I o b) (zs t) times) hk ["u", "v"] (fun t ht => ht) ?_ ?_
    (fun t ht => (h t ht).2.1) (fun t ht => (h t ht).2.2.1)
  · intro t _
    rcases hd with hd | hd
    · exact .only hd
    · exact .single hd hm
  · intro t ht
    obtain ⟨ds, e⟩ := (h t ht).1
    refine .inl ⟨hm, ?_⟩
    rw [hW t ht, e]
    rfl

/-- C127, OTIS, from the file on, for a global model: both components, each the tide of the transports of this
component in the file, interpolated from the points of this component and divided by the depths interpolated
from there, in centimetres per second.  Missing: places beyond the last column of a model that starts at the
Greenwich meridian (see `C73_batch_false`), and stored cells without data beside cells with data. -/
theorem C127_otis_places_partial (P : Predict.Env) (I : Infer.Env) (o : Options) (ny nx : ℕ) (W : World Column)
    (m : State) (hm : m.format ∈ ["OTIS", "ATLAS-compact", "TMD3"]) (file : Paths)
    (hd : m.file = .paths file ∨ m.file = .dict [("u", file)])
    (r : Staggered.Ask ℝ) (hg : r.geographic = true) (hr : r.crop = false)
    (hn : ∀ x y hc q, r.near x y hc q = none) {s : Staggered.Site ℝ} {a : ℝ} (h : Staggered.Around s a)
    (fields : String → List (List (List (Fld ℝ)))) (b : About) (pts times : List (ℝ × ℝ)) (hne : pts ≠ [])
    (hW : ∀ t ∈ ["u", "v"], W.otis file t
      = (Staggered.extract (velocity r t) s (fields t) pts).map fun q => b.names.zip q.2)
    (hl : ∀ t ∈ ["u", "v"], (fields t).length = b.names.length)
    (hf : ∀ t ∈ ["u", "v"], ∀ hc ∈ fields t, CGrid.Shape hc s.y.length s.x.length ∧
      Staggered.Complete r.method false (Staggered.world s a) (velocity r t).quantity.node.points
        (Staggered.worldValue s hc))
    (hp : ∀ p ∈ pts, Staggered.Span r.method p)
    (hb : ∀ t ∈ ["u", "v"], ∀ p ∈ pts, Staggered.Band r.method (velocity r t).quantity.node s.y p)
    (start : (0 ≤ a ∧ a ≤ 360 / (s.x.length : ℝ) ∧
        ∀ p ∈ pts, Grid.toPositive p.1 ≤ a + 360 - 360 / (s.x.length : ℝ)) ∨
      ((∀ t ∈ ["u", "v"], -180 + Staggered.half (velocity r t).quantity.node (360 / (s.x.length : ℝ)) ≤ a) ∧
        a ≤ -180 + 360 / (s.x.length : ℝ)))
    (hs : Suits P I o b pts.length ny nx times) :
    ∃ zs : String → List (List (Option ℂ)),
      tideCurrents P I o ny nx pts.length W m ["u", "v"] b.corrections b.minor times
        = .ok [("u", laid o.type (expected P I o b) (zs "u") times),
          ("v", laid o.type (expected P I o b) (zs "v") times)] ∧
      ∀ t ∈ ["u", "v"], List.Forall₂ (fun p z => List.Forall₂ (fun hc z => ∃ v w,
        Interpolated r.method ((Staggered.world s a).chart (velocity r t).quantity.node.points
          (Staggered.worldValue s hc)) p v ∧
        Interpolated (if r.method = .bilinear then .bilinear else .spline)
          ((Staggered.world s a).depths (velocity r t).quantity.node.points) p w ∧
        z = flow true 1 v w) (fields t) z) pts (zs t) := by
  refine otis_currents P I o ny nx W m hm file hd r s fields b pts times hW hl
    (fun t hc => (Staggered.world s a).chart (velocity r t).quantity.node.points (Staggered.worldValue s hc))
    (fun t => (Staggered.world s a).depths (velocity r t).quantity.node.points) ?_ hs
  intro t ht
  obtain ⟨ds, outs, e, -, k⟩ := Staggered.C73_places_partial h (velocity r t) hg hr hn
    (fun _ => by simp only [velocity]; split <;> simp) (fields t) (hf t ht) pts hne hp (hb t ht)
    (start.imp id fun q => ⟨q.1 t ht, q.2⟩)
  exact ⟨ds, outs, e, k⟩

/-- C127, OTIS, from the file on, for a regional model, in degrees or on a projection.  Missing: places outside
of the region, and a coast in the last column where the first column is in the sea (`C73_rim_false`). -/
theorem C127_otis_region_partial (P : Predict.Env) (I : Infer.Env) (o : Options) (ny nx : ℕ) (W : World Column)
    (m : State) (hm : m.format ∈ ["OTIS", "ATLAS-compact", "TMD3"]) (file : Paths)
    (hd : m.file = .paths file ∨ m.file = .dict [("u", file)])
    (r : Staggered.Ask ℝ) (hr : r.crop = false) {s : Staggered.Site ℝ} (h : Staggered.Rect s)
    (hg : Staggered.Partial s r.geographic false) (hn : ∀ x y hc q, r.near x y hc q = none)
    (rim : ∀ t ∈ ["u", "v"], Staggered.Rim s false (Staggered.region s) (velocity r t).quantity.node)
    (far : r.method = .bilinear → ∀ t ∈ ["u", "v"], ∀ c : ℕ, c < s.x.length →
      |s.x.getD c 0 - Staggered.half (velocity r t).quantity.node (s.x.getD 1 0 - s.x.getD 0 0)| ≤ 720)
    (fields : String → List (List (List (Fld ℝ)))) (b : About) (pts times : List (ℝ × ℝ)) (hne : pts ≠ [])
    (hW : ∀ t ∈ ["u", "v"], W.otis file t
      = (Staggered.extract (velocity r t) s (fields t) pts).map fun q => b.names.zip q.2)
    (hl : ∀ t ∈ ["u", "v"], (fields t).length = b.names.length)
    (hf : ∀ t ∈ ["u", "v"], ∀ hc ∈ fields t, CGrid.Shape hc s.y.length s.x.length ∧
      Staggered.Complete r.method false (Staggered.region s) (velocity r t).quantity.node.points
        (Staggered.regionValue hc))
    (hx : ∀ t ∈ ["u", "v"], ∀ p ∈ pts, Staggered.Within r.method (velocity r t).quantity.node s.x p)
    (hb : ∀ t ∈ ["u", "v"], ∀ p ∈ pts, Staggered.Band r.method (velocity r t).quantity.node s.y p)
    (hs : Suits P I o b pts.length ny nx times) :
    ∃ zs : String → List (List (Option ℂ)),
      tideCurrents P I o ny nx pts.length W m ["u", "v"] b.corrections b.minor times
        = .ok [("u", laid o.type (expected P I o b) (zs "u") times),
          ("v", laid o.type (expected P I o b) (zs "v") times)] ∧
      ∀ t ∈ ["u", "v"], List.Forall₂ (fun p z => List.Forall₂ (fun hc z => ∃ v w,
        Interpolated r.method ((Staggered.region s).chart (velocity r t).quantity.node.points
          (Staggered.regionValue hc)) p v ∧
        Interpolated (if r.method = .bilinear then .bilinear else .spline)
          ((Staggered.region s).depths (velocity r t).quantity.node.points) p w ∧
        z = flow true 1 v w) (fields t) z) pts (zs t) := by
  refine otis_currents P I o ny nx W m hm file hd r s fields b pts times hW hl
    (fun t hc => (Staggered.region s).chart (velocity r t).quantity.node.points (Staggered.regionValue hc))
    (fun t => (Staggered.region s).depths (velocity r t).quantity.node.points) ?_ hs
  intro t ht
  obtain ⟨ds, outs, e, -, k⟩ := Staggered.C73_region_partial h (velocity r t) hr hg hn
    (fun _ => by simp only [velocity]; split <;> simp) (rim t ht) (fun e => far e t ht) (fields t) (hf t ht)
    pts hne (hx t ht) (hb t ht)
  exact ⟨ds, outs, e, k⟩

/-- A region on a projection, fields of both components and a place meet the hypotheses of
`C127_otis_region_partial`. -/
example (r : Staggered.Ask ℝ) (hm : r.method = .spline) (hg : r.geographic = false) :
    ∃ (s : Staggered.Site ℝ) (fields : String → List (List (List (Fld ℝ)))), Staggered.Rect s ∧
      fields "u" ≠ fields "v" ∧ Staggered.Partial s r.geographic false ∧
      ∀ t ∈ ["u", "v"], Staggered.Rim s false (Staggered.region s) (velocity r t).quantity.node ∧
        (fields t).length = 1 ∧
        (∀ hc ∈ fields t, CGrid.Shape hc s.y.length s.x.length ∧
          Staggered.Complete r.method false (Staggered.region s) (velocity r t).quantity.node.points
            (Staggered.regionValue hc)) ∧
        Staggered.Within r.method (velocity r t).quantity.node s.x (12, 3) ∧
        Staggered.Band r.method (velocity r t).quantity.node s.y (12, 3) := by
  refine ⟨⟨[0, 10, 20], [-30, 0, 30], List.replicate 3 (List.replicate 3 1000),
      List.replicate 3 (List.replicate 3 true)⟩,
    fun t => [List.replicate 3 (List.replicate 3 ⟨if t = "u" then 1 else 2, 0, false⟩)],
    ⟨⟨?_, ?_⟩, by simp, by simp, ⟨by simp, ?_⟩, ⟨by simp, ?_⟩⟩, by simp, Or.inl hg, fun t ht => ⟨?_, rfl, ?_, ?_, ?_⟩⟩
  · simp; norm_num
  · simp
  · intro q hq
    rw [List.eq_of_mem_replicate hq]; simp
  · intro q hq
    rw [List.eq_of_mem_replicate hq]; simp
  · intro _ _ q hq _
    simp only [List.length_cons, List.length_nil] at hq
    have : q = 0 ∨ q = 1 ∨ q = 2 := by omega
    rcases this with rfl | rfl | rfl <;> simp [Staggered.region]
  · intro hc hmem
    rw [List.mem_singleton.1 hmem]
    refine ⟨⟨by simp, ?_⟩, ⟨fun e => by simp [hm] at e, fun e => by simp [hm] at e⟩⟩
    intro q hq
    rw [List.eq_of_mem_replicate hq]; simp
  · simp only [List.mem_cons, List.not_mem_nil, or_false] at ht
    rcases ht with rfl | rfl <;>
      refine ⟨by norm_num, ?_, fun e => by simp [hm] at e⟩ <;> simp [velocity, Staggered.half] <;> norm_num
  · simp only [List.mem_cons, List.not_mem_nil, or_false] at ht
    rcases ht with rfl | rfl <;>
      refine ⟨by norm_num, ?_, fun e => by simp [hm] at e⟩ <;> simp [velocity, Staggered.low] <;> norm_num

/-- A model whose components have grids of their own, half a step apart, with different depths, and a place
meet the hypotheses. -/
example : ∃ (site : String → AtlasNet.Site ℝ) (west : String → ℝ) (fields : String → List (List (List (ℝ × ℝ)))),
    site "u" ≠ site "v" ∧ ∀ t ∈ ["u", "v"], AtlasNet.Around (site t) (west t) ∧
      (∀ k j, 0 ≤ (site t).at k j) ∧ (fields t).length = 1 ∧
      (∀ hc ∈ fields t, CGrid.Shape hc (site t).lat.length (site t).lon.length) ∧
      AtlasNet.Spot .spline (site t) (10, 20) := by
  let west : String → ℝ := fun t => if t = "u" then 0 else 45
  let deep : String → ℝ := fun t => if t = "u" then 100 else 200
  have deep0 : ∀ t, 0 ≤ deep t := fun t => by dsimp only [deep]; split <;> norm_num
  refine ⟨fun t => ⟨Spec.uniform (west t) 90 4, [-60, 0, 60], List.replicate 3 (List.replicate 4 (deep t))⟩, west,
    fun _ => [List.replicate 3 (List.replicate 4 (1, 2))], ?_, fun t _ => ⟨⟨?_, ?_, ?_, ?_, ?_, ?_⟩, ?_, rfl, ?_, ?_⟩⟩
  · simp [west, deep]
  · simp [Spec.uniform]
  · simp [Spec.uniform]; norm_num
  · simp
  · simp
  · exact ⟨by simp, by
      intro r hr
      rw [List.eq_of_mem_replicate hr]
      simp [Spec.uniform]⟩
  · refine Or.inl ?_
    simp only [Spec.uniform, List.length_map, List.length_range, west]
    split <;> norm_num
  · intro k j
    rw [AtlasNet.Site.at, List.getD_eq_getElem?_getD, List.getD_eq_getElem?_getD, List.getElem?_replicate]
    split
    · rw [Option.getD_some, List.getElem?_replicate]
      split
      · exact deep0 t
      · simp
    · simp
  · intro hc hmem
    rw [List.mem_singleton.1 hmem]
    exact ⟨by simp, by
      intro r hr
      rw [List.eq_of_mem_replicate hr]
      simp [Spec.uniform]⟩
  · exact ⟨by norm_num, by norm_num, by simp; norm_num, by simp; norm_num, fun e => by cases e⟩

end Verif.Flow
