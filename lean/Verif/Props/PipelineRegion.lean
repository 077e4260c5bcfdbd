import Verif.Props.PipelineOptions
import Verif.Props.RegionATLASCrop
/-!
C113 for regional GOT, FES and ATLAS netCDF models: the elevations are the tide of the field in the files at
places in the region and missing outside.
-/
namespace Verif.Pipeline
open Verif Verif.Spec Verif.Extract Verif.Compute

section
variable (P : Predict.Env) (I : Infer.Env) (o : Options) (ny nx : ℕ) (b : About) (lats : Option (List ℝ))

/-- **C113**, GOT and FES models of regions: at a place in the region of a file, however its longitude is
written, the constant is the interpolation of the field, and there is none at a place outside.  Excluded:
splines of GOT models, see `C109_got_false`. -/
theorem C113_files_region_partial (f : Fmt) (r : Request ℝ) (hf : f.bounded = true ∨ r.method ≠ .spline)
    (hr : r.crop = false) (hn : ∀ x y hc q, r.near x y hc q = none) (files : List (Layer ℝ))
    (hg : ∀ g ∈ files, Region g) (hl : files.length = b.names.length) (pts times : List (ℝ × ℝ)) (hne : pts ≠ [])
    (hp : ∀ g ∈ files, ∀ p ∈ pts, Asked r.method g.lon g.lat p) (hw : ∀ p ∈ pts, -180 < p.1 ∧ p.1 < 360)
    (ha : ∀ l ∈ lats, l.length = pts.length) (hs : Suits P I o (b.with lats) pts.length ny nx times) :
    ∃ zs, optFiles P I o ny nx f r none lats files b pts times
        = .ok (laid o.type (expected P I o (b.with lats)) (List.zipWith (· ++ ·) zs (added b lats pts.length)) times) ∧
      List.Forall₂ (fun p z => List.Forall₂ (fun (g : Layer ℝ) z =>
        (∀ k : ℤ, Inside g.lon g.lat (turned p k) → ∃ v, Interpolated r.method (patch g) (turned p k) v ∧
          z = complexed r.scale v) ∧
        ((∀ k : ℤ, ¬ Inside g.lon g.lat (turned p k)) → z = none)) files z) pts zs := by
  obtain ⟨outs, e, m⟩ := C109_extract_partial f r hf hr hn files hg pts hne hp hw
  obtain ⟨zs, e1, m1⟩ := finish_laid hs ha hl (fun (g : Layer ℝ) p z =>
        (∀ k : ℤ, Inside g.lon g.lat (turned p k) → ∃ v, Interpolated r.method (patch g) (turned p k) v ∧
          z = complexed r.scale v) ∧
        ((∀ k : ℤ, ¬ Inside g.lon g.lat (turned p k)) → z = none))
    (m.imp fun g col h => h.imp fun p v k => ⟨fun l hl => (meets_number (k.1 l hl)).2, fun hno => by rw [k.2 hno]; rfl⟩)
  exact ⟨zs, by rw [optFiles, e, ok_bind]; exact e1, m1⟩

/-- The same with cropping, for places in the regions as the files write them. -/
theorem C113_files_region_cropped_partial (f : Fmt) (r : Request ℝ) (hr : r.crop = true) (hb : r.bounds = none)
    (hn : ∀ x y hc q, r.near x y hc q = none) (files : List (Layer ℝ))
    (hg : ∀ g ∈ files, Region g ∧ r.Reaches g) (hl : files.length = b.names.length) (pts times : List (ℝ × ℝ))
    (h0 : ∃ p ∈ pts, p ≠ (0, 0)) (hp : ∀ g ∈ files, ∀ p ∈ pts, Written r.method g p)
    (ha : ∀ l ∈ lats, l.length = pts.length) (hs : Suits P I o (b.with lats) pts.length ny nx times) :
    ∃ zs, optFiles P I o ny nx f r none lats files b pts times
        = .ok (laid o.type (expected P I o (b.with lats)) (List.zipWith (· ++ ·) zs (added b lats pts.length)) times) ∧
      List.Forall₂ (fun p z => List.Forall₂ (fun (g : Layer ℝ) z => ∃ v,
        Interpolated r.method (patch g) p v ∧ z = complexed r.scale v) files z) pts zs := by
  obtain ⟨outs, e, m⟩ := C109_cropped_partial f r hr hb hn files hg pts h0 hp
  obtain ⟨zs, e1, m1⟩ := finish_laid hs ha hl (fun (g : Layer ℝ) p z => ∃ v,
        Interpolated r.method (patch g) p v ∧ z = complexed r.scale v)
    (m.imp fun g col h => h.imp fun p v k => (meets_number k).2)
  exact ⟨zs, by rw [optFiles, e, ok_bind]; exact e1, m1⟩

/-- **C113**, ATLAS netCDF models of regions: elevations, or currents with their depths. -/
theorem C113_atlas_region_partial {s : AtlasNet.Site ℝ} (h : AtlasNet.Sound s) (r : Request ℝ) (hr : r.crop = false)
    (hn : ∀ x y hc q, r.near x y hc q = none) (speed : Bool)
    (pos : speed = true → ∀ j i : ℕ, 0 ≤ (s.depth.getD j []).getD i 0) (fields : List (List (List (ℝ × ℝ))))
    (sh : ∀ hc ∈ fields, CGrid.Shape hc s.lat.length s.lon.length) (hl : fields.length = b.names.length)
    (pts times : List (ℝ × ℝ)) (hne : pts ≠ []) (hp : ∀ p ∈ pts, Asked r.method s.lon s.lat p)
    (ha : ∀ l ∈ lats, l.length = pts.length) (hs : Suits P I o (b.with lats) pts.length ny nx times) :
    ∃ zs, optAtlas P I o ny nx r speed none lats s fields b pts times
        = .ok (laid o.type (expected P I o (b.with lats)) (List.zipWith (· ++ ·) zs (added b lats pts.length)) times) ∧
      List.Forall₂ (fun p z => List.Forall₂ (fun hc z =>
        (∀ k : ℤ, Inside s.lon s.lat (turned p k) → ∃ v w,
          Interpolated (atlasWay r.method) (AtlasNet.bayTides s hc) (turned p k) v ∧
          Interpolated (atlasWay r.method) (AtlasNet.bayWaters s) (turned p k) w ∧ z = flow speed r.scale v w) ∧
        ((∀ k : ℤ, ¬ Inside s.lon s.lat (turned p k)) → z = none)) fields z) pts zs := by
  obtain ⟨ds, outs, e, -, m⟩ := AtlasNet.C109_atlas_partial h r hr hn speed pos fields sh pts hne hp
  obtain ⟨zs, e1, m1⟩ := finish_laid hs ha hl (fun hc p z =>
        (∀ k : ℤ, Inside s.lon s.lat (turned p k) → ∃ v w,
          Interpolated (atlasWay r.method) (AtlasNet.bayTides s hc) (turned p k) v ∧
          Interpolated (atlasWay r.method) (AtlasNet.bayWaters s) (turned p k) w ∧ z = flow speed r.scale v w) ∧
        ((∀ k : ℤ, ¬ Inside s.lon s.lat (turned p k)) → z = none))
    (m.imp fun g col h => h.imp fun p v k => ⟨fun l hl => (atlas_number (k.1 l hl)).2, fun hno => by rw [k.2 hno]; rfl⟩)
  exact ⟨zs, by rw [optAtlas, e, ok_bind]; exact e1, m1⟩

/-- The same with cropping, for places in the region as the file writes them. -/
theorem C113_atlas_region_cropped_partial {s : AtlasNet.Site ℝ} (h : AtlasNet.Sound s) (r : Request ℝ)
    (hr : r.crop = true) (hb : r.bounds = none) (hn : ∀ x y hc q, r.near x y hc q = none)
    (hc : r.Reaches ⟨s.lon, s.lat, []⟩) (speed : Bool)
    (pos : speed = true → ∀ j i : ℕ, 0 ≤ (s.depth.getD j []).getD i 0) (fields : List (List (List (ℝ × ℝ))))
    (sh : ∀ hc ∈ fields, CGrid.Shape hc s.lat.length s.lon.length) (hl : fields.length = b.names.length)
    (pts times : List (ℝ × ℝ)) (h0 : ∃ p ∈ pts, p ≠ (0, 0)) (hp : ∀ p ∈ pts, Written r.method ⟨s.lon, s.lat, []⟩ p)
    (ha : ∀ l ∈ lats, l.length = pts.length) (hs : Suits P I o (b.with lats) pts.length ny nx times) :
    ∃ zs, optAtlas P I o ny nx r speed none lats s fields b pts times
        = .ok (laid o.type (expected P I o (b.with lats)) (List.zipWith (· ++ ·) zs (added b lats pts.length)) times) ∧
      List.Forall₂ (fun p z => List.Forall₂ (fun hc z => ∃ v w,
        Interpolated (atlasWay r.method) (AtlasNet.bayTides s hc) p v ∧
        Interpolated (atlasWay r.method) (AtlasNet.bayWaters s) p w ∧ z = flow speed r.scale v w) fields z) pts zs := by
  obtain ⟨ds, outs, e, -, m⟩ := AtlasNet.C109_atlas_cropped_partial h r hr hb hn hc speed pos fields sh pts h0 hp
  obtain ⟨zs, e1, m1⟩ := finish_laid hs ha hl (fun hc p z => ∃ v w,
      Interpolated (atlasWay r.method) (AtlasNet.bayTides s hc) p v ∧
        Interpolated (atlasWay r.method) (AtlasNet.bayWaters s) p w ∧ z = flow speed r.scale v w)
    (m.imp fun g col h => h.imp fun p v k => (atlas_number k).2)
  exact ⟨zs, by rw [optAtlas, e, ok_bind]; exact e1, m1⟩

end

/-- A region from 20 degrees west to 20 degrees east. -/
def gulf : Layer ℝ where
  lon := [-20, 0, 20]
  lat := [-10, 10]
  hc := [[⟨1, 2, false⟩, ⟨3, 4, false⟩, ⟨0, 0, true⟩], [⟨5, 6, false⟩, ⟨7, 8, false⟩, ⟨9, 10, false⟩]]

/-- The hypotheses of `C113_files_region_partial` can hold: a place in the region on another turn, and one
outside. -/
example (I : Infer.Env) (r : Request ℝ) (hr : r.crop = false) (hm : r.method = .spline)
    (hn : ∀ x y hc q, r.near x y hc q = none) : ∃ (P : Predict.Env) (zs : List (List (Option ℂ))),
    optFiles P I ⟨"drift", none, false, none⟩ 1 1 fes r none none [gulf] lunar [(350, 0), (60, 0)] [(0, 0), (1, 0)]
      = .ok (laid "drift" (expected P I ⟨"drift", none, false, none⟩ (lunar.with none))
        (List.zipWith (· ++ ·) zs (added lunar none 2)) [(0, 0), (1, 0)]) := by
  have reg : Region gulf := by
    refine ⟨⟨by show 2 ≤ 3; omega, by show 2 ≤ 2; omega, ?_, Or.inr ⟨?_, ?_⟩, ?_, ?_⟩, rfl, ?_⟩
    · show (20 : ℝ) - -20 + (0 - -20) ≤ 360 - 1 / 100
      norm_num
    · show (-180 : ℝ) < -20
      norm_num
    · show (20 : ℝ) ≤ 180
      norm_num
    · show [(-20 : ℝ), 0, 20].Pairwise (· < ·)
      simp only [List.pairwise_cons, List.mem_cons, List.not_mem_nil, or_false]
      norm_num
    · show [(-10 : ℝ), 10].Pairwise (· < ·)
      simp only [List.pairwise_cons, List.mem_cons, List.not_mem_nil, or_false]
      norm_num
    · intro row hrow
      simp only [gulf, List.mem_cons, List.not_mem_nil, or_false] at hrow
      rcases hrow with rfl | rfl <;> rfl
  have rng : ∀ p ∈ [((350 : ℝ), (0 : ℝ)), (60, 0)], -180 < p.1 ∧ p.1 < 360 := by
    intro p hp
    simp only [List.mem_cons, List.not_mem_nil, or_false] at hp
    rcases hp with rfl | rfl <;> norm_num
  have e : lunar.with none = lunar := rfl
  obtain ⟨zs, h, -⟩ := C113_files_region_partial ⟨fun _ => true, fun _ _ _ => ⟨0, 1, 0⟩, fun _ => 0, fun _ => 0⟩ I
    ⟨"drift", none, false, none⟩ 1 1 lunar none fes r (Or.inl rfl) hr hn [gulf]
    (by intro g hg; rw [List.mem_singleton] at hg; subst hg; exact reg) rfl [(350, 0), (60, 0)] [(0, 0), (1, 0)] (by simp)
    (by
      intro g _ p hp
      exact ⟨(rng p hp).1, (rng p hp).2, fun k => by rw [hm] at k; cases k⟩)
    rng (by simp)
    ⟨Or.inr (Or.inl ⟨by decide +kernel, rfl⟩), fun _ _ => rfl, by rw [e]; simp [lunar], fun k => by cases k⟩
  exact ⟨_, zs, h⟩

end Verif.Pipeline
