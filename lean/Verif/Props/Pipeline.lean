import Verif.Model.Pipeline
import Verif.Props.Compute
import Verif.Props.Extract
import Verif.Props.ExtractATLAS
import Verif.Props.ExtractOTIS
import Verif.Spec.Forecast
/-!
C77: what is predicted for a place and a time is the tide of the field in the files there.
-/
namespace Verif.Pipeline
open Verif Verif.Predict Verif.Compute Verif.Extract Verif.Spec

/-! ## One constant -/

/-- The complex number of an interpolated constant. -/
noncomputable def number : Extract.Out ℝ → Option ℂ
  | .val re im factor => some (factor * ⟨re, im⟩)
  | _ => none

/-- From polar form and back. -/
theorem oscillation_polar (o : Extract.Out ℝ) :
    (number o = none → (polar o).1.2 = true ∧ (polar o).2.2 = true) ∧
    (∀ z, number o = some z → (polar o).1.2 = false ∧ (polar o).2.2 = false ∧
      oscillation (polar o).1 (polar o).2 = ⟨z.re, z.im, false⟩) := by
  cases o with
  | masked => exact ⟨fun _ => ⟨rfl, rfl⟩, fun z h => by cases h⟩
  | nan => exact ⟨fun _ => ⟨rfl, rfl⟩, fun z h => by cases h⟩
  | val re im factor =>
    refine ⟨fun h => by simp [number] at h, fun z h => ?_⟩
    cases h
    refine ⟨rfl, rfl, ?_⟩
    have hp := Real.pi_pos.ne'
    have e : ∀ c s : ℝ, c = Real.cos (Complex.arg ⟨re, -im⟩) → s = Real.sin (Complex.arg ⟨re, -im⟩) →
        oscillation (Real.sqrt (re ^ 2 + im ^ 2) * factor, false)
          ((if Complex.arg ⟨re, -im⟩ * 180 / Real.pi < 0 then Complex.arg ⟨re, -im⟩ * 180 / Real.pi + 360
            else Complex.arg ⟨re, -im⟩ * 180 / Real.pi), false)
        = ⟨Real.sqrt (re ^ 2 + im ^ 2) * factor * c, -(Real.sqrt (re ^ 2 + im ^ 2) * factor * s), false⟩ := by
      intro c s hc hs
      have a : (if Complex.arg ⟨re, -im⟩ * 180 / Real.pi < 0 then Complex.arg ⟨re, -im⟩ * 180 / Real.pi + 360
            else Complex.arg ⟨re, -im⟩ * 180 / Real.pi) * Real.pi / 180 = Complex.arg ⟨re, -im⟩ ∨
          (if Complex.arg ⟨re, -im⟩ * 180 / Real.pi < 0 then Complex.arg ⟨re, -im⟩ * 180 / Real.pi + 360
            else Complex.arg ⟨re, -im⟩ * 180 / Real.pi) * Real.pi / 180 = Complex.arg ⟨re, -im⟩ + 2 * Real.pi := by
        generalize Complex.arg ⟨re, -im⟩ = th
        split_ifs
        · right; field_simp; ring
        · left; field_simp
      unfold oscillation
      dsimp only
      rcases a with a | a <;> rw [a]
      · rw [← hc, ← hs]; rfl
      · rw [Real.cos_add_two_pi, Real.sin_add_two_pi, ← hc, ← hs]; rfl
    have n : Real.sqrt (re ^ 2 + im ^ 2) = ‖(⟨re, -im⟩ : ℂ)‖ := by
      rw [Complex.norm_def, Complex.normSq_mk]
      congr 1
      ring
    have k1 := Complex.norm_mul_cos_arg ⟨re, -im⟩
    have k2 := Complex.norm_mul_sin_arg ⟨re, -im⟩
    rw [← n] at k1 k2
    refine (e _ _ rfl rfl).trans ?_
    simp only [Complex.mul_re, Complex.mul_im, Complex.ofReal_re, Complex.ofReal_im] at k1 k2 ⊢
    simp only [MC.mk.injEq, and_true]
    constructor
    · linear_combination factor * k1
    · linear_combination -factor * k2

/-! ## One point -/

/-- The nodal factors and phases of the constituents. -/
noncomputable def clock (P : Predict.Env) (corr : String) (names : List String) (t : ℝ × ℝ) : List (ℝ × ℝ) :=
  names.map fun c => ((P.args t.1 t.2 c).pf, phase P corr c t.1 (P.args t.1 t.2 c))

/-- Complex constants as unmasked entries. -/
noncomputable def entries (zs : List (Option ℂ)) : List MC := zs.map fun z => ⟨(z.getD 0).re, (z.getD 0).im, false⟩

/-- The elevation a user expects at a place with the complex constants `zs`, at a time: none if one of
the constants is missing, else the sum of the tides of the constituents, and of the minor ones if they
are inferred. -/
noncomputable def expected (P : Predict.Env) (I : Infer.Env) (o : Options) (b : About) (zs : List (Option ℂ))
    (t : ℝ × ℝ) : Option ℝ :=
  let corr := orString o.corrections b.corrections
  let t' := (t.1, if corr ∈ ["OTIS", "ATLAS", "TMD3", "netcdf"] then 0 else t.2)
  forecast (clock P corr b.names t') zs
    (if o.infer then minors I corr b.names (orList o.minor b.minor) t' (entries zs) else 0)

theorem answer_expected (P : Predict.Env) (I : Infer.Env) (o : Options) (b : About) (n : ℕ)
    (outs : List (List (Extract.Out ℝ))) (os : List (Extract.Out ℝ)) (t : ℝ × ℝ) :
    answer P I o (table n outs b.names b.corrections b.minor)
      (os.map fun v => (polar v).1, os.map fun v => (polar v).2) t
      = expected P I o b (os.map number) t := by
  unfold answer elevation expected forecast
  dsimp only [table]
  have mask : (∃ v ∈ (os.map fun v => (polar v).1) ++ (os.map fun v => (polar v).2), v.2 = true) ↔
      none ∈ os.map number := by
    simp only [List.mem_append, List.mem_map]
    constructor
    · rintro ⟨v, ⟨w, hw, rfl⟩ | ⟨w, hw, rfl⟩, hv⟩
      · refine ⟨w, hw, ?_⟩
        cases h : number w with
        | none => rfl
        | some z => rw [((oscillation_polar w).2 z h).1] at hv; cases hv
      · refine ⟨w, hw, ?_⟩
        cases h : number w with
        | none => rfl
        | some z => rw [((oscillation_polar w).2 z h).2.1] at hv; cases hv
    · rintro ⟨w, hw, h⟩
      exact ⟨_, Or.inl ⟨w, hw, rfl⟩, ((oscillation_polar w).1 h).1⟩
  by_cases hn : none ∈ os.map number
  · rw [if_pos (mask.2 hn), if_pos hn]
  · rw [if_neg (mt mask.1 hn), if_neg hn]
    have row : List.zipWith oscillation (os.map fun v => (polar v).1) (os.map fun v => (polar v).2)
        = entries (os.map number) := by
      rw [entries, List.map_map, List.zipWith_map, List.zipWith_self]
      refine List.map_congr_left fun w hw => ?_
      cases h : number w with
      | none => exact absurd (List.mem_map.2 ⟨w, hw, h⟩) hn
      | some z => rw [((oscillation_polar w).2 z h).2.2]; simp [h]
    rw [← partials_tide, row]
    congr 3
    rw [waves, entries, clock, List.zipWith_map_left, List.zipWith_map_right]
    rfl

/-! ## All points -/

/-- Results laid out by kind of request. -/
noncomputable def laid (type : String) (F : List (Option ℂ) → ℝ × ℝ → Option ℝ) (zs : List (List (Option ℂ)))
    (times : List (ℝ × ℝ)) : Compute.Out :=
  if type.toLower = "grid" then .grid (times.map fun t => zs.map fun z => F z t)
  else if type.toLower = "drift" then .drift (List.zipWith F zs times)
  else .series (zs.map fun z => times.map fun t => F z t)

/-- A request whose points and times fit its kind, and a model with distinct supported constituents,
from which minor constituents can be inferred if that is asked for. -/
structure Suits (P : Predict.Env) (I : Infer.Env) (o : Options) (b : About) (n ny nx : ℕ)
    (times : List (ℝ × ℝ)) : Prop where
  kind : (o.type.toLower = "grid" ∧ n = ny * nx) ∨ (o.type.toLower = "drift" ∧ n = times.length) ∨
    (o.type.toLower = "time series" ∧ times ≠ [])
  known : ∀ c ∈ b.names, P.known c = true
  distinct : (b.names.map String.toLower).Nodup
  inferable : o.infer = true → ∃ d ∈ bands I (orString o.corrections b.corrections),
    Active d b.names (orList o.minor b.minor)

/-- The constants of a point, one by file. -/
def column (outs : List (List (Extract.Out ℝ))) (i : ℕ) : List (Extract.Out ℝ) :=
  outs.map fun col => col.getD i .masked

theorem table_zip (n : ℕ) (outs : List (List (Extract.Out ℝ))) (b : About) :
    (table n outs b.names b.corrections b.minor).amp.zip (table n outs b.names b.corrections b.minor).ph
      = (List.range n).map fun i => ((column outs i).map fun v => (polar v).1,
        (column outs i).map fun v => (polar v).2) := by
  simp only [table, column, List.zip_map', List.map_map]
  rfl

theorem elevations_laid {P : Predict.Env} {I : Infer.Env} {o : Options} {b : About} {n ny nx : ℕ}
    {times : List (ℝ × ℝ)} (h : Suits P I o b n ny nx times) (outs : List (List (Extract.Out ℝ)))
    (hl : outs.length = b.names.length) :
    tideElevations P I o ny nx (table n outs b.names b.corrections b.minor) times
      = .ok (laid o.type (expected P I o b) ((List.range n).map fun i => (column outs i).map number) times) := by
  have c : Complete P I o (table n outs b.names b.corrections b.minor) := by
    refine ⟨by simp [table], ?_, h.known, h.distinct, h.inferable⟩
    intro q hq
    rw [table_zip, List.mem_map] at hq
    obtain ⟨i, -, rfl⟩ := hq
    simp [column, hl, table]
  have n' : (table n outs b.names b.corrections b.minor).amp.length = n := by simp [table]
  rcases h.kind with ⟨e, k⟩ | ⟨e, k⟩ | ⟨e, k⟩
  · rw [C59_grid P I o ny nx _ times c e (by rw [n', k]), laid, if_pos e, table_zip]
    simp only [List.map_map, Function.comp_def, answer_expected]
  · rw [C59_drift P I o ny nx _ times c e (by rw [n', k]), laid, if_neg (by rw [e]; decide), if_pos e,
      table_zip, List.zipWith_map_left, List.zipWith_map_left]
    simp only [answer_expected]
  · rw [C59_series P I o ny nx _ times c e k, laid, if_neg (by rw [e]; decide),
      if_neg (by rw [e]; decide), table_zip]
    simp only [List.map_map, Function.comp_def, answer_expected]

/-- The transposition: from constants by file and point to constants by point and file. -/
theorem columns_rel {α β : Type} (R : α → β → Option ℂ → Prop) :
    ∀ (pts : List β) (files : List α) (outs : List (List (Extract.Out ℝ))),
    List.Forall₂ (fun g col => List.Forall₂ (fun p v => R g p (number v)) pts col) files outs →
    List.Forall₂ (fun p zs => List.Forall₂ (fun g z => R g p z) files zs) pts
      ((List.range pts.length).map fun i => (column outs i).map number) := by
  intro pts files outs h
  rw [List.forall₂_iff_get]
  refine ⟨by simp, fun i h1 h2 => ?_⟩
  simp only [List.get_eq_getElem, List.getElem_map, List.getElem_range, column, List.map_map]
  rw [List.forall₂_map_right_iff]
  refine h.imp fun g col hc => ?_
  have l := hc.length_eq
  have := (List.forall₂_iff_get.1 hc).2 i h1 (by omega)
  simp only [List.get_eq_getElem] at this
  simpa [List.getD_eq_getElem?_getD, List.getElem?_eq_getElem (show i < col.length by omega)] using this

/-! ## The formats -/

/-- The interpolation of a chart at a place, by method. -/
def Interpolated (m : Method) (C : Chart ℝ) (p : ℝ × ℝ) (v : Option (ℝ × ℝ)) : Prop :=
  match m with
  | .spline => C.Value p.1 p.2 v
  | .linear => ∃ w, C.Value p.1 p.2 w ∧ v = if w = some (10 ^ 20, 0) then none else w
  | .bilinear => C.Mean p.1 p.2 v ∨ Close C p.1 p.2 v

/-- A constant with a factor of units, as a complex number. -/
noncomputable def complexed (factor : ℝ) (v : Option (ℝ × ℝ)) : Option ℂ := v.map fun z => (factor : ℂ) * ⟨z.1, z.2⟩

/-- **C77**, GOT and FES: elevations for a grid, a track or stations are the tide of the field in the
files, interpolated at the places. -/
theorem C77_files (P : Predict.Env) (I : Infer.Env) (o : Options) (ny nx : ℕ) (f : Fmt) (r : Request ℝ)
    (hr : r.crop = false) (hn : ∀ x y hc q, r.near x y hc q = none) (files : List (Layer ℝ × ℝ))
    (hg : ∀ g ∈ files, Global g.1 g.2) (b : About) (hl : files.length = b.names.length)
    (pts times : List (ℝ × ℝ)) (hne : pts ≠ []) (hp : ∀ g ∈ files, ∀ p ∈ pts, Place r.method g.1 p)
    (hs : Suits P I o b pts.length ny nx times) :
    ∃ zs, fromFiles P I o ny nx f r (files.map Prod.fst) b pts times
        = .ok (laid o.type (expected P I o b) zs times) ∧
      List.Forall₂ (fun p z => List.Forall₂ (fun (g : Layer ℝ × ℝ) z => ∃ v,
        Interpolated r.method (globe g.1 g.2) p v ∧ z = complexed r.scale v) files z) pts zs := by
  obtain ⟨outs, e, m⟩ := C70_got_fes f r hr hn files hg pts hne hp
  refine ⟨_, by rw [fromFiles, e, ok_bind, elevations_laid hs outs (by rw [← m.length_eq, hl])], ?_⟩
  refine columns_rel _ pts files outs (m.imp fun g col h => h.imp fun p v k => ?_)
  unfold Meets at k
  unfold Interpolated
  have key : ∀ w, number (returned r.scale w) = complexed r.scale w := fun w => by cases w <;> rfl
  generalize r.method = mm at k
  cases mm with
  | spline => obtain ⟨w, a, rfl⟩ := k; exact ⟨w, a, key w⟩
  | linear => obtain ⟨w, a, rfl⟩ := k; exact ⟨_, ⟨w, a, rfl⟩, key _⟩
  | bilinear => obtain ⟨w, a, rfl⟩ := k; exact ⟨w, a, key w⟩

/-- The factor of units for elevations and transports, or for velocities in centimetres per second. -/
noncomputable def units (speed : Bool) (scale : ℝ) (depth : ℝ × ℝ) : ℝ :=
  if speed then scale * (100 / depth.1) else scale

/-- A constant of a model with depths. -/
noncomputable def flow (speed : Bool) (scale : ℝ) (v w : Option (ℝ × ℝ)) : Option ℂ :=
  w.bind fun d => complexed (units speed scale d) v

/-- **C77**, ATLAS netCDF: elevations, or currents with their depths. -/
theorem C77_atlas (P : Predict.Env) (I : Infer.Env) (o : Options) (ny nx : ℕ) {s : AtlasNet.Site ℝ} {a : ℝ}
    (h : AtlasNet.Around s a) (r : Request ℝ) (hr : r.crop = false) (hn : ∀ x y hc q, r.near x y hc q = none)
    (speed : Bool) (pos : speed = true → ∀ k j, 0 ≤ s.at k j) (fields : List (List (List (ℝ × ℝ))))
    (sh : ∀ hc ∈ fields, CGrid.Shape hc s.lat.length s.lon.length) (b : About)
    (hl : fields.length = b.names.length) (pts times : List (ℝ × ℝ)) (hne : pts ≠ [])
    (hp : ∀ p ∈ pts, AtlasNet.Spot r.method s p) (hs : Suits P I o b pts.length ny nx times) :
    ∃ zs, fromAtlas P I o ny nx r speed s fields b pts times
        = .ok (laid o.type (expected P I o b) zs times) ∧
      List.Forall₂ (fun p z => List.Forall₂ (fun hc z => ∃ v w,
        (if r.method = .bilinear then Interpolated .bilinear (AtlasNet.tides s a hc) p v ∧
            Interpolated .bilinear (AtlasNet.waters s a) p w
          else Interpolated .spline (AtlasNet.tides s a hc) p v ∧
            Interpolated .spline (AtlasNet.waters s a) p w) ∧
        z = flow speed r.scale v w) fields z) pts zs := by
  obtain ⟨ds, outs, e, -, m⟩ := AtlasNet.C75_global h r hr hn speed pos fields sh pts hne hp
  refine ⟨_, by rw [fromAtlas, e, ok_bind]; exact elevations_laid hs outs (by rw [← m.length_eq, hl]), ?_⟩
  refine columns_rel (fun hc p z => ∃ v w, _ ∧ z = flow speed r.scale v w) pts fields outs
    (m.imp fun g col h => h.imp fun p v k => ?_)
  have key : ∀ v w, number (AtlasNet.current speed r.scale v w) = flow speed r.scale v w := by
    intro v w
    cases v <;> cases w <;> rfl
  unfold AtlasNet.Agrees at k
  generalize r.method = mm at k
  cases mm with
  | spline => obtain ⟨v, w, a, c, rfl⟩ := k; exact ⟨v, w, by rw [if_neg (by decide)]; exact ⟨a, c⟩, key v w⟩
  | linear => obtain ⟨v, w, a, c, rfl⟩ := k; exact ⟨v, w, by rw [if_neg (by decide)]; exact ⟨a, c⟩, key v w⟩
  | bilinear => obtain ⟨v, w, a, c, rfl⟩ := k; exact ⟨v, w, by rw [if_pos rfl]; exact ⟨a, c⟩, key v w⟩

/-- The way from constants of a model on a staggered grid. -/
theorem otis_laid {P : Predict.Env} {I : Infer.Env} {o : Options} {b : About} {ny nx : ℕ}
    {r : Staggered.Ask ℝ} {s : Staggered.Site ℝ} {fields : List (List (List (Fld ℝ)))}
    {pts times : List (ℝ × ℝ)} {T : List (List (Fld ℝ)) → Chart ℝ} {H : Chart ℝ} {ds : List (Option ℝ)}
    {outs : List (List (Extract.Out ℝ))} (hs : Suits P I o b pts.length ny nx times)
    (hl : fields.length = b.names.length) (e : Staggered.extract r s fields pts = .ok (ds, outs))
    (m : List.Forall₂ (fun hc os => List.Forall₂ (Staggered.Agrees r.method r.quantity.speed (T hc) H) pts os)
      fields outs) :
    ∃ zs, fromOtis P I o ny nx r s fields b pts times = .ok (laid o.type (expected P I o b) zs times) ∧
      List.Forall₂ (fun p z => List.Forall₂ (fun hc z => ∃ v w, Interpolated r.method (T hc) p v ∧
        Interpolated (if r.method = .bilinear then .bilinear else .spline) H p w ∧
        z = flow r.quantity.speed 1 v w) fields z) pts zs := by
  refine ⟨_, by rw [fromOtis, e, ok_bind]; exact elevations_laid hs outs (by rw [← m.length_eq, hl]), ?_⟩
  refine columns_rel (fun hc p z => ∃ v w, _ ∧ _ ∧ z = flow r.quantity.speed 1 v w) pts fields outs
    (m.imp fun g col h => h.imp fun p v k => ?_)
  have key : ∀ v w, number (Staggered.current r.quantity.speed v w) = flow r.quantity.speed 1 v w := by
    intro v w
    cases v with
    | none => cases w <;> rfl
    | some z =>
      cases w with
      | none => rfl
      | some d => simp [Staggered.current, number, flow, complexed, units]
  unfold Staggered.Agrees at k
  generalize r.method = mm at k
  cases mm with
  | spline => obtain ⟨v, w, a, c, rfl⟩ := k; exact ⟨v, w, a, c, key v w⟩
  | linear => obtain ⟨v, w, a, c, rfl⟩ := k; exact ⟨_, w, ⟨v, a, rfl⟩, c, key _ w⟩
  | bilinear => obtain ⟨v, w, a, c, rfl⟩ := k; exact ⟨v, w, a, c, key v w⟩

/-- **C77**, OTIS, for a place and a global model: elevations, transports or currents are the tide of the
field in the files, interpolated from the points of the quantity. -/
theorem C77_otis {s : Staggered.Site ℝ} {a : ℝ} (h : Staggered.Around s a) (P : Predict.Env) (I : Infer.Env)
    (o : Options) (ny nx : ℕ) (r : Staggered.Ask ℝ) (hg : r.geographic = true) (hr : r.crop = false)
    (hn : ∀ x y hc q, r.near x y hc q = none) (hq : r.quantity.speed = true → r.quantity.node ≠ .z)
    (start : (0 ≤ a ∧ a ≤ 360 / (s.x.length : ℝ)) ∨
      (-180 + Staggered.half r.quantity.node (360 / (s.x.length : ℝ)) ≤ a ∧
        a ≤ -180 + 360 / (s.x.length : ℝ)))
    (fields : List (List (List (Fld ℝ)))) (hf : ∀ hc ∈ fields, CGrid.Shape hc s.y.length s.x.length ∧
      Staggered.Complete r.method false (Staggered.world s a) r.quantity.node.points (Staggered.worldValue s hc))
    (b : About) (hl : fields.length = b.names.length) (p : ℝ × ℝ) (times : List (ℝ × ℝ))
    (hp : Staggered.Span r.method p) (hb : Staggered.Band r.method r.quantity.node s.y p)
    (hs : Suits P I o b 1 ny nx times) :
    ∃ z, fromOtis P I o ny nx r s fields b [p] times = .ok (laid o.type (expected P I o b) [z] times) ∧
      List.Forall₂ (fun hc z => ∃ v w,
        Interpolated r.method ((Staggered.world s a).chart r.quantity.node.points (Staggered.worldValue s hc)) p v ∧
        Interpolated (if r.method = .bilinear then .bilinear else .spline)
          ((Staggered.world s a).depths r.quantity.node.points) p w ∧
        z = flow r.quantity.speed 1 v w) fields z := by
  obtain ⟨d, outs, e, -, m⟩ := Staggered.C73_place h r hg hr hn hq start fields hf p hp hb
  obtain ⟨zs, e1, m1⟩ := otis_laid (pts := [p]) hs hl e (m.imp fun hc os k => by
    obtain ⟨o, rfl, k⟩ := k
    exact List.forall₂_cons.2 ⟨k, .nil⟩)
  cases m1 with
  | cons k t => cases t; exact ⟨_, e1, k⟩

/-- **C77**, OTIS, for any number of places of a global model; for a model that starts at the Greenwich
meridian only if none of them lies beyond its last column (see `C73_batch_false`). -/
theorem C77_otis_places_partial {s : Staggered.Site ℝ} {a : ℝ} (h : Staggered.Around s a) (P : Predict.Env)
    (I : Infer.Env) (o : Options) (ny nx : ℕ) (r : Staggered.Ask ℝ) (hg : r.geographic = true)
    (hr : r.crop = false) (hn : ∀ x y hc q, r.near x y hc q = none)
    (hq : r.quantity.speed = true → r.quantity.node ≠ .z)
    (fields : List (List (List (Fld ℝ)))) (hf : ∀ hc ∈ fields, CGrid.Shape hc s.y.length s.x.length ∧
      Staggered.Complete r.method false (Staggered.world s a) r.quantity.node.points (Staggered.worldValue s hc))
    (b : About) (hl : fields.length = b.names.length) (pts times : List (ℝ × ℝ)) (hne : pts ≠ [])
    (hp : ∀ p ∈ pts, Staggered.Span r.method p) (hb : ∀ p ∈ pts, Staggered.Band r.method r.quantity.node s.y p)
    (start : (0 ≤ a ∧ a ≤ 360 / (s.x.length : ℝ) ∧
        ∀ p ∈ pts, Grid.toPositive p.1 ≤ a + 360 - 360 / (s.x.length : ℝ)) ∨
      (-180 + Staggered.half r.quantity.node (360 / (s.x.length : ℝ)) ≤ a ∧
        a ≤ -180 + 360 / (s.x.length : ℝ)))
    (hs : Suits P I o b pts.length ny nx times) :
    ∃ zs, fromOtis P I o ny nx r s fields b pts times = .ok (laid o.type (expected P I o b) zs times) ∧
      List.Forall₂ (fun p z => List.Forall₂ (fun hc z => ∃ v w,
        Interpolated r.method ((Staggered.world s a).chart r.quantity.node.points (Staggered.worldValue s hc)) p v ∧
        Interpolated (if r.method = .bilinear then .bilinear else .spline)
          ((Staggered.world s a).depths r.quantity.node.points) p w ∧
        z = flow r.quantity.speed 1 v w) fields z) pts zs := by
  obtain ⟨ds, outs, e, -, m⟩ := Staggered.C73_places_partial h r hg hr hn hq fields hf pts hne hp hb start
  exact otis_laid hs hl e m

/-- **C77**, OTIS, for a regional model, in degrees or on a projection. -/
theorem C77_otis_region_partial {s : Staggered.Site ℝ} (h : Staggered.Rect s) (P : Predict.Env)
    (I : Infer.Env) (o : Options) (ny nx : ℕ) (r : Staggered.Ask ℝ) (hr : r.crop = false)
    (hg : Staggered.Partial s r.geographic false) (hn : ∀ x y hc q, r.near x y hc q = none)
    (hq : r.quantity.speed = true → r.quantity.node ≠ .z)
    (rim : Staggered.Rim s false (Staggered.region s) r.quantity.node)
    (far : r.method = .bilinear → ∀ c : ℕ, c < s.x.length →
      |s.x.getD c 0 - Staggered.half r.quantity.node (s.x.getD 1 0 - s.x.getD 0 0)| ≤ 720)
    (fields : List (List (List (Fld ℝ)))) (hf : ∀ hc ∈ fields, CGrid.Shape hc s.y.length s.x.length ∧
      Staggered.Complete r.method false (Staggered.region s) r.quantity.node.points (Staggered.regionValue hc))
    (b : About) (hl : fields.length = b.names.length) (pts times : List (ℝ × ℝ)) (hne : pts ≠ [])
    (hx : ∀ p ∈ pts, Staggered.Within r.method r.quantity.node s.x p)
    (hb : ∀ p ∈ pts, Staggered.Band r.method r.quantity.node s.y p)
    (hs : Suits P I o b pts.length ny nx times) :
    ∃ zs, fromOtis P I o ny nx r s fields b pts times = .ok (laid o.type (expected P I o b) zs times) ∧
      List.Forall₂ (fun p z => List.Forall₂ (fun hc z => ∃ v w,
        Interpolated r.method ((Staggered.region s).chart r.quantity.node.points (Staggered.regionValue hc)) p v ∧
        Interpolated (if r.method = .bilinear then .bilinear else .spline)
          ((Staggered.region s).depths r.quantity.node.points) p w ∧
        z = flow r.quantity.speed 1 v w) fields z) pts zs := by
  obtain ⟨ds, outs, e, -, m⟩ := Staggered.C73_region_partial h r hr hg hn hq rim far fields hf pts hne hx hb
  exact otis_laid hs hl e m

/-! ## Examples -/

/-- A global file of 4 columns. -/
noncomputable def ocean : Layer ℝ where
  lon := [0, 90, 180, 270]
  lat := [-60, 0, 60]
  hc := [[⟨1, 2, false⟩, ⟨3, 4, false⟩, ⟨5, 6, false⟩, ⟨7, 8, true⟩],
    [⟨9, 10, false⟩, ⟨11, 12, false⟩, ⟨13, 14, false⟩, ⟨15, 16, false⟩],
    [⟨17, 18, false⟩, ⟨19, 20, false⟩, ⟨21, 22, false⟩, ⟨23, 24, false⟩]]

/-- The hypotheses of `C77_files` on files and places hold for it, on both sides of Greenwich. -/
example : Global ocean 0 ∧ ∀ p ∈ [((-30 : ℝ), (10 : ℝ)), (350, -20)], Place .spline ocean p := by
  have e : (360 : ℝ) / (ocean.lon.length : ℝ) = 90 := by
    show (360 : ℝ) / ((4 : ℕ) : ℝ) = 90
    norm_num
  refine ⟨⟨⟨by show 3 ≤ 4; omega, ?_, ?_, by show 2 ≤ 3; omega, rfl, ?_⟩, Or.inl ⟨le_rfl, ?_⟩⟩, ?_⟩
  · rw [e]
    show [(0 : ℝ), 90, 180, 270] = (List.range 4).map _
    simp only [List.range, List.range.loop, List.map_cons, List.map_nil]
    norm_num
  · show [(-60 : ℝ), 0, 60].Pairwise (· < ·)
    simp only [List.pairwise_cons, List.mem_cons, List.not_mem_nil, or_false]
    norm_num
  · intro r hr
    simp only [ocean, List.mem_cons, List.not_mem_nil, or_false] at hr
    rcases hr with rfl | rfl | rfl <;> rfl
  · rw [e]; norm_num
  · intro p hp
    simp only [List.mem_cons, List.not_mem_nil, or_false] at hp
    rcases hp with rfl | rfl <;>
      exact ⟨by norm_num, by norm_num, by simp [ocean]; norm_num, by simp [ocean]; norm_num,
        fun h => by cases h⟩

/-- A model with one constituent. -/
def lunar : About := ⟨["m2"], "GOT", none⟩

/-- Requests that fit: a track of two points, without minor constituents. -/
example (I : Infer.Env) : ∃ P : Predict.Env, P.known "m2" = true ∧
    Suits P I ⟨"drift", none, false, none⟩ lunar 2 1 1 [(0, 0), (1, 0)] := by
  refine ⟨⟨fun _ => true, fun _ _ _ => ⟨0, 1, 0⟩, fun _ => 0, fun _ => 0⟩, rfl,
    ⟨Or.inr (Or.inl ⟨by decide +kernel, rfl⟩), fun _ _ => rfl, by simp [lunar], fun h => by cases h⟩⟩

/-- The expected elevation of a place with the constant `3 + 4 i` at a time when the phase is zero is
3, and there is none where the constant is missing. -/
example (I : Infer.Env) : ∃ P : Predict.Env, P.known "m2" = true ∧
    expected P I ⟨"drift", none, false, none⟩ lunar [some ⟨3, 4⟩] (0, 0) = some 3 ∧
    expected P I ⟨"drift", none, false, none⟩ lunar [none] (0, 0) = none := by
  refine ⟨⟨fun _ => true, fun _ _ _ => ⟨0, 1, 0⟩, fun _ => 0, fun _ => 0⟩, rfl, ?_, ?_⟩
  · simp [expected, forecast, clock, lunar, tide, Spec.Wave.height, phase, orString]
  · simp [expected, forecast]

end Verif.Pipeline
