import Verif.Model.NetCDF
import Verif.Props.Parse
import Verif.Lemmas.Case
import Verif.Lemmas.Py
import Mathlib.Tactic.Linarith
import Mathlib.Tactic.Ring
import Mathlib.Tactic.FieldSimp
/-!
C47: fields written in netCDF format read back.
-/
namespace Verif.NetCDF
open Verif Complex

theorem conj_mk (z : ℂ) : (⟨z.re, -z.im⟩ : ℂ) = (starRingEnd ℂ) z := rfl

/-- Amplitude and phase of a value give the value. -/
theorem complexForm_phase (z : ℂ) (k : ℤ) :
    complexForm ‖z‖ (180 * arg ⟨z.re, -z.im⟩ / Real.pi + k * 360) = z := by
  have hpi : (Real.pi : ℂ) ≠ 0 := by exact_mod_cast Real.pi_ne_zero
  have h := congrArg (starRingEnd ℂ) (norm_mul_exp_arg_mul_I ((starRingEnd ℂ) z))
  rw [norm_conj, map_mul, conj_ofReal, ← exp_conj, map_mul, conj_I, conj_ofReal, conj_conj] at h
  have e : -I * ((180 * arg ((starRingEnd ℂ) z) / Real.pi + k * 360 : ℝ) : ℂ) * Real.pi / 180 =
      (arg ((starRingEnd ℂ) z) : ℂ) * -I + ((-k : ℤ) : ℂ) * (2 * Real.pi * I) := by
    push_cast
    field_simp
    ring
  rw [complexForm, conj_mk, e, exp_add, exp_int_mul_two_pi_mul_I, mul_one]
  exact h

theorem phase_range (z : ℂ) :
    -180 < 180 * arg ⟨z.re, -z.im⟩ / Real.pi ∧ 180 * arg ⟨z.re, -z.im⟩ / Real.pi ≤ 180 := by
  have h1 := neg_pi_lt_arg (⟨z.re, -z.im⟩ : ℂ)
  have h2 := arg_le_pi (⟨z.re, -z.im⟩ : ℂ)
  have hp := Real.pi_pos
  rw [lt_div_iff₀ hp, div_le_iff₀ hp]
  constructor <;> nlinarith

/-- A value that the mark of missing cells can be told from. -/
def Marked (fill : ℝ) (hc : Cells) : Prop :=
  360 < fill ∧ ∀ row ∈ hc, ∀ z, some z ∈ row → ‖z‖ ≠ fill

theorem cellGOT_write (fill : ℝ) (hf : 360 < fill) (c : Option ℂ) (hc : ∀ z, c = some z → ‖z‖ ≠ fill) :
    cellGOT fill (amplitude fill c) (phasePositive fill c) = c := by
  cases c with
  | none => simp [cellGOT, amplitude]
  | some z =>
    obtain ⟨h1, h2⟩ := phase_range z
    have e0 := complexForm_phase z 0
    have e1 := complexForm_phase z 1
    simp only [Int.cast_zero, zero_mul, add_zero, Int.cast_one, one_mul] at e0 e1
    simp only [amplitude, phasePositive, cellGOT]
    split
    · rw [if_neg (not_or.2 ⟨hc z rfl, by intro h; linarith⟩), e1]
    · rw [if_neg (not_or.2 ⟨hc z rfl, by intro h; linarith⟩), e0]

theorem names_lower : ∀ c ∈ Parse.names, c.toLower = c := by decide +kernel

theorem zipWith_maps {α β γ : Type} (f : β → γ → α) (g : α → β) (h : α → γ) (rows : List (List α))
    (e : ∀ r ∈ rows, ∀ c ∈ r, f (g c) (h c) = c) :
    List.zipWith (List.zipWith f) (rows.map (List.map g)) (rows.map (List.map h)) = rows := by
  rw [List.zipWith_map, List.zipWith_self]
  conv_rhs => rw [← List.map_id rows]
  refine List.map_congr_left (fun r hr => ?_)
  rw [List.zipWith_map, List.zipWith_self, id_eq]
  conv_rhs => rw [← List.map_id r]
  exact List.map_congr_left (fun c hc => e r hr c hc)

/-- GOT: every field reads back as the same values, missing cells and coordinates, with the name of
the constituent. -/
theorem C47_got (fill : ℝ) (hc : Cells) (lon lat : List ℝ) (c : String) (hm : Marked fill hc)
    (hn : c ∈ Parse.names) :
    readGOT (writeGOT fill hc lon lat c) = .ok (hc, lon, lat, c) := by
  have hp : Parse.parse c.toUpper = .ok c := by
    rw [Parse.C60_case _ c (lower_upper c)]
    have hl : c.toLower = c := names_lower c hn
    have := Parse.C60_word c (by rw [hl]; exact hn) "" "" (Or.inl rfl) (Or.inl rfl)
    rw [String.empty_append, String.append_empty, hl] at this
    exact this
  have hz := zipWith_maps (cellGOT fill) (amplitude fill) (phasePositive fill) hc
    (fun r hr x hx => cellGOT_write fill hm.1 x (fun z hz => hm.2 r hr z (hz ▸ hx)))
  have e1 : getVar (writeGOT fill hc lon lat c) "amplitude" =
    .ok (hc.map (List.map (amplitude fill))) := rfl
  have e2 : getVar (writeGOT fill hc lon lat c) "phase" =
    .ok (hc.map (List.map (phasePositive fill))) := rfl
  have e3 : coordinate (writeGOT fill hc lon lat c).lonName (writeGOT fill hc lon lat c).lon
    "longitude" = .ok lon := rfl
  have e4 : coordinate (writeGOT fill hc lon lat c).latName (writeGOT fill hc lon lat c).lat
    "latitude" = .ok lat := rfl
  have e5 : Parse.parse (writeGOT fill hc lon lat c).constituent = .ok c := hp
  rw [readGOT, e3, ok_bind, e4, ok_bind, e1, ok_bind, e2, ok_bind, e5, ok_bind]
  exact congrArg (fun x => Except.ok (x, lon, lat, c)) hz

/-- GOT files: phases are written between 0 and 360 degrees. -/
theorem C47_phase (fill : ℝ) (z : ℂ) :
    0 ≤ phasePositive fill (some z) ∧ phasePositive fill (some z) < 360 := by
  obtain ⟨h1, h2⟩ := phase_range z
  simp only [phasePositive]
  split
  · constructor <;> linarith
  · constructor <;> linarith

/-- A field with its zeros taken for missing. -/
noncomputable def zerosMissing (hc : Cells) : Cells :=
  open Classical in hc.map (List.map (fun c => if c = some 0 then none else c))

theorem cellFES_write (fill : ℝ) (hf : 360 < fill) (c : Option ℂ) (hc : ∀ z, c = some z → ‖z‖ ≠ fill) :
    cellFES fill (amplitude fill c) (phase fill c) =
      open Classical in if c = some 0 then none else c := by
  cases c with
  | none => simp [cellFES, amplitude]
  | some z =>
    obtain ⟨h1, h2⟩ := phase_range z
    have e0 := complexForm_phase z 0
    simp only [Int.cast_zero, zero_mul, add_zero] at e0
    have a1 : amplitude fill (some z) = ‖z‖ := rfl
    have p1 : phase fill (some z) = 180 * arg ⟨z.re, -z.im⟩ / Real.pi := rfl
    rw [a1, p1, cellFES]
    by_cases hz : z = 0
    · have ha : arg (⟨z.re, -z.im⟩ : ℂ) = 0 := by
        rw [conj_mk, hz, map_zero, arg_zero]
      rw [if_pos (Or.inr (Or.inr ⟨by rw [hz, norm_zero], by rw [ha]; simp⟩)), hz, if_pos rfl]
    · rw [if_neg, if_neg (by simpa using hz), e0]
      rintro (h | h | h)
      · exact hc z rfl h
      · linarith
      · exact hz (norm_eq_zero.1 h.1)

theorem written (fill : ℝ) (hc : Cells) (lon lat : List ℝ) (c : String) (hl : c.length ≤ 4) :
    writeFES "z" fill hc lon lat c = .ok ⟨"lon", lon, "lat", lat, fill,
      [("amplitude", hc.map (List.map (amplitude fill))),
        ("phase", hc.map (List.map (phase fill)))], c⟩ := by
  have k : fesKeys "z" = .ok ("amplitude", "phase") := rfl
  rw [writeFES, k, ok_bind]
  dsimp only
  rw [if_neg (by simp), if_neg (by simp only [ne_eq, not_not]; omega)]

/-- FES: what a field of elevations reads back as, for every field: the same, but for cells that
are zero, which become missing. -/
theorem C47_fes (fill : ℝ) (hc : Cells) (lon lat : List ℝ) (c version : String) (hm : Marked fill hc)
    (hl : c.length ≤ 4) (hv : version ∈ ["FES2014", "FES2022", "EOT20"]) :
    (writeFES "z" fill hc lon lat c >>= readFES version "z") = .ok (zerosMissing hc, lon, lat) := by
  rw [written fill hc lon lat c hl, ok_bind]
  have k : versionKeys version = .ok ("lon", "lat",
      [("z", "amplitude", "phase"), ("u", "Ua", "Ug"), ("v", "Va", "Vg")]) := by
    simp only [List.mem_cons, List.not_mem_nil, or_false] at hv
    rcases hv with rfl | rfl | rfl <;> rfl
  have t : typeKeys [("z", "amplitude", "phase"), ("u", "Ua", "Ug"), ("v", "Va", "Vg")] "z" =
    .ok ("amplitude", "phase") := rfl
  have hz : List.zipWith (List.zipWith (cellFES fill)) (hc.map (List.map (amplitude fill)))
      (hc.map (List.map (phase fill))) = zerosMissing hc := by
    rw [List.zipWith_map, List.zipWith_self, zerosMissing]
    refine List.map_congr_left (fun r hr => ?_)
    rw [List.zipWith_map, List.zipWith_self]
    exact List.map_congr_left
      (fun x hx => cellFES_write fill hm.1 x (fun z hz => hm.2 r hr z (hz ▸ hx)))
  rw [readFES, k, ok_bind]
  dsimp only
  rw [coordinate, if_pos rfl, ok_bind, coordinate, if_pos rfl, ok_bind, t, ok_bind]
  exact congrArg (fun x => Except.ok (x, lon, lat)) hz

/-- FES: elevations without cells that are zero read back as they were. -/
theorem C47_fes_partial (fill : ℝ) (hc : Cells) (lon lat : List ℝ) (c version : String)
    (hm : Marked fill hc) (hl : c.length ≤ 4) (hv : version ∈ ["FES2014", "FES2022", "EOT20"])
    (hz : ∀ row ∈ hc, some 0 ∉ row) :
    (writeFES "z" fill hc lon lat c >>= readFES version "z") = .ok (hc, lon, lat) := by
  rw [C47_fes fill hc lon lat c version hm hl hv]
  refine congrArg (fun x => Except.ok (x, lon, lat)) ?_
  rw [zerosMissing]
  conv_rhs => rw [← List.map_id hc]
  refine List.map_congr_left (fun r hr => ?_)
  conv_rhs => rw [id_eq, ← List.map_id r]
  refine List.map_congr_left (fun x hx => ?_)
  have hx0 : x ≠ some 0 := by
    rintro rfl
    exact hz r hr hx
  rw [if_neg hx0]
  rfl

/-- Refuted for FES: a cell that is zero does not read back. -/
theorem C47_zero_false (fill : ℝ) (hf : 360 < fill) (lon lat : List ℝ) :
    (writeFES "z" fill [[some 0]] lon lat "m2" >>= readFES "FES2014" "z") =
      .ok ([[none]], lon, lat) := by
  rw [C47_fes fill _ lon lat "m2" "FES2014" ⟨hf, ?_⟩ (by decide) (by simp)]
  · simp [zerosMissing]
  · intro row hr z hz
    simp only [List.mem_cons, List.not_mem_nil, or_false] at hr
    subst hr
    simp only [List.mem_cons, Option.some.injEq, List.not_mem_nil, or_false] at hz
    rw [hz, norm_zero]
    linarith

/-- Refuted for FES: currents are never written, whatever the field. -/
theorem C47_currents_false (fill : ℝ) (hc : Cells) (lon lat : List ℝ) (c type : String)
    (h : type = "u" ∨ type = "v") : writeFES type fill hc lon lat c = .error .keyError := by
  rcases h with rfl | rfl <;> rfl

/-- A type that is not given, or is none of these, is an error as well. -/
theorem C47_type (fill : ℝ) (hc : Cells) (lon lat : List ℝ) (c type : String)
    (h : type ≠ "z" ∧ type ≠ "u" ∧ type ≠ "v") :
    writeFES type fill hc lon lat c = .error .unbound := by
  have k : fesKeys type = .error .unbound := by
    rw [fesKeys, if_neg h.1, if_neg h.2.1, if_neg h.2.2]
  rw [writeFES, k]
  rfl

/-- Refuted for FES: elevations of a constituent whose name has more than four letters are not
written. -/
theorem C47_name_false (fill : ℝ) (hc : Cells) (lon lat : List ℝ) (c : String) (h : 4 < c.length) :
    writeFES "z" fill hc lon lat c = .error .valueError := by
  have k : fesKeys "z" = .ok ("amplitude", "phase") := rfl
  rw [writeFES, k, ok_bind]
  dsimp only
  rw [if_neg (by simp), if_pos (by omega)]

/-- There are constituents with such names. -/
example : ∀ c ∈ ["lambda2", "alpha1", "sigma1", "theta1"], c ∈ Parse.names ∧ 4 < c.length := by
  decide +kernel

/-- Files read as the other versions are not found to hold the elevations. -/
theorem C47_version (fill : ℝ) (hc : Cells) (lon lat : List ℝ) (c version : String)
    (hl : c.length ≤ 4) (hv : version ∉ ["FES2014", "FES2022", "EOT20"]) :
    (writeFES "z" fill hc lon lat c >>= readFES version "z") =
      .error (if version = "FES2012" ∨ version = "HAMTIDE11" then .keyError else .unbound) := by
  rw [written fill hc lon lat c hl, ok_bind]
  simp only [List.mem_cons, List.not_mem_nil, or_false] at hv
  by_cases h1 : version = "FES2012"
  · subst h1
    rfl
  · by_cases h2 : version = "HAMTIDE11"
    · subst h2
      rfl
    · have k : versionKeys version = .error .unbound := by
        rw [versionKeys, if_neg h1, if_neg hv, if_neg h2]
      rw [readFES, k, if_neg (not_or.2 ⟨h1, h2⟩)]
      rfl

/-- A field with values, a missing cell and a zero meets the hypotheses. -/
example : Marked 1e20 [[some ⟨3, 4⟩, none], [some 0, some ⟨-1, 0⟩]] := by
  refine ⟨by norm_num, ?_⟩
  intro row hr z hz hn
  have hb : ‖z‖ ≤ 7 := by
    refine le_trans (norm_le_abs_re_add_abs_im z) ?_
    simp only [List.mem_cons, List.not_mem_nil, or_false] at hr
    rcases hr with rfl | rfl <;>
      simp only [List.mem_cons, Option.some.injEq, List.not_mem_nil, or_false, reduceCtorEq] at hz
    · subst hz
      norm_num
    · rcases hz with rfl | rfl <;> norm_num
  rw [hn] at hb
  norm_num at hb

/-- The names that the producers of the models use in their files: for a version and a type those of longitude,
latitude, amplitude and phase. -/
def layouts : List ((String × String) × String × String × String × String) := [
  (("FES2012", "z"), "lon", "lat", "Ha", "Hg"), (("FES2012", "u"), "lon", "lat", "Ua", "Ug"), (("FES2012", "v"), "lon", "lat", "Va", "Vg"),
  (("FES2014", "z"), "lon", "lat", "amplitude", "phase"), (("FES2014", "u"), "lon", "lat", "Ua", "Ug"), (("FES2014", "v"), "lon", "lat", "Va", "Vg"),
  (("FES2022", "z"), "lon", "lat", "amplitude", "phase"), (("FES2022", "u"), "lon", "lat", "Ua", "Ug"), (("FES2022", "v"), "lon", "lat", "Va", "Vg"),
  (("EOT20", "z"), "lon", "lat", "amplitude", "phase"), (("EOT20", "u"), "lon", "lat", "Ua", "Ug"), (("EOT20", "v"), "lon", "lat", "Va", "Vg"),
  (("HAMTIDE11", "z"), "LON", "LAT", "AMPL", "PHAS"), (("HAMTIDE11", "u"), "LON", "LAT", "UAMP", "UPHA"), (("HAMTIDE11", "v"), "LON", "LAT", "VAMP", "VPHA")]

/-- C47: files of every version give the wave with the amplitude and the phase lag of the type that is asked for:
elevations, zonal or meridional currents, each from its own variables; cells with a fill value are masked. -/
theorem C47_layout (version type lonN latN aN pN : String) (h : ((version, type), lonN, latN, aN, pN) ∈ layouts)
    (file : File) (hlon : file.lonName = lonN) (hlat : file.latName = latN) (amp ph : List (List ℝ))
    (ha : file.vars.lookup aN = some amp) (hp : file.vars.lookup pN = some ph) :
    readFES version type file = .ok (List.zipWith (List.zipWith fun a p => open Classical in
      if a = file.fill ∨ p = file.fill ∨ (a = 0 ∧ p = 0) then none
      else some (a * Complex.exp (-Complex.I * p * Real.pi / 180))) amp ph, file.lon, file.lat) := by
  have key : ∃ keys, versionKeys version = .ok (lonN, latN, keys) ∧ typeKeys keys type = .ok (aN, pN) := by
    simp only [layouts, List.mem_cons, List.not_mem_nil, or_false, Prod.mk.injEq] at h
    rcases h with h | h | h | h | h | h | h | h | h | h | h | h | h | h | h <;>
      obtain ⟨⟨rfl, rfl⟩, rfl, rfl, rfl, rfl⟩ := h <;> exact ⟨_, rfl, rfl⟩
  obtain ⟨keys, k1, k2⟩ := key
  have c1 : coordinate file.lonName file.lon lonN = .ok file.lon := by rw [coordinate, if_pos hlon]
  have c2 : coordinate file.latName file.lat latN = .ok file.lat := by rw [coordinate, if_pos hlat]
  have g1 : getVar file aN = .ok amp := by rw [getVar, ha]
  have g2 : getVar file pN = .ok ph := by rw [getVar, hp]
  rw [readFES, k1, ok_bind]
  dsimp only
  rw [c1, ok_bind, c2, ok_bind, k2, ok_bind]
  dsimp only
  rw [g1, ok_bind, g2, ok_bind]
  rfl

example : (("HAMTIDE11", "v"), "LON", "LAT", "VAMP", "VPHA") ∈ layouts := by decide

/-- C47: another version is refused. -/
theorem C47_unknown (version type : String) (file : File) (h : ∀ r ∈ layouts, r.1.1 ≠ version) :
    readFES version type file = .error .unbound := by
  have h1 : version ≠ "FES2012" := fun e => h (("FES2012", "z"), "lon", "lat", "Ha", "Hg") (by decide) e.symm
  have h2 : version ≠ "FES2014" := fun e => h (("FES2014", "z"), "lon", "lat", "amplitude", "phase") (by decide) e.symm
  have h3 : version ≠ "FES2022" := fun e => h (("FES2022", "z"), "lon", "lat", "amplitude", "phase") (by decide) e.symm
  have h4 : version ≠ "EOT20" := fun e => h (("EOT20", "z"), "lon", "lat", "amplitude", "phase") (by decide) e.symm
  have h5 : version ≠ "HAMTIDE11" := fun e => h (("HAMTIDE11", "z"), "LON", "LAT", "AMPL", "PHAS") (by decide) e.symm
  have : versionKeys version = .error .unbound := by
    rw [versionKeys, if_neg h1, if_neg (by simp [h2, h3, h4]), if_neg h5]
  rw [readFES, this, error_bind]

end Verif.NetCDF
