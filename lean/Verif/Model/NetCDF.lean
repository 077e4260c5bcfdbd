import Verif.Model.Py
import Verif.Model.Parse
import Mathlib.Analysis.SpecialFunctions.Complex.Arg
/-!
Model of constituent files in netCDF format: `GOT.output_netcdf_file` and `GOT.read_netcdf_file`
(`/repo/pyTMD/io/GOT.py` 623-760), `FES.output_netcdf_file` and `FES.read_netcdf_file`
(`/repo/pyTMD/io/FES.py` 678-875).

A cell is `none` when it is masked.  A file is its coordinates, its variables by name, the value
that marks cells without data, and its constituent.  The netCDF library is taken to return what was
written; attributes other than these, compression and NaN are left out.
-/
namespace Verif.NetCDF
open Verif

abbrev Cells := List (List (Option ℂ))

structure File where
  lonName : String
  lon : List ℝ
  latName : String
  lat : List ℝ
  fill : ℝ
  vars : List (String × List (List ℝ))
  constituent : String

/-- `np.abs(hc)` with the fill value where masked; GOT.py 704 and 708-709, FES.py 802 and 805-806. -/
noncomputable def amplitude (fill : ℝ) : Option ℂ → ℝ
  | none => fill
  | some z => ‖z‖

/-- `180.0*np.arctan2(-np.imag(hc), np.real(hc))/np.pi` with the fill value where masked; FES.py
803 and 807-808.  Signed zeros are left out: a negative real value has phase 180. -/
noncomputable def phase (fill : ℝ) : Option ℂ → ℝ
  | none => fill
  | some z => 180 * Complex.arg ⟨z.re, -z.im⟩ / Real.pi

/-- The same with 360 added to negative phases; GOT.py 705-706 and 710-711. -/
noncomputable def phasePositive (fill : ℝ) : Option ℂ → ℝ
  | none => fill
  | some z =>
    open Classical in
    if 180 * Complex.arg ⟨z.re, -z.im⟩ / Real.pi < 0 then
      180 * Complex.arg ⟨z.re, -z.im⟩ / Real.pi + 360
    else 180 * Complex.arg ⟨z.re, -z.im⟩ / Real.pi

/-- `GOT.output_netcdf_file`, GOT.py 698-760. -/
noncomputable def writeGOT (fill : ℝ) (hc : Cells) (lon lat : List ℝ) (constituent : String) : File where
  lonName := "longitude"
  lon := lon
  latName := "latitude"
  lat := lat
  fill := fill
  vars := [("amplitude", hc.map (List.map (amplitude fill))),
    ("phase", hc.map (List.map (phasePositive fill)))]
  constituent := constituent.toUpper

/-- FES.py 810-822: the names of the variables for a type; another type leaves them unbound. -/
def fesKeys (type : String) : Except PyErr (String × String) :=
  if type = "z" then .ok ("amplitude", "phase")
  else if type = "u" then .ok ("Ua", "Ug")
  else if type = "v" then .ok ("Va", "Vg")
  else .error .unbound

/-- `FES.output_netcdf_file`, FES.py 795-875.  The amplitudes go to `nc['amplitude']`, which was
defined only if that is the name of the variable (837).  The name of the constituent, with blanks
up to four letters, is written to a variable of four letters (861-863). -/
noncomputable def writeFES (type : String) (fill : ℝ) (hc : Cells) (lon lat : List ℝ)
    (constituent : String) : Except PyErr File := do
  let (ampKey, phaseKey) ← fesKeys type
  if ampKey ≠ "amplitude" then .error .keyError
  else if max 4 constituent.length ≠ 4 then .error .valueError
  else .ok ⟨"lon", lon, "lat", lat, fill, [(ampKey, hc.map (List.map (amplitude fill))),
    (phaseKey, hc.map (List.map (phase fill)))], constituent⟩

/-- `fileID.variables[key]` -/
def getVar (file : File) (key : String) : Except PyErr (List (List ℝ)) :=
  match file.vars.lookup key with
  | some v => .ok v
  | none => .error .keyError

def coordinate (name : String) (values : List ℝ) (key : String) : Except PyErr (List ℝ) :=
  if name = key then .ok values else .error .keyError

/-- `amp*np.exp(-1j*ph*np.pi/180.0)` -/
noncomputable def complexForm (a p : ℝ) : ℂ := a * Complex.exp (-Complex.I * p * Real.pi / 180)

/-- GOT.py 671-675. -/
noncomputable def cellGOT (fill a p : ℝ) : Option ℂ :=
  open Classical in
  if a = fill ∨ p = fill then none else some (complexForm a p)

/-- FES.py 750-755. -/
noncomputable def cellFES (fill a p : ℝ) : Option ℂ :=
  open Classical in
  if a = fill ∨ p = fill ∨ (a = 0 ∧ p = 0) then none else some (complexForm a p)

/-- `GOT.read_netcdf_file`, GOT.py 659-677. -/
noncomputable def readGOT (file : File) : Except PyErr (Cells × List ℝ × List ℝ × String) := do
  let lon ← coordinate file.lonName file.lon "longitude"
  let lat ← coordinate file.latName file.lat "latitude"
  let amp ← getVar file "amplitude"
  let ph ← getVar file "phase"
  let cons ← Parse.parse file.constituent
  .ok (List.zipWith (List.zipWith (cellGOT file.fill)) amp ph, lon, lat, cons)

/-- FES.py 726-741: the names of coordinates and variables for a version. -/
def versionKeys (version : String) : Except PyErr (String × String × List (String × String × String)) :=
  if version = "FES2012" then
    .ok ("lon", "lat", [("z", "Ha", "Hg"), ("u", "Ua", "Ug"), ("v", "Va", "Vg")])
  else if version = "FES2014" ∨ version = "FES2022" ∨ version = "EOT20" then
    .ok ("lon", "lat", [("z", "amplitude", "phase"), ("u", "Ua", "Ug"), ("v", "Va", "Vg")])
  else if version = "HAMTIDE11" then
    .ok ("LON", "LAT", [("z", "AMPL", "PHAS"), ("u", "UAMP", "UPHA"), ("v", "VAMP", "VPHA")])
  else .error .unbound

/-- `dict(z=..., u=..., v=...)[kwargs['type']]` -/
def typeKeys (keys : List (String × String × String)) (type : String) : Except PyErr (String × String) :=
  match keys.lookup type with
  | some k => .ok k
  | none => .error .keyError

/-- `FES.read_netcdf_file`, FES.py 718-757. -/
noncomputable def readFES (version type : String) (file : File) :
    Except PyErr (Cells × List ℝ × List ℝ) := do
  let (lonKey, latKey, keys) ← versionKeys version
  let lon ← coordinate file.lonName file.lon lonKey
  let lat ← coordinate file.latName file.lat latKey
  let (ampKey, phaseKey) ← typeKeys keys type
  let amp ← getVar file ampKey
  let ph ← getVar file phaseKey
  .ok (List.zipWith (List.zipWith (cellFES file.fill)) amp ph, lon, lat)

end Verif.NetCDF
