import Verif.Model.Database
import Verif.Model.Crs
/-!
Model of `main` and `get_projection` of the six programs that compute tides at the points of a file,
`/repo/scripts/compute_LPET_elevations.py` 127-143 and 375-410, `compute_LPT_displacements.py` 149-165 and
493-530, `compute_OPT_displacements.py` 168-184 and 524-562, `compute_SET_displacements.py` 146-162 and
470-508, `compute_tidal_currents.py` 201-217 and 585-636, `compute_tidal_elevations.py` 208-224 and 588-642.

The command line has been parsed by `argparse`, which is not modelled.  The calculation itself is a
parameter: it gets the input and the output file and ends with or without an exception (the other
arguments are those of the programs of `Verif.Program`).  What is logged is left out, except that an
exception was.
-/
namespace Verif.Outputs
open Verif

/-- A path with a last part: its parent and the last part, `Path.parent` and `Path.name`. -/
structure Path where
  parent : List (List Char)
  name : List Char
deriving DecidableEq

/-- `Path.stem` and `Path.suffix` of the Python versions before 3.14: the last dot is at `i` and the
name is cut there if `0 < i < len(name) - 1`. -/
def split (name : List Char) : List Char × List Char :=
  let after := name.reverse.takeWhile (· ≠ '.')
  match name.reverse.dropWhile (· ≠ '.') with
  | [] => (name, [])
  | _ :: before =>
    if before = [] ∨ after = [] then (name, []) else (before.reverse, '.' :: after.reverse)

/-- The six programs. -/
inductive Program where
  | lpet | lpt | opt | set | currents | elevations
deriving DecidableEq

/-- What `argparse` gives, as far as it is used before the calculation.  `definition` is what reading the
definition file ends with: the name of the model or an exception. -/
structure Args where
  infile : Option Path
  outfile : Option Path
  tide : String
  definition : Option (Except PyErr String)
  flexure : Bool
  verbose : Nat

/-- `pyTMD.io.model(verify=False).elevation(tide).name` or `.current(tide).name`: the name in the
database. -/
def nameOf (l : List Database.Entry) (tide : String) : Except PyErr String :=
  match l.find? (fun e => e.key = tide) with
  | some e => .ok e.name
  | none => .error .keyError

/-- compute_tidal_currents.py 594-598, compute_tidal_elevations.py 597-601; the other programs have no
model. -/
def modelName (p : Program) (a : Args) : Except PyErr String :=
  match p with
  | .currents =>
    match a.definition with
    | some d => d
    | none => nameOf Database.current a.tide
  | .elevations =>
    match a.definition with
    | some d => d
    | none => nameOf Database.elevation a.tide
  | _ => .ok ""

/-- What is put between the stem and the suffix of the input file: the tuples `vars` and their formats,
e.g. compute_tidal_elevations.py 605-607. -/
def tag (p : Program) (model : String) (flexure : Bool) : List Char :=
  match p with
  | .lpet => '_' :: "lpe_tide".toList
  | .lpt => '_' :: "pole_tide".toList
  | .opt => '_' :: "ocean_pole_tide".toList
  | .set => '_' :: "solid_earth_tide".toList
  | .currents => '_' :: (model.toList ++ "_currents".toList)
  | .elevations => '_' :: (model.toList ++ if flexure then "_flexure".toList else [])

/-- `infile.with_name(...)`. -/
def beside (infile : Path) (t : List Char) : Path :=
  ⟨infile.parent, (split infile.name).1 ++ t ++ (split infile.name).2⟩

/-- The output file, e.g. compute_tidal_elevations.py 603-607. -/
def outfile (p : Program) (a : Args) (model : String) : Except PyErr Path :=
  match a.outfile with
  | some f => .ok f
  | none =>
    match a.infile with
    | some f => .ok (beside f (tag p model a.flexure))
    | none => .error .attributeError

/-- How a program that does not stop with a traceback ends: the files given to the calculation and the
exception that was logged, if any. -/
structure Ended where
  infile : Option Path
  outfile : Path
  logged : Option PyErr

/-- `main`, e.g. compute_tidal_elevations.py 588-642: `loglevels[args.verbose]` of a list of three, the
model, the output file and the calculation within `try`. -/
def main (p : Program) (a : Args) (compute : Option Path → Path → Except PyErr Unit) : Except PyErr Ended := do
  if 3 ≤ a.verbose then .error .indexError
  else
    let model ← modelName p a
    let f ← outfile p a model
    match compute a.infile f with
    | .ok _ => .ok ⟨a.infile, f, none⟩
    | .error e => .ok ⟨a.infile, f, some e⟩

/-- `get_projection`, the same in the six programs: the attribute of the file (`none`: no attribute,
`KeyError`), then the argument.  `TypeError` is not caught; `CRSError` is `exception`. -/
def getProjection {C D P : Type} (j : Crs.Pyproj C D P) (int : String → Option Int)
    (given : Option (Crs.Input D)) (argument : Crs.Input D) : Except PyErr C :=
  match given.map (Crs.fromInput j int) with
  | some (.ok c) => .ok c
  | some (.error .typeError) => .error .typeError
  | _ =>
    match Crs.fromInput j int argument with
    | .ok c => .ok c
    | .error .typeError => .error .typeError
    | .error _ => .error .exception

end Verif.Outputs
