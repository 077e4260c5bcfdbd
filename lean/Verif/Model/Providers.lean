import Verif.Model.Listing
import Verif.Model.Posix
/-!
Model of the program that writes the database of tide models from the files of the providers,
`/repo/providers/_providers_to_database.py`, and of those files.

Simplifications: the entry of a model is a value that is copied as it is; the directory has no
subdirectory whose name ends with `.json`; names are without `/`.
-/
namespace Verif.Providers
open Verif Verif.Listing

variable {E : Type}

/-- A directory as `Path.iterdir` lists it: names with contents, in any order.  `none` is a file that is
not a JSON object of sections. -/
abbrev Directory (E : Type) := List (Posix.Name × Option (Dict (Dict E)))

/-- _providers_to_database.py 47, `d[key].update(val)`: only the keys `elevation` and `current` are
there. -/
def addSection (d : DataBase E) (key : String) (val : Dict E) : Except PyErr (DataBase E) :=
  if key = "elevation" then .ok { d with elevation := update d.elevation val }
  else if key = "current" then .ok { d with current := update d.current val }
  else .error .keyError

/-- _providers_to_database.py 46-47, the loop over the sections of a file. -/
def addSections (d : DataBase E) : Dict (Dict E) → Except PyErr (DataBase E)
  | [] => .ok d
  | p :: file =>
    match addSection d p.1 p.2 with
    | .ok d => addSections d file
    | .error e => .error e

/-- _providers_to_database.py 43-47, the loop over the files; `json.load` raises a `ValueError` for what
is not JSON. -/
def addFiles (d : DataBase E) : Directory E → Except PyErr (DataBase E)
  | [] => .ok d
  | (_, none) :: _ => .error .valueError
  | (_, some file) :: rest =>
    match addSections d file with
    | .ok d => addFiles d rest
    | .error e => .error e

/-- _providers_to_database.py 41, the files whose suffix is `.json`. -/
def providers (entries : Directory E) : Directory E :=
  entries.filter fun p => Posix.suffix p.1 = ['.', 'j', 's', 'o', 'n']

/-- A key with its value put before the first key that is not smaller. -/
def insertKey (p : String × E) : Dict E → Dict E
  | [] => [p]
  | q :: d => if q.1 < p.1 then q :: insertKey p d else p :: q :: d

/-- The order of keys with `sort_keys=True`. -/
def sortKeys (d : Dict E) : Dict E := d.foldr insertKey []

/-- _providers_to_database.py 49-54: the file that is written. -/
def dump (d : DataBase E) : Dict (Dict E) :=
  sortKeys [("elevation", sortKeys d.elevation), ("current", sortKeys d.current)]

/-- _providers_to_database.py 34-54, `main`. -/
def main (entries : Directory E) : Except PyErr (Dict (Dict E)) :=
  match addFiles ⟨[], []⟩ (providers entries) with
  | .ok d => .ok (dump d)
  | .error e => .error e

/-- `/repo/providers/AVISO.json`, with what the lists of models look at. -/
def aviso : Dict (Dict Info) := [
  ("current", [
    ("FES2014", ⟨"FES-netcdf", false, none⟩)]),
  ("elevation", [
    ("FES2012", ⟨"FES-netcdf", true, some "tide_ocean"⟩),
    ("FES2014", ⟨"FES-netcdf", true, some "tide_ocean"⟩),
    ("FES2014_extrapolated", ⟨"FES-netcdf", true, some "tide_ocean"⟩),
    ("FES2014_load", ⟨"FES-netcdf", true, some "tide_load"⟩),
    ("FES2022", ⟨"FES-netcdf", true, some "tide_ocean"⟩),
    ("FES2022_extrapolated", ⟨"FES-netcdf", true, some "tide_ocean"⟩),
    ("FES2022_load", ⟨"FES-netcdf", true, some "tide_load"⟩)])]

/-- `/repo/providers/ESR.json`, with what the lists of models look at. -/
def esr : Dict (Dict Info) := [
  ("current", [
    ("AODTM-5", ⟨"OTIS", false, none⟩), ("AOTIM-5", ⟨"OTIS", false, none⟩),
    ("AOTIM-5-2018", ⟨"OTIS", false, none⟩), ("Arc2kmTM", ⟨"OTIS", false, none⟩),
    ("CATS0201", ⟨"OTIS", false, none⟩), ("CATS2008", ⟨"OTIS", false, none⟩),
    ("Gr1km-v2", ⟨"OTIS", false, none⟩), ("Gr1kmTM", ⟨"OTIS", false, none⟩)]),
  ("elevation", [
    ("AODTM-5", ⟨"OTIS", true, some "tide_ocean"⟩),
    ("AOTIM-5", ⟨"OTIS", true, some "tide_ocean"⟩),
    ("AOTIM-5-2018", ⟨"OTIS", true, some "tide_ocean"⟩),
    ("Arc2kmTM", ⟨"OTIS", true, some "tide_ocean"⟩),
    ("CATS0201", ⟨"OTIS", true, some "tide_ocean"⟩),
    ("CATS2008", ⟨"OTIS", true, some "tide_ocean"⟩),
    ("CATS2008_load", ⟨"OTIS", true, some "tide_load"⟩),
    ("Gr1km-v2", ⟨"OTIS", true, some "tide_ocean"⟩),
    ("Gr1kmTM", ⟨"OTIS", true, some "tide_ocean"⟩)])]

/-- `/repo/providers/GSFC.json`, with what the lists of models look at. -/
def gsfc : Dict (Dict Info) := [
  ("elevation", [
    ("GOT4.10", ⟨"GOT-ascii", true, some "tide_ocean"⟩),
    ("GOT4.10_load", ⟨"GOT-ascii", true, some "tide_load"⟩),
    ("GOT4.7", ⟨"GOT-ascii", true, some "tide_ocean"⟩),
    ("GOT4.7_load", ⟨"GOT-ascii", true, some "tide_load"⟩),
    ("GOT4.8", ⟨"GOT-ascii", true, some "tide_ocean"⟩),
    ("GOT4.8_load", ⟨"GOT-ascii", true, some "tide_load"⟩),
    ("GOT5.5", ⟨"GOT-netcdf", true, some "tide_ocean"⟩),
    ("GOT5.5_load", ⟨"GOT-netcdf", true, some "tide_load"⟩),
    ("GOT5.5_extrapolated", ⟨"GOT-netcdf", true, some "tide_ocean"⟩),
    ("GOT5.5D", ⟨"GOT-netcdf", true, some "tide_ocean"⟩),
    ("GOT5.5D_extrapolated", ⟨"GOT-netcdf", true, some "tide_ocean"⟩),
    ("GOT5.6", ⟨"GOT-netcdf", true, some "tide_ocean"⟩),
    ("GOT5.6_extrapolated", ⟨"GOT-netcdf", true, some "tide_ocean"⟩),
    ("RE14", ⟨"GOT-netcdf", true, some "tide_lpe"⟩)])]

/-- `/repo/providers/TPXO.json`, with what the lists of models look at. -/
def tpxo : Dict (Dict Info) := [
  ("current", [
    ("TPXO10-atlas-v2", ⟨"OTIS", false, none⟩),
    ("TPXO10-atlas-v2-nc", ⟨"ATLAS-netcdf", false, none⟩), ("TPXO7.2", ⟨"OTIS", false, none⟩),
    ("TPXO8-atlas", ⟨"ATLAS-compact", false, none⟩), ("TPXO9-atlas", ⟨"OTIS", false, none⟩),
    ("TPXO9-atlas-nc", ⟨"ATLAS-netcdf", false, none⟩), ("TPXO9-atlas-v2", ⟨"OTIS", false, none⟩),
    ("TPXO9-atlas-v2-nc", ⟨"ATLAS-netcdf", false, none⟩),
    ("TPXO9-atlas-v3", ⟨"OTIS", false, none⟩),
    ("TPXO9-atlas-v3-nc", ⟨"ATLAS-netcdf", false, none⟩),
    ("TPXO9-atlas-v4", ⟨"OTIS", false, none⟩),
    ("TPXO9-atlas-v4-nc", ⟨"ATLAS-netcdf", false, none⟩),
    ("TPXO9-atlas-v5", ⟨"OTIS", false, none⟩),
    ("TPXO9-atlas-v5-nc", ⟨"ATLAS-netcdf", false, none⟩), ("TPXO9.1", ⟨"OTIS", false, none⟩)]),
  ("elevation", [
    ("TPXO10-atlas-v2", ⟨"OTIS", true, some "tide_ocean"⟩),
    ("TPXO10-atlas-v2-nc", ⟨"ATLAS-netcdf", true, some "tide_ocean"⟩),
    ("TPXO7.2", ⟨"OTIS", true, some "tide_ocean"⟩),
    ("TPXO7.2_load", ⟨"OTIS", true, some "tide_load"⟩),
    ("TPXO8-atlas", ⟨"ATLAS-compact", true, some "tide_ocean"⟩),
    ("TPXO8-atlas-nc", ⟨"ATLAS-netcdf", true, some "tide_ocean"⟩),
    ("TPXO9-atlas", ⟨"OTIS", true, some "tide_ocean"⟩),
    ("TPXO9-atlas-nc", ⟨"ATLAS-netcdf", true, some "tide_ocean"⟩),
    ("TPXO9-atlas-v2", ⟨"OTIS", true, some "tide_ocean"⟩),
    ("TPXO9-atlas-v2-nc", ⟨"ATLAS-netcdf", true, some "tide_ocean"⟩),
    ("TPXO9-atlas-v3", ⟨"OTIS", true, some "tide_ocean"⟩),
    ("TPXO9-atlas-v3-nc", ⟨"ATLAS-netcdf", true, some "tide_ocean"⟩),
    ("TPXO9-atlas-v4", ⟨"OTIS", true, some "tide_ocean"⟩),
    ("TPXO9-atlas-v4-nc", ⟨"ATLAS-netcdf", true, some "tide_ocean"⟩),
    ("TPXO9-atlas-v5", ⟨"OTIS", true, some "tide_ocean"⟩),
    ("TPXO9-atlas-v5-nc", ⟨"ATLAS-netcdf", true, some "tide_ocean"⟩),
    ("TPXO9.1", ⟨"OTIS", true, some "tide_ocean"⟩)])]

/-- `/repo/providers/providers.json`, with what the lists of models look at. -/
def further : Dict (Dict Info) := [
  ("current", [
    ("CATS2008-v2023", ⟨"TMD3", false, none⟩), ("HAMTIDE11", ⟨"FES-netcdf", false, none⟩)]),
  ("elevation", [
    ("CATS2008-v2023", ⟨"TMD3", true, some "tide_ocean"⟩),
    ("DTU23", ⟨"GOT-ascii", true, some "tide_ocean"⟩),
    ("EOT20", ⟨"FES-netcdf", true, some "tide_ocean"⟩),
    ("EOT20_load", ⟨"FES-netcdf", true, some "tide_load"⟩),
    ("HAMTIDE11", ⟨"FES-netcdf", true, some "tide_ocean"⟩)])]

/-- `/repo/providers`: the files of the providers, the programs and the description. -/
def shippedProviders : Directory Info := [
  ("AVISO.json".toList, some aviso), ("ESR.json".toList, some esr), ("GSFC.json".toList, some gsfc),
  ("README.rst".toList, none), ("TPXO.json".toList, some tpxo),
  ("_model_to_database.py".toList, none), ("_providers_to_database.py".toList, none),
  ("_update_providers.py".toList, none), ("providers.json".toList, some further)]

end Verif.Providers
