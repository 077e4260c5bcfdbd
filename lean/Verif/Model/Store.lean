import Verif.Model.Listing
/-!
Model of writing and reading netCDF4 and HDF5 files of spatial data
(`/repo/pyTMD/spatial.py` 364-583 and 877-1122).

Arrays have a shape and their values in the order of the last axis first, each with its mask.  The
numbers are of one type `K`.  Dictionaries are lists of pairs with different names.

The behaviour of the libraries that is used:
* netCDF4 stores the fill value of a variable (a default one when it has none) where an array is
  masked, and masks the values that are equal to it when the variable is read;
* an array is spread over the leading axes of a variable when its shape is the end of the shape of
  the variable; other shapes cannot be stored (numpy also spreads axes of length one: left out);
* h5py stores the values of an array whether they are masked or not, and a dataset made without
  values is zero; it refuses compressed scalars and slices of scalars.

Left out: compressed input files and groups, the attributes of the file, projections
(`grid_mapping`), and the attributes with which netCDF4 scales and masks values by itself
(`scale_factor`, `add_offset`, `missing_value`, `valid_min`, `valid_max`, `valid_range`).  Files
are new (mode `'w'`) except where an existing HDF5 file is mentioned.
-/
namespace Verif.Store
open Verif Verif.Listing

/-- An array: shape, and values with their mask. -/
structure Arr (K : Type) where
  shape : List Nat
  vals : List (K × Bool)

/-- A value of an attribute. -/
inductive Value (K : Type) where
  | text (s : String)
  | num (x : K)

/-- The attributes of the variables. -/
abbrev Atts (K : Type) := Dict (Dict (Value K))

/-- A variable of a netCDF4 file or a dataset of a HDF5 file (without names of dimensions). -/
structure Var (K : Type) where
  dims : List String
  shape : List Nat
  vals : List K
  attrs : Dict (Value K)

/-- What the readers return: the arrays and their attributes. -/
abbrev Input (K : Type) := Dict (Arr K × Dict (Value K))

variable {K : Type}

/-- `d.pop(k)` -/
def erase {V : Type} (k : String) (d : Dict V) : Dict V := d.filter fun p => p.1 != k

/-- The values for a variable of a shape: the array itself or spread over the leading axes. -/
def spread (shape : List Nat) (a : Arr K) : Except PyErr (List (K × Bool)) :=
  if a.shape = shape then .ok a.vals
  else if a.shape.isSuffixOf shape then
    .ok ((List.replicate (shape.take (shape.length - a.shape.length)).prod a.vals).flatten)
  else .error .valueError

/-- spatial.py 952-967, 994-1017, 1043-1062: one variable.  `choose` gives the dimensions of an
array (`true` when it has a fill value); returns the variable and the attributes that are left. -/
def putVariable (standard : K) (choose : List Nat → Bool → List (String × Nat)) (val : Arr K)
    (a : Dict (Value K)) : Except PyErr (Var K × Dict (Value K)) :=
  match a.lookup "_FillValue" with
  | some (.num f) => do
    let dims := choose val.shape true
    let vals ← spread (dims.map Prod.snd) val
    let left := erase "_FillValue" a
    .ok (⟨dims.map Prod.fst, dims.map Prod.snd, vals.map fun p => if p.2 then f else p.1,
      ("_FillValue", .num f) :: left⟩, left)
  | some (.text _) => .error .valueError
  | none => do
    let dims := choose val.shape false
    let vals ← spread (dims.map Prod.snd) val
    .ok (⟨dims.map Prod.fst, dims.map Prod.snd, vals.map fun p => if p.2 then standard else p.1, a⟩,
      a)

/-- spatial.py 952-967, 994-1017, 1043-1062: all variables, and the attributes of the caller as they
are afterwards. -/
def putVariables (standard : K) (choose : List Nat → Bool → List (String × Nat)) :
    Dict (Arr K) → Atts K → Except PyErr (Dict (Var K) × Atts K)
  | [], atts => .ok ([], atts)
  | (key, val) :: rest, atts =>
    match atts.lookup key with
    | none => .error .keyError
    | some a => do
      let (v, a') ← putVariable standard choose val a
      let (file, after) ← putVariables standard choose rest (put key a' atts)
      .ok ((key, v) :: file, after)

/-- spatial.py 955-962: the dimensions of `_drift_netCDF4`. -/
def driftDims (n : Nat) (shape : List Nat) (fill : Bool) : List (String × Nat) :=
  if fill then [("time", n)] else if shape ≠ [] then [("time", n)] else []

/-- spatial.py 997-1012: the dimensions of `_grid_netCDF4`. -/
def gridDims (ny nx nt : Nat) (shape : List Nat) (fill : Bool) : List (String × Nat) :=
  if fill then [("y", ny), ("x", nx), ("time", nt)]
  else if shape.length = 3 then [("y", ny), ("x", nx), ("time", nt)]
  else if shape.length = 2 then [("y", ny), ("x", nx)]
  else
    match shape with
    | [] => []
    | l :: _ =>
      if l = ny then [("y", ny)] else if l = nx then [("x", nx)] else if l = nt then [("time", nt)]
      else []

/-- spatial.py 1046-1057: the dimensions of `_time_series_netCDF4`. -/
def seriesDims (ns nt : Nat) (shape : List Nat) (fill : Bool) : List (String × Nat) :=
  if fill then [("station", ns), ("time", nt)]
  else if shape.length = 2 then [("station", ns), ("time", nt)]
  else
    match shape with
    | [] => []
    | l :: _ =>
      if l = nt then [("time", nt)] else if l = ns then [("station", ns)] else []

/-- spatial.py 983-985, 1033-1035: the names that are not data fields. -/
def reserved : List String := ["t", "time", "lon", "longitude", "x", "lat", "latitude", "y",
  "crs", "crs_wkt", "crs_proj4", "projection"]

/-- spatial.py 985-988, 1035-1038: the shape of the first data field with so many axes, in the order
of names. -/
def reference (n : Nat) (output : Dict (Arr K)) : Except PyErr (List Nat) :=
  let fields := sortedSet ((output.map Prod.fst).filter fun k => !reserved.contains k)
  let shapes := fields.filterMap fun k => (output.lookup k).map Arr.shape
  match shapes.filter fun s => s.length = n with
  | s :: _ => .ok s
  | [] => .error .indexError

/-- spatial.py 934-967, `_drift_netCDF4` -/
def drift (standard : K) (output : Dict (Arr K)) (atts : Atts K) :
    Except PyErr (Dict (Var K) × Atts K) :=
  match output.lookup "time" with
  | none => .error .keyError
  | some t => putVariables standard (driftDims ((t.shape.head?).getD 1)) output atts

/-- spatial.py 969-1017, `_grid_netCDF4` -/
def grid (standard : K) (output : Dict (Arr K)) (atts : Atts K) :
    Except PyErr (Dict (Var K) × Atts K) := do
  let s ← reference 3 output
  putVariables standard (gridDims (s.getD 0 0) (s.getD 1 0) (s.getD 2 0)) output atts

/-- spatial.py 1019-1062, `_time_series_netCDF4` -/
def series (standard : K) (output : Dict (Arr K)) (atts : Atts K) :
    Except PyErr (Dict (Var K) × Atts K) := do
  let s ← reference 2 output
  putVariables standard (seriesDims (s.getD 0 0) (s.getD 1 0)) output atts

/-- spatial.py 877-917, `to_netCDF4`: another type of data writes no variables. -/
def toNetCDF (standard : K) (dataType : String) (output : Dict (Arr K)) (atts : Atts K) :
    Except PyErr (Dict (Var K) × Atts K) :=
  if dataType = "drift" then drift standard output atts
  else if dataType = "grid" then grid standard output atts
  else if dataType = "time series" then series standard output atts
  else .ok ([], atts)

/-- spatial.py 422-423, 537-538 -/
def wanted : List String := ["description", "units", "long_name", "calendar", "standard_name",
  "grid_mapping", "_FillValue"]

/-- `re.match(attr, s, re.I)` for a plain text: `s` begins with it in small or capital letters. -/
def begins (attr s : String) : Bool :=
  (attr.toList.map Char.toLower).isPrefixOf (s.toList.map Char.toLower)

/-- `ncattr, = [...]`: the value of the only match; several or none are passed over. -/
def only : List (String × Value K) → Option (Value K)
  | [p] => some p.2
  | _ => none

/-- spatial.py 440-448: the attributes that are found. -/
def foundNetCDF (attrs : Dict (Value K)) : Dict (Value K) := wanted.filterMap fun attr =>
  (only (attrs.filter fun p => begins attr p.1)).map fun v => (attr, v)

/-- spatial.py 555-560 -/
def foundHDF5 (attrs : Dict (Value K)) : Dict (Value K) := wanted.filterMap fun attr =>
  (attrs.lookup attr).map fun v => (attr, v)

/-- `group.variables[nc][:]`: the values that are equal to the fill value are masked. -/
def fetch [DecidableEq K] (standard : K) (v : Var K) : Arr K :=
  let f := match v.attrs.lookup "_FillValue" with | some (.num f) => f | _ => standard
  ⟨v.shape, v.vals.map fun x => (x, decide (x = f))⟩

/-- spatial.py 464-468, 575-579: the data are masked with the fill value of the attributes. -/
def mask [DecidableEq K] (key : String) (a : Arr K) (attrs : Dict (Value K)) :
    Except PyErr (Arr K) :=
  if key = "data" then
    match attrs.lookup "_FillValue" with
    | none => .ok a
    | some (.num f) => .ok ⟨a.shape, a.vals.map fun p => (p.1, decide (p.1 = f))⟩
    | some (.text _) => .error .typeError
  else .ok a

/-- spatial.py 424-431, 539-546: the names of the variables. -/
def fieldMapping (given : Dict String) (xname yname : String) (varname timename : Option String) :
    Dict String :=
  if given ≠ [] then given
  else [("x", xname), ("y", yname)] ++ (varname.map fun v => ("data", v)).toList ++
    (timename.map fun v => ("time", v)).toList

/-- spatial.py 434-472, `from_netCDF4` with the names of the variables. -/
def fromNetCDF [DecidableEq K] (standard : K) (mapping : Dict String) (file : Dict (Var K)) :
    Except PyErr (Input K) :=
  pyMap (fun p =>
    match file.lookup p.2 with
    | none => .error .keyError
    | some v => do
      let attrs := foundNetCDF v.attrs
      let a ← mask p.1 (fetch standard v) attrs
      .ok (p.1, a, attrs)) mapping

/-- spatial.py 1091-1107: one dataset of a HDF5 file.  Returns the dataset and the attributes that
are left. -/
def putDataset (zero : K) (val : Arr K) (a : Dict (Value K)) :
    Except PyErr (Var K × Dict (Value K)) :=
  match a.lookup "_FillValue" with
  | some (.num _) =>
    if val.shape = [] then .error .typeError
    else .ok (⟨[], val.shape, val.vals.map Prod.fst, erase "_FillValue" a⟩, erase "_FillValue" a)
  | some (.text _) => .error .valueError
  | none =>
    if val.shape ≠ [] then .ok (⟨[], val.shape, val.vals.map Prod.fst, a⟩, a)
    else .ok (⟨[], [], [zero], a⟩, a)

/-- spatial.py 1084-1107, `to_HDF5` with an existing file (an empty one in mode `'w'`): a dataset
that exists gets the values and then, when there are attributes, `h5[key]` is a `KeyError`. -/
def toHDF5 (zero : K) : Dict (Arr K) → Atts K → Dict (Var K) →
    Except PyErr (Dict (Var K) × Atts K)
  | [], atts, file => .ok (file, atts)
  | (key, val) :: rest, atts, file =>
    match file.lookup key with
    | some v =>
      if val.shape = [] then .error .indexError
      else
        match spread v.shape val with
        | .error _ => .error .typeError
        | .ok vals =>
          match atts.lookup key with
          | none => .error .keyError
          | some [] =>
            toHDF5 zero rest atts (put key ⟨v.dims, v.shape, vals.map Prod.fst, v.attrs⟩ file)
          | some _ => .error .keyError
    | none =>
      match atts.lookup key with
      | none => .error .keyError
      | some a => do
        let (v, a') ← putDataset zero val a
        toHDF5 zero rest (put key a' atts) (put key v file)

/-- spatial.py 549-583, `from_HDF5` with the names of the datasets. -/
def fromHDF5 [DecidableEq K] (mapping : Dict String) (file : Dict (Var K)) :
    Except PyErr (Input K) :=
  pyMap (fun p =>
    match file.lookup p.2 with
    | none => .error .keyError
    | some v =>
      if v.shape = [] then .error .valueError
      else do
        let attrs := foundHDF5 v.attrs
        let a ← mask p.1 ⟨v.shape, v.vals.map fun x => (x, false)⟩ attrs
        .ok (p.1, a, attrs)) mapping

end Verif.Store
