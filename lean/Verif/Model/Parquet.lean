import Verif.Model.FileNames
/-!
Model of writing and reading parquet files (`/repo/pyTMD/spatial.py` 685-766 and 1193-1305) and of the
wrappers for all formats (223-249 and 768-803).

The values of columns are of one type `V`, JSON values of a type `A`, spatial references of a type `S`;
dictionaries are lists of pairs with different names.

The behaviour of the libraries that is used:
* a data frame is made of columns of one axis and one length (other arrays are refused); scalars are
  left out;
* parquet keeps columns, their order and the metadata; an index that is written comes back as an index
  that is no range;
* geometry written as WKB is decoded to the same points, other values cannot be decoded;
* JSON values are decoded as they were encoded (all attributes can be encoded).

Left out: compression, the entry of pandas in the metadata, bounding boxes, files without metadata.
-/
namespace Verif.Parquet
open Verif Verif.Listing Verif.FileNames

variable {V A S : Type}

/-- An array: of one axis, or of more. -/
inductive Arr (V : Type) where
  | line (l : List V)
  | wide

/-- A cell of a data frame: a value, or a point encoded as WKB. -/
inductive Cell (V : Type) where
  | val (v : V)
  | point (x y : V)

/-- The keyword `crs`: a code, a dictionary that is not empty, or anything else. -/
inductive Crs (A : Type) where
  | code (n : Int)
  | dict (a : A)
  | other

/-- The libraries for spatial references, the date and the names of the software. -/
structure World (V A S : Type) where
  /-- `srs.ImportFromEPSG` -/
  epsg : Int → Except PyErr S
  /-- `srs.SetFromUserInput(json.dumps(..))` -/
  user : A → Except PyErr S
  /-- `json.loads(srs.ExportToPROJJSON())` -/
  json : S → A
  /-- the numbers of an index -/
  number : Nat → V
  now : A
  reference : A
  version : A

/-- The entry `geo` of the metadata, for its primary column; another program may leave out the
reference system. -/
structure Geo (A : Type) where
  primary : String
  encoding : String
  crs : Option A

/-- A parquet file: whether the index is a column of it, its columns and the metadata. -/
structure File (V A : Type) where
  index : Bool
  columns : Dict (List (Cell V))
  pyTMD : Option (Dict A)
  geo : Option (Geo A)

/-- spatial.py 1224-1230: the keywords of `to_parquet`. -/
structure WriteOptions (A : Type) where
  crs : Crs A := .other
  index : Option Bool := none
  geoparquet : Bool := false
  encoding : Option String := some "WKB"
  primary : String := "geometry"

/-- One column of a data frame. -/
def column (p : String × Arr V) : Except PyErr (String × List V) :=
  match p.2 with
  | .line l => .ok (p.1, l)
  | .wide => .error .valueError

/-- spatial.py 1232: `pd.DataFrame(output)` -/
def frame (output : Dict (Arr V)) : Except PyErr (Dict (List V)) := do
  let df ← pyMap column output
  if ∀ p ∈ df, ∀ q ∈ df, p.2.length = q.2.length then .ok df else .error .valueError

/-- spatial.py 1235-1249: the spatial reference and the attribute `crs`. -/
def reference (w : World V A S) : Crs A → Except PyErr (Option (S × A))
  | .code n => if n ≠ 0 then do
      let s ← w.epsg n
      .ok (some (s, w.json s))
    else .ok none
  | .dict a => do
    let s ← w.user a
    .ok (some (s, a))
  | .other => .ok none

/-- spatial.py 1241, 1248: the attributes with the reference system. -/
def referred (s : Option (S × A)) (attributes : Dict A) : Dict A :=
  match s with
  | some (_, a) => put "crs" a attributes
  | none => attributes

/-- spatial.py 1254 -/
def geometries : List String := ["lon", "longitude", "x", "lat", "latitude", "y"]

/-- spatial.py 1255 -/
def geometryNames (output : Dict (Arr V)) : List String :=
  geometries.filter fun v => v ∈ output.map Prod.fst

/-- A column of values. -/
def plain (df : Dict (List V)) : Dict (List (Cell V)) := df.map fun p => (p.1, p.2.map .val)

/-- spatial.py 1284-1290: the attributes that are added to all files. -/
def stamp (w : World V A S) (atts : Dict A) : Dict A :=
  put "software_version" w.version (put "software_reference" w.reference (put "date_created" w.now atts))

/-- spatial.py 1193-1305, `to_parquet`: the file, and the attributes of the caller afterwards. -/
def toParquet (w : World V A S) (o : WriteOptions A) (output : Dict (Arr V)) (attributes : Dict A) :
    Except PyErr (File V A × Dict A) := do
  let df ← frame output
  let s ← reference w o.crs
  let atts := referred s attributes
  let (cols, atts, geo) ←
    if o.geoparquet = true ∧ o.encoding = some "WKB" then
      match geometryNames output with
      | a :: b :: rest =>
        let g := List.zipWith Cell.point ((df.lookup a).getD []) ((df.lookup b).getD [])
        let left := df.filter fun p => p.1 ∉ a :: b :: rest
        let atts := atts.filter fun p => p.1 ∉ a :: b :: rest
        match s with
        | none => .error .unbound
        | some (s, _) =>
          .ok (put o.primary g (plain left), atts, some (Geo.mk o.primary "WKB" (some (w.json s))))
      | _ => .error .indexError
    else if o.geoparquet = true ∧ o.encoding = some "point" then .error .valueError
    else .ok (plain df, atts, none)
  .ok (⟨decide (o.index = some true), cols, some (stamp w atts), geo⟩, stamp w atts)

/-- spatial.py 702-706: the keywords of `from_parquet`. -/
structure ReadOptions where
  index : String := "time"
  columns : Option (List String) := none
  primary : String := "geometry"
  encoding : String := "WKB"

/-- A value of the attributes that are returned: a flag, a text, a spatial reference (its `projection`
and `wkt`), or the decoded metadata. -/
inductive Attr (A S : Type) where
  | flag (b : Bool)
  | text (t : String)
  | srs (s : S)
  | dict (d : Dict A)
  | geo (g : Geo A)

/-- What `from_parquet` returns: a data frame with attributes. -/
structure Frame (V A S : Type) where
  columns : List (String × List (Cell V))
  attrs : Dict (Attr A S)

/-- spatial.py 711-712: an index that is no range becomes the first column. -/
def resetIndex (w : World V A S) (name : String) (f : File V A) : Except PyErr (Dict (List (Cell V))) :=
  if f.index = true then
    if name ∈ f.columns.map Prod.fst then .error .valueError
    else
      let n := match f.columns with
        | [] => 0
        | p :: _ => p.2.length
      .ok ((name, (List.range n).map fun i => .val (w.number i)) :: f.columns)
  else .ok f.columns

/-- spatial.py 716-724: the metadata that can be decoded. -/
def metadata (f : File V A) : Dict (Attr A S) :=
  (match f.pyTMD with
    | some d => [("pyTMD", .dict d)]
    | none => []) ++
  (match f.geo with
    | some g => [("geo", .geo g)]
    | none => [])

/-- `shapely.from_wkb` of one cell. -/
def decode : Cell V → Except PyErr (V × V)
  | .point x y => .ok (x, y)
  | .val _ => .error .typeError

/-- spatial.py 728-750: primary column, encoding and attributes after the metadata are looked at. -/
def geometryOf (w : World V A S) (o : ReadOptions) (f : File V A) :
    Except PyErr (String × String × Dict (Attr A S)) :=
  let attr : Dict (Attr A S) := put "geoparquet" (.flag false) (metadata f)
  match f.geo, f.pyTMD with
  | some g, _ =>
    match g.crs with
    | none => .error .keyError
    | some c => do
      let s ← w.user c
      .ok (g.primary, g.encoding, put "wkt" (.srs s) (put "projection" (.srs s)
        (put "geometry_encoding" (.text g.encoding) attr)))
  | none, some d =>
    match d.lookup "crs" with
    | none => .error .keyError
    | some c => do
      let s ← w.user c
      .ok (o.primary, o.encoding, put "wkt" (.srs s) (put "projection" (.srs s) attr))
  | none, none => .ok (o.primary, o.encoding, attr)

/-- spatial.py 760-763: `dinput.rename(columns=remap)` -/
def rename (columns : Option (List String)) (cols : Dict (List (Cell V))) :
    List (String × List (Cell V)) :=
  match columns with
  | none => cols
  | some names =>
    let remap := inverse (defaultMapping names)
    cols.map fun p => ((remap.lookup p.1).getD p.1, p.2)

/-- spatial.py 685-766, `from_parquet`. -/
def fromParquet (w : World V A S) (o : ReadOptions) (f : File V A) : Except PyErr (Frame V A S) := do
  let cols ← resetIndex w o.index f
  let (primary, encoding, attr) ← geometryOf w o f
  match cols.lookup primary with
  | some g =>
    if encoding = "WKB" then do
      let ps ← pyMap decode g
      let cols := put "y" (ps.map fun p => .val p.2) (put "x" (ps.map fun p => .val p.1) cols)
      .ok ⟨rename o.columns cols, put "geoparquet" (.flag true) attr⟩
    else .ok ⟨rename o.columns cols, attr⟩
  | none => .ok ⟨rename o.columns cols, attr⟩

/-- The readers and writers behind `from_file` and `to_file`. -/
inductive Kind where
  | ascii
  | netCDF4
  | HDF5
  | geotiff
  | parquet
  deriving DecidableEq

/-- spatial.py 236-248, `from_file`: the reader for the name of a format. -/
def reader (format : String) : Except PyErr Kind :=
  if format = "ascii" then .ok .ascii
  else if format = "netCDF4" then .ok .netCDF4
  else if format = "HDF5" then .ok .HDF5
  else if format = "GTiff" ∨ format = "cog" then .ok .geotiff
  else if format = "parquet" then .ok .parquet
  else .error .valueError

/-- spatial.py 791-803, `to_file`: the writer for the name of a format. -/
def writer (format : String) : Except PyErr Kind :=
  if format = "ascii" then .ok .ascii
  else if format = "netCDF4" then .ok .netCDF4
  else if format = "HDF5" then .ok .HDF5
  else if format = "GTiff" ∨ format = "cog" then .ok .geotiff
  else if format = "parquet" then .ok .parquet
  else .error .valueError

end Verif.Parquet
