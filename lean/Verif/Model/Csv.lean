import Verif.Model.Py
/-!
Model of `to_ascii` and `from_ascii` (`/repo/pyTMD/spatial.py` 251-362 and 805-875).

Texts are lists of characters.  How a number is written (`f'{d}'`) and read (`np.float64`) is an
input, and so are the YAML library and the date.  Left out: compressed files, dates
(`parse_dates`), reading without a delimiter (the regular expression), a table without columns, and
the attributes that are returned apart from the fill value of the data.
-/
namespace Verif.Csv
open Verif

/-- A text. -/
abbrev Text := List Char

/-- How numbers are written and read; `read` is `none` where `np.float64` raises `ValueError`. -/
structure Codec (K : Type) where
  put : K → Text
  read : Text → Option K

variable {K : Type}

/-- The characters at which `str.splitlines` ends a line. -/
def isBreak (c : Char) : Bool :=
  c.toNat ∈ [0x0a, 0x0b, 0x0c, 0x0d, 0x1c, 0x1d, 0x1e, 0x85, 0x2028, 0x2029]

/-- `str.splitlines()` -/
def splitLines : Text → List Text
  | [] => []
  | '\r' :: '\n' :: s => [] :: splitLines s
  | c :: s =>
    if isBreak c then [] :: splitLines s
    else
      match splitLines s with
      | [] => [[c]]
      | l :: ls => (c :: l) :: ls

/-- `str.split(d)` with a delimiter that is not empty; the number counts the characters of a
delimiter that are still to be passed over. -/
def splitAt (d : Text) : Nat → Text → List Text
  | _, [] => [[]]
  | k + 1, _ :: s => splitAt d k s
  | 0, c :: s =>
    if d.isPrefixOf (c :: s) then [] :: splitAt d (d.length - 1) s
    else
      match splitAt d 0 s with
      | [] => [[c]]
      | p :: ps => (c :: p) :: ps

/-- `delimiter.join(texts)` -/
def join (d : Text) : List Text → Text
  | [] => []
  | [t] => t
  | t :: ts => t ++ d ++ join d ts

/-- `'{0:n}'.format(name)`: padded with blanks on the right. -/
def pad (n : Nat) (t : Text) : Text := t ++ List.replicate (n - t.length) ' '

/-- spatial.py 845-869: the lines of the header.  `attributes` gives the attributes of a variable
with their values as texts, `today` is the date and `size` writes a number of rows or columns. -/
def headerLines (size : Nat → Text) (today : Text) (columns : List Text)
    (attributes : Text → List (Text × Text)) (nrow : Nat) : List Text :=
  let colon (indent width : Nat) (name value : Text) : Text :=
    List.replicate indent ' ' ++ pad width name ++ ": ".toList ++ value
  let title (indent : Nat) (name : String) : Text := List.replicate indent ' ' ++ name.toList ++ [':']
  [title 0 "header", [], title 2 "dimensions", colon 4 22 "time".toList (size nrow),
    title 2 "non-standard_attributes",
    colon 4 22 "formatting_string".toList ("(".toList ++ size columns.length ++ "f0.8)".toList),
    [], [], title 2 "global_attributes", colon 4 22 "date_created".toList today,
    [], title 2 "variables"] ++
  (columns.zipIdx.flatMap fun (v, i) =>
    [List.replicate 4 ' ' ++ pad 22 v ++ [':']] ++
    ((attributes v).map fun (n, t) => colon 6 20 n t) ++
    [colon 6 20 "precision".toList "double_precision".toList,
     colon 6 20 "comment".toList ("column ".toList ++ size (i + 1))]) ++
  [[], [], "# End of YAML header".toList]

/-- spatial.py 841: the columns of the table; a missing one is a `KeyError`. -/
def stack (output : List (Text × List K)) (columns : List Text) :
    Except PyErr (List (List K)) :=
  pyMap (fun c => match output.lookup c with | some v => .ok v | none => .error .keyError) columns

/-- spatial.py 842: all columns have the same length, else the array cannot be made. -/
def rowsOf (data : List (List K)) : Except PyErr Nat :=
  match data with
  | [] => .ok 0
  | v :: vs => if vs.all (fun w => w.length = v.length) then .ok v.length else .error .valueError

/-- spatial.py 871-872: the columns of one line. -/
def row (data : List (List K)) (i : Nat) : List K := data.filterMap (fun v => v[i]?)

/-- spatial.py 805-875, `to_ascii`: the text of the file. -/
def toAscii (C : Codec K) (size : Nat → Text) (today delimiter : Text) (header : Bool)
    (output : List (Text × List K)) (attributes : Text → List (Text × Text))
    (columns : List Text) : Except PyErr Text := do
  let data ← stack output columns
  let nrow ← rowsOf data
  let head := if header then headerLines size today columns attributes nrow else []
  .ok ((head ++ (List.range nrow).map (fun i => join delimiter ((row data i).map C.put))).flatMap
    (fun l => l ++ ['\n']))

/-- spatial.py 310: `re.search(r"\# End of YAML header", line)`. -/
def marks (line : Text) : Bool := (List.range (line.length + 1)).any
  fun i => "# End of YAML header".toList.isPrefixOf (line.drop i)

/-- spatial.py 303-312: how many lines the header has. -/
def countHeader : List Text → Nat
  | [] => 0
  | l :: ls => if marks l then 1 else countHeader ls + 1

/-- The header that is asked for: a number of lines or `'YAML'`. -/
inductive Header where
  | lines (n : Nat)
  | yaml

/-- spatial.py 345-350: `l.replace('D', 'E')` -/
def exponent (t : Text) : Text := t.map fun c => if c = 'D' then 'E' else c

/-- spatial.py 341-355: one line of the file, the value of each of the columns.  Of a name that is
given twice the last text is used. -/
def readRow (C : Codec K) (delimiter : Text) (columns : List Text) (line : Text) :
    Except PyErr (List K) :=
  let column := (columns.zip ((splitAt delimiter 0 line).map exponent)).reverse
  pyMap (fun c =>
    match column.lookup c with
    | none => .error .keyError
    | some t =>
      match C.read t with
      | none => .error .valueError
      | some x => .ok x) columns

/-- What the YAML library makes of a header: the attributes of the variables as texts. -/
abbrev Yaml := List Text → Except PyErr (List (Text × List (Text × Text)))

/-- spatial.py 320-326: the attributes of a column in the header; a missing one is a `KeyError`. -/
def pick (vars : List (Text × List (Text × Text))) (c : Text) :
    Except PyErr (Text × List (Text × Text)) :=
  match vars.lookup c with
  | some a => .ok (c, a)
  | none => .error .keyError

/-- spatial.py 251-362, `from_ascii`: the columns in the order asked for.  The values of a YAML
header are texts (`BaseLoader`); setting a text as fill value of an array of numbers raises
`TypeError` (line 359). -/
def fromAscii (C : Codec K) (yaml : Yaml) (delimiter : Text) (header : Header)
    (columns : List Text) (file : Text) : Except PyErr (List (Text × List K)) := do
  let contents := splitLines file
  let (skip, attributes) ← (match header with
    | .lines n => .ok (n, columns.map fun c => (c, []))
    | .yaml => do
      let n := countHeader contents
      let vars ← yaml (contents.take n)
      let atts ← pyMap (pick vars) columns
      .ok (n, atts) : Except PyErr (Nat × List (Text × List (Text × Text))))
  let rows ← pyMap (readRow C delimiter columns) (contents.drop skip)
  match attributes.lookup "data".toList with
  | some a =>
    if (a.lookup "_FillValue".toList).isSome then .error .typeError
    else .ok (columns.zipIdx.map fun (c, j) => (c, rows.filterMap fun r => r[j]?))
  | none => .ok (columns.zipIdx.map fun (c, j) => (c, rows.filterMap fun r => r[j]?))

end Verif.Csv
