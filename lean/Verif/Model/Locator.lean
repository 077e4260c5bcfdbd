import Verif.Model.Posix
/-!
Model of small functions on texts of `/repo/pyTMD/utilities.py`: `url_split` (292-306),
`convert_arg_line_to_args` (309-322), and the lists of `ftp_list` (553-597), `http_list` (790-818) and
`cddis_list` (1340-1369), `iers_list` (1514-1523) and `uhslc_list` (1617-1635); and of `posixpath.join`.
-/
namespace Verif.Locator
open Verif Verif.Posix

/-- `posixpath.join(a, b)` -/
def join2 (a b : Name) : Name :=
  if b.head? = some '/' then b
  else if a = [] ∨ a.getLast? = some '/' then a ++ b
  else a ++ '/' :: b

/-- `posixpath.join(*l)` -/
def join : List Name → Name
  | [] => []
  | a :: l => l.foldl join2 a

/-- utilities.py 302: the protocols. -/
def protocols : List Name := ["http:".toList, "https:".toList, "ftp:".toList, "s3:".toList]

/-- utilities.py 292-306, `url_split`: with at most `depth` calls, `none` if these are not enough
(`RecursionError`). -/
def urlSplit : Nat → Name → Option (List Name)
  | 0, _ => none
  | depth + 1, s =>
    let (h, t) := split s
    if h ∈ protocols then some [s]
    else if h = [] ∨ h = ['/'] then some [t]
    else (urlSplit depth h).map (· ++ [t])

/-- `s.split()`: the words between characters that are spaces, `w` being the word so far. -/
def words (space : Char → Bool) (w : Name) : Name → List Name
  | [] => if w = [] then [] else [w]
  | c :: s =>
    if space c then (if w = [] then words space [] s else w :: words space [] s)
    else words space (w ++ [c]) s

/-- utilities.py 309-322, `convert_arg_line_to_args`, for a line without line feeds (`argparse` reads a file
with `splitlines`). -/
def argLine (space : Char → Bool) (line : Name) : List Name :=
  words space [] (line.takeWhile (· ≠ '#'))

/-- `[l[i] for i in indices]` -/
def pick {α : Type} (l : List α) (indices : List Nat) : Except PyErr (List α) :=
  pyMap (fun i => match l[i]? with | some a => .ok a | none => .error .indexError) indices

/-- utilities.py 581-585, 805-809 and 1356-1360: the lists are reduced by a pattern. -/
def narrow {T : Type} (pattern : Option (Name → Bool)) (names : List Name) (times : List T) :
    Except PyErr (List Name × List T) :=
  match pattern with
  | some p =>
    let i := (names.zipIdx.filter fun q => p q.1).map Prod.snd
    (pick names i).bind fun a => (pick times i).bind fun b => .ok (a, b)
  | none => .ok (names, times)

/-- utilities.py 586-590, 810-814 and 1361-1365: the lists are sorted by the names; `le` is the order of
texts. -/
def arrange {T : Type} (le : Name → Name → Bool) (sort : Bool) (names : List Name) (times : List T) :
    Except PyErr (List Name × List T) :=
  if sort then
    let i := (names.zipIdx.mergeSort fun a b => le a.1 b.1).map Prod.snd
    (pick names i).bind fun a => (pick times i).bind fun b => .ok (a, b)
  else .ok (names, times)

/-- utilities.py 581-590, 805-814 and 1356-1365 -/
def reduce {T : Type} (le : Name → Name → Bool) (pattern : Option (Name → Bool)) (sort : Bool)
    (names : List Name) (times : List T) : Except PyErr (List Name × List T) :=
  (narrow pattern names times).bind fun r => arrange le sort r.1 r.2

/-- utilities.py 566-590, `ftp_list`: the names of the server with the answers on their times (`none` for
directories). -/
def ftpList {T : Type} (le : Name → Name → Bool) (base : Bool) (pattern : Option (Name → Bool)) (sort : Bool)
    (server : List (Name × Option T)) : Except PyErr (List Name × List (Option T)) :=
  reduce le pattern sort ((server.map Prod.fst).map fun n => if base then basename n else n)
    (server.map Prod.snd)

/-- A line of the table of an Apache server: the link, and the text of the time, if there is any. -/
structure Entry (T : Type) where
  link : Name
  time : Option T

/-- utilities.py 798-815, `http_list`: links and times are found independently of each other. -/
def httpList {T : Type} (le : Name → Name → Bool) (pattern : Option (Name → Bool)) (sort : Bool)
    (table : List (Entry T)) : Except PyErr (List Name × List T) :=
  reduce le pattern sort (table.map Entry.link) (table.filterMap Entry.time)

/-- A line of the table of the server of the IERS: the links of its fourth cell and the dates of its second
cell. -/
structure Line (T : Type) where
  links : List Name
  dates : List T

/-- utilities.py 1516-1523, `iers_list`: links and dates are found independently of each other, and both
lists are turned around. -/
def iersList {T : Type} (table : List (Line T)) : List Name × List T :=
  ((table.flatMap Line.links).reverse, (table.flatMap Line.dates).reverse)

/-- utilities.py 1619-1635, `uhslc_list`: as the lists above, without times (here: with times that say
nothing and are not returned). -/
def uhslcList (le : Name → Name → Bool) (pattern : Option (Name → Bool)) (sort : Bool) (names : List Name) :
    Except PyErr (List Name) :=
  (reduce le pattern sort names (names.map fun _ => ())).map Prod.fst

end Verif.Locator
