import Verif.Model.Py
/-!
Model of the recognition of constituent names in text: `constituents.parse`
(`/repo/pyTMD/io/constituents.py` 230-273), used for file names by `model.parse_file`
(`/repo/pyTMD/io/model.py` 936-968) and for headers by `GOT.py` 576 and 666.

The regular expression is a list of alternatives with negative look-behind and look-ahead; the
search takes the first position at which one of them matches, and the first that does.  Case is
that of ASCII (the flag `re.IGNORECASE` also identifies a few letters outside ASCII).
-/
namespace Verif.Parse
open Verif

/-- `(?<!b)…name(?!a)…` -/
structure Alt where
  behind : List String := []
  name : String
  ahead : List String := []

/-- constituents.py 243-256, `cindex` -/
def alts : List Alt := [
  ⟨["s"], "sa", []⟩, ⟨[], "ssa", []⟩, ⟨[], "mm", []⟩, ⟨[], "msf", []⟩, ⟨[], "mt", ["m", "ide"]⟩,
  ⟨[], "mf", []⟩, ⟨[], "alpha1", []⟩, ⟨[], "2q1", []⟩, ⟨[], "sigma1", []⟩, ⟨["2"], "q1", []⟩,
  ⟨[], "rho1", []⟩, ⟨["rh", "o", "s"], "o1", []⟩, ⟨[], "tau1", []⟩, ⟨[], "m1", []⟩,
  ⟨[], "chi1", []⟩, ⟨[], "pi1", []⟩, ⟨["al"], "p1", []⟩, ⟨[], "s1", []⟩, ⟨[], "k1", []⟩,
  ⟨[], "psi1", []⟩, ⟨[], "phi1", []⟩, ⟨[], "beta1", []⟩, ⟨[], "theta1", []⟩, ⟨[], "j1", []⟩,
  ⟨[], "oo1", []⟩, ⟨[], "2n2", []⟩, ⟨[], "mu2", []⟩, ⟨["2"], "n2", []⟩, ⟨[], "nu2", []⟩,
  ⟨["2s", "l", "la", "ga"], "m2", ["a", "b"]⟩, ⟨[], "m2a", []⟩, ⟨[], "m2b", []⟩,
  ⟨[], "lambda2", []⟩, ⟨["de"], "l2", []⟩, ⟨["be"], "t2", []⟩, ⟨["mn", "mk", "ep"], "s2", ["0"]⟩,
  ⟨[], "alpha2", []⟩, ⟨[], "beta2", []⟩, ⟨[], "delta2", []⟩, ⟨[], "gamma2", []⟩, ⟨[], "r2", []⟩,
  ⟨[], "k2", []⟩, ⟨["b"], "eta2", []⟩, ⟨[], "mns2", []⟩, ⟨[], "2sm2", []⟩, ⟨[], "m3", []⟩,
  ⟨[], "mk3", []⟩, ⟨[], "s3", []⟩, ⟨[], "mn4", []⟩, ⟨[], "m4", []⟩, ⟨[], "ms4", []⟩,
  ⟨[], "mk4", []⟩, ⟨[], "so1", []⟩, ⟨["m"], "s4", []⟩, ⟨[], "s5", []⟩, ⟨[], "m6", []⟩,
  ⟨[], "s6", []⟩, ⟨[], "s7", []⟩, ⟨[], "s8", []⟩, ⟨[], "m8", []⟩, ⟨[], "mks2", []⟩,
  ⟨[], "msqm", []⟩, ⟨[], "mtm", []⟩, ⟨["m"], "n4", []⟩, ⟨[], "eps2", []⟩, ⟨[], "ups1", []⟩,
  ⟨[], "z0", []⟩, ⟨[], "node", []⟩]

/-- An alternative matches at a position: `before` are the characters before it, last one first,
and `rest` those from it on. -/
def Alt.matches (a : Alt) (before rest : List Char) : Bool :=
  a.behind.all (fun b => !(b.toList.reverse.isPrefixOf before)) &&
  a.name.toList.isPrefixOf rest &&
  a.ahead.all (fun b => !(b.toList.isPrefixOf (rest.drop a.name.toList.length)))

/-- The first match, and what follows it. -/
def search (before : List Char) : List Char → Option (Alt × List Char)
  | [] => none
  | c :: rest =>
    match alts.find? (fun a => a.matches before (c :: rest)) with
    | some a => some (a, (c :: rest).drop a.name.toList.length)
    | none => search (c :: before) rest

/-- constituents.py 263-269, `mapping` -/
def remapped : List (String × String) := [
  ("2n", "2n2"), ("alp1", "alpha1"), ("alp2", "alpha2"), ("bet1", "beta1"), ("bet2", "beta2"),
  ("del2", "delta2"), ("e2", "eps2"), ("ep2", "eps2"), ("gam2", "gamma2"), ("la2", "lambda2"),
  ("lam2", "lambda2"), ("lm2", "lambda2"), ("msq", "msqm"), ("omega0", "node"), ("om0", "node"),
  ("rho", "rho1"), ("sig1", "sigma1"), ("the", "theta1"), ("the1", "theta1")]

/-- `key in text` -/
def occurs (key : List Char) : List Char → Bool
  | [] => key.isEmpty
  | c :: t => key.isPrefixOf (c :: t) || occurs key t

/-- constituents.py 258-273: the first match with the prime that may follow it, else the first
remapped name that occurs. -/
def parse (text : String) : Except PyErr String :=
  match search [] text.toLower.toList with
  | some (a, rest) => .ok (if ['\''].isPrefixOf rest then a.name ++ "'" else a.name)
  | none =>
    match remapped.find? (fun m => occurs m.1.toList text.toLower.toList) with
    | some m => .ok m.2
    | none => .error .valueError

/-- model.py 936-968, `parse_file`: of a file name; `None` if nothing is found. -/
def parseFile (name : String) (raiseError : Bool) : Except PyErr (Option String) :=
  match parse name with
  | .ok c => .ok (some c)
  | .error _ => if raiseError then .error .valueError else .ok none

end Verif.Parse
