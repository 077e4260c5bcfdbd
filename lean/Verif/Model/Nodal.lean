import Mathlib.Analysis.SpecialFunctions.Complex.Arg
import Mathlib.Analysis.SpecialFunctions.Trigonometric.Arctan

/-!
# Nodal corrections

Model of `nodal` (/repo/pyTMD/arguments.py 479-1170) and of the nodal part of
`minor_arguments` (same file 178-328).

The long `if`/`elif` chain of `nodal` is kept as data: `chain` lists the branches in the
order of the source, each with its membership test, its condition on the type of
corrections and what the branch computes; `rule` takes the first branch that applies,
exactly as the chain of `elif` does.

Simplifications: floating point numbers become reals (`numpy.arctan2 y x` is the argument
of `x + i y`; the sign of a floating point zero is not modelled); one time is modelled, the
code treats every time (row) alike; decimal literals are exact rationals; division by zero
gives zero instead of an infinity.
-/

namespace Verif.Nodal

open Real

/-- The membership test of a branch.  `c in ('a','b')` tests for an element, while
`c in ('a')`, without the comma, is Python's substring test (arguments.py 775, 812,
819, 826, 833, 840, 847, 875: `"l2'"`, `'2k2'`, `'tk1'`, `'2oop1'`, `'oq2'`, `'2oq1'`,
`'ko2'`, `'kjq1'`). -/
inductive Names where
  | tuple (l : List String)
  | sub (s : String)
  deriving DecidableEq

/-- Python `c in names`. -/
def Names.mem : Names → String → Bool
  | .tuple l, c => l.contains c
  | .sub s, c => decide (c.toList <:+: s.toList)

/-- Coefficients used for the M1 tide (keyword `M1`, arguments.py 504-509). -/
inductive M1 where
  | doodson | ray | perth5 | other
  deriving DecidableEq

/-- The keyword arguments of `nodal` (arguments.py 514-521): `OTIS_TYPE`, `FES_TYPE`,
`PERTH3_TYPE` and the value of `M1`. -/
structure Cfg where
  otis : Bool
  fes : Bool
  perth3 : Bool
  m1 : M1

/-- `kwargs['corrections']`, `kwargs['M1']` to the flags (arguments.py 514-521). -/
def Cfg.ofKwargs (corrections m1 : String) : Cfg where
  otis := ["OTIS", "ATLAS", "TMD3", "netcdf"].contains corrections
  fes := corrections == "FES"
  perth3 := corrections == "perth3"
  m1 := if m1 == "Doodson" then .doodson else if m1 == "Ray" then .ray
    else if m1 == "perth5" then .perth5 else .other

/-- The second half of the test of a branch. -/
inductive Cond where
  | always | otis | fes | perth3 | fesOrPerth3 | m1 (v : M1)
  deriving DecidableEq

/-- Whether the condition holds. -/
def Cond.holds : Cond → Cfg → Bool
  | .always, _ => true
  | .otis, k => k.otis
  | .fes, k => k.fes
  | .perth3, k => k.perth3
  | .fesOrPerth3, k => k.fes || k.perth3
  | .m1 v, k => k.m1 == v

/-- One term `a * sin((i n + j p) dtr)` or `a * cos((i n + j p) dtr)`. -/
structure Term where
  a : ℚ
  i : ℤ
  j : ℤ
  deriving DecidableEq

/-- One parent of a compound tide: its name, the power of its factor and the multiple of its
angle. -/
structure Parent where
  name : String
  pow : ℕ
  mul : ℤ
  deriving DecidableEq

/-- The branches for FES models, named after the main constituent of each. -/
inductive FesKind where
  | mm | mf | msf | o1 | j1 | k1 | oo1 | m2 | l2 | k2 | eta2 | m3
  deriving DecidableEq

/-- What a branch computes.
* `terms s c0 c`: `term1` is the sine series `s`, `term2` is `c0` plus the cosine series `c`,
  then `f = sqrt(term1**2 + term2**2)` and `u = arctan2(term1, term2)` (lines 1166-1167);
* `direct c0 c s`: `f` is `c0` plus the cosine series, `u` is `dtr` times the sine series;
* `mixed s c0 c us`: `f` as for `terms`, `u` as for `direct` (lines 612-617);
* `qOtis a b`: lines 629-632;
* `fes k`: the FES branches;
* `compound ps`: recursion on the parents. -/
inductive Rule where
  | terms (s : List Term) (c0 : ℚ) (c : List Term)
  | direct (c0 : ℚ) (c s : List Term)
  | mixed (s : List Term) (c0 : ℚ) (c us : List Term)
  | qOtis (a b : ℚ)
  | fes (k : FesKind)
  | compound (ps : List Parent)
  deriving DecidableEq

/-- One branch of the chain. -/
structure Branch where
  names : Names
  cond : Cond
  rule : Rule

/-- The chain of branches (arguments.py 569-1158), in order. -/
def chain : List Branch := [
  ⟨.tuple ["msf", "tau1", "p1", "theta1", "lambda2", "s2"],
    .otis, .terms [] 1.0 []⟩,
  ⟨.tuple ["p1", "s2"],
    .fesOrPerth3, .terms [] 1.0 []⟩,
  ⟨.tuple ["mm", "msm"],
    .otis, .terms [] 1.0 [⟨-0.13, 1, 0⟩]⟩,
  ⟨.tuple ["mm", "msm"],
    .fes, .fes .mm⟩,
  ⟨.tuple ["mm", "msm"],
    .always, .terms [⟨-0.0534, 0, 2⟩, ⟨-0.0219, -1, 2⟩] 1.0 [⟨-0.1308, 1, 0⟩, ⟨-0.0534, 0, 2⟩, ⟨-0.0219, -1, 2⟩]⟩,
  ⟨.tuple ["mf", "msqm", "msp", "mq", "mtm"],
    .otis, .direct 1.043 [⟨0.414, 1, 0⟩] [⟨-23.7, 1, 0⟩, ⟨2.7, 2, 0⟩, ⟨-0.4, 3, 0⟩]⟩,
  ⟨.tuple ["mf", "msqm", "msp", "mq", "mt", "mtm"],
    .fes, .fes .mf⟩,
  ⟨.tuple ["mf", "msqm", "msp", "mq"],
    .always, .terms [⟨-0.04324, 0, 2⟩, ⟨-0.41465, 1, 0⟩, ⟨-0.03873, 2, 0⟩] 1.0 [⟨0.04324, 0, 2⟩, ⟨0.41465, 1, 0⟩, ⟨0.03873, 2, 0⟩]⟩,
  ⟨.tuple ["mt"],
    .otis, .terms [⟨-0.203, 1, 0⟩, ⟨-0.04, 2, 0⟩] 1.0 [⟨0.203, 1, 0⟩, ⟨0.04, 2, 0⟩]⟩,
  ⟨.tuple ["mt", "mtm"],
    .always, .terms [⟨-0.018, 0, 2⟩, ⟨-0.4145, 1, 0⟩, ⟨-0.04, 2, 0⟩] 1.0 [⟨0.018, 0, 2⟩, ⟨0.4145, 1, 0⟩, ⟨0.04, 2, 0⟩]⟩,
  ⟨.tuple ["msf"],
    .fes, .fes .msf⟩,
  ⟨.tuple ["msf"],
    .always, .terms [⟨0.137, 1, 0⟩] 1.0 []⟩,
  ⟨.tuple ["mst"],
    .always, .terms [⟨-0.38, 0, 2⟩, ⟨-0.413, 1, 0⟩, ⟨-0.037, 2, 0⟩] 1.0 [⟨0.38, 0, 2⟩, ⟨0.413, 1, 0⟩, ⟨0.037, 2, 0⟩]⟩,
  ⟨.tuple ["o1", "so3", "op2"],
    .otis, .mixed [⟨0.189, 1, 0⟩, ⟨-0.0058, 2, 0⟩] 1.0 [⟨0.189, 1, 0⟩, ⟨-0.0058, 2, 0⟩] [⟨10.8, 1, 0⟩, ⟨-1.3, 2, 0⟩, ⟨0.2, 3, 0⟩]⟩,
  ⟨.tuple ["o1", "so3", "op2", "2q1", "q1", "rho1", "sigma1"],
    .fes, .fes .o1⟩,
  ⟨.tuple ["q1", "o1"],
    .perth3, .direct 1.009 [⟨0.187, 1, 0⟩, ⟨-0.015, 2, 0⟩] [⟨10.8, 1, 0⟩, ⟨-1.3, 2, 0⟩]⟩,
  ⟨.tuple ["o1", "so3", "op2"],
    .always, .terms [⟨0.1886, 1, 0⟩, ⟨-0.0058, 2, 0⟩, ⟨-0.0065, 0, 2⟩] 1.0 [⟨0.1886, 1, 0⟩, ⟨-0.0058, 2, 0⟩, ⟨-0.0065, 0, 2⟩]⟩,
  ⟨.tuple ["2q1", "q1", "rho1", "sigma1"],
    .otis, .qOtis 0.188 0.189⟩,
  ⟨.tuple ["2q1", "q1", "rho1", "sigma1"],
    .always, .terms [⟨0.1886, 1, 0⟩] 1.0 [⟨0.1886, 1, 0⟩]⟩,
  ⟨.tuple ["tau1"],
    .always, .terms [⟨0.219, 1, 0⟩] 1.0 [⟨-0.219, 1, 0⟩]⟩,
  ⟨.tuple ["beta1"],
    .always, .terms [⟨0.226, 1, 0⟩] 1.0 [⟨0.226, 1, 0⟩]⟩,
  ⟨.tuple ["m1"],
    .m1 .doodson, .terms [⟨1.0, 0, 1⟩, ⟨0.2, -1, 1⟩] 0 [⟨2.0, 0, 1⟩, ⟨0.4, -1, 1⟩]⟩,
  ⟨.tuple ["m1"],
    .m1 .ray, .terms [⟨0.64, 0, 1⟩, ⟨0.135, -1, 1⟩] 0 [⟨1.36, 0, 1⟩, ⟨0.267, -1, 1⟩]⟩,
  ⟨.tuple ["m1"],
    .m1 .perth5, .terms [⟨-0.2294, 1, 0⟩, ⟨-0.3594, 0, 2⟩, ⟨-0.0664, -1, 2⟩] 1.0 [⟨0.1722, 1, 0⟩, ⟨0.3594, 0, 2⟩, ⟨0.0664, -1, 2⟩]⟩,
  ⟨.tuple ["chi1"],
    .otis, .terms [⟨-0.221, 1, 0⟩] 1.0 [⟨0.221, 1, 0⟩]⟩,
  ⟨.tuple ["chi1", "theta1", "j1"],
    .fes, .fes .j1⟩,
  ⟨.tuple ["chi1"],
    .always, .terms [⟨-0.25, 1, 0⟩] 1.0 [⟨0.193, 1, 0⟩]⟩,
  ⟨.tuple ["p1"],
    .always, .terms [⟨-0.0112, 1, 0⟩] 1.0 [⟨-0.0112, 1, 0⟩]⟩,
  ⟨.tuple ["k1", "sk3", "2sk5"],
    .otis, .terms [⟨-0.1554, 1, 0⟩, ⟨0.0029, 2, 0⟩] 1.0 [⟨0.1158, 1, 0⟩, ⟨-0.0029, 2, 0⟩]⟩,
  ⟨.tuple ["k1", "sk3", "2sk5"],
    .fes, .fes .k1⟩,
  ⟨.tuple ["k1"],
    .perth3, .direct 1.006 [⟨0.115, 1, 0⟩, ⟨-0.009, 2, 0⟩] [⟨-8.9, 1, 0⟩, ⟨0.7, 2, 0⟩]⟩,
  ⟨.tuple ["k1", "sk3", "2sk5"],
    .always, .terms [⟨-0.1554, 1, 0⟩, ⟨0.0031, 2, 0⟩] 1.0 [⟨0.1158, 1, 0⟩, ⟨-0.0028, 2, 0⟩]⟩,
  ⟨.tuple ["j1", "theta1"],
    .always, .terms [⟨-0.227, 1, 0⟩] 1.0 [⟨0.169, 1, 0⟩]⟩,
  ⟨.tuple ["oo1", "ups1"],
    .otis, .terms [⟨-0.64, 1, 0⟩, ⟨-0.134, 2, 0⟩] 1.0 [⟨0.64, 1, 0⟩, ⟨0.134, 2, 0⟩]⟩,
  ⟨.tuple ["oo1", "ups1"],
    .fes, .fes .oo1⟩,
  ⟨.tuple ["oo1", "ups1"],
    .always, .terms [⟨-0.64, 1, 0⟩, ⟨-0.134, 2, 0⟩, ⟨-0.15, 0, 2⟩] 1.0 [⟨0.64, 1, 0⟩, ⟨0.134, 2, 0⟩, ⟨0.15, 0, 2⟩]⟩,
  ⟨.tuple ["m2", "2n2", "mu2", "n2", "nu2", "lambda2", "ms4", "eps2", "2sm6", "2sn6", "mp1", "mp3", "sn4"],
    .fes, .fes .m2⟩,
  ⟨.tuple ["m2", "n2"],
    .perth3, .direct 1.0 [⟨-0.037, 1, 0⟩] [⟨-2.1, 1, 0⟩]⟩,
  ⟨.tuple ["m2", "2n2", "mu2", "n2", "nu2", "lambda2", "ms4", "eps2", "2sm6", "2sn6", "mp1", "mp3", "sn4"],
    .always, .terms [⟨-0.03731, 1, 0⟩, ⟨0.00052, 2, 0⟩] 1.0 [⟨-0.03731, 1, 0⟩, ⟨0.00052, 2, 0⟩]⟩,
  ⟨.tuple ["l2", "sl4"],
    .otis, .terms [⟨-0.25, 0, 2⟩, ⟨-0.11, -1, 2⟩, ⟨-0.04, 1, 0⟩] 1.0 [⟨-0.25, 0, 2⟩, ⟨-0.11, -1, 2⟩, ⟨-0.04, 1, 0⟩]⟩,
  ⟨.tuple ["l2", "sl4"],
    .fes, .fes .l2⟩,
  ⟨.tuple ["l2", "sl4"],
    .always, .terms [⟨-0.25, 0, 2⟩, ⟨-0.11, -1, 2⟩, ⟨-0.037, 1, 0⟩] 1.0 [⟨-0.25, 0, 2⟩, ⟨-0.11, -1, 2⟩, ⟨-0.037, 1, 0⟩]⟩,
  ⟨.tuple ["l2b"],
    .always, .terms [⟨0.441, 1, 0⟩] 1.0 [⟨0.441, 1, 0⟩]⟩,
  ⟨.tuple ["k2", "sk4", "2sk6", "kp1"],
    .otis, .terms [⟨-0.3108, 1, 0⟩, ⟨-0.0324, 2, 0⟩] 1.0 [⟨0.2852, 1, 0⟩, ⟨0.0324, 2, 0⟩]⟩,
  ⟨.tuple ["k2", "sk4", "2sk6", "kp1"],
    .fes, .fes .k2⟩,
  ⟨.tuple ["k2"],
    .perth3, .direct 1.024 [⟨0.286, 1, 0⟩, ⟨0.008, 2, 0⟩] [⟨-17.7, 1, 0⟩, ⟨0.7, 2, 0⟩]⟩,
  ⟨.tuple ["k2", "sk4", "2sk6", "kp1"],
    .always, .terms [⟨-0.3108, 1, 0⟩, ⟨-0.0324, 2, 0⟩] 1.0 [⟨0.2853, 1, 0⟩, ⟨0.0324, 2, 0⟩]⟩,
  ⟨.tuple ["gamma2"],
    .always, .terms [⟨0.147, 2, -2⟩] 1.0 [⟨0.147, 2, -2⟩]⟩,
  ⟨.tuple ["delta2"],
    .always, .terms [⟨0.505, 0, 2⟩, ⟨0.505, 1, 0⟩, ⟨-0.165, 2, 0⟩] 1.0 [⟨-0.505, 0, 2⟩, ⟨-0.505, 1, 0⟩, ⟨0.165, 2, 0⟩]⟩,
  ⟨.tuple ["eta2", "zeta2"],
    .fes, .fes .eta2⟩,
  ⟨.tuple ["eta2", "zeta2"],
    .always, .terms [⟨-0.436, 1, 0⟩] 1.0 [⟨0.436, 1, 0⟩]⟩,
  ⟨.tuple ["s2"],
    .always, .terms [⟨0.00225, 1, 0⟩] 1.0 [⟨0.00225, 1, 0⟩]⟩,
  ⟨.tuple ["m1'"],
    .always, .terms [⟨-0.01815, 1, 0⟩] 1.0 [⟨-0.27837, 1, 0⟩]⟩,
  ⟨.tuple ["q1'"],
    .always, .terms [⟨0.3915, 1, 0⟩, ⟨0.033, 2, 0⟩, ⟨0.061, 0, 2⟩] 1.0 [⟨0.3915, 1, 0⟩, ⟨0.033, 2, 0⟩, ⟨0.06, 0, 2⟩]⟩,
  ⟨.tuple ["j1'"],
    .always, .terms [⟨-0.438, 1, 0⟩, ⟨-0.033, 2, 0⟩] 1.0 [⟨0.372, 1, 0⟩, ⟨0.033, 2, 0⟩]⟩,
  ⟨.tuple ["2n2'"],
    .always, .terms [⟨0.166, 1, 0⟩] 1.0 [⟨0.166, 1, 0⟩]⟩,
  ⟨.tuple ["n2'"],
    .always, .terms [⟨0.1705, 1, 0⟩, ⟨-0.0035, 2, 0⟩, ⟨-0.0176, 0, 2⟩] 1.0 [⟨0.1705, 1, 0⟩, ⟨-0.0035, 2, 0⟩, ⟨-0.0176, 0, 2⟩]⟩,
  ⟨.sub "l2'",
    .always, .terms [⟨-0.2495, 1, 0⟩] 1.0 [⟨0.1315, 1, 0⟩]⟩,
  ⟨.tuple ["m3"],
    .fes, .fes .m3⟩,
  ⟨.tuple ["m3", "e3"],
    .always, .terms [⟨-0.05644, 1, 0⟩] 1.0 [⟨-0.05644, 1, 0⟩]⟩,
  ⟨.tuple ["j3", "f3"],
    .always, .terms [⟨-0.464, 1, 0⟩, ⟨-0.052, 2, 0⟩] 1.0 [⟨0.387, 1, 0⟩, ⟨0.052, 2, 0⟩]⟩,
  ⟨.tuple ["l3"],
    .always, .terms [⟨-0.373, 0, 2⟩, ⟨-0.164, -1, 2⟩] 1.0 [⟨-0.373, 0, 2⟩, ⟨-0.164, -1, 2⟩]⟩,
  ⟨.tuple ["mfdw"],
    .always, .direct 1.043 [⟨0.414, 1, 0⟩] [⟨-23.7, 1, 0⟩, ⟨2.7, 2, 0⟩, ⟨-0.4, 3, 0⟩]⟩,
  ⟨.tuple ["so1", "2so3", "2po1"],
    .always, .compound [⟨"o1", 1, -1⟩]⟩,
  ⟨.tuple ["o3"],
    .always, .compound [⟨"o1", 3, 3⟩]⟩,
  ⟨.sub "2k2",
    .always, .compound [⟨"k1", 2, 2⟩]⟩,
  ⟨.sub "tk1",
    .always, .compound [⟨"k1", 1, -1⟩]⟩,
  ⟨.sub "2oop1",
    .always, .compound [⟨"oo1", 2, 2⟩]⟩,
  ⟨.sub "oq2",
    .always, .compound [⟨"o1", 1, 1⟩, ⟨"q1", 1, 1⟩]⟩,
  ⟨.sub "2oq1",
    .always, .compound [⟨"o1", 2, 2⟩, ⟨"q1", 1, -1⟩]⟩,
  ⟨.sub "ko2",
    .always, .compound [⟨"o1", 1, 1⟩, ⟨"k1", 1, 1⟩]⟩,
  ⟨.tuple ["opk1"],
    .always, .compound [⟨"o1", 1, 1⟩, ⟨"k1", 1, -1⟩]⟩,
  ⟨.tuple ["2ook1"],
    .always, .compound [⟨"oo1", 2, 2⟩, ⟨"k1", 1, -1⟩]⟩,
  ⟨.tuple ["kj2"],
    .always, .compound [⟨"k1", 1, 1⟩, ⟨"j1", 1, 1⟩]⟩,
  ⟨.sub "kjq1",
    .always, .compound [⟨"k1", 1, 1⟩, ⟨"j1", 1, 1⟩, ⟨"q1", 1, -1⟩]⟩,
  ⟨.tuple ["k3"],
    .always, .compound [⟨"k1", 1, 1⟩, ⟨"k2", 1, 1⟩]⟩,
  ⟨.tuple ["m4", "mn4", "mns2", "2ms2", "mnus2", "mmus2", "2ns2", "n4", "mnu4", "mmu4", "2mt6", "2ms6", "msn6", "mns6", "2mr6", "msmu6", "2mp3", "2ms3", "2mp5", "2msp7", "2(ms)8", "2ms8"],
    .always, .compound [⟨"m2", 2, 2⟩]⟩,
  ⟨.tuple ["msn2", "snm2", "nsm2"],
    .always, .compound [⟨"m2", 2, 0⟩]⟩,
  ⟨.tuple ["mmun2", "2mn2"],
    .always, .compound [⟨"m2", 3, 1⟩]⟩,
  ⟨.tuple ["2sm2"],
    .always, .compound [⟨"m2", 1, -1⟩]⟩,
  ⟨.tuple ["m6", "2mn6", "2mnu6", "2mmu6", "2nm6", "mnnu6", "mnmu6", "3ms8", "3mp7", "2msn8", "3ms5", "3mp5", "3ms4", "3m2s2", "3m2s10", "2mn2s2"],
    .always, .compound [⟨"m2", 3, 3⟩]⟩,
  ⟨.tuple ["m8", "ma8", "3mn8", "3mnu8", "3mmu8", "2mn8", "2(mn):8", "3msn10", "4ms10", "2(mn)S10", "4m2s12"],
    .always, .compound [⟨"m2", 4, 4⟩]⟩,
  ⟨.tuple ["m10", "4mn10", "5ms12", "4msn12", "4mns12"],
    .always, .compound [⟨"m2", 5, 5⟩]⟩,
  ⟨.tuple ["m12", "5mn12", "6ms14", "5msn14"],
    .always, .compound [⟨"m2", 6, 6⟩]⟩,
  ⟨.tuple ["m14"],
    .always, .compound [⟨"m2", 7, 7⟩]⟩,
  ⟨.tuple ["mo3", "no3", "mso5"],
    .always, .compound [⟨"m2", 1, 1⟩, ⟨"o1", 1, 1⟩]⟩,
  ⟨.tuple ["no1", "nso3"],
    .always, .compound [⟨"m2", 1, 1⟩, ⟨"o1", 1, -1⟩]⟩,
  ⟨.tuple ["mq3", "nq3"],
    .always, .compound [⟨"m2", 1, 1⟩, ⟨"q1", 1, 1⟩]⟩,
  ⟨.tuple ["2mq3"],
    .always, .compound [⟨"m2", 2, 2⟩, ⟨"q1", 1, -1⟩]⟩,
  ⟨.tuple ["2no3"],
    .always, .compound [⟨"m2", 2, 2⟩, ⟨"o1", 1, -1⟩]⟩,
  ⟨.tuple ["2mo5", "2no5", "mno5", "2mso7", "2(ms):o9"],
    .always, .compound [⟨"m2", 2, 2⟩, ⟨"o1", 1, 1⟩]⟩,
  ⟨.tuple ["2mno7", "3mo7"],
    .always, .compound [⟨"m2", 3, 3⟩, ⟨"o1", 1, 1⟩]⟩,
  ⟨.tuple ["mk3", "nk3", "msk5", "nsk5"],
    .always, .compound [⟨"m2", 1, 1⟩, ⟨"k1", 1, 1⟩]⟩,
  ⟨.tuple ["mnk5", "2mk5", "2nk5", "2msk7"],
    .always, .compound [⟨"m2", 2, 2⟩, ⟨"k1", 1, 1⟩]⟩,
  ⟨.tuple ["2mk3"],
    .always, .compound [⟨"m2", 2, 2⟩, ⟨"k1", 1, -1⟩]⟩,
  ⟨.tuple ["3mk7", "2mnk7", "2nmk7", "3nk7", "3msk9"],
    .always, .compound [⟨"m2", 3, 3⟩, ⟨"k1", 1, 1⟩]⟩,
  ⟨.tuple ["3msk7"],
    .always, .compound [⟨"m2", 3, 3⟩, ⟨"k1", 1, -1⟩]⟩,
  ⟨.tuple ["4mk9", "3mnk9", "2m2nk9", "2(mn):k9", "3nmk9", "4msk11"],
    .always, .compound [⟨"m2", 4, 4⟩, ⟨"k1", 1, 1⟩]⟩,
  ⟨.tuple ["3km5"],
    .always, .compound [⟨"m2", 1, 1⟩, ⟨"k1", 3, 3⟩]⟩,
  ⟨.tuple ["mk4", "nk4", "mks2"],
    .always, .compound [⟨"m2", 1, 1⟩, ⟨"k2", 1, 1⟩]⟩,
  ⟨.tuple ["msk2", "2smk4", "msk6", "snk6"],
    .always, .compound [⟨"m2", 1, 1⟩, ⟨"k2", 1, -1⟩]⟩,
  ⟨.tuple ["mnk6", "2mk6", "2msk8", "msnk8"],
    .always, .compound [⟨"m2", 2, 2⟩, ⟨"k2", 1, 1⟩]⟩,
  ⟨.tuple ["mnk2", "2mk2"],
    .always, .compound [⟨"m2", 2, 2⟩, ⟨"k2", 1, -1⟩]⟩,
  ⟨.tuple ["mkn2", "nkm2"],
    .always, .compound [⟨"m2", 2, 0⟩, ⟨"k2", 1, 1⟩]⟩,
  ⟨.tuple ["skm2"],
    .always, .compound [⟨"m2", 1, -1⟩, ⟨"k2", 1, 1⟩]⟩,
  ⟨.tuple ["3mk8", "2mnk8"],
    .always, .compound [⟨"m2", 3, 3⟩, ⟨"k2", 1, 1⟩]⟩,
  ⟨.tuple ["m2(ks):2"],
    .always, .compound [⟨"m2", 1, 1⟩, ⟨"k2", 2, 2⟩]⟩,
  ⟨.tuple ["2ms2k2"],
    .always, .compound [⟨"m2", 2, 2⟩, ⟨"k2", 2, -2⟩]⟩,
  ⟨.tuple ["mko5", "msko7"],
    .always, .compound [⟨"m2", 1, 1⟩, ⟨"k2", 1, 1⟩, ⟨"o1", 1, 1⟩]⟩,
  ⟨.tuple ["ml4", "msl6"],
    .always, .compound [⟨"m2", 1, 1⟩, ⟨"l2", 1, 1⟩]⟩,
  ⟨.tuple ["2ml2"],
    .always, .compound [⟨"m2", 2, 2⟩, ⟨"l2", 1, -1⟩]⟩,
  ⟨.tuple ["2ml6", "2ml2s2", "2mls4", "2msl8"],
    .always, .compound [⟨"m2", 2, 2⟩, ⟨"l2", 1, 1⟩]⟩,
  ⟨.tuple ["2nmls6", "3mls6", "2mnls6", "3ml8", "2mnl8", "3msl10"],
    .always, .compound [⟨"m2", 3, 3⟩, ⟨"l2", 1, 1⟩]⟩,
  ⟨.tuple ["4msl12"],
    .always, .compound [⟨"m2", 4, 4⟩, ⟨"l2", 1, 1⟩]⟩]

/-- The last `else` (arguments.py 1159-1162). -/
def defaultRule : Rule := .terms [] 1 []

/-- The first branch that applies (arguments.py 568-1162). -/
def rule (k : Cfg) (c : String) : Rule :=
  match chain.find? (fun b => b.names.mem c && b.cond.holds k) with
  | some b => b.rule
  | none => defaultRule

/-- Degrees to radians (arguments.py 524). -/
noncomputable def dtr : ℝ := π / 180

/-- A sine series (arguments.py 526-534 and the terms of the branches). -/
noncomputable def sinSum (l : List Term) (n p : ℝ) : ℝ :=
  (l.map fun t => (t.a : ℝ) * sin ((t.i * n + t.j * p) * dtr)).sum

/-- A cosine series. -/
noncomputable def cosSum (l : List Term) (n p : ℝ) : ℝ :=
  (l.map fun t => (t.a : ℝ) * cos ((t.i * n + t.j * p) * dtr)).sum

/-- `numpy.arctan2`. -/
noncomputable def arctan2 (y x : ℝ) : ℝ := Complex.arg ⟨x, y⟩

/-- The additional astronomical terms for FES models (arguments.py 549-565). -/
noncomputable def II (n : ℝ) : ℝ := arccos (0.913694997 - 0.035692561 * cos (n * dtr))
noncomputable def at1 (n : ℝ) : ℝ := arctan (1.01883 * tan (n * dtr / 2))
noncomputable def at2 (n : ℝ) : ℝ := arctan (0.64412 * tan (n * dtr / 2))
noncomputable def xi (n : ℝ) : ℝ :=
  arctan2 (sin (-at1 n - at2 n + n * dtr)) (cos (-at1 n - at2 n + n * dtr))
noncomputable def nu (n : ℝ) : ℝ := at1 n - at2 n
noncomputable def I2 (n : ℝ) : ℝ := tan (II n / 2)
noncomputable def Ra1 (n p : ℝ) : ℝ :=
  sqrt (1 - 12 * I2 n ^ 2 * cos (2 * (p - xi n)) + 36 * I2 n ^ 4)
noncomputable def P2 (n p : ℝ) : ℝ := sin (2 * (p - xi n))
noncomputable def Q2 (n p : ℝ) : ℝ := 1 / (6 * I2 n ^ 2) - cos (2 * (p - xi n))
noncomputable def R (n p : ℝ) : ℝ := arctan (P2 n p / Q2 n p)
noncomputable def nuPrime (n : ℝ) : ℝ :=
  arctan (sin (2 * II n) * sin (nu n) / (sin (2 * II n) * cos (nu n) + 0.3347))
noncomputable def nuSec (n : ℝ) : ℝ :=
  0.5 * arctan (sin (II n) ^ 2 * sin (2 * nu n) / (sin (II n) ^ 2 * cos (2 * nu n) + 0.0727))

/-- The FES branches, `(u, f)` (arguments.py 578-580, 588-591, 601-604, 618-621, 657-660,
670-675, 689-692, 696-700, 712-715, 726-731, 745-748, 779-782). -/
noncomputable def FesKind.eval (n p : ℝ) : FesKind → ℝ × ℝ
  | .mm => (arctan2 0 ((2 / 3 - sin (II n) ^ 2) / 0.5021),
      sqrt (0 ^ 2 + ((2 / 3 - sin (II n) ^ 2) / 0.5021) ^ 2))
  | .mf => (-2 * xi n, sin (II n) ^ 2 / 0.1578)
  | .msf => (2 * xi n - 2 * nu n, 1)
  | .o1 => (2 * xi n - nu n, sin (II n) * cos (II n / 2) ^ 2 / 0.38)
  | .j1 => (-nu n, sin (2 * II n) / 0.7214)
  | .k1 => (-nuPrime n,
      sqrt (0.8965 * sin (2 * II n) ^ 2 + 0.6001 * sin (2 * II n) * cos (nu n) + 0.1006))
  | .oo1 => (-2 * xi n - nu n, sin (II n) * sin (II n / 2) ^ 2 / 0.01640)
  | .m2 => (2 * xi n - 2 * nu n, cos (II n / 2) ^ 4 / 0.9154)
  | .l2 => (2 * xi n - 2 * nu n - R n p, Ra1 n p * cos (II n / 2) ^ 4 / 0.9154)
  | .k2 => (-2 * nuSec n,
      sqrt (19.0444 * sin (II n) ^ 4 + 2.7702 * sin (II n) ^ 2 * cos (2 * nu n) + 0.0981))
  | .eta2 => (-2 * nu n, sin (II n) ^ 2 / 0.1565)
  | .m3 => (3 * xi n - 3 * nu n, cos (II n / 2) ^ 6 / 0.8758)

/-- `(u, f)` of the branches that do not recurse. -/
noncomputable def Rule.eval (n p : ℝ) : Rule → ℝ × ℝ
  | .terms s c0 c => (arctan2 (sinSum s n p) (c0 + cosSum c n p),
      sqrt (sinSum s n p ^ 2 + (c0 + cosSum c n p) ^ 2))
  | .direct c0 c s => (dtr * sinSum s n p, c0 + cosSum c n p)
  | .mixed s c0 c us => (dtr * sinSum us n p,
      sqrt (sinSum s n p ^ 2 + (c0 + cosSum c n p) ^ 2))
  | .qOtis a b => (arctan (b * sin (n * dtr) / (1 + b * cos (n * dtr))),
      sqrt ((1 + a * cos (n * dtr)) ^ 2 + (a * sin (n * dtr)) ^ 2))
  | .fes k => k.eval n p
  | .compound _ => (0, 1)

/-- The corrections of a compound tide from those of its parents: powers of the factors
multiplied, multiples of the angles added (arguments.py 797-1158). -/
noncomputable def compose (ps : List Parent) (r : List (ℝ × ℝ)) : ℝ × ℝ :=
  (((ps.zip r).map fun q => (q.1.mul : ℝ) * q.2.1).sum,
    ((ps.zip r).map fun q => q.2.2 ^ q.1.pow).prod)

/-- `nodal` (arguments.py 479-1170): the list of `(u, f)`, one per constituent.  `none` stands
for a recursion deeper than `fuel`. -/
noncomputable def nodal : ℕ → Cfg → ℝ → ℝ → List String → Option (List (ℝ × ℝ))
  | 0, _, _, _, _ => none
  | fuel + 1, k, n, p, cs => cs.mapM fun c =>
    match rule k c with
    | .compound ps => (nodal fuel k n p (ps.map Parent.name)).map (compose ps)
    | r => some (r.eval n p)

end Verif.Nodal
