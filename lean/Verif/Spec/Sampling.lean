import Mathlib.Data.Real.Basic
/-!
Regular observations, and how long they must last to tell tidal constituents apart.
-/
namespace Verif.Spec.Sampling

/-- Times (days) a step apart from a first time, with corrections to dynamic time that change by no
more than a tenth of the step from one to the next. -/
structure Regular (ts : List (ℝ × ℝ)) (start step : ℝ) : Prop where
  pos : 0 < step
  time : ∀ (j : Nat) (t : ℝ × ℝ), ts[j]? = some t → t.1 = start + j * step
  correction : ∀ (j : Nat) (t t' : ℝ × ℝ), ts[j]? = some t → ts[j + 1]? = some t' →
    |t'.2 - t.2| ≤ step / 10

/-- The eight largest constituents, with N2's neighbour, the monthly and fortnightly tides and the
quarter-diurnal overtides. -/
def common : List String :=
  ["m2", "s2", "n2", "k2", "k1", "o1", "p1", "q1", "2n2", "mm", "mf", "m4", "ms4", "mn4"]

/-- The constituents which a year tells apart. -/
def annual : List String :=
  ["m2", "s2", "k1", "o1", "n2", "p1", "k2", "q1", "2n2", "mu2", "nu2", "j1", "rho1", "mf", "mm", "ssa", "m4",
   "ms4", "mn4", "m6", "mk3", "s6", "2sm2", "2mk3", "msf", "mt", "2q1"]

/-- Close neighbours, with modulations that need longer. -/
def long : List String := annual ++ ["l2", "t2", "m1", "oo1", "sa"]

/-- Constituents, the days that tell them apart, and the greatest step between observations. -/
def plans : List (List String × ℚ × ℚ) :=
  [(common, 210, 1 / 16), (annual, 365, 1 / 24), (long, 740, 1 / 24), ("m8" :: long, 740, 1 / 32)]

end Verif.Spec.Sampling
