import Mathlib.Data.Real.Basic
/-!
The phases of sixty constituents in print (degrees), in the hour angle `T` of the mean sun and the mean longitudes of
the moon, the sun, the perigee of the moon and the perigee of the sun.
-/
namespace Verif.Spec

/-- The formulas; that of `s1` depends on the type of the corrections. -/
noncomputable def phases (otis : Bool) : List (String × (ℝ → ℝ → ℝ → ℝ → ℝ → ℝ)) := [
  ("sa", fun _ _ h _ pp => h - pp),
  ("ssa", fun _ _ h _ _ => 2 * h),
  ("mm", fun _ s _ p _ => s - p),
  ("msf", fun _ s h _ _ => 2 * s - 2 * h),
  ("mf", fun _ s _ _ _ => 2 * s),
  ("mt", fun _ s _ p _ => 3 * s - p),
  ("alpha1", fun T s h p _ => T - 5 * s + 3 * h + p - 90),
  ("2q1", fun T s h p _ => T - 4 * s + h + 2 * p - 90),
  ("sigma1", fun T s h _ _ => T - 4 * s + 3 * h - 90),
  ("q1", fun T s h p _ => T - 3 * s + h + p - 90),
  ("rho1", fun T s h p _ => T - 3 * s + 3 * h - p - 90),
  ("o1", fun T s h _ _ => T - 2 * s + h - 90),
  ("tau1", fun T s h _ _ => T - 2 * s + 3 * h + 90),
  ("m1", fun T s h _ _ => T - s + h + 90),
  ("chi1", fun T s h p _ => T - s + 3 * h - p + 90),
  ("pi1", fun T _ h _ pp => T - 2 * h + pp - 90),
  ("p1", fun T _ h _ _ => T - h - 90),
  ("s1", fun T _ _ _ _ => T + if otis then 90 else 180),
  ("k1", fun T _ h _ _ => T + h + 90),
  ("psi1", fun T _ h _ pp => T + 2 * h - pp + 90),
  ("phi1", fun T _ h _ _ => T + 3 * h + 90),
  ("theta1", fun T s h p _ => T + s - h + p + 90),
  ("j1", fun T s h p _ => T + s + h - p + 90),
  ("oo1", fun T s h _ _ => T + 2 * s + h + 90),
  ("2n2", fun T s h p _ => 2 * T - 4 * s + 2 * h + 2 * p),
  ("mu2", fun T s h _ _ => 2 * T - 4 * s + 4 * h),
  ("n2", fun T s h p _ => 2 * T - 3 * s + 2 * h + p),
  ("nu2", fun T s h p _ => 2 * T - 3 * s + 4 * h - p),
  ("m2a", fun T s h _ pp => 2 * T - 2 * s + h + pp),
  ("m2", fun T s h _ _ => 2 * T - 2 * s + 2 * h),
  ("m2b", fun T s h _ pp => 2 * T - 2 * s + 3 * h - pp),
  ("lambda2", fun T s _ p _ => 2 * T - s + p + 180),
  ("l2", fun T s h p _ => 2 * T - s + 2 * h - p + 180),
  ("t2", fun T _ h _ pp => 2 * T - h + pp),
  ("s2", fun T _ _ _ _ => 2 * T),
  ("r2", fun T _ h _ pp => 2 * T + h - pp + 180),
  ("k2", fun T _ h _ _ => 2 * T + 2 * h),
  ("eta2", fun T s h p _ => 2 * T + s + 2 * h - p),
  ("mns2", fun T s h p _ => 2 * T - 5 * s + 4 * h + p),
  ("2sm2", fun T s h _ _ => 2 * T + 2 * s - 2 * h),
  ("m3", fun T s h _ _ => 3 / 2 * (2 * T - 2 * s + 2 * h)),
  ("mk3", fun T s h _ _ => (T + h + 90) + (2 * T - 2 * s + 2 * h)),
  ("s3", fun T _ _ _ _ => 3 * T),
  ("mn4", fun T s h p _ => (2 * T - 3 * s + 2 * h + p) + (2 * T - 2 * s + 2 * h)),
  ("m4", fun T s h _ _ => 2 * (2 * T - 2 * s + 2 * h)),
  ("ms4", fun T s h _ _ => (2 * T - 2 * s + 2 * h) + (2 * T)),
  ("mk4", fun T s h _ _ => (2 * T - 2 * s + 2 * h) + (2 * T + 2 * h)),
  ("s4", fun T _ _ _ _ => 4 * T),
  ("s5", fun T _ _ _ _ => 5 * T),
  ("m6", fun T s h _ _ => 3 * (2 * T - 2 * s + 2 * h)),
  ("s6", fun T _ _ _ _ => 3 * (2 * T)),
  ("s7", fun T _ _ _ _ => 7 * T),
  ("s8", fun T _ _ _ _ => 4 * (2 * T)),
  ("m8", fun T s h _ _ => 4 * (2 * T - 2 * s + 2 * h)),
  ("mks2", fun T s h _ _ => (2 * T - 2 * s + 2 * h) + (2 * T + 2 * h) - (2 * T)),
  ("msqm", fun _ s h _ _ => 4 * s - 2 * h),
  ("mtm", fun _ s _ p _ => 3 * s - p),
  ("n4", fun T s h p _ => 2 * (2 * T - 3 * s + 2 * h + p)),
  ("eps2", fun T s h p _ => 2 * T - 5 * s + 4 * h + p),
  ("z0", fun _ _ _ _ _ => 0)]

end Verif.Spec
