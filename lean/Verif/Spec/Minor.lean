import Mathlib.Analysis.SpecialFunctions.Complex.Arg

/-!
# Nodal corrections of the minor constituents, by two ways

The twenty minor constituents that are inferred, and how far the nodal modulation with which they
are inferred may be from that with which they are predicted when a model provides them.
-/

namespace Verif.Spec.Minor

/-- The inferred constituents, by column. -/
def inferred : List String :=
  ["2q1", "sigma1", "rho1", "m1b", "m1", "chi1", "pi1", "phi1", "theta1", "j1", "oo1", "2n2",
    "mu2", "nu2", "lambda2", "l2", "l2b", "t2", "eps2", "eta2"]

/-- The modulation with angle `u` and factor `f`. -/
noncomputable def phasor (uf : ℝ × ℝ) : ℂ := uf.2 * Complex.exp (uf.1 * Complex.I)

/-- Conventions of nodal corrections. -/
inductive Kind where
  | otis | got | fes
  deriving DecidableEq

/-- The keywords of the conventions. -/
def Kind.keywords : Kind → List String
  | .otis => ["OTIS", "ATLAS", "TMD3", "netcdf"]
  | .got => ["GOT"]
  | .fes => ["FES"]

/-- Largest distance of the modulations. -/
def bounds : Kind → List (String × ℚ)
  | .otis => [("2q1", 0.024), ("sigma1", 0.024), ("rho1", 0.024), ("m1b", 0.185), ("chi1", 0),
      ("pi1", 0), ("phi1", 0), ("theta1", 0), ("j1", 0.029), ("oo1", 0), ("2n2", 0.0006),
      ("mu2", 0.0006), ("nu2", 0.0006), ("lambda2", 0), ("l2", 0.363), ("l2b", 0.882), ("t2", 0),
      ("eps2", 0.038), ("eta2", 0.436)]
  | .got => [("2q1", 0.024), ("sigma1", 0.024), ("rho1", 0.024), ("m1b", 0.185), ("chi1", 0.029),
      ("pi1", 0), ("phi1", 0), ("theta1", 0.227), ("j1", 0.029), ("oo1", 0.15), ("2n2", 0.0006),
      ("mu2", 0.0006), ("nu2", 0.0006), ("lambda2", 0.038), ("l2", 0.361), ("l2b", 0.882),
      ("t2", 0), ("eps2", 0.0006), ("eta2", 0)]
  | .fes => [("2q1", 0), ("sigma1", 0), ("rho1", 0), ("chi1", 0), ("pi1", 0), ("phi1", 0),
      ("j1", 0), ("oo1", 0), ("2n2", 0), ("mu2", 0), ("nu2", 0), ("lambda2", 0), ("l2", 0),
      ("l2b", 0.882), ("t2", 0), ("eps2", 0), ("eta2", 0)]

end Verif.Spec.Minor
