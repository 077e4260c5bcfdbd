import Mathlib.Data.Rat.Defs
import Mathlib.Algebra.Order.Ring.Rat

/-!
# Published reference ellipsoids

Semi-major axis in metres and inverse flattening, as published: Clarke 1866 and NAD 27 (EPSG
7008), GRS 1967 (EPSG 7036), GRS 1980 and NAD 83 (EPSG 7019), WGS 72 (EPSG 7043), WGS 84 (EPSG
7030), ATS 77 (EPSG 7041), Krassovsky 1940 (EPSG 7024), International 1924 (EPSG 7022), Modified
Airy (EPSG 7002), Hughes 1980 (EPSG 7058), TOPEX/POSEIDON, EGM96, and the IERS Conventions (2010),
table 1.1.
-/

namespace Verif.Spec

structure Ellipsoid where
  name : String
  axis : ℚ
  inverseFlattening : ℚ
deriving DecidableEq

def publishedEllipsoids : List Ellipsoid := [
  ⟨"CLK66", 6378206.4, 294.9786982⟩,
  ⟨"NAD27", 6378206.4, 294.9786982⟩,
  ⟨"GRS67", 6378160, 298.247167427⟩,
  ⟨"GRS80", 6378137, 298.257222101⟩,
  ⟨"NAD83", 6378137, 298.257222101⟩,
  ⟨"WGS72", 6378135, 298.26⟩,
  ⟨"WGS84", 6378137, 298.257223563⟩,
  ⟨"ATS77", 6378135, 298.257⟩,
  ⟨"KRASS", 6378245, 298.3⟩,
  ⟨"INTER", 6378388, 297⟩,
  ⟨"MAIRY", 6377340.189, 299.3249646⟩,
  ⟨"HGH80", 6378273, 298.279411123064⟩,
  ⟨"TOPEX", 6378136.3, 298.257⟩,
  ⟨"EGM96", 6378136.3, 298.256415099⟩,
  ⟨"IERS", 6378136.6, 298.25642⟩]

end Verif.Spec
