import Mathlib.Data.Rat.Defs

/-!
# The long-period terms of Cartwright and Edden (1973)

The rows without mean lunar time of the table /repo/pyTMD/data/ce1973_tab1.txt: multiples of the
mean longitudes of the moon, the sun, the lunar perigee, of minus the longitude of the ascending
node and of the solar perigee, with the amplitude (m) of the last epoch span.
-/

namespace Verif.Spec

def zonal : List (List ℤ × ℚ) := [
  ([0, 0, 0, 0, 0], -0.31455),
  ([0, 0, 0, 1, 0], 0.02793),
  ([0, 0, 0, 2, 0], -0.00028),
  ([0, 0, 2, 1, 0], 0.00004),
  ([0, 1, 0, -1, -1], -0.00004),
  ([0, 1, 0, 0, -1], -0.00492),
  ([0, 1, 0, 0, 1], 0.00026),
  ([0, 1, 0, 1, -1], 0.00005),
  ([0, 2, -2, -1, 0], 0.00002),
  ([0, 2, -2, 0, 0], -0.00032),
  ([0, 2, 0, 0, 0], -0.03100),
  ([0, 2, 0, 0, -2], -0.00012),
  ([0, 2, 0, 1, 0], 0.00077),
  ([0, 2, 0, 2, 0], 0.00017),
  ([0, 3, 0, 0, -1], -0.00181),
  ([0, 3, 0, 1, -1], 0.00003),
  ([0, 4, 0, 0, -2], -0.00007),
  ([1, -3, 1, -1, 1], 0.00002),
  ([1, -3, 1, 0, 1], -0.00029),
  ([1, -2, -1, -2, 0], 0.00002),
  ([1, -2, -1, -1, 0], 0.00007),
  ([1, -2, 1, -1, 0], 0.00048),
  ([1, -2, 1, 0, 0], -0.00673),
  ([1, -2, 1, 1, 0], 0.00044),
  ([1, -1, -1, 0, 1], -0.00022),
  ([1, -1, 0, 0, 0], 0.00020),
  ([1, -1, 1, 0, -1], 0.00005),
  ([1, 0, -1, -2, 0], -0.00003),
  ([1, 0, -1, -1, 0], 0.00231),
  ([1, 0, -1, 0, 0], -0.03518),
  ([1, 0, -1, 1, 0], 0.00229),
  ([1, 0, 1, 0, 0], 0.00188),
  ([1, 0, 1, 1, 0], 0.00077),
  ([1, 0, 1, 2, 0], 0.00021),
  ([1, 1, -1, 0, -1], 0.00018),
  ([1, 2, -1, 0, 0], 0.00049),
  ([1, 2, -1, 1, 0], 0.00024),
  ([1, 2, -1, 2, 0], 0.00004),
  ([1, 3, -1, 0, -1], 0.00002),
  ([2, -4, 2, 0, 0], -0.00011),
  ([2, -3, 0, 0, 1], -0.00038),
  ([2, -3, 0, 1, 1], 0.00002),
  ([2, -2, 0, -1, 0], -0.00042),
  ([2, -2, 0, 0, 0], -0.00583),
  ([2, -2, 0, 1, 0], 0.00038),
  ([2, -2, 2, 0, 0], 0.00004),
  ([2, -1, -2, 0, 1], -0.00004),
  ([2, -1, -1, 0, 0], 0.00003),
  ([2, -1, 0, 0, -1], 0.00006),
  ([2, -1, 0, 0, 1], -0.00020),
  ([2, -1, 0, 1, 1], -0.00004),
  ([2, 0, -2, -1, 0], 0.00015),
  ([2, 0, -2, 0, 0], -0.00288),
  ([2, 0, -2, 1, 0], 0.00019),
  ([2, 0, 0, 0, 0], -0.06663),
  ([2, 0, 0, 1, 0], -0.02762),
  ([2, 0, 0, 2, 0], -0.00258),
  ([2, 0, 0, 3, 0], 0.00006),
  ([2, 1, -2, 0, -1], 0.00003),
  ([2, 1, 0, 0, -1], 0.00023),
  ([2, 1, 0, 1, -1], 0.00006),
  ([2, 2, -2, 0, 0], 0.00020),
  ([2, 2, -2, 1, 0], 0.00008),
  ([2, 2, 0, 2, 0], 0.00003),
  ([3, -5, 1, 0, 1], -0.00002),
  ([3, -4, 1, 0, 0], -0.00017),
  ([3, -3, -1, 0, 1], -0.00007),
  ([3, -3, 1, 0, 1], -0.00011),
  ([3, -3, 1, 1, 1], -0.00004),
  ([3, -2, -1, -1, 0], -0.00009),
  ([3, -2, -1, 0, 0], -0.00092),
  ([3, -2, -1, 1, 0], 0.00006),
  ([3, -2, 1, 0, 0], -0.00242),
  ([3, -2, 1, 1, 0], -0.00100),
  ([3, -2, 1, 2, 0], -0.00009),
  ([3, -1, -1, 0, 1], -0.00013),
  ([3, -1, -1, 1, 1], -0.00004),
  ([3, -1, 0, 0, 0], 0.00007),
  ([3, -1, 0, 1, 0], 0.00003),
  ([3, -1, 1, 0, -1], 0.00003),
  ([3, 0, -3, 0, 0], -0.00023),
  ([3, 0, -3, 1, -1], 0.00004),
  ([3, 0, -3, 1, 1], 0.00004),
  ([3, 0, -1, 0, 0], -0.01276),
  ([3, 0, -1, 1, 0], -0.00529),
  ([3, 0, -1, 2, 0], -0.00051),
  ([3, 0, 1, 2, 0], 0.00005),
  ([3, 0, 1, 3, 0], 0.00002),
  ([3, 1, -1, 0, -1], 0.00011),
  ([3, 1, -1, 1, -1], 0.00004),
  ([4, -4, 0, 0, 0], -0.00008),
  ([4, -4, 2, 0, 0], -0.00006),
  ([4, -4, 2, 1, 0], -0.00003),
  ([4, -3, 0, 0, 1], -0.00014),
  ([4, -3, 0, 1, 1], -0.00006),
  ([4, -2, -2, 0, 0], -0.00011),
  ([4, -2, 0, 0, 0], -0.00204),
  ([4, -2, 0, 1, 0], -0.00084),
  ([4, -2, 0, 2, 0], -0.00008),
  ([4, -1, -2, 0, 1], -0.00003),
  ([4, -1, 0, 0, -1], 0.00003),
  ([4, 0, -2, 0, 0], -0.00169),
  ([4, 0, -2, 1, 0], -0.00070),
  ([4, 0, -2, 2, 0], -0.00007)]

end Verif.Spec
