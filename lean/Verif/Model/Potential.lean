import Mathlib.Data.Rat.Defs

/-!
# Tables of the tide-generating potential

The tables /repo/pyTMD/data/ce1973_tab1.txt (Cartwright and Edden), ct1971_tab5.txt (Cartwright and Tayler,
third degree) and d1921_tab.txt (Doodson), as `_parse_tide_potential_table`
(/repo/pyTMD/arguments.py 1501-1540) reads them.  The text of the files is not modelled: the numbers of each
line are given as data, in the order of the file.  Amplitudes are exact decimals; the library rounds them to
single precision.
-/

namespace Verif.Potential

/-- A line of a table (arguments.py 1531-1538): the multiples of tau, s, h, p, n and pp, the amplitudes of
three epochs, the Doodson number and Doodson's scaled amplitude.  A twelfth column is dropped. -/
structure Row where
  tau : ℤ
  s : ℤ
  h : ℤ
  p : ℤ
  n : ℤ
  pp : ℤ
  hs1 : ℚ
  hs2 : ℚ
  hs3 : ℚ
  doodson : String
  hs0 : ℚ

/-- /repo/pyTMD/data/ce1973_tab1.txt, lines 1 to 80. -/
def ce1973_0 : List Row := [
  ⟨0, 0, 0, 0, 0, 0, -0.31446, -0.31452, -0.31455, "055.555", 0.73806⟩,
  ⟨0, 0, 0, 0, 1, 0, 0.02794, 0.02794, 0.02793, "055.565", -0.06556⟩,
  ⟨0, 0, 0, 0, 2, 0, -0.00027, -0.00028, -0.00028, "055.575", 0.00064⟩,
  ⟨0, 0, 0, 2, 1, 0, 0.00004, 0.00004, 0.00004, "055.765", -0.00009⟩,
  ⟨0, 0, 1, 0, -1, -1, -0.00004, -0.00004, -0.00004, "056.544", 0.00009⟩,
  ⟨0, 0, 1, 0, 0, -1, -0.00493, -0.00493, -0.00492, "056.554", 0.01156⟩,
  ⟨0, 0, 1, 0, 0, 1, 0.00027, 0.00026, 0.00026, "056.556", -0.00062⟩,
  ⟨0, 0, 1, 0, 1, -1, 0.00005, 0.00005, 0.00005, "056.564", -0.00011⟩,
  ⟨0, 0, 2, -2, -1, 0, 0.00002, 0.00002, 0.00002, "057.345", -0.00005⟩,
  ⟨0, 0, 2, -2, 0, 0, -0.00031, -0.00031, -0.00032, "057.355", 0.00074⟩,
  ⟨0, 0, 2, 0, 0, 0, -0.03104, -0.03102, -0.03100, "057.555", 0.07281⟩,
  ⟨0, 0, 2, 0, 0, -2, -0.00013, -0.00013, -0.00012, "057.553", 0.00029⟩,
  ⟨0, 0, 2, 0, 1, 0, 0.00077, 0.00077, 0.00077, "057.565", -0.00180⟩,
  ⟨0, 0, 2, 0, 2, 0, 0.00017, 0.00017, 0.00017, "057.575", -0.00040⟩,
  ⟨0, 0, 3, 0, 0, -1, -0.00182, -0.00181, -0.00181, "058.554", 0.00426⟩,
  ⟨0, 0, 3, 0, 1, -1, 0.00003, 0.00003, 0.00003, "058.564", -0.00007⟩,
  ⟨0, 0, 4, 0, 0, -2, -0.00007, -0.00007, -0.00007, "059.553", 0.00017⟩,
  ⟨0, 1, -3, 1, -1, 1, 0.00002, 0.00002, 0.00002, "062.646", -0.00005⟩,
  ⟨0, 1, -3, 1, 0, 1, -0.00029, -0.00029, -0.00029, "062.656", 0.00067⟩,
  ⟨0, 1, -2, -1, -2, 0, 0.00002, 0.00002, 0.00002, "063.435", -0.00006⟩,
  ⟨0, 1, -2, -1, -1, 0, 0.00006, 0.00007, 0.00007, "063.445", -0.00015⟩,
  ⟨0, 1, -2, 1, -1, 0, 0.00048, 0.00048, 0.00048, "063.645", -0.00113⟩,
  ⟨0, 1, -2, 1, 0, 0, -0.00673, -0.00673, -0.00673, "063.655", 0.01579⟩,
  ⟨0, 1, -2, 1, 1, 0, 0.00044, 0.00044, 0.00044, "063.665", -0.00103⟩,
  ⟨0, 1, -1, -1, 0, 1, -0.00022, -0.00022, -0.00022, "064.456", 0.00051⟩,
  ⟨0, 1, -1, 0, 0, 0, 0.00020, 0.00020, 0.00020, "064.555", -0.00046⟩,
  ⟨0, 1, -1, 1, 0, -1, 0.00005, 0.00005, 0.00005, "064.654", -0.00011⟩,
  ⟨0, 1, 0, -1, -2, 0, -0.00003, -0.00003, -0.00003, "065.435", 0.00007⟩,
  ⟨0, 1, 0, -1, -1, 0, 0.00231, 0.00231, 0.00231, "065.445", -0.00542⟩,
  ⟨0, 1, 0, -1, 0, 0, -0.03517, -0.03518, -0.03518, "065.455", 0.08254⟩,
  ⟨0, 1, 0, -1, 1, 0, 0.00228, 0.00228, 0.00229, "065.465", -0.00536⟩,
  ⟨0, 1, 0, 1, 0, 0, 0.00188, 0.00188, 0.00188, "065.655", -0.00441⟩,
  ⟨0, 1, 0, 1, 1, 0, 0.00077, 0.00077, 0.00077, "065.665", -0.00180⟩,
  ⟨0, 1, 0, 1, 2, 0, 0.00021, 0.00021, 0.00021, "065.675", -0.00049⟩,
  ⟨0, 1, 1, -1, 0, -1, 0.00018, 0.00018, 0.00018, "066.454", -0.00043⟩,
  ⟨0, 1, 2, -1, 0, 0, 0.00049, 0.00049, 0.00049, "067.455", -0.00115⟩,
  ⟨0, 1, 2, -1, 1, 0, 0.00025, 0.00025, 0.00024, "067.465", -0.00058⟩,
  ⟨0, 1, 2, -1, 2, 0, 0.00005, 0.00004, 0.00004, "067.475", -0.00010⟩,
  ⟨0, 1, 3, -1, 0, -1, 0.00002, 0.00002, 0.00002, "068.454", -0.00005⟩,
  ⟨0, 2, -4, 2, 0, 0, -0.00011, -0.00011, -0.00011, "071.755", 0.00026⟩,
  ⟨0, 2, -3, 0, 0, 1, -0.00039, -0.00039, -0.00038, "072.556", 0.00090⟩,
  ⟨0, 2, -3, 0, 1, 1, 0.00002, 0.00002, 0.00002, "072.566", -0.00006⟩,
  ⟨0, 2, -2, 0, -1, 0, -0.00042, -0.00042, -0.00042, "073.545", 0.00098⟩,
  ⟨0, 2, -2, 0, 0, 0, -0.00583, -0.00583, -0.00583, "073.555", 0.01369⟩,
  ⟨0, 2, -2, 0, 1, 0, 0.00037, 0.00037, 0.00038, "073.565", -0.00088⟩,
  ⟨0, 2, -2, 2, 0, 0, 0.00004, 0.00004, 0.00004, "073.755", -0.00009⟩,
  ⟨0, 2, -1, -2, 0, 1, -0.00004, -0.00004, -0.00004, "074.356", 0.00008⟩,
  ⟨0, 2, -1, -1, 0, 0, 0.00003, 0.00003, 0.00003, "074.455", -0.00007⟩,
  ⟨0, 2, -1, 0, 0, -1, 0.00006, 0.00006, 0.00006, "074.554", -0.00015⟩,
  ⟨0, 2, -1, 0, 0, 1, -0.00020, -0.00020, -0.00020, "074.556", 0.00048⟩,
  ⟨0, 2, -1, 0, 1, 1, -0.00004, -0.00004, -0.00004, "074.566", 0.00010⟩,
  ⟨0, 2, 0, -2, -1, 0, 0.00015, 0.00015, 0.00015, "075.345", -0.00036⟩,
  ⟨0, 2, 0, -2, 0, 0, -0.00288, -0.00288, -0.00288, "075.355", 0.00676⟩,
  ⟨0, 2, 0, -2, 1, 0, 0.00019, 0.00019, 0.00019, "075.365", -0.00044⟩,
  ⟨0, 2, 0, 0, 0, 0, -0.06669, -0.06665, -0.06663, "075.555", 0.15647⟩,
  ⟨0, 2, 0, 0, 1, 0, -0.02763, -0.02762, -0.02762, "075.565", 0.06483⟩,
  ⟨0, 2, 0, 0, 2, 0, -0.00258, -0.00258, -0.00258, "075.575", 0.00606⟩,
  ⟨0, 2, 0, 0, 3, 0, 0.00005, 0.00006, 0.00006, "075.585", -0.00013⟩,
  ⟨0, 2, 1, -2, 0, -1, 0.00003, 0.00003, 0.00003, "076.354", -0.00007⟩,
  ⟨0, 2, 1, 0, 0, -1, 0.00023, 0.00023, 0.00023, "076.554", -0.00054⟩,
  ⟨0, 2, 1, 0, 1, -1, 0.00006, 0.00006, 0.00006, "076.564", -0.00014⟩,
  ⟨0, 2, 2, -2, 0, 0, 0.00020, 0.00020, 0.00020, "077.355", -0.00047⟩,
  ⟨0, 2, 2, -2, 1, 0, 0.00008, 0.00008, 0.00008, "077.365", -0.00018⟩,
  ⟨0, 2, 2, 0, 2, 0, 0.00003, 0.00003, 0.00003, "077.575", -0.00007⟩,
  ⟨0, 3, -5, 1, 0, 1, -0.00002, -0.00002, -0.00002, "080.656", 0.00005⟩,
  ⟨0, 3, -4, 1, 0, 0, -0.00017, -0.00017, -0.00017, "081.655", 0.00041⟩,
  ⟨0, 3, -3, -1, 0, 1, -0.00007, -0.00007, -0.00007, "082.456", 0.00016⟩,
  ⟨0, 3, -3, 1, 0, 1, -0.00012, -0.00011, -0.00011, "082.656", 0.00027⟩,
  ⟨0, 3, -3, 1, 1, 1, -0.00005, -0.00004, -0.00004, "082.666", 0.00011⟩,
  ⟨0, 3, -2, -1, -1, 0, -0.00009, -0.00009, -0.00009, "083.445", 0.00022⟩,
  ⟨0, 3, -2, -1, 0, 0, -0.00092, -0.00092, -0.00092, "083.455", 0.00217⟩,
  ⟨0, 3, -2, -1, 1, 0, 0.00006, 0.00006, 0.00006, "083.465", -0.00014⟩,
  ⟨0, 3, -2, 1, 0, 0, -0.00242, -0.00242, -0.00242, "083.655", 0.00569⟩,
  ⟨0, 3, -2, 1, 1, 0, -0.00100, -0.00100, -0.00100, "083.665", 0.00236⟩,
  ⟨0, 3, -2, 1, 2, 0, -0.00009, -0.00009, -0.00009, "083.675", 0.00021⟩,
  ⟨0, 3, -1, -1, 0, 1, -0.00013, -0.00013, -0.00013, "084.456", 0.00031⟩,
  ⟨0, 3, -1, -1, 1, 1, -0.00004, -0.00004, -0.00004, "084.466", 0.00010⟩,
  ⟨0, 3, -1, 0, 0, 0, 0.00007, 0.00007, 0.00007, "084.555", -0.00017⟩,
  ⟨0, 3, -1, 0, 1, 0, 0.00003, 0.00003, 0.00003, "084.565", -0.00007⟩,
  ⟨0, 3, -1, 1, 0, -1, 0.00002, 0.00002, 0.00003, "084.654", -0.00005⟩]

/-- /repo/pyTMD/data/ce1973_tab1.txt, lines 81 to 160. -/
def ce1973_1 : List Row := [
  ⟨0, 3, 0, -3, 0, 0, -0.00023, -0.00023, -0.00023, "085.255", 0.00054⟩,
  ⟨0, 3, 0, -3, 1, -1, 0.00004, 0.00004, 0.00004, "085.264", -0.00009⟩,
  ⟨0, 3, 0, -3, 1, 1, 0.00004, 0.00004, 0.00004, "085.266", -0.00009⟩,
  ⟨0, 3, 0, -1, 0, 0, -0.01277, -0.01276, -0.01276, "085.455", 0.02996⟩,
  ⟨0, 3, 0, -1, 1, 0, -0.00529, -0.00529, -0.00529, "085.465", 0.01241⟩,
  ⟨0, 3, 0, -1, 2, 0, -0.00049, -0.00050, -0.00051, "085.475", 0.00115⟩,
  ⟨0, 3, 0, 1, 2, 0, 0.00005, 0.00005, 0.00005, "085.675", -0.00012⟩,
  ⟨0, 3, 0, 1, 3, 0, 0.00002, 0.00002, 0.00002, "085.685", -0.00005⟩,
  ⟨0, 3, 1, -1, 0, -1, 0.00011, 0.00011, 0.00011, "086.454", -0.00025⟩,
  ⟨0, 3, 1, -1, 1, -1, 0.00004, 0.00004, 0.00004, "086.464", -0.00009⟩,
  ⟨0, 4, -4, 0, 0, 0, -0.00008, -0.00008, -0.00008, "091.555", 0.00020⟩,
  ⟨0, 4, -4, 2, 0, 0, -0.00006, -0.00006, -0.00006, "091.755", 0.00015⟩,
  ⟨0, 4, -4, 2, 1, 0, -0.00003, -0.00003, -0.00003, "091.765", 0.00006⟩,
  ⟨0, 4, -3, 0, 0, 1, -0.00014, -0.00014, -0.00014, "092.556", 0.00033⟩,
  ⟨0, 4, -3, 0, 1, 1, -0.00006, -0.00006, -0.00006, "092.566", 0.00013⟩,
  ⟨0, 4, -2, -2, 0, 0, -0.00011, -0.00011, -0.00011, "093.355", 0.00026⟩,
  ⟨0, 4, -2, 0, 0, 0, -0.00204, -0.00204, -0.00204, "093.555", 0.00478⟩,
  ⟨0, 4, -2, 0, 1, 0, -0.00084, -0.00084, -0.00084, "093.565", 0.00198⟩,
  ⟨0, 4, -2, 0, 2, 0, -0.00008, -0.00008, -0.00008, "093.575", 0.00018⟩,
  ⟨0, 4, -1, -2, 0, 1, -0.00003, -0.00003, -0.00003, "094.356", 0.00007⟩,
  ⟨0, 4, -1, 0, 0, -1, 0.00003, 0.00003, 0.00003, "094.554", -0.00007⟩,
  ⟨0, 4, 0, -2, 0, 0, -0.00169, -0.00169, -0.00169, "095.355", 0.00396⟩,
  ⟨0, 4, 0, -2, 1, 0, -0.00070, -0.00070, -0.00070, "095.365", 0.00164⟩,
  ⟨0, 4, 0, -2, 2, 0, -0.00006, -0.00006, -0.00007, "095.375", 0.00015⟩,
  ⟨1, -4, 0, 3, -1, 0, -0.00014, -0.00014, -0.00014, "115.845", 0.00020⟩,
  ⟨1, -4, 0, 3, 0, 0, -0.00075, -0.00075, -0.00075, "115.855", 0.00107⟩,
  ⟨1, -4, 1, 1, 0, 1, 0.00004, 0.00004, 0.00004, "116.656", -0.00005⟩,
  ⟨1, -4, 2, 1, -1, 0, -0.00037, -0.00037, -0.00037, "117.645", 0.00053⟩,
  ⟨1, -4, 2, 1, 0, 0, -0.00194, -0.00194, -0.00194, "117.655", 0.00278⟩,
  ⟨1, -4, 3, 1, 0, -1, -0.00015, -0.00015, -0.00015, "118.654", 0.00021⟩,
  ⟨1, -4, 4, -1, -1, 0, -0.00007, -0.00007, -0.00007, "119.445", 0.00010⟩,
  ⟨1, -4, 4, -1, 0, 0, -0.00037, -0.00037, -0.00037, "119.455", 0.00054⟩,
  ⟨1, -4, 5, -1, 0, -1, -0.00004, -0.00004, -0.00004, "11X.454", 0.00006⟩,
  ⟨1, -3, -1, 2, 0, 1, 0.00009, 0.00009, 0.00009, "124.756", -0.00013⟩,
  ⟨1, -3, 0, 0, -2, 0, 0.00004, 0.00004, 0.00004, "125.535", -0.00006⟩,
  ⟨1, -3, 0, 2, -2, 0, 0.00005, 0.00004, 0.00003, "125.735", -0.00006⟩,
  ⟨1, -3, 0, 2, -1, 0, -0.00125, -0.00125, -0.00125, "125.745", 0.00180⟩,
  ⟨1, -3, 0, 2, 0, 0, -0.00665, -0.00664, -0.00664, "125.755", 0.00955⟩,
  ⟨1, -3, 1, 0, 0, 1, 0.00011, 0.00011, 0.00011, "126.556", -0.00016⟩,
  ⟨1, -3, 1, 1, 0, 0, 0.00007, 0.00007, 0.00007, "126.655", -0.00010⟩,
  ⟨1, -3, 1, 2, 0, -1, -0.00010, -0.00010, -0.00010, "126.754", 0.00015⟩,
  ⟨1, -3, 2, 0, -2, 0, 0.00005, 0.00005, 0.00004, "127.535", -0.00007⟩,
  ⟨1, -3, 2, 0, -1, 0, -0.00151, -0.00151, -0.00151, "127.545", 0.00217⟩,
  ⟨1, -3, 2, 0, 0, 0, -0.00802, -0.00802, -0.00802, "127.555", 0.01152⟩,
  ⟨1, -3, 2, 2, 0, 0, 0.00007, 0.00007, 0.00007, "127.755", -0.00010⟩,
  ⟨1, -3, 3, 0, -1, -1, -0.00010, -0.00010, -0.00010, "128.544", 0.00014⟩,
  ⟨1, -3, 3, 0, 0, -1, -0.00054, -0.00054, -0.00054, "128.554", 0.00078⟩,
  ⟨1, -3, 4, -2, -1, 0, -0.00005, -0.00005, -0.00005, "129.345", 0.00007⟩,
  ⟨1, -3, 4, -2, 0, 0, -0.00024, -0.00024, -0.00024, "129.355", 0.00035⟩,
  ⟨1, -3, 4, 0, 0, 0, 0.00008, 0.00008, 0.00008, "129.555", -0.00011⟩,
  ⟨1, -3, 4, 0, 1, 0, -0.00003, -0.00003, -0.00003, "129.565", 0.00005⟩,
  ⟨1, -2, -2, 1, -2, 0, 0.00004, 0.00004, 0.00004, "133.635", -0.00006⟩,
  ⟨1, -2, -2, 3, 0, 0, 0.00016, 0.00016, 0.00016, "133.855", -0.00023⟩,
  ⟨1, -2, -1, 1, -1, 1, 0.00007, 0.00007, 0.00007, "134.646", -0.00010⟩,
  ⟨1, -2, -1, 1, 0, 1, 0.00042, 0.00042, 0.00042, "134.656", -0.00061⟩,
  ⟨1, -2, 0, -1, -3, 0, 0.00004, 0.00004, 0.00004, "135.425", -0.00005⟩,
  ⟨1, -2, 0, -1, -2, 0, 0.00019, 0.00019, 0.00019, "135.435", -0.00028⟩,
  ⟨1, -2, 0, 1, -2, 0, 0.00028, 0.00029, 0.00029, "135.635", -0.00041⟩,
  ⟨1, -2, 0, 0, 0, 1, -0.00004, -0.00004, -0.00004, "135.556", 0.00006⟩,
  ⟨1, -2, 0, 1, -1, 0, -0.00946, -0.00947, -0.00947, "135.645", 0.01360⟩,
  ⟨1, -2, 0, 1, 0, 0, -0.05022, -0.05021, -0.05020, "135.655", 0.07217⟩,
  ⟨1, -2, 0, 3, 0, 0, 0.00014, 0.00014, 0.00014, "135.855", -0.00020⟩,
  ⟨1, -2, 1, -1, 0, 1, 0.00010, 0.00009, 0.00009, "136.456", -0.00014⟩,
  ⟨1, -2, 1, 0, -1, 0, 0.00005, 0.00005, 0.00005, "136.545", -0.00007⟩,
  ⟨1, -2, 1, 0, 0, 0, 0.00027, 0.00027, 0.00027, "136.555", -0.00039⟩,
  ⟨1, -2, 1, 1, -1, -1, -0.00008, -0.00008, -0.00008, "136.644", 0.00011⟩,
  ⟨1, -2, 1, 1, 0, -1, -0.00046, -0.00046, -0.00046, "136.654", 0.00066⟩,
  ⟨1, -2, 2, -1, -2, 0, 0.00005, 0.00005, 0.00005, "137.435", -0.00008⟩,
  ⟨1, -2, 2, -1, -1, 0, -0.00180, -0.00180, -0.00180, "137.445", 0.00258⟩,
  ⟨1, -2, 2, -1, 0, 0, -0.00954, -0.00954, -0.00954, "137.455", 0.01371⟩,
  ⟨1, -2, 2, 1, 0, 0, 0.00055, 0.00055, 0.00055, "137.655", -0.00079⟩,
  ⟨1, -2, 2, 1, 1, 0, -0.00017, -0.00017, -0.00017, "137.665", 0.00024⟩,
  ⟨1, -2, 3, -1, -1, -1, -0.00008, -0.00008, -0.00008, "138.444", 0.00012⟩,
  ⟨1, -2, 3, -1, 0, -1, -0.00044, -0.00044, -0.00044, "138.454", 0.00063⟩,
  ⟨1, -2, 3, 1, 0, -1, 0.00004, 0.00004, 0.00004, "138.654", -0.00006⟩,
  ⟨1, -2, 4, -1, 0, 0, 0.00012, 0.00012, 0.00012, "139.455", -0.00017⟩,
  ⟨1, -1, -2, 0, -2, 0, 0.00011, 0.00011, 0.00011, "143.535", -0.00016⟩,
  ⟨1, -1, -2, 2, -1, 0, 0.00014, 0.00014, 0.00014, "143.745", -0.00020⟩,
  ⟨1, -1, -2, 2, 0, 0, 0.00079, 0.00079, 0.00079, "143.755", -0.00113⟩,
  ⟨1, -1, -1, 0, -1, 1, 0.00011, 0.00011, 0.00011, "144.546", -0.00015⟩]

/-- /repo/pyTMD/data/ce1973_tab1.txt, lines 161 to 240. -/
def ce1973_2 : List Row := [
  ⟨1, -1, -1, 0, 0, 1, 0.00090, 0.00090, 0.00090, "144.556", -0.00130⟩,
  ⟨1, -1, -1, 1, 0, 0, -0.00004, -0.00004, -0.00004, "144.655", 0.00006⟩,
  ⟨1, -1, 0, 0, -2, 0, 0.00152, 0.00152, 0.00152, "145.535", -0.00218⟩,
  ⟨1, -1, 0, 0, -1, 0, -0.04944, -0.04945, -0.04945, "145.545", 0.07106⟩,
  ⟨1, -1, 0, 0, 0, 0, -0.26233, -0.26226, -0.26221, "145.555", 0.37694⟩,
  ⟨1, -1, 0, 2, -1, 0, -0.00005, -0.00005, -0.00005, "145.745", 0.00007⟩,
  ⟨1, -1, 0, 2, 0, 0, 0.00169, 0.00170, 0.00170, "145.755", -0.00243⟩,
  ⟨1, -1, 0, 2, 1, 0, 0.00027, 0.00028, 0.00028, "145.765", -0.00039⟩,
  ⟨1, -1, 1, 0, -1, -1, -0.00009, -0.00008, -0.00008, "146.544", 0.00012⟩,
  ⟨1, -1, 1, 0, 0, -1, -0.00076, -0.00076, -0.00076, "146.554", 0.00109⟩,
  ⟨1, -1, 2, -2, 0, 0, 0.00015, 0.00015, 0.00015, "147.355", -0.00022⟩,
  ⟨1, -1, 2, 0, -1, 0, -0.00010, -0.00010, -0.00010, "147.545", 0.00014⟩,
  ⟨1, -1, 2, 0, 0, 0, 0.00343, 0.00343, 0.00343, "147.555", -0.00493⟩,
  ⟨1, -1, 2, 0, 1, 0, -0.00075, -0.00075, -0.00075, "147.565", 0.00107⟩,
  ⟨1, -1, 2, 0, 2, 0, -0.00005, -0.00005, -0.00005, "147.575", 0.00007⟩,
  ⟨1, -1, 3, 0, 0, -1, 0.00023, 0.00023, 0.00023, "148.554", -0.00033⟩,
  ⟨1, -1, 4, -2, 0, 0, 0.00006, 0.00006, 0.00006, "149.355", -0.00009⟩,
  ⟨1, 0, -3, 1, 0, 1, 0.00009, 0.00009, 0.00009, "152.656", -0.00013⟩,
  ⟨1, 0, -2, 1, -1, 0, 0.00044, 0.00044, 0.00044, "153.645", -0.00063⟩,
  ⟨1, 0, -2, 1, 0, 0, 0.00193, 0.00194, 0.00194, "153.655", -0.00278⟩,
  ⟨1, 0, -1, 0, 0, 0, -0.00004, -0.00004, -0.00004, "154.555", 0.00006⟩,
  ⟨1, 0, -1, 1, 0, 1, -0.00010, -0.00010, -0.00010, "154.656", 0.00015⟩,
  ⟨1, 0, 0, -1, -2, 0, -0.00012, -0.00012, -0.00012, "155.435", 0.00017⟩,
  ⟨1, 0, 0, -1, -1, 0, 0.00137, 0.00137, 0.00137, "155.445", -0.00197⟩,
  ⟨1, 0, 0, -1, 0, 0, 0.00742, 0.00742, 0.00741, "155.455", -0.01066⟩,
  ⟨1, 0, 0, 1, -1, 0, -0.00060, -0.00060, -0.00059, "155.645", 0.00086⟩,
  ⟨1, 0, 0, 1, 0, 0, 0.02063, 0.02063, 0.02062, "155.655", -0.02964⟩,
  ⟨1, 0, 0, 1, 1, 0, 0.00414, 0.00414, 0.00414, "155.665", -0.00594⟩,
  ⟨1, 0, 0, 1, 2, 0, -0.00011, -0.00012, -0.00011, "155.675", 0.00016⟩,
  ⟨1, 0, 1, 0, 0, 0, -0.00011, -0.00012, -0.00012, "156.555", 0.00017⟩,
  ⟨1, 0, 1, 1, 0, -1, 0.00013, 0.00013, 0.00013, "156.654", -0.00018⟩,
  ⟨1, 0, 2, -1, -1, 0, -0.00011, -0.00011, -0.00011, "157.445", 0.00016⟩,
  ⟨1, 0, 2, -1, 0, 0, 0.00394, 0.00395, 0.00394, "157.455", -0.00567⟩,
  ⟨1, 0, 2, -1, 1, 0, 0.00086, 0.00087, 0.00087, "157.465", -0.00124⟩,
  ⟨1, 0, 3, -1, 0, -1, 0.00017, 0.00017, 0.00017, "158.454", -0.00024⟩,
  ⟨1, 0, 3, -1, 1, -1, 0.00004, 0.00004, 0.00004, "158.464", -0.00006⟩,
  ⟨1, 1, -4, 0, 0, 2, -0.00029, -0.00029, -0.00029, "161.557", 0.00042⟩,
  ⟨1, 1, -3, 0, -1, 1, 0.00006, 0.00006, 0.00006, "162.546", -0.00008⟩,
  ⟨1, 1, -3, 0, 0, 1, -0.00716, -0.00715, -0.00714, "162.556", 0.01028⟩,
  ⟨1, 1, -2, 0, -2, 0, -0.00010, -0.00010, -0.00010, "163.535", 0.00014⟩,
  ⟨1, 1, -2, 0, -1, 0, 0.00137, 0.00137, 0.00137, "163.545", -0.00197⟩,
  ⟨1, 1, -2, 0, 0, 0, -0.12209, -0.12205, -0.12203, "163.555", 0.17545⟩,
  ⟨1, 1, -2, 0, 0, 2, 0.00005, 0.00005, 0.00005, "163.557", -0.00007⟩,
  ⟨1, 1, -2, 2, 0, 0, 0.00018, 0.00019, 0.00018, "163.755", -0.00026⟩,
  ⟨1, 1, -2, 2, 1, 0, 0.00004, 0.00004, 0.00004, "163.765", -0.00005⟩,
  ⟨1, 1, -1, 0, 0, -1, 0.00102, 0.00103, 0.00102, "164.554", -0.00147⟩,
  ⟨1, 1, -1, 0, 0, 1, 0.00290, 0.00289, 0.00289, "164.556", -0.00416⟩,
  ⟨1, 1, -1, 0, 1, 1, -0.00008, -0.00008, -0.00008, "164.566", 0.00011⟩,
  ⟨1, 1, 0, -2, -1, 0, 0.00007, 0.00007, 0.00007, "165.345", -0.00010⟩,
  ⟨1, 1, 0, 0, -2, 0, 0.00004, 0.00004, 0.00005, "165.535", -0.00006⟩,
  ⟨1, 1, 0, 0, -1, 0, -0.00731, -0.00731, -0.00730, "165.545", 0.01051⟩,
  ⟨1, 1, 0, 0, 0, 0, 0.36892, 0.36883, 0.36878, "165.555", -0.53011⟩,
  ⟨1, 1, 0, 0, 1, 0, 0.05000, 0.05001, 0.05001, "165.565", -0.07186⟩,
  ⟨1, 1, 0, 0, 2, 0, -0.00108, -0.00108, -0.00108, "165.575", 0.00155⟩,
  ⟨1, 1, 1, 0, 0, -1, 0.00294, 0.00293, 0.00293, "166.554", -0.00422⟩,
  ⟨1, 1, 1, 0, 1, -1, 0.00005, 0.00005, 0.00005, "166.564", -0.00008⟩,
  ⟨1, 1, 2, -2, 0, 0, 0.00018, 0.00018, 0.00018, "167.355", -0.00026⟩,
  ⟨1, 1, 2, -2, 1, 0, 0.00005, 0.00005, 0.00005, "167.365", -0.00008⟩,
  ⟨1, 1, 2, 0, 0, -2, 0.00007, 0.00007, 0.00007, "167.553", -0.00010⟩,
  ⟨1, 1, 2, 0, 0, 0, 0.00526, 0.00525, 0.00525, "167.555", -0.00755⟩,
  ⟨1, 1, 2, 0, 1, 0, -0.00020, -0.00020, -0.00020, "167.565", 0.00029⟩,
  ⟨1, 1, 2, 0, 2, 0, -0.00010, -0.00010, -0.00010, "167.575", 0.00014⟩,
  ⟨1, 1, 3, 0, 0, -1, 0.00031, 0.00031, 0.00031, "168.554", -0.00044⟩,
  ⟨1, 2, -3, 1, 0, 1, 0.00017, 0.00017, 0.00017, "172.656", -0.00024⟩,
  ⟨1, 2, -2, -1, -1, 0, 0.00012, 0.00012, 0.00012, "173.445", -0.00017⟩,
  ⟨1, 2, -2, 1, -1, 0, -0.00013, -0.00013, -0.00012, "173.645", 0.00018⟩,
  ⟨1, 2, -2, 1, 0, 0, 0.00395, 0.00394, 0.00395, "173.655", -0.00567⟩,
  ⟨1, 2, -2, 1, 1, 0, 0.00078, 0.00078, 0.00078, "173.665", -0.00113⟩,
  ⟨1, 2, -1, -1, 0, 1, 0.00013, 0.00012, 0.00012, "174.456", -0.00018⟩,
  ⟨1, 2, -1, 0, 0, 0, -0.00011, -0.00011, -0.00012, "174.555", 0.00016⟩,
  ⟨1, 2, 0, -1, -1, 0, -0.00061, -0.00061, -0.00060, "175.445", 0.00087⟩,
  ⟨1, 2, 0, -1, 0, 0, 0.02063, 0.02062, 0.02062, "175.455", -0.02964⟩,
  ⟨1, 2, 0, -1, 1, 0, 0.00409, 0.00409, 0.00409, "175.465", -0.00587⟩,
  ⟨1, 2, 0, -1, 2, 0, -0.00010, -0.00009, -0.00007, "175.475", 0.00014⟩,
  ⟨1, 2, 0, 1, 0, 0, -0.00032, -0.00032, -0.00032, "175.655", 0.00045⟩,
  ⟨1, 2, 0, 1, 1, 0, -0.00020, -0.00020, -0.00020, "175.665", 0.00029⟩,
  ⟨1, 2, 0, 1, 2, 0, -0.00012, -0.00012, -0.00012, "175.675", 0.00017⟩,
  ⟨1, 2, 1, -1, 0, -1, -0.00011, -0.00010, -0.00011, "176.454", 0.00015⟩,
  ⟨1, 2, 2, -1, 0, 0, -0.00008, -0.00008, -0.00008, "177.455", 0.00012⟩,
  ⟨1, 2, 2, -1, 1, 0, -0.00006, -0.00006, -0.00006, "177.465", 0.00009⟩]

/-- /repo/pyTMD/data/ce1973_tab1.txt, lines 241 to 320. -/
def ce1973_3 : List Row := [
  ⟨1, 3, -4, 2, 0, 0, 0.00006, 0.00006, 0.00006, "181.755", -0.00009⟩,
  ⟨1, 3, -3, 0, 0, 1, 0.00023, 0.00023, 0.00023, "182.556", -0.00032⟩,
  ⟨1, 3, -3, 0, 1, 1, 0.00004, 0.00004, 0.00004, "182.566", -0.00006⟩,
  ⟨1, 3, -2, 0, -1, 0, 0.00011, 0.00011, 0.00011, "183.545", -0.00016⟩,
  ⟨1, 3, -2, 0, 0, 0, 0.00342, 0.00342, 0.00342, "183.555", -0.00492⟩,
  ⟨1, 3, -2, 0, 1, 0, 0.00067, 0.00067, 0.00067, "183.565", -0.00096⟩,
  ⟨1, 3, -1, 0, 0, -1, -0.00007, -0.00007, -0.00007, "184.554", 0.00010⟩,
  ⟨1, 3, 0, -2, -1, 0, -0.00004, -0.00004, -0.00004, "185.345", 0.00006⟩,
  ⟨1, 3, 0, -2, 0, 0, 0.00169, 0.00169, 0.00169, "185.355", -0.00243⟩,
  ⟨1, 3, 0, -2, 1, 0, 0.00033, 0.00034, 0.00034, "185.365", -0.00048⟩,
  ⟨1, 3, 0, 0, 0, 0, 0.01130, 0.01129, 0.01129, "185.555", -0.01624⟩,
  ⟨1, 3, 0, 0, 1, 0, 0.00723, 0.00723, 0.00723, "185.565", -0.01039⟩,
  ⟨1, 3, 0, 0, 2, 0, 0.00151, 0.00151, 0.00151, "185.575", -0.00218⟩,
  ⟨1, 3, 0, 0, 3, 0, 0.00010, 0.00010, 0.00010, "185.585", -0.00014⟩,
  ⟨1, 3, 1, 0, 0, -1, -0.00004, -0.00004, -0.00004, "186.554", 0.00006⟩,
  ⟨1, 4, -4, 1, 0, 0, 0.00010, 0.00010, 0.00010, "191.655", -0.00015⟩,
  ⟨1, 4, -3, -1, 0, 1, 0.00004, 0.00004, 0.00004, "192.456", -0.00006⟩,
  ⟨1, 4, -2, -1, 0, 0, 0.00054, 0.00054, 0.00054, "193.455", -0.00078⟩,
  ⟨1, 4, -2, -1, 1, 0, 0.00011, 0.00011, 0.00011, "193.465", -0.00015⟩,
  ⟨1, 4, -2, 1, 0, 0, 0.00041, 0.00041, 0.00041, "193.655", -0.00059⟩,
  ⟨1, 4, -2, 1, 1, 0, 0.00026, 0.00026, 0.00026, "193.665", -0.00038⟩,
  ⟨1, 4, -2, 1, 2, 0, 0.00005, 0.00005, 0.00005, "193.675", -0.00008⟩,
  ⟨1, 4, 0, -3, 0, 0, 0.00013, 0.00013, 0.00013, "195.255", -0.00019⟩,
  ⟨1, 4, 0, -1, 0, 0, 0.00217, 0.00216, 0.00216, "195.455", -0.00311⟩,
  ⟨1, 4, 0, -1, 1, 0, 0.00139, 0.00138, 0.00138, "195.465", -0.00199⟩,
  ⟨1, 4, 0, -1, 2, 0, 0.00029, 0.00029, 0.00029, "195.475", -0.00041⟩,
  ⟨2, -4, 0, 4, 0, 0, 0.00019, 0.00019, 0.00019, "215.955", 0.00027⟩,
  ⟨2, -4, 2, 2, 0, 0, 0.00077, 0.00078, 0.00078, "217.755", 0.00111⟩,
  ⟨2, -4, 3, 2, 0, -1, 0.00006, 0.00006, 0.00006, "218.754", 0.00009⟩,
  ⟨2, -4, 4, 0, 0, 0, 0.00048, 0.00048, 0.00048, "219.555", 0.00069⟩,
  ⟨2, -4, 5, 0, 0, -1, 0.00006, 0.00006, 0.00006, "21X.554", 0.00009⟩,
  ⟨2, -3, 0, 3, -1, 0, -0.00007, -0.00007, -0.00007, "225.845", -0.00010⟩,
  ⟨2, -3, 0, 3, 0, 0, 0.00180, 0.00180, 0.00180, "225.855", 0.00259⟩,
  ⟨2, -3, 1, 1, 0, 1, -0.00009, -0.00009, -0.00009, "226.656", -0.00013⟩,
  ⟨2, -3, 1, 3, 0, -1, 0.00004, 0.00004, 0.00004, "226.854", 0.00006⟩,
  ⟨2, -3, 2, 1, -1, 0, -0.00017, -0.00017, -0.00017, "227.645", -0.00025⟩,
  ⟨2, -3, 2, 1, 0, 0, 0.00467, 0.00467, 0.00467, "227.655", 0.00671⟩,
  ⟨2, -3, 3, 1, 0, -1, 0.00036, 0.00036, 0.00036, "228.654", 0.00051⟩,
  ⟨2, -3, 4, -1, -1, 0, -0.00003, -0.00003, -0.00003, "229.445", -0.00005⟩,
  ⟨2, -3, 4, -1, 0, 0, 0.00090, 0.00090, 0.00090, "229.455", 0.00130⟩,
  ⟨2, -3, 5, -1, 0, -1, 0.00010, 0.00010, 0.00010, "22X.454", 0.00015⟩,
  ⟨2, -2, -2, 4, 0, 0, -0.00006, -0.00006, -0.00006, "233.955", -0.00009⟩,
  ⟨2, -2, -1, 2, 0, 1, -0.00022, -0.00022, -0.00022, "234.756", -0.00031⟩,
  ⟨2, -2, 0, 0, -2, 0, -0.00010, -0.00010, -0.00010, "235.535", -0.00014⟩,
  ⟨2, -2, 0, 2, -1, 0, -0.00060, -0.00060, -0.00060, "235.745", -0.00086⟩,
  ⟨2, -2, 0, 2, 0, 0, 0.01601, 0.01601, 0.01601, "235.755", 0.02301⟩,
  ⟨2, -2, 1, 0, 0, 1, -0.00027, -0.00027, -0.00027, "236.556", -0.00039⟩,
  ⟨2, -2, 1, 1, 0, 0, -0.00017, -0.00017, -0.00017, "236.655", -0.00025⟩,
  ⟨2, -2, 1, 2, 0, -1, 0.00025, 0.00025, 0.00025, "236.754", 0.00036⟩,
  ⟨2, -2, 2, 0, -1, 0, -0.00072, -0.00072, -0.00072, "237.545", -0.00104⟩,
  ⟨2, -2, 2, 0, 0, 0, 0.01932, 0.01932, 0.01932, "237.555", 0.02776⟩,
  ⟨2, -2, 3, -1, 0, 0, -0.00005, -0.00005, -0.00004, "238.455", -0.00007⟩,
  ⟨2, -2, 3, 0, -1, -1, -0.00005, -0.00005, -0.00005, "238.544", -0.00007⟩,
  ⟨2, -2, 3, 0, 0, -1, 0.00131, 0.00131, 0.00130, "238.554", 0.00188⟩,
  ⟨2, -2, 4, -2, 0, 0, 0.00059, 0.00059, 0.00059, "239.355", 0.00085⟩,
  ⟨2, -2, 4, 0, 0, -2, 0.00005, 0.00005, 0.00005, "239.553", 0.00007⟩,
  ⟨2, -2, 5, -2, 0, -1, 0.00005, 0.00005, 0.00005, "23X.354", 0.00008⟩,
  ⟨2, -1, -2, 1, -2, 0, -0.00010, -0.00010, -0.00010, "243.635", -0.00015⟩,
  ⟨2, -1, -2, 3, 0, 0, -0.00039, -0.00039, -0.00039, "243.855", -0.00056⟩,
  ⟨2, -1, -1, 1, -1, 1, 0.00003, 0.00003, 0.00003, "244.646", 0.00005⟩,
  ⟨2, -1, -1, 1, 0, 1, -0.00102, -0.00102, -0.00102, "244.656", -0.00147⟩,
  ⟨2, -1, 0, -1, -2, 0, -0.00047, -0.00047, -0.00047, "245.435", -0.00067⟩,
  ⟨2, -1, 0, 1, -2, 0, 0.00006, 0.00006, 0.00007, "245.635", 0.00009⟩,
  ⟨2, -1, 0, 0, 0, 1, 0.00010, 0.00009, 0.00010, "245.556", 0.00014⟩,
  ⟨2, -1, 0, 1, -1, 0, -0.00452, -0.00451, -0.00451, "245.645", -0.00649⟩,
  ⟨2, -1, 0, 1, 0, 0, 0.12098, 0.12098, 0.12099, "245.655", 0.17386⟩,
  ⟨2, -1, 1, -1, 0, 1, -0.00023, -0.00022, -0.00022, "246.456", -0.00032⟩,
  ⟨2, -1, 1, 0, 0, 0, -0.00065, -0.00065, -0.00065, "246.555", -0.00094⟩,
  ⟨2, -1, 1, 1, -1, -1, -0.00004, -0.00004, -0.00004, "246.644", -0.00005⟩,
  ⟨2, -1, 1, 1, 0, -1, 0.00113, 0.00113, 0.00113, "246.654", 0.00163⟩,
  ⟨2, -1, 2, -1, -1, 0, -0.00086, -0.00086, -0.00086, "247.445", -0.00123⟩,
  ⟨2, -1, 2, -1, 0, 0, 0.02298, 0.02298, 0.02298, "247.455", 0.03302⟩,
  ⟨2, -1, 2, 1, 0, 0, 0.00010, 0.00010, 0.00010, "247.655", 0.00014⟩,
  ⟨2, -1, 2, 1, 1, 0, -0.00008, -0.00008, -0.00008, "247.665", -0.00012⟩,
  ⟨2, -1, 3, -1, -1, -1, -0.00004, -0.00004, -0.00004, "248.444", -0.00006⟩,
  ⟨2, -1, 3, -1, 0, -1, 0.00106, 0.00106, 0.00106, "248.454", 0.00153⟩,
  ⟨2, 0, -3, 2, 0, 1, -0.00008, -0.00008, -0.00008, "252.756", -0.00011⟩,
  ⟨2, 0, -2, 0, -2, 0, -0.00027, -0.00027, -0.00028, "253.535", -0.00039⟩,
  ⟨2, 0, -2, 2, -1, 0, 0.00007, 0.00007, 0.00007, "253.745", 0.00009⟩,
  ⟨2, 0, -2, 2, 0, 0, -0.00190, -0.00190, -0.00190, "253.755", -0.00273⟩]

/-- /repo/pyTMD/data/ce1973_tab1.txt, lines 321 to 385. -/
def ce1973_4 : List Row := [
  ⟨2, 0, -1, 0, -1, 1, 0.00005, 0.00005, 0.00005, "254.546", 0.00007⟩,
  ⟨2, 0, -1, 0, 0, 1, -0.00218, -0.00218, -0.00218, "254.556", -0.00313⟩,
  ⟨2, 0, -1, 1, 0, 0, 0.00010, 0.00009, 0.00009, "254.655", 0.00014⟩,
  ⟨2, 0, 0, 0, -2, 0, 0.00033, 0.00033, 0.00033, "255.535", 0.00047⟩,
  ⟨2, 0, 0, 0, -1, 0, -0.02359, -0.02359, -0.02358, "255.545", -0.03390⟩,
  ⟨2, 0, 0, 0, 0, 0, 0.63187, 0.63190, 0.63192, "255.555", 0.90809⟩,
  ⟨2, 0, 0, 2, 0, 0, 0.00037, 0.00037, 0.00037, "255.755", 0.00053⟩,
  ⟨2, 0, 0, 2, 1, 0, 0.00013, 0.00013, 0.00013, "255.765", 0.00019⟩,
  ⟨2, 0, 1, 0, -1, -1, -0.00004, -0.00004, -0.00004, "256.544", -0.00006⟩,
  ⟨2, 0, 1, 0, 0, -1, 0.00193, 0.00192, 0.00192, "256.554", 0.00277⟩,
  ⟨2, 0, 2, -2, 0, 0, -0.00036, -0.00036, -0.00036, "257.355", -0.00052⟩,
  ⟨2, 0, 2, 0, 0, 0, 0.00072, 0.00072, 0.00072, "257.555", 0.00104⟩,
  ⟨2, 0, 2, 0, 1, 0, -0.00036, -0.00036, -0.00036, "257.565", -0.00051⟩,
  ⟨2, 0, 2, 0, 2, 0, 0.00012, 0.00012, 0.00012, "257.575", 0.00017⟩,
  ⟨2, 0, 3, 0, 0, -1, 0.00005, 0.00005, 0.00005, "258.554", 0.00007⟩,
  ⟨2, 1, -3, 1, 0, 1, -0.00022, -0.00022, -0.00022, "262.656", -0.00032⟩,
  ⟨2, 1, -2, 1, -1, 0, 0.00021, 0.00021, 0.00021, "263.645", 0.00030⟩,
  ⟨2, 1, -2, 1, 0, 0, -0.00466, -0.00466, -0.00466, "263.655", -0.00670⟩,
  ⟨2, 1, -1, -1, 0, 1, -0.00007, -0.00007, -0.00007, "264.456", -0.00010⟩,
  ⟨2, 1, -1, 0, 0, 0, 0.00011, 0.00011, 0.00011, "264.555", 0.00016⟩,
  ⟨2, 1, 0, -1, -1, 0, 0.00065, 0.00065, 0.00066, "265.445", 0.00094⟩,
  ⟨2, 1, 0, -1, 0, 0, -0.01786, -0.01786, -0.01786, "265.455", -0.02567⟩,
  ⟨2, 1, 0, 1, -1, 0, -0.00009, -0.00008, -0.00008, "265.645", -0.00012⟩,
  ⟨2, 1, 0, 1, 0, 0, 0.00447, 0.00447, 0.00447, "265.655", 0.00643⟩,
  ⟨2, 1, 0, 1, 1, 0, 0.00197, 0.00197, 0.00197, "265.665", 0.00283⟩,
  ⟨2, 1, 0, 1, 2, 0, 0.00028, 0.00028, 0.00028, "265.675", 0.00040⟩,
  ⟨2, 1, 2, -1, 0, 0, 0.00086, 0.00085, 0.00086, "267.455", 0.00123⟩,
  ⟨2, 1, 2, -1, 1, 0, 0.00041, 0.00041, 0.00041, "267.465", 0.00059⟩,
  ⟨2, 1, 2, -1, 2, 0, 0.00005, 0.00005, 0.00005, "267.475", 0.00007⟩,
  ⟨2, 2, -4, 0, 0, 2, 0.00070, 0.00070, 0.00070, "271.557", 0.00101⟩,
  ⟨2, 2, -3, 0, 0, 1, 0.01724, 0.01722, 0.01720, "272.556", 0.02476⟩,
  ⟨2, 2, -2, 0, -1, 0, 0.00066, 0.00066, 0.00066, "273.545", 0.00095⟩,
  ⟨2, 2, -2, 0, 0, 0, 0.29397, 0.29398, 0.29400, "273.555", 0.42248⟩,
  ⟨2, 2, -2, 2, 0, 0, 0.00004, 0.00004, 0.00004, "273.755", 0.00006⟩,
  ⟨2, 2, -1, 0, 0, -1, -0.00247, -0.00246, -0.00246, "274.554", -0.00355⟩,
  ⟨2, 2, -1, 0, 0, 1, 0.00063, 0.00062, 0.00062, "274.556", 0.00090⟩,
  ⟨2, 2, -1, 0, 1, 1, -0.00004, -0.00004, -0.00004, "274.566", -0.00005⟩,
  ⟨2, 2, 0, 0, -1, 0, -0.00103, -0.00102, -0.00102, "275.545", -0.00147⟩,
  ⟨2, 2, 0, 0, 0, 0, 0.08003, 0.07999, 0.07996, "275.555", 0.11498⟩,
  ⟨2, 2, 0, 0, 1, 0, 0.02384, 0.02383, 0.02383, "275.565", 0.03426⟩,
  ⟨2, 2, 0, 0, 2, 0, 0.00259, 0.00259, 0.00259, "275.575", 0.00372⟩,
  ⟨2, 2, 1, 0, 0, -1, 0.00063, 0.00063, 0.00063, "276.554", 0.00091⟩,
  ⟨2, 2, 2, -2, 0, 0, 0.00004, 0.00004, 0.00004, "277.355", 0.00005⟩,
  ⟨2, 2, 2, 0, 0, 0, 0.00053, 0.00053, 0.00053, "277.555", 0.00076⟩,
  ⟨2, 3, -3, 1, 0, 1, 0.00004, 0.00004, 0.00004, "282.656", 0.00005⟩,
  ⟨2, 3, -2, -1, -1, 0, 0.00006, 0.00006, 0.00006, "283.445", 0.00008⟩,
  ⟨2, 3, -2, -1, 0, 0, 0.00004, 0.00004, 0.00004, "283.455", 0.00006⟩,
  ⟨2, 3, -2, 1, 0, 0, 0.00086, 0.00086, 0.00086, "283.655", 0.00123⟩,
  ⟨2, 3, -2, 1, 1, 0, 0.00037, 0.00037, 0.00037, "283.665", 0.00054⟩,
  ⟨2, 3, -2, 1, 2, 0, 0.00004, 0.00004, 0.00004, "283.675", 0.00006⟩,
  ⟨2, 3, 0, -1, -1, 0, -0.00008, -0.00009, -0.00009, "285.445", -0.00012⟩,
  ⟨2, 3, 0, -1, 0, 0, 0.00447, 0.00447, 0.00447, "285.455", 0.00643⟩,
  ⟨2, 3, 0, -1, 1, 0, 0.00195, 0.00195, 0.00195, "285.465", 0.00280⟩,
  ⟨2, 3, 0, -1, 2, 0, 0.00021, 0.00021, 0.00022, "285.475", 0.00030⟩,
  ⟨2, 3, 0, 1, 0, 0, -0.00003, -0.00003, -0.00003, "285.655", -0.00005⟩,
  ⟨2, 4, -3, 0, 0, 1, 0.00005, 0.00005, 0.00005, "292.556", 0.00007⟩,
  ⟨2, 4, -2, 0, 0, 0, 0.00074, 0.00074, 0.00074, "293.555", 0.00107⟩,
  ⟨2, 4, -2, 0, 1, 0, 0.00032, 0.00032, 0.00032, "293.565", 0.00046⟩,
  ⟨2, 4, -2, 0, 2, 0, 0.00003, 0.00003, 0.00003, "293.575", 0.00005⟩,
  ⟨2, 4, 0, -2, 0, 0, 0.00037, 0.00037, 0.00037, "295.355", 0.00053⟩,
  ⟨2, 4, 0, -2, 1, 0, 0.00016, 0.00016, 0.00016, "295.365", 0.00023⟩,
  ⟨2, 4, 0, 0, 0, 0, 0.00117, 0.00117, 0.00117, "295.555", 0.00169⟩,
  ⟨2, 4, 0, 0, 1, 0, 0.00102, 0.00102, 0.00101, "295.565", 0.00146⟩,
  ⟨2, 4, 0, 0, 2, 0, 0.00033, 0.00033, 0.00033, "295.575", 0.00047⟩,
  ⟨2, 4, 0, 0, 3, 0, 0.00005, 0.00005, 0.00005, "295.585", 0.00007⟩]

/-- /repo/pyTMD/data/ce1973_tab1.txt -/
def ce1973 : List Row := ce1973_0 ++ ce1973_1 ++ ce1973_2 ++ ce1973_3 ++ ce1973_4

/-- /repo/pyTMD/data/ct1971_tab5.txt, lines 1 to 80. -/
def ct1971_0 : List Row := [
  ⟨0, 0, 0, 1, 0, 0, -0.00020, -0.00020, -0.00021, "055.655", 0.00025⟩,
  ⟨0, 0, 2, -1, 0, 0, -0.00004, -0.00004, -0.00004, "057.455", 0.00005⟩,
  ⟨0, 1, -2, 0, 0, 0, 0.00004, 0.00004, 0.00004, "063.555", -0.00005⟩,
  ⟨0, 1, 0, 0, -1, 0, 0.00019, 0.00020, 0.00019, "065.545", -0.00024⟩,
  ⟨0, 1, 0, 0, 0, 0, -0.00375, -0.00375, -0.00375, "065.555", 0.00466⟩,
  ⟨0, 1, 0, 0, 1, 0, -0.00059, -0.00059, -0.00059, "065.565", 0.00074⟩,
  ⟨0, 1, 0, 0, 2, 0, 0.00005, 0.00005, 0.00005, "065.575", -0.00006⟩,
  ⟨0, 2, -2, 1, 0, 0, -0.00012, -0.00012, -0.00012, "073.655", 0.00015⟩,
  ⟨0, 2, 0, -1, 0, 0, -0.00061, -0.00061, -0.00061, "075.455", 0.00076⟩,
  ⟨0, 2, 0, -1, 1, 0, -0.00010, -0.00010, -0.00010, "075.465", 0.00012⟩,
  ⟨0, 3, -2, 0, 0, 0, -0.00010, -0.00010, -0.00010, "083.555", 0.00013⟩,
  ⟨0, 3, 0, -2, 0, 0, -0.00007, -0.00007, -0.00007, "085.355", 0.00009⟩,
  ⟨0, 3, 0, 0, 0, 0, -0.00031, -0.00030, -0.00030, "085.555", 0.00038⟩,
  ⟨0, 3, 0, 0, 1, 0, -0.00019, -0.00019, -0.00019, "085.565", 0.00023⟩,
  ⟨0, 3, 0, 0, 2, 0, -0.00004, -0.00004, -0.00004, "085.575", 0.00005⟩,
  ⟨0, 4, 0, -1, 0, 0, -0.00008, -0.00008, -0.00008, "095.455", 0.00010⟩,
  ⟨0, 4, 0, -1, 1, 0, -0.00005, -0.00005, -0.00005, "095.465", 0.00006⟩,
  ⟨1, -4, 0, 2, 0, 0, -0.00006, -0.00006, -0.00006, "115.755", -0.00010⟩,
  ⟨1, -4, 2, 0, 0, 0, -0.00006, -0.00006, -0.00006, "117.555", -0.00010⟩,
  ⟨1, -3, 0, 1, -1, 0, -0.00014, -0.00014, -0.00014, "125.645", -0.00023⟩,
  ⟨1, -3, 0, 1, 0, 0, -0.00035, -0.00035, -0.00035, "125.655", -0.00058⟩,
  ⟨1, -3, 2, -1, 0, 0, -0.00007, -0.00007, -0.00007, "127.455", -0.00011⟩,
  ⟨1, -2, 0, 0, -2, 0, -0.00004, -0.00004, -0.00004, "135.535", -0.00007⟩,
  ⟨1, -2, 0, 0, -1, 0, -0.00051, -0.00050, -0.00050, "135.545", -0.00083⟩,
  ⟨1, -2, 0, 0, 0, 0, -0.00128, -0.00128, -0.00128, "135.555", -0.00211⟩,
  ⟨1, -2, 0, 2, 0, 0, -0.00008, -0.00008, -0.00008, "135.755", -0.00013⟩,
  ⟨1, -2, 2, 0, 0, 0, -0.00011, -0.00011, -0.00011, "137.555", -0.00018⟩,
  ⟨1, -1, 0, -1, 0, 0, 0.00007, 0.00007, 0.00007, "145.455", 0.00012⟩,
  ⟨1, -1, 0, 1, -1, 0, 0.00010, 0.00010, 0.00010, "145.645", 0.00016⟩,
  ⟨1, -1, 0, 1, 0, 0, -0.00065, -0.00065, -0.00065, "145.655", -0.00108⟩,
  ⟨1, -1, 0, 1, 1, 0, 0.00009, 0.00008, 0.00009, "145.665", 0.00014⟩,
  ⟨1, -1, 2, -1, 0, 0, -0.00013, -0.00013, -0.00013, "147.455", -0.00021⟩,
  ⟨1, 0, 0, 0, -1, 0, 0.00059, 0.00059, 0.00059, "155.545", 0.00098⟩,
  ⟨1, 0, 0, 0, 0, 0, -0.00399, -0.00399, -0.00399, "155.555", -0.00660⟩,
  ⟨1, 0, 0, 0, 1, 0, 0.00052, 0.00052, 0.00052, "155.565", 0.00086⟩,
  ⟨1, 1, -2, 1, 0, 0, -0.00004, -0.00004, -0.00004, "163.655", -0.00007⟩,
  ⟨1, 1, 0, -1, -1, 0, 0.00003, 0.00003, 0.00003, "165.445", 0.00005⟩,
  ⟨1, 1, 0, -1, 0, 0, -0.00022, -0.00022, -0.00022, "165.455", -0.00036⟩,
  ⟨1, 1, 0, -1, 1, 0, 0.00003, 0.00003, 0.00003, "165.465", 0.00005⟩,
  ⟨1, 1, 0, 1, 0, 0, -0.00008, -0.00008, -0.00008, "165.655", -0.00013⟩,
  ⟨1, 1, 0, 1, 1, 0, -0.00003, -0.00003, -0.00003, "165.665", -0.00005⟩,
  ⟨1, 2, -2, 0, 0, 0, -0.00005, -0.00005, -0.00005, "173.555", -0.00008⟩,
  ⟨1, 2, 0, 0, -1, 0, 0.00005, 0.00005, 0.00005, "175.545", 0.00008⟩,
  ⟨1, 2, 0, 0, 0, 0, -0.00146, -0.00146, -0.00146, "175.555", -0.00242⟩,
  ⟨1, 2, 0, 0, 1, 0, -0.00059, -0.00059, -0.00059, "175.565", -0.00098⟩,
  ⟨1, 2, 0, 0, 2, 0, -0.00005, -0.00005, -0.00005, "175.575", -0.00008⟩,
  ⟨1, 3, -2, 1, 0, 0, -0.00005, -0.00005, -0.00005, "183.655", -0.00008⟩,
  ⟨1, 3, 0, -1, 0, 0, -0.00024, -0.00024, -0.00024, "185.455", -0.00039⟩,
  ⟨1, 3, 0, -1, 1, 0, -0.00010, -0.00010, -0.00010, "185.465", -0.00016⟩,
  ⟨1, 4, -2, 0, 0, 0, -0.00004, -0.00004, -0.00004, "193.555", -0.00007⟩,
  ⟨1, 4, 0, 0, 0, 0, -0.00006, -0.00005, -0.00005, "195.555", -0.00009⟩,
  ⟨1, 4, 0, 0, 1, 0, -0.00005, -0.00005, -0.00005, "195.565", -0.00008⟩,
  ⟨2, -4, 2, 1, 0, 0, -0.00006, -0.00006, -0.00006, "217.655", -0.00008⟩,
  ⟨2, -3, 0, 2, 0, 0, -0.00018, -0.00018, -0.00018, "225.755", -0.00027⟩,
  ⟨2, -3, 2, 0, -1, 0, -0.00003, -0.00003, -0.00003, "227.545", -0.00005⟩,
  ⟨2, -3, 2, 0, 0, 0, -0.00019, -0.00018, -0.00018, "227.555", -0.00027⟩,
  ⟨2, -2, 0, 1, -1, 0, -0.00018, -0.00018, -0.00018, "235.645", -0.00027⟩,
  ⟨2, -2, 0, 1, 0, 0, -0.00107, -0.00107, -0.00107, "235.655", -0.00156⟩,
  ⟨2, -2, 2, -1, -1, 0, -0.00003, -0.00003, -0.00003, "237.445", -0.00005⟩,
  ⟨2, -2, 2, -1, 0, 0, -0.00020, -0.00020, -0.00020, "237.455", -0.00029⟩,
  ⟨2, -1, 0, 0, -2, 0, 0.00003, 0.00004, 0.00003, "245.535", 0.00005⟩,
  ⟨2, -1, 0, 0, -1, 0, -0.00066, -0.00066, -0.00066, "245.545", -0.00097⟩,
  ⟨2, -1, 0, 0, 0, 0, -0.00389, -0.00389, -0.00389, "245.555", -0.00569⟩,
  ⟨2, -1, 0, 2, 0, 0, 0.00007, 0.00007, 0.00007, "245.755", 0.00010⟩,
  ⟨2, -1, 2, 0, 0, 0, 0.00010, 0.00010, 0.00010, "247.555", 0.00014⟩,
  ⟨2, 0, -2, 1, 0, 0, 0.00005, 0.00005, 0.00005, "253.655", 0.00008⟩,
  ⟨2, 0, 0, -1, -1, 0, 0.00004, 0.00004, 0.00004, "255.445", 0.00005⟩,
  ⟨2, 0, 0, -1, 0, 0, 0.00022, 0.00022, 0.00022, "255.455", 0.00032⟩,
  ⟨2, 0, 0, 1, -1, 0, -0.00003, -0.00003, -0.00003, "255.645", -0.00005⟩,
  ⟨2, 0, 0, 1, 0, 0, 0.00059, 0.00059, 0.00059, "255.655", 0.00086⟩,
  ⟨2, 0, 0, 1, 1, 0, 0.00011, 0.00011, 0.00011, "255.665", 0.00016⟩,
  ⟨2, 0, 2, -1, 0, 0, 0.00011, 0.00011, 0.00011, "257.455", 0.00017⟩,
  ⟨2, 1, 0, 0, -1, 0, -0.00021, -0.00021, -0.00021, "265.545", -0.00031⟩,
  ⟨2, 1, 0, 0, 0, 0, 0.00359, 0.00359, 0.00359, "265.555", 0.00525⟩,
  ⟨2, 1, 0, 0, 1, 0, 0.00068, 0.00068, 0.00068, "265.565", 0.00099⟩,
  ⟨2, 2, -2, 1, 0, 0, 0.00004, 0.00004, 0.00004, "273.655", 0.00005⟩,
  ⟨2, 2, 0, -1, 0, 0, 0.00019, 0.00019, 0.00019, "275.455", 0.00028⟩,
  ⟨2, 2, 0, -1, 1, 0, 0.00004, 0.00004, 0.00004, "275.465", 0.00005⟩,
  ⟨2, 3, -2, 0, 0, 0, 0.00004, 0.00004, 0.00004, "283.555", 0.00006⟩,
  ⟨2, 3, 0, 0, 0, 0, 0.00033, 0.00033, 0.00033, "285.555", 0.00048⟩]

/-- /repo/pyTMD/data/ct1971_tab5.txt, lines 81 to 99. -/
def ct1971_1 : List Row := [
  ⟨2, 3, 0, 0, 1, 0, 0.00021, 0.00021, 0.00021, "285.565", 0.00031⟩,
  ⟨2, 3, 0, 0, 2, 0, 0.00004, 0.00004, 0.00004, "285.575", 0.00006⟩,
  ⟨2, 4, 0, -1, 0, 0, 0.00005, 0.00005, 0.00005, "295.455", 0.00008⟩,
  ⟨3, -2, 0, 2, 0, 0, 0.00036, 0.00037, 0.00037, "335.755", -0.00057⟩,
  ⟨3, -2, 2, 0, 0, 0, 0.00037, 0.00037, 0.00037, "337.555", -0.00057⟩,
  ⟨3, -1, 0, 1, -1, 0, -0.00012, -0.00012, -0.00012, "345.645", 0.00018⟩,
  ⟨3, -1, 0, 1, 0, 0, 0.00210, 0.00210, 0.00210, "345.655", -0.00326⟩,
  ⟨3, -1, 2, -1, 0, 0, 0.00039, 0.00039, 0.00039, "347.455", -0.00061⟩,
  ⟨3, 0, -2, 2, 0, 0, -0.00005, -0.00005, -0.00005, "353.755", 0.00007⟩,
  ⟨3, 0, 0, 0, -1, 0, -0.00043, -0.00043, -0.00043, "355.545", 0.00067⟩,
  ⟨3, 0, 0, 0, 0, 0, 0.00765, 0.00765, 0.00765, "355.555", -0.01188⟩,
  ⟨3, 1, -2, 1, 0, 0, -0.00011, -0.00011, -0.00011, "363.655", 0.00017⟩,
  ⟨3, 1, 0, -1, 0, 0, -0.00043, -0.00043, -0.00043, "365.455", 0.00067⟩,
  ⟨3, 1, 0, 1, 0, 0, 0.00016, 0.00016, 0.00016, "365.655", -0.00025⟩,
  ⟨3, 1, 0, 1, 1, 0, 0.00007, 0.00007, 0.00007, "365.665", -0.00011⟩,
  ⟨3, 2, 0, 0, -1, 0, -0.00004, -0.00004, -0.00004, "375.545", 0.00006⟩,
  ⟨3, 2, 0, 0, 0, 0, 0.00100, 0.00100, 0.00100, "375.555", -0.00155⟩,
  ⟨3, 2, 0, 0, 1, 0, 0.00044, 0.00044, 0.00043, "375.565", -0.00068⟩,
  ⟨3, 2, 0, 0, 2, 0, 0.00005, 0.00005, 0.00005, "375.575", -0.00007⟩]

/-- /repo/pyTMD/data/ct1971_tab5.txt -/
def ct1971 : List Row := ct1971_0 ++ ct1971_1

/-- /repo/pyTMD/data/d1921_tab.txt, lines 1 to 21. -/
def d1921_0 : List Row := [
  ⟨0, 5, -4, 1, 0, 0, -0.00010, -0.00010, -0.00010, "0X1.655", 0.00023⟩,
  ⟨0, 5, -2, -1, 0, 0, -0.00049, -0.00049, -0.00049, "0X3.455", 0.00116⟩,
  ⟨0, 5, -2, -1, 1, 0, -0.00020, -0.00020, -0.00020, "0X3.465", 0.00048⟩,
  ⟨0, 5, 0, -3, 0, 0, -0.00019, -0.00019, -0.00019, "0X5.255", 0.00045⟩,
  ⟨0, 5, 0, -3, 1, 0, -0.00008, -0.00008, -0.00008, "0X5.265", 0.00019⟩,
  ⟨0, 6, -4, 0, 0, 0, -0.00005, -0.00005, -0.00005, "0E1.555", 0.00012⟩,
  ⟨0, 6, -2, 0, 0, 0, -0.00008, -0.00008, -0.00008, "0E3.555", 0.00019⟩,
  ⟨1, -5, 0, 4, 0, 0, -0.00008, -0.00008, -0.00008, "105.955", 0.00011⟩,
  ⟨1, -5, 2, 2, 0, 0, -0.00032, -0.00032, -0.00032, "107.755", 0.00046⟩,
  ⟨1, -5, 4, 0, 0, 0, -0.00019, -0.00019, -0.00019, "109.555", 0.00028⟩,
  ⟨1, 5, -2, 0, 0, 0, 0.00035, 0.00035, 0.00035, "1X3.555", -0.00050⟩,
  ⟨1, 5, -2, 0, 1, 0, 0.00022, 0.00022, 0.00022, "1X3.565", -0.00032⟩,
  ⟨1, 5, 0, -2, 0, 0, 0.00029, 0.00029, 0.00029, "1X5.355", -0.00041⟩,
  ⟨1, 5, 0, -2, 1, 0, 0.00019, 0.00019, 0.00019, "1X5.365", -0.00027⟩,
  ⟨1, 6, -2, -1, 0, 0, 0.00008, 0.00008, 0.00008, "1E3.455", -0.00012⟩,
  ⟨2, -5, 2, 3, 0, 0, 0.00010, 0.00010, 0.00010, "207.855", 0.00015⟩,
  ⟨2, -5, 4, 1, 0, 0, 0.00013, 0.00013, 0.00013, "209.655", 0.00018⟩,
  ⟨2, 5, -2, -1, 0, 0, 0.00012, 0.00012, 0.00012, "2X3.455", 0.00017⟩,
  ⟨2, 5, 0, -1, 0, 0, 0.00022, 0.00022, 0.00022, "2X5.455", 0.00032⟩,
  ⟨2, 5, 0, -1, 1, 0, 0.00019, 0.00019, 0.00019, "2X5.465", 0.00028⟩,
  ⟨3, -3, 2, 1, 0, 0, 0.00011, 0.00011, 0.00011, "327.655", -0.00017⟩]

/-- /repo/pyTMD/data/d1921_tab.txt -/
def d1921 : List Row := d1921_0

end Verif.Potential
