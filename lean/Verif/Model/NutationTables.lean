/-!
The tables of the IERS conventions that `/repo/pyTMD/astro.py` 945-1028 reads from
`/repo/pyTMD/data/tab5.2e.txt`, `tab5.3a.txt` and `tab5.3b.txt`: generated from these files, rows in
order.  Amplitudes are in hundredths of the unit of the files.  The code stores them in single precision;
here they are the decimal numbers of the files.
-/
namespace Verif.Sky

/-- Amplitudes of sine and cosine, and multiples of `l l' F D Om L_Me L_Ve L_E L_Ma L_J L_Sa L_U L_Ne p_A`. -/
structure Row where
  s : Int
  c : Int
  n : List Int

/-- tab5.2e.txt, rows 1 to 33 of j0 of `_parse_table_5_2e`. -/
def gst0_0 : List Row := [
  ⟨264096, -39, [0, 0, 0, 0, 1, 0, 0, 0, 0, 0, 0, 0, 0, 0]⟩,
  ⟨6352, -2, [0, 0, 0, 0, 2, 0, 0, 0, 0, 0, 0, 0, 0, 0]⟩,
  ⟨1175, 1, [0, 0, 2, -2, 3, 0, 0, 0, 0, 0, 0, 0, 0, 0]⟩,
  ⟨1121, 1, [0, 0, 2, -2, 1, 0, 0, 0, 0, 0, 0, 0, 0, 0]⟩,
  ⟨-455, 0, [0, 0, 2, -2, 2, 0, 0, 0, 0, 0, 0, 0, 0, 0]⟩,
  ⟨202, 0, [0, 0, 2, 0, 3, 0, 0, 0, 0, 0, 0, 0, 0, 0]⟩,
  ⟨198, 0, [0, 0, 2, 0, 1, 0, 0, 0, 0, 0, 0, 0, 0, 0]⟩,
  ⟨-172, 0, [0, 0, 0, 0, 3, 0, 0, 0, 0, 0, 0, 0, 0, 0]⟩,
  ⟨-141, -1, [0, 1, 0, 0, 1, 0, 0, 0, 0, 0, 0, 0, 0, 0]⟩,
  ⟨-126, -1, [0, 1, 0, 0, -1, 0, 0, 0, 0, 0, 0, 0, 0, 0]⟩,
  ⟨-63, 0, [1, 0, 0, 0, -1, 0, 0, 0, 0, 0, 0, 0, 0, 0]⟩,
  ⟨-63, 0, [1, 0, 0, 0, 1, 0, 0, 0, 0, 0, 0, 0, 0, 0]⟩,
  ⟨46, 0, [0, 1, 2, -2, 3, 0, 0, 0, 0, 0, 0, 0, 0, 0]⟩,
  ⟨45, 0, [0, 1, 2, -2, 1, 0, 0, 0, 0, 0, 0, 0, 0, 0]⟩,
  ⟨36, 0, [0, 0, 4, -4, 4, 0, 0, 0, 0, 0, 0, 0, 0, 0]⟩,
  ⟨-24, -12, [0, 0, 1, -1, 1, 0, -8, 12, 0, 0, 0, 0, 0, 0]⟩,
  ⟨32, 0, [0, 0, 2, 0, 0, 0, 0, 0, 0, 0, 0, 0, 0, 0]⟩,
  ⟨28, 0, [0, 0, 2, 0, 2, 0, 0, 0, 0, 0, 0, 0, 0, 0]⟩,
  ⟨27, 0, [1, 0, 2, 0, 3, 0, 0, 0, 0, 0, 0, 0, 0, 0]⟩,
  ⟨26, 0, [1, 0, 2, 0, 1, 0, 0, 0, 0, 0, 0, 0, 0, 0]⟩,
  ⟨-21, 0, [0, 0, 2, -2, 0, 0, 0, 0, 0, 0, 0, 0, 0, 0]⟩,
  ⟨19, 0, [0, 1, -2, 2, -3, 0, 0, 0, 0, 0, 0, 0, 0, 0]⟩,
  ⟨18, 0, [0, 1, -2, 2, -1, 0, 0, 0, 0, 0, 0, 0, 0, 0]⟩,
  ⟨-10, 5, [0, 0, 0, 0, 0, 0, 8, -13, 0, 0, 0, 0, 0, -1]⟩,
  ⟨15, 0, [0, 0, 0, 2, 0, 0, 0, 0, 0, 0, 0, 0, 0, 0]⟩,
  ⟨-14, 0, [2, 0, -2, 0, -1, 0, 0, 0, 0, 0, 0, 0, 0, 0]⟩,
  ⟨14, 0, [1, 0, 0, -2, 1, 0, 0, 0, 0, 0, 0, 0, 0, 0]⟩,
  ⟨-14, 0, [0, 1, 2, -2, 2, 0, 0, 0, 0, 0, 0, 0, 0, 0]⟩,
  ⟨14, 0, [1, 0, 0, -2, -1, 0, 0, 0, 0, 0, 0, 0, 0, 0]⟩,
  ⟨13, 0, [0, 0, 4, -2, 4, 0, 0, 0, 0, 0, 0, 0, 0, 0]⟩,
  ⟨-11, 0, [0, 0, 2, -2, 4, 0, 0, 0, 0, 0, 0, 0, 0, 0]⟩,
  ⟨11, 0, [1, 0, -2, 0, -3, 0, 0, 0, 0, 0, 0, 0, 0, 0]⟩,
  ⟨11, 0, [1, 0, -2, 0, -1, 0, 0, 0, 0, 0, 0, 0, 0, 0]⟩]

/-- j0 of `_parse_table_5_2e` (lines 54 to 86 of tab5.2e.txt). -/
def gst0 : List Row := gst0_0

/-- tab5.2e.txt, rows 1 to 1 of j1 of `_parse_table_5_2e`. -/
def gst1_0 : List Row := [
  ⟨-87, 0, [0, 0, 0, 0, 1, 0, 0, 0, 0, 0, 0, 0, 0, 0]⟩]

/-- j1 of `_parse_table_5_2e` (lines 91 to 91 of tab5.2e.txt). -/
def gst1 : List Row := gst1_0

/-- tab5.3a.txt, rows 1 to 80 of j0 of `_parse_table_5_3a`. -/
def psi0_0 : List Row := [
  ⟨-1720642418, 333860, [0, 0, 0, 0, 1, 0, 0, 0, 0, 0, 0, 0, 0, 0]⟩,
  ⟨-131709122, -136960, [0, 0, 2, -2, 2, 0, 0, 0, 0, 0, 0, 0, 0, 0]⟩,
  ⟨-22764181, 27960, [0, 0, 2, 0, 2, 0, 0, 0, 0, 0, 0, 0, 0, 0]⟩,
  ⟨20745540, -6980, [0, 0, 0, 0, 2, 0, 0, 0, 0, 0, 0, 0, 0, 0]⟩,
  ⟨14758770, 118170, [0, 1, 0, 0, 0, 0, 0, 0, 0, 0, 0, 0, 0, 0]⟩,
  ⟨7111590, -8720, [1, 0, 0, 0, 0, 0, 0, 0, 0, 0, 0, 0, 0, 0]⟩,
  ⟨-5168210, -5240, [0, 1, 2, -2, 2, 0, 0, 0, 0, 0, 0, 0, 0, 0]⟩,
  ⟨-3873020, 3800, [0, 0, 2, 0, 1, 0, 0, 0, 0, 0, 0, 0, 0, 0]⟩,
  ⟨-3014640, 8160, [1, 0, 2, 0, 2, 0, 0, 0, 0, 0, 0, 0, 0, 0]⟩,
  ⟨-2158290, 1110, [0, 1, -2, 2, -2, 0, 0, 0, 0, 0, 0, 0, 0, 0]⟩,
  ⟨-1569980, -1680, [1, 0, 0, -2, 0, 0, 0, 0, 0, 0, 0, 0, 0, 0]⟩,
  ⟨1282270, 1810, [0, 0, 2, -2, 1, 0, 0, 0, 0, 0, 0, 0, 0, 0]⟩,
  ⟨-1234570, 190, [1, 0, -2, 0, -2, 0, 0, 0, 0, 0, 0, 0, 0, 0]⟩,
  ⟨633790, -1500, [0, 0, 0, 2, 0, 0, 0, 0, 0, 0, 0, 0, 0, 0]⟩,
  ⟨631100, 270, [1, 0, 0, 0, 1, 0, 0, 0, 0, 0, 0, 0, 0, 0]⟩,
  ⟨596450, 1490, [1, 0, -2, -2, -2, 0, 0, 0, 0, 0, 0, 0, 0, 0]⟩,
  ⟨579760, -1890, [1, 0, 0, 0, -1, 0, 0, 0, 0, 0, 0, 0, 0, 0]⟩,
  ⟨-516130, 1290, [1, 0, 2, 0, 1, 0, 0, 0, 0, 0, 0, 0, 0, 0]⟩,
  ⟨477220, -180, [2, 0, 0, -2, 0, 0, 0, 0, 0, 0, 0, 0, 0, 0]⟩,
  ⟨-458930, 310, [2, 0, -2, 0, -1, 0, 0, 0, 0, 0, 0, 0, 0, 0]⟩,
  ⟨-385660, 1580, [0, 0, 2, 2, 2, 0, 0, 0, 0, 0, 0, 0, 0, 0]⟩,
  ⟨-324810, 0, [0, 2, -2, 2, -2, 0, 0, 0, 0, 0, 0, 0, 0, 0]⟩,
  ⟨-310460, 1310, [2, 0, 2, 0, 2, 0, 0, 0, 0, 0, 0, 0, 0, 0]⟩,
  ⟨292430, -740, [2, 0, 0, 0, 0, 0, 0, 0, 0, 0, 0, 0, 0, 0]⟩,
  ⟨285930, -10, [1, 0, 2, -2, 2, 0, 0, 0, 0, 0, 0, 0, 0, 0]⟩,
  ⟨258870, -660, [0, 0, 2, 0, 0, 0, 0, 0, 0, 0, 0, 0, 0, 0]⟩,
  ⟨-217830, 130, [0, 0, 2, -2, 0, 0, 0, 0, 0, 0, 0, 0, 0, 0]⟩,
  ⟨-204410, 100, [1, 0, -2, 0, -1, 0, 0, 0, 0, 0, 0, 0, 0, 0]⟩,
  ⟨167070, -100, [0, 2, 0, 0, 0, 0, 0, 0, 0, 0, 0, 0, 0, 0]⟩,
  ⟨-157940, -160, [0, 2, 2, -2, 2, 0, 0, 0, 0, 0, 0, 0, 0, 0]⟩,
  ⟨-151640, 110, [1, 0, 0, -2, -1, 0, 0, 0, 0, 0, 0, 0, 0, 0]⟩,
  ⟨-140530, 790, [0, 1, 0, 0, 1, 0, 0, 0, 0, 0, 0, 0, 0, 0]⟩,
  ⟨-128730, -370, [1, 0, 0, -2, 1, 0, 0, 0, 0, 0, 0, 0, 0, 0]⟩,
  ⟨126540, 630, [0, 1, 0, 0, -1, 0, 0, 0, 0, 0, 0, 0, 0, 0]⟩,
  ⟨110240, -140, [2, 0, -2, 0, 0, 0, 0, 0, 0, 0, 0, 0, 0, 0]⟩,
  ⟨102040, 250, [1, 0, -2, -2, -1, 0, 0, 0, 0, 0, 0, 0, 0, 0]⟩,
  ⟨-30840, 51230, [0, 0, 1, -1, 1, 0, 0, -1, 0, -2, 5, 0, 0, 0]⟩,
  ⟨-76870, 440, [1, 0, 2, 2, 2, 0, 0, 0, 0, 0, 0, 0, 0, 0]⟩,
  ⟨75660, -110, [0, 1, 2, 0, 2, 0, 0, 0, 0, 0, 0, 0, 0, 0]⟩,
  ⟨-73500, -80, [1, 1, 0, -2, 0, 0, 0, 0, 0, 0, 0, 0, 0, 0]⟩,
  ⟨71410, 80, [0, 1, -2, 0, -2, 0, 0, 0, 0, 0, 0, 0, 0, 0]⟩,
  ⟨-66370, 250, [0, 0, 2, 2, 1, 0, 0, 0, 0, 0, 0, 0, 0, 0]⟩,
  ⟨65750, -240, [1, 0, 0, 2, 0, 0, 0, 0, 0, 0, 0, 0, 0, 0]⟩,
  ⟨64430, -70, [2, 0, 2, -2, 2, 0, 0, 0, 0, 0, 0, 0, 0, 0]⟩,
  ⟨-63020, 20, [0, 0, 0, 2, 1, 0, 0, 0, 0, 0, 0, 0, 0, 0]⟩,
  ⟨58000, 20, [1, 0, 2, -2, 1, 0, 0, 0, 0, 0, 0, 0, 0, 0]⟩,
  ⟨57740, -150, [2, 0, 0, -2, -1, 0, 0, 0, 0, 0, 0, 0, 0, 0]⟩,
  ⟨-53500, 210, [2, 0, 2, 0, 1, 0, 0, 0, 0, 0, 0, 0, 0, 0]⟩,
  ⟨49400, -210, [0, 0, 0, 2, -1, 0, 0, 0, 0, 0, 0, 0, 0, 0]⟩,
  ⟨47520, -30, [0, 1, -2, 2, -1, 0, 0, 0, 0, 0, 0, 0, 0, 0]⟩,
  ⟨47250, -60, [1, -1, 0, 0, 0, 0, 0, 0, 0, 0, 0, 0, 0, 0]⟩,
  ⟨-40260, -3530, [1, 0, 0, -1, 0, 0, 0, 0, 0, 0, 0, 0, 0, 0]⟩,
  ⟨-43480, -100, [0, 1, 0, -2, 0, 0, 0, 0, 0, 0, 0, 0, 0, 0]⟩,
  ⟨-42300, 50, [0, 0, 0, 1, 0, 0, 0, 0, 0, 0, 0, 0, 0, 0]⟩,
  ⟨40650, 60, [2, 0, 0, -2, 1, 0, 0, 0, 0, 0, 0, 0, 0, 0]⟩,
  ⟨40560, 50, [1, 0, -2, 0, 0, 0, 0, 0, 0, 0, 0, 0, 0, 0]⟩,
  ⟨14440, 24090, [0, 0, 0, 0, 0, 0, 0, 0, 0, 2, -5, 0, 0, -1]⟩,
  ⟨35790, 50, [0, 1, 2, -2, 1, 0, 0, 0, 0, 0, 0, 0, 0, 0]⟩,
  ⟨-33890, 50, [1, 1, 0, 0, 0, 0, 0, 0, 0, 0, 0, 0, 0, 0]⟩,
  ⟨33390, -130, [1, 0, 2, 0, 0, 0, 0, 0, 0, 0, 0, 0, 0, 0]⟩,
  ⟨-32760, 10, [1, -1, 0, -1, 0, 0, 0, 0, 0, 0, 0, 0, 0, 0]⟩,
  ⟨30710, -20, [2, 0, -2, 0, -2, 0, 0, 0, 0, 0, 0, 0, 0, 0]⟩,
  ⟨-29010, 150, [3, 0, 2, 0, 2, 0, 0, 0, 0, 0, 0, 0, 0, 0]⟩,
  ⟨-28780, 80, [1, -1, 2, 0, 2, 0, 0, 0, 0, 0, 0, 0, 0, 0]⟩,
  ⟨28190, 70, [1, 1, -2, -2, -2, 0, 0, 0, 0, 0, 0, 0, 0, 0]⟩,
  ⟨26470, 110, [0, 1, -2, -2, -2, 0, 0, 0, 0, 0, 0, 0, 0, 0]⟩,
  ⟨24810, -70, [1, 1, 2, 0, 2, 0, 0, 0, 0, 0, 0, 0, 0, 0]⟩,
  ⟨22940, -100, [2, 0, 0, 0, -1, 0, 0, 0, 0, 0, 0, 0, 0, 0]⟩,
  ⟨21790, -20, [2, 0, 0, 0, 1, 0, 0, 0, 0, 0, 0, 0, 0, 0]⟩,
  ⟨-4620, 16040, [0, 0, 0, 0, 0, 0, 0, 4, -8, 3, 0, 0, 0, 0]⟩,
  ⟨20650, 0, [0, 0, 0, 0, 0, 0, 3, -5, 0, 0, 0, 0, 0, -2]⟩,
  ⟨19870, -60, [1, 0, -2, 2, -1, 0, 0, 0, 0, 0, 0, 0, 0, 0]⟩,
  ⟨0, -19880, [0, 1, -1, 1, -1, 0, 0, 0, 0, 0, 0, 0, 0, 0]⟩,
  ⟨-19810, 0, [1, 0, 0, 0, 2, 0, 0, 0, 0, 0, 0, 0, 0, 0]⟩,
  ⟨12000, 5980, [0, 0, 1, -1, 1, 0, -8, 12, 0, 0, 0, 0, 0, 0]⟩,
  ⟨16600, -50, [0, 0, 2, 1, 2, 0, 0, 0, 0, 0, 0, 0, 0, 0]⟩,
  ⟨15750, -60, [3, 0, 0, 0, 0, 0, 0, 0, 0, 0, 0, 0, 0, 0]⟩,
  ⟨15210, 90, [1, 0, -2, -4, -2, 0, 0, 0, 0, 0, 0, 0, 0, 0]⟩,
  ⟨14850, 0, [0, 0, 0, 0, 0, 0, 1, -1, 0, 0, 0, 0, 0, 0]⟩,
  ⟨14400, 0, [0, 0, 0, 0, 0, 0, 0, 8, -16, 4, 5, 0, 0, 0]⟩]

/-- tab5.3a.txt, rows 81 to 160 of j0 of `_parse_table_5_3a`. -/
def psi0_1 : List Row := [
  ⟨-14050, 40, [1, 0, 0, 0, -2, 0, 0, 0, 0, 0, 0, 0, 0, 0]⟩,
  ⟨-13780, -20, [2, 0, -2, -2, -2, 0, 0, 0, 0, 0, 0, 0, 0, 0]⟩,
  ⟨-13380, -50, [1, 0, 0, -4, 0, 0, 0, 0, 0, 0, 0, 0, 0, 0]⟩,
  ⟨-13310, 80, [1, 0, 2, 2, 1, 0, 0, 0, 0, 0, 0, 0, 0, 0]⟩,
  ⟨-13140, 0, [1, -1, 0, -1, -1, 0, 0, 0, 0, 0, 0, 0, 0, 0]⟩,
  ⟨12900, 0, [1, 1, 2, -2, 2, 0, 0, 0, 0, 0, 0, 0, 0, 0]⟩,
  ⟨-12820, -30, [2, 0, 0, -4, 0, 0, 0, 0, 0, 0, 0, 0, 0, 0]⟩,
  ⟨12830, 0, [0, 2, -2, 2, -1, 0, 0, 0, 0, 0, 0, 0, 0, 0]⟩,
  ⟨-12230, -290, [0, 0, 0, 0, 0, 0, 0, 1, 0, -1, 0, 0, 0, 0]⟩,
  ⟨12480, 0, [0, 0, 2, -2, 3, 0, 0, 0, 0, 0, 0, 0, 0, 0]⟩,
  ⟨12140, 50, [2, 0, -2, -4, -2, 0, 0, 0, 0, 0, 0, 0, 0, 0]⟩,
  ⟨-11660, 0, [0, 0, 0, 0, 0, 0, 0, 0, 0, 2, 0, 0, 0, 2]⟩,
  ⟨-11460, -30, [1, 0, -4, 0, -2, 0, 0, 0, 0, 0, 0, 0, 0, 0]⟩,
  ⟨-11000, 90, [2, 0, 2, 2, 2, 0, 0, 0, 0, 0, 0, 0, 0, 0]⟩,
  ⟨-10200, -250, [1, 0, 0, -1, -1, 0, 0, 0, 0, 0, 0, 0, 0, 0]⟩,
  ⟨0, -10440, [1, 0, -1, 0, -1, 0, 0, 0, 0, 0, 0, 0, 0, 0]⟩,
  ⟨10190, -10, [2, 0, 2, -2, 1, 0, 0, 0, 0, 0, 0, 0, 0, 0]⟩,
  ⟨10140, -10, [2, 1, 0, -2, 0, 0, 0, 0, 0, 0, 0, 0, 0, 0]⟩,
  ⟨-9700, 20, [1, 0, 0, 2, 1, 0, 0, 0, 0, 0, 0, 0, 0, 0]⟩,
  ⟨9490, 10, [1, -1, 0, -2, 0, 0, 0, 0, 0, 0, 0, 0, 0, 0]⟩,
  ⟨9340, -30, [3, 0, 2, -2, 2, 0, 0, 0, 0, 0, 0, 0, 0, 0]⟩,
  ⟨9220, -10, [0, 0, 4, -2, 2, 0, 0, 0, 0, 0, 0, 0, 0, 0]⟩,
  ⟨-4600, -4350, [0, 0, 0, 0, 1, 0, 0, -1, 2, 0, 0, 0, 0, 0]⟩,
  ⟨-4490, 4300, [0, 0, 0, 0, 0, 0, 0, 1, -2, 0, 0, 0, 0, 0]⟩,
  ⟨-8750, 10, [0, 1, -2, 2, 0, 0, 0, 0, 0, 0, 0, 0, 0, 0]⟩,
  ⟨-8340, 20, [0, 0, 2, -2, -1, 0, 0, 0, 0, 0, 0, 0, 0, 0]⟩,
  ⟨8150, -10, [0, 1, 2, 0, 1, 0, 0, 0, 0, 0, 0, 0, 0, 0]⟩,
  ⟨-7660, 10, [1, 0, 2, -2, 0, 0, 0, 0, 0, 0, 0, 0, 0, 0]⟩,
  ⟨-7420, 10, [1, 1, 0, -2, -1, 0, 0, 0, 0, 0, 0, 0, 0, 0]⟩,
  ⟨7150, -40, [0, 1, 0, 0, 2, 0, 0, 0, 0, 0, 0, 0, 0, 0]⟩,
  ⟨7160, -20, [2, 0, -2, 0, 1, 0, 0, 0, 0, 0, 0, 0, 0, 0]⟩,
  ⟨-7040, 0, [0, 0, 2, -1, 2, 0, 0, 0, 0, 0, 0, 0, 0, 0]⟩,
  ⟨-6940, 50, [0, 0, 2, 4, 2, 0, 0, 0, 0, 0, 0, 0, 0, 0]⟩,
  ⟨-6730, 20, [0, 1, 0, 2, 0, 0, 0, 0, 0, 0, 0, 0, 0, 0]⟩,
  ⟨6660, -30, [0, 0, 2, 0, -1, 0, 0, 0, 0, 0, 0, 0, 0, 0]⟩,
  ⟨6670, 10, [0, 1, -2, 0, -1, 0, 0, 0, 0, 0, 0, 0, 0, 0]⟩,
  ⟨-6580, 0, [0, 1, 2, -2, 0, 0, 0, 0, 0, 0, 0, 0, 0, 0]⟩,
  ⟨-6390, -20, [1, 0, -2, -2, 0, 0, 0, 0, 0, 0, 0, 0, 0, 0]⟩,
  ⟨-4250, 2120, [0, 0, 0, 0, 0, 0, 8, -13, 0, 0, 0, 0, 0, -1]⟩,
  ⟨80, 6140, [0, 0, 0, 0, 0, 0, 2, -3, 0, 0, 0, 0, 0, 0]⟩,
  ⟨-4910, 1280, [0, 0, 0, 0, 0, 0, 0, 0, 0, 2, -5, 0, 0, 0]⟩,
  ⟨-5980, 0, [0, 0, 0, 0, 0, 0, 2, -2, 0, 0, 0, 0, 0, 0]⟩,
  ⟨5950, 0, [1, -1, 0, -1, -2, 0, 0, 0, 0, 0, 0, 0, 0, 0]⟩,
  ⟨-5900, 40, [1, -1, 2, 2, 2, 0, 0, 0, 0, 0, 0, 0, 0, 0]⟩,
  ⟨-5910, 0, [0, 1, 0, 0, -2, 0, 0, 0, 0, 0, 0, 0, 0, 0]⟩,
  ⟨5880, -30, [2, 0, 0, 2, 0, 0, 0, 0, 0, 0, 0, 0, 0, 0]⟩,
  ⟨-5850, -20, [1, 1, 0, -2, 1, 0, 0, 0, 0, 0, 0, 0, 0, 0]⟩,
  ⟨-5780, 10, [1, 0, -2, 2, 0, 0, 0, 0, 0, 0, 0, 0, 0, 0]⟩,
  ⟨-5700, -20, [1, -1, -2, -2, -2, 0, 0, 0, 0, 0, 0, 0, 0, 0]⟩,
  ⟨2350, 3340, [0, 0, 0, 0, 0, 0, 8, -13, 0, 0, 0, 0, 0, 0]⟩,
  ⟨5650, -10, [0, 1, 0, 1, 0, 0, 0, 0, 0, 0, 0, 0, 0, 0]⟩,
  ⟨1230, -4160, [0, 0, 0, 0, 0, 0, 0, 2, -8, 3, 0, 0, 0, -2]⟩,
  ⟨1230, -4150, [0, 0, 0, 0, 0, 0, 0, 6, -8, 3, 0, 0, 0, 2]⟩,
  ⟨5350, -20, [0, 1, 2, 2, 2, 0, 0, 0, 0, 0, 0, 0, 0, 0]⟩,
  ⟨5170, 160, [0, 0, 0, 0, 0, 0, 0, 3, 0, -1, 0, 0, 0, 2]⟩,
  ⟨5280, 0, [1, -1, 0, 0, 1, 0, 0, 0, 0, 0, 0, 0, 0, 0]⟩,
  ⟨310, -4810, [0, 0, 1, -1, 1, 0, 0, -1, 0, 2, -5, 0, 0, 0]⟩,
  ⟨-5020, 30, [3, 0, 2, 0, 1, 0, 0, 0, 0, 0, 0, 0, 0, 0]⟩,
  ⟨4940, -20, [0, 0, 0, 4, 0, 0, 0, 0, 0, 0, 0, 0, 0, 0]⟩,
  ⟨4920, -30, [1, 0, 0, 2, -1, 0, 0, 0, 0, 0, 0, 0, 0, 0]⟩,
  ⟨4930, -20, [1, -1, 0, 2, 0, 0, 0, 0, 0, 0, 0, 0, 0, 0]⟩,
  ⟨-4880, 20, [2, -1, 2, 0, 2, 0, 0, 0, 0, 0, 0, 0, 0, 0]⟩,
  ⟨-4900, 0, [0, 0, 0, 0, 0, 0, 4, -6, 0, 0, 0, 0, 0, -2]⟩,
  ⟨4670, 10, [1, 1, -2, -2, -1, 0, 0, 0, 0, 0, 0, 0, 0, 0]⟩,
  ⟨-4680, 0, [0, 0, 0, 2, 2, 0, 0, 0, 0, 0, 0, 0, 0, 0]⟩,
  ⟨-4630, 0, [1, -1, -2, 0, -2, 0, 0, 0, 0, 0, 0, 0, 0, 0]⟩,
  ⟨4580, 0, [0, 0, 0, 0, 0, 0, 2, -4, 0, 0, 0, 0, 0, -2]⟩,
  ⟨-4530, -10, [1, 0, 2, -4, 1, 0, 0, 0, 0, 0, 0, 0, 0, 0]⟩,
  ⟨-180, -4360, [0, 0, 2, -2, 1, 0, -5, 6, 0, 0, 0, 0, 0, 0]⟩,
  ⟨4460, 20, [0, 1, -2, -2, -1, 0, 0, 0, 0, 0, 0, 0, 0, 0]⟩,
  ⟨4390, 0, [2, 0, 0, -2, 0, 0, 0, -2, 0, 2, 0, 0, 0, 0]⟩,
  ⟨-4380, 0, [0, 3, 2, -2, 2, 0, 0, 0, 0, 0, 0, 0, 0, 0]⟩,
  ⟨-1660, 2690, [0, 0, 0, 0, 0, 0, 0, 1, 0, -2, 0, 0, 0, 0]⟩,
  ⟨4130, 130, [0, 0, 0, 0, 0, 0, 0, 2, 0, -2, 0, 0, 0, 0]⟩,
  ⟨-4210, 10, [1, -1, 2, 0, 1, 0, 0, 0, 0, 0, 0, 0, 0, 0]⟩,
  ⟨4160, -20, [0, 0, 2, 2, 0, 0, 0, 0, 0, 0, 0, 0, 0, 0]⟩,
  ⟨4120, -20, [2, 1, 2, 0, 2, 0, 0, 0, 0, 0, 0, 0, 0, 0]⟩,
  ⟨3490, -620, [2, 0, 0, -2, 0, 0, 0, -2, 0, 3, 0, 0, 0, 0]⟩,
  ⟨3960, 0, [1, 0, 0, -2, -2, 0, 0, 0, 0, 0, 0, 0, 0, 0]⟩,
  ⟨-3900, 0, [0, 0, 0, 1, 1, 0, 0, 0, 0, 0, 0, 0, 0, 0]⟩]

/-- tab5.3a.txt, rows 161 to 240 of j0 of `_parse_table_5_3a`. -/
def psi0_2 : List Row := [
  ⟨840, 2980, [0, 0, 0, 0, 1, 0, 0, -4, 8, -3, 0, 0, 0, 0]⟩,
  ⟨3700, -80, [0, 0, 0, 0, 0, 0, 2, 0, 0, 0, 0, 0, 0, 2]⟩,
  ⟨3750, -10, [2, -1, 0, 0, 0, 0, 0, 0, 0, 0, 0, 0, 0, 0]⟩,
  ⟨-820, 2920, [0, 0, 0, 0, 1, 0, 0, 4, -8, 3, 0, 0, 0, 0]⟩,
  ⟨-3680, 0, [0, 0, 0, 0, 0, 0, 0, 2, -2, 0, 0, 0, 0, 0]⟩,
  ⟨0, 3640, [1, 0, -1, 0, -2, 0, 0, 0, 0, 0, 0, 0, 0, 0]⟩,
  ⟨3600, -10, [1, 1, 2, 0, 1, 0, 0, 0, 0, 0, 0, 0, 0, 0]⟩,
  ⟨-3610, 0, [1, 1, 0, 0, 1, 0, 0, 0, 0, 0, 0, 0, 0, 0]⟩,
  ⟨-3570, 10, [1, 0, -2, 2, -2, 0, 0, 0, 0, 0, 0, 0, 0, 0]⟩,
  ⟨2730, 800, [0, 0, 1, -1, 1, 0, 0, 0, -2, 0, 0, 0, 0, 0]⟩,
  ⟨-2660, -780, [0, 0, 1, -1, 0, 0, 0, 0, -2, 0, 0, 0, 0, 0]⟩,
  ⟨-3390, 0, [0, 0, 0, 0, 0, 0, 1, 1, 0, 0, 0, 0, 0, 2]⟩,
  ⟨-910, 2480, [0, 0, 0, 0, 0, 0, 0, 0, 0, 1, 0, 0, 0, 0]⟩,
  ⟨3370, -10, [1, 0, 2, 1, 2, 0, 0, 0, 0, 0, 0, 0, 0, 0]⟩,
  ⟨3350, -20, [2, 0, 2, 0, 0, 0, 0, 0, 0, 0, 0, 0, 0, 0]⟩,
  ⟨-3350, -10, [0, 1, 0, -2, 1, 0, 0, 0, 0, 0, 0, 0, 0, 0]⟩,
  ⟨-3340, 0, [1, 0, 2, -1, 2, 0, 0, 0, 0, 0, 0, 0, 0, 0]⟩,
  ⟨-50, 3280, [0, 0, 0, 0, 0, 0, 3, -4, 0, 0, 0, 0, 0, 0]⟩,
  ⟨0, 3300, [1, 0, -1, 0, 0, 0, 0, 0, 0, 0, 0, 0, 0, 0]⟩,
  ⟨-2260, 1010, [1, 0, 0, 0, 0, 0, -18, 16, 0, 0, 0, 0, 0, 0]⟩,
  ⟨-3250, 10, [1, 0, 0, 1, 0, 0, 0, 0, 0, 0, 0, 0, 0, 0]⟩,
  ⟨510, 2720, [0, 0, 0, 0, 0, 0, 0, 0, 0, 2, 0, 0, 0, 1]⟩,
  ⟨-3210, 10, [0, 0, 0, 1, -1, 0, 0, 0, 0, 0, 0, 0, 0, 0]⟩,
  ⟨3090, 10, [1, 0, 0, -2, 2, 0, 0, 0, 0, 0, 0, 0, 0, 0]⟩,
  ⟨2190, 890, [1, 0, 0, 0, 0, 0, -10, 3, 0, 0, 0, 0, 0, 0]⟩,
  ⟨3010, -10, [1, -1, 0, 0, -1, 0, 0, 0, 0, 0, 0, 0, 0, 0]⟩,
  ⟨-2860, 10, [2, 1, 0, 0, 0, 0, 0, 0, 0, 0, 0, 0, 0, 0]⟩,
  ⟨-2840, 0, [2, 0, 0, -2, -1, 0, 0, -2, 0, 2, 0, 0, 0, 0]⟩,
  ⟨2800, -10, [0, 0, 2, 1, 1, 0, 0, 0, 0, 0, 0, 0, 0, 0]⟩,
  ⟨-2760, 0, [1, 2, 0, -2, 0, 0, 0, 0, 0, 0, 0, 0, 0, 0]⟩,
  ⟨2760, 0, [0, 3, 0, 0, 0, 0, 0, 0, 0, 0, 0, 0, 0, 0]⟩,
  ⟨110, -2610, [0, 0, 0, 0, 0, 0, 5, -8, 0, 0, 0, 0, 0, -2]⟩,
  ⟨2630, 20, [1, 0, -2, -4, -1, 0, 0, 0, 0, 0, 0, 0, 0, 0]⟩,
  ⟨-2620, 0, [0, 0, 0, 0, 0, 0, 0, 1, 0, 1, 0, 0, 0, 2]⟩,
  ⟨-2590, 20, [4, 0, 2, 0, 2, 0, 0, 0, 0, 0, 0, 0, 0, 0]⟩,
  ⟨1740, 840, [0, 0, 1, -1, 1, 0, 0, -1, 0, 0, -1, 0, 0, 0]⟩,
  ⟨2530, 10, [1, 0, -2, 0, 1, 0, 0, 0, 0, 0, 0, 0, 0, 0]⟩,
  ⟨2520, 0, [2, 1, 2, -2, 2, 0, 0, 0, 0, 0, 0, 0, 0, 0]⟩,
  ⟨-2450, 10, [0, 1, 2, 1, 2, 0, 0, 0, 0, 0, 0, 0, 0, 0]⟩,
  ⟨2450, 0, [1, 1, 2, -2, 1, 0, 0, 0, 0, 0, 0, 0, 0, 0]⟩,
  ⟨2430, -10, [1, 0, 4, -2, 2, 0, 0, 0, 0, 0, 0, 0, 0, 0]⟩,
  ⟨-500, 1940, [0, 0, 1, -1, 1, 0, 0, -1, 0, -1, 0, 0, 0, 0]⟩,
  ⟨100, 2330, [0, 0, 2, -2, 0, 0, -5, 6, 0, 0, 0, 0, 0, 0]⟩,
  ⟨-860, 1530, [0, 0, 0, 0, 0, 0, 0, 2, -4, 0, 0, 0, 0, 0]⟩,
  ⟨140, -2180, [0, 0, 0, 0, 0, 0, 0, 0, 0, 2, -5, 0, 0, 1]⟩,
  ⟨-2310, 0, [2, 0, -2, -2, -1, 0, 0, 0, 0, 0, 0, 0, 0, 0]⟩,
  ⟨2290, 0, [1, 0, -2, 1, -1, 0, 0, 0, 0, 0, 0, 0, 0, 0]⟩,
  ⟨2280, 0, [2, -2, 0, -2, 0, 0, 0, 0, 0, 0, 0, 0, 0, 0]⟩,
  ⟨-2190, 0, [0, 0, 0, 0, 3, 0, 0, 0, 0, 0, 0, 0, 0, 0]⟩,
  ⟨410, 1750, [0, 0, 0, 0, 0, 0, 8, -13, 0, 0, 0, 0, 0, -2]⟩,
  ⟨-2130, 0, [0, 2, 0, -2, 0, 0, 0, 0, 0, 0, 0, 0, 0, 0]⟩,
  ⟨2080, 10, [2, 0, -2, -4, -1, 0, 0, 0, 0, 0, 0, 0, 0, 0]⟩,
  ⟨-2080, 10, [1, 1, 0, 0, -1, 0, 0, 0, 0, 0, 0, 0, 0, 0]⟩,
  ⟨-2020, 0, [0, 0, 0, 0, 0, 0, 5, -7, 0, 0, 0, 0, 0, -2]⟩,
  ⟨1990, 0, [0, 1, 0, 2, 1, 0, 0, 0, 0, 0, 0, 0, 0, 0]⟩,
  ⟨-1970, -10, [1, 0, -4, 0, -1, 0, 0, 0, 0, 0, 0, 0, 0, 0]⟩,
  ⟨-1920, 20, [2, 0, 2, 2, 1, 0, 0, 0, 0, 0, 0, 0, 0, 0]⟩,
  ⟨1310, -630, [1, 0, 2, 0, 2, 0, 0, 1, 0, 0, 0, 0, 0, 0]⟩,
  ⟨-1450, 470, [0, 0, 0, 0, 0, 0, 3, -5, 0, 0, 0, 0, 0, 0]⟩,
  ⟨1260, -630, [1, 0, -2, 0, -2, 0, 0, 4, -8, 3, 0, 0, 0, 0]⟩,
  ⟨-1880, 0, [0, 0, 2, -3, 2, 0, 0, 0, 0, 0, 0, 0, 0, 0]⟩,
  ⟨1860, -10, [0, 0, 4, 0, 2, 0, 0, 0, 0, 0, 0, 0, 0, 0]⟩,
  ⟨1590, -280, [1, 0, 0, -1, 1, 0, 0, 0, 0, 0, 0, 0, 0, 0]⟩,
  ⟨1870, 0, [1, 0, 0, -4, -1, 0, 0, 0, 0, 0, 0, 0, 0, 0]⟩,
  ⟨-1840, -30, [0, 0, 0, 0, 0, 0, 0, 4, 0, -2, 0, 0, 0, 2]⟩,
  ⟨-1540, -300, [0, 0, 0, 0, 0, 0, 0, 2, 0, -1, 0, 0, 0, 2]⟩,
  ⟨50, -1730, [0, 0, 0, 0, 0, 0, 2, -1, 0, 0, 0, 0, 0, 2]⟩,
  ⟨-1750, 0, [2, 0, 0, -2, -2, 0, 0, 0, 0, 0, 0, 0, 0, 0]⟩,
  ⟨1740, 10, [1, 1, -2, -4, -2, 0, 0, 0, 0, 0, 0, 0, 0, 0]⟩,
  ⟨1630, -120, [0, 0, 0, 0, 0, 0, 0, 2, 0, 1, 0, 0, 0, 2]⟩,
  ⟨620, -1120, [0, 0, 0, 0, 0, 0, 8, -11, 0, 0, 0, 0, 0, -2]⟩,
  ⟨-560, -1170, [0, 0, 0, 0, 0, 0, 0, 8, -16, 4, 5, 0, 0, -2]⟩,
  ⟨-270, -1430, [0, 0, 1, -1, 1, 0, 0, -1, 0, 2, 0, 0, 0, 0]⟩,
  ⟨1250, -430, [0, 0, 0, 0, 0, 0, 0, 8, -16, 4, 5, 0, 0, 2]⟩,
  ⟨1400, 270, [0, 0, 1, -1, 1, 0, -5, 7, 0, 0, 0, 0, 0, 0]⟩,
  ⟨-1630, 20, [1, 0, 2, 4, 2, 0, 0, 0, 0, 0, 0, 0, 0, 0]⟩,
  ⟨510, 1140, [0, 0, 0, 0, 0, 0, 0, 0, 0, 0, 2, 0, 0, 1]⟩,
  ⟨1030, -600, [1, 0, 0, -2, 0, 0, 19, -21, 3, 0, 0, 0, 0, 0]⟩,
  ⟨0, -1620, [0, 0, 1, 0, 1, 0, 0, 0, 0, 0, 0, 0, 0, 0]⟩,
  ⟨-1610, 0, [3, 0, 0, -4, 0, 0, 0, 0, 0, 0, 0, 0, 0, 0]⟩]

/-- tab5.3a.txt, rows 241 to 320 of j0 of `_parse_table_5_3a`. -/
def psi0_3 : List Row := [
  ⟨1590, 0, [1, 1, -2, 0, -2, 0, 0, 0, 0, 0, 0, 0, 0, 0]⟩,
  ⟨-480, -1100, [0, 0, 1, -1, 1, 0, 0, -1, 0, 0, 2, 0, 0, 0]⟩,
  ⟨670, -910, [0, 0, 0, 0, 0, 0, 0, 3, 0, -2, 0, 0, 0, 2]⟩,
  ⟨-610, -960, [0, 0, 0, 0, 0, 0, 8, -15, 0, 0, 0, 0, 0, -2]⟩,
  ⟨1560, 0, [0, 1, 0, -2, -1, 0, 0, 0, 0, 0, 0, 0, 0, 0]⟩,
  ⟨-1540, 10, [0, 0, 0, 4, 1, 0, 0, 0, 0, 0, 0, 0, 0, 0]⟩,
  ⟨-850, -700, [0, 0, 0, 0, 0, 0, 0, 1, 2, 0, 0, 0, 0, 2]⟩,
  ⟨-1530, -10, [0, 0, 2, -4, 1, 0, 0, 0, 0, 0, 0, 0, 0, 0]⟩,
  ⟨-1510, -10, [1, 1, 0, -4, 0, 0, 0, 0, 0, 0, 0, 0, 0, 0]⟩,
  ⟨800, -710, [0, 0, 0, 0, 0, 0, 0, 3, -2, 0, 0, 0, 0, 2]⟩,
  ⟨-1270, 210, [0, 0, 0, 0, 0, 0, 0, 0, 0, 3, 0, 0, 0, 2]⟩,
  ⟨1470, 0, [3, 0, 2, -2, 1, 0, 0, 0, 0, 0, 0, 0, 0, 0]⟩,
  ⟨1430, -30, [0, 0, 0, 0, 0, 0, 0, 4, -2, 0, 0, 0, 0, 2]⟩,
  ⟨1440, -10, [1, 1, 2, 2, 2, 0, 0, 0, 0, 0, 0, 0, 0, 0]⟩,
  ⟨1410, 0, [0, 0, 4, -2, 1, 0, 0, 0, 0, 0, 0, 0, 0, 0]⟩,
  ⟨1380, 0, [2, 0, 0, -2, 0, 0, -3, 3, 0, 0, 0, 0, 0, 0]⟩,
  ⟨-1340, 10, [3, 0, 2, 2, 2, 0, 0, 0, 0, 0, 0, 0, 0, 0]⟩,
  ⟨-1330, 0, [0, 0, 0, 0, 0, 0, 0, 0, 0, 0, 2, 0, 0, 2]⟩,
  ⟨1320, 0, [2, 1, 0, -2, -1, 0, 0, 0, 0, 0, 0, 0, 0, 0]⟩,
  ⟨250, 1060, [0, 0, 0, 0, 0, 0, 4, -6, 0, 0, 0, 0, 0, -1]⟩,
  ⟨0, 1310, [1, 0, 0, -1, 0, 0, -3, 4, 0, 0, 0, 0, 0, 0]⟩,
  ⟨-250, 1060, [0, 0, 0, 0, 0, 0, 1, -1, 0, 0, 0, 0, 0, -1]⟩,
  ⟨1290, 10, [0, 2, -2, -2, -2, 0, 0, 0, 0, 0, 0, 0, 0, 0]⟩,
  ⟨1280, 0, [0, 0, 2, 0, 3, 0, 0, 0, 0, 0, 0, 0, 0, 0]⟩,
  ⟨-1230, 0, [2, 0, 0, -4, -1, 0, 0, 0, 0, 0, 0, 0, 0, 0]⟩,
  ⟨-780, 450, [0, 0, 0, 0, 0, 0, 0, 3, -4, 0, 0, 0, 0, 0]⟩,
  ⟨-1210, 10, [0, 0, 2, 4, 1, 0, 0, 0, 0, 0, 0, 0, 0, 0]⟩,
  ⟨-1200, 0, [0, 0, 0, 2, -2, 0, 0, 0, 0, 0, 0, 0, 0, 0]⟩,
  ⟨1180, -10, [3, 0, 0, 0, -1, 0, 0, 0, 0, 0, 0, 0, 0, 0]⟩,
  ⟨-1180, 0, [0, 0, 0, 0, 0, 0, 0, 1, 0, -3, 0, 0, 0, -2]⟩,
  ⟨1170, 0, [0, 0, 2, -2, 1, 0, -3, 3, 0, 0, 0, 0, 0, 0]⟩,
  ⟨-1170, 0, [0, 0, 0, 0, 0, 0, 6, -8, 0, 0, 0, 0, 0, -2]⟩,
  ⟨-1150, 0, [2, 1, 0, -4, 0, 0, 0, 0, 0, 0, 0, 0, 0, 0]⟩,
  ⟨1130, -10, [4, 0, 2, -2, 2, 0, 0, 0, 0, 0, 0, 0, 0, 0]⟩,
  ⟨-1140, 0, [2, 0, 0, 2, 1, 0, 0, 0, 0, 0, 0, 0, 0, 0]⟩,
  ⟨-1140, 0, [0, 0, 1, -1, 1, 0, 0, 3, -8, 3, 0, 0, 0, 0]⟩,
  ⟨0, -1140, [0, 0, 0, 0, 0, 0, 3, -2, 0, 0, 0, 0, 0, 2]⟩,
  ⟨0, -1140, [0, 0, 0, 0, 0, 0, 2, -5, 0, 0, 0, 0, 0, -2]⟩,
  ⟨1130, 0, [1, -1, 0, -2, -1, 0, 0, 0, 0, 0, 0, 0, 0, 0]⟩,
  ⟨-1130, 0, [0, 0, 0, 0, 0, 0, 1, -3, 0, 0, 0, 0, 0, -2]⟩,
  ⟨460, 660, [0, 0, 0, 0, 1, 0, 8, -13, 0, 0, 0, 0, 0, 0]⟩,
  ⟨1100, 0, [2, 1, -2, -4, -2, 0, 0, 0, 0, 0, 0, 0, 0, 0]⟩,
  ⟨220, -870, [0, 0, 0, 0, 0, 0, 1, -2, 0, 0, 0, 0, 0, 0]⟩,
  ⟨-680, 390, [0, 0, 0, 0, 0, 0, 0, 2, -3, 0, 0, 0, 0, 0]⟩,
  ⟨-1030, -30, [1, 1, 0, 2, 0, 0, 0, 0, 0, 0, 0, 0, 0, 0]⟩,
  ⟨-1060, 0, [0, 0, 2, -1, 1, 0, 0, 0, 0, 0, 0, 0, 0, 0]⟩,
  ⟨890, -160, [2, 0, 0, -2, 1, 0, 0, -2, 0, 3, 0, 0, 0, 0]⟩,
  ⟨1050, 0, [1, -1, -2, 2, -1, 0, 0, 0, 0, 0, 0, 0, 0, 0]⟩,
  ⟨-880, 170, [0, 0, 0, 0, 0, 0, 5, -8, 0, 0, 0, 0, 0, -1]⟩,
  ⟨1040, 0, [1, 2, -2, -2, -2, 0, 0, 0, 0, 0, 0, 0, 0, 0]⟩,
  ⟨1030, 0, [1, 0, 0, -3, 0, 0, 0, 0, 0, 0, 0, 0, 0, 0]⟩,
  ⟨-1020, 0, [2, 0, 0, -2, 2, 0, 0, 0, 0, 0, 0, 0, 0, 0]⟩,
  ⟨-1020, 0, [2, 0, 0, -4, 1, 0, 0, 0, 0, 0, 0, 0, 0, 0]⟩,
  ⟨680, -340, [1, 0, 0, 0, -1, 0, -18, 16, 0, 0, 0, 0, 0, 0]⟩,
  ⟨1010, 0, [2, 0, 2, -4, 1, 0, 0, 0, 0, 0, 0, 0, 0, 0]⟩,
  ⟨-1000, -10, [1, 0, 0, -4, 1, 0, 0, 0, 0, 0, 0, 0, 0, 0]⟩,
  ⟨-1000, 10, [1, -1, 2, 2, 1, 0, 0, 0, 0, 0, 0, 0, 0, 0]⟩,
  ⟨990, 0, [0, 0, 1, -1, 1, 0, 0, -5, 8, -3, 0, 0, 0, 0]⟩,
  ⟨210, -780, [0, 0, 1, -1, 0, 0, 0, -1, 0, -1, 0, 0, 0, 0]⟩,
  ⟨830, 150, [0, 0, 0, 0, 0, 0, 0, 2, 0, -3, 0, 0, 0, 0]⟩,
  ⟨-920, -50, [2, -1, 0, -2, 0, 0, 0, 0, 0, 0, 0, 0, 0, 0]⟩,
  ⟨-400, 570, [0, 0, 0, 0, 1, 0, -8, 13, 0, 0, 0, 0, 0, 0]⟩,
  ⟨-780, -180, [2, 0, 0, -2, 0, 0, -6, 8, 0, 0, 0, 0, 0, 0]⟩,
  ⟨-960, 0, [1, -1, -2, 0, -1, 0, 0, 0, 0, 0, 0, 0, 0, 0]⟩,
  ⟨-910, -40, [2, 1, -2, 0, -1, 0, 0, 0, 0, 0, 0, 0, 0, 0]⟩,
  ⟨940, 0, [4, 0, 0, 0, 0, 0, 0, 0, 0, 0, 0, 0, 0, 0]⟩,
  ⟨-940, 0, [0, 2, 0, 0, 1, 0, 0, 0, 0, 0, 0, 0, 0, 0]⟩,
  ⟨-940, 0, [0, 2, -2, 2, 0, 0, 0, 0, 0, 0, 0, 0, 0, 0]⟩,
  ⟨-940, 0, [0, 1, -2, 1, -2, 0, 0, 0, 0, 0, 0, 0, 0, 0]⟩,
  ⟨930, 0, [1, 0, -4, 2, -2, 0, 0, 0, 0, 0, 0, 0, 0, 0]⟩,
  ⟨830, 100, [0, 2, -2, 0, -2, 0, 0, 0, 0, 0, 0, 0, 0, 0]⟩,
  ⟨-920, 10, [2, -1, 2, 2, 2, 0, 0, 0, 0, 0, 0, 0, 0, 0]⟩,
  ⟨920, 10, [0, 1, -2, -4, -2, 0, 0, 0, 0, 0, 0, 0, 0, 0]⟩,
  ⟨760, 170, [0, 0, 0, 0, 1, 0, 0, 0, 0, -2, 5, 0, 0, 0]⟩,
  ⟨-910, 0, [2, 0, 0, 0, 2, 0, 0, 0, 0, 0, 0, 0, 0, 0]⟩,
  ⟨-910, 0, [1, 0, -2, -3, -2, 0, 0, 0, 0, 0, 0, 0, 0, 0]⟩,
  ⟨-730, 170, [0, 0, 0, 0, 1, 0, 0, 0, 0, 2, -5, 0, 0, 0]⟩,
  ⟨200, -700, [0, 0, 0, 0, 1, 0, 0, 0, 0, 1, 0, 0, 0, 0]⟩,
  ⟨890, 0, [0, 0, 0, 0, 0, 0, 3, -3, 0, 0, 0, 0, 0, 0]⟩,
  ⟨-890, 0, [0, 0, 0, 0, 0, 0, 0, 2, 0, 0, 0, 0, 0, 2]⟩]

/-- tab5.3a.txt, rows 321 to 400 of j0 of `_parse_table_5_3a`. -/
def psi0_4 : List Row := [
  ⟨-880, 0, [2, 0, 2, -2, 0, 0, 0, 0, 0, 0, 0, 0, 0, 0]⟩,
  ⟨870, 0, [0, 2, 2, -2, 1, 0, 0, 0, 0, 0, 0, 0, 0, 0]⟩,
  ⟨0, -860, [0, 0, 0, 0, 0, 0, 0, 6, -16, 4, 5, 0, 0, -2]⟩,
  ⟨570, -280, [1, 0, 0, 0, 1, 0, -18, 16, 0, 0, 0, 0, 0, 0]⟩,
  ⟨850, 0, [1, -2, 0, 0, 0, 0, 0, 0, 0, 0, 0, 0, 0, 0]⟩,
  ⟨-840, 0, [1, -1, -2, -2, -1, 0, 0, 0, 0, 0, 0, 0, 0, 0]⟩,
  ⟨840, 0, [0, 1, 2, 2, 1, 0, 0, 0, 0, 0, 0, 0, 0, 0]⟩,
  ⟨830, 0, [3, 0, 0, 0, 1, 0, 0, 0, 0, 0, 0, 0, 0, 0]⟩,
  ⟨830, 0, [1, 0, 2, 0, -1, 0, 0, 0, 0, 0, 0, 0, 0, 0]⟩,
  ⟨-830, 0, [1, 0, -2, -1, -2, 0, 0, 0, 0, 0, 0, 0, 0, 0]⟩,
  ⟨830, 0, [0, 0, 0, 0, 0, 0, 4, -4, 0, 0, 0, 0, 0, 0]⟩,
  ⟨-350, -480, [0, 0, 0, 0, 0, 0, 0, 1, 0, 2, 0, 0, 0, 2]⟩,
  ⟨820, 0, [2, 1, 0, -2, 1, 0, 0, 0, 0, 0, 0, 0, 0, 0]⟩,
  ⟨-820, 0, [2, -1, -2, 0, -1, 0, 0, 0, 0, 0, 0, 0, 0, 0]⟩,
  ⟨810, -10, [1, 0, 2, 2, 0, 0, 0, 0, 0, 0, 0, 0, 0, 0]⟩,
  ⟨820, 0, [1, 0, 0, 4, 0, 0, 0, 0, 0, 0, 0, 0, 0, 0]⟩,
  ⟨790, 0, [2, 0, -4, 0, -2, 0, 0, 0, 0, 0, 0, 0, 0, 0]⟩,
  ⟨630, -160, [0, 0, 0, 0, 0, 0, 3, -7, 0, 0, 0, 0, 0, -2]⟩,
  ⟨780, 0, [3, 0, -2, 0, -1, 0, 0, 0, 0, 0, 0, 0, 0, 0]⟩,
  ⟨-660, -120, [0, 0, 1, -1, 1, 0, 0, -1, 0, 0, 1, 0, 0, 0]⟩,
  ⟨770, 0, [2, 0, -2, 2, -1, 0, 0, 0, 0, 0, 0, 0, 0, 0]⟩,
  ⟨-770, 0, [2, -1, 2, 0, 1, 0, 0, 0, 0, 0, 0, 0, 0, 0]⟩,
  ⟨740, -30, [1, -2, 0, -2, 0, 0, 0, 0, 0, 0, 0, 0, 0, 0]⟩,
  ⟨750, 0, [1, 0, 2, -4, 0, 0, 0, 0, 0, 0, 0, 0, 0, 0]⟩,
  ⟨0, 750, [0, 0, 1, 0, 0, 0, 0, 0, 0, 0, 0, 0, 0, 0]⟩,
  ⟨-750, 0, [0, 0, 0, 0, 0, 0, 0, 1, 0, 0, -1, 0, 0, 0]⟩,
  ⟨520, 230, [0, 0, 0, 0, 0, 0, 0, 0, 0, 1, 0, 0, 0, 2]⟩,
  ⟨740, 0, [0, 2, 2, 0, 2, 0, 0, 0, 0, 0, 0, 0, 0, 0]⟩,
  ⟨-740, 0, [0, 0, 0, 0, 0, 0, 7, -9, 0, 0, 0, 0, 0, -2]⟩,
  ⟨-740, 0, [0, 0, 0, 0, 0, 0, 0, 0, 2, 0, 0, 0, 0, 2]⟩,
  ⟨-140, -590, [0, 0, 0, 0, 0, 0, 2, -4, 0, 0, 0, 0, 0, -1]⟩,
  ⟨-730, 0, [1, -1, 2, -2, 2, 0, 0, 0, 0, 0, 0, 0, 0, 0]⟩,
  ⟨-370, 350, [0, 0, 0, 0, 1, 0, 0, 1, -2, 0, 0, 0, 0, 0]⟩,
  ⟨710, 0, [1, 0, 2, -4, 2, 0, 0, 0, 0, 0, 0, 0, 0, 0]⟩,
  ⟨-690, 0, [2, 0, 2, -1, 2, 0, 0, 0, 0, 0, 0, 0, 0, 0]⟩,
  ⟨540, -150, [0, 0, 0, 0, 0, 0, 3, -3, 0, 0, 0, 0, 0, 2]⟩,
  ⟨-30, 660, [0, 0, 0, 0, 0, 0, 4, -7, 0, 0, 0, 0, 0, -2]⟩,
  ⟨-680, 0, [1, 1, -2, 1, -1, 0, 0, 0, 0, 0, 0, 0, 0, 0]⟩,
  ⟨-120, 550, [0, 0, 0, 0, 0, 0, 2, -2, 0, 0, 0, 0, 0, -1]⟩,
  ⟨450, -220, [0, 0, 0, 0, 0, 0, 0, 8, -15, 0, 0, 0, 0, 0]⟩,
  ⟨110, 560, [0, 0, 0, 0, 0, 0, 0, 0, 0, 0, 1, 0, 0, 0]⟩,
  ⟨-650, 0, [0, 1, 0, -4, 0, 0, 0, 0, 0, 0, 0, 0, 0, 0]⟩,
  ⟨130, 520, [0, 0, 0, 0, 0, 0, 0, 0, 0, 1, 0, 0, 0, -1]⟩,
  ⟨640, 0, [2, 1, 2, 0, 1, 0, 0, 0, 0, 0, 0, 0, 0, 0]⟩,
  ⟨-280, 360, [0, 0, 0, 0, 0, 0, 0, 1, 0, -3, 0, 0, 0, 0]⟩,
  ⟨-630, 0, [3, -1, 2, 0, 2, 0, 0, 0, 0, 0, 0, 0, 0, 0]⟩,
  ⟨-630, 0, [2, 1, -2, -2, -2, 0, 0, 0, 0, 0, 0, 0, 0, 0]⟩,
  ⟨630, 0, [1, 1, -2, 0, -1, 0, 0, 0, 0, 0, 0, 0, 0, 0]⟩,
  ⟨0, -630, [1, 0, -1, 0, -3, 0, 0, 0, 0, 0, 0, 0, 0, 0]⟩,
  ⟨530, -90, [2, 0, 0, -2, -1, 0, 0, -2, 0, 3, 0, 0, 0, 0]⟩,
  ⟨620, 0, [1, -1, 0, -2, 1, 0, 0, 0, 0, 0, 0, 0, 0, 0]⟩,
  ⟨420, 200, [0, 0, 1, -1, 0, 0, 0, -1, 0, 0, -1, 0, 0, 0]⟩,
  ⟨-610, 0, [1, 0, -2, 1, 0, 0, 0, 0, 0, 0, 0, 0, 0, 0]⟩,
  ⟨610, 0, [0, 2, 0, 0, -1, 0, 0, 0, 0, 0, 0, 0, 0, 0]⟩,
  ⟨600, 0, [2, 0, -2, -2, 0, 0, 0, 0, 0, 0, 0, 0, 0, 0]⟩,
  ⟨-600, 0, [1, 0, 2, -3, 2, 0, 0, 0, 0, 0, 0, 0, 0, 0]⟩,
  ⟨-460, 140, [0, 0, 0, 0, 0, 0, 4, -6, 0, 0, 0, 0, 0, 0]⟩,
  ⟨-110, -490, [0, 0, 0, 0, 0, 0, 3, -5, 0, 0, 0, 0, 0, -1]⟩,
  ⟨60, 540, [0, 0, 0, 0, 0, 0, 0, 0, 0, 1, 0, 0, 0, 1]⟩,
  ⟨590, 0, [0, 0, 0, 0, 0, 0, 5, -5, 0, 0, 0, 0, 0, 0]⟩,
  ⟨570, 0, [1, 0, 2, 1, 1, 0, 0, 0, 0, 0, 0, 0, 0, 0]⟩,
  ⟨-560, 0, [2, 0, 0, 0, -2, 0, 0, 0, 0, 0, 0, 0, 0, 0]⟩,
  ⟨-260, -290, [1, 0, 0, -1, 1, 0, 0, -1, 0, 2, 0, 0, 0, 0]⟩,
  ⟨-80, -470, [0, 0, 1, -1, 1, 0, 0, -2, 2, 0, 0, 0, 0, 0]⟩,
  ⟨470, 80, [0, 0, 0, 0, 0, 0, 0, 0, 0, 0, 1, 0, 0, 1]⟩,
  ⟨540, 0, [2, 0, 0, -2, 1, 0, 0, -2, 0, 2, 0, 0, 0, 0]⟩,
  ⟨-200, 340, [0, 0, 0, 0, 0, 0, 0, 3, -5, 0, 0, 0, 0, 0]⟩,
  ⟨-210, -320, [0, 0, 0, 0, 0, 0, 0, 0, 4, 0, 0, 0, 0, 2]⟩,
  ⟨530, 0, [3, 1, 2, 0, 2, 0, 0, 0, 0, 0, 0, 0, 0, 0]⟩,
  ⟨-530, 0, [1, 1, 2, 1, 2, 0, 0, 0, 0, 0, 0, 0, 0, 0]⟩,
  ⟨530, 0, [1, 0, 0, -1, 0, 0, 0, -1, 0, 1, 0, 0, 0, 0]⟩,
  ⟨-60, -470, [0, 0, 1, -1, 1, 0, 0, -1, 0, 1, 0, 0, 0, 0]⟩,
  ⟨-500, 30, [0, 0, 0, 0, 0, 0, 8, -10, 0, 0, 0, 0, 0, -2]⟩,
  ⟨-140, -390, [0, 0, 0, 0, 0, 0, 5, -8, 0, 0, 0, 0, 0, 0]⟩,
  ⟨-60, 470, [0, 0, 0, 0, 0, 0, 0, 1, -2, 0, 0, 0, 0, -1]⟩,
  ⟨510, 0, [2, 0, 0, -3, 0, 0, 0, 0, 0, 0, 0, 0, 0, 0]⟩,
  ⟨510, 0, [2, -1, 2, -2, 2, 0, 0, 0, 0, 0, 0, 0, 0, 0]⟩,
  ⟨-510, 0, [1, -2, 2, 0, 2, 0, 0, 0, 0, 0, 0, 0, 0, 0]⟩,
  ⟨510, 0, [0, 0, 0, 0, 0, 0, 0, 2, -4, 0, 0, 0, 0, -2]⟩,
  ⟨500, 0, [0, 0, 2, -2, 1, 0, 0, -2, 0, 2, 0, 0, 0, 0]⟩]

/-- tab5.3a.txt, rows 401 to 480 of j0 of `_parse_table_5_3a`. -/
def psi0_5 : List Row := [
  ⟨-100, 400, [0, 0, 1, -1, 1, 0, -3, 4, 0, 0, 0, 0, 0, 0]⟩,
  ⟨490, 0, [3, 0, 0, 2, 0, 0, 0, 0, 0, 0, 0, 0, 0, 0]⟩,
  ⟨490, 0, [0, 1, 0, 1, 1, 0, 0, 0, 0, 0, 0, 0, 0, 0]⟩,
  ⟨480, 0, [0, 1, 2, -2, 3, 0, 0, 0, 0, 0, 0, 0, 0, 0]⟩,
  ⟨480, 0, [0, 1, 0, 1, -1, 0, 0, 0, 0, 0, 0, 0, 0, 0]⟩,
  ⟨300, -180, [0, 0, 0, 0, 0, 0, 0, 5, -4, 0, 0, 0, 0, 2]⟩,
  ⟨470, 0, [2, 0, 2, 1, 2, 0, 0, 0, 0, 0, 0, 0, 0, 0]⟩,
  ⟨470, 0, [2, -1, 0, 2, 0, 0, 0, 0, 0, 0, 0, 0, 0, 0]⟩,
  ⟨470, 0, [1, 1, 0, 1, 0, 0, 0, 0, 0, 0, 0, 0, 0, 0]⟩,
  ⟨-470, 0, [1, 1, -2, 2, -1, 0, 0, 0, 0, 0, 0, 0, 0, 0]⟩,
  ⟨180, -290, [0, 0, 0, 0, 0, 0, 0, 4, -4, 0, 0, 0, 0, 2]⟩,
  ⟨-250, 220, [0, 0, 0, 0, 0, 0, 0, 0, 0, 2, 0, 0, 0, 0]⟩,
  ⟨-320, 150, [0, 0, 0, 0, 0, 0, 0, 0, 0, 0, 1, 0, 0, -1]⟩,
  ⟨-460, 0, [2, 0, -4, -2, -2, 0, 0, 0, 0, 0, 0, 0, 0, 0]⟩,
  ⟨-450, 0, [4, 0, 2, 0, 1, 0, 0, 0, 0, 0, 0, 0, 0, 0]⟩,
  ⟨450, 0, [1, 2, 2, -2, 2, 0, 0, 0, 0, 0, 0, 0, 0, 0]⟩,
  ⟨-450, 0, [1, 1, 2, -4, 1, 0, 0, 0, 0, 0, 0, 0, 0, 0]⟩,
  ⟨-450, 0, [0, 1, 0, 2, -1, 0, 0, 0, 0, 0, 0, 0, 0, 0]⟩,
  ⟨450, 0, [0, 0, 4, -4, 4, 0, 0, 0, 0, 0, 0, 0, 0, 0]⟩,
  ⟨0, -450, [0, 0, 0, 0, 0, 0, 6, -9, 0, 0, 0, 0, 0, -2]⟩,
  ⟨-440, 0, [3, 0, -2, -2, -2, 0, 0, 0, 0, 0, 0, 0, 0, 0]⟩,
  ⟨440, 0, [2, 1, -2, 0, 0, 0, 0, 0, 0, 0, 0, 0, 0, 0]⟩,
  ⟨-440, 0, [0, 0, 4, -4, 2, 0, 0, 0, 0, 0, 0, 0, 0, 0]⟩,
  ⟨-370, -70, [0, 0, 0, 0, 0, 0, 0, 4, 0, -3, 0, 0, 0, 2]⟩,
  ⟨430, 0, [2, 0, -2, -6, -2, 0, 0, 0, 0, 0, 0, 0, 0, 0]⟩,
  ⟨-430, 0, [1, 0, 2, -3, 1, 0, 0, 0, 0, 0, 0, 0, 0, 0]⟩,
  ⟨80, 350, [0, 0, 0, 0, 0, 0, 5, -7, 0, 0, 0, 0, 0, -1]⟩,
  ⟨70, -360, [0, 0, 0, 0, 0, 0, 0, 2, 0, 0, 0, 0, 0, 1]⟩,
  ⟨-130, -300, [0, 0, 0, 0, 0, 0, 0, 1, 0, 2, -5, 0, 0, 0]⟩,
  ⟨420, 0, [2, 0, 0, 2, -1, 0, 0, 0, 0, 0, 0, 0, 0, 0]⟩,
  ⟨-420, 0, [0, 1, 2, 1, 1, 0, 0, 0, 0, 0, 0, 0, 0, 0]⟩,
  ⟨-350, -70, [0, 0, 1, -1, 0, 0, -5, 7, 0, 0, 0, 0, 0, 0]⟩,
  ⟨-80, 340, [0, 0, 0, 0, 0, 0, 3, -3, 0, 0, 0, 0, 0, -1]⟩,
  ⟨190, -230, [0, 0, 0, 0, 0, 0, 2, 1, 0, 0, 0, 0, 0, 2]⟩,
  ⟨410, 0, [2, 1, 2, -2, 1, 0, 0, 0, 0, 0, 0, 0, 0, 0]⟩,
  ⟨-400, 0, [1, 0, 2, -1, 1, 0, 0, 0, 0, 0, 0, 0, 0, 0]⟩,
  ⟨400, 0, [0, 0, 0, 0, 0, 0, 6, -6, 0, 0, 0, 0, 0, 0]⟩,
  ⟨260, -140, [0, 0, 0, 0, 0, 0, 0, 4, -3, 0, 0, 0, 0, 2]⟩,
  ⟨-70, -320, [0, 0, 0, 0, 0, 0, 1, -1, 0, 0, 0, 0, 0, 1]⟩,
  ⟨-80, -310, [0, 0, 0, 0, 0, 0, 1, -3, 0, 0, 0, 0, 0, -1]⟩,
  ⟨390, 0, [1, 0, 4, -2, 1, 0, 0, 0, 0, 0, 0, 0, 0, 0]⟩,
  ⟨-390, 0, [1, -1, 2, -2, 1, 0, 0, 0, 0, 0, 0, 0, 0, 0]⟩,
  ⟨-160, 230, [0, 0, 0, 0, 0, 0, 0, 4, -6, 0, 0, 0, 0, 0]⟩,
  ⟨380, 0, [2, 0, 0, -1, 0, 0, 0, 0, 0, 0, 0, 0, 0, 0]⟩,
  ⟨-380, 0, [2, -1, 0, -2, 1, 0, 0, 0, 0, 0, 0, 0, 0, 0]⟩,
  ⟨380, 0, [2, -2, 0, -2, -1, 0, 0, 0, 0, 0, 0, 0, 0, 0]⟩,
  ⟨-380, 0, [1, 0, 2, -2, -1, 0, 0, 0, 0, 0, 0, 0, 0, 0]⟩,
  ⟨370, 0, [2, 0, 4, -2, 2, 0, 0, 0, 0, 0, 0, 0, 0, 0]⟩,
  ⟨150, 220, [2, 0, 0, -2, 0, 0, 0, -6, 8, 0, 0, 0, 0, 0]⟩,
  ⟨-370, 0, [1, -1, 0, 2, 1, 0, 0, 0, 0, 0, 0, 0, 0, 0]⟩,
  ⟨370, 0, [0, 0, 2, 3, 2, 0, 0, 0, 0, 0, 0, 0, 0, 0]⟩,
  ⟨310, -60, [0, 0, 0, 0, 0, 0, 3, -1, 0, 0, 0, 0, 0, 2]⟩,
  ⟨240, -130, [0, 0, 0, 0, 0, 0, 0, 3, -6, 0, 0, 0, 0, -2]⟩,
  ⟨360, 0, [1, 1, 0, -1, 0, 0, 0, 0, 0, 0, 0, 0, 0, 0]⟩,
  ⟨-360, 0, [1, 0, -2, 2, 1, 0, 0, 0, 0, 0, 0, 0, 0, 0]⟩,
  ⟨360, 0, [1, -1, 0, 2, -1, 0, 0, 0, 0, 0, 0, 0, 0, 0]⟩,
  ⟨360, 0, [0, 1, 4, -2, 2, 0, 0, 0, 0, 0, 0, 0, 0, 0]⟩,
  ⟨90, -270, [0, 0, 1, -1, 1, 0, 0, -1, 0, -4, 10, 0, 0, 0]⟩,
  ⟨-300, -60, [0, 0, 0, 0, 0, 0, 0, 1, 0, -4, 0, 0, 0, -2]⟩,
  ⟨240, -120, [2, 0, 2, 0, 2, 0, 0, 2, 0, -3, 0, 0, 0, 0]⟩,
  ⟨240, 120, [2, 0, 0, -2, 0, 0, 0, -5, 6, 0, 0, 0, 0, 0]⟩,
  ⟨-240, -120, [0, 0, 2, 0, 2, 0, 0, 1, 0, 0, 0, 0, 0, 0]⟩,
  ⟨-170, -190, [0, 0, 1, -1, 1, 0, 0, -1, 0, 0, 0, 0, 2, 0]⟩,
  ⟨260, -90, [2, 0, -1, -1, 0, 0, 0, 3, -7, 0, 0, 0, 0, 0]⟩,
  ⟨350, 0, [2, -1, 0, 0, 1, 0, 0, 0, 0, 0, 0, 0, 0, 0]⟩,
  ⟨-350, 0, [1, 2, 0, 0, 0, 0, 0, 0, 0, 0, 0, 0, 0, 0]⟩,
  ⟨-350, 0, [1, -2, -2, -2, -2, 0, 0, 0, 0, 0, 0, 0, 0, 0]⟩,
  ⟨110, 240, [0, 0, 1, -1, 2, 0, 0, -1, 0, 0, 2, 0, 0, 0]⟩,
  ⟨-70, 280, [0, 0, 1, -1, 1, 0, -4, 5, 0, 0, 0, 0, 0, 0]⟩,
  ⟨350, 0, [0, 0, 0, 4, -1, 0, 0, 0, 0, 0, 0, 0, 0, 0]⟩,
  ⟨-30, -320, [0, 0, 0, 0, 0, 0, 0, 4, 0, -1, 0, 0, 0, 2]⟩,
  ⟨0, 350, [0, 0, 0, 0, 0, 0, 0, 2, 0, -1, 0, 0, 0, 0]⟩,
  ⟨140, 210, [0, 0, 0, 0, 0, 0, 0, 2, -4, 0, 0, 0, 0, -1]⟩,
  ⟨80, -270, [0, 0, 0, 0, 0, 0, 0, 1, 0, 0, 0, 0, 0, 0]⟩,
  ⟨-110, -240, [0, 0, 0, 0, 0, 0, 0, 0, 0, 2, -5, 0, 0, -2]⟩,
  ⟨220, 120, [0, 0, 0, 0, 0, 0, 0, 1, -8, 3, 0, 0, 0, -2]⟩,
  ⟨340, 0, [1, 0, 0, -1, -2, 0, 0, 0, 0, 0, 0, 0, 0, 0]⟩,
  ⟨340, 0, [1, 0, 0, -2, 0, 0, 0, -2, 0, 2, 0, 0, 0, 0]⟩,
  ⟨-340, 0, [1, -1, -2, 2, 0, 0, 0, 0, 0, 0, 0, 0, 0, 0]⟩,
  ⟨-340, 0, [0, 0, 0, 0, 0, 0, 9, -11, 0, 0, 0, 0, 0, -2]⟩]

/-- tab5.3a.txt, rows 481 to 560 of j0 of `_parse_table_5_3a`. -/
def psi0_6 : List Row := [
  ⟨330, 0, [1, 0, -2, 1, -2, 0, 0, 0, 0, 0, 0, 0, 0, 0]⟩,
  ⟨-330, 0, [0, 1, -2, 2, 1, 0, 0, 0, 0, 0, 0, 0, 0, 0]⟩,
  ⟨-300, -30, [0, 0, 0, 0, 0, 0, 2, -3, 0, 0, 0, 0, 0, -1]⟩,
  ⟨320, 0, [3, 1, 2, -2, 2, 0, 0, 0, 0, 0, 0, 0, 0, 0]⟩,
  ⟨-320, 0, [2, 0, 2, -4, 2, 0, 0, 0, 0, 0, 0, 0, 0, 0]⟩,
  ⟨-210, 110, [2, 0, 0, 0, 0, 0, 0, -2, 0, 3, 0, 0, 0, 0]⟩,
  ⟨320, 0, [1, 1, 0, 2, 1, 0, 0, 0, 0, 0, 0, 0, 0, 0]⟩,
  ⟨210, -110, [1, 0, 2, 0, 1, 0, 0, -2, 0, 3, 0, 0, 0, 0]⟩,
  ⟨-320, 0, [1, 0, 0, 4, 1, 0, 0, 0, 0, 0, 0, 0, 0, 0]⟩,
  ⟨210, -110, [1, 0, -2, 0, -1, 0, 0, -1, 0, 0, 0, 0, 0, 0]⟩,
  ⟨320, 0, [1, 0, -2, -6, -2, 0, 0, 0, 0, 0, 0, 0, 0, 0]⟩,
  ⟨-320, 0, [1, 0, -4, -2, -2, 0, 0, 0, 0, 0, 0, 0, 0, 0]⟩,
  ⟨320, 0, [0, 0, 4, 0, 1, 0, 0, 0, 0, 0, 0, 0, 0, 0]⟩,
  ⟨100, -220, [0, 0, 2, -2, 1, 0, 0, -9, 13, 0, 0, 0, 0, 0]⟩,
  ⟨0, -320, [0, 0, 0, 0, 1, 0, 2, -3, 0, 0, 0, 0, 0, 0]⟩,
  ⟨-110, -210, [0, 0, 0, 0, 1, 0, 0, -2, 4, 0, 0, 0, 0, 0]⟩,
  ⟨-40, -280, [0, 0, 0, 0, 0, 0, 1, 0, 0, 0, 0, 0, 0, 0]⟩,
  ⟨-310, 0, [1, -1, -2, -4, -2, 0, 0, 0, 0, 0, 0, 0, 0, 0]⟩,
  ⟨-310, 0, [1, -2, 2, 2, 2, 0, 0, 0, 0, 0, 0, 0, 0, 0]⟩,
  ⟨310, 0, [0, 0, 2, -1, 0, 0, 0, 0, 0, 0, 0, 0, 0, 0]⟩,
  ⟨310, 0, [0, 0, 2, -4, 2, 0, 0, 0, 0, 0, 0, 0, 0, 0]⟩,
  ⟨0, 310, [0, 0, 0, 0, 0, 0, 0, 3, -6, 0, 0, 0, 0, 0]⟩,
  ⟨-30, 280, [0, 0, 1, 1, 1, 0, 0, 1, 0, 0, 0, 0, 0, 0]⟩,
  ⟨300, 0, [3, 0, 2, 0, 0, 0, 0, 0, 0, 0, 0, 0, 0, 0]⟩,
  ⟨300, 0, [1, 1, -2, 1, 0, 0, 0, 0, 0, 0, 0, 0, 0, 0]⟩,
  ⟨300, 0, [1, 1, -2, -4, -1, 0, 0, 0, 0, 0, 0, 0, 0, 0]⟩,
  ⟨0, 300, [0, 0, 1, 0, 2, 0, 0, 0, 0, 0, 0, 0, 0, 0]⟩,
  ⟨-60, 240, [0, 0, 0, 0, 0, 0, 4, -4, 0, 0, 0, 0, 0, -1]⟩,
  ⟨-190, -110, [0, 0, 0, 0, 0, 0, 0, 3, -8, 3, 0, 0, 0, 0]⟩,
  ⟨230, 70, [0, 0, 0, 0, 0, 0, 0, 1, -2, 0, 0, 0, 0, 1]⟩,
  ⟨290, 0, [3, -1, 0, 0, 0, 0, 0, 0, 0, 0, 0, 0, 0, 0]⟩,
  ⟨-290, 0, [2, 0, -2, 2, 0, 0, 0, 0, 0, 0, 0, 0, 0, 0]⟩,
  ⟨290, 0, [2, -1, 0, 0, -1, 0, 0, 0, 0, 0, 0, 0, 0, 0]⟩,
  ⟨290, 0, [2, -1, -2, 0, 0, 0, 0, 0, 0, 0, 0, 0, 0, 0]⟩,
  ⟨-290, 0, [1, 1, 2, -2, 0, 0, 0, 0, 0, 0, 0, 0, 0, 0]⟩,
  ⟨-290, 0, [1, 0, 2, 4, 1, 0, 0, 0, 0, 0, 0, 0, 0, 0]⟩,
  ⟨0, 290, [1, 0, 0, -1, 1, 0, -3, 4, 0, 0, 0, 0, 0, 0]⟩,
  ⟨-240, 50, [0, 0, 0, 0, 0, 0, 6, -10, 0, 0, 0, 0, 0, -2]⟩,
  ⟨290, 0, [0, 0, 0, 0, 0, 0, 0, 3, 0, 0, -1, 0, 0, 2]⟩,
  ⟨60, 230, [0, 0, 0, 0, 0, 0, 0, 0, 0, 3, 0, 0, 0, 1]⟩,
  ⟨-280, 0, [2, 0, 2, -4, 0, 0, 0, 0, 0, 0, 0, 0, 0, 0]⟩,
  ⟨-280, 0, [1, 2, 0, -2, -1, 0, 0, 0, 0, 0, 0, 0, 0, 0]⟩,
  ⟨-280, 0, [1, 1, -2, -2, 0, 0, 0, 0, 0, 0, 0, 0, 0, 0]⟩,
  ⟨-280, 0, [1, 0, 0, 1, -1, 0, 0, 0, 0, 0, 0, 0, 0, 0]⟩,
  ⟨-280, 0, [0, 1, 2, -2, -1, 0, 0, 0, 0, 0, 0, 0, 0, 0]⟩,
  ⟨-280, 0, [0, 0, 0, 0, 1, 0, 1, -1, 0, 0, 0, 0, 0, 0]⟩,
  ⟨40, 240, [0, 0, 0, 0, 1, 0, 0, 0, 0, 0, 1, 0, 0, 0]⟩,
  ⟨280, 0, [0, 0, 0, 0, 0, 0, 7, -7, 0, 0, 0, 0, 0, 0]⟩,
  ⟨50, -230, [0, 0, 0, 0, 0, 0, 1, 1, 0, 0, 0, 0, 0, 1]⟩,
  ⟨-180, -100, [0, 0, 0, 0, 0, 0, 0, 0, 3, 0, 0, 0, 0, 2]⟩,
  ⟨-270, 0, [2, 0, 2, 4, 2, 0, 0, 0, 0, 0, 0, 0, 0, 0]⟩,
  ⟨270, 0, [2, -1, -2, -2, -2, 0, 0, 0, 0, 0, 0, 0, 0, 0]⟩,
  ⟨-270, 0, [0, 1, -2, -2, 0, 0, 0, 0, 0, 0, 0, 0, 0, 0]⟩,
  ⟨270, 0, [0, 0, 2, -2, 1, 0, -4, 4, 0, 0, 0, 0, 0, 0]⟩,
  ⟨270, 0, [0, 0, 2, -3, 1, 0, 0, 0, 0, 0, 0, 0, 0, 0]⟩,
  ⟨-210, -60, [0, 0, 0, 0, 1, 0, -3, 5, 0, 0, 0, 0, 0, 0]⟩,
  ⟨0, -270, [0, 0, 0, 0, 0, 0, 3, -6, 0, 0, 0, 0, 0, -2]⟩,
  ⟨270, 0, [0, 0, 0, 0, 0, 0, 0, 3, -3, 0, 0, 0, 0, 0]⟩,
  ⟨190, -80, [0, 0, 0, 0, 0, 0, 0, 1, -4, 0, 0, 0, 0, -2]⟩,
  ⟨-260, 0, [3, 0, 2, -4, 2, 0, 0, 0, 0, 0, 0, 0, 0, 0]⟩,
  ⟨-260, 0, [3, 0, -2, -2, -1, 0, 0, 0, 0, 0, 0, 0, 0, 0]⟩,
  ⟨260, 0, [2, 1, 2, 2, 2, 0, 0, 0, 0, 0, 0, 0, 0, 0]⟩,
  ⟨0, -260, [0, 0, 3, 0, 3, 0, 0, 0, 0, 0, 0, 0, 0, 0]⟩,
  ⟨50, 210, [0, 0, 1, -1, 1, 0, -1, 0, 0, 0, 0, 0, 0, 0]⟩,
  ⟨-60, 200, [0, 0, 0, 0, 0, 0, 0, 1, 0, 0, -2, 0, 0, 0]⟩,
  ⟨-250, 0, [2, 0, 0, 1, 0, 0, 0, 0, 0, 0, 0, 0, 0, 0]⟩,
  ⟨250, 0, [1, -2, 0, 2, 0, 0, 0, 0, 0, 0, 0, 0, 0, 0]⟩,
  ⟨90, -160, [0, 0, 1, -1, 0, 0, 0, -1, 0, -2, 5, 0, 0, 0]⟩,
  ⟨60, 190, [0, 0, 0, 0, 0, 0, 2, -1, 0, 0, 0, 0, 0, 0]⟩,
  ⟨-250, 0, [0, 0, 0, 0, 0, 0, 0, 7, -8, 3, 0, 0, 0, 2]⟩,
  ⟨-160, 90, [0, 0, 0, 0, 0, 0, 0, 4, -7, 0, 0, 0, 0, -2]⟩,
  ⟨-40, 210, [0, 0, 0, 0, 0, 0, 0, 2, 0, -2, 0, 0, 0, 1]⟩,
  ⟨-250, 0, [0, 0, 0, 0, 0, 0, 0, 1, -1, 0, 0, 0, 0, 0]⟩,
  ⟨160, 80, [1, 0, 0, -1, 0, 0, 0, -3, 4, 0, 0, 0, 0, 0]⟩,
  ⟨-240, 0, [3, 0, 2, 2, 1, 0, 0, 0, 0, 0, 0, 0, 0, 0]⟩,
  ⟨-240, 0, [3, 0, -2, 0, 0, 0, 0, 0, 0, 0, 0, 0, 0, 0]⟩,
  ⟨240, 0, [1, 0, 4, 0, 2, 0, 0, 0, 0, 0, 0, 0, 0, 0]⟩,
  ⟨-240, 0, [1, -1, 2, 4, 2, 0, 0, 0, 0, 0, 0, 0, 0, 0]⟩,
  ⟨-240, 0, [1, -1, -2, 2, -2, 0, 0, 0, 0, 0, 0, 0, 0, 0]⟩,
  ⟨0, 240, [0, 0, 1, -1, 0, 0, 0, -1, 0, -1, 1, 0, 0, 0]⟩]

/-- tab5.3a.txt, rows 561 to 640 of j0 of `_parse_table_5_3a`. -/
def psi0_7 : List Row := [
  ⟨0, -240, [0, 0, 0, 0, 0, 0, 7, -10, 0, 0, 0, 0, 0, -2]⟩,
  ⟨50, 190, [0, 0, 0, 0, 0, 0, 6, -8, 0, 0, 0, 0, 0, -1]⟩,
  ⟨210, 30, [0, 0, 0, 0, 0, 0, 0, 5, -8, 3, 0, 0, 0, 0]⟩,
  ⟨-230, 0, [5, 0, 2, 0, 2, 0, 0, 0, 0, 0, 0, 0, 0, 0]⟩,
  ⟨-230, 0, [3, 1, 0, 0, 0, 0, 0, 0, 0, 0, 0, 0, 0, 0]⟩,
  ⟨230, 0, [3, 0, -2, -6, -2, 0, 0, 0, 0, 0, 0, 0, 0, 0]⟩,
  ⟨-230, 0, [2, 0, 0, -6, 0, 0, 0, 0, 0, 0, 0, 0, 0, 0]⟩,
  ⟨230, 0, [1, 1, 2, 2, 1, 0, 0, 0, 0, 0, 0, 0, 0, 0]⟩,
  ⟨230, 0, [1, 0, 0, 2, 2, 0, 0, 0, 0, 0, 0, 0, 0, 0]⟩,
  ⟨0, 230, [1, 0, 0, -1, -1, 0, -3, 4, 0, 0, 0, 0, 0, 0]⟩,
  ⟨100, 130, [1, -2, 2, -2, 1, 0, 0, 0, 0, 0, 0, 0, 0, 0]⟩,
  ⟨110, -120, [0, 0, 1, -1, 1, 0, 8, -14, 0, 0, 0, 0, 0, 0]⟩,
  ⟨-90, -140, [0, 0, 1, -1, 1, 0, 3, -6, 0, 0, 0, 0, 0, 0]⟩,
  ⟨-140, 90, [0, 0, 0, 0, 0, 0, 3, -9, 4, 0, 0, 0, 0, -2]⟩,
  ⟨-220, 0, [2, 1, 0, 0, -1, 0, 0, 0, 0, 0, 0, 0, 0, 0]⟩,
  ⟨-220, 0, [1, 2, 0, -2, 1, 0, 0, 0, 0, 0, 0, 0, 0, 0]⟩,
  ⟨220, 0, [1, -1, 2, 0, 0, 0, 0, 0, 0, 0, 0, 0, 0, 0]⟩,
  ⟨220, 0, [1, -1, 2, -1, 2, 0, 0, 0, 0, 0, 0, 0, 0, 0]⟩,
  ⟨220, 0, [1, -1, 0, -4, 0, 0, 0, 0, 0, 0, 0, 0, 0, 0]⟩,
  ⟨220, 0, [0, 2, -2, -2, -1, 0, 0, 0, 0, 0, 0, 0, 0, 0]⟩,
  ⟨90, -130, [0, 0, 1, -1, 1, 0, 0, -3, 4, 0, 0, 0, 0, 0]⟩,
  ⟨150, -70, [0, 0, 0, 0, 1, 0, 0, 8, -15, 0, 0, 0, 0, 0]⟩,
  ⟨-130, 90, [0, 0, 0, 0, 0, 0, 3, -5, 4, 0, 0, 0, 0, 2]⟩,
  ⟨140, 80, [0, 0, 0, 0, 0, 0, 0, 8, -15, 0, 0, 0, 0, -2]⟩,
  ⟨130, 90, [0, 0, 0, 0, 0, 0, 0, 6, 0, 0, 0, 0, 0, 2]⟩,
  ⟨160, -60, [0, 0, 0, 0, 0, 0, 0, 4, -5, 0, 0, 0, 0, 0]⟩,
  ⟨0, 220, [0, 0, 0, 0, 0, 0, 0, 4, -7, 0, 0, 0, 0, 0]⟩,
  ⟨-170, -40, [2, 0, 0, -2, 1, 0, -6, 8, 0, 0, 0, 0, 0, 0]⟩,
  ⟨-210, 0, [2, 0, -2, 0, 2, 0, 0, 0, 0, 0, 0, 0, 0, 0]⟩,
  ⟨210, 0, [1, 2, 2, 0, 2, 0, 0, 0, 0, 0, 0, 0, 0, 0]⟩,
  ⟨210, 0, [0, 1, 0, -2, -2, 0, 0, 0, 0, 0, 0, 0, 0, 0]⟩,
  ⟨210, 0, [0, 1, -2, 2, -3, 0, 0, 0, 0, 0, 0, 0, 0, 0]⟩,
  ⟨-40, 170, [0, 0, 0, 0, 0, 0, 5, -5, 0, 0, 0, 0, 0, -1]⟩,
  ⟨160, -50, [0, 0, 0, 0, 0, 0, 5, -7, 0, 0, 0, 0, 0, 0]⟩,
  ⟨40, 170, [0, 0, 0, 0, 0, 0, 1, 2, 0, 0, 0, 0, 0, 2]⟩,
  ⟨180, -30, [0, 0, 0, 0, 0, 0, 0, 3, 0, -3, 0, 0, 0, 0]⟩,
  ⟨140, 70, [0, 0, 1, -1, 0, 0, -8, 12, 0, 0, 0, 0, 0, 0]⟩,
  ⟨-200, 0, [4, 0, 0, -2, 0, 0, 0, 0, 0, 0, 0, 0, 0, 0]⟩,
  ⟨200, 0, [2, 2, 0, -2, 0, 0, 0, 0, 0, 0, 0, 0, 0, 0]⟩,
  ⟨-200, 0, [2, 1, 0, 0, 1, 0, 0, 0, 0, 0, 0, 0, 0, 0]⟩,
  ⟨200, 0, [1, 1, 0, -2, -2, 0, 0, 0, 0, 0, 0, 0, 0, 0]⟩,
  ⟨-200, 0, [0, 1, 2, 0, 0, 0, 0, 0, 0, 0, 0, 0, 0, 0]⟩,
  ⟨170, -30, [0, 0, 0, 0, 0, 0, 3, 0, 0, 0, 0, 0, 0, 2]⟩,
  ⟨70, 130, [0, 0, 0, 0, 0, 0, 0, 5, -9, 0, 0, 0, 0, 0]⟩,
  ⟨-80, 120, [0, 0, 0, 0, 0, 0, 0, 5, -9, 0, 0, 0, 0, -2]⟩,
  ⟨90, -110, [0, 0, 0, 0, 0, 0, 0, 3, 0, -3, 0, 0, 0, 2]⟩,
  ⟨0, -200, [0, 0, 0, 0, 0, 0, 0, 2, 0, 0, -1, 0, 0, 2]⟩,
  ⟨-90, -110, [0, 0, 0, 0, 0, 0, 0, 0, 0, 0, 0, 0, 2, 1]⟩,
  ⟨30, 160, [0, 0, 1, -1, 0, 0, 0, -1, 0, 2, 0, 0, 0, 0]⟩,
  ⟨160, -30, [0, 0, 0, 0, 0, 0, 7, -11, 0, 0, 0, 0, 0, -2]⟩,
  ⟨80, 110, [0, 0, 0, 0, 0, 0, 0, 1, 0, 1, 0, 0, 0, 0]⟩,
  ⟨-190, 0, [3, 0, 0, -4, -1, 0, 0, 0, 0, 0, 0, 0, 0, 0]⟩,
  ⟨190, 0, [2, 1, -2, -4, -1, 0, 0, 0, 0, 0, 0, 0, 0, 0]⟩,
  ⟨-190, 0, [2, -1, -2, -4, -2, 0, 0, 0, 0, 0, 0, 0, 0, 0]⟩,
  ⟨-190, 0, [1, 1, 2, 0, 0, 0, 0, 0, 0, 0, 0, 0, 0, 0]⟩,
  ⟨-190, 0, [1, 0, 0, 1, 1, 0, 0, 0, 0, 0, 0, 0, 0, 0]⟩,
  ⟨190, 0, [1, 0, 0, -2, 0, 0, -3, 3, 0, 0, 0, 0, 0, 0]⟩,
  ⟨190, 0, [1, 0, -4, 2, -1, 0, 0, 0, 0, 0, 0, 0, 0, 0]⟩,
  ⟨0, 190, [0, 0, 1, -1, 1, 0, 0, -9, 15, 0, 0, 0, 0, 0]⟩,
  ⟨40, 150, [0, 0, 0, 0, 1, 0, 0, 0, 0, -1, 0, 0, 0, 0]⟩,
  ⟨-190, 0, [0, 0, 0, 0, 1, 0, -1, 1, 0, 0, 0, 0, 0, 0]⟩,
  ⟨0, 190, [0, 0, 0, 0, 1, 0, -2, 3, 0, 0, 0, 0, 0, 0]⟩,
  ⟨190, 0, [0, 0, 0, 0, 0, 0, 8, -8, 0, 0, 0, 0, 0, 0]⟩,
  ⟨40, -150, [0, 0, 0, 0, 0, 0, 2, 0, 0, 0, 0, 0, 0, 1]⟩,
  ⟨70, -120, [0, 0, 0, 0, 0, 0, 0, 5, -5, 0, 0, 0, 0, 2]⟩,
  ⟨190, 0, [0, 0, 0, 0, 0, 0, 0, 3, -1, 0, 0, 0, 0, 2]⟩,
  ⟨0, -190, [0, 0, 0, 0, 0, 0, 0, 2, 0, 0, 1, 0, 0, 2]⟩,
  ⟨180, 0, [4, 0, 2, -2, 1, 0, 0, 0, 0, 0, 0, 0, 0, 0]⟩,
  ⟨-180, 0, [3, 0, -2, 0, -2, 0, 0, 0, 0, 0, 0, 0, 0, 0]⟩,
  ⟨-180, 0, [1, -1, 0, 0, 2, 0, 0, 0, 0, 0, 0, 0, 0, 0]⟩,
  ⟨180, 0, [1, -1, -2, 0, 0, 0, 0, 0, 0, 0, 0, 0, 0, 0]⟩,
  ⟨-180, 0, [0, 1, 2, -4, 1, 0, 0, 0, 0, 0, 0, 0, 0, 0]⟩,
  ⟨-180, 0, [0, 0, 2, 1, 0, 0, 0, 0, 0, 0, 0, 0, 0, 0]⟩,
  ⟨180, 0, [0, 0, 1, -1, 1, 0, -2, 2, 0, 0, 0, 0, 0, 0]⟩,
  ⟨120, -60, [0, 0, 0, 0, 0, 0, 0, 2, 0, -2, 5, 0, 0, 2]⟩,
  ⟨-110, -60, [0, 0, 0, 0, 0, 0, 0, 2, 0, 2, -5, 0, 0, 2]⟩,
  ⟨-170, 0, [1, 1, -2, 0, 0, 0, 0, 0, 0, 0, 0, 0, 0, 0]⟩,
  ⟨170, 0, [1, 0, -2, 4, -1, 0, 0, 0, 0, 0, 0, 0, 0, 0]⟩,
  ⟨-170, 0, [1, 0, -2, -2, 1, 0, 0, 0, 0, 0, 0, 0, 0, 0]⟩,
  ⟨-170, 0, [0, 2, 2, -2, 0, 0, 0, 0, 0, 0, 0, 0, 0, 0]⟩]

/-- tab5.3a.txt, rows 641 to 720 of j0 of `_parse_table_5_3a`. -/
def psi0_8 : List Row := [
  ⟨-170, 0, [0, 2, 0, -2, 1, 0, 0, 0, 0, 0, 0, 0, 0, 0]⟩,
  ⟨170, 0, [0, 1, 2, 4, 2, 0, 0, 0, 0, 0, 0, 0, 0, 0]⟩,
  ⟨170, 0, [0, 1, -4, 2, -2, 0, 0, 0, 0, 0, 0, 0, 0, 0]⟩,
  ⟨140, -30, [0, 0, 0, 0, 0, 0, 5, -3, 0, 0, 0, 0, 0, 2]⟩,
  ⟨50, 120, [0, 0, 0, 0, 0, 0, 0, 3, 0, 2, -5, 0, 0, 2]⟩,
  ⟨-170, 0, [0, 0, 0, 0, 0, 0, 0, 3, -5, 0, 0, 0, 0, -2]⟩,
  ⟨-170, 0, [0, 0, 0, 0, 0, 0, 0, 2, 0, -4, 0, 0, 0, -2]⟩,
  ⟨160, 0, [3, 0, 0, -2, -1, 0, 0, 0, 0, 0, 0, 0, 0, 0]⟩,
  ⟨160, 0, [2, 0, 0, -2, 1, 0, -3, 3, 0, 0, 0, 0, 0, 0]⟩,
  ⟨-160, 0, [2, 0, -2, 2, -2, 0, 0, 0, 0, 0, 0, 0, 0, 0]⟩,
  ⟨-160, 0, [2, -1, 2, 2, 1, 0, 0, 0, 0, 0, 0, 0, 0, 0]⟩,
  ⟨-160, 0, [1, 0, 0, -6, 0, 0, 0, 0, 0, 0, 0, 0, 0, 0]⟩,
  ⟨-160, 0, [1, 0, -2, -3, -1, 0, 0, 0, 0, 0, 0, 0, 0, 0]⟩,
  ⟨-160, 0, [1, 0, -2, -4, 0, 0, 0, 0, 0, 0, 0, 0, 0, 0]⟩,
  ⟨160, 0, [0, 1, 0, -4, -1, 0, 0, 0, 0, 0, 0, 0, 0, 0]⟩,
  ⟨160, 0, [0, 1, -2, -4, -1, 0, 0, 0, 0, 0, 0, 0, 0, 0]⟩,
  ⟨100, -60, [0, 0, 0, 0, 1, 0, 3, -7, 4, 0, 0, 0, 0, 0]⟩,
  ⟨-30, 130, [0, 0, 0, 0, 0, 0, 6, -6, 0, 0, 0, 0, 0, -1]⟩,
  ⟨-30, -130, [0, 0, 0, 0, 0, 0, 2, -2, 0, 0, 0, 0, 0, 1]⟩,
  ⟨-50, -110, [0, 0, 0, 0, 0, 0, 2, -3, 0, 0, 0, 0, 0, -2]⟩,
  ⟨-110, 50, [0, 0, 0, 0, 0, 0, 0, 11, 0, 0, 0, 0, 0, 2]⟩,
  ⟨-110, 50, [0, 0, 0, 0, 0, 0, 0, 6, -15, 0, 0, 0, 0, -2]⟩,
  ⟨60, -100, [0, 0, 0, 0, 0, 0, 0, 4, -8, 0, 0, 0, 0, -2]⟩,
  ⟨-50, -110, [0, 0, 0, 0, 0, 0, 0, 3, 0, 1, 0, 0, 0, 2]⟩,
  ⟨-40, -120, [0, 0, 0, 0, 0, 0, 0, 3, 0, -2, 0, 0, 0, 0]⟩,
  ⟨-150, 0, [4, 0, 2, 2, 2, 0, 0, 0, 0, 0, 0, 0, 0, 0]⟩,
  ⟨60, -90, [2, 0, 0, -2, 0, 0, 0, -2, 0, 4, -3, 0, 0, 0]⟩,
  ⟨-150, 0, [2, 0, 0, -2, 0, 0, 0, -2, 0, 3, -1, 0, 0, 0]⟩,
  ⟨-150, 0, [2, 0, -2, -3, -2, 0, 0, 0, 0, 0, 0, 0, 0, 0]⟩,
  ⟨150, 0, [2, -1, 0, -4, 0, 0, 0, 0, 0, 0, 0, 0, 0, 0]⟩,
  ⟨150, 0, [1, 0, 2, 0, 3, 0, 0, 0, 0, 0, 0, 0, 0, 0]⟩,
  ⟨-150, 0, [0, 1, -2, 1, -1, 0, 0, 0, 0, 0, 0, 0, 0, 0]⟩,
  ⟨150, 0, [0, 0, 4, -2, 4, 0, 0, 0, 0, 0, 0, 0, 0, 0]⟩,
  ⟨-150, 0, [0, 0, 2, -2, 4, 0, 0, 0, 0, 0, 0, 0, 0, 0]⟩,
  ⟨0, 150, [0, 0, 2, -2, 2, 0, -8, 11, 0, 0, 0, 0, 0, 0]⟩,
  ⟨0, 150, [0, 0, 1, -1, 2, 0, 0, -2, 2, 0, 0, 0, 0, 0]⟩,
  ⟨-150, 0, [0, 0, 0, 3, 0, 0, 0, 0, 0, 0, 0, 0, 0, 0]⟩,
  ⟨150, 0, [0, 0, 0, 0, 1, 0, 0, 1, 0, -1, 0, 0, 0, 0]⟩,
  ⟨30, 120, [0, 0, 0, 0, 0, 0, 7, -9, 0, 0, 0, 0, 0, -1]⟩,
  ⟨120, -30, [0, 0, 0, 0, 0, 0, 4, -7, 0, 0, 0, 0, 0, -1]⟩,
  ⟨30, 120, [0, 0, 0, 0, 0, 0, 3, -3, 0, 0, 0, 0, 0, 1]⟩,
  ⟨60, -90, [0, 0, 0, 0, 0, 0, 0, 6, -6, 0, 0, 0, 0, 2]⟩,
  ⟨90, 60, [0, 0, 0, 0, 0, 0, 0, 6, -11, 0, 0, 0, 0, 0]⟩,
  ⟨30, 120, [0, 0, 0, 0, 0, 0, 0, 5, 0, -2, 0, 0, 0, 2]⟩,
  ⟨150, 0, [0, 0, 0, 0, 0, 0, 0, 2, 0, 0, -2, 0, 0, 0]⟩,
  ⟨110, 40, [0, 0, 0, 0, 0, 0, 0, 2, 0, -4, 0, 0, 0, 0]⟩,
  ⟨0, 150, [0, 0, 0, 0, 0, 0, 0, 0, 0, 0, 3, 0, 0, 2]⟩,
  ⟨-110, -30, [2, 0, 0, -2, -1, 0, -6, 8, 0, 0, 0, 0, 0, 0]⟩,
  ⟨110, -30, [0, 0, 0, 0, 0, 0, 4, -4, 0, 0, 0, 0, 0, 2]⟩,
  ⟨-140, 0, [3, 1, 0, -4, 0, 0, 0, 0, 0, 0, 0, 0, 0, 0]⟩,
  ⟨-140, 0, [3, 0, 0, -4, 1, 0, 0, 0, 0, 0, 0, 0, 0, 0]⟩,
  ⟨-140, 0, [3, 0, 0, -6, 0, 0, 0, 0, 0, 0, 0, 0, 0, 0]⟩,
  ⟨140, 0, [1, 2, -2, -2, -1, 0, 0, 0, 0, 0, 0, 0, 0, 0]⟩,
  ⟨140, 0, [1, 1, 0, -2, 2, 0, 0, 0, 0, 0, 0, 0, 0, 0]⟩,
  ⟨-140, 0, [0, 0, 4, -4, 1, 0, 0, 0, 0, 0, 0, 0, 0, 0]⟩,
  ⟨0, 140, [0, 0, 1, -1, 1, 0, 0, -1, 0, -1, 1, 0, 0, 0]⟩,
  ⟨-90, -50, [0, 0, 0, 0, 1, 0, -3, 7, -4, 0, 0, 0, 0, 0]⟩,
  ⟨40, 100, [0, 0, 0, 0, 0, 1, 0, -4, 0, 0, 0, 0, 0, -2]⟩,
  ⟨140, 0, [0, 0, 0, 0, 0, 0, 0, 6, 0, 0, 0, 0, 0, 0]⟩,
  ⟨-140, 0, [0, 0, 0, 0, 0, 0, 0, 1, 0, 0, 1, 0, 0, 2]⟩,
  ⟨50, -90, [0, 0, 0, 0, 0, 0, 0, 1, -5, 0, 0, 0, 0, -2]⟩,
  ⟨-130, 0, [2, 0, -2, -4, 0, 0, 0, 0, 0, 0, 0, 0, 0, 0]⟩,
  ⟨130, 0, [1, 1, 0, 0, 2, 0, 0, 0, 0, 0, 0, 0, 0, 0]⟩,
  ⟨-130, 0, [1, 1, 0, -4, 1, 0, 0, 0, 0, 0, 0, 0, 0, 0]⟩,
  ⟨0, -130, [1, 0, 1, 0, 1, 0, 0, 0, 0, 0, 0, 0, 0, 0]⟩,
  ⟨-130, 0, [1, 0, 0, 2, -2, 0, 0, 0, 0, 0, 0, 0, 0, 0]⟩,
  ⟨-130, 0, [1, 0, 0, -2, 0, 0, 0, -2, 0, 3, 0, 0, 0, 0]⟩,
  ⟨130, 0, [1, 0, 0, -4, -2, 0, 0, 0, 0, 0, 0, 0, 0, 0]⟩,
  ⟨-130, 0, [1, 0, -2, -2, -2, 0, 0, -2, 0, 2, 0, 0, 0, 0]⟩,
  ⟨130, 0, [1, 0, -4, 0, 0, 0, 0, 0, 0, 0, 0, 0, 0, 0]⟩,
  ⟨130, 0, [0, 1, 0, -1, 0, 0, 0, 0, 0, 0, 0, 0, 0, 0]⟩,
  ⟨-130, 0, [0, 0, 2, 6, 2, 0, 0, 0, 0, 0, 0, 0, 0, 0]⟩,
  ⟨-130, 0, [0, 0, 2, -2, 0, 0, -3, 3, 0, 0, 0, 0, 0, 0]⟩,
  ⟨0, -130, [0, 0, 1, -1, 1, 0, 2, -4, 0, -3, 0, 0, 0, 0]⟩,
  ⟨40, 90, [0, 0, 1, -1, 0, 0, 0, -1, 0, 0, 2, 0, 0, 0]⟩,
  ⟨130, 0, [0, 0, 0, 1, 2, 0, 0, 0, 0, 0, 0, 0, 0, 0]⟩,
  ⟨130, 0, [0, 0, 0, 0, 1, 0, 3, -5, 0, 2, 0, 0, 0, 0]⟩,
  ⟨130, 0, [0, 0, 0, 0, 0, 0, 9, -9, 0, 0, 0, 0, 0, 0]⟩,
  ⟨30, 100, [0, 0, 0, 0, 0, 0, 5, -6, 0, 0, 0, 0, 0, 2]⟩,
  ⟨-130, 0, [0, 0, 0, 0, 0, 0, 0, 1, 1, 0, 0, 0, 0, 2]⟩]

/-- tab5.3a.txt, rows 721 to 800 of j0 of `_parse_table_5_3a`. -/
def psi0_9 : List Row := [
  ⟨-80, 40, [0, 0, 1, -1, 1, 0, 0, -1, 0, 0, 3, 0, 0, 0]⟩,
  ⟨-40, 80, [0, 0, 0, 0, 1, 0, 0, 2, -4, 0, 0, 0, 0, 0]⟩,
  ⟨80, -40, [0, 0, 0, 0, 0, 0, 4, -2, 0, 0, 0, 0, 0, 2]⟩,
  ⟨40, 80, [0, 0, 0, 0, 0, 0, 0, 7, -13, 0, 0, 0, 0, -2]⟩,
  ⟨80, -40, [0, 0, 0, 0, 0, 0, 0, 0, 0, 0, 3, 0, 0, 1]⟩,
  ⟨120, 0, [4, 0, 0, -4, 0, 0, 0, 0, 0, 0, 0, 0, 0, 0]⟩,
  ⟨-120, 0, [3, 0, 0, 2, 1, 0, 0, 0, 0, 0, 0, 0, 0, 0]⟩,
  ⟨-120, 0, [3, -1, 2, 2, 2, 0, 0, 0, 0, 0, 0, 0, 0, 0]⟩,
  ⟨120, 0, [3, -1, 2, -2, 2, 0, 0, 0, 0, 0, 0, 0, 0, 0]⟩,
  ⟨-120, 0, [2, 1, 0, 2, 0, 0, 0, 0, 0, 0, 0, 0, 0, 0]⟩,
  ⟨-120, 0, [2, 0, 0, -2, -1, 0, 0, -2, 0, 0, 5, 0, 0, 0]⟩,
  ⟨120, 0, [1, 1, 0, -4, -1, 0, 0, 0, 0, 0, 0, 0, 0, 0]⟩,
  ⟨0, -120, [1, 0, 1, -2, 1, 0, 0, 0, 0, 0, 0, 0, 0, 0]⟩,
  ⟨-120, 0, [1, 0, 0, -1, 2, 0, 0, 0, 0, 0, 0, 0, 0, 0]⟩,
  ⟨120, 0, [1, -1, 0, 4, 0, 0, 0, 0, 0, 0, 0, 0, 0, 0]⟩,
  ⟨-120, 0, [1, -2, 2, -2, 2, 0, 0, 0, 0, 0, 0, 0, 0, 0]⟩,
  ⟨120, 0, [0, 1, 0, 2, 2, 0, 0, 0, 0, 0, 0, 0, 0, 0]⟩,
  ⟨-120, 0, [0, 1, -2, -1, -2, 0, 0, 0, 0, 0, 0, 0, 0, 0]⟩,
  ⟨120, 0, [0, 0, 2, 2, -1, 0, 0, 0, 0, 0, 0, 0, 0, 0]⟩,
  ⟨-120, 0, [0, 0, 2, -2, 2, 0, -3, 3, 0, 0, 0, 0, 0, 0]⟩,
  ⟨0, 120, [0, 0, 2, -2, 2, 0, -5, 6, 0, 0, 0, 0, 0, 0]⟩,
  ⟨-30, -90, [0, 0, 1, -1, 1, 0, 0, -1, 0, 3, 0, 0, 0, 0]⟩,
  ⟨-30, -90, [0, 0, 0, 0, 0, 0, 3, -5, 0, 0, 0, 0, 0, 1]⟩,
  ⟨50, -70, [0, 0, 0, 0, 0, 0, 0, 5, -7, 0, 0, 0, 0, 0]⟩,
  ⟨-50, -70, [0, 0, 0, 0, 0, 0, 0, 1, 0, 3, 0, 0, 0, 2]⟩,
  ⟨-90, 30, [0, 0, 0, 0, 0, 0, 0, 0, 0, 4, 0, 0, 0, 2]⟩,
  ⟨-120, 0, [0, 0, 0, 0, 0, 0, 0, 0, 0, 2, -5, 0, 0, 2]⟩,
  ⟨-110, 0, [3, 0, 2, -2, 0, 0, 0, 0, 0, 0, 0, 0, 0, 0]⟩,
  ⟨110, 0, [3, -1, -2, -1, -2, 0, 0, 0, 0, 0, 0, 0, 0, 0]⟩,
  ⟨110, 0, [2, 0, 2, 2, 0, 0, 0, 0, 0, 0, 0, 0, 0, 0]⟩,
  ⟨-110, 0, [1, 2, 0, -4, 0, 0, 0, 0, 0, 0, 0, 0, 0, 0]⟩,
  ⟨110, 0, [1, 0, -2, 0, -3, 0, 0, 0, 0, 0, 0, 0, 0, 0]⟩,
  ⟨110, 0, [1, -1, 2, -4, 1, 0, 0, 0, 0, 0, 0, 0, 0, 0]⟩,
  ⟨-110, 0, [1, -1, 0, -3, 0, 0, 0, 0, 0, 0, 0, 0, 0, 0]⟩,
  ⟨-110, 0, [0, 1, 0, 4, 0, 0, 0, 0, 0, 0, 0, 0, 0, 0]⟩,
  ⟨-110, 0, [0, 1, -2, 0, 0, 0, 0, 0, 0, 0, 0, 0, 0, 0]⟩,
  ⟨110, 0, [0, 0, 2, -2, 1, 0, -2, 2, 0, 0, 0, 0, 0, 0]⟩,
  ⟨-80, -30, [0, 0, 1, -1, -1, 0, 0, 0, -2, 0, 0, 0, 0, 0]⟩,
  ⟨110, 0, [0, 0, 0, 0, 1, 0, 0, -1, 0, 1, 0, 0, 0, 0]⟩,
  ⟨50, -60, [0, 0, 0, 0, 0, 0, 8, -13, 0, 0, 0, 0, 0, 1]⟩,
  ⟨30, 80, [0, 0, 0, 0, 0, 0, 5, -10, 0, 0, 0, 0, 0, -2]⟩,
  ⟨-50, 60, [0, 0, 0, 0, 0, 0, 1, 0, 0, 0, 0, 0, 0, 2]⟩,
  ⟨80, -30, [0, 0, 0, 0, 0, 0, 1, -3, 0, 0, 0, 0, 0, 0]⟩,
  ⟨50, -60, [0, 0, 0, 0, 0, 0, 0, 9, -17, 0, 0, 0, 0, 0]⟩,
  ⟨0, 110, [0, 0, 0, 0, 0, 0, 0, 6, -11, 0, 0, 0, 0, -2]⟩,
  ⟨0, 110, [0, 0, 0, 0, 0, 0, 0, 5, -8, 0, 0, 0, 0, 0]⟩,
  ⟨110, 0, [0, 0, 0, 0, 0, 0, 0, 1, -3, 0, 0, 0, 0, -2]⟩,
  ⟨100, 0, [5, 0, 2, -2, 2, 0, 0, 0, 0, 0, 0, 0, 0, 0]⟩,
  ⟨100, 0, [4, 0, -2, -2, -1, 0, 0, 0, 0, 0, 0, 0, 0, 0]⟩,
  ⟨-100, 0, [2, 1, 0, -4, 1, 0, 0, 0, 0, 0, 0, 0, 0, 0]⟩,
  ⟨-100, 0, [2, 1, 0, -4, -1, 0, 0, 0, 0, 0, 0, 0, 0, 0]⟩,
  ⟨100, 0, [2, 0, 2, 0, -1, 0, 0, 0, 0, 0, 0, 0, 0, 0]⟩,
  ⟨100, 0, [2, 0, 0, 4, 0, 0, 0, 0, 0, 0, 0, 0, 0, 0]⟩,
  ⟨60, 40, [2, 0, 0, -2, -1, 0, 0, -5, 6, 0, 0, 0, 0, 0]⟩,
  ⟨30, 70, [2, 0, -1, -1, -1, 0, 0, -1, 0, 3, 0, 0, 0, 0]⟩,
  ⟨100, 0, [2, 0, -4, 0, -1, 0, 0, 0, 0, 0, 0, 0, 0, 0]⟩,
  ⟨100, 0, [1, 2, -2, -4, -2, 0, 0, 0, 0, 0, 0, 0, 0, 0]⟩,
  ⟨100, 0, [1, 1, -2, 2, 0, 0, 0, 0, 0, 0, 0, 0, 0, 0]⟩,
  ⟨-100, 0, [1, 0, 4, -4, 2, 0, 0, 0, 0, 0, 0, 0, 0, 0]⟩,
  ⟨-100, 0, [0, 0, 4, -1, 2, 0, 0, 0, 0, 0, 0, 0, 0, 0]⟩,
  ⟨0, -100, [0, 0, 3, 0, 2, 0, 0, 0, 0, 0, 0, 0, 0, 0]⟩,
  ⟨0, 100, [0, 0, 1, -1, 2, 0, 0, -1, 0, 2, 0, 0, 0, 0]⟩,
  ⟨100, 0, [0, 0, 0, 3, 1, 0, 0, 0, 0, 0, 0, 0, 0, 0]⟩,
  ⟨0, -100, [0, 0, 0, 0, 0, 0, 9, -12, 0, 0, 0, 0, 0, -2]⟩,
  ⟨-100, 0, [0, 0, 0, 0, 0, 0, 5, -9, 0, 0, 0, 0, 0, -2]⟩,
  ⟨0, -100, [0, 0, 0, 0, 0, 0, 4, -4, 0, 0, 0, 0, 0, 1]⟩,
  ⟨0, -100, [0, 0, 0, 0, 0, 0, 3, -1, 0, 0, 0, 0, 0, 1]⟩,
  ⟨100, 0, [0, 0, 0, 0, 0, 0, 3, -5, 0, 2, 0, 0, 0, 0]⟩,
  ⟨50, -50, [0, 0, 0, 0, 0, 0, 2, -4, 0, 0, 0, 0, 0, 0]⟩,
  ⟨-100, 0, [0, 0, 0, 0, 0, 0, 1, -2, 0, 0, 0, 0, 0, 1]⟩,
  ⟨100, 0, [0, 0, 0, 0, 0, 0, 0, 7, -13, 0, 0, 0, 0, 0]⟩,
  ⟨-100, 0, [0, 0, 0, 0, 0, 0, 0, 5, -3, 0, 0, 0, 0, 2]⟩,
  ⟨-30, -70, [0, 0, 0, 0, 0, 0, 0, 4, -8, 1, 5, 0, 0, -2]⟩,
  ⟨-90, 0, [2, 1, -2, -2, -1, 0, 0, 0, 0, 0, 0, 0, 0, 0]⟩,
  ⟨90, 0, [2, 0, 0, 2, 2, 0, 0, 0, 0, 0, 0, 0, 0, 0]⟩,
  ⟨50, -40, [2, 0, -1, -1, -1, 0, 0, 3, -7, 0, 0, 0, 0, 0]⟩,
  ⟨-90, 0, [2, -1, 0, -1, 0, 0, 0, 0, 0, 0, 0, 0, 0, 0]⟩,
  ⟨-90, 0, [2, -2, 2, 0, 2, 0, 0, 0, 0, 0, 0, 0, 0, 0]⟩,
  ⟨-90, 0, [1, 3, 0, -2, 0, 0, 0, 0, 0, 0, 0, 0, 0, 0]⟩,
  ⟨90, 0, [1, 0, 0, -3, 1, 0, 0, 0, 0, 0, 0, 0, 0, 0]⟩]

/-- tab5.3a.txt, rows 801 to 880 of j0 of `_parse_table_5_3a`. -/
def psi0_10 : List Row := [
  ⟨90, 0, [1, -1, -2, -3, -2, 0, 0, 0, 0, 0, 0, 0, 0, 0]⟩,
  ⟨90, 0, [1, -2, 0, 0, 1, 0, 0, 0, 0, 0, 0, 0, 0, 0]⟩,
  ⟨-90, 0, [1, -2, -2, 0, -2, 0, 0, 0, 0, 0, 0, 0, 0, 0]⟩,
  ⟨-90, 0, [0, 3, 0, -2, 0, 0, 0, 0, 0, 0, 0, 0, 0, 0]⟩,
  ⟨90, 0, [0, 1, 0, -2, 2, 0, 0, 0, 0, 0, 0, 0, 0, 0]⟩,
  ⟨0, 90, [0, 0, 2, 0, 2, 0, 0, 4, -8, 3, 0, 0, 0, 0]⟩,
  ⟨0, 90, [0, 0, 2, 0, 2, 0, 0, -4, 8, -3, 0, 0, 0, 0]⟩,
  ⟨-90, 0, [0, 0, 2, 0, -2, 0, 0, 0, 0, 0, 0, 0, 0, 0]⟩,
  ⟨90, 0, [0, 0, 2, -2, -2, 0, 0, 0, 0, 0, 0, 0, 0, 0]⟩,
  ⟨0, -90, [0, 0, 1, -1, 1, 0, 0, 1, 0, 0, 0, 0, 0, 0]⟩,
  ⟨0, 90, [0, 0, 1, -1, 1, 0, -2, 3, 0, 0, 0, 0, 0, 0]⟩,
  ⟨-50, -40, [0, 0, 0, 0, 2, 0, 0, -1, 2, 0, 0, 0, 0, 0]⟩,
  ⟨0, 90, [0, 0, 0, 0, 0, 0, 7, -7, 0, 0, 0, 0, 0, -1]⟩,
  ⟨0, 90, [0, 0, 0, 0, 0, 0, 6, -7, 0, 0, 0, 0, 0, 0]⟩,
  ⟨-90, 0, [0, 0, 0, 0, 0, 0, 6, -9, 0, 0, 0, 0, 0, -1]⟩,
  ⟨0, 90, [0, 0, 0, 0, 0, 0, 4, -3, 0, 0, 0, 0, 0, 2]⟩,
  ⟨-90, 0, [0, 0, 0, 0, 0, 0, 0, 5, 0, -3, 0, 0, 0, 2]⟩,
  ⟨0, 90, [0, 0, 0, 0, 0, 0, 0, 3, -2, 0, 0, 0, 0, 0]⟩,
  ⟨90, 0, [0, 0, 0, 0, 0, 0, 0, 3, -6, 0, 0, 0, 0, -1]⟩,
  ⟨30, 60, [1, 0, 1, 0, 0, 0, 0, 0, 0, 0, 0, 0, 0, 0]⟩,
  ⟨60, -30, [0, 2, -2, 0, -1, 0, 0, 0, 0, 0, 0, 0, 0, 0]⟩,
  ⟨30, -60, [0, 0, 0, 0, 0, 0, 1, -2, 0, 0, 0, 0, 0, -2]⟩,
  ⟨-60, 30, [0, 0, 0, 0, 0, 0, 0, 6, -5, 0, 0, 0, 0, 2]⟩,
  ⟨60, -30, [0, 0, 0, 0, 0, 0, 0, 2, -5, 0, 0, 0, 0, -2]⟩,
  ⟨80, 0, [4, 0, 0, 0, -1, 0, 0, 0, 0, 0, 0, 0, 0, 0]⟩,
  ⟨-80, 0, [3, 0, 2, -1, 2, 0, 0, 0, 0, 0, 0, 0, 0, 0]⟩,
  ⟨-80, 0, [3, -1, 2, 0, 1, 0, 0, 0, 0, 0, 0, 0, 0, 0]⟩,
  ⟨80, 0, [2, 2, 2, -2, 2, 0, 0, 0, 0, 0, 0, 0, 0, 0]⟩,
  ⟨-80, 0, [2, 0, 2, -1, 1, 0, 0, 0, 0, 0, 0, 0, 0, 0]⟩,
  ⟨30, 50, [2, 0, 0, -2, 1, 0, 0, -6, 8, 0, 0, 0, 0, 0]⟩,
  ⟨0, -80, [2, 0, -1, -1, -2, 0, 0, -1, 0, 2, 0, 0, 0, 0]⟩,
  ⟨80, 0, [1, 2, 2, -2, 1, 0, 0, 0, 0, 0, 0, 0, 0, 0]⟩,
  ⟨-80, 0, [1, 1, 0, 2, -1, 0, 0, 0, 0, 0, 0, 0, 0, 0]⟩,
  ⟨0, -80, [1, 0, 0, -2, 0, 0, 20, -21, 0, 0, 0, 0, 0, 0]⟩,
  ⟨80, 0, [0, 2, 2, 0, 1, 0, 0, 0, 0, 0, 0, 0, 0, 0]⟩,
  ⟨-80, 0, [0, 0, 4, -2, 0, 0, 0, 0, 0, 0, 0, 0, 0, 0]⟩,
  ⟨80, 0, [0, 0, 2, 0, 2, 0, 1, -1, 0, 0, 0, 0, 0, 0]⟩,
  ⟨-80, 0, [0, 0, 2, 0, 2, 0, -1, 1, 0, 0, 0, 0, 0, 0]⟩,
  ⟨80, 0, [0, 0, 2, -2, 1, 0, 0, -2, 0, 0, 2, 0, 0, 0]⟩,
  ⟨0, 80, [0, 0, 2, -2, 1, 0, 0, -8, 11, 0, 0, 0, 0, 0]⟩,
  ⟨0, 80, [0, 0, 2, -2, 1, -1, 0, 2, 0, 0, 0, 0, 0, 0]⟩,
  ⟨30, -50, [0, 0, 2, -2, 0, 0, 0, -9, 13, 0, 0, 0, 0, 0]⟩,
  ⟨-30, 50, [0, 0, 1, -1, 2, 0, 0, -1, 0, -2, 5, 0, 0, 0]⟩,
  ⟨0, -80, [0, 0, 1, -1, 1, 0, 0, -1, 0, 0, 0, 2, 0, 0]⟩,
  ⟨0, -80, [0, 0, 1, -1, 1, 0, 0, -1, 0, -1, 2, 0, 0, 0]⟩,
  ⟨50, 30, [0, 0, 1, -1, 1, 0, 0, -1, 0, -2, 4, 0, 0, 0]⟩,
  ⟨80, 0, [0, 0, 0, 1, -2, 0, 0, 0, 0, 0, 0, 0, 0, 0]⟩,
  ⟨-80, 0, [0, 0, 0, 0, 1, 0, 3, -5, 0, 0, 0, 0, 0, 0]⟩,
  ⟨-50, -30, [0, 0, 0, 0, 1, 0, 0, -8, 15, 0, 0, 0, 0, 0]⟩,
  ⟨50, 30, [0, 0, 0, 0, 0, 1, 0, -4, 0, 0, 0, 0, 0, 0]⟩,
  ⟨80, 0, [0, 0, 0, 0, 0, 0, 8, -12, 0, 0, 0, 0, 0, 0]⟩,
  ⟨-80, 0, [0, 0, 0, 0, 0, 0, 5, -5, 0, 0, 0, 0, 0, 2]⟩,
  ⟨0, 80, [0, 0, 0, 0, 0, 0, 5, -6, 0, 0, 0, 0, 0, 0]⟩,
  ⟨80, 0, [0, 0, 0, 0, 0, 0, 2, -6, 0, 0, 0, 0, 0, -2]⟩,
  ⟨0, 80, [0, 0, 0, 0, 0, 0, 0, 8, -15, 0, 0, 0, 0, -1]⟩,
  ⟨0, -80, [0, 0, 0, 0, 0, 0, 0, 5, -2, 0, 0, 0, 0, 2]⟩,
  ⟨-50, 30, [0, 0, 0, 0, 0, 0, 0, 5, -8, 0, 0, 0, 0, -2]⟩,
  ⟨80, 0, [0, 0, 0, 0, 0, 0, 0, 4, -4, 0, 0, 0, 0, 0]⟩,
  ⟨30, 50, [0, 0, 0, 0, 0, 0, 0, 4, -8, 0, 0, 0, 0, 0]⟩,
  ⟨-40, 40, [0, 0, 0, 0, 0, 0, 0, 2, 2, 0, 0, 0, 0, 2]⟩,
  ⟨30, -50, [0, 0, 0, 0, 0, 0, 0, 2, -6, 0, 0, 0, 0, -2]⟩,
  ⟨-40, 40, [0, 0, 0, 0, 0, 0, 0, 1, 0, -4, 0, 0, 0, 0]⟩,
  ⟨0, 80, [0, 0, 0, 0, 0, 0, 0, 0, 0, 0, 1, 0, 0, 2]⟩,
  ⟨-70, 0, [4, 0, 2, -4, 2, 0, 0, 0, 0, 0, 0, 0, 0, 0]⟩,
  ⟨70, 0, [3, 1, 2, 0, 1, 0, 0, 0, 0, 0, 0, 0, 0, 0]⟩,
  ⟨70, 0, [3, 0, -2, -2, 0, 0, 0, 0, 0, 0, 0, 0, 0, 0]⟩,
  ⟨70, 0, [2, 0, -4, 2, -2, 0, 0, 0, 0, 0, 0, 0, 0, 0]⟩,
  ⟨70, 0, [2, -1, -2, 0, -2, 0, 0, 0, 0, 0, 0, 0, 0, 0]⟩,
  ⟨70, 0, [2, -2, 0, 0, 0, 0, 0, 0, 0, 0, 0, 0, 0, 0]⟩,
  ⟨70, 0, [1, 1, 4, -2, 2, 0, 0, 0, 0, 0, 0, 0, 0, 0]⟩,
  ⟨-70, 0, [1, 1, 2, 1, 1, 0, 0, 0, 0, 0, 0, 0, 0, 0]⟩,
  ⟨70, 0, [1, 1, 2, -4, 2, 0, 0, 0, 0, 0, 0, 0, 0, 0]⟩,
  ⟨70, 0, [1, 1, 2, -4, 0, 0, 0, 0, 0, 0, 0, 0, 0, 0]⟩,
  ⟨70, 0, [1, 1, 0, -1, 1, 0, 0, 0, 0, 0, 0, 0, 0, 0]⟩,
  ⟨70, 0, [1, 1, 0, -3, 0, 0, 0, 0, 0, 0, 0, 0, 0, 0]⟩,
  ⟨70, 0, [1, 0, 2, 3, 2, 0, 0, 0, 0, 0, 0, 0, 0, 0]⟩,
  ⟨70, 0, [1, 0, 2, -3, 0, 0, 0, 0, 0, 0, 0, 0, 0, 0]⟩,
  ⟨70, 0, [1, 0, 0, 4, -1, 0, 0, 0, 0, 0, 0, 0, 0, 0]⟩,
  ⟨40, 30, [1, 0, 0, -1, 1, 0, 0, -3, 4, 0, 0, 0, 0, 0]⟩,
  ⟨70, 0, [1, 0, 0, -2, 0, 0, 0, 1, 0, -1, 0, 0, 0, 0]⟩]

/-- tab5.3a.txt, rows 881 to 960 of j0 of `_parse_table_5_3a`. -/
def psi0_11 : List Row := [
  ⟨-70, 0, [1, 0, -2, -2, -2, 0, -3, 3, 0, 0, 0, 0, 0, 0]⟩,
  ⟨70, 0, [1, -1, 2, -2, 0, 0, 0, 0, 0, 0, 0, 0, 0, 0]⟩,
  ⟨70, 0, [1, -2, 0, -2, -1, 0, 0, 0, 0, 0, 0, 0, 0, 0]⟩,
  ⟨-70, 0, [0, 2, 0, 2, 0, 0, 0, 0, 0, 0, 0, 0, 0, 0]⟩,
  ⟨70, 0, [0, 0, 2, 4, 0, 0, 0, 0, 0, 0, 0, 0, 0, 0]⟩,
  ⟨70, 0, [0, 0, 2, -2, 1, 0, 0, -2, 0, 3, 0, 0, 0, 0]⟩,
  ⟨-70, 0, [0, 0, 1, -1, 2, 0, 0, 0, -2, 0, 0, 0, 0, 0]⟩,
  ⟨30, -40, [0, 0, 1, -1, 1, 0, 0, -1, 0, 0, -2, 0, 0, 0]⟩,
  ⟨-70, 0, [0, 0, 0, 4, 2, 0, 0, 0, 0, 0, 0, 0, 0, 0]⟩,
  ⟨0, -70, [0, 0, 0, 0, 2, 0, 0, 4, -8, 3, 0, 0, 0, 0]⟩,
  ⟨0, -70, [0, 0, 0, 0, 2, 0, 0, -4, 8, -3, 0, 0, 0, 0]⟩,
  ⟨-30, -40, [0, 0, 0, 0, 1, 0, 0, -9, 17, 0, 0, 0, 0, 0]⟩,
  ⟨0, 70, [0, 0, 0, 0, 0, 0, 8, -8, 0, 0, 0, 0, 0, -1]⟩,
  ⟨0, 70, [0, 0, 0, 0, 0, 0, 8, -10, 0, 0, 0, 0, 0, -1]⟩,
  ⟨0, -70, [0, 0, 0, 0, 0, 0, 4, -2, 0, 0, 0, 0, 0, 1]⟩,
  ⟨-70, 0, [0, 0, 0, 0, 0, 0, 3, -4, 0, 0, 0, 0, 0, -1]⟩,
  ⟨70, 0, [0, 0, 0, 0, 0, 0, 3, -6, 0, 0, 0, 0, 0, -1]⟩,
  ⟨-70, 0, [0, 0, 0, 0, 0, 0, 3, -7, 4, 0, 0, 0, 0, 0]⟩,
  ⟨-30, -40, [0, 0, 0, 0, 0, 0, 1, -4, 0, 0, 0, 0, 0, -2]⟩,
  ⟨0, 70, [0, 0, 0, 0, 0, 0, 0, 6, 0, 0, 0, 0, 0, 1]⟩,
  ⟨0, -70, [0, 0, 0, 0, 0, 0, 0, 6, -7, 0, 0, 0, 0, 2]⟩,
  ⟨30, -40, [0, 0, 0, 0, 0, 0, 0, 4, 0, 0, 0, 0, 0, 0]⟩,
  ⟨-70, 0, [0, 0, 0, 0, 0, 0, 0, 4, 0, 0, -2, 0, 0, 2]⟩,
  ⟨0, -70, [0, 0, 0, 0, 0, 0, 0, 3, 0, 0, -2, 0, 0, 2]⟩,
  ⟨0, 70, [0, 0, 0, 0, 0, 0, 0, 1, 0, -1, 0, 0, 0, 1]⟩,
  ⟨0, -70, [0, 0, 0, 0, 0, 0, 0, 1, -6, 0, 0, 0, 0, -2]⟩,
  ⟨70, 0, [0, 0, 0, 0, 0, 0, 0, 0, 0, 4, -5, 0, 0, 2]⟩,
  ⟨-70, 0, [0, 0, 0, 0, 0, 0, 0, 0, 0, 0, 0, 2, 0, 2]⟩,
  ⟨60, 0, [5, 0, 0, 0, 0, 0, 0, 0, 0, 0, 0, 0, 0, 0]⟩,
  ⟨-60, 0, [4, -1, 2, 0, 2, 0, 0, 0, 0, 0, 0, 0, 0, 0]⟩,
  ⟨-60, 0, [3, 0, 0, -3, 0, 0, 0, 0, 0, 0, 0, 0, 0, 0]⟩,
  ⟨-60, 0, [2, 2, 0, -4, 0, 0, 0, 0, 0, 0, 0, 0, 0, 0]⟩,
  ⟨60, 0, [2, 2, -2, -4, -2, 0, 0, 0, 0, 0, 0, 0, 0, 0]⟩,
  ⟨-60, 0, [2, 1, 2, 1, 2, 0, 0, 0, 0, 0, 0, 0, 0, 0]⟩,
  ⟨60, 0, [2, 1, 2, -4, 1, 0, 0, 0, 0, 0, 0, 0, 0, 0]⟩,
  ⟨60, 0, [2, 0, 2, 1, 1, 0, 0, 0, 0, 0, 0, 0, 0, 0]⟩,
  ⟨-60, 0, [2, 0, 0, -2, -2, 0, -3, 3, 0, 0, 0, 0, 0, 0]⟩,
  ⟨0, -60, [2, 0, -1, -1, -1, 0, 0, -1, 0, 2, 0, 0, 0, 0]⟩,
  ⟨60, 0, [2, 0, -2, -6, -1, 0, 0, 0, 0, 0, 0, 0, 0, 0]⟩,
  ⟨-60, 0, [2, 0, -4, -2, -1, 0, 0, 0, 0, 0, 0, 0, 0, 0]⟩,
  ⟨60, 0, [2, -1, 2, -1, 2, 0, 0, 0, 0, 0, 0, 0, 0, 0]⟩,
  ⟨-60, 0, [1, 0, 2, -2, 2, 0, 0, -2, 0, 2, 0, 0, 0, 0]⟩,
  ⟨-60, 0, [1, 0, 0, 0, 0, 0, 0, -2, 0, 2, 0, 0, 0, 0]⟩,
  ⟨60, 0, [1, 0, 0, -2, 0, 0, 2, -2, 0, 0, 0, 0, 0, 0]⟩,
  ⟨0, -60, [1, 0, -1, 1, -1, 0, -18, 17, 0, 0, 0, 0, 0, 0]⟩,
  ⟨-60, 0, [1, 0, -2, -2, -3, 0, 0, 0, 0, 0, 0, 0, 0, 0]⟩,
  ⟨60, 0, [1, -1, 2, 2, 0, 0, 0, 0, 0, 0, 0, 0, 0, 0]⟩,
  ⟨-60, 0, [1, -1, 0, -4, -1, 0, 0, 0, 0, 0, 0, 0, 0, 0]⟩,
  ⟨-60, 0, [1, -2, 2, 0, 1, 0, 0, 0, 0, 0, 0, 0, 0, 0]⟩,
  ⟨60, 0, [1, -2, 0, -2, 1, 0, 0, 0, 0, 0, 0, 0, 0, 0]⟩,
  ⟨60, 0, [0, 2, 2, 2, 2, 0, 0, 0, 0, 0, 0, 0, 0, 0]⟩,
  ⟨60, 0, [0, 2, -2, -4, -2, 0, 0, 0, 0, 0, 0, 0, 0, 0]⟩,
  ⟨-60, 0, [0, 1, 2, 3, 2, 0, 0, 0, 0, 0, 0, 0, 0, 0]⟩,
  ⟨60, 0, [0, 1, 0, 3, 0, 0, 0, 0, 0, 0, 0, 0, 0, 0]⟩,
  ⟨-60, 0, [0, 1, 0, -4, 1, 0, 0, 0, 0, 0, 0, 0, 0, 0]⟩,
  ⟨-60, 0, [0, 0, 2, 0, 2, 0, 0, 1, 0, -1, 0, 0, 0, 0]⟩,
  ⟨60, 0, [0, 0, 2, 0, 2, 0, 0, -1, 0, 1, 0, 0, 0, 0]⟩,
  ⟨0, 60, [0, 0, 2, -2, -1, 0, -5, 6, 0, 0, 0, 0, 0, 0]⟩,
  ⟨0, 60, [0, 0, 1, -1, 2, 0, 0, -1, 0, 1, 0, 0, 0, 0]⟩,
  ⟨0, -60, [0, 0, 1, -1, 2, 0, 0, -1, 0, -1, 0, 0, 0, 0]⟩,
  ⟨60, 0, [0, 0, 0, 0, 1, 0, 2, -2, 0, 0, 0, 0, 0, 0]⟩,
  ⟨60, 0, [0, 0, 0, 0, 0, 0, 8, -12, 0, 0, 0, 0, 0, -2]⟩,
  ⟨60, 0, [0, 0, 0, 0, 0, 0, 8, -16, 0, 0, 0, 0, 0, -2]⟩,
  ⟨0, 60, [0, 0, 0, 0, 0, 0, 7, -8, 0, 0, 0, 0, 0, 0]⟩,
  ⟨30, -30, [0, 0, 0, 0, 0, 0, 2, -3, 0, 0, 0, 0, 0, 1]⟩,
  ⟨0, -60, [0, 0, 0, 0, 0, 0, 0, 5, -6, 0, 0, 0, 0, 2]⟩,
  ⟨-60, 0, [0, 0, 0, 0, 0, 0, 0, 4, -6, 0, 0, 0, 0, -2]⟩,
  ⟨0, 60, [0, 0, 0, 0, 0, 0, 0, 4, -8, 1, 5, 0, 0, 2]⟩,
  ⟨-60, 0, [0, 0, 0, 0, 0, 0, 0, 2, 0, -2, 0, 0, 0, 2]⟩,
  ⟨0, -60, [0, 0, 0, 0, 0, 0, 0, 2, -7, 0, 0, 0, 0, -2]⟩,
  ⟨60, 0, [0, 0, 0, 0, 0, 0, 0, 0, 2, 0, 0, 0, 0, 0]⟩,
  ⟨-60, 0, [0, 0, 0, 0, 0, 0, 0, 0, 0, 0, 5, 0, 0, 2]⟩,
  ⟨-60, 0, [0, 0, 0, 0, 0, 0, 0, 0, 0, 0, 0, 0, 2, 2]⟩,
  ⟨50, 0, [4, 1, 2, 0, 2, 0, 0, 0, 0, 0, 0, 0, 0, 0]⟩,
  ⟨-50, 0, [4, -1, -2, -2, -2, 0, 0, 0, 0, 0, 0, 0, 0, 0]⟩,
  ⟨50, 0, [3, 0, 0, -2, 1, 0, 0, 0, 0, 0, 0, 0, 0, 0]⟩,
  ⟨-50, 0, [3, 0, 0, -2, 0, 0, 0, 0, 0, 0, 0, 0, 0, 0]⟩,
  ⟨-50, 0, [2, 1, 0, -2, -2, 0, 0, 0, 0, 0, 0, 0, 0, 0]⟩,
  ⟨50, 0, [2, 1, -2, 0, 1, 0, 0, 0, 0, 0, 0, 0, 0, 0]⟩,
  ⟨50, 0, [2, 1, -2, -6, -2, 0, 0, 0, 0, 0, 0, 0, 0, 0]⟩]

/-- tab5.3a.txt, rows 961 to 1040 of j0 of `_parse_table_5_3a`. -/
def psi0_12 : List Row := [
  ⟨50, 0, [2, 0, 4, -2, 1, 0, 0, 0, 0, 0, 0, 0, 0, 0]⟩,
  ⟨50, 0, [2, 0, 0, -1, 1, 0, 0, 0, 0, 0, 0, 0, 0, 0]⟩,
  ⟨-50, 0, [2, 0, 0, -2, 0, 0, 0, -4, 8, -3, 0, 0, 0, 0]⟩,
  ⟨50, 0, [2, 0, 0, -2, 0, 0, -2, 2, 0, 0, 0, 0, 0, 0]⟩,
  ⟨50, 0, [2, 0, 0, -2, -1, 0, 0, -2, 0, 4, -5, 0, 0, 0]⟩,
  ⟨50, 0, [2, 0, 0, -2, -1, 0, -3, 3, 0, 0, 0, 0, 0, 0]⟩,
  ⟨50, 0, [2, 0, 0, -3, -1, 0, 0, 0, 0, 0, 0, 0, 0, 0]⟩,
  ⟨0, -50, [2, 0, -1, -1, -1, 0, 0, -1, 0, 0, 0, 0, 0, 0]⟩,
  ⟨50, 0, [2, -1, 2, -2, 1, 0, 0, 0, 0, 0, 0, 0, 0, 0]⟩,
  ⟨50, 0, [2, -1, -2, 2, -1, 0, 0, 0, 0, 0, 0, 0, 0, 0]⟩,
  ⟨50, 0, [2, -2, 0, -2, 1, 0, 0, 0, 0, 0, 0, 0, 0, 0]⟩,
  ⟨50, 0, [1, 1, -2, 2, -2, 0, 0, 0, 0, 0, 0, 0, 0, 0]⟩,
  ⟨-50, 0, [1, 1, -2, -3, -2, 0, 0, 0, 0, 0, 0, 0, 0, 0]⟩,
  ⟨0, -50, [1, 0, 3, 0, 3, 0, 0, 0, 0, 0, 0, 0, 0, 0]⟩,
  ⟨0, 50, [1, 0, 1, -1, 1, 0, 0, -1, 0, 0, 0, 0, 0, 0]⟩,
  ⟨0, 50, [1, 0, 1, -2, 0, 0, 0, 0, 0, 0, 0, 0, 0, 0]⟩,
  ⟨0, -50, [1, 0, 0, 0, 0, 0, 0, 4, -8, 3, 0, 0, 0, 0]⟩,
  ⟨0, -50, [1, 0, 0, 0, 0, 0, 0, -4, 8, -3, 0, 0, 0, 0]⟩,
  ⟨50, 0, [1, 0, 0, 0, 0, 0, -1, 1, 0, 0, 0, 0, 0, 0]⟩,
  ⟨50, 0, [1, 0, 0, -1, 0, 0, 0, -2, 2, 0, 0, 0, 0, 0]⟩,
  ⟨-50, 0, [1, 0, 0, -1, -1, 0, 0, -2, 2, 0, 0, 0, 0, 0]⟩,
  ⟨0, 50, [1, 0, 0, -2, 0, 0, 17, -16, 0, -2, 0, 0, 0, 0]⟩,
  ⟨50, 0, [1, 0, 0, -6, -1, 0, 0, 0, 0, 0, 0, 0, 0, 0]⟩,
  ⟨0, -50, [1, 0, -1, 1, -1, 0, 0, 1, 0, 0, 0, 0, 0, 0]⟩,
  ⟨0, 50, [1, 0, -1, 0, 1, 0, 0, 0, 0, 0, 0, 0, 0, 0]⟩,
  ⟨-50, 0, [1, 0, -1, -1, -1, 0, 20, -20, 0, 0, 0, 0, 0, 0]⟩,
  ⟨-50, 0, [1, 0, -2, 1, 1, 0, 0, 0, 0, 0, 0, 0, 0, 0]⟩,
  ⟨-50, 0, [1, 0, -2, 0, 2, 0, 0, 0, 0, 0, 0, 0, 0, 0]⟩,
  ⟨50, 0, [1, 0, -2, 0, -2, 0, -10, 3, 0, 0, 0, 0, 0, 0]⟩,
  ⟨50, 0, [1, 0, -2, -2, -2, 0, 0, -2, 0, 3, 0, 0, 0, 0]⟩,
  ⟨50, 0, [1, -1, 2, 1, 2, 0, 0, 0, 0, 0, 0, 0, 0, 0]⟩,
  ⟨-50, 0, [1, -1, 0, 0, -2, 0, 0, 0, 0, 0, 0, 0, 0, 0]⟩,
  ⟨-50, 0, [1, -1, 0, -2, -2, 0, 0, 0, 0, 0, 0, 0, 0, 0]⟩,
  ⟨50, 0, [1, -1, -4, 2, -2, 0, 0, 0, 0, 0, 0, 0, 0, 0]⟩,
  ⟨50, 0, [1, -2, 0, 0, -1, 0, 0, 0, 0, 0, 0, 0, 0, 0]⟩,
  ⟨-50, 0, [1, -2, -2, -2, -1, 0, 0, 0, 0, 0, 0, 0, 0, 0]⟩,
  ⟨50, 0, [0, 3, -2, -2, -2, 0, 0, 0, 0, 0, 0, 0, 0, 0]⟩,
  ⟨-50, 0, [0, 2, 0, -4, 0, 0, 0, 0, 0, 0, 0, 0, 0, 0]⟩,
  ⟨50, 0, [0, 1, 4, -2, 1, 0, 0, 0, 0, 0, 0, 0, 0, 0]⟩,
  ⟨50, 0, [0, 1, 0, 4, 1, 0, 0, 0, 0, 0, 0, 0, 0, 0]⟩,
  ⟨50, 0, [0, 0, 4, 2, 2, 0, 0, 0, 0, 0, 0, 0, 0, 0]⟩,
  ⟨50, 0, [0, 0, 2, 3, 1, 0, 0, 0, 0, 0, 0, 0, 0, 0]⟩,
  ⟨-50, 0, [0, 0, 2, -2, 2, 0, 0, -2, 0, 2, 0, 0, 0, 0]⟩,
  ⟨50, 0, [0, 0, 2, -2, 1, 0, 0, -1, 0, 1, 0, 0, 0, 0]⟩,
  ⟨-50, 0, [0, 0, 2, -2, 0, 0, 0, -2, 0, 2, 0, 0, 0, 0]⟩,
  ⟨-50, 0, [0, 0, 2, -4, 0, 0, 0, 0, 0, 0, 0, 0, 0, 0]⟩,
  ⟨-50, 0, [0, 0, 1, -1, 2, 0, 0, -1, 0, 0, 1, 0, 0, 0]⟩,
  ⟨-50, 0, [0, 0, 1, -1, 2, 0, -5, 7, 0, 0, 0, 0, 0, 0]⟩,
  ⟨0, 50, [0, 0, 1, -1, 1, 0, 1, -2, 0, 0, 0, 0, 0, 0]⟩,
  ⟨0, 50, [0, 0, 1, -1, 1, 0, -2, 1, 0, 0, 0, 0, 0, 0]⟩,
  ⟨-50, 0, [0, 0, 1, -1, 0, 0, 0, 0, 0, 0, 0, 0, 0, 0]⟩,
  ⟨50, 0, [0, 0, 0, 6, 0, 0, 0, 0, 0, 0, 0, 0, 0, 0]⟩,
  ⟨0, 50, [0, 0, 0, 0, 1, 0, 5, -8, 0, 0, 0, 0, 0, 0]⟩,
  ⟨50, 0, [0, 0, 0, 0, 1, 0, 0, 2, -2, 0, 0, 0, 0, 0]⟩,
  ⟨0, 50, [0, 0, 0, 0, 1, 0, 0, 0, 0, 0, -1, 0, 0, 0]⟩,
  ⟨0, 50, [0, 0, 0, 0, 0, 0, 9, -9, 0, 0, 0, 0, 0, -1]⟩,
  ⟨0, 50, [0, 0, 0, 0, 0, 0, 9, -11, 0, 0, 0, 0, 0, -1]⟩,
  ⟨0, 50, [0, 0, 0, 0, 0, 0, 6, -10, 0, 0, 0, 0, 0, -1]⟩,
  ⟨0, -50, [0, 0, 0, 0, 0, 0, 5, -3, 0, 0, 0, 0, 0, 1]⟩,
  ⟨-50, 0, [0, 0, 0, 0, 0, 0, 4, -5, 0, 0, 0, 0, 0, -1]⟩,
  ⟨0, -50, [0, 0, 0, 0, 0, 0, 3, -4, 0, 0, 0, 0, 0, -2]⟩,
  ⟨0, -50, [0, 0, 0, 0, 0, 0, 0, 6, -9, 0, 0, 0, 0, 0]⟩,
  ⟨0, -50, [0, 0, 0, 0, 0, 0, 0, 5, -10, 0, 0, 0, 0, -2]⟩,
  ⟨-50, 0, [0, 0, 0, 0, 0, 0, 0, 4, 0, -4, 0, 0, 0, 2]⟩,
  ⟨50, 0, [0, 0, 0, 0, 0, 0, 0, 3, 0, -4, 0, 0, 0, 0]⟩,
  ⟨-50, 0, [0, 0, 0, 0, 0, 0, 0, 2, 0, 0, 0, 0, 0, 0]⟩,
  ⟨-50, 0, [0, 0, 0, 0, 0, 0, 0, 2, 0, -5, 0, 0, 0, -2]⟩,
  ⟨0, 50, [0, 0, 0, 0, 0, 0, 0, 1, 0, -2, 5, 0, 0, 2]⟩,
  ⟨50, 0, [0, 0, 0, 0, 0, 0, 0, 1, 0, -2, 0, 0, 0, -2]⟩,
  ⟨0, -50, [0, 0, 0, 0, 0, 0, 0, 1, 0, -3, 0, 0, 0, -1]⟩,
  ⟨-50, 0, [0, 0, 0, 0, 0, 0, 0, 1, 0, -5, 0, 0, 0, -2]⟩,
  ⟨0, -50, [0, 0, 0, 0, 0, 0, 0, 0, 0, 0, 0, 2, 0, 1]⟩,
  ⟨0, 50, [0, 0, 0, 0, 0, 0, 0, 0, 0, 0, 0, 1, -2, -2]⟩,
  ⟨40, 0, [4, 0, 0, 2, 0, 0, 0, 0, 0, 0, 0, 0, 0, 0]⟩,
  ⟨40, 0, [3, 1, 2, -2, 1, 0, 0, 0, 0, 0, 0, 0, 0, 0]⟩,
  ⟨40, 0, [3, 0, 4, -2, 2, 0, 0, 0, 0, 0, 0, 0, 0, 0]⟩,
  ⟨40, 0, [3, 0, 2, 1, 2, 0, 0, 0, 0, 0, 0, 0, 0, 0]⟩,
  ⟨40, 0, [3, 0, 0, 2, -1, 0, 0, 0, 0, 0, 0, 0, 0, 0]⟩,
  ⟨-40, 0, [3, 0, 0, 0, 2, 0, 0, 0, 0, 0, 0, 0, 0, 0]⟩,
  ⟨40, 0, [3, 0, 0, -1, 0, 0, 0, 0, 0, 0, 0, 0, 0, 0]⟩]

/-- tab5.3a.txt, rows 1041 to 1120 of j0 of `_parse_table_5_3a`. -/
def psi0_13 : List Row := [
  ⟨40, 0, [3, 0, -2, 2, -1, 0, 0, 0, 0, 0, 0, 0, 0, 0]⟩,
  ⟨40, 0, [3, -1, 0, 2, 0, 0, 0, 0, 0, 0, 0, 0, 0, 0]⟩,
  ⟨40, 0, [2, 1, 0, 1, 0, 0, 0, 0, 0, 0, 0, 0, 0, 0]⟩,
  ⟨-40, 0, [2, 1, 0, -6, 0, 0, 0, 0, 0, 0, 0, 0, 0, 0]⟩,
  ⟨-40, 0, [2, 0, 4, -4, 2, 0, 0, 0, 0, 0, 0, 0, 0, 0]⟩,
  ⟨40, 0, [2, 0, 2, 0, 1, 0, 0, 1, 0, 0, 0, 0, 0, 0]⟩,
  ⟨-40, 0, [2, 0, 2, -3, 2, 0, 0, 0, 0, 0, 0, 0, 0, 0]⟩,
  ⟨-40, 0, [2, 0, 0, 4, 1, 0, 0, 0, 0, 0, 0, 0, 0, 0]⟩,
  ⟨-40, 0, [2, 0, 0, -2, 0, 0, 0, -2, 0, 2, 2, 0, 0, 0]⟩,
  ⟨40, 0, [2, 0, 0, -2, 0, 0, 0, -4, 4, 0, 0, 0, 0, 0]⟩,
  ⟨40, 0, [2, 0, 0, -3, 1, 0, 0, 0, 0, 0, 0, 0, 0, 0]⟩,
  ⟨40, 0, [2, 0, -2, -2, 1, 0, 0, 0, 0, 0, 0, 0, 0, 0]⟩,
  ⟨40, 0, [2, 0, -4, 2, -1, 0, 0, 0, 0, 0, 0, 0, 0, 0]⟩,
  ⟨40, 0, [2, -1, 2, 0, 0, 0, 0, 0, 0, 0, 0, 0, 0, 0]⟩,
  ⟨-40, 0, [2, -1, 0, 2, 1, 0, 0, 0, 0, 0, 0, 0, 0, 0]⟩,
  ⟨40, 0, [2, -1, 0, 2, -1, 0, 0, 0, 0, 0, 0, 0, 0, 0]⟩,
  ⟨-40, 0, [2, -2, 2, 2, 2, 0, 0, 0, 0, 0, 0, 0, 0, 0]⟩,
  ⟨-10, 30, [2, -2, 2, -2, 2, 0, 0, 0, 0, 0, 0, 0, 0, 0]⟩,
  ⟨-40, 0, [2, -2, 0, -2, -2, 0, 0, 0, 0, 0, 0, 0, 0, 0]⟩,
  ⟨40, 0, [1, 1, 2, 4, 2, 0, 0, 0, 0, 0, 0, 0, 0, 0]⟩,
  ⟨40, 0, [1, 1, 0, 1, 1, 0, 0, 0, 0, 0, 0, 0, 0, 0]⟩,
  ⟨40, 0, [1, 1, 0, 1, -1, 0, 0, 0, 0, 0, 0, 0, 0, 0]⟩,
  ⟨40, 0, [1, 1, -2, -6, -2, 0, 0, 0, 0, 0, 0, 0, 0, 0]⟩,
  ⟨40, 0, [1, 0, 2, -1, 0, 0, 0, 0, 0, 0, 0, 0, 0, 0]⟩,
  ⟨-40, 0, [1, 0, 0, 0, 0, 0, 1, -1, 0, 0, 0, 0, 0, 0]⟩,
  ⟨-40, 0, [1, 0, 0, 0, 0, 0, 0, -1, 0, 1, 0, 0, 0, 0]⟩,
  ⟨-40, 0, [1, 0, 0, 0, 0, 0, -3, 3, 0, 0, 0, 0, 0, 0]⟩,
  ⟨40, 0, [1, 0, 0, -1, 1, 0, 0, -1, 0, 1, 0, 0, 0, 0]⟩,
  ⟨-40, 0, [1, 0, 0, -2, 0, 0, 1, -1, 0, 0, 0, 0, 0, 0]⟩,
  ⟨0, -40, [1, 0, 0, -2, 0, 0, 0, 4, -8, 3, 0, 0, 0, 0]⟩,
  ⟨0, -40, [1, 0, 0, -2, 0, 0, 0, -4, 8, -3, 0, 0, 0, 0]⟩,
  ⟨-40, 0, [1, 0, 0, -2, 0, 0, -2, 2, 0, 0, 0, 0, 0, 0]⟩,
  ⟨40, 0, [1, 0, 0, -3, -1, 0, 0, 0, 0, 0, 0, 0, 0, 0]⟩,
  ⟨40, 0, [1, 0, -2, -6, -1, 0, 0, 0, 0, 0, 0, 0, 0, 0]⟩,
  ⟨-40, 0, [1, 0, -4, -2, -1, 0, 0, 0, 0, 0, 0, 0, 0, 0]⟩,
  ⟨-40, 0, [1, -1, 0, 1, 0, 0, 0, 0, 0, 0, 0, 0, 0, 0]⟩,
  ⟨40, 0, [1, -1, -2, -2, 0, 0, 0, 0, 0, 0, 0, 0, 0, 0]⟩,
  ⟨-40, 0, [1, -1, -2, -4, -1, 0, 0, 0, 0, 0, 0, 0, 0, 0]⟩,
  ⟨-40, 0, [1, -2, 2, 2, 1, 0, 0, 0, 0, 0, 0, 0, 0, 0]⟩,
  ⟨40, 0, [1, -2, -2, 2, -1, 0, 0, 0, 0, 0, 0, 0, 0, 0]⟩,
  ⟨40, 0, [0, 2, 0, 0, 2, 0, 0, 0, 0, 0, 0, 0, 0, 0]⟩,
  ⟨-40, 0, [0, 2, 0, 0, -2, 0, 0, 0, 0, 0, 0, 0, 0, 0]⟩,
  ⟨40, 0, [0, 2, -2, 2, -3, 0, 0, 0, 0, 0, 0, 0, 0, 0]⟩,
  ⟨-40, 0, [0, 1, 2, 2, 0, 0, 0, 0, 0, 0, 0, 0, 0, 0]⟩,
  ⟨40, 0, [0, 1, 2, -4, 2, 0, 0, 0, 0, 0, 0, 0, 0, 0]⟩,
  ⟨-40, 0, [0, 1, -2, 4, -1, 0, 0, 0, 0, 0, 0, 0, 0, 0]⟩,
  ⟨40, 0, [0, 0, 2, 2, 3, 0, 0, 0, 0, 0, 0, 0, 0, 0]⟩,
  ⟨0, 40, [0, 0, 2, -2, 1, 0, 0, 4, -8, 3, 0, 0, 0, 0]⟩,
  ⟨-40, 0, [0, 0, 2, -2, 1, 0, 0, 1, 0, -1, 0, 0, 0, 0]⟩,
  ⟨40, 0, [0, 0, 2, -2, 1, 0, 0, -3, 0, 3, 0, 0, 0, 0]⟩,
  ⟨0, 40, [0, 0, 2, -2, 1, 0, 0, -4, 8, -3, 0, 0, 0, 0]⟩,
  ⟨40, 0, [0, 0, 2, -2, 1, 0, -5, 5, 0, 0, 0, 0, 0, 0]⟩,
  ⟨-40, 0, [0, 0, 2, -2, 0, 0, -4, 4, 0, 0, 0, 0, 0, 0]⟩,
  ⟨40, 0, [0, 0, 2, -3, 0, 0, 0, 0, 0, 0, 0, 0, 0, 0]⟩,
  ⟨0, -40, [0, 0, 1, 1, 0, 0, 0, 1, 0, 0, 0, 0, 0, 0]⟩,
  ⟨-40, 0, [0, 0, 1, -1, 2, 0, -8, 12, 0, 0, 0, 0, 0, 0]⟩,
  ⟨-40, 0, [0, 0, 1, -1, 1, 0, 1, -3, 0, 0, 0, 0, 0, 0]⟩,
  ⟨0, 40, [0, 0, 1, -1, 1, 0, 0, -1, 0, 0, 0, -1, 0, 0]⟩,
  ⟨40, 0, [0, 0, 1, -1, 1, 0, 0, -4, 6, 0, 0, 0, 0, 0]⟩,
  ⟨0, 40, [0, 0, 1, -1, 1, 0, -5, 6, 0, 0, 0, 0, 0, 0]⟩,
  ⟨0, 40, [0, 0, 1, -1, 0, 0, 3, -6, 0, 0, 0, 0, 0, 0]⟩,
  ⟨0, 40, [0, 0, 1, -1, 0, 0, 0, -1, 0, 1, 0, 0, 0, 0]⟩,
  ⟨40, 0, [0, 0, 1, -1, 0, 0, 0, -1, 0, 0, 1, 0, 0, 0]⟩,
  ⟨0, 40, [0, 0, 1, -1, 0, 0, 0, -2, 2, 0, 0, 0, 0, 0]⟩,
  ⟨0, -40, [0, 0, 1, -1, 0, 0, -3, 4, 0, 0, 0, 0, 0, 0]⟩,
  ⟨0, -40, [0, 0, 1, -1, 0, 0, -4, 5, 0, 0, 0, 0, 0, 0]⟩,
  ⟨0, -40, [0, 0, 1, -1, -1, 0, 0, -1, 0, -1, 0, 0, 0, 0]⟩,
  ⟨-40, 0, [0, 0, 0, 2, 0, 0, 0, -1, 0, 1, 0, 0, 0, 0]⟩,
  ⟨0, -40, [0, 0, 0, 0, 1, 0, 3, -4, 0, 0, 0, 0, 0, 0]⟩,
  ⟨0, -40, [0, 0, 0, 0, 1, 0, 0, 1, 0, -2, 0, 0, 0, 0]⟩,
  ⟨40, 0, [0, 0, 0, 0, 1, 0, -2, 2, 0, 0, 0, 0, 0, 0]⟩,
  ⟨0, 40, [0, 0, 0, 0, 0, 0, 8, -9, 0, 0, 0, 0, 0, 0]⟩,
  ⟨-40, 0, [0, 0, 0, 0, 0, 0, 7, -10, 0, 0, 0, 0, 0, -1]⟩,
  ⟨0, -40, [0, 0, 0, 0, 0, 0, 5, -5, 0, 0, 0, 0, 0, 1]⟩,
  ⟨0, -40, [0, 0, 0, 0, 0, 0, 4, -5, 0, 0, 0, 0, 0, -2]⟩,
  ⟨0, -40, [0, 0, 0, 0, 0, 0, 3, -6, 0, 0, 0, 0, 0, 0]⟩,
  ⟨0, 40, [0, 0, 0, 0, 0, 0, 3, -8, 0, 0, 0, 0, 0, -2]⟩,
  ⟨40, 0, [0, 0, 0, 0, 0, 0, 2, -5, 0, 0, 0, 0, 0, -1]⟩,
  ⟨-40, 0, [0, 0, 0, 0, 0, 0, 1, 1, 0, 0, 0, 0, 0, 0]⟩,
  ⟨40, 0, [0, 0, 0, 0, 0, 0, 1, -2, 0, 0, 0, 0, 0, -1]⟩]

/-- tab5.3a.txt, rows 1121 to 1200 of j0 of `_parse_table_5_3a`. -/
def psi0_14 : List Row := [
  ⟨0, -40, [0, 0, 0, 0, 0, 0, 0, 7, -8, 0, 0, 0, 0, 2]⟩,
  ⟨0, -40, [0, 0, 0, 0, 0, 0, 0, 7, -9, 0, 0, 0, 0, 2]⟩,
  ⟨0, 40, [0, 0, 0, 0, 0, 0, 0, 6, -10, 0, 0, 0, 0, -2]⟩,
  ⟨0, 40, [0, 0, 0, 0, 0, 0, 0, 3, 0, 0, 0, 0, 0, 2]⟩,
  ⟨40, 0, [0, 0, 0, 0, 0, 0, 0, 3, -8, 3, 0, 0, 0, -2]⟩,
  ⟨0, 40, [0, 0, 0, 0, 0, 0, 0, 2, 0, 0, -2, 0, 0, 1]⟩,
  ⟨40, 0, [0, 0, 0, 0, 0, 0, 0, 2, -4, 0, 0, 0, 0, 1]⟩,
  ⟨40, 0, [0, 0, 0, 0, 0, 0, 0, 1, 0, 0, 0, 0, 0, -1]⟩,
  ⟨0, -40, [0, 0, 0, 0, 0, 0, 0, 1, 0, -1, 0, 0, 0, -1]⟩,
  ⟨0, -40, [0, 0, 0, 0, 0, 0, 0, 0, 0, 3, -5, 0, 0, 0]⟩,
  ⟨-40, 0, [0, 0, 0, 0, 0, 0, 0, 0, 0, 2, -2, 0, 0, 0]⟩,
  ⟨20, 10, [0, 0, 0, 0, 0, 0, 0, 0, 1, 0, 0, 0, 0, 0]⟩,
  ⟨-30, 0, [5, 0, 2, 0, 1, 0, 0, 0, 0, 0, 0, 0, 0, 0]⟩,
  ⟨30, 0, [4, 1, 2, -2, 2, 0, 0, 0, 0, 0, 0, 0, 0, 0]⟩,
  ⟨30, 0, [4, 0, -2, 0, -1, 0, 0, 0, 0, 0, 0, 0, 0, 0]⟩,
  ⟨-30, 0, [4, 0, -2, -2, 0, 0, 0, 0, 0, 0, 0, 0, 0, 0]⟩,
  ⟨30, 0, [3, 1, 2, 2, 2, 0, 0, 0, 0, 0, 0, 0, 0, 0]⟩,
  ⟨-30, 0, [3, 1, 0, -2, 0, 0, 0, 0, 0, 0, 0, 0, 0, 0]⟩,
  ⟨30, 0, [3, 1, -2, -6, -2, 0, 0, 0, 0, 0, 0, 0, 0, 0]⟩,
  ⟨-30, 0, [3, 0, 0, 0, -2, 0, 0, 0, 0, 0, 0, 0, 0, 0]⟩,
  ⟨-30, 0, [3, 0, -2, -1, -1, 0, 0, 0, 0, 0, 0, 0, 0, 0]⟩,
  ⟨-30, 0, [3, 0, -2, -4, -2, 0, 0, 0, 0, 0, 0, 0, 0, 0]⟩,
  ⟨30, 0, [3, 0, -2, -6, -1, 0, 0, 0, 0, 0, 0, 0, 0, 0]⟩,
  ⟨-30, 0, [3, -1, 0, -2, 0, 0, 0, 0, 0, 0, 0, 0, 0, 0]⟩,
  ⟨-30, 0, [3, -1, 0, -3, 0, 0, 0, 0, 0, 0, 0, 0, 0, 0]⟩,
  ⟨30, 0, [2, 2, 0, -2, -1, 0, 0, 0, 0, 0, 0, 0, 0, 0]⟩,
  ⟨30, 0, [2, 1, 2, 2, 1, 0, 0, 0, 0, 0, 0, 0, 0, 0]⟩,
  ⟨-30, 0, [2, 1, 2, 0, 0, 0, 0, 0, 0, 0, 0, 0, 0, 0]⟩,
  ⟨-30, 0, [2, 1, 2, -2, 0, 0, 0, 0, 0, 0, 0, 0, 0, 0]⟩,
  ⟨-30, 0, [2, 1, 2, -4, 2, 0, 0, 0, 0, 0, 0, 0, 0, 0]⟩,
  ⟨30, 0, [2, 1, 0, 2, 1, 0, 0, 0, 0, 0, 0, 0, 0, 0]⟩,
  ⟨30, 0, [2, 1, 0, -3, 0, 0, 0, 0, 0, 0, 0, 0, 0, 0]⟩,
  ⟨30, 0, [2, 1, -2, 0, -2, 0, 0, 0, 0, 0, 0, 0, 0, 0]⟩,
  ⟨-30, 0, [2, 0, 2, 4, 1, 0, 0, 0, 0, 0, 0, 0, 0, 0]⟩,
  ⟨30, 0, [2, 0, 2, 0, 3, 0, 0, 0, 0, 0, 0, 0, 0, 0]⟩,
  ⟨30, 0, [2, 0, 2, -2, 2, 0, 0, -2, 0, 3, 0, 0, 0, 0]⟩,
  ⟨-30, 0, [2, 0, 2, -2, -1, 0, 0, 0, 0, 0, 0, 0, 0, 0]⟩,
  ⟨-30, 0, [2, 0, 2, -6, 1, 0, 0, 0, 0, 0, 0, 0, 0, 0]⟩,
  ⟨0, 30, [2, 0, 1, -3, 1, 0, -6, 7, 0, 0, 0, 0, 0, 0]⟩,
  ⟨30, 0, [2, 0, 0, -2, 1, 0, 0, -5, 6, 0, 0, 0, 0, 0]⟩,
  ⟨0, -30, [2, 0, 0, -2, 0, 0, 2, -5, 0, 0, 0, 0, 0, 0]⟩,
  ⟨0, 30, [2, 0, 0, -2, 0, 0, 0, -2, 0, 5, -5, 0, 0, 0]⟩,
  ⟨30, 0, [2, 0, 0, -2, 0, 0, 0, -2, 0, 1, 5, 0, 0, 0]⟩,
  ⟨30, 0, [2, 0, 0, -2, 0, 0, 0, -2, 0, 0, 5, 0, 0, 0]⟩,
  ⟨30, 0, [2, 0, 0, -2, 0, 0, 0, -2, 0, 0, 2, 0, 0, 0]⟩,
  ⟨30, 0, [2, 0, 0, -2, 0, 0, -4, 4, 0, 0, 0, 0, 0, 0]⟩,
  ⟨-30, 0, [2, 0, 0, -2, -1, 0, 0, -2, 0, 3, -1, 0, 0, 0]⟩,
  ⟨0, 30, [2, 0, 0, -2, -1, 0, 0, -6, 8, 0, 0, 0, 0, 0]⟩,
  ⟨30, 0, [2, 0, 0, -4, 2, 0, 0, 0, 0, 0, 0, 0, 0, 0]⟩,
  ⟨30, 0, [2, 0, 0, -4, -2, 0, 0, 0, 0, 0, 0, 0, 0, 0]⟩,
  ⟨30, 0, [2, 0, 0, -6, -1, 0, 0, 0, 0, 0, 0, 0, 0, 0]⟩,
  ⟨30, 0, [2, 0, -1, -1, 1, 0, 0, 3, -7, 0, 0, 0, 0, 0]⟩,
  ⟨0, 30, [2, 0, -1, -1, 0, 0, 0, -1, 0, 3, 0, 0, 0, 0]⟩,
  ⟨0, 30, [2, 0, -2, 0, -2, 0, 0, 5, -9, 0, 0, 0, 0, 0]⟩,
  ⟨30, 0, [2, 0, -2, -2, -2, 0, 0, -2, 0, 2, 0, 0, 0, 0]⟩,
  ⟨-30, 0, [2, 0, -2, -5, -2, 0, 0, 0, 0, 0, 0, 0, 0, 0]⟩,
  ⟨-30, 0, [2, -1, 2, 4, 2, 0, 0, 0, 0, 0, 0, 0, 0, 0]⟩,
  ⟨30, 0, [2, -1, 0, -2, 2, 0, 0, 0, 0, 0, 0, 0, 0, 0]⟩,
  ⟨30, 0, [2, -1, -2, 0, 1, 0, 0, 0, 0, 0, 0, 0, 0, 0]⟩,
  ⟨30, 0, [2, -1, -2, -2, -1, 0, 0, 0, 0, 0, 0, 0, 0, 0]⟩,
  ⟨30, 0, [1, 3, -2, -2, -2, 0, 0, 0, 0, 0, 0, 0, 0, 0]⟩,
  ⟨30, 0, [1, 2, 2, 0, 1, 0, 0, 0, 0, 0, 0, 0, 0, 0]⟩,
  ⟨-30, 0, [1, 2, 2, -4, 1, 0, 0, 0, 0, 0, 0, 0, 0, 0]⟩,
  ⟨-30, 0, [1, 2, 0, 0, 1, 0, 0, 0, 0, 0, 0, 0, 0, 0]⟩,
  ⟨30, 0, [1, 1, 0, 0, -2, 0, 0, 0, 0, 0, 0, 0, 0, 0]⟩,
  ⟨-30, 0, [1, 1, 0, -6, 0, 0, 0, 0, 0, 0, 0, 0, 0, 0]⟩,
  ⟨30, 0, [1, 1, -2, 1, -2, 0, 0, 0, 0, 0, 0, 0, 0, 0]⟩,
  ⟨-30, 0, [1, 1, -2, -1, -2, 0, 0, 0, 0, 0, 0, 0, 0, 0]⟩,
  ⟨30, 0, [1, 0, 4, 0, 1, 0, 0, 0, 0, 0, 0, 0, 0, 0]⟩,
  ⟨-30, 0, [1, 0, 2, 1, 0, 0, 0, 0, 0, 0, 0, 0, 0, 0]⟩,
  ⟨30, 0, [1, 0, 2, 0, 2, 0, 1, -1, 0, 0, 0, 0, 0, 0]⟩,
  ⟨0, 30, [1, 0, 2, 0, 2, 0, 0, 4, -8, 3, 0, 0, 0, 0]⟩,
  ⟨0, 30, [1, 0, 2, 0, 2, 0, 0, -4, 8, -3, 0, 0, 0, 0]⟩,
  ⟨-30, 0, [1, 0, 2, 0, 2, 0, -1, 1, 0, 0, 0, 0, 0, 0]⟩,
  ⟨-30, 0, [1, 0, 2, -2, 3, 0, 0, 0, 0, 0, 0, 0, 0, 0]⟩,
  ⟨-30, 0, [1, 0, 2, -2, 2, 0, -3, 3, 0, 0, 0, 0, 0, 0]⟩,
  ⟨30, 0, [1, 0, 2, -4, -1, 0, 0, 0, 0, 0, 0, 0, 0, 0]⟩,
  ⟨-30, 0, [1, 0, 2, -6, 1, 0, 0, 0, 0, 0, 0, 0, 0, 0]⟩,
  ⟨0, 30, [1, 0, 1, 1, 1, 0, 0, 1, 0, 0, 0, 0, 0, 0]⟩,
  ⟨-30, 0, [1, 0, 0, 3, 0, 0, 0, 0, 0, 0, 0, 0, 0, 0]⟩]

/-- tab5.3a.txt, rows 1201 to 1280 of j0 of `_parse_table_5_3a`. -/
def psi0_15 : List Row := [
  ⟨30, 0, [1, 0, 0, 0, 1, 0, -10, 3, 0, 0, 0, 0, 0, 0]⟩,
  ⟨30, 0, [1, 0, 0, 0, 0, 0, 0, 1, 0, -1, 0, 0, 0, 0]⟩,
  ⟨30, 0, [1, 0, 0, 0, 0, 0, 0, -2, 0, 3, 0, 0, 0, 0]⟩,
  ⟨30, 0, [1, 0, 0, 0, -1, 0, -10, 3, 0, 0, 0, 0, 0, 0]⟩,
  ⟨30, 0, [1, 0, 0, -1, -1, 0, 0, -3, 4, 0, 0, 0, 0, 0]⟩,
  ⟨30, 0, [1, 0, 0, -2, 1, 0, 0, -2, 0, 2, 0, 0, 0, 0]⟩,
  ⟨-30, 0, [1, 0, 0, -2, 0, 0, 0, 2, 0, -2, 0, 0, 0, 0]⟩,
  ⟨30, 0, [1, 0, 0, -2, -1, 0, 0, -2, 0, 2, 0, 0, 0, 0]⟩,
  ⟨30, 0, [1, 0, 0, -4, 2, 0, 0, 0, 0, 0, 0, 0, 0, 0]⟩,
  ⟨0, 30, [1, 0, -1, 1, 0, 0, 0, 1, 0, 0, 0, 0, 0, 0]⟩,
  ⟨30, 0, [1, 0, -1, 0, -1, 0, -3, 5, 0, 0, 0, 0, 0, 0]⟩,
  ⟨-30, 0, [1, 0, -1, -1, 0, 0, 0, 8, -15, 0, 0, 0, 0, 0]⟩,
  ⟨0, -30, [1, 0, -1, -2, -1, 0, 0, 0, 0, 0, 0, 0, 0, 0]⟩,
  ⟨-30, 0, [1, 0, -2, 4, -2, 0, 0, 0, 0, 0, 0, 0, 0, 0]⟩,
  ⟨-30, 0, [1, 0, -2, -2, -2, 0, 0, 1, 0, -1, 0, 0, 0, 0]⟩,
  ⟨-30, 0, [1, -1, 2, 4, 1, 0, 0, 0, 0, 0, 0, 0, 0, 0]⟩,
  ⟨30, 0, [1, -1, 2, -3, 1, 0, 0, 0, 0, 0, 0, 0, 0, 0]⟩,
  ⟨-30, 0, [1, -1, 0, 4, 1, 0, 0, 0, 0, 0, 0, 0, 0, 0]⟩,
  ⟨30, 0, [1, -1, -2, 1, -1, 0, 0, 0, 0, 0, 0, 0, 0, 0]⟩,
  ⟨-30, 0, [1, -2, 0, -1, 0, 0, 0, 0, 0, 0, 0, 0, 0, 0]⟩,
  ⟨30, 0, [0, 1, 4, -4, 4, 0, 0, 0, 0, 0, 0, 0, 0, 0]⟩,
  ⟨-30, 0, [0, 1, 4, -4, 2, 0, 0, 0, 0, 0, 0, 0, 0, 0]⟩,
  ⟨30, 0, [0, 1, -4, 2, -1, 0, 0, 0, 0, 0, 0, 0, 0, 0]⟩,
  ⟨30, 0, [0, 0, 4, -2, 3, 0, 0, 0, 0, 0, 0, 0, 0, 0]⟩,
  ⟨30, 0, [0, 0, 2, 2, 2, 0, 0, 2, 0, -2, 0, 0, 0, 0]⟩,
  ⟨-30, 0, [0, 0, 2, 0, 2, 0, 2, -2, 0, 0, 0, 0, 0, 0]⟩,
  ⟨0, 30, [0, 0, 2, 0, 2, 0, 2, -3, 0, 0, 0, 0, 0, 0]⟩,
  ⟨0, 30, [0, 0, 2, 0, 2, 0, -2, 3, 0, 0, 0, 0, 0, 0]⟩,
  ⟨30, 0, [0, 0, 2, 0, 2, 0, -2, 2, 0, 0, 0, 0, 0, 0]⟩,
  ⟨30, 0, [0, 0, 2, -2, 1, 0, 1, -1, 0, 0, 0, 0, 0, 0]⟩,
  ⟨-30, 0, [0, 0, 2, -2, 1, 0, 0, -2, 0, 1, 0, 0, 0, 0]⟩,
  ⟨-30, 0, [0, 0, 2, -2, 1, 0, 0, -2, 0, 0, 0, 0, 0, 0]⟩,
  ⟨30, 0, [0, 0, 2, -2, 1, 0, 0, -4, 4, 0, 0, 0, 0, 0]⟩,
  ⟨0, 30, [0, 0, 2, -2, 1, 0, 0, -7, 9, 0, 0, 0, 0, 0]⟩,
  ⟨-30, 0, [0, 0, 2, -2, 1, 0, 0, -10, 15, 0, 0, 0, 0, 0]⟩,
  ⟨0, 30, [0, 0, 2, -2, 1, 0, -8, 11, 0, 0, 0, 0, 0, 0]⟩,
  ⟨0, -30, [0, 0, 2, -2, 0, -1, 0, 2, 0, 0, 0, 0, 0, 0]⟩,
  ⟨0, -30, [0, 0, 1, 1, 2, 0, 0, 1, 0, 0, 0, 0, 0, 0]⟩,
  ⟨-30, 0, [0, 0, 1, -1, 2, 0, 0, -1, 0, 0, -1, 0, 0, 0]⟩,
  ⟨0, -30, [0, 0, 1, -1, 2, 0, -3, 4, 0, 0, 0, 0, 0, 0]⟩,
  ⟨30, 0, [0, 0, 1, -1, 1, 0, 0, 1, -4, 0, 0, 0, 0, 0]⟩,
  ⟨0, 30, [0, 0, 1, -1, 1, 0, 0, -1, 0, 1, -3, 0, 0, 0]⟩,
  ⟨0, 30, [0, 0, 1, -1, 1, 0, -1, 2, 0, 0, 0, 0, 0, 0]⟩,
  ⟨30, 0, [0, 0, 1, -1, 1, 0, -4, 6, 0, 0, 0, 0, 0, 0]⟩,
  ⟨0, 30, [0, 0, 1, -1, 0, 0, 0, 1, 0, 0, 0, 0, 0, 0]⟩,
  ⟨0, 30, [0, 0, 1, -1, 0, 0, 0, -1, 0, 0, -2, 0, 0, 0]⟩,
  ⟨0, -30, [0, 0, 1, -1, 0, 0, -1, 0, 0, 0, 0, 0, 0, 0]⟩,
  ⟨-30, 0, [0, 0, 1, -1, 0, 0, -2, 2, 0, 0, 0, 0, 0, 0]⟩,
  ⟨30, 0, [0, 0, 1, -1, -1, 0, -5, 7, 0, 0, 0, 0, 0, 0]⟩,
  ⟨30, 0, [0, 0, 0, 3, 2, 0, 0, 0, 0, 0, 0, 0, 0, 0]⟩,
  ⟨-30, 0, [0, 0, 0, 2, 0, 0, 0, 2, 0, -2, 0, 0, 0, 0]⟩,
  ⟨-30, 0, [0, 0, 0, 2, 0, 0, -2, 2, 0, 0, 0, 0, 0, 0]⟩,
  ⟨0, -30, [0, 0, 0, 0, 2, 0, 0, 0, 0, 1, 0, 0, 0, 0]⟩,
  ⟨30, 0, [0, 0, 0, 0, 2, 0, -3, 5, 0, 0, 0, 0, 0, 0]⟩,
  ⟨-30, 0, [0, 0, 0, 0, 1, 0, 0, 7, -13, 0, 0, 0, 0, 0]⟩,
  ⟨-30, 0, [0, 0, 0, 0, 1, 0, 0, 2, 0, -2, 0, 0, 0, 0]⟩,
  ⟨0, 30, [0, 0, 0, 0, 1, 0, 0, -1, 0, 2, 0, 0, 0, 0]⟩,
  ⟨30, 0, [0, 0, 0, 0, 1, 0, 0, -2, 2, 0, 0, 0, 0, 0]⟩,
  ⟨0, 30, [0, 0, 0, 0, 1, 0, -1, 2, 0, 0, 0, 0, 0, 0]⟩,
  ⟨0, 30, [0, 0, 0, 0, 1, 0, -3, 4, 0, 0, 0, 0, 0, 0]⟩,
  ⟨30, 0, [0, 0, 0, 0, 0, 0, 9, -13, 0, 0, 0, 0, 0, -2]⟩,
  ⟨-30, 0, [0, 0, 0, 0, 0, 0, 8, -11, 0, 0, 0, 0, 0, -1]⟩,
  ⟨30, 0, [0, 0, 0, 0, 0, 0, 8, -14, 0, 0, 0, 0, 0, -2]⟩,
  ⟨0, -30, [0, 0, 0, 0, 0, 0, 7, -11, 0, 0, 0, 0, 0, -1]⟩,
  ⟨0, -30, [0, 0, 0, 0, 0, 0, 6, -4, 0, 0, 0, 0, 0, 1]⟩,
  ⟨0, -30, [0, 0, 0, 0, 0, 0, 6, -6, 0, 0, 0, 0, 0, 1]⟩,
  ⟨-30, 0, [0, 0, 0, 0, 0, 0, 6, -7, 0, 0, 0, 0, 0, -1]⟩,
  ⟨-30, 0, [0, 0, 0, 0, 0, 0, 6, -8, 0, 0, 0, 0, 0, 0]⟩,
  ⟨0, -30, [0, 0, 0, 0, 0, 0, 6, -9, 0, 0, 0, 0, 0, 0]⟩,
  ⟨0, 30, [0, 0, 0, 0, 0, 0, 5, -4, 0, 0, 0, 0, 0, 2]⟩,
  ⟨-30, 0, [0, 0, 0, 0, 0, 0, 5, -6, 0, 0, 0, 0, 0, -1]⟩,
  ⟨0, -30, [0, 0, 0, 0, 0, 0, 5, -6, 0, 0, 0, 0, 0, -2]⟩,
  ⟨-30, 0, [0, 0, 0, 0, 0, 0, 5, -6, -4, 0, 0, 0, 0, -2]⟩,
  ⟨0, 30, [0, 0, 0, 0, 0, 0, 4, -2, 0, 0, 0, 0, 0, 0]⟩,
  ⟨0, -30, [0, 0, 0, 0, 0, 0, 4, -5, 0, 0, 0, 0, 0, 0]⟩,
  ⟨30, 0, [0, 0, 0, 0, 0, 0, 4, -8, 0, 0, 0, 0, 0, -2]⟩,
  ⟨-30, 0, [0, 0, 0, 0, 0, 0, 3, -1, 0, 0, 0, 0, 0, 0]⟩,
  ⟨-30, 0, [0, 0, 0, 0, 0, 0, 3, -3, 0, 2, 0, 0, 0, 2]⟩,
  ⟨30, 0, [0, 0, 0, 0, 0, 0, 3, -4, 0, 0, 0, 0, 0, 1]⟩,
  ⟨0, 30, [0, 0, 0, 0, 0, 0, 2, 1, 0, 0, 0, 0, 0, 1]⟩]

/-- tab5.3a.txt, rows 1281 to 1320 of j0 of `_parse_table_5_3a`. -/
def psi0_16 : List Row := [
  ⟨-30, 0, [0, 0, 0, 0, 0, 0, 2, 0, 0, 0, 0, 0, 0, 0]⟩,
  ⟨30, 0, [0, 0, 0, 0, 0, 0, 1, -1, 0, 0, 0, 0, 0, -2]⟩,
  ⟨30, 0, [0, 0, 0, 0, 0, 0, 1, -4, 0, 0, 0, 0, 0, -1]⟩,
  ⟨-30, 0, [0, 0, 0, 0, 0, 0, 0, 9, -17, 0, 0, 0, 0, -2]⟩,
  ⟨0, 30, [0, 0, 0, 0, 0, 0, 0, 7, -7, 0, 0, 0, 0, 2]⟩,
  ⟨0, 30, [0, 0, 0, 0, 0, 0, 0, 7, -12, 0, 0, 0, 0, -2]⟩,
  ⟨-30, 0, [0, 0, 0, 0, 0, 0, 0, 6, -4, 0, 0, 0, 0, 2]⟩,
  ⟨0, -30, [0, 0, 0, 0, 0, 0, 0, 6, -8, 1, 5, 0, 0, 2]⟩,
  ⟨-30, 0, [0, 0, 0, 0, 0, 0, 0, 6, -9, 0, 0, 0, 0, -2]⟩,
  ⟨0, 30, [0, 0, 0, 0, 0, 0, 0, 6, -10, 0, 0, 0, 0, 0]⟩,
  ⟨-30, 0, [0, 0, 0, 0, 0, 0, 0, 5, 0, -4, 0, 0, 0, 2]⟩,
  ⟨30, 0, [0, 0, 0, 0, 0, 0, 0, 5, -6, 0, 0, 0, 0, 0]⟩,
  ⟨-30, 0, [0, 0, 0, 0, 0, 0, 0, 5, -7, 0, 0, 0, 0, -2]⟩,
  ⟨-30, 0, [0, 0, 0, 0, 0, 0, 0, 5, -8, 3, 0, 0, 0, 2]⟩,
  ⟨-30, 0, [0, 0, 0, 0, 0, 0, 0, 5, -9, 0, 0, 0, 0, -1]⟩,
  ⟨-30, 0, [0, 0, 0, 0, 0, 0, 0, 5, -13, 0, 0, 0, 0, -2]⟩,
  ⟨30, 0, [0, 0, 0, 0, 0, 0, 0, 5, -16, 4, 5, 0, 0, -2]⟩,
  ⟨-30, 0, [0, 0, 0, 0, 0, 0, 0, 4, -7, 0, 0, 0, 0, -1]⟩,
  ⟨30, 0, [0, 0, 0, 0, 0, 0, 0, 4, -8, 3, 0, 0, 0, 1]⟩,
  ⟨30, 0, [0, 0, 0, 0, 0, 0, 0, 4, -8, 3, 0, 0, 0, -1]⟩,
  ⟨-30, 0, [0, 0, 0, 0, 0, 0, 0, 3, 0, -5, 0, 0, 0, -2]⟩,
  ⟨0, -30, [0, 0, 0, 0, 0, 0, 0, 3, -5, 0, 0, 0, 0, -1]⟩,
  ⟨0, -30, [0, 0, 0, 0, 0, 0, 0, 3, -7, 0, 0, 0, 0, -2]⟩,
  ⟨0, -30, [0, 0, 0, 0, 0, 0, 0, 3, -9, 0, 0, 0, 0, -2]⟩,
  ⟨30, 0, [0, 0, 0, 0, 0, 0, 0, 2, 1, 0, 0, 0, 0, 2]⟩,
  ⟨30, 0, [0, 0, 0, 0, 0, 0, 0, 2, 0, 2, 0, 0, 0, 2]⟩,
  ⟨0, 30, [0, 0, 0, 0, 0, 0, 0, 2, 0, 0, -3, 0, 0, 0]⟩,
  ⟨0, -30, [0, 0, 0, 0, 0, 0, 0, 2, -8, 1, 5, 0, 0, -2]⟩,
  ⟨0, 30, [0, 0, 0, 0, 0, 0, 0, 1, 0, 1, 0, 0, 0, 1]⟩,
  ⟨-30, 0, [0, 0, 0, 0, 0, 0, 0, 1, 0, 1, -5, 0, 0, 0]⟩,
  ⟨0, -30, [0, 0, 0, 0, 0, 0, 0, 1, 0, 0, 2, 0, 0, 2]⟩,
  ⟨-30, 0, [0, 0, 0, 0, 0, 0, 0, 1, 0, 0, -3, 0, 0, 0]⟩,
  ⟨30, 0, [0, 0, 0, 0, 0, 0, 0, 1, 0, -3, 5, 0, 0, 0]⟩,
  ⟨0, 30, [0, 0, 0, 0, 0, 0, 0, 1, -3, 0, 0, 0, 0, 0]⟩,
  ⟨30, 0, [0, 0, 0, 0, 0, 0, 0, 0, 0, 2, -6, 3, 0, -2]⟩,
  ⟨0, 30, [0, 0, 0, 0, 0, 0, 0, 0, 0, 1, -2, 0, 0, 0]⟩,
  ⟨0, 30, [0, 0, 0, 0, 0, 0, 0, 0, 0, 0, 0, 1, 0, 0]⟩,
  ⟨30, 0, [0, 0, 0, 0, 0, 0, 0, 0, 0, 0, 0, 0, 0, 2]⟩,
  ⟨-10, 0, [0, 0, 0, 0, 0, 1, 0, -3, 0, 0, 0, 0, 0, -2]⟩,
  ⟨-10, 0, [0, 0, 0, 0, 0, 0, 0, 1, 0, 1, -2, 0, 0, 0]⟩]

/-- j0 of `_parse_table_5_3a` (lines 23 to 1342 of tab5.3a.txt). -/
def psi0 : List Row := psi0_0 ++ psi0_1 ++ psi0_2 ++ psi0_3 ++ psi0_4 ++ psi0_5 ++ psi0_6 ++ psi0_7 ++ psi0_8 ++ psi0_9 ++ psi0_10 ++ psi0_11 ++ psi0_12 ++ psi0_13 ++ psi0_14 ++ psi0_15 ++ psi0_16

/-- tab5.3a.txt, rows 1 to 38 of j1 of `_parse_table_5_3a`. -/
def psi1_0 : List Row := [
  ⟨-1741882, 289, [0, 0, 0, 0, 1, 0, 0, 0, 0, 0, 0, 0, 0, 0]⟩,
  ⟨-36371, -150, [0, 1, 0, 0, 0, 0, 0, 0, 0, 0, 0, 0, 0, 0]⟩,
  ⟨-16384, 120, [0, 0, 2, -2, 2, 0, 0, 0, 0, 0, 0, 0, 0, 0]⟩,
  ⟨12274, 20, [0, 1, 2, -2, 2, 0, 0, 0, 0, 0, 0, 0, 0, 0]⟩,
  ⟨4946, 0, [0, 1, -2, 2, -2, 0, 0, 0, 0, 0, 0, 0, 0, 0]⟩,
  ⟨-3659, 10, [0, 0, 2, 0, 1, 0, 0, 0, 0, 0, 0, 0, 0, 0]⟩,
  ⟨-2277, 20, [0, 0, 2, 0, 2, 0, 0, 0, 0, 0, 0, 0, 0, 0]⟩,
  ⟨2012, 0, [0, 0, 0, 0, 2, 0, 0, 0, 0, 0, 0, 0, 0, 0]⟩,
  ⟨1366, 0, [0, 0, 2, -2, 1, 0, 0, 0, 0, 0, 0, 0, 0, 0]⟩,
  ⟨-850, 0, [0, 2, 0, 0, 0, 0, 0, 0, 0, 0, 0, 0, 0, 0]⟩,
  ⟨720, 0, [0, 2, 2, -2, 2, 0, 0, 0, 0, 0, 0, 0, 0, 0]⟩,
  ⟨710, 0, [1, 0, 0, 0, 0, 0, 0, 0, 0, 0, 0, 0, 0, 0]⟩,
  ⟨628, 0, [1, 0, 0, 0, -1, 0, 0, 0, 0, 0, 0, 0, 0, 0]⟩,
  ⟨628, 0, [1, 0, 0, 0, 1, 0, 0, 0, 0, 0, 0, 0, 0, 0]⟩,
  ⟨-499, 0, [2, 0, -2, 0, -1, 0, 0, 0, 0, 0, 0, 0, 0, 0]⟩,
  ⟨-419, 0, [1, 0, 2, 0, 1, 0, 0, 0, 0, 0, 0, 0, 0, 0]⟩,
  ⟨-352, 0, [1, 0, 2, 0, 2, 0, 0, 0, 0, 0, 0, 0, 0, 0]⟩,
  ⟨-250, 0, [0, 1, 0, 0, 1, 0, 0, 0, 0, 0, 0, 0, 0, 0]⟩,
  ⟨-210, 0, [0, 1, 2, 0, 2, 0, 0, 0, 0, 0, 0, 0, 0, 0]⟩,
  ⟨-210, 0, [0, 1, -2, 0, -2, 0, 0, 0, 0, 0, 0, 0, 0, 0]⟩,
  ⟨-209, 0, [1, 0, -2, 0, -1, 0, 0, 0, 0, 0, 0, 0, 0, 0]⟩,
  ⟨-110, 0, [0, 1, 0, 0, -1, 0, 0, 0, 0, 0, 0, 0, 0, 0]⟩,
  ⟨110, 0, [1, 0, -2, -2, 0, 0, 0, 0, 0, 0, 0, 0, 0, 0]⟩,
  ⟨110, 0, [0, 1, -2, 2, -1, 0, 0, 0, 0, 0, 0, 0, 0, 0]⟩,
  ⟨110, 0, [0, 0, 0, 2, -1, 0, 0, 0, 0, 0, 0, 0, 0, 0]⟩,
  ⟨110, 0, [2, 0, 0, -2, -1, 0, 0, 0, 0, 0, 0, 0, 0, 0]⟩,
  ⟨-110, 0, [0, 0, 0, 2, 1, 0, 0, 0, 0, 0, 0, 0, 0, 0]⟩,
  ⟨-110, 0, [0, 0, 2, 2, 1, 0, 0, 0, 0, 0, 0, 0, 0, 0]⟩,
  ⟨108, 0, [1, 0, -2, -2, -2, 0, 0, 0, 0, 0, 0, 0, 0, 0]⟩,
  ⟨108, 0, [0, 0, 0, 2, 0, 0, 0, 0, 0, 0, 0, 0, 0, 0]⟩,
  ⟨-107, 0, [1, 0, -2, 0, -2, 0, 0, 0, 0, 0, 0, 0, 0, 0]⟩,
  ⟨100, 0, [1, 0, 2, -2, 1, 0, 0, 0, 0, 0, 0, 0, 0, 0]⟩,
  ⟨-100, 0, [1, 0, 0, -2, 1, 0, 0, 0, 0, 0, 0, 0, 0, 0]⟩,
  ⟨-100, 0, [1, 0, 0, -2, -1, 0, 0, 0, 0, 0, 0, 0, 0, 0]⟩,
  ⟨-96, 0, [1, 0, 0, -2, 0, 0, 0, 0, 0, 0, 0, 0, 0, 0]⟩,
  ⟨-9, 0, [2, 0, 2, 0, 2, 0, 0, 0, 0, 0, 0, 0, 0, 0]⟩,
  ⟨-9, 0, [0, 0, 2, 2, 2, 0, 0, 0, 0, 0, 0, 0, 0, 0]⟩,
  ⟨-1, 0, [2, 0, 0, -2, 0, 0, 0, 0, 0, 0, 0, 0, 0, 0]⟩]

/-- j1 of `_parse_table_5_3a` (lines 1349 to 1386 of tab5.3a.txt). -/
def psi1 : List Row := psi1_0

/-- tab5.3b.txt, rows 1 to 80 of j0 of `_parse_table_5_3b`. -/
def eps0_0 : List Row := [
  ⟨153770, 920523310, [0, 0, 0, 0, 1, 0, 0, 0, 0, 0, 0, 0, 0, 0]⟩,
  ⟨-45870, 57303360, [0, 0, 2, -2, 2, 0, 0, 0, 0, 0, 0, 0, 0, 0]⟩,
  ⟨13740, 9784610, [0, 0, 2, 0, 2, 0, 0, 0, 0, 0, 0, 0, 0, 0]⟩,
  ⟨-2910, -8974920, [0, 0, 0, 0, 2, 0, 0, 0, 0, 0, 0, 0, 0, 0]⟩,
  ⟨-1740, 2243860, [0, 1, 2, -2, 2, 0, 0, 0, 0, 0, 0, 0, 0, 0]⟩,
  ⟨3180, 2007300, [0, 0, 2, 0, 1, 0, 0, 0, 0, 0, 0, 0, 0, 0]⟩,
  ⟨3670, 1290260, [1, 0, 2, 0, 2, 0, 0, 0, 0, 0, 0, 0, 0, 0]⟩,
  ⟨-1320, -959290, [0, 1, -2, 2, -2, 0, 0, 0, 0, 0, 0, 0, 0, 0]⟩,
  ⟨-19240, 738710, [0, 1, 0, 0, 0, 0, 0, 0, 0, 0, 0, 0, 0, 0]⟩,
  ⟨390, -689820, [0, 0, 2, -2, 1, 0, 0, 0, 0, 0, 0, 0, 0, 0]⟩,
  ⟨40, -533110, [1, 0, -2, 0, -2, 0, 0, 0, 0, 0, 0, 0, 0, 0]⟩,
  ⟨-90, -332280, [1, 0, 0, 0, 1, 0, 0, 0, 0, 0, 0, 0, 0, 0]⟩,
  ⟨750, 314290, [1, 0, 0, 0, -1, 0, 0, 0, 0, 0, 0, 0, 0, 0]⟩,
  ⟨780, 263660, [1, 0, 2, 0, 1, 0, 0, 0, 0, 0, 0, 0, 0, 0]⟩,
  ⟨-660, 255450, [1, 0, -2, -2, -2, 0, 0, 0, 0, 0, 0, 0, 0, 0]⟩,
  ⟨-200, -242360, [2, 0, -2, 0, -1, 0, 0, 0, 0, 0, 0, 0, 0, 0]⟩,
  ⟨680, 164500, [0, 0, 2, 2, 2, 0, 0, 0, 0, 0, 0, 0, 0, 0]⟩,
  ⟨0, -138700, [0, 2, -2, 2, -2, 0, 0, 0, 0, 0, 0, 0, 0, 0]⟩,
  ⟨590, 132380, [2, 0, 2, 0, 2, 0, 0, 0, 0, 0, 0, 0, 0, 0]⟩,
  ⟨-30, -123380, [1, 0, 2, -2, 2, 0, 0, 0, 0, 0, 0, 0, 0, 0]⟩,
  ⟨30, -107580, [1, 0, -2, 0, -1, 0, 0, 0, 0, 0, 0, 0, 0, 0]⟩,
  ⟨-450, 85510, [0, 1, 0, 0, 1, 0, 0, 0, 0, 0, 0, 0, 0, 0]⟩,
  ⟨10, -80010, [1, 0, 0, -2, -1, 0, 0, 0, 0, 0, 0, 0, 0, 0]⟩,
  ⟨3580, -67500, [1, 0, 0, 0, 0, 0, 0, 0, 0, 0, 0, 0, 0, 0]⟩,
  ⟨-140, 69530, [1, 0, 0, -2, 1, 0, 0, 0, 0, 0, 0, 0, 0, 0]⟩,
  ⟨-50, 68500, [0, 2, 2, -2, 2, 0, 0, 0, 0, 0, 0, 0, 0, 0]⟩,
  ⟨-260, 64150, [0, 1, 0, 0, -1, 0, 0, 0, 0, 0, 0, 0, 0, 0]⟩,
  ⟨-150, 52220, [1, 0, -2, -2, -1, 0, 0, 0, 0, 0, 0, 0, 0, 0]⟩,
  ⟨27350, 16470, [0, 0, 1, -1, 1, 0, 0, -1, 0, -2, 5, 0, 0, 0]⟩,
  ⟨140, 33530, [0, 0, 2, 2, 1, 0, 0, 0, 0, 0, 0, 0, 0, 0]⟩,
  ⟨190, 32660, [1, 0, 2, 2, 2, 0, 0, 0, 0, 0, 0, 0, 0, 0]⟩,
  ⟨40, 32720, [0, 0, 0, 2, 1, 0, 0, 0, 0, 0, 0, 0, 0, 0]⟩,
  ⟨-50, -32500, [0, 1, 2, 0, 2, 0, 0, 0, 0, 0, 0, 0, 0, 0]⟩,
  ⟨-40, 30700, [0, 1, -2, 0, -2, 0, 0, 0, 0, 0, 0, 0, 0, 0]⟩,
  ⟨50, 30410, [2, 0, 0, -2, -1, 0, 0, 0, 0, 0, 0, 0, 0, 0]⟩,
  ⟨-10, -30450, [1, 0, 2, -2, 1, 0, 0, 0, 0, 0, 0, 0, 0, 0]⟩,
  ⟨-40, -27680, [2, 0, 2, -2, 2, 0, 0, 0, 0, 0, 0, 0, 0, 0]⟩,
  ⟨90, 27200, [0, 0, 0, 2, -1, 0, 0, 0, 0, 0, 0, 0, 0, 0]⟩,
  ⟨30, 27190, [0, 1, -2, 2, -1, 0, 0, 0, 0, 0, 0, 0, 0, 0]⟩,
  ⟨120, 26950, [2, 0, 2, 0, 1, 0, 0, 0, 0, 0, 0, 0, 0, 0]⟩,
  ⟨10, -22060, [2, 0, 0, -2, 1, 0, 0, 0, 0, 0, 0, 0, 0, 0]⟩,
  ⟨12860, -7710, [0, 0, 0, 0, 0, 0, 0, 0, 0, 2, -5, 0, 0, -1]⟩,
  ⟨10, -19000, [0, 1, 2, -2, 1, 0, 0, 0, 0, 0, 0, 0, 0, 0]⟩,
  ⟨16790, 0, [0, 1, -1, 1, -1, 0, 0, 0, 0, 0, 0, 0, 0, 0]⟩,
  ⟨-820, -12350, [1, 0, 0, -2, 0, 0, 0, 0, 0, 0, 0, 0, 0, 0]⟩,
  ⟨10, 13110, [2, 0, -2, 0, -2, 0, 0, 0, 0, 0, 0, 0, 0, 0]⟩,
  ⟨40, 12660, [2, 0, 0, 0, -1, 0, 0, 0, 0, 0, 0, 0, 0, 0]⟩,
  ⟨290, -12200, [0, 0, 0, 2, 0, 0, 0, 0, 0, 0, 0, 0, 0, 0]⟩,
  ⟨70, 12320, [3, 0, 2, 0, 2, 0, 0, 0, 0, 0, 0, 0, 0, 0]⟩,
  ⟨40, 12320, [1, -1, 2, 0, 2, 0, 0, 0, 0, 0, 0, 0, 0, 0]⟩,
  ⟨-30, 12070, [1, 1, -2, -2, -2, 0, 0, 0, 0, 0, 0, 0, 0, 0]⟩,
  ⟨-50, 11290, [0, 1, -2, -2, -2, 0, 0, 0, 0, 0, 0, 0, 0, 0]⟩,
  ⟨-20, -11290, [2, 0, 0, 0, 1, 0, 0, 0, 0, 0, 0, 0, 0, 0]⟩,
  ⟨20, 10730, [1, 0, -2, 2, -1, 0, 0, 0, 0, 0, 0, 0, 0, 0]⟩,
  ⟨-30, -10620, [1, 1, 2, 0, 2, 0, 0, 0, 0, 0, 0, 0, 0, 0]⟩,
  ⟨3190, -6410, [0, 0, 1, -1, 1, 0, -8, 12, 0, 0, 0, 0, 0, 0]⟩,
  ⟨0, 8950, [0, 0, 0, 0, 0, 0, 3, -5, 0, 0, 0, 0, 0, -2]⟩,
  ⟨8910, 0, [1, 0, -1, 0, -1, 0, 0, 0, 0, 0, 0, 0, 0, 0]⟩,
  ⟨0, 8540, [1, 0, 0, 0, 2, 0, 0, 0, 0, 0, 0, 0, 0, 0]⟩,
  ⟨-20, -7100, [0, 0, 2, 1, 2, 0, 0, 0, 0, 0, 0, 0, 0, 0]⟩,
  ⟨0, -7000, [1, -1, 0, -1, -1, 0, 0, 0, 0, 0, 0, 0, 0, 0]⟩,
  ⟨1390, -5530, [1, 0, 0, -1, 0, 0, 0, 0, 0, 0, 0, 0, 0, 0]⟩,
  ⟨0, 6720, [0, 2, -2, 2, -1, 0, 0, 0, 0, 0, 0, 0, 0, 0]⟩,
  ⟨40, 6630, [1, 0, 2, 2, 1, 0, 0, 0, 0, 0, 0, 0, 0, 0]⟩,
  ⟨-40, 6470, [1, 0, -2, -4, -2, 0, 0, 0, 0, 0, 0, 0, 0, 0]⟩,
  ⟨130, -6090, [2, 0, 0, 0, 0, 0, 0, 0, 0, 0, 0, 0, 0, 0]⟩,
  ⟨-20, -6100, [1, 0, 0, 0, -2, 0, 0, 0, 0, 0, 0, 0, 0, 0]⟩,
  ⟨20, -5920, [2, 0, -2, -2, -2, 0, 0, 0, 0, 0, 0, 0, 0, 0]⟩,
  ⟨110, -5500, [0, 0, 2, 0, 0, 0, 0, 0, 0, 0, 0, 0, 0, 0]⟩,
  ⟨0, -5560, [1, 1, 2, -2, 2, 0, 0, 0, 0, 0, 0, 0, 0, 0]⟩,
  ⟨-10, -5270, [2, 0, 2, -2, 1, 0, 0, 0, 0, 0, 0, 0, 0, 0]⟩,
  ⟨-20, 5180, [2, 0, -2, -4, -2, 0, 0, 0, 0, 0, 0, 0, 0, 0]⟩,
  ⟨100, -4950, [1, 0, 0, -1, -1, 0, 0, 0, 0, 0, 0, 0, 0, 0]⟩,
  ⟨0, 5050, [0, 0, 0, 0, 0, 0, 0, 0, 0, 2, 0, 0, 0, 2]⟩,
  ⟨250, 4770, [2, 0, 0, -2, 0, 0, 0, 0, 0, 0, 0, 0, 0, 0]⟩,
  ⟨10, 4960, [1, 0, 0, 2, 1, 0, 0, 0, 0, 0, 0, 0, 0, 0]⟩,
  ⟨10, -4900, [1, 0, -4, 0, -2, 0, 0, 0, 0, 0, 0, 0, 0, 0]⟩,
  ⟨-2320, 2460, [0, 0, 0, 0, 1, 0, 0, -1, 2, 0, 0, 0, 0, 0]⟩,
  ⟨40, 4650, [2, 0, 2, 2, 2, 0, 0, 0, 0, 0, 0, 0, 0, 0]⟩,
  ⟨-10, -4400, [0, 0, 2, -2, -1, 0, 0, 0, 0, 0, 0, 0, 0, 0]⟩]

/-- tab5.3b.txt, rows 81 to 160 of j0 of `_parse_table_5_3b`. -/
def eps0_1 : List Row := [
  ⟨-10, -4220, [0, 1, 2, 0, 1, 0, 0, 0, 0, 0, 0, 0, 0, 0]⟩,
  ⟨1330, 2690, [0, 0, 0, 0, 0, 0, 8, -13, 0, 0, 0, 0, 0, -1]⟩,
  ⟨-10, -3990, [3, 0, 2, -2, 2, 0, 0, 0, 0, 0, 0, 0, 0, 0]⟩,
  ⟨-10, -3950, [0, 0, 4, -2, 2, 0, 0, 0, 0, 0, 0, 0, 0, 0]⟩,
  ⟨0, -3910, [1, 1, 0, -2, -1, 0, 0, 0, 0, 0, 0, 0, 0, 0]⟩,
  ⟨-10, -3890, [2, 0, -2, 0, 1, 0, 0, 0, 0, 0, 0, 0, 0, 0]⟩,
  ⟨10, 3690, [0, 0, 2, 0, -1, 0, 0, 0, 0, 0, 0, 0, 0, 0]⟩,
  ⟨-10, 3460, [0, 1, -2, 0, -1, 0, 0, 0, 0, 0, 0, 0, 0, 0]⟩,
  ⟨20, -3260, [0, 1, 0, 0, 2, 0, 0, 0, 0, 0, 0, 0, 0, 0]⟩,
  ⟨-10, 3160, [1, 1, 0, -2, 1, 0, 0, 0, 0, 0, 0, 0, 0, 0]⟩,
  ⟨0, 3040, [0, 0, 2, -1, 2, 0, 0, 0, 0, 0, 0, 0, 0, 0]⟩,
  ⟨20, 2940, [0, 0, 2, 4, 2, 0, 0, 0, 0, 0, 0, 0, 0, 0]⟩,
  ⟨0, -2790, [1, -1, 0, 0, 1, 0, 0, 0, 0, 0, 0, 0, 0, 0]⟩,
  ⟨10, 2750, [1, 0, 0, 2, -1, 0, 0, 0, 0, 0, 0, 0, 0, 0]⟩,
  ⟨-2570, -170, [0, 0, 1, -1, 1, 0, 0, -1, 0, 2, -5, 0, 0, 0]⟩,
  ⟨0, 2580, [1, -1, 0, -1, -2, 0, 0, 0, 0, 0, 0, 0, 0, 0]⟩,
  ⟨1990, 590, [0, 0, 0, 0, 0, 0, 0, 2, -8, 3, 0, 0, 0, -2]⟩,
  ⟨20, 2520, [1, -1, 2, 2, 2, 0, 0, 0, 0, 0, 0, 0, 0, 0]⟩,
  ⟨0, -2530, [0, 1, 0, 0, -2, 0, 0, 0, 0, 0, 0, 0, 0, 0]⟩,
  ⟨20, 2500, [3, 0, 2, 0, 1, 0, 0, 0, 0, 0, 0, 0, 0, 0]⟩,
  ⟨-10, 2440, [1, 0, 2, -4, 1, 0, 0, 0, 0, 0, 0, 0, 0, 0]⟩,
  ⟨10, -2440, [1, -1, -2, -2, -2, 0, 0, 0, 0, 0, 0, 0, 0, 0]⟩,
  ⟨-2330, 90, [0, 0, 2, -2, 1, 0, -5, 6, 0, 0, 0, 0, 0, 0]⟩,
  ⟨-10, 2400, [1, 1, -2, -2, -1, 0, 0, 0, 0, 0, 0, 0, 0, 0]⟩,
  ⟨-1800, -530, [0, 0, 0, 0, 0, 0, 0, 6, -8, 3, 0, 0, 0, 2]⟩,
  ⟨-10, -2280, [0, 1, 2, 2, 2, 0, 0, 0, 0, 0, 0, 0, 0, 0]⟩,
  ⟨-10, 2250, [0, 1, -2, -2, -1, 0, 0, 0, 0, 0, 0, 0, 0, 0]⟩,
  ⟨10, 2160, [1, -1, 2, 0, 1, 0, 0, 0, 0, 0, 0, 0, 0, 0]⟩,
  ⟨0, -2130, [0, 0, 0, 0, 0, 0, 4, -6, 0, 0, 0, 0, 0, -2]⟩,
  ⟨10, 2070, [2, -1, 2, 0, 2, 0, 0, 0, 0, 0, 0, 0, 0, 0]⟩,
  ⟨70, -2010, [0, 0, 0, 0, 0, 0, 0, 3, 0, -1, 0, 0, 0, 2]⟩,
  ⟨0, 2050, [0, 0, 0, 1, 1, 0, 0, 0, 0, 0, 0, 0, 0, 0]⟩,
  ⟨1590, -450, [0, 0, 0, 0, 1, 0, 0, -4, 8, -3, 0, 0, 0, 0]⟩,
  ⟨0, 2010, [0, 0, 0, 2, 2, 0, 0, 0, 0, 0, 0, 0, 0, 0]⟩,
  ⟨20, -1990, [1, 0, 0, 2, 0, 0, 0, 0, 0, 0, 0, 0, 0, 0]⟩,
  ⟨0, -2000, [1, -1, -2, 0, -2, 0, 0, 0, 0, 0, 0, 0, 0, 0]⟩,
  ⟨1560, 440, [0, 0, 0, 0, 1, 0, 0, 4, -8, 3, 0, 0, 0, 0]⟩,
  ⟨0, 1980, [0, 0, 0, 0, 0, 0, 2, -4, 0, 0, 0, 0, 0, -2]⟩,
  ⟨0, 1890, [1, 1, 0, 0, 1, 0, 0, 0, 0, 0, 0, 0, 0, 0]⟩,
  ⟨430, -1460, [0, 0, 1, -1, 1, 0, 0, 0, -2, 0, 0, 0, 0, 0]⟩,
  ⟨-10, -1850, [1, 1, 2, 0, 1, 0, 0, 0, 0, 0, 0, 0, 0, 0]⟩,
  ⟨-10, 1840, [0, 1, 0, -2, 1, 0, 0, 0, 0, 0, 0, 0, 0, 0]⟩,
  ⟨0, 1810, [0, 3, 2, -2, 2, 0, 0, 0, 0, 0, 0, 0, 0, 0]⟩,
  ⟨-130, -1670, [0, 0, 2, -2, 0, 0, 0, 0, 0, 0, 0, 0, 0, 0]⟩,
  ⟨100, 1680, [0, 2, 0, 0, 0, 0, 0, 0, 0, 0, 0, 0, 0, 0]⟩,
  ⟨-10, -1760, [2, 1, 2, 0, 2, 0, 0, 0, 0, 0, 0, 0, 0, 0]⟩,
  ⟨-1760, 0, [1, 0, -1, 0, -2, 0, 0, 0, 0, 0, 0, 0, 0, 0]⟩,
  ⟨0, -1740, [0, 0, 0, 1, -1, 0, 0, 0, 0, 0, 0, 0, 0, 0]⟩,
  ⟨1450, -270, [0, 0, 0, 0, 0, 0, 0, 0, 0, 2, 0, 0, 0, 1]⟩,
  ⟨0, 1710, [1, 0, 0, -2, -2, 0, 0, 0, 0, 0, 0, 0, 0, 0]⟩,
  ⟨10, -1700, [0, 0, 2, -2, 3, 0, 0, 0, 0, 0, 0, 0, 0, 0]⟩,
  ⟨0, 1620, [1, -1, 0, 0, -1, 0, 0, 0, 0, 0, 0, 0, 0, 0]⟩,
  ⟨0, -1600, [0, 0, 0, 0, 0, 0, 2, 0, 0, 0, 0, 0, 0, 2]⟩,
  ⟨0, -1540, [1, 0, -2, 2, -2, 0, 0, 0, 0, 0, 0, 0, 0, 0]⟩,
  ⟨0, -1510, [2, 0, 0, -2, -1, 0, 0, -2, 0, 2, 0, 0, 0, 0]⟩,
  ⟨0, 1470, [0, 0, 0, 0, 0, 0, 1, 1, 0, 0, 0, 0, 0, 2]⟩,
  ⟨-10, -1430, [1, 0, 2, 1, 2, 0, 0, 0, 0, 0, 0, 0, 0, 0]⟩,
  ⟨0, 1440, [1, 0, 2, -1, 2, 0, 0, 0, 0, 0, 0, 0, 0, 0]⟩,
  ⟨0, -1440, [0, 0, 2, 1, 1, 0, 0, 0, 0, 0, 0, 0, 0, 0]⟩,
  ⟨0, -1380, [1, 0, -2, 0, 1, 0, 0, 0, 0, 0, 0, 0, 0, 0]⟩,
  ⟨-1380, 0, [0, 0, 1, 0, 1, 0, 0, 0, 0, 0, 0, 0, 0, 0]⟩,
  ⟨450, -930, [0, 0, 1, -1, 1, 0, 0, -1, 0, 0, -1, 0, 0, 0]⟩,
  ⟨0, -1340, [1, 0, 0, -2, 2, 0, 0, 0, 0, 0, 0, 0, 0, 0]⟩,
  ⟨-10, 1310, [1, 0, -2, -4, -1, 0, 0, 0, 0, 0, 0, 0, 0, 0]⟩,
  ⟨1030, 270, [0, 0, 1, -1, 1, 0, 0, -1, 0, -1, 0, 0, 0, 0]⟩,
  ⟨0, -1280, [1, 1, 2, -2, 1, 0, 0, 0, 0, 0, 0, 0, 0, 0]⟩,
  ⟨0, 1280, [1, 0, -2, 1, -1, 0, 0, 0, 0, 0, 0, 0, 0, 0]⟩,
  ⟨1170, 80, [0, 0, 0, 0, 0, 0, 0, 0, 0, 2, -5, 0, 0, 1]⟩,
  ⟨0, -1200, [2, 0, -2, -2, -1, 0, 0, 0, 0, 0, 0, 0, 0, 0]⟩,
  ⟨1130, 50, [0, 0, 0, 0, 0, 0, 5, -8, 0, 0, 0, 0, 0, -2]⟩,
  ⟨0, 1140, [0, 0, 0, 0, 0, 0, 0, 1, 0, 1, 0, 0, 0, 2]⟩,
  ⟨0, -1120, [1, 1, 0, 0, -1, 0, 0, 0, 0, 0, 0, 0, 0, 0]⟩,
  ⟨10, 1090, [4, 0, 2, 0, 2, 0, 0, 0, 0, 0, 0, 0, 0, 0]⟩,
  ⟨0, -1080, [2, 1, 2, -2, 2, 0, 0, 0, 0, 0, 0, 0, 0, 0]⟩,
  ⟨10, -1070, [1, 0, 2, 0, 0, 0, 0, 0, 0, 0, 0, 0, 0, 0]⟩,
  ⟨-20, 1040, [2, 0, -2, 0, 0, 0, 0, 0, 0, 0, 0, 0, 0, 0]⟩,
  ⟨0, 1050, [2, 0, -2, -4, -1, 0, 0, 0, 0, 0, 0, 0, 0, 0]⟩,
  ⟨0, -1040, [1, 0, 4, -2, 2, 0, 0, 0, 0, 0, 0, 0, 0, 0]⟩,
  ⟨0, 1040, [0, 1, 2, 1, 2, 0, 0, 0, 0, 0, 0, 0, 0, 0]⟩,
  ⟨0, -1020, [0, 1, 0, 2, 1, 0, 0, 0, 0, 0, 0, 0, 0, 0]⟩]

/-- tab5.3b.txt, rows 161 to 240 of j0 of `_parse_table_5_3b`. -/
def eps0_2 : List Row := [
  ⟨0, -1000, [1, 0, -4, 0, -1, 0, 0, 0, 0, 0, 0, 0, 0, 0]⟩,
  ⟨0, 960, [1, 0, 0, -4, -1, 0, 0, 0, 0, 0, 0, 0, 0, 0]⟩,
  ⟨10, 940, [2, 0, 2, 2, 1, 0, 0, 0, 0, 0, 0, 0, 0, 0]⟩,
  ⟨-760, 170, [0, 0, 0, 0, 0, 0, 8, -13, 0, 0, 0, 0, 0, -2]⟩,
  ⟨-770, 140, [0, 0, 1, -1, 1, 0, 0, -1, 0, 2, 0, 0, 0, 0]⟩,
  ⟨140, -750, [0, 0, 1, -1, 1, 0, -5, 7, 0, 0, 0, 0, 0, 0]⟩,
  ⟨610, -270, [0, 0, 0, 0, 0, 0, 0, 0, 0, 0, 2, 0, 0, 1]⟩,
  ⟨0, -870, [0, 0, 0, 0, 0, 0, 5, -7, 0, 0, 0, 0, 0, -2]⟩,
  ⟨-590, 260, [0, 0, 1, -1, 1, 0, 0, -1, 0, 0, 2, 0, 0, 0]⟩,
  ⟨0, 840, [0, 0, 2, -4, 1, 0, 0, 0, 0, 0, 0, 0, 0, 0]⟩,
  ⟨-260, -570, [1, 0, 2, 0, 2, 0, 0, 1, 0, 0, 0, 0, 0, 0]⟩,
  ⟨0, 830, [0, 0, 2, -3, 2, 0, 0, 0, 0, 0, 0, 0, 0, 0]⟩,
  ⟨-20, -810, [0, 1, 0, -2, 0, 0, 0, 0, 0, 0, 0, 0, 0, 0]⟩,
  ⟨270, 550, [1, 0, -2, 0, -2, 0, 0, 4, -8, 3, 0, 0, 0, 0]⟩,
  ⟨420, -400, [0, 0, 0, 0, 0, 0, 0, 8, -16, 4, 5, 0, 0, -2]⟩,
  ⟨0, 810, [0, 1, 0, -2, -1, 0, 0, 0, 0, 0, 0, 0, 0, 0]⟩,
  ⟨-10, 800, [0, 0, 0, 0, 0, 0, 0, 4, 0, -2, 0, 0, 0, 2]⟩,
  ⟨-130, 670, [0, 0, 0, 0, 0, 0, 0, 2, 0, -1, 0, 0, 0, 2]⟩,
  ⟨0, -790, [0, 0, 4, 0, 2, 0, 0, 0, 0, 0, 0, 0, 0, 0]⟩,
  ⟨0, 780, [0, 0, 0, 4, 1, 0, 0, 0, 0, 0, 0, 0, 0, 0]⟩,
  ⟨-750, -20, [0, 0, 0, 0, 0, 0, 2, -1, 0, 0, 0, 0, 0, 2]⟩,
  ⟨-50, -720, [0, 0, 0, 0, 0, 0, 0, 2, 0, 1, 0, 0, 0, 2]⟩,
  ⟨490, 270, [0, 0, 0, 0, 0, 0, 8, -11, 0, 0, 0, 0, 0, -2]⟩,
  ⟨0, -750, [3, 0, 2, -2, 1, 0, 0, 0, 0, 0, 0, 0, 0, 0]⟩,
  ⟨0, -750, [2, 0, 0, -2, -2, 0, 0, 0, 0, 0, 0, 0, 0, 0]⟩,
  ⟨0, 750, [1, 1, -2, -4, -2, 0, 0, 0, 0, 0, 0, 0, 0, 0]⟩,
  ⟨0, -720, [0, 0, 4, -2, 1, 0, 0, 0, 0, 0, 0, 0, 0, 0]⟩,
  ⟨10, 690, [1, 0, 2, 4, 2, 0, 0, 0, 0, 0, 0, 0, 0, 0]⟩,
  ⟨-560, 140, [0, 0, 0, 0, 0, 0, 4, -6, 0, 0, 0, 0, 0, -1]⟩,
  ⟨-570, -130, [0, 0, 0, 0, 0, 0, 1, -1, 0, 0, 0, 0, 0, -1]⟩,
  ⟨0, 690, [2, 1, 0, -2, -1, 0, 0, 0, 0, 0, 0, 0, 0, 0]⟩,
  ⟨0, 690, [1, 1, -2, 0, -2, 0, 0, 0, 0, 0, 0, 0, 0, 0]⟩,
  ⟨420, -270, [0, 0, 0, 0, 0, 0, 8, -15, 0, 0, 0, 0, 0, -2]⟩,
  ⟨-310, 370, [0, 0, 0, 0, 0, 0, 0, 1, 2, 0, 0, 0, 0, 2]⟩,
  ⟨-390, -290, [0, 0, 0, 0, 0, 0, 0, 3, 0, -2, 0, 0, 0, 2]⟩,
  ⟨0, 660, [3, 0, 0, 0, -1, 0, 0, 0, 0, 0, 0, 0, 0, 0]⟩,
  ⟨-310, -350, [0, 0, 0, 0, 0, 0, 0, 3, -2, 0, 0, 0, 0, 2]⟩,
  ⟨110, -540, [1, 0, 0, -1, 1, 0, 0, 0, 0, 0, 0, 0, 0, 0]⟩,
  ⟨0, -640, [2, 0, 0, -4, -1, 0, 0, 0, 0, 0, 0, 0, 0, 0]⟩,
  ⟨90, 550, [0, 0, 0, 0, 0, 0, 0, 0, 0, 3, 0, 0, 0, 2]⟩,
  ⟨0, -630, [0, 0, 2, -2, 1, 0, -3, 3, 0, 0, 0, 0, 0, 0]⟩,
  ⟨-10, -620, [0, 0, 0, 0, 0, 0, 0, 4, -2, 0, 0, 0, 0, 2]⟩,
  ⟨0, -610, [1, 1, 2, 2, 2, 0, 0, 0, 0, 0, 0, 0, 0, 0]⟩,
  ⟨0, 610, [0, 0, 2, -1, 1, 0, 0, 0, 0, 0, 0, 0, 0, 0]⟩,
  ⟨0, 610, [0, 0, 1, -1, 1, 0, 0, 3, -8, 3, 0, 0, 0, 0]⟩,
  ⟨0, 600, [0, 0, 2, 4, 1, 0, 0, 0, 0, 0, 0, 0, 0, 0]⟩,
  ⟨350, -250, [0, 0, 0, 0, 1, 0, 8, -13, 0, 0, 0, 0, 0, 0]⟩,
  ⟨0, 590, [1, -1, 0, -2, -1, 0, 0, 0, 0, 0, 0, 0, 0, 0]⟩,
  ⟨0, 570, [2, 0, 0, 2, 1, 0, 0, 0, 0, 0, 0, 0, 0, 0]⟩,
  ⟨-90, -480, [2, 0, 0, -2, 1, 0, 0, -2, 0, 3, 0, 0, 0, 0]⟩,
  ⟨0, 570, [1, -1, -2, 2, -1, 0, 0, 0, 0, 0, 0, 0, 0, 0]⟩,
  ⟨0, 570, [0, 0, 0, 0, 0, 0, 0, 0, 0, 0, 2, 0, 0, 2]⟩,
  ⟨10, 560, [3, 0, 2, 2, 2, 0, 0, 0, 0, 0, 0, 0, 0, 0]⟩,
  ⟨20, -540, [2, 1, -2, 0, -1, 0, 0, 0, 0, 0, 0, 0, 0, 0]⟩,
  ⟨0, 560, [2, 0, 0, -4, 1, 0, 0, 0, 0, 0, 0, 0, 0, 0]⟩,
  ⟨0, 560, [1, 0, 0, -4, 1, 0, 0, 0, 0, 0, 0, 0, 0, 0]⟩,
  ⟨-90, -470, [0, 0, 0, 0, 0, 0, 5, -8, 0, 0, 0, 0, 0, -1]⟩,
  ⟨-40, -510, [1, 1, 0, -2, 0, 0, 0, 0, 0, 0, 0, 0, 0, 0]⟩,
  ⟨0, 550, [0, 2, -2, -2, -2, 0, 0, 0, 0, 0, 0, 0, 0, 0]⟩,
  ⟨0, -540, [2, 0, 2, -4, 1, 0, 0, 0, 0, 0, 0, 0, 0, 0]⟩,
  ⟨180, 360, [1, 0, 0, 0, -1, 0, -18, 16, 0, 0, 0, 0, 0, 0]⟩,
  ⟨0, -540, [0, 0, 0, 0, 0, 0, 0, 8, -16, 4, 5, 0, 0, 2]⟩,
  ⟨0, 530, [1, -1, 0, -2, -2, 0, 0, 0, 0, 0, 0, 0, 0, 0]⟩,
  ⟨0, -530, [0, 0, 1, -1, 1, 0, 0, -5, 8, -3, 0, 0, 0, 0]⟩,
  ⟨0, -520, [0, 0, 0, 2, -2, 0, 0, 0, 0, 0, 0, 0, 0, 0]⟩,
  ⟨0, -520, [0, 0, 0, 0, 0, 0, 0, 1, 0, -3, 0, 0, 0, -2]⟩,
  ⟨0, 510, [0, 2, 0, 0, 1, 0, 0, 0, 0, 0, 0, 0, 0, 0]⟩,
  ⟨300, 210, [0, 0, 0, 0, 1, 0, -8, 13, 0, 0, 0, 0, 0, 0]⟩,
  ⟨0, -510, [0, 0, 0, 0, 0, 0, 6, -8, 0, 0, 0, 0, 0, -2]⟩,
  ⟨0, -500, [3, 0, 0, 0, 0, 0, 0, 0, 0, 0, 0, 0, 0, 0]⟩,
  ⟨0, 500, [1, -1, 2, 2, 1, 0, 0, 0, 0, 0, 0, 0, 0, 0]⟩,
  ⟨0, -500, [1, -1, -2, 0, -1, 0, 0, 0, 0, 0, 0, 0, 0, 0]⟩,
  ⟨90, -410, [0, 0, 0, 0, 1, 0, 0, 0, 0, -2, 5, 0, 0, 0]⟩,
  ⟨-500, 0, [0, 0, 0, 0, 0, 0, 3, -2, 0, 0, 0, 0, 0, 2]⟩,
  ⟨0, -490, [4, 0, 2, -2, 2, 0, 0, 0, 0, 0, 0, 0, 0, 0]⟩,
  ⟨490, 0, [0, 0, 0, 0, 0, 0, 2, -5, 0, 0, 0, 0, 0, -2]⟩,
  ⟨0, -490, [0, 0, 0, 0, 0, 0, 1, -3, 0, 0, 0, 0, 0, -2]⟩,
  ⟨-370, -110, [0, 0, 0, 0, 1, 0, 0, 0, 0, 1, 0, 0, 0, 0]⟩,
  ⟨0, 480, [2, 1, -2, -4, -2, 0, 0, 0, 0, 0, 0, 0, 0, 0]⟩,
  ⟨90, 390, [0, 0, 0, 0, 1, 0, 0, 0, 0, 2, -5, 0, 0, 0]⟩]

/-- tab5.3b.txt, rows 241 to 320 of j0 of `_parse_table_5_3b`. -/
def eps0_3 : List Row := [
  ⟨0, 470, [1, 0, 2, 0, -1, 0, 0, 0, 0, 0, 0, 0, 0, 0]⟩,
  ⟨0, -470, [0, 2, 2, -2, 1, 0, 0, 0, 0, 0, 0, 0, 0, 0]⟩,
  ⟨0, -450, [2, 1, 0, -2, 1, 0, 0, 0, 0, 0, 0, 0, 0, 0]⟩,
  ⟨0, -450, [2, -1, -2, 0, -1, 0, 0, 0, 0, 0, 0, 0, 0, 0]⟩,
  ⟨-150, -300, [1, 0, 0, 0, 1, 0, -18, 16, 0, 0, 0, 0, 0, 0]⟩,
  ⟨0, 440, [2, 0, 0, -2, 2, 0, 0, 0, 0, 0, 0, 0, 0, 0]⟩,
  ⟨0, 440, [1, 2, -2, -2, -2, 0, 0, 0, 0, 0, 0, 0, 0, 0]⟩,
  ⟨0, -440, [1, -1, -2, -2, -1, 0, 0, 0, 0, 0, 0, 0, 0, 0]⟩,
  ⟨30, -410, [1, -1, 0, 0, 0, 0, 0, 0, 0, 0, 0, 0, 0, 0]⟩,
  ⟨0, -430, [3, 0, 0, 0, 1, 0, 0, 0, 0, 0, 0, 0, 0, 0]⟩,
  ⟨0, 430, [2, 0, -2, 2, -1, 0, 0, 0, 0, 0, 0, 0, 0, 0]⟩,
  ⟨0, -430, [0, 1, 2, 2, 1, 0, 0, 0, 0, 0, 0, 0, 0, 0]⟩,
  ⟨0, 430, [0, 0, 0, 0, 3, 0, 0, 0, 0, 0, 0, 0, 0, 0]⟩,
  ⟨20, 400, [1, 0, -2, 0, 0, 0, 0, 0, 0, 0, 0, 0, 0, 0]⟩,
  ⟨20, 400, [0, 2, -2, 0, -2, 0, 0, 0, 0, 0, 0, 0, 0, 0]⟩,
  ⟨0, 410, [3, 0, -2, 0, -1, 0, 0, 0, 0, 0, 0, 0, 0, 0]⟩,
  ⟨-60, 350, [0, 0, 1, -1, 1, 0, 0, -1, 0, 0, 1, 0, 0, 0]⟩,
  ⟨0, 400, [1, 0, -4, 2, -2, 0, 0, 0, 0, 0, 0, 0, 0, 0]⟩,
  ⟨0, -400, [0, 1, -2, 1, -2, 0, 0, 0, 0, 0, 0, 0, 0, 0]⟩,
  ⟨310, -80, [0, 0, 0, 0, 0, 0, 2, -4, 0, 0, 0, 0, 0, -1]⟩,
  ⟨0, 390, [2, 0, 0, 0, 2, 0, 0, 0, 0, 0, 0, 0, 0, 0]⟩,
  ⟨0, 390, [2, -1, 2, 2, 2, 0, 0, 0, 0, 0, 0, 0, 0, 0]⟩,
  ⟨0, 390, [2, -1, 2, 0, 1, 0, 0, 0, 0, 0, 0, 0, 0, 0]⟩,
  ⟨0, -390, [1, 0, 0, -4, 0, 0, 0, 0, 0, 0, 0, 0, 0, 0]⟩,
  ⟨0, -390, [1, 0, -2, -3, -2, 0, 0, 0, 0, 0, 0, 0, 0, 0]⟩,
  ⟨0, 390, [0, 1, -2, -4, -2, 0, 0, 0, 0, 0, 0, 0, 0, 0]⟩,
  ⟨190, 200, [0, 0, 0, 0, 1, 0, 0, 1, -2, 0, 0, 0, 0, 0]⟩,
  ⟨0, 380, [0, 0, 0, 0, 0, 0, 0, 2, 0, 0, 0, 0, 0, 2]⟩,
  ⟨-20, 350, [1, 1, 0, 0, 0, 0, 0, 0, 0, 0, 0, 0, 0, 0]⟩,
  ⟨0, -360, [1, 1, -2, 1, -1, 0, 0, 0, 0, 0, 0, 0, 0, 0]⟩,
  ⟨0, -360, [1, 0, -2, -1, -2, 0, 0, 0, 0, 0, 0, 0, 0, 0]⟩,
  ⟨-210, 150, [0, 0, 0, 0, 0, 0, 0, 1, 0, 2, 0, 0, 0, 2]⟩,
  ⟨70, 280, [0, 0, 0, 0, 0, 0, 3, -7, 0, 0, 0, 0, 0, -2]⟩,
  ⟨-290, -60, [0, 0, 0, 0, 0, 0, 2, -2, 0, 0, 0, 0, 0, -1]⟩,
  ⟨0, -350, [0, 0, 0, 0, 0, 0, 0, 2, 0, 0, 0, 0, 0, 0]⟩,
  ⟨-280, 70, [0, 0, 0, 0, 0, 0, 0, 0, 0, 1, 0, 0, 0, -1]⟩,
  ⟨0, 340, [2, 0, -4, 0, -2, 0, 0, 0, 0, 0, 0, 0, 0, 0]⟩,
  ⟨0, -340, [1, -1, 0, -2, 1, 0, 0, 0, 0, 0, 0, 0, 0, 0]⟩,
  ⟨0, -330, [2, 1, 2, 0, 1, 0, 0, 0, 0, 0, 0, 0, 0, 0]⟩,
  ⟨50, 280, [2, 0, 0, -2, -1, 0, 0, -2, 0, 3, 0, 0, 0, 0]⟩,
  ⟨0, 330, [1, 1, -2, 0, -1, 0, 0, 0, 0, 0, 0, 0, 0, 0]⟩,
  ⟨260, -70, [0, 0, 0, 0, 0, 0, 3, -5, 0, 0, 0, 0, 0, -1]⟩,
  ⟨100, -230, [0, 0, 0, 0, 0, 0, 0, 0, 0, 1, 0, 0, 0, 2]⟩,
  ⟨0, 320, [1, -1, 2, -2, 2, 0, 0, 0, 0, 0, 0, 0, 0, 0]⟩,
  ⟨0, -320, [0, 2, 2, 0, 2, 0, 0, 0, 0, 0, 0, 0, 0, 0]⟩,
  ⟨0, 320, [0, 2, 0, 0, -1, 0, 0, 0, 0, 0, 0, 0, 0, 0]⟩,
  ⟨0, -320, [0, 0, 0, 0, 0, 0, 7, -9, 0, 0, 0, 0, 0, -2]⟩,
  ⟨0, 320, [0, 0, 0, 0, 0, 0, 0, 0, 2, 0, 0, 0, 0, 2]⟩,
  ⟨290, -30, [0, 0, 0, 0, 0, 0, 0, 0, 0, 1, 0, 0, 0, 1]⟩,
  ⟨0, -310, [1, 0, 2, -4, 2, 0, 0, 0, 0, 0, 0, 0, 0, 0]⟩,
  ⟨-70, -240, [0, 0, 0, 0, 0, 0, 3, -3, 0, 0, 0, 0, 0, 2]⟩,
  ⟨0, 300, [2, 0, 2, -1, 2, 0, 0, 0, 0, 0, 0, 0, 0, 0]⟩,
  ⟨-160, 140, [1, 0, 0, -1, 1, 0, 0, -1, 0, 2, 0, 0, 0, 0]⟩,
  ⟨-290, -10, [0, 0, 0, 0, 0, 0, 4, -7, 0, 0, 0, 0, 0, -2]⟩,
  ⟨0, -290, [2, 0, 0, -2, 1, 0, 0, -2, 0, 2, 0, 0, 0, 0]⟩,
  ⟨0, -290, [1, 0, 2, 1, 1, 0, 0, 0, 0, 0, 0, 0, 0, 0]⟩,
  ⟨0, 290, [0, 1, -2, 2, 0, 0, 0, 0, 0, 0, 0, 0, 0, 0]⟩,
  ⟨-250, 40, [0, 0, 1, -1, 1, 0, 0, -2, 2, 0, 0, 0, 0, 0]⟩,
  ⟨40, -250, [0, 0, 0, 0, 0, 0, 0, 0, 0, 0, 1, 0, 0, 1]⟩,
  ⟨0, -280, [2, 1, -2, -2, -2, 0, 0, 0, 0, 0, 0, 0, 0, 0]⟩,
  ⟨-250, 30, [0, 0, 1, -1, 1, 0, 0, -1, 0, 1, 0, 0, 0, 0]⟩,
  ⟨-250, -30, [0, 0, 0, 0, 0, 0, 0, 1, -2, 0, 0, 0, 0, -1]⟩,
  ⟨270, 0, [1, 0, -1, 0, -3, 0, 0, 0, 0, 0, 0, 0, 0, 0]⟩,
  ⟨0, -270, [0, 0, 2, -2, 1, 0, 0, -2, 0, 2, 0, 0, 0, 0]⟩,
  ⟨0, 260, [3, -1, 2, 0, 2, 0, 0, 0, 0, 0, 0, 0, 0, 0]⟩,
  ⟨0, -260, [0, 1, 0, 2, -1, 0, 0, 0, 0, 0, 0, 0, 0, 0]⟩,
  ⟨0, -260, [0, 1, 0, 1, 1, 0, 0, 0, 0, 0, 0, 0, 0, 0]⟩,
  ⟨210, 50, [0, 0, 1, -1, 1, 0, -3, 4, 0, 0, 0, 0, 0, 0]⟩,
  ⟨0, -250, [2, 0, 0, 0, -2, 0, 0, 0, 0, 0, 0, 0, 0, 0]⟩,
  ⟨0, 250, [0, 1, 0, 1, -1, 0, 0, 0, 0, 0, 0, 0, 0, 0]⟩,
  ⟨190, -60, [0, 0, 0, 0, 0, 0, 0, 6, -16, 4, 5, 0, 0, -2]⟩,
  ⟨80, 170, [0, 0, 0, 0, 0, 0, 0, 0, 0, 0, 1, 0, 0, -1]⟩,
  ⟨0, -240, [2, 0, 0, 2, 0, 0, 0, 0, 0, 0, 0, 0, 0, 0]⟩,
  ⟨0, 240, [2, 0, 0, 2, -1, 0, 0, 0, 0, 0, 0, 0, 0, 0]⟩,
  ⟨-10, -230, [2, 0, 0, -4, 0, 0, 0, 0, 0, 0, 0, 0, 0, 0]⟩,
  ⟨0, -240, [1, 1, -2, 2, -1, 0, 0, 0, 0, 0, 0, 0, 0, 0]⟩,
  ⟨0, 240, [1, 0, 2, -3, 1, 0, 0, 0, 0, 0, 0, 0, 0, 0]⟩,
  ⟨-190, 50, [0, 0, 0, 0, 0, 0, 5, -7, 0, 0, 0, 0, 0, -1]⟩,
  ⟨-10, -220, [0, 0, 0, 0, 0, 0, 8, -10, 0, 0, 0, 0, 0, -2]⟩,
  ⟨0, -230, [3, 1, 2, 0, 2, 0, 0, 0, 0, 0, 0, 0, 0, 0]⟩]

/-- tab5.3b.txt, rows 321 to 400 of j0 of `_parse_table_5_3b`. -/
def eps0_4 : List Row := [
  ⟨0, 230, [1, 1, 2, -4, 1, 0, 0, 0, 0, 0, 0, 0, 0, 0]⟩,
  ⟨-140, 90, [0, 0, 0, 0, 0, 0, 0, 0, 4, 0, 0, 0, 0, 2]⟩,
  ⟨0, 220, [4, 0, 2, 0, 1, 0, 0, 0, 0, 0, 0, 0, 0, 0]⟩,
  ⟨0, -220, [2, -1, 2, -2, 2, 0, 0, 0, 0, 0, 0, 0, 0, 0]⟩,
  ⟨0, 220, [1, 1, 2, 1, 2, 0, 0, 0, 0, 0, 0, 0, 0, 0]⟩,
  ⟨0, 220, [1, -2, 2, 0, 2, 0, 0, 0, 0, 0, 0, 0, 0, 0]⟩,
  ⟨0, 220, [0, 1, 2, 1, 1, 0, 0, 0, 0, 0, 0, 0, 0, 0]⟩,
  ⟨-20, -200, [0, 0, 0, 1, 0, 0, 0, 0, 0, 0, 0, 0, 0, 0]⟩,
  ⟨-180, -40, [0, 0, 0, 0, 0, 0, 3, -3, 0, 0, 0, 0, 0, -1]⟩,
  ⟨0, 220, [0, 0, 0, 0, 0, 0, 0, 2, -4, 0, 0, 0, 0, -2]⟩,
  ⟨0, -210, [2, 1, 2, -2, 1, 0, 0, 0, 0, 0, 0, 0, 0, 0]⟩,
  ⟨0, -210, [1, 0, 4, -2, 1, 0, 0, 0, 0, 0, 0, 0, 0, 0]⟩,
  ⟨0, 210, [1, 0, 2, -1, 1, 0, 0, 0, 0, 0, 0, 0, 0, 0]⟩,
  ⟨0, 210, [1, 0, -2, 1, -2, 0, 0, 0, 0, 0, 0, 0, 0, 0]⟩,
  ⟨0, 210, [1, -1, 2, -2, 1, 0, 0, 0, 0, 0, 0, 0, 0, 0]⟩,
  ⟨-170, 40, [0, 0, 0, 0, 0, 0, 1, -1, 0, 0, 0, 0, 0, 1]⟩,
  ⟨-80, -130, [0, 0, 0, 0, 0, 0, 0, 5, -4, 0, 0, 0, 0, 2]⟩,
  ⟨-130, -80, [0, 0, 0, 0, 0, 0, 0, 4, -4, 0, 0, 0, 0, 2]⟩,
  ⟨0, 200, [2, -2, 0, -2, -1, 0, 0, 0, 0, 0, 0, 0, 0, 0]⟩,
  ⟨0, -200, [1, 2, 2, -2, 2, 0, 0, 0, 0, 0, 0, 0, 0, 0]⟩,
  ⟨0, -200, [1, 0, 2, -2, -1, 0, 0, 0, 0, 0, 0, 0, 0, 0]⟩,
  ⟨0, 200, [1, 0, -2, 2, 1, 0, 0, 0, 0, 0, 0, 0, 0, 0]⟩,
  ⟨0, 200, [1, -1, 0, 2, -1, 0, 0, 0, 0, 0, 0, 0, 0, 0]⟩,
  ⟨200, 0, [0, 0, 0, 0, 0, 0, 6, -9, 0, 0, 0, 0, 0, -2]⟩,
  ⟨160, -40, [0, 0, 0, 0, 0, 0, 1, -3, 0, 0, 0, 0, 0, -1]⟩,
  ⟨110, -90, [0, 0, 0, 0, 0, 0, 0, 0, 0, 2, -5, 0, 0, -2]⟩,
  ⟨-30, 160, [0, 0, 0, 0, 0, 0, 0, 4, 0, -3, 0, 0, 0, 2]⟩,
  ⟨0, -190, [3, 0, -2, -2, -2, 0, 0, 0, 0, 0, 0, 0, 0, 0]⟩,
  ⟨0, -190, [2, 0, 2, 1, 2, 0, 0, 0, 0, 0, 0, 0, 0, 0]⟩,
  ⟨0, 190, [2, -1, 0, -2, 1, 0, 0, 0, 0, 0, 0, 0, 0, 0]⟩,
  ⟨0, -190, [1, 0, -2, -2, 0, 0, 0, 0, 0, 0, 0, 0, 0, 0]⟩,
  ⟨0, 190, [1, -1, 0, 2, 1, 0, 0, 0, 0, 0, 0, 0, 0, 0]⟩,
  ⟨0, 190, [0, 0, 4, -4, 2, 0, 0, 0, 0, 0, 0, 0, 0, 0]⟩,
  ⟨-100, 90, [0, 0, 1, -1, 1, 0, 0, -1, 0, 0, 0, 0, 2, 0]⟩,
  ⟨-140, -50, [0, 0, 1, -1, 1, 0, 0, -1, 0, -4, 10, 0, 0, 0]⟩,
  ⟨150, 40, [0, 0, 1, -1, 1, 0, -4, 5, 0, 0, 0, 0, 0, 0]⟩,
  ⟨0, -190, [0, 0, 0, 4, 0, 0, 0, 0, 0, 0, 0, 0, 0, 0]⟩,
  ⟨0, 190, [0, 0, 0, 4, -1, 0, 0, 0, 0, 0, 0, 0, 0, 0]⟩,
  ⟨-150, -40, [0, 0, 0, 0, 0, 0, 0, 2, 0, 0, 0, 0, 0, 1]⟩,
  ⟨0, 180, [2, 0, -2, -6, -2, 0, 0, 0, 0, 0, 0, 0, 0, 0]⟩,
  ⟨0, -180, [2, 0, -4, -2, -2, 0, 0, 0, 0, 0, 0, 0, 0, 0]⟩,
  ⟨0, -180, [2, -1, 0, 0, 1, 0, 0, 0, 0, 0, 0, 0, 0, 0]⟩,
  ⟨20, -160, [0, 0, 0, 0, 0, 0, 2, -3, 0, 0, 0, 0, 0, -1]⟩,
  ⟨-110, 70, [0, 0, 0, 0, 0, 0, 0, 2, -4, 0, 0, 0, 0, -1]⟩,
  ⟨-60, -110, [1, 0, 2, 0, 1, 0, 0, -2, 0, 3, 0, 0, 0, 0]⟩,
  ⟨60, 110, [1, 0, -2, 0, -1, 0, 0, -1, 0, 0, 0, 0, 0, 0]⟩,
  ⟨-110, 60, [0, 0, 0, 0, 1, 0, 0, -2, 4, 0, 0, 0, 0, 0]⟩,
  ⟨-60, -110, [0, 0, 0, 0, 0, 0, 0, 4, -3, 0, 0, 0, 0, 2]⟩,
  ⟨0, -170, [0, 0, 2, 2, 0, 0, 0, 0, 0, 0, 0, 0, 0, 0]⟩,
  ⟨-120, -50, [0, 0, 2, -2, 1, 0, 0, -9, 13, 0, 0, 0, 0, 0]⟩,
  ⟨150, 20, [0, 0, 1, 1, 1, 0, 0, 1, 0, 0, 0, 0, 0, 0]⟩,
  ⟨-170, 0, [0, 0, 0, 0, 1, 0, 2, -3, 0, 0, 0, 0, 0, 0]⟩,
  ⟨0, -160, [2, 0, 4, -2, 2, 0, 0, 0, 0, 0, 0, 0, 0, 0]⟩,
  ⟨-50, -110, [2, 0, 2, 0, 2, 0, 0, 2, 0, -3, 0, 0, 0, 0]⟩,
  ⟨0, -160, [1, 1, 0, 2, 1, 0, 0, 0, 0, 0, 0, 0, 0, 0]⟩,
  ⟨0, 160, [1, 0, 0, 4, 1, 0, 0, 0, 0, 0, 0, 0, 0, 0]⟩,
  ⟨0, 160, [0, 1, -2, 2, 1, 0, 0, 0, 0, 0, 0, 0, 0, 0]⟩,
  ⟨0, -160, [0, 0, 4, 0, 1, 0, 0, 0, 0, 0, 0, 0, 0, 0]⟩,
  ⟨0, -160, [0, 0, 2, 3, 2, 0, 0, 0, 0, 0, 0, 0, 0, 0]⟩,
  ⟨110, -50, [0, 0, 1, -1, 2, 0, 0, -1, 0, 0, 2, 0, 0, 0]⟩,
  ⟨-130, -30, [0, 0, 0, 0, 0, 0, 4, -4, 0, 0, 0, 0, 0, -1]⟩,
  ⟨60, 100, [0, 0, 0, 0, 0, 0, 0, 3, -6, 0, 0, 0, 0, -2]⟩,
  ⟨30, -130, [0, 0, 0, 0, 0, 0, 0, 1, -2, 0, 0, 0, 0, 1]⟩,
  ⟨120, -40, [0, 0, 0, 0, 0, 0, 0, 0, 0, 3, 0, 0, 0, 1]⟩,
  ⟨0, 150, [2, 0, 2, -4, 2, 0, 0, 0, 0, 0, 0, 0, 0, 0]⟩,
  ⟨0, 150, [2, -1, 0, 0, -1, 0, 0, 0, 0, 0, 0, 0, 0, 0]⟩,
  ⟨0, -150, [1, 2, 0, -2, -1, 0, 0, 0, 0, 0, 0, 0, 0, 0]⟩,
  ⟨0, 150, [1, 1, -2, -4, -1, 0, 0, 0, 0, 0, 0, 0, 0, 0]⟩,
  ⟨0, -150, [1, 0, 0, 1, -1, 0, 0, 0, 0, 0, 0, 0, 0, 0]⟩,
  ⟨150, 0, [1, 0, 0, -1, 1, 0, -3, 4, 0, 0, 0, 0, 0, 0]⟩,
  ⟨0, 150, [1, 0, 0, -1, -2, 0, 0, 0, 0, 0, 0, 0, 0, 0]⟩,
  ⟨0, -150, [1, -1, 0, 2, 0, 0, 0, 0, 0, 0, 0, 0, 0, 0]⟩,
  ⟨0, -150, [0, 1, 4, -2, 2, 0, 0, 0, 0, 0, 0, 0, 0, 0]⟩,
  ⟨0, -150, [0, 1, 2, -2, -1, 0, 0, 0, 0, 0, 0, 0, 0, 0]⟩,
  ⟨-50, 100, [0, 0, 2, 0, 2, 0, 0, 1, 0, 0, 0, 0, 0, 0]⟩,
  ⟨0, 150, [0, 0, 0, 0, 1, 0, 1, -1, 0, 0, 0, 0, 0, 0]⟩,
  ⟨130, -20, [0, 0, 0, 0, 1, 0, 0, 0, 0, 0, 1, 0, 0, 0]⟩,
  ⟨0, -150, [0, 0, 0, 0, 0, 0, 9, -11, 0, 0, 0, 0, 0, -2]⟩,
  ⟨-120, -30, [0, 0, 0, 0, 0, 0, 1, 1, 0, 0, 0, 0, 0, 1]⟩,
  ⟨-140, 10, [0, 0, 0, 0, 0, 0, 0, 4, 0, -1, 0, 0, 0, 2]⟩]

/-- tab5.3b.txt, rows 401 to 480 of j0 of `_parse_table_5_3b`. -/
def eps0_5 : List Row := [
  ⟨20, -130, [0, 0, 0, 0, 0, 0, 0, 1, 0, -4, 0, 0, 0, -2]⟩,
  ⟨-50, 100, [0, 0, 0, 0, 0, 0, 0, 1, -8, 3, 0, 0, 0, -2]⟩,
  ⟨110, -30, [0, 0, 1, -1, 1, 0, -1, 0, 0, 0, 0, 0, 0, 0]⟩,
  ⟨-30, 110, [0, 0, 0, 0, 1, 0, -3, 5, 0, 0, 0, 0, 0, 0]⟩,
  ⟨0, -140, [3, 0, -2, -2, -1, 0, 0, 0, 0, 0, 0, 0, 0, 0]⟩,
  ⟨0, -140, [2, 0, 2, 0, 0, 0, 0, 0, 0, 0, 0, 0, 0, 0]⟩,
  ⟨20, 120, [2, -1, 0, -2, 0, 0, 0, 0, 0, 0, 0, 0, 0, 0]⟩,
  ⟨0, 140, [1, 0, 2, 4, 1, 0, 0, 0, 0, 0, 0, 0, 0, 0]⟩,
  ⟨0, 140, [1, 0, -2, -6, -2, 0, 0, 0, 0, 0, 0, 0, 0, 0]⟩,
  ⟨0, -140, [1, -2, -2, -2, -2, 0, 0, 0, 0, 0, 0, 0, 0, 0]⟩,
  ⟨0, 140, [0, 1, 0, 2, 0, 0, 0, 0, 0, 0, 0, 0, 0, 0]⟩,
  ⟨0, -140, [0, 0, 2, -2, 1, 0, -4, 4, 0, 0, 0, 0, 0, 0]⟩,
  ⟨0, -140, [0, 0, 2, -3, 1, 0, 0, 0, 0, 0, 0, 0, 0, 0]⟩,
  ⟨140, 0, [0, 0, 1, 0, 2, 0, 0, 0, 0, 0, 0, 0, 0, 0]⟩,
  ⟨0, -130, [3, 1, 2, -2, 2, 0, 0, 0, 0, 0, 0, 0, 0, 0]⟩,
  ⟨-130, 0, [1, 0, 0, -1, -1, 0, -3, 4, 0, 0, 0, 0, 0, 0]⟩,
  ⟨0, -130, [1, 0, -4, -2, -2, 0, 0, 0, 0, 0, 0, 0, 0, 0]⟩,
  ⟨0, -130, [1, -1, -2, -4, -2, 0, 0, 0, 0, 0, 0, 0, 0, 0]⟩,
  ⟨0, 130, [1, -2, 2, 2, 2, 0, 0, 0, 0, 0, 0, 0, 0, 0]⟩,
  ⟨0, -130, [0, 0, 2, -4, 2, 0, 0, 0, 0, 0, 0, 0, 0, 0]⟩,
  ⟨-80, 50, [0, 0, 1, -1, 1, 0, 3, -6, 0, 0, 0, 0, 0, 0]⟩,
  ⟨-20, -110, [0, 0, 0, 0, 0, 0, 6, -10, 0, 0, 0, 0, 0, -2]⟩,
  ⟨0, -130, [0, 0, 0, 0, 0, 0, 3, -1, 0, 0, 0, 0, 0, 2]⟩,
  ⟨0, -130, [0, 0, 0, 0, 0, 0, 0, 3, 0, 0, -1, 0, 0, 2]⟩,
  ⟨110, 20, [0, 0, 0, 0, 0, 0, 0, 2, 0, -2, 0, 0, 0, 1]⟩,
  ⟨-70, -60, [0, 0, 1, -1, 1, 0, 8, -14, 0, 0, 0, 0, 0, 0]⟩,
  ⟨-40, -80, [0, 0, 0, 0, 1, 0, 0, 8, -15, 0, 0, 0, 0, 0]⟩,
  ⟨40, 80, [0, 0, 0, 0, 0, 0, 0, 1, -4, 0, 0, 0, 0, -2]⟩,
  ⟨-40, 80, [0, 0, 0, 0, 0, 0, 0, 0, 3, 0, 0, 0, 0, 2]⟩,
  ⟨0, -120, [2, 1, 0, 0, -1, 0, 0, 0, 0, 0, 0, 0, 0, 0]⟩,
  ⟨0, 120, [2, 0, 2, 4, 2, 0, 0, 0, 0, 0, 0, 0, 0, 0]⟩,
  ⟨0, 120, [1, 2, 0, -2, 1, 0, 0, 0, 0, 0, 0, 0, 0, 0]⟩,
  ⟨0, -120, [1, 1, 2, 2, 1, 0, 0, 0, 0, 0, 0, 0, 0, 0]⟩,
  ⟨-70, -50, [0, 0, 1, -1, 1, 0, 0, -3, 4, 0, 0, 0, 0, 0]⟩,
  ⟨-100, 20, [0, 0, 0, 0, 0, 0, 6, -8, 0, 0, 0, 0, 0, -1]⟩,
  ⟨120, 0, [0, 0, 0, 0, 0, 0, 3, -6, 0, 0, 0, 0, 0, -2]⟩,
  ⟨-100, 20, [0, 0, 0, 0, 0, 0, 2, 1, 0, 0, 0, 0, 0, 2]⟩,
  ⟨20, -100, [0, 0, 0, 0, 0, 0, 2, 1, 0, 0, 0, 0, 0, 1]⟩,
  ⟨0, 110, [3, 0, 2, 2, 1, 0, 0, 0, 0, 0, 0, 0, 0, 0]⟩,
  ⟨0, 110, [3, 0, 2, -4, 2, 0, 0, 0, 0, 0, 0, 0, 0, 0]⟩,
  ⟨0, -110, [2, 1, 2, 2, 2, 0, 0, 0, 0, 0, 0, 0, 0, 0]⟩,
  ⟨0, 110, [2, 1, 0, 0, 1, 0, 0, 0, 0, 0, 0, 0, 0, 0]⟩,
  ⟨-20, 90, [2, 0, 0, -2, 1, 0, -6, 8, 0, 0, 0, 0, 0, 0]⟩,
  ⟨0, 110, [2, -1, -2, -2, -2, 0, 0, 0, 0, 0, 0, 0, 0, 0]⟩,
  ⟨-110, 0, [1, 0, 1, 0, 1, 0, 0, 0, 0, 0, 0, 0, 0, 0]⟩,
  ⟨0, -110, [1, -1, -2, 2, -2, 0, 0, 0, 0, 0, 0, 0, 0, 0]⟩,
  ⟨-50, 60, [1, -2, 2, -2, 1, 0, 0, 0, 0, 0, 0, 0, 0, 0]⟩,
  ⟨-110, 0, [0, 0, 3, 0, 3, 0, 0, 0, 0, 0, 0, 0, 0, 0]⟩,
  ⟨-90, -20, [0, 0, 0, 0, 0, 0, 5, -5, 0, 0, 0, 0, 0, -1]⟩,
  ⟨0, 110, [0, 0, 0, 0, 0, 0, 0, 7, -8, 3, 0, 0, 0, 2]⟩,
  ⟨-40, -70, [0, 0, 0, 0, 0, 0, 0, 4, -7, 0, 0, 0, 0, -2]⟩,
  ⟨60, -50, [0, 0, 0, 0, 0, 0, 0, 0, 0, 0, 0, 0, 2, 1]⟩,
  ⟨0, -100, [3, 0, 0, -4, -1, 0, 0, 0, 0, 0, 0, 0, 0, 0]⟩,
  ⟨0, 100, [2, 0, -2, 0, 2, 0, 0, 0, 0, 0, 0, 0, 0, 0]⟩,
  ⟨0, -100, [1, 0, 4, 0, 2, 0, 0, 0, 0, 0, 0, 0, 0, 0]⟩,
  ⟨-100, 0, [1, 0, 1, -2, 1, 0, 0, 0, 0, 0, 0, 0, 0, 0]⟩,
  ⟨0, -100, [1, 0, 0, 2, 2, 0, 0, 0, 0, 0, 0, 0, 0, 0]⟩,
  ⟨0, 100, [1, 0, 0, 1, 1, 0, 0, 0, 0, 0, 0, 0, 0, 0]⟩,
  ⟨0, 100, [1, 0, -4, 2, -1, 0, 0, 0, 0, 0, 0, 0, 0, 0]⟩,
  ⟨0, 100, [1, -1, 2, 4, 2, 0, 0, 0, 0, 0, 0, 0, 0, 0]⟩,
  ⟨0, 100, [0, 2, 0, -2, 1, 0, 0, 0, 0, 0, 0, 0, 0, 0]⟩,
  ⟨0, 100, [0, 2, -2, -2, -1, 0, 0, 0, 0, 0, 0, 0, 0, 0]⟩,
  ⟨0, -100, [0, 1, 2, -2, 3, 0, 0, 0, 0, 0, 0, 0, 0, 0]⟩,
  ⟨0, 100, [0, 1, 2, -4, 1, 0, 0, 0, 0, 0, 0, 0, 0, 0]⟩,
  ⟨100, 0, [0, 0, 1, -1, 1, 0, 0, -9, 15, 0, 0, 0, 0, 0]⟩,
  ⟨80, -20, [0, 0, 0, 0, 1, 0, 0, 0, 0, -1, 0, 0, 0, 0]⟩,
  ⟨0, 100, [0, 0, 0, 0, 1, 0, -1, 1, 0, 0, 0, 0, 0, 0]⟩,
  ⟨100, 0, [0, 0, 0, 0, 1, 0, -2, 3, 0, 0, 0, 0, 0, 0]⟩,
  ⟨100, 0, [0, 0, 0, 0, 0, 0, 7, -10, 0, 0, 0, 0, 0, -2]⟩,
  ⟨40, 60, [0, 0, 0, 0, 0, 0, 3, -5, 4, 0, 0, 0, 0, 2]⟩,
  ⟨-40, -60, [0, 0, 0, 0, 0, 0, 3, -9, 4, 0, 0, 0, 0, -2]⟩,
  ⟨-80, -20, [0, 0, 0, 0, 0, 0, 2, 0, 0, 0, 0, 0, 0, 1]⟩,
  ⟨0, 90, [5, 0, 2, 0, 2, 0, 0, 0, 0, 0, 0, 0, 0, 0]⟩,
  ⟨0, -90, [4, 0, 2, -2, 1, 0, 0, 0, 0, 0, 0, 0, 0, 0]⟩,
  ⟨0, 90, [3, 0, -2, -6, -2, 0, 0, 0, 0, 0, 0, 0, 0, 0]⟩,
  ⟨0, 90, [2, 1, -2, -4, -1, 0, 0, 0, 0, 0, 0, 0, 0, 0]⟩,
  ⟨0, -90, [2, 0, 0, -2, 1, 0, -3, 3, 0, 0, 0, 0, 0, 0]⟩,
  ⟨0, -90, [1, 2, 2, 0, 2, 0, 0, 0, 0, 0, 0, 0, 0, 0]⟩,
  ⟨0, 90, [1, 0, 2, -2, 0, 0, 0, 0, 0, 0, 0, 0, 0, 0]⟩,
  ⟨0, 90, [1, 0, -2, 4, -1, 0, 0, 0, 0, 0, 0, 0, 0, 0]⟩]

/-- tab5.3b.txt, rows 481 to 560 of j0 of `_parse_table_5_3b`. -/
def eps0_6 : List Row := [
  ⟨0, 90, [1, 0, -2, -2, 1, 0, 0, 0, 0, 0, 0, 0, 0, 0]⟩,
  ⟨0, -90, [1, -1, 2, -1, 2, 0, 0, 0, 0, 0, 0, 0, 0, 0]⟩,
  ⟨0, -90, [1, -1, 0, -1, 0, 0, 0, 0, 0, 0, 0, 0, 0, 0]⟩,
  ⟨10, 80, [1, -1, 0, -2, 0, 0, 0, 0, 0, 0, 0, 0, 0, 0]⟩,
  ⟨0, 90, [0, 1, 0, -2, -2, 0, 0, 0, 0, 0, 0, 0, 0, 0]⟩,
  ⟨0, -90, [0, 0, 1, -1, 1, 0, -2, 2, 0, 0, 0, 0, 0, 0]⟩,
  ⟨-50, -40, [0, 0, 0, 0, 0, 0, 0, 3, 0, -3, 0, 0, 0, 2]⟩,
  ⟨-90, 0, [0, 0, 0, 0, 0, 0, 0, 2, 0, 0, -1, 0, 0, 2]⟩,
  ⟨-70, -20, [0, 0, 0, 0, 0, 0, 6, -6, 0, 0, 0, 0, 0, -1]⟩,
  ⟨70, -20, [0, 0, 0, 0, 0, 0, 1, 2, 0, 0, 0, 0, 0, 2]⟩,
  ⟨-30, 60, [0, 0, 0, 0, 0, 0, 0, 8, -15, 0, 0, 0, 0, -2]⟩,
  ⟨0, 80, [3, 0, 0, -2, -1, 0, 0, 0, 0, 0, 0, 0, 0, 0]⟩,
  ⟨0, -80, [3, 0, -2, 0, -2, 0, 0, 0, 0, 0, 0, 0, 0, 0]⟩,
  ⟨0, -80, [2, -1, 0, 0, 0, 0, 0, 0, 0, 0, 0, 0, 0, 0]⟩,
  ⟨0, -80, [2, -1, -2, -4, -2, 0, 0, 0, 0, 0, 0, 0, 0, 0]⟩,
  ⟨0, 80, [1, 2, -2, -2, -1, 0, 0, 0, 0, 0, 0, 0, 0, 0]⟩,
  ⟨0, 80, [1, 1, 0, -2, -2, 0, 0, 0, 0, 0, 0, 0, 0, 0]⟩,
  ⟨0, -80, [1, 0, -2, -3, -1, 0, 0, 0, 0, 0, 0, 0, 0, 0]⟩,
  ⟨0, 80, [0, 1, 0, -4, -1, 0, 0, 0, 0, 0, 0, 0, 0, 0]⟩,
  ⟨0, -80, [0, 1, -2, 1, -1, 0, 0, 0, 0, 0, 0, 0, 0, 0]⟩,
  ⟨0, -80, [0, 0, 4, -4, 4, 0, 0, 0, 0, 0, 0, 0, 0, 0]⟩,
  ⟨0, 80, [0, 0, 4, -4, 1, 0, 0, 0, 0, 0, 0, 0, 0, 0]⟩,
  ⟨-30, -50, [0, 0, 0, 0, 1, 0, 3, -7, 4, 0, 0, 0, 0, 0]⟩,
  ⟨0, -80, [0, 0, 0, 0, 1, 0, 0, 1, 0, -1, 0, 0, 0, 0]⟩,
  ⟨-30, 50, [0, 0, 0, 0, 1, 0, -3, 7, -4, 0, 0, 0, 0, 0]⟩,
  ⟨-60, 20, [0, 0, 0, 0, 0, 0, 7, -9, 0, 0, 0, 0, 0, -1]⟩,
  ⟨20, 60, [0, 0, 0, 0, 0, 0, 4, -7, 0, 0, 0, 0, 0, -1]⟩,
  ⟨-50, 30, [0, 0, 0, 0, 0, 0, 3, -5, 0, 0, 0, 0, 0, 1]⟩,
  ⟨-50, -30, [0, 0, 0, 0, 0, 0, 0, 5, -5, 0, 0, 0, 0, 2]⟩,
  ⟨-50, -30, [0, 0, 0, 0, 0, 0, 0, 5, -9, 0, 0, 0, 0, -2]⟩,
  ⟨0, -80, [0, 0, 0, 0, 0, 0, 0, 3, -1, 0, 0, 0, 0, 2]⟩,
  ⟨-30, 50, [0, 0, 0, 0, 0, 0, 0, 2, 0, 2, -5, 0, 0, 2]⟩,
  ⟨-80, 0, [0, 0, 0, 0, 0, 0, 0, 2, 0, 0, 1, 0, 0, 2]⟩,
  ⟨-30, -50, [0, 0, 0, 0, 0, 0, 0, 2, 0, -2, 5, 0, 0, 2]⟩,
  ⟨10, 70, [0, 0, 0, 0, 0, 0, 7, -11, 0, 0, 0, 0, 0, -2]⟩,
  ⟨-70, 10, [0, 0, 0, 0, 0, 0, 2, -2, 0, 0, 0, 0, 0, 1]⟩,
  ⟨0, 70, [4, 0, 2, 2, 2, 0, 0, 0, 0, 0, 0, 0, 0, 0]⟩,
  ⟨0, 70, [3, 0, 0, -4, 1, 0, 0, 0, 0, 0, 0, 0, 0, 0]⟩,
  ⟨10, -60, [2, 0, 0, -2, -1, 0, -6, 8, 0, 0, 0, 0, 0, 0]⟩,
  ⟨0, -70, [2, 0, -2, -3, -2, 0, 0, 0, 0, 0, 0, 0, 0, 0]⟩,
  ⟨0, 70, [2, -1, 2, 2, 1, 0, 0, 0, 0, 0, 0, 0, 0, 0]⟩,
  ⟨0, 70, [1, 0, 0, 1, 0, 0, 0, 0, 0, 0, 0, 0, 0, 0]⟩,
  ⟨0, 70, [1, -1, 0, 0, 2, 0, 0, 0, 0, 0, 0, 0, 0, 0]⟩,
  ⟨0, -70, [0, 1, 2, 4, 2, 0, 0, 0, 0, 0, 0, 0, 0, 0]⟩,
  ⟨0, 70, [0, 1, -2, -4, -1, 0, 0, 0, 0, 0, 0, 0, 0, 0]⟩,
  ⟨0, 70, [0, 1, -4, 2, -2, 0, 0, 0, 0, 0, 0, 0, 0, 0]⟩,
  ⟨70, 0, [0, 0, 1, -1, 2, 0, 0, -2, 2, 0, 0, 0, 0, 0]⟩,
  ⟨-70, 0, [0, 0, 1, -1, 1, 0, 2, -4, 0, -3, 0, 0, 0, 0]⟩,
  ⟨-50, 20, [0, 0, 1, -1, 1, 0, 0, -1, 0, 3, 0, 0, 0, 0]⟩,
  ⟨70, 0, [0, 0, 1, -1, 1, 0, 0, -1, 0, -1, 1, 0, 0, 0]⟩,
  ⟨0, -70, [0, 0, 0, 0, 1, 0, 3, -5, 0, 2, 0, 0, 0, 0]⟩,
  ⟨-20, -50, [0, 0, 0, 0, 0, 0, 9, -9, 0, 0, 0, 0, 0, -1]⟩,
  ⟨-60, -10, [0, 0, 0, 0, 0, 0, 3, -1, 0, 0, 0, 0, 0, 1]⟩,
  ⟨60, -10, [0, 0, 0, 0, 0, 0, 3, -3, 0, 0, 0, 0, 0, 1]⟩,
  ⟨50, -20, [0, 0, 0, 0, 0, 0, 2, -3, 0, 0, 0, 0, 0, -2]⟩,
  ⟨20, 50, [0, 0, 0, 0, 0, 0, 0, 11, 0, 0, 0, 0, 0, 2]⟩,
  ⟨-20, -50, [0, 0, 0, 0, 0, 0, 0, 6, -15, 0, 0, 0, 0, -2]⟩,
  ⟨40, 30, [0, 0, 0, 0, 0, 0, 0, 4, -8, 0, 0, 0, 0, -2]⟩,
  ⟨50, -20, [0, 0, 0, 0, 0, 0, 0, 3, 0, 2, -5, 0, 0, 2]⟩,
  ⟨-50, 20, [0, 0, 0, 0, 0, 0, 0, 3, 0, 1, 0, 0, 0, 2]⟩,
  ⟨0, -70, [0, 0, 0, 0, 0, 0, 0, 3, -5, 0, 0, 0, 0, -2]⟩,
  ⟨0, -70, [0, 0, 0, 0, 0, 0, 0, 2, 0, -4, 0, 0, 0, -2]⟩,
  ⟨70, 0, [0, 0, 0, 0, 0, 0, 0, 0, 0, 0, 3, 0, 0, 2]⟩,
  ⟨-40, 20, [2, 0, -1, -1, -1, 0, 0, -1, 0, 3, 0, 0, 0, 0]⟩,
  ⟨20, 40, [0, 0, 1, -1, 1, 0, 0, -1, 0, 0, 3, 0, 0, 0]⟩,
  ⟨40, 20, [0, 0, 0, 0, 1, 0, 0, 2, -4, 0, 0, 0, 0, 0]⟩,
  ⟨-40, 20, [0, 0, 0, 0, 0, 1, 0, -4, 0, 0, 0, 0, 0, -2]⟩,
  ⟨40, -20, [0, 0, 0, 0, 0, 0, 0, 6, 0, 0, 0, 0, 0, 2]⟩,
  ⟨-40, -20, [0, 0, 0, 0, 0, 0, 0, 6, -6, 0, 0, 0, 0, 2]⟩,
  ⟨40, 20, [0, 0, 0, 0, 0, 0, 0, 1, -5, 0, 0, 0, 0, -2]⟩,
  ⟨-20, -40, [0, 0, 0, 0, 0, 0, 0, 0, 0, 0, 3, 0, 0, 1]⟩,
  ⟨0, 60, [4, 0, -2, -2, -1, 0, 0, 0, 0, 0, 0, 0, 0, 0]⟩,
  ⟨0, 60, [3, 0, 0, 2, 1, 0, 0, 0, 0, 0, 0, 0, 0, 0]⟩,
  ⟨0, 60, [2, 1, 0, 0, 0, 0, 0, 0, 0, 0, 0, 0, 0, 0]⟩,
  ⟨0, -60, [2, 1, 0, -4, -1, 0, 0, 0, 0, 0, 0, 0, 0, 0]⟩,
  ⟨0, -60, [2, 0, 0, -2, -1, 0, 0, -2, 0, 0, 5, 0, 0, 0]⟩,
  ⟨0, -60, [2, 0, -2, 2, -2, 0, 0, 0, 0, 0, 0, 0, 0, 0]⟩,
  ⟨0, -60, [1, 1, 0, -2, 2, 0, 0, 0, 0, 0, 0, 0, 0, 0]⟩,
  ⟨0, 60, [1, 1, 0, -4, 1, 0, 0, 0, 0, 0, 0, 0, 0, 0]⟩,
  ⟨0, 60, [1, 1, 0, -4, -1, 0, 0, 0, 0, 0, 0, 0, 0, 0]⟩]

/-- tab5.3b.txt, rows 561 to 640 of j0 of `_parse_table_5_3b`. -/
def eps0_7 : List Row := [
  ⟨0, 60, [1, 0, 0, -4, -2, 0, 0, 0, 0, 0, 0, 0, 0, 0]⟩,
  ⟨0, -60, [1, 0, -2, -2, -2, 0, 0, -2, 0, 2, 0, 0, 0, 0]⟩,
  ⟨0, -60, [1, -1, 2, -4, 1, 0, 0, 0, 0, 0, 0, 0, 0, 0]⟩,
  ⟨0, -60, [0, 1, 0, 1, 0, 0, 0, 0, 0, 0, 0, 0, 0, 0]⟩,
  ⟨0, 60, [0, 0, 2, 2, -1, 0, 0, 0, 0, 0, 0, 0, 0, 0]⟩,
  ⟨60, 0, [0, 0, 2, -2, 2, 0, -8, 11, 0, 0, 0, 0, 0, 0]⟩,
  ⟨0, -60, [0, 0, 2, -2, 1, 0, -2, 2, 0, 0, 0, 0, 0, 0]⟩,
  ⟨50, 10, [0, 0, 1, -1, 1, 0, -2, 3, 0, 0, 0, 0, 0, 0]⟩,
  ⟨10, -50, [0, 0, 1, -1, -1, 0, 0, 0, -2, 0, 0, 0, 0, 0]⟩,
  ⟨0, -60, [0, 0, 0, 3, 1, 0, 0, 0, 0, 0, 0, 0, 0, 0]⟩,
  ⟨0, -60, [0, 0, 0, 1, 2, 0, 0, 0, 0, 0, 0, 0, 0, 0]⟩,
  ⟨0, -60, [0, 0, 0, 0, 1, 0, 0, -1, 0, 1, 0, 0, 0, 0]⟩,
  ⟨30, 30, [0, 0, 0, 0, 0, 0, 8, -13, 0, 0, 0, 0, 0, 1]⟩,
  ⟨-50, -10, [0, 0, 0, 0, 0, 0, 7, -7, 0, 0, 0, 0, 0, -1]⟩,
  ⟨-10, -50, [0, 0, 0, 0, 0, 0, 4, -4, 0, 0, 0, 0, 0, 2]⟩,
  ⟨10, 50, [0, 0, 0, 0, 0, 0, 1, -2, 0, 0, 0, 0, 0, 1]⟩,
  ⟨50, -10, [0, 0, 0, 0, 0, 0, 0, 5, 0, -2, 0, 0, 0, 2]⟩,
  ⟨-10, 50, [0, 0, 0, 0, 0, 0, 0, 3, -6, 0, 0, 0, 0, -1]⟩,
  ⟨0, 60, [0, 0, 0, 0, 0, 0, 0, 1, 1, 0, 0, 0, 0, 2]⟩,
  ⟨0, 60, [0, 0, 0, 0, 0, 0, 0, 1, 0, 0, 1, 0, 0, 2]⟩,
  ⟨0, 50, [3, -1, 2, 2, 2, 0, 0, 0, 0, 0, 0, 0, 0, 0]⟩,
  ⟨0, -50, [3, -1, 2, -2, 2, 0, 0, 0, 0, 0, 0, 0, 0, 0]⟩,
  ⟨0, 50, [3, -1, -2, -1, -2, 0, 0, 0, 0, 0, 0, 0, 0, 0]⟩,
  ⟨10, 40, [2, 1, 0, -2, 0, 0, 0, 0, 0, 0, 0, 0, 0, 0]⟩,
  ⟨0, 50, [2, 1, 0, -4, 1, 0, 0, 0, 0, 0, 0, 0, 0, 0]⟩,
  ⟨0, -50, [2, 1, -2, -2, -1, 0, 0, 0, 0, 0, 0, 0, 0, 0]⟩,
  ⟨0, 50, [2, 0, 2, 0, -1, 0, 0, 0, 0, 0, 0, 0, 0, 0]⟩,
  ⟨30, -20, [2, 0, 0, -2, 1, 0, 0, -6, 8, 0, 0, 0, 0, 0]⟩,
  ⟨-20, 30, [2, 0, 0, -2, -1, 0, 0, -5, 6, 0, 0, 0, 0, 0]⟩,
  ⟨20, 30, [2, 0, -1, -1, -1, 0, 0, 3, -7, 0, 0, 0, 0, 0]⟩,
  ⟨0, 50, [2, 0, -4, 0, -1, 0, 0, 0, 0, 0, 0, 0, 0, 0]⟩,
  ⟨0, -50, [1, 1, 0, 0, 2, 0, 0, 0, 0, 0, 0, 0, 0, 0]⟩,
  ⟨0, -50, [1, 1, 0, -4, 0, 0, 0, 0, 0, 0, 0, 0, 0, 0]⟩,
  ⟨0, -50, [1, 0, 0, 2, -2, 0, 0, 0, 0, 0, 0, 0, 0, 0]⟩,
  ⟨0, 50, [1, 0, 0, -1, 2, 0, 0, 0, 0, 0, 0, 0, 0, 0]⟩,
  ⟨0, 50, [1, 0, -2, 2, 0, 0, 0, 0, 0, 0, 0, 0, 0, 0]⟩,
  ⟨0, 50, [1, -2, 2, -2, 2, 0, 0, 0, 0, 0, 0, 0, 0, 0]⟩,
  ⟨0, -50, [1, -2, 0, 0, 1, 0, 0, 0, 0, 0, 0, 0, 0, 0]⟩,
  ⟨0, -50, [0, 1, 0, 2, 2, 0, 0, 0, 0, 0, 0, 0, 0, 0]⟩,
  ⟨0, 50, [0, 1, -2, 2, -3, 0, 0, 0, 0, 0, 0, 0, 0, 0]⟩,
  ⟨0, -50, [0, 1, -2, -1, -2, 0, 0, 0, 0, 0, 0, 0, 0, 0]⟩,
  ⟨-50, 0, [0, 0, 3, 0, 2, 0, 0, 0, 0, 0, 0, 0, 0, 0]⟩,
  ⟨0, 50, [0, 0, 2, 6, 2, 0, 0, 0, 0, 0, 0, 0, 0, 0]⟩,
  ⟨40, 10, [0, 0, 2, 0, 2, 0, 0, 4, -8, 3, 0, 0, 0, 0]⟩,
  ⟨40, -10, [0, 0, 2, 0, 2, 0, 0, -4, 8, -3, 0, 0, 0, 0]⟩,
  ⟨0, 50, [0, 0, 2, -2, 2, 0, -3, 3, 0, 0, 0, 0, 0, 0]⟩,
  ⟨50, 0, [0, 0, 2, -2, 2, 0, -5, 6, 0, 0, 0, 0, 0, 0]⟩,
  ⟨40, 10, [0, 0, 2, -2, 1, -1, 0, 2, 0, 0, 0, 0, 0, 0]⟩,
  ⟨-50, 0, [0, 0, 1, -1, 1, 0, 0, 1, 0, 0, 0, 0, 0, 0]⟩,
  ⟨-40, -10, [0, 0, 1, -1, 1, 0, 0, -1, 0, 0, 0, 2, 0, 0]⟩,
  ⟨10, 40, [0, 0, 0, 0, 1, 0, 3, -5, 0, 0, 0, 0, 0, 0]⟩,
  ⟨50, 0, [0, 0, 0, 0, 0, 0, 9, -12, 0, 0, 0, 0, 0, -2]⟩,
  ⟨0, -50, [0, 0, 0, 0, 0, 0, 6, -9, 0, 0, 0, 0, 0, -1]⟩,
  ⟨40, -10, [0, 0, 0, 0, 0, 0, 5, -6, 0, 0, 0, 0, 0, 2]⟩,
  ⟨-40, 10, [0, 0, 0, 0, 0, 0, 5, -10, 0, 0, 0, 0, 0, -2]⟩,
  ⟨-50, 0, [0, 0, 0, 0, 0, 0, 4, -4, 0, 0, 0, 0, 0, 1]⟩,
  ⟨30, 20, [0, 0, 0, 0, 0, 0, 1, 0, 0, 0, 0, 0, 0, 2]⟩,
  ⟨-30, 20, [0, 0, 0, 0, 0, 0, 0, 7, -13, 0, 0, 0, 0, -2]⟩,
  ⟨-50, 0, [0, 0, 0, 0, 0, 0, 0, 6, -11, 0, 0, 0, 0, -2]⟩,
  ⟨10, 40, [0, 0, 0, 0, 0, 0, 0, 5, 0, -3, 0, 0, 0, 2]⟩,
  ⟨20, 30, [0, 0, 0, 0, 0, 0, 0, 2, -5, 0, 0, 0, 0, -2]⟩,
  ⟨-30, 20, [0, 0, 0, 0, 0, 0, 0, 1, 0, 3, 0, 0, 0, 2]⟩,
  ⟨0, 50, [0, 0, 0, 0, 0, 0, 0, 1, -3, 0, 0, 0, 0, -2]⟩,
  ⟨10, 40, [0, 0, 0, 0, 0, 0, 0, 0, 0, 4, 0, 0, 0, 2]⟩,
  ⟨0, -40, [5, 0, 2, -2, 2, 0, 0, 0, 0, 0, 0, 0, 0, 0]⟩,
  ⟨0, -40, [4, 0, 0, 0, 0, 0, 0, 0, 0, 0, 0, 0, 0, 0]⟩,
  ⟨0, 40, [4, 0, 0, 0, -1, 0, 0, 0, 0, 0, 0, 0, 0, 0]⟩,
  ⟨0, -40, [3, 1, 2, 0, 1, 0, 0, 0, 0, 0, 0, 0, 0, 0]⟩,
  ⟨0, 40, [3, 0, 2, -1, 2, 0, 0, 0, 0, 0, 0, 0, 0, 0]⟩,
  ⟨0, 40, [3, -1, 2, 0, 1, 0, 0, 0, 0, 0, 0, 0, 0, 0]⟩,
  ⟨0, 40, [2, 0, 2, -1, 1, 0, 0, 0, 0, 0, 0, 0, 0, 0]⟩,
  ⟨0, -40, [2, 0, 0, 2, 2, 0, 0, 0, 0, 0, 0, 0, 0, 0]⟩,
  ⟨0, 40, [2, -2, 2, 0, 2, 0, 0, 0, 0, 0, 0, 0, 0, 0]⟩,
  ⟨-10, 30, [2, -2, 2, -2, 2, 0, 0, 0, 0, 0, 0, 0, 0, 0]⟩,
  ⟨0, -40, [1, 2, 2, -2, 1, 0, 0, 0, 0, 0, 0, 0, 0, 0]⟩,
  ⟨0, 40, [1, 2, -2, -4, -2, 0, 0, 0, 0, 0, 0, 0, 0, 0]⟩,
  ⟨0, 40, [1, 1, 2, 1, 1, 0, 0, 0, 0, 0, 0, 0, 0, 0]⟩,
  ⟨-10, 30, [1, 1, 0, 2, 0, 0, 0, 0, 0, 0, 0, 0, 0, 0]⟩,
  ⟨0, -40, [1, 1, 0, 2, -1, 0, 0, 0, 0, 0, 0, 0, 0, 0]⟩,
  ⟨0, -40, [1, 1, 0, -1, 1, 0, 0, 0, 0, 0, 0, 0, 0, 0]⟩]

/-- tab5.3b.txt, rows 641 to 720 of j0 of `_parse_table_5_3b`. -/
def eps0_8 : List Row := [
  ⟨0, 40, [1, 0, 4, -4, 2, 0, 0, 0, 0, 0, 0, 0, 0, 0]⟩,
  ⟨0, -40, [1, 0, 2, 2, 0, 0, 0, 0, 0, 0, 0, 0, 0, 0]⟩,
  ⟨0, -40, [1, 0, 0, 4, 0, 0, 0, 0, 0, 0, 0, 0, 0, 0]⟩,
  ⟨0, -40, [1, 0, 0, -3, 1, 0, 0, 0, 0, 0, 0, 0, 0, 0]⟩,
  ⟨40, 0, [1, 0, -1, 0, 1, 0, 0, 0, 0, 0, 0, 0, 0, 0]⟩,
  ⟨0, 40, [1, -1, -2, -3, -2, 0, 0, 0, 0, 0, 0, 0, 0, 0]⟩,
  ⟨0, 40, [1, -2, 0, -2, -1, 0, 0, 0, 0, 0, 0, 0, 0, 0]⟩,
  ⟨0, -40, [1, -2, -2, 0, -2, 0, 0, 0, 0, 0, 0, 0, 0, 0]⟩,
  ⟨0, -40, [0, 2, 2, 0, 1, 0, 0, 0, 0, 0, 0, 0, 0, 0]⟩,
  ⟨0, -40, [0, 2, 0, -2, 0, 0, 0, 0, 0, 0, 0, 0, 0, 0]⟩,
  ⟨-10, 30, [0, 2, -2, 0, -1, 0, 0, 0, 0, 0, 0, 0, 0, 0]⟩,
  ⟨0, 40, [0, 0, 4, -1, 2, 0, 0, 0, 0, 0, 0, 0, 0, 0]⟩,
  ⟨0, -40, [0, 0, 2, 0, 2, 0, 1, -1, 0, 0, 0, 0, 0, 0]⟩,
  ⟨0, -40, [0, 0, 2, -2, 1, 0, 0, -2, 0, 3, 0, 0, 0, 0]⟩,
  ⟨0, -40, [0, 0, 2, -2, 1, 0, 0, -2, 0, 0, 2, 0, 0, 0]⟩,
  ⟨40, 0, [0, 0, 2, -2, 1, 0, 0, -8, 11, 0, 0, 0, 0, 0]⟩,
  ⟨0, 40, [0, 0, 2, -2, -2, 0, 0, 0, 0, 0, 0, 0, 0, 0]⟩,
  ⟨40, 0, [0, 0, 1, -1, 2, 0, 0, -1, 0, 2, 0, 0, 0, 0]⟩,
  ⟨-20, -20, [0, 0, 1, -1, 1, 0, 0, -1, 0, 0, -2, 0, 0, 0]⟩,
  ⟨-40, 0, [0, 0, 1, -1, 1, 0, 0, -1, 0, -1, 2, 0, 0, 0]⟩,
  ⟨20, -20, [0, 0, 1, -1, 1, 0, 0, -1, 0, -2, 4, 0, 0, 0]⟩,
  ⟨-20, 20, [0, 0, 0, 0, 2, 0, 0, -1, 2, 0, 0, 0, 0, 0]⟩,
  ⟨-10, 30, [0, 0, 0, 0, 1, 0, 0, -8, 15, 0, 0, 0, 0, 0]⟩,
  ⟨-40, 0, [0, 0, 0, 0, 0, 0, 8, -8, 0, 0, 0, 0, 0, -1]⟩,
  ⟨-40, 0, [0, 0, 0, 0, 0, 0, 8, -10, 0, 0, 0, 0, 0, -1]⟩,
  ⟨-30, 10, [0, 0, 0, 0, 0, 0, 6, -10, 0, 0, 0, 0, 0, -1]⟩,
  ⟨0, 40, [0, 0, 0, 0, 0, 0, 5, -5, 0, 0, 0, 0, 0, 2]⟩,
  ⟨0, -40, [0, 0, 0, 0, 0, 0, 5, -9, 0, 0, 0, 0, 0, -2]⟩,
  ⟨0, -40, [0, 0, 0, 0, 0, 0, 4, -2, 0, 0, 0, 0, 0, 2]⟩,
  ⟨-40, 0, [0, 0, 0, 0, 0, 0, 4, -2, 0, 0, 0, 0, 0, 1]⟩,
  ⟨40, 0, [0, 0, 0, 0, 0, 0, 4, -3, 0, 0, 0, 0, 0, 2]⟩,
  ⟨0, -40, [0, 0, 0, 0, 0, 0, 3, -4, 0, 0, 0, 0, 0, -1]⟩,
  ⟨0, 40, [0, 0, 0, 0, 0, 0, 3, -6, 0, 0, 0, 0, 0, -1]⟩,
  ⟨0, 40, [0, 0, 0, 0, 0, 0, 2, -6, 0, 0, 0, 0, 0, -2]⟩,
  ⟨40, 0, [0, 0, 0, 0, 0, 0, 0, 8, -15, 0, 0, 0, 0, -1]⟩,
  ⟨0, -40, [0, 0, 0, 0, 0, 0, 0, 6, 0, 0, 0, 0, 0, 0]⟩,
  ⟨10, 30, [0, 0, 0, 0, 0, 0, 0, 6, -5, 0, 0, 0, 0, 2]⟩,
  ⟨-40, 0, [0, 0, 0, 0, 0, 0, 0, 5, -2, 0, 0, 0, 0, 2]⟩,
  ⟨0, 40, [0, 0, 0, 0, 0, 0, 0, 5, -3, 0, 0, 0, 0, 2]⟩,
  ⟨20, 20, [0, 0, 0, 0, 0, 0, 0, 2, 2, 0, 0, 0, 0, 2]⟩,
  ⟨-10, 30, [0, 0, 0, 0, 0, 0, 0, 2, 0, -2, 0, 0, 0, 2]⟩,
  ⟨40, 0, [0, 0, 0, 0, 0, 0, 0, 0, 0, 0, 1, 0, 0, 2]⟩,
  ⟨-10, -20, [2, 0, 2, 0, 1, 0, 0, 1, 0, 0, 0, 0, 0, 0]⟩,
  ⟨-20, 10, [2, 0, 0, -2, -1, 0, 0, -6, 8, 0, 0, 0, 0, 0]⟩,
  ⟨-10, -20, [2, 0, -1, -1, 1, 0, 0, 3, -7, 0, 0, 0, 0, 0]⟩,
  ⟨10, -20, [1, 0, 0, -1, 1, 0, 0, -3, 4, 0, 0, 0, 0, 0]⟩,
  ⟨-10, 20, [1, 0, -2, 0, -2, 0, -10, 3, 0, 0, 0, 0, 0, 0]⟩,
  ⟨20, -10, [0, 0, 2, -2, 1, 0, 0, -7, 9, 0, 0, 0, 0, 0]⟩,
  ⟨20, 10, [0, 0, 1, -1, 2, 0, 0, -1, 0, -2, 5, 0, 0, 0]⟩,
  ⟨20, 10, [0, 0, 1, -1, -1, 0, 0, -1, 0, -1, 0, 0, 0, 0]⟩,
  ⟨-20, -10, [0, 0, 0, 0, 1, 0, 0, 1, 0, -2, 0, 0, 0, 0]⟩,
  ⟨-20, 10, [0, 0, 0, 0, 1, 0, 0, -9, 17, 0, 0, 0, 0, 0]⟩,
  ⟨-10, -20, [0, 0, 0, 0, 0, 0, 2, -3, 0, 0, 0, 0, 0, 1]⟩,
  ⟨20, 10, [0, 0, 0, 0, 0, 0, 1, -2, 0, 0, 0, 0, 0, -2]⟩,
  ⟨20, -10, [0, 0, 0, 0, 0, 0, 1, -4, 0, 0, 0, 0, 0, -2]⟩,
  ⟨30, 0, [0, 0, 0, 0, 0, 0, 0, 6, 0, 0, 0, 0, 0, 1]⟩,
  ⟨-20, -10, [0, 0, 0, 0, 0, 0, 0, 6, -10, 0, 0, 0, 0, -2]⟩,
  ⟨-10, -20, [0, 0, 0, 0, 0, 0, 0, 5, -8, 0, 0, 0, 0, -2]⟩,
  ⟨20, -10, [0, 0, 0, 0, 0, 0, 0, 3, -5, 0, 0, 0, 0, -1]⟩,
  ⟨20, 10, [0, 0, 0, 0, 0, 0, 0, 2, -6, 0, 0, 0, 0, -2]⟩,
  ⟨0, 30, [4, 0, 2, -4, 2, 0, 0, 0, 0, 0, 0, 0, 0, 0]⟩,
  ⟨0, -30, [3, 0, 0, -2, 1, 0, 0, 0, 0, 0, 0, 0, 0, 0]⟩,
  ⟨0, -30, [2, 2, 2, -2, 2, 0, 0, 0, 0, 0, 0, 0, 0, 0]⟩,
  ⟨0, 30, [2, 1, 2, 1, 2, 0, 0, 0, 0, 0, 0, 0, 0, 0]⟩,
  ⟨0, -30, [2, 1, 2, -4, 1, 0, 0, 0, 0, 0, 0, 0, 0, 0]⟩,
  ⟨0, -30, [2, 1, -2, 0, 1, 0, 0, 0, 0, 0, 0, 0, 0, 0]⟩,
  ⟨0, -30, [2, 0, 4, -2, 1, 0, 0, 0, 0, 0, 0, 0, 0, 0]⟩,
  ⟨0, -30, [2, 0, 2, 1, 1, 0, 0, 0, 0, 0, 0, 0, 0, 0]⟩,
  ⟨0, 30, [2, 0, 0, -2, -1, 0, 0, -2, 0, 4, -5, 0, 0, 0]⟩,
  ⟨0, 30, [2, 0, 0, -2, -1, 0, -3, 3, 0, 0, 0, 0, 0, 0]⟩,
  ⟨0, -30, [2, 0, 0, -2, -2, 0, -3, 3, 0, 0, 0, 0, 0, 0]⟩,
  ⟨0, 30, [2, 0, 0, -3, -1, 0, 0, 0, 0, 0, 0, 0, 0, 0]⟩,
  ⟨30, 0, [2, 0, -1, -1, -1, 0, 0, -1, 0, 2, 0, 0, 0, 0]⟩,
  ⟨30, 0, [2, 0, -1, -1, -1, 0, 0, -1, 0, 0, 0, 0, 0, 0]⟩,
  ⟨0, 30, [2, 0, -2, -6, -1, 0, 0, 0, 0, 0, 0, 0, 0, 0]⟩,
  ⟨0, 30, [2, 0, -4, 2, -2, 0, 0, 0, 0, 0, 0, 0, 0, 0]⟩,
  ⟨0, -30, [2, 0, -4, -2, -1, 0, 0, 0, 0, 0, 0, 0, 0, 0]⟩,
  ⟨0, -30, [2, -1, 2, -1, 2, 0, 0, 0, 0, 0, 0, 0, 0, 0]⟩,
  ⟨0, -30, [2, -1, 2, -2, 1, 0, 0, 0, 0, 0, 0, 0, 0, 0]⟩,
  ⟨0, 30, [2, -1, -2, 0, -2, 0, 0, 0, 0, 0, 0, 0, 0, 0]⟩]

/-- tab5.3b.txt, rows 721 to 800 of j0 of `_parse_table_5_3b`. -/
def eps0_9 : List Row := [
  ⟨0, -30, [2, -2, 0, -2, 1, 0, 0, 0, 0, 0, 0, 0, 0, 0]⟩,
  ⟨0, -30, [1, 1, 4, -2, 2, 0, 0, 0, 0, 0, 0, 0, 0, 0]⟩,
  ⟨0, -30, [1, 1, 2, -4, 2, 0, 0, 0, 0, 0, 0, 0, 0, 0]⟩,
  ⟨0, -30, [1, 0, 2, 3, 2, 0, 0, 0, 0, 0, 0, 0, 0, 0]⟩,
  ⟨0, 30, [1, 0, 2, 0, 3, 0, 0, 0, 0, 0, 0, 0, 0, 0]⟩,
  ⟨0, 30, [1, 0, 2, -2, 2, 0, 0, -2, 0, 2, 0, 0, 0, 0]⟩,
  ⟨30, 0, [1, 0, 1, -1, 1, 0, 0, -1, 0, 0, 0, 0, 0, 0]⟩,
  ⟨0, 30, [1, 0, 0, 4, -1, 0, 0, 0, 0, 0, 0, 0, 0, 0]⟩,
  ⟨0, -30, [1, 0, 0, -1, -1, 0, 0, -2, 2, 0, 0, 0, 0, 0]⟩,
  ⟨0, 30, [1, 0, 0, -6, -1, 0, 0, 0, 0, 0, 0, 0, 0, 0]⟩,
  ⟨30, 0, [1, 0, -1, 1, -1, 0, -18, 17, 0, 0, 0, 0, 0, 0]⟩,
  ⟨0, -30, [1, 0, -1, -1, -1, 0, 20, -20, 0, 0, 0, 0, 0, 0]⟩,
  ⟨0, 30, [1, 0, -2, 0, -3, 0, 0, 0, 0, 0, 0, 0, 0, 0]⟩,
  ⟨0, -30, [1, 0, -2, -2, -2, 0, -3, 3, 0, 0, 0, 0, 0, 0]⟩,
  ⟨0, -30, [1, -1, 0, -4, -1, 0, 0, 0, 0, 0, 0, 0, 0, 0]⟩,
  ⟨0, 30, [1, -2, 2, 0, 1, 0, 0, 0, 0, 0, 0, 0, 0, 0]⟩,
  ⟨0, 30, [1, -2, 0, 0, -1, 0, 0, 0, 0, 0, 0, 0, 0, 0]⟩,
  ⟨0, -30, [1, -2, 0, -2, 1, 0, 0, 0, 0, 0, 0, 0, 0, 0]⟩,
  ⟨0, -30, [1, -2, -2, -2, -1, 0, 0, 0, 0, 0, 0, 0, 0, 0]⟩,
  ⟨0, -30, [0, 2, 2, 2, 2, 0, 0, 0, 0, 0, 0, 0, 0, 0]⟩,
  ⟨0, 30, [0, 2, -2, -4, -2, 0, 0, 0, 0, 0, 0, 0, 0, 0]⟩,
  ⟨0, -30, [0, 1, 4, -2, 1, 0, 0, 0, 0, 0, 0, 0, 0, 0]⟩,
  ⟨0, 30, [0, 1, 2, 3, 2, 0, 0, 0, 0, 0, 0, 0, 0, 0]⟩,
  ⟨0, -30, [0, 1, 0, -2, 2, 0, 0, 0, 0, 0, 0, 0, 0, 0]⟩,
  ⟨0, 30, [0, 1, 0, -4, 1, 0, 0, 0, 0, 0, 0, 0, 0, 0]⟩,
  ⟨0, -30, [0, 0, 4, -2, 4, 0, 0, 0, 0, 0, 0, 0, 0, 0]⟩,
  ⟨0, -30, [0, 0, 2, 3, 1, 0, 0, 0, 0, 0, 0, 0, 0, 0]⟩,
  ⟨0, 30, [0, 0, 2, 0, 2, 0, 0, 1, 0, -1, 0, 0, 0, 0]⟩,
  ⟨0, -30, [0, 0, 2, 0, 2, 0, 0, -1, 0, 1, 0, 0, 0, 0]⟩,
  ⟨0, 30, [0, 0, 2, 0, 2, 0, -1, 1, 0, 0, 0, 0, 0, 0]⟩,
  ⟨0, -30, [0, 0, 2, 0, -2, 0, 0, 0, 0, 0, 0, 0, 0, 0]⟩,
  ⟨0, 30, [0, 0, 2, -2, 4, 0, 0, 0, 0, 0, 0, 0, 0, 0]⟩,
  ⟨0, -30, [0, 0, 2, -2, 1, 0, 0, -1, 0, 1, 0, 0, 0, 0]⟩,
  ⟨-30, 0, [0, 0, 2, -2, -1, 0, -5, 6, 0, 0, 0, 0, 0, 0]⟩,
  ⟨0, 30, [0, 0, 1, -1, 2, 0, 0, 0, -2, 0, 0, 0, 0, 0]⟩,
  ⟨30, 0, [0, 0, 1, -1, 2, 0, 0, -1, 0, 1, 0, 0, 0, 0]⟩,
  ⟨30, 0, [0, 0, 1, -1, 1, 0, 1, -2, 0, 0, 0, 0, 0, 0]⟩,
  ⟨30, 0, [0, 0, 1, -1, 1, 0, -2, 1, 0, 0, 0, 0, 0, 0]⟩,
  ⟨0, 30, [0, 0, 0, 4, 2, 0, 0, 0, 0, 0, 0, 0, 0, 0]⟩,
  ⟨0, 30, [0, 0, 0, 1, -2, 0, 0, 0, 0, 0, 0, 0, 0, 0]⟩,
  ⟨-30, 0, [0, 0, 0, 0, 2, 0, 0, 4, -8, 3, 0, 0, 0, 0]⟩,
  ⟨-30, 0, [0, 0, 0, 0, 2, 0, 0, -4, 8, -3, 0, 0, 0, 0]⟩,
  ⟨30, 0, [0, 0, 0, 0, 1, 0, 5, -8, 0, 0, 0, 0, 0, 0]⟩,
  ⟨0, -30, [0, 0, 0, 0, 1, 0, 2, -2, 0, 0, 0, 0, 0, 0]⟩,
  ⟨30, 0, [0, 0, 0, 0, 1, 0, 0, 0, 0, 0, -1, 0, 0, 0]⟩,
  ⟨-30, 0, [0, 0, 0, 0, 0, 0, 9, -11, 0, 0, 0, 0, 0, -1]⟩,
  ⟨0, 30, [0, 0, 0, 0, 0, 0, 8, -16, 0, 0, 0, 0, 0, -2]⟩,
  ⟨-30, 0, [0, 0, 0, 0, 0, 0, 5, -3, 0, 0, 0, 0, 0, 1]⟩,
  ⟨-30, 0, [0, 0, 0, 0, 0, 0, 0, 6, -7, 0, 0, 0, 0, 2]⟩,
  ⟨0, 30, [0, 0, 0, 0, 0, 0, 0, 4, 0, 0, -2, 0, 0, 2]⟩,
  ⟨30, 0, [0, 0, 0, 0, 0, 0, 0, 4, -8, 1, 5, 0, 0, -2]⟩,
  ⟨-30, 0, [0, 0, 0, 0, 0, 0, 0, 3, 0, 0, -2, 0, 0, 2]⟩,
  ⟨30, 0, [0, 0, 0, 0, 0, 0, 0, 1, 0, -1, 0, 0, 0, 1]⟩,
  ⟨30, 0, [0, 0, 0, 0, 0, 0, 0, 1, 0, -3, 0, 0, 0, -1]⟩,
  ⟨30, 0, [0, 0, 0, 0, 0, 0, 0, 1, -6, 0, 0, 0, 0, -2]⟩,
  ⟨0, -30, [0, 0, 0, 0, 0, 0, 0, 0, 0, 4, -5, 0, 0, 2]⟩,
  ⟨0, 30, [0, 0, 0, 0, 0, 0, 0, 0, 0, 0, 5, 0, 0, 2]⟩,
  ⟨0, 30, [0, 0, 0, 0, 0, 0, 0, 0, 0, 0, 0, 2, 0, 2]⟩,
  ⟨30, 0, [0, 0, 0, 0, 0, 0, 0, 0, 0, 0, 0, 2, 0, 1]⟩,
  ⟨0, 30, [0, 0, 0, 0, 0, 0, 0, 0, 0, 0, 0, 0, 2, 2]⟩,
  ⟨0, -20, [4, 1, 2, 0, 2, 0, 0, 0, 0, 0, 0, 0, 0, 0]⟩,
  ⟨0, 20, [4, 0, -2, 0, -1, 0, 0, 0, 0, 0, 0, 0, 0, 0]⟩,
  ⟨0, 20, [4, -1, 2, 0, 2, 0, 0, 0, 0, 0, 0, 0, 0, 0]⟩,
  ⟨0, -20, [4, -1, -2, -2, -2, 0, 0, 0, 0, 0, 0, 0, 0, 0]⟩,
  ⟨0, -20, [3, 1, 2, -2, 1, 0, 0, 0, 0, 0, 0, 0, 0, 0]⟩,
  ⟨0, -20, [3, 0, 4, -2, 2, 0, 0, 0, 0, 0, 0, 0, 0, 0]⟩,
  ⟨0, -20, [3, 0, 2, 1, 2, 0, 0, 0, 0, 0, 0, 0, 0, 0]⟩,
  ⟨0, -20, [3, 0, 2, 0, 0, 0, 0, 0, 0, 0, 0, 0, 0, 0]⟩,
  ⟨0, -20, [3, 0, 0, 2, 0, 0, 0, 0, 0, 0, 0, 0, 0, 0]⟩,
  ⟨0, 20, [3, 0, 0, 2, -1, 0, 0, 0, 0, 0, 0, 0, 0, 0]⟩,
  ⟨0, 20, [3, 0, 0, 0, 2, 0, 0, 0, 0, 0, 0, 0, 0, 0]⟩,
  ⟨0, 20, [3, 0, -2, 2, -1, 0, 0, 0, 0, 0, 0, 0, 0, 0]⟩,
  ⟨0, -20, [3, 0, -2, -1, -1, 0, 0, 0, 0, 0, 0, 0, 0, 0]⟩,
  ⟨0, 20, [3, 0, -2, -6, -1, 0, 0, 0, 0, 0, 0, 0, 0, 0]⟩,
  ⟨0, 20, [2, 2, -2, -4, -2, 0, 0, 0, 0, 0, 0, 0, 0, 0]⟩,
  ⟨0, -20, [2, 1, 2, 2, 1, 0, 0, 0, 0, 0, 0, 0, 0, 0]⟩,
  ⟨0, -20, [2, 1, 0, 2, 1, 0, 0, 0, 0, 0, 0, 0, 0, 0]⟩,
  ⟨0, -20, [2, 1, 0, -2, -2, 0, 0, 0, 0, 0, 0, 0, 0, 0]⟩,
  ⟨0, -20, [2, 1, 0, -4, 0, 0, 0, 0, 0, 0, 0, 0, 0, 0]⟩,
  ⟨0, -20, [2, 1, -2, 0, 0, 0, 0, 0, 0, 0, 0, 0, 0, 0]⟩]

/-- tab5.3b.txt, rows 801 to 880 of j0 of `_parse_table_5_3b`. -/
def eps0_10 : List Row := [
  ⟨0, 20, [2, 1, -2, -6, -2, 0, 0, 0, 0, 0, 0, 0, 0, 0]⟩,
  ⟨0, 20, [2, 0, 4, -4, 2, 0, 0, 0, 0, 0, 0, 0, 0, 0]⟩,
  ⟨0, 20, [2, 0, 2, 4, 1, 0, 0, 0, 0, 0, 0, 0, 0, 0]⟩,
  ⟨0, 20, [2, 0, 2, -2, 0, 0, 0, 0, 0, 0, 0, 0, 0, 0]⟩,
  ⟨0, -20, [2, 0, 2, -2, -1, 0, 0, 0, 0, 0, 0, 0, 0, 0]⟩,
  ⟨0, 20, [2, 0, 2, -3, 2, 0, 0, 0, 0, 0, 0, 0, 0, 0]⟩,
  ⟨20, 0, [2, 0, 2, -4, 0, 0, 0, 0, 0, 0, 0, 0, 0, 0]⟩,
  ⟨0, 20, [2, 0, 2, -6, 1, 0, 0, 0, 0, 0, 0, 0, 0, 0]⟩,
  ⟨0, 20, [2, 0, 0, 4, 1, 0, 0, 0, 0, 0, 0, 0, 0, 0]⟩,
  ⟨0, -20, [2, 0, 0, -1, 1, 0, 0, 0, 0, 0, 0, 0, 0, 0]⟩,
  ⟨0, -20, [2, 0, 0, -2, 1, 0, 0, -5, 6, 0, 0, 0, 0, 0]⟩,
  ⟨0, -20, [2, 0, 0, -2, -1, 0, 0, -2, 0, 3, -1, 0, 0, 0]⟩,
  ⟨0, -20, [2, 0, 0, -3, 1, 0, 0, 0, 0, 0, 0, 0, 0, 0]⟩,
  ⟨0, 20, [2, 0, 0, -6, -1, 0, 0, 0, 0, 0, 0, 0, 0, 0]⟩,
  ⟨20, 0, [2, 0, -1, -1, -2, 0, 0, -1, 0, 2, 0, 0, 0, 0]⟩,
  ⟨0, -20, [2, 0, -2, -2, 1, 0, 0, 0, 0, 0, 0, 0, 0, 0]⟩,
  ⟨0, 20, [2, 0, -2, -2, 0, 0, 0, 0, 0, 0, 0, 0, 0, 0]⟩,
  ⟨0, 20, [2, 0, -4, 2, -1, 0, 0, 0, 0, 0, 0, 0, 0, 0]⟩,
  ⟨0, 20, [2, -1, 0, 2, 1, 0, 0, 0, 0, 0, 0, 0, 0, 0]⟩,
  ⟨0, 20, [2, -1, 0, 2, -1, 0, 0, 0, 0, 0, 0, 0, 0, 0]⟩,
  ⟨0, 20, [2, -1, -2, 2, -1, 0, 0, 0, 0, 0, 0, 0, 0, 0]⟩,
  ⟨0, 20, [2, -1, -2, -2, -1, 0, 0, 0, 0, 0, 0, 0, 0, 0]⟩,
  ⟨0, 20, [2, -2, 2, 2, 2, 0, 0, 0, 0, 0, 0, 0, 0, 0]⟩,
  ⟨0, -20, [2, -2, 0, -2, -2, 0, 0, 0, 0, 0, 0, 0, 0, 0]⟩,
  ⟨0, -20, [1, 2, 2, 0, 1, 0, 0, 0, 0, 0, 0, 0, 0, 0]⟩,
  ⟨0, 20, [1, 2, 0, 0, 1, 0, 0, 0, 0, 0, 0, 0, 0, 0]⟩,
  ⟨0, -20, [1, 2, 0, -2, 0, 0, 0, 0, 0, 0, 0, 0, 0, 0]⟩,
  ⟨0, -20, [1, 1, 2, 4, 2, 0, 0, 0, 0, 0, 0, 0, 0, 0]⟩,
  ⟨0, -20, [1, 1, 0, 1, 1, 0, 0, 0, 0, 0, 0, 0, 0, 0]⟩,
  ⟨0, 20, [1, 1, 0, 1, -1, 0, 0, 0, 0, 0, 0, 0, 0, 0]⟩,
  ⟨0, 20, [1, 1, -2, 2, -2, 0, 0, 0, 0, 0, 0, 0, 0, 0]⟩,
  ⟨0, -20, [1, 1, -2, -3, -2, 0, 0, 0, 0, 0, 0, 0, 0, 0]⟩,
  ⟨0, 20, [1, 1, -2, -6, -2, 0, 0, 0, 0, 0, 0, 0, 0, 0]⟩,
  ⟨0, -20, [1, 0, 4, 0, 1, 0, 0, 0, 0, 0, 0, 0, 0, 0]⟩,
  ⟨-20, 0, [1, 0, 3, 0, 3, 0, 0, 0, 0, 0, 0, 0, 0, 0]⟩,
  ⟨0, 20, [1, 0, 2, -4, -1, 0, 0, 0, 0, 0, 0, 0, 0, 0]⟩,
  ⟨0, 20, [1, 0, 2, -6, 1, 0, 0, 0, 0, 0, 0, 0, 0, 0]⟩,
  ⟨20, 0, [1, 0, 1, 1, 1, 0, 0, 1, 0, 0, 0, 0, 0, 0]⟩,
  ⟨0, -20, [1, 0, 0, -1, 1, 0, 0, -1, 0, 1, 0, 0, 0, 0]⟩,
  ⟨0, 20, [1, 0, 0, -1, -1, 0, 0, -3, 4, 0, 0, 0, 0, 0]⟩,
  ⟨0, -20, [1, 0, 0, -2, 1, 0, 0, -2, 0, 2, 0, 0, 0, 0]⟩,
  ⟨0, 20, [1, 0, 0, -2, -1, 0, 0, -2, 0, 2, 0, 0, 0, 0]⟩,
  ⟨0, 20, [1, 0, 0, -3, 0, 0, 0, 0, 0, 0, 0, 0, 0, 0]⟩,
  ⟨0, 20, [1, 0, 0, -3, -1, 0, 0, 0, 0, 0, 0, 0, 0, 0]⟩,
  ⟨20, 0, [1, 0, -1, 1, -1, 0, 0, 1, 0, 0, 0, 0, 0, 0]⟩,
  ⟨0, 20, [1, 0, -1, 0, -1, 0, -3, 5, 0, 0, 0, 0, 0, 0]⟩,
  ⟨20, 0, [1, 0, -1, -2, -1, 0, 0, 0, 0, 0, 0, 0, 0, 0]⟩,
  ⟨0, 20, [1, 0, -2, 1, 1, 0, 0, 0, 0, 0, 0, 0, 0, 0]⟩,
  ⟨0, 20, [1, 0, -2, 0, 2, 0, 0, 0, 0, 0, 0, 0, 0, 0]⟩,
  ⟨0, 20, [1, 0, -2, -2, -2, 0, 0, -2, 0, 3, 0, 0, 0, 0]⟩,
  ⟨0, 20, [1, 0, -2, -6, -1, 0, 0, 0, 0, 0, 0, 0, 0, 0]⟩,
  ⟨0, -20, [1, 0, -4, -2, -1, 0, 0, 0, 0, 0, 0, 0, 0, 0]⟩,
  ⟨0, 20, [1, -1, 2, 4, 1, 0, 0, 0, 0, 0, 0, 0, 0, 0]⟩,
  ⟨0, -20, [1, -1, 2, 1, 2, 0, 0, 0, 0, 0, 0, 0, 0, 0]⟩,
  ⟨0, -20, [1, -1, 2, -3, 1, 0, 0, 0, 0, 0, 0, 0, 0, 0]⟩,
  ⟨0, 20, [1, -1, 0, 4, 1, 0, 0, 0, 0, 0, 0, 0, 0, 0]⟩,
  ⟨0, -20, [1, -1, 0, 0, -2, 0, 0, 0, 0, 0, 0, 0, 0, 0]⟩,
  ⟨0, 20, [1, -1, -2, 1, -1, 0, 0, 0, 0, 0, 0, 0, 0, 0]⟩,
  ⟨0, -20, [1, -1, -2, -4, -1, 0, 0, 0, 0, 0, 0, 0, 0, 0]⟩,
  ⟨0, 20, [1, -1, -4, 2, -2, 0, 0, 0, 0, 0, 0, 0, 0, 0]⟩,
  ⟨0, 20, [1, -2, 2, 2, 1, 0, 0, 0, 0, 0, 0, 0, 0, 0]⟩,
  ⟨10, -10, [1, -2, 0, -2, 0, 0, 0, 0, 0, 0, 0, 0, 0, 0]⟩,
  ⟨0, 20, [1, -2, -2, 2, -1, 0, 0, 0, 0, 0, 0, 0, 0, 0]⟩,
  ⟨0, 20, [0, 3, 0, 0, 0, 0, 0, 0, 0, 0, 0, 0, 0, 0]⟩,
  ⟨0, 20, [0, 3, -2, -2, -2, 0, 0, 0, 0, 0, 0, 0, 0, 0]⟩,
  ⟨0, -20, [0, 2, 0, 0, 2, 0, 0, 0, 0, 0, 0, 0, 0, 0]⟩,
  ⟨0, -20, [0, 1, 2, -2, 0, 0, 0, 0, 0, 0, 0, 0, 0, 0]⟩,
  ⟨0, -20, [0, 1, 2, -4, 2, 0, 0, 0, 0, 0, 0, 0, 0, 0]⟩,
  ⟨0, -20, [0, 1, 0, 4, 1, 0, 0, 0, 0, 0, 0, 0, 0, 0]⟩,
  ⟨0, -20, [0, 1, 0, -4, 0, 0, 0, 0, 0, 0, 0, 0, 0, 0]⟩,
  ⟨0, -20, [0, 1, -2, 4, -1, 0, 0, 0, 0, 0, 0, 0, 0, 0]⟩,
  ⟨0, -20, [0, 0, 4, 2, 2, 0, 0, 0, 0, 0, 0, 0, 0, 0]⟩,
  ⟨0, 20, [0, 0, 2, -2, 2, 0, 0, -2, 0, 2, 0, 0, 0, 0]⟩,
  ⟨20, 0, [0, 0, 2, -2, 1, 0, 0, 4, -8, 3, 0, 0, 0, 0]⟩,
  ⟨0, 20, [0, 0, 2, -2, 1, 0, 0, 1, 0, -1, 0, 0, 0, 0]⟩,
  ⟨0, 20, [0, 0, 2, -2, 1, 0, 0, -2, 0, 0, 0, 0, 0, 0]⟩,
  ⟨0, -20, [0, 0, 2, -2, 1, 0, 0, -3, 0, 3, 0, 0, 0, 0]⟩,
  ⟨20, 0, [0, 0, 2, -2, 1, 0, 0, -4, 8, -3, 0, 0, 0, 0]⟩,
  ⟨0, -20, [0, 0, 2, -2, 1, 0, 0, -4, 4, 0, 0, 0, 0, 0]⟩,
  ⟨0, -20, [0, 0, 2, -2, 1, 0, -5, 5, 0, 0, 0, 0, 0, 0]⟩]

/-- tab5.3b.txt, rows 881 to 960 of j0 of `_parse_table_5_3b`. -/
def eps0_11 : List Row := [
  ⟨20, 0, [0, 0, 2, -2, 1, 0, -8, 11, 0, 0, 0, 0, 0, 0]⟩,
  ⟨-20, 0, [0, 0, 1, 1, 2, 0, 0, 1, 0, 0, 0, 0, 0, 0]⟩,
  ⟨0, 20, [0, 0, 1, -1, 2, 0, 0, -1, 0, 0, 1, 0, 0, 0]⟩,
  ⟨-20, 0, [0, 0, 1, -1, 2, 0, 0, -1, 0, -1, 0, 0, 0, 0]⟩,
  ⟨0, 20, [0, 0, 1, -1, 2, 0, -5, 7, 0, 0, 0, 0, 0, 0]⟩,
  ⟨0, 20, [0, 0, 1, -1, 2, 0, -8, 12, 0, 0, 0, 0, 0, 0]⟩,
  ⟨0, 20, [0, 0, 1, -1, 1, 0, 1, -3, 0, 0, 0, 0, 0, 0]⟩,
  ⟨0, -20, [0, 0, 1, -1, 1, 0, 0, 1, -4, 0, 0, 0, 0, 0]⟩,
  ⟨20, 0, [0, 0, 1, -1, 1, 0, 0, -1, 0, 1, -3, 0, 0, 0]⟩,
  ⟨20, 0, [0, 0, 1, -1, 1, 0, 0, -1, 0, 0, 0, -1, 0, 0]⟩,
  ⟨0, -20, [0, 0, 1, -1, 1, 0, 0, -4, 6, 0, 0, 0, 0, 0]⟩,
  ⟨20, 0, [0, 0, 1, -1, 1, 0, -5, 6, 0, 0, 0, 0, 0, 0]⟩,
  ⟨-20, 0, [0, 0, 0, 0, 1, 0, 3, -4, 0, 0, 0, 0, 0, 0]⟩,
  ⟨0, 20, [0, 0, 0, 0, 1, 0, 0, 7, -13, 0, 0, 0, 0, 0]⟩,
  ⟨0, 20, [0, 0, 0, 0, 1, 0, 0, 2, 0, -2, 0, 0, 0, 0]⟩,
  ⟨0, -20, [0, 0, 0, 0, 1, 0, 0, 2, -2, 0, 0, 0, 0, 0]⟩,
  ⟨0, -20, [0, 0, 0, 0, 1, 0, 0, -2, 2, 0, 0, 0, 0, 0]⟩,
  ⟨0, -20, [0, 0, 0, 0, 1, 0, -2, 2, 0, 0, 0, 0, 0, 0]⟩,
  ⟨20, 0, [0, 0, 0, 0, 1, 0, -3, 4, 0, 0, 0, 0, 0, 0]⟩,
  ⟨0, 20, [0, 0, 0, 0, 0, 0, 8, -12, 0, 0, 0, 0, 0, -2]⟩,
  ⟨0, -20, [0, 0, 0, 0, 0, 0, 7, -10, 0, 0, 0, 0, 0, -1]⟩,
  ⟨20, 0, [0, 0, 0, 0, 0, 0, 7, -11, 0, 0, 0, 0, 0, -1]⟩,
  ⟨-20, 0, [0, 0, 0, 0, 0, 0, 6, -4, 0, 0, 0, 0, 0, 1]⟩,
  ⟨-20, 0, [0, 0, 0, 0, 0, 0, 6, -6, 0, 0, 0, 0, 0, 1]⟩,
  ⟨-20, 0, [0, 0, 0, 0, 0, 0, 5, -5, 0, 0, 0, 0, 0, 1]⟩,
  ⟨0, -20, [0, 0, 0, 0, 0, 0, 5, -6, 0, 0, 0, 0, 0, -1]⟩,
  ⟨-20, 0, [0, 0, 0, 0, 0, 0, 4, -2, 0, 0, 0, 0, 0, 0]⟩,
  ⟨0, -20, [0, 0, 0, 0, 0, 0, 4, -5, 0, 0, 0, 0, 0, -1]⟩,
  ⟨20, 0, [0, 0, 0, 0, 0, 0, 4, -5, 0, 0, 0, 0, 0, -2]⟩,
  ⟨0, -20, [0, 0, 0, 0, 0, 0, 3, -4, 0, 0, 0, 0, 0, 1]⟩,
  ⟨20, 0, [0, 0, 0, 0, 0, 0, 3, -4, 0, 0, 0, 0, 0, -2]⟩,
  ⟨-20, 0, [0, 0, 0, 0, 0, 0, 3, -8, 0, 0, 0, 0, 0, -2]⟩,
  ⟨0, 20, [0, 0, 0, 0, 0, 0, 2, -5, 0, 0, 0, 0, 0, -1]⟩,
  ⟨0, 20, [0, 0, 0, 0, 0, 0, 1, -2, 0, 0, 0, 0, 0, -1]⟩,
  ⟨0, 20, [0, 0, 0, 0, 0, 0, 1, -4, 0, 0, 0, 0, 0, -1]⟩,
  ⟨0, -20, [0, 0, 0, 0, 0, 0, 0, 9, -17, 0, 0, 0, 0, -2]⟩,
  ⟨-20, 0, [0, 0, 0, 0, 0, 0, 0, 7, -8, 0, 0, 0, 0, 2]⟩,
  ⟨-20, 0, [0, 0, 0, 0, 0, 0, 0, 7, -9, 0, 0, 0, 0, 2]⟩,
  ⟨-20, 0, [0, 0, 0, 0, 0, 0, 0, 5, -6, 0, 0, 0, 0, 2]⟩,
  ⟨20, 0, [0, 0, 0, 0, 0, 0, 0, 5, -10, 0, 0, 0, 0, -2]⟩,
  ⟨0, 20, [0, 0, 0, 0, 0, 0, 0, 4, 0, -4, 0, 0, 0, 2]⟩,
  ⟨0, -20, [0, 0, 0, 0, 0, 0, 0, 4, -6, 0, 0, 0, 0, -2]⟩,
  ⟨0, -20, [0, 0, 0, 0, 0, 0, 0, 4, -7, 0, 0, 0, 0, -1]⟩,
  ⟨0, -20, [0, 0, 0, 0, 0, 0, 0, 4, -8, 3, 0, 0, 0, 1]⟩,
  ⟨0, 20, [0, 0, 0, 0, 0, 0, 0, 4, -8, 3, 0, 0, 0, -1]⟩,
  ⟨20, 0, [0, 0, 0, 0, 0, 0, 0, 4, -8, 1, 5, 0, 0, 2]⟩,
  ⟨20, 0, [0, 0, 0, 0, 0, 0, 0, 3, 0, 0, 0, 0, 0, 2]⟩,
  ⟨0, 20, [0, 0, 0, 0, 0, 0, 0, 3, -8, 3, 0, 0, 0, -2]⟩,
  ⟨10, -10, [0, 0, 0, 0, 0, 0, 0, 2, 1, 0, 0, 0, 0, 2]⟩,
  ⟨20, 0, [0, 0, 0, 0, 0, 0, 0, 2, 0, 0, -2, 0, 0, 1]⟩,
  ⟨0, -20, [0, 0, 0, 0, 0, 0, 0, 2, 0, -5, 0, 0, 0, -2]⟩,
  ⟨0, -20, [0, 0, 0, 0, 0, 0, 0, 2, -4, 0, 0, 0, 0, 1]⟩,
  ⟨20, 0, [0, 0, 0, 0, 0, 0, 0, 2, -7, 0, 0, 0, 0, -2]⟩,
  ⟨20, 0, [0, 0, 0, 0, 0, 0, 0, 1, 0, 1, 0, 0, 0, 1]⟩,
  ⟨0, 20, [0, 0, 0, 0, 0, 0, 0, 1, 0, 0, 0, 0, 0, -1]⟩,
  ⟨20, 0, [0, 0, 0, 0, 0, 0, 0, 1, 0, -1, 0, 0, 0, -1]⟩,
  ⟨20, 0, [0, 0, 0, 0, 0, 0, 0, 1, 0, -2, 5, 0, 0, 2]⟩,
  ⟨0, 20, [0, 0, 0, 0, 0, 0, 0, 1, 0, -2, 0, 0, 0, -2]⟩,
  ⟨0, -20, [0, 0, 0, 0, 0, 0, 0, 1, 0, -5, 0, 0, 0, -2]⟩,
  ⟨-20, 0, [0, 0, 0, 0, 0, 0, 0, 7, -7, 0, 0, 0, 0, 2]⟩,
  ⟨0, 10, [5, 0, 2, 0, 1, 0, 0, 0, 0, 0, 0, 0, 0, 0]⟩,
  ⟨0, -10, [4, 1, 2, -2, 2, 0, 0, 0, 0, 0, 0, 0, 0, 0]⟩,
  ⟨0, -10, [3, 1, 2, 2, 2, 0, 0, 0, 0, 0, 0, 0, 0, 0]⟩,
  ⟨0, 10, [3, 1, -2, -6, -2, 0, 0, 0, 0, 0, 0, 0, 0, 0]⟩,
  ⟨0, -10, [3, 0, 0, 0, -2, 0, 0, 0, 0, 0, 0, 0, 0, 0]⟩,
  ⟨0, -10, [3, 0, 0, -4, 0, 0, 0, 0, 0, 0, 0, 0, 0, 0]⟩,
  ⟨0, -10, [3, 0, -2, -4, -2, 0, 0, 0, 0, 0, 0, 0, 0, 0]⟩,
  ⟨0, -10, [3, -1, 0, 0, 0, 0, 0, 0, 0, 0, 0, 0, 0, 0]⟩,
  ⟨0, 10, [2, 2, 0, -2, -1, 0, 0, 0, 0, 0, 0, 0, 0, 0]⟩,
  ⟨0, 10, [2, 1, 2, -4, 2, 0, 0, 0, 0, 0, 0, 0, 0, 0]⟩,
  ⟨0, 10, [2, 1, -2, 0, -2, 0, 0, 0, 0, 0, 0, 0, 0, 0]⟩,
  ⟨0, -10, [2, 0, 2, -2, 2, 0, 0, -2, 0, 3, 0, 0, 0, 0]⟩,
  ⟨10, 0, [2, 0, 1, -3, 1, 0, -6, 7, 0, 0, 0, 0, 0, 0]⟩,
  ⟨0, 10, [2, 0, 0, 1, 0, 0, 0, 0, 0, 0, 0, 0, 0, 0]⟩,
  ⟨0, -10, [2, 0, 0, -4, 2, 0, 0, 0, 0, 0, 0, 0, 0, 0]⟩,
  ⟨0, 10, [2, 0, 0, -4, -2, 0, 0, 0, 0, 0, 0, 0, 0, 0]⟩,
  ⟨0, -10, [2, 0, 0, -6, 0, 0, 0, 0, 0, 0, 0, 0, 0, 0]⟩,
  ⟨0, 10, [2, 0, -2, -2, -2, 0, 0, -2, 0, 2, 0, 0, 0, 0]⟩,
  ⟨0, -10, [2, 0, -2, -5, -2, 0, 0, 0, 0, 0, 0, 0, 0, 0]⟩,
  ⟨0, 10, [2, -1, 2, 4, 2, 0, 0, 0, 0, 0, 0, 0, 0, 0]⟩]

/-- tab5.3b.txt, rows 961 to 1037 of j0 of `_parse_table_5_3b`. -/
def eps0_12 : List Row := [
  ⟨0, -10, [2, -1, 0, 2, 0, 0, 0, 0, 0, 0, 0, 0, 0, 0]⟩,
  ⟨0, -10, [2, -1, 0, -2, 2, 0, 0, 0, 0, 0, 0, 0, 0, 0]⟩,
  ⟨0, -10, [2, -1, -2, 0, 1, 0, 0, 0, 0, 0, 0, 0, 0, 0]⟩,
  ⟨0, -10, [2, -1, -2, 0, 0, 0, 0, 0, 0, 0, 0, 0, 0, 0]⟩,
  ⟨0, 10, [2, -2, 0, -2, 0, 0, 0, 0, 0, 0, 0, 0, 0, 0]⟩,
  ⟨0, 10, [1, 3, -2, -2, -2, 0, 0, 0, 0, 0, 0, 0, 0, 0]⟩,
  ⟨0, 10, [1, 2, 2, -4, 1, 0, 0, 0, 0, 0, 0, 0, 0, 0]⟩,
  ⟨0, -10, [1, 1, 0, 1, 0, 0, 0, 0, 0, 0, 0, 0, 0, 0]⟩,
  ⟨0, 10, [1, 1, 0, 0, -2, 0, 0, 0, 0, 0, 0, 0, 0, 0]⟩,
  ⟨0, 10, [1, 1, -2, 1, -2, 0, 0, 0, 0, 0, 0, 0, 0, 0]⟩,
  ⟨0, -10, [1, 1, -2, -1, -2, 0, 0, 0, 0, 0, 0, 0, 0, 0]⟩,
  ⟨0, -10, [1, 1, -2, -2, 0, 0, 0, 0, 0, 0, 0, 0, 0, 0]⟩,
  ⟨0, -10, [1, 0, 2, 0, 2, 0, 1, -1, 0, 0, 0, 0, 0, 0]⟩,
  ⟨10, 0, [1, 0, 2, 0, 2, 0, 0, 4, -8, 3, 0, 0, 0, 0]⟩,
  ⟨10, 0, [1, 0, 2, 0, 2, 0, 0, -4, 8, -3, 0, 0, 0, 0]⟩,
  ⟨0, 10, [1, 0, 2, 0, 2, 0, -1, 1, 0, 0, 0, 0, 0, 0]⟩,
  ⟨0, 10, [1, 0, 2, -2, 2, 0, -3, 3, 0, 0, 0, 0, 0, 0]⟩,
  ⟨0, -10, [1, 0, 0, 0, 1, 0, -10, 3, 0, 0, 0, 0, 0, 0]⟩,
  ⟨0, 10, [1, 0, 0, 0, -1, 0, -10, 3, 0, 0, 0, 0, 0, 0]⟩,
  ⟨0, -10, [1, 0, 0, -4, 2, 0, 0, 0, 0, 0, 0, 0, 0, 0]⟩,
  ⟨0, -10, [1, 0, 0, -6, 0, 0, 0, 0, 0, 0, 0, 0, 0, 0]⟩,
  ⟨0, -10, [1, 0, -2, 4, -2, 0, 0, 0, 0, 0, 0, 0, 0, 0]⟩,
  ⟨0, 10, [1, 0, -2, 1, 0, 0, 0, 0, 0, 0, 0, 0, 0, 0]⟩,
  ⟨0, -10, [1, 0, -2, -2, -2, 0, 0, 1, 0, -1, 0, 0, 0, 0]⟩,
  ⟨0, -10, [1, 0, -2, -2, -3, 0, 0, 0, 0, 0, 0, 0, 0, 0]⟩,
  ⟨0, -10, [1, 0, -2, -4, 0, 0, 0, 0, 0, 0, 0, 0, 0, 0]⟩,
  ⟨0, -10, [0, 2, 0, 0, -2, 0, 0, 0, 0, 0, 0, 0, 0, 0]⟩,
  ⟨0, 10, [0, 1, 4, -4, 2, 0, 0, 0, 0, 0, 0, 0, 0, 0]⟩,
  ⟨0, -10, [0, 1, -2, -2, 0, 0, 0, 0, 0, 0, 0, 0, 0, 0]⟩,
  ⟨0, 10, [0, 1, -4, 2, -1, 0, 0, 0, 0, 0, 0, 0, 0, 0]⟩,
  ⟨0, -10, [0, 0, 2, 2, 2, 0, 0, 2, 0, -2, 0, 0, 0, 0]⟩,
  ⟨0, -10, [0, 0, 2, 0, 3, 0, 0, 0, 0, 0, 0, 0, 0, 0]⟩,
  ⟨0, 10, [0, 0, 2, 0, 2, 0, 2, -2, 0, 0, 0, 0, 0, 0]⟩,
  ⟨10, 0, [0, 0, 2, 0, 2, 0, 2, -3, 0, 0, 0, 0, 0, 0]⟩,
  ⟨10, 0, [0, 0, 2, 0, 2, 0, -2, 3, 0, 0, 0, 0, 0, 0]⟩,
  ⟨0, -10, [0, 0, 2, 0, 2, 0, -2, 2, 0, 0, 0, 0, 0, 0]⟩,
  ⟨0, -10, [0, 0, 2, -2, 1, 0, 1, -1, 0, 0, 0, 0, 0, 0]⟩,
  ⟨0, 10, [0, 0, 2, -2, 1, 0, 0, -2, 0, 1, 0, 0, 0, 0]⟩,
  ⟨0, 10, [0, 0, 2, -2, 1, 0, 0, -10, 15, 0, 0, 0, 0, 0]⟩,
  ⟨0, 10, [0, 0, 1, -1, 2, 0, 0, -1, 0, 0, -1, 0, 0, 0]⟩,
  ⟨-10, 0, [0, 0, 1, -1, 2, 0, -3, 4, 0, 0, 0, 0, 0, 0]⟩,
  ⟨10, 0, [0, 0, 1, -1, 1, 0, -1, 2, 0, 0, 0, 0, 0, 0]⟩,
  ⟨0, -10, [0, 0, 1, -1, 1, 0, -4, 6, 0, 0, 0, 0, 0, 0]⟩,
  ⟨0, 10, [0, 0, 1, -1, -1, 0, -5, 7, 0, 0, 0, 0, 0, 0]⟩,
  ⟨0, -10, [0, 0, 0, 3, 2, 0, 0, 0, 0, 0, 0, 0, 0, 0]⟩,
  ⟨-10, 0, [0, 0, 0, 0, 2, 0, 0, 0, 0, 1, 0, 0, 0, 0]⟩,
  ⟨0, -10, [0, 0, 0, 0, 2, 0, -3, 5, 0, 0, 0, 0, 0, 0]⟩,
  ⟨10, 0, [0, 0, 0, 0, 1, 0, 0, -1, 0, 2, 0, 0, 0, 0]⟩,
  ⟨10, 0, [0, 0, 0, 0, 1, 0, -1, 2, 0, 0, 0, 0, 0, 0]⟩,
  ⟨0, 10, [0, 0, 0, 0, 0, 0, 9, -13, 0, 0, 0, 0, 0, -2]⟩,
  ⟨0, -10, [0, 0, 0, 0, 0, 0, 8, -11, 0, 0, 0, 0, 0, -1]⟩,
  ⟨0, 10, [0, 0, 0, 0, 0, 0, 8, -14, 0, 0, 0, 0, 0, -2]⟩,
  ⟨0, -10, [0, 0, 0, 0, 0, 0, 6, -7, 0, 0, 0, 0, 0, -1]⟩,
  ⟨0, -10, [0, 0, 0, 0, 0, 0, 5, -3, 0, 0, 0, 0, 0, 2]⟩,
  ⟨10, 0, [0, 0, 0, 0, 0, 0, 5, -4, 0, 0, 0, 0, 0, 2]⟩,
  ⟨10, 0, [0, 0, 0, 0, 0, 0, 5, -6, 0, 0, 0, 0, 0, -2]⟩,
  ⟨0, 10, [0, 0, 0, 0, 0, 0, 4, -8, 0, 0, 0, 0, 0, -2]⟩,
  ⟨-10, 0, [0, 0, 0, 0, 0, 0, 3, 0, 0, 0, 0, 0, 0, 2]⟩,
  ⟨0, 10, [0, 0, 0, 0, 0, 0, 3, -3, 0, 2, 0, 0, 0, 2]⟩,
  ⟨0, 10, [0, 0, 0, 0, 0, 0, 1, -1, 0, 0, 0, 0, 0, -2]⟩,
  ⟨-10, 0, [0, 0, 0, 0, 0, 0, 0, 7, -12, 0, 0, 0, 0, -2]⟩,
  ⟨0, 10, [0, 0, 0, 0, 0, 0, 0, 6, -4, 0, 0, 0, 0, 2]⟩,
  ⟨-10, 0, [0, 0, 0, 0, 0, 0, 0, 6, -8, 1, 5, 0, 0, 2]⟩,
  ⟨0, -10, [0, 0, 0, 0, 0, 0, 0, 6, -9, 0, 0, 0, 0, -2]⟩,
  ⟨0, 10, [0, 0, 0, 0, 0, 0, 0, 5, 0, -4, 0, 0, 0, 2]⟩,
  ⟨0, -10, [0, 0, 0, 0, 0, 0, 0, 5, -7, 0, 0, 0, 0, -2]⟩,
  ⟨0, 10, [0, 0, 0, 0, 0, 0, 0, 5, -8, 3, 0, 0, 0, 2]⟩,
  ⟨0, -10, [0, 0, 0, 0, 0, 0, 0, 5, -9, 0, 0, 0, 0, -1]⟩,
  ⟨0, -10, [0, 0, 0, 0, 0, 0, 0, 5, -13, 0, 0, 0, 0, -2]⟩,
  ⟨0, 10, [0, 0, 0, 0, 0, 0, 0, 5, -16, 4, 5, 0, 0, -2]⟩,
  ⟨0, -10, [0, 0, 0, 0, 0, 0, 0, 3, 0, -5, 0, 0, 0, -2]⟩,
  ⟨10, 0, [0, 0, 0, 0, 0, 0, 0, 3, -7, 0, 0, 0, 0, -2]⟩,
  ⟨10, 0, [0, 0, 0, 0, 0, 0, 0, 3, -9, 0, 0, 0, 0, -2]⟩,
  ⟨0, -10, [0, 0, 0, 0, 0, 0, 0, 2, 0, 2, 0, 0, 0, 2]⟩,
  ⟨10, 0, [0, 0, 0, 0, 0, 0, 0, 2, -8, 1, 5, 0, 0, -2]⟩,
  ⟨-10, 0, [0, 0, 0, 0, 0, 0, 0, 1, 0, 0, 2, 0, 0, 2]⟩,
  ⟨0, -10, [0, 0, 0, 0, 0, 0, 0, 0, 0, 0, 0, 0, 0, 2]⟩]

/-- j0 of `_parse_table_5_3b` (lines 23 to 1059 of tab5.3b.txt). -/
def eps0 : List Row := eps0_0 ++ eps0_1 ++ eps0_2 ++ eps0_3 ++ eps0_4 ++ eps0_5 ++ eps0_6 ++ eps0_7 ++ eps0_8 ++ eps0_9 ++ eps0_10 ++ eps0_11 ++ eps0_12

/-- tab5.3b.txt, rows 1 to 19 of j1 of `_parse_table_5_3b`. -/
def eps1_0 : List Row := [
  ⟨20, 88303, [0, 0, 0, 0, 1, 0, 0, 0, 0, 0, 0, 0, 0, 0]⟩,
  ⟨-30, -30309, [0, 0, 2, -2, 2, 0, 0, 0, 0, 0, 0, 0, 0, 0]⟩,
  ⟨0, -6770, [0, 1, 2, -2, 2, 0, 0, 0, 0, 0, 0, 0, 0, 0]⟩,
  ⟨-10, -4877, [0, 0, 2, 0, 2, 0, 0, 0, 0, 0, 0, 0, 0, 0]⟩,
  ⟨0, 4725, [0, 0, 0, 0, 2, 0, 0, 0, 0, 0, 0, 0, 0, 0]⟩,
  ⟨10, 2990, [0, 1, -2, 2, -2, 0, 0, 0, 0, 0, 0, 0, 0, 0]⟩,
  ⟨50, -1840, [0, 1, 0, 0, 0, 0, 0, 0, 0, 0, 0, 0, 0, 0]⟩,
  ⟨0, -630, [1, 0, 2, 0, 2, 0, 0, 0, 0, 0, 0, 0, 0, 0]⟩,
  ⟨0, -420, [0, 2, 2, -2, 2, 0, 0, 0, 0, 0, 0, 0, 0, 0]⟩,
  ⟨0, 320, [1, 0, -2, 0, -2, 0, 0, 0, 0, 0, 0, 0, 0, 0]⟩,
  ⟨0, 180, [0, 0, 2, 0, 1, 0, 0, 0, 0, 0, 0, 0, 0, 0]⟩,
  ⟨0, -110, [2, 0, 2, 0, 2, 0, 0, 0, 0, 0, 0, 0, 0, 0]⟩,
  ⟨0, -110, [1, 0, -2, -2, -2, 0, 0, 0, 0, 0, 0, 0, 0, 0]⟩,
  ⟨0, -110, [0, 0, 2, 2, 2, 0, 0, 0, 0, 0, 0, 0, 0, 0]⟩,
  ⟨0, -100, [2, 0, -2, 0, -1, 0, 0, 0, 0, 0, 0, 0, 0, 0]⟩,
  ⟨0, 100, [1, 0, 2, -2, 2, 0, 0, 0, 0, 0, 0, 0, 0, 0]⟩,
  ⟨0, -90, [0, 0, 2, -2, 1, 0, 0, 0, 0, 0, 0, 0, 0, 0]⟩,
  ⟨0, -20, [0, 1, 0, 0, 1, 0, 0, 0, 0, 0, 0, 0, 0, 0]⟩,
  ⟨0, -10, [0, 2, 0, 0, 0, 0, 0, 0, 0, 0, 0, 0, 0, 0]⟩]

/-- j1 of `_parse_table_5_3b` (lines 1066 to 1084 of tab5.3b.txt). -/
def eps1 : List Row := eps1_0

end Verif.Sky
