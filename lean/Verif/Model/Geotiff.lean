import Mathlib.Algebra.Order.Floor.Ring
import Verif.Model.Py
/-!
Model of reading and writing geotiff images (`/repo/pyTMD/spatial.py` 585-683, 1124-1191 and
1307-1330).

Coordinates and values are of one ordered field.  An image of the GDAL library has a geotransform
without rotation, a number of bands and one fill value (that of the first band); a part of an image
outside of it is not read (an error here; the library gives no array).  Projections, the times of
the bands, compressed files, drivers and data types are left out.
-/
namespace Verif.Geotiff
open Verif

variable {K : Type} [Field K] [LinearOrder K] [IsStrictOrderedRing K] [FloorRing K]

/-- A geotiff file: size, geotransform, the values by band, row and column, and the fill value. -/
structure Tiff (K : Type) where
  nx : Nat
  ny : Nat
  nb : Nat
  x0 : K
  dx : K
  y0 : K
  dy : K
  pix : Nat → Nat → Nat → K
  nodata : Option K

/-- A masked array with two or three axes. -/
inductive Data (K : Type) where
  | two (a b : Nat) (f : Nat → Nat → K × Bool)
  | three (a b c : Nat) (f : Nat → Nat → Nat → K × Bool)

/-- What `from_geotiff` returns. -/
structure Image (K : Type) where
  x : List K
  y : List K
  data : Data K
  extent : K × K × K × K
  spacing : K × K
  fill : Option K

/-- `int(x)` -/
def trunc (x : K) : Int := if 0 ≤ x then ⌊x⌋ else ⌈x⌉

/-- `np.min` -/
def least : List K → Except PyErr K
  | [] => .error .valueError
  | x :: l => .ok (l.foldl min x)

/-- `np.max` -/
def greatest : List K → Except PyErr K
  | [] => .error .valueError
  | x :: l => .ok (l.foldl max x)

/-- `x[slice(o, o + n)]` for `0 ≤ o` -/
def slice (o n : Nat) (l : List K) : List K := (l.drop o).take n

/-- `ds.ReadAsArray(xoff, yoff, xsize, ysize)`: one band has two axes, several have the band
first. -/
def readArray (t : Tiff K) (xo yo xc yc : Nat) : Data K :=
  if t.nb = 1 then .two yc xc fun r c => (t.pix 0 (r + yo) (c + xo), false)
  else .three t.nb yc xc fun b r c => (t.pix b (r + yo) (c + xo), false)

/-- The mask of the values that are equal to the fill value. -/
def Data.masked (f : K) : Data K → Data K
  | .two a b g => .two a b fun r c => ((g r c).1, decide ((g r c).1 = f))
  | .three a b c g => .three a b c fun i j k => ((g i j k).1, decide ((g i j k).1 = f))

/-- spatial.py 670-679: fill values; zero is no fill value here. -/
def fillValues (nodata : Option K) (d : Data K) : Data K × Option K :=
  match nodata with
  | some f => if f ≠ 0 then (d.masked f, some f) else (d, none)
  | none => (d, none)

/-- spatial.py 636-638: centres of the columns. -/
def columns (t : Tiff K) : List K :=
  (List.range t.nx).map fun (i : Nat) => t.x0 + t.dx / 2 + (i : K) * t.dx

/-- spatial.py 636-638: centres of the rows. -/
def rows (t : Tiff K) : List K :=
  (List.range t.ny).map fun (i : Nat) => t.y0 + t.dy / 2 + (i : K) * t.dy

/-- spatial.py 585-683, `from_geotiff` of the whole image or of the part in bounds. -/
def fromGeotiff (bounds : Option (K × K × K × K)) (t : Tiff K) : Except PyErr (Image K) :=
  match bounds with
  | none =>
    let (d, f) := fillValues t.nodata (readArray t 0 0 t.nx t.ny)
    .ok ⟨columns t, rows t, d,
      (t.x0, t.x0 + ((t.nx : K) - 1) * t.dx, t.y0 + ((t.ny : K) - 1) * t.dy, t.y0),
      (t.dx, t.dy), f⟩
  | some (xl, xr, yl, yr) => do
    let xo := trunc ((xl - t.x0) / t.dx)
    let yo := trunc ((t.y0 - yr) / |t.dy|)
    let xc := trunc ((xr - xl) / t.dx) + 1
    let yc := trunc ((yr - yl) / |t.dy|) + 1
    if xo < 0 ∨ yo < 0 ∨ xc ≤ 0 ∨ yc ≤ 0 ∨ (t.nx : Int) < xo + xc ∨ (t.ny : Int) < yo + yc then
      .error .exception
    else
      let x := slice xo.toNat xc.toNat (columns t)
      let y := slice yo.toNat yc.toNat (rows t)
      let (d, f) := fillValues t.nodata (readArray t xo.toNat yo.toNat xc.toNat yc.toNat)
      let xmin ← least x
      let xmax ← greatest x
      let ymin ← least y
      let ymax ← greatest y
      .ok ⟨x, y, d, (xmin - t.dx / 2, xmax - t.dx / 2, ymin - t.dy / 2, ymax - t.dy / 2),
        (t.dx, t.dy), f⟩

/-- spatial.py 1307-1330: `expand_dims`, `np.atleast_3d` -/
def expandDims : Data K → Data K
  | .two a b g => .three a b 1 fun r c _ => g r c
  | .three a b c g => .three a b c g

/-- spatial.py 1124-1191, `to_geotiff`: the values under a mask are written too. -/
def toGeotiff (data : Data K) (extent : K × K × K × K) (spacing : K × K) (fill : Option K) :
    Tiff K :=
  match expandDims data with
  | .three ny nx nb g =>
    ⟨nx, ny, nb, extent.1, spacing.1, extent.2.2.2, spacing.2, fun b r c => (g r c b).1,
      if nb = 0 then none else fill⟩
  | .two ny nx g => ⟨nx, ny, 1, extent.1, spacing.1, extent.2.2.2, spacing.2,
      fun _ r c => (g r c).1, fill⟩

end Verif.Geotiff
