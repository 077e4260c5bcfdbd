import Verif.Model.Geotiff
/-!
What it means that an image is in place.
-/
namespace Verif.Spec.Geotiff
open Verif.Geotiff

variable {K : Type} [Field K] [LinearOrder K]

/-- An image with columns to the right and rows downwards. -/
structure NorthUp (t : Tiff K) : Prop where
  right : 0 < t.dx
  down : t.dy < 0

/-- Files with the same pixels in the same places. -/
structure Same (s t : Tiff K) : Prop where
  nx : s.nx = t.nx
  ny : s.ny = t.ny
  nb : s.nb = t.nb
  x0 : s.x0 = t.x0
  dx : s.dx = t.dx
  y0 : s.y0 = t.y0
  dy : s.dy = t.dy
  nodata : s.nodata = t.nodata
  pix : ∀ b < t.nb, ∀ r < t.ny, ∀ c < t.nx, s.pix b r c = t.pix b r c

/-- The part of an image from a row and column on. -/
def part (t : Tiff K) (xo yo xc yc : Nat) : Tiff K :=
  ⟨xc, yc, t.nb, t.x0 + xo * t.dx, t.dx, t.y0 + yo * t.dy, t.dy,
    fun b r c => t.pix b (r + yo) (c + xo), t.nodata⟩

/-- The left and right edges and the centre of a column. -/
def left (t : Tiff K) (c : Nat) : K := t.x0 + c * t.dx
@[inherit_doc left] def right (t : Tiff K) (c : Nat) : K := t.x0 + (c + 1) * t.dx
@[inherit_doc left] def centreX (t : Tiff K) (c : Nat) : K := t.x0 + (c + 1 / 2) * t.dx

/-- The lower edge and the centre of a row. -/
def bottom (t : Tiff K) (r : Nat) : K := t.y0 + (r + 1) * t.dy
@[inherit_doc bottom] def centreY (t : Tiff K) (r : Nat) : K := t.y0 + (r + 1 / 2) * t.dy

end Verif.Spec.Geotiff
