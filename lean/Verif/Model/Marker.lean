import Verif.Model.Spatial
/-!
Model of the marker on the map of `leaflet` and of the text with its position, `/repo/pyTMD/tools.py` 249-260
and 275-293.  `ipyleaflet` and `ipywidgets` call the observers of a widget when an attribute gets a
value that differs from the one it has, before the assignment returns.  The map (287-289), other
attributes of the two widgets and texts that are not two numbers are left out.
-/
namespace Verif.Marker
open Verif Real

/-- The text: two numbers as a user types them, or as `'{0:0.8f},{1:0.8f}'` prints them, which is given
in units of 1e-8 degrees. -/
inductive Text where
  | typed (lat lon : ℝ)
  | printed (lat lon : ℤ)

/-- `[float(i) for i in text.split(',')]` -/
noncomputable def value : Text → ℝ × ℝ
  | .typed lat lon => (lat, lon)
  | .printed lat lon => (lat / 1e8, lon / 1e8)

/-- The location of the marker and the text. -/
structure View where
  marker : ℝ × ℝ
  text : Text

/-- An assignment to the location of the marker or to the text. -/
inductive Change where
  | marker (location : ℝ × ℝ)
  | text (t : Text)

open Classical in
/-- An assignment with all that follows from it: `set_marker_text` (tools.py 281-284) after a change of the marker and
`set_marker_location` (tools.py 291-294) after a change of the text, with `wrap_longitudes` (tools.py 275-278, the same formula
as in spatial.py).  `print` is the number that is printed with eight digits; `none` is the limit of recursion. -/
noncomputable def assign (print : ℝ → ℤ) : ℕ → View → Change → Option View
  | 0, _, _ => none
  | n + 1, v, .marker p =>
    if p = v.marker then some v
    else assign print n { v with marker := p } (.text (.printed (print p.1) (print (Spatial.wrapLongitudes p.2))))
  | n + 1, v, .text t =>
    if t = v.text then some v
    else assign print n { v with text := t } (.marker (value t))

end Verif.Marker
