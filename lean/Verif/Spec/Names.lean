/-!
The names under which the products of ICESat (GLA12) and ICESat-2 (ATL03 to ATL12) keep ocean tides, load
tides and long-period equilibrium tides, and which of these a variable of the database is.
-/
namespace Verif.Spec.Names

/-- What a tide model gives at a place. -/
inductive Kind where
  | ocean
  | load
  | equilibrium
deriving DecidableEq

/-- The value of `variable` in the database. -/
def stored : Kind → String
  | .ocean => "tide_ocean"
  | .load => "tide_load"
  | .equilibrium => "tide_lpe"

/-- The products, with the names of the variables in them. -/
def products : List (String × (Kind → String)) :=
  let geophysical : Kind → String
    | .ocean => "tide_ocean"
    | .load => "tide_load"
    | .equilibrium => "tide_equilibrium"
  let seaIce : Kind → String
    | .ocean => "height_segment_ocean"
    | .load => "height_segment_load"
    | .equilibrium => "height_segment_lpe"
  let segment : Kind → String
    | .ocean => "tide_ocean_seg"
    | .load => "tide_load_seg"
    | .equilibrium => "tide_equilibrium_seg"
  let glas : Kind → String
    | .ocean => "d_ocElv"
    | .load => "d_ldElv"
    | .equilibrium => "d_eqElv"
  [("atl03", geophysical), ("atl06", geophysical), ("atl07", seaIce), ("atl10", seaIce),
    ("atl11", geophysical), ("atl12", segment), ("gla12", glas)]

end Verif.Spec.Names
