import Verif.Model.Modules
/-!
Old names and what the documentation says to use for them.
-/
namespace Verif.Spec.Renamed
open Verif Modules

/-- pyTMD.time: "Please use timescale.time...." -/
def time : List String :=
  ["parse", "parse_date_string", "split_date_string", "datetime_to_list", "calendar_days", "convert_datetime",
    "convert_delta_time", "convert_calendar_dates", "convert_calendar_decimal", "convert_julian"]

/-- pyTMD.eop: "Please use timescale.eop....", functions with a result. -/
def eop : List String := ["iers_mean_pole", "iers_daily_EOP", "iers_polar_motion"]

/-- pyTMD.eop: functions that bring files up to date. -/
def updates : List String :=
  ["update_mean_pole", "calculate_mean_pole", "pull_pole_coordinates", "update_finals_file"]

/-- "Please use pyTMD.compute instead": functions of pyTMD and of pyTMD.compute. -/
def computed : List (String × String) :=
  [("check_points", "tide_masks"), ("compute_tide_corrections", "tide_elevations"),
    ("compute_LPET_corrections", "LPET_elevations"), ("compute_LPT_corrections", "LPT_displacements"),
    ("compute_OPT_corrections", "OPT_displacements"), ("compute_SET_corrections", "SET_displacements")]

/-- The kinds of corrections of `compute_corrections`. -/
def corrections : List (String × String) :=
  [("ocean", "tide_elevations"), ("load", "tide_elevations"), ("LPET", "LPET_elevations"),
    ("LPT", "LPT_displacements"), ("OPT", "OPT_displacements"), ("SET", "SET_displacements")]

/-- What is outside: the modules used have the functions that are called, and `timescale.time.Timescale` is a class
without an attribute called `time`; anything else is as in `w`. -/
def outside (w : World) : World := fun m name =>
  if m = ["timescale", "time"] ∧ name ∈ time then some (.function m name)
  else if m = ["timescale", "time"] ∧ name = "Timescale" then some (.other "Timescale")
  else if m = ["class", "Timescale"] ∧ name = "time" then none
  else if m = ["timescale", "eop"] ∧ (name ∈ eop ∨ name ∈ updates) then some (.function m name)
  else if m = ["pyTMD", "compute"] ∧ (name = "tide_masks" ∨ name ∈ corrections.map Prod.snd) then
    some (.function m name)
  else w m name

/-- The program of a user. -/
def program : List Stmt :=
  [.imports ["pyTMD"], .imports ["timescale", "time"], .imports ["timescale", "eop"]]

end Verif.Spec.Renamed
