/-!
The contents of `/repo/pyTMD/data/database.json`: for every model its key, its name, format, the types of
its variables, whether it has a grid file, its projection and its files by type.  The reference is
left out; a projection is given by its kind only.  A single file (a string in the JSON) is told
from a list of one file by `single`.
-/
namespace Verif.Database

/-- One entry of the database. -/
structure Entry where
  key : String
  name : String
  format : String
  types : List String
  grid : Option String
  projection : Option String
  scale : Option String
  version : Option String
  single : Bool
  files : List (String × List String)

/-- `database.json`, `elevation`, models 1 to 13. -/
def elevation0 : List Entry := [
  ⟨"AODTM-5", "AODTM-5", "OTIS", ["z"], some "aodtm5_tmd/grid_Arc5km",
    some "aeqd", none, none, true,
    [("z", ["aodtm5_tmd/h0_Arc5km.oce"])]⟩,
  ⟨"AOTIM-5", "AOTIM-5", "OTIS", ["z"], some "aotim5_tmd/grid_Arc5km",
    some "aeqd", none, none, true,
    [("z", ["aotim5_tmd/h_Arc5km.oce"])]⟩,
  ⟨"AOTIM-5-2018", "AOTIM-5-2018", "OTIS", ["z"], some "Arc5km2018/grid_Arc5km2018",
    some "aeqd", none, some "2018", true,
    [("z", ["Arc5km2018/h_Arc5km2018"])]⟩,
  ⟨"Arc2kmTM", "Arc2kmTM", "OTIS", ["z"], some "Arc2kmTM/grid_Arc2kmTM_v1",
    some "stere", none, some "v1", true,
    [("z", ["Arc2kmTM/h_Arc2kmTM_v1"])]⟩,
  ⟨"CATS0201", "CATS0201", "OTIS", ["z"], some "cats0201_tmd/grid_CATS",
    some "EPSG:4326", none, none, true,
    [("z", ["cats0201_tmd/h0_CATS02_01"])]⟩,
  ⟨"CATS2008", "CATS2008", "OTIS", ["z"], some "CATS2008/grid_CATS2008",
    some "stere", none, none, true,
    [("z", ["CATS2008/hf.CATS2008.out"])]⟩,
  ⟨"CATS2008-v2023", "CATS2008-v2023", "TMD3", ["z"], some "CATS2008_v2023/CATS2008_v2023.nc",
    some "stere", none, none, true,
    [("z", ["CATS2008_v2023/CATS2008_v2023.nc"])]⟩,
  ⟨"CATS2008_load", "CATS2008_load", "OTIS", ["z"], some "CATS2008a_SPOTL_Load/grid_CATS2008a_opt",
    some "stere", none, none, true,
    [("z", ["CATS2008a_SPOTL_Load/h_CATS2008a_SPOTL_load"])]⟩,
  ⟨"DTU23", "DTU23", "GOT-ascii", ["z"], none,
    none, some "0.01", some "2023", false,
    [("z", ["DTU23_OceanTide/DTU23/K1_DTU23.d", "DTU23_OceanTide/DTU23/K2_DTU23.d",
      "DTU23_OceanTide/DTU23/M2_DTU23.d", "DTU23_OceanTide/DTU23/M4_DTU23.d",
      "DTU23_OceanTide/DTU23/N2_DTU23.d", "DTU23_OceanTide/DTU23/O1_DTU23.d",
      "DTU23_OceanTide/DTU23/P1_DTU23.d", "DTU23_OceanTide/DTU23/Q1_DTU23.d",
      "DTU23_OceanTide/DTU23/S1_DTU23.d", "DTU23_OceanTide/DTU23/S2_DTU23.d"])]⟩,
  ⟨"EOT20", "EOT20", "FES-netcdf", ["z"], none,
    none, some "0.01", some "EOT20", false,
    [("z", ["EOT20/ocean_tides/2N2_ocean_eot20.nc", "EOT20/ocean_tides/J1_ocean_eot20.nc",
      "EOT20/ocean_tides/K1_ocean_eot20.nc", "EOT20/ocean_tides/K2_ocean_eot20.nc",
      "EOT20/ocean_tides/M2_ocean_eot20.nc", "EOT20/ocean_tides/M4_ocean_eot20.nc",
      "EOT20/ocean_tides/MF_ocean_eot20.nc", "EOT20/ocean_tides/MM_ocean_eot20.nc",
      "EOT20/ocean_tides/N2_ocean_eot20.nc", "EOT20/ocean_tides/O1_ocean_eot20.nc",
      "EOT20/ocean_tides/P1_ocean_eot20.nc", "EOT20/ocean_tides/Q1_ocean_eot20.nc",
      "EOT20/ocean_tides/S1_ocean_eot20.nc", "EOT20/ocean_tides/S2_ocean_eot20.nc",
      "EOT20/ocean_tides/SA_ocean_eot20.nc", "EOT20/ocean_tides/SSA_ocean_eot20.nc",
      "EOT20/ocean_tides/T2_ocean_eot20.nc"])]⟩,
  ⟨"EOT20_load", "EOT20_load", "FES-netcdf", ["z"], none,
    none, some "0.01", some "EOT20", false,
    [("z", ["EOT20/load_tides/2N2_load_eot20.nc", "EOT20/load_tides/J1_load_eot20.nc",
      "EOT20/load_tides/K1_load_eot20.nc", "EOT20/load_tides/K2_load_eot20.nc",
      "EOT20/load_tides/M2_load_eot20.nc", "EOT20/load_tides/M4_load_eot20.nc",
      "EOT20/load_tides/MF_load_eot20.nc", "EOT20/load_tides/MM_load_eot20.nc",
      "EOT20/load_tides/N2_load_eot20.nc", "EOT20/load_tides/O1_load_eot20.nc",
      "EOT20/load_tides/P1_load_eot20.nc", "EOT20/load_tides/Q1_load_eot20.nc",
      "EOT20/load_tides/S1_load_eot20.nc", "EOT20/load_tides/S2_load_eot20.nc",
      "EOT20/load_tides/SA_load_eot20.nc", "EOT20/load_tides/SSA_load_eot20.nc",
      "EOT20/load_tides/T2_load_eot20.nc"])]⟩,
  ⟨"FES2012", "FES2012", "FES-netcdf", ["z"], none,
    none, some "0.01", some "FES2012", false,
    [("z", ["fes2012/data/T2_FES2012_SLEV.nc", "fes2012/data/MSf_FES2012_SLEV.nc",
      "fes2012/data/Mtm_FES2012_SLEV.nc", "fes2012/data/L2_FES2012_SLEV.nc",
      "fes2012/data/Mm_FES2012_SLEV.nc", "fes2012/data/Q1_FES2012_SLEV.nc",
      "fes2012/data/2N2_FES2012_SLEV.nc", "fes2012/data/N4_FES2012_SLEV.nc",
      "fes2012/data/O1_FES2012_SLEV.nc", "fes2012/data/M3_FES2012_SLEV.nc",
      "fes2012/data/N2_FES2012_SLEV.nc", "fes2012/data/K1_FES2012_SLEV.nc",
      "fes2012/data/S1_FES2012_SLEV.nc", "fes2012/data/MS4_FES2012_SLEV.nc",
      "fes2012/data/R2_FES2012_SLEV.nc", "fes2012/data/Mu2_FES2012_SLEV.nc",
      "fes2012/data/E2_FES2012_SLEV.nc", "fes2012/data/S4_FES2012_SLEV.nc",
      "fes2012/data/Ssa_FES2012_SLEV.nc", "fes2012/data/La2_FES2012_SLEV.nc",
      "fes2012/data/MN4_FES2012_SLEV.nc", "fes2012/data/M2_FES2012_SLEV.nc",
      "fes2012/data/J1_FES2012_SLEV.nc", "fes2012/data/M6_FES2012_SLEV.nc",
      "fes2012/data/Mf_FES2012_SLEV.nc", "fes2012/data/M4_FES2012_SLEV.nc",
      "fes2012/data/P1_FES2012_SLEV.nc", "fes2012/data/K2_FES2012_SLEV.nc",
      "fes2012/data/MKS2_FES2012_SLEV.nc", "fes2012/data/S2_FES2012_SLEV.nc",
      "fes2012/data/M8_FES2012_SLEV.nc", "fes2012/data/Nu2_FES2012_SLEV.nc"])]⟩,
  ⟨"FES2014", "FES2014", "FES-netcdf", ["z"], none,
    none, some "0.01", some "FES2014", false,
    [("z", ["fes2014/ocean_tide/2n2.nc", "fes2014/ocean_tide/eps2.nc",
      "fes2014/ocean_tide/j1.nc", "fes2014/ocean_tide/k1.nc", "fes2014/ocean_tide/k2.nc",
      "fes2014/ocean_tide/l2.nc", "fes2014/ocean_tide/la2.nc", "fes2014/ocean_tide/m2.nc",
      "fes2014/ocean_tide/m3.nc", "fes2014/ocean_tide/m4.nc", "fes2014/ocean_tide/m6.nc",
      "fes2014/ocean_tide/m8.nc", "fes2014/ocean_tide/mf.nc", "fes2014/ocean_tide/mks2.nc",
      "fes2014/ocean_tide/mm.nc", "fes2014/ocean_tide/mn4.nc", "fes2014/ocean_tide/ms4.nc",
      "fes2014/ocean_tide/msf.nc", "fes2014/ocean_tide/msqm.nc",
      "fes2014/ocean_tide/mtm.nc", "fes2014/ocean_tide/mu2.nc", "fes2014/ocean_tide/n2.nc",
      "fes2014/ocean_tide/n4.nc", "fes2014/ocean_tide/nu2.nc", "fes2014/ocean_tide/o1.nc",
      "fes2014/ocean_tide/p1.nc", "fes2014/ocean_tide/q1.nc", "fes2014/ocean_tide/r2.nc",
      "fes2014/ocean_tide/s1.nc", "fes2014/ocean_tide/s2.nc", "fes2014/ocean_tide/s4.nc",
      "fes2014/ocean_tide/sa.nc", "fes2014/ocean_tide/ssa.nc", "fes2014/ocean_tide/t2.nc"])]⟩]

/-- `database.json`, `elevation`, models 14 to 26. -/
def elevation1 : List Entry := [
  ⟨"FES2014_extrapolated", "FES2014", "FES-netcdf", ["z"], none,
    none, some "0.01", some "FES2014", false,
    [("z", ["fes2014/ocean_tide_extrapolated/2n2.nc", "fes2014/ocean_tide_extrapolated/eps2.nc",
      "fes2014/ocean_tide_extrapolated/j1.nc", "fes2014/ocean_tide_extrapolated/k1.nc",
      "fes2014/ocean_tide_extrapolated/k2.nc", "fes2014/ocean_tide_extrapolated/l2.nc",
      "fes2014/ocean_tide_extrapolated/la2.nc", "fes2014/ocean_tide_extrapolated/m2.nc",
      "fes2014/ocean_tide_extrapolated/m3.nc", "fes2014/ocean_tide_extrapolated/m4.nc",
      "fes2014/ocean_tide_extrapolated/m6.nc", "fes2014/ocean_tide_extrapolated/m8.nc",
      "fes2014/ocean_tide_extrapolated/mf.nc", "fes2014/ocean_tide_extrapolated/mks2.nc",
      "fes2014/ocean_tide_extrapolated/mm.nc", "fes2014/ocean_tide_extrapolated/mn4.nc",
      "fes2014/ocean_tide_extrapolated/ms4.nc", "fes2014/ocean_tide_extrapolated/msf.nc",
      "fes2014/ocean_tide_extrapolated/msqm.nc", "fes2014/ocean_tide_extrapolated/mtm.nc",
      "fes2014/ocean_tide_extrapolated/mu2.nc", "fes2014/ocean_tide_extrapolated/n2.nc",
      "fes2014/ocean_tide_extrapolated/n4.nc", "fes2014/ocean_tide_extrapolated/nu2.nc",
      "fes2014/ocean_tide_extrapolated/o1.nc", "fes2014/ocean_tide_extrapolated/p1.nc",
      "fes2014/ocean_tide_extrapolated/q1.nc", "fes2014/ocean_tide_extrapolated/r2.nc",
      "fes2014/ocean_tide_extrapolated/s1.nc", "fes2014/ocean_tide_extrapolated/s2.nc",
      "fes2014/ocean_tide_extrapolated/s4.nc", "fes2014/ocean_tide_extrapolated/sa.nc",
      "fes2014/ocean_tide_extrapolated/ssa.nc", "fes2014/ocean_tide_extrapolated/t2.nc"])]⟩,
  ⟨"FES2014_load", "FES2014_load", "FES-netcdf", ["z"], none,
    none, some "0.01", some "FES2014", false,
    [("z", ["fes2014/load_tide/2n2.nc", "fes2014/load_tide/eps2.nc", "fes2014/load_tide/j1.nc",
      "fes2014/load_tide/k1.nc", "fes2014/load_tide/k2.nc", "fes2014/load_tide/l2.nc",
      "fes2014/load_tide/la2.nc", "fes2014/load_tide/m2.nc", "fes2014/load_tide/m3.nc",
      "fes2014/load_tide/m4.nc", "fes2014/load_tide/m6.nc", "fes2014/load_tide/m8.nc",
      "fes2014/load_tide/mf.nc", "fes2014/load_tide/mks2.nc", "fes2014/load_tide/mm.nc",
      "fes2014/load_tide/mn4.nc", "fes2014/load_tide/ms4.nc", "fes2014/load_tide/msf.nc",
      "fes2014/load_tide/msqm.nc", "fes2014/load_tide/mtm.nc", "fes2014/load_tide/mu2.nc",
      "fes2014/load_tide/n2.nc", "fes2014/load_tide/n4.nc", "fes2014/load_tide/nu2.nc",
      "fes2014/load_tide/o1.nc", "fes2014/load_tide/p1.nc", "fes2014/load_tide/q1.nc",
      "fes2014/load_tide/r2.nc", "fes2014/load_tide/s1.nc", "fes2014/load_tide/s2.nc",
      "fes2014/load_tide/s4.nc", "fes2014/load_tide/sa.nc", "fes2014/load_tide/ssa.nc",
      "fes2014/load_tide/t2.nc"])]⟩,
  ⟨"FES2022", "FES2022", "FES-netcdf", ["z"], none,
    none, some "0.01", some "FES2022", false,
    [("z", ["fes2022b/ocean_tide_20241025/2n2_fes2022.nc",
      "fes2022b/ocean_tide_20241025/eps2_fes2022.nc",
      "fes2022b/ocean_tide_20241025/j1_fes2022.nc",
      "fes2022b/ocean_tide_20241025/k1_fes2022.nc",
      "fes2022b/ocean_tide_20241025/k2_fes2022.nc",
      "fes2022b/ocean_tide_20241025/l2_fes2022.nc",
      "fes2022b/ocean_tide_20241025/lambda2_fes2022.nc",
      "fes2022b/ocean_tide_20241025/m2_fes2022.nc",
      "fes2022b/ocean_tide_20241025/m3_fes2022.nc",
      "fes2022b/ocean_tide_20241025/m4_fes2022.nc",
      "fes2022b/ocean_tide_20241025/m6_fes2022.nc",
      "fes2022b/ocean_tide_20241025/m8_fes2022.nc",
      "fes2022b/ocean_tide_20241025/mf_fes2022.nc",
      "fes2022b/ocean_tide_20241025/mks2_fes2022.nc",
      "fes2022b/ocean_tide_20241025/mm_fes2022.nc",
      "fes2022b/ocean_tide_20241025/mn4_fes2022.nc",
      "fes2022b/ocean_tide_20241025/ms4_fes2022.nc",
      "fes2022b/ocean_tide_20241025/msf_fes2022.nc",
      "fes2022b/ocean_tide_20241025/msqm_fes2022.nc",
      "fes2022b/ocean_tide_20241025/mtm_fes2022.nc",
      "fes2022b/ocean_tide_20241025/mu2_fes2022.nc",
      "fes2022b/ocean_tide_20241025/n2_fes2022.nc",
      "fes2022b/ocean_tide_20241025/n4_fes2022.nc",
      "fes2022b/ocean_tide_20241025/nu2_fes2022.nc",
      "fes2022b/ocean_tide_20241025/o1_fes2022.nc",
      "fes2022b/ocean_tide_20241025/p1_fes2022.nc",
      "fes2022b/ocean_tide_20241025/q1_fes2022.nc",
      "fes2022b/ocean_tide_20241025/r2_fes2022.nc",
      "fes2022b/ocean_tide_20241025/s1_fes2022.nc",
      "fes2022b/ocean_tide_20241025/s2_fes2022.nc",
      "fes2022b/ocean_tide_20241025/s4_fes2022.nc",
      "fes2022b/ocean_tide_20241025/sa_fes2022.nc",
      "fes2022b/ocean_tide_20241025/ssa_fes2022.nc",
      "fes2022b/ocean_tide_20241025/t2_fes2022.nc"])]⟩,
  ⟨"FES2022_extrapolated", "FES2022", "FES-netcdf", ["z"], none,
    none, some "0.01", some "FES2022", false,
    [("z", ["fes2022b/ocean_tide_extrapolated/2n2_fes2022.nc",
      "fes2022b/ocean_tide_extrapolated/eps2_fes2022.nc",
      "fes2022b/ocean_tide_extrapolated/j1_fes2022.nc",
      "fes2022b/ocean_tide_extrapolated/k1_fes2022.nc",
      "fes2022b/ocean_tide_extrapolated/k2_fes2022.nc",
      "fes2022b/ocean_tide_extrapolated/l2_fes2022.nc",
      "fes2022b/ocean_tide_extrapolated/lambda2_fes2022.nc",
      "fes2022b/ocean_tide_extrapolated/m2_fes2022.nc",
      "fes2022b/ocean_tide_extrapolated/m3_fes2022.nc",
      "fes2022b/ocean_tide_extrapolated/m4_fes2022.nc",
      "fes2022b/ocean_tide_extrapolated/m6_fes2022.nc",
      "fes2022b/ocean_tide_extrapolated/m8_fes2022.nc",
      "fes2022b/ocean_tide_extrapolated/mf_fes2022.nc",
      "fes2022b/ocean_tide_extrapolated/mks2_fes2022.nc",
      "fes2022b/ocean_tide_extrapolated/mm_fes2022.nc",
      "fes2022b/ocean_tide_extrapolated/mn4_fes2022.nc",
      "fes2022b/ocean_tide_extrapolated/ms4_fes2022.nc",
      "fes2022b/ocean_tide_extrapolated/msf_fes2022.nc",
      "fes2022b/ocean_tide_extrapolated/msqm_fes2022.nc",
      "fes2022b/ocean_tide_extrapolated/mtm_fes2022.nc",
      "fes2022b/ocean_tide_extrapolated/mu2_fes2022.nc",
      "fes2022b/ocean_tide_extrapolated/n2_fes2022.nc",
      "fes2022b/ocean_tide_extrapolated/n4_fes2022.nc",
      "fes2022b/ocean_tide_extrapolated/nu2_fes2022.nc",
      "fes2022b/ocean_tide_extrapolated/o1_fes2022.nc",
      "fes2022b/ocean_tide_extrapolated/p1_fes2022.nc",
      "fes2022b/ocean_tide_extrapolated/q1_fes2022.nc",
      "fes2022b/ocean_tide_extrapolated/r2_fes2022.nc",
      "fes2022b/ocean_tide_extrapolated/s1_fes2022.nc",
      "fes2022b/ocean_tide_extrapolated/s2_fes2022.nc",
      "fes2022b/ocean_tide_extrapolated/s4_fes2022.nc",
      "fes2022b/ocean_tide_extrapolated/sa_fes2022.nc",
      "fes2022b/ocean_tide_extrapolated/ssa_fes2022.nc",
      "fes2022b/ocean_tide_extrapolated/t2_fes2022.nc"])]⟩,
  ⟨"FES2022_load", "FES2022_load", "FES-netcdf", ["z"], none,
    none, some "0.01", some "FES2022", false,
    [("z", ["fes2022b/load_tide/2n2_fes2022.nc", "fes2022b/load_tide/eps2_fes2022.nc",
      "fes2022b/load_tide/j1_fes2022.nc", "fes2022b/load_tide/k1_fes2022.nc",
      "fes2022b/load_tide/k2_fes2022.nc", "fes2022b/load_tide/l2_fes2022.nc",
      "fes2022b/load_tide/lambda2_fes2022.nc", "fes2022b/load_tide/m2_fes2022.nc",
      "fes2022b/load_tide/m3_fes2022.nc", "fes2022b/load_tide/m4_fes2022.nc",
      "fes2022b/load_tide/m6_fes2022.nc", "fes2022b/load_tide/m8_fes2022.nc",
      "fes2022b/load_tide/mf_fes2022.nc", "fes2022b/load_tide/mks2_fes2022.nc",
      "fes2022b/load_tide/mm_fes2022.nc", "fes2022b/load_tide/mn4_fes2022.nc",
      "fes2022b/load_tide/ms4_fes2022.nc", "fes2022b/load_tide/msf_fes2022.nc",
      "fes2022b/load_tide/msqm_fes2022.nc", "fes2022b/load_tide/mtm_fes2022.nc",
      "fes2022b/load_tide/mu2_fes2022.nc", "fes2022b/load_tide/n2_fes2022.nc",
      "fes2022b/load_tide/n4_fes2022.nc", "fes2022b/load_tide/nu2_fes2022.nc",
      "fes2022b/load_tide/o1_fes2022.nc", "fes2022b/load_tide/p1_fes2022.nc",
      "fes2022b/load_tide/q1_fes2022.nc", "fes2022b/load_tide/r2_fes2022.nc",
      "fes2022b/load_tide/s1_fes2022.nc", "fes2022b/load_tide/s2_fes2022.nc",
      "fes2022b/load_tide/s4_fes2022.nc", "fes2022b/load_tide/sa_fes2022.nc",
      "fes2022b/load_tide/ssa_fes2022.nc", "fes2022b/load_tide/t2_fes2022.nc"])]⟩,
  ⟨"GOT4.10", "GOT4.10", "GOT-ascii", ["z"], none,
    none, some "0.01", some "4.10", false,
    [("z", ["GOT4.10c/grids_oceantide/q1.d", "GOT4.10c/grids_oceantide/o1.d",
      "GOT4.10c/grids_oceantide/p1.d", "GOT4.10c/grids_oceantide/k1.d",
      "GOT4.10c/grids_oceantide/n2.d", "GOT4.10c/grids_oceantide/m2.d",
      "GOT4.10c/grids_oceantide/s2.d", "GOT4.10c/grids_oceantide/k2.d",
      "GOT4.10c/grids_oceantide/s1.d", "GOT4.10c/grids_oceantide/m4.d"])]⟩,
  ⟨"GOT4.10_load", "GOT4.10_load", "GOT-ascii", ["z"], none,
    none, some "0.001", some "4.10", false,
    [("z", ["GOT4.10c/grids_loadtide/q1load.d", "GOT4.10c/grids_loadtide/o1load.d",
      "GOT4.10c/grids_loadtide/p1load.d", "GOT4.10c/grids_loadtide/k1load.d",
      "GOT4.10c/grids_loadtide/n2load.d", "GOT4.10c/grids_loadtide/m2load.d",
      "GOT4.10c/grids_loadtide/s2load.d", "GOT4.10c/grids_loadtide/k2load.d",
      "GOT4.10c/grids_loadtide/s1load.d", "GOT4.10c/grids_loadtide/m4load.d"])]⟩,
  ⟨"GOT4.7", "GOT4.7", "GOT-ascii", ["z"], none,
    none, some "0.01", some "4.7", false,
    [("z", ["GOT4.7/grids_oceantide/q1.d", "GOT4.7/grids_oceantide/o1.d",
      "GOT4.7/grids_oceantide/p1.d", "GOT4.7/grids_oceantide/k1.d",
      "GOT4.7/grids_oceantide/n2.d", "GOT4.7/grids_oceantide/m2.d",
      "GOT4.7/grids_oceantide/s2.d", "GOT4.7/grids_oceantide/k2.d",
      "GOT4.7/grids_oceantide/s1.d", "GOT4.7/grids_oceantide/m4.d"])]⟩,
  ⟨"GOT4.7_load", "GOT4.7_load", "GOT-ascii", ["z"], none,
    none, some "0.001", some "4.7", false,
    [("z", ["GOT4.7/grids_loadtide/q1load.d", "GOT4.7/grids_loadtide/o1load.d",
      "GOT4.7/grids_loadtide/p1load.d", "GOT4.7/grids_loadtide/k1load.d",
      "GOT4.7/grids_loadtide/n2load.d", "GOT4.7/grids_loadtide/m2load.d",
      "GOT4.7/grids_loadtide/s2load.d", "GOT4.7/grids_loadtide/k2load.d",
      "GOT4.7/grids_loadtide/s1load.d", "GOT4.7/grids_loadtide/m4load.d"])]⟩,
  ⟨"GOT4.8", "GOT4.8", "GOT-ascii", ["z"], none,
    none, some "0.01", some "4.8", false,
    [("z", ["got4.8/grids_oceantide/q1.d", "got4.8/grids_oceantide/o1.d",
      "got4.8/grids_oceantide/p1.d", "got4.8/grids_oceantide/k1.d",
      "got4.8/grids_oceantide/n2.d", "got4.8/grids_oceantide/m2.d",
      "got4.8/grids_oceantide/s2.d", "got4.8/grids_oceantide/k2.d",
      "got4.8/grids_oceantide/s1.d", "got4.8/grids_oceantide/m4.d"])]⟩,
  ⟨"GOT4.8_load", "GOT4.8_load", "GOT-ascii", ["z"], none,
    none, some "0.001", some "4.8", false,
    [("z", ["got4.8/grids_loadtide/q1load.d", "got4.8/grids_loadtide/o1load.d",
      "got4.8/grids_loadtide/p1load.d", "got4.8/grids_loadtide/k1load.d",
      "got4.8/grids_loadtide/n2load.d", "got4.8/grids_loadtide/m2load.d",
      "got4.8/grids_loadtide/s2load.d", "got4.8/grids_loadtide/k2load.d",
      "got4.8/grids_loadtide/s1load.d", "got4.8/grids_loadtide/m4load.d"])]⟩,
  ⟨"GOT5.5", "GOT5.5", "GOT-netcdf", ["z"], none,
    none, some "0.01", some "5.5", false,
    [("z", ["GOT5.5/ocean_tides/2n2.nc", "GOT5.5/ocean_tides/j1.nc", "GOT5.5/ocean_tides/k1.nc",
      "GOT5.5/ocean_tides/k2.nc", "GOT5.5/ocean_tides/m2.nc", "GOT5.5/ocean_tides/m4.nc",
      "GOT5.5/ocean_tides/ms4.nc", "GOT5.5/ocean_tides/mu2.nc", "GOT5.5/ocean_tides/n2.nc",
      "GOT5.5/ocean_tides/o1.nc", "GOT5.5/ocean_tides/oo1.nc", "GOT5.5/ocean_tides/p1.nc",
      "GOT5.5/ocean_tides/q1.nc", "GOT5.5/ocean_tides/s1.nc", "GOT5.5/ocean_tides/s2.nc",
      "GOT5.5/ocean_tides/sig1.nc"])]⟩,
  ⟨"GOT5.5D", "GOT5.5D", "GOT-netcdf", ["z"], none,
    none, some "0.01", some "5.5", false,
    [("z", ["GOT5.5/ocean_tides/2n2.nc", "GOT5.5/ocean_tides/j1.nc",
      "GOT5.5D/ocean_tides/k1_5.5D.nc", "GOT5.5/ocean_tides/k2.nc",
      "GOT5.5D/ocean_tides/m2_5.5D.nc", "GOT5.5/ocean_tides/m4.nc",
      "GOT5.5/ocean_tides/ms4.nc", "GOT5.5/ocean_tides/mu2.nc", "GOT5.5/ocean_tides/n2.nc",
      "GOT5.5/ocean_tides/o1.nc", "GOT5.5/ocean_tides/oo1.nc",
      "GOT5.5D/ocean_tides/p1_5.5D.nc", "GOT5.5/ocean_tides/q1.nc",
      "GOT5.5D/ocean_tides/s1_5.5D.nc", "GOT5.5D/ocean_tides/s2_5.5D.nc",
      "GOT5.5/ocean_tides/sig1.nc"])]⟩]

/-- `database.json`, `elevation`, models 27 to 39. -/
def elevation2 : List Entry := [
  ⟨"GOT5.5D_extrapolated", "GOT5.5D", "GOT-netcdf", ["z"], none,
    none, some "0.01", some "5.5", false,
    [("z", ["GOT5.5/extrapolated/2n2x.nc", "GOT5.5/extrapolated/j1x.nc",
      "GOT5.5D/extrapolated/k1_5.5Dx.nc", "GOT5.5/extrapolated/k2x.nc",
      "GOT5.5D/extrapolated/m2_5.5Dx.nc", "GOT5.5/extrapolated/m4x.nc",
      "GOT5.5/extrapolated/ms4x.nc", "GOT5.5/extrapolated/mu2x.nc",
      "GOT5.5/extrapolated/n2x.nc", "GOT5.5/extrapolated/o1x.nc",
      "GOT5.5/extrapolated/oo1x.nc", "GOT5.5D/extrapolated/p1_5.5Dx.nc",
      "GOT5.5/extrapolated/q1x.nc", "GOT5.5D/extrapolated/s1_5.5Dx.nc",
      "GOT5.5D/extrapolated/s2_5.5Dx.nc", "GOT5.5/extrapolated/sig1x.nc"])]⟩,
  ⟨"GOT5.5_extrapolated", "GOT5.5", "GOT-netcdf", ["z"], none,
    none, some "0.01", some "5.5", false,
    [("z", ["GOT5.5/extrapolated/2n2x.nc", "GOT5.5/extrapolated/j1x.nc",
      "GOT5.5/extrapolated/k1x.nc", "GOT5.5/extrapolated/k2x.nc",
      "GOT5.5/extrapolated/m2x.nc", "GOT5.5/extrapolated/m4x.nc",
      "GOT5.5/extrapolated/ms4x.nc", "GOT5.5/extrapolated/mu2x.nc",
      "GOT5.5/extrapolated/n2x.nc", "GOT5.5/extrapolated/o1x.nc",
      "GOT5.5/extrapolated/oo1x.nc", "GOT5.5/extrapolated/p1x.nc",
      "GOT5.5/extrapolated/q1x.nc", "GOT5.5/extrapolated/s1x.nc",
      "GOT5.5/extrapolated/s2x.nc", "GOT5.5/extrapolated/sig1x.nc"])]⟩,
  ⟨"GOT5.5_load", "GOT5.5_load", "GOT-netcdf", ["z"], none,
    none, some "0.001", some "5.5", false,
    [("z", ["GOT5.5/load_tides/2n2load.nc", "GOT5.5/load_tides/k1load.nc",
      "GOT5.5/load_tides/m2load.nc", "GOT5.5/load_tides/ms4load.nc",
      "GOT5.5/load_tides/n2load.nc", "GOT5.5/load_tides/oo1load.nc",
      "GOT5.5/load_tides/q1load.nc", "GOT5.5/load_tides/s2load.nc",
      "GOT5.5/load_tides/j1load.nc", "GOT5.5/load_tides/k2load.nc",
      "GOT5.5/load_tides/m4load.nc", "GOT5.5/load_tides/mu2load.nc",
      "GOT5.5/load_tides/o1load.nc", "GOT5.5/load_tides/p1load.nc",
      "GOT5.5/load_tides/s1load.nc", "GOT5.5/load_tides/sig1load.nc"])]⟩,
  ⟨"GOT5.6", "GOT5.6", "GOT-netcdf", ["z"], none,
    none, some "0.01", some "5.6", false,
    [("z", ["GOT5.5/ocean_tides/2n2.nc", "GOT5.5/ocean_tides/j1.nc", "GOT5.5/ocean_tides/k1.nc",
      "GOT5.5/ocean_tides/k2.nc", "GOT5.6/ocean_tides/l2'.nc", "GOT5.6/ocean_tides/m1'.nc",
      "GOT5.5/ocean_tides/m2.nc", "GOT5.6/ocean_tides/m3.nc", "GOT5.5/ocean_tides/m4.nc",
      "GOT5.5/ocean_tides/ms4.nc", "GOT5.5/ocean_tides/mu2.nc", "GOT5.5/ocean_tides/n2.nc",
      "GOT5.6/ocean_tides/n2'.nc", "GOT5.5/ocean_tides/o1.nc", "GOT5.5/ocean_tides/oo1.nc",
      "GOT5.5/ocean_tides/p1.nc", "GOT5.5/ocean_tides/q1.nc", "GOT5.5/ocean_tides/s1.nc",
      "GOT5.5/ocean_tides/s2.nc", "GOT5.5/ocean_tides/sig1.nc"])]⟩,
  ⟨"GOT5.6_extrapolated", "GOT5.6", "GOT-netcdf", ["z"], none,
    none, some "0.01", some "5.6", false,
    [("z", ["GOT5.5/extrapolated/2n2x.nc", "GOT5.5/extrapolated/j1x.nc",
      "GOT5.5/extrapolated/k1x.nc", "GOT5.5/extrapolated/k2x.nc",
      "GOT5.6/extrapolated/l2'x.nc", "GOT5.6/extrapolated/m1'x.nc",
      "GOT5.5/extrapolated/m2x.nc", "GOT5.6/extrapolated/m3x.nc",
      "GOT5.5/extrapolated/m4x.nc", "GOT5.5/extrapolated/ms4x.nc",
      "GOT5.5/extrapolated/mu2x.nc", "GOT5.5/extrapolated/n2x.nc",
      "GOT5.6/extrapolated/n2'x.nc", "GOT5.5/extrapolated/o1x.nc",
      "GOT5.5/extrapolated/oo1x.nc", "GOT5.5/extrapolated/p1x.nc",
      "GOT5.5/extrapolated/q1x.nc", "GOT5.5/extrapolated/s1x.nc",
      "GOT5.5/extrapolated/s2x.nc", "GOT5.5/extrapolated/sig1x.nc"])]⟩,
  ⟨"Gr1km-v2", "Gr1km-v2", "OTIS", ["z"], some "greenlandTMD_v2/grid_Greenland8.v2",
    some "stere", none, some "v2", true,
    [("z", ["greenlandTMD_v2/h_Greenland8.v2"])]⟩,
  ⟨"Gr1kmTM", "Gr1kmTM", "OTIS", ["z"], some "Gr1kmTM/grid_Gr1kmTM_v1",
    some "stere", none, some "v1", true,
    [("z", ["Gr1kmTM/h_Gr1kmTM_v1"])]⟩,
  ⟨"HAMTIDE11", "HAMTIDE11", "FES-netcdf", ["z"], none,
    none, some "0.01", some "HAMTIDE11", false,
    [("z", ["hamtide/2n.hamtide11a.nc", "hamtide/k1.hamtide11a.nc", "hamtide/k2.hamtide11a.nc",
      "hamtide/m2.hamtide11a.nc", "hamtide/n2.hamtide11a.nc", "hamtide/o1.hamtide11a.nc",
      "hamtide/p1.hamtide11a.nc", "hamtide/q1.hamtide11a.nc", "hamtide/s2.hamtide11a.nc"])]⟩,
  ⟨"RE14", "RE14", "GOT-netcdf", ["z"], none,
    none, some "0.01", some "2014", false,
    [("z", ["RE14_LongPeriodTides_rel/oceantides/Mf_RE14_oceantide.nc",
      "RE14_LongPeriodTides_rel/oceantides/Mm_RE14_oceantide.nc",
      "RE14_LongPeriodTides_rel/oceantides/Mt_RE14_oceantide.nc",
      "RE14_LongPeriodTides_rel/oceantides/Node_RE14_oceantide.nc",
      "RE14_LongPeriodTides_rel/oceantides/Sa_RE14_oceantide.nc",
      "RE14_LongPeriodTides_rel/oceantides/Ssa_RE14_oceantide.nc"])]⟩,
  ⟨"TPXO10-atlas-v2", "TPXO10-atlas-v2", "OTIS", ["z"], some "TPXO10_atlas_v2/grid_tpxo10_atlas_30_v2",
    some "EPSG:4326", some "0.001", some "v2", false,
    [("z", ["TPXO10_atlas_v2/h_2n2_tpxo10_atlas_30_v2",
      "TPXO10_atlas_v2/h_k1_tpxo10_atlas_30_v2", "TPXO10_atlas_v2/h_k2_tpxo10_atlas_30_v2",
      "TPXO10_atlas_v2/h_m2_tpxo10_atlas_30_v2", "TPXO10_atlas_v2/h_m4_tpxo10_atlas_30_v2",
      "TPXO10_atlas_v2/h_mf_tpxo10_atlas_30_v2", "TPXO10_atlas_v2/h_mm_tpxo10_atlas_30_v2",
      "TPXO10_atlas_v2/h_mn4_tpxo10_atlas_30_v2",
      "TPXO10_atlas_v2/h_ms4_tpxo10_atlas_30_v2",
      "TPXO10_atlas_v2/h_n2_tpxo10_atlas_30_v2", "TPXO10_atlas_v2/h_o1_tpxo10_atlas_30_v2",
      "TPXO10_atlas_v2/h_p1_tpxo10_atlas_30_v2", "TPXO10_atlas_v2/h_q1_tpxo10_atlas_30_v2",
      "TPXO10_atlas_v2/h_s1_tpxo10_atlas_30_v2", "TPXO10_atlas_v2/h_s2_tpxo10_atlas_30_v2"])]⟩,
  ⟨"TPXO10-atlas-v2-nc", "TPXO10-atlas-v2", "ATLAS-netcdf", ["z"], some "TPXO10_atlas_v2/grid_tpxo10atlas_v2.nc",
    some "EPSG:4326", some "0.001", some "v2", false,
    [("z", ["TPXO10_atlas_v2/h_2n2_tpxo10_atlas_30_v2.nc",
      "TPXO10_atlas_v2/h_k1_tpxo10_atlas_30_v2.nc",
      "TPXO10_atlas_v2/h_k2_tpxo10_atlas_30_v2.nc",
      "TPXO10_atlas_v2/h_m2_tpxo10_atlas_30_v2.nc",
      "TPXO10_atlas_v2/h_m4_tpxo10_atlas_30_v2.nc",
      "TPXO10_atlas_v2/h_mf_tpxo10_atlas_30_v2.nc",
      "TPXO10_atlas_v2/h_mm_tpxo10_atlas_30_v2.nc",
      "TPXO10_atlas_v2/h_mn4_tpxo10_atlas_30_v2.nc",
      "TPXO10_atlas_v2/h_ms4_tpxo10_atlas_30_v2.nc",
      "TPXO10_atlas_v2/h_n2_tpxo10_atlas_30_v2.nc",
      "TPXO10_atlas_v2/h_o1_tpxo10_atlas_30_v2.nc",
      "TPXO10_atlas_v2/h_p1_tpxo10_atlas_30_v2.nc",
      "TPXO10_atlas_v2/h_q1_tpxo10_atlas_30_v2.nc",
      "TPXO10_atlas_v2/h_s1_tpxo10_atlas_30_v2.nc",
      "TPXO10_atlas_v2/h_s2_tpxo10_atlas_30_v2.nc"])]⟩,
  ⟨"TPXO7.2", "TPXO7.2", "OTIS", ["z"], some "TPXO7.2_tmd/grid_tpxo7.2",
    some "EPSG:4326", none, some "7.2", true,
    [("z", ["TPXO7.2_tmd/h_tpxo7.2"])]⟩,
  ⟨"TPXO7.2_load", "TPXO7.2_load", "OTIS", ["z"], some "TPXO7.2_load/grid_tpxo6.2",
    some "EPSG:4326", none, some "7.2", true,
    [("z", ["TPXO7.2_load/h_tpxo7.2_load"])]⟩]

/-- `database.json`, `elevation`, models 40 to 52. -/
def elevation3 : List Entry := [
  ⟨"TPXO8-atlas", "TPXO8-atlas", "ATLAS-compact", ["z"], some "tpxo8_atlas/grid_tpxo8atlas_30_v1",
    some "EPSG:4326", none, some "8", true,
    [("z", ["tpxo8_atlas/hf.tpxo8_atlas_30_v1"])]⟩,
  ⟨"TPXO8-atlas-nc", "TPXO8-atlas-nc", "ATLAS-netcdf", ["z"], some "TPXO8_atlas_v1/grid_tpxo8atlas_30_v1.nc",
    none, some "0.001", some "v1", false,
    [("z", ["TPXO8_atlas_v1/hf.k1_tpxo8_atlas_30c_v1.nc",
      "TPXO8_atlas_v1/hf.n2_tpxo8_atlas_30c_v1.nc",
      "TPXO8_atlas_v1/hf.o1_tpxo8_atlas_30c_v1.nc",
      "TPXO8_atlas_v1/hf.q1_tpxo8_atlas_30c_v1.nc",
      "TPXO8_atlas_v1/hf.s2_tpxo8_atlas_30c_v1.nc",
      "TPXO8_atlas_v1/hf.k2_tpxo8_atlas_30c_v1.nc",
      "TPXO8_atlas_v1/hf.p1_tpxo8_atlas_30c_v1.nc",
      "TPXO8_atlas_v1/hf.m4_tpxo8_atlas_30c_v1.nc",
      "TPXO8_atlas_v1/hf.m2_tpxo8_atlas_30c_v1.nc"])]⟩,
  ⟨"TPXO9-atlas", "TPXO9-atlas", "OTIS", ["z"], some "TPXO9_atlas/grid_tpxo9_atlas",
    some "EPSG:4326", some "0.001", some "v1", false,
    [("z", ["TPXO9_atlas/h_q1_tpxo9_atlas_30", "TPXO9_atlas/h_o1_tpxo9_atlas_30",
      "TPXO9_atlas/h_p1_tpxo9_atlas_30", "TPXO9_atlas/h_k1_tpxo9_atlas_30",
      "TPXO9_atlas/h_n2_tpxo9_atlas_30", "TPXO9_atlas/h_m2_tpxo9_atlas_30",
      "TPXO9_atlas/h_s2_tpxo9_atlas_30", "TPXO9_atlas/h_k2_tpxo9_atlas_30",
      "TPXO9_atlas/h_m4_tpxo9_atlas_30", "TPXO9_atlas/h_ms4_tpxo9_atlas_30",
      "TPXO9_atlas/h_mn4_tpxo9_atlas_30", "TPXO9_atlas/h_2n2_tpxo9_atlas_30"])]⟩,
  ⟨"TPXO9-atlas-nc", "TPXO9-atlas", "ATLAS-netcdf", ["z"], some "TPXO9_atlas/grid_tpxo9_atlas.nc",
    some "EPSG:4326", some "0.001", some "v1", false,
    [("z", ["TPXO9_atlas/h_q1_tpxo9_atlas_30.nc", "TPXO9_atlas/h_o1_tpxo9_atlas_30.nc",
      "TPXO9_atlas/h_p1_tpxo9_atlas_30.nc", "TPXO9_atlas/h_k1_tpxo9_atlas_30.nc",
      "TPXO9_atlas/h_n2_tpxo9_atlas_30.nc", "TPXO9_atlas/h_m2_tpxo9_atlas_30.nc",
      "TPXO9_atlas/h_s2_tpxo9_atlas_30.nc", "TPXO9_atlas/h_k2_tpxo9_atlas_30.nc",
      "TPXO9_atlas/h_m4_tpxo9_atlas_30.nc", "TPXO9_atlas/h_ms4_tpxo9_atlas_30.nc",
      "TPXO9_atlas/h_mn4_tpxo9_atlas_30.nc", "TPXO9_atlas/h_2n2_tpxo9_atlas_30.nc"])]⟩,
  ⟨"TPXO9-atlas-v2", "TPXO9-atlas-v2", "OTIS", ["z"], some "TPXO9_atlas_v2/grid_tpxo9_atlas_30_v2",
    some "EPSG:4326", some "0.001", some "v2", false,
    [("z", ["TPXO9_atlas_v2/h_q1_tpxo9_atlas_30_v2", "TPXO9_atlas_v2/h_o1_tpxo9_atlas_30_v2",
      "TPXO9_atlas_v2/h_p1_tpxo9_atlas_30_v2", "TPXO9_atlas_v2/h_k1_tpxo9_atlas_30_v2",
      "TPXO9_atlas_v2/h_n2_tpxo9_atlas_30_v2", "TPXO9_atlas_v2/h_m2_tpxo9_atlas_30_v2",
      "TPXO9_atlas_v2/h_s2_tpxo9_atlas_30_v2", "TPXO9_atlas_v2/h_k2_tpxo9_atlas_30_v2",
      "TPXO9_atlas_v2/h_m4_tpxo9_atlas_30_v2", "TPXO9_atlas_v2/h_ms4_tpxo9_atlas_30_v2",
      "TPXO9_atlas_v2/h_mn4_tpxo9_atlas_30_v2", "TPXO9_atlas_v2/h_2n2_tpxo9_atlas_30_v2"])]⟩,
  ⟨"TPXO9-atlas-v2-nc", "TPXO9-atlas-v2", "ATLAS-netcdf", ["z"], some "TPXO9_atlas_v2/grid_tpxo9_atlas_30_v2.nc",
    some "EPSG:4326", some "0.001", some "v2", false,
    [("z", ["TPXO9_atlas_v2/h_q1_tpxo9_atlas_30_v2.nc",
      "TPXO9_atlas_v2/h_o1_tpxo9_atlas_30_v2.nc",
      "TPXO9_atlas_v2/h_p1_tpxo9_atlas_30_v2.nc",
      "TPXO9_atlas_v2/h_k1_tpxo9_atlas_30_v2.nc",
      "TPXO9_atlas_v2/h_n2_tpxo9_atlas_30_v2.nc",
      "TPXO9_atlas_v2/h_m2_tpxo9_atlas_30_v2.nc",
      "TPXO9_atlas_v2/h_s2_tpxo9_atlas_30_v2.nc",
      "TPXO9_atlas_v2/h_k2_tpxo9_atlas_30_v2.nc",
      "TPXO9_atlas_v2/h_m4_tpxo9_atlas_30_v2.nc",
      "TPXO9_atlas_v2/h_ms4_tpxo9_atlas_30_v2.nc",
      "TPXO9_atlas_v2/h_mn4_tpxo9_atlas_30_v2.nc",
      "TPXO9_atlas_v2/h_2n2_tpxo9_atlas_30_v2.nc"])]⟩,
  ⟨"TPXO9-atlas-v3", "TPXO9-atlas-v3", "OTIS", ["z"], some "TPXO9_atlas_v3/grid_tpxo9_atlas_30_v3",
    some "EPSG:4326", some "0.001", some "v3", false,
    [("z", ["TPXO9_atlas_v3/h_q1_tpxo9_atlas_30_v3", "TPXO9_atlas_v3/h_o1_tpxo9_atlas_30_v3",
      "TPXO9_atlas_v3/h_p1_tpxo9_atlas_30_v3", "TPXO9_atlas_v3/h_k1_tpxo9_atlas_30_v3",
      "TPXO9_atlas_v3/h_n2_tpxo9_atlas_30_v3", "TPXO9_atlas_v3/h_m2_tpxo9_atlas_30_v3",
      "TPXO9_atlas_v3/h_s2_tpxo9_atlas_30_v3", "TPXO9_atlas_v3/h_k2_tpxo9_atlas_30_v3",
      "TPXO9_atlas_v3/h_m4_tpxo9_atlas_30_v3", "TPXO9_atlas_v3/h_ms4_tpxo9_atlas_30_v3",
      "TPXO9_atlas_v3/h_mn4_tpxo9_atlas_30_v3", "TPXO9_atlas_v3/h_2n2_tpxo9_atlas_30_v3",
      "TPXO9_atlas_v3/h_mf_tpxo9_atlas_30_v3", "TPXO9_atlas_v3/h_mm_tpxo9_atlas_30_v3"])]⟩,
  ⟨"TPXO9-atlas-v3-nc", "TPXO9-atlas-v3", "ATLAS-netcdf", ["z"], some "TPXO9_atlas_v3/grid_tpxo9_atlas_30_v3.nc",
    some "EPSG:4326", some "0.001", some "v3", false,
    [("z", ["TPXO9_atlas_v3/h_q1_tpxo9_atlas_30_v3.nc",
      "TPXO9_atlas_v3/h_o1_tpxo9_atlas_30_v3.nc",
      "TPXO9_atlas_v3/h_p1_tpxo9_atlas_30_v3.nc",
      "TPXO9_atlas_v3/h_k1_tpxo9_atlas_30_v3.nc",
      "TPXO9_atlas_v3/h_n2_tpxo9_atlas_30_v3.nc",
      "TPXO9_atlas_v3/h_m2_tpxo9_atlas_30_v3.nc",
      "TPXO9_atlas_v3/h_s2_tpxo9_atlas_30_v3.nc",
      "TPXO9_atlas_v3/h_k2_tpxo9_atlas_30_v3.nc",
      "TPXO9_atlas_v3/h_m4_tpxo9_atlas_30_v3.nc",
      "TPXO9_atlas_v3/h_ms4_tpxo9_atlas_30_v3.nc",
      "TPXO9_atlas_v3/h_mn4_tpxo9_atlas_30_v3.nc",
      "TPXO9_atlas_v3/h_2n2_tpxo9_atlas_30_v3.nc",
      "TPXO9_atlas_v3/h_mf_tpxo9_atlas_30_v3.nc", "TPXO9_atlas_v3/h_mm_tpxo9_atlas_30_v3.nc"])]⟩,
  ⟨"TPXO9-atlas-v4", "TPXO9-atlas-v4", "OTIS", ["z"], some "TPXO9_atlas_v4/grid_tpxo9_atlas_30_v4",
    some "EPSG:4326", some "0.001", some "v4", false,
    [("z", ["TPXO9_atlas_v4/h_q1_tpxo9_atlas_30_v4", "TPXO9_atlas_v4/h_o1_tpxo9_atlas_30_v4",
      "TPXO9_atlas_v4/h_p1_tpxo9_atlas_30_v4", "TPXO9_atlas_v4/h_k1_tpxo9_atlas_30_v4",
      "TPXO9_atlas_v4/h_n2_tpxo9_atlas_30_v4", "TPXO9_atlas_v4/h_m2_tpxo9_atlas_30_v4",
      "TPXO9_atlas_v4/h_s2_tpxo9_atlas_30_v4", "TPXO9_atlas_v4/h_k2_tpxo9_atlas_30_v4",
      "TPXO9_atlas_v4/h_m4_tpxo9_atlas_30_v4", "TPXO9_atlas_v4/h_ms4_tpxo9_atlas_30_v4",
      "TPXO9_atlas_v4/h_mn4_tpxo9_atlas_30_v4", "TPXO9_atlas_v4/h_2n2_tpxo9_atlas_30_v4",
      "TPXO9_atlas_v4/h_mf_tpxo9_atlas_30_v4", "TPXO9_atlas_v4/h_mm_tpxo9_atlas_30_v4"])]⟩,
  ⟨"TPXO9-atlas-v4-nc", "TPXO9-atlas-v4", "ATLAS-netcdf", ["z"], some "TPXO9_atlas_v4/grid_tpxo9_atlas_30_v4.nc",
    some "EPSG:4326", some "0.001", some "v4", false,
    [("z", ["TPXO9_atlas_v4/h_q1_tpxo9_atlas_30_v4.nc",
      "TPXO9_atlas_v4/h_o1_tpxo9_atlas_30_v4.nc",
      "TPXO9_atlas_v4/h_p1_tpxo9_atlas_30_v4.nc",
      "TPXO9_atlas_v4/h_k1_tpxo9_atlas_30_v4.nc",
      "TPXO9_atlas_v4/h_n2_tpxo9_atlas_30_v4.nc",
      "TPXO9_atlas_v4/h_m2_tpxo9_atlas_30_v4.nc",
      "TPXO9_atlas_v4/h_s2_tpxo9_atlas_30_v4.nc",
      "TPXO9_atlas_v4/h_k2_tpxo9_atlas_30_v4.nc",
      "TPXO9_atlas_v4/h_m4_tpxo9_atlas_30_v4.nc",
      "TPXO9_atlas_v4/h_ms4_tpxo9_atlas_30_v4.nc",
      "TPXO9_atlas_v4/h_mn4_tpxo9_atlas_30_v4.nc",
      "TPXO9_atlas_v4/h_2n2_tpxo9_atlas_30_v4.nc",
      "TPXO9_atlas_v4/h_mf_tpxo9_atlas_30_v4.nc", "TPXO9_atlas_v4/h_mm_tpxo9_atlas_30_v4.nc"])]⟩,
  ⟨"TPXO9-atlas-v5", "TPXO9-atlas-v5", "OTIS", ["z"], some "TPXO9_atlas_v5/grid_tpxo9_atlas_30_v5",
    some "EPSG:4326", some "0.001", some "v5", false,
    [("z", ["TPXO9_atlas_v5/h_q1_tpxo9_atlas_30_v5", "TPXO9_atlas_v5/h_o1_tpxo9_atlas_30_v5",
      "TPXO9_atlas_v5/h_p1_tpxo9_atlas_30_v5", "TPXO9_atlas_v5/h_k1_tpxo9_atlas_30_v5",
      "TPXO9_atlas_v5/h_n2_tpxo9_atlas_30_v5", "TPXO9_atlas_v5/h_m2_tpxo9_atlas_30_v5",
      "TPXO9_atlas_v5/h_s1_tpxo9_atlas_30_v5", "TPXO9_atlas_v5/h_s2_tpxo9_atlas_30_v5",
      "TPXO9_atlas_v5/h_k2_tpxo9_atlas_30_v5", "TPXO9_atlas_v5/h_m4_tpxo9_atlas_30_v5",
      "TPXO9_atlas_v5/h_ms4_tpxo9_atlas_30_v5", "TPXO9_atlas_v5/h_mn4_tpxo9_atlas_30_v5",
      "TPXO9_atlas_v5/h_2n2_tpxo9_atlas_30_v5", "TPXO9_atlas_v5/h_mf_tpxo9_atlas_30_v5",
      "TPXO9_atlas_v5/h_mm_tpxo9_atlas_30_v5"])]⟩,
  ⟨"TPXO9-atlas-v5-nc", "TPXO9-atlas-v5", "ATLAS-netcdf", ["z"], some "TPXO9_atlas_v5/grid_tpxo9_atlas_30_v5.nc",
    some "EPSG:4326", some "0.001", some "v5", false,
    [("z", ["TPXO9_atlas_v5/h_q1_tpxo9_atlas_30_v5.nc",
      "TPXO9_atlas_v5/h_o1_tpxo9_atlas_30_v5.nc",
      "TPXO9_atlas_v5/h_p1_tpxo9_atlas_30_v5.nc",
      "TPXO9_atlas_v5/h_k1_tpxo9_atlas_30_v5.nc",
      "TPXO9_atlas_v5/h_n2_tpxo9_atlas_30_v5.nc",
      "TPXO9_atlas_v5/h_m2_tpxo9_atlas_30_v5.nc",
      "TPXO9_atlas_v5/h_s1_tpxo9_atlas_30_v5.nc",
      "TPXO9_atlas_v5/h_s2_tpxo9_atlas_30_v5.nc",
      "TPXO9_atlas_v5/h_k2_tpxo9_atlas_30_v5.nc",
      "TPXO9_atlas_v5/h_m4_tpxo9_atlas_30_v5.nc",
      "TPXO9_atlas_v5/h_ms4_tpxo9_atlas_30_v5.nc",
      "TPXO9_atlas_v5/h_mn4_tpxo9_atlas_30_v5.nc",
      "TPXO9_atlas_v5/h_2n2_tpxo9_atlas_30_v5.nc",
      "TPXO9_atlas_v5/h_mf_tpxo9_atlas_30_v5.nc", "TPXO9_atlas_v5/h_mm_tpxo9_atlas_30_v5.nc"])]⟩,
  ⟨"TPXO9.1", "TPXO9.1", "OTIS", ["z"], some "TPXO9.1/DATA/grid_tpxo9",
    some "EPSG:4326", none, some "9.1", true,
    [("z", ["TPXO9.1/DATA/h_tpxo9.v1"])]⟩]

/-- `database.json`, `elevation`. -/
def elevation : List Entry := elevation0 ++ elevation1 ++ elevation2 ++ elevation3

/-- `database.json`, `current`, models 1 to 13. -/
def current0 : List Entry := [
  ⟨"AODTM-5", "AODTM-5", "OTIS", ["u", "v"], some "aodtm5_tmd/grid_Arc5km",
    some "aeqd", none, none, true,
    [("u", ["aodtm5_tmd/UV0_Arc5km"])]⟩,
  ⟨"AOTIM-5", "AOTIM-5", "OTIS", ["u", "v"], some "aotim5_tmd/grid_Arc5km",
    some "aeqd", none, none, true,
    [("u", ["aotim5_tmd/UV_Arc5km"])]⟩,
  ⟨"AOTIM-5-2018", "AOTIM-5-2018", "OTIS", ["u", "v"], some "Arc5km2018/grid_Arc5km2018",
    some "aeqd", none, some "2018", true,
    [("u", ["Arc5km2018/UV_Arc5km2018"])]⟩,
  ⟨"Arc2kmTM", "Arc2kmTM", "OTIS", ["u", "v"], some "Arc2kmTM/grid_Arc2kmTM_v1",
    some "stere", none, some "v1", true,
    [("u", ["Arc2kmTM/UV_Arc2kmTM_v1"])]⟩,
  ⟨"CATS0201", "CATS0201", "OTIS", ["u", "v"], some "cats0201_tmd/grid_CATS",
    some "EPSG:4326", none, none, true,
    [("u", ["cats0201_tmd/UV0_CATS02_01"])]⟩,
  ⟨"CATS2008", "CATS2008", "OTIS", ["u", "v"], some "CATS2008/grid_CATS2008",
    some "stere", none, none, true,
    [("u", ["CATS2008/uv.CATS2008.out"])]⟩,
  ⟨"CATS2008-v2023", "CATS2008-v2023", "TMD3", ["u", "v"], some "CATS2008_v2023/CATS2008_v2023.nc",
    some "stere", none, none, true,
    [("u", ["CATS2008_v2023/CATS2008_v2023.nc"])]⟩,
  ⟨"FES2014", "FES2014", "FES-netcdf", ["u", "v"], none,
    none, some "1.0", some "FES2014", false,
    [("u", ["fes2014/eastward_velocity/2n2.nc", "fes2014/eastward_velocity/eps2.nc",
      "fes2014/eastward_velocity/j1.nc", "fes2014/eastward_velocity/k1.nc",
      "fes2014/eastward_velocity/k2.nc", "fes2014/eastward_velocity/l2.nc",
      "fes2014/eastward_velocity/la2.nc", "fes2014/eastward_velocity/m2.nc",
      "fes2014/eastward_velocity/m3.nc", "fes2014/eastward_velocity/m4.nc",
      "fes2014/eastward_velocity/m6.nc", "fes2014/eastward_velocity/m8.nc",
      "fes2014/eastward_velocity/mf.nc", "fes2014/eastward_velocity/mks2.nc",
      "fes2014/eastward_velocity/mm.nc", "fes2014/eastward_velocity/mn4.nc",
      "fes2014/eastward_velocity/ms4.nc", "fes2014/eastward_velocity/msf.nc",
      "fes2014/eastward_velocity/msqm.nc", "fes2014/eastward_velocity/mtm.nc",
      "fes2014/eastward_velocity/mu2.nc", "fes2014/eastward_velocity/n2.nc",
      "fes2014/eastward_velocity/n4.nc", "fes2014/eastward_velocity/nu2.nc",
      "fes2014/eastward_velocity/o1.nc", "fes2014/eastward_velocity/p1.nc",
      "fes2014/eastward_velocity/q1.nc", "fes2014/eastward_velocity/r2.nc",
      "fes2014/eastward_velocity/s1.nc", "fes2014/eastward_velocity/s2.nc",
      "fes2014/eastward_velocity/s4.nc", "fes2014/eastward_velocity/sa.nc",
      "fes2014/eastward_velocity/ssa.nc", "fes2014/eastward_velocity/t2.nc"]), ("v", ["fes2014/northward_velocity/2n2.nc", "fes2014/northward_velocity/eps2.nc",
      "fes2014/northward_velocity/j1.nc", "fes2014/northward_velocity/k1.nc",
      "fes2014/northward_velocity/k2.nc", "fes2014/northward_velocity/l2.nc",
      "fes2014/northward_velocity/la2.nc", "fes2014/northward_velocity/m2.nc",
      "fes2014/northward_velocity/m3.nc", "fes2014/northward_velocity/m4.nc",
      "fes2014/northward_velocity/m6.nc", "fes2014/northward_velocity/m8.nc",
      "fes2014/northward_velocity/mf.nc", "fes2014/northward_velocity/mks2.nc",
      "fes2014/northward_velocity/mm.nc", "fes2014/northward_velocity/mn4.nc",
      "fes2014/northward_velocity/ms4.nc", "fes2014/northward_velocity/msf.nc",
      "fes2014/northward_velocity/msqm.nc", "fes2014/northward_velocity/mtm.nc",
      "fes2014/northward_velocity/mu2.nc", "fes2014/northward_velocity/n2.nc",
      "fes2014/northward_velocity/n4.nc", "fes2014/northward_velocity/nu2.nc",
      "fes2014/northward_velocity/o1.nc", "fes2014/northward_velocity/p1.nc",
      "fes2014/northward_velocity/q1.nc", "fes2014/northward_velocity/r2.nc",
      "fes2014/northward_velocity/s1.nc", "fes2014/northward_velocity/s2.nc",
      "fes2014/northward_velocity/s4.nc", "fes2014/northward_velocity/sa.nc",
      "fes2014/northward_velocity/ssa.nc", "fes2014/northward_velocity/t2.nc"])]⟩,
  ⟨"Gr1km-v2", "Gr1km-v2", "OTIS", ["u", "v"], some "greenlandTMD_v2/grid_Greenland8.v2",
    some "stere", none, some "v2", true,
    [("u", ["greenlandTMD_v2/u_Greenland8_rot.v2"])]⟩,
  ⟨"Gr1kmTM", "Gr1kmTM", "OTIS", ["u", "v"], some "Gr1kmTM/grid_Gr1kmTM_v1",
    some "stere", none, some "v1", true,
    [("u", ["Gr1kmTM/UV_Gr1kmTM_v1"])]⟩,
  ⟨"HAMTIDE11", "HAMTIDE11", "FES-netcdf", ["u", "v"], none,
    none, some "1.0", some "HAMTIDE11", false,
    [("u", ["hamtide/HAMcurrent11a_2n.nc", "hamtide/HAMcurrent11a_k1.nc",
      "hamtide/HAMcurrent11a_k2.nc", "hamtide/HAMcurrent11a_m2.nc",
      "hamtide/HAMcurrent11a_n2.nc", "hamtide/HAMcurrent11a_o1.nc",
      "hamtide/HAMcurrent11a_p1.nc", "hamtide/HAMcurrent11a_q1.nc",
      "hamtide/HAMcurrent11a_s2.nc"]), ("v", ["hamtide/HAMcurrent11a_2n.nc", "hamtide/HAMcurrent11a_k1.nc",
      "hamtide/HAMcurrent11a_k2.nc", "hamtide/HAMcurrent11a_m2.nc",
      "hamtide/HAMcurrent11a_n2.nc", "hamtide/HAMcurrent11a_o1.nc",
      "hamtide/HAMcurrent11a_p1.nc", "hamtide/HAMcurrent11a_q1.nc",
      "hamtide/HAMcurrent11a_s2.nc"])]⟩,
  ⟨"TPXO10-atlas-v2", "TPXO10-atlas-v2", "OTIS", ["u", "v"], some "TPXO10_atlas_v2/grid_tpxo10_atlas_30_v2",
    some "EPSG:4326", some "0.0001", some "v2", false,
    [("u", ["TPXO10_atlas_v2/u_2n2_tpxo10_atlas_30_v2",
      "TPXO10_atlas_v2/u_k1_tpxo10_atlas_30_v2", "TPXO10_atlas_v2/u_k2_tpxo10_atlas_30_v2",
      "TPXO10_atlas_v2/u_m2_tpxo10_atlas_30_v2", "TPXO10_atlas_v2/u_m4_tpxo10_atlas_30_v2",
      "TPXO10_atlas_v2/u_mf_tpxo10_atlas_30_v2", "TPXO10_atlas_v2/u_mm_tpxo10_atlas_30_v2",
      "TPXO10_atlas_v2/u_mn4_tpxo10_atlas_30_v2",
      "TPXO10_atlas_v2/u_ms4_tpxo10_atlas_30_v2",
      "TPXO10_atlas_v2/u_n2_tpxo10_atlas_30_v2", "TPXO10_atlas_v2/u_o1_tpxo10_atlas_30_v2",
      "TPXO10_atlas_v2/u_p1_tpxo10_atlas_30_v2", "TPXO10_atlas_v2/u_q1_tpxo10_atlas_30_v2",
      "TPXO10_atlas_v2/u_s1_tpxo10_atlas_30_v2", "TPXO10_atlas_v2/u_s2_tpxo10_atlas_30_v2"])]⟩,
  ⟨"TPXO10-atlas-v2-nc", "TPXO10-atlas-v2", "ATLAS-netcdf", ["u", "v"], some "TPXO10_atlas_v2/grid_tpxo10atlas_v2.nc",
    some "EPSG:4326", some "0.0001", some "v2", false,
    [("u", ["TPXO10_atlas_v2/u_2n2_tpxo10_atlas_30_v2.nc",
      "TPXO10_atlas_v2/u_k1_tpxo10_atlas_30_v2.nc",
      "TPXO10_atlas_v2/u_k2_tpxo10_atlas_30_v2.nc",
      "TPXO10_atlas_v2/u_m2_tpxo10_atlas_30_v2.nc",
      "TPXO10_atlas_v2/u_m4_tpxo10_atlas_30_v2.nc",
      "TPXO10_atlas_v2/u_mf_tpxo10_atlas_30_v2.nc",
      "TPXO10_atlas_v2/u_mm_tpxo10_atlas_30_v2.nc",
      "TPXO10_atlas_v2/u_mn4_tpxo10_atlas_30_v2.nc",
      "TPXO10_atlas_v2/u_ms4_tpxo10_atlas_30_v2.nc",
      "TPXO10_atlas_v2/u_n2_tpxo10_atlas_30_v2.nc",
      "TPXO10_atlas_v2/u_o1_tpxo10_atlas_30_v2.nc",
      "TPXO10_atlas_v2/u_p1_tpxo10_atlas_30_v2.nc",
      "TPXO10_atlas_v2/u_q1_tpxo10_atlas_30_v2.nc",
      "TPXO10_atlas_v2/u_s1_tpxo10_atlas_30_v2.nc",
      "TPXO10_atlas_v2/u_s2_tpxo10_atlas_30_v2.nc"]), ("v", ["TPXO10_atlas_v2/u_2n2_tpxo10_atlas_30_v2.nc",
      "TPXO10_atlas_v2/u_k1_tpxo10_atlas_30_v2.nc",
      "TPXO10_atlas_v2/u_k2_tpxo10_atlas_30_v2.nc",
      "TPXO10_atlas_v2/u_m2_tpxo10_atlas_30_v2.nc",
      "TPXO10_atlas_v2/u_m4_tpxo10_atlas_30_v2.nc",
      "TPXO10_atlas_v2/u_mf_tpxo10_atlas_30_v2.nc",
      "TPXO10_atlas_v2/u_mm_tpxo10_atlas_30_v2.nc",
      "TPXO10_atlas_v2/u_mn4_tpxo10_atlas_30_v2.nc",
      "TPXO10_atlas_v2/u_ms4_tpxo10_atlas_30_v2.nc",
      "TPXO10_atlas_v2/u_n2_tpxo10_atlas_30_v2.nc",
      "TPXO10_atlas_v2/u_o1_tpxo10_atlas_30_v2.nc",
      "TPXO10_atlas_v2/u_p1_tpxo10_atlas_30_v2.nc",
      "TPXO10_atlas_v2/u_q1_tpxo10_atlas_30_v2.nc",
      "TPXO10_atlas_v2/u_s1_tpxo10_atlas_30_v2.nc",
      "TPXO10_atlas_v2/u_s2_tpxo10_atlas_30_v2.nc"])]⟩]

/-- `database.json`, `current`, models 14 to 26. -/
def current1 : List Entry := [
  ⟨"TPXO7.2", "TPXO7.2", "OTIS", ["u", "v"], some "TPXO7.2_tmd/grid_tpxo7.2",
    some "EPSG:4326", none, some "7.2", true,
    [("u", ["TPXO7.2_tmd/u_tpxo7.2"])]⟩,
  ⟨"TPXO8-atlas", "TPXO8-atlas", "ATLAS-compact", ["u", "v"], some "tpxo8_atlas/grid_tpxo8atlas_30_v1",
    some "EPSG:4326", none, some "8", true,
    [("u", ["tpxo8_atlas/uv.tpxo8_atlas_30_v1"])]⟩,
  ⟨"TPXO9-atlas", "TPXO9-atlas", "OTIS", ["u", "v"], some "TPXO9_atlas/grid_tpxo9_atlas",
    some "EPSG:4326", some "0.0001", some "v1", false,
    [("u", ["TPXO9_atlas/u_q1_tpxo9_atlas_30", "TPXO9_atlas/u_o1_tpxo9_atlas_30",
      "TPXO9_atlas/u_p1_tpxo9_atlas_30", "TPXO9_atlas/u_k1_tpxo9_atlas_30",
      "TPXO9_atlas/u_n2_tpxo9_atlas_30", "TPXO9_atlas/u_m2_tpxo9_atlas_30",
      "TPXO9_atlas/u_s2_tpxo9_atlas_30", "TPXO9_atlas/u_k2_tpxo9_atlas_30",
      "TPXO9_atlas/u_m4_tpxo9_atlas_30", "TPXO9_atlas/u_ms4_tpxo9_atlas_30",
      "TPXO9_atlas/u_mn4_tpxo9_atlas_30", "TPXO9_atlas/u_2n2_tpxo9_atlas_30"])]⟩,
  ⟨"TPXO9-atlas-nc", "TPXO9-atlas", "ATLAS-netcdf", ["u", "v"], some "TPXO9_atlas/grid_tpxo9_atlas.nc",
    some "EPSG:4326", some "0.0001", some "v1", false,
    [("u", ["TPXO9_atlas/u_q1_tpxo9_atlas_30.nc", "TPXO9_atlas/u_o1_tpxo9_atlas_30.nc",
      "TPXO9_atlas/u_p1_tpxo9_atlas_30.nc", "TPXO9_atlas/u_k1_tpxo9_atlas_30.nc",
      "TPXO9_atlas/u_n2_tpxo9_atlas_30.nc", "TPXO9_atlas/u_m2_tpxo9_atlas_30.nc",
      "TPXO9_atlas/u_s2_tpxo9_atlas_30.nc", "TPXO9_atlas/u_k2_tpxo9_atlas_30.nc",
      "TPXO9_atlas/u_m4_tpxo9_atlas_30.nc", "TPXO9_atlas/u_ms4_tpxo9_atlas_30.nc",
      "TPXO9_atlas/u_mn4_tpxo9_atlas_30.nc", "TPXO9_atlas/u_2n2_tpxo9_atlas_30.nc"]), ("v", ["TPXO9_atlas/v_q1_tpxo9_atlas_30.nc", "TPXO9_atlas/v_o1_tpxo9_atlas_30.nc",
      "TPXO9_atlas/v_p1_tpxo9_atlas_30.nc", "TPXO9_atlas/v_k1_tpxo9_atlas_30.nc",
      "TPXO9_atlas/v_n2_tpxo9_atlas_30.nc", "TPXO9_atlas/v_m2_tpxo9_atlas_30.nc",
      "TPXO9_atlas/v_s2_tpxo9_atlas_30.nc", "TPXO9_atlas/v_k2_tpxo9_atlas_30.nc",
      "TPXO9_atlas/v_m4_tpxo9_atlas_30.nc", "TPXO9_atlas/v_ms4_tpxo9_atlas_30.nc",
      "TPXO9_atlas/v_mn4_tpxo9_atlas_30.nc", "TPXO9_atlas/v_2n2_tpxo9_atlas_30.nc"])]⟩,
  ⟨"TPXO9-atlas-v2", "TPXO9-atlas-v2", "OTIS", ["u", "v"], some "TPXO9_atlas_v2/grid_tpxo9_atlas_30_v2",
    some "EPSG:4326", some "0.0001", some "v2", false,
    [("u", ["TPXO9_atlas_v2/u_q1_tpxo9_atlas_30_v2", "TPXO9_atlas_v2/u_o1_tpxo9_atlas_30_v2",
      "TPXO9_atlas_v2/u_p1_tpxo9_atlas_30_v2", "TPXO9_atlas_v2/u_k1_tpxo9_atlas_30_v2",
      "TPXO9_atlas_v2/u_n2_tpxo9_atlas_30_v2", "TPXO9_atlas_v2/u_m2_tpxo9_atlas_30_v2",
      "TPXO9_atlas_v2/u_s2_tpxo9_atlas_30_v2", "TPXO9_atlas_v2/u_k2_tpxo9_atlas_30_v2",
      "TPXO9_atlas_v2/u_m4_tpxo9_atlas_30_v2", "TPXO9_atlas_v2/u_ms4_tpxo9_atlas_30_v2",
      "TPXO9_atlas_v2/u_mn4_tpxo9_atlas_30_v2", "TPXO9_atlas_v2/u_2n2_tpxo9_atlas_30_v2"])]⟩,
  ⟨"TPXO9-atlas-v2-nc", "TPXO9-atlas-v2", "ATLAS-netcdf", ["u", "v"], some "TPXO9_atlas_v2/grid_tpxo9_atlas_30_v2.nc",
    some "EPSG:4326", some "0.0001", some "v2", false,
    [("u", ["TPXO9_atlas_v2/u_q1_tpxo9_atlas_30_v2.nc",
      "TPXO9_atlas_v2/u_o1_tpxo9_atlas_30_v2.nc",
      "TPXO9_atlas_v2/u_p1_tpxo9_atlas_30_v2.nc",
      "TPXO9_atlas_v2/u_k1_tpxo9_atlas_30_v2.nc",
      "TPXO9_atlas_v2/u_n2_tpxo9_atlas_30_v2.nc",
      "TPXO9_atlas_v2/u_m2_tpxo9_atlas_30_v2.nc",
      "TPXO9_atlas_v2/u_s2_tpxo9_atlas_30_v2.nc",
      "TPXO9_atlas_v2/u_k2_tpxo9_atlas_30_v2.nc",
      "TPXO9_atlas_v2/u_m4_tpxo9_atlas_30_v2.nc",
      "TPXO9_atlas_v2/u_ms4_tpxo9_atlas_30_v2.nc",
      "TPXO9_atlas_v2/u_mn4_tpxo9_atlas_30_v2.nc",
      "TPXO9_atlas_v2/u_2n2_tpxo9_atlas_30_v2.nc"]), ("v", ["TPXO9_atlas_v2/v_q1_tpxo9_atlas_30_v2.nc",
      "TPXO9_atlas_v2/v_o1_tpxo9_atlas_30_v2.nc",
      "TPXO9_atlas_v2/v_p1_tpxo9_atlas_30_v2.nc",
      "TPXO9_atlas_v2/v_k1_tpxo9_atlas_30_v2.nc",
      "TPXO9_atlas_v2/v_n2_tpxo9_atlas_30_v2.nc",
      "TPXO9_atlas_v2/v_m2_tpxo9_atlas_30_v2.nc",
      "TPXO9_atlas_v2/v_s2_tpxo9_atlas_30_v2.nc",
      "TPXO9_atlas_v2/v_k2_tpxo9_atlas_30_v2.nc",
      "TPXO9_atlas_v2/v_m4_tpxo9_atlas_30_v2.nc",
      "TPXO9_atlas_v2/v_ms4_tpxo9_atlas_30_v2.nc",
      "TPXO9_atlas_v2/v_mn4_tpxo9_atlas_30_v2.nc",
      "TPXO9_atlas_v2/v_2n2_tpxo9_atlas_30_v2.nc"])]⟩,
  ⟨"TPXO9-atlas-v3", "TPXO9-atlas-v3", "OTIS", ["u", "v"], some "TPXO9_atlas_v3/grid_tpxo9_atlas_30_v3",
    some "EPSG:4326", some "0.0001", some "v3", false,
    [("u", ["TPXO9_atlas_v3/u_q1_tpxo9_atlas_30_v3", "TPXO9_atlas_v3/u_o1_tpxo9_atlas_30_v3",
      "TPXO9_atlas_v3/u_p1_tpxo9_atlas_30_v3", "TPXO9_atlas_v3/u_k1_tpxo9_atlas_30_v3",
      "TPXO9_atlas_v3/u_n2_tpxo9_atlas_30_v3", "TPXO9_atlas_v3/u_m2_tpxo9_atlas_30_v3",
      "TPXO9_atlas_v3/u_s2_tpxo9_atlas_30_v3", "TPXO9_atlas_v3/u_k2_tpxo9_atlas_30_v3",
      "TPXO9_atlas_v3/u_m4_tpxo9_atlas_30_v3", "TPXO9_atlas_v3/u_ms4_tpxo9_atlas_30_v3",
      "TPXO9_atlas_v3/u_mn4_tpxo9_atlas_30_v3", "TPXO9_atlas_v3/u_2n2_tpxo9_atlas_30_v3",
      "TPXO9_atlas_v3/u_mf_tpxo9_atlas_30_v3", "TPXO9_atlas_v3/u_mm_tpxo9_atlas_30_v3"])]⟩,
  ⟨"TPXO9-atlas-v3-nc", "TPXO9-atlas-v3", "ATLAS-netcdf", ["u", "v"], some "TPXO9_atlas_v3/grid_tpxo9_atlas_30_v3.nc",
    some "EPSG:4326", some "0.0001", some "v3", false,
    [("u", ["TPXO9_atlas_v3/u_q1_tpxo9_atlas_30_v3.nc",
      "TPXO9_atlas_v3/u_o1_tpxo9_atlas_30_v3.nc",
      "TPXO9_atlas_v3/u_p1_tpxo9_atlas_30_v3.nc",
      "TPXO9_atlas_v3/u_k1_tpxo9_atlas_30_v3.nc",
      "TPXO9_atlas_v3/u_n2_tpxo9_atlas_30_v3.nc",
      "TPXO9_atlas_v3/u_m2_tpxo9_atlas_30_v3.nc",
      "TPXO9_atlas_v3/u_s2_tpxo9_atlas_30_v3.nc",
      "TPXO9_atlas_v3/u_k2_tpxo9_atlas_30_v3.nc",
      "TPXO9_atlas_v3/u_m4_tpxo9_atlas_30_v3.nc",
      "TPXO9_atlas_v3/u_ms4_tpxo9_atlas_30_v3.nc",
      "TPXO9_atlas_v3/u_mn4_tpxo9_atlas_30_v3.nc",
      "TPXO9_atlas_v3/u_2n2_tpxo9_atlas_30_v3.nc",
      "TPXO9_atlas_v3/u_mf_tpxo9_atlas_30_v3.nc", "TPXO9_atlas_v3/u_mm_tpxo9_atlas_30_v3.nc"]), ("v", ["TPXO9_atlas_v3/v_q1_tpxo9_atlas_30_v3.nc",
      "TPXO9_atlas_v3/v_o1_tpxo9_atlas_30_v3.nc",
      "TPXO9_atlas_v3/v_p1_tpxo9_atlas_30_v3.nc",
      "TPXO9_atlas_v3/v_k1_tpxo9_atlas_30_v3.nc",
      "TPXO9_atlas_v3/v_n2_tpxo9_atlas_30_v3.nc",
      "TPXO9_atlas_v3/v_m2_tpxo9_atlas_30_v3.nc",
      "TPXO9_atlas_v3/v_s2_tpxo9_atlas_30_v3.nc",
      "TPXO9_atlas_v3/v_k2_tpxo9_atlas_30_v3.nc",
      "TPXO9_atlas_v3/v_m4_tpxo9_atlas_30_v3.nc",
      "TPXO9_atlas_v3/v_ms4_tpxo9_atlas_30_v3.nc",
      "TPXO9_atlas_v3/v_mn4_tpxo9_atlas_30_v3.nc",
      "TPXO9_atlas_v3/v_2n2_tpxo9_atlas_30_v3.nc",
      "TPXO9_atlas_v3/v_mf_tpxo9_atlas_30_v3.nc", "TPXO9_atlas_v3/v_mm_tpxo9_atlas_30_v3.nc"])]⟩,
  ⟨"TPXO9-atlas-v4", "TPXO9-atlas-v4", "OTIS", ["u", "v"], some "TPXO9_atlas_v4/grid_tpxo9_atlas_30_v4",
    some "EPSG:4326", some "0.0001", some "v4", false,
    [("u", ["TPXO9_atlas_v4/u_q1_tpxo9_atlas_30_v4", "TPXO9_atlas_v4/u_o1_tpxo9_atlas_30_v4",
      "TPXO9_atlas_v4/u_p1_tpxo9_atlas_30_v4", "TPXO9_atlas_v4/u_k1_tpxo9_atlas_30_v4",
      "TPXO9_atlas_v4/u_n2_tpxo9_atlas_30_v4", "TPXO9_atlas_v4/u_m2_tpxo9_atlas_30_v4",
      "TPXO9_atlas_v4/u_s2_tpxo9_atlas_30_v4", "TPXO9_atlas_v4/u_k2_tpxo9_atlas_30_v4",
      "TPXO9_atlas_v4/u_m4_tpxo9_atlas_30_v4", "TPXO9_atlas_v4/u_ms4_tpxo9_atlas_30_v4",
      "TPXO9_atlas_v4/u_mn4_tpxo9_atlas_30_v4", "TPXO9_atlas_v4/u_2n2_tpxo9_atlas_30_v4",
      "TPXO9_atlas_v4/u_mf_tpxo9_atlas_30_v4", "TPXO9_atlas_v4/u_mm_tpxo9_atlas_30_v4"])]⟩,
  ⟨"TPXO9-atlas-v4-nc", "TPXO9-atlas-v4", "ATLAS-netcdf", ["u", "v"], some "TPXO9_atlas_v4/grid_tpxo9_atlas_30_v4.nc",
    some "EPSG:4326", some "0.0001", some "v4", false,
    [("u", ["TPXO9_atlas_v4/u_q1_tpxo9_atlas_30_v4.nc",
      "TPXO9_atlas_v4/u_o1_tpxo9_atlas_30_v4.nc",
      "TPXO9_atlas_v4/u_p1_tpxo9_atlas_30_v4.nc",
      "TPXO9_atlas_v4/u_k1_tpxo9_atlas_30_v4.nc",
      "TPXO9_atlas_v4/u_n2_tpxo9_atlas_30_v4.nc",
      "TPXO9_atlas_v4/u_m2_tpxo9_atlas_30_v4.nc",
      "TPXO9_atlas_v4/u_s2_tpxo9_atlas_30_v4.nc",
      "TPXO9_atlas_v4/u_k2_tpxo9_atlas_30_v4.nc",
      "TPXO9_atlas_v4/u_m4_tpxo9_atlas_30_v4.nc",
      "TPXO9_atlas_v4/u_ms4_tpxo9_atlas_30_v4.nc",
      "TPXO9_atlas_v4/u_mn4_tpxo9_atlas_30_v4.nc",
      "TPXO9_atlas_v4/u_2n2_tpxo9_atlas_30_v4.nc",
      "TPXO9_atlas_v4/u_mf_tpxo9_atlas_30_v4.nc", "TPXO9_atlas_v4/u_mm_tpxo9_atlas_30_v4.nc"]), ("v", ["TPXO9_atlas_v4/v_q1_tpxo9_atlas_30_v4.nc",
      "TPXO9_atlas_v4/v_o1_tpxo9_atlas_30_v4.nc",
      "TPXO9_atlas_v4/v_p1_tpxo9_atlas_30_v4.nc",
      "TPXO9_atlas_v4/v_k1_tpxo9_atlas_30_v4.nc",
      "TPXO9_atlas_v4/v_n2_tpxo9_atlas_30_v4.nc",
      "TPXO9_atlas_v4/v_m2_tpxo9_atlas_30_v4.nc",
      "TPXO9_atlas_v4/v_s2_tpxo9_atlas_30_v4.nc",
      "TPXO9_atlas_v4/v_k2_tpxo9_atlas_30_v4.nc",
      "TPXO9_atlas_v4/v_m4_tpxo9_atlas_30_v4.nc",
      "TPXO9_atlas_v4/v_ms4_tpxo9_atlas_30_v4.nc",
      "TPXO9_atlas_v4/v_mn4_tpxo9_atlas_30_v4.nc",
      "TPXO9_atlas_v4/v_2n2_tpxo9_atlas_30_v4.nc",
      "TPXO9_atlas_v4/v_mf_tpxo9_atlas_30_v4.nc", "TPXO9_atlas_v4/v_mm_tpxo9_atlas_30_v4.nc"])]⟩,
  ⟨"TPXO9-atlas-v5", "TPXO9-atlas-v5", "OTIS", ["u", "v"], some "TPXO9_atlas_v5/grid_tpxo9_atlas_30_v5",
    some "EPSG:4326", some "0.0001", some "v5", false,
    [("u", ["TPXO9_atlas_v5/u_q1_tpxo9_atlas_30_v5", "TPXO9_atlas_v5/u_o1_tpxo9_atlas_30_v5",
      "TPXO9_atlas_v5/u_p1_tpxo9_atlas_30_v5", "TPXO9_atlas_v5/u_k1_tpxo9_atlas_30_v5",
      "TPXO9_atlas_v5/u_n2_tpxo9_atlas_30_v5", "TPXO9_atlas_v5/u_m2_tpxo9_atlas_30_v5",
      "TPXO9_atlas_v5/u_s1_tpxo9_atlas_30_v5", "TPXO9_atlas_v5/u_s2_tpxo9_atlas_30_v5",
      "TPXO9_atlas_v5/u_k2_tpxo9_atlas_30_v5", "TPXO9_atlas_v5/u_m4_tpxo9_atlas_30_v5",
      "TPXO9_atlas_v5/u_ms4_tpxo9_atlas_30_v5", "TPXO9_atlas_v5/u_mn4_tpxo9_atlas_30_v5",
      "TPXO9_atlas_v5/u_2n2_tpxo9_atlas_30_v5", "TPXO9_atlas_v5/u_mf_tpxo9_atlas_30_v5",
      "TPXO9_atlas_v5/u_mm_tpxo9_atlas_30_v5"])]⟩,
  ⟨"TPXO9-atlas-v5-nc", "TPXO9-atlas-v5", "ATLAS-netcdf", ["u", "v"], some "TPXO9_atlas_v5/grid_tpxo9_atlas_30_v5.nc",
    some "EPSG:4326", some "0.0001", some "v5", false,
    [("u", ["TPXO9_atlas_v5/u_q1_tpxo9_atlas_30_v5.nc",
      "TPXO9_atlas_v5/u_o1_tpxo9_atlas_30_v5.nc",
      "TPXO9_atlas_v5/u_p1_tpxo9_atlas_30_v5.nc",
      "TPXO9_atlas_v5/u_k1_tpxo9_atlas_30_v5.nc",
      "TPXO9_atlas_v5/u_n2_tpxo9_atlas_30_v5.nc",
      "TPXO9_atlas_v5/u_m2_tpxo9_atlas_30_v5.nc",
      "TPXO9_atlas_v5/u_s1_tpxo9_atlas_30_v5.nc",
      "TPXO9_atlas_v5/u_s2_tpxo9_atlas_30_v5.nc",
      "TPXO9_atlas_v5/u_k2_tpxo9_atlas_30_v5.nc",
      "TPXO9_atlas_v5/u_m4_tpxo9_atlas_30_v5.nc",
      "TPXO9_atlas_v5/u_ms4_tpxo9_atlas_30_v5.nc",
      "TPXO9_atlas_v5/u_mn4_tpxo9_atlas_30_v5.nc",
      "TPXO9_atlas_v5/u_2n2_tpxo9_atlas_30_v5.nc",
      "TPXO9_atlas_v5/u_mf_tpxo9_atlas_30_v5.nc", "TPXO9_atlas_v5/u_mm_tpxo9_atlas_30_v5.nc"]), ("v", ["TPXO9_atlas_v5/u_q1_tpxo9_atlas_30_v5.nc",
      "TPXO9_atlas_v5/u_o1_tpxo9_atlas_30_v5.nc",
      "TPXO9_atlas_v5/u_p1_tpxo9_atlas_30_v5.nc",
      "TPXO9_atlas_v5/u_k1_tpxo9_atlas_30_v5.nc",
      "TPXO9_atlas_v5/u_n2_tpxo9_atlas_30_v5.nc",
      "TPXO9_atlas_v5/u_m2_tpxo9_atlas_30_v5.nc",
      "TPXO9_atlas_v5/u_s1_tpxo9_atlas_30_v5.nc",
      "TPXO9_atlas_v5/u_s2_tpxo9_atlas_30_v5.nc",
      "TPXO9_atlas_v5/u_k2_tpxo9_atlas_30_v5.nc",
      "TPXO9_atlas_v5/u_m4_tpxo9_atlas_30_v5.nc",
      "TPXO9_atlas_v5/u_ms4_tpxo9_atlas_30_v5.nc",
      "TPXO9_atlas_v5/u_mn4_tpxo9_atlas_30_v5.nc",
      "TPXO9_atlas_v5/u_2n2_tpxo9_atlas_30_v5.nc",
      "TPXO9_atlas_v5/u_mf_tpxo9_atlas_30_v5.nc", "TPXO9_atlas_v5/u_mm_tpxo9_atlas_30_v5.nc"])]⟩,
  ⟨"TPXO9.1", "TPXO9.1", "OTIS", ["u", "v"], some "TPXO9.1/grid_tpxo9",
    some "EPSG:4326", none, some "9.1", true,
    [("u", ["TPXO9.1/u_tpxo9.v1"])]⟩]

/-- `database.json`, `current`. -/
def current : List Entry := current0 ++ current1

end Verif.Database
