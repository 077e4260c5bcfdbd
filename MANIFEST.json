{
 "claims": [
  {
   "property": "C01",
   "status": "partial",
   "theorems": [
    "Verif.Doodson.C01_doodson_roundtrip_partial",
    "Verif.Doodson.C01_doodson_roundtrip_false"
   ],
   "note": "Round trip proved exactly when every multiplier is in range; false at (2,0,0,0,0,-5) (witness theorem)."
  },
  {
   "property": "C02",
   "status": "proved",
   "theorems": [
    "Verif.Doodson.C02_doodson_accepts_iff",
    "Verif.Doodson.C02_doodson_injective"
   ],
   "note": "Acceptance characterised and encoding injective."
  },
  {
   "property": "C03",
   "status": "partial",
   "theorems": [
    "Verif.Doodson.C03_extended_roundtrip_partial",
    "Verif.Doodson.C03_extended_refuses_iff_partial",
    "Verif.Doodson.C03_extended_refusal_false"
   ],
   "note": "Round trip for -8..16; refusal claim refuted for -33..-9 (negative string indexing)."
  },
  {
   "property": "C04",
   "status": "partial",
   "theorems": [
    "Verif.Constituents.C04_container_refines_ordered_map_partial",
    "Verif.Constituents.C04_container_refines_ordered_map_false",
    "Verif.Constituents.C04_nested_iteration_false",
    "Verif.Constituents.C04_items_partial",
    "Verif.Constituents.C04_setitem_false"
   ],
   "note": "Refinement to an ordered map for every history without duplicate appends (C04_container_refines_ordered_map_partial), also with access by item and the text of the container if the items that are set are held (C04_items_partial). False with duplicates, for nested iteration and for new items, which can be read but are in no list (witness theorems)."
  },
  {
   "property": "C05",
   "status": "proved",
   "theorems": [
    "Verif.Math.C05_inverse_of_ellipse",
    "Verif.Math.C05_ellipse_ranges",
    "Verif.Math.C05_ellipse_of_inverse"
   ],
   "note": "Both directions and all ranges, over the reals."
  },
  {
   "property": "C06",
   "status": "partial",
   "theorems": [
    "Verif.Math.C06_rotate_orthogonal",
    "Verif.Math.C06_rotate_preserves_length",
    "Verif.Math.C06_rotate_add",
    "Verif.Math.C06_rotate_neg",
    "Verif.Math.C06_rotate_refuses",
    "Verif.Math.C06_nutation_factors",
    "Verif.Math.C06_nutation_orthogonal",
    "Verif.Math.C06_nutation_zero",
    "Verif.Math.C06_precession_factors",
    "Verif.Math.C06_precession_orthogonal",
    "Verif.Math.C06_precession_epoch",
    "Verif.Math.C06_polar_motion_orthogonal",
    "Verif.Math.C06_frame_bias_orthogonal_false",
    "Verif.Math.C06_frame_bias_near_orthogonal_partial",
    "Verif.Math.C06_frame_bias_error_partial"
   ],
   "note": "All elementary, nutation, precession and polar motion matrices; false for the approximate frame bias matrix (witness theorem, error bound proved)."
  },
  {
   "property": "C07",
   "status": "proved",
   "theorems": [
    "Verif.Math.C07_normalize_range_congruent",
    "Verif.Math.C07_normalize_unique",
    "Verif.Math.C07_normalize_idempotent",
    "Verif.Math.C07_normalize_periodic"
   ],
   "note": "Over the reals, positive circle."
  },
  {
   "property": "C08",
   "status": "proved",
   "theorems": [
    "Verif.Math.C08_aliasing_range",
    "Verif.Math.C08_aliasing_periodic",
    "Verif.Math.C08_alias_indistinguishable",
    "Verif.Math.C08_same_alias_same_samples"
   ],
   "note": "Over the reals, positive sampling frequency."
  },
  {
   "property": "C09",
   "status": "partial",
   "theorems": [
    "Verif.Math.C09_legendre_eq_rodrigues",
    "Verif.Math.C09_legendre_refuses",
    "Verif.Math.C09_assoc_legendre_eq_partial",
    "Verif.Math.C09_assoc_legendre_zero_false"
   ],
   "note": "Table and recursion equal the Rodrigues-based functions for all degrees; lmax = 0 raises (witness theorem)."
  },
  {
   "property": "C10",
   "status": "partial",
   "theorems": [
    "Verif.Interp.C10_inside_never_raises_partial",
    "Verif.Interp.C10_last_meridian_false",
    "Verif.Interp.C10_outside_masked",
    "Verif.Interp.C10_exact_at_nodes",
    "Verif.Interp.C10_reproduces_bilinear_partial",
    "Verif.Interp.C10_reproduces_linear_false",
    "Verif.Interp.C10_no_overshoot",
    "Verif.Interp.C10_mask_iff",
    "Verif.Interp.C10_value_if_any_valid_partial",
    "Verif.Interp.C10_edge_nan_false"
   ],
   "note": "Exactness at nodes, bilinear reproduction away from corners, no overshoot, mask iff; false on the last meridian (exception), near corners (snap) and on masked edges (unmasked NaN) - witness theorems."
  },
  {
   "property": "C100",
   "status": "partial",
   "theorems": [
    "Verif.Mirror.C100_run",
    "Verif.Mirror.C100_again",
    "Verif.Mirror.C100_history",
    "Verif.Mirror.C100_second_false",
    "Verif.Mirror.C100_crash_partial",
    "Verif.Mirror.C100_resume",
    "Verif.Mirror.C100_crash_false",
    "Verif.Mirror.C100_inside_partial",
    "Verif.Mirror.C100_inside_false",
    "Verif.Mirror.C100_got",
    "Verif.Mirror.C100_ending",
    "Verif.Mirror.C100_skips_partial",
    "Verif.Mirror.C100_skips_false",
    "Verif.Mirror.C100_gzip_false",
    "Verif.Mirror.C100_flatten_false",
    "Verif.Mirror.C100_table_partial",
    "Verif.Mirror.C100_currents_false"
   ],
   "note": "Proved for runs, second runs, histories of versions and places (C100_run, C100_again, C100_history, C100_resume, C100_inside_partial, C100_got, C100_table_partial). After an interruption and another run at most one file differs from an uninterrupted run (C100_crash_partial); it stays truncated for ever if the clock is not behind the archive (C100_crash_false). Refuted as well: changes within two seconds, currents of FES2014, absolute names and parent directories, names of compressed files, names with _ as second character, equal names in different directories."
  },
  {
   "property": "C101",
   "status": "partial",
   "theorems": [
    "Verif.Transfer.C101_download",
    "Verif.Transfer.C101_unanswered",
    "Verif.Transfer.C101_interrupted",
    "Verif.Transfer.C101_time_false",
    "Verif.Transfer.C101_inplace_false",
    "Verif.Transfer.C101_algorithm",
    "Verif.Transfer.C101_copy",
    "Verif.Transfer.C101_move",
    "Verif.Transfer.C101_refused"
   ],
   "note": "Refuted in part: the time of the server is not set when the contents agree (C101_time_false), and a download replaces the file in place (C101_inplace_false)."
  },
  {
   "property": "C102",
   "status": "partial",
   "theorems": [
    "Verif.Locator.C102_split",
    "Verif.Locator.C102_join",
    "Verif.Locator.C102_slashes_false",
    "Verif.Locator.C102_absolute_false",
    "Verif.Locator.C102_ftp_false",
    "Verif.Locator.C102_arguments",
    "Verif.Locator.C102_arguments_false",
    "Verif.Locator.C102_listing",
    "Verif.Locator.C102_ftp",
    "Verif.Locator.C102_http_partial",
    "Verif.Locator.C102_http_false",
    "Verif.Locator.C102_iers_partial",
    "Verif.Locator.C102_iers_false",
    "Verif.Locator.C102_uhslc"
   ],
   "note": "Refuted in part: C102_slashes_false, C102_absolute_false, C102_ftp_false, C102_arguments_false, C102_http_false; listings of web servers hold if every line has a time (C102_http_partial)."
  },
  {
   "property": "C103",
   "status": "partial",
   "theorems": [
    "Verif.Nodal.C103_modulation_partial",
    "Verif.Nodal.C103_otis_false"
   ],
   "note": "Proved for 77 constituents and all longitudes (FES: node not at 180 degrees, where the model's tangent is undefined), with a bound for each convention, found by C103_modulation_partial. Not covered: compound tides, l2 of FES, side lines of the node, constituents without a small bound. Refuted with witnesses for mt, mp, alpha1, tau1, theta1, oo1, zeta2, l2b of OTIS and for the default rule of m1 (C103_otis_false)."
  },
  {
   "property": "C104",
   "status": "partial",
   "theorems": [
    "Verif.Nodal.C104_potential_partial",
    "Verif.Nodal.C104_node_false",
    "Verif.Nodal.C104_sides"
   ],
   "note": "Proved at all times for the constituents of C103 except m3, m2a (counted with another sign), s1-1 and rp1 (compounds). Refuted for constituents with a multiple of the node: arguments uses the longitude of the ascending node where the table means its opposite, so their phases are those of other lines (C104_node_false, C104_sides)."
  },
  {
   "property": "C105",
   "status": "partial",
   "theorems": [
    "Verif.Ocean.C105_amplitudes",
    "Verif.Ocean.C105_uniform_partial",
    "Verif.Ocean.C105_zonal",
    "Verif.Ocean.C105_parameters_partial",
    "Verif.Ocean.C105_m1_false",
    "Verif.Ocean.C105_columns",
    "Verif.Ocean.C105_distinct"
   ],
   "note": "C105_uniform_partial: inference in an ocean with uniform response, for missing constituents that have a bound in C103 (not phi1, so1, m1a, m1b, and not mt, msf, oo1, tau1, theta1 with OTIS corrections). C105_parameters_partial holds for all constituents but m1 (C105_m1_false). C105_amplitudes, C105_zonal, C105_columns and C105_distinct hold for all rows, skies and latitudes."
  },
  {
   "property": "C106",
   "status": "partial",
   "theorems": [
    "Verif.Separate.C106_distinguish",
    "Verif.Separate.C106_recover",
    "Verif.Separate.C106_among_distinguish",
    "Verif.Separate.C106_among_recover",
    "Verif.Separate.C106_unplaced_false"
   ],
   "note": "C106_distinguish and C106_recover prove the claim for the four plans of Spec/Sampling.lean, for every start, step, longer record, mean and constants. C106_among_distinguish and C106_among_recover prove it for records in any order and at any further times that contain such regular observations, so gaps and irregular times are covered as far as these remain. C106_unplaced_false: constituents without tabulated parameters (s1, pi1, psi1, phi1, r2) have zero frequency under these corrections, and no record determines them. GOT/FES corrections are not covered (there C24_recover applies with its hypothesis)."
  },
  {
   "property": "C107",
   "status": "partial",
   "theorems": [
    "Verif.Modules.C107_import",
    "Verif.Modules.C107_eop",
    "Verif.Modules.C107_updates",
    "Verif.Modules.C107_compute",
    "Verif.Modules.C107_kind",
    "Verif.Modules.C107_time_false",
    "Verif.Modules.C107_hidden_false"
   ],
   "note": "Proved for pyTMD.eop (C107_eop; C107_updates: same effects, no result), check_points and the compute_* functions (C107_compute, C107_kind). Refuted for pyTMD.time: C107_time_false, every function raises AttributeError, since the class timescale defined at the end of the module takes the name of the package (timescale.time.Timescale is assumed to have no attribute time). C107_hidden_false: the modules check_points and compute_tide_corrections are hidden by functions of their names."
  },
  {
   "property": "C108",
   "status": "proved",
   "theorems": [
    "Verif.SolidEarth.C108_displacement",
    "Verif.SolidEarth.C108_requests",
    "Verif.SolidEarth.C108_approximate",
    "Verif.PoleTide.C108_load",
    "Verif.Predict.C108_tide"
   ],
   "note": "Solid Earth tides (displacement, all requests, approximate ephemerides), load pole tides (all requests) and predicted tides (grid, track, series). Real arithmetic; values that are not numbers (stations on the axis) are excluded, as there is no number to bound. Long-period equilibrium tides have their bound in C31."
  },
  {
   "property": "C109",
   "status": "partial",
   "theorems": [
    "Verif.Extract.C109_extract_partial",
    "Verif.Extract.C109_stored_partial",
    "Verif.Extract.C109_got_false",
    "Verif.Extract.C109_convention_false",
    "Verif.Extract.C109_rim_false",
    "Verif.AtlasNet.C109_atlas_partial",
    "Verif.AtlasNet.C109_atlas_stored_partial",
    "Verif.AtlasNet.C109_depth_false",
    "Verif.AtlasNet.C109_atlas_cropped_partial",
    "Verif.Extract.C109_cropped_partial",
    "Verif.Extract.C109_read_cropped_partial",
    "Verif.Extract.C109_cropped_false"
   ],
   "note": "Proved for regions written within 0 to 360 or -180 to 180 degrees, without extrapolation; with the bilinear method for places not on the rim. With cropping for batches of places in the region that are written like the file (C109_cropped_partial, C109_atlas_cropped_partial), and for GOT and FES objects read with cropping and places in the box written in any way (C109_read_cropped_partial). Refuted: with cropping a place written in the other convention gets nothing and a batch outside is an error (C109_cropped_false), GOT models with splines give the value on the rim at any distance (C109_got_false), the depth of an ATLAS model at a place outside is that of the rim with splines (C109_depth_false), a region across the end of its convention loses places (C109_convention_false), the bilinear method fails on the last column and gives nothing on the first parallel (C109_rim_false)."
  },
  {
   "property": "C11",
   "status": "proved",
   "theorems": [
    "Verif.Extrap.C11_extrapolate_nearest",
    "Verif.Extrap.C11_batch_independent"
   ],
   "note": "For every request, with the kd-tree specified by an explicit (satisfiable) hypothesis; equal distances are resolved by the tree."
  },
  {
   "property": "C110",
   "status": "partial",
   "theorems": [
    "Verif.Program.C110_lines",
    "Verif.Program.C110_map",
    "Verif.Program.C110_parts",
    "Verif.Program.C110_definition_false",
    "Verif.Program.C110_types_false"
   ],
   "note": "Proved for every table of a track: C110_lines (one line for every record, in order, with time, place, eastward and northward current), C110_map (each line is a function of its own record, each component of its own constants) and C110_parts (tables may be cut). Refuted: grids and series of a table never give a file (C110_types_false); a definition file with the components in another order or only one of them makes the program fail for every table after all computations (C110_definition_false). Not modelled: the other formats, and the merged bands of a geotiff."
  },
  {
   "property": "C111",
   "status": "partial",
   "theorems": [
    "Verif.Staggered.C111_region_partial",
    "Verif.Staggered.C111_world_partial",
    "Verif.Staggered.C111_region_same_partial",
    "Verif.Staggered.C111_world_same_partial",
    "Verif.Staggered.C111_seam_false",
    "Verif.Staggered.C111_bounds_false",
    "Verif.Staggered.C111_buffer_false",
    "Verif.Staggered.C111_zonal_false",
    "Verif.Staggered.C111_alias_false",
    "Verif.Staggered.C111_batch_false"
   ],
   "note": "Proved for regional and projected models (C111_region_partial) and global models in both conventions (C111_world_partial), with all methods (bilinear for elevations), and equality with the uncropped extraction for spline and linear.  Conditions: no bounds given, a buffer of at least two steps (default four), points away from where the model is cut, a window that does not go around the globe, no extrapolation, and for currents no column (zonal, unless the model is turned) or row (meridional) in the first half step of the window, because the arrays mx and my are changed in place.  Each of these is needed: C111_seam_false, C111_bounds_false, C111_buffer_false, C111_zonal_false, C111_batch_false, C111_alias_false."
  },
  {
   "property": "C112",
   "status": "partial",
   "theorems": [
    "Verif.Combine.C112_compact_partial",
    "Verif.Combine.C112_compact_stored_partial",
    "Verif.Near.C112_got_fes",
    "Verif.Near.C112_stored_partial",
    "Verif.Near.C112_beyond",
    "Verif.Near.C112_crop_false",
    "Verif.Near.C112_currents_false",
    "Verif.Near.C112_atlas_partial",
    "Verif.Near.C112_otis_partial",
    "Verif.Near.C112_region_partial",
    "Verif.Near.C112_projected_partial",
    "Verif.Near.C112_atlas_stored_partial",
    "Verif.Near.C112_otis_stored_partial",
    "Verif.Near.C112_region_stored_partial",
    "Verif.Near.C112_projected_stored_partial"
   ],
   "note": "C112_got_fes covers global GOT and FES models (extraction), C112_stored_partial stored ones for batches of longitudes that suit them, C112_atlas_partial elevations of global ATLAS models, C112_otis_partial, C112_region_partial and C112_projected_partial elevations and transports of OTIS models without zeros in the sea. C112_atlas_stored_partial covers stored ATLAS elevations and C112_otis_stored_partial stored OTIS models; C112_compact_partial and C112_compact_stored_partial ATLAS-compact models. C112_beyond: places outside the grid stay masked when nothing is cropped. False: with cropping (C112_crop_false) and for velocities (C112_currents_false, C75_extrapolated_false). Assumed: KDSpec, the kd-tree of scipy returns a closest point within the bound. Stored regional and projected OTIS models: C112_region_stored_partial and C112_projected_stored_partial."
  },
  {
   "property": "C113",
   "status": "partial",
   "theorems": [
    "Verif.Pipeline.C113_compact_partial",
    "Verif.Pipeline.C113_compact_cropped_partial",
    "Verif.Pipeline.C113_compact_extrapolated_partial",
    "Verif.Pipeline.C113_node_partial",
    "Verif.Pipeline.C113_node_false",
    "Verif.Pipeline.C113_cropped_partial",
    "Verif.Pipeline.C113_same_partial",
    "Verif.Pipeline.C113_atlas_cropped_partial",
    "Verif.Pipeline.C113_atlas_same_partial",
    "Verif.Pipeline.C113_otis_cropped_partial",
    "Verif.Pipeline.C113_otis_same_partial",
    "Verif.Pipeline.C113_extrapolated",
    "Verif.Pipeline.C113_atlas_extrapolated_partial",
    "Verif.Pipeline.C113_otis_extrapolated_partial",
    "Verif.Pipeline.C113_region_extrapolated_partial",
    "Verif.Pipeline.C113_projected_extrapolated_partial",
    "Verif.Pipeline.C113_flexure_partial",
    "Verif.Pipeline.C113_flexure_global_partial",
    "Verif.Pipeline.C113_files_region_partial",
    "Verif.Pipeline.C113_files_region_cropped_partial",
    "Verif.Pipeline.C113_atlas_region_partial",
    "Verif.Pipeline.C113_atlas_region_cropped_partial"
   ],
   "note": "GOT/FES and ATLAS netCDF (world and regional), OTIS (world, regional, projected), TMD3 and ATLAS-compact: elevations with cropping, extrapolation, flexure and an appended node tide are the tide of the constants a user expects. Cropping under the conditions of C72, C75, C109, C111; extrapolation not together with cropping (C112_crop_false) and for OTIS/ATLAS not for velocities (C112_currents_false). The appended node tide is the one in equilibrium for corrections other than OTIS's and without inference of minor constituents; with OTIS corrections it does not change with time (C113_node_false)."
  },
  {
   "property": "C114",
   "status": "partial",
   "theorems": [
    "Verif.Rounded.C114_predictions_partial",
    "Verif.Rounded.C114_binary",
    "Verif.Rounded.C114_double_partial",
    "Verif.Rounded.C114_angle_partial",
    "Verif.Rounded.C114_circle_false"
   ],
   "note": "C114_predictions_partial: map, drift and time_series with every operation rounded (any standard arithmetic with unit roundoff u) differ from the exact predictions by at most 2e9 u + 3 d times the sum of the amplitudes, with the same masks, where d is the error of the nodal corrections (an input of the rounded program). C114_binary and C114_double_partial: 53 binary digits give a millionth. C114_angle_partial: remainders stay within the circle up to rounding; C114_circle_false: a longitude just below zero becomes 360. Missing: rounding of the nodal corrections, underflow and overflow."
  },
  {
   "property": "C115",
   "status": "proved",
   "theorems": [
    "Verif.Rounded.C115_bilinear",
    "Verif.Rounded.C115_outside",
    "Verif.Rounded.C115_last_meridian",
    "Verif.Rounded.C115_between",
    "Verif.Rounded.C115_double"
   ],
   "note": "C115_bilinear for points inside the grid, C115_outside and C115_last_meridian for the others, C115_between for the range of the mean and C115_double for numbers with 53 binary digits. Assumed: the standard model of floating point arithmetic (no underflow or overflow); NumPy's division of a complex number by a real one is Smith's algorithm."
  },
  {
   "property": "C116",
   "status": "partial",
   "theorems": [
    "Verif.Parquet.C116_table_partial",
    "Verif.Parquet.C116_indexed_partial",
    "Verif.Parquet.C116_recorded",
    "Verif.Parquet.C116_lengths",
    "Verif.Parquet.C116_points_partial",
    "Verif.Parquet.C116_default_false",
    "Verif.Parquet.C116_reference_false",
    "Verif.Parquet.C116_both_false",
    "Verif.Parquet.C116_index_false",
    "Verif.Parquet.C116_name_false",
    "Verif.Parquet.C116_grid_false",
    "Verif.Parquet.C116_units_false",
    "Verif.Parquet.C116_foreign_false",
    "Verif.Parquet.C116_program",
    "Verif.Parquet.C116_formats"
   ],
   "note": "C116_table_partial and C116_points_partial prove the claim when a reference system is given, the index is not written, no column is called like the column of points and there is one pair of coordinates; C116_program proves it for the tables of the programs. C116_indexed_partial covers tables written with their index, C116_recorded the reference system in the file. The rest of the claim is refuted: no reference system (C116_default_false: the file cannot be read; C116_reference_false: it cannot be written), geographic and projected coordinates together (C116_both_false), a written index beside a column of times (C116_index_false), a column called geometry (C116_name_false), arrays of two axes (C116_grid_false), attributes at their own names, such as the units of times (C116_units_false), points of other programs without a reference system (C116_foreign_false)."
  },
  {
   "property": "C117",
   "status": "partial",
   "theorems": [
    "Verif.Providers.C117_written",
    "Verif.Providers.C117_every_partial",
    "Verif.Providers.C117_order_partial",
    "Verif.Providers.C117_refused",
    "Verif.Providers.C117_package",
    "Verif.Providers.C117_order_false"
   ],
   "note": "The claim is false when two providers have different entries for the same model: the one listed last is used, and the order of a listing is not fixed (C117_order_false). For files that agree it is proved (C117_every_partial, C117_order_partial), and the files of the package agree (C117_package)."
  },
  {
   "property": "C118",
   "status": "partial",
   "theorems": [
    "Verif.Arctic.C118_chosen",
    "Verif.Arctic.C118_crash",
    "Verif.Arctic.C118_inside",
    "Verif.Arctic.C118_run_partial",
    "Verif.Arctic.C118_lookup_partial",
    "Verif.Arctic.C118_directory_false",
    "Verif.Arctic.C118_names_false",
    "Verif.Arctic.C118_unknown"
   ],
   "note": "Proved for all archives whose wanted members are files: every one is written, with its bytes, under the last part of its name in the subdirectory in which the database looks it up; interruptions are repaired, nothing else is touched, unknown models are refused. Refuted: a member for a directory ends the run (C118_directory_false), of two members with one last part the first is lost (C118_names_false). Permissions and the network are not modelled."
  },
  {
   "property": "C119",
   "status": "proved",
   "theorems": [
    "Verif.Names.C119_name",
    "Verif.Names.C119_distinct",
    "Verif.Names.C119_elevation",
    "Verif.Names.C119_current",
    "Verif.Names.C119_package",
    "Verif.Names.C119_list_false"
   ],
   "note": "For every earlier state of the object and every entry with type z and one of the three variables (all elevations of the package, C119_package); currents have none. Beyond the claim: a definition file whose type is a list with z in it is accepted and has no names (C119_list_false)."
  },
  {
   "property": "C12",
   "status": "proved",
   "theorems": [
    "Verif.Grid.C12_extended_longitudes",
    "Verif.Grid.C12_extended_longitudes_got",
    "Verif.Grid.C12_extension_faithful",
    "Verif.Grid.C12_extension_faithful_got",
    "Verif.Grid.C12_got_single_column"
   ],
   "note": "Extension of uniform global grids, both variants; single-column GOT grid raises IndexError."
  },
  {
   "property": "C120",
   "status": "partial",
   "theorems": [
    "Verif.UnixTime.C120_read",
    "Verif.UnixTime.C120_nodate",
    "Verif.UnixTime.C120_more",
    "Verif.UnixTime.C120_order",
    "Verif.UnixTime.C120_greenwich_partial",
    "Verif.UnixTime.C120_offset_false",
    "Verif.UnixTime.C120_zone_false"
   ],
   "note": "Proved for the five formats without zone and all dates that exist, for every zone of the machine, with order and dates that do not exist; with an offset only for that of Greenwich (C120_greenwich_partial). Refuted: with any other offset the time is off by it, since calendar.timegm does not look at it (C120_offset_false); strings that are left to dateutil and have no zone depend on the zone of the machine (C120_zone_false)."
  },
  {
   "property": "C121",
   "status": "partial",
   "theorems": [
    "Verif.Verify.C121_accepts",
    "Verif.Verify.C121_keeps",
    "Verif.Verify.C121_time_partial",
    "Verif.Verify.C121_time_false",
    "Verif.Verify.C121_other_false"
   ],
   "note": "Proved: accepted exactly if all compared files have the digest of the server and their times can be read (C121_accepts), no bytes change and other files are untouched (C121_keeps), times of Greenwich are set (C121_time_partial). Refuted: times with the offset of a zone are set wrong by the offset (C121_time_false); any file of the folder whose name begins with h is required (C121_other_false). The network, permissions and names with slashes in the folder are not modelled."
  },
  {
   "property": "C122",
   "status": "partial",
   "theorems": [
    "Verif.Kernel.C122_use",
    "Verif.Kernel.C122_history_partial",
    "Verif.Kernel.C122_named",
    "Verif.Kernel.C122_home_false",
    "Verif.Kernel.C122_path_false",
    "Verif.Kernel.C122_interrupted_false",
    "Verif.Kernel.C122_nothing"
   ],
   "note": "One use and all histories of uses for paths that do not begin with a tilde, on disks whose kernels are those of the server, and fetching by name, proved for all worlds. Refuted: paths with a tilde (C122_home_false), a path alone (C122_path_false), interrupted runs (C122_interrupted_false). What jplephem does with the bytes is not modelled."
  },
  {
   "property": "C123",
   "status": "partial",
   "theorems": [
    "Verif.Outputs.C123_beside",
    "Verif.Outputs.C123_distinct_partial",
    "Verif.Outputs.C123_same_input",
    "Verif.Outputs.C123_extrapolated_false",
    "Verif.Outputs.C123_pole_false",
    "Verif.Outputs.C123_failure_false",
    "Verif.Outputs.C123_verbose_false"
   ],
   "note": "Proved: the calculation gets the named files; without a named output file the result goes to a longer name in the directory of the input (C123_beside); runs with models of the database on the same file write to the same file only if program, name of the model and flexure are the same (C123_same_input), and on different files never, unless a name ends in a dot or the programs are those of the two pole tides (C123_distinct_partial). Refuted: FES2014 and FES2014_extrapolated share a name and so overwrite each other, the load pole tide of a_ocean.csv and the ocean pole tide of a.csv share a file, a failed calculation ends like a successful one, and the option --verbose given three times stops each program. Parsing of the command line is not modelled."
  },
  {
   "property": "C124",
   "status": "partial",
   "theorems": [
    "Verif.Outputs.C124_projection",
    "Verif.Outputs.C124_option_false"
   ],
   "note": "Proved for all files and options that are texts, with pyproj as a parameter: the system of the file if known, else that of the option, else a failure. That the option prevails is refuted."
  },
  {
   "property": "C125",
   "status": "proved",
   "theorems": [
    "Verif.Marker.C125_moved",
    "Verif.Marker.C125_typed"
   ],
   "note": "For all positions and earlier states, over the reals, with any rounding to the nearest unit of the eighth digit. Texts that are not two numbers, and the centre of the map, are not modelled."
  },
  {
   "property": "C126",
   "status": "partial",
   "theorems": [
    "Verif.Login.C126_source_partial",
    "Verif.Login.C126_netrc",
    "Verif.Login.C126_token_false",
    "Verif.Login.C126_accepted",
    "Verif.Login.C126_retries_partial",
    "Verif.Login.C126_retry_false",
    "Verif.Login.C126_hosts_partial",
    "Verif.Login.C126_fetch",
    "Verif.Login.C126_header_false",
    "Verif.Login.C126_redirect_false"
   ],
   "note": "Proved: the order netrc, arguments, environment, question (C126_netrc, C126_source_partial); at most as many attempts as asked for, and success only with accepted credentials (C126_accepted); success exactly if one of the answers is accepted when nothing is known beforehand (C126_retries_partial); without headers in the opener credentials go only to the host of an opener or to where the functions for CDDIS are directed, for all histories (C126_hosts_partial), and functions with a context of their own never send any (C126_fetch). Refuted: C126_retry_false, C126_token_false, C126_header_false, C126_redirect_false. urllib is modelled by its documented behaviour."
  },
  {
   "property": "C127",
   "status": "partial",
   "theorems": [
    "Verif.Flow.C127_components_partial",
    "Verif.Flow.C127_all_or_nothing",
    "Verif.Flow.C127_fes_false",
    "Verif.Flow.C127_atlas_files",
    "Verif.Flow.C127_otis_places_partial",
    "Verif.Flow.C127_otis_region_partial",
    "Verif.Flow.C127_atlas_cropped_partial",
    "Verif.Flow.C127_atlas_region_partial",
    "Verif.Flow.C127_atlas_region_cropped_partial",
    "Verif.Flow.C127_otis_cropped_partial",
    "Verif.Flow.C127_otis_region_cropped_partial"
   ],
   "note": "Proved for OTIS, ATLAS-compact, TMD3 and ATLAS-netcdf models: every component is the tide of the constants in its own files; from the files on for global ATLAS-netcdf models, whole (C127_atlas_files) and cropped (C127_atlas_cropped_partial), regional ATLAS-netcdf models, whole (C127_atlas_region_partial) and cropped (C127_atlas_region_cropped_partial), global models in the OTIS formats, whole (C127_otis_places_partial) and cropped (C127_otis_cropped_partial), and regional ones, whole (C127_otis_region_partial) and cropped (C127_otis_region_cropped_partial): transports and depths at the points of this component, interpolated and divided. Refuted for FES models with files for each component (C127_fes_false): the dictionary of files is handed over in place of the files of the component, and every request for currents fails. Not covered from the files on: extrapolated requests, and 'bilinear' for cropped models in the OTIS formats."
  },
  {
   "property": "C128",
   "status": "partial",
   "theorems": [
    "Verif.NodeField.C128_stored",
    "Verif.NodeField.C128_same_partial",
    "Verif.NodeField.C128_close_partial",
    "Verif.NodeField.C128_methods_partial",
    "Verif.NodeField.C128_units_false"
   ],
   "note": "Proved for GOT and FES models in metres: the same constants on the parallels of the model, and to 5e-6 m times the square of the distance of the parallels in degrees elsewhere (6e-7 m more with the method bilinear); for all units the number that comes out of the stored model (C128_stored, C128_methods_partial). Refuted for models in other units (C128_units_false), which most models of the database are: the node tide in metres is multiplied by the scale of the model when it is interpolated, but not when it is extracted. Not covered: cropping, extrapolation."
  },
  {
   "property": "C129",
   "status": "partial",
   "theorems": [
    "Verif.FetchLog.C129_given_partial",
    "Verif.FetchLog.C129_netrc",
    "Verif.FetchLog.C129_override_false",
    "Verif.FetchLog.C129_entry_false",
    "Verif.FetchLog.C129_every_model",
    "Verif.FetchLog.C129_stops",
    "Verif.FetchLog.C129_log_partial",
    "Verif.FetchLog.C129_log_zeros",
    "Verif.FetchLog.C129_log_false",
    "Verif.FetchLog.C129_midnight_false",
    "Verif.FetchLog.C129_printed",
    "Verif.FetchLog.C129_program_partial"
   ],
   "note": "Proved: credentials of the command line without a file of credentials (C129_given_partial, C129_program_partial) and of the file (C129_netrc); every model is fetched in order (C129_every_model), the first failure stops the program (C129_stops), printed messages (C129_printed), the log of one model (C129_log_partial). Refuted: the file overrides the command line (C129_override_false), a file without the server gives a TypeError (C129_entry_false), the log of several models has zeros in place of all but the last (C129_log_zeros, C129_log_false), and is misplaced after midnight (C129_midnight_false). Parsing of the file of credentials and of the command line is not modelled; what is fetched is C100."
  },
  {
   "property": "C13",
   "status": "partial",
   "theorems": [
    "Verif.Grid.C13_shift_faithful",
    "Verif.Grid.C13_shift_permutes",
    "Verif.Grid.C13_shift_fails_iff",
    "Verif.Grid.C13_any_base_false"
   ],
   "note": "Faithful for both directions whenever the first longitude is not a nearest one; the claim that any base longitude is accepted is refuted (slice 0:-0), with an exact characterisation of the failing inputs."
  },
  {
   "property": "C130",
   "status": "partial",
   "theorems": [
    "Verif.Wrappers.C130_functions",
    "Verif.Wrappers.C130_refused",
    "Verif.Wrappers.C130_default",
    "Verif.Wrappers.C130_interpolate",
    "Verif.Wrappers.C130_elevations",
    "Verif.Wrappers.C130_component",
    "Verif.Wrappers.C130_currents_false",
    "Verif.Wrappers.C130_memory_false"
   ],
   "note": "Proved: the functions and the methods agree for every model and all keywords (C130_functions), defaults (C130_default, C130_elevations), named components (C130_component), reading before interpolating (C130_interpolate). Refuted for models of currents: their type is the list of components, which the readers of OTIS, ATLAS and netCDF FES files do not take, so every request without a type fails (C130_currents_false), also for constants in memory (C130_memory_false). Deprecated spellings of the keywords are not modelled."
  },
  {
   "property": "C131",
   "status": "partial",
   "theorems": [
    "Verif.Distance.C131_distance",
    "Verif.Distance.C131_metric",
    "Verif.Distance.C131_floats_false"
   ],
   "note": "Exact arithmetic: proved for all points (C131_distance, C131_metric). With the rounding of floats the claim is refuted (C131_floats_false): the square is a difference of large numbers and is negative for points that are close, so the distance is NaN. Infinite coordinates and arrays without a row are not modelled."
  },
  {
   "property": "C132",
   "status": "partial",
   "theorems": [
    "Verif.Astro.C132_printed",
    "Verif.Astro.C132_table",
    "Verif.Astro.C132_columns_false"
   ],
   "note": "Proved for the phases of all lists (C132_printed) and for the table (C132_table). That different constituents have different columns is refuted (C132_columns_false): mt and mtm, mns2 and eps2 have the same."
  },
  {
   "property": "C14",
   "status": "proved",
   "theorems": [
    "Verif.Grid.C14_crop_exact",
    "Verif.Grid.C14_crop_empty_fails",
    "Verif.Grid.C14_crop_sound",
    "Verif.Grid.C14_crop_complete_west",
    "Verif.Grid.C14_crop_complete_east",
    "Verif.Grid.C14_crop_regional_false"
   ],
   "note": "Exact selection for monotonic axes; soundness and completeness through both changes of longitude convention; a regional grid east of 180 with negative bounds raises ValueError (refuted variant)."
  },
  {
   "property": "C15",
   "status": "partial",
   "theorems": [
    "Verif.Grid.C15_got_same_meridian",
    "Verif.Grid.C15_otis_same_meridian",
    "Verif.Grid.C15_got_pointwise_positive",
    "Verif.Grid.C15_got_pointwise_signed",
    "Verif.Grid.C15_ranges",
    "Verif.Grid.C15_otis_pointwise_positive_partial",
    "Verif.Grid.C15_otis_pointwise_signed_partial",
    "Verif.Grid.C15_otis_batch_false",
    "Verif.Grid.C15_stored_batch_false",
    "Verif.Grid.C15_stored_model_false"
   ],
   "note": "Meridians are preserved always; pointwise treatment proved per convention; batch independence refuted for OTIS near the last meridian and for stored extended grids."
  },
  {
   "property": "C16",
   "status": "proved",
   "theorems": [
    "Verif.OTIS.C16_elevation_roundtrip",
    "Verif.OTIS.C16_too_large",
    "Verif.OTIS.C16_double_limits_false"
   ],
   "note": "Round trip for every grid size, number of constituents and index whose record lengths fit the 32-bit markers (beyond that the writer raises, C16_too_large). Limits must be >f4 arrays: C16_double_limits_false shows double precision limits corrupt the file. Single precision data, bit patterns."
  },
  {
   "property": "C17",
   "status": "proved",
   "theorems": [
    "Verif.OTIS.C17_transport_roundtrip"
   ],
   "note": "As C16, for transports."
  },
  {
   "property": "C18",
   "status": "partial",
   "theorems": [
    "Verif.OTIS.C18_grid_roundtrip_partial",
    "Verif.OTIS.C18_mask_lost",
    "Verif.OTIS.C18_mask_false"
   ],
   "note": "Everything but the mask round-trips. The mask is proved to be lost for every input (C18_mask_lost, C18_mask_false): the writer emits the depths twice."
  },
  {
   "property": "C19",
   "status": "partial",
   "theorems": [
    "Verif.OTIS.C19_elevation_names",
    "Verif.OTIS.C19_transport_names",
    "Verif.OTIS.C19_four_characters_false"
   ],
   "note": "The statement as given is refuted by C19_four_characters_false; C19_elevation_names and C19_transport_names prove the exact condition (all names but the last have at most three characters)."
  },
  {
   "property": "C20",
   "status": "proved",
   "theorems": [
    "Verif.OTIS.C20_elevation",
    "Verif.OTIS.C20_transport"
   ],
   "note": "Byte-level: for every sequence of valid local solutions the readers return the global field and exactly the local solutions containing the constituent, in order (elevation and transport). Local dictionary entries are returned as the list of assignments in order (equal titles would overwrite)."
  },
  {
   "property": "C21",
   "status": "proved",
   "theorems": [
    "Verif.Predict.C21_map_value",
    "Verif.Predict.C21_drift_value",
    "Verif.Predict.C21_series_value",
    "Verif.Predict.C21_linear",
    "Verif.Predict.C21_superposition",
    "Verif.Predict.C21_order",
    "Verif.Predict.C21_bound"
   ],
   "note": "All three predictors equal the sum of waves; linear, superposition, permutation invariant, bounded. The astronomical arguments are an arbitrary function of time and name."
  },
  {
   "property": "C22",
   "status": "proved",
   "theorems": [
    "Verif.Predict.C22_agree"
   ],
   "note": "Map, track and series return the same value and mask for the same point and time."
  },
  {
   "property": "C23",
   "status": "proved",
   "theorems": [
    "Verif.Predict.C23_map",
    "Verif.Predict.C23_drift",
    "Verif.Predict.C23_series"
   ],
   "note": "Mask of every predictor is the disjunction of the masks of the constants of the point."
  },
  {
   "property": "C24",
   "status": "proved",
   "theorems": [
    "Verif.Predict.C24_recover",
    "Verif.Predict.C24_refuse"
   ],
   "note": "The numerical solver is any minimiser of the squared residuals within bounds that contain the true parameters."
  },
  {
   "property": "C25",
   "status": "partial",
   "theorems": [
    "Verif.Infer.C25_value_partial",
    "Verif.Infer.C25_linear",
    "Verif.Infer.C25_bands_linear",
    "Verif.Infer.C25_first_false",
    "Verif.Infer.C25_case_false"
   ],
   "note": "Exact value, linearity and selection for inputs that differ up to case, when some minor other than the first of the band is due. Refuted: a lone first minor is dropped; a major given in capitals is inferred again."
  },
  {
   "property": "C26",
   "status": "proved",
   "theorems": [
    "Verif.Infer.C26_pivots",
    "Verif.Infer.C26_continuous",
    "Verif.Infer.C26_between",
    "Verif.Infer.C26_constant"
   ],
   "note": "Linear interpolation (default method) for any increasing pivot frequencies. The Munk-Cartwright matrices, given to four decimals, are modelled but do not reproduce the pivots exactly."
  },
  {
   "property": "C27",
   "status": "partial",
   "theorems": [
    "Verif.Infer.C27_scalar_false",
    "Verif.Infer.C27_band_array_partial",
    "Verif.Infer.C27_array_partial"
   ],
   "note": "Array with one value per prediction exactly when the majors suffice and a minor other than the first is due; otherwise a float is returned and adding it fails (refuted by witness)."
  },
  {
   "property": "C28",
   "status": "partial",
   "theorems": [
    "Verif.Nodal.C28_independent",
    "Verif.Nodal.C28_alone",
    "Verif.Nodal.C28_compound_partial",
    "Verif.Nodal.C28_unknown",
    "Verif.Nodal.C28_msk6_false",
    "Verif.Nodal.C28_perth3_false",
    "Verif.Nodal.C28_o2_false",
    "Verif.Nodal.C28_missing_false",
    "Verif.Nodal.C28_unknown_false"
   ],
   "note": "Independence of the other constituents and of order, termination and the default are proved for all names, longitudes and types of corrections; the product/sum law is proved for 164 compound tides. Refuted: msk6/snk6 (angle of K2 subtracted), o2 (matched as part of 'ko2'), single-lunar-parent compounds with perth3 corrections, table spellings such as 2(mn)8 that get no correction, and names matched as substrings (even the empty name)."
  },
  {
   "property": "C29",
   "status": "partial",
   "theorems": [
    "Verif.Nodal.C29_polar_partial",
    "Verif.Nodal.C29_2q1_false"
   ],
   "note": "Proved for all corrections other than FES and all minor constituents but 2q1, sigma1, rho1, for which it is refuted (sine instead of cosine in the angle). The FES formulas for factor and angle are separate and not of this form."
  },
  {
   "property": "C30",
   "status": "partial",
   "theorems": [
    "Verif.Nodal.C30_minor_node",
    "Verif.Nodal.C30_minor_perigee_partial",
    "Verif.Nodal.C30_minor_false",
    "Verif.Nodal.C30_node",
    "Verif.Nodal.C30_perigee_partial",
    "Verif.Nodal.C30_perigee_false"
   ],
   "note": "Periodicity in the node is proved for all constituents and corrections (nodal and minor). Periodicity in the perigee is proved except for constituents involving L2 with FES corrections, for which it is refuted (degrees used as radians)."
  },
  {
   "property": "C31",
   "status": "proved",
   "theorems": [
    "Verif.Equilibrium.C31_symmetric",
    "Verif.Equilibrium.C31_vanishes",
    "Verif.Equilibrium.C31_zonal",
    "Verif.Equilibrium.C31_unknown",
    "Verif.Equilibrium.C31_names",
    "Verif.Equilibrium.C31_string",
    "Verif.Equilibrium.C31_additive",
    "Verif.Equilibrium.C31_bounded",
    "Verif.Equilibrium.C31_grid",
    "Verif.Equilibrium.C31_series",
    "Verif.Equilibrium.C31_drift"
   ],
   "note": "Reals instead of floats; one-dimensional times and latitudes; the LPET request kinds are modelled after projection to latitudes."
  },
  {
   "property": "C32",
   "status": "proved",
   "theorems": [
    "Verif.Spatial.C32_round_trip",
    "Verif.Spatial.C32_round_trip_local",
    "Verif.Spatial.C32_distance",
    "Verif.Spatial.C32_up",
    "Verif.Spatial.C32_east",
    "Verif.Spatial.C32_horizontal",
    "Verif.Spatial.C32_horizontal_range",
    "Verif.Spatial.C32_zenith"
   ],
   "note": "toENU/fromENU are inverse, preserve distances; up, east, altitude/azimuth ranges and zenith meanings, over the reals."
  },
  {
   "property": "C33",
   "status": "proved",
   "theorems": [
    "Verif.Spatial.C33_zhu",
    "Verif.Spatial.C33_zhu_axis",
    "Verif.Spatial.C33_zhu_round_trip",
    "Verif.Spatial.C33_bowring",
    "Verif.Spatial.C33_moritz",
    "Verif.Spatial.C33_fixed_point",
    "Verif.Spatial.C33_on_ellipsoid",
    "Verif.Spatial.C33_height",
    "Verif.Spatial.C33_sphere_round_trip",
    "Verif.Spatial.C33_sphere_inverse"
   ],
   "note": "Exact for the closed form; both iterative methods fix the true coordinates for every ellipsoid, and converge geometrically with explicit bounds for every number of iterations and tolerance (flattening up to 1/100, off the axis, outside half the semi-major axis)."
  },
  {
   "property": "C34",
   "status": "partial",
   "theorems": [
    "Verif.Spatial.C34_ranges",
    "Verif.Spatial.C34_round_trip_partial",
    "Verif.Spatial.C34_round_trip_false",
    "Verif.Spatial.C34_components"
   ],
   "note": "Round trip proved for d = 0 and |d| >= 1 and refuted for every 0 < |d| < 1 (sign and value lost with zero degrees); component ranges and the reverse direction proved."
  },
  {
   "property": "C35",
   "status": "partial",
   "theorems": [
    "Verif.Spatial.C35_closed_form_partial",
    "Verif.Spatial.C35_axis_false",
    "Verif.Spatial.C35_order"
   ],
   "note": "Holds for batches without a point on the axis; refuted with one (C35_axis_false). Order and repetition of the points never matter."
  },
  {
   "property": "C36",
   "status": "partial",
   "theorems": [
    "Verif.Spatial.C36_same_point",
    "Verif.Spatial.C36_same_point_default",
    "Verif.Spatial.C36_same_point_low_partial",
    "Verif.Spatial.C36_same_point_high_partial",
    "Verif.Spatial.C36_identity_partial",
    "Verif.Spatial.C36_identity_false",
    "Verif.Spatial.C36_equator_and_poles",
    "Verif.Spatial.C36_delta_h",
    "Verif.Spatial.C36_wrap",
    "Verif.Spatial.C36_wrap_fixed",
    "Verif.Spatial.C36_batch",
    "Verif.Spatial.C36_input_false"
   ],
   "note": "Identity proved except in the ring around the poles where it is refuted; a converted point is the same point in space (Cartesian coordinates equal up to the square of the tolerance, or quadratic convergence in the number of steps) for Earth-like ellipsoids at every latitude outside the tolerance of equator and poles; height difference laws, wrapping and batches proved. Partial because identity fails in the ring."
  },
  {
   "property": "C37",
   "status": "proved",
   "theorems": [
    "Verif.CRS.C37_identities",
    "Verif.CRS.C37_units",
    "Verif.CRS.C37_gravity",
    "Verif.CRS.C37_gravity_pole",
    "Verif.CRS.C37_area",
    "Verif.CRS.C37_q"
   ],
   "note": "Units, identities, series of normal gravity, surface between those of the inner and outer sphere, positivity of q and q0."
  },
  {
   "property": "C38",
   "status": "partial",
   "theorems": [
    "Verif.CRS.C38_published_partial",
    "Verif.CRS.C38_grs80_false",
    "Verif.CRS.C38_names",
    "Verif.CRS.C38_user_defined",
    "Verif.CRS.C38_alone_false",
    "Verif.CRS.C38_dk_false",
    "Verif.CRS.C38_dk_defined"
   ],
   "note": "Published constants for 13 of 15 names; refuted for GRS80/NAD83, for an axis or flattening given alone, and for the gravity ratio dk."
  },
  {
   "property": "C39",
   "status": "partial",
   "theorems": [
    "Verif.SolidEarth.C39_linear",
    "Verif.SolidEarth.C39_turn",
    "Verif.SolidEarth.C39_axis_false",
    "Verif.SolidEarth.C39_turn_frequency",
    "Verif.SolidEarth.C39_rows",
    "Verif.SolidEarth.C39_one_station",
    "Verif.SolidEarth.C39_bands",
    "Verif.SolidEarth.C39_mathews"
   ],
   "note": "Proved off the rotation axis and for nonzero Sun and Moon vectors; a station exactly on the axis gives NaN (C39_axis_false)."
  },
  {
   "property": "C40",
   "status": "proved",
   "theorems": [
    "Verif.SolidEarth.C40_frame",
    "Verif.SolidEarth.C40_horizontal",
    "Verif.SolidEarth.C40_frequency_diurnal",
    "Verif.SolidEarth.C40_frequency_long_period",
    "Verif.SolidEarth.C40_mean_tide",
    "Verif.SolidEarth.C40_system",
    "Verif.SolidEarth.C40_mean_offset",
    "Verif.SolidEarth.C40_continuous"
   ],
   "note": "Frames of all corrections, their continuity in time, and the mean-tide offset."
  },
  {
   "property": "C41",
   "status": "proved",
   "theorems": [
    "Verif.PoleTide.C41_load",
    "Verif.PoleTide.C41_components",
    "Verif.PoleTide.C41_millimetres",
    "Verif.PoleTide.C41_linear",
    "Verif.PoleTide.C41_turn",
    "Verif.PoleTide.C41_ocean",
    "Verif.PoleTide.C41_zero",
    "Verif.PoleTide.C41_rotation"
   ],
   "note": "Load pole tide as the elastic response to the centrifugal potential change, its components and units; linear, rotation covariant; ocean pole tide formula; zero offsets"
  },
  {
   "property": "C42",
   "status": "partial",
   "theorems": [
    "Verif.SolidEarth.C42_requests_partial",
    "Verif.SolidEarth.C42_grid_false"
   ],
   "note": "Drift and time series agree with each other; a grid at day t equals a track at day t+1 for the frequency-dependent corrections, so the full claim is refuted (C42_grid_false)."
  },
  {
   "property": "C43",
   "status": "partial",
   "theorems": [
    "Verif.Compute.C43_elevations",
    "Verif.Compute.C43_currents",
    "Verif.Compute.C43_lower_partial",
    "Verif.Compute.C43_case_false",
    "Verif.Compute.C43_corrections"
   ],
   "note": "True for elevations, currents and the corrections wrapper in any case, and for the other functions in lower case; refuted for the other functions in any other case"
  },
  {
   "property": "C44",
   "status": "partial",
   "theorems": [
    "Verif.TideModel.C44_other_formats",
    "Verif.TideModel.C44_fes_partial",
    "Verif.TideModel.C44_fes_false"
   ],
   "note": "For OTIS, ATLAS, GOT and TMD3 formats any sequence of extractions leaves the model unchanged and labels every column (C44_other_formats). For FES formats this holds while no earlier call appended the node tide; after an earlier append the labels outnumber the columns (C44_fes_false)."
  },
  {
   "property": "C45",
   "status": "partial",
   "theorems": [
    "Verif.TideModel.C45_read",
    "Verif.TideModel.C45_extract_partial",
    "Verif.TideModel.C45_elevation",
    "Verif.TideModel.C45_fes_false",
    "Verif.TideModel.C45_otis_false"
   ],
   "note": "read_constants selects the requested component for every format; extract_constants does for ATLAS-netcdf, and for OTIS models that list one file. FES extraction passes the whole table and fails (C45_fes_false); OTIS extraction of v takes the file of u (C45_otis_false)."
  },
  {
   "property": "C46",
   "status": "partial",
   "theorems": [
    "Verif.Ascii.C46_got_partial",
    "Verif.Ascii.C46_fes_partial",
    "Verif.Ascii.C46_got_multiple_false",
    "Verif.Ascii.C46_fes_multiple_false",
    "Verif.Ascii.C46_narrow_false",
    "Verif.Ascii.C46_shape",
    "Verif.Ascii.C46_short",
    "Verif.Ascii.C46_cell",
    "Verif.Ascii.C46_axis",
    "Verif.Ascii.C46_got_file_partial",
    "Verif.Ascii.C46_fes_file_partial",
    "Verif.Ascii.C46_compressed_false"
   ],
   "note": "Every grid whose number of columns is above and no multiple of the line length (11 for GOT, 30 for FES) is read exactly; a grid that is read is always complete; multiples, narrow grids and compressed FES files are refuted. Text is taken as split numbers."
  },
  {
   "property": "C47",
   "status": "partial",
   "theorems": [
    "Verif.NetCDF.C47_got",
    "Verif.NetCDF.C47_phase",
    "Verif.NetCDF.C47_fes",
    "Verif.NetCDF.C47_fes_partial",
    "Verif.NetCDF.C47_zero_false",
    "Verif.NetCDF.C47_currents_false",
    "Verif.NetCDF.C47_type",
    "Verif.NetCDF.C47_name_false",
    "Verif.NetCDF.C47_version",
    "Verif.NetCDF.C47_layout",
    "Verif.NetCDF.C47_unknown"
   ],
   "note": "GOT: every field, mask and recognised name. FES: every field of elevations without zero cells and with names of at most four letters; zeros, currents and longer names are refuted, with the exact result given for every field. Reals for floats; the netCDF library is taken to return what was written."
  },
  {
   "property": "C48",
   "status": "partial",
   "theorems": [
    "Verif.CGrid.C48_u_mask",
    "Verif.CGrid.C48_v_mask",
    "Verif.CGrid.C48_u_depth_partial",
    "Verif.CGrid.C48_u_depth_first_column",
    "Verif.CGrid.C48_v_depth",
    "Verif.CGrid.C48_regional_depth_false"
   ],
   "note": "u/v masks for all grids, depths for global grids and away from the first column; first column of a regional grid characterised exactly and the claim refuted there."
  },
  {
   "property": "C49",
   "status": "proved",
   "theorems": [
    "Verif.Utilities.C49_roman",
    "Verif.Utilities.C49_injective",
    "Verif.Utilities.C49_refused",
    "Verif.Utilities.C49_even",
    "Verif.Utilities.C49_ceil"
   ],
   "note": "Conversion of the numeral of every positive number, injectivity, refusal of other letters, rounding up and even numbers, over exact integers and reals."
  },
  {
   "property": "C50",
   "status": "partial",
   "theorems": [
    "Verif.Coef.C50_sum_partial",
    "Verif.Coef.C50_sum_false",
    "Verif.Coef.C50_synonyms",
    "Verif.Coef.C50_synonyms_same"
   ],
   "note": "Proved for all compound tides of the table with a decomposition in the specification, except eight entries for which it is refuted (2ook1, k3, 2mn6, 3mn8, nk3, nsk5, 2(kj)4, snk5). All coincidences in the table are proved to be among the listed synonym groups, and those groups to coincide."
  },
  {
   "property": "C51",
   "status": "partial",
   "theorems": [
    "Verif.Math.C51_sph_harm_false",
    "Verif.Math.C51_sph_harm_partial"
   ],
   "note": "False: an extra factor sin(theta) (witness); exact relation proved."
  },
  {
   "property": "C52",
   "status": "proved",
   "theorems": [
    "Verif.Math.C52_polynomial_sum_eq_horner"
   ],
   "note": "Induction on the coefficient list."
  },
  {
   "property": "C53",
   "status": "proved",
   "theorems": [
    "Verif.Astro.C53_defined",
    "Verif.Astro.C53_phase_rate",
    "Verif.Astro.C53_positive",
    "Verif.Astro.C53_species",
    "Verif.Astro.C53_phase_rate_century"
   ],
   "note": "Exact for the linear longitudes of the OTIS type; for the polynomial longitudes the bound of a quarter of a degree per century. Reals instead of floats; one time at a time."
  },
  {
   "property": "C54",
   "status": "partial",
   "theorems": [
    "Verif.Equilibrium.C54_catalogue",
    "Verif.Equilibrium.C54_complete",
    "Verif.Equilibrium.C54_arguments",
    "Verif.Equilibrium.C54_mf_plus_false",
    "Verif.Equilibrium.C54_node_constants"
   ],
   "note": "Holds for the nine named terms shared with the coefficient table except Mf+, for which C54_mf_plus_false refutes it: doodson.json gives Mf+ the coefficient +1 for the node longitude where the tide has -1."
  },
  {
   "property": "C55",
   "status": "partial",
   "theorems": [
    "Verif.Parameters.C55_tracks",
    "Verif.Parameters.C55_species",
    "Verif.Parameters.C55_lookup",
    "Verif.Parameters.C55_missing_false"
   ],
   "note": "Proved for the 33 tabulated constituents at all times; C55_missing_false refutes the last sentence for constituents that have tidal arguments but no parameters (S1, M3, Mtm, node): their phase does not advance."
  },
  {
   "property": "C56",
   "status": "proved",
   "theorems": [
    "Verif.Spatial.C56_pole_limit",
    "Verif.Spatial.C56_metric",
    "Verif.Spatial.C56_area",
    "Verif.Spatial.C56_hemispheres",
    "Verif.Spatial.C56_true_scale",
    "Verif.Spatial.C56_positive",
    "Verif.Spatial.C56_sphere",
    "Verif.Spatial.C56_sphere_pole"
   ],
   "note": "True scale, positivity, hemispheres, area, limit at the pole, sphere formula; reference latitude strictly between the poles (true scale: at most 89.999 degrees)."
  },
  {
   "property": "C57",
   "status": "partial",
   "theorems": [
    "Verif.Spatial.C57_table",
    "Verif.Spatial.C57_total",
    "Verif.Spatial.C57_square_grid_false"
   ],
   "note": "Exact decision table; refuted for square grids given by their axes."
  },
  {
   "property": "C58",
   "status": "proved",
   "theorems": [
    "Verif.PoleTide.C58_load",
    "Verif.PoleTide.C58_ocean"
   ],
   "note": "Both displacement functions return the pointwise closed formula for each kind of request"
  },
  {
   "property": "C59",
   "status": "proved",
   "theorems": [
    "Verif.Compute.C59_grid",
    "Verif.Compute.C59_drift",
    "Verif.Compute.C59_series",
    "Verif.Compute.C59_currents"
   ],
   "note": "Grid, track and time series requests return the pointwise elevation; currents return it per component. Requires distinct known names and enough constituents when minor ones are inferred (otherwise C27_scalar_false)"
  },
  {
   "property": "C60",
   "status": "partial",
   "theorems": [
    "Verif.Parse.C60_word",
    "Verif.Parse.C60_prime",
    "Verif.Parse.C60_remapped",
    "Verif.Parse.C60_case",
    "Verif.Parse.C60_sound",
    "Verif.Parse.C60_refused",
    "Verif.Parse.C60_refused_false",
    "Verif.Parse.C60_confused_false",
    "Verif.Parse.C60_file"
   ],
   "note": "Words, primes, remapped spellings, soundness and refusal are proved for all texts; constituents of the coefficient table that are refused or confused are given by C60_refused_false and C60_confused_false."
  },
  {
   "property": "C61",
   "status": "partial",
   "theorems": [
    "Verif.Database.C61_formats",
    "Verif.Database.C61_fes_ascii_false",
    "Verif.Database.C61_kinds",
    "Verif.Database.C61_entries",
    "Verif.Database.C61_names",
    "Verif.Database.C61_constituents"
   ],
   "note": "All entries are checked and validate_format is characterised for every string; the documented format FES-ascii is refused (C61_fes_ascii_false)."
  },
  {
   "property": "C62",
   "status": "partial",
   "theorems": [
    "Verif.Definition.C62_selection_partial",
    "Verif.Definition.C62_again",
    "Verif.Definition.C62_grid_false",
    "Verif.Definition.C62_left_false"
   ],
   "note": "Independence and idempotence hold when the entry has a grid file or the object had none; otherwise the selection fails (C62_grid_false), and attributes that the entry lacks keep their old values (C62_left_false)."
  },
  {
   "property": "C63",
   "status": "partial",
   "theorems": [
    "Verif.Definition.C63_round_trip_partial",
    "Verif.Definition.C63_current_false",
    "Verif.Definition.C63_single_false",
    "Verif.Definition.C63_compressed_false"
   ],
   "note": "The round trip holds for one file of an OTIS elevation model and for lists of files; single files of currents and of GOT or FES models come back as one file per letter, and compression is not written by default (the three _false theorems)."
  },
  {
   "property": "C64",
   "status": "proved",
   "theorems": [
    "Verif.Love.C64_models",
    "Verif.Love.C64_bands",
    "Verif.Love.C64_nominal",
    "Verif.Love.C64_tilt",
    "Verif.Love.C64_diurnal",
    "Verif.Love.C64_alpha"
   ],
   "note": "Bands, nominal values, bounds on the tilt factor and agreement with the tabulated load factors proved."
  },
  {
   "property": "C65",
   "status": "proved",
   "theorems": [
    "Verif.Infer.C65_order",
    "Verif.Infer.C65_constant",
    "Verif.Infer.C65_munk",
    "Verif.Infer.C65_linear"
   ],
   "note": "Order of the pivots, linear and Munk-Cartwright admittances at the pivots, constant admittance."
  },
  {
   "property": "C66",
   "status": "proved",
   "theorems": [
    "Verif.Nodal.C66_positive",
    "Verif.Nodal.C66_range"
   ],
   "note": "Positive factor for every constituent, type and time; ranges of 28 main constituents in Spec.nodalRanges. The angles are reals."
  },
  {
   "property": "C67",
   "status": "partial",
   "theorems": [
    "Verif.TideModel.C67_node",
    "Verif.TideModel.C67_after_read",
    "Verif.TideModel.C67_first",
    "Verif.TideModel.C67_kept_partial",
    "Verif.TideModel.C67_type_false",
    "Verif.TideModel.C67_select_false"
   ],
   "note": "Proved after a reading of the same type and for a new object; until the next reading the constants of the last one are used; the node tide is there once if asked for (C67_node). Refuted otherwise: interpolating another type or another model uses the stale cache (C67_type_false, C67_select_false)."
  },
  {
   "property": "C68",
   "status": "partial",
   "theorems": [
    "Verif.AtlasFile.C68_elevation",
    "Verif.AtlasFile.C68_transport",
    "Verif.AtlasFile.C68_grid",
    "Verif.AtlasFile.C68_with_grid",
    "Verif.AtlasFile.C68_mask_false",
    "Verif.AtlasFile.C68_name_false"
   ],
   "note": "Numbers, names of at most four letters, coordinates and the bathymetry mask round trip; with the mask of the grid the constituents come back unchanged. Refuted: a masked cell of a constituent file alone is read as zero (C68_mask_false), names over four letters are not written (C68_name_false). The effect of netCDF4's _Encoding attribute on the name read back is not modelled."
  },
  {
   "property": "C69",
   "status": "partial",
   "theorems": [
    "Verif.IERS.C69_lines",
    "Verif.IERS.C69_value_partial",
    "Verif.IERS.C69_order",
    "Verif.IERS.C69_convention_partial",
    "Verif.IERS.C69_linear",
    "Verif.IERS.C69_convention_false"
   ],
   "note": "Proved from -180.75 to 179.75 degrees for every file, order and latitude. Refuted for longitudes beyond 179.75 (0 to 360 convention): the value of the edge, or none with the linear method (C69_convention_false)."
  },
  {
   "property": "C70",
   "status": "proved",
   "theorems": [
    "Verif.Extract.C70_got_fes",
    "Verif.Extract.C70_extrapolated"
   ],
   "note": "Global GOT and FES models, all three methods, without cropping (C72). C70_extrapolated: with extrapolation all values stay, and masked ones may get the extrapolated value in the same units (C112 says which). scipy's interpolators are assumptions, stated in Model/Spline.lean. Regional models are the subject of C109. With 'bilinear' the first and last parallel and the last meridian are excluded (see C10)."
  },
  {
   "property": "C71",
   "status": "partial",
   "theorems": [
    "Verif.Extract.C71_stored_partial",
    "Verif.Extract.C71_same_partial",
    "Verif.Extract.C71_west_false",
    "Verif.Extract.C71_east_false",
    "Verif.Extract.C71_got_false"
   ],
   "note": "Proved for batches that suit the stored model (Fits); for 'spline' and 'linear' both paths agree exactly. The full claim is false: the longitude convention is tested against the extended axis, so that for FES models with 0 <= first longitude < step all points above 180 degrees of a batch without negative longitudes are masked (C71_east_false), likewise western points for models from -180 to 180 degrees (C71_west_false); GOT models give a value of the edge (C71_got_false)."
  },
  {
   "property": "C72",
   "status": "partial",
   "theorems": [
    "Verif.Extract.C72_cropped_partial",
    "Verif.Extract.C72_same_partial",
    "Verif.Extract.C72_seam_false",
    "Verif.Extract.C72_mixed_false"
   ],
   "note": "Proved when no point lies where the grid is cut (Within) and the buffer reaches the next node, including the change of convention by _shift; for 'spline' and 'linear' cropping then changes nothing. The full claim is false: C72_seam_false (points east of the last column), C72_mixed_false (batches in mixed conventions)."
  },
  {
   "property": "C73",
   "status": "partial",
   "theorems": [
    "Verif.Staggered.C73_place",
    "Verif.Staggered.C73_places_partial",
    "Verif.Staggered.C73_region_partial",
    "Verif.Staggered.C73_outside",
    "Verif.Staggered.C73_batch_false",
    "Verif.Staggered.C73_antimeridian_false",
    "Verif.Staggered.C73_north_false",
    "Verif.Staggered.C73_zero_false",
    "Verif.Staggered.C73_gap_false",
    "Verif.Staggered.C73_rim_false",
    "Verif.Staggered.C73_extrapolated_false"
   ],
   "note": "Proved for one place of a global model and for batches that stay within the last column or a model in the convention -180 to 180, for regional and projected models without cropping, and that places outside are masked. The full claim is refuted: batches (C73_batch_false), zonal currents near the antimeridian, meridional currents north of the last row, zeros and gaps in the files, the first column of zonal currents of a region, extrapolated velocities. Cropped extraction is the subject of C111."
  },
  {
   "property": "C74",
   "status": "partial",
   "theorems": [
    "Verif.Staggered.C74_stored",
    "Verif.Staggered.C74_same_place",
    "Verif.Staggered.C74_same_partial",
    "Verif.Staggered.C74_gap_false",
    "Verif.Staggered.C74_zero_false",
    "Verif.Staggered.C74_batch_false",
    "Verif.Staggered.C74_region_partial",
    "Verif.Staggered.C74_region_same_partial"
   ],
   "note": "Proved for every batch of places of a global model whose zonal current points start in the convention and of regional and projected models, for all methods, and equal to extraction with 'spline' and 'linear'. The full claim is refuted for gaps, zeros and models that start at Greenwich exactly (zonal currents)."
  },
  {
   "property": "C75",
   "status": "partial",
   "theorems": [
    "Verif.AtlasNet.C75_global",
    "Verif.AtlasNet.C75_cropped_partial",
    "Verif.AtlasNet.C75_same_partial",
    "Verif.AtlasNet.C75_extrapolated_false"
   ],
   "note": "Global models without cropping: proved for every batch, method and quantity. With cropping: away from the cut (C72 has the witnesses). Extrapolated currents are refuted (C75_extrapolated_false). Regional models are the subject of C109."
  },
  {
   "property": "C76",
   "status": "partial",
   "theorems": [
    "Verif.AtlasNet.C76_stored_partial",
    "Verif.AtlasNet.C76_same_partial",
    "Verif.AtlasNet.C76_history_partial",
    "Verif.AtlasNet.C76_batch_false",
    "Verif.AtlasNet.C76_history_false"
   ],
   "note": "Proved for batches that suit the object and histories without the method bilinear (or bilinear itself); elevations and transports never depend on the history. Refuted: C76_batch_false, C76_history_false. How scipy's splines spread NaN is a parameter."
  },
  {
   "property": "C77",
   "status": "partial",
   "theorems": [
    "Verif.Pipeline.C77_files",
    "Verif.Pipeline.C77_atlas",
    "Verif.Pipeline.C77_otis",
    "Verif.Pipeline.C77_otis_places_partial",
    "Verif.Pipeline.C77_otis_region_partial"
   ],
   "note": "Proved for GOT and FES, ATLAS netCDF, and OTIS models (a place or a batch of a global model, or a region). Partial since batches for a global OTIS model that starts at Greenwich and zonal currents at the rim of a region are wrong in pyTMD (C73_batch_false, C73_rim_false). Cropping, extrapolation, append_node and flexure are the subject of C113."
  },
  {
   "property": "C78",
   "status": "partial",
   "theorems": [
    "Verif.Sky.C78_means",
    "Verif.Sky.C78_sun",
    "Verif.Sky.C78_moon_frame",
    "Verif.Sky.C78_moon_distance",
    "Verif.Sky.C78_moon_partial",
    "Verif.Sky.C78_moon_false",
    "Verif.Sky.C78_range",
    "Verif.Sky.C78_declination",
    "Verif.Sky.C78_turn",
    "Verif.Sky.C78_names",
    "Verif.Sky.C78_names_false"
   ],
   "note": "The term of 148 arcseconds of the moon has the wrong sign (C78_moon_false) and unknown names give None (C78_names_false); everything else is proved, the moon within 296 arcseconds."
  },
  {
   "property": "C79",
   "status": "partial",
   "theorems": [
    "Verif.Sky.C79_arguments",
    "Verif.Sky.C79_turn",
    "Verif.Sky.C79_longitudes",
    "Verif.Sky.C79_obliquity",
    "Verif.Sky.C79_bound",
    "Verif.Sky.C79_complement",
    "Verif.Sky.C79_nutation_partial",
    "Verif.Sky.C79_planets_false",
    "Verif.Sky.C79_sidereal_partial",
    "Verif.Sky.C79_sidereal_false",
    "Verif.Sky.C79_itrs",
    "Verif.Sky.C79_wobble_false"
   ],
   "note": "Arguments, bounds and orthogonality are proved. Planetary multiples are not used (C79_planets_false, within 11 milliarcseconds by C79_nutation_partial), the equation of the equinoxes is scaled by 2pi/24 (C79_sidereal_false) and polar motion is applied in celestial coordinates (C79_wobble_false). The order precession times nutation is not judged."
  },
  {
   "property": "C80",
   "status": "partial",
   "theorems": [
    "Verif.Masks.C80_spline",
    "Verif.Masks.C80_linear_partial",
    "Verif.Masks.C80_linear_false",
    "Verif.Masks.C80_shape_false",
    "Verif.Masks.C80_format_false",
    "Verif.Masks.C80_formats",
    "Verif.Masks.C80_extract_partial",
    "Verif.Masks.C80_seam_false",
    "Verif.Masks.C80_west_false",
    "Verif.Masks.C80_coast_false",
    "Verif.Masks.C80_bilinear_partial"
   ],
   "note": "Equivalence for vectors of points with the default method; for the others restricted to where it holds. Refuted by witnesses: method 'linear' swaps the coordinates, inputs that are not vectors, FES-ascii, the seam and the western half of global models, and points next to the coast are valid although no constant is returned."
  },
  {
   "property": "C81",
   "status": "partial",
   "theorems": [
    "Verif.Numbers.C81_formalism",
    "Verif.Numbers.C81_case",
    "Verif.Numbers.C81_unknown",
    "Verif.Numbers.C81_cartwright",
    "Verif.Numbers.C81_doodson_partial",
    "Verif.Numbers.C81_doodson_false",
    "Verif.Numbers.C81_extended_partial",
    "Verif.Numbers.C81_extended_false",
    "Verif.Numbers.C81_dictionary",
    "Verif.Numbers.C81_always",
    "Verif.Numbers.C81_fields",
    "Verif.Numbers.C81_frequency",
    "Verif.Numbers.C81_separates",
    "Verif.Numbers.C81_separates_false"
   ],
   "note": "All names, lists and formalisms; uniqueness of numbers and frequencies over the whole table. Refuted by witnesses for 41 constituents that are called unsupported in the Doodson formalism, five whose extended number is wrong, and lines that differ by the solar perigee with OTIS corrections."
  },
  {
   "property": "C82",
   "status": "proved",
   "theorems": [
    "Verif.OTIS.C82_grid"
   ],
   "note": "Round trip of the whole file for any number and sizes of local grids, with and without an open boundary. The coordinates computed from the limits are not part of it; repeated names of local grids (a dictionary) neither."
  },
  {
   "property": "C83",
   "status": "partial",
   "theorems": [
    "Verif.Combine.C83_fields",
    "Verif.Combine.C83_depths",
    "Verif.Combine.C83_once",
    "Verif.Combine.C83_offset",
    "Verif.Combine.C83_mask",
    "Verif.Combine.C83_beyond",
    "Verif.Combine.C83_seam_false",
    "Verif.Combine.C83_coast_false",
    "Verif.Combine.C83_names",
    "Verif.Combine.C83_last",
    "Verif.Combine.C83_names_false"
   ],
   "note": "Exact for every cell (C83_fields, C83_depths, C83_mask) when the nodes are between the poles and not east of 360 degrees; a wet node further east is an IndexError (C83_beyond). Local solutions are a dictionary: all are kept if their names differ (C83_names), of several with one name only the last (C83_last, C83_names_false). The base is the interpolation between the nodes of the global solution: beyond its first and last column the value is held instead of going around (C83_seam_false), and numbers on land enter the sea next to it (C83_coast_false). A node is put in the cell of which it is the north-eastern corner (C83_offset says what this means if the limits are sides of cells). Exact arithmetic instead of floating point."
  },
  {
   "property": "C84",
   "status": "partial",
   "theorems": [
    "Verif.Combine.C84_transport_false",
    "Verif.Combine.C84_extract",
    "Verif.Combine.C84_places_partial",
    "Verif.Combine.C84_cropped_partial",
    "Verif.Combine.C84_stored_partial"
   ],
   "note": "C84_extract at any one place; C84_places_partial for batches of places (west of the last column), C84_cropped_partial with cropping under the conditions of C111, C84_stored_partial for models that are read once and interpolated; extrapolation is C112_compact_partial. Bilinear interpolation only where the combined constants are not zero in the sea. Refuted: zonal transports of the global solution keep their place (C84_transport_false: they are moved by half the difference of the steps)."
  },
  {
   "property": "C85",
   "status": "partial",
   "theorems": [
    "Verif.TMD3.C85_region_partial",
    "Verif.TMD3.C85_direction",
    "Verif.TMD3.C85_global",
    "Verif.TMD3.C85_names",
    "Verif.TMD3.C85_grounded_false",
    "Verif.TMD3.C85_currents_false"
   ],
   "note": "Elevations with and without flexure in regions and around the globe (spline, bilinear and linear, the last two if no point of the sea has zero flexure), and names in order, are proved. Refuted: with method linear the tide is undamped where the flexure is 0 (C85_grounded_false), and transports are taken for those half a step west of the coordinates in the file (C85_currents_false)."
  },
  {
   "property": "C86",
   "status": "partial",
   "theorems": [
    "Verif.Polar.C86_polar",
    "Verif.Polar.C86_recovers",
    "Verif.Polar.C86_absent",
    "Verif.Polar.C86_plain_false",
    "Verif.Polar.C86_shape",
    "Verif.Polar.C86_shape_false"
   ],
   "note": "Proved for every history without repeated appends and masked arrays; refuted for plain arrays (both calls raise) and for the shape after a name was appended twice."
  },
  {
   "property": "C87",
   "status": "partial",
   "theorems": [
    "Verif.Listing.C87_select",
    "Verif.Listing.C87_kept",
    "Verif.Listing.C87_available_partial",
    "Verif.Listing.C87_available_false",
    "Verif.Listing.C87_sections",
    "Verif.Listing.C87_formats",
    "Verif.Listing.C87_all_formats",
    "Verif.Listing.C87_currents",
    "Verif.Listing.C87_variables",
    "Verif.Listing.C87_package"
   ],
   "note": "The full claim is refuted (C87_available_false: an additional database replaces whole sections, so it takes away the models of the package). Proved: the entry used is that of the last file with the section; untouched sections are kept; the lists are exact for every database."
  },
  {
   "property": "C88",
   "status": "partial",
   "theorems": [
    "Verif.Csv.C88_lines",
    "Verif.Csv.C88_table",
    "Verif.Csv.C88_header_partial",
    "Verif.Csv.C88_fill_false",
    "Verif.Csv.C88_refused",
    "Verif.Csv.C88_mark",
    "Verif.Csv.C88_breaks",
    "Verif.Csv.C88_unknown"
   ],
   "note": "Round trip proved for every table, delimiter and number of header lines (C88_table, C88_lines), with the YAML header when the data column has no fill value (C88_header_partial); with a fill value every file fails to read (C88_fill_false). Number formatting and the YAML library are hypotheses."
  },
  {
   "property": "C89",
   "status": "partial",
   "theorems": [
    "Verif.Store.C89_drift",
    "Verif.Store.C89_grid",
    "Verif.Store.C89_series",
    "Verif.Store.C89_axes_partial",
    "Verif.Store.C89_axes_false",
    "Verif.Store.C89_filled_false",
    "Verif.Store.C89_attributes",
    "Verif.Store.C89_second_false",
    "Verif.Store.C89_type_false",
    "Verif.Store.C89_ambiguous_false"
   ],
   "note": "Round trip of shapes, masks, values and attributes proved for drift, grid and time series data of any size (C89_drift, C89_grid, C89_series). Dimensions of axes proved for different lengths; square grids, axes with fill values, second writes and unknown types are refuted in general. The netCDF4 library is modelled by its fill value and broadcasting rules. An attribute is not read when two names begin alike (C89_ambiguous_false)."
  },
  {
   "property": "C90",
   "status": "partial",
   "theorems": [
    "Verif.Store.C90_file",
    "Verif.Store.C90_values_partial",
    "Verif.Store.C90_mask_false",
    "Verif.Store.C90_scalar_false",
    "Verif.Store.C90_append_false",
    "Verif.Store.C90_foreign"
   ],
   "note": "Exactly what a new HDF5 file gives back is proved (C90_file); round trip for unmasked arrays; refuted for every masked array, scalar and existing dataset with attributes. Files of other programs: C90_foreign."
  },
  {
   "property": "C91",
   "status": "partial",
   "theorems": [
    "Verif.Geotiff.C91_places",
    "Verif.Geotiff.C91_image_partial",
    "Verif.Geotiff.C91_zero_false",
    "Verif.Geotiff.C91_bands_false",
    "Verif.Geotiff.C91_written",
    "Verif.Geotiff.C91_part",
    "Verif.Geotiff.C91_extent",
    "Verif.Geotiff.C91_edges_false",
    "Verif.Geotiff.C91_cover_false"
   ],
   "note": "Places of pixels, round trip of single band images, parts in bounds and the returned extent are proved for every image; fill value zero, several bands, outer edges and bounds across pixels are refuted."
  },
  {
   "property": "C92",
   "status": "partial",
   "theorems": [
    "Verif.FileNames.C92_exact",
    "Verif.FileNames.C92_found",
    "Verif.FileNames.C92_case_partial",
    "Verif.FileNames.C92_other_false",
    "Verif.FileNames.C92_fields",
    "Verif.FileNames.C92_inverse",
    "Verif.FileNames.C92_names",
    "Verif.FileNames.C92_again_false"
   ],
   "note": "File choice characterised for every directory (C92_exact, C92_found); same name in other letters proved where no other file begins alike; mappings and inverses proved. Refuted for files that begin alike and for an empty dictionary used twice."
  },
  {
   "property": "C93",
   "status": "partial",
   "theorems": [
    "Verif.Regional.C93_name",
    "Verif.Regional.C93_new_name",
    "Verif.Regional.C93_constituents_false",
    "Verif.Regional.C93_region_partial",
    "Verif.Regional.C93_negative_false",
    "Verif.Regional.C93_empty",
    "Verif.Regional.C93_west_false",
    "Verif.Regional.C93_box",
    "Verif.Regional.C93_corners",
    "Verif.Regional.C93_mask_false",
    "Verif.Regional.C93_boundary_false",
    "Verif.Regional.C93_pole_false",
    "Verif.Regional.C93_near_partial",
    "Verif.Regional.C93_compact_partial"
   ],
   "note": "C93_region_partial and C93_near_partial (coordinates stored with an error) are missing the mask, regions at negative x, the numbering of the open boundary and bounds that are not a box in the coordinates of the model: each is refuted (C93_mask_false, C93_negative_false, C93_boundary_false, C93_west_false, C93_pole_false), and files of constituents are never written (C93_constituents_false). C93_compact_partial covers the grids of ATLAS-compact models. Names are proved (C93_name). Permissions are not modelled."
  },
  {
   "property": "C94",
   "status": "partial",
   "theorems": [
    "Verif.Crs.C94_history",
    "Verif.Crs.C94_convert",
    "Verif.Crs.C94_inverse",
    "Verif.Crs.C94_reuse_false",
    "Verif.Crs.C94_named",
    "Verif.Crs.C94_unknown",
    "Verif.Crs.C94_number",
    "Verif.Crs.C94_error_false"
   ],
   "note": "Conversions are proved for every history; get and transform keep an earlier direction (C94_reuse_false) and one error is of another kind (C94_error_false). pyproj is a parameter."
  },
  {
   "property": "C95",
   "status": "partial",
   "theorems": [
    "Verif.Program.C95_lines",
    "Verif.Program.C95_map",
    "Verif.Program.C95_parts",
    "Verif.Program.C95_default_false",
    "Verif.Program.C95_types_false",
    "Verif.Program.C95_case_false"
   ],
   "note": "Proved for tracks (C95_lines, C95_map, C95_parts). Refuted for every table: the default names of columns raise KeyError (C95_default_false), grids and time series cannot be written as a table (C95_types_false), a type in other letters passes the check and raises UnboundLocalError although tide_elevations takes it (C95_case_false). Dates as texts are not modelled."
  },
  {
   "property": "C96",
   "status": "partial",
   "theorems": [
    "Verif.Program.C96_drift",
    "Verif.Program.C96_grid",
    "Verif.Program.C96_series",
    "Verif.Program.C96_tide_grid",
    "Verif.Program.C96_tide_drift",
    "Verif.Program.C96_tide_series",
    "Verif.Program.C96_case_false",
    "Verif.Program.C96_solid_false",
    "Verif.Program.C96_hdf5_false",
    "Verif.Program.C96_load_pole",
    "Verif.Program.C96_ocean_pole"
   ],
   "note": "Holds for netCDF4 files and any function that computes the values (C96_drift, C96_grid, C96_series), in particular tidal elevations (C96_tide_*), load pole tides (C96_load_pole) and ocean pole tides (C96_ocean_pole). The full claim is refuted: HDF5 files show masked values as numbers (C96_hdf5_false), the program for solid Earth tides fails for grids (C96_solid_false), types in capital letters give no file (C96_case_false)."
  },
  {
   "property": "C97",
   "status": "partial",
   "theorems": [
    "Verif.Longitudes.C97_meeus",
    "Verif.Longitudes.C97_cartwright",
    "Verif.Longitudes.C97_perigee_false",
    "Verif.Longitudes.C97_doodson",
    "Verif.Longitudes.C97_moon",
    "Verif.Longitudes.C97_moon_false",
    "Verif.Longitudes.C97_tau",
    "Verif.Longitudes.C97_phase_angles",
    "Verif.Longitudes.C97_delaunay",
    "Verif.Longitudes.C97_ephemerides",
    "Verif.Longitudes.C97_phase",
    "Verif.Longitudes.C97_s1"
   ],
   "note": "Proved with explicit bounds for two centuries (C97_meeus, C97_doodson, C97_moon, C97_tau, C97_delaunay, C97_ephemerides), for 1990-2010 (C97_cartwright) and for tidal arguments (C97_phase, C97_s1). Refuted for Cartwright's solar perigee (C97_perigee_false) and for the moon with the default keywords of doodson_arguments (C97_moon_false)."
  },
  {
   "property": "C98",
   "status": "partial",
   "theorems": [
    "Verif.Astro.C98_arguments_partial",
    "Verif.Astro.C98_tide_partial",
    "Verif.Astro.C98_provided",
    "Verif.Astro.C98_l2b_false",
    "Verif.Astro.C98_m1_false",
    "Verif.Astro.C98_theta1_false"
   ],
   "note": "For OTIS, GOT and FES conventions every inferred constituent but m1 has the phase of its own arguments, and a nodal modulation within the bounds of Spec/Minor.lean (exactly equal where the bound is zero); carried through inference and, for FES, prediction. False for l2b (the nodal angle has the opposite sign), m1 (phase of another line) and theta1 with FES (no correction)."
  },
  {
   "property": "C99",
   "status": "partial",
   "theorems": [
    "Verif.Astro.C99_series_partial",
    "Verif.Astro.C99_series",
    "Verif.Astro.C99_minor_partial",
    "Verif.Astro.C99_l2_false"
   ],
   "note": "Composed from the arguments of the library: for all corrections but FES, C99_series gives one continuous function for all requested times. For FES (C99_series_partial) constituents that involve L2 are excluded, because they do jump (C99_l2_false), and instants at which the node is exactly at 180 degrees, where the tangent of a right angle has no value; the function is continuous across them. C99_minor_partial is the same for infer_minor (all bands and methods), for FES if l2 is provided or not asked for."
  }
 ]
}
