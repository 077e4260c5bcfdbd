{"id": "C01", "title": "Doodson numbers decode back to the Cartwright numbers they encode", "statement": "Converting the six Cartwright numbers of a constituent to a Doodson number and converting that Doodson number back returns the same six integers, for every set of Cartwright numbers that the encoder accepts.", "quantifier": "all integer 6-tuples accepted by the encoder (species 0..11, the other five -5..6)", "why_tests_cant": "There are three million accepted tuples and the failures sit on a thin slice (a final digit of zero), which the constituents in the test table never hit.", "anchors": ["pyTMD/arguments.py: _to_doodson_number, _from_doodson_number, doodson_number"]}
{"id": "C02", "title": "Doodson number encoding accepts exactly the encodable tuples and never confuses two of them", "statement": "The encoder rejects a tuple (ValueError, or None when errors are disabled) exactly when one of its digits is outside 0..11, and two accepted tuples with different Cartwright numbers never get the same Doodson number.", "quantifier": "all pairs of integer 6-tuples, both error modes", "why_tests_cant": "Injectivity is a statement about all pairs; the number is returned as a float or as text depending on the digits, so collisions would have to be searched over two formats.", "anchors": ["pyTMD/arguments.py: _to_doodson_number"]}
{"id": "C03", "title": "Extended Doodson numbers decode back and out-of-range coefficients are refused", "statement": "Encoding any list of Cartwright numbers as a UKHO extended Doodson string and decoding it returns the list, and coefficients that have no letter are rejected with an error instead of being encoded as some other coefficient.", "quantifier": "all lists of integers, of any length", "why_tests_cant": "Python negative indexing silently wraps for coefficients below -8; a test must know to try them.", "anchors": ["pyTMD/arguments.py: _to_extended_doodson, _from_extended_doodson"]}
{"id": "C04", "title": "The constituents container behaves like an ordered map under every history of operations", "statement": "After any sequence of append, update, pop, get and item operations on a constituents object, its length, its names in order, the values read back by name and the pairs produced by iterating are those of an ordered map receiving the same operations.", "quantifier": "all finite sequences of operations over all names and values", "why_tests_cant": "A history property: the failures need a particular interleaving (append the same name twice, then pop once).", "anchors": ["pyTMD/io/constituents.py: constituents.append, get, pop, update, __len__, __iter__, __next__"]}
{"id": "C05", "title": "Tidal ellipse parameters and zonal/meridional constituents are inverse to each other", "statement": "Computing the ellipse parameters of complex currents (u, v) and converting them back yields u and v exactly (up to rounding), the major axis is at least the absolute minor axis, the inclination is in [0,180) and the phase in [0,360).", "quantifier": "all complex u and v, including zero and circular currents", "why_tests_cant": "Branch cuts of the angle functions and the 180-degree folding of the inclination are measure-zero cases that samples miss.", "anchors": ["pyTMD/ellipse.py: ellipse, inverse"]}
{"id": "C06", "title": "Coordinate rotations preserve lengths and undo each other", "statement": "Every rotation matrix built by the library (elementary rotations about x, y, z, nutation, precession, polar motion) is orthogonal with determinant one; rotating by an angle and then by its opposite is the identity, and successive rotations about one axis add their angles.", "quantifier": "all real angles and all three axes", "why_tests_cant": "An identity in continuous angles; a sign error in one entry is invisible at angle zero and small at the small angles used in practice.", "anchors": ["pyTMD/math.py: rotate", "pyTMD/astro.py: _nutation_matrix, _precession_matrix, _polar_motion_matrix"]}
{"id": "C07", "title": "Angle normalisation returns the congruent angle in one revolution", "statement": "Normalising an angle returns the unique number in [0, circle) that differs from it by a whole number of revolutions; normalising twice is the same as once, and adding revolutions beforehand changes nothing.", "quantifier": "all real angles and all positive circle lengths", "why_tests_cant": "Uniqueness and invariance under all integer shifts.", "anchors": ["pyTMD/math.py: normalize_angle"]}
{"id": "C08", "title": "Aliased frequency stays below the Nyquist frequency and is consistent with sampling", "statement": "The aliased frequency of a signal lies between 0 and half the sampling frequency, is unchanged when a multiple of the sampling frequency is added to the signal, and signals with the same aliased frequency are indistinguishable (up to sign of the phase) at every sampling instant.", "quantifier": "all frequencies, all positive sampling rates, all sample indices", "why_tests_cant": "Rounding half to even at the Nyquist frequency, and all samples at once.", "anchors": ["pyTMD/math.py: aliasing", "pyTMD/arguments.py: aliasing_period"]}
{"id": "C09", "title": "The associated Legendre table and recursion give the mathematical functions", "statement": "For degrees up to 3 the Legendre routine equals the function obtained by differentiating the Legendre polynomial (with the Condon-Shortley phase), and the general-degree recursion returns the fully normalised functions of the same arguments.", "quantifier": "all degrees and orders accepted, all arguments in [-1,1]", "why_tests_cant": "A polynomial identity: agreement at sample points does not exclude a wrong coefficient that is small there.", "anchors": ["pyTMD/math.py: legendre, assoc_legendre, sph_harm"]}
{"id": "C10", "title": "Bilinear interpolation is exact at nodes, reproduces linear fields, never overshoots and respects the mask", "statement": "At a grid node bilinear interpolation returns the node value; a field that is linear in longitude and latitude is reproduced; the result lies between the smallest and largest valid surrounding values; points outside the grid or with no valid neighbour are masked and get the fill value; points inside always produce a value or a mask, never an exception.", "quantifier": "all monotone grids of any size, all data, masks and query points", "why_tests_cant": "Combines arbitrary grids, masks and boundary points; the failing case (query exactly on the last meridian) needs exact equality.", "anchors": ["pyTMD/interpolate.py: bilinear"]}
{"id": "C11", "title": "Nearest-neighbour extrapolation returns the closest valid value within the cutoff", "statement": "Extrapolation gives each point the value of a valid model cell at the smallest distance, provided that distance is within the cutoff; otherwise the point is masked with the fill value. Restricting the search to the bounding box never changes the answer.", "quantifier": "all sets of valid cells, query points and cutoffs", "why_tests_cant": "The bounding-box shortcut and the cutoff comparison must agree for every geometry.", "anchors": ["pyTMD/interpolate.py: extrapolate, _distance"]}
{"id": "C12", "title": "Extending a global grid preserves the periodic field it represents", "statement": "Extending the longitude axis and the data of a global grid yields strictly increasing longitudes with constant spacing, and every added column carries the value of the original column at the same longitude modulo 360.", "quantifier": "all global grids with any number of columns and any spacing", "why_tests_cant": "Index arithmetic at both ends for every grid size.", "anchors": ["pyTMD/io/OTIS.py: _extend_array, _extend_matrix", "pyTMD/io/GOT.py: _extend_array, _extend_matrix", "pyTMD/io/FES.py", "pyTMD/io/ATLAS.py", "pyTMD/io/IERS.py"]}
{"id": "C13", "title": "Shifting a grid east or west keeps every datum at its location", "statement": "Shifting a global grid to another longitude convention rearranges the columns so that each (longitude modulo 360, value) pair is kept, longitudes end up increasing, nothing is lost, and any starting longitude is accepted.", "quantifier": "all grids, base longitudes and both directions", "why_tests_cant": "Depends on the index of the nearest longitude and on whether the grid is closed; the zero-index case is a slice edge case.", "anchors": ["pyTMD/io/OTIS.py: _shift", "pyTMD/io/GOT.py: _shift", "pyTMD/io/FES.py: _shift", "pyTMD/io/ATLAS.py: _shift", "pyTMD/io/IERS.py: _shift"]}
{"id": "C14", "title": "Cropping keeps exactly the grid nodes inside the buffered bounds", "statement": "Cropping a model with increasing axes returns exactly the rows and columns whose coordinates lie within the bounds enlarged by the buffer, with the data aligned to them, and fails when there are none.", "quantifier": "all increasing axes, bounds and buffers", "why_tests_cant": "First/last index logic over arbitrary axes.", "anchors": ["pyTMD/io/OTIS.py: _crop", "pyTMD/io/GOT.py: _crop", "pyTMD/io/FES.py: _crop", "pyTMD/io/ATLAS.py: _crop"]}
{"id": "C15", "title": "Interpolated constants at a point do not depend on the other points in the request", "statement": "Adjusting the input longitudes to the convention of the model keeps every point at the same longitude modulo 360, puts every point covered by the model into the model's range, and treats a point the same way whatever other points are requested with it.", "quantifier": "all batches of longitudes, all model longitude ranges", "why_tests_cant": "The adjustment is decided from the minimum and maximum of the whole batch; only particular combinations of points interfere.", "anchors": ["pyTMD/io/OTIS.py: extract_constants, interpolate_constants", "pyTMD/io/GOT.py: extract_constants, interpolate_constants", "pyTMD/io/FES.py", "pyTMD/io/ATLAS.py"]}
{"id": "C16", "title": "OTIS elevation files written by the library read back unchanged", "statement": "Writing elevations for a list of constituents to an OTIS binary file and reading constituent number i returns exactly the i-th field, with invalid cells masked, for every grid size and number of constituents.", "quantifier": "all grid sizes, constituent counts, indices and 32-bit data", "why_tests_cant": "Byte-offset arithmetic in nx, ny, nc and i; one file in a test fixes all four.", "anchors": ["pyTMD/io/OTIS.py: output_otis_elevation, read_otis_elevation"]}
{"id": "C17", "title": "OTIS transport files written by the library read back unchanged", "statement": "Writing zonal and meridional transports for a list of constituents to an OTIS binary file and reading constituent number i returns exactly the i-th pair of fields.", "quantifier": "all grid sizes, constituent counts, indices and 32-bit data", "why_tests_cant": "Offset arithmetic with two interleaved fields.", "anchors": ["pyTMD/io/OTIS.py: output_otis_transport, read_otis_transport"]}
{"id": "C18", "title": "OTIS grid files written by the library read back unchanged", "statement": "Writing a grid (limits, time step, bathymetry, mask, open-boundary indices) to an OTIS grid file and reading it returns the same bathymetry, mask, boundary indices and time step.", "quantifier": "all grid sizes and contents, with and without open boundaries", "why_tests_cant": "Needs a byte-exact comparison of the record layout of writer and reader.", "anchors": ["pyTMD/io/OTIS.py: output_otis_grid, read_otis_grid"]}
{"id": "C19", "title": "Constituent names in OTIS headers are recovered in order", "statement": "Reading the constituent list of an OTIS file written by the library returns the names written, in order, whatever their lengths (up to four characters).", "quantifier": "all lists of names", "why_tests_cant": "The names are blank-padded and split on whitespace; only four-character names expose the merging.", "anchors": ["pyTMD/io/OTIS.py: read_constituents, output_otis_elevation, output_otis_transport"]}
{"id": "C20", "title": "Skipping a local solution in an ATLAS-compact file lands on the next one", "statement": "While reading ATLAS-compact files, a local solution that lacks the requested constituent is skipped by exactly the number of bytes a local solution with the constituent consumes, so every local solution is read from its true start whatever precedes it.", "quantifier": "all sequences of local solutions of all sizes", "why_tests_cant": "An offset error accumulates over the sequence and depends on sizes and constituent counts.", "anchors": ["pyTMD/io/OTIS.py: read_atlas_elevation, read_atlas_transport, read_atlas_grid"]}
{"id": "C21", "title": "Predicted tides are linear in the harmonic constants and bounded by their amplitudes", "statement": "The predicted tide is a linear function of the complex harmonic constants, is the sum of the predictions of each constituent alone, does not depend on the order in which constituents are listed, and never exceeds in absolute value the sum of nodal factor times amplitude.", "quantifier": "all constituent lists, constants, times, nodal corrections and correction types", "why_tests_cant": "Superposition over all lists and permutations.", "anchors": ["pyTMD/predict.py: map, drift, time_series"]}
{"id": "C22", "title": "Map, drift and time-series predictions agree where they overlap", "statement": "For the same constants, the value predicted for point i and time j is the same whether it is requested as a map at time j, as an element of a drift track, or as an element of the time series at point i.", "quantifier": "all numbers of points and times, all constituents", "why_tests_cant": "Relational property of three code paths for every shape.", "anchors": ["pyTMD/predict.py: map, drift, time_series"]}
{"id": "C23", "title": "A predicted value is masked exactly when one of its constants is masked", "statement": "A predicted tide is flagged invalid at a point if and only if at least one constituent is invalid at that point, independent of the times requested.", "quantifier": "all masks, constituent lists and correction types", "why_tests_cant": "Mask union over arbitrary lists.", "anchors": ["pyTMD/predict.py: map, drift, time_series"]}
{"id": "C24", "title": "Harmonic analysis recovers the constants that generated a tide", "statement": "Solving for harmonic constants from a noise-free series predicted with given constants plus a constant offset returns the original amplitudes and phases (phase in [0,360)), whenever the sampling times determine them uniquely.", "quantifier": "all series long enough with full-rank sampling, all constants", "why_tests_cant": "Round trip through least squares for arbitrary sampling.", "anchors": ["pyTMD/solve/constants.py: constants", "pyTMD/predict.py: time_series"]}
{"id": "C25", "title": "Minor-constituent inference adds each requested missing constituent exactly once", "statement": "Inference is linear in the major constants, contributes every requested minor constituent that the model does not provide, and nothing for the constituents it does provide.", "quantifier": "all constituent lists (in any letter case), all requested subsets of minor constituents", "why_tests_cant": "Depends on list membership and on the index of the requested constituent.", "anchors": ["pyTMD/predict.py: infer_minor, _infer_short_period, _infer_semi_diurnal, _infer_diurnal, _infer_long_period"]}
{"id": "C26", "title": "Linear admittance interpolation passes through the major constituents", "statement": "The interpolated admittance equals the given admittance at each pivot frequency, is continuous, and stays between neighbouring admittances inside the band.", "quantifier": "all admittances and all frequencies", "why_tests_cant": "Piecewise formula with branch selection.", "anchors": ["pyTMD/predict.py: _infer_semi_diurnal, _infer_diurnal, _infer_long_period"]}
{"id": "C27", "title": "Inference always yields an array that can be added to the prediction", "statement": "Inferring minor constituents always returns one value per prediction with a mask, so that elevation and current predictions with inference enabled never fail for models with few major constituents.", "quantifier": "all constituent lists", "why_tests_cant": "The failing path needs a model without enough constituents in any of the bands.", "anchors": ["pyTMD/predict.py: infer_minor", "pyTMD/compute.py: tide_elevations, tide_currents"]}
{"id": "C28", "title": "Nodal corrections are computed independently for each constituent and compose for compound tides", "statement": "The nodal factor and angle of a constituent do not depend on which other constituents are requested or their order; the factor of a compound tide is the product, and its angle the corresponding signed sum, of those of its parents; recursion always terminates and unknown constituents get factor one and angle zero.", "quantifier": "all constituent lists and all astronomical longitudes", "why_tests_cant": "Two hundred names and a long branch chain with membership tests; continuous arguments.", "anchors": ["pyTMD/arguments.py: nodal"]}
{"id": "C29", "title": "The minor-constituent factor and angle are modulus and argument of one nodal modulation", "statement": "For each minor constituent the factor f and the angle u returned by the minor-argument routine are the modulus and argument of the same complex nodal modulation.", "quantifier": "all values of the ascending node", "why_tests_cant": "f and u are written out separately; a sin/cos slip changes values by a few percent only.", "anchors": ["pyTMD/arguments.py: minor_arguments"]}
{"id": "C30", "title": "Nodal corrections are periodic in the astronomical longitudes", "statement": "Nodal corrections are unchanged when the lunar perigee or the node longitude increases by 360 degrees.", "quantifier": "all longitudes, all constituents and correction types", "why_tests_cant": "Needs to hold for all real longitudes.", "anchors": ["pyTMD/arguments.py: nodal, minor_arguments"]}
{"id": "C31", "title": "The long-period equilibrium tide has the latitude dependence of a zonal degree-2 tide", "statement": "The equilibrium tide is symmetric about the equator, vanishes at the latitudes where 3 sin^2(lat) = 1 and is additive over disjoint sets of requested constituents; unknown names contribute nothing; its magnitude is bounded for all times.", "quantifier": "all times, latitudes and constituent subsets", "why_tests_cant": "All times and all subsets of 15 constituents.", "anchors": ["pyTMD/predict.py: equilibrium_tide"]}
{"id": "C32", "title": "Local east-north-up coordinates convert back to geocentric coordinates", "statement": "Converting Cartesian coordinates to local east-north-up coordinates and back returns the original coordinates, and distances are preserved.", "quantifier": "all points, reference longitudes, latitudes and heights", "why_tests_cant": "Continuous identity; sign errors cancel at special points.", "anchors": ["pyTMD/spatial.py: to_ENU, from_ENU, to_horizontal, to_zenith"]}
{"id": "C33", "title": "Geodetic coordinates convert to points on the ellipsoid, and the iterative inverses are exact at their fixed points", "statement": "Geodetic coordinates with height zero convert to points satisfying the ellipsoid equation; spherical conversion is an exact inverse; and the true geodetic latitude and height are a fixed point of each iterative inverse, so iteration stops there.", "quantifier": "all ellipsoids, longitudes, latitudes and heights", "why_tests_cant": "Continuous identities and fixed points.", "anchors": ["pyTMD/spatial.py: to_cartesian, to_sphere, to_geodetic, _moritz_iterative, _bowring_iterative"]}
{"id": "C34", "title": "Degree-minute-second conversion loses nothing", "statement": "Converting decimal degrees to degrees, minutes and seconds and back returns the original value.", "quantifier": "all real angles", "why_tests_cant": "Fails only for magnitudes below one degree.", "anchors": ["pyTMD/spatial.py: to_dms, from_dms"]}
{"id": "C35", "title": "Geodetic conversion of a point does not depend on the other points in the request", "statement": "The closed-form conversion from Cartesian to geodetic coordinates gives a point the same result whether it is converted alone or together with other points.", "quantifier": "all batches of points", "why_tests_cant": "The failing batch mixes a polar point with others.", "anchors": ["pyTMD/spatial.py: _zhu_closed_form, _bowring_iterative, _moritz_iterative"]}
{"id": "C36", "title": "Conversion between identical ellipsoids changes nothing, and height differences are antisymmetric", "statement": "Converting heights between identical ellipsoids returns the same latitude and height; the approximate height difference between two ellipsoids changes sign when they are exchanged; longitudes wrapped to a convention stay congruent modulo 360 and inside the convention's range.", "quantifier": "all ellipsoids, latitudes, heights and longitudes", "why_tests_cant": "Continuous domain.", "anchors": ["pyTMD/spatial.py: convert_ellipsoid, compute_delta_h, wrap_longitudes"]}
{"id": "C37", "title": "Geodetic datum parameters are consistent and independent of the unit system", "statement": "For every ellipsoid, dimensionless parameters are the same in CGS and MKS units and dimensional ones scale by the correct power; polar axis, eccentricities, radii and volume satisfy their defining identities.", "quantifier": "all ellipsoids, including user-defined ones", "why_tests_cant": "Identities in the two defining parameters.", "anchors": ["pyTMD/crs.py: datum"]}
{"id": "C38", "title": "Named ellipsoids carry their published constants and derived constants follow their definitions", "statement": "Each named datum has the published semi-major axis and flattening, user-defined parameters take effect, and the normal-gravity constant k is (b gamma_b)/(a gamma_a) - 1.", "quantifier": "all named datums; all ellipsoid parameters", "why_tests_cant": "The value is plausible and close to correct, so only a comparison with the definition over all parameters shows it.", "anchors": ["pyTMD/crs.py: datum.__init__, datum.dk"]}
{"id": "C39", "title": "The solid Earth tide is the degree-2 and degree-3 response of Mathews et al.", "statement": "The in-phase displacement equals h(radial) and l(tangential) Love-number responses to degree 2 and 3 potentials, is linear in the mass ratios, and rotating station, Sun and Moon together about the Earth's axis rotates the displacement.", "quantifier": "all station, Sun and Moon positions", "why_tests_cant": "Vector identities over all geometries.", "anchors": ["pyTMD/predict.py: solid_earth_tide, _out_of_phase_diurnal, _out_of_phase_semidiurnal, _latitude_dependence"]}
{"id": "C40", "title": "Solid-Earth-tide corrections have the stated direction and the mean-tide option is a fixed offset", "statement": "The latitude-dependence correction is purely horizontal; the other corrections have exactly the radial, north and east components they were computed from; selecting the mean-tide system adds an offset that does not depend on time, Sun or Moon and whose components depend on latitude only.", "quantifier": "all station, Sun and Moon positions and times", "why_tests_cant": "Vector identities over all geometries.", "anchors": ["pyTMD/predict.py: _latitude_dependence, _frequency_dependence_diurnal, _frequency_dependence_long_period, _free_to_mean"]}
{"id": "C41", "title": "Pole tide displacements are linear in polar motion and vanish with it", "statement": "Load and ocean pole tide displacements are linear in the polar motion offset, zero when the pole coincides with the secular pole, and the load tide has the radial, latitude and longitude components of the IERS formula.", "quantifier": "all stations and polar motion offsets", "why_tests_cant": "Continuous identities.", "anchors": ["pyTMD/predict.py: load_pole_tide, ocean_pole_tide"]}
{"id": "C42", "title": "Grid, drift and time-series requests of a solid Earth tide agree", "statement": "Solid-Earth-tide displacements for a location and time are the same whether requested as a grid, a drift track or a time series.", "quantifier": "all locations, times and shapes", "why_tests_cant": "Relational property; a one-day shift changes results by millimetres.", "anchors": ["pyTMD/compute.py: SET_displacements"]}
{"id": "C43", "title": "Request type keywords that pass validation select a prediction", "statement": "Whenever the TYPE keyword passes validation (which ignores case) the corresponding computation is carried out and a result returned.", "quantifier": "all strings for TYPE, all correction functions", "why_tests_cant": "Validation and branches use different comparisons.", "anchors": ["pyTMD/compute.py: LPET_elevations, LPT_displacements, OPT_displacements, SET_displacements, corrections"]}
{"id": "C44", "title": "Extracting constants from a model leaves the model unchanged and labels every column", "statement": "Extracting constants returns as many constituent names as data columns, in order, however many times it has been called before and whether or not the node tide is appended.", "quantifier": "all sequences of extraction calls on one model object", "why_tests_cant": "Needs two calls on the same object.", "anchors": ["pyTMD/io/model.py: model.extract_constants, node_equilibrium"]}
{"id": "C45", "title": "The model files read for currents are those of the requested component", "statement": "For current models, extracting the u or v component reads the files listed for that component.", "quantifier": "all model formats and components", "why_tests_cant": "Decision table over formats and types.", "anchors": ["pyTMD/io/model.py: model.extract_constants, read_constants"]}
{"id": "C46", "title": "ASCII model grids are read completely and in order", "statement": "Reading a GOT or FES ascii grid returns the amplitude and phase of every cell of the grid as laid out in the file.", "quantifier": "all grid sizes", "why_tests_cant": "Block structure with remainders; failing sizes are multiples of or smaller than the block length.", "anchors": ["pyTMD/io/GOT.py: read_ascii_file", "pyTMD/io/FES.py: read_ascii_file"]}
{"id": "C47", "title": "Constants written to FES and GOT files read back as the same complex field", "statement": "Writing a complex constituent field in amplitude and phase form and reading it back returns the same complex values and mask.", "quantifier": "all complex fields and masks, all variable types", "why_tests_cant": "Zeros and types are special cases.", "anchors": ["pyTMD/io/FES.py: output_netcdf_file, read_netcdf_file", "pyTMD/io/GOT.py: output_netcdf_file, read_netcdf_file"]}
{"id": "C48", "title": "Velocity-node masks and depths are consistent with the elevation grid", "statement": "A velocity node is wet exactly when both adjacent elevation nodes are wet, and its depth is their mean, with the wrap-around neighbour used only for global grids.", "quantifier": "all masks and depths, global and regional grids", "why_tests_cant": "First-column behaviour for regional grids.", "anchors": ["pyTMD/io/OTIS.py: _mask_nodes, _interpolate_mask, _interpolate_zeta"]}
{"id": "C49", "title": "Roman numerals convert to the number they denote", "statement": "Converting the standard Roman numeral of any positive integer gives that integer.", "quantifier": "all positive integers (numerals with any number of leading m)", "why_tests_cant": "Unbounded set of numerals.", "anchors": ["pyTMD/utilities.py: roman_to_int, even, ceil"]}
{"id": "C50", "title": "Compound tides in the coefficient table have the coefficients of their parents", "statement": "The tabulated coefficients of each compound tide are the sums of those of its parents, and the tabulated tidal arguments of different constituents do not collide except for listed synonyms.", "quantifier": "all entries of the coefficient table", "why_tests_cant": "A data-wide consistency statement.", "anchors": ["pyTMD/data/doodson.json", "pyTMD/arguments.py: coefficients_table, _arguments_table"]}
{"id": "C51", "title": "Spherical harmonics have their mathematical values", "statement": "The spherical harmonic routine returns the orthonormal complex spherical harmonic with the Condon-Shortley phase for every degree up to 3, order, colatitude and longitude.", "quantifier": "all degrees, orders and points on the sphere", "why_tests_cant": "A statement about a function of two real variables; sampling points on the equator cannot see an error that vanishes there.", "anchors": ["pyTMD/math.py: sph_harm"]}
{"id": "C52", "title": "Polynomials in time are evaluated as written", "statement": "Evaluating a polynomial from its list of coefficients gives the same value as Horner's rule, for any number of coefficients and any time.", "quantifier": "all coefficient lists and times", "why_tests_cant": "Unbounded number of coefficients.", "anchors": ["pyTMD/math.py: polynomial_sum"]}
{"id": "C53", "title": "Tidal arguments advance at the reported frequencies", "statement": "The tidal arguments exist for exactly the lists of constituents of the coefficient table. Between two times the phase of each constituent advances, up to whole cycles, by the frequency reported for it times the time elapsed: exactly with the OTIS, ATLAS, TMD3 and netcdf corrections, and within a quarter of a degree per century for times within a century of 2000 with the others. Every frequency is positive but those of the node tide and the constant, and lies in the band of its species.", "quantifier": "every list of constituents, pair of times, difference of dynamic and universal time, and type of corrections", "why_tests_cant": "tests compare the arguments with tables at a few dates; a wrong longitude rate or wrap shows only between dates", "anchors": ["pyTMD/arguments.py: arguments", "pyTMD/arguments.py: coefficients_table", "pyTMD/arguments.py: frequency", "pyTMD/astro.py: mean_longitudes"]}
{"id": "C54", "title": "The equilibrium tide, the tidal arguments and the node constants describe the same tides", "statement": "Each of the fifteen equilibrium terms is a term of the Cartwright-Edden table shipped with the package, with its amplitude to 0.03 mm, and no non-constant long-period term above 2.1 mm is left out. For each named term the equilibrium tide is a fixed amplitude times the cosine of the tidal argument of that constituent, at all times and for all types of corrections. The constants that stand in for the node tide predict the equilibrium node tide.", "quantifier": "all terms, times, latitudes and types of corrections", "why_tests_cant": "tests compare a few epochs with tolerances above the smaller terms; two encodings of the same constituent drift apart only over the 18.6 year nodal period", "anchors": ["pyTMD/predict.py: equilibrium_tide", "pyTMD/arguments.py: arguments", "pyTMD/data/doodson.json", "pyTMD/data/ce1973_tab1.txt", "pyTMD/io/model.py: node_equilibrium"]}
{"id": "C55", "title": "Tabulated constituent phases and frequencies track the tidal arguments", "statement": "For every constituent with tabulated parameters, phase plus frequency times time since 1992 stays with the tidal argument of that constituent up to whole cycles, within a tenth of a microradian at the epoch and 0.204 nanoradians per second away from it, and the species is the multiple of mean lunar time; names are matched without regard to case. Constituents predicted with OTIS corrections advance at their own frequency.", "quantifier": "all constituents and all times", "why_tests_cant": "tests predict near the epoch of test data and with the constituents of a few models", "anchors": ["pyTMD/arguments.py: _constituent_parameters", "pyTMD/arguments.py: arguments", "pyTMD/predict.py: map", "pyTMD/predict.py: drift", "pyTMD/predict.py: time_series"]}
{"id": "C56", "title": "Polar stereographic scale factors", "statement": "The scale factor is 1 at the latitude of true scale in either hemisphere, positive everywhere, equal in both hemispheres, the area factor is the square of the distance factor, the value at the pole is the limit of the values approaching it, and on a sphere it is the inverse scale of the projection.", "quantifier": "every latitude, reference latitude and oblate ellipsoid", "why_tests_cant": "The pole is a removable singularity and the formula for it is separate code; equality with the limit is a statement about all nearby latitudes.", "anchors": ["pyTMD/spatial.py: scale_factors"]}
{"id": "C57", "title": "Classification of data", "statement": "The kind of data found from the sizes of the coordinates is: time series for a single location, drift for as many locations as times, grid otherwise, and an error only when it cannot be told.", "quantifier": "every combination of sizes and dimensions", "why_tests_cant": "Sizes are unbounded and the branches overlap; the square grid case is easy to miss.", "anchors": ["pyTMD/spatial.py: data_type"]}
{"id": "C58", "title": "Pole tide requests of every kind agree", "statement": "For load and for ocean pole tides, a grid, a drift and a time series request that contain the same location and time give the same radial displacement there: the displacement obtained from the polar motion interpolated at that time and the location's own latitude and longitude, whatever the other locations and times of the request.", "quantifier": "all locations, times, shapes of grids, lengths of batches, polar motion series, ellipsoids and conventions", "why_tests_cant": "The three kinds of request run different loops over differently shaped arrays; tests compare a few files of each kind.", "anchors": ["pyTMD/compute.py:LPT_displacements", "pyTMD/compute.py:OPT_displacements", "pyTMD/predict.py:load_pole_tide", "pyTMD/predict.py:ocean_pole_tide"]}
{"id": "C59", "title": "Computed tides agree across grids, tracks and time series", "statement": "For ocean and load elevations and for each component of a current, the value returned for a location and a time is the sum of the partial tides of that location at that time (amplitude times cosine of phase minus lag, with nodal factor) plus the inferred minor tides when asked for, or the fill value exactly when one of the location's constants is masked. It does not depend on whether the request is a grid, a track or a time series, on the other points of the request, or on the case of the TYPE keyword.", "quantifier": "all constants, masks, constituents, times, shapes of grids, lengths of batches, nodal correction types and options", "why_tests_cant": "The three kinds of request run different loops, masks and broadcasts; tests compare a few files.", "anchors": ["pyTMD/compute.py:tide_elevations", "pyTMD/compute.py:tide_currents", "pyTMD/predict.py:map", "pyTMD/predict.py:drift", "pyTMD/predict.py:time_series", "pyTMD/predict.py:infer_minor"]}
{"id": "C60", "title": "Constituent names are recognised in text wherever they stand as a word", "statement": "Parsing a file name or header for a constituent finds the name, in any case, wherever it stands as a word after text without a name; a prime after the name is kept; listed short spellings give the names they stand for; what is returned occurs in the text; texts without a name are refused. Every constituent the program has Doodson coefficients for is recognised.", "quantifier": "all texts, and all names, prefixes and suffixes", "why_tests_cant": "A regular expression of 68 alternatives with look-arounds is applied to arbitrary file names; tests try a few.", "anchors": ["pyTMD/io/constituents.py:parse", "pyTMD/io/model.py:parse_file"]}
{"id": "C61", "title": "Every model of the database can be used", "statement": "Every model listed in the database has an accepted format and what that format needs (files for its types, a grid, a projection, a scale, a known version); no name is listed twice; the file names of FES models give distinct supported constituents, the same ones in the same order for both components of a current; the accepted formats are the documented ones.", "quantifier": "all entries of the database and all format strings", "why_tests_cant": "Tests load a handful of models; the tables and the regular expression are only joined at run time.", "anchors": ["pyTMD/data/database.json", "pyTMD/io/model.py:validate_format", "pyTMD/io/model.py:parse_constituents", "pyTMD/io/model.py:corrections", "pyTMD/io/model.py:file_format"]}
{"id": "C62", "title": "Selecting a model does not depend on what the object held before", "statement": "Selecting a model of the database on a model object gives the same attributes whatever was selected on the object before, and selecting it again changes nothing.", "quantifier": "all prior states of the object, all entries, all file systems", "why_tests_cant": "Needs two selections on one object, in every combination.", "anchors": ["pyTMD/io/model.py:elevation", "pyTMD/io/model.py:current", "pyTMD/io/model.py:pathfinder", "pyTMD/io/model.py:from_dict"]}
{"id": "C63", "title": "A model written as a definition and read back is the same model", "statement": "Writing the attributes of a model as JSON and reading the definition on a new object gives back every field that was written.", "quantifier": "all models, all lists of fields, all file systems whose paths survive conversion to text", "why_tests_cant": "Tests write one elevation model of each kind.", "anchors": ["pyTMD/io/model.py:to_dict", "pyTMD/io/model.py:serialize", "pyTMD/io/model.py:from_file", "pyTMD/io/model.py:_parse_json"]}
{"id": "C64", "title": "Love numbers by frequency agree with the tabulated load factors", "statement": "The degree-2 Love numbers returned for a frequency are the constants of the semi-diurnal or long-period band outside the diurnal band whatever the Earth model, the nominal values of the Earth model at the frequency of o1, and follow the resonance of the free core nutation inside the band; the tilt factor they give agrees with the load factors tabulated for the constituents of OTIS models, and is positive and bounded at every diurnal constituent the inference uses; unknown Earth models are refused.", "quantifier": "all frequencies, Earth models, correction types and tabulated constituents", "why_tests_cant": "A continuous family of frequencies with a resonance; tests sample a few tides.", "anchors": ["pyTMD/arguments.py: _love_numbers, _constituent_parameters, frequency"]}
{"id": "C65", "title": "Admittance interpolation reproduces the pivots at their actual frequencies", "statement": "For every type of corrections the pivot constituents of each band have increasing frequencies, so the linear admittance takes exactly the values of the pivots at their frequencies; the Munk-Cartwright admittance takes them to 0.3 per cent, and reproduces a constant admittance exactly.", "quantifier": "all complex constants of the pivots, all types of corrections, all frequencies for the constant case", "why_tests_cant": "Holds for all constants, and depends on the fitted matrices being inverse to the trigonometric ones at the frequencies the library computes.", "anchors": ["pyTMD/predict.py: _infer_semi_diurnal, _infer_diurnal, _infer_long_period", "pyTMD/arguments.py: frequency"]}
{"id": "C66", "title": "Nodal factors stay positive and within their theoretical ranges", "statement": "Whatever the longitudes of the lunar node and perigee, and whatever the type of corrections, the nodal amplitude factor of every constituent name is positive, and the factors of the main constituents stay within fixed ranges around one (for instance 0.96 to 1.04 for m2, 0.79 to 1.22 for o1, 0.67 to 1.36 for k2).", "quantifier": "all longitudes of node and perigee (hence all times), all types of corrections, all constituent names", "why_tests_cant": "The factors are continuous functions of time with an 18.6-year period and an 8.85-year modulation; tests sample a few dates.", "anchors": ["pyTMD/arguments.py: nodal_modulation, nodal"]}
{"id": "C67", "title": "Interpolating constants a model object has read gives the requested type of the selected model", "statement": "When constants are interpolated through a model object, the result is that of the constituents of the requested type (elevation, zonal or meridional) of the model currently selected, whatever was read or interpolated with the object before.", "quantifier": "all sequences of selecting, reading and interpolating, all formats and types", "why_tests_cant": "The claim is about all histories of an object that caches; tests use a new object each time.", "anchors": ["pyTMD/io/model.py: read_constants, interpolate_constants"]}
{"id": "C68", "title": "ATLAS netCDF files round trip", "statement": "Bathymetry, elevation and transport constituents written to ATLAS netCDF files are read back with the same names, coordinates, numbers and masks for each type, and other types are refused.", "quantifier": "all grids, coordinates, numbers, masks and constituent names", "why_tests_cant": "Arrays of any shape with any mask; the writers and readers use different variable names for the types.", "anchors": ["pyTMD/io/ATLAS.py: output_netcdf_grid, output_netcdf_elevation, output_netcdf_transport, read_netcdf_grid, read_netcdf_elevation, read_netcdf_transport"]}
{"id": "C69", "title": "Ocean pole tide coefficients are the bilinear values of the map at every longitude", "statement": "The ocean pole tide coefficient at a point is the bilinear interpolation of the values of the file at the four nodes around it, whatever the order of the lines of the file, also across the date line, and does not depend on whether the longitude is given from 0 to 360 or from -180 to 180; the linear method gives the same values as the spline method.", "quantifier": "all maps of values, all orders of the lines, all longitudes and latitudes", "why_tests_cant": "The map is shifted and extended before interpolation; errors are at the seam and outside the extended axis, which tests on a few points do not meet.", "anchors": ["pyTMD/io/IERS.py: extract_coefficients, read_binary_file, _shift, _extend_array, _extend_matrix"]}
{"id": "C70", "title": "Extracted constants are the field of the model, anywhere on the globe", "statement": "extract_constants of GOT and FES models without cropping returns, for every point and every constituent file of a global model, the interpolation of the field in that file at the point: bilinear with method 'spline' and 'linear' (masked next to land), the weighted mean of the valid surrounding nodes or the value of a node next to the point with 'bilinear'. The answer does not depend on how the longitude is written, on the other points of the batch, or on the number and the longitude conventions of the files, and it is continuous across the seam of the grid.", "quantifier": "all global grids (any number of columns from 3, any increasing latitudes, first longitude in the first step of 0..360 or -180..180), all fields with any land mask, all batches of points, all sequences of files", "why_tests_cant": "The test files are a handful of models; seams, land masks, mixed conventions and orders of files cannot be enumerated.", "anchors": ["pyTMD/io/GOT.py:extract_constants", "pyTMD/io/FES.py:extract_constants", "pyTMD/io/GOT.py:_extend_array", "pyTMD/io/FES.py:_extend_matrix", "pyTMD/interpolate.py:bilinear", "pyTMD/interpolate.py:spline", "pyTMD/interpolate.py:regulargrid"]}
{"id": "C71", "title": "Stored constants interpolate like extracted ones", "statement": "Reading the constituents of a GOT or FES model first and interpolating them afterwards (read_constants, interpolate_constants) gives the same constants as extract_constants for every batch of points.", "quantifier": "all global grids, fields, lists of files with the same axes, batches of points", "why_tests_cant": "The two code paths differ in the order of extension and convention change; tests compare them at a few points in one convention.", "anchors": ["pyTMD/io/GOT.py:read_constants", "pyTMD/io/GOT.py:interpolate_constants", "pyTMD/io/FES.py:read_constants", "pyTMD/io/FES.py:interpolate_constants"]}
{"id": "C72", "title": "Cropping does not change the constants", "statement": "extract_constants of GOT and FES models with crop=True returns the same constants as without cropping.", "quantifier": "all global grids of 4 to 100000 columns, fields, batches of points, buffers of at least a step, lists of files in any convention", "why_tests_cant": "Whether a point lies near the cut depends on grid, convention, bounds and buffer together.", "anchors": ["pyTMD/io/GOT.py:extract_constants", "pyTMD/io/FES.py:extract_constants", "pyTMD/io/GOT.py:_crop", "pyTMD/io/GOT.py:_shift", "pyTMD/io/FES.py:_crop", "pyTMD/io/FES.py:_shift"]}
{"id": "C73", "title": "OTIS constants are the field in the files at the points of their own grid", "statement": "extract_constants of an OTIS model returns at every place the interpolation of the field in the files: elevations at the elevation points, zonal and meridional currents half a step west and south of them, masked next to land and outside the model, and velocities are transports divided by the depth interpolated at the same place.", "quantifier": "all grids (global in both conventions, regional, projected), depths, fields, quantities, methods, batches of places", "why_tests_cant": "The staggered grids, the extension around the globe, the adjustment of longitudes and the masks of depth and field interact; tests compare a few points of two models with files.", "anchors": ["pyTMD/io/OTIS.py:extract_constants", "pyTMD/io/OTIS.py:_mask_nodes", "pyTMD/io/OTIS.py:_interpolate_zeta", "pyTMD/io/OTIS.py:_extend_matrix"]}
{"id": "C74", "title": "Stored OTIS constants interpolate like extracted ones", "statement": "Reading an OTIS model with read_constants and interpolating it with interpolate_constants gives the interpolation of the field in the files for every batch of places, and the same as extract_constants.", "quantifier": "all global grids, depths, fields, quantities, batches of places", "why_tests_cant": "The two paths adjust longitudes against different axes and treat masks differently; tests compare them at a few points.", "anchors": ["pyTMD/io/OTIS.py:read_constants", "pyTMD/io/OTIS.py:interpolate_constants", "pyTMD/io/OTIS.py:extract_constants"]}
{"id": "C75", "title": "Constants of ATLAS netCDF models are the field in the files and currents are transports over the depth", "statement": "extract_constants of an ATLAS model in netCDF files returns at every place of a global model the interpolated depth and, for every constituent, the interpolation of the field at that place, masked where the depth is zero; velocities are the transports divided by the interpolated depth. The result does not depend on how longitudes are written or on cropping.", "quantifier": "all global grids in both conventions of longitude, depths, lists of constituents, methods, batches of places, requests with and without cropping and extrapolation", "why_tests_cant": "The mask comes from one file and the field from another; cropping, the extension around the globe and the change of convention are done for both separately.", "anchors": ["pyTMD/io/ATLAS.py:extract_constants", "pyTMD/io/ATLAS.py:_crop", "pyTMD/io/ATLAS.py:_extend_matrix", "pyTMD/interpolate.py:bilinear"]}
{"id": "C76", "title": "An object with ATLAS constants gives the same as extraction, whatever it was used for before", "statement": "Reading an ATLAS model with read_constants and interpolating it any number of times with interpolate_constants gives each time the interpolation of the field in the files, the same as extract_constants.", "quantifier": "all global grids, depths, lists of constituents, batches of places, histories of uses of the object with any methods and quantities", "why_tests_cant": "The object is shared between calls; a call that changes it can only be seen in a later one with other arguments.", "anchors": ["pyTMD/io/ATLAS.py:read_constants", "pyTMD/io/ATLAS.py:interpolate_constants", "pyTMD/io/ATLAS.py:extract_constants"]}
{"id": "C77", "title": "Predicted tides are the tides of the model's field at the place", "statement": "tide_elevations (and a component of tide_currents) without cropping and extrapolation returns, for a grid, a track or stations, the sum over the constituents of nodal factor times the real part of the complex constant in the files interpolated at the place, times the unit vector of the constituent's phase; a place has no value exactly if a constituent has none there.", "quantifier": "all GOT, FES, ATLAS-netCDF and OTIS models, numbers of constituents, batches of places and times, methods of interpolation, corrections and lists of minor constituents", "why_tests_cant": "Composes reading, conversion of longitudes, interpolation, amplitude and phase form, transposition of files and points, and prediction; tests sample a few places of one model.", "anchors": ["pyTMD/compute.py: tide_elevations, tide_currents", "pyTMD/io/model.py: extract_constants", "pyTMD/io/GOT.py: extract_constants", "pyTMD/io/FES.py: extract_constants", "pyTMD/io/ATLAS.py: extract_constants", "pyTMD/io/OTIS.py: extract_constants"]}
{"id": "C78", "title": "Approximate positions of sun and moon", "statement": "solar_ecef and lunar_ecef with the default ephemerides return, for every time, the positions given by the published low-precision series (Montenbruck and Gill 2000, equations 3.43 to 3.50) turned from the mean ecliptic to the equator and by the Greenwich hour angle. The distance of the sun stays between 147.0 and 152.2 million kilometres and that of the moon between 356 and 408 thousand kilometres, the declinations stay within those of the orbits, and a change of the hour angle only turns the position about the axis. Names of ephemerides are accepted whatever their case and other names are refused.", "quantifier": "all times, hour angles and names of ephemerides", "why_tests_cant": "Tests compare a handful of epochs with another program with a tolerance of thousands of kilometres; a wrong sign of one of the eighteen terms stays below it, and the ranges must hold at every epoch.", "anchors": ["pyTMD/astro.py:solar_ecef", "pyTMD/astro.py:solar_approximate", "pyTMD/astro.py:lunar_ecef", "pyTMD/astro.py:lunar_approximate"]}
{"id": "C79", "title": "Rotation from celestial to terrestrial coordinates", "statement": "The Delaunay arguments are angles between zero and a turn, are the same wherever they are computed and agree with the mean longitudes of the tidal arguments. Nutation and the equation of the equinoxes are the sums of the IERS tables for the arguments of sun, moon and planets and stay below the sums of amplitudes. Sidereal time is the apparent sidereal time as a fraction of a turn. The matrix returned by itrs is a proper rotation, whatever the time, and moves the pole of date daily around the terrestrial pole.", "quantifier": "all times, pole coordinates, sidereal times and nutation angles", "why_tests_cant": "Tests compare one or two epochs with a loose tolerance; the tables have more than two thousand rows and errors of microarcseconds to arcseconds are not seen, nor whether the matrix stays orthogonal.", "anchors": ["pyTMD/astro.py:delaunay_arguments", "pyTMD/astro.py:mean_obliquity", "pyTMD/astro.py:gast", "pyTMD/astro.py:itrs", "pyTMD/astro.py:_eqeq_complement", "pyTMD/astro.py:_nutation_angles", "pyTMD/data/tab5.3a.txt"]}
{"id": "C80", "title": "Masks of the domain of a model", "statement": "tide_masks returns for every point whether the model has data there: a point is valid exactly if it lies in the grid and a point of the grid with a value counts in the interpolation there, so wherever extract_constants returns a constant the point is valid. This holds for all formats of models, methods and shapes of the points.", "quantifier": "all grids and masks, batches of points, methods of interpolation, formats, shapes of the input", "why_tests_cant": "The mask is interpolated on its own, without the extension around the globe and the change of longitudes of the extraction; where they differ depends on grid, mask and place together.", "anchors": ["pyTMD/compute.py:tide_masks"]}
{"id": "C81", "title": "Numbers of constituents", "statement": "doodson_number returns for every constituent of the table of coefficients, in whatever case it is written, the Cartwright, Doodson or extended Doodson number that its multiples have in print; other names raise ValueError or give None. For a list it returns a dictionary with the number of each constituent alone. Constituents with the same number have the same frequency, and constituents with the same frequency have the same number. The lists of numbers of a set of constituents agree with it.", "quantifier": "all names, lists of names, formalisms, types of corrections, constituents of the table", "why_tests_cant": "The table has 483 constituents; the digits and letters run out for some of them, and whether numbers are unique is a statement about all pairs.", "anchors": ["pyTMD/arguments.py:doodson_number", "pyTMD/arguments.py:coefficients_table", "pyTMD/arguments.py:frequency", "pyTMD/io/constituents.py:doodson_number", "pyTMD/io/constituents.py:cartwright_number", "pyTMD/io/constituents.py:extended_doodson"]}
{"id": "C82", "title": "Reading the grid of an ATLAS-compact model", "statement": "Reading the grid file of an ATLAS-compact model returns the depths, both masks, open boundary, limits and time step of the global grid and every local grid in the order of the file, each with its own title, limits and depths at its own wet cells, whatever the number and sizes of the local grids and whether or not there is an open boundary.", "quantifier": "all grid files in the layout of Fortran records, any number and sizes of local grids", "why_tests_cant": "A test reads one or two files; every count in the file moves the position of everything behind it.", "anchors": ["pyTMD/io/OTIS.py:read_atlas_grid"]}
{"id": "C83", "title": "Combining local and global solutions", "statement": "Combining an ATLAS-compact model gives a grid of 2 arc-minutes over the globe on which every cell shows the value of the last local solution with a wet node in it and the bilinear interpolation of the global solution where there is none; the mask has a cell in the sea if a local solution has a depth in it or the nearest node of the global solution is in the sea.", "quantifier": "all global solutions and all lists of local solutions anywhere on the globe, in any convention for longitudes, overlapping or not; every cell of the combined grid", "why_tests_cant": "The result has 58 million cells and depends on the order of the local solutions, the convention of their longitudes and rounding of limits.", "anchors": ["pyTMD/io/OTIS.py:combine_atlas_model", "pyTMD/io/OTIS.py:interpolate_atlas_model", "pyTMD/io/OTIS.py:create_atlas_mask"]}
{"id": "C84", "title": "Constants extracted from ATLAS-compact models", "statement": "Harmonic constants and depths extracted at a place from an ATLAS-compact model are those of the combined solutions there: the bilinear interpolation between the points of the fine grid, masked next to land, for elevations, transports and velocities, at every longitude in either convention.", "quantifier": "all models, constituents, quantities and places", "why_tests_cant": "Only a file of hundreds of megabytes exercises the path, and a test sees a few places.", "anchors": ["pyTMD/io/OTIS.py:extract_constants", "pyTMD/io/OTIS.py:combine_atlas_model"]}
{"id": "C85", "title": "Constants of TMD3 files", "statement": "Elevations extracted from a consolidated TMD3 netCDF file are the constants in the file at that place, whatever the orientation of its rows: the returned complex constant is the bilinear value of the conjugate of the numbers in the file (so that the phase lag is the argument of the numbers), multiplied with the percentage of flexure if asked for and masked where that is 0. Depths are the water column thickness there, and the columns carry the names of the file in their order. Currents are the transports in the file at their coordinates.", "quantifier": "all files with axes in order (regional or global), all constituents, places inside the grid, methods spline, linear and bilinear, with and without flexure", "why_tests_cant": "Test files are not part of the repository, and a flipped or conjugated field looks as plausible as the right one at sampled points.", "anchors": ["pyTMD/io/OTIS.py: read_netcdf_grid, read_netcdf_file, read_constituents, extract_constants"]}
{"id": "C86", "title": "Amplitudes and phases of a container of constituents", "statement": "After any sequence of calls on a container of constituents, the amplitude and the phase asked for by name are those of the constants it holds under that name at that moment: the tide of a cell with constant z is amplitude times cos(argument - phase) at every argument, the amplitude is not negative and the phase is at least 0 and below 360 degrees; masked cells stay masked and hold the fill value, the shape is kept, and together they determine the constants. A name that is not held raises an error; the shape of the container is that of its first constituent, or None when it is empty.", "quantifier": "all histories of calls, all names, shapes and constants, masked or not", "why_tests_cant": "Quadrant and sign errors, stale values after update or pop, and cells under a mask need every constant and every history, not a few sampled arrays.", "anchors": ["pyTMD/io/constituents.py:constituents.amplitude, phase, shape"]}
{"id": "C87", "title": "Models available by name", "statement": "With any number of additional databases, a model of any of the files can be selected by its name, and of models with the same name the one of the last file is used; other names raise ValueError. The lists of models (ocean, load, currents, by format) are in order, without repetitions, and have exactly the models of that kind; in the database of the package every elevation model is in exactly one list by variable and one by format and can be selected.", "quantifier": "all databases, lists of additional databases and names", "why_tests_cant": "Unit tests load the package database only; what an additional database takes away depends on every combination of sections and names.", "anchors": ["pyTMD/io/model.py:load_database, DataBase, model.elevation, model.current, model.formats, ocean_elevation, load_elevation, ocean_current, OTIS, ATLAS_compact, TMD3, ATLAS, GOT, FES"]}
{"id": "C88", "title": "Tables written as text read back", "statement": "A table written with to_file(format='ascii') and read with from_file(format='ascii') gives the same columns with the same numbers in the same order, for any number of rows and columns and any delimiter that does not occur in the numbers, whether all columns are asked for or only the first ones. It also does so with the YAML header, when the header is read as it was written, unless the column 'data' has a fill value: then the file that was written cannot be read (TypeError). Missing columns and columns of different lengths are refused.", "quantifier": "all tables (names, numbers, numbers of rows and columns), delimiters, ways of writing and reading numbers that are inverse to each other, attributes and header texts without line breaks and '#'", "why_tests_cant": "tests compare two small files, and the comparison in the test suite is np.all of a generator, which is true whatever the file contains; no test has a fill value in the header", "anchors": ["pyTMD/spatial.py:to_ascii", "pyTMD/spatial.py:from_ascii"]}
{"id": "C89", "title": "Spatial data in netCDF4 files come back", "statement": "Drift data, grids and time series written with to_file(format='netCDF4') and read with from_file(format='netCDF4') give, under any field mapping, arrays with the same shapes, masks and values and the same attributes, for all sizes. The axes of a grid have the dimensions of their names. Writing changes nothing of the caller's. (The last two are false: in square grids x has the dimension y, and writing takes the fill values out of the caller's attributes, so that a second file has none. Also axes with a fill value cannot be written, and an unknown type of data writes an empty file.)", "quantifier": "all outputs whose shapes agree with their type of data, all attributes whose names are clear to the reader, all values other than the fill value, all field mappings; sequences of two writes", "why_tests_cant": "tests write one file of random data of one type once and compare with np.all of a generator, which is always true; masks, square grids and second writes are not tried", "anchors": ["pyTMD/spatial.py:to_netCDF4", "pyTMD/spatial.py:_drift_netCDF4", "pyTMD/spatial.py:_grid_netCDF4", "pyTMD/spatial.py:_time_series_netCDF4", "pyTMD/spatial.py:from_netCDF4"]}
{"id": "C90", "title": "Spatial data in HDF5 files come back", "statement": "Arrays written with to_file(format='HDF5') and read with from_file(format='HDF5') have the same shapes and values and the same attributes. (False of masks and fill values: what was masked is read as a number because the fill value is stored where the reader does not look. False of scalars: the value is not written. False of datasets that exist in the file: with attributes the writer raises KeyError.)", "quantifier": "all outputs with attributes, all field mappings, all existing files for the appending mode", "why_tests_cant": "tests write unmasked arrays to a new file and compare with np.all of a generator, which is always true", "anchors": ["pyTMD/spatial.py:to_HDF5", "pyTMD/spatial.py:from_HDF5"]}
{"id": "C91", "title": "Geotiff images stay in place", "statement": "from_file(format='GTiff') gives each pixel the coordinates of its centre; an image that is read and written with to_file is the same image; a part of an image read within bounds is the image of those pixels in the same places, and it has every pixel inside the bounds; the extent that is returned, given as bounds, returns the whole image. (False: a fill value of zero is ignored and lost; an image of several bands is written with its axes exchanged; bounds that are the edges of the image are refused; with bounds across pixels a pixel with its centre inside can be missed.)", "quantifier": "all images with one or several bands, all sizes, geotransforms without rotation, values and fill values, all bounds inside the image", "why_tests_cant": "tests write one image and compare with np.all of a generator; bounds are not tried", "anchors": ["pyTMD/spatial.py:from_geotiff", "pyTMD/spatial.py:to_geotiff", "pyTMD/spatial.py:expand_dims"]}
{"id": "C92", "title": "Input files and variables are found", "statement": "A file that exists is used under its name; otherwise a file of the directory with the same name in other letters, and FileNotFoundError when there is none. default_field_mapping assigns time, y, x and data in order and inverse_mapping inverts it. Readers without a mapping use the names that are given. (False: another file of the directory that begins like the name can be used, and an empty dictionary that is passed twice keeps the names of the first file.)", "quantifier": "all directories and names of files (full stops as any character, no other special characters), all lists of variables, all mappings with different names, sequences of two reads", "why_tests_cant": "tests use one directory with one file, and default mappings once", "anchors": ["pyTMD/spatial.py:case_insensitive_filename", "pyTMD/spatial.py:default_field_mapping", "pyTMD/spatial.py:inverse_mapping", "pyTMD/spatial.py:from_netCDF4", "pyTMD/spatial.py:from_HDF5"]}
{"id": "C93", "title": "A regional file has the nodes of the model within the bounds", "statement": "The script reduce_OTIS_files.py writes a grid file that, when it is read again, has exactly the nodes of the model within the bounds, in the same places and with the same depths, time step and open boundary; it never overwrites a file; and it cuts the files of constituents in the same way. (False: the mask of the new file is made of depths; a region at negative x is displaced by 360 also when x is in kilometres; the open boundary keeps the node numbers of the old grid; western longitudes find nothing in a model with longitudes from 0 to 360; all longitudes about a pole give nothing; and no file of constituents is ever written, because the script ends with a KeyError.)", "quantifier": "all evenly spaced grids, bounds, projections, depths, masks and boundaries; all sets of existing files and all names", "why_tests_cant": "tests do not run the script; the claims range over all grids, bounds and directories", "anchors": ["scripts/reduce_OTIS_files.py: make_regional_OTIS_files, create_unique_filename", "pyTMD/io/OTIS.py: read_otis_grid, output_otis_grid"]}
{"id": "C94", "title": "A conversion of coordinates depends only on its arguments, and backward undoes forward", "statement": "crs().convert gives the transformation between the two named systems in the direction named by the first letter of its argument, whatever was done before with the object; other letters are refused; converting forward and then backward returns the points. A projection is found as pyproj takes it, as an EPSG code, or as a string, in this order. (False of get and transform: the direction of an earlier conversion stays. False of errors: a dictionary that is no system is a TypeError as system of the points.)", "quantifier": "all histories of uses of an object, all projections, directions and points; pyproj is a parameter", "why_tests_cant": "tests use new objects and two directions; histories are unbounded", "anchors": ["pyTMD/crs.py: crs.convert, crs.get, crs.transform, crs.from_input, crs.direction"]}
{"id": "C95", "title": "The program for tidal elevations is a map of the lines of a table", "statement": "For a table of text with columns time, x and y (and any others, in any order) the program compute_tidal_elevations for a track writes exactly one line for every line of the table, in the same order, that holds the time, the latitude, the longitude and the elevation that tide_elevations gives for that time and place, or the fill value; with a tide model that is asked point by point a line of the output depends only on its own line of the input, so that a table may be cut into parts. The names of columns that the program takes by default, and types that differ from the expected ones only in their letters, should work as well.", "quantifier": "all tables, delimiters, numbers of header lines, orders of columns, ways of writing numbers, tide models and corrections", "why_tests_cant": "a run on a sample table shows neither that no line is lost or exchanged for other sizes, nor that lines do not influence each other; the refuted parts concern defaults no test uses", "anchors": ["scripts/compute_tidal_elevations.py:compute_tidal_elevations", "scripts/compute_tidal_elevations.py:arguments", "pyTMD/spatial.py:from_ascii", "pyTMD/spatial.py:to_ascii", "pyTMD/compute.py:tide_elevations"]}
{"id": "C96", "title": "The programs write files that show, for every point and time, the value that is computed for it", "statement": "For netCDF4 files with coordinates x, y and time the programs for tidal elevations, load pole tides and long period tides write a file that, read again, shows the longitudes, latitudes and times of the input and for each point (in the order of the rows of a grid, of a track or of stations) and time the value that the functions of the library compute for it, masked where there is none. (False: a HDF5 file shows the fill value as a number; the program for solid Earth tides fails for every grid of more than one point; types in capital letters pass the check and give no file.)", "quantifier": "all files, names of variables, sizes of grids, tracks and series, units of time, tide models and corrections; values different from the fill values", "why_tests_cant": "a run on one file shows neither that axes are not exchanged for other sizes nor that a value belongs to its own point and time; no test runs the programs", "anchors": ["scripts/compute_tidal_elevations.py:compute_tidal_elevations", "scripts/compute_LPET_elevations.py:compute_LPET_elevations", "scripts/compute_LPT_displacements.py:compute_LPT_displacements", "scripts/compute_SET_displacements.py:compute_SET_displacements", "pyTMD/spatial.py:from_netCDF4", "pyTMD/spatial.py:to_netCDF4", "pyTMD/spatial.py:from_HDF5", "pyTMD/spatial.py:to_HDF5"]}
{"id": "C97", "title": "The formulas for the same astronomical angle agree with each other", "statement": "At every time from 1900 to 2100 the formulas of the library for the mean longitudes of moon, sun, lunar perigee, node and solar perigee (mean_longitudes with MEEUS or ASTRO5, doodson_arguments, the angles of delaunay_arguments that follow from them, and the angles that the approximate ephemerides start from) agree to a hundredth of a degree up to whole turns, and from 1990 to 2010 so do those of Cartwright; tidal arguments for OTIS and for other corrections agree to 0.16 degrees for every constituent without solar perigee. (False: Cartwright's solar perigee is off by 0.14 to 0.31 degrees; the longitude of the moon of doodson_arguments with its default keywords drifts away by 1.4 degrees in a century; the argument of S1 differs by 90 degrees.)", "quantifier": "all times of two centuries (twenty years for Cartwright's formulas), all keywords of doodson_arguments, all types of corrections, all constituents of the table", "why_tests_cant": "tests compare values at a few dates with tolerances; a wrong digit in a coefficient shows up as a drift over decades or in one of four places only", "anchors": ["pyTMD/astro.py:mean_longitudes", "pyTMD/astro.py:doodson_arguments", "pyTMD/astro.py:phase_angles", "pyTMD/astro.py:delaunay_arguments", "pyTMD/astro.py:lunar_approximate", "pyTMD/arguments.py:arguments"]}
{"id": "C98", "title": "A minor constituent is corrected alike whether it is inferred or provided", "statement": "The phase, nodal factor and nodal angle with which a minor constituent is inferred are those with which the same constituent is predicted when the model provides it, to within a stated bound on the nodal modulation: exactly for FES models, and exactly or to within three percent for most constituents of OTIS-type models. Hence the inferred tide of a constituent is the tide predicted with the inferred constant.", "quantifier": "all times, time corrections, conventions of nodal corrections, inferred constituents and major constants", "why_tests_cant": "The two sets of formulas are written out separately; they differ by sign or by a few percent only, and only at certain positions of the node.", "anchors": ["pyTMD/arguments.py: minor_arguments, _minor_table, arguments, nodal", "pyTMD/predict.py: _infer_short_period, drift"]}
{"id": "C99", "title": "The predicted tide has no jumps in time", "statement": "The tide predicted for a point is one continuous function of time: no matter which times are requested, the predictions are values of it. The reduction of longitudes to a turn, of hours to a day and of phases to a circle, the branches of inverse tangents and the tangents themselves leave no steps. The same holds for tides inferred for minor constituents.", "quantifier": "all types of nodal corrections, all lists of known constituents, all constants, all lists of times, all differences between dynamic and universal time that vary continuously; any list of requested minor constituents", "why_tests_cant": "A step only shows at the instants when an angle wraps, which can be years apart for the node and the perigee; a test compares a few hours of predictions.", "anchors": ["pyTMD/predict.py: time_series, infer_minor", "pyTMD/arguments.py: arguments, minor_arguments, nodal", "pyTMD/astro.py: mean_longitudes"]}
{"id": "C100", "title": "Files of tide models are fetched completely, once, and again when they change", "statement": "The programs that fetch GOT and FES models leave on the disk, for every file of the archive that is wanted, its bytes and its time of modification inside the given directory and touch no other file; a second run does nothing; after runs with successive versions of the archive the disk holds the last one; a run that is interrupted at any point is completed by the next run. All files of the requested model are fetched, hidden files and other formats are skipped, and compressed files are named so. (False: a file that is interrupted while it is written stays truncated for ever; currents of FES2014 are never fetched; members with absolute names are written elsewhere; with compression files with other endings are compressed under their plain name; names with an underscore as second character are skipped.)", "quantifier": "all archives, members, contents, times, states of the disk, clocks, ways of writing a file in pieces, points of interruption, histories of runs, options of the programs", "why_tests_cant": "Interruptions between any two writes and histories of versions cannot be enumerated by tests, and no test runs these programs because they need the network.", "anchors": ["scripts/gsfc_got_tides.py:gsfc_got_tides", "scripts/gsfc_got_tides.py:newer", "scripts/aviso_fes_tides.py:aviso_fes_tar", "scripts/aviso_fes_tides.py:ftp_download", "scripts/aviso_fes_tides.py:newer", "pyTMD/utilities.py:even"]}
{"id": "C101", "title": "A download that is checked by its hash repairs itself, and moving a file never loses it", "statement": "A file that is downloaded with the hash of the local file holds the bytes of the server afterwards, with the time of the server if it was written, whatever earlier downloads of any contents were interrupted at any point; no other file is touched and the bytes are returned. A file is written only if its hash differs. Copying gives the bytes and the time of the source; a file that is moved is complete at its source or at its destination at every point of interruption. (False: the time of a file that is not written again stays as it is; the old contents are lost as soon as a download starts to write.)", "quantifier": "all contents, hashes without a collision with the bytes of the server, times, states of the disk, sizes of chunks, points of interruption, numbers of failed attempts", "why_tests_cant": "The point at which a transfer stops cannot be enumerated by tests, and the functions need the network.", "anchors": ["pyTMD/utilities.py:get_hash", "pyTMD/utilities.py:copy", "pyTMD/utilities.py:from_ftp", "pyTMD/utilities.py:from_http", "pyTMD/utilities.py:from_cddis"]}
{"id": "C102", "title": "Addresses, lines of arguments and listings lose and confuse nothing", "statement": "An address is split into host and directories that give the address again when joined. The words of a line of an argument file are its arguments, without comments. A listing of a server has the names that fit the pattern, each with its own time, in the order of the server or of the names. (False: a path that begins with two slashes is never split, leading and double slashes are lost; the first part of a complete ftp address is not its host; no argument with a number sign or a space can be given; if one line of the table of a web server has no time, the following files get times of other files and sorting fails.)", "quantifier": "all addresses of a protocol or name, host and parts, all lines with any spaces and comments, all listings, patterns and total orders of names", "why_tests_cant": "Each defect needs a particular form of address or table; the tests use a few addresses of servers in working order.", "anchors": ["pyTMD/utilities.py:url_split", "pyTMD/utilities.py:convert_arg_line_to_args", "pyTMD/utilities.py:ftp_list", "pyTMD/utilities.py:http_list", "pyTMD/utilities.py:cddis_list"]}
{"id": "C103", "title": "Nodal corrections stand for the lines of the tide-generating potential", "statement": "For the astronomical constituents of each convention of corrections (OTIS, GOT, perth3, FES), the nodal factor and angle that the library returns turn the main line of the constituent into the sum of all lines of the Cartwright-Edden, Cartwright-Tayler and Doodson tables shipped with the library that differ from it only by multiples of the lunar node and perigee. The error is a small fraction of the main line, given for each constituent, whatever the longitudes of node and perigee.", "quantifier": "all conventions, all constituents of the table of bounds, all longitudes of the node and perigee, all astronomical angles", "why_tests_cant": "The corrections are written as truncated series, rounded angles or spherical trigonometry; a test compares them at a few dates with another program that copies the same formulas, not with the potential, and cannot bound the difference over the cycles of 18.6 and 8.85 years.", "anchors": ["pyTMD/arguments.py:nodal", "pyTMD/arguments.py:_parse_tide_potential_table", "pyTMD/data/ce1973_tab1.txt", "pyTMD/data/ct1971_tab5.txt", "pyTMD/data/d1921_tab.txt", "pyTMD/data/doodson.json"]}
{"id": "C104", "title": "Phases and factors of a constituent give its part of the potential at every time", "statement": "For every time, the factor, angle and phase that the library returns for an astronomical constituent give, as amplitude of the main line times factor times cosine of phase plus angle, with one sign per species, the sum of the lines of the potential that the constituent stands for, within the bound of C103: in particular the column of phases in the table of constituents agrees with the signs of the lines of the potential.", "quantifier": "all times, all conventions of corrections, all constituents of the table of bounds", "why_tests_cant": "The signs of several hundred constituents are typed by hand; a test at some dates with a model of few constituents cannot show that phases, signs and corrections of all constituents fit one potential at all times.", "anchors": ["pyTMD/arguments.py:arguments", "pyTMD/arguments.py:coefficients_table", "pyTMD/arguments.py:nodal", "pyTMD/data/doodson.json", "pyTMD/data/ce1973_tab1.txt"]}
{"id": "C105", "title": "Amplitudes of the library are those of the tide-generating potential", "statement": "The amplitudes with which the library infers minor constituents, computes long-period equilibrium tides and describes constituents are those of the lines of the tide-generating potential that belong to the constituents' arguments; an ocean with the same response to all lines of a band is therefore continued to the constituents that a model lacks, up to the error of the nodal corrections, and the equilibrium tide is the zonal potential within a centimetre.", "quantifier": "Every inferred or major constituent, every sky, every complex response, every subset of missing constituents, every time and latitude, every row of the tables.", "why_tests_cant": "A single wrong digit in one of the hundreds of decimals changes predictions by millimetres; tests compare with stored outputs of the same tables.", "anchors": ["pyTMD/predict.py:_infer_semi_diurnal", "pyTMD/predict.py:_infer_diurnal", "pyTMD/predict.py:_infer_long_period", "pyTMD/predict.py:equilibrium_tide", "pyTMD/arguments.py:_constituent_parameters", "pyTMD/data/ce1973_tab1.txt"]}
{"id": "C106", "title": "A long enough regular record determines the harmonic constants", "statement": "With OTIS, ATLAS, TMD3 or netcdf corrections, a record of tides at regular times determines the mean and the harmonic constants of its constituents, and a least squares fit with `solve.constants` returns them: 210 days of observations at most 1/16 day apart for the 14 common constituents (M2, S2, N2, K2, K1, O1, P1, Q1, 2N2, Mm, Mf, M4, MS4, MN4), a year of hourly observations for 27 constituents, 740 days of hourly observations for all tabulated constituents but M8, 740 days with steps of 1/32 day for all 33. No assumption about the design matrix is made; the nodal corrections, which change during the record, are those of the library. Constituents without tabulated parameters are not determined by any record.", "quantifier": "every selection of distinct constituents of the plan, start, step, number of observations, correction of dynamic time (changing by at most a tenth of the step between observations), mean, constants, solver and admissible bounds", "why_tests_cant": "A test fits one synthetic record; that no two sets of constants give the same record is a statement about all constants, all starts and all longer records, with nodal factors that vary with time.", "anchors": ["pyTMD/solve/constants.py:constants", "pyTMD/predict.py:time_series", "pyTMD/arguments.py:arguments", "pyTMD/arguments.py:nodal", "pyTMD/arguments.py:_constituent_parameters"]}
{"id": "C107", "title": "Functions kept under old names give what their replacements give", "statement": "After `import pyTMD`, every function kept under an old name (`pyTMD.time.*`, `pyTMD.eop.*`, `pyTMD.check_points`, `pyTMD.compute_corrections`, `pyTMD.compute_*_corrections`) does what the function does that its warning recommends, with the same arguments, result, exceptions and effects; an unknown kind of correction is refused with a ValueError.", "quantifier": "every old name, every arguments, every behaviour of the replacements and every content of the other modules", "why_tests_cant": "A test calls some of the functions with some arguments; that the replacement is what is called, whatever it does, depends on how names are bound when the modules are run, in which order, and looked up later.", "anchors": ["pyTMD/time.py", "pyTMD/eop.py", "pyTMD/check_points.py:check_points", "pyTMD/compute_tide_corrections.py", "pyTMD/__init__.py"]}
{"id": "C108", "title": "No tidal correction exceeds the size the bodies and constituents behind it allow", "statement": "For every place, every time and every kind of request: solid Earth tides computed with the approximate ephemerides (or any that keep the Sun and the Moon at their real distances) on any named ellipsoid are at most 42 cm (tide-free) or 57 cm (mean tide); load pole tides are at most 33.5 mm for each second of arc between the pole and its mean position; and a predicted ocean tide is at most the sum over its constituents of amplitude times the largest nodal factor of the constituent (the table of C66).", "quantifier": "all stations, times, ellipsoids and types of request; all positions of the pole; all harmonic constants and sets of major constituents; all types of nodal corrections", "why_tests_cant": "a test compares a few stations and days with published values; a term with the wrong power of a distance, a wrong unit in one of the correction tables or an argument that grows without bound shows only at some places or times, and outliers are what users filter for", "anchors": ["pyTMD/predict.py: solid_earth_tide", "pyTMD/predict.py: load_pole_tide", "pyTMD/predict.py: map, drift, time_series", "pyTMD/compute.py: SET_displacements", "pyTMD/compute.py: LPT_displacements", "pyTMD/astro.py: solar_approximate, lunar_approximate"]}
{"id": "C109", "title": "A model of a region answers inside the region and nowhere else", "statement": "extract_constants of a GOT, FES or ATLAS netCDF model that covers a region, and interpolation of constants read before, return at every place in the region the interpolation of the field in the file, however the longitude is written, and nothing (masked) at every place outside; a place outside does not disturb the others of the batch.", "quantifier": "all regions that fall short of a whole turn, fields with any land mask, lists of files with different regions and conventions, batches of places with longitudes between -180 and 360 degrees, methods", "why_tests_cant": "Whether a place lies in a region depends on the convention of the file, of the place and of the other places in the batch together; splines extrapolate silently.", "anchors": ["pyTMD/io/GOT.py:extract_constants", "pyTMD/io/GOT.py:interpolate_constants", "pyTMD/io/FES.py:extract_constants", "pyTMD/io/FES.py:interpolate_constants", "pyTMD/io/ATLAS.py:extract_constants", "pyTMD/io/ATLAS.py:interpolate_constants", "pyTMD/interpolate.py"]}
{"id": "C110", "title": "The program for tidal currents is a map of the lines of a table", "statement": "For a table of text with columns time, x and y (and any others, in any order) the program compute_tidal_currents for a track writes exactly one line for every line of the table, in the same order, that holds the time, the latitude, the longitude, and the eastward and the northward current that the constants of the respective component give for that time and place, or the fill value; with a tide model that is asked point by point a line depends only on its own line of the input, the eastward current only on the constants of the eastward component, and a table may be cut into parts. A grid or series of a table, and a model that gives its components in a definition file in another order or gives one of them, should work as well.", "quantifier": "all tables, delimiters, numbers of header lines, orders of columns, ways of writing numbers, models of currents and corrections", "why_tests_cant": "a run on a sample table shows neither that no line is lost and no components are exchanged for other sizes, nor that lines do not influence each other; no test runs the program", "anchors": ["scripts/compute_tidal_currents.py:compute_tidal_currents", "pyTMD/spatial.py:from_ascii", "pyTMD/spatial.py:to_ascii", "pyTMD/io/model.py:description", "pyTMD/io/model.py:long_name"]}
{"id": "C111", "title": "Cropping an OTIS model to the neighbourhood of the points does not change the constants", "statement": "extract_constants of pyTMD.io.OTIS with crop=True reads only a window of the grid around the points. At points inside a regional or projected model, or away from where a global model is cut, the constants and depths are the interpolation of the field in the files, as they are without cropping: with 'spline' and 'linear' they are the same numbers.  This holds for elevations, transports and velocities, whatever the other points of the batch are, and for points written in the convention of the model or in the other one.", "quantifier": "all grids (any size, spacing, first longitude), fields and numbers of constituents, batches of points, methods, quantities and buffers of at least two steps", "why_tests_cant": "Tests crop one model to one region.  Whether a window always holds the cells and the depths of the neighbours from which those of the current points are made, after the model has been turned to the other convention, is a statement about all grids, places and batches.", "anchors": ["pyTMD/io/OTIS.py: extract_constants, _crop, _shift, _mask_nodes, _interpolate_zeta", "pyTMD/io/OTIS.py: read_otis_grid, read_otis_elevation, read_otis_transport"]}
{"id": "C112", "title": "Extrapolated constants are those of the closest point of the model on the Earth", "statement": "With extrapolate=True the functions that extract or interpolate harmonic constants give at every point what they give without it wherever that is not masked. At every other point inside the model they give the constants at the point of the model that is closest to it in space (on the ellipsoid WGS84, or on the map for projected models), among all points of the model that have a value, also across the meridian where the file begins, and the point stays masked exactly if none is within the cutoff. This holds whatever the other points of the batch are, for elevations, transports and velocities, and does not depend on cropping.", "quantifier": "all global GOT and FES models, ATLAS and OTIS models, numbers of files and constituents, batches of points, methods, cutoffs and correct nearest-neighbour searches", "why_tests_cant": "A test compares a few coastal points of one model. That the cells passed to the search always hold every point of the sea, and that a box drawn around a batch never hides the closest one, is a statement about all grids, batches and cutoffs.", "anchors": ["pyTMD/interpolate.py:extrapolate", "pyTMD/io/GOT.py:extract_constants", "pyTMD/io/GOT.py:interpolate_constants", "pyTMD/io/FES.py:extract_constants", "pyTMD/io/FES.py:interpolate_constants", "pyTMD/io/ATLAS.py:extract_constants", "pyTMD/io/OTIS.py:extract_constants", "pyTMD/spatial.py:to_cartesian"]}
{"id": "C113", "title": "Options of a prediction", "statement": "Predicting elevations with cropping gives the same tides as without. With extrapolation, places where the model has no constant get the tide of the closest point that has one, and other places are left as they are. With append_node the equilibrium node tide is added to the prediction if the model does not have a node tide. With apply_flexure the tide is the one of the constants times the part of the tide the ice follows.", "quantifier": "all models of the formats GOT, FES, ATLAS netCDF, OTIS and TMD3, all places, times, methods of interpolation and kinds of request", "why_tests_cant": "Tests run a few options on a few models; a mistake in how an option passes through reading, interpolation and prediction shows only for particular grids, places and times", "anchors": ["pyTMD/compute.py: tide_elevations", "pyTMD/io/model.py: extract_constants, node_equilibrium", "pyTMD/io/OTIS.py: extract_constants, read_netcdf_file", "pyTMD/interpolate.py: extrapolate"]}
{"id": "C114", "title": "Predictions in floating point", "statement": "Tides that are predicted with floating point numbers are those of exact arithmetic up to rounding: in double precision, for times within a century of 1992, the error is at most a millionth of the sum of the amplitudes of the constituents, whatever the corrections and however many constituents, and the same values are masked. Longitudes stay within the circle.", "quantifier": "all constants, all lists of constituents of the table, all times within 40000 days of 1992, all types of corrections, all ways of rounding with small relative errors and all orders of summation", "why_tests_cant": "Tests compare with other programs to some digits at a few times; rounding errors of the astronomical arguments grow with time and the number of constituents and add up over whole turns", "anchors": ["pyTMD/predict.py: map, drift, time_series", "pyTMD/arguments.py: arguments", "pyTMD/astro.py: mean_longitudes", "pyTMD/math.py: polynomial_sum, normalize_angle"]}
{"id": "C115", "title": "Bilinear interpolation in floating point arithmetic", "statement": "For every grid with increasing axes and every point inside of it, bilinear interpolation carried out with rounded operations returns the stored value of a corner of the cell of the point if that corner is within numpy's tolerance (up to five units of rounding), and otherwise the mean of the valid corners, weighted with the opposite areas, with an error of at most eighteen units of rounding of the largest of these values; it gives NaN, masked values and exceptions exactly as with exact numbers.", "quantifier": "all grids, points, masks and values, and every arithmetic whose operations have a relative error of at most u (double precision without underflow or overflow is one)", "why_tests_cant": "Tests compare interpolated values with a tolerance at some points; the error for all cells, masks and values needs a proof.", "anchors": ["pyTMD/interpolate.py: bilinear"]}
{"id": "C116", "title": "Tables stored as parquet files come back", "statement": "A table of columns of one length that is written to a parquet file, with or without encoding its coordinates as points, is read back with the same columns (coordinates of points as x and y), the same spatial reference and the attributes of the caller. Every format that can be written can be read, and the tables of the drift programs are found under the names under which they are read.", "quantifier": "every table, attributes, reference system (code or dictionary), column names, name of the column of points, name of the index, and every behaviour of the library for spatial references", "why_tests_cant": "files of all shapes, names of columns and combinations of keywords cannot be enumerated, and a column that is lost or exchanged only shows for particular names", "anchors": ["pyTMD/spatial.py:to_parquet", "pyTMD/spatial.py:from_parquet", "pyTMD/spatial.py:to_file", "pyTMD/spatial.py:from_file"]}
{"id": "C117", "title": "The database is the union of the files of the providers", "statement": "The program that writes the database of models gives, in whatever order the directory of the providers is listed, a file with the two sections, the models of each in increasing order of their names, and every model of every provider with its entry; the files of the package give the database of the package. A file that is not JSON or has another section is refused and nothing is written; files with other endings do not matter.", "quantifier": "all directories, orders of their listing and contents of their files", "why_tests_cant": "The order of a directory listing depends on the file system; tests run on one machine and one set of files.", "anchors": ["providers/_providers_to_database.py: main", "providers/*.json", "pyTMD/data/database.json"]}
{"id": "C118", "title": "Arctic tide models are fetched to where they are looked up, and an interrupted run is repaired by the next", "statement": "The program for Arctic tide models leaves every file of the models in the archive in the subdirectory in which the models of the database are looked up, with its bytes, whatever was on the disk before. Wherever earlier runs were cut off, a run that ends leaves the same files as a single run. Whatever the names in the archive are, nothing is written outside of the subdirectories of the models that are asked for.", "quantifier": "all archives, disks, lists of models, points at which runs are cut off and times of the clock", "why_tests_cant": "Tests do not download archives, and the points at which a download can be cut off and the names of members in an archive cannot be enumerated.", "anchors": ["scripts/arcticdata_tides.py: arcticdata_tides, main", "pyTMD/data/database.json"]}
{"id": "C119", "title": "Selected models have the right name in the products of satellites", "statement": "Whatever an object was used for before, when a model of elevations of the database is selected, the names it gives for the products ATL03 to ATL12 of ICESat-2 and GLA12 of ICESat, and its long name and description, are those of its variable (ocean tide, load tide or long-period equilibrium tide). When a model of currents is selected it has no name in these products and a long name and description for each component. In one product two models have the same name only if they give the same variable.", "quantifier": "all earlier states of the object, entries, paths and products", "why_tests_cant": "Tests select some models with fresh objects; attributes are kept when another model is selected, so that the result could depend on the history.", "anchors": ["pyTMD/io/model.py: atl03, atl06, atl07, atl10, atl11, atl12, gla12, long_name, description, elevation, current", "pyTMD/data/database.json"]}
{"id": "C120", "title": "Times of remote files are read as seconds since 1970", "statement": "A date that exists, written in one of the formats of listings that the package reads, is read as the number of seconds since the start of 1970 in UTC, on machines in every time zone; later dates give larger numbers; a date that does not exist is not taken for another one.", "quantifier": "all dates of the years 1 to 9999, times of the day, formats of the package, zones of the machine, and whatever the library for other formats does", "why_tests_cant": "Tests read one or two dates in the zone of the machine that runs them; leap years, ends of months, offsets and zones cannot be enumerated.", "anchors": ["pyTMD/utilities.py: get_unix_time, ftp_list, from_ftp, http_list, cmr, iers_list", "scripts/verify_box_tpxo.py: verify_box_tpxo"]}
{"id": "C121", "title": "Downloaded files are accepted exactly if they are those of the server", "statement": "The program that verifies TPXO9-atlas files against a box folder ends without an exception exactly if every grid and elevation file of the folder (with currents also every current file) is in the directory with the checksum of the server; it changes no bytes, creates and removes no file, and gives the files that it has verified the times of the server. Other files keep their times.", "quantifier": "all folders, disks, contents, checksums, times of the server and zones of the machine", "why_tests_cant": "Tests do not use the server; wrong, missing or additional files and times in all zones cannot be enumerated.", "anchors": ["scripts/verify_box_tpxo.py: verify_box_tpxo", "pyTMD/utilities.py: get_hash, get_unix_time"]}
{"id": "C122", "title": "Ephemerides are computed from the kernel whose name is given", "statement": "solar_ephemerides and lunar_ephemerides open the kernel at the path that was given, or de440s.bsp in the directory of the package. If there is no file, the kernel with the name of the file is fetched from the server of the Jet Propulsion Laboratory, exactly its bytes are opened, and no other file changes; if the server does not have it there is an exception and no file changes. So in any history of uses with kernels of the server on the disk every use has the kernel with the name of its file. (False: a path with a tilde is fetched at every use and never found; from_jpl_ssd with a path alone stores de440s.bsp under any name; after an interrupted first use all later uses open the part that was written.)", "quantifier": "all paths, all contents of the disk and of the server, all histories of uses, all points at which a run is interrupted", "why_tests_cant": "A test has one kernel that is there already or is fetched once without interruption; it cannot cover every path, every earlier content of the disk and every point of interruption.", "anchors": ["pyTMD/astro.py:solar_ephemerides", "pyTMD/astro.py:lunar_ephemerides", "pyTMD/utilities.py:from_jpl_ssd", "pyTMD/utilities.py:from_http", "pyTMD/utilities.py:get_data_path"]}
{"id": "C123", "title": "Results are written to files of their own", "statement": "If no output file is named, each of the six programs that compute tides at the points of a file writes its result beside the input file, never over it, and runs with different input files, programs, models or choices of flexure write to different files. A program whose calculation failed does not end like one that succeeded, and asking for more messages does not change what is done.", "quantifier": "all programs, input files, models of the database, definition files and options", "why_tests_cant": "the names of the results depend on the names of all input files and models; tests look at single runs", "anchors": ["scripts/compute_tidal_elevations.py:main", "scripts/compute_tidal_currents.py:main", "scripts/compute_LPET_elevations.py:main", "scripts/compute_LPT_displacements.py:main", "scripts/compute_OPT_displacements.py:main", "scripts/compute_SET_displacements.py:main"]}
{"id": "C124", "title": "The projection of the points of a file", "statement": "The programs take the coordinates of a file to be in the coordinate reference system that the file names if it is known, else in that of the option --projection, and fail if neither is known.", "quantifier": "all files, options and sets of systems that pyproj knows", "why_tests_cant": "there are unboundedly many attributes and definitions of systems, and pyproj has three ways to read each", "anchors": ["scripts/compute_tidal_elevations.py:get_projection", "pyTMD/crs.py:crs.from_input"]}
{"id": "C125", "title": "The marker of the map and its text are at the same place", "statement": "Wherever the marker of the interactive map is moved to, and whatever two numbers are typed as its position, the changes that each makes to the other come to an end, and then the marker and the text both stand for that place, to half a unit of the eighth digit and up to whole turns of longitude.", "quantifier": "all positions, typed numbers and earlier states", "why_tests_cant": "the two observers call each other; whether this ends depends on rounding and on the date line", "anchors": ["pyTMD/tools.py:leaflet.set_marker_text", "pyTMD/tools.py:leaflet.set_marker_location", "pyTMD/tools.py:leaflet.wrap_longitudes"]}
{"id": "C126", "title": "Credentials are taken from where the user put them, tried as often as asked for, and sent to their host only", "statement": "A login to NASA Earthdata uses the name and the password of the .netrc file, else the arguments, else the environment variables, else asks the user; it tries as many times as asked for, and succeeds only with credentials that the server accepted. The name and the password are only sent to the host for which they are given, whatever is called before and after.", "quantifier": "all users, answers, servers, redirections, numbers of retries and histories of calls", "why_tests_cant": "the opener is installed for the whole process, so what a request sends depends on all calls before; tests cannot use real passwords", "anchors": ["pyTMD/utilities.py:attempt_login", "pyTMD/utilities.py:build_opener", "pyTMD/utilities.py:check_credentials", "pyTMD/utilities.py:get_token", "pyTMD/utilities.py:list_tokens", "pyTMD/utilities.py:revoke_token", "pyTMD/utilities.py:from_cddis", "pyTMD/utilities.py:cddis_list"]}
{"id": "C127", "title": "Predicted currents have every component of the model, each from its own files", "statement": "Predicting tidal currents gives an entry for every component of the model, and each is the tide of the constants that the files of this component hold for it, at every place and time of the request; if a component cannot be read, there is no answer rather than a part of one.", "quantifier": "all models, files, places, times, kinds of requests and options of inference", "why_tests_cant": "needs current files of every format, which are large and behind logins; the tests of currents use one model of one format", "anchors": ["pyTMD/compute.py:tide_currents", "pyTMD/io/model.py:model.extract_constants"]}
{"id": "C128", "title": "The node tide appended to a model is the same whether it is extracted, or read and interpolated", "statement": "Constants with the equilibrium node tide appended are the same at a place whether they are extracted from the files, or the model is read with the node tide and interpolated afterwards.", "quantifier": "all GOT and FES models, units of their files, places and batches of places", "why_tests_cant": "the tests append the node tide in one of the two ways only, and compare numbers of one model in one unit", "anchors": ["pyTMD/io/model.py:model.read_constants", "pyTMD/io/model.py:model.extract_constants", "pyTMD/io/model.py:model.interpolate_constants", "pyTMD/io/model.py:model.node_equilibrium"]}
{"id": "C129", "title": "The program that fetches FES models uses the credentials given, fetches every requested model, and its log tells what was fetched", "statement": "The program that fetches FES models logs in with the name and password given on the command line, asking for what is missing, or with those of the file of credentials if none are given; it fetches each of the requested models once, in order, and stops at the first that fails; messages are printed for every model, or the log file of the day has the lines of every model. (False: an existing file of credentials takes precedence over the command line, and one without an entry for the server ends the program with a TypeError; with two or more models the log has zero bytes in place of the lines of all models but the last, and if midnight falls between two models the second log is empty.)", "quantifier": "all arguments, files of credentials, lists of requested models, messages and failures while fetching, days on which the models are reached, and contents of the disk before", "why_tests_cant": "The loss of lines depends on an open file and a logger that outlive one call; tests fetch a single model and need an account.", "anchors": ["scripts/aviso_fes_tides.py:main", "scripts/aviso_fes_tides.py:aviso_fes_tides", "pyTMD/utilities.py:build_logger", "pyTMD/utilities.py:check_ftp_connection"]}
{"id": "C130", "title": "The functions for constants are the methods of a model, and a request without a type is one for the type of the model", "statement": "Extracting, reading and interpolating constants with the functions of the package gives, for every model and all keywords, what the methods of the model give; leaving out the type asks for what the model is a model of (heights, or a component of a current that is named gives this component); constants that have not been read are read first, with the same keywords.", "quantifier": "all models, formats, files, keywords and contents of the files", "why_tests_cant": "tests call the methods with a type for a few files; that a default value is taken by every reader of every format shows only if each combination is tried", "anchors": ["pyTMD/io/model.py: extract_constants, read_constants, interpolate_constants", "pyTMD/io/model.py: model.extract_constants, model.read_constants, model.interpolate_constants", "pyTMD/io/OTIS.py: extract_constants, read_constants, interpolate_constants", "pyTMD/io/ATLAS.py: read_netcdf_grid", "pyTMD/io/FES.py: read_netcdf_file"]}
{"id": "C131", "title": "Distances between points are Euclidean", "statement": "The function for distances gives, for each of the points of a set, the Euclidean distance to a point, in any number of coordinates: zero for the same point only, the same in either order, never NaN for points without one; points with other numbers of coordinates are refused.", "quantifier": "all points, sets of points and numbers of coordinates", "why_tests_cant": "no test calls the function, and that it is a number must hold for all pairs of points, however close", "anchors": ["pyTMD/interpolate.py: _distance"]}
{"id": "C132", "title": "The phases of sixty constituents are the formulas in print", "statement": "At every time and for all corrections, the phase returned for each of the sixty constituents of the table of arguments is the formula in print in the hour angle of the mean sun and the mean longitudes, in lists of any length and order; the table of arguments has one column for each of them in its order, and different constituents have different columns.", "quantifier": "all times, differences of dynamic time, corrections, lists of constituents", "why_tests_cant": "tests compare the formulas at ten random whole days, at which the hour angle is zero, for two corrections", "anchors": ["pyTMD/arguments.py: arguments, _arguments_table, coefficients_table", "pyTMD/data/doodson.json"]}
