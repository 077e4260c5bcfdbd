# Formal model of pyTMD: design

pyTMD (tsutterley/pyTMD, source in `/repo`) is a Python library that reads ocean
tide models, interpolates their harmonic constants and predicts tides.  This
directory holds a Lean 4 model of the library and machine-checked theorems about
that model.  The code was read as text; nothing in `/repo` was run.

## Layout

* `properties.jsonl`  the properties, in terms of the API.
* `lean/Verif/Model/*.lean`  definitions that mirror the Python, branch by branch.
  Every definition cites the file and lines it models and says where it simplifies.
* `lean/Verif/Spec/*.lean`  small specifications written without using the model.
* `lean/Verif/Lemmas/*.lean`  helper lemmas.
* `lean/Verif/Props/*.lean`  the property theorems, and beside each one an
  `example` showing that its hypotheses are met by a concrete non-trivial case.
* `MANIFEST.json`  which theorem proves which property, and what is missing.
* `seeded/LOG.jsonl`  wrong-program experiments: how the theorems react when the
  model is edited the way a bug would edit the code.

## How the model is built

* Exceptions are values: a function that can raise returns `Except` or `Option`,
  and an unbound local variable is an error value, not a default.
* Mutation returns the new value; loops are folds or structural recursion.
* Floating point numbers become real numbers (or an arbitrary ordered field, or
  rationals in witnesses).  Rounding error, overflow, NaN and signed zero are
  outside the model, except where a definition models them explicitly (NaN as a
  mask, 32-bit floats in files as opaque bit patterns, the decimal text of a float, and
  the rounded predictions and interpolation of `Model/Rounded*`, C114 and C115).
* numpy broadcasting is expanded: a vectorised expression becomes a function of one
  element, plus a list-level model where the code looks at the whole batch (min,
  max, any, all).  Python indexing and slicing rules (negative indices, empty
  slices) are modelled where a property depends on them.
* External packages are parameters: scipy interpolation and least squares, pyproj,
  netCDF4/HDF5 containers, the `timescale` package (time and Earth orientation)
  and jplephem.  What is assumed about each is a hypothesis of the theorem.

## Trusted base

* Lean 4.33.0's kernel, which checks every proof, and Mathlib as installed.
* Axioms: at most `propext`, `Classical.choice` and `Quot.sound`.  No `sorry`, no
  added axioms, no `native_decide`, no `bv_decide`.
* That the definitions in `Verif/Model` describe the cited lines.  This is by
  reading only: there is no mechanical link between Python and Lean.
* That the specifications say what the English properties say.

## When the code violates a property

The model follows the code.  If a property is false of the code, the negation is
proved with a concrete witness (theorem names contain `_false`), the strongest true
part is kept as a theorem with the suffix `_partial`, and the property is listed as
`partial` in `MANIFEST.json`.

## Plan per property

* **C01 Doodson numbers decode back to the Cartwright numbers they encode.** Digits as Nat, the float branch as the shortest decimal text of N/1000, strings as List Char. Exact characterisation of when the round trip holds; negation with a witness for the full claim.
* **C02 Doodson number encoding accepts exactly the encodable tuples and never confuses two of them.** Branch-by-branch model returning Except; injectivity by positional-digit arithmetic, and disjointness of the two output formats.
* **C03 Extended Doodson numbers decode back and out-of-range coefficients are refused.** Model Python string indexing including negative wrap. Round trip for lists over -8..16 by induction, refusal above 16 and below -33, negation (aliasing) for -33..-9.
* **C04 The constituents container behaves like an ordered map under every history of operations.** State machine with fields list and attribute store; refinement to an association list by induction over operation lists without duplicate appends; negation for duplicate appends.
* **C05 Tidal ellipse parameters and zonal/meridional constituents are inverse to each other.** Complex.abs / Complex.arg over the reals; algebraic round trip and range theorems.
* **C06 Coordinate rotations preserve lengths and undo each other.** Matrix (Fin 3) (Fin 3) over the reals, entry by entry from the source; trigonometric ring identities.
* **C07 Angle normalisation returns the congruent angle in one revolution.** Floor-based mod over a linear ordered field with floor.
* **C08 Aliased frequency stays below the Nyquist frequency and is consistent with sampling.** round-half-even modelled over an ordered field with floor; cosine equality at n/fs.
* **C09 The associated Legendre table and recursion give the mathematical functions.** Legendre polynomials by Rodrigues/explicit form with Polynomial derivative; the table compared to it, the recursion compared to a normalised three-term spec.
* **C10 Bilinear interpolation is exact at nodes, reproduces linear fields, never overshoots and respects the mask.** Cell search, corner snap and weighted mean over an ordered field, for one query point. Negation on the last meridian.
* **C11 Nearest-neighbour extrapolation returns the closest valid value within the cutoff.** Spec by exists/forall over cells; model with box prefilter; equality proved for points, with the condition on the box stated explicitly.
* **C12 Extending a global grid preserves the periodic field it represents.** Lists over an ordered field; column/longitude pairs as a relation modulo 360.
* **C13 Shifting a grid east or west keeps every datum at its location.** Python slice assignment semantics on lists with exceptions; multiset preservation; negation for index zero.
* **C14 Cropping keeps exactly the grid nodes inside the buffered bounds.** flatnonzero + slice model; equality with List.filter for sorted axes.
* **C15 Interpolated constants at a point do not depend on the other points in the request.** Two adjustment functions over lists of rationals/reals; congruence theorem; negation of batch independence and of coverage with concrete grids; partial theorem for one-convention batches.
* **C16 OTIS elevation files written by the library read back unchanged.** Byte-level model: files as List UInt8, big-endian 32-bit words as bit patterns, seek/read as drop/take.
* **C17 OTIS transport files written by the library read back unchanged.** Same byte-level model with two fields per node.
* **C18 OTIS grid files written by the library read back unchanged.** Byte-level model. Negation (the mask is not recovered) and partial theorems for the parts that are recovered; corrected layout shown sufficient.
* **C19 Constituent names in OTIS headers are recovered in order.** String padding and whitespace splitting on List Char; theorem for names shorter than 4, negation for length 4.
* **C20 Skipping a local solution in an ATLAS-compact file lands on the next one.** Cursor arithmetic over a list of local-solution headers; induction over the list; byte-level layout spec.
* **C21 Predicted tides are linear in the harmonic constants and bounded by their amplitudes.** Fold over constituents with tables as parameters; linearity, permutation and bound theorems.
* **C22 Map, drift and time-series predictions agree where they overlap.** Three separate models mirroring the indexing; pointwise equality theorem.
* **C23 A predicted value is masked exactly when one of its constants is masked.** Mask fold; iff theorem for the three functions.
* **C24 Harmonic analysis recovers the constants that generated a tide.** Least-squares minimiser as a relation; injective design map implies recovery; amplitude/phase conversion via Complex.arg.
* **C25 Minor-constituent inference adds each requested missing constituent exactly once.** Model of the selection logic and of the coefficient table; theorem for requests with some non-first index; negation for the first index alone and for case-variant names.
* **C26 Linear admittance interpolation passes through the major constituents.** Piecewise interpolation over an ordered field.
* **C27 Inference always yields an array that can be added to the prediction.** Return type as a sum (scalar 0.0 or array); negation with a witness and the exact condition.
* **C28 Nodal corrections are computed independently for each constituent and compose for compound tides.** The branch chain as a function from names to formula; compound rules as theorems; termination by Lean.
* **C29 The minor-constituent factor and angle are modulus and argument of one nodal modulation.** Both formulas over the reals, compared to a complex modulation; negation for the diurnal terms where they differ.
* **C30 Nodal corrections are periodic in the astronomical longitudes.** Periodicity theorems for the node and perigee; negation for the FES branch using degrees where radians are needed.
* **C31 The long-period equilibrium tide has the latitude dependence of a zonal degree-2 tide.** Sum over the table of 15 constituents.
* **C32 Local east-north-up coordinates convert back to geocentric coordinates.** Trigonometric identities over the reals.
* **C33 Geodetic coordinates convert to points on the ellipsoid, and the iterative inverses are exact at their fixed points.** Real algebra with square roots and arctangent.
* **C34 Degree-minute-second conversion loses nothing.** Floor arithmetic; theorem for |d| >= 1 (and 0), negation for 0 < |d| < 1.
* **C35 Geodetic conversion of a point does not depend on the other points in the request.** Batch functions on lists; negation for batches containing a point on the polar axis, theorem otherwise.
* **C36 Conversion between identical ellipsoids changes nothing, and height differences are antisymmetric.** Real algebra; mod range lemmas.
* **C37 Geodetic datum parameters are consistent and independent of the unit system.** Real algebra over a datum structure.
* **C38 Named ellipsoids carry their published constants and derived constants follow their definitions.** Table of names; negations for GRS80/NAD83 and for dk; constructor decision theorem.
* **C39 The solid Earth tide is the degree-2 and degree-3 response of Mathews et al..** Real vector algebra on triples.
* **C40 Solid-Earth-tide corrections have the stated direction and the mean-tide option is a fixed offset.** Local frame orthonormality lemma and dot products.
* **C41 Pole tide displacements are linear in polar motion and vanish with it.** Real algebra with polar motion as parameters.
* **C42 Grid, drift and time-series requests of a solid Earth tide agree.** Parametric model of the three branches; negation (times used differ by one day) and a theorem for drift against time series.
* **C43 Request type keywords that pass validation select a prediction.** String model with unbound result as an error; negation for case variants and theorem for exact spelling.
* **C44 Extracting constants from a model leaves the model unchanged and labels every column.** State machine of the model's constituent list and aliasing; negation for FES models, theorem for the other formats.
* **C45 The model files read for currents are those of the requested component.** File selection as a function; theorems per format and negation for FES extraction.
* **C46 ASCII model grids are read completely and in order.** Token/line-level model with an abstract writer; round trip for all sizes that are not excluded, exact characterisation of excluded ones.
* **C47 Constants written to FES and GOT files read back as the same complex field.** Cell-level model over the complex numbers with the netCDF layer abstracted as a store of named variables; negations for zero cells and for u/v output.
* **C48 Velocity-node masks and depths are consistent with the elevation grid.** Grids as functions on Fin ny x Fin nx; theorem for interior and global, negation for regional first column.
* **C49 Roman numerals convert to the number they denote.** Induction on the numeral; finite decide for the part below 1000.
* **C50 Compound tides in the coefficient table have the coefficients of their parents.** The table as a literal list of integers; decide +kernel over the whole table.
* **C51 Spherical harmonics have their mathematical values.** Same Legendre specification as C09; negation (extra sine factor) and exact relation.
* **C52 Polynomials in time are evaluated as written.** Induction on the coefficient list.
* **C53 Tidal arguments advance at the reported frequencies.** Model the mean longitudes, the seven arguments and the table; the reduced angles differ from the raw ones by multiples of 360 and the coefficients are integers, so phase differences follow the rates up to whole cycles; signs and bands by kernel evaluation of the whole table over exact rationals.
* **C54 The equilibrium tide, the tidal arguments and the node constants describe the same tides.** Kernel evaluation of the term list against the table over the rationals; then reduced angles differ from raw ones by whole cycles, so cosines agree. The claim fails for Mf+, where the coefficient table counts the longitude of the node and the equilibrium tide its negative: refuted by two times.
* **C55 Tabulated constituent phases and frequencies track the tidal arguments.** Linear longitudes make the argument an exact linear function up to whole cycles; the table is compared with it by kernel evaluation with a rational enclosure of pi. The last sentence fails for constituents missing from the table, which get frequency zero: refuted for S1, M3, Mtm and the node tide.
* **C56 Polar stereographic scale factors.** Model scaleFactors; factor the removable singularity out of t/m and use continuity.
* **C57 Classification of data.** Model dataType; decision table with exact conditions; refute for square grids given by their axes.
* **C58 Pole tide requests of every kind agree.** Model both functions with their loops; prove each request equals a pointwise value, and that value equals a closed formula.
* **C59 Computed tides agree across grids, tracks and time series.** Model the part of tide_elevations and tide_currents after extraction; prove each kind of request returns the pointwise elevation of a small specification.
* **C60 Constituent names are recognised in text wherever they stand as a word.** Model the leftmost search with look-behind and look-ahead; prove context independence at separators, soundness and refusal; witnesses for supported names that are refused or confused.
* **C61 Every model of the database can be used.** The database as a table, generated from the file; checks by kernel evaluation over the whole table, with the parsing theorem; validate_format characterised for all strings; negation for FES-ascii.
* **C62 Selecting a model does not depend on what the object held before.** Attributes as a function, paths abstract; congruence of the selection in the attributes it reads; negation: a grid file left by the model before makes the next selection fail.
* **C63 A model written as a definition and read back is the same model.** Recursive model of serialisation and of the assertions and paths of a definition; round trip by cases of the form of the files; negations for single files and for compression.
* **C64 Love numbers by frequency agree with the tabulated load factors.** Model/Love.lean models _love_numbers over the reals, with the frequency of o1 computed by the modelled frequency function; Props/Love.lean proves the bands, the nominal values, bounds on the tilt factor off resonance, and the comparison with the table of OTIS parameters.
* **C65 Admittance interpolation reproduces the pivots at their actual frequencies.** Props/Admittance.lean: the frequencies of the pivots are computed exactly as multiples of pi from the coefficient table and the rates of the longitudes; sine and cosine are enclosed around them.
* **C66 Nodal factors stay positive and within their theoretical ranges.** Each factor is the modulus of a trigonometric polynomial or a ratio in the inclination of the lunar orbit; lower and upper bounds from the coefficients, by kernel evaluation over the table of rules, and by calculus of the inclination for the FES form.
* **C67 Interpolating constants a model object has read gives the requested type of the selected model.** State machine of the object with its cache; invariants by induction over the operations; witnesses of a stale cache.
* **C68 ATLAS netCDF files round trip.** File as named variables with dimensions; writer composed with reader; witnesses for masks and long names.
* **C69 Ocean pole tide coefficients are the bilinear values of the map at every longitude.** Closed form of the shifted and extended map; interpolation in a cell of a uniform axis against a relational definition of the bilinear value with uniqueness and periodicity; witness for 270 degrees east.
* **C70 Extracted constants are the field of the model, anywhere on the globe.** Model/Extract.lean composes reading, convention change, extension, interpolation and masking; Spec/Chart.lean states interpolation of a periodic chart independently. Refinement: the extended matrix shows a window of the chart, every method returns its value, longitudes are invariant by full turns.
* **C71 Stored constants interpolate like extracted ones.** Both paths are refined to the same chart; equality by uniqueness of the interpolated value. The claim is false for batches whose longitudes are compared with the extended axis: all such points of FES models are shown to be masked, in GOT models they get a value of the edge.
* **C72 Cropping does not change the constants.** The shifted, cropped and perhaps extended matrix is shown to be a window of the same chart that holds every point. The claim is false for points where the grid is cut (witnesses at the seam and for batches in mixed conventions).
* **C73 OTIS constants are the field in the files at the points of their own grid.** Model/ExtractOTIS composes the grid file, the nodes, the extension, the adjustment and the interpolation. Spec/Staggered describes the staggered grid as charts over all integers; for a global model the columns repeat. The theorems relate the result at a place to the interpolation of the chart of the quantity and the chart of depths at the original longitude. Extrapolation is a parameter that is switched off; witnesses show where the claim fails.
* **C74 Stored OTIS constants interpolate like extracted ones.** The stored axis is the extended axis of the quantity; the adjustment against it is shown right for every batch. Equality with C73 follows since the interpolation of a chart is unique. Witnesses show that masks of constituents are dropped with 'spline', and that zeros count as missing with 'linear'.
* **C75 Constants of ATLAS netCDF models are the field in the files and currents are transports over the depth.** Model/ExtractATLAS composes grid, crop, extension, mask, interpolation and units. Depths and constituents are charts over all integers with repeating columns; the theorems relate the result to their interpolation at the original longitude. Cropping is proved neutral away from the cut. A witness shows that extrapolated currents are divided by a number under the mask.
* **C76 An object with ATLAS constants gives the same as extraction, whatever it was used for before.** The object carries a flag that the numbers under the mask of its depths were overwritten. Induction over the history shows what is kept. Equality with C75 by uniqueness of interpolation. Witnesses: a bilinear use spoils later linear currents; batches that are adjusted against the extended axis.
* **C77 Predicted tides are the tides of the model's field at the place.** Model the conversion to amplitude and phase and the arrays of points by constituents; compose the theorems on extraction (C70, C73, C75) with those on prediction (C59).
* **C78 Approximate positions of sun and moon.** The series are written again in Spec/Ephemerides as a table of terms; theorems give equality for the sun, for the distance of the moon and for the turn of frames, a bound for longitude and latitude of the moon, and a witness that the term of 148 arcseconds has the wrong sign. Ranges follow by bounding sines.
* **C79 Rotation from celestial to terrestrial coordinates.** The tables are generated into Lean; sums of amplitudes by the kernel, bounds by induction on the rows, the rotation from the theorems of C06. Witnesses: planetary multiples are not used in the nutation, the equation of the equinoxes is divided by 24 instead of a turn, polar motion is applied before the rotation of the Earth.
* **C80 Masks of the domain of a model.** Model/Masks follows the function branch by branch with the grid as a parameter; Spec/Domain states when a point of the grid counts. Equivalence for 'spline', for 'bilinear' away from the edges, for 'linear' only in the rectangle common to both orders of the coordinates. Comparison with C70 for global models. Witnesses: the arguments of 'linear' are swapped, grids of points raise an error, FES-ascii is never read, the last column of global models and western longitudes are never valid.
* **C81 Numbers of constituents.** Spec/Numbers writes the numbers as printed. Finite tables by the kernel, names and lists by induction, uniqueness from injectivity of the digits, and frequencies scaled to whole numbers and compared over the table. Witnesses: 41 constituents without Doodson number, five whose extended number is that of other multiples, lines that differ only by the solar perigee with OTIS corrections.
* **C82 Reading the grid of an ATLAS-compact model.** Bytes of the file as a sequence of records in a separate specification; the reader branch by branch; the position in the file after every step is the invariant, induction over the local grids.
* **C83 Combining local and global solutions.** Patches laid over a base as a separate specification; the loop over solutions by induction; the index of a node from exact arithmetic with floors.
* **C84 Constants extracted from ATLAS-compact models.** Composition of C83 with the theorem about global staggered grids (C73).
* **C85 Constants of TMD3 files.** Model the reader with the flipped rows and the masked product of numpy, compose with the extraction of C73, and specify the sea and its field from the file by row numbers counted from the south. Refuted parts: method linear leaves the tide undamped where the flexure is 0 (C85_grounded_false), transports are taken to be half a step west of their coordinates (C85_currents_false).
* **C86 Amplitudes and phases of a container of constituents.** Compose the container model of C04 with the polar form; spec is the tide as a function of time. Plain arrays (no mask) are refuted by a witness.
* **C87 Models available by name.** Dictionaries as association lists; update as a fold, by induction over the files. The claim that all models stay available is refuted: an additional database replaces whole sections.
* **C88 Tables written as text read back.** Model to_ascii as the text of the file and from_ascii on texts, with splitlines, split and join on lists of characters. Prove that split inverts join for delimiters apart from the pieces, that splitlines inverts writing lines, and that the columns of the rows are the columns of the table; the header adds lines that do not mark its end before the last. The YAML library and the writing and reading of numbers are inputs.
* **C89 Spatial data in netCDF4 files come back.** Model files as dictionaries of variables with dimensions, stored values and attributes, with the fill value rules of the netCDF4 library; thread the caller's attributes through the writer. Prove by induction over the variables that all are stored and the attributes lose their fill values; then that reading inverts storing for one variable; then that the dimensions chosen have the lengths of the arrays for each type of data.
* **C90 Spatial data in HDF5 files come back.** Model datasets with shape, values and attributes, with what h5py does to masked arrays and scalars. Prove what every new file gives back exactly (the bare numbers and the attributes without the fill value); derive the round trip for unmasked arrays and the refutations for every masked array, scalar and existing dataset.
* **C91 Geotiff images stay in place.** Model the image with its geotransform over an ordered field with floors. Prove that the minimum and maximum of evenly spaced coordinates are their ends, so that the extent of a part gives back its corner; reduce reading a part to reading the whole of the smaller image; bound the first and last pixel with floors.
* **C92 Input files and variables are found.** Model the match as beginning alike, and prove which file is used and when there is an error; prove lookups in the mappings and their inverses with dictionaries as lists of pairs.
* **C93 A regional file has the nodes of the model within the bounds.** Model/Regional: the selection on the mesh, the new edges, the bytes by the writer of C18 and their reading with coordinates; names by a loop with a bound on rounds. The run of kept nodes of an evenly spaced axis is an evenly spaced axis whose edges give it back; names differ, so a free one is found (pigeonhole).
* **C94 A conversion of coordinates depends only on its arguments, and backward undoes forward.** Model/Crs: an object with system and direction, methods as functions on it, pyproj as a structure of functions. Histories are lists of uses; conversion sets all it reads.
* **C95 The program for tidal elevations is a map of the lines of a table.** Model/Program composes Csv (from_ascii, to_ascii) and Compute (tide_elevations) as the script does. C95_lines by reading lemmas for a text of lines, C59_drift and stacking of columns; C95_map and C95_parts follow. C95_default_false, C95_types_false and C95_case_false refute the last sentence for every table.
* **C96 The programs write files that show, for every point and time, the value that is computed for it.** Model/ProgramFiles composes Store (reading and writing) and Compute as the scripts do. C96_drift, C96_grid and C96_series hold for any function that computes values; C96_tide_* put in tide_elevations with C59. The false parts: C96_hdf5_false, C96_solid_false, C96_case_false.
* **C97 The formulas for the same astronomical angle agree with each other.** Spec/Angle states agreement up to whole turns. Each difference is a polynomial in the time, bounded by the sum of the absolute values of its coefficients; reduction to one turn, radians and seconds of arc are lemmas (Lemmas/Angle). C97_phase adds the errors with the coefficients of a constituent, and bounds them for the table by evaluation.
* **C98 A minor constituent is corrected alike whether it is inferred or provided.** minor_arguments as a whole, and the arguments as the environment of prediction and inference; each column compared to the rule of its constituent by the difference of their series; refutations for l2b (opposite sign), m1 (another line) and theta1 (FES).
* **C99 The predicted tide has no jumps in time.** Compose predictions with the actual arguments. Show that the modulation of each constituent is a continuous function of unreduced longitudes (factor and unit number with the angle, separately, so that compound tides follow) and does not change by whole turns; that whole turns in longitudes are whole turns in phases; for FES, that the two inverse tangents jump together. Refute it for L2 of FES, where the perigee is in degrees: find the instant of its full turn by the intermediate value theorem and compare the limits of the factor.
* **C100 Files of tide models are fetched completely, once, and again when they change.** Model/Posix has the functions on names, Model/Mirror the disk as a function of places, the writes of a run as a list of steps, and the tables of files. The loop is a fold at every place (run_at); idempotence and histories by induction; a run that is cut off is a prefix of the steps (cut_run): it has done a prefix of the files and part of one. Spec/Mirror states what the disk should hold.
* **C101 A download that is checked by its hash repairs itself, and moving a file never loses it.** Model/Transfer gives the writes of each function on the disk of Model/Mirror. A list of attempts, each cut after some of its writes, is folded; the file then has some contents, and the next download either finds the same hash (hence the same bytes) or writes all of them. Moving: prefixes of the writes before and after the removal.
* **C102 Addresses, lines of arguments and listings lose and confuse nothing.** Model/Locator: url_split with a bounded number of calls; induction over the parts from the end. Words by induction over the line. The lists of indices are lists of entries: filter and mergeSort commute with the map from entries to names.
* **C103 Nodal corrections stand for the lines of the tide-generating potential.** Tables as data; modulation of a rule and sum of lines as finite sums of unit numbers with rational coefficients, whose difference is bounded by the sum of the moduli of its coefficients; the FES branches by half-angle identities of the spherical triangle; failures at named longitudes.
* **C104 Phases and factors of a constituent give its part of the potential at every time.** C103 with the arguments of the lines expressed by the phase that arguments returns and the column of 90 degrees; constituents with a multiple of the node refuted in general.
* **C105 Amplitudes of the library are those of the tide-generating potential.** Compare all amplitudes with the tables of C103 by kernel computation; combine with the modulation bounds of C103 and the reproduction of constant admittances (C26, C65) for the inference, and bound the lines left out for the equilibrium tide.
* **C106 A long enough regular record determines the harmonic constants.** Lemmas/Separate.lean: waves with slowly varying factors at distinct frequencies are linearly independent over a regular record when a weighted diagonal dominance holds, by summation by parts. Lemmas/NodalRate.lean: rates of change of the nodal corrections. Lemmas/SeparateNodal.lean: certificates (bounds of factors, rates, frequencies, weights) checked by the kernel for each plan of Spec/Sampling.lean. Props/Separate.lean: C106_distinguish, C106_recover (discharging the hypothesis of C24_recover), C106_unplaced_false.
* **C107 Functions kept under old names give what their replacements give.** Model/Modules.lean: modules as tables of names filled by their statements in order, names looked up at the time of a call. Spec/Renamed.lean: old names and replacements. C107_eop, C107_updates, C107_compute, C107_kind; C107_time_false (the class timescale at the end of time.py takes the name of the package, so that every function there raises AttributeError), C107_hidden_false.
* **C108 No tidal correction exceeds the size the bodies and constituents behind it allow.** Lengths of vectors in the local frame; the in-phase response of degree 2 is at most h2 times the force because 2 l2 <= h2, degree 3 likewise; the tables of the frequency corrections are summed in absolute value; the distances of C78 bound the forces. The pole tide is bounded componentwise with the columns of the rotation orthonormal and normal gravity bounded below for every ellipsoid. Predicted tides from C21 and C66.
* **C109 A model of a region answers inside the region and nowhere else.** Props/Region and Props/RegionATLAS. The chart of a region has only the columns of the file. The change of convention is shown to bring a place into the region exactly if some turn of it lies there, by induction over the files since the longitudes are carried over. Witnesses: splines of GOT models, the depth at a place outside, regions across the end of a convention, the rim with the bilinear method. With cropping (Props/RegionCrop and Props/RegionATLASCrop) for places in the region written like the file; a witness shows that other batches lose places.
* **C110 The program for tidal currents is a map of the lines of a table.** Model/ProgramCurrents composes Csv (from_ascii, to_ascii) and Compute as the script does, once for each component. C110_lines by the reading lemmas of C95, C59_drift for each component and stacking of five columns; C110_map and C110_parts follow. C110_types_false and C110_definition_false refute the last sentence for every table.
* **C111 Cropping an OTIS model to the neighbourhood of the points does not change the constants.** Props/OtisCrop: a window of a model shows the same sea from another column on (invariant of cut and turn); the depths and masks at the nodes of the window are those of the model except in its first column and row; interpolation at a place uses only the cell around it; the axes that are changed in place by `-=` (numpy views) are modelled, and the window is the same as long as no column (row) is in its first half step; witnesses for the seam, bounds in the other convention, small buffers, mixed batches and the changed axes.
* **C112 Extrapolated constants are those of the closest point of the model on the Earth.** Model/Extrapolated composes the models of the files with that of extrapolate, batch by batch as in the source; the kd-tree of scipy is an assumption (KDSpec). Spec/Nearest gives the distance on the ellipsoid and the closest point of a chart. fillIn_eq from C11, Covers by turning columns around the globe, onEarth periodic in longitude. Witnesses: cropping hides the closest point, extrapolated velocities are transports.
* **C113 Options of a prediction.** Compose the models of extraction with each option (C72, C75, C85, C109, C111, C112) with the prediction (C59, C77); the appended node tide is one more column of constants, whose tide is that of equilibrium_tide (C54).
* **C114 Predictions in floating point.** Model the predictions with every operation rounded by a parameter with a bounded relative error; a calculus of relative errors and of angles up to whole turns bounds the error of longitudes, arguments, phases and sums against the exact model (C21); 53 binary digits are an instance.
* **C115 Bilinear interpolation in floating point arithmetic.** The rounded operations are a parameter (Model/RoundedGrid); errors are followed with the calculus of C114 for real and complex data.
* **C116 Tables stored as parquet files come back.** Model the data frame, the metadata and both functions; prove that reading what was written gives the table, by the names of its columns; refute the claim where keywords or names of columns break it.
* **C117 The database is the union of the files of the providers.** Model of the loop over files and sections with `dict.update` and of `sort_keys`. By induction the entry of a model is that of the last file that offers one; with agreement between files the written file depends on the set of files only. Witness for two files that disagree: the result depends on the order.
* **C118 Arctic tide models are fetched to where they are looked up, and an interrupted run is repaired by the next.** Model the choice of the members, their places and the steps on the disk (as in C100); the files after the steps are a fold over the members, in which the start does not matter at the places that are written. The places of the files of the database are checked against the table of subdirectories. Witnesses: a member for a directory, two members of one name.
* **C119 Selected models have the right name in the products of satellites.** Model the chains of tests over the attributes of the object of C62; prove that selecting a model sets type and variable whatever they were, and the table of names. The package's entries are checked. A definition with its type in a list is accepted but has no names.
* **C120 Times of remote files are read as seconds since 1970.** Model the regular expressions of strptime with backtracking as lists of alternatives, the ordinals of dates and timegm; the first way to match what is written is the date, by cases for each part of a format; ordinals count the days of years and months by induction. Refuted for formats with an offset, which timegm does not use, and for strings that are left to dateutil.
* **C121 Downloaded files are accepted exactly if they are those of the server.** Model the loop over the folder with the disk of C100, digests as in C101 and times as in C120; by induction digests are those of the disk at the start, since only times change. Refuted: times with an offset; other files whose names begin with h.
* **C122 Ephemerides are computed from the kernel whose name is given.** Model/Kernel: paths as parts, expanduser, the steps of from_http on a disk of files. Use lemma by cases on the disk and the server, histories by induction with the invariant that the kernels at the places used are those of the server; refutations for all worlds with the given path.
* **C123 Results are written to files of their own.** Model of the six mains after the parsing of the command line (Model/Outputs.lean), with the stem and the suffix of a path as pathlib has them and the names in the database. Distinctness by the last dot of a name and by the fact, checked for all pairs of runs with models of the database, that no added text is an end of another. Refuted for models that share a name (FES2014 and FES2014_extrapolated), for the two pole tides, for failures and for the option --verbose given three times.
* **C124 The projection of the points of a file.** Model of get_projection on top of the model of from_input with pyproj as a parameter (Model/Outputs.lean, Model/Crs.lean). Equivalence with the order of precedence. The claim that the option prevails if it is given is refuted.
* **C125 The marker of the map and its text are at the same place.** Model of the two observers with a bound for the depth of recursion (Model/Marker.lean); printing is any rounding to the nearest. A printed position is a fixed point unless its longitude is -180 degrees, which becomes 180, a fixed point.
* **C126 Credentials are taken from where the user put them, tried as often as asked for, and sent to their host only.** Model of the login as a loop over the answers of the user and of the installed opener as a state with what each call sends (Model/Login.lean). Induction over the attempts and over the history of calls. Refuted: known credentials that are refused end in an UnboundLocalError, the functions for tokens ignore the environment and leave an opener that sends the password to every server, and the functions for CDDIS send it to servers to which they are redirected.
* **C127 Predicted currents have every component of the model, each from its own files.** The loop over components with the choice of files by format, on the model of predictions; induction over the components. Refuted for FES models with files for both components, for which every request fails.
* **C128 The node tide appended to a model is the same whether it is extracted, or read and interpolated.** The field of the node tide on the grid of the stored model and its interpolation, with the theorems of C71; the second order of the cosine for places between parallels. Refuted for models in other units than metres.
* **C129 The program that fetches FES models uses the credentials given, fetches every requested model, and its log tells what was fetched.** Model the choice of credentials, sessions, the handler of the logger with its position in an open file, and writing beyond the end of a file; prove the final log by induction over the models.
* **C130 The functions for constants are the methods of a model, and a request without a type is one for the type of the model.** Model the keywords `type` and `append_node` with their defaults, the type of a model as a string or a list of components, and what the readers do with a list. Prove that functions and methods agree and what the defaults are; refute the default for models of currents, whose type is a list that no reader takes.
* **C131 Distances between points are Euclidean.** Model the decomposition of the square with the rounding of each operation as an argument; prove it for exact arithmetic by induction on the coordinates, and refute it for numbers with 53 digits with two points that are close.
* **C132 The phases of sixty constituents are the formulas in print.** Write the formulas as functions of the hour angle and the longitudes, prove each equal to the product with the coefficients of the table, and lift to all lists; refute that columns differ.

## What is modelled, file by file

A function counts as modelled when a definition in `Verif/Model` cites lines of it; the
comment of that definition says what it leaves out.  Lines that only log, check file
permissions or emit deprecation warnings are left out everywhere.

| file | modelled functions (modules) | not modelled |
|---|---|---|
| `pyTMD/arguments.py` | `arguments`, `minor_arguments`, `coefficients_table`, `doodson_number`, `nodal`, `frequency`, `aliasing_period`, `_arguments_table`, `_minor_table`, `_constituent_parameters`, `_love_numbers`, `_parse_tide_potential_table`, `_to_doodson_number`, `_to_extended_doodson`, `_from_doodson_number`, `_from_extended_doodson` (ArgumentsTable, Astro, Coef, Doodson, Infer, Love, Minor, MinorArguments, Nodal, Numbers, Parameters, Potential, Predict, Rounded) | — |
| `pyTMD/astro.py` | `mean_longitudes`, `phase_angles`, `doodson_arguments`, `delaunay_arguments`, `mean_obliquity`, `solar_ecef`, `solar_approximate`, `solar_ephemerides`, `lunar_ecef`, `lunar_approximate`, `lunar_ephemerides`, `gast`, `itrs`, `_eqeq_complement`, `_frame_bias_matrix`, `_nutation_angles`, `_nutation_matrix`, `_polar_motion_matrix`, `_precession_matrix`, `_parse_table_5_2e`, `_parse_table_5_3a`, `_parse_table_5_3b` (Astro, Celestial, Ephemerides, Kernel, Longitudes, Math, NutationTables, Rounded, SolidEarth) | — |
| `pyTMD/check_points.py` | `check_points` (Modules) | — |
| `pyTMD/compute.py` | `corrections`, `tide_elevations`, `tide_currents`, `tide_masks`, `LPET_elevations`, `LPT_displacements`, `OPT_displacements`, `SET_displacements` (Compact, Compute, Currents, Equilibrium, Infer, Masks, Pipeline, PipelineOptions, PoleTide, Program, ProgramCurrents, SolidEarth) | — |
| `pyTMD/compute_tide_corrections.py` | `compute_corrections`, `compute_tide_corrections`, `compute_LPET_corrections`, `compute_LPT_corrections`, `compute_OPT_corrections`, `compute_SET_corrections` (Modules) | — |
| `pyTMD/crs.py` | `__init__`, `convert`, `get`, `transform`, `from_input`, `direction`, `is_geographic`, `__str__`, `__getitem__`, `__setitem__`, `__init__`, `rad_e`, `b_axis`, `ratio`, `rad_p`, `ecc`, `ecc1`, `ecc2`, `m`, `f2`, `f4`, `q`, `q0`, `J2`, `C20`, `gamma_a`, `gamma_b`, `gamma_0`, `gamma_h`, `dk`, `U0`, `area`, `volume`, `rho_e`, `__str__`, `__getitem__`, `__setitem__` (Crs, Datum) | — |
| `pyTMD/ellipse.py` | `ellipse`, `inverse` (Math, Num) | — |
| `pyTMD/eop.py` | `update_mean_pole`, `calculate_mean_pole`, `pull_pole_coordinates`, `update_finals_file`, `iers_mean_pole`, `iers_daily_EOP`, `iers_polar_motion` (Modules) | — |
| `pyTMD/interpolate.py` | `bilinear`, `spline`, `regulargrid`, `extrapolate`, `_distance` (Distance, Extract, Extrapolate, Extrapolated, Interpolate, RoundedGrid, Spline) | — |
| `pyTMD/io/ATLAS.py` | `extract_constants`, `read_constants`, `interpolate_constants`, `read_netcdf_grid`, `read_netcdf_file`, `read_netcdf_elevation`, `read_netcdf_transport`, `output_netcdf_grid`, `output_netcdf_elevation`, `output_netcdf_transport`, `_extend_array`, `_extend_matrix`, `_crop`, `_shift` (AtlasFile, ExtractATLAS, Extrapolated, Grid, Pipeline, Wrappers) | — |
| `pyTMD/io/FES.py` | `extract_constants`, `read_constants`, `interpolate_constants`, `read_ascii_file`, `read_netcdf_file`, `output_netcdf_file`, `_extend_array`, `_extend_matrix`, `_crop`, `_shift` (Ascii, Extract, Extrapolated, Grid, NetCDF, Pipeline, TideModel, Wrappers) | — |
| `pyTMD/io/GOT.py` | `extract_constants`, `read_constants`, `interpolate_constants`, `read_ascii_file`, `read_netcdf_file`, `output_netcdf_file`, `_extend_array`, `_extend_matrix`, `_crop`, `_shift` (Ascii, Extract, Extrapolated, Grid, NetCDF, Parse, Pipeline) | — |
| `pyTMD/io/IERS.py` | `extract_coefficients`, `read_binary_file`, `ocean_pole_tide`, `_extend_array`, `_extend_matrix`, `_shift` (Grid, IERS, Spline) | — |
| `pyTMD/io/OTIS.py` | `extract_constants`, `read_constants`, `interpolate_constants`, `read_otis_grid`, `read_atlas_grid`, `read_netcdf_grid`, `read_constituents`, `read_otis_elevation`, `read_atlas_elevation`, `read_otis_transport`, `read_atlas_transport`, `create_atlas_mask`, `interpolate_atlas_model`, `combine_atlas_model`, `read_netcdf_file`, `output_otis_grid`, `output_otis_elevation`, `output_otis_transport`, `_extend_array`, `_extend_matrix`, `_crop`, `_shift`, `_mask_nodes`, `_interpolate_mask`, `_interpolate_zeta` (Atlas, AtlasGrid, CGrid, Combine, Compact, ExtractOTIS, Extrapolated, Grid, OTIS, Pipeline, Regional, TMD3, Wrappers) | — |
| `pyTMD/io/constituents.py` | `__init__`, `append`, `get`, `pop`, `update`, `amplitude`, `phase`, `doodson_number`, `cartwright_number`, `shape`, `parse`, `__str__`, `__len__`, `__iter__`, `__next__`, `__getitem__`, `__setitem__` (Constituents, ConstituentsItems, NodeField, Numbers, Parse, Polar) | `extended_doodson`: access to attributes and printing |
| `pyTMD/io/model.py` | `keys`, `values`, `items`, `__getitem__`, `load_database`, `__init__`, `elevation`, `current`, `corrections`, `file_format`, `atl03`, `atl06`, `atl07`, `atl10`, `atl11`, `atl12`, `gla12`, `long_name`, `description`, `formats`, `ocean_elevation`, `load_elevation`, `ocean_current`, `OTIS`, `ATLAS_compact`, `TMD3`, `ATLAS`, `GOT`, `FES`, `pathfinder`, `from_file`, `_parse_file`, `_parse_json`, `validate_format`, `from_dict`, `to_dict`, `serialize`, `parse_constituents`, `parse_file`, `extract_constants`, `read_constants`, `interpolate_constants`, `node_equilibrium`, `extract_constants`, `read_constants`, `interpolate_constants` (Currents, Definition, Equilibrium, Listing, Names, NodeField, Parse, Pipeline, PipelineOptions, ProgramCurrents, Session, TideModel, Wrappers) | `gzip`, `__str__`, `__getitem__`, `__setitem__`: names of output variables, printing, and dispatch |
| `pyTMD/math.py` | `polynomial_sum`, `normalize_angle`, `rotate`, `aliasing`, `legendre`, `assoc_legendre`, `sph_harm` (Math, Num, Rounded) | — |
| `pyTMD/predict.py` | `map`, `drift`, `time_series`, `infer_minor`, `_infer_short_period`, `_infer_semi_diurnal`, `_infer_diurnal`, `_infer_long_period`, `equilibrium_tide`, `load_pole_tide`, `ocean_pole_tide`, `solid_earth_tide`, `_out_of_phase_diurnal`, `_out_of_phase_semidiurnal`, `_latitude_dependence`, `_frequency_dependence_diurnal`, `_frequency_dependence_long_period`, `_free_to_mean` (Equilibrium, Infer, MinorArguments, PoleTide, Predict, Rounded, SolidEarth) | — |
| `pyTMD/solve/constants.py` | `constants` (Predict) | — |
| `pyTMD/spatial.py` | `case_insensitive_filename`, `data_type`, `from_file`, `from_ascii`, `from_netCDF4`, `from_HDF5`, `from_geotiff`, `from_parquet`, `to_file`, `to_ascii`, `to_netCDF4`, `_drift_netCDF4`, `_grid_netCDF4`, `_time_series_netCDF4`, `to_HDF5`, `to_geotiff`, `to_parquet`, `expand_dims`, `default_field_mapping`, `inverse_mapping`, `convert_ellipsoid`, `compute_delta_h`, `wrap_longitudes`, `to_dms`, `from_dms`, `to_cartesian`, `to_sphere`, `to_geodetic`, `_moritz_iterative`, `_bowring_iterative`, `_zhu_closed_form`, `to_ENU`, `from_ENU`, `to_horizontal`, `to_zenith`, `scale_areas`, `scale_factors` (Csv, FileNames, Geodetic, Geotiff, Parquet, Spatial, Store) | — |
| `pyTMD/time.py` | `parse`, `parse_date_string`, `split_date_string`, `datetime_to_list`, `calendar_days`, `convert_datetime`, `convert_delta_time`, `convert_calendar_dates`, `convert_calendar_decimal`, `convert_julian`, `__init__` (Modules) | — |
| `pyTMD/tools.py` | `__init__`, `wrap_longitudes`, `set_marker_text`, `set_marker_location` (Marker) | `__init__`, `transform`, `set_map_center`, `handle_interaction`: choices and maps of notebook widgets |
| `pyTMD/utilities.py` | `get_data_path`, `get_hash`, `url_split`, `convert_arg_line_to_args`, `build_logger`, `roman_to_int`, `get_unix_time`, `even`, `ceil`, `copy`, `ftp_list`, `from_ftp`, `check_connection`, `http_list`, `from_http`, `attempt_login`, `build_opener`, `get_token`, `list_tokens`, `revoke_token`, `check_credentials`, `cddis_list`, `from_cddis`, `iers_list`, `from_jpl_ssd`, `uhslc_list` (FetchLog, Kernel, Locator, Login, Transfer, UnixTime, Utilities) | `import_dependency`, `__init__`, `__get__`, `file_opener`, `get_git_revision_hash`, `get_git_status`, `isoformat`, `check_ftp_connection`, `_create_default_ssl_context`, `_create_ssl_context_no_verify`, `_set_ssl_context_options`, `from_json`: network, logging, paths |
| `scripts/arcticdata_tides.py` | `arcticdata_tides`, `main` (Arctic) | `arguments`: command line, network or glue |
| `scripts/aviso_fes_tides.py` | `aviso_fes_tides`, `aviso_fes_tar`, `aviso_fes_list`, `ftp_list`, `ftp_download`, `newer`, `main` (FetchLog, Mirror) | `arguments`: command line, network or glue |
| `scripts/compute_LPET_elevations.py` | `get_projection`, `compute_LPET_elevations`, `main` (Outputs, ProgramFiles) | `info`, `arguments`: command line, network or glue |
| `scripts/compute_LPT_displacements.py` | `get_projection`, `compute_LPT_displacements`, `main` (Outputs, ProgramFiles, ProgramPole) | `info`, `arguments`: command line, network or glue |
| `scripts/compute_OPT_displacements.py` | `get_projection`, `compute_OPT_displacements`, `main` (Outputs, ProgramPole) | `info`, `arguments`: command line, network or glue |
| `scripts/compute_SET_displacements.py` | `get_projection`, `compute_SET_displacements`, `main` (Outputs, ProgramFiles) | `info`, `arguments`: command line, network or glue |
| `scripts/compute_tidal_currents.py` | `get_projection`, `compute_tidal_currents`, `main` (Outputs, ProgramCurrents) | `info`, `arguments`: command line, network or glue |
| `scripts/compute_tidal_elevations.py` | `get_projection`, `compute_tidal_elevations`, `main` (Outputs, Program, ProgramFiles) | `info`, `arguments`: command line, network or glue |
| `scripts/gsfc_got_tides.py` | `gsfc_got_tides`, `newer` (Mirror) | `arguments`, `main`: command line, network or glue |
| `scripts/reduce_OTIS_files.py` | `make_regional_OTIS_files`, `create_unique_filename`, `arguments` (Regional, RegionalCompact) | `info`, `main`: command line, network or glue |
| `scripts/usap_cats_tides.py` | — | `usap_cats_tides`, `arguments`, `main`: command line, network or glue |
| `scripts/verify_box_tpxo.py` | `verify_box_tpxo` (Verify) | `build_opener`, `arguments`, `main`: command line, network or glue |

## Not modelled

* Rounding of floating point numbers, except in bilinear interpolation (`Model/RoundedGrid`)
  and in the predictions and their astronomical
  arguments (`Model/Rounded`, for any arithmetic with bounded relative errors), overflow
  and signed zero, and the numerical accuracy of scipy's routines.
* The encodings inside netCDF4, HDF5, GeoTIFF and gzip files: a container is a store of
  named variables with dimensions and attributes, a geotiff is its raster and
  transform, and compression is the identity.  Packed variables
  (`scale_factor`), groups and grid mappings are left out.
* the encoding of parquet files (pandas, pyarrow), the choices and maps of the notebook widgets, the protocols of the network (a server is what it answers), the parsing of command lines by argparse.
* JPL ephemerides, Earth orientation series and leap seconds: values are parameters.
* pyproj: a transformation between projections is a parameter, with the assumption that
  it is inverse to its opposite stated where it is needed.
* Concurrency: the library has none; `compute_tidal_elevations` and the like run in one
  process on one file.

## Remarks on the code that concern floating point or conventions only

* `to_geodetic` with the default method gives latitude -90 at exactly x = y = 0 and z > 0,
  and Moritz' method gives NaN there; both are limits of rounding.
* `_free_to_mean` adds the permanent offset where the IERS routine subtracts it; not judged.
* `OPT_displacements` pairs the north coefficient with the southward column; the radial
  output is not affected.
* `itrs` multiplies rotations in the order R3·P·N·B·W; not judged.
* In ATLAS-compact files `floor(lon/d30)` and the length of `arange` depend on rounding.
