# Formal model of desihub/desimeter in Lean 4

## 1. Shape of the development

`lean/Verif/` contains five kinds of modules:

* `Verif/Py/*.lean` – meaning of the Python / numpy primitives the code uses
  (`%`, `math.floor`, `atan2`, `np.interp`, `str.split`, stable `sort`, dict …).
* `Verif/Model/*.lean` – the model, function by function.  Every definition has
  a comment with the file and line range of `/repo` it transcribes and the
  simplifications made.  Exceptions are values (`Except`/`Option`), loops are
  folds or structural recursion, mutable arrays / module globals are explicit
  state.
* `Verif/Spec/*.lean` – small specifications written without the model's
  helpers (e.g. "differs by a whole number of turns", "is the nearest point").
* `Verif/Lemmas/*.lean` – helper lemmas.
* `Verif/Props/*.lean` – the property theorems only, named `Cnn_...`, each
  followed by an `example` that instantiates its hypotheses on a concrete
  non-trivial case.

## 2. Trusted base

* Lean 4.33.0 kernel, and Mathlib's definitions of ℝ, sin, cos, arccos, arg, …
  Theorems depend at most on `propext`, `Classical.choice`, `Quot.sound`
  (`#print axioms` on all of them is in `lean/Verif/Audit.lean`).
* No own axioms, no `sorry`, no `native_decide`, no `bv_decide`.
* Reading of the Python source: the code is not executed here; the only tie
  between model and code is the transcription, cited per definition.
* **Floating point**: arithmetic is over ℝ (or ℚ for literal coefficients).
  Rounding, overflow and NaN/inf propagation are not modelled, except where the
  code itself produces NaN/inf as a value (`np.interp` out of bounds, unmatched
  distances, 0/0 of a score), where they are explicit values (`none`, or the
  pseudo exception `PyErr.nanResult` when a NaN would be the result).
* **Exceptions** are values of `PyErr` (`Verif/Py/Real.lean`); `sysExit n` is
  `sys.exit(n)`.  Warnings, log messages and prints are left out, except where
  a property is about them (C34, C46, C47).
* **Linear algebra** (`Verif/Py/LinAlg.lean`): `np.linalg.inv/solve` are exact
  and raise exactly for determinant zero; `cho_factor` succeeds exactly for
  positive definite matrices.
* **External routines** are parameters with an explicit contract stated as a
  hypothesis of the theorem: KD-tree queries, `argsort`, table sorts,
  `linear_sum_assignment`, `leastsq`/`minimize`/`fmin` (only "not worse than the
  start" where needed), `interp1d(kind='cubic')`, text to float conversion,
  canny edge detection and image rotation, stamp centroid fit, the matching
  routines inside `findfiducials`.  Where a contract is used there is an
  `example` that some routine fulfils it.
* **Text and files**: python strings are `List Char` with ASCII upper/lower
  case; dictionaries are insertion-ordered key/value lists (`Verif/Py/Dict`);
  JSON text encoding and decoding are taken to be inverse to each other, so JSON
  documents are trees; the file system is a function from names to contents;
  `grep` is substring search; interactive input is a list of typed lines.
* **Runtime**: process scheduling is modelled only where a property is about it
  (C55: any division into chunks, any completion order; C51: kills at any
  point).

Not modelled at all: the figures of plotting scripts (their selections and numbers are, where listed), pixel level image processing (canny,
rotate, convolution, PSF stamps: parameters), the SQL text, FITS input, command
line parsing, desktop scripts that only convert
formats.

## 3. Plan per property

| id | modelled | how proved |
|----|----------|------------|
| C01–C05 | `xy2tp`, `tp2xy` over ℝ with exact branch structure | law of cosines; atan2 = `Complex.arg`; reflection is an isometry; case analysis over the six options |
| C06 | `_wrap_into_range` | floor arithmetic; iff with existence of an integer turn count |
| C07 | `int2loc`, `loc2int` (no guess) | from uniqueness of the elbow-up solution |
| C08 | `delta_angle` per element | Python `%` with signed divisor as `a - b*⌊a/b⌋` |
| C09 | list/broadcast helpers | induction on lists |
| C10 | `Rxyz`, `ptl2fp`, `fp2ptl` | matrix orthogonality, determinant |
| C11 | `np.interp` over a list of knots; the 501-row table as data | generic theorem for strictly increasing knots, table facts by kernel evaluation over the whole table |
| C12 | `r2s`, `s2r` polynomials | explicit rational bounds on the derivative and on the residual polynomial |
| C13–C18 | `trig.py`, rotations of `radec2tan.py` | vectors in ℝ³, lon/lat ↔ unit vector lemma |
| C19 | `radec2tan`/`tan2radec` pipeline parameterised by the correction switches | composition; the pointing goes through the same pipeline as targets |
| C20 | refraction formulas | monotonicity of tan; explicit bounds |
| C21, C22 | `SimpleCorr` | 2×2 algebra; normal equations with unique solution |
| C23 | JSON documents as key/value records | round trip per class; negative theorems where names disagree |
| C24 | reduce/expand, fixed point loop | loop invariant; contraction |
| C25, C26 | 33 basis terms as polynomials, index conversion | `HasDerivAt`; arithmetic on triangular numbers |
| C27 | ADC averaging, rotation sandwich | complex exponentials |
| C28, C29, C39 | bitmask, parser, DNF selection on strings | induction on bits / lists |
| C30–C33 | matching code over lists, nearest neighbour/assignment as contracts | invariants of the folds |
| C34, C35, C43, C52 | module globals as explicit state | refinement "result is a function of the arguments" or refutation with a witness history |
| C36 | key encoding | arithmetic; collision witness |
| C37, C38, C40, C41, C42 | averaging, circle fit, windows, filters, outcome logic | list induction, algebra |
| C44–C51 | decision logic of the `bin/` scripts | invariants over row lists and user-input streams |
| C53 | control flow of `fvc_proc` | case analysis over the sequence loop |
| C54 | Gaussian-process formulas with `Matrix` | matrix algebra |
| C55 | template normalisation as state, any permutation of tasks | idempotence |
| C56–C60 | small functions | direct |
| C61–C63 | further fits, spot matching wrapper | least squares lemmas, list induction |
| C64–C65 | guide cameras, motion flags | C22 reused, fold invariants |
| C66 | desimeter to PlateMaker transform | least squares, round trip, functional characterisation of the fit |
| C67–C70 | guide star fit, catalogue, field fit, field rotation | least squares, exact data, decision logic |
| C71 | positioner parameter fit: outliers, exact data, rms | loop invariant, compactness (a best fit exists), exact data |
| C72 | local polynomial turbulence correction | refinement to least squares over equations, exact data, invariance |
| C73 | turbulence from files, loss functions | join by location, likelihood through Cholesky factor |
| C74 | Echo22 optics model | uniqueness of least squares, exact rational solution, certified polynomial bounds |
| C75 | moving positioner detection | specification of the matching, triangle inequality, exactness of the affine fit |
| C76 | int2ptl, ptl2int | composition of C01, C02, C12 |
| C77 | get_poscoords | refinement of queries and loops to in-force calibrations, witnesses |
| C78 | desi_fit_circles | invariant of the gathering loop, iff characterisation of the rows, exactness through C38 and C12, witnesses |
| C79 | write_focal_plane_metrology | induction over the rows of each patch, iff characterisation of success and of the rows written, rigid motion (C10) for the camera height finding |
| C80 | write_gfa_patch | the calibration table as an inductive relation, offsets invariant under shifts so that the loop is constant from the second turn, averages and unique rows as iff lemmas, then C64 applied to the corners written |
| C81 | get_posmoves_with_fvc_data | induction over the images with the file system as state, last-wins dictionaries as `getLast?` of a filter, the key `1000 n + k` injective on three digits, Forall₂ between the turns of the loop and the files written |
| C82 | get_posmoves_with_fvc_data_using_dates | the image found by index equals a declarative first-after relation with uniqueness; a functional measurement relation makes the last-wins dictionary irrelevant; the loop over positioners as Forall₂; invariant on the carried variable for the findings |
| C83 | analyze_pos_performance: read and its filters | each filter equals a declarative condition: infixes of joined texts for the notes and the names of flags (with C28), lexicographic order of texts with a common length for the dates; permutation of a filter under any sort; fold over the files |
| C84 | analyze_pos_performance: identify_moves and removal of rows | the fold over the tokens equals the last token of each kind; invariant of the loop over the rows with closed forms for the counters; norm kept by rotations for corrections; membership in filters for the orphans |
| C85 | analyze_pos_performance: tags, avoidances, accepted, sequences | round trip of split and join; first occurrence of a two-character separator by induction; text search in the names of flags reduced to bits with C28; last token as in C84 |
| C86 | analyze_pos_performance: quantiles and statistics | the loops equal a map over the rows; the last assignment in a descending list is the least element; order statistics of the sorted list (positions, monotone cutoffs, counts); strictly monotone fractions; invariant from the statistics of one positioner to the summaries; inequality of means and squares |
| C87 | analyze_pos_performance: errors and report | columns equal a map over the rows; round trip of flattened coordinates to 5 microns with triangle inequality; injectivity of flattening from its slope; law of cosines; order of the sorted table; bounds of the ceiling divisions |
| C88 | Global refit of the camera transformation | optimality from the least squares theorem of C62 through the pixel normalisation; similarities are combinations of the fields 0, 1, 2, 27; dimension argument for too few points; inverse from C24; row by row specification of the gathering loops as an equivalence; witness where one point at (0,0) rejects all others |
| C89 | Ray and conic surface | quadric and sag as equations; first crossing as least positive root of the line in the quadric; equivalences for hit and miss; witnesses on spheres |
| C90 | Normal, mirror and refraction of a ray | derivative of the height by HasDerivAt, Snell's law as equations of a unit vector, iff for refraction and total reflection; reversal |
| C91 | Frames of the surfaces | matrices over the reals, membership in the special orthogonal group, surjectivity of the angles |
| C92 | Apertures and spiders | strip in coordinates along and across the leg; equivalence; invariance; witness for the double roll |
| C93 | Path of a ray through the telescope | inductive relation Path in lab coordinates, by induction on surfaces; uses C89 to C92 |
| C94 | Turned telescope and dispersion corrector | equivariance of every step under rotations; induction over surfaces; symmetric surfaces commute with rotations about the axis |
| C95 | Intercept with aspheric surfaces converges | contraction of Newton steps with a difference quotient; existence and uniqueness of the crossing by the intermediate value theorem; parity argument for the ray without crossing |
| C96 | Tables of the ray tracer | rows as functions of headers (last column wins), equality of the column loops with it by induction on columns; Forall2 for the rectangle; equivalences for acceptance |
| C97 | Runs of the ray tracer | equivalence of getNine with a specification in terms of final rays; induction on wavelengths; permutations of the pupil; rounding for the grid |
| C98 | Fit of the ray traced table | sorted keys, contract of cubic interpolation, optimality of the fit C62, polynomials and an explicit elimination for eight points |
| C99 | Empirical covariance of the displacements | position found by a search among increasing edges, sums over pairs exchanged with sums over bins |
| C100 | Errors and covariances of fitted parameters | invariant of the columns over the windows, keys of the form COV.a.b injective for names without a dot, matrix algebra |
| C101 | PSF and centroids of spots | fundamental theorem of calculus, Cauchy mean value theorem for the independence of the derivatives, simulation of the iteration under symmetries |
| C102 | Listing of possible matches | invariant of the dictionary under the loops; law of cosines; uniqueness of the intersection of two circles on one side |
| C103 | Columns of the output of fvc_proc | case analysis of columns, C30 reused for the matching, fold lemmas for assignments by index |
| C104 | Start values of circle and parameter fits | Fréchet derivatives of sums of distances, majority of medians, C38 reused |
| C105 | Prediction of the rotation of the field | case analysis of options and headers, C56 and least squares reused |
| C106 | Update of the metrology patch | fold invariants, median of a list with repetitions |
| C107 | Distances, moves and centres of fiducials | fold invariants, partition of counts |
| C108 | Choice of files and calibrations | fold invariants, iff characterisations, counting |
| C109 | Metrology of the petals tested on the ground | fold invariants on top of the theorems about the patch, iff characterisations of success |
| C110 | Triangles ordered by their sides | induction on the list, case analysis of the sorting, algebra of similarities |
| C111 | Field model fitted to guide stars by the script | iff characterisation of success on top of C68 and C69 |
| C112 | Knees of positioners found in front illuminated images | on top of the matching of C30; decision logic; trigonometry for the findings |
| C113 | Positioners within error thresholds over time | invariant of the loop over dates; sorting; finite sets |
| C114 | Comparison of desimeter with platemaker | bits of numbers; filters and joins of lists |
| C115 | Residuals of the spots of an image | index bookkeeping by induction; inequality of means of filtered lists |
| C116 | Comparison of desimeter with dithers | joins of lists; normal equations with exact data; floor arithmetic |
| C117 | Requests in the legacy performance analysis | induction over the rows; splitting of texts; round trips of the transformations |
| C118 | Moves of a positioner drawn | loop over petals as an assignment by petal; broadcasting of arrays; round trip of fp2ptl |
| C119 | Plots of fitted parameters | loop of reading as a filter; results depend on the set of rows; sort as any ordered permutation |
| C120 | Data read once per process | induction on the sequence of calls with the module variables as state |
| C121 | Alignments exported from the data base | the dictionary after a fold is given by last rows; composed with C120 and C10 |
| C122 | Functions of the distortion orthonormal | Rodrigues' formula and integration by parts for all orders; polar coordinates; an exact integer Gram matrix of the fields |
| C123 | Maps and series of spots drawn | curves by value are a permutation of the table; dictionaries after folds |
| C124 | Conversions without height, alignments shipped | the residual of the round trip as a rotated vector; numerical bounds of π; a separating line between sectors |
| C125 | Round trip of the sky with every correction | distances of directions in Euclidean space; the reflection in coordinates against the reflection in space; closed form of the rotation between two axes |
| C126 | Errors in the tangent plane carried to the sky | Lipschitz bounds of each step in distances of directions: projection, inverse refraction by concavity of the sine, reflection of the aberration; scales near one for the fitted field |
| C127 | Detection of spots in an image | model of the whole chain by composition; medians and clipped means under shifts and scalings; bounds by counting; a simulation of the removal of duplicates |
| C128 | Queries of the database and import of pinholes | dictionary built by a loop equals the last match; text replacement by the lemmas on split; integer arithmetic for identifiers |
| C129 | Errors of positions and angles | complex form of the linkage; law of cosines for differences; chords and angles |
| C130 | Errors between motor angles and petal coordinates | distances in polar coordinates under a radial map with bounded slope; composition with C76 and C129 |
| C131 | Noise in the fit of positions | orthogonality of the residuals from minimality, Pythagoras, splitting of affine maps at the mean |
| C132 | Noise in the fit of the distortion | Pythagoras for the normal equations, linearity of the solution |
| C133 | The transformations shipped can be inverted | rational bounds of size and steepness of all 33 functions on squares, evaluated for the coefficients of the files, contraction (C24, C27) |
| C134 | From the image to the focal plane | composition of C127, C58 and C133 |

Where the unchanged code violates the written property, the refutation is
proved with a concrete witness and the strongest true variant is proved with
suffix `_partial`; these cases are collected in section 4.

## 4. Disagreements found between the code and what it promises

Each line is a theorem about the unchanged code (a proved refutation with a
witness, or a general negative statement); the property texts say the same
and the remaining theorems of the property give what does hold.

* `C03_no_guess_misses_reachable` – (disagreement with the docstring "unreachable ... True if the requested xy cannot be reached by any tp"): without a guess only the configuration with phi in 0..180 is tried, so a target that an in-range configuration reaches exactly can be flagged.
* `C08_scalar_start_vector_final_raises` – (disagreement with the docstring "All of the above inputs can be either a scalar or a vector"): a scalar start with a longer array of final angles and a scalar direction always raises `IndexError`.
* `C08_docstring_turns` – (disagreement with the docstring "0 -> 720, direction -1 --> 720"): the code returns -720.
* `C11_z2r_always_nan` – (disagreement): the Z column *decreases*, so numpy's bound checks reject every argument and `z2r`, `z2s` return NaN for all z, in particular for every z that `r2z` returns.
* `C12_centre_residual` – (disagreement with the comment "residuals are < 0.4 microns"): the centre of the focal plane maps to s > 3.6 µm and comes back displaced by more than 4 µm.
* `C18_obtuse_fails` – (disagreement): beyond 90° the arcsine picks the wrong angle and the first axis is not carried onto the second.
* `C20_order_fails_at_horizon` – The order of altitudes is not kept near the horizon: 0.1° is sent above 1°.
* `C21_tancorr_offset_applied_twice` – With a pointing offset `TanCorr.apply_inverse` is not the inverse of `TanCorr.apply`: it applies the same offset a second time (the origin ends at `-sin(2 dha)`).
* `C22_stale_rotation` – When the data contain no rotation, a reused object keeps the rotation of its previous fit, so the returned transformation is the true one composed with the stale rotation.
* `C22_stale_rotation_witness` – Concretely: identical catalogues fitted with an object whose previous fit found 90° give a transformation that sends (1, 0) to (0, 1).
* `C22_solid_not_optimal` – `solid=True` is not the best rigid fit when the data are also scaled (the scale is fitted, then dropped without refitting the offset).
* `C23_simplecorr_unreadable` – What `SimpleCorr` writes it never reads back: the reader insists on another name, so the explicit error `AssertionError` results for every object.
* `C23_tancorr_unreadable` – The same for `TanCorr`.
* `C23_fieldmodel_same_iff` – So the reloaded field model is the written one exactly when all three switches were on; otherwise it is silently a different model.
* `C28_zero` – The value 0 has no names, and its joined names (the empty string) raise KeyError instead of giving 0 back.
* `C30_empty_second` – With an empty second catalogue one entry of a non-empty first catalogue is still reported as matched, to index 0 which does not exist, at infinite distance.
* `C31_error` – The matching fails (IndexError) exactly when the first catalogue has three or more entries and the second has fewer.
* `C33_nothing_in_range` – When no usable spot is closer to a positioner than the largest reach plus 0.1 mm (for instance when there is no usable spot) the routine raises an error (boolean indexing with an empty array) instead of returning an empty assignment.
* `C33_out_of_reach` – An assigned spot need not be within reach of its positioner: the solver always assigns as many spots as possible, so when nothing is within reach every reported pair has score 0, and there is at least one as soon as there is a usable spot and a positioner.
* `C34_path_ignored` – The file and time stamp options of a call are ignored when a logger of that level exists already: for every path there is a history after which asking for a log file gives a logger that never writes to it.
* `C35_stale` – The pixel positions of the pinholes are computed once per process. If the transform of the first call puts them on a line, every later call raises LinAlgError, whatever transform and spots it is given.
* `C35_history_matters` – A call that labels all twelve pinholes of three fiducials in a new process raises LinAlgError after a call with another (unusable) transform.
* `C36_collision` – With pinhole number 10 (as `spotmatch` numbers pinholes) the key of a spot is also that of the positioner at the next LOCATION, and the fit stops with an exception (2 against 3 entries) although every spot has its metrology entry.
* `C38_three_points` – With two or three points the direct estimate is not a circle through them: its centre is their centre of mass.
* `C38_three_points_rejected` – `fit_circle` can therefore reject three points of an acceptable circle, whatever the least squares routine does: radius 3, three points on an arc of 23 degrees.
* `C38_robust_second_outlier` – Of two or more wrong points only one is ever rejected: another point that is off the circle by any amount up to that of the worst one stays marked as good.
* `C39_empty_clause` – An empty clause, for example after a trailing `|`, selects every row.
* `C40_tail_unused` – Rows after the last datum date are in no window (the datum grid stops before the last row, `np.arange(min, max, period)`): up to one period of the latest data is never used.
* `C40_single` – One datum date: the windows end after `w`, `2w`, ... rows and at the last row, so that the last one holds the whole table. Finding: they all start at row 0 instead of being `w` rows long.
* `C41_cruise_first_row` – The filter on cruise moves (not in the default list) is documented to keep the first row always, but it compares the cruise counters with the counter of move sequences: a first row with `cruiseT + cruiseP = 2 * (moveSeq - 1)` is dropped.
* `C42_empty_table` – The flag "empty input table" is never written for an empty table: the run ends with RuntimeError and no file.
* `C42_same_time` – When all rows left by the filters have the same date there is no window, and the run ends with KeyError and no file.
* `C42_new_sequence` – The windows of a positioner can only be tabulated when no window brings in a sequence parameter (EPSILON) that the first window does not have; otherwise the whole program ends with exit code 12, so that no result file is written.
* `C42_sequence_ten` – With the sequences 1 and 10 (or any two numbers of which one is the start of the other) the column of the second is renamed after the first, is not found again, and the run ends with KeyError without a result file.
* `C43_default_leak` – A call without nominal values works on the module's default dictionary itself. After a static fit of data with a sequence `s` that was not rehomed, every later static fit of other data without nominal values reports two parameters for that sequence, which it does not on its own.
* `C43_windows_share` – Inside one pass the windows share the dictionary of nominal values: the fit of a window also reports the EPSILON parameters of the windows before it.
* `C43_known_leak` – The column names registered by an earlier positioner in the same process change the outcome: a positioner whose only sequence without rehome is number 10 is processed on its own, but fails with KeyError after a positioner that had a sequence number 1.
* `C44_never_writes` – The routine that loads the nominal positioner locations uses a name that is not imported (NameError); with it, the script never writes a table, whatever is typed.
* `C45_wrong_row` – The wrong row can be kept. Positioner 7 has two rows, the second and third of the table; the user asks for option 1 (its second row) and the program keeps the other one.
* `C46_unoffered_answer` – An answer that was not offered can be returned: after any first line that is not an offered answer, `no` is accepted although only yes and exit are offered; the confirmation of enabling mode then goes on.
* `C47_written_despite_mismatch` – The program writes its output although every location disagrees.
* `C48_history_fails` – `--enabled-history` without `--tp-updates` always fails: the X_FP column needed for the last filter was not requested from the data base.
* `C48_movers` – The documented `--pos-ids movers` is taken as a positioner name, so nothing is processed when (as always) no positioner has that name.
* `C49_html_drops_rest` – The html pages list only the full groups; the remaining `len % g` positioners are in none of them.
* `C50_asymmetric` – When the lists are not symmetric (which happens as soon as a positioner has more than six others within 12 mm, because only seven are looked up) a group can contain a positioner and one of its listed neighbours.
* `C51_failure_not_retried` – A failing run is recorded as done, so running the jobs again never retries it.
* `C52_collision` – The cache name ignores the directory (and the .fz ending): after processing one image another one gives the table of the first.
* `C52_gz` – An image named *.fits.gz never gives a table: the name of its output does not end with .csv, which the processing refuses.
* `C53_zero_without_output` – An image with too few (or too many) spots gives code 0 and no table.
* `C53_last_misses` – So when the numbering does not start at 0 it is not the last one.
* `C54_gradwavefront_uses_self` – In the gradient model `excludeself` does not leave the fibre out: for every parameter set there are two fibres with all offsets zero except the y offset of the first, and the x turbulence found for that same first fibre is not zero (with that offset zero it is zero).
* `C54_stationary_nonfinite` – With clipping on, a NaN or infinite entry in the stationary fibres makes the call fail (unless exactly one fibre is finite): the mask of all fibres is combined with conditions on the finite fibres only.
* `C54_stationary_clip_value` – The value of `clip_resid` has no influence beyond its sign: the residual limit is always 0.01.
* `C55_one_scale_spoils` – If at a single one of the five smoothing scales no edge is found inside the mask (or the template is zero there), the result is NaN with the angle -100 degrees, whatever the other scales give.
* `C57_adc_difference` – The difference of the two default ADC angles depends only on the distance from the zenith, grows in size (is more negative) with that distance up to 60 degrees and is constant from there on. It is not zero at the zenith but -0.0366 radians, which is also its smallest size.
* `C57_platemaker_order` – With the platemaker transformation the way back is not the inverse of the way there, even when `pm2dm` is the exact inverse of `dm2pm`: the change of coordinates is undone before the rotation instead of after it. For a shift along X, two different points that are turned by `δ` on the way there come back to themselves, whatever the angle `δ'` of the rotation on the way back, only if `δ` is a whole number of turns.
* `C58_coincident` – For exactly coinciding detections the brighter one can be the one that is removed: a correct tree may name the spot itself as its second neighbour.
* `C58_hundred` – At most 100 duplicates are removed: of 102 detections at one place at least two are left.
* `C58_position` – Where a fitted stamp position ends up. The stamp of a pixel at least three from the low edge starts three pixels before it. If the pixel is also at least three from the far end of its axis the reported coordinate is the fitted one; in the last but one row or column it is one pixel too large. Within three pixels of the low edge (image at least seven wide) the stamp is empty and the detection ends with `LinAlgError`.
* `C63_default_transform` – **C63 disagreement**: pinhole references and device centres are written with the default transform whatever transform is given.
* `C63_stale` – **C63 disagreement**: when the program succeeds without writing its file, the call returns the result of an earlier call.
* `C63_truncated` – **C63 disagreement**: a device identifier of more than seven characters is cut, and a pinhole without centre row gets number 0, which the documentation reserves for positioners.
* `C64_incomplete` – **C64** One petal with a number of corners other than four (or none) makes the call fail for all petals.
* `C64_cached` – **C64** After a first successful call the transforms are kept: later calls give the same answers whatever the metrology file has become, even if it cannot be read any more.
* `C65_phi_never` – **C65 disagreement**: PHI_STUCK is never reported, whatever the data: the names of the result are none or THETA_STUCK.
* `C66_half_updated` – **C66 disagreement**: a failing fit is not without effect. With PlateMaker positions all at the centre the fit of a new object raises LinAlgError, and afterwards `dm2pm` sends everything to the centre while `pm2dm` is still the identity.
* `C67_nan` – **C67 disagreement**: without rotation the fitted `syy` is NaN, after a quarter turn (or mirror) `sxx` is NaN, although the data are exact.
* `C67_identity_nan` – **C67 disagreement**: two identical catalogues give no usable correction.
* `C68_wrap` – **C68 disagreement**: near right ascension zero good stars are lost: a star measured at 359.9999 degrees with catalogue position 0.0001 degrees (0.72 arcsec apart) is dropped, while the same two positions shifted by one degree are kept.
* `C69_stale_lst` – **C69 disagreement**: an object used for a second exposure keeps the sidereal time of the first one: with a new time as argument and no sidereal time, the sidereal time of the new time is not used.
* `C69_no_rotation_nan` – **C69 disagreement**: with exact data without rotation the fitted model is useless: every result of `radec2fp` and `fp2radec` is NaN.
* `C70_not_the_angle` – **C70 disagreement**: so the reported value is not the rotation angle: for `0 < θ ≤ 180` it is smaller.
* `C70_bounded` – **C70 disagreement**: whatever the rotation, the reported value never exceeds 57.3 degrees.
* `C71_rms` – **C71** (finding) The reported rms divides by the number of points given, not used: it is the rms of the points used times the square root of the fraction used, so too small as soon as a point is left out (unless all residuals are zero).
* `C71_too_few` – **C71** (finding) When so many points are left out that fewer remain than there are free parameters, the call ends with a `KeyError` (the flag asked for does not exist) instead of a result flagged as failed; nothing else in the loop raises it.
* `C71_degenerate` – **C71** (finding) In static mode the offset and the drifts cannot be told apart when every sequence has a measurement not recently rehomed: adding any angle to OFFSET_T and taking it off all EPSILON_T changes nothing. So a measurement with `recent_rehome`, which the code asks for (line 154), does not help when others of its sequence have none.
* `C71_twenty` – **C71** (finding, witness) Twenty is not enough: with 25 points out of 100 off by 1 mm, the result is reported with five of them still in.
* `C71_too_few_witness` – **C71** (finding, witness) Three points, one 1 mm off, three free parameters: a `KeyError`.
* `C72_outside` – **C72** (finding) One fibre measured farther than the window from where it is expected makes the whole call fail.
* `C73_loss_docstring` – **C73** (finding) The loss is not, up to a constant, minus one half of the logarithm of the likelihood as the comments say: with a fibre at the origin, between an offset 0 and an offset 2 (noise 1, no correlated part) it changes by twice as much.
* `C74_origin` – **C74** (finding) The centre of the tangent plane is not mapped to the centre of the focal plane but 0.1 micron along x.
* `C75_neighbours` – **C75** (finding) Two requested neighbours 10.4 mm apart, both fibres within 6 mm of their own centres: the fibre of the first is written under the name of the second, and the first is missing.
* `C75_no_limit` – **C75** (finding) The limit of 50 pixels is not applied: every nearest spot is used, whatever the distance; for instance a single spot 1000 pixels away.
* `C77_later_calibration` – **C77** (finding) With an exposure id the calibration of a row can be one recorded *after* its move: it is the one in force at the time of the last move of the exposure on the petal.
* `C77_early_move_of_another` – **C77** (finding) A positioner first calibrated between two moves of an exposure stops the script although there is a calibration before its own move.
* `C77_nothing` – **C77** (finding) An exposure without moves on the petals asked for is not an empty file but a TypeError.
* `C78_crash` – **C78** (finding) When the script ends with an error: exactly when some positioner has at least six measurements, all of them with first coordinate 0. The error is a `TypeError` of the least squares routine, which the script does not catch, and nothing is written.
* `C78_axis` – **C78** (finding) No row is written for a pinhole expected exactly on the axis `X = 0`, whatever was measured: zero stands for "not fitted" in the script.
* `C78_short_arc` – **C78** (finding) Only `X` is looked at to tell whether a positioner moved. There are six measurements of one moving on an arc of a circle of radius 3 mm, more than 2 mm along `Y`, to which the circle is fitted exactly, and yet no row is written.
* `C78_two_measurements` – **C78** (finding) The six measurements asked for are counted before those with `X = 0` are dropped. There are six measurements of which two are usable, on a circle of radius 3 mm, for which a row is written; its centre is the point half way between the two, more than 2 mm from the centre of the circle on the curved surface.
* `C79_gfa_z` – **C79** (finding) The petal coordinates written for these camera rows are not those of the pixel: they are taken back by the alignment of the petal to a point whose distance to the focal plane coordinates of the same row is the difference between the height in the focal plane and the height in the petal.
* `C81_same_name` – **C81** (finding) Of two images with the same name in different directories, the second is never looked at: it gets the table of the first, that is the positions measured in another exposure.
* `C81_overwritten` – **C81** (finding) With `--pos-ids` and two petals, the file of a positioner of the first petal is written again for the second one: the rows are lost.
* `C81_minus` – **C81** (finding) A range `a-b` of exposures, which selects the images of the exposures from `a` to `b`, is a subtraction in the query: no move of an exposure with a positive number is written, whatever was measured.
* `C81_colon` – **C81** (finding) The other two ways of writing a range stop the script as soon as there is a positioner.
* `C81_null` – **C81** (finding) Without `--exposure-ids`, one move recorded without an exposure number stops the script.
* `C82_second_petal` – **C82** (finding) The variable `tstamp_fvc` is overwritten for the first petal, so that the second one is matched with wrong images. When all moves of two petals are between the first and the second image, the image for them is the second, and it is used for the first petal, but all positions of the second petal are taken from the first image, made before the moves.
* `C82_stops` – **C82** (finding) With fewer times for the first petal than images in the table, a move of the second petal after the last image, which has no image and is passed over when the petal is alone, stops the script.
* `C83_last_day` – **C83** (finding) the rows of the last day asked for are left out: for dates with a time of day the last day kept is the one before `--date_max`, though the help says that rows later than it are excluded.
* `C83_matched_center` – **C83** (finding) the search for `MATCHED` also finds `MATCHEDCENTER`, so rows of spots matched only to the center of a positioner are kept.
* `C83_zero` – **C83** (finding) a measured position with a coordinate of exactly zero counts as not measured.
* `C84_first_row` – **C84** (finding) a correction in the first row takes the measurement of the last row of the table for the one before.
* `C84_orphan_left` – **C84** (finding) rows of submoves can remain without the first submove of their move: it is removed after the search for orphans when its request is incomplete.
* `C84_no_number` – **C84** (finding) a token that is only the word `move` stops the program.
* `C84_token_order` – **C84** (finding) the order of the tokens of a note matters: a request before the number of the submove is taken as it stands, after it it is replaced for corrections.
* `C85_bare_sequence` – **C85** (finding) the word `sequence` alone as a token stops the program.
* `C85_cut_name` – **C85** (finding) a name that contains a colon and a space is cut there.
* `C85_bare_avoidance` – **C85** (finding) the words `collision avoidance` alone as a token stop the program.
* `C86_dropped` – **C86** (finding) one submove without accepted rows removes all rows of the positioner from all results.
* `C86_one_level` – **C86** (finding) if the errors of each submove are all the same, for example if there is one row for each submove, then the only level of the summary is 1, said to be 63 % of the targets, although all of them are within.
* `C86_meta_rejected` – **C86** (finding) the number of targets reported with the statistics of accepted targets includes those that were not accepted.
* `C87_images_across` – **C87** (finding) the first row of a later exposure, if its iteration is not zero, gets the difference from the last iteration of the exposure before, which may be zero, negative, or the value that stands for an unknown number.
* `C87_submoves_lost` – **C87** (finding) of several submoves only the first one is named, also where the text is in the plural.
* `C87_same_name` – **C87** (finding) different sets of exposures can have the same text, which is the name of the output files: it is determined by the first, the last and the number of exposures.
* `C88_unmatched` – **C88** (finding) One circle that is not in the other metrology table spoils the refit: two circles that agree exactly with the metrology give a result (`C88_runs`), with a third one that gets the position (0, 0) the first fit puts at most one of the three within 0.08 mm, and there is no result.
* `C88_shifted` – **C88** (finding) With another list of fields than the one in the file the first fit starts from the wrong distortion, because the stored coefficients are assigned to the new fields by position: a pure shear (field 3) in a file with the usual thirteen fields becomes a rotation (field 27) with the list 0, 1, 2, 27.
* `C89_no_linear` – **C89** (finding). When the linear coefficient is zero and the other two are not, no nonzero number returned is a root, and no root is returned: the sign of `C/A` is wrong.
* `C89_from_centre` – **C89** (finding). A ray from the centre of curvature straight to the vertex of a sphere is reported as MISS although it hits the surface at the vertex.
* `C89_phantom` – **C89** (finding). A ray that does not meet the sphere at all is reported as a hit, and is moved to a point that is not on the sphere.
* `C89_grazing` – **C89** (finding). A ray that touches the surface without crossing it is reported as MISS.
* `C89_coincident` – **C89** (finding). A ray that is on a plane surface already (two surfaces in the same place) is lost there.
* `C90_flange` – **C90** (finding). On the edge of the conic and beyond, the normal is that of a plane across the axis (unless a polynomial is present), whatever the curvature.
* `C90_grazing` – **C90** (finding). A ray exactly along the surface is let through into the denser glass with a direction that is not of length 1.
* `C92_double_roll` – **C92** (finding). The roll of a surface turns its spider twice: once through the frame of the surface and once more in the test. The leg that the table puts at `roll` degrees stops the rays that arrive at `2 roll` degrees in the lab.
* `C95_phantom` – **C95** (finding). A ray that never meets the surface is reported as passing it, at a point that is not on the surface: nothing tests whether Newton's method has converged.
* `C95_zero_slope` – **C95** (finding). A slope of zero is divided by: a ray gets coordinates that are not numbers.
* `C96_bare_A` – **C96** (finding). A header with `A` but no number (a column `Area` or `Author`) is the roll.
* `C96_undefined_names` – **C96** (finding). Headers of Zernike coefficients and of sag files, which the code has names for, end in a `NameError`.
* `C96_comments` – **C96** (finding). Every header that begins with `C` is the curvature, also `Comments`: a last column of comments makes all surfaces flat.
* `C96_numeric_glass` – **C96** (finding). A glass given by its index, which `findRefraction` can use, is refused by the check of the media table unless there is a row of that name, and the exit code is that of success.
* `C96_no_number` – **C96** (finding). Without a number in the title the optics table is read in full but the media table is refused.
* `C96_blank_index` – **C96** (finding). An index that is missing or cannot be read counts as 0, which the refraction takes as 1: the glass becomes air.
* `C97_first_angles` – **C97** (finding). Only the angles of the corrector in the first row are used; those in the other rows are ignored.
* `C97_uneven` – **C97** (finding). If the wavelengths of one call have different numbers of good rays, the call ends with a `ValueError`.
* `C97_negative_wave` – **C97** (finding). A negative number of a wavelength counts from the end: -1 is the longest one.
* `C97_rings` – **C97** (finding). The rings are not closer than `dangle` but farther apart than it, whenever 1.6 is not a multiple of it; with `dangle` above 1.6 there is only the axis.
* `C98_collision` – **C98** (finding). Otherwise the rows of two settings can be fitted as if they were one: the settings (0, 0) and (100, -0.1) have the same key, and only one entry is stored for them, fitted to the rows of both.
* `C98_opposite` – **C98** (finding). The setting (-180, 180) of the table is not used at that setting: there the transformation is the one for the setting (0, 0), turned by half a turn.
* `C98_unusable` – **C98** (finding). With fewer than four settings, or two with the same difference of the angles, the fit succeeds but the transformation is a `ValueError` everywhere.
* `C99_lengths` – **C99** (finding). With given edges the three arrays have the same length exactly if all pairs of rows are less than the last edge apart; otherwise the two with the mean products are one longer than the one with the middles.
* `C99_common_shift` – **C99** (finding). The mean displacement is not subtracted: if all rows are displaced by the same amount, every bin that has a pair shows its square, at whatever distance.
* `C100_scaled` – **C100** (finding). If either list of errors is missing the matrix is multiplied with half the square of the rms: with the x errors given and the y errors not, the y errors are taken as 1 and the result is scaled all the same; with none (the only use in the package) a perfect fit has errors 0.
* `C101_within_a_pixel` – **C101**. Whatever the stamp contains, the fitted position is within one pixel of the centre of the stamp in both coordinates: a spot whose centre is farther from the peak pixel is not found where it is.
* `C95_edge` – **C95** (finding). At the edge of the conic, where the point a little ahead (or behind) is not on it, the slope used in Newton's method is taken as if the surface met the ray there.
* `C102_elbow_side` – **C102** (finding). For a positioner with the angles `t` and `p` of its arms (`p` counted from the first arm, as everywhere in desimeter), the printed elbow is the place of the elbow exactly when `sin p ≤ 0`: for the angles between 0 and 180 degrees that positioners use it is the other intersection of the two circles.
* `C102_uncalibrated` – **C102** (finding). A positioner that is not in the table of calibrations gets an elbow that is not a number, for every spot.
* `C102_petal_drops` – **C102** (finding). `--petal` drops spots that `match_positioners` accepts: it allows a tenth of a millimetre more than the length of the arms, here of one positioner whose arms reach `maxlen`; the spot is a little farther than that.
* `C103_spotmatch_overwrites` – **C103** (finding). With `--use-spotmatch`, X_FP_EXP and Y_FP_EXP of the output are not the expected position but the metrology of the positioner, whatever positions are expected: for the last spot of every location of the metrology whose coordinates are not zero. Of the pinholes of a fiducial the last is taken, not the centre.
* `C104_start_stuck` – **C104** (finding) Positions that do not change count as a circle: a value of `p_int` whose positions are all equal contributes this position as a centre.
* `C104_start_game_over` – **C104** (finding) Three positions on a circle around (100, 0) may give the start value (0, 0): the robust fit gives up without an error, and the zero it then returns is taken as a centre.
* `C105_missing` – **C105** (finding) The message on missing arguments (exit code 12) is only given if the sidereal time could be formed; an hour angle without right ascension, or neither sidereal time nor hour angle nor date, is a TypeError instead.
* `C105_hexpos` – **C105** (finding) The script looks for HEXPOS but the angle is read from FOCUS: a header with HEXPOS and without FOCUS is a KeyError, and the angle of a header with FOCUS and without HEXPOS is not used.
* `C105_variables` – **C105** (finding) The polynomial of `dfieldrotdt`, said to be based on the output of this script, is one in HA/60 where that of the script is one in sin(HA): at an hour angle of 30 degrees both are 1/2, but at 90 degrees they are 1.5 and 1, so the same coefficients give different rates.
* `C107_counts` – **C107** (finding) The numbers printed leave out positioners exactly at the centre: they are neither matched nor unmatched. And the bounds of the numbers (less than 3, 4, 5, 6) are not those of the lists: a positioner exactly at 4 mm is in the list of those below 4 mm but not in the number of those below 4 mm.
* `C108_last_file` – **C108** (finding) Of several files with the same first six characters only the last one is fitted, without a message: the file used for `p` is the last one that belongs to it.
* `C108_pool` – **C108** (finding) With several processes (the default) a positioner whose fit raises an exception leaves no trace: the run always ends with "Complete." and prints the results of the others.
* `C108_repeated` – **C108** (finding) A positioner that was at several device locations has as many rows in the table, all the same.
* `C108_petal_zero` – **C108** (finding) Petal 0, which is in the list of petals of `get_petal_ids` when it has a table, has a location for the other scripts, but stops this one with a KeyError.
* `C109_one_mm` – **C109** (finding) A spot exactly 1 mm from the axis is left out of both tables, but is not among those a warning is written about (below 1 mm).
* `C110_isosceles` – **C110** (finding) A triangle with two equal short sides has two orders of vertices in agreement with its sides, with opposite third numbers: which one is given depends on how the vertices were listed (the comment in the code says that this method is not working well for such triangles).
* `C111_header_time` – **C111** (finding) The time in the header is read but not used if the catalogue has times: headers of another night give the same file.
* `C112_left_over` – **C112** (finding) Lists of different lengths are accepted: the numbers left over are ignored.
* `C112_turned` – **C112** (finding) The distance between tip and knee on the focal plane is not 3 mm if the camera is turned by an angle `t` with respect to the focal plane: it is 3 mm divided by the cosine of the angle, because the size of the pixel is taken from the change of x with x and of y with y only. For a camera turned by a quarter the size is 0 and there is no result.
* `C112_minccf` – **C112** (finding) The option `--minccf` has no effect.
* `C112_petal_angle` – **C112** (finding) Q and S are those of the petal coordinates: for a petal that is turned by an angle `g` about the axis, Q of a row is that of the tip on the focal plane minus this angle.
* `C113_others` – **C113** (finding) Whether a positioner passes depends on the dates of the data of others: here positioner 0 has an error above the threshold and later, the same day, one below. It fails at the end, but if positioner 1 has data some hours later, positioner 0 passes.
* `C113_errors` – **C113** No result: an empty table, less than one bin, less than two edges. (finding) A list of edges typed after `--bins` of plot_posparams is never accepted.
* `C114_sky_not_flagged` – **C114** (finding) A sky fibre, or a fibre without a target, is never flagged, whatever its flags.
* `C114_broken` – **C114** (finding) A target whose only flag is FIBERBROKEN (bit 17) is not flagged.
* `C114_sky_written` – **C114** (finding) A sky fibre is written with the good ones whatever its flags, also when its positioner is frozen.
* `C115_posid_missing` – **C115** (finding) With the expected positions, a coordinates file and positioners to highlight of which the last is not in this file, the script ends with an `IndexError` when there is a large residual.
* `C115_wrong_spot` – **C115** (finding) The same command prints another spot with the residual: here the device and the position of the second spot with the residual of the first.
* `C115_all` – **C115** (finding) A residual of 6 mm or more changes nothing in the rms labelled "all".
* `C116_zero_ra` – **C116** (finding) A spot at RA 0 exactly is left out, as are the ones without a RA.
* `C117_external_angles` – **C117** (finding) requests in `poslocTP`, angles as seen from outside according to the documentation of `pos2ptl`, are read as the internal angles of `posintTP`: the mounting angles are added to them. For a positioner mounted at 180 degrees the request for the angles 0, 0 is put on the wrong side.
* `C117_no_request` – **C117** (finding) when the first row is a correction (submove not 0), or a row of submove 0 has a relative command, there is no result.
* `C117_move_to_range` – **C117** (finding) unlike in the script that replaced it, a note with the token `move_to_range` stops the program: the token is taken for the number of the move.
* `C118_height_ignored` – **C118** (finding) the height Z_FP of the spots is never used in a table with this column: the name looked for is `z_FP`. For a petal turned by 90 degrees about y the point drawn is off by the height of the spot above the nominal surface.
* `C118_low_z` – **C118** (finding) a table with a column `z_FP` but without `Z_FP` ends in a KeyError, unless it has PTL_X.
* `C118_overwritten` – **C118** (finding) with `--outdir` inputs of the same name in different directories have the same image.
* `C119_unchecked` – **C119** (finding) Columns used but not looked for: files with all the columns looked for, but without DATA_START_DATE_SEC, end the run with a `KeyError` when counts are made (after all the work of `bin_errors`); and without one of the columns of static parameters of the dynamic fit when only the plots are made.
* `C119_repeated` – **C119** (finding) A file given twice, as by two patterns that both match it, counts twice in the mean number of points of the title: with two files of one row each and different numbers of points the mean changes.
* `C120_stale` – **C120** (finding) After a change of DESIMETER_DATA from `a` to `b` the metrology is that of `b` while conversions between petal and focal plane go on with the alignments of `a`, and so differ from what a new process with `b` computes wherever the alignments differ.
* `C121_names` – **C121** (finding) The name is looked at only at the end, after all queries, and any `.yaml` in it but at its start counts: also that of a directory or before another extension; a file `.yaml` in the current directory is refused.
* `C123_buses` – **C123** (finding) Numbers of buses are those within a petal: devices of different petals are in the same curve of plot_canbus if the numbers of their buses are equal.
* `C123_marked` – **C123** With one file, spots with the pinhole number 4 are marked. (finding) With several files none is, though each file is drawn.
* `C123_positioner` – **C123** plot_positioner draws, for every location of the list and in its order, the spots of all files with this location, in the order of the files. (finding) With a location given `k` times, every file is used `k` times in each of its `k` curves. It fails exactly if the list is not accepted.
* `C124_tilted` – **C124** (finding) With a tilt, the two conversions without heights are not inverse to each other: here a flat focal surface and a petal tilted about its x axis.
* `C125_pole` – **C125** (finding) At the celestial pole the aberration is not undone: the coordinates are reflected one by one, so the result depends on the right ascension the pole is given. With one right ascension, the direction that comes out is the one with the aberration applied again, at least 17 arcseconds from the pole on the wrong side; with another one it is the opposite point, on the right side.
* `C127_flat` – **C127** (finding) If more than half of the values drawn from the convolved image are the same, no value is accepted, the pedestal is NaN and `detectspots` ends with a `RuntimeError` ("no spot found"), whatever spots there are.
* `C127_noiseless` – **C127** (finding) In particular an image without noise, that is the same number everywhere around more than half of the pixels drawn, has "no spot found".
* `C128_unknown_petal` – **C128** (finding) Petals up to 19 are taken from the database, but locations are known for 0 to 11 only: a table of another petal, such as `positioner_moves_p12`, makes `check_moving` end with KeyError, whatever the other tables are.
* `C128_columns` – **C128** (finding) The metrology file in the repository has no column `Petal ID`: the script ends with KeyError for it.
* `C129_stretched` – **C129** (finding) Near full stretch the error of phi is not proportional to that of the position: the angle for a position at a distance `d` from the rim is at least the root of `d (2 (r1+r2) - d) / (r1 r2)` (radians). For arms of 3 mm and `d` = 0.01 mm it is over 6.5 degrees.
* `C127_edge` – **C127** Finding: in an image of at least seven by seven pixels a single peak above the threshold in the rows or columns 1 and 2 makes the whole detection fail with `LinAlgError`, whatever other spots there are (at most 10000 peaks).
* `C58_small_image` – In an image of less than seven rows and columns a peak less than three pixels from the low edges is fitted on the pixels `n+i-3, ..., min(i+4,n)-1` of each axis (python counts the negative start `i-3` of the slice from the end), which for more than three pixels do not contain the peak; the result is given as if the peak were in their middle.

Seen while reading, not stated as theorems:

* `write_fvc_image_processing_scripts` applies `chmod` to the wrong file.
* `fvc2fp` uses `LOCATION>=0` in one place and `LOCATION>0` in another.
* `findfiducials` passes an extra argument to `log.debug`; when `fp2fvc` raises in
  the first call the module variables stay half set.
* The NORM column of `detect_phi_arms` is that of the last smoothing scale only.

## 5. Model modules: the code each transcribes and what it leaves out

Taken from the head comment of each module; the comments of the definitions
give the lines and further simplifications.

* `AlignExport.lean`: Export of alignments from the data base: bin/load_petal_alignments_from_db The two queries are parameters: the list of versions of snapshots, and the rows (name of the element, constants) for a version. The conversion of a name to an integer is a parameter. The file is described by the version in its first line and the entry of each petal; its date and the order of entries, which `yaml` sorts, are left out, as are connections that fail and files that cannot be opened. Constants are numbers.
* `AverageCoord.lean`: Model of `py/desimeter/averagecoord.py` The table is represented by the coordinates `(x, y)` of its rows in the columns `xkey`, `ykey` (no other column is touched; the first table is modified in place and returned). The printed statistics are not modelled.
* `BinErrors.lean`: py/desimeter/posparams/plotter.py: `bin_errors`, `_ticks`, `_colors` (lines 134-286) Counts of positioners with fit error below thresholds, over time. A row of the table is the positioner, the date in seconds and the error of the mode chosen; dates and errors are real numbers (no missing values), a threshold may be infinite. The sets of positioners are finite sets; the order in which Python lists their elements is not modelled. `dict`s keyed by threshold are functions of the threshold: the values do not depend on where in the list of thresholds it is.
* `Bitmask.lean`: Model of `py/desimeter/bitmask.py` and `py/desimeter/posparams/movemask.py` Bit numbers are natural numbers. The `comment` and the optional `extra` dictionary of a definition are not modelled (they are only stored).
* `Brightimage.lean`: Model of `py/desimeter/brightimage.py` External: edge detection of the normalised stamp (`canny`, lines 31-32 and 52) and image rotation (`rotate`). Images are functions of row and column. NaN is `none`; the template becomes all NaN when its norm is zero. Plotting and printing are left out.
* `Centroid.lean`: Model of `py/desimeter/detectspots.py` lines 11-120: convolution, PSF and centroids `scipy.special.erf` is its definition as an integral, `np.linalg.inv` the inverse of the matrix, `LinAlgError` for a singular one; `fftconvolve(..., "same")` is the convolution with zeros outside of the image. Stamps of integers behave like real ones. The barycenter is for square stamps of odd size (it is not used by `detectspots`).
* `CircleStart.lean`: py/desimeter/circles.py lines 29-58 and posparams/fitter.py lines 319-340 The function which `fit_circle` gives to `scipy.optimize.leastsq` with its Jacobian, and the start values of the centre in `fit_params`. `leastsq` is a parameter as in `Circles`. Over the reals a division by the distance 0 is 0 (numpy: NaN).
* `Circles.lean`: Model of `py/desimeter/circles.py` Points are pairs; the least squares routine `scipy.optimize.leastsq` is a parameter.
* `CovTable.lean`: Covariances: fitter.py lines 397-420 and fithandler.py lines 359-476 From the inverse Hessian of the optimisation to the columns of the table of results. Of the table only the columns with parameters and covariances are kept (the others get one value per window, and their names are not touched here). `Table(output)` is taken to raise `ValueError` exactly if the columns differ in length. The square root of a negative number (NaN in numpy) is not modelled.
* `DataDir.lean`: Data directory and module variables: py/desimeter/io.py lines 35-58, ptl2fp.py lines 11, 41-45 and 74-113, gfa2fp.py lines 11-57 A session is a sequence of calls in one process, between which the environment variable DESIMETER_DATA and the files may change. A file of alignments has the contents that `yaml.safe_load` returns, which is `none` for a file without any entry; files that are no valid yaml or csv are left out. The metrology is read by `Table.read`. Points are single and have three coordinates. The messages are left out.
* `DbQuery.lean`: Model of the queries in `py/desimeter/dbutil.py` (lines 3-44) and of `bin/import_spotmatch_pinholes` The answer of the database is a parameter: names of columns and rows. The conversion `int` of texts is a parameter, `none` is `ValueError`. The SQL text, the cursor and prints are left out. A table and a dictionary of columns are the same thing. Identifiers of pinholes are integers (in the code those of `tmp.csv` are floats with integer values). Left out: the reading of files, and the columns of an output table without rows.
* `Dbutil.lean`: Model of `get_petal_loc` in `py/desimeter/dbutil.py`
* `DetectImage.lean`: Model of `detectspots` for an image (`py/desimeter/detectspots.py` lines 124-259) The pedestal and the noise, and the whole chain from the image to the table: convolution and fits of stamps are those of `Centroid`, the detection of peaks and the removal of duplicates those of `Detectspots`. The pixels drawn at random (lines 146-147) are a parameter, and so is the KD-tree query. NaN is `none`: with a pedestal that is NaN every comparison of pixels is false.
* `Detectspots.lean`: Model of `py/desimeter/detectspots.py`, `detectspots` (lines 124-259) Parameters: the convolved image with the pedestal removed (an `n0` times `n1` grid), its rms, the fit of a stamp (`np.linalg.inv` and the error function are behind it) and the KD-tree query. The fit of an empty stamp is modelled: its normal matrix is zero, so `np.linalg.inv` raises.
* `Distance.lean`: bin/compute_distance_from_center, bin/check_moving and bin/dump_fiducial_centers Distances of positioners from the centres of their patrol areas (lines 28-82, after `process_fvc`), the list of which moves changed the recorded position (lines 61-93, after the query) and the centres of the fiducials. The order of `np.argsort`, which is not stable, is a parameter. A recorded position is `None` or a number; `None` in `ptl_y` becomes NaN, for which `dr>0.05` is false. Prints are replaced by the values in them.
* `DitherCompare.lean`: The comparison of desimeter with dithers (`bin/plot_dither_vs_desimeter`) Modelled: the choice of the exposure (lines 72 to 79), the selection of the dither results (81 to 90), the rows of the table of spots with a RA (95, 96), the joins by location and by fibre (102 to 128), the tangent plane coordinates (154 to 156), the fit (159, 160) and the numbers which are printed of it (163 to 174). An exposure of the dither file is a pair of its number, in the first row, and its column. All values are numbers. Not modelled: the reading of the files, the figure, the clipped rms of `myquiver` (26 to 46).
* `Dm2pm.lean`: Model of `py/desimeter/transform/dm2pm.py` Desimeter to PlateMaker coordinates. Points are treated one at a time (the numpy code works on arrays element by element); a point list for `fit` is a list of quadruples (all arrays have the same length). Files hold JSON documents.
* `Drawn.lean`: Maps and series of spots drawn: bin/plot_canbus, bin/plot_metrology, bin/plot_fvc_spots, bin/plot_positioner A script gives the list of the curves it draws, each with its label and its points; colours, axes and windows are left out. The table of `load_metrology` and the tables of spots are parameters; missing values in them are not modelled. `np.unique` of integers is the sorted list of the values; `np.unique` of texts is a parameter `unique`. A table without a column looked up has a `KeyError`, given for the columns of plot_fvc_spots only.
* `Echo22.lean`: Model of `py/desimeter/transform/tan2fp/echo22.py` `np.polyfit` is a parameter; the two global variables with the coefficients are the state. Reading of the table is not modelled: its rows are in `Echo22Table`. NaN is `none`.
* `Echo22Table.lean`: The table `py/desimeter/transform/tan2fp/data/Echo22Platescale.txt` All 421 rows, first two columns: radius in mm and angle in units of 1e-9 degrees (every value in the file has at most nine decimals, so the integers are exact).
* `EmpCovar.lean`: py/desimeter/turbulence.py lines 608-630: `empirical_covariance` Columns `x`, `y`, `dx`, `dy` of `data` only. `np.searchsorted` is given for increasing `edges` (its result for other arrays is not documented). NaN is not modelled.
* `Fiberassign.lean`: Model of `py/desimeter/fiberassign.py` and of the use made there of `py/desimeter/transform/dm2pm.py` The loaded ray trace fit (`get_raytracefit()`) and the `DM2PM` object read from the data directory are parameters. The log messages (and the values computed only for them) are left out. Target coordinates are finite (the `isnan` test of the field rotation is true for all points).
* `FieldFit.lean`: Model of the guide star fits of `py/desimeter/fieldmodel.py` `TanCorr.fit`, and of `FieldModel`: `read_guide_stars_catalog`, `fit_tancorr`, `compute_fieldrot`, `fp2radec`, `radec2fp`. Not-a-number attributes are `none`. Tangent plane coordinates outside the unit disc (NaN in the code) are not modelled, nor are declinations of exactly ±90 degrees. The routines `gfa2fp`, `fp2tan`, `tan2fp`, `radec2tan`, `tan2radec` and `mjd2lst` (modelled elsewhere) are parameters here.
* `FieldRotRate.lean`: py/desimeter/fieldmodel.py `dfieldrotdt_empirical_model`, lines 496-543 Arrays of `n` directions; the scalar call is the case `n = 1` (lines 516-519 and 540-541).
* `FindFiducials.lean`: Model of `py/desimeter/findfiducials.py` The table of spots is represented by the pixel positions of its rows and by the four label columns; rows are addressed by number, so a column is a function on row numbers. Log messages are not modelled. The transforms are total functions here.
* `FitCases.lean`: py/desimeter/posparams/fithandler.py: row filters and analysis windows `_apply_filters` (257-270) with its filter functions (232-256), `_define_cases` (279-341) and `_row_idx_for_time` (478-491). `Table.sort` of astropy is not a stable sort, so each sort is a parameter: any function that returns a sorted permutation. Only the columns used here are modelled.
* `FitCircles.lean`: Model of `bin/desi_fit_circles` A file is a list of rows; every cell is a number (no masked cells). `scipy.optimize.leastsq` inside `fit_circle` is a parameter. Printed lines and plots are left out.
* `FitHandler.lean`: py/desimeter/posparams/fithandler.py: `run_best_fits` `_read` (166-219), `_process_cases` (343-476) and `run_best_fits` (50-164), with every file written and every way to end. Modelled as parameters: the three table sorts, the conversion to petal coordinates (which can only fail), the fit itself (`fitter.fit_params`, a function of mode, rows and nominal values that may raise and may modify the nominal values) and the choice of the best static values. The covariance columns are in `CovTable`. Printing, the analysis date, and the reading of the CSV file (the table given is what `Table.read` returns) are not modelled. Dates are numbers (DATE_SEC); a date text that cannot be parsed is not modelled.
* `FitLoop.lean`: py/desimeter/posparams/fitter.py: the fit inside `fit_params` Lines 201-317 and 345-397: preparation of the data in dynamic mode, the expected positions, chi2, the loop which discards outliers, the rms. Positions are in flat coordinates (`ptl2flat`, lines 187-196, is applied before). The optimiser is a parameter that maps the function to be minimised to the values of the free parameters (start values and bounds are inside it). Values of parameters are functions of the name; the vector ordering is in `Model/Fitter`.
* `Fitter.lean`: py/desimeter/posparams/fitter.py: what `fit_params` reads and changes `fit_params` (63-425) with the module dictionaries `default_values` and `default_bounds`, which are used directly, not copied, when the corresponding argument is None (lines 119-122), and which the function writes into (lines 205-206 and 338-339). Parameters of the model: the evaluation of the move flags and the circle fits (their results are part of the input, being functions of the data only), the sorted order of the parameter names, and the optimisation (lines 345-390; a function of the data, of the names, start values and bounds of the free parameters and of the fixed values). Covariances are in `CovTable`. The checks on the lengths and types of the data lists are assumed to have passed.
* `FpMetrology.lean`: Model of `bin/write_focal_plane_metrology` Tables are lists of rows with the columns the script looks at; the others are `rest`. A masked cell is `none`. Rows of the patch are copied column by column, in order: the columns of the tables are supposed to be the same. Truncation of strings by fixed width columns, logging, and reading and writing of the files are left out.
* `Fvc2fp.lean`: Model of `py/desimeter/transform/fvc2fp.py` (coordinate transformation)
* `FvcColumns.lean`: Columns of the output of fvc_proc: processfvc.py lines 166-200 and 248-390 Tables are lists or functions on `Fin n`. A missing column is `false` in the record `Columns`; a number that is NaN is `none`. Parameters: the KD tree, the sort, the transforms, the turbulence correction (see C54, C72). `Table.rename_column` raises KeyError if the new name exists; `KDTree` raises ValueError for coordinates that are not numbers.
* `FvcFit.lean`: Model of `FVC2FP.fit` (`py/desimeter/transform/fvc2fp.py` lines 133-227) and of `fit_scale_rotation_offset` (`py/desimeter/transform/zhaoburge.py` lines 266-308) Parameters: `sortS`, `sortM` are `Table.sort(keys=('LOCATION','PINHOLE_ID'))` (not stable), `argsort` is `np.argsort` (not stable), `minimise` is `scipy.optimize.minimize` started at (1,0,0,0). Masked entries and tables without rows (means of nothing) are not modelled: the mean of no distances is 0 here.
* `FvcJobs.lean`: bin/write_fvc_image_processing_scripts An image file of the input list is described by its entries (one per image extension with a usable date, in order, those before the first exception when reading the file fails, lines 58-104). The name of an entry is its output table (line 79). `exist` tells that both output files are there (line 85). The shell commands written per entry (lines 90-101) are executed by `step`; `grep` is taken as a search for the text itself (the special meaning of the dot is not modelled).
* `FvcRefit.lean`: Global refit of the camera transformation (`bin/desi_fit_fvc2fp_using_posparams` and `bin/desi_fit_fvc2fp_using_theta_centers`) Line numbers of the first script, those of the second one (lines marked θ) where it differs. Left out: plots, messages, the JSON text of the transformation (C23). Parameters: `minimise` as for C36, the petal alignments, `r2z`. Tables have the columns the scripts ask for with `in t.dtype.names` as flags, other columns are always there.
* `FvcResiduals.lean`: The residuals of the spots of an image (`bin/plot_fvc_residuals`) Modelled: the selection of the matched spots and the exit code 12 (lines 32 to 51), the number of fiducials (53, 54), the positioners of the metrology with and without a spot (99 to 108), the positioners to highlight (125 to 130), the large residuals and what is printed of them (167 to 184), the two rms (194 to 199). The variable `ii`, which holds the rows of the selected spots, is used again for the rows of the coordinates file (line 128); the model keeps this. All values are numbers; the table has the column DEVICE_ID. The text of a number in a line is not modelled: a line holds the values. Not modelled: the reading of the files, the figure, the rows of the coordinates file without a spot (111 to 123), the positions of the positioners to highlight (148 to 162), the block after `if False` (207).
* `GetPosmoves.lean`: bin/get_posmoves (per positioner processing, lines 78-81, 100-105, 143-146 and 156-217) A move is what the data base returned for one row. The SQL text, the column renaming and the file output are not modelled. `sort` stands for `otable.sort('DATE')`.
* `Gfa2fp.lean`: Model of `py/desimeter/transform/gfa2fp.py` and `FieldModel.all_gfa2fp` A transform with NaN coefficients is `none`, and so are the coordinates it returns.
* `GfaPatch.lean`: Model of `bin/write_gfa_patch` Numbers of the four pinholes are `Fin 4 → ℝ`. `none` stands for NaN (or infinity) in arrays. The table `pkg` is the metrology file of the package (line 129), `met` the one found by `load_metrology`; `r2z` is the nominal height of the focal surface (C14). Writing of the file is left out, as are the columns with constant text.
* `Groupings.lean`: Listing of possible matches: match_positioners.py lines 7-22 and 206-283, bin/desi_print_ambigous_groups Parameters: the KD tree query of all pairs within a radius, the sort of names, the order in which the elements of a set are visited. A coordinate that is not a number or not finite is `none`. The text of a line is a record.
* `Groups.lean`: bin/select_groups_of_positioners The KD tree query is a parameter: for each positioner the list of its (at most) seven nearest positioners, itself included.
* `GuideFit.lean`: bin/desi_fit_guide_star_coordinates The script which fits the pointing, field rotation and scales to a catalogue of guide stars (plots are left out). The header is that of Model/PredictRot, the fit that of Model/FieldFit. Exceptions of the reading of the catalogue file are not modelled. The switches of the transforms are part of `env`, which depends on the two angles of the corrector.
* `Hexrot.lean`: py/desimeter/io.py `read_hexrot_deg`, lines 7-31 The header is a dictionary. `parse` stands for `float(text)`: the number denoted by a text, or nothing when it is not the text of a (finite) number.
* `Int2ptl.lean`: Model of the composites `int2ptl` and `ptl2int` in `py/desimeter/transform/pos2ptl.py` As in `Model/Pos2ptl.lean`, scalars are one-element lists.
* `Json.lean`: Model of the JSON writers and readers `json.dumps` followed by `json.loads` is taken to be the identity on documents (dictionaries of null, booleans, numbers, strings and lists); Python floats are written with `repr` and read back unchanged.
* `Knees.lean`: bin/analyze_bright_image (lines 52-136) The script finds the knees of the positioners (the centres of rotation of the outer arm) from a front illuminated image and joins the metrology. `process_fvc` and `detect_phi_arms` (C55) come before: a spot here has its angle, in radians. The fit of the transform (C61, C63) is a parameter `refit`; the transform it gives is a pair of functions. Angles that are NaN are not modelled. Pixels and metrology are finite numbers, and a query of the tree with a position that is not finite is a ValueError. `int` of petals is left out.
* `LegacyRequests.lean`: Model of `bin/analyze_pos_performance_legacy`, what was requested (lines 155-165, 286-344, 408-499 and 604-623) The table is the list of its rows, given in the order of `sequential_copy`. `float` and `int` are parameters; NaN is not modelled. The numbers of a row are read before the loop, row by row; when several rows cannot be read the script may raise the exception of another one of them. The functions of `pos2ptl` get scalars, here lists of one number, and `float` takes the number out again. The rest of the script is as `bin/analyze_pos_performance` (`Model/PerfRead.lean` to `Model/PerfReport.lean`) and is not modelled again.
* `Log.lean`: Model of `py/desimeter/log.py` The module dictionary `_loggers` is the state. `logging.getLogger` hands out one object per name and nobody else uses the names `desimeter.<level>`. Opening the log file may fail (`canOpen`). Propagation to the root logger (which has no handler unless the program adds one) is not modelled.
* `Match.lean`: Model of `py/desimeter/match.py` (lines 62-202) and of `match` in `py/desimeter/match_positioners.py` (lines 25-35) Arrays of length `n` are functions on `Fin n`. `scipy`'s KD-tree query is a parameter that returns the index of a nearest entry; `np.argsort` (which is not stable) is a parameter that returns some sorting permutation. Index arrays use `none` for -1.
* `MatchPositioners.lean`: Model of `match_positioners` in `py/desimeter/match_positioners.py` Tables are functions on `Fin`; `calib` has the columns LENGTH_R1 and LENGTH_R2 (or their `_STATIC` versions, whichever line 103 selects). The assignment solver is a parameter. Scores are 0 or 1, so their float sum is exact.
* `Merge.lean`: bin/merge_posparams The tables read from the files are already stacked (`astropy.table.vstack` is trusted); only the four location columns and the identifier column are kept.
* `MoveFlags.lean`: Model of `py/desimeter/posparams/flags.py` and of the tables of `posflags_mask.py`
* `MovesDates.lean`: Model of `bin/get_posmoves_with_fvc_data_using_dates` Times are whole seconds (the dates of the images have no fraction, lines 101-103 and 175-178 drop it). Names of positioners and files are of any types `ι` and `κ`, rows of the data base carry their other columns as `δ` and those of the calibration as `γ`. The tables of the data base and the content of the files are parameters, and so is `order`, the way numpy sorts moves of equal times. The table of images is the one after lines 75-79, sorted by time. Left out: printing, the list of petals, the renaming of columns, the replacement of commas in `log_note`, creation of the output directory, missing values.
* `MovesFvc.lean`: Model of `bin/get_posmoves_with_fvc_data` Positioner names are of any type `ι`, rows of the data base carry their other columns as `δ`. Headers, the CSV files in the data directory, the processing of an image (`desi_fvc_proc`) and the tables of the data base are parameters. The result is the list of the files written, in order. Left out: printing, the renaming of columns, the replacement of commas in `LOG_NOTE`, creation of the output directory, the dates of lines 40-41 and 160 (the tables are those of the dates asked for), and data files with and without a column `DEVICE_ID` in the same run.
* `MovingDetect.lean`: Model of `bin/detect_and_match_moving_positioners` Inputs are the spot coordinates found by `process_fvc` in the images. Columns of the metrology table that are only copied or removed, the printed lines and the plots are left out.
* `Ok2move.lean`: bin/ok2move `argsort` is any permutation that puts the distances in increasing order (given per spot).
* `PatchUpdate.lean`: bin/update_focal_plane_metrology_patch Lines 24-62: new coordinates of the rows of fp-metrology-patch.csv from one or several tables of spots. The lists `xfp[loc]` and `yfp[loc]`, which always get a value together, are one list of pairs; other columns of the patch are not changed. Coordinates that are not numbers, the prints and the text of the tables are left out.
* `PerfMoves.lean`: Model of `bin/analyze_pos_performance`, identification of moves (lines 119-153, 171-187, 371-592 and 715-728) Tables are lists of rows, given here after the sort of `sequential_copy`; where a function sorts again, the sort is the parameter `order`. The functions `int` and `float` of Python are parameters (`Num`); `float` gives `none` for NaN. Messages are left out.
* `PerfRead.lean`: Model of `bin/analyze_pos_performance`, reading of the data (lines 163-372 and 1268-1276) A row has the columns the script looks at; a masked entry is `none`. `ρ` stands for the other columns. Scales are never masked. The sort of lines 363-369 (`order`) is a parameter: numpy may put rows of equal keys in any order. The result is given for a positioner, since the script goes through a set of them. Left out: messages, the removal of columns (`--sparse_output`), and columns read with another type.
* `PerfReport.lean`: Errors, radii, numbers of images and the report (`bin/analyze_pos_performance`, lines 594-701, 989-1030, 1168-1173, 1338-1364) The columns of the table are lists with one entry for each row, as in `Model/Int2ptl.lean`. Texts for numbers are their decimal digits. The text of the report beside the rows with the largest errors is left out.
* `PerfStats.lean`: Statistics of the errors of positioners (`bin/analyze_pos_performance`, lines 503-538, 703-871, 1277-1306) Rows are those of the table after all columns have been added. Errors and radii are real numbers, the levels `sigma` are natural numbers or infinity. The quantile of numpy with `interpolation='midpoint'` is modelled by its definition, the mean of the two sorted values around the position `q (n - 1)`. The columns not used by the statistics are left out.
* `PetalData.lean`: The alignments of the petals that come with the package: py/desimeter/data/petal-alignments.yaml The decimal numbers of the file, exactly; as a dictionary it is what `load_petal_alignement` (py/desimeter/io.py lines 38-51) returns unless `DESIMETER_DATA` names other data (C120). With it, the conversions between petal and focal plane without a height (py/desimeter/transform/ptl2fp.py lines 74-113).
* `PetalTest.lean`: bin/write_petal0_metrology and bin/write_petal1_metrology Metrology of the two petals tested on the ground, with the tables and the patch of Model/FpMetrology (whose `base` is the same code as lines 53-72 of petal0 and 52-71 of petal1). Cells of `DEVICE_LOC` are not masked. The table of positioners is supposed to be there (it is, in the package); the columns `DEVICE_ID` and `BUS_ID` it adds are empty texts before. `int(s)` is that of Model/FpMetrology, for texts without sign, blanks and underscores. The check of `DESIMETER_DATA`, printing, and the truncation of texts are left out.
* `PlotPosmoves.lean`: Model of `bin/plot_posmoves` (lines 35-176) The rows are those left by `posmove_selection` (`Model/Selection.lean`). The table has the columns of the calibration together or not at all (line 52 looks for LENGTH_R1 only), likewise PTL_X and PTL_Y, and X_FP and Y_FP; numbers are never masked. Left out: the figure itself, the circle (`Model/Circles.lean`) and messages. The directory given with `--outdir` is created when missing, which has no influence on the name of the image.
* `PlotPosparams.lean`: Model of `bin/plot_posparams` (lines 58-136) Which tables of `fit_posparams` are used, the counts of positioners within error thresholds (`Model/BinErrors.lean`) and the plots of single positioners. `files` is the list made in lines 58-62; reading a file, the two texts made of a date (lines 88-89) and `table.sort` (line 87; any order of rows with the same positioner and date) are parameters. The columns POS_ID, DATA_END_DATE_SEC, ANALYSIS_DATE_STATIC, FIT_ERROR_STATIC, FIT_ERROR_DYNAMIC and NUM_POINTS of a used table have no missing numbers; any other column is `other`, with `none` for a missing number. Left out: the directory made, the messages, the length in days of the windows in the title, the figures, and `realpath` of the names of images.
* `PmCoords.lean`: The comparison of desimeter with platemaker (`bin/plot_pm_coords`) Modelled: the choice of the rows of the coordinates file (line 90), the location of a fibre (94, 96), the join with the fiberassign table through a dictionary of locations (97 to 99), the kinds of objects (100, 101), the flags (37 to 45, 111 to 114), the table which is written with `--outfile` (121 to 131), the three classes of targets `ok`, `good` and `bad` (155 to 157, 225 to 227), the counts of flags (163 to 167) and the rms of a class (170, 171). The focal plane coordinates of the targets, which come from `fiberassign_radec2xy_cs5` (see `Verif.Model.Fiberassign`), are a parameter: a list with one entry for each row. NaN is `none`; the comparison of NaN with a number is false. The field rotation which is printed is `_measure_fieldrot_deg`, modelled in `Verif.Model.Fiberassign`. Not modelled: the reading of the files and of the headers, the figure, the quantiles.
* `Pos2ptl.lean`: Model of `py/desimeter/transform/pos2ptl.py` Every argument is taken after `_to_numpy` / `_to_list` (lines 360-380): a scalar is a one-element list. (Integer arrays and 2-d arrays are not modelled.)
* `PosCoords.lean`: Model of `bin/get_poscoords` The data base is a list of rows per table; a query without `order by` returns the rows in that order. The columns used are kept; renaming of columns, plots and the output format are not modelled. Missing values of the calibration are not modelled.
* `PosparamsJobs.lean`: bin/fit_posparams, bin/get_posparams and the list of petals of py/desimeter/dbutil.py Which files are fitted and what is printed (fit_posparams lines 73-127; the fit itself, `run_best_fits`, is a parameter), and the latest calibration of every positioner (get_posparams lines 32-100). `isAlpha` and `isNum` are `str.isalpha` and `str.isnumeric` of one character; `parseInt` is `int(s)`, `none` for a ValueError. A table of the database is a list of rows; the answer of `select distinct` in any order and that of `order by time_recorded desc limit 1` are parameters. With several processes the lines are printed in any order; here they are in the order of the files. The first line printed, the number of files, is left out.
* `PredictRot.lean`: bin/desi_predict_fieldrot, bin/desi_fit_field_rotation_rate and fieldmodel.py lines 450-493, 546-561 `fieldrot`, `dfieldrotdt_physical_model`, `dfieldrotdt`, the script which predicts the rotation of the field and its rate, and the fit of the rate (lines 34-66 of the script; plots and statistics are left out). A header of a FITS file has numbers and texts under its keys; reading an HDU that does not exist is `fileNotFound` (OSError). `parse` stands for `float(text)`. The transforms are those of `FieldFit.Env` with `adc1 = adc2 = 0`. Formatting to three decimals is not modelled.
* `Prepare.lean`: bin/prepare_posparams_for_instr The interactive script that turns fit results into a table of values to commit. What the user types is a list of lines; reading past the end of it is `EOFError`. `force_no_scale` (line 52) makes `allow_scale` always False, so only the STATIC fits are checked. Simplified: only the columns used by the checks are kept; log messages are dropped; the rationale strings of enabling mode are not modelled; a missing value of a required column is a flag of the row (`masked`), the other values of such a row being arbitrary.
* `ProcessFvc.lean`: py/desimeter/processfvc.py `process_fvc` (lines 22-80) and the decisions of `fvc_proc` (lines 83-163 and 205-390). The file system is the function from paths to tables. `proc` is what `desi_fvc_proc` computes for an image: the table it writes, or its non zero error code. (Exceptions inside it are not modelled.)
* `Ptl2fp.lean`: Model of `py/desimeter/transform/ptl2fp.py`
* `Radec2tan.lean`: Model of `py/desimeter/transform/radec2tan.py` The branches with `use_astropy=True` and the logging calls are not modelled. Array arguments behave element by element, so one target is modelled.
* `RayDesi.lean`: The optics table of DESI Data of py/desimeter/transform/tan2fp/raytrace/DESI-ADC-2.OPT.CSV: all its records, as `csv.reader` gives them. The other two tables (rays, media) are left out.
* `RayFit.lean`: Model of the fit of the ray traced table `TAN2FP_RayTraceFit.fit` and `interpolate_coeffs` in py/desimeter/transform/tan2fp/raytracefit.py (lines 108-187), as used by bin/fit_raytrace_tan2fp. Parameters: `itp` stands for `interp1d(x, y, 'cubic')(x0)`, its first argument is the list of pairs of `x` and `y`; `sort` for the order given by `np.argsort` (which is not stable). The JSON text is in `Model/Json`; prints and plots are left out.
* `RayRun.lean`: The ray tracer: whole runs Model of py/desimeter/transform/tan2fp/raytrace/RT185v2.py lines 1028-1043, 1387-1408, 1438-1468 and 1609-1676 (`letter2index`, `prepForcedRayGroup`, `runAllTableRays`, `getNine`) and of py/desimeter/transform/tan2fp/raytrace/run.py. The global arrays of RT185v2 are values handed from function to function; `getNine` reads all tables again, hence starts from them. The argument of `getNine` is the list of its rows of five numbers; other shapes are left out, and so are prints and the process pool. The average of a list of arrays of different lengths is the `ValueError` of numpy 1.24 and later. `np.linspace` and `np.arange` are exact.
* `RayTables.lean`: The ray tracer: its tables Model of py/desimeter/transform/tan2fp/raytrace/RT185v2.py lines 232-457 and 1017-1360: reading of the optics, ray and media tables, and the refractive index of a glass. A file is the list of its records as `csv.reader` gives them, `none` if it cannot be opened. `num` is `float(text)`: a number, or `none` for `ValueError` (texts like `nan` and `inf`, which `float` accepts, are left out). Letters are ASCII. The row 0 of the arrays, which stands for no surface, ray or glass, is left out. `quit()` is `sysExit 0`. Lengths of file names are not checked (the names are literals).
* `RayTrace.lean`: The ray tracer: surfaces, intercepts, refraction and the loop over surfaces Model of py/desimeter/transform/tan2fp/raytrace/RT185v2.py lines 128-203 and 432-925, 1369-1385 and 1410-1436. One row of `Oarray` (one optical surface) is a `Surf`; one row of `Rarray` (one ray at one surface) is a `Hit`: upper case columns (lab frame) and lower case columns (frame of the vertex of the surface). Numbers are reals; `-0.0` is `0`. Messages printed (`Yikes`, `testUVW`) are not modelled.
* `Raytracefit.lean`: Model of `py/desimeter/transform/tan2fp/raytracefit.py`
* `Rszn.lean`: Model of `py/desimeter/transform/rszn_lookups.py` NaN is modelled as `none`.
* `RsznTable.lean`: The lookup table `py/desimeter/data/focal_surface_lookup.csv` All 501 rows (file lines 8-508), one list per column, in units of 1e-9 mm (1e-9 degree for `N`): every value in the file has at most nine decimals, so the integers are exact.
* `Selection.lean`: py/desimeter/posparams/posmoveselection.py The printed summaries are not modelled. The table is a list of rows; `note` is the text `str(table["LOG_NOTE"][i])` of a row.
* `Shipped.lean`: The transformations shipped with the code `data/init-fvc2fp.json`, the start of the fits of the camera (io.py lines 61-62, `fvc2fp_filename`), and the tables `data/raytrace-tan2fp.json` (raytracefit.py lines 267-272, `get_raytracefit`) and `data/raytrace-tan2fp-6560A.json`. Coefficients are in units of 1e-40, so that they are exactly the decimal numbers of the files. In the tables scale is 1, rotation and offsets are 0 in every row. The cubic interpolation between the rows is a parameter, see `RayTraceFit`.
* `SimpleCorr.lean`: Model of `py/desimeter/simplecorr.py` and of `TanCorr` (`py/desimeter/fieldmodel.py`) Catalogues are lists of matched pairs; the shape assertions (simplecorr.py lines 62, 104) hold by construction.
* `Spotmatch.lean`: Model of `py/desimeter/spotmatch.py` The C program `match_positions` is a parameter. Input files are modelled by the records written into them (the rounding to three decimals in the text is left out); the file the program writes is a list of lines of words. All files have fixed names in the temporary directory, so the output file of an earlier call is state.
* `Triangles.lean`: `compute_triangles_with_arbitrary_orientation` of py/desimeter/match.py (lines 11-58) A list of points is a function of the index; the triangles are those of `triples` in Model/Match. `np.argsort` of three numbers is a parameter: the order of equal numbers is not specified. A triangle with two vertices at the same place gives NaN in the code (here quotients by 0 are 0).
* `Trig.lean`: Model of `py/desimeter/trig.py` and `py/desimeter/time.py`
* `TurbFiles.lean`: py/desimeter/turbulence.py: data from files, central fibres, loss functions Lines 166-195 and 231-259 (loss functions), 262-286 (`make_data`), 289-321 (`solve_covar`), 324-365 (`solve_files`). Reading of the tables is not modelled. NaN is `none`.
* `TurbPoly.lean`: py/desimeter/turbulence.py lines 20-135: correction with local polynomials `scipy.linalg.basic.lstsq` and the neighbour search (`cKDTree.query_ball_point`) are parameters. Arrays of fibres are functions on `Fin N`; matrices are lists of rows.
* `Turbulence.lean`: Model of the Gaussian process part of `py/desimeter/turbulence.py` One data row per fibre: `Fin n` with measured position and offset. The optimiser of `solve_covar` is a parameter (its result, the covariance parameters, is an argument here). `np.linalg.inv`/`solve` raise `LinAlgError` for singular matrices, `scipy.linalg.cho_factor` for matrices that are not positive definite. A length scale of zero gives NaN in the code. Matrices in single precision (`dtype='f4'`) are exact here.
* `Util.lean`: Model of `py/desimeter/util.py`
* `Xy2qs.lean`: Model of `py/desimeter/transform/xy2qs.py` and of `ptl2flat`/`flat2ptl` (`transform/pos2ptl.py` lines 80-96) The polynomial coefficients are the decimal literals of the source, as exact rationals. Array and scalar arguments behave alike (element by element).
* `Xy2tp.lean`: Model of `py/desimeter/transform/xy2tp.py`
* `ZhaoBurge.lean`: Model of `py/desimeter/transform/zhaoburge.py` (evaluation part)
