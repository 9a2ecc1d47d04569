{"id": "C01", "title": "Inverse kinematics really inverts forward kinematics", "statement": "Whenever xy2tp reports a target as reachable (second result False) and the target is not within the 10-epsilon numerical rim of the annulus, feeding the returned (theta,phi) to tp2xy with the same arm lengths gives back exactly the requested (x,y); on the rim it gives a point at most 10 epsilon away. This holds with or without a theta guess, for any guess tolerance and any travel ranges.", "quantifier": "all targets (x,y), all positive arm lengths wider than the contraction, all theta/phi ranges, all guesses and tolerances", "why_tests_cant": "Ranges over a continuum of real inputs; tests sample a handful of points and cannot exclude a wrong branch or boundary elsewhere.", "anchors": ["py/desimeter/transform/xy2tp.py:xy2tp", "py/desimeter/transform/xy2tp.py:tp2xy"]}
{"id": "C02", "title": "Returned positioner angles never leave the travel range", "statement": "The theta and phi returned by xy2tp always lie inside the caller's [min,max] ranges (in whichever order the two ends are given), even for unreachable targets and with any guess.", "quantifier": "all targets, arm lengths, ranges, guesses", "why_tests_cant": "Ranges over a continuum of real inputs; tests sample a handful of points and cannot exclude a wrong branch or boundary elsewhere.", "anchors": ["py/desimeter/transform/xy2tp.py:xy2tp", "py/desimeter/transform/xy2tp.py:_wrap_into_range"]}
{"id": "C03", "title": "The unreachable flag is right", "statement": "Without a guess and with a theta range at least 360 degrees wide and a phi range containing [0,180], xy2tp reports unreachable exactly when the target is outside the closed annulus |r1-r2| <= |xy| <= r1+r2; for arbitrary ranges any target outside the annulus is always reported unreachable, with or without a guess.", "quantifier": "all targets, arm lengths, ranges", "why_tests_cant": "Ranges over a continuum of real inputs; tests sample a handful of points and cannot exclude a wrong branch or boundary elsewhere.", "anchors": ["py/desimeter/transform/xy2tp.py:xy2tp"]}
{"id": "C04", "title": "Unreachable targets get the closest approach", "statement": "With travel ranges that do not bind, when a target is out of the annulus the returned angles put the fibre at the point of the contracted annulus closest to the requested target. This point is in the direction of the target, at a radius 10/2^52 inside the outer or outside the inner rim.", "quantifier": "all out-of-annulus targets, all positive arm lengths, all reachable points as competitors", "why_tests_cant": "Ranges over a continuum of real inputs; tests sample a handful of points and cannot exclude a wrong branch or boundary elsewhere.", "anchors": ["py/desimeter/transform/xy2tp.py:xy2tp"]}
{"id": "C05", "title": "A theta guess picks the best admissible configuration", "statement": "When a guess is given, xy2tp returns a candidate configuration that is minimal for the order (in range, within tolerance, distance to the guess) among the primary arm configuration, its mirror image about the target direction and their +/-360 degree theta turns; if every candidate fails one of the two tests it returns the guess-free answer.", "quantifier": "all targets, arm lengths, ranges, guesses and tolerances", "why_tests_cant": "Ranges over a continuum of real inputs; tests sample a handful of points and cannot exclude a wrong branch or boundary elsewhere.", "anchors": ["py/desimeter/transform/xy2tp.py:xy2tp"]}
{"id": "C06", "title": "Phase wrapping only adds whole turns", "statement": "Wrapping an angle into a range returns either the same angle plus an integer number of 360 degree turns inside the range (not flagged), or, exactly when no such turn count exists, one of the range ends, flagged.", "quantifier": "all angles, all ranges", "why_tests_cant": "Ranges over a continuum of real inputs; tests sample a handful of points and cannot exclude a wrong branch or boundary elsewhere.", "anchors": ["py/desimeter/transform/xy2tp.py:_wrap_into_range"]}
{"id": "C07", "title": "Positioner round trip: internal angles survive int -> loc -> int", "statement": "For any calibration (arm lengths, theta/phi/x/y offsets) and any internal theta in [-180+eps,180] and phi in [-20,200] with phi+OFFSET_P in [0,180] whose tip is off the annulus rim, converting to local coordinates and back without a guess returns the same angles, not flagged; with the true theta as guess this holds for phi+OFFSET_P outside [0,180] too.", "quantifier": "all internal angles in range, all calibrations", "why_tests_cant": "Ranges over a continuum of real inputs; tests sample a handful of points and cannot exclude a wrong branch or boundary elsewhere.", "anchors": ["py/desimeter/transform/pos2ptl.py:int2loc", "py/desimeter/transform/pos2ptl.py:loc2int"]}
{"id": "C08", "title": "delta_angle lands on the final angle and honours the direction", "statement": "For any start, final and direction, start + delta_angle is congruent to the final angle modulo 360; direction +1 gives delta >= 0, -1 gives delta <= 0, 0 gives the plain difference; if the requested direction agrees with the difference the plain difference is returned, otherwise the magnitude is below 360 unless the difference is a whole number of turns, in which case the same number of turns is returned in the requested direction.", "quantifier": "all real start and final angles, all real direction values", "why_tests_cant": "Ranges over a continuum of real inputs; tests sample a handful of points and cannot exclude a wrong branch or boundary elsewhere.", "anchors": ["py/desimeter/transform/pos2ptl.py:delta_angle"]}
{"id": "C09", "title": "Offset frames are exact inverses, elementwise", "statement": "flat2loc/loc2flat and ext2int/int2ext undo each other for every array and every scalar or same-length offset array, element by element, and the per-point kinematic loop uses point i's own parameters whenever the parameter array has one value per point; a parameter array of any other length is silently replaced by its first element.", "quantifier": "all array lengths and contents", "why_tests_cant": "Array lengths are unbounded and the mismatch branch is silent.", "anchors": ["py/desimeter/transform/pos2ptl.py:_add_offset", "py/desimeter/transform/pos2ptl.py:_extend_list", "py/desimeter/transform/pos2ptl.py:loc2ext"]}
{"id": "C10", "title": "Petal to focal-plane transform is a rigid motion", "statement": "For every petal alignment, ptl2fp preserves all 3D distances and orientation, and fp2ptl given the 3D focal plane point returns exactly the original petal coordinates (and conversely).", "quantifier": "all alignment angles and offsets, all points", "why_tests_cant": "Ranges over a continuum of real inputs; tests sample a handful of points and cannot exclude a wrong branch or boundary elsewhere.", "anchors": ["py/desimeter/transform/ptl2fp.py:ptl2fp", "py/desimeter/transform/ptl2fp.py:fp2ptl"]}
{"id": "C11", "title": "Focal-surface lookup tables invert each other", "statement": "For every r in [0,500] mm s2r(r2s(r)) = r and n2r(r2n(r)) = r, for every s (n) in the table range r2s(s2r(s)) = s (r2n(n2r(n)) = n), the functions are strictly increasing there, and NaN is returned exactly outside; whenever z2r returns a number it inverts r2z.", "quantifier": "all real r, s, n, z", "why_tests_cant": "Ranges over a continuum of real inputs; tests sample a handful of points and cannot exclude a wrong branch or boundary elsewhere.", "anchors": ["py/desimeter/transform/rszn_lookups.py", "py/desimeter/data/focal_surface_lookup.csv"]}
{"id": "C12", "title": "Curved focal-surface coordinates keep the azimuth and are nearly invertible", "statement": "xy2qs followed by qs2xy keeps the polar angle exactly, and the radius up to a fixed tolerance, for every point inside the focal plane; the radius maps are strictly increasing there, so no two radii are confused.", "quantifier": "all (x,y) with radius in the focal plane", "why_tests_cant": "Ranges over a continuum of real inputs; tests sample a handful of points and cannot exclude a wrong branch or boundary elsewhere.", "anchors": ["py/desimeter/transform/xy2qs.py:xy2qs", "py/desimeter/transform/xy2qs.py:qs2xy", "py/desimeter/transform/xy2qs.py:r2s", "py/desimeter/transform/xy2qs.py:s2r"]}
{"id": "C13", "title": "Angles are normalised into [0,360)", "statement": "put360, arctan2d, the longitude returned by the sky transforms and mjd2lst always return values in [0,360) congruent modulo 360 to the true angle.", "quantifier": "all real angles / dates", "why_tests_cant": "Ranges over a continuum of real inputs; tests sample a handful of points and cannot exclude a wrong branch or boundary elsewhere.", "anchors": ["py/desimeter/trig.py:put360", "py/desimeter/trig.py:arctan2d", "py/desimeter/time.py:mjd2lst"]}
{"id": "C14", "title": "Ecliptic conversion is a rotation with an exact inverse", "statement": "radec2eclip preserves angular separations and eclip2radec undoes it for every position on the sky (and conversely), with RA in [0,360) and Dec in [-90,90].", "quantifier": "all sky positions", "why_tests_cant": "Ranges over a continuum of real inputs; tests sample a handful of points and cannot exclude a wrong branch or boundary elsewhere.", "anchors": ["py/desimeter/transform/radec2tan.py:radec2eclip", "py/desimeter/transform/radec2tan.py:eclip2radec"]}
{"id": "C15", "title": "Precession composes and inverts", "statement": "Precessing from ICRS to a date and back returns the original position for every date and position, precession by y1 then y2 years equals precession by y1+y2 years, and separations are preserved.", "quantifier": "all positions, all dates", "why_tests_cant": "Ranges over a continuum of real inputs; tests sample a handful of points and cannot exclude a wrong branch or boundary elsewhere.", "anchors": ["py/desimeter/transform/radec2tan.py:apply_precession", "py/desimeter/transform/radec2tan.py:apply_precession_from_icrs", "py/desimeter/transform/radec2tan.py:undo_precession_from_icrs"]}
{"id": "C16", "title": "Horizon conversion inverts", "statement": "altaz2hadec(hadec2altaz(ha,dec)) denotes the same sky direction as (ha,dec) for every direction, and altitude/azimuth describe the same physical direction.", "quantifier": "all hour angles and declinations", "why_tests_cant": "Ranges over a continuum of real inputs; tests sample a handful of points and cannot exclude a wrong branch or boundary elsewhere.", "anchors": ["py/desimeter/transform/radec2tan.py:hadec2altaz", "py/desimeter/transform/radec2tan.py:altaz2hadec"]}
{"id": "C17", "title": "Tangent-plane projection inverts on the visible hemisphere", "statement": "hadec2xy maps the telescope pointing to (0,0); its output is in the unit disc; for every direction within 90 degrees of the pointing xy2hadec(hadec2xy(.)) is the same direction, and for every (x,y) in the open unit disc hadec2xy(xy2hadec(.)) = (x,y).", "quantifier": "all pointings, all directions, all tangent plane points", "why_tests_cant": "Ranges over a continuum of real inputs; tests sample a handful of points and cannot exclude a wrong branch or boundary elsewhere.", "anchors": ["py/desimeter/transform/radec2tan.py:hadec2xy", "py/desimeter/transform/radec2tan.py:xy2hadec"]}
{"id": "C18", "title": "Axis-to-axis rotation matrices are rotations", "statement": "The Rodrigues matrix used for polar misalignment is orthogonal with determinant 1 and maps the first axis onto the second, for every pair of distinct unit vectors at most 90 degrees apart (which covers the misalignments of the instrument; for a wider pair the arcsin used takes the wrong angle).", "quantifier": "all pairs of unit vectors", "why_tests_cant": "Ranges over a continuum of real inputs; tests sample a handful of points and cannot exclude a wrong branch or boundary elsewhere.", "anchors": ["py/desimeter/transform/radec2tan.py:rotation_matrix", "py/desimeter/transform/radec2tan.py:compute_polar_misalignment_rotation_matrix"]}
{"id": "C19", "title": "Sky-to-tangent-plane maps the pointing to the origin and hexapod rotation only rotates", "statement": "For every pointing, date, sidereal time, combination of correction switches and hexapod angle, radec2tan maps the telescope direction to (0,0); changing the hexapod angle rotates every output about the origin by exactly that angle and tan2radec undoes that rotation; with aberration and polar misalignment off, tan2radec(radec2tan(.)) moves a visible target only by the residual of undoing refraction (which cannot be switched off).", "quantifier": "all pointings, targets, dates, switches, hexapod angles", "why_tests_cant": "Ranges over a continuum of real inputs; tests sample a handful of points and cannot exclude a wrong branch or boundary elsewhere.", "anchors": ["py/desimeter/transform/radec2tan.py:radec2tan", "py/desimeter/transform/radec2tan.py:tan2radec"]}
{"id": "C20", "title": "Refraction raises objects and undo is consistent", "statement": "apply_refraction never lowers an object above the horizon, is at most 79 arcsec x tan(30)/tan(alt), and leaves the order of altitudes from 1 degree up; undo_refraction recovers the true altitude to a stated bound over the working range.", "quantifier": "all altitudes in the working range", "why_tests_cant": "Ranges over a continuum of real inputs; tests sample a handful of points and cannot exclude a wrong branch or boundary elsewhere.", "anchors": ["py/desimeter/transform/radec2tan.py:apply_refraction", "py/desimeter/transform/radec2tan.py:undo_refraction"]}
{"id": "C21", "title": "Simple correction: apply and apply_inverse undo each other", "statement": "For every SimpleCorr whose scale matrix [[scale_x, scale_xy],[scale_xy, scale_y]] is invertible (any rotation, shear and offset), apply_inverse(apply(x,y)) = (x,y) and apply(apply_inverse(x,y)) = (x,y).", "quantifier": "all parameter values, all points", "why_tests_cant": "Ranges over a continuum of real inputs; tests sample a handful of points and cannot exclude a wrong branch or boundary elsewhere.", "anchors": ["py/desimeter/simplecorr.py:SimpleCorr.apply", "py/desimeter/simplecorr.py:SimpleCorr.apply_inverse"]}
{"id": "C22", "title": "Fitting a simple correction to exact data recovers it", "statement": "If the second catalogue is an exact affine image of the first (at least three points not on a line; linear part not a quarter turn or mirror, where the code divides zero by zero), fit returns parameters whose apply maps the first catalogue onto the second, and for inexact data the least-squares affine map; on a reused object nothing from an earlier fit leaks into the applied transformation when the rotation is re-measured (with zero sine the rotation angle of the previous fit is kept: documented as a defect).", "quantifier": "all catalogues of any length, all transformations, all previous states of the object", "why_tests_cant": "Unbounded catalogues and object histories.", "anchors": ["py/desimeter/simplecorr.py:SimpleCorr.fit", "py/desimeter/simplecorr.py:SimpleCorr.fit_rotoff"]}
{"id": "C23", "title": "Saved transforms are never silently reloaded as something else", "statement": "For SimpleCorr, TanCorr, FVC2FP, ray-trace models and FieldModel: writing to JSON and reading back gives back every attribute of the original (so transforms agree on every point), or an explicit error; the only silent change is that the three correction switches of a FieldModel come back as True.", "quantifier": "all parameter values, all points", "why_tests_cant": "Ranges over a continuum of real inputs; tests sample a handful of points and cannot exclude a wrong branch or boundary elsewhere.", "anchors": ["py/desimeter/simplecorr.py:tojson", "py/desimeter/simplecorr.py:fromjson", "py/desimeter/fieldmodel.py:tojson", "py/desimeter/transform/fvc2fp.py:tojson", "py/desimeter/transform/fvc2fp.py:fromjson", "py/desimeter/transform/tan2fp/raytracefit.py"]}
{"id": "C24", "title": "Fibre-camera transform: pixel normalisation and inverse iteration", "statement": "reduce and expand of pixel and focal-plane coordinates undo each other; whenever the iterative inverse fp2fvc stops because its update is below tolerance the returned pixel maps back onto the requested focal plane point within that tolerance times the Lipschitz constant of the distortion; without distortion the inverse is exact; if the distortion is a contraction near the solution, the error of the returned pixel is bounded by the smaller of the tolerance-driven and the 20-iteration geometric bound.", "quantifier": "all transforms, all points, all distortion polynomials", "why_tests_cant": "Ranges over a continuum of real inputs; tests sample a handful of points and cannot exclude a wrong branch or boundary elsewhere.", "anchors": ["py/desimeter/transform/fvc2fp.py:fvc2fp", "py/desimeter/transform/fvc2fp.py:fp2fvc"]}
{"id": "C25", "title": "Zhao-Burge basis: gradient fields are curl free, rotation fields divergence free", "statement": "Each of the 33 basis vector fields is what its type says at every point: the S-type fields have zero curl, the T-type fields zero divergence; the distortion is linear in its coefficients and all-zero coefficients give zero distortion.", "quantifier": "all points, all polynomial ids, all coefficient lists", "why_tests_cant": "Ranges over a continuum of real inputs; tests sample a handful of points and cannot exclude a wrong branch or boundary elsewhere.", "anchors": ["py/desimeter/transform/zhaoburge.py:getZhaoBurgeTerm", "py/desimeter/transform/zhaoburge.py:getZhaoBurgeXY"]}
{"id": "C26", "title": "Zernike index conversions are bijective", "statement": "The Noll number to (n,m) conversion used by the distortion basis is a bijection between the positive integers and the pairs with n >= |m|, n-m even (m <= 0 for odd numbers, m >= 0 for even ones); numbers below 1 raise; the Wyant numbering from 0 is a bijection onto the same pairs.", "quantifier": "all positive Noll indices", "why_tests_cant": "Unbounded integer domain.", "anchors": ["py/desimeter/transform/zhaoburge.py:convertNolltoBW", "py/desimeter/transform/zhaoburge.py:convertWyanttoBW"]}
{"id": "C27", "title": "ADC averaging is a true mean angle and the optical model is equivariant", "statement": "The mean ADC orientation is defined for every pair of ADC angles, is invariant when either is changed by 360 degrees, advances by the common rotation when both are advanced, and rotating both ADCs and the input point by the same angle rotates the tangent-plane to focal-plane map by that angle.", "quantifier": "all ADC angles, all points", "why_tests_cant": "Ranges over a continuum of real inputs; tests sample a handful of points and cannot exclude a wrong branch or boundary elsewhere.", "anchors": ["py/desimeter/transform/tan2fp/raytracefit.py:average_angles_adc", "py/desimeter/transform/tan2fp/raytracefit.py:tan2fp"]}
{"id": "C28", "title": "Bit masks: names and values convert back and forth", "statement": "For any bitmask definition and any non-negative value, the names list contains exactly the names of the set bits in increasing order ('UNKNOWNb' for undefined bits); the mask of 'A|B|...' has exactly the bits of the named flags and raises KeyError for an undefined name; for distinct names and bits, joining the names of a non-zero fully defined value gives the value back (for zero it raises KeyError).", "quantifier": "all definitions, all integer masks, all name sets", "why_tests_cant": "Masks and definitions are unbounded.", "anchors": ["py/desimeter/bitmask.py:BitMask.names", "py/desimeter/bitmask.py:BitMask.mask"]}
{"id": "C29", "title": "Fibre-range strings", "statement": "parse_fibers of a comma separated list of integers and a:b, a-b or a..b ranges returns the concatenation, in order, of the integers and half-open ranges; None or blank gives the empty array; anything else terminates the program with exit code 1; blanks are irrelevant.", "quantifier": "all strings; all lists of items", "why_tests_cant": "Unbounded strings.", "anchors": ["py/desimeter/util.py:parse_fibers"]}
{"id": "C30", "title": "Catalogue matching is one to one and nearest", "statement": "match_same_system with duplicate removal never assigns the same second-catalogue entry twice, every returned index is the nearest entry, an entry that is nearest to somebody is kept for its closest claimant, and unmatched entries have index -1 and infinite distance.", "quantifier": "all catalogues of any size", "why_tests_cant": "Unbounded catalogues.", "anchors": ["py/desimeter/match.py:match_same_system"]}
{"id": "C31", "title": "Triangle matching never contradicts itself", "statement": "In match_arbitrary_translation_dilatation every matched pair comes from an accepted triangle pair, assignments are never changed once made, the final assignment is one to one and duplicates are all dropped.", "quantifier": "all catalogues, all triangle rankings", "why_tests_cant": "Unbounded inputs and orders.", "anchors": ["py/desimeter/match.py:match_arbitrary_translation_dilatation"]}
{"id": "C32", "title": "Key join returns exactly the common keys", "statement": "match(a,b) raises ValueError exactly when a has duplicates; otherwise it returns aligned index arrays with a[ma]==b[mb] that list every index of b whose key occurs in a, once, in increasing order.", "quantifier": "all key arrays", "why_tests_cant": "Unbounded inputs.", "anchors": ["py/desimeter/match_positioners.py:match"]}
{"id": "C33", "title": "Positioner assignment is one to one, within reach and optimal", "statement": "match_positioners gives each centroid at most one positioner and each positioner at most one centroid, ignores faint and pinhole spots, every assignment with score 1 is within the positioner's reach, the number of such assignments is maximal, and every reported alternative has the same total score and, when an equally good assignment avoids a pair, some reported alternative avoids it. As many spots as possible are assigned, so an assigned spot may be out of reach (score 0); no usable spot at all is an error.", "quantifier": "all fields, all calibrations; any optimal assignment solver", "why_tests_cant": "Unbounded inputs.", "anchors": ["py/desimeter/match_positioners.py:match_positioners"]}
{"id": "C34", "title": "Loggers print each message exactly once whatever the history", "statement": "get_logger called with a valid level returns, after any history of calls, a logger with that level whose messages of at least that severity go to the console exactly once; its file and time stamp options are those of the first successful call with that level name (later path and timestamps arguments are ignored); an invalid level raises ValueError and changes nothing.", "quantifier": "all call histories", "why_tests_cant": "Depends on every possible call history; a test exercises one history.", "anchors": ["py/desimeter/log.py:get_logger"]}
{"id": "C35", "title": "Finding the fiducials: labels are sound, unique and exact; one transform per process", "statement": "Every run of findfiducials that ends normally labels each spot with nothing or with the LOCATION and a PINHOLE_ID of metrology pinholes, with PETAL_LOC and DEVICE_LOC the unique decomposition of LOCATION, and never gives two spots the same LOCATION and positive PINHOLE_ID; exactly measured, separated fiducials of four pinholes all get their own labels and other spots none. Calls with one and the same transform do not influence each other. Finding: the pixel positions of the pinholes are those of the first transform read in the process, so that a call with another transform gives other answers than in a new process, e.g. LinAlgError for ever after a first transform that puts the pinholes on a line.", "quantifier": "all call histories, all transforms", "why_tests_cant": "Depends on every possible call history; a test exercises one history.", "anchors": ["py/desimeter/findfiducials.py:findfiducials"]}
{"id": "C36", "title": "The camera fit pairs every fiducial spot with its own metrology entry and is the best fit", "statement": "When every (LOCATION, PINHOLE_ID) occurs once and pinhole ids are below 10, FVC2FP.fit pairs each fiducial spot with the metrology entry of the same location and pinhole and no other, raises an exception when one has no entry, gives the same result for every order of the rows, fits with the scale and rotation asked to be fixed unchanged, and (update_spots) writes to every fiducial row its own metrology position and 0 to the others. If the minimiser returns a minimum, no transformation with the same distortion (and the fixed scale or rotation) brings the fiducials closer to their metrology in sum of squares, after a distortion fit no other coefficients do, and exact data are reproduced exactly. Finding: pinhole id 10 (produced by spotmatch) has the key of the positioner hole of the next location, which makes the fit raise an exception.", "quantifier": "all locations and pinhole ids", "why_tests_cant": "Integer domain is unbounded.", "anchors": ["py/desimeter/transform/fvc2fp.py:FVC2FP.fit", "bin/update_focal_plane_metrology_patch"]}
{"id": "C37", "title": "Averaging coordinates over exposures", "statement": "average_coordinates leaves unmatched rows of the first table unchanged, replaces each row matched within 5 in all the other tables (one row of its own in each) by the mean over all tables of the coordinates, corrected by one fitted affine map per table, and keeps the row order; with two tables exactly the rows that match_same_system pairs within 5 are averaged and the map is the least squares one; one table, or exact copies of it, is returned unchanged; no table is a ValueError.", "quantifier": "all numbers of tables and rows", "why_tests_cant": "Unbounded inputs.", "anchors": ["py/desimeter/averagecoord.py:average_coordinates"]}
{"id": "C38", "title": "Circle fits: exact on circles, robust against one outlier", "statement": "_fast_fit_circle (mean or median) returns centre and radius for any four or more different points of a circle, in any order; fit_circle does too for radii in [1,5] and raises ValueError otherwise, if the least squares routine does not make the fit worse; whatever it returns has the mean distance as radius, in [1,5]. For two or three points the direct estimate is the centre of mass, so fit_circle can reject three points of an acceptable circle. The direct estimate follows shifts, rotations and scalings. robust_fit_circle with fewer than a sixth of the points off the circle rejects exactly the worst one if that is off by minerr or more, and nothing otherwise: one outlier among seven or more points is handled exactly, but a second outlier is never rejected; radii outside [1,5] are accepted there.", "quantifier": "all circles, all point lists", "why_tests_cant": "Ranges over a continuum of real inputs; tests sample a handful of points and cannot exclude a wrong branch or boundary elsewhere.", "anchors": ["py/desimeter/circles.py:_fast_fit_circle", "py/desimeter/circles.py:fit_circle", "py/desimeter/circles.py:robust_fit_circle"]}
{"id": "C39", "title": "Positioner move selection is the written boolean formula", "statement": "posmove_selection keeps a row, in its place, iff some '|'-separated clause has all of its '&'-separated keywords (blanks around them ignored) in the row's LOG_NOTE; None keeps everything. Finding: an empty clause, e.g. after a trailing '|', keeps everything.", "quantifier": "all tables, all selection strings", "why_tests_cant": "Unbounded strings and tables.", "anchors": ["py/desimeter/posparams/posmoveselection.py:posmove_selection"]}
{"id": "C40", "title": "Fit windows stay inside the data and hold enough of it", "statement": "From a time-sorted table and a datum grid of other than one date _define_cases never fails and gives, each once, exactly these windows: for every datum but the first the shortest run of whole periods ending there with more than the requested number of row steps, and for the last datum everything since the first when no run is long enough; every window lies inside the table. Findings: rows after the last datum date are in no window, and with one datum date all windows start at row 0.", "quantifier": "all time series, all datum grids, all window sizes", "why_tests_cant": "Unbounded time series.", "anchors": ["py/desimeter/posparams/fithandler.py:_define_cases", "py/desimeter/posparams/fithandler.py:_row_idx_for_time"]}
{"id": "C41", "title": "Row filters keep one enabled row per move counter", "statement": "_apply_filters never fails; it keeps only enabled rows of the table, exactly one for every move counter of an enabled row, in increasing order (the first one in the table when the sort is stable), and filtering twice changes nothing. Finding: the optional filter on cruise moves can drop the first row, which it is documented to keep.", "quantifier": "all tables", "why_tests_cant": "Unbounded tables.", "anchors": ["py/desimeter/posparams/fithandler.py:_apply_filters"]}
{"id": "C42", "title": "A positioner fit ends in one result file or an exception", "statement": "run_best_fits either writes exactly one file, the result file of the positioner, whose content gives the reason (invalid table, too few rows, failed fit, success), or raises an exception having written nothing; which of these is characterised by the table. Findings: an empty table raises RuntimeError instead of being flagged; a table with all rows at one time raises KeyError; a later window with a sequence not in an earlier one exits with code 12, and sequences 1 and 10 together raise KeyError.", "quantifier": "all tables and fit outcomes", "why_tests_cant": "All combinations of outcomes.", "anchors": ["py/desimeter/posparams/fithandler.py:run_best_fits", "py/desimeter/posparams/movemask.py"]}
{"id": "C43", "title": "Parameter fits do not depend on earlier fits", "statement": "A pass of fits with explicit standard nominal values returns the same results whatever fits were run before in the same process. Findings: without nominal values a fit reports EPSILON parameters of earlier data; windows of one pass share the nominal values; and column names registered for an earlier positioner make a later one fail.", "quantifier": "all call histories", "why_tests_cant": "Depends on every possible call history; a test exercises one history.", "anchors": ["py/desimeter/posparams/fitter.py:fit_params"]}
{"id": "C44", "title": "Disabled positioners are never committed", "statement": "In the table prepared by prepare_posparams_for_instr, no calibration value is marked for commit on a row flagged nonfunctional, scale and physical range columns are never committed, and every row left passes (or, in enabling mode, every unmarked row passes) every check with its final tolerance. Finding: since the nominal locations cannot be loaded (NameError), the program in this version never gets as far as writing.", "quantifier": "all input tables, all user answers, all tolerance adjustments", "why_tests_cant": "All interactive histories.", "anchors": ["bin/prepare_posparams_for_instr"]}
{"id": "C45", "title": "Duplicate positioner rows are resolved to one row per positioner", "statement": "When the uniqueness question of prepare_posparams_for_instr succeeds, the result is the table with rows left out, no positioner has two rows and no row of a positioner without duplicates is lost. 'skip' removes all rows of the positioner. Finding: the number k typed is taken as a row number of the whole table, not as the option shown, so another row than the one chosen is kept, or the program stops.", "quantifier": "all tables, all choices", "why_tests_cant": "Unbounded tables and choices.", "anchors": ["bin/prepare_posparams_for_instr:check_uniqueness"]}
{"id": "C46", "title": "Interactive confirmations accept only the offered answers", "statement": "yesnohelp returns the meaning of the first typed line, ignoring case, that is one of the offered answers, and exits when exit is offered and typed; with all answers offered every other line is skipped. Finding: after one unrecognised line answers that were not offered are accepted too.", "quantifier": "all sequences of user input", "why_tests_cant": "Unbounded interaction histories.", "anchors": ["bin/prepare_posparams_for_instr:yesnohelp"]}
{"id": "C47", "title": "Merging fit results: which location disagreements are reported", "statement": "merge_posparams logs an error for exactly the rows and columns that disagree with the metrology entry in force (the last one of that device), fills in missing locations from it (-1 for unknown devices), and stops with KeyError on a partly present set of columns. Finding: a disagreement does not stop the program; the table is written unchanged.", "quantifier": "all tables", "why_tests_cant": "All tables.", "anchors": ["bin/merge_posparams"]}
{"id": "C48", "title": "Each move is joined to the calibration in force", "statement": "With --with-calib each move row receives the last calibration recorded at or before the move (IndexError when there is none); RECENT_REHOME is set exactly for the listed exposures; only measured rows are kept without --tp-updates; the enabled-history filter keeps exactly the first row in time and the rows where an enable flag changed. Findings: --enabled-history without --tp-updates always fails, and --pos-ids movers selects nothing.", "quantifier": "all databases contents", "why_tests_cant": "Unbounded tables.", "anchors": ["bin/get_posmoves"]}
{"id": "C49", "title": "Groups of positioners to move are a partition", "statement": "ok2move lists every movable positioner in exactly one text group of at most the group size, in order, all but the last group full, and calls a positioner not movable exactly when both nearest neighbours are closer than 3.5 mm and the opening angle is at least 90 degrees; fewer than three spots is a ValueError. Finding: the html pages leave out the last incomplete group.", "quantifier": "all spot tables, all group sizes", "why_tests_cant": "Unbounded tables.", "anchors": ["bin/ok2move"]}
{"id": "C50", "title": "Independent groups never contain neighbours", "statement": "select_groups_of_positioners: no positioner is in two groups; within a group no positioner is a listed neighbour of an earlier one, so with symmetric lists no two are neighbours; with at most six positioners within 12 mm of any other, group members are at least 12 mm apart; each group is maximal. Finding: with non-symmetric lists listed neighbours may share a group.", "quantifier": "all layouts and neighbour lists", "why_tests_cant": "Unbounded layouts.", "anchors": ["bin/select_groups_of_positioners"]}
{"id": "C51", "title": "Batch jobs process every image once and resume after a crash", "statement": "The generated job scripts contain every pending image exactly once, in order, no job reaching the requested size before its last file; after any history of complete, killed and repeated runs an image counts as done iff one of its runs got to the end, and re-running calls the program exactly once more for each image not done. Finding: a failing run is recorded as done and never retried.", "quantifier": "all image lists, all crash points", "why_tests_cant": "All crash points and histories.", "anchors": ["bin/write_fvc_image_processing_scripts"]}
{"id": "C52", "title": "Cached image results belong to the requested image", "statement": "process_fvc returns the table of the image it was asked for (None when processing fails), whatever was processed before, as long as no two different images of the history have the same cache name; with overwrite it always does. Findings: images of the same name in different directories (or with/without .fz) are confused, and *.fits.gz images never give a table.", "quantifier": "all call histories, all paths", "why_tests_cant": "Depends on every possible call history; a test exercises one history.", "anchors": ["py/desimeter/processfvc.py:process_fvc", "py/desimeter/processfvc.py:get_outfilename"]}
{"id": "C53", "title": "What the exit code of fvc_proc says", "statement": "fvc_proc returns 12, 1 or 13 without output for invalid arguments, 13 when an image has fewer than three matched fiducials (only the images before it are written), and otherwise 0 with a table written for every image within the limits on the number of spots. Findings: images outside these limits are skipped with code 0, and --extname last is not the last extension when the numbering does not start at 0.", "quantifier": "all argument combinations, all spot lists", "why_tests_cant": "All combinations.", "anchors": ["py/desimeter/processfvc.py:fvc_proc"]}
{"id": "C54", "title": "Turbulence prediction: what is predicted from what", "statement": "solve_independent and solve_gradwavefront return Gaussian-process predictions that are always well defined for non-zero noise: with excludeself the value at each fibre is the prediction from all other fibres (in the independent model the fibre's own offset has no influence at all; in the gradient model only the same component is left out, so the fibre's own other component still counts), without it from all fibres, and with predict_at one value per requested position; predict_at together with excludeself is rejected. Only relative positions matter. correct subtracts that prediction and changes nothing if every spot is where it is expected. The stationary-fibre variant uses exactly the finite stationary fibres without clipping; with clipping it drops five-sigma outliers and fibres with residual over 0.01 (whatever value of clip_resid was asked for) and fails when an entry is not finite.", "quantifier": "all numbers of fibres, all covariance matrices, all offsets", "why_tests_cant": "Ranges over a continuum of real inputs; tests sample a handful of points and cannot exclude a wrong branch or boundary elsewhere.", "anchors": ["py/desimeter/turbulence.py:solve_independent", "py/desimeter/turbulence.py:solve_gradwavefront", "py/desimeter/turbulence.py:correct"]}
{"id": "C55", "title": "Arm detection: parallel equals serial, best angle, templates reused safely", "statement": "detect_phi_arms fills the same table for any division of the spots among processes and any completion order, although the template image is modified in place between spots; if some spot cannot be measured both raise. A spot is rejected exactly for a template that is not square or has even side, or a stamp that reaches beyond the image. When edges are found at every smoothing scale the reported correlation is the largest over the five scales and the fine angles around each scale's best coarse angle, and the angle is where it occurs. A single scale without any edge makes the correlation NaN and the reported angle meaningless.", "quantifier": "all schedules, all spots", "why_tests_cant": "All schedules.", "anchors": ["py/desimeter/brightimage.py:detect_phi_arms", "py/desimeter/brightimage.py:detect_phi_arm"]}
{"id": "C56", "title": "Field-rotation rate model is bounded and periodic", "statement": "dfieldrotdt_empirical_model raises ValueError exactly when some |dec|>90, otherwise returns element by element the fitted cubic of hour angle in (-180,180] and declination limited to [-1.5,1.5], unchanged when RA or sidereal time change by multiples of 360 degrees.", "quantifier": "all RA, Dec, LST", "why_tests_cant": "Ranges over a continuum of real inputs; tests sample a handful of points and cannot exclude a wrong branch or boundary elsewhere.", "anchors": ["py/desimeter/fieldmodel.py:dfieldrotdt_empirical_model"]}
{"id": "C57", "title": "Fibre-assignment coordinates: argument checks, ADC model, pointing, field rotation, inverse", "statement": "fiberassign_radec2xy_cs5 and fiberassign_cs5_xy2radec raise AssertionError for arrays of different sizes, otherwise ValueError exactly when one ADC angle is given without the other; leaving both out means the default angles, whose middle is the parallactic angle and whose difference depends only on the zenith distance, grows up to 60 degrees, is constant beyond and is -0.0366 radians (not zero) at the zenith. The requested field rotation only turns the result, the mean position angle of the result agrees with the request up to third order, each pointing step solves the linearised centring problem (tile centre itself for neutral optics), the flat variants keep directions, and going there and back is the identity up to the difference of the two measured field rotations; with the platemaker transform on, the inverse undoes the steps in the wrong order.", "quantifier": "all inputs", "why_tests_cant": "Ranges over a continuum of real inputs; tests sample a handful of points and cannot exclude a wrong branch or boundary elsewhere.", "anchors": ["py/desimeter/fiberassign.py"]}
{"id": "C58", "title": "Spot detection: peaks, positions, duplicates", "statement": "detectspots raises RuntimeError for no peak or more than 10000 peaks; the peaks are exactly the pixels off the border that are higher than their four neighbours and than the threshold, each once. Duplicate removal only removes spots: each pass removes one that has a spot closer than the PSF width which stays and is not fainter (or is at the identical position); a spot brighter than all spots within the PSF width is always kept; afterwards no two spots are closer than the PSF width unless 100 were removed, and 102 coincident detections do leave a close pair. For exactly coincident detections the brighter one can be the one removed. A peak in the last but one row or column is reported one pixel too far, and one within three pixels of the low edge makes the fit fail. In an image of four to six rows and columns such a peak is fitted on pixels that do not contain it.", "quantifier": "all spot lists", "why_tests_cant": "Unbounded spot lists.", "anchors": ["py/desimeter/detectspots.py:detectspots"]}
{"id": "C59", "title": "Hexapod rotation parsing", "statement": "read_hexrot_deg accepts the FOCUS text of six comma separated fields or a 6-tuple, returns the sixth value divided by 3600, raises ValueError on any other number of fields, on a field that is no number and on any other type, and KeyError when the key is missing.", "quantifier": "all header values", "why_tests_cant": "All strings.", "anchors": ["py/desimeter/io.py:read_hexrot_deg"]}
{"id": "C60", "title": "Petal number mapping is a bijection", "statement": "get_petal_loc maps the ten science petals 2..11 one to one onto locations 0..9, the test petals 0 and 1 to location 0, and raises KeyError on any other id.", "quantifier": "all integers", "why_tests_cant": "All integers.", "anchors": ["py/desimeter/dbutil.py:get_petal_loc"]}
{"id": "C61", "title": "Aberration moves a star towards the apex by at most 20.5 arcsec", "statement": "For every star and date, apply_aberration moves the star along the great circle towards the apex of the Earth's motion (90 degrees behind the Sun on the ecliptic), by the angle whose tangent is 0.99365e-4 times the sine of the distance to the apex, hence never more than 20.5 arcsec.", "quantifier": "all positions, all dates", "why_tests_cant": "Ranges over a continuum of real inputs; tests sample a handful of points and cannot exclude a wrong branch or boundary elsewhere.", "anchors": ["py/desimeter/transform/radec2tan.py:compute_aberration", "py/desimeter/transform/radec2tan.py:apply_aberration"]}
{"id": "C62", "title": "The distortion fit recovers exact coefficients and is least-squares optimal", "statement": "fitZhaoBurge fails exactly when an unknown id is asked for or some non-zero combination of the chosen fields vanishes at every point; otherwise it returns the coefficients of any exact distortion, and for inexact data no coefficients leave a smaller sum of squared distances.", "quantifier": "all catalogues of any length, all lists of polynomial ids", "why_tests_cant": "Unbounded catalogues.", "anchors": ["py/desimeter/transform/zhaoburge.py:fitZhaoBurge"]}
{"id": "C63", "title": "Spot matching wrapper: what the external program is given and how its answer is read", "statement": "spotmatch raises RuntimeError when the program is missing or fails (one retry without -positioner_reach for an old program) and AssertionError for arrays of different lengths. The program gets the spots numbered from one, the expected spots (or all positioners) and the mean position of every fiducial in pixels through the given transform, but pinhole references and device centres always through the default transform. The pixel scale is exact for an affine transform and the reach is 6.6 mm. The result has one row per seven-word line of the output in order; matched rows carry the description of the last metrology row at their location with texts cut to seven characters, unmatched rows are unknown; fiducial centres get pinhole 99, pinholes of a fiducial with centre 10, 11, ..., pinholes without centre 0 like positioners. If the program writes nothing, an old result is returned.", "quantifier": "all metrology tables, transforms, spot lists, all behaviours of the program", "why_tests_cant": "Arbitrary output of an external program, unbounded tables.", "anchors": ["py/desimeter/spotmatch.py:spotmatch"]}
{"id": "C64", "title": "Guide camera pixels and focal plane", "statement": "With metrology giving four corners for every guide camera, gfa2fp sends every pixel of a camera whose corners lie in a plane on a (sheared) rectangle to the focal plane projection of the sensor point moved along the sensor normal until it is 2.23 mm higher, and fp2gfa undoes it. For any four corners the transform is the least-squares affine map shifted by 2.23 mm times the slope. A petal without camera raises KeyError. all_gfa2fp treats every star by its own petal, keeps the order, and gives (0,0) to stars on petals without metrology. One camera with a number of corners other than four makes every call fail, and the transforms are cached for the life of the process.", "quantifier": "all metrology tables, petals, pixel lists, call sequences", "why_tests_cant": "All geometries and tables; state kept between calls.", "anchors": ["py/desimeter/transform/gfa2fp.py"]}
{"id": "C65", "title": "Motion flags of a positioner", "statement": "eval_move_flags reports THETA_STUCK exactly when theta motion can be tested at some phi value and at all such values the measured positions scatter by at most 0.1 mm rms, otherwise nothing; lists of different lengths are rejected. Noise below 0.1 mm cannot hide a dead motor, and a clear motion is never reported stuck. PHI_STUCK is never reported.", "quantifier": "all lists of requested angles and measured positions", "why_tests_cant": "Arbitrary measurement lists with real thresholds.", "anchors": ["py/desimeter/posparams/flags.py:eval_move_flags"]}
{"id": "C66", "title": "Desimeter to PlateMaker coordinates", "statement": "A new DM2PM object changes nothing in either direction. Writing and reading gives the same object; names without .json, other methods and versions are refused. After a successful fit no coefficients for the same fields bring the positions closer in either direction; if one set of positions is the other one distorted by any combination of the fields, the fitted map is this distortion everywhere; for an invertible affine relation the two fitted maps are the affine map and its inverse everywhere. The fit fails exactly when some combination of fields moves none of the positions of one kind; it then raises LinAlgError but may leave the object half updated.", "quantifier": "all objects, documents, position lists, points", "why_tests_cant": "Real-valued least squares over arbitrary catalogues.", "anchors": ["py/desimeter/transform/dm2pm.py"]}
{"id": "C67", "title": "Tangent plane fit of the guide stars", "statement": "TanCorr.fit fails (LinAlgError) exactly when the stars, seen from the pointing found by four corrections with the mean difference, lie on one line, in particular with fewer than three stars. Otherwise, when the fitted scales are numbers, scale, rotation and extra offset are together the affine map that brings the stars closest to the second catalogue, and the reported rms is the one of this map. For exact linear data centred on the pointing, with some rotation, the fit finds offset 0, rms 0 and a correction that maps every point as the data do. Finding: without any rotation (for instance two identical catalogues) a fitted scale is NaN.", "quantifier": "all star lists", "why_tests_cant": "Real-valued fits over arbitrary catalogues.", "anchors": ["py/desimeter/fieldmodel.py:TanCorr.fit"]}
{"id": "C68", "title": "Guide star catalogue: which stars are used, at which position", "statement": "read_guide_stars_catalog keeps, in order, exactly the stars measured closer than max_sep_arcsec to their catalogue position, moved by the proper motion to the time of observation (unknown motions count as zero, positions are unchanged without motion columns); RuntimeError when no star is left, when columns are missing, or when there are motions and no time is known. The time in the catalogue replaces the one of the object. Finding: close to RA 0 good stars are dropped because 360 degrees are not taken out of the difference.", "quantifier": "all catalogues", "why_tests_cant": "Arbitrary catalogues and positions.", "anchors": ["py/desimeter/fieldmodel.py:FieldModel.read_guide_stars_catalog"]}
{"id": "C69", "title": "Field fit: inputs used, pointing moved, exact data reproduced", "statement": "fit_tancorr uses the argument, else the attribute, else the catalogue time or computed sidereal time, and raises RuntimeError when time or hexapod angle are unknown. A successful fit is three fits of the correction, each from the pointing left by the previous one, moving declination by minus the fitted offset and right ascension by the fitted hour angle offset over the cosine of the new declination. For exact linear data centred on the pointing the fit keeps the pointing, counts exactly the stars on petals with metrology, reports rms 0, and afterwards radec2fp sends every such star to its measured position and fp2radec sends it back. Findings: a sidereal time left from an earlier exposure is used with a new time; with exact data without rotation every later radec2fp and fp2radec result is NaN.", "quantifier": "all objects, catalogues, arguments; all exact data", "why_tests_cant": "Real-valued fits over arbitrary catalogues, object history.", "anchors": ["py/desimeter/fieldmodel.py:FieldModel.fit_tancorr", "py/desimeter/fieldmodel.py:FieldModel.fp2radec", "py/desimeter/fieldmodel.py:FieldModel.radec2fp"]}
{"id": "C70", "title": "Reported field rotation", "statement": "If the sky around the centre is the tangent plane turned by an angle theta (with any scale), compute_fieldrot returns minus the sine of theta times 57.3 degrees. Findings: this is not the angle itself (always smaller in size for positive theta) and never exceeds 57.3 degrees in size.", "quantifier": "all angles and scales, all field models", "why_tests_cant": "Continuum of angles.", "anchors": ["py/desimeter/fieldmodel.py:FieldModel.compute_fieldrot"]}
{"id": "C71", "title": "Fit of positioner parameters: points left out, exact data, rms", "statement": "The fit inside fit_params leaves out at most twenty points, each the farthest from its expected position by at least 0.2 mm and 2.1 times the median distance in a best fit to the points still there; with fewer than twenty left out the reported parameters are a best fit to the points counted and none of these is that far off. Without outlier rejection all points are used. If some allowed parameters reproduce all static measurements (or all moves, in dynamic mode) exactly, so do the fitted ones, with rms zero and all points used. Findings: after twenty removals the parameters are those of the fit with the last removed point, and far points may remain; the rms is divided by the number of points before removal, so too small; too few remaining points give a KeyError instead of a flagged result; offsets and drifts cannot be told apart when no sequence consists of recently rehomed measurements only, which the check does not detect.", "quantifier": "all measurement lists, nominal values, bounds and sets of free parameters; all optimisers that find minima within bounds", "why_tests_cant": "Continuum of measurements, unbounded lists.", "anchors": ["py/desimeter/posparams/fitter.py:fit_params"]}
{"id": "C72", "title": "Turbulence correction with local polynomials", "statement": "correct_with_pol moves every fibre back by the gradient, at the fibre, of the polynomial (degree 1 to 4, the best in cross-validation) that fits the offsets of the other fibres in the window in the least-squares sense. If the offsets are the gradient of one polynomial of degree at most 4 that the neighbours determine, the corrected positions are the expected ones. A fibre's own expected position has no influence on its correction, a fibre alone in the window stays where it is, and moving everything moves the result. Findings: one fibre farther than the window from its expected position makes the whole call fail; when no degree has a cross-validation sum below 1e9 the prediction of the previous fibre is used.", "quantifier": "all numbers of fibres, positions, orders of neighbours, all solvers that return least-squares solutions of smallest norm", "why_tests_cant": "Real-valued fits over arbitrary catalogues.", "anchors": ["py/desimeter/turbulence.py:correct_with_pol", "py/desimeter/turbulence.py:predictor", "py/desimeter/turbulence.py:getpoly"]}
{"id": "C73", "title": "Turbulence from files and the covariance loss functions", "statement": "solve_files gives the solver one entry per measured row whose location is expected, in measured order, with the expected position and the offset; it keeps every measured row and adds the solver's contribution of its own entry and the position without it, NaN for locations that are not expected. Duplicate expected locations, locations measured twice and unknown modes are ValueErrors. The covariance is found from the nuse fibres closest to the centre. loss_independent and loss_gradwavefront are minus the logarithm of the normal likelihood of the offsets up to a constant. Finding: the docstrings say one half of that.", "quantifier": "all tables, solvers, numbers of fibres, parameters with non-zero noise, all Cholesky routines", "why_tests_cant": "Arbitrary tables; likelihoods for every parameter and number of fibres.", "anchors": ["py/desimeter/turbulence.py:make_data", "py/desimeter/turbulence.py:solve_files", "py/desimeter/turbulence.py:solve_covar", "py/desimeter/turbulence.py:loss_independent", "py/desimeter/turbulence.py:loss_gradwavefront"]}
{"id": "C74", "title": "Echo22 optics model: round trips over the whole field", "statement": "In echo22.py, fp2tan followed by tan2fp returns to within 0.0007 mm for every point within 415 mm, and tan2fp followed by fp2tan to within 0.0105 arcsec for every direction within 1.63 degrees; radius and angle increase together with a scale of 242 to 300 mm per degree; both transformations commute with rotations about the centre; the polynomials agree with every row of Echo22Platescale.txt used in the fit to 0.0007 mm and 0.009 arcsec; results do not depend on earlier calls (cached coefficients); outside the unit circle the result is NaN. Finding: the centre is mapped 0.1 micron off along x.", "quantifier": "all points of the field (real numbers), all sequences of earlier calls, every polyfit that minimises the squared residuals", "why_tests_cant": "The unit tests try a few thousand random points; the claim is about the continuum and about any call order.", "anchors": ["py/desimeter/transform/tan2fp/echo22.py", "py/desimeter/transform/tan2fp/data/Echo22Platescale.txt"]}
{"id": "C75", "title": "Detecting and naming the fibres that moved", "statement": "detect_and_match_moving_positioners detects the spots of the images after the moves whose focal plane position differs, by more than the smallest and less than the largest move, from that of the nearest spot before, after the best affine transformation of all pairs; two sets of images that differ only by such a transformation give no detection. Every row written is a detected spot with its closest requested device at an allowed distance, no device or spot twice; when the devices are twice the reach apart every moved fibre is written with its own device. Without rows no file is written. Findings: a fibre can be written under the name of its neighbour; the limit of 50 pixels for pairs is never applied.", "quantifier": "all images, devices, limits; all sorting and nearest neighbour routines that meet their specification", "why_tests_cant": "Arbitrary spot catalogues and a continuum of positions; the script needs images and has no tests.", "anchors": ["bin/detect_and_match_moving_positioners"]}
{"id": "C76", "title": "Internal angles to petal coordinates and back", "statement": "int2ptl gives, for any number of positioners each with its own calibration, the point of the petal that lies at the tip of the two arms in flattened coordinates, to 5 microns. ptl2int gives angles within the travel ranges; where it does not report unreachable the arms put the fibre on the requested flattened point, and int2ptl brings it back to within 5 microns; starting from angles, the angles found put the fibre where it was to 5 microns.", "quantifier": "all numbers of positioners, calibrations, points, guesses", "why_tests_cant": "Continuum of calibrations and points; the existing test of the composites tries a handful of values.", "anchors": ["py/desimeter/transform/pos2ptl.py:int2ptl", "py/desimeter/transform/pos2ptl.py:ptl2int"]}
{"id": "C77", "title": "Expected positions from the data base", "statement": "get_poscoords writes every move of the exposure (or the most recent moves of each petal), petal by petal, once and in order, with petal location and expected position: the tip of the arms for the recorded angles and calibration, moved rigidly by the petal alignment. When the moves of a petal have one time, in particular without exposure id, the calibration is the one in force when the move was recorded. The exact conditions under which the script works are given. Findings: with an exposure id a row can get a calibration recorded after its move, a positioner first calibrated between two moves of the exposure stops the script, and an exposure without moves is a TypeError.", "quantifier": "all data bases, petals, exposures", "why_tests_cant": "Arbitrary data base contents; the script needs the data base and has no tests.", "anchors": ["bin/get_poscoords", "py/desimeter/dbutil.py:get_petal_loc"]}
{"id": "C78", "title": "Circle centres over many exposures", "statement": "desi_fit_circles, for all input files: no pinhole has two rows in the output, and a row for a pinhole is written exactly when at least six files mention it once, with the expected position of the first mention, less than 3 mm away and not at X=0; its position is the centre of the circle fitted on the curved surface (positioners with variance of X at least 1) or the median (fiducials) of the measurements with X not 0. A positioner moving on a circle of radius 1 to 5 mm around P gets a row within 5 um of P; a fiducial for which more than half of the measurements agree gets exactly that position. Findings: a positioner measured only with X=0 stops the script with TypeError, pinholes expected at X=0 are never written, an arc travelling along Y is taken for a positioner that does not move, and two usable measurements are enough for a (wrong) centre.", "quantifier": "all lists of files, all measurements, all least squares routines that do not make the fit worse", "why_tests_cant": "Arbitrary numbers of files and measurements over the reals; the script has no tests.", "anchors": ["bin/desi_fit_circles", "py/desimeter/circles.py:fit_circle", "py/desimeter/transform/xy2qs.py:xy2uv"]}
{"id": "C79", "title": "Focal plane metrology table: rows, patches, cameras, identifiers", "statement": "write_focal_plane_metrology writes, for positioners and fiducials, one row per pinhole: with replacement the last row of the patch about the (LOCATION, PINHOLE_ID) pair, otherwise the row of the petal metrology (petals below 10, more than 1 mm from the axis) carried to the focal plane by the alignment of its petal; with --no-replacement the patch only adds missing pinholes (first row wins). Pinholes not named in the patch are unchanged and no pinhole is duplicated. Camera rows of a petal are replaced as a whole by the GFA patch when its rows lack petal coordinates. Corrections change only X_FP and Y_FP of the single row they match, and stop with IndexError or ValueError when there is none or several. Identifiers come from the last row of the device table with the location, petal identifiers from the first row of the petal. Finding: Z_PTL of the replaced camera rows is the focal plane height, so that the petal coordinates of these rows do not map to their focal plane coordinates.", "quantifier": "for all petal metrology tables, alignments, patches, camera patches, corrections and device tables", "why_tests_cant": "the script is only run on the tables of the package; duplicate keys in the patch, keys missing from it, and the order of the four passes matter only for other tables", "anchors": ["bin/write_focal_plane_metrology:33-60", "bin/write_focal_plane_metrology:66-76", "bin/write_focal_plane_metrology:83-92", "bin/write_focal_plane_metrology:99-108", "bin/write_focal_plane_metrology:114-133"]}
{"id": "C80", "title": "Camera corners from the calibration with stars", "statement": "write_gfa_patch makes a table exactly if the alignments of the six guide petals are known, the metrology has one row for every corner of the measured cameras among them, and the package metrology has exactly eight measured cameras to average. The table has one row per corner of the six guide cameras, in order, with the right petal id. The corner written is the one from which the filter thickness, 2.23 mm along the normal of the sensor, leads to the position of its pixel in the calibration; the loop of ten turns has converged after two. Heights are those of the metrology, or the average for the two cameras never measured. Petal coordinates are NaN for measured cameras and otherwise those of the written position. With these corners in the metrology, gfa2fp gives every pixel the position of the calibration with stars and fp2gfa is the reverse.", "quantifier": "all metrology tables, alignments, pixels", "why_tests_cant": "Real-valued geometry over arbitrary tables; the effect on gfa2fp involves a least-squares fit for every pixel; the script has no tests.", "anchors": ["bin/write_gfa_patch", "py/desimeter/transform/gfa2fp.py"]}
{"id": "C81", "title": "Moves joined with FVC measurements by exposure", "statement": "get_posmoves_with_fvc_data uses the given images that exist, carry both exposure keywords and are of the exposures and iterations asked for; each with the table found in the data directory or made by processing it, provided image names differ. The measurements are the matched spots of these images with the exposure of their image. With exposures and iterations given as numbers and iterations below 1000, one file is written for each positioner of each petal: one row per move asked for, in the order of the data base, whose exposure and iteration were measured for this very positioner, with the last measured position, its petal coordinates and the rehoming flag; other moves are dropped. The loop works exactly if every petal and its alignment are known and no move asked for lacks an exposure or iteration, and the file of a positioner at the end is its own table when no positioner comes twice. Findings: two images of the same name share the table of the first; with --pos-ids and several petals the file is overwritten by the table of the last petal; a range of exposures a-b selects images but subtracts in the query, so that nothing is written, and other ranges are a syntax error of the query; a move without exposure stops the script.", "quantifier": "all image lists, headers, data directories, tables of the data base, arguments", "why_tests_cant": "Needs a data base, FVC images and the file system; a join over arbitrary tables with files as state.", "anchors": ["bin/get_posmoves_with_fvc_data", "py/desimeter/util.py:parse_fibers"]}
{"id": "C82", "title": "Moves joined with FVC measurements by time", "statement": "get_posmoves_with_fvc_data_using_dates, for one petal or the first of several: a positioner has no file if none of its moves has a measurement; otherwise one row for each of these moves, in the order of time (rows measured at X = 0 are dropped). The measurement of a move is the first row of the location of the positioner in the file of the image for the time of the move: the nearest image after it, at most the longest delay later (an image at the very same second only if it is the last one). The row has the last calibration before the move. The script works for a petal exactly if the petal is known, there are images or no moves, and each measured move has an earlier calibration when calibrations are asked for. Findings: the times of the images are overwritten by those of the first petal, so that the second petal gets positions from images made before its moves, or stops with an index error where it works alone.", "quantifier": "all image tables sorted by time, data files, tables of the data base, offsets, delays", "why_tests_cant": "Needs a data base and files; nearest matching over arbitrary tables and a variable carried over between petals.", "anchors": ["bin/get_posmoves_with_fvc_data_using_dates"]}
{"id": "C83", "title": "Rows used for the performance of positioners", "statement": "analyze_pos_performance uses for a positioner exactly the rows of its files that are within the dates, have the scales asked for, have a command, a position, an exposure and an iteration, are flagged as matched (bit 0 or bit 10), and, unless special moves are included, whose note does not contain one of the special keywords; each as often as in the files, in the order of the sort, also when the positioner is in several files; there is no entry exactly if there is no such row. The choices of the scale filter divide the rows: exclude, t_only, p_only and t_and_p are disjoint and cover everything, t_or_p is the last three together. Findings: the rows of the day given as --date_max are left out, since dates with a time are compared as text; a spot flagged MATCHEDCENTER but not MATCHED counts as matched; a coordinate or an exposure of exactly zero counts as missing.", "quantifier": "all files, rows, options, orders of the sort", "why_tests_cant": "Arbitrary combinations of masked entries, flags, texts of notes and dates; the text search coincides with a property of bits only by going through all sets of flags.", "anchors": ["bin/analyze_pos_performance:read", "bin/analyze_pos_performance:remove_excluded_dates", "bin/analyze_pos_performance:remove_excluded_calibs", "bin/analyze_pos_performance:remove_nonmoving_rows", "bin/analyze_pos_performance:identify_posflags", "bin/analyze_pos_performance:remove_unmatched_rows"]}
{"id": "C84", "title": "Moves and submoves identified in the notes", "statement": "analyze_pos_performance gives each row the sequence index, the move, the submove and the requested position found in the last token of each kind in its note, a token being a trimmed piece between semicolons. Without a number in the note the submove is zero for an absolute command and for the first row of an exposure, and otherwise one more than that of the row before. MOVE_COUNTER is the number of rows of the same exposure directly before. The request of a correction lies at the distance given by the correction from the position measured in the row before; for obsdXdY the correction is turned by the multiple of 36 degrees of the petal. The analysis goes through exactly under stated conditions on the tokens. Rows are removed as orphans exactly if there is no submove zero of the same positioner, move and exposure; all rows kept have all requested coordinates. Findings: a correction in the very first row uses the measurement of the last row; orphans can be left, since rows without request are removed after the orphans; a token that is only the word move stops the program; the meaning of a note depends on the order of its tokens.", "quantifier": "all tables, notes, commands, petals", "why_tests_cant": "Free text parsed by position; the state carried from row to row depends on the whole history, only an induction over the rows gives the closed forms.", "anchors": ["bin/analyze_pos_performance:identify_moves", "bin/analyze_pos_performance:remove_orphan_submoves", "bin/analyze_pos_performance:remove_insufficient_request_info_rows", "bin/analyze_pos_performance:parse_val", "bin/analyze_pos_performance:split_note_token"]}
{"id": "C85", "title": "Tags, avoidances, acceptance and sequences in the analysis of performance", "statement": "For any name and any tag, adding the tag and taking it off gives back the name, and reading it gives back the tag; the tagged names are exactly those ending in an underscore and a tag, and the tags themselves; other names and other tags are refused. The number of collision avoidances of a row is the total number of names in the lists of its tokens 'collision avoidance: [...]', with none, one or several names. A row is frozen exactly if bit 20 of its flags is set and accepted exactly if neither bit 20 nor bit 25 is set. The sequence is the text after 'sequence: ' in the last such token. Findings: the words 'sequence' or 'collision avoidance' alone as a token stop the program; a sequence name containing a colon and a space is cut there.", "quantifier": "all names, tags, notes, flags, lists of plain names", "why_tests_cant": "Unbounded texts; the text search in the names of flags coincides with the state of the bits only by going through all sets of flags.", "anchors": ["bin/analyze_pos_performance:add_tag", "bin/analyze_pos_performance:strip_tag", "bin/analyze_pos_performance:get_tag", "bin/analyze_pos_performance:is_tagged", "bin/analyze_pos_performance:identify_avoidances", "bin/analyze_pos_performance:identify_accepted", "bin/analyze_pos_performance:identify_sequences"]}
{"id": "C86", "title": "Statistics of the errors of positioners", "statement": "analyze_pos_performance merges exactly the rows of those positioners for which every submove has an accepted row; on the merged table the quantiles and the summaries of the tracked, requested and accepted targets are computed without error, whatever the data. The level of a row is the lowest level whose cutoff is not below its error, among the rows of its submove. The summary has exactly one entry for each submove and each level that occurs; the entry is computed from the smallest errors of the submove, at least floor(q(n-1))+1 of n, exactly so many if no two errors are the same, all of them for the level infinity. The table by positioner has for each submove, in order, the numbers of targets and of accepted targets, the smallest scales, and the six statistics, which satisfy min <= mean <= max, |mean| <= rms, rms^2 = mean^2 + std^2, rms <= max for errors, and not more than half of the values are on either side of the median. The metadata give the number of rows of the first submove and the number of rows of later submoves per row of the first. Findings: one submove without accepted rows removes a positioner from all results; with one row per submove the only level is 1, called 63% of the targets; the number of targets reported for accepted targets includes those not accepted.", "quantifier": "all tables, tags, levels, lists of positioners", "why_tests_cant": "The cutoffs are order statistics of unbounded tables, the claim that no branch fails is an invariant between functions far apart.", "anchors": ["bin/analyze_pos_performance:identify_quantiles", "bin/analyze_pos_performance:summarize_stats", "bin/analyze_pos_performance:analyze_one_pos", "bin/analyze_pos_performance:get_sigmas", "bin/analyze_pos_performance:get_idxs"]}
{"id": "C87", "title": "Errors, radii, numbers of images and names in the report of positioners", "statement": "For every table of measured, requested and tracked positions analyze_pos_performance computes errors for all rows. The error of the requested target is the distance of the measured from the requested point in flattened coordinates and is zero exactly if they are the same point; the error of the tracked target is the distance from the tip of the arms to 5 microns; the two differ by at most the distance of the tip from the requested point and 5 microns; the radius of the tracked target depends on the second angle only. The number of images of a row is the number of iterations since the row before it, unknown for the first row and for iteration zero; within an exposure it is positive, and leads to the row of the exposure just before. The grid of plots has room for all of them, at most three columns, no empty row or column. The text for a set of exposures does not depend on order and is never longer than the list. The largest errors listed are not smaller than any left out. Findings: the first row of a later exposure gets a difference across exposures; of several submoves only the first one is named; different sets of exposures write to the same file names.", "quantifier": "all tables, calibrations and angles with points within 431 mm, all numbers of plots, all sets of exposures", "why_tests_cant": "The bounds hold for a continuum of calibrations and angles, the rest for tables of any length.", "anchors": ["bin/analyze_pos_performance:calc_errors", "bin/analyze_pos_performance:calc_alt_coords", "bin/analyze_pos_performance:calc_radii", "bin/analyze_pos_performance:detect_num_fvc_images", "bin/analyze_pos_performance:choose_subplot_dims", "bin/analyze_pos_performance:get_submoves_str", "bin/analyze_pos_performance:get_unique_condensed_list_str"]}
{"id": "C88", "title": "Global refit of the camera transformation", "statement": "desi_fit_fvc2fp_using_posparams and desi_fit_fvc2fp_using_theta_centers fit the pixels of the measured points (those which the old transformation sends there, up to the accuracy of its inverse) to the positions of the metrology. Used are exactly the rows without flags and with a small enough error, each with the last metrology row of its identifier; a row without metrology, a petal without alignment or no usable file at all end the script without result; with another metrology table the rows are those of the same location and pinhole, and a file without these columns gives exit code 12. The new transformation keeps the pixel normalisation, has the requested fields, and among all coefficients its sum of squared distances on the points of the second fit (those the first fit puts closer than 0.08 mm) is least; it is not larger than that of any similarity, if the fields 0, 1, 2, 27 are there, and not larger than after the first fit. If the metrology is exactly a similarity of the pixels every pixel goes exactly where it belongs, and two different pixels are enough for a result; if nothing is to be changed nothing changes; with fewer equations than fields left there is no result. The metrology patch goes by way of its old pixels through the new transformation. A list of fields without 0, 1, 2, 27 gives exit code 12. Findings: a circle that is not in the other metrology table gets the position (0,0) and is fitted, which can reject all good points; with another list of fields the stored coefficients are assigned to the wrong fields in the first fit.", "quantifier": "all transformations, lists of fields, tables, metrologies, minimisers (any result; optimality against scale, rotation and offset if it minimises)", "why_tests_cant": "Optimality over all coefficients and exactness for all data sets are statements about real numbers without bound; the selection is one about all tables.", "anchors": ["bin/desi_fit_fvc2fp_using_posparams", "bin/desi_fit_fvc2fp_using_theta_centers", "py/desimeter/transform/zhaoburge.py:fit_scale_rotation_offset"]}
{"id": "C89", "title": "Ray and conic surface", "statement": "In general position (the quadratic along the ray has a nonzero discriminant, and a nonzero linear term unless the quadratic term is zero) getBothRoots gives the nonzero real roots, and conicIntercept succeeds if and only if the ray meets the surface ahead, the graph of the sag of the conic; it then moves the ray to the first such point and keeps its direction. A ray that fails is not moved; the code BACK means the surface is met only behind. From in front of a plane the point is where the line meets the plane. Findings: with a zero linear term getBothRoots takes C/A instead of -C/A, so that a ray from the centre of curvature to the vertex of a sphere is reported as missing, and a ray that does not meet a sphere is moved to a point that is not on it; a ray that touches the surface and a ray that is on a plane already are lost.", "quantifier": "all curvatures, asphericities, rays (position and direction any reals)", "why_tests_cant": "The claims are about real roots for every ray and every conic, including degenerate ones that no sample meets.", "anchors": ["py/desimeter/transform/tan2fp/raytrace/RT185v2.py:getBothRoots", "py/desimeter/transform/tan2fp/raytrace/RT185v2.py:conicIntercept", "py/desimeter/transform/tan2fp/raytrace/RT185v2.py:fixup"]}
{"id": "C90", "title": "Normal, mirror and refraction of a ray", "statement": "The surface normal is a unit vector, perpendicular to both tangents of the surface whose height is the sum of the conic sag and the polynomial. A mirror sends the direction to the reflected one in the plane of incidence with the same angle, keeps its length and undoes itself. Refraction gives a direction if and only if Snell's law has one, and then exactly that one: unit length, in the plane of incidence, on the same side, n1 sin i = n2 sin t; total reflection is reported exactly when sin t would be larger than 1; it is reversible and does nothing between equal media. redirect follows the action code of the surface and does nothing at the last surface. Findings: beyond the edge of the conic the normal is that of a plane; a ray exactly along the surface is let into the denser glass with a direction that is not of unit length.", "quantifier": "all surfaces, points, directions, indices", "why_tests_cant": "Snell's law, orthogonality to the tangents and reversibility are identities in real functions; tests compare numbers at points.", "anchors": ["py/desimeter/transform/tan2fp/raytrace/RT185v2.py:getNormal", "py/desimeter/transform/tan2fp/raytrace/RT185v2.py:gradTotal", "py/desimeter/transform/tan2fp/raytrace/RT185v2.py:reflect", "py/desimeter/transform/tan2fp/raytrace/RT185v2.py:refract", "py/desimeter/transform/tan2fp/raytrace/RT185v2.py:redirect"]}
{"id": "C91", "title": "Frames of the surfaces", "statement": "The Euler matrix of a surface is the product of the rotations by tilt, pitch and roll about x, y and z, a rotation of determinant one. Going to the frame of a surface and back gives the same ray, both ways; distances, angles and handedness are kept; points on a line go to points on a line with the same parameter. Every rotation has a tilt, pitch and roll.", "quantifier": "all angles, vertices, rays; all rotations", "why_tests_cant": "Statements for all angles, and existence of angles for all rotations.", "anchors": ["py/desimeter/transform/tan2fp/raytrace/RT185v2.py:setEulers", "py/desimeter/transform/tan2fp/raytrace/RT185v2.py:labtovx", "py/desimeter/transform/tan2fp/raytrace/RT185v2.py:vxtolab"]}
{"id": "C92", "title": "Apertures and spiders", "statement": "A point passes validate if and only if it is inside the outer diameter (if there is one), outside the inner one, and not under a leg of the spider; the code names the first of these that fails. Legs are strips of the given width from the axis outwards, at equal angles. Finding: because the roll is in the frame and again in the angles of the legs, the spider of a rolled surface is turned by twice the roll.", "quantifier": "all surfaces, diameters, numbers of legs, widths, rolls, points", "why_tests_cant": "An equivalence with a geometric specification for all points; tests only sample points.", "anchors": ["py/desimeter/transform/tan2fp/raytrace/RT185v2.py:validate"]}
{"id": "C93", "title": "Path of a ray through the telescope", "statement": "runOneRay: each row is a point on its surface in the lab, on the line from the point before, ahead of it, at the first crossing (conic surfaces, general position), passing the aperture of the surface, and its direction is that of the mirror, of Snell's law, of the retroreflector or unchanged according to the action, in the lab. A ray is lost at a conic surface only because the surface is not met ahead, the aperture stops it at the first crossing, it is totally reflected, or the kind of the surface is unknown (rays in general position). Directions of unit length stay of unit length as long as no ray grazes.", "quantifier": "all lists of surfaces, all rays, all glass tables", "why_tests_cant": "It is about every list of surfaces and every ray, by induction on the list.", "anchors": ["py/desimeter/transform/tan2fp/raytrace/RT185v2.py:runOneRay"]}
{"id": "C94", "title": "Turned telescope and dispersion corrector", "statement": "If all surfaces and the incoming ray are turned by the same rotation, the ray gets as far as before and its rows are turned; for every rotation there is such a turned telescope. The roll of a surface without spider has no effect. In a telescope centred on its axis turning the ray about the axis turns its whole path. Two coordinate breaks on the axis, the first rolled by -a, the second by a, have on every ray exactly the effect of turning the elements between them by a about the axis, whatever is before and after; hence after modifyADC(adc1, adc2) a telescope laid out as that of DESI traces every ray as one whose first corrector element is turned by adc1 and whose second by adc2. modifyADC sets the rolls of surfaces 11, 15, 17, 21 and nothing else, only its last call counts, and a table with fewer than 21 surfaces is an IndexError.", "quantifier": "all surfaces, rays, rotations, angles of the corrector, surfaces before and after", "why_tests_cant": "Equality of two telescopes for all rays and angles is a refinement statement; tests compare some rays.", "anchors": ["py/desimeter/transform/tan2fp/raytrace/RT185v2.py:modifyADC", "py/desimeter/transform/tan2fp/raytrace/RT185v2.py:runOneRay", "py/desimeter/transform/tan2fp/raytrace/RT185v2.py:setEulers"]}
{"id": "C95", "title": "Intercept with aspheric surfaces converges", "statement": "higherIntercept moves a ray from its crossing with the conic to the surface with the polynomial by at most nine Newton steps. If near the crossing the height of the surface along the ray changes by less than a third of the change of the height of the ray, then the ray has exactly one crossing in that range, the slope is never zero, every step reduces the distance along z to the surface by the factor rate = 2e/(|w|-e) < 1, and the point that is returned is on the line of the ray, at most max(rate*1e-12, rate^9*first distance) from the surface along z, with a corresponding bound of its distance from the true crossing. The direction is kept and a ray already on the surface is not moved. Findings: a ray that never meets the surface is reported as passing it, at a point off the surface, because convergence is not tested; a slope of zero is divided by.", "quantifier": "all surfaces, rays and bounds of the slope", "why_tests_cant": "Convergence of an iteration for all surfaces and rays is a contraction argument; tests only see rays that converge.", "anchors": ["py/desimeter/transform/tan2fp/raytrace/RT185v2.py:higherIntercept", "py/desimeter/transform/tan2fp/raytrace/RT185v2.py:func", "py/desimeter/transform/tan2fp/raytrace/RT185v2.py:deriv"]}
{"id": "C96", "title": "Tables of the ray tracer", "statement": "unpackCSV gives a rectangle with the title and all rows that have something in them, in order, cells without blanks around them, nothing lost, no unneeded columns. Headers of optics and rays and the texts of actions mean what the lists in the code say, for all texts. getOpticsCSV gives one surface per row, as many as the number in the title if there is one, every property taken from the last column with a header for it; getRaysCSV gives rays that start at the position of their row with the unit direction that completes the first two cosines with the sign of the third, or ends the program if there is none; getMediaCSV accepts a table exactly if all glasses and wavelengths in use are in it, and after that findRefraction never ends the program and gives the index in the first row and column of the names. Findings: short tables, Zernike and sag headers are a NameError; a header with A but no number is the roll; any header with C, also Comments, is the curvature; a glass given as a number is refused by getMediaCSV although findRefraction supports it; without a number in the title the media table is refused while optics are read in full; a missing index is air; the exit code of all refusals is 0.", "quantifier": "all tables (lists of records), all texts, all meanings of numbers in texts", "why_tests_cant": "Tables of any size and shape with any texts; column by column filling against row by row meaning is a refinement.", "anchors": ["py/desimeter/transform/tan2fp/raytrace/RT185v2.py:unpackCSV", "py/desimeter/transform/tan2fp/raytrace/RT185v2.py:getOpticsCSV", "py/desimeter/transform/tan2fp/raytrace/RT185v2.py:getRaysCSV", "py/desimeter/transform/tan2fp/raytrace/RT185v2.py:getMediaCSV", "py/desimeter/transform/tan2fp/raytrace/RT185v2.py:findRefraction", "py/desimeter/transform/tan2fp/raytrace/RT185v2.py:suckInt", "py/desimeter/transform/tan2fp/raytrace/RT185v2.py:getActionType", "py/desimeter/transform/tan2fp/raytrace/RT185v2.py:getOpticsAttribute", "py/desimeter/transform/tan2fp/raytrace/RT185v2.py:getRayStartAttribute"]}
{"id": "C97", "title": "Whole runs of the ray tracer", "statement": "getNine returns the number, the mean and the scatter of the points at which the rays of the table of rays arrive with the wavelength and direction of each row, in the telescope with the corrector at the angles of the first row; it does so exactly if all tables can be read, every wavelength has two good rays or more and all have the same number of them. Directions are unit vectors, up or down as in the table. The optics table of DESI is read as 26 surfaces, and in this telescope a turn of both parts of the corrector and of the star about the axis turns every ray, and with a pupil of that symmetry the mean point of arrival. run.py: all directions are within 1.6 degrees of the axis, every direction there has one of the grid beside it, the rows are those of the grid in order with opposite angles of the corrector for the nineteen settings. Findings: the angles of the other rows are ignored; different numbers of good rays are a ValueError; wavelength number -1 is the longest wavelength; the rings are farther apart than the spacing asked for unless it divides 1.6.", "quantifier": "all tables, wavelengths, directions, angles of the corrector, spacings of the grid and turns", "why_tests_cant": "Real parameters, any number of rays and wavelengths, symmetry between two runs; the run of 19 settings of the code takes hours.", "anchors": ["py/desimeter/transform/tan2fp/raytrace/RT185v2.py:getNine", "py/desimeter/transform/tan2fp/raytrace/RT185v2.py:prepForcedRayGroup", "py/desimeter/transform/tan2fp/raytrace/RT185v2.py:runAllTableRays", "py/desimeter/transform/tan2fp/raytrace/RT185v2.py:modifyADC", "py/desimeter/transform/tan2fp/raytrace/RT185v2.py:letter2index", "py/desimeter/transform/tan2fp/raytrace/DESI-ADC-2.OPT.CSV", "py/desimeter/transform/tan2fp/raytrace/run.py:incoming_rays", "py/desimeter/transform/tan2fp/raytrace/run.py:work", "py/desimeter/transform/tan2fp/raytrace/run.py:main"]}
{"id": "C98", "title": "Fit of the ray traced table", "statement": "TAN2FP_RayTraceFit.fit stores one entry for each setting of the corrector in the table, fitted to all rows of that setting and no others; it succeeds exactly if at no setting a non-zero combination of the fifteen fields vanishes at all points (eight given points are enough). At a setting of the table with opposite angles below 180 degrees the resulting transformation is the best distortion of this kind for the rows of the setting, and reproduces exact data; other differences of angles are defined exactly between the smallest and the largest of the table. For a table made by run.py that can be fitted the nineteen settings are stored in order and the transformation is defined at all angles. Findings: settings are told apart by adc1 + 1000 adc2, so some are mixed up; the entry for (-180, 180) is not used at that setting; with fewer than four settings or two of the same difference the fit succeeds and the transformation raises.", "quantifier": "all tables, cubic interpolations, orders of equal differences, points and angles of the corrector", "why_tests_cant": "Least squares optimality over all coefficients and rows, arbitrary angles; the table comes from a run of hours.", "anchors": ["py/desimeter/transform/tan2fp/raytracefit.py:fit", "py/desimeter/transform/tan2fp/raytracefit.py:interpolate_coeffs", "py/desimeter/transform/tan2fp/raytracefit.py:tan2fp", "py/desimeter/transform/tan2fp/raytracefit.py:fp2tan", "bin/fit_raytrace_tan2fp", "py/desimeter/transform/tan2fp/raytrace/run.py:main"]}
{"id": "C99", "title": "Empirical covariance of the displacements", "statement": "empirical_covariance returns, for every bin of distances, the mean product of the displacements in x and in y over all ordered pairs of spots whose distance is at least the lower and less than the upper edge, each spot with itself included, and 0 for a bin without pairs; the order of the spots does not matter. Without edges there are exactly `bins` bins of equal width from 0 to 0.1 beyond the largest distance, every pair is in exactly one bin, and the values times the numbers of pairs add up to the square of the sum of the displacements. ValueError exactly for an empty table or negative number of bins without edges and for an empty list of edges. Findings: with given edges the values are one longer than the middles of the bins exactly if two spots are at or beyond the last edge; the mean displacement is not subtracted, so a common shift of all spots appears as its square in every bin.", "quantifier": "all tables of spots, numbers of bins, increasing edges", "why_tests_cant": "Real valued positions in any number; sums over all pairs.", "anchors": ["py/desimeter/turbulence.py:empirical_covariance"]}
{"id": "C100", "title": "Errors and covariances of fitted parameters", "statement": "If both lists of errors are given to fit_params and the residuals are linear in the free parameters, the covariance matrix used is the propagation of independent errors of the measurements through the weighted least squares solution. The dictionary returned gives back, read in either order of the two names, the element of the matrix for two free parameters and nothing or 0 if one of them is fixed. The table of a pass has for each of the eight parameters one column with the values and one ERR column with the square roots of the variances (0 where the parameter was fixed or the fit failed), and for each two parameters, in the order of the list of names, one COV column with their covariance, left out exactly if it is 0 in all windows. The pass ends with exit code 12 exactly if a window other than the first has an EPSILON parameter which the first window lacks. Finding: if only one of the two lists of errors is given the matrix is rescaled with the residuals all the same, so that given errors in x count for nothing but relative weight.", "quantifier": "all matrices, lists of free and fixed parameters, sequences of windows", "why_tests_cant": "Real matrices of any size, all sequences of windows; the order of names inside the keys decides whether a value is found.", "anchors": ["py/desimeter/posparams/fitter.py:fit_params", "py/desimeter/posparams/fithandler.py:_process_cases"]}
{"id": "C101", "title": "PSF and centroids of spots", "statement": "psf is the flux of a Gaussian falling on the pixel, dpsfdxc and dpsfdyc are its derivatives, it is positive and its sum over any stamp is below one. fitcentroid_gaussian finds a Gaussian spot in the middle of a stamp exactly, exchanging rows and columns of the stamp exchanges x and y, mirroring it reverses x, multiplying it keeps the position and scales flux and errors, a symmetric stamp has position zero. Each pass minimises the linearised sum of squares, the errors are the propagation of the pixel noise and positive. The only exception is LinAlgError: for stamps thinner than two pixels or with sum zero, otherwise only if a flux estimate is exactly zero. The barycenter raises RuntimeError exactly if the sum is not positive and is the weighted mean otherwise. gaussian_convolve keeps every pixel between the extremes of its surroundings and the sum of an image that is zero near the border. Finding: whatever the stamp, the fitted position is never more than one pixel from its centre.", "quantifier": "all stamps of any size, widths, fluxes, positions, images", "why_tests_cant": "Real valued pixels, error function and matrix inverse; statements about all stamps of all sizes.", "anchors": ["py/desimeter/detectspots.py:psf", "py/desimeter/detectspots.py:dpsfdxc", "py/desimeter/detectspots.py:dpsfdyc", "py/desimeter/detectspots.py:fitcentroid_gaussian", "py/desimeter/detectspots.py:fitcentroid", "py/desimeter/detectspots.py:fitcentroid_barycenter", "py/desimeter/detectspots.py:gaussian_convolve"]}
{"id": "C102", "title": "Listing of possible matches", "statement": "match2d lists exactly the pairs within the radius, each once with its distance, in the order of the first list. possible_assignments_dict has as keys the positioners that get a spot in the assignment or an alternative and as value all these spots. print_groupings prints one line for every such pair, in the order of the names, with the name of the positioner, the place of the spot and the number of candidates; with a table of calibrations also an elbow: on the line to the spot if the arms do not reach it, 3 mm beside the centre if the spot is too close, else at the distances LENGTH_R1 of the centre and LENGTH_R2 of the spot. The AssertionError is never raised; ValueError for two positioners of one name, KeyError without the columns LENGTH_R1 and LENGTH_R2, otherwise no exception. --petal keeps the spots within the longest reach of a positioner. Findings: the printed elbow is the right one of the two intersections exactly if sin(phi) <= 0, i.e. the wrong one for phi between 0 and 180 degrees; a positioner without calibration gets NaN; --petal drops spots that match_positioners would accept.", "quantifier": "all tables of spots, positioners and calibrations, all assignments and alternatives, all radii", "why_tests_cant": "Real valued positions and an arbitrary number of spots and positioners; the side of the elbow is a statement about all angles.", "anchors": ["py/desimeter/match_positioners.py:match2d", "py/desimeter/match_positioners.py:possible_assignments_dict", "py/desimeter/match_positioners.py:print_groupings", "bin/desi_print_ambigous_groups"]}
{"id": "C103", "title": "Columns of the output of fvc_proc", "statement": "The expected positions are X_FP, Y_FP of the table, else X_FP_EXP, Y_FP_EXP, else the place of EXP_Q_0, EXP_S_0 ((-99999,-99999) for NaN); the location is LOCATION, else PETAL_LOC*1000+DEVICE_LOC; pinholes are left out; a missing column is a KeyError, NaN in X_FP or X_FP_EXP a ValueError. Spots identified before keep their columns; another spot gets the columns of the nearest expected position if that is closer than the maximal distance and no spot nearer to it took it; no two spots get the same; a spot without one has none within the distance or a nearer competitor. The turbulence correction replaces the positions of the identified spots with nonzero expected coordinates, in order, and nothing else, only with --expected-positions. X_FP_EXP is replaced by nonzero metrology. RA, DEC are those of the position, zero for a zero coordinate. With --use-spotmatch the metrology has one row per fiducial, the mean of its pinholes with PINHOLE_ID 99, other rows and the order are kept, and positions go to the last spot of a location. Finding: with --use-spotmatch X_FP_EXP of the output is the centre of the positioner from the metrology, whatever positions are expected.", "quantifier": "all tables of spots, metrologies and expected positions, all subsets of columns, all maximal distances, transforms and corrections", "why_tests_cant": "Real coordinates, any number of spots and rows, any combination of columns; one to one matching is a statement about all pairs.", "anchors": ["py/desimeter/processfvc.py:get_expected_pos", "py/desimeter/processfvc.py:fvc_proc"]}
{"id": "C104", "title": "Start values of the circle and parameter fits", "statement": "The derivatives which fit_circle gives to the least squares routine are those of the function it gives: wherever no point is at the centre, Df_2b is the derivative of f_2b, and the gradient of the minimised sum of squares is twice their product, zero at every minimum. The residuals add up to zero and vanish exactly if all points are at one distance from the centre. In fit_params the start values of OFFSET_X and OFFSET_Y never raise an error; there are some exactly if a value of posintP was measured three times or more; if more than half of such values have positions that determine circles around one centre (four or more different positions, or seven or more with one outlier of 0.1 mm or more) that centre is found exactly, so exact data start at the exact axis whatever the theta angles; they replace the nominal values only in static mode and only of the offsets not kept fixed. Findings: positions that never change count as a circle around themselves; three positions of a circle may make the robust fit give up, and then (0, 0) is used as a centre.", "quantifier": "all point lists and centres, all measurements, all least squares routines that do not make the fit worse", "why_tests_cant": "Derivatives at a continuum of points; unbounded lists of measurements.", "anchors": ["py/desimeter/circles.py:fit_circle", "py/desimeter/posparams/fitter.py:fit_params"]}
{"id": "C105", "title": "Prediction of the rotation of the field", "statement": "desi_predict_fieldrot with options makes a prediction exactly if right ascension, declination and date are given: for the sidereal time given, else right ascension plus hour angle, else that of the date, and the hexapod angle in degrees. With a file it uses the header of the first HDU if that has TARGTRA, else that of the second, and no option. It prints exactly if the declination is within 90 degrees: the rotation of FieldModel.compute_fieldrot without fitted distortion, and the rate. Given an hour angle the rate depends on the hour angle (up to full turns) and declination only. dfieldrotdt_physical_model is the difference of the rotations a quarter of a degree of sidereal time apart, in arcsec, without hexapod angle. desi_fit_field_rotation_rate prints the coefficients of the cubic polynomial in sin(HA) and scaled declination that fits the selected rates best, cut off towards zero to three decimals, and fails exactly if a polynomial other than zero vanishes on all selected rows. Findings: with no date and no sidereal time or hour angle, or an hour angle and no right ascension, there is a TypeError in place of the message; the script tests for HEXPOS but the angle is read from FOCUS; the coefficients in dfieldrotdt are used with HA/60 where the fit has sin(HA).", "quantifier": "all options, headers and transforms; all lists of guide data", "why_tests_cant": "Real valued angles and unbounded lists; optimality over all polynomials.", "anchors": ["bin/desi_predict_fieldrot", "bin/desi_fit_field_rotation_rate", "py/desimeter/fieldmodel.py:fieldrot", "py/desimeter/fieldmodel.py:dfieldrotdt", "py/desimeter/fieldmodel.py:dfieldrotdt_physical_model"]}
{"id": "C106", "title": "Update of the metrology patch", "statement": "update_focal_plane_metrology_patch keeps the rows of the patch with their names in their places. The coordinates of a row become the medians of the positions of the spot of that name (location and pinhole) over those tables where exactly one spot has the name; a table where it occurs twice does not count, and with no table left the coordinates do not change. Tables with LOCATION and tables with PETAL_LOC and DEVICE_LOC can be mixed. Rows of the patch with one name get the same values, each table counting once although its value is collected several times. The order of the tables does not matter, and a second run with the same tables changes nothing.", "quantifier": "all patches and lists of tables with pinholes 0 to 9", "why_tests_cant": "Unbounded lists of tables and repeated names; medians of repeated values.", "anchors": ["bin/update_focal_plane_metrology_patch"]}
{"id": "C107", "title": "Distances from the centre, moves and centres of fiducials", "statement": "compute_distance_from_center gives for every device with a matched spot the distance of the last of its spots from the centre in the metrology, where the device of a spot is that of the first metrology row with its location; with a list of positioners exactly those are given, with -1 where there is no spot. A device farther than 3 mm is in exactly one of the lists (3, 4], (4, 5], (5, 6], above 6. check_moving writes a line for a positioner exactly if it has two recorded positions or more, with one flag for every two consecutive ones in the order of the move index, set exactly if they are more than 0.05 mm apart. dump_fiducial_centers writes one line for every location with a FIF or GIF, in ascending order, named after its first row, with the means over all rows of the location. Finding: a device exactly at the centre is counted neither as matched nor as unmatched, and the numbers printed use bounds other than the lists.", "quantifier": "all tables", "why_tests_cant": "Unbounded tables with repeated locations, and real valued bounds.", "anchors": ["bin/compute_distance_from_center", "bin/check_moving", "bin/dump_fiducial_centers"]}
{"id": "C108", "title": "Files and calibrations chosen for the fits of parameters", "statement": "fit_posparams takes a file exactly if its name without directory is a letter, five numeric characters, anything, and .csv, and fits it as the positioner named by the first six characters; with no such file it prints a message and ends with code 0. With one process the results are printed in turn up to the first exception, which ends the run, and 'Complete.' is printed exactly if there is none. The petals found in a database are the numbers below 20 after the prefix in the names of the tables. get_posparams writes for every positioner of every petal the latest calibration in that petal, with the location of the petal as in get_petal_loc, and nothing else. Findings: of several files of a positioner only the last is fitted, silently; with several processes a fit that raises leaves no trace and 'Complete.' is printed; a positioner recorded at several device locations is repeated in the table; petal 0 stops get_posparams with a KeyError though get_petal_loc knows it; the script ends with error code 12 even when the table was written.", "quantifier": "all lists of files and tables, all fits and all databases that answer as asked", "why_tests_cant": "Unbounded lists of files and tables; exceptions in processes.", "anchors": ["bin/fit_posparams", "bin/get_posparams", "py/desimeter/dbutil.py"]}
{"id": "C109", "title": "Metrology of the petals tested on the ground", "statement": "write_petal0_metrology writes one row for every spot of petal 0 with a positive device location more than 1 mm from the axis, in the order of the metrology file, with the position given by the alignment of location 0 and the pinhole read from its cell; type, identifier and bus are those of the last entry of petal 0 at the location in the table of positioners, with an M and five digits for positioners; the twelve fiducials known to the script have the names known to it, and other locations without entry are UNKNOWN. write_petal1_metrology does the same for petal 1 with entries of whatever petal, sets type ETC in the first row at 461 and at 501, and applies the patch as write_focal_plane_metrology does. For both it is stated exactly when the script stops with an error: petal 1 stops on a location without entry, petal 0 on a fiducial without spot or with another name. Finding: a spot exactly 1 mm from the axis is left out without the warning.", "quantifier": "all metrology files, tables of positioners, alignments and patches", "why_tests_cant": "Unbounded tables with repeated locations; real valued bounds.", "anchors": ["bin/write_petal0_metrology", "bin/write_petal1_metrology"]}
{"id": "C110", "title": "Triangles ordered by their sides", "statement": "compute_triangles_with_arbitrary_orientation returns every triangle of the list of points once (n choose 3 of them), never fails, and orders the vertices of each so that the side from first to second vertex is the shortest and that from first to third the longest. If the three sides differ, order and numbers depend neither on the order in which the points are listed nor on how equal numbers are sorted. The three numbers are the ratio of longest to shortest side (at least 1) and the cosine (positive) and sine of the angle at the first vertex; two triangles have the same numbers exactly if one is obtained from the other by rotation, dilatation and translation, and a mirror image changes the sign of the sine only. Finding: an isosceles triangle with two equal short sides has two valid orders, with opposite sines, so the result depends on the listing.", "quantifier": "all lists of points; all triangles; every sorting of three numbers", "why_tests_cant": "Real valued geometry, all lengths of lists, iff of similarity.", "anchors": ["py/desimeter/match.py"]}
{"id": "C111", "title": "Field model fitted to guide stars by the script", "statement": "desi_fit_guide_star_coordinates writes a field model exactly if one of the first two headers of the file has TARGTRA (the first one preferred) and this header has declination, exposure, hexapod and corrector angles, a time is known (mean of the times in the catalogue, else MJD-OBS, else TCSMJD), the catalogue has its columns and stars within 2 arcsec of their position at that time, and the fit to these stars (C69) succeeds. The time written is the one used, the sidereal time written is computed from it, the hexapod angle is that of the header; the number of stars written counts stars with camera metrology and is at least 3. Without pointing the status is 12, without time a RuntimeError or TypeError is raised. A missing output directory makes the script fail after the fit unless it is asked to make it. Finding: times in the catalogue replace the time of the header, so headers which differ in time only give the same file.", "quantifier": "all headers, catalogues, transforms and options", "why_tests_cant": "All combinations of present and missing keys and columns, unbounded catalogues, real numbers.", "anchors": ["bin/desi_fit_guide_star_coordinates", "py/desimeter/fieldmodel.py"]}
{"id": "C112", "title": "Knees of positioners found in front illuminated images", "statement": "analyze_bright_image keeps all spots, or with --xpix those within 10 pixels of one of the pixels given, the first x with the first y and so on. The knee is, in the image, 3 mm from the tip in the direction of the arm, with the size of a pixel taken as the geometric mean of two medians. The table has, in the order of the spots, one row per pair of spot and fibre: the fibre is the one nearest to the knee and less than 4 mm from it, no fibre and no spot is in two rows, a spot left out has its nearest fibre 4 mm away or more or taken by a spot whose knee is at least as near. Findings: pixels without partner are ignored silently; for a camera turned by an angle the knee is 3 mm over the cosine away from the tip on the focal plane, and a quarter turn is an error; --minccf has no effect; Q is an angle in the frame of the petal, which differs from that on the focal plane by the angle of the petal.", "quantifier": "all images (lists of spots), metrologies, transforms, alignments and options", "why_tests_cant": "Unbounded lists of spots and devices, real numbers, all transforms.", "anchors": ["bin/analyze_bright_image", "py/desimeter/match.py", "py/desimeter/transform/ptl2fp.py"]}
{"id": "C113", "title": "Positioners within error thresholds over time", "statement": "bin_errors gives, for every date of the table in increasing order and every threshold, the positioners passing and failing. Failing are those with an error above the threshold in the last day with data of them, among the days that end at dates of the table; passing are those with data of which none is above it in that day. Each positioner with data up to the date is in exactly one of the two; the number known does not depend on the threshold and is never 0; counts and fractions belong to the sets. A larger threshold has more positioners passing. If the errors of a positioner agree within days, its status is that of its last row. With a number of bins the thresholds are even and the last one is the largest error, so that nobody fails. An empty table, less than one bin or two edges are errors. Findings: whether a positioner passes depends on the dates of the data of other positioners; a list of edges typed after --bins of plot_posparams is never accepted. Hues of the curves grow with the threshold, ticks are every seventh day.", "quantifier": "all tables of fit results, thresholds, numbers of bins and edges", "why_tests_cant": "All tables of any length and all real dates and errors; the status is defined by a loop over dates with a state.", "anchors": ["py/desimeter/posparams/plotter.py", "bin/plot_posparams"]}
{"id": "C114", "title": "Comparison of desimeter with platemaker", "statement": "plot_pm_coords --outfile writes a row for each fibre with a measured position (numbers, FIBER_X not 0) which is not an excluded target and for which the desimeter position and the request of platemaker are closer than 0.1 mm, and no other row; all values are numbers. A target is excluded when one of the bits 16, 18, 19, 20, 21, 24, 25 of its flags is set. Each fibre is joined with the last row of the fiberassign table at its location; a fibre whose location is missing there is a KeyError. The targets which are not excluded are split in good (closer than 1 mm) and bad; the rms which is printed for the good ones is below 1 mm for all data and NaN when there is none. The printed numbers of flags count all rows. Findings: sky fibres and fibres without target are written whatever their flags (a frozen positioner too); a target with a broken fibre (bit 17) is not excluded.", "quantifier": "all coordinates tables, fiberassign tables, flags and positions", "why_tests_cant": "All tables of any length, all flags and all real positions; a test shows single rows only.", "anchors": ["bin/plot_pm_coords"]}
{"id": "C115", "title": "Residuals of the spots of an image", "statement": "plot_fvc_residuals ends with the code 12 exactly when no spot has a location and a reference position. It prints a line for each spot with a residual above 0.1 mm in x or in y, in the order of the table, each with its own device, position and residual, or only their number when there are more than 100. The number of fiducials is the number of different locations of spots of pinholes with an expected position. The positioners of the metrology outside of petal 5 are split in matched and unmatched ones, whose numbers add up. The rms for 200 um is below 0.2 mm and not above the one labelled all, and is NaN exactly when no residual is shorter. Findings: the rms labelled all leaves out residuals of 6 mm or more; with --expected, a coordinates file and positioners to highlight, the lines of large residuals show other spots or the script ends with an IndexError.", "quantifier": "all tables of spots, metrology tables, coordinates files and lists of positioners", "why_tests_cant": "All tables of any length and all real positions; the wrong rows appear only for certain combinations of options.", "anchors": ["bin/plot_fvc_residuals"]}
{"id": "C116", "title": "Comparison of desimeter with dithers", "statement": "plot_dither_vs_desimeter takes the column of the first exposure with the given number (ValueError when there is none) and the rows with an error below 0.5, an offset below 4 and a chi2 below a tenth of the one without flux. A spot is compared with a dither result exactly when it has a RA, and the result is the last good one of the fibre of the last row of fiberassign at its location, never one of another fibre; spots keep their order. If the dither positions are the desimeter positions turned by less than 90 degrees, enlarged and shifted, the script prints this rotation, scale and shift; the rotation is always in (-180,180] degrees. Spots on one line, or two only, end in an error of linear algebra. Finding: a spot at RA 0 is left out.", "quantifier": "all dither files, tables of spots, fiberassign tables and telescope pointings", "why_tests_cant": "All tables of any length, all real positions; the rotation is recovered for every angle.", "anchors": ["bin/plot_dither_vs_desimeter", "py/desimeter/simplecorr.py"]}
{"id": "C117", "title": "Requests in the legacy performance analysis", "statement": "identify_requests of analyze_pos_performance_legacy ends normally exactly when every command can be read, every row of submove 0 has an absolute command or none, and the first row has submove 0; then a row has the request of the last row at or before it with submove 0. A command coord=[a,b] is read as these coordinates and numbers; a row without a move is requested to be where int2ptl puts its tracked angles. Requests in ptlXY come back as PTL_X/PTL_Y to 5 microns, requests in obsXY are points of the petal which ptl2fp takes to the point asked for, requests in poslocXY come back as LOC_X/LOC_Y. With readable commands and known petals the only failure is an AssertionError. MOVE and SUBMOVE are those of the last tokens of the note giving them; without a token for it SEQUENCE_MOVE_IDX is MOVE-1 for notes about a sequence. Findings: poslocTP (external angles) is read as internal angles, so the mounting angles are added; a table starting with a correction has no result; a note with the token move_to_range stops the program.", "quantifier": "all tables of moves, calibrations and petal alignments", "why_tests_cant": "All tables of any length, all command texts, real positions and calibrations.", "anchors": ["bin/analyze_pos_performance_legacy", "py/desimeter/transform/pos2ptl.py", "py/desimeter/transform/ptl2fp.py"]}
{"id": "C118", "title": "Moves of a positioner drawn", "statement": "plot_posmoves draws the measured positions PTL_X, PTL_Y of the selected rows, or, without these columns, for each row the point of its own petal which ptl2fp takes to X_FP, Y_FP on the nominal surface (exactly when all petals are known); without both columns it ends with code 12. The positions expected are for each row those of its own calibration, and with a table of fits those of the first entry of the positioner of the first row (code 12 when there is none); both are the same points when the calibrations agree. --save with both --outfile and --outdir ends with code 12, no selected row with code 0. The image is the file given, or the name of the input with ending png in the directory given or next to the input; images next to their inputs are distinct. Findings: the column Z_FP is never used (z_FP is looked for); a table with z_FP but without Z_FP fails; with --outdir inputs of the same name overwrite each other's image.", "quantifier": "all tables of selected moves, calibrations, fits, petal alignments and options", "why_tests_cant": "All tables of any length, real positions, calibrations, alignments and paths of any length.", "anchors": ["bin/plot_posmoves", "py/desimeter/transform/pos2ptl.py", "py/desimeter/transform/ptl2fp.py"]}
{"id": "C119", "title": "Plots of fitted parameters", "statement": "plot_posparams uses exactly the files whose extension contains csv and whose tables have the fourteen columns looked for; other files, such as those written for a failed fit, change nothing. It makes one plot for every positioner of the files used (with --test_mode only the alphabetically first), in alphabetical order and in images of different names; each shows exactly the rows of its positioner in order of date, with the static parameters of the earliest row. The counts within error thresholds are those of bin_errors for the rows used; neither the order of the files nor files given twice change the counts, the positioners plotted or the names. The exact conditions of success are given; without any row the run ends with a ValueError. Findings: columns DATA_START_DATE_SEC and the static parameters of the dynamic fit are used but not looked for, so that complete files end the run with a KeyError; a file matched by two patterns counts twice in the mean number of points of the title.", "quantifier": "all lists of files, contents of tables, options and orders of sorting", "why_tests_cant": "All lists of files and tables of any length, with real numbers and any texts.", "anchors": ["bin/plot_posparams", "py/desimeter/posparams/plotter.py"]}
{"id": "C120", "title": "Data read once per process", "statement": "Alignments of petals and transforms of guide cameras are read once per process, when first needed, from the directory of the package or of DESIMETER_DATA. In a process all conversions between petal and focal plane that succeed, and all conversions of pixels of guide cameras, are made with one and the same data, whatever happens to DESIMETER_DATA or the files in between; so a point converted at one time is converted back to itself at any other. The data are those in the data directory at the first use that succeeds; a use that fails, because the file does not exist, has no entries or cannot be fitted, leaves no trace and is tried again. The metrology is read anew each time. Finding: after a change of DESIMETER_DATA the metrology follows but the conversions keep the data of the previous directory, without notice.", "quantifier": "all sequences of calls, changes of the environment variable and changes of files, from any state", "why_tests_cant": "Sequences of calls and changes of any length, with any contents of files.", "anchors": ["py/desimeter/io.py", "py/desimeter/transform/ptl2fp.py", "py/desimeter/transform/gfa2fp.py"]}
{"id": "C121", "title": "Alignments exported from the data base", "statement": "load_petal_alignments_from_db asks for the latest version of the snapshots and writes one file, in which each petal has the offsets and angles of its last row; no other file changes. It succeeds exactly if there is a version, all rows have a number as name and six constants, and the name of the file is accepted; all other runs write nothing, with the exact errors given. A process with this file in its data directory converts points of a petal with these rotations and offsets, and back to the same point, and has a KeyError for all petals that are not in the data base. Finding: the name of the file is looked at only after the queries, with .yaml anywhere but at its start being accepted, such as in the name of a directory or before another extension.", "quantifier": "all data bases (versions, rows, constants), names and files", "why_tests_cant": "Data bases with any number of rows and any real constants.", "anchors": ["bin/load_petal_alignments_from_db", "py/desimeter/io.py", "py/desimeter/transform/ptl2fp.py"]}
{"id": "C122", "title": "Functions of the distortion orthonormal on the disc", "statement": "The functions from which the distortion of the optics is built are orthogonal: for all orders the radial functions are 1 at the edge and orthogonal with weight r, and the Zernike functions of different indices have the integral 0 of their product over the unit disc. With the norms of the table, the functions of Noll numbers 1 to 37 have the mean square 1. The 33 vector fields of Zhao and Burge, with their coefficients in the code, are orthonormal, including those of kind S with those of kind T; the mean square of a distortion with different fields is therefore the sum of the squares of its coefficients, so that no coefficient can be traded for another.", "quantifier": "all orders, indices, lists of different fields and coefficients", "why_tests_cant": "Integrals over the disc of functions of all orders; all real coefficients.", "anchors": ["py/desimeter/transform/zhaoburge.py"]}
{"id": "C123", "title": "Maps and series of spots drawn", "statement": "plot_canbus draws one curve for each bus with exactly its devices, every device once. plot_metrology without identifiers draws every device exactly once, positioners by petal and others by type, and fails exactly if a petal has no positioner; with identifiers it never fails and has one curve for each identifier in the order given. The outlines of the GFAs are closed polygons, the first one labelled. plot_fvc_spots draws the spots with a location of every file, and with several files one series for each location, with exactly its spots in the order of files and their mean subtracted; its exact ends are given. plot_positioner draws for each location the spots of all files in order. Findings: buses of different petals with the same number are one curve; pinholes 4 are marked only with a single file; a location given twice has every spot drawn four times.", "quantifier": "all tables of metrology and of spots, lists of files, identifiers and locations", "why_tests_cant": "Tables and lists of any length with real positions.", "anchors": ["bin/plot_canbus", "bin/plot_metrology", "bin/plot_fvc_spots", "bin/plot_positioner"]}
{"id": "C124", "title": "Conversions without height, and the alignments shipped", "statement": "Converting a point of a petal to the focal plane and back without giving heights changes it by the height the point misses the focal surface by, turned into the petal: a shift of this height times the sine of the tilt, and none at all if the alignment has no tilt, whatever the focal surface. The alignments that come with the package have no tilt, so there lists of points come back exactly, in both orders. They have petals 0 to 9 and no others (KeyError), put every point of a petal within 0.36 mm of where a turn by 36 degrees per location puts it, keep heights, and keep petals apart: points at least d inside the sectors of different petals are at least 2 d - 0.72 mm apart. Finding: with a tilt the conversions without heights are not inverse to each other.", "quantifier": "all alignments, focal surfaces, points, pairs of petals", "why_tests_cant": "Real points and alignments, and a distance between any two points of two petals.", "anchors": ["py/desimeter/transform/ptl2fp.py", "py/desimeter/data/petal-alignments.yaml"]}
{"id": "C125", "title": "Sky to tangent plane and back with every correction", "statement": "For every combination of the corrections (precession, aberration, polar misalignment by table or computed, refraction), a target taken to the tangent plane and back is within 0.032 arcseconds of where it was from altitude 30 degrees up and within 0.052 arcseconds from altitude 10 degrees up, if it is on the side of the pointing and, with aberration on, at an apparent declination of at most 80 degrees. Aberration applied and undone alone comes back within 0.03 arcseconds, the polar misalignment alone within 0.005 arcseconds. Finding: near the celestial pole undoing the aberration fails; at the pole, depending on the right ascension the pole is given, it applies the aberration a second time.", "quantifier": "all switches, targets, pointings, dates, sidereal times, hexapod rotations", "why_tests_cant": "Real positions and dates; a bound over the whole sky, not a sample of round trips.", "anchors": ["py/desimeter/transform/radec2tan.py"]}
{"id": "C126", "title": "Errors in the tangent plane carried to the sky", "statement": "For every combination of the corrections, a point of the tangent plane within a distance eps (radians, at most 0.001) of that of a target, both inside the field of view (0.035 rad), is carried to a sky position within 1.01 eps plus 0.033 arcseconds of the target from altitude 30 degrees up, and 1.01 eps plus 0.053 arcseconds from altitude 11 degrees up: undoing projection, refraction, polar misalignment, aberration and precession enlarges an error by at most one percent. Two targets that get the same tangent plane coordinates are within 0.064 arcseconds of each other. A target taken to the focal plane by a fitted field model and back comes back within 1.03 times the error of the optical model there and back, plus 0.033 arcseconds, when the fitted scales are within half a percent of one.", "quantifier": "all switches, targets, pointings, measured points of the field, dates, sidereal times, hexapod rotations, fitted scales and rotations, optical models", "why_tests_cant": "Real positions and errors of any direction; a bound over the whole sky and field, not a sample of perturbed points.", "anchors": ["py/desimeter/transform/radec2tan.py", "py/desimeter/fieldmodel.py"]}
{"id": "C127", "title": "Detection of spots in an image: pedestal, noise, background, exposure", "statement": "detectspots on a whole image, with the pixels drawn at random a parameter. The pedestal and the rms are robust: if more than half of the values drawn are in an interval, the pedestal is within six lengths of the interval from it and the rms at most six lengths, whatever the spots are. A number added to all pixels does not change the table, if the pixels drawn and the peaks are off the borders. An image multiplied with a positive number, with the minima of counts multiplied too, gives the same positions and errors and multiplied counts. In a dark image, with pixels between two numbers that differ by at most the minimum of counts per pixel, no spot is found (RuntimeError). Every row of the table is of a pixel off the border where the convolved image less the pedestal is above the threshold and higher than at the four neighbours, and within one pixel of it; at least three pixels off the border its position, counts and errors are those of the fit of the seven by seven pixels around, less the pedestal. A Gaussian spot that is the only peak is found with exactly its position and counts. If around every peak the pixels are the pedestal plus a Gaussian spot, the table has one row per peak, in reading order, with exactly the positions and counts of the spots (no two closer than the width of the PSF, at most 10000 peaks). Nothing but RuntimeError and LinAlgError is raised, RuntimeError exactly if the pedestal is NaN, there is no peak, or there are more than 10000. Finding: a single peak in the rows or columns 1 and 2 makes the whole detection fail with LinAlgError. Finding: if more than half of the values drawn from the convolved image are equal, as for an image without noise, no value is accepted, the pedestal is NaN, and detectspots raises 'no spot found' whatever spots there are.", "quantifier": "all images of all sizes, pixels drawn, thresholds and widths", "why_tests_cant": "Images of real numbers and random draws; a statement about every draw and every image.", "anchors": ["py/desimeter/detectspots.py"]}
{"id": "C128", "title": "Queries of the database, petals found in it, and the import of pinhole references", "statement": "dbquery, for any answer of the database with a cell for each name: the columns are those named, each once; each has one cell for each row, in the order of the rows, that of the last place of the name. get_petal_ids gives, in the order of the tables, the numbers below 20 after 'positioner_moves_p' and nothing for the other tables. import_spotmatch_pinholes, for a metrology with dots 1 to 4: for each pinhole, in order, the last row of the metrology of its fiducial (petal and device) with the dot d such that 256*d+3 is the number of the pinhole, with the pixel coordinates of that pinhole; pinholes without such a row are left out. Findings: petals up to 19 are taken from the database but locations are known for 0 to 11 only, so that a table positioner_moves_p12 ends check_moving with KeyError; the metrology file in the repository has no column 'Petal ID', so that the import ends with KeyError.", "quantifier": "all answers of the database, lists of tables, conversions of texts to numbers, metrologies and lists of pinholes", "why_tests_cant": "The database and the input file of the import are not available to tests; the statement is about all their contents.", "anchors": ["py/desimeter/dbutil.py", "bin/import_spotmatch_pinholes", "bin/check_moving"]}
{"id": "C129", "title": "Errors of positions and angles of a positioner", "statement": "How errors carry over between the position of a fibre and the angles of its positioner, for all pairs. Two configurations are at most (pi/180)((r1+r2)|dtheta| + r2|dphi|) apart. For two positions reached (xy2tp without flag, with any guesses and ranges) at a distance d, up to the rim contraction: the cosines of phi differ by at most (r1+r2)/(r1 r2) d; if phi is at least a degrees from 0 and 180 in both, it differs by at most 90 (r1+r2)/(r1 r2 sin a) d degrees; theta, if at most half a turn apart, by at most 90/radius (d + r2 |dphi| pi/180) degrees. Finding: near full stretch no bound proportional to d holds: at a distance d from the rim phi is at least the root of d (2(r1+r2)-d)/(r1 r2) radians, over 6.5 degrees for 0.01 mm with arms of 3 mm.", "quantifier": "all arm lengths, ranges, guesses, positions and angles", "why_tests_cant": "Continuous pairs of positions; the worst case is at no sampled position.", "anchors": ["py/desimeter/transform/xy2tp.py"]}
{"id": "C130", "title": "Errors between motor angles and petal coordinates", "statement": "Distances in the flattened petal and in the petal differ by at most -1 and +1.4 percent, both ways, for all pairs of points between 1 and 450 mm from the centre. So, for any number of positioners: errors of the motor angles move the fibre in petal coordinates (int2ptl) by at most 1.014 (pi/180)((r1+r2)|dtheta| + r2|dphi|); and errors of petal coordinates by d change phi (ptl2int, with guesses or without), where both points are reached and phi with its offset is at least a degrees from 0 and 180, by at most 90 (r1+r2)/(r1 r2 sin a) degrees times 1.014 d, up to the rim contraction.", "quantifier": "all numbers of positioners, calibrations, guesses, angles and positions", "why_tests_cant": "Continuous pairs of positions over the whole petal; a worst case cannot be sampled.", "anchors": ["py/desimeter/transform/pos2ptl.py", "py/desimeter/transform/xy2qs.py"]}
{"id": "C131", "title": "Noise in the fit of positions", "statement": "SimpleCorr.fit on a new object, for any data. For every affine map the sum of squares of the errors of the data against it is the number of data times the square of the rms reported plus the sum of squares of the difference of the fitted transformation to it at the data. The mean of the first positions goes exactly to the mean of the second. No other affine map fits as well. So, for data that follow some affine map with errors of at most e: the rms reported is at most e, and the fitted transformation is off by at most e sqrt(1 + (r/s)^2) at a distance r from the mean of the positions, s being their rms spread in the direction in which it is smallest. The fit succeeds when e < s |trace| / sqrt 2.", "quantifier": "all lists of positions, all affine maps, all errors", "why_tests_cant": "The errors are arbitrary, also systematic ones; random noise in a test shows the typical case and not the worst.", "anchors": ["py/desimeter/simplecorr.py"]}
{"id": "C132", "title": "Noise in the fit of the distortion", "statement": "fitZhaoBurge for any choice of the 33 functions and any data. For every distortion made of these functions the sum of squares of the errors of the data against it is the sum of squares of the residuals of the fit plus the sum of squares of the difference of the fitted distortion to it at the data. So for data that follow such a distortion with errors of at most e, the rms of the residuals and the rms error of the fitted distortion at the data are at most e. No other coefficients fit as well. The coefficients depend linearly on the displacements: the error of the coefficients is what the fit makes of the errors alone, whatever the true distortion. Whether the fit succeeds depends on the first positions only.", "quantifier": "all lists of positions, all choices of functions, all coefficients, all errors", "why_tests_cant": "The errors are arbitrary, also systematic ones, and the true distortion is unknown; a test uses one distortion and one sample of noise.", "anchors": ["py/desimeter/transform/zhaoburge.py"]}
{"id": "C133", "title": "The transformations shipped can be inverted", "statement": "With the numbers of data/init-fvc2fp.json: any positions with coordinates up to 420 mm go to pixels and back to within 2e-6 mm, any pixels between 200 and 5800 go to the focal plane and back to within 2e-5 pixels, and an error of one pixel is one of 0.05 to 0.2 mm, so no two pixels have the same position. With the numbers of data/raytrace-tan2fp.json or raytrace-tan2fp-6560A.json, at every tabulated difference of the ADC angles (and wherever else the interpolated coefficients are like those of the tables) and any mean angle: directions within 1.59 degrees go to the focal plane and back to within 0.001 arcsec, positions within 420 mm go to the sky and back to within 1 micron, and two directions within 1.59 degrees of the centre have places 5800 to 32400 mm apart per unit of their distance on the tangent plane, so no two directions have the same place; places converted in one call that differ by 1 mm have directions that differ by at most 2e-4 (41 arcsec). The iterations of fp2fvc and fp2tan thus converge in their 20 steps over the whole field.", "quantifier": "all lists of positions, pixels and directions in the field, all ADC angles", "why_tests_cant": "The iteration may converge at the positions tested and not elsewhere; whether it contracts depends on the coefficients and on the place.", "anchors": ["py/desimeter/transform/fvc2fp.py", "py/desimeter/transform/tan2fp/raytracefit.py", "py/desimeter/transform/zhaoburge.py"]}
{"id": "C134", "title": "From the image to the focal plane", "statement": "detectspots followed by the transformation of data/init-fvc2fp.json. Every spot of the table is, in the focal plane, within 0.2 mm in both coordinates of the pixel of a peak of the convolved image (pixels 201 to 5799). If fewer than 100 peaks are missing in the table, any two spots are farther apart in the focal plane than 0.035 mm times the width of the PSF. Sources of the field (420 mm) put on the camera by fp2fvc and measured there with errors of at most d pixels come back to within 0.2 d mm plus 2 nm.", "quantifier": "all images, all pixels drawn, all sources, all errors", "why_tests_cant": "Images, sources and errors are arbitrary; tests take one image and one set of errors.", "anchors": ["py/desimeter/detectspots.py", "py/desimeter/transform/fvc2fp.py", "py/desimeter/data/init-fvc2fp.json"]}
