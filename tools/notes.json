{
 "C07": {
  "note": "randAmplitude(from,to) with two reals never gives a negative magnitude branch as documented; see C07_randAmplitude2_refuted."
 },
 "C09": {
  "note": "False for ExponentialIn/Out/InOut (C09_range_refuted); proved for the other 26 modes, and all modes are within 3e-6 of [0,1]."
 },
 "C10": {
  "note": "False for ExponentialIn/Out/InOut (C10_refuted); proved for the other 26 modes."
 },
 "C11": {
  "note": "False only for ExponentialInOut at t=1/2 (C11_half_refuted)."
 },
 "C12": {
  "note": "The plain overloads are proved. The moded ones hit their ends but the modes ExponentialIn/Out/InOut leave the interval (C12_mode_refuted, the exception of C09); with the integer overload between distant ends the conversion to int then overflows, which is undefined. All other modes stay between the ends; the three exceed by at most 3e-6 of the distance, and not at all for integers at most 333333 apart."
 },
 "C13": {
  "note": "False when to-from < -pi (C13_shortest_refuted, C13_witness)."
 },
 "C14": {
  "note": "Ratio output is right exactly if from = 0, otherwise off by from over the whole turn (C14_ratio_refuted, C14_ratio_iff)."
 },
 "C17": {
  "note": "False for singular systems (C17_refuted); proved for every invertible system."
 },
 "C19": {
  "note": "Proved for Real = float (exact absolute value); false for Real = double because of fabsf (C19_double_refuted).",
  "status": "partial"
 },
 "C20": {
  "note": "False: a ends as a permutation matrix (C20_permutation_left, C20_refuted); the inverse is obtained in b for b = 1."
 },
 "C26": {
  "note": "mirror and mirrored disagree for coordinates outside the vector (C26_refuted); proved for the valid coordinates."
 },
 "C27": {
  "note": "The constructor with Coord::Y swaps the two components (C27_refuted); proved for the others."
 },
 "C33": {
  "note": "Only the closed positive quadrant/octant is reachable (C33_directions_refuted, C33_directions_partial); unit length is proved for all draws."
 },
 "C35": {
  "note": "Bound proved for Mat2, Mat3 and Mat4 with the Frobenius norm."
 },
 "C37": {
  "note": "False: the columns are overwritten while still being read (C37_refuted). C37_mat2_partial, C37_mat3_partial and C37_mat34_partial give the exact condition for each in-place product (for Mat3 the strict triangle of M*M - M vanishes after multiplication with that of M); Mat4's in-place product is immune (C37_mat4)."
 },
 "C38": {
  "note": "The transposition laws hold; the kept flags are not truthful (C38_flags_refuted)."
 },
 "C41": {
  "note": "False for non-affine matrices flagged orthonormal, and invert() of a determinant-one matrix leaves the uninitialised flag (C41_refuted)."
 },
 "C43": {
  "note": "False: rotations about coordinate axes and products keep flags that are no longer true (C43_refuted, C43_mat4_refuted); the partial theorems give the operations for which it holds."
 },
 "C44": {
  "note": "Axis constructors need a non-null axis (C44_null_refuted: a null axis gives cos*I); everything else proved."
 },
 "C46": {
  "note": "scale() scales columns instead of rows (C46_scale_refuted); exact condition in C46_scale_partial; translate, translatePre, scalePre proved."
 },
 "C52": {
  "note": "Construction proved; extraction is wrong when the vector part is shorter than 1e-3 (C52_extract_refuted), exact otherwise."
 },
 "C54": {
  "note": "False for (nearly) opposite directions, for which nothing is turned, and inexact for nearly equal ones (C54_refuted); unit always, exact when |cos| <= 0.99999. C54_partial covers all cases."
 },
 "C55": {
  "note": "lerp and slerp proved, with definedness on XR; slerpNoInvert divides by zero for opposite quaternions (C55_noInvert_refuted)."
 },
 "C56": {
  "note": "False in the lerp fallback (|p.q| >= 0.95, C56_refuted); constant speed proved in the spherical branch (C56_partial); in the fallback the result is on the arc and the angle off by at most angle - sin(angle) < 1/180 (C56_near_partial)."
 },
 "C57": {
  "note": "False: from is ignored (C57_refuted); C57_partial describes the relative turn that is computed."
 },
 "C58": {
  "note": "False: operator/ computes this*q scaled, not a quotient (C58_refuted); C58_partial gives what is computed."
 },
 "C59": {
  "note": "False only for q = -1 (C59_refuted)."
 },
 "C31": {
  "note": "False for obtuse angles (the arc sine gives the supplementary angle) and for nearly parallel vectors, sine below 0.05, where the result is not a unit vector (C31_refuted). C31_partial describes every case, for vectors of any length: both ends, the arc (at the fraction of the angle or of its supplement), the linear interpolation for nearly parallel vectors with its length, null vectors."
 },
 "C32": {
  "note": "False for opposite vectors, reached at once, and for obtuse angles (C32_refuted). C32_partial describes every case, for vectors of any length: the turn is by the smaller of maxAngle and the angle or its supplement, the length is interpolated accordingly."
 },
 "C47": {
  "note": "Byte-addressed memory. Besides source and destination being disjoint, the destination vectors must not overlap each other (destination stride at least the vector size)."
 },
 "C48": {
  "note": "False: components are overwritten while still being read (C48_refuted). The _partial theorems give the exact outcome and the exact condition for correctness (upper triangular matrices always satisfy it)."
 },
 "C60": {
  "note": "Any byte stride, including negative; the count must be positive (C60_empty)."
 },
 "C61": {
  "note": "Least for valid boxes (inf <= sup); containment for all boxes."
 },
 "C64": {
  "note": "False for disjoint boxes: the result is the box {0}, which contains the origin (C64_refuted); exact for overlapping boxes."
 },
 "C68": {
  "note": "For valid boxes and MAX >= 0."
 },
 "C69": {
  "note": "For valid boxes and MAX >= 1."
 },
 "C70": {
  "note": "False both ways (C70_refuted_miss, C70_refuted_side). The _partial theorems give the exact condition under which a ray that meets the box is reported, and that the parameter is then the first one."
 },
 "C71": {
  "note": "Also proved: the inner ball is the largest one inside, the outer ball the smallest one around."
 },
 "C75": {
  "note": "intersects is exact. The hit point overload returns a point of the first ball only if the other radius is at most distance + first radius (C75_*_hit_partial states exactly when); false otherwise (C75_*_refuted)."
 },
 "C76": {
  "note": "False when the segment starts inside the ball (C76_*_refuted): only the entry point of the supporting line counts. The _partial theorems characterise the result exactly; for a start outside the ball it is right."
 },
 "C77": {
  "note": "Also: the set* functions agree with the from* functions unless the reference arguments alias the plane's own normal (C77_set_alias)."
 },
 "C79": {
  "note": "False unless the plane passes through the origin: the code ignores d (C79_refuted)."
 },
 "C80": {
  "note": "hitsLine misses a segment that ends on the plane (C80_hitsLine_refuted, C80_hitsLine_partial); the others are exact."
 },
 "C82": {
  "note": "Corners of a solid with parallel axis-aligned rectangular near and far sides (perspective, oblique, box), also after an orientation-keeping transformation; a mirroring one turns the planes inside out (C82_mirror)."
 },
 "C83": {
  "note": "intersects is conservative, not exact (C83_conservative)."
 },
 "C84": {
  "note": "2-D exact. In 3-D a point on the supporting line gives the distance to the start instead of 0 (C84_refuted); C84_line3_partial and C84_ray3_partial say exactly when the result is right."
 },
 "C85": {
  "note": "False for degenerate triangles: contains accepts the whole supporting line, or everything (C85_refuted, C85_degenerate). C85_partial: exact for every non-degenerate triangle of either orientation; C85_hull: hull points are always accepted."
 },
 "C89": {
  "note": "Writing the first part over the object itself gives wrong segments (C89_alias)."
 },
 "C91": {
  "note": "For every number of steps; non-positive numbers fail the assertion (C91_assert)."
 },
 "C92": {
  "note": "Also: succeeds iff the first two derivatives are independent; the X column is the unit binormal."
 },
 "C93": {
  "note": "Also uniqueness, and nothing is written behind the n-1 entries."
 },
 "C94": {
  "note": "Also uniqueness, and nothing is written behind the n-1 entries."
 },
 "C95": {
  "note": "Proved for n>=3 with uniqueness (C95_closed_partial). False for n=2 (C95_refuted): the matrix has 1 instead of 2 beside the diagonal; C95_two says exactly what comes out. absf stands for fabsf in GaussJordan::solve."
 },
 "C96": {
  "note": "C96_general: also for negative channels unless the largest channel is 0 and the colour is not grey, where it fails (C96_negative)."
 },
 "C97": {
  "note": "The inverse holds for every s, v > 0."
 },
 "C98": {
  "note": "For every ratio. Hues outside [0,360) can turn the wrong way (C98_unnormalised)."
 },
 "C99": {
  "note": "Ratios outside [0,1] extrapolate (C99_interp_extrapolates). C99_ofInts_rounded: also in rounded arithmetic."
 },
 "C100": {
  "note": "False for every precision p>=4: a small negative hue gives an uninitialised colour (C100_refuted). C100_partial says for exactly which hues."
 },
 "C101": {
  "note": "False for every precision (C101_refuted: fmodPositive returns the modulus). C101_partial: always in [0,y], below y for x>=0, and exactly when it is y."
 },
 "C102": {
  "note": "False for float (C102_refuted). Proved when the sums and differences of bounds are representable; otherwise off by at most the bound of C102_error3. Corner boxes are exact (C102_corner_boxes)."
 },
 "C103": {
  "note": "Start exact; end false for float (C103_refuted), exact when the difference is representable, e.g. ends within a factor two; error bound C103_error."
 },
 "C104": {
  "note": "In rounded arithmetic: any monotone rounding fixing 0 for lengths, normalisations, distances and inverses; any accurate rounding without underflow for quaternions and slerp; round-to-nearest-even of every precision p>=3 for interpolation ratios. Two functions outside the list do divide by zero: Quat operator/ (C104_quat_div_undefined) and the ratio of clerpMaxAngle (C104_clerp_undefined). Overflow to infinity is not modelled."
 },
 "C109": {
  "note": "localPlane is false for sheared matrices (C109_plane_refuted); proved for maps that keep the right angles between the axes."
 },
 "C110": {
  "note": "Centred boxes lose points when centre and extent are rounded separately (C110_centred_refuted); error bound in C110_centred_partial. Everything else proved for every monotone conversion."
 },
 "C111": {
  "note": "Compound and binary forms differ for negative factors (C111_compound_refuted); the rest is proved for all balls."
 },
 "C112": {
  "note": "Mat2 and Mat3::slerp proved; Mat3::slerpMaxAngle drops the first rotation (C112_maxAngle_refuted); Mat34 versions drop the translation (C112_mat34_refuted)."
 },
 "C113": {
  "note": "Mat3 turns a scaled rotation into a different rotation (C113_scale_refuted): about the same axis by 2 atan(2k sin a/(1+k+2k cos a)), right exactly if k = 1 or sin a = 0, for positive trace (C113_scale_angle); everything else proved."
 },
 "C115": {
  "note": "False when a control quaternion is opposite to an end (C115_refuted: nan); proved otherwise."
 },
 "C116": {
  "note": "clerp proved; clerpMaxAngle false (C116_maxAngle_refuted: (0,1) to (-2,0) gives (-3,0)); C116_maxAngle_exact says what is computed: the angle is right, the length only if the first vector is on the positive x axis or both lengths are equal."
 },
 "C117": {
  "note": "Range, monotonicity and error bound proved; strictly positive is false (C117_strict_refuted: 2^-30 gives 0)."
 },
 "C118": {
  "note": "False: the flags stay as they were (C118_refuted); proved after optimize(), and for the operations that do not look at the flags."
 },
 "C121": {
  "note": "Balls and planes proved; triangles false for float (C121_triangle_refuted: a point on an edge is rejected), proved when the coordinate differences are exact, and for the vertices."
 },
 "C124": {
  "note": "False in every format (C124_refuted; C124_overflow, C124_underflow, C124_plane_range, C124_quat_range say what happens instead: an infinite length and a null vector when a square overflows, length 0 when all underflow). Holds with explicit error bounds when each coordinate is 0 or of moderate size, 2^-k to 2^k with 2k+2 <= emax: for float 2^-62 to 2^62 (C124_partial, C124_plane_partial, C124_quat_partial)."
 },
 "C125": {
  "note": "False in every format (C125_refuted, C125_triangle_refuted): C125_overflow, C125_underflow, C125_triangle_underflow say what happens when squares overflow or underflow. Holds up to rounding at the border when the coordinates are multiples of 2^g of size at most 2^h with 2^(2g), 2^(2h+5) in range (C125_partial; float: 2^-40 to 2^40), and exactly for triangles when products need no rounding (C125_triangle_partial)."
 },
 "C126": {
  "note": "False in float: an integer matrix of determinant 1 is inverted to zero, a singular integer matrix gets determinant 1 and an inverse (C126_refuted). C126_mat2_partial: singular 2x2 matrices always give zero; C126_mat2_partial, C126_mat3_partial: if the cancellation in the determinant is less than total, kappa < 1, the entries are those of the inverse up to an explicit bound of about 3u + kappa."
 },
 "C127": {
  "note": "False in every format (C127_refuted): C127_overflow, C127_underflow give zero or NaN matrices. Exact for 2^k when 2k (plane) or 3k (space) is in the range of exponents (C127_scalar_partial); for general matrices on a grid whose determinant and quotients stay in range the error bounds of C126 hold (C127_mat2_partial, C127_mat3_partial)."
 },
 "C128": {
  "note": "False (C128_refuted, C128_leak): solveCyclic, GaussJordan::solve and the splines keep the blocks they have if a later new throws. C128_tridiagonal: both overloads of TriDiagonal::solve are clean always; C128_partial: the other five are clean when allocation succeeds."
 },
 "C129": {
  "note": "C129_solve, C129_solve_vec3, C129_solveCyclic; C129_overlap shows that sharing the result with an off-diagonal gives wrong answers."
 },
 "C130": {
  "note": "C130_natural, C130_clamped; C130_overlap shows wrong answers when p1 and p2 are the same array."
 },
 "C131": {
  "note": "C131_quat, C131_vec, C131_color; arguments are references that are read again after each assignment (Model/OwnParts.lean)."
 },
 "C132": {
  "note": "False (C132_refuted). C132_box3_partial, C132_box2_partial: add and set(point) are right, moving by the own corner inf is right only if it is zero. C132_matrices_partial, C132_segments_partial: set is right if no argument names a member before its own place, scale if the coefficients are the last column; reversing a segment gives P4, P3, P3, P4."
 },
 "C133": {
  "note": "C133_objects, C133_exact for all 23 object types; C133_double, C133_float give the IEEE behaviour, C133_margin the admissible margins. The text output of the matchers is not modelled."
 },
 "C134": {
  "note": "False: a NaN in the first point makes a box that contains nothing whatever is added (C134_refuted), and a NaN box intersects every box (C134_intersects2_refuted, C134_intersects3_refuted). C134_set2_partial, C134_set3_partial: right if the first point has no NaN. C134_intersects2_partial, C134_intersects3_partial: exact for boxes in order. C134_add2/3, C134_union2/3, C134_nan2/3 describe what happens with NaN; the union takes the second box's bound."
 },
 "C135": {
  "note": "False if the sum of two corner coordinates overflows (C135_refuted2, C135_refuted3). C135_center2_partial, C135_center3_partial: the centre is inside exactly if no sum overflows."
 },
 "C136": {
  "note": "False: NaN is clipped to NaN (C136_refuted) and abs(-0) is -0 (C136_abs_refuted). C136_clip_partial and C136_abs_partial say that these are the only exceptions; C136_min_max, C136_clip_nan describe NaN arguments exactly."
 },
 "C137": {
  "note": "False in double for PI_OVER_3 and PI_OVER_6, computed from the already rounded PI, which end on a neighbour of the nearest double (C137_refuted). C137_nearest_partial: all other constants, and all of them in float, are the nearest number; the two are less than one unit in the last place off."
 },
 "C138": {
  "note": "False for MIN_VALUE: it is the least positive normal number, and 2^-149 is a smaller positive float (C138_refuted). C138_limits_partial: MAX_VALUE and MAX_NEG_VALUE are right, and the positive numbers below MIN_VALUE are exactly the subnormal ones."
 },
 "C139": {
  "note": "False: both corners are overwritten by the first point before the others are read, so box.set(2, &box.inf) shrinks any box to its corner inf (C139_refuted). C139_box2_partial, C139_box3_partial: the outcome is the tightest box around the first point and those points that are not own corners, and it is right exactly when the own corners named later lie in it."
 },
 "C140": {
  "note": "False, as there is no pivoting: for 2^-30, 1; 1, 1 with right-hand side 1, 2 the solver reports success and 0, 1, which solves no system nearby, however loosely read (C140_refuted). C140_dominant_partial, C140_dominant_vec3_partial: true for all diagonally dominant systems of any size, with 11 rounding errors per coefficient, and success is certain if the dominance is strict. C140_error: what that means for the error of the solution."
 },
 "C141": {
  "note": "C141_natural, C141_clamped: success, and the control points within 128 * 2^-p of those of the exact natural or clamped spline, relative to the largest coordinate. C141_curve: how far apart the curves are then."
 },
 "C142": {
  "note": "The first part is false: for t = 8388425/8388608 in float the coefficient of the first control point is computed as -2^-23 (C142_refuted). C142_point_partial, C142_tangent_partial, C142_hermite_partial: points and tangents are off by at most 68, 120, 45 and 82 rounding errors of the largest coordinate. C142_ends: the ends are exact."
 },
 "C143": {
  "note": "False for tiny steps: with steps of 2^-26 from 3 to 6 in float every sum is rounded back to 3, one never leaves the first point (C143_refuted). C143_drift_partial: after k <= 2^p/16 steps the point is off by at most (1000 + 38 k) 2^-p and the tangent by (520 + 34 k) 2^-p times the largest coordinate of the control points."
 },
 "C144": {
  "note": "False for small angles: a rotation by at most about 1.28 degrees, exactly if 4 (1 - cos angle) <= 1/1000, is flagged as the identity when it is built (C144_threshold) and products with it are skipped, so 180 turns by one degree leave a Mat3 or Mat4 unchanged, and carry a Mat34 to the opposite side without turning it (C144_refuted). C144_turns_partial: above the threshold any number of turns adds up exactly; below it nothing ever turns. C144_unflagged: Mat2::rotate and Mat3::rotate(Coord, angle) always add up."
 },
 "C145": {
  "note": "False without a bound on the number of factors: 2^22 factors of length 1 + 2^-23 give a float product of length 3/2 (C145_refuted). C145_chain, C145_chain_left: n products are off by at most ((1 + 2 gam u 4)^n - 1) times the product of the lengths; C145_unit_partial: for lengths within 4 rounding units of 1 and 128 n <= 2^p the product is within 16 n rounding units of the exact one and of length 1."
 },
 "C146": {
  "note": "Proved for vectors, quaternions, colours, circles, spheres, planes, Mat2, Mat3 and Mat4 and every scalar type (C146_flat, C146_mat2, C146_mat3, C146_mat4), and for Mat34 when Real is at least as strictly aligned as unsigned int, as float and double are (C146_mat34_partial). For a two-byte scalar Mat34 has padding between rs and t, and data()[9] is in the padding (C146_refuted)."
 },
 "C147": {
  "note": "Over the reals, for all points and factors."
 },
 "C148": {
  "note": "False near the largest numbers: lerp(-2^127, 2^127, 0) is not a number and lerp(3*2^103, FLT_MAX, 1) is infinite (C148_refuted). It is not a number exactly if the difference overflows and the ratio is 0 (C148_nan). Finite if both ends are at most 2^(emax-1) (C148_partial). If the difference does not overflow, lerp starts at the first end and is monotone in the ratio, rounding included (C148_monotone)."
 },
 "C149": {
  "note": "False for Gauss-Jordan with a matrix of NaNs: irow and icol are never assigned and ++ipiv[icol] writes anywhere (C149_refuted). That is the only exception: with at least one entry that is not NaN the solver stays inside its arrays (C149_gauss for any arithmetic, C149_partial for IEEE numbers), and the tridiagonal, cyclic and spline solvers always do. Without unknowns the Vec3 overload of TriDiagonal::solve reads b[0] (C149_empty)."
 },
 "C150": {
  "note": "C150_ray and C150_line hold for every rounding with bounded relative error. For IEEE numbers the claim is false (C150_refuted): a direction component below 2^-128 has an infinite reciprocal and for a start on a face 0*inf is not a number, so a ray that is inside the box from t = 1 to t = 2 is reported as a miss, and one that leaves at once is reported to stay. C150_ray_partial and C150_line_partial give the bound for IEEE numbers when nothing overflows or underflows. Missing: the exact set of IEEE inputs for which the bound holds."
 },
 "C151": {
  "note": "True of contains of boxes, balls, planes and triangles (the _partial theorems). False (C151_refuted) of frusta, which contain and touch everything with a NaN (C151_frustum), of pairs of balls (C151_intersects), of balls and lines (C151_line), of planes (C151_planes), and of rays and boxes: an axis in which the ray has a NaN is not tested (C151_axis), a ray of NaNs runs through every box (C151_rays). Boxes against boxes are in C134."
 },
 "C152": {
  "note": "C152_sphere and C152_circle are about IEEE numbers of every format and the library's own test: the radius is computed with the operations contains uses for the distance, up to the sign of the differences. C152_sphere_error and C152_circle_error give the exact distances for every rounding with bounded relative error. If the squares overflow the radius is infinite, which C152_sphere allows."
 },
 "C153": {
  "note": "sin and cos are taken to be correctly rounded up to the same relative error as the other operations. The bounds hold for a null axis neither exactly (C44_null_refuted) nor here."
 },
 "C154": {
  "note": "C154_stepwise holds for any rounding that keeps the order and the sign and leaves 2^k and 5*2^k alone; C154_monotone_partial adds the trigonometric modes (correctly rounded). False for CubicOut and CubicInOut (ratio above 1 in every precision), QuadraticOut, QuadraticInOut (not monotone in every precision) and CircularInOut (not monotone in float); C154_range_partial: the latter three stay in [0,1] and CircularInOut never takes the root of a negative number. C154_error bounds the error of the polynomial modes by 50 units. ExponentialIn/Out/InOut are outside already in exact arithmetic (C09, C10)."
 },
 "C155": {
  "note": "C155_toHSV and C155_toRGB bound each direction (the second against the hexagonal cone, piecewise linear in the hue), C155_roundtrip combines them; C155_range and C155_extremes: the extreme channels; C155_grey; C155_bytes; C155_exact_refuted: in no precision does (0,3,1) come back exactly."
 },
 "C156": {
  "note": "C156_ofMat3: error 3 times the drift plus 12 units; C156_roundtrip: 260 units, up to the sign; C156_normalize: relative error of five units per coordinate; C156_orthonormalise: within 80 units of an exact rotation, marked orthonormal from 20 bits on, and that rotation within 19.5 times the drift plus 78 units of the one it came from (Euclidean norm of the entries)."
 },
 "C157": {
  "note": "C157_forever: within 80 units of a rotation and marked orthonormal after any number of steps.  C157_turns_partial: the distance to the exact product (Frobenius norm) is at most 9900 units per step plus 1/30 for every step at which a factor that is not the identity is marked as such (C157_step_partial one step, C157_axes_partial from the identity by axes and angles, C157_product one product).  C157_refuted: without the second term no constant serves, since a turn by less than about 1.28 degrees is not carried out; C157_marked: which turns these are in floating point."
 },
 "C158": {
  "note": "C158_slerp, C158_noInvert, C158_lerp: the errors; C158_points: what is approximated are unit quaternions, on the arc at the fraction w of the angle, or in the direction of the chord; C158_unit: the result is a unit quaternion up to 5100 units.  slerpNoInvert of nearly opposite quaternions is excluded (C55_noInvert_refuted)."
 },
 "C159": {
  "note": "C159_refuted: a third of the way from no turn to one by 32.5 degrees is not a third of the angle.  C159_slerp_partial: within 1/1500 of the point of the arc, and exactly that point for a dot product below 0.95; C159_half: exact half way (the ends are C55_slerp); C159_float_partial: in floating point within 1/1500 plus 5100 units."
 },
 "C160": {
  "note": "C160_refuted: 1, 5; 3, 15 is singular and reported as solved with numbers in the millions; 3871, 3872; 3870, 3871 has determinant 1 and is reported as singular.  C160_dominant_partial, C160_float_partial, C160_double_partial: matrices dominated by their diagonal; C160_residual: the same when the right-hand side is itself only approximate."
 },
 "C161": {
  "note": "C161_closed; C161_float and C161_double instantiate it (for double the pivots are compared after conversion to float)."
 },
 "C162": {
  "note": "C162_refuted: for 2^-24, 1, 1; 1, 1, 0; 1, 1, 1 with the solution 0, 3, -1 it reports success and 1.5, 1.49, 0.5; with 2^-30 in place of 2^-24 success and three NaN.  C162_dominant_partial, C162_same_sign_partial: dominant systems; C162_ones_partial: the system 1 4 1 of closed splines in double; C162_unique: a dominant system has exactly one solution.  The full claim is false, nothing is missing but other classes of matrices."
 },
 "C163": {
  "note": "C163_refuted: a 4x4 matrix of integers of determinant 1 is inverted to zero in float.  C163_mat4_partial: error bound of every entry if the relative error of the determinant is below 1; C163_rigid4, C163_rigid: matrices marked as orthonormal; C163_affine_partial: other affine maps.  The full claim is false; matrices whose determinant suffers cancellation are excluded."
 },
 "C164": {
  "note": "C164_hitsLine, C164_hitsLineRadius, C164_intersectsLine, C164_ray: points on the plane and decisions; C164_parameter: parameters in [0, 1] under IEEE rounding to nearest; C164_project, C164_fromPoint, C164_threePlanes.  Without overflow and underflow.  Plane::project along a direction is not included: it ignores the distance of the plane (see the disagreements)."
 },
 "C165": {
  "note": "C165_sphere, C165_circle.  C165_far: in float a segment from (-8192, 3/2, 0) to (8192, 3/2, 0) is reported to hit the unit sphere at (0, 3/2, 0), so the error cannot be bounded in terms of the radius alone.  Without overflow and underflow."
 },
 "C166": {
  "note": "C166_gauss, C166_gauss3, C166_closed.  C166_overlap: with p3 = p1 the result is right, with p2 = p1 it is wrong although true is returned.  Refinement: the heap program returns what the array program of C18 and C95 returns and leaves the same contents."
 },
 "C167": {
  "note": "C167_line2, C167_ray2, C167_line3, C167_ray3, C167_from3.  C167_on: whatever the rounding, the end of a segment on the x-axis is reported at its length from the segment.  C167_near: in float a point off the line and within 2^-26 of it is reported at more than 7/5, so the condition on the distance cannot be dropped.  Without overflow and underflow."
 },
 "C168": {
  "note": "C168_plane, C168_opposite, C168_contains, C168_sphere; frustumDist_exact: the exact test is whether the six distances are at most 0.  C168_sliver: in float a triangle that is not degenerate may give a plane with the null vector as its normal, from which every point has distance 0, so the sine of the angle cannot be left out.  Without overflow and underflow."
 },
 "C169": {
  "note": "C169_frame_partial: if the sine of the angle of the two directions is more than 8.1 u, every column is within 30 u divided by that sine of the column of the exact matrix, which is a rotation (C45).  C169_collapse refutes the full claim: in float two directions that are not parallel give two columns with scalar product below -0.9 and a determinant below 0.2, since the vector product is only compared with 0.  Without overflow and underflow."
 },
 "C170": {
  "note": "C170_outerSphere_partial, C170_outerCircle_partial: the radius has a relative error of 7.1 u and the box is in the ball if the radius is enlarged by 7.2 u of itself and 4.1 u of the distance of the box from the origin.  C170_innerSphere_partial, C170_innerCircle_partial: the functions succeed, the radius has a relative error of 4.1 u and the ball is in the box widened in every direction by 4.1 u of the greater coordinates.  C170_small refutes the full claim: in float the square of one unit in the last place at 1 has an outer circle of about half the needed radius about a corner, and an inner circle that is mostly outside.  Without overflow and underflow."
 },
 "C171": {
  "note": "C171_frame_partial: with K the largest coordinate of the control points, if the cross product of the derivatives is longer than 50000 * 2^-p * K^2 the function succeeds and no column is further from the exact frame than 50000 * 2^-p * K^2 divided by that length.  C171_missed refutes the full claim: in float a segment with independent derivatives at its start gives no frame there.  Without overflow and underflow."
 },
 "C172": {
  "note": "C172_split: the parts share the joint, keep the outer ends, leave the other segments alone and trace the curve up to 38 * 2^-p * K per coordinate.  C172_points: the points computed at the ends of the parts are the same numbers.  The first part must not be the object itself (C89 says what happens then).  Without overflow and underflow."
 },
 "C173": {
  "note": "C173_length_partial: for at most 2^p / 16 steps the error is at most (3700 + 165 M) * 2^-p times the largest control coordinate (M steps, p >= 12 bits).  C173_refuted refutes the full claim: in float with 2^26 steps the length of the straight segment from 3 to 6 comes out as at least 3.25, because the running point never moves while the lengths of the steps are added.  Without overflow and underflow."
 },
 "C174": {
  "note": "C174_amplitude: true of randAmplitude(f) for every RAND_MAX.  C174_rand_partial, C174_between_partial: the lower bounds and the error bounds hold, the upper bounds if RAND_MAX is converted to a power of two (as 2^31 - 1 is in float) and, for randBetween, to - from is a number of the format.  C174_rand_refuted: in double with RAND_MAX = 2^31 - 1 the largest draw of rand(2 - 2^-52) is 2.  C174_between_refuted: in float the largest draw of randBetween(-1, 3 * 2^-25) is 4 * 2^-25.  Without overflow and underflow."
 },
 "C175": {
  "note": "C175_shape: odd, monotone, zero on the dead zone, [-1,1] into itself, 1 to 1.  C175_accurate_partial: accuracy and zero only on the dead zone for the linear, parabolic and cubic curve.  C175_flat, C175_refuted: in float the exponential and the cosine curve are zero at 2^-30 with threshold 0, outside the dead zone.  pow and cos are taken to be rounded correctly.  Without overflow and underflow."
 },
 "C176": {
  "note": "C176_clerp_partial: the result is a + t (b - a - 2 pi k) for some k up to 20 * 2^-p * (|a| + |b| + 4); if b - a is not below minus half a turn (C13 fails there in exact arithmetic) the way is at most half a turn up to rounding, and the one exact arithmetic takes if that is shorter by more than the rounding errors.  C176_maxAngle: clerpMaxAngle.  C176_refuted: in float, from -9 * 2^-26 to the number below pi, clerp goes the other way round.  pi and fmod are rounded correctly.  Without overflow and underflow."
 },
 "C177": {
  "note": "C177_move2, C177_move3: corner boxes, under every monotone rounding, NaN included.  C177_corners: the corner box of a centred one decides containment and contact alike in every arithmetic.  C177_centred: centred boxes contain their own pointAt.  C177_point2_partial, C177_point3_partial: pointAt of corner boxes is never below the lower corner and within 5 m u of the exact point.  C177_convert2_partial, C177_convert3_partial: corners of the centred box are within 3 m u, and exact where sums and differences are.  C177_cmove_partial: a moved centred box misses a moved point by at most 10 m u.  C177_refuted: float witnesses for the three failures.  Without overflow and underflow."
 },
 "C178": {
  "note": "C178_convert: odd, monotone, relative error 3.02 u.  C178_roundtrip_partial: there and back within 4.02 u, the error of pi not counting.  C178_turns: in float, half a turn times any power of two is converted exactly both ways.  C178_refuted: 11 degrees do not come back in float.  C178_asin_acos: totality, range, order, saturation, asin odd.  C178_inverse_partial: sin(asin s) has relative error 2.58 u, cos(acos c) absolute error 4.15 u.  C178_acos_zero: in every precision cos(acos 0) is not zero.  sin, cos, asin, acos and pi are rounded correctly.  Without overflow and underflow."
 },
 "C179": {
  "note": "C179_crossing_partial: if the determinant exceeds 8.1 u times the sum of the absolute values of its terms, the parameters are right up to 9.1 u times their condition.  C179_parallel: parallel lines are recognised under every rounding if the differences of coordinates are exact.  C179_refuted: float witnesses of parallel lines said to cross and of crossing lines said to be parallel.  Without overflow and underflow."
 },
 "C180": {
  "note": "C180_interp_partial: the way is at most half a turn up to 540 u degrees, the hue is right up to 1620 u degrees and in [0,360], saturation and value are right up to 3.01 u.  C180_refuted: from hue 0 to hue 359 at the ratio 2^-20 the hue is 360 in float.  The ends, ratios 0 and 1, are exact: C98_ends.  fmod is exact, as it is in C.  Without overflow and underflow."
 },
 "C181": {
  "note": "C181_fromAngle: each coordinate of fromAngle has a relative error of at most 2.01 u.  C181_roundtrip_partial: angle and length give back the vector up to 8 u of its length.  C181_clerp_partial: the result of clerp is the exact vector on the way up to 220 u of the larger length, its length up to 11 u; the way is at most half a turn up to rounding unless the difference of the angles is below minus half a turn (C13 fails there already).  C181_refuted: in float, (1,1) comes back as (1-2^-24, 1-2^-24), and clerp between (1,1) and itself gives the same.  The ends, ratios 0 and 1, are exact by the first lines of the function.  Library functions are taken as correctly rounded.  Without overflow and underflow."
 },
 "C182": {
  "note": "C182_slerp_partial: for all non-zero vectors the result is the exact slerp (C31: the turn by t asin |d x e|) up to 2060 u of the larger length if the sine is at most 0.9, and up to 1967 u + 11.2 sqrt u otherwise; its length is the interpolated length up to 12 u; where the sine is at most 0.0501 it may be the linear interpolation, up to 5.01 u.  C182_ends: exact at 0 and 1, and the linear interpolation, up to 5.01 u of each component, where one end is null.  C182_refuted: a bound of ten million u does not hold: in double, half way between (1,1,0) and (-1,1,0), x is at least 8e-9 instead of 0.  Library functions are taken as correctly rounded.  Without overflow and underflow."
 },
 "C183": {
  "note": "C183_turn_partial: for all non-zero vectors and positive limits m the result is either the second vector, and then |d x e| is at most 17.34 u, or the first one turned around the cross product by min(alpha, m), each component up to 1963 u of the larger length, where alpha is within 97 u (11.2 sqrt u near the right angle) of asin |d x e|; no lower bound on the angle between the vectors is needed.  C183_limit: it is turned away by no more than m, and its length lies between the two lengths.  C183_ends: limit 0, negative limits, null vectors.  C183_refuted: with the limit 2, from (1,1,0) towards (-1,1,0) in double, the result is not the second vector up to ten million u, since asin loses half of the digits at the right angle.  That opposite vectors, and obtuse angles, are treated as their supplements fails already exactly (C31, C32).  Library functions are taken as correctly rounded.  Without overflow and underflow."
 },
 "C184": {
  "note": "C184_roundtrip_partial: for every non-zero axis and every representable angle from 0 to a full turn with sin(angle/2) at least 0.00105, toAxisAngle does not assert, each coordinate of the axis has a relative error of at most 9.1 u, and the angle an error of at most 4.45 sqrt u + 6.3 u, or 14 u where |cos(angle/2)| is at most 0.9.  C184_assertion: in float, q = Quat(1, 0, 0, 4) (normalised by the constructor) makes slerpMaxAngle(q, q, m) fail the assertion for every m, since the product has w = 1 + 2^-23.  C184_digits: in float, 83/32768 comes back below 0.0025, more than one per cent too small.  C184_refuted.  Library functions are taken as correctly rounded.  Without overflow and underflow."
 },
 "C185": {
  "note": "C185_turn_partial: for directions d, e with |d.e| at most 0.99998 and any lengths, the result is ((d x e)/(2w), w), w = sqrt((1 + d.e)/2), up to (24/w + 9/s) u in x, y, z, s = sqrt((1 - d.e)/2), and 8.8/w u in w; C185_ideal: this is a unit quaternion that turns d to e.  C185_ends: from 0.999992 on the result is exactly the identity, up to -0.999992 exactly (0,0,0,-1).  C185_refuted: for opposite vectors it is not within 1 of any quaternion that turns one to the other.  Library functions are taken as correctly rounded.  Without overflow and underflow."
 },
 "C186": {
  "note": "C186_exp, for all vector parts.  Library functions are taken as correctly rounded.  Without overflow and underflow."
 },
 "C187": {
  "note": "C187_log: relative to v arccos w / sqrt(1 - w^2) the error is at most 5.7 u for 0 <= w < 1, and at most (3.2/sqrt(1 - w^2) + 4.1) u where the root is at least 3200 u.  C187_one: null for w >= 1.  C187_back_partial: log(exp v) is v up to 11 u in each coordinate, relatively, for lengths from 1.6 sqrt u to 1.57.  C187_lost: for lengths up to 0.99 sqrt u the result is exactly null.  C187_refuted: so a relative error of one half is exceeded, in every precision.  Library functions are taken as correctly rounded.  Without overflow and underflow."
 },
 "C188": {
  "note": "C188_range_partial: the result is from -y/2 to y/2, both included, and a whole number of y off x up to (|x| + 2y) u; below y/2 for x + y/2 >= 0.  C188_centred: for a centred x the error is at most 3/2 y u unless x + y/2 rounds up to y, and then the result is -y/2.  C188_exact: no error where x + y/2 is representable.  C188_wrap, C188_refuted: in every precision the largest number below 1/2 is mapped to -1/2 by fmodCentered(x, 1).  C188_upper: y/2 is reached in float.  Without overflow and underflow."
 },
 "C189": {
  "note": "C189_points_partial, C189_tangents_partial: if the sine of the angle between the sides is more than 64 u, the normal has unit length up to 11 u, each coordinate of it is right up to 16.2 u / sine, the first point is on the plane up to 3.2 u of its distance from the origin, and the others up to 13 u / sine of the length of the side more.  C189_null, C189_refuted: for (0,0,0), (1 + 2^-23, 1, 0), (1 + 2^-22, 1 + 2^-23, 0) in float the plane is null in all members.  Without overflow and underflow."
 },
 "C190": {
  "note": "C190_sphere, C190_circle: also the centre itself for equal centres.  Without overflow and underflow.  The decision itself is C121."
 },
 "C191": {
  "note": "C191_project_partial: every returned point is on the line up to 2.1 u in each coordinate and on the plane through the origin up to 6.3 u of the sizes of the scalar products; a point is returned if the scalar product of direction and normal exceeds 3.1 u of its terms.  C191_refuted: in float a point is returned for a direction exactly orthogonal to the normal.  C191_sphere: decision outside 4.1 u of the size of the terms, depth not negative and right up to that and u r.  That the plane goes through the origin is C79.  Without overflow and underflow."
 },
 "C192": {
  "note": "C192_squad: the result is within 3300000 u of a unit quaternion R between S and T, these between the given pairs (on the arc if the scalar product is below about 0.95, on the normalised chord above), the inner weight being 2w(1-w) up to 4.1 u of it.  C192_ends: weights 0 and 1.  For double this is 4e-10; the constant is not sharp, and u <= 2^-30 leaves out float, where only the single steps (C158) are bounded.  Opposite pairs are C115.  Without overflow and underflow."
 },
 "C193": {
  "note": "C193_accurate: relative errors 3.01 u, 5.02 u, 3.01 u and 4.02 u.  C193_same: CAABB::set(AABB) keeps the computed area and volume exactly.  C193_monotone: exact order under inclusion, not negative.  C193_lost: in float the box with centre (2^25, 0) and extents (1/2, 1) has area 2 and after conversion to corners area 0.  Without overflow and underflow."
 },
 "C194": {
  "note": "C194_scale: 6.1 u of |centre| + |extents k| for each corner.  C194_unscale: 7.1 u, and the assertion for 0.  C194_centred: centre unchanged, powers of two undone exactly.  C194_one: in float the box from 3 to 2^24 multiplied by 1 starts at 3.5 and does not contain its own corner any more.  Without overflow and underflow."
 },
 "C195": {
  "note": "C195_move: 4.1 u of the terms for moved, move and from(plane, distance); moved back, the plane is at its distance up to 2.1 u (|d| + 2 |k|).  C195_normal: from(normal, distance) and set(normal, distance), 5.1 u.  C195_order: exact order of the computed distances.  C195_back: in float a plane at distance 1 moved by 2^24 and back is at distance 0.  Without overflow and underflow."
 },
 "C196": {
  "note": "C196_accurate: bounds gam u 4 and gam u 3 of the sums of absolute values for operator*(Vec3), transformVector(Vec3) and transformVector(Vec4); operator*(Vec4) is C120_mulVec4.  C196_homogeneous: the bit for bit equalities, the first for translations that are numbers of the type, as they are in a program.  Without overflow and underflow."
 },
 "C197": {
  "note": "C197_apply: operator*(Vec3), and transformVector against the Mat3 part.  C197_product: Mat4::multiply against Mat34::operator*.  Factors marked as the identity are returned unchanged or skipped by both (C43 says when the mark is right).  Without overflow and underflow, and up to the sign of zeros."
 },
 "C198": {
  "note": "C198_noInvert, C198_slerp, C198_squad.  sin and acos are taken to be correctly rounded; without overflow and underflow.  Holds for float as well, where C192 says nothing."
 },
 "C199": {
  "note": "C199_accurate, C199_back, C199_plane, C199_matrix.  sin and cos are taken to be correctly rounded; without overflow and underflow, and up to the sign of zeros."
 }
}