{"id": "C01", "title": "Clamping and min/max always land in range", "statement": "clippedBetween(value,a,b) with a<=b returns a number in [a,b], returns value itself when value is already in [a,b], and is monotone in value; min/max return one of their arguments and a bound for both. With an unordered (NaN) value clippedBetween returns that NaN and never invents a number.", "quantifier": "all values and all bounds a<=b of any totally ordered scalar type, plus the NaN case", "why_tests_cant": "Ranges over an infinite (continuum) input space; a test samples finitely many points. NaN/boundary combinations are rarely enumerated.", "anchors": ["libs/mathlib/include/functions.h: clippedBetween", "libs/mathlib/include/functions.h: min", "libs/mathlib/include/functions.h: max", "libs/mathlib/include/functions.h: abs"]}
{"id": "C02", "title": "Coordinate cycling visits every axis", "statement": "next2D and next3D are cyclic permutations of the 2 (resp. 3) coordinates: iterating 2 (resp. 3) times returns the start, fewer never does; every other coordinate is mapped to Undefined and stays there for ever.", "quantifier": "all coordinates and all iteration counts", "why_tests_cant": "The iteration count is unbounded.", "anchors": ["libs/mathlib/include/functions.h: next2D", "libs/mathlib/include/functions.h: next3D"]}
{"id": "C03", "title": "Floating modulo reduces to the canonical residue", "statement": "For y>0, fmodPositive(x,y) is the unique number congruent to x modulo y in [0,y), and fmodCentered(x,y) is the unique number congruent to x modulo y in [-y/2,y/2).", "quantifier": "all real x and all y>0", "why_tests_cant": "Ranges over an infinite (continuum) input space; a test samples finitely many points.", "anchors": ["libs/mathlib/include/functions.h: fmodPositive", "libs/mathlib/include/functions.h: fmodCentered", "libs/mathlib/include/functions.h: fmod"]}
{"id": "C04", "title": "Clamped asin/acos are total inverses", "statement": "asin(s)/acos(c) never fail for any finite argument, return an angle in [-pi/2,pi/2] (resp. [0,pi]), are exact inverses of sin/cos on [-1,1] and saturate outside it.", "quantifier": "all real arguments", "why_tests_cant": "Ranges over an infinite (continuum) input space; a test samples finitely many points.", "anchors": ["libs/mathlib/include/functions.h: asin", "libs/mathlib/include/functions.h: acos"]}
{"id": "C05", "title": "Degree/radian conversions are mutually inverse", "statement": "radianToDegree(degreeToRadian(x)) = x = degreeToRadian(radianToDegree(x)), 180 degrees is pi, and both conversions are additive.", "quantifier": "all real x", "why_tests_cant": "Ranges over an infinite (continuum) input space; a test samples finitely many points.", "anchors": ["libs/mathlib/include/functions.h: degreeToRadian", "libs/mathlib/include/functions.h: radianToDegree"]}
{"id": "C06", "title": "Integer random helpers stay in their interval", "statement": "Whatever ::rand() returns: rand(n) for n>0 lies in [0,n); randBetween(from,to) for from<to lies in [from,to); randAmplitude(n) for n>0 lies in [-n,n); randAmplitude(from,to) for 0<=from<to lies in [-to,-from) or [from,to); every value of those ranges can occur; and no call inside those preconditions (and without int overflow of its own differences) divides by zero or overflows.", "quantifier": "all 32-bit int arguments meeting the precondition and all values of ::rand()", "why_tests_cant": "The generator is a black box; sampling it cannot show that no draw escapes the interval.", "anchors": ["libs/mathlib/include/functions.h: rand(int)", "libs/mathlib/include/functions.h: randBetween(int,int)", "libs/mathlib/include/functions.h: randAmplitude(int)", "libs/mathlib/include/functions.h: randAmplitude(int,int)"]}
{"id": "C07", "title": "Real random helpers stay in their interval and can reach both signs", "statement": "Whatever ::rand() returns: rand(f) lies between 0 and f, randBetween(from,to) between from and to (both ends attained), randAmplitude(f) in [-f,f], and randAmplitude(from,to) has magnitude in [from,to] and can take either sign.", "quantifier": "all real arguments and all values of ::rand() in [0,RAND_MAX]", "why_tests_cant": "The generator is a black box; absence of an outcome cannot be shown by sampling.", "anchors": ["libs/mathlib/include/functions.h: rand(Real)", "libs/mathlib/include/functions.h: randBetween(Real,Real)", "libs/mathlib/include/functions.h: randAmplitude(Real)", "libs/mathlib/include/functions.h: randAmplitude(Real,Real)"]}
{"id": "C08", "title": "Response curves are odd, monotone, with a dead zone", "statement": "For a threshold in [0,1) evaluate(value,threshold,curve) is 0 exactly on the dead zone |value|<=threshold (for every curve but Zero), is an odd function of value, is monotone, maps [-1,1] into [-1,1] and +-1 to +-1.", "quantifier": "all values, all thresholds in [0,1), all curve types", "why_tests_cant": "Ranges over an infinite (continuum) input space; a test samples finitely many points.", "anchors": ["libs/mathlib/include/functions.h: evaluate"]}
{"id": "C09", "title": "Interpolation ratios stay in [0,1]", "statement": "interpolationRatio(t,mode) lies in [0,1] for every t and every mode, is 0 for t<=0 and 1 for t>=1.", "quantifier": "all real t and all 29 modes", "why_tests_cant": "Ranges over an infinite (continuum) input space; a test samples finitely many points.", "anchors": ["libs/mathlib/include/interpolation.h: interpolationRatio"]}
{"id": "C10", "title": "Interpolation ratios are monotone", "statement": "t1<=t2 implies interpolationRatio(t1,mode) <= interpolationRatio(t2,mode) for every mode.", "quantifier": "all pairs t1<=t2 and all 29 modes", "why_tests_cant": "Ranges over an infinite (continuum) input space; a test samples finitely many points. Monotonicity quantifies over pairs.", "anchors": ["libs/mathlib/include/interpolation.h: interpolationRatio"]}
{"id": "C11", "title": "Ease-in/ease-out duality", "statement": "For each of the eight families, Out(t) = 1 - In(1-t), and each InOut mode satisfies f(1-t) = 1 - f(t) and f(1/2)=1/2, hence continuity across the switch at 1/2.", "quantifier": "all real t and all families", "why_tests_cant": "Ranges over an infinite (continuum) input space; a test samples finitely many points.", "anchors": ["libs/mathlib/include/interpolation.h: interpolationRatio"]}
{"id": "C12", "title": "lerp hits its end points and stays between them", "statement": "lerp(from,to,0)=from, lerp(from,to,1)=to, for ratio in [0,1] the result lies between from and to and is monotone in ratio; the integer overload returns an int between from and to and never leaves the int range when to-from fits in an int; the moded overloads interpolate between the same end points.", "quantifier": "all end points and ratios (reals, ints, 2-D and 3-D vectors)", "why_tests_cant": "Ranges over an infinite (continuum) input space; a test samples finitely many points.", "anchors": ["libs/mathlib/include/interpolation.h: lerp"]}
{"id": "C13", "title": "clerp takes the shortest way round", "statement": "clerp(from,to,ratio) moves from `from` by ratio*delta where delta is congruent to to-from modulo 2*pi and |delta|<=pi; in particular clerp(from,to,1) is the same angle as `to`.", "quantifier": "all real angles and ratios", "why_tests_cant": "Ranges over an infinite (continuum) input space; a test samples finitely many points.", "anchors": ["libs/mathlib/include/interpolation.h: clerp"]}
{"id": "C14", "title": "clerpMaxAngle never turns more than maxAngle", "statement": "For maxAngle>=0 clerpMaxAngle turns by at most maxAngle, reaches `to` (modulo 2*pi) when the required turn is at most maxAngle and otherwise turns by exactly maxAngle in that direction; the overload with a ratio output reports the fraction of the full turn that was made (so from + ratio*turn is the returned angle).", "quantifier": "all real angles and maxAngle>=0", "why_tests_cant": "Ranges over an infinite (continuum) input space; a test samples finitely many points.", "anchors": ["libs/mathlib/include/interpolation.h: clerpMaxAngle"]}
{"id": "C15", "title": "Tridiagonal solver solves the system", "statement": "If TriDiagonal::solve(n,a,b,c,r,u) returns true then u is a solution, and the only one, of the n x n tridiagonal system with sub-diagonal a, diagonal b, super-diagonal c and right-hand side r (scalar and Vec3 right-hand sides).", "quantifier": "all sizes n and all coefficient arrays", "why_tests_cant": "n is unbounded and coefficients are real numbers.", "anchors": ["libs/mathlib/include/impl/linearequations.h: TriDiagonal::solve"]}
{"id": "C16", "title": "Tridiagonal solver succeeds exactly when elimination without pivoting does", "statement": "TriDiagonal::solve returns false exactly when a leading principal minor of the matrix vanishes; in particular it returns true for every strictly diagonally dominant matrix, and it can return false on an invertible matrix.", "quantifier": "all sizes n>=1 and all coefficient arrays", "why_tests_cant": "n is unbounded and coefficients are real numbers.", "anchors": ["libs/mathlib/include/impl/linearequations.h: TriDiagonal::solve"]}
{"id": "C17", "title": "Cyclic tridiagonal solver solves the system", "statement": "If TriDiagonal::solveCyclic(n,a,b,c,alpha,beta,r,x) returns true then x solves the cyclic tridiagonal system with bottom-left corner alpha and top-right corner beta.", "quantifier": "all sizes n and all coefficient arrays", "why_tests_cant": "n is unbounded and coefficients are real numbers.", "anchors": ["libs/mathlib/include/impl/linearequations.h: TriDiagonal::solveCyclic"]}
{"id": "C18", "title": "Gauss-Jordan replaces b by the solution", "statement": "If GaussJordan::solve(a,n,b,m) returns true then A*B_out = B_in where A and B_in are the input matrices.", "quantifier": "all n, m and all matrices", "why_tests_cant": "Dimensions are unbounded; pivot orders explode combinatorially.", "anchors": ["libs/mathlib/include/impl/linearequations.h: GaussJordan::solve"]}
{"id": "C19", "title": "Gauss-Jordan fails exactly on singular matrices", "statement": "GaussJordan::solve returns false if and only if det A = 0; all its array accesses are in range.", "quantifier": "all n, m and all matrices", "why_tests_cant": "Dimensions are unbounded; pivot orders explode combinatorially.", "anchors": ["libs/mathlib/include/impl/linearequations.h: GaussJordan::solve"]}
{"id": "C20", "title": "Gauss-Jordan replaces a by its inverse", "statement": "As documented, on success the matrix a is replaced by its inverse.", "quantifier": "all n, m and all matrices", "why_tests_cant": "Dimensions are unbounded.", "anchors": ["libs/mathlib/include/linearequations.h: GaussJordan", "libs/mathlib/include/impl/linearequations.h: GaussJordan::solve"]}
{"id": "C21", "title": "Vector operators are the textbook vector space, dot and cross product", "statement": "Vec2/Vec3/Vec4 +,-,*k,/k, dot product, 2-D and 3-D cross products agree with the standard ones; Lagrange, Jacobi and triple product identities hold; compound assignments agree with the binary operators; division by k undoes multiplication by k and asserts when k is 0.", "quantifier": "all vectors and scalars", "why_tests_cant": "Ranges over an infinite (continuum) input space; a test samples finitely many points.", "anchors": ["libs/mathlib/include/impl/vec2.h: Vec2::operator+", "libs/mathlib/include/impl/vec3.h: Vec3::operator%", "libs/mathlib/include/impl/vec4.h: Vec4::operator*"]}
{"id": "C22", "title": "Normalisation gives the requested length and keeps the direction", "statement": "normalize(k)/normalized(k) of a non-null vector is a positive multiple of it with length |k| (k>=0), of a null vector is the null vector; it never divides by zero; length is 0 only for the null vector, and satisfies the triangle inequality.", "quantifier": "all vectors, all k", "why_tests_cant": "Ranges over an infinite (continuum) input space; a test samples finitely many points.", "anchors": ["libs/mathlib/include/impl/vec2.h: Vec2::normalize", "libs/mathlib/include/impl/vec3.h: Vec3::normalize", "libs/mathlib/include/impl/vec3.h: Vec3::normalized"]}
{"id": "C23", "title": "Vector rotations are rotations", "statement": "Rotating a Vec2 by an angle, or a Vec3 about a coordinate axis, preserves length and dot products, is additive in the angle, leaves the axis fixed, is undone by the opposite angle, and the in-place and const variants agree.", "quantifier": "all vectors, axes and angles", "why_tests_cant": "Ranges over an infinite (continuum) input space; a test samples finitely many points.", "anchors": ["libs/mathlib/include/impl/vec2.h: Vec2::rotate", "libs/mathlib/include/impl/vec3.h: Vec3::rotate"]}
{"id": "C24", "title": "Quarter turns are exact", "statement": "rotate90 applied four times is the identity bit for bit, twice is negation, it is the rotation by pi/2 and is undone by the opposite quarter turn.", "quantifier": "all vectors, including under floating point rounding", "why_tests_cant": "Ranges over an infinite (continuum) input space; a test samples finitely many points.", "anchors": ["libs/mathlib/include/impl/vec2.h: Vec2::rotate90", "libs/mathlib/include/impl/vec2.h: Vec2::rotated90"]}
{"id": "C25", "title": "majorCoord/minorCoord identify extreme components", "statement": "majorCoord (minorCoord) returns a coordinate whose component has the largest (smallest) absolute value; the two are always different coordinates.", "quantifier": "all vectors", "why_tests_cant": "Tie-breaking patterns over a continuum.", "anchors": ["libs/mathlib/include/impl/vec2.h: Vec2::majorCoord", "libs/mathlib/include/impl/vec3.h: Vec3::majorCoord", "libs/mathlib/include/impl/vec3.h: Vec3::minorCoord"]}
{"id": "C26", "title": "Mirroring is an involution and its two forms agree", "statement": "mirror(c) negates exactly component c, twice is the identity, and mirror and mirrored agree for every coordinate argument.", "quantifier": "all vectors and all coordinate arguments", "why_tests_cant": "Ranges over an infinite (continuum) input space; a test samples finitely many points.", "anchors": ["libs/mathlib/include/impl/vec2.h: Vec2::mirror", "libs/mathlib/include/impl/vec3.h: Vec3::mirrored"]}
{"id": "C27", "title": "Dropping and inserting a coordinate are inverse", "statement": "Embedding a Vec2 in space orthogonally to a coordinate c and dropping c again gives back the same Vec2, both through Vec3::toVec2(c) and through the Vec2(Vec3,c) constructor.", "quantifier": "all 2-D vectors and the three coordinates", "why_tests_cant": "Ranges over an infinite (continuum) input space; a test samples finitely many points.", "anchors": ["libs/mathlib/include/impl/vec2.h: Vec2(const Vec3&,Coord)", "libs/mathlib/include/impl/vec3.h: Vec3::toVec2", "libs/mathlib/include/impl/vec3.h: Vec3(const Vec2&,Coord)"]}
{"id": "C28", "title": "Axis shorthands of the cross product", "statement": "v % Coord and v % Axis equal the cross product of v with the corresponding (signed) unit vector, fail an assertion for any other argument, and the compound forms %= agree with them.", "quantifier": "all vectors and all axes", "why_tests_cant": "Ranges over an infinite (continuum) input space; a test samples finitely many points.", "anchors": ["libs/mathlib/include/impl/vec3.h: Vec3::operator%", "libs/mathlib/include/impl/vec3.h: Vec3::operator%="]}
{"id": "C29", "title": "Line/line intersection parameters are correct", "statement": "intersection(from,to,a,b) returns a determinant; when non-zero the parameters written satisfy from + ftp*(to-from) = a + abp*(b-a) and are the only such parameters; it is zero exactly when the directions are parallel.", "quantifier": "all four points", "why_tests_cant": "Ranges over an infinite (continuum) input space; a test samples finitely many points.", "anchors": ["libs/mathlib/include/impl/vec2.h: intersection"]}
{"id": "C30", "title": "Equality tests are componentwise and complementary", "statement": "== holds iff all components compare equal, != is its exact complement even when NaNs are present, isNull agrees with comparison to Zero; == is an equivalence relation on NaN-free vectors.", "quantifier": "all vectors, including NaN components", "why_tests_cant": "NaN patterns; universally quantified symmetric/transitive laws.", "anchors": ["libs/mathlib/include/impl/vec2.h: Vec2::operator==", "libs/mathlib/include/impl/vec3.h: Vec3::operator!=", "libs/mathlib/include/impl/vec4.h: Vec4::operator=="]}
{"id": "C31", "title": "Vec3::slerp follows the arc from u to v", "statement": "slerp(u,v,ratio) of two unit vectors that are not opposite is the unit vector in their plane at angle ratio*angle(u,v) from u on the way to v.", "quantifier": "all pairs of unit vectors, all ratios in [0,1]", "why_tests_cant": "Ranges over an infinite (continuum) input space; a test samples finitely many points.", "anchors": ["libs/mathlib/include/impl/vec3.h: Vec3::slerp"]}
{"id": "C32", "title": "Vec3::slerpMaxAngle turns by at most maxAngle and reaches v if it can", "statement": "slerpMaxAngle(u,v,maxAngle) of unit vectors turns u towards v by min(maxAngle, angle(u,v)).", "quantifier": "all pairs of unit vectors, all maxAngle>=0", "why_tests_cant": "Ranges over an infinite (continuum) input space; a test samples finitely many points.", "anchors": ["libs/mathlib/include/impl/vec3.h: Vec3::slerpMaxAngle"]}
{"id": "C33", "title": "randomUnitVector returns unit vectors in every direction", "statement": "Whatever the random source delivers, a returned vector has length 1; and every direction can be returned.", "quantifier": "all random draws", "why_tests_cant": "The generator is a black box.", "anchors": ["libs/mathlib/include/impl/vec2.h: Vec2::randomUnitVector", "libs/mathlib/include/impl/vec3.h: Vec3::randomUnitVector"]}
{"id": "C34", "title": "Matrix products compose linear/affine maps", "statement": "For Mat2, Mat3, Mat34 and Mat4 whose identity flag is only set on exact identities, (A*B) applied to v equals A applied to (B applied to v), products are the textbook matrix products and are associative, v*M is the transposed product.", "quantifier": "all matrices and vectors", "why_tests_cant": "Ranges over an infinite (continuum) input space; a test samples finitely many points.", "anchors": ["libs/mathlib/include/impl/mat2.h: Mat2::operator*", "libs/mathlib/include/impl/mat3.h: Mat3::operator*", "libs/mathlib/include/impl/mat34.h: Mat34::operator*", "libs/mathlib/include/impl/mat4.h: Mat4::operator*"]}
{"id": "C35", "title": "The identity shortcut costs at most the flag tolerance", "statement": "When a factor is flagged as identity within tolerance tol (squared error), skipping the multiplication changes the product by at most sqrt(tol) times the Frobenius norm of the other factor.", "quantifier": "all matrices and all tolerances", "why_tests_cant": "Ranges over an infinite (continuum) input space; a test samples finitely many points.", "anchors": ["libs/mathlib/include/impl/mat3.h: Mat3::operator*", "libs/mathlib/include/impl/mat3.h: Mat3::optimize", "libs/mathlib/include/impl/mat2.h: Mat2::optimize"]}
{"id": "C36", "title": "In-place matrix operations agree with the pure ones", "statement": "A *= B (distinct objects), rotate/rotatePre, transform/transformPre, multiply and the copying variants produce the same entries and flags as the operators they abbreviate.", "quantifier": "all matrices", "why_tests_cant": "Ranges over an infinite (continuum) input space; a test samples finitely many points.", "anchors": ["libs/mathlib/include/impl/mat2.h: Mat2::operator*=", "libs/mathlib/include/impl/mat3.h: Mat3::operator*=", "libs/mathlib/include/impl/mat3.h: Mat3::rotatePre", "libs/mathlib/include/impl/mat34.h: Mat34::transform", "libs/mathlib/include/impl/mat4.h: Mat4::multiply"]}
{"id": "C37", "title": "Squaring in place", "statement": "m *= m (the argument aliasing the object) leaves the square of m in m.", "quantifier": "all matrices", "why_tests_cant": "Aliasing executions plus a continuum of entries.", "anchors": ["libs/mathlib/include/impl/mat2.h: Mat2::operator*=", "libs/mathlib/include/impl/mat3.h: Mat3::operator*="]}
{"id": "C38", "title": "Transposition", "statement": "transposed() is an involution, exchanges rows and columns, reverses products, keeps the determinant, transpose() agrees with it, and the flags it keeps remain true of the result.", "quantifier": "all matrices", "why_tests_cant": "Ranges over an infinite (continuum) input space; a test samples finitely many points.", "anchors": ["libs/mathlib/include/impl/mat2.h: Mat2::transposed", "libs/mathlib/include/impl/mat3.h: Mat3::transposed", "libs/mathlib/include/impl/mat4.h: Mat4::transposed"]}
{"id": "C39", "title": "Determinant, cofactors and adjoint are the classical ones", "statement": "determinant() is the Leibniz determinant, cofactors() the cofactor matrix, adjoint() the classical adjugate; det is multiplicative.", "quantifier": "all matrices (2x2, 3x3, 4x4)", "why_tests_cant": "Ranges over an infinite (continuum) input space; a test samples finitely many points.", "anchors": ["libs/mathlib/include/impl/mat2.h: Mat2::determinant", "libs/mathlib/include/impl/mat3.h: Mat3::adjoint", "libs/mathlib/include/impl/mat4.h: Mat4::determinant"]}
{"id": "C40", "title": "Mat2/Mat3 inversion is two-sided", "statement": "For det != 0, Mat2::inversed(), Mat3::inversed() and Mat3::invert() give the two-sided inverse; for det = 0 they give the zero matrix; no assertion fires and nothing divides by zero.", "quantifier": "all matrices with truthful orthonormal flag", "why_tests_cant": "Ranges over an infinite (continuum) input space; a test samples finitely many points.", "anchors": ["libs/mathlib/include/impl/mat2.h: Mat2::inversed", "libs/mathlib/include/impl/mat3.h: Mat3::inversed", "libs/mathlib/include/impl/mat3.h: Mat3::invert"]}
{"id": "C41", "title": "Mat4 inversion is two-sided", "statement": "For det != 0, Mat4::inversed() and invert() give the two-sided inverse and an initialised matrix; for det = 0 they give the zero matrix.", "quantifier": "all 4x4 matrices with flags as computed by the library", "why_tests_cant": "Ranges over an infinite (continuum) input space; a test samples finitely many points.", "anchors": ["libs/mathlib/include/impl/mat4.h: Mat4::inversed", "libs/mathlib/include/impl/mat4.h: Mat4::invert"]}
{"id": "C42", "title": "Mat34 inversion inverts the affine map", "statement": "For an invertible linear part, Mat34::invert() leaves the inverse affine map: applying M then its inverse (in either order) returns every point to itself.", "quantifier": "all affine maps with truthful flags and all points", "why_tests_cant": "Ranges over an infinite (continuum) input space; a test samples finitely many points.", "anchors": ["libs/mathlib/include/impl/mat34.h: Mat34::invert"]}
{"id": "C43", "title": "Cached matrix flags stay truthful", "statement": "After any sequence of public constructors, setters, products, transpositions, inversions, scalings and rotations, a set Normal/Orthogonal/Identity flag is true of the entries.", "quantifier": "all finite sequences of operations", "why_tests_cant": "Unbounded operation sequences (state invariant).", "anchors": ["libs/mathlib/include/impl/mat2.h: Mat2::optimize", "libs/mathlib/include/impl/mat3.h: Mat3::optimize", "libs/mathlib/include/impl/mat3.h: Mat3::rotate(Coord,Real)", "libs/mathlib/include/impl/mat4.h: Mat4::optimize"]}
{"id": "C44", "title": "Rotation constructors build rotations", "statement": "Mat2(angle), Mat3(Coord,angle), Mat3(axis,angle) and Mat3(unit quaternion) are orthonormal with determinant 1, fix their axis, have trace 1+2cos(angle), and compose additively about the same axis; a null axis gives the identity.", "quantifier": "all angles, axes and unit quaternions", "why_tests_cant": "Ranges over an infinite (continuum) input space; a test samples finitely many points.", "anchors": ["libs/mathlib/include/impl/mat2.h: Mat2::set(Real angle)", "libs/mathlib/include/impl/mat3.h: Mat3::set(const Vec3&,Real)", "libs/mathlib/include/impl/mat3.h: Mat3::set(Coord,Real)", "libs/mathlib/include/impl/mat3.h: Mat3::set(const Quat&)"]}
{"id": "C45", "title": "Orientation from an exact and an approximate axis", "statement": "Mat3::set(ecoord,exact,acoord,approx) with non-parallel vectors and two different coordinates is a rotation matrix whose ecoord column is exact normalised and whose acoord column lies in the plane of the two vectors on the side of approx.", "quantifier": "all non-parallel vector pairs and all coordinate pairs", "why_tests_cant": "Ranges over an infinite (continuum) input space; a test samples finitely many points.", "anchors": ["libs/mathlib/include/impl/mat3.h: Mat3::set(Coord,const Vec3&,Coord,const Vec3&)"]}
{"id": "C46", "title": "translate/scale/…Pre compose on the documented side", "statement": "For affine matrices: translate(d) is T(d)*M, translatePre(d) is M*T(d), scale(k) is S(k)*M and scalePre(k) is M*S(k), for Mat34 and Mat4, in place and copying variants alike.", "quantifier": "all affine matrices, translations, scales and points", "why_tests_cant": "Ranges over an infinite (continuum) input space; a test samples finitely many points.", "anchors": ["libs/mathlib/include/impl/mat34.h: Mat34::scale", "libs/mathlib/include/impl/mat34.h: Mat34::scalePre", "libs/mathlib/include/impl/mat34.h: Mat34::translatePre", "libs/mathlib/include/impl/mat4.h: Mat4::scale", "libs/mathlib/include/impl/mat4.h: Mat4::translatePre"]}
{"id": "C47", "title": "Batch transforms equal element-wise transforms", "statement": "transform(dest,src,count) and the strided variants write M*src[i] into dest[i] for every i<count and touch nothing else, provided source and destination do not overlap.", "quantifier": "all matrices, counts, strides, base addresses and memory contents", "why_tests_cant": "count, strides and memory contents are unbounded.", "anchors": ["libs/mathlib/include/impl/mat2.h: Mat2::transform", "libs/mathlib/include/impl/mat3.h: Mat3::transform", "libs/mathlib/include/impl/mat34.h: Mat34::transform", "libs/mathlib/include/impl/mat4.h: Mat4::transform"]}
{"id": "C48", "title": "Transforming in place", "statement": "transform(v,v) (destination aliasing the source) replaces v by M*v.", "quantifier": "all matrices and vectors", "why_tests_cant": "Aliasing executions plus a continuum of entries.", "anchors": ["libs/mathlib/include/impl/mat2.h: Mat2::transform", "libs/mathlib/include/impl/mat3.h: Mat3::transform", "libs/mathlib/include/impl/mat34.h: Mat34::transform"]}
{"id": "C49", "title": "Matrix negation, scaling and division act entrywise", "statement": "unary -, *k, /k, *=k, /=k, == and != of the matrix classes act entrywise; division by 0 with / yields the zero matrix by convention and with /= fails an assertion; scaling is compatible with the product.", "quantifier": "all matrices and scalars", "why_tests_cant": "Ranges over an infinite (continuum) input space; a test samples finitely many points.", "anchors": ["libs/mathlib/include/impl/mat2.h: Mat2::operator*", "libs/mathlib/include/impl/mat3.h: Mat3::operator/", "libs/mathlib/include/impl/mat4.h: Mat4::operator/"]}
{"id": "C50", "title": "Quaternion product is Hamilton's", "statement": "operator* is the Hamilton product: associative, with identity, norm multiplicative; inverse() of a unit quaternion is its two-sided inverse.", "quantifier": "all quaternions", "why_tests_cant": "Ranges over an infinite (continuum) input space; a test samples finitely many points.", "anchors": ["libs/mathlib/include/impl/quat.h: Quat::operator*", "libs/mathlib/include/impl/quat.h: Quat::inverse"]}
{"id": "C51", "title": "Quaternion rotation of vectors", "statement": "For a unit quaternion, rotated(v) is the vector part of q*v*conj(q); it preserves lengths, dot and cross products; rotating by q1*q2 is rotating by q2 and then q1; rotated(Coord) is rotated of the unit axis; Mat3(q) applied to v gives the same vector.", "quantifier": "all unit quaternions and vectors", "why_tests_cant": "Ranges over an infinite (continuum) input space; a test samples finitely many points.", "anchors": ["libs/mathlib/include/impl/quat.h: Quat::rotated", "libs/mathlib/include/impl/quat.h: Quat::rotate", "libs/mathlib/include/impl/mat3.h: Mat3::set(const Quat&)"]}
{"id": "C52", "title": "Axis/angle construction and extraction", "statement": "Quat(axis,angle) has unit norm, performs the rotation Mat3(axis,angle), is the identity for a null axis; toAxisAngle returns a unit axis and an angle from which the quaternion is rebuilt.", "quantifier": "all axes and angles, all unit quaternions", "why_tests_cant": "Ranges over an infinite (continuum) input space; a test samples finitely many points.", "anchors": ["libs/mathlib/include/impl/quat.h: Quat::set(const Vec3&,Real)", "libs/mathlib/include/impl/quat.h: Quat::toAxisAngle", "libs/mathlib/include/impl/quat.h: Quat::angle", "libs/mathlib/include/impl/quat.h: Quat::axis"]}
{"id": "C53", "title": "Matrix to quaternion conversion round-trips", "statement": "Quat(Mat3(q)) is q or -q for every unit q, hence Mat3(Quat(R)) = R for every rotation matrix of the form Mat3(q); all four branches of the extraction are covered and none divides by zero.", "quantifier": "all unit quaternions", "why_tests_cant": "Ranges over an infinite (continuum) input space; a test samples finitely many points. Four numerically separated branches.", "anchors": ["libs/mathlib/include/impl/quat.h: Quat::set(const Mat3&)", "libs/mathlib/include/impl/mat3.h: Mat3::set(const Quat&)"]}
{"id": "C54", "title": "Quaternion from two directions", "statement": "Quat(from,to) is a unit quaternion that rotates the direction of from onto the direction of to.", "quantifier": "all pairs of non-null vectors", "why_tests_cant": "Ranges over an infinite (continuum) input space; a test samples finitely many points.", "anchors": ["libs/mathlib/include/impl/quat.h: Quat::set(const Vec3&,const Vec3&)"]}
{"id": "C55", "title": "Quaternion lerp/slerp stay on the unit sphere and hit the ends", "statement": "lerp, slerp and slerpNoInvert of unit quaternions return unit quaternions; weight 0 gives from; weight 1 gives to (or -to, the same rotation); no division by zero happens.", "quantifier": "all pairs of unit quaternions, all weights in [0,1]", "why_tests_cant": "Ranges over an infinite (continuum) input space; a test samples finitely many points.", "anchors": ["libs/mathlib/include/impl/quat.h: Quat::lerp", "libs/mathlib/include/impl/quat.h: Quat::slerp", "libs/mathlib/include/impl/quat.h: Quat::slerpNoInvert"]}
{"id": "C56", "title": "Slerp has constant angular speed along the minor arc", "statement": "For unit quaternions at angle theta (after sign choice), slerp(from,to,t) is at angle t*theta from from, with theta<=pi/2.", "quantifier": "all pairs of unit quaternions, all t in [0,1]", "why_tests_cant": "Ranges over an infinite (continuum) input space; a test samples finitely many points.", "anchors": ["libs/mathlib/include/impl/quat.h: Quat::slerp"]}
{"id": "C57", "title": "Quat::slerpMaxAngle moves from towards to", "statement": "slerpMaxAngle(from,to,maxAngle) is the orientation obtained by turning from towards to by at most maxAngle; with maxAngle large enough it is to.", "quantifier": "all pairs of unit quaternions, all maxAngle>=0", "why_tests_cant": "Ranges over an infinite (continuum) input space; a test samples finitely many points.", "anchors": ["libs/mathlib/include/impl/quat.h: Quat::slerpMaxAngle"]}
{"id": "C58", "title": "Quaternion division undoes multiplication", "statement": "(a/q)*q = a for unit quaternions; q/q = 1.", "quantifier": "all unit quaternions", "why_tests_cant": "Ranges over an infinite (continuum) input space; a test samples finitely many points.", "anchors": ["libs/mathlib/include/impl/quat.h: Quat::operator/"]}
{"id": "C59", "title": "log and exp are inverse", "statement": "exp(log(q)) = q for every unit quaternion and log(exp(v)) = v for pure quaternions of norm below pi.", "quantifier": "all unit quaternions / small pure quaternions", "why_tests_cant": "Ranges over an infinite (continuum) input space; a test samples finitely many points.", "anchors": ["libs/mathlib/include/impl/quat.h: Quat::log", "libs/mathlib/include/impl/quat.h: Quat::exp"]}
{"id": "C60", "title": "Bounding box of points is the tightest box", "statement": "AABB set from a non-empty array of points (contiguous or strided) contains every point and is contained in every box that does; an empty array is rejected by an assertion.", "quantifier": "all point arrays of any length (2-D, 3-D)", "why_tests_cant": "Array length unbounded; every permutation of coordinates.", "anchors": ["libs/mathlib/include/impl/aabb2.h: AABB2::set", "libs/mathlib/include/impl/aabb3.h: AABB3::set"]}
{"id": "C61", "title": "Growing and uniting boxes is least upper bound", "statement": "add(point) and fromUnion give the smallest box containing the old box and the new element; incremental adding equals setting from the whole array, in any order.", "quantifier": "all boxes, points and insertion orders", "why_tests_cant": "Insertion sequences are unbounded.", "anchors": ["libs/mathlib/include/impl/aabb2.h: AABB2::add", "libs/mathlib/include/impl/aabb3.h: AABB3::add", "libs/mathlib/include/impl/aabb3.h: AABB3::fromUnion"]}
{"id": "C62", "title": "Box containment tests are set inclusion", "statement": "contains(point) holds iff the point is between the corners componentwise; contains(box) iff every point of the other (valid) box is in this one; contains(sphere) iff every point of the ball is in the box.", "quantifier": "all boxes, points and balls", "why_tests_cant": "Ranges over an infinite (continuum) input space; a test samples finitely many points.", "anchors": ["libs/mathlib/include/impl/aabb2.h: AABB2::contains", "libs/mathlib/include/impl/aabb3.h: AABB3::contains"]}
{"id": "C63", "title": "Box overlap test is exact", "statement": "intersects(box) holds iff the two valid boxes have a common point; it is symmetric.", "quantifier": "all pairs of valid boxes", "why_tests_cant": "Ranges over an infinite (continuum) input space; a test samples finitely many points.", "anchors": ["libs/mathlib/include/impl/aabb2.h: AABB2::intersects", "libs/mathlib/include/impl/aabb3.h: AABB3::intersects"]}
{"id": "C64", "title": "Box intersection is set intersection", "statement": "fromIntersection(a,b) contains exactly the points common to a and b.", "quantifier": "all pairs of valid boxes", "why_tests_cant": "Ranges over an infinite (continuum) input space; a test samples finitely many points.", "anchors": ["libs/mathlib/include/impl/aabb2.h: AABB2::fromIntersection", "libs/mathlib/include/impl/aabb3.h: AABB3::fromIntersection"]}
{"id": "C65", "title": "Corner and centred boxes convert without loss", "statement": "AABB -> CAABB -> AABB and CAABB -> AABB -> CAABB are identities and describe the same point set; size, area and volume agree.", "quantifier": "all boxes", "why_tests_cant": "Ranges over an infinite (continuum) input space; a test samples finitely many points.", "anchors": ["libs/mathlib/include/impl/aabb3.h: AABB3::set", "libs/mathlib/include/impl/caabb3.h: CAABB3::set", "libs/mathlib/include/impl/caabb2.h: CAABB2::set"]}
{"id": "C66", "title": "Centred boxes contain what was added", "statement": "CAABB set from points contains them all and is the tightest; add(point) gives the smallest box containing both; contains/intersects are set inclusion/overlap.", "quantifier": "all boxes and point arrays", "why_tests_cant": "Array length unbounded.", "anchors": ["libs/mathlib/include/impl/caabb2.h: CAABB2::add", "libs/mathlib/include/impl/caabb3.h: CAABB3::add", "libs/mathlib/include/impl/caabb3.h: CAABB3::contains"]}
{"id": "C67", "title": "Box parametrisation covers exactly the box", "statement": "pointAt maps the parameter cube onto the box, bijectively when the box has positive extents; the named corners and centre are the images of the corresponding parameters; size/area/volume are the products of the side lengths.", "quantifier": "all boxes and parameters", "why_tests_cant": "Ranges over an infinite (continuum) input space; a test samples finitely many points.", "anchors": ["libs/mathlib/include/impl/aabb3.h: AABB3::pointAt", "libs/mathlib/include/impl/caabb3.h: CAABB3::pointAt", "libs/mathlib/include/impl/aabb2.h: AABB2::area"]}
{"id": "C68", "title": "Ray/box slab intersection is exact", "statement": "intersects(t1,t2,ray) returns true iff the ray meets the box at a parameter in [0,MAX]; then {t in [0,MAX] : pointAt(t) in box} is exactly [t1,t2].", "quantifier": "all boxes and rays", "why_tests_cant": "Ranges over an infinite (continuum) input space; a test samples finitely many points. Parallel/grazing/inside configurations.", "anchors": ["libs/mathlib/include/impl/aabb2.h: AABB2::intersects(ray)", "libs/mathlib/include/impl/aabb3.h: AABB3::intersects(ray)"]}
{"id": "C69", "title": "Segment/box slab intersection is exact", "statement": "intersects(t1,t2,line) returns true iff the segment meets the box; then the set of parameters in [0,1] inside the box is exactly [t1,t2].", "quantifier": "all boxes and segments", "why_tests_cant": "Ranges over an infinite (continuum) input space; a test samples finitely many points.", "anchors": ["libs/mathlib/include/impl/aabb2.h: AABB2::intersects(line)", "libs/mathlib/include/impl/aabb3.h: AABB3::intersects(line)"]}
{"id": "C70", "title": "Ray/box hit test reports the entry point", "statement": "hits(hit,t,ray/line) returns true iff the ray (segment) enters the box, and then hit = pointAt(t) is the first point of the box on it.", "quantifier": "all boxes and rays/segments", "why_tests_cant": "Ranges over an infinite (continuum) input space; a test samples finitely many points.", "anchors": ["libs/mathlib/include/impl/aabb2.h: AABB2::hits", "libs/mathlib/include/impl/aabb3.h: AABB3::hits"]}
{"id": "C71", "title": "Inner and outer balls of a box", "statement": "innerCircle/innerSphere is contained in the box and touches a face; outerCircle/outerSphere contains the box and passes through all its corners.", "quantifier": "all valid boxes", "why_tests_cant": "Ranges over an infinite (continuum) input space; a test samples finitely many points.", "anchors": ["libs/mathlib/include/impl/aabb2.h: AABB2::innerCircle", "libs/mathlib/include/impl/aabb3.h: AABB3::outerSphere"]}
{"id": "C72", "title": "Moving and scaling boxes", "statement": "translating a box translates its point set; scaleCentered keeps the centre and multiplies the sides by the factor; set(center,extents/size) has that centre and size.", "quantifier": "all boxes, translations, factors", "why_tests_cant": "Ranges over an infinite (continuum) input space; a test samples finitely many points.", "anchors": ["libs/mathlib/include/impl/aabb2.h: AABB2::scaleCentered", "libs/mathlib/include/impl/aabb3.h: AABB3::scaleCentered"]}
{"id": "C73", "title": "Ball containment is set inclusion", "statement": "Sphere/Circle contains(point) iff the distance to the centre is at most the radius; contains(ball) iff every point of the other ball is in this one.", "quantifier": "all balls with non-negative radius", "why_tests_cant": "Ranges over an infinite (continuum) input space; a test samples finitely many points.", "anchors": ["libs/mathlib/include/impl/sphere.h: Sphere::contains", "libs/mathlib/include/impl/circle.h: Circle::contains"]}
{"id": "C74", "title": "Bounding ball contains the points", "statement": "Sphere/Circle set from points contains all of them, is centred at the centre of their bounding box and has one of them on its boundary.", "quantifier": "all point arrays", "why_tests_cant": "Array length unbounded.", "anchors": ["libs/mathlib/include/impl/sphere.h: Sphere::set", "libs/mathlib/include/impl/circle.h: Circle::set"]}
{"id": "C75", "title": "Ball/ball intersection is exact", "statement": "intersects(ball) iff the two balls share a point; when a hit point is reported it lies in both balls, on the segment joining the centres.", "quantifier": "all pairs of balls with non-negative radius", "why_tests_cant": "Ranges over an infinite (continuum) input space; a test samples finitely many points.", "anchors": ["libs/mathlib/include/impl/sphere.h: Sphere::intersects", "libs/mathlib/include/impl/circle.h: Circle::intersects"]}
{"id": "C76", "title": "Segment/ball intersection reports the first contact", "statement": "intersects(hit,t,line) returns true iff the segment meets the ball; then hit=line.pointAt(t) is on the surface and no earlier point of the segment is in the ball.", "quantifier": "all balls and segments", "why_tests_cant": "Ranges over an infinite (continuum) input space; a test samples finitely many points.", "anchors": ["libs/mathlib/include/impl/sphere.h: Sphere::intersects(line)", "libs/mathlib/include/impl/circle.h: Circle::intersects(line)"]}
{"id": "C77", "title": "Planes go through what they were built from", "statement": "from(point,normal) has a unit normal parallel to normal and contains point; from(a,b,c) contains a, b, c when they are not collinear; from(normal,d), parallel planes likewise; set and from agree.", "quantifier": "all points and normals", "why_tests_cant": "Ranges over an infinite (continuum) input space; a test samples finitely many points.", "anchors": ["libs/mathlib/include/impl/plane.h: Plane::from", "libs/mathlib/include/impl/plane.h: Plane::set"]}
{"id": "C78", "title": "Plane distance and orthogonal projection", "statement": "distance is the signed Euclidean distance for a unit normal; project gives the nearest point of the plane; flip negates distances and keeps the plane; move(k) lowers all distances by k.", "quantifier": "all unit-normal planes and points", "why_tests_cant": "Ranges over an infinite (continuum) input space; a test samples finitely many points.", "anchors": ["libs/mathlib/include/impl/plane.h: Plane::distance", "libs/mathlib/include/impl/plane.h: Plane::project", "libs/mathlib/include/impl/plane.h: Plane::flip", "libs/mathlib/include/impl/plane.h: Plane::move"]}
{"id": "C79", "title": "Directional projection lands on the plane", "statement": "project(projection,point,direction) returns true iff direction is not parallel to the plane, and then the projection is on the plane and differs from point by a multiple of direction.", "quantifier": "all planes, points, directions", "why_tests_cant": "Ranges over an infinite (continuum) input space; a test samples finitely many points.", "anchors": ["libs/mathlib/include/impl/plane.h: Plane::project(projection,point,direction)"]}
{"id": "C80", "title": "Plane hit tests", "statement": "intersects(ray/line) returns true iff the ray/segment meets the plane transversally, with the hit on the plane at the reported parameter in range; hits additionally requires approaching from the positive side; the sphere tests hold iff the ball meets the plane (from the positive side) and report the penetration depth.", "quantifier": "all planes, rays, segments, spheres", "why_tests_cant": "Ranges over an infinite (continuum) input space; a test samples finitely many points.", "anchors": ["libs/mathlib/include/impl/plane.h: Plane::hits", "libs/mathlib/include/impl/plane.h: Plane::intersects"]}
{"id": "C81", "title": "Three-plane intersection point", "statement": "intersectAtSinglePoint returns true iff |det| of the normals is at least 1e-4 and the point is the unique common point of the planes.", "quantifier": "all triples of planes", "why_tests_cant": "Ranges over an infinite (continuum) input space; a test samples finitely many points.", "anchors": ["libs/mathlib/include/impl/plane.h: Plane::intersectAtSinglePoint"]}
{"id": "C82", "title": "Frustum point containment is exact for perspective frusta and boxes", "statement": "For the eight corners of a symmetric perspective frustum (and of an axis-aligned box) in the documented order, contains(p) holds iff p is in the solid; for any corners the accepted set is convex.", "quantifier": "all perspective parameters and all points", "why_tests_cant": "Ranges over an infinite (continuum) input space; a test samples finitely many points.", "anchors": ["libs/mathlib/include/impl/frustum.h: Frustum::contains", "libs/mathlib/include/impl/frustum.h: Frustum::computePlanes"]}
{"id": "C83", "title": "Frustum sphere tests are conservative", "statement": "contains(sphere) iff every point of the ball is accepted by contains(point) (unit plane normals); intersects(sphere) is true whenever some point of the ball is in the frustum.", "quantifier": "all frusta and spheres", "why_tests_cant": "Ranges over an infinite (continuum) input space; a test samples finitely many points.", "anchors": ["libs/mathlib/include/impl/frustum.h: Frustum::contains(sphere)", "libs/mathlib/include/impl/frustum.h: Frustum::intersects(sphere)"]}
{"id": "C84", "title": "Distance from a point to a line", "statement": "Line2/Ray2/Line3/Ray3::distance(point) is the distance from the point to the nearest point of the (infinite) supporting line.", "quantifier": "all lines and points", "why_tests_cant": "Ranges over an infinite (continuum) input space; a test samples finitely many points.", "anchors": ["libs/mathlib/include/impl/line2.h: Line2::distance", "libs/mathlib/include/impl/line3.h: Line3::distance", "libs/mathlib/include/impl/ray2.h: Ray2::distance", "libs/mathlib/include/impl/ray3.h: Ray3::distance"]}
{"id": "C85", "title": "Triangle containment is the convex hull", "statement": "Tri2::contains(p) holds iff p is a convex combination of the three vertices, whatever their orientation.", "quantifier": "all triangles and points", "why_tests_cant": "Ranges over an infinite (continuum) input space; a test samples finitely many points.", "anchors": ["libs/mathlib/include/impl/tri2.h: Tri2::contains"]}
{"id": "C86", "title": "Line and ray parametrisation", "statement": "line.pointAt(0)/pointAt(1) are start/end, pointAt is affine in t, length, lengthSqr and isNull are consistent with it; ray.pointAt(t) is at distance |t| from the start for unit directions.", "quantifier": "all lines, rays, parameters", "why_tests_cant": "Ranges over an infinite (continuum) input space; a test samples finitely many points.", "anchors": ["libs/mathlib/include/impl/line2.h: Line2::pointAt", "libs/mathlib/include/impl/line3.h: Line3::pointAt", "libs/mathlib/include/impl/ray2.h: Ray2::pointAt", "libs/mathlib/include/impl/ray3.h: Ray3::pointAt"]}
{"id": "C87", "title": "Spline segments interpolate their end data and tangentAt is the derivative", "statement": "Bezier and Hermite segments start and end at their end points with their end tangents, and tangentAt(t) is the derivative of pointAt at t for every t in [0,1]; the static basis functions are the coefficients, and dh* the derivatives of h*; outside [0,1] the assertion fails.", "quantifier": "all segments and all t", "why_tests_cant": "Ranges over an infinite (continuum) input space; a test samples finitely many points. Derivatives are limits.", "anchors": ["libs/mathlib/include/impl/spline3.h: BezierSegment3::pointAt", "libs/mathlib/include/impl/spline3.h: BezierSegment3::tangentAt", "libs/mathlib/include/impl/spline3.h: HermiteSplineSegment3::pointAt"]}
{"id": "C88", "title": "Bezier segments stay in the convex hull of their control points", "statement": "For t in [0,1] pointAt(t) is a convex combination of the four control points.", "quantifier": "all segments, all t in [0,1]", "why_tests_cant": "Ranges over an infinite (continuum) input space; a test samples finitely many points.", "anchors": ["libs/mathlib/include/impl/spline3.h: BezierSegment3::pointAt"]}
{"id": "C89", "title": "Splitting a Bezier segment", "statement": "split(a,start,end) gives start.pointAt(s)=pointAt(a*s) and end.pointAt(s)=pointAt(a+(1-a)*s) for all s in [0,1], when start is neither the object itself nor end (end may be the object).", "quantifier": "all segments, a and s", "why_tests_cant": "Ranges over an infinite (continuum) input space; a test samples finitely many points.", "anchors": ["libs/mathlib/include/impl/spline3.h: BezierSegment3::split"]}
{"id": "C90", "title": "Forward differencing equals direct evaluation", "statement": "After k steps of step d the forward-difference evaluator's current point and tangent are pointAt(k*d) and tangentAt(k*d).", "quantifier": "all segments, all step sizes, all k", "why_tests_cant": "k is unbounded (induction).", "anchors": ["libs/mathlib/include/impl/spline3.h: BezierSegment3FwdDiff"]}
{"id": "C91", "title": "Segment length is the inscribed polygon's length", "statement": "length(n) is the sum of the n chords between pointAt(i/n); it is at least the chord between the end points and at most the control polygon length.", "quantifier": "all segments and all n>=1", "why_tests_cant": "n is unbounded.", "anchors": ["libs/mathlib/include/impl/spline3.h: BezierSegment3::length"]}
{"id": "C92", "title": "Frenet frame is an orthonormal right-handed frame along the tangent", "statement": "When frenetFrameAt succeeds the frame is a rotation matrix with the unit tangent as its Y column.", "quantifier": "all segments and t", "why_tests_cant": "Ranges over an infinite (continuum) input space; a test samples finitely many points.", "anchors": ["libs/mathlib/include/impl/spline3.h: BezierSegment3::frenetFrameAt"]}
{"id": "C93", "title": "Natural spline through n points", "statement": "naturalBezierSpline succeeds for every n>=2 points and gives segments interpolating all points with matching first and second derivatives at interior points and zero second derivative at both ends.", "quantifier": "all n and all points", "why_tests_cant": "n is unbounded.", "anchors": ["libs/mathlib/include/impl/spline3.h: SplineSolver3::naturalBezierSpline"]}
{"id": "C94", "title": "Clamped spline through n points", "statement": "bezierSpline succeeds for every n>=2 points and gives C2 segments interpolating all points with the prescribed first and last control points.", "quantifier": "all n and all points", "why_tests_cant": "n is unbounded.", "anchors": ["libs/mathlib/include/impl/spline3.h: SplineSolver3::bezierSpline"]}
{"id": "C95", "title": "Closed spline through n points", "statement": "closedBezierSpline (n>=2) succeeds and gives a closed C2 curve through all points.", "quantifier": "all n>=2 and all points", "why_tests_cant": "n is unbounded.", "anchors": ["libs/mathlib/include/impl/spline3.h: SplineSolver3::closedBezierSpline"]}
{"id": "C96", "title": "RGB to HSV and back", "statement": "toRGB(toHSV(c)) = c for every colour with non-negative channels.", "quantifier": "all colours", "why_tests_cant": "Ranges over an infinite (continuum) input space; a test samples finitely many points.", "anchors": ["libs/mathlib/include/impl/colorrgb.h: ColorRGB::toHSV", "libs/mathlib/include/impl/colorhsv.h: ColorHSV::toRGB"]}
{"id": "C97", "title": "HSV ranges", "statement": "toHSV of channels in [0,1] gives h in [0,360), s and v in [0,1]; toRGB of s,v in [0,1] and any hue gives channels in [0,1], is 360-periodic in hue, and always produces a defined colour; toHSV(toRGB(c))=c for h in [0,360), s,v in (0,1].", "quantifier": "all colours", "why_tests_cant": "Ranges over an infinite (continuum) input space; a test samples finitely many points.", "anchors": ["libs/mathlib/include/impl/colorrgb.h: ColorRGB::toHSV", "libs/mathlib/include/impl/colorhsv.h: ColorHSV::toRGB"]}
{"id": "C98", "title": "HSV interpolation goes the short way round the hue circle", "statement": "interp(a,b,ratio) for hues in [0,360) has hue in [0,360) obtained by turning from a.h towards b.h by ratio times the shorter arc (at most 180 degrees), with s and v linearly interpolated and end points attained exactly.", "quantifier": "all colours and ratios in [0,1]", "why_tests_cant": "Ranges over an infinite (continuum) input space; a test samples finitely many points.", "anchors": ["libs/mathlib/include/impl/colorhsv.h: ColorHSV::interp"]}
{"id": "C99", "title": "RGB/RGBA arithmetic", "statement": "RGB operators act channelwise; RGBA operators combine colour channels and leave the left operand's alpha unchanged; interpolation hits the ends exactly for ratio 0 and 1 (in any arithmetic) and is a convex combination between; integer constructors map 0..255 to [0,1] monotonically.", "quantifier": "all colours and ratios", "why_tests_cant": "Ranges over an infinite (continuum) input space; a test samples finitely many points.", "anchors": ["libs/mathlib/include/impl/colorrgb.h: ColorRGB", "libs/mathlib/include/impl/colorrgba.h: ColorRGBA"]}
{"id": "C100", "title": "HSV to RGB is defined for every hue under floating point rounding", "statement": "toRGB never reads an uninitialised colour, also when hue reduction is carried out in rounded arithmetic.", "quantifier": "all hues representable in the format", "why_tests_cant": "Failing inputs form a tiny set near 0 from below.", "anchors": ["libs/mathlib/include/impl/colorhsv.h: ColorHSV::toRGB", "libs/mathlib/include/functions.h: fmodPositive"]}
{"id": "C101", "title": "fmodPositive stays below the modulus under rounding", "statement": "fmodPositive(x,y) < y also when the final addition is rounded.", "quantifier": "all representable x and y", "why_tests_cant": "Failing inputs form a tiny set.", "anchors": ["libs/mathlib/include/functions.h: fmodPositive"]}
{"id": "C102", "title": "Growing a centred box keeps the point under rounding", "statement": "after CAABB::add(p) the box contains p also in rounded arithmetic.", "quantifier": "all representable boxes and points", "why_tests_cant": "Depends on rounding of particular operands.", "anchors": ["libs/mathlib/include/impl/caabb2.h: CAABB2::add", "libs/mathlib/include/impl/caabb3.h: CAABB3::add"]}
{"id": "C103", "title": "lerp end points under rounding", "statement": "lerp(from,to,0) is from and lerp(from,to,1) is to also in rounded arithmetic.", "quantifier": "all representable end points", "why_tests_cant": "Depends on rounding of particular operands.", "anchors": ["libs/mathlib/include/interpolation.h: lerp"]}
{"id": "C104", "title": "Finite inputs give finite results", "statement": "normalisation, line distances, interpolation ratios, inverses, quaternion construction and slerp never divide by zero or take an invalid square root or arc function on finite inputs meeting their preconditions.", "quantifier": "all finite inputs", "why_tests_cant": "Exceptional values form measure-zero sets.", "anchors": ["libs/mathlib/include/impl/vec3.h: Vec3::normalize", "libs/mathlib/include/impl/line3.h: Line3::distance", "libs/mathlib/include/interpolation.h: interpolationRatio", "libs/mathlib/include/impl/quat.h: Quat::slerp"]}
{"id": "C105", "title": "Component access by coordinate", "statement": "get/set/operator[] by coordinate, setCoord, moved and the set constants read and write exactly the named component and fail for a coordinate the type does not have.", "quantifier": "all vectors, matrices and coordinates", "why_tests_cant": "Needs every combination of operation and coordinate, including the missing ones.", "anchors": ["libs/mathlib/include/impl/vec2.h: Vec2::get, set", "libs/mathlib/include/impl/vec3.h: Vec3::get, set, move", "libs/mathlib/include/impl/vec4.h: Vec4::get, set", "libs/mathlib/include/impl/mat4.h: Mat4::operator[]"]}
{"id": "C106", "title": "Componentwise vector operations", "statement": "minXyz/maxXyz/mulXyz and the mixed Vec4 operations act on each component separately and minXyz/maxXyz are the lattice operations.", "quantifier": "all vectors", "why_tests_cant": "Infinite domain.", "anchors": ["libs/mathlib/include/impl/vec2.h: minXy, maxXy", "libs/mathlib/include/impl/vec3.h: minXyz, maxXyz", "libs/mathlib/include/impl/vec4.h: Vec4"]}
{"id": "C107", "title": "Vector distance is the Euclidean metric", "statement": "distance and distanceSquared of vectors are the Euclidean distance and its square.", "quantifier": "all pairs of vectors", "why_tests_cant": "Infinite domain.", "anchors": ["libs/mathlib/include/impl/vec2.h: Vec2::distance", "libs/mathlib/include/impl/vec3.h: Vec3::distance", "libs/mathlib/include/impl/vec4.h: Vec4::distance"]}
{"id": "C108", "title": "Equality operators", "statement": "== is equality of all members, != its negation, isNull/isIdentity style tests hold exactly for the value named.", "quantifier": "all values", "why_tests_cant": "A member forgotten in a comparison is only seen on values differing in that member alone.", "anchors": ["libs/mathlib/include/impl/vec4.h: operator==", "libs/mathlib/include/impl/aabb3.h: operator==", "libs/mathlib/include/impl/frustum.h: operator=="]}
{"id": "C109", "title": "Local axes and planes of a transform", "statement": "localAxis(c) is the image of the axis under the matrix and localPlane(c) the image of the coordinate plane.", "quantifier": "all invertible affine matrices", "why_tests_cant": "Only matrices without shear have plane normals equal to the axis.", "anchors": ["libs/mathlib/include/impl/mat34.h: localAxis, localPlane", "libs/mathlib/include/impl/mat4.h: localAxis, localPlane"]}
{"id": "C110", "title": "Conversions between precisions", "statement": "converting between float and double and back gives the same object; converted boxes contain the converted points; converted rays have unit directions; converted matrices have truthful flags.", "quantifier": "all objects, all monotone conversions", "why_tests_cant": "Needs values between representable numbers.", "anchors": ["libs/mathlib/include/impl/vec3.h: Vec3(const Vec3<Other>&)", "libs/mathlib/include/impl/caabb3.h: CAABB3(const CAABB3<Other>&)", "libs/mathlib/include/impl/ray3.h: Ray3(const Ray3<Other>&)", "libs/mathlib/include/impl/mat34.h: Mat34(const Mat34<Other>&)"]}
{"id": "C111", "title": "Moving and scaling balls", "statement": "+ and - translate the point set of a circle or sphere, * and / blow it up about the centre, and the compound operators do the same as the binary ones.", "quantifier": "all balls, vectors and factors", "why_tests_cant": "Negative factors behave differently in the two forms.", "anchors": ["libs/mathlib/include/impl/circle.h: operator+, operator-, operator*, operator/, operator*=", "libs/mathlib/include/impl/sphere.h: operator+, operator-, operator*, operator/, operator*="]}
{"id": "C112", "title": "Interpolation between rotation matrices", "statement": "slerp and slerpMaxAngle of rotation matrices give rotations, hit both ends, never turn further than the limit, and keep the translations of rigid motions at the ends.", "quantifier": "all rotations and rigid motions, all weights and limits", "why_tests_cant": "Infinite domain; the wrong cases need a first rotation different from the identity.", "anchors": ["libs/mathlib/include/impl/mat2.h: Mat2::slerp, slerpMaxAngle", "libs/mathlib/include/impl/mat3.h: Mat3::slerp, slerpMaxAngle", "libs/mathlib/include/impl/mat34.h: Mat34::slerp, slerpMaxAngle"]}
{"id": "C113", "title": "orthonormalise gives the nearest obvious rotation", "statement": "orthonormalise() always gives a rotation, leaves rotations alone and turns a uniformly scaled rotation into the rotation.", "quantifier": "all matrices", "why_tests_cant": "Needs scaled matrices with a turn; pure scalings look right.", "anchors": ["libs/mathlib/include/impl/mat2.h: orthonormalise", "libs/mathlib/include/impl/mat3.h: orthonormalise", "libs/mathlib/include/impl/mat4.h: orthonormalise"]}
{"id": "C114", "title": "Rigid motions of Mat34", "statement": "the constructors of Mat34 turn about the given axis and then move by the given vector; optimize sets the flags by the entries; transpose only concerns the linear part.", "quantifier": "all axes, angles, vectors", "why_tests_cant": "Infinite domain.", "anchors": ["libs/mathlib/include/impl/mat34.h: set, from, optimize, transpose"]}
{"id": "C115", "title": "squad hits its ends", "statement": "Quat::set(from,to,a,b,w) is from at 0 and to at 1 and a unit quaternion in between.", "quantifier": "all unit quaternions", "why_tests_cant": "Fails only for opposite quaternions.", "anchors": ["libs/mathlib/include/impl/quat.h: Quat::set(from,to,a,b,weight)"]}
{"id": "C116", "title": "Circular interpolation of plane vectors", "statement": "Vec2::clerp interpolates angle and length evenly and hits both ends; clerpMaxAngle does so up to the limit with a length between those of the ends.", "quantifier": "all plane vectors, ratios, limits", "why_tests_cant": "Needs a first vector off the x axis.", "anchors": ["libs/mathlib/include/impl/vec2.h: Vec2::clerp, clerpMaxAngle"]}
{"id": "C117", "title": "Easing through float temporaries", "statement": "With Real = double the quartic and quintic Out/InOut modes compute in float temporaries; the ratio stays in [0,1], is monotone, differs from the exact one by at most (1+eps)^9-1, and is strictly positive for positive ratios.", "quantifier": "all ratios, all modes, all monotone narrowings", "why_tests_cant": "The loss of precision shows only at ratios far below those a test uses.", "anchors": ["libs/mathlib/include/interpolation.h:75-93: interpolationRatio"]}
{"id": "C118", "title": "Entries written through public members", "statement": "After entries of a matrix are changed through the public columns or data(), products and inverse follow the new entries.", "quantifier": "all matrices, all written columns", "why_tests_cant": "Fails only for matrices whose cached flags said identity or orthonormal before the write.", "anchors": ["libs/mathlib/include/mat3.h:125-128", "libs/mathlib/include/impl/mat3.h: operator*=, invert, optimize, data"]}
{"id": "C119", "title": "Lengths, distances and normalisation are accurate in floating point", "statement": "length, lengthSqr, distance, distanceSqr and every coordinate of normalized/normalize have a relative error of at most 2 to 5 rounding units; a normalised vector has the asked length up to that; the computed length is 0 only for the null vector.", "quantifier": "all vectors and quaternions, all roundings with relative error u < 1 (no underflow or overflow)", "why_tests_cant": "Ranges over all real inputs and all rounding functions of a given relative error; a test sees a few floats.", "anchors": ["libs/mathlib/include/impl/vec2.h: length, normalize, normalized", "libs/mathlib/include/impl/vec3.h: length, normalize, normalized", "libs/mathlib/include/impl/vec4.h: length", "libs/mathlib/include/impl/quat.h: normalize", "libs/mathlib/include/functions.h: distance, distanceSqr"]}
{"id": "C120", "title": "Forward error of products", "statement": "dot, cross, matrix times vector, quaternion product, determinants and plane distance differ from the exact value by at most gamma_n times the sum of the absolute values of the terms; the product of two unit quaternions has length 1 up to 2 gamma_4.", "quantifier": "all inputs, all roundings with relative error u < 1", "why_tests_cant": "Ranges over all real inputs and all rounding functions of a given relative error; a test sees a few floats.", "anchors": ["libs/mathlib/include/impl/vec2.h, vec3.h, vec4.h: operator*", "libs/mathlib/include/impl/vec3.h: operator%", "libs/mathlib/include/impl/mat2.h, mat3.h, mat34.h, mat4.h: operator*(Vec)", "libs/mathlib/include/impl/quat.h: operator*", "libs/mathlib/include/impl/plane.h: distance"]}
{"id": "C121", "title": "Geometric tests in floating point", "statement": "contains/intersects of balls and the side of a plane are right unless the exact configuration is within a few rounding units of the border; no point of a triangle is rejected by Tri2::contains.", "quantifier": "all inputs, all roundings with relative error u < 1 (triangles: all monotone roundings)", "why_tests_cant": "The wrong answers need particular large coordinates.", "anchors": ["libs/mathlib/include/impl/circle.h: contains, intersects", "libs/mathlib/include/impl/sphere.h: contains, intersects", "libs/mathlib/include/impl/plane.h: distance", "libs/mathlib/include/impl/tri2.h: contains"]}
{"id": "C122", "title": "Identities that survive rounding", "statement": "dot is symmetric, cross antisymmetric, distance and intersects symmetric, flipping a plane negates the distance, Tri2::contains does not depend on the first vertex, lerp is monotone in the ratio, and scaling a vector by a power of two scales its computed length and leaves normalized unchanged, exactly.", "quantifier": "all inputs and all (odd, monotone) roundings; scaling for round to nearest even of every precision", "why_tests_cant": "Ranges over all real inputs and all rounding functions of a given relative error; a test sees a few floats.", "anchors": ["libs/mathlib/include/impl/vec3.h", "libs/mathlib/include/impl/plane.h: flip, flipped, distance", "libs/mathlib/include/impl/tri2.h: contains", "libs/mathlib/include/impl/aabb2.h, aabb3.h, caabb2.h, caabb3.h, circle.h, sphere.h: intersects", "libs/mathlib/include/interpolation.h: lerp"]}
{"id": "C123", "title": "Polar angles in the plane", "statement": "Vec2(angle) is the unit vector of that angle; angle() of a vector inverts it modulo full turns and lies in (-pi, pi]; setAngle keeps the length; rotating adds angles.", "quantifier": "all angles, all vectors that are not null", "why_tests_cant": "Ranges over all real angles; the sign and branch conventions of atan2 matter at the ends.", "anchors": ["libs/mathlib/include/impl/vec2.h: Vec2(angle), fromAngle, setAngle, angle, rotate, rotated"]}
{"id": "C124", "title": "Normalisation works whatever the size of the vector", "statement": "In float and double the length of a vector that is not null is not 0, and normalising it gives a vector of length 1 up to rounding.", "quantifier": "all vectors and quaternions of finite IEEE numbers, every precision and exponent range", "why_tests_cant": "Fails only for magnitudes near the square root of the largest or smallest number.", "anchors": ["libs/mathlib/include/impl/vec2.h: length, normalize, normalized", "libs/mathlib/include/impl/vec3.h: length, normalize, normalized", "libs/mathlib/include/impl/quat.h: normalize"]}
{"id": "C125", "title": "Ball and triangle tests work whatever the size of the coordinates", "statement": "In float and double, Sphere.contains and Sphere.intersects are right for points and balls far from touching (at most half, or more than twice, the radius); Tri2.contains accepts the vertices of a triangle and rejects points well outside.", "quantifier": "all spheres, triangles and points with finite IEEE coordinates, every precision and exponent range", "why_tests_cant": "Fails only for coordinates near the square root of the largest or smallest number.", "anchors": ["libs/mathlib/include/sphere.h: contains, intersects", "libs/mathlib/include/impl/tri2.h: contains", "libs/mathlib/include/impl/vec2.h: crossProduct"]}
{"id": "C126", "title": "A matrix is inverted to zero exactly when it is singular", "statement": "In floating point, inversed() of a 2x2 or 3x3 matrix returns the zero matrix if and only if the matrix is singular, and otherwise the inverse up to rounding.", "quantifier": "all matrices of representable numbers, every rounding with a relative error bound", "why_tests_cant": "Needs matrices whose determinant suffers cancellation.", "anchors": ["libs/mathlib/include/impl/mat2.h: inversed, determinant, adjoint", "libs/mathlib/include/impl/mat3.h: inversed, invert, determinant, adjoint"]}
{"id": "C127", "title": "Matrices are inverted whatever the size of their entries", "statement": "In float and double, the multiple 2^k of the identity is inverted to the multiple 2^-k whenever both are well inside the range.", "quantifier": "every k, every precision and exponent range; for general matrices entries that are multiples of 2^g of size at most 2^h", "why_tests_cant": "The determinant overflows or underflows long before the inverse does.", "anchors": ["libs/mathlib/include/impl/mat2.h: inversed, determinant", "libs/mathlib/include/impl/mat3.h: inversed, determinant"]}
{"id": "C128", "title": "The solvers release their memory", "statement": "The tridiagonal, cyclic, Gauss-Jordan and spline solvers never leak, never use or delete memory that is not allocated, and write to nothing but their output arrays, also when new throws std::bad_alloc.", "quantifier": "all heaps, all pointers to live arrays (equal or not), all sizes, every pattern of failing allocations", "why_tests_cant": "Needs allocation failures at every point and a record of all blocks.", "anchors": ["libs/mathlib/include/impl/linearequations.h: TriDiagonal::solve, solveCyclic, GaussJordan::solve", "libs/mathlib/include/impl/spline3.h: naturalBezierSpline, bezierSpline, closedBezierSpline"]}
{"id": "C129", "title": "The tridiagonal solvers work in place", "statement": "The result array of TriDiagonal::solve and solveCyclic may be the array of the right-hand side or of the diagonal: the system in memory at the time of the call is solved and only the result array changes.", "quantifier": "all systems, all sizes, all heaps and pointers with the result array different from the two off-diagonals", "why_tests_cant": "Tests pass separate arrays; the failure with shared off-diagonals returns true.", "anchors": ["libs/mathlib/include/impl/linearequations.h: TriDiagonal::solve, solveCyclic"]}
{"id": "C130", "title": "The open splines may overwrite the points", "statement": "naturalBezierSpline and bezierSpline give the spline through the points in memory at the time of the call even if the array of the second inner control points is the array of points.", "quantifier": "all numbers of points and all points, all heaps with p2 different from p1 and p3", "why_tests_cant": "Tests pass separate arrays.", "anchors": ["libs/mathlib/include/impl/spline3.h: naturalBezierSpline, bezierSpline"]}
{"id": "C131", "title": "Interpolating in place", "statement": "q.slerp(q, to, w), v.clerp(v, to, t), v.slerp(v, to, t), c.interp(c, to, t) and the like give the result of the same call on copies, whichever of the arguments are the object itself.", "quantifier": "all objects, all arguments (other objects or the object itself), all weights, every scalar type", "why_tests_cant": "The functions assign component by component while reading their reference arguments; tests use a separate result object.", "anchors": ["libs/mathlib/include/impl/quat.h: lerp, slerp, slerpNoInvert, slerpMaxAngle, set", "libs/mathlib/include/impl/vec2.h: clerp, clerpMaxAngle", "libs/mathlib/include/impl/vec3.h: slerp, slerpMaxAngle", "libs/mathlib/include/impl/colorrgb.h: interp", "libs/mathlib/include/impl/colorrgba.h: interp", "libs/mathlib/include/impl/colorhsv.h: interp"]}
{"id": "C132", "title": "An object's own parts as arguments", "statement": "box -= box.inf, box.set(box.sup, box.inf), m.set(m.y, m.x, m.z), m.scale(m.x), b.set(b.p4(), b.p3(), b.p2(), b.p1()) and the like do what the same call does with copies of the arguments.", "quantifier": "all boxes, matrices and segments, all arguments that are other objects or members of the object", "why_tests_cant": "Tests pass separate vectors; the wrong outcome is a plausible box or matrix.", "anchors": ["libs/mathlib/include/impl/aabb2.h: operator+=, operator-=, set, add", "libs/mathlib/include/impl/aabb3.h: operator+=, operator-=, set, add", "libs/mathlib/include/impl/mat2.h: set, scale", "libs/mathlib/include/impl/mat3.h: set, scale", "libs/mathlib/include/impl/mat34.h: set, scale", "libs/mathlib/include/impl/mat4.h: set", "libs/mathlib/include/impl/spline3.h: BezierSegment3::set, HermiteSplineSegment3::set"]}
{"id": "C133", "title": "The test matchers compare every number", "statement": "WithinAbs(target, margin) accepts an object exactly if each of its numbers is within the margin of the target's: no number is left out or compared with the wrong one, no NaN is accepted, finite numbers within the margin are always accepted and numbers farther apart than the margin and one rounding error never; negative or NaN margins are rejected.", "quantifier": "all objects of the 23 types, all margins, float and double with all their special values", "why_tests_cant": "The matchers judge the tests; a coordinate they skip makes every test of that coordinate pass.", "anchors": ["libs/testlib/include/impl/catch_matchers.h: marginCheck, Matchers::WithinAbs"]}
{"id": "C134", "title": "Bounding boxes and special numbers", "statement": "A corner box built from an array of float points contains every point that has no NaN, its bounds are the least and greatest coordinates including infinities, add keeps what was contained, union contains both boxes, and two boxes intersect exactly if they share a point.", "quantifier": "all point arrays, all boxes, all IEEE formats, NaN and infinities included", "why_tests_cant": "NaN makes all comparisons false, so boxes silently freeze; tests use ordinary coordinates.", "anchors": ["libs/mathlib/include/impl/aabb2.h: set, add, fromUnion, contains, intersects", "libs/mathlib/include/impl/aabb3.h: set, add, fromUnion, contains, intersects"]}
{"id": "C135", "title": "A box contains its centre in floating point", "statement": "For a box with finite corners in order, contains(center()) holds in IEEE arithmetic.", "quantifier": "all boxes with finite corners, all IEEE formats, subnormal numbers included", "why_tests_cant": "The rounded midpoint must never cross a corner, for each of the 2^64 pairs of numbers per axis.", "anchors": ["libs/mathlib/include/impl/aabb2.h: center, contains", "libs/mathlib/include/impl/aabb3.h: center, contains"]}
{"id": "C136", "title": "Clamping, min, max and abs with special numbers", "statement": "clippedBetween lands between its bounds, min and max return one of their arguments and bound both, abs clears the sign; for infinities, signed zeros and NaN as well.", "quantifier": "all IEEE numbers, all formats", "why_tests_cant": "Special values are absent from the tests.", "anchors": ["libs/mathlib/include/functions.h: abs, min, max, clippedBetween"]}
{"id": "C137", "title": "The constants of pi are rounded correctly", "statement": "PI, PI_TIMES_2, PI_OVER_2, ..., PI_OVER_16, PI_OVER_3 and PI_OVER_6 are the float, and the double, nearest to the number they name.", "quantifier": "every constant, float and double", "why_tests_cant": "A test compares with the same library constant or with a margin; the last bit of a literal is not visible in it.", "anchors": ["libs/mathlib/include/impl/constants.h: PI, PI_TIMES_2, PI_OVER_2, PI_OVER_4, PI_OVER_8, PI_OVER_16, PI_OVER_3, PI_OVER_6"]}
{"id": "C138", "title": "The limit constants bound the numbers", "statement": "MIN_VALUE is the least positive value, MAX_VALUE the greatest and MAX_NEG_VALUE the least finite value of the type.", "quantifier": "every number of every IEEE format", "why_tests_cant": "Needs all finite numbers including the subnormal ones.", "anchors": ["libs/mathlib/include/impl/constants.h: MIN_VALUE, MAX_VALUE, MAX_NEG_VALUE"]}
{"id": "C139", "title": "A box set from its own corners", "statement": "box.set(count, points), with or without a stride, is the tightest box around the points as they were before the call, even if some of them are corners of the box itself, as in boxes[0].set(2 * n, &boxes[0].inf).", "quantifier": "all boxes, all non-empty lists of points that are other vectors or corners of the box", "why_tests_cant": "Tests pass separate arrays; the wrong outcome is a plausible, merely too small box.", "anchors": ["libs/mathlib/include/impl/aabb2.h: set(count, points), set(count, points, stride)", "libs/mathlib/include/impl/aabb3.h: set(count, points), set(count, points, stride)"]}
{"id": "C140", "title": "The tridiagonal solver is backward stable", "statement": "In floating point, if TriDiagonal::solve reports success then the numbers it has computed are the exact solution of a system with the same right-hand side whose coefficients differ from the given ones by a few rounding errors only.", "quantifier": "all sizes, all representable coefficients and right-hand sides, any precision of the floating-point format (range ignored)", "why_tests_cant": "Tests use small well-conditioned systems and compare against a tolerance; a wrong solution reported as success needs a small pivot.", "anchors": ["libs/mathlib/include/impl/linearequations.h: TriDiagonal::solve (Real and Vec3 right-hand sides)"]}
{"id": "C141", "title": "Spline solvers are accurate in floating point for any number of knots", "statement": "In floating point naturalBezierSpline and bezierSpline report success for all knots, and every coordinate of every control point returned differs from the exact spline through the same knots by at most 128 rounding errors (of the largest coordinate of the knots), however many knots there are.", "quantifier": "any number of knots (n >= 2), all knots, any precision of at least 12 bits (range ignored)", "why_tests_cant": "Tests try a handful of knots and compare with a tolerance; that errors do not pile up with the number of knots needs all n.", "anchors": ["libs/mathlib/include/impl/spline3.h: SplineSolver3::naturalBezierSpline", "libs/mathlib/include/impl/spline3.h: SplineSolver3::bezierSpline"]}
{"id": "C142", "title": "Points of curves in floating point stay in the box of the control points and near the curve", "statement": "In floating point BezierSegment3::pointAt stays within the box around the control points, like the curve itself, starts and ends exactly at the end points, and points and tangents of Bezier and Hermite segments differ from the exact ones by a few dozen rounding errors.", "quantifier": "all segments, all t in [0,1], any precision of at least 12 bits (range ignored)", "why_tests_cant": "The coefficients cancel only for t very close to 1: of the floats in [0,1] few give a negative coefficient, and none that a test would choose.", "anchors": ["libs/mathlib/include/impl/spline3.h: BezierSegment3::pointAt", "libs/mathlib/include/impl/spline3.h: BezierSegment3::tangentAt", "libs/mathlib/include/impl/spline3.h: HermiteSplineSegment3::pointAt", "libs/mathlib/include/impl/spline3.h: HermiteSplineSegment3::tangentAt"]}
{"id": "C143", "title": "Forward differences drift slowly in floating point", "statement": "Walking along a Bezier segment by BezierSegment3FwdDiff in floating point one stays near the curve and its tangent, whatever the step size.", "quantifier": "all segments, step sizes, numbers of steps, any precision of at least 12 bits (range ignored)", "why_tests_cant": "Tests take a few steps of a size such as 1/10; drift shows with many small ones.", "anchors": ["libs/mathlib/include/impl/spline3.h: BezierSegment3FwdDiff::BezierSegment3FwdDiff", "libs/mathlib/include/impl/spline3.h: BezierSegment3FwdDiff::stepForward"]}
{"id": "C144", "title": "Many small rotations add up", "statement": "Turning a Mat3, Mat34 or Mat4 n times by an angle about an axis is turning it once by n times the angle.", "quantifier": "all axes, angles, numbers of turns, matrices whose identity flag is true only of the identity; exact arithmetic", "why_tests_cant": "Tests turn once, by angles far above the tolerance of the identity flag.", "anchors": ["libs/mathlib/include/impl/mat3.h: Mat3::rotate", "libs/mathlib/include/impl/mat3.h: Mat3::rotatePre", "libs/mathlib/include/impl/mat34.h: Mat34::transform", "libs/mathlib/include/impl/mat4.h: Mat4::transform", "libs/mathlib/include/impl/mat3.h: Mat3::optimize", "libs/mathlib/include/impl/mat2.h: Mat2::rotate"]}
{"id": "C145", "title": "Chains of quaternion products stay near unit length in floating point", "statement": "However many unit quaternions are multiplied in floating point, the product stays a unit quaternion up to rounding.", "quantifier": "all chains of products of any length, any precision (range ignored)", "why_tests_cant": "Tests multiply two or three quaternions; drift shows after many products.", "anchors": ["libs/mathlib/include/impl/quat.h: Quat::operator*"]}
{"id": "C146", "title": "data() is an array of the components", "statement": "For every class with data(), data()[0], data()[1], ... are its components in the order of declaration (matrices column by column, the translation of a Mat34 last), inside the object; writing one of them changes that component and nothing else.", "quantifier": "all objects, all components, all written values, all scalar types with any size and alignment", "why_tests_cant": "Tests read data() of float objects only; other scalar sizes give other layouts, and nothing is written.", "anchors": ["libs/mathlib/include/mat34.h: class Mat34", "libs/mathlib/include/mat3.h: class Mat3", "libs/mathlib/include/mat2.h: class Mat2", "libs/mathlib/include/mat4.h: class Mat4", "libs/mathlib/include/impl/mat34.h: Mat34::data", "libs/mathlib/include/impl/mat3.h: Mat3::data", "libs/mathlib/include/impl/mat4.h: Mat4::data", "libs/mathlib/include/impl/mat2.h: Mat2::data", "libs/mathlib/include/impl/vec3.h: Vec3::data", "libs/mathlib/include/impl/plane.h: Plane::data", "libs/mathlib/include/impl/sphere.h: Sphere::data"]}
{"id": "C147", "title": "Unit boxes and balls", "statement": "The constants One of the boxes have side 1 around the origin in both representations and convert into each other; One of circle and sphere contain exactly the points at most 1 from the origin, so a ball scaled from One fits the unit box exactly up to the factor 1/2.", "quantifier": "all points, all non-negative factors", "why_tests_cant": "Tests compare a constant with literals; that representations and containment agree is about all points.", "anchors": ["libs/mathlib/include/impl/aabb2.h: AABB2::One", "libs/mathlib/include/impl/aabb3.h: AABB3::One", "libs/mathlib/include/impl/caabb2.h: CAABB2::One", "libs/mathlib/include/impl/caabb3.h: CAABB3::One", "libs/mathlib/include/impl/circle.h: Circle::One", "libs/mathlib/include/impl/sphere.h: Sphere::One", "libs/mathlib/include/impl/aabb3.h: AABB3::contains"]}
{"id": "C148", "title": "lerp between finite ends is finite", "statement": "For finite floating point ends and a ratio in [0,1], lerp gives a finite number; it starts at the first end and grows with the ratio if the second end is larger.", "quantifier": "all finite numbers of any binary IEEE format, all ratios in [0,1]", "why_tests_cant": "Overflow of an intermediate result happens only near the largest numbers, and the tie that overflows the last addition is a single pattern of bits.", "anchors": ["libs/mathlib/include/interpolation.h: lerp"]}
{"id": "C149", "title": "The solvers stay inside their arrays whatever the numbers are", "statement": "Given arrays of the documented sizes with every element initialised, the tridiagonal, cyclic and Gauss-Jordan solvers and the three spline solvers never read or write outside an array, never read something that was not written and never fail an assertion, whatever values the elements have (infinities and NaN included); when they report success the results are fully written.", "quantifier": "all sizes, all contents, all results of the arithmetic and of the comparisons", "why_tests_cant": "The pivot search compares numbers; with NaN every comparison is false and paths are taken that no sensible input reaches.", "anchors": ["libs/mathlib/include/impl/linearequations.h:3-247", "libs/mathlib/include/impl/spline3.h:471-649"]}
{"id": "C150", "title": "Ray/box intersection in floating point is right up to rounding", "statement": "For a ray or segment and a box, the interval returned by intersects(t1, t2, ...) agrees with the exact one up to the relative rounding error of three (ray) or four (segment) operations at each end, and a miss is only reported when the exact interval is empty or shorter than that error.", "quantifier": "all boxes, rays and segments in two and three dimensions, all rounding functions with bounded relative error; all IEEE formats with bounds on the exponents", "why_tests_cant": "Grazing rays, rays in a face and nearly parallel rays are where rounding decides; no finite set of rays covers them.", "anchors": ["libs/mathlib/include/impl/aabb2.h: AABB2::intersects(ray), AABB2::intersects(line)", "libs/mathlib/include/impl/aabb3.h: AABB3::intersects(ray), AABB3::intersects(line)"]}
{"id": "C151", "title": "A query about NaN is answered with no", "statement": "contains, hits and intersects of boxes, balls, planes, triangles and frusta are false as soon as one of the numbers involved is a NaN.", "quantifier": "all shapes, points, rays and lines with a NaN, all IEEE formats", "why_tests_cant": "A comparison with a NaN is false whichever way it is written, so the answer depends on whether the code asks for inside or for outside; nobody writes test vectors with one NaN in each position.", "anchors": ["libs/mathlib/include/impl/frustum.h:83-135", "libs/mathlib/include/impl/sphere.h:241-341", "libs/mathlib/include/impl/circle.h:237-337", "libs/mathlib/include/impl/plane.h:184-350", "libs/mathlib/include/impl/tri2.h:40-49", "libs/mathlib/include/impl/aabb3.h:381-727", "libs/mathlib/include/impl/aabb2.h:370-617", "libs/mathlib/include/impl/caabb2.h:344-358", "libs/mathlib/include/impl/caabb3.h:359-383"]}
{"id": "C152", "title": "The bounding ball of points contains them in floating point", "statement": "Sphere::set and Circle::set of finite points succeed and the resulting ball contains every one of the points according to contains, whatever is rounded and even if squares overflow. The exact distance of a point from the returned centre exceeds the returned radius by at most four (three in the plane) relative rounding errors, and some point is as close to the boundary as that.", "quantifier": "all counts, strides and finite points, all IEEE formats; all rounding functions with bounded relative error", "why_tests_cant": "A ball that misses one of its own points by one rounding step needs particular points of which the outermost is rounded the wrong way; random points practically never show it.", "anchors": ["libs/mathlib/include/impl/sphere.h:39-123", "libs/mathlib/include/impl/circle.h:39-119", "libs/mathlib/include/impl/sphere.h:241-252", "libs/mathlib/include/impl/circle.h:237-248"]}
{"id": "C153", "title": "Rotations built in floating point are rotations up to rounding", "statement": "A matrix built from a non-null axis and an angle has entries within 33 units of rounding of those of the exact rotation, turns vectors accordingly, and is marked as orthonormal, so that it is inverted by transposition. The quaternion for an axis and an angle has a relative error of six units per coordinate, and the matrix made from it agrees with the direct one up to rounding.", "quantifier": "all non-null axes of any length, all angles, all rounding functions with relative error at most 2^-12 (2^-20 for the flags); binary formats for the quaternions", "why_tests_cant": "The error depends on axis and angle together; whether the orthonormal flag is set decides which inversion runs, and a flag lost for one unlucky axis is not found by sampling.", "anchors": ["libs/mathlib/include/impl/mat3.h:69-93", "libs/mathlib/include/impl/mat3.h:149-223", "libs/mathlib/include/impl/mat3.h:629-657", "libs/mathlib/include/impl/mat4.h:182-207", "libs/mathlib/include/impl/mat34.h:89-95", "libs/mathlib/include/impl/quat.h:123-138", "libs/mathlib/include/impl/mat2.h:212-224"]}
{"id": "C154", "title": "Easing in floating point stays monotone and in range", "statement": "In floating point the interpolation ratio stays in [0,1] and does not decrease when t grows, for every mode for which this holds in exact arithmetic; it differs from the exact ratio by a few units of rounding.", "quantifier": "all numbers t, all precisions from 4 bits on (12 for the errors), round to nearest even, correctly rounded library functions", "why_tests_cant": "An overshoot of one unit near t = 1 or a step back between neighbouring arguments shows only for particular bit patterns; tests compare a handful of arguments with a tolerance.", "anchors": ["libs/mathlib/include/interpolation.h:38-124"]}
{"id": "C155", "title": "RGB to HSV and back in floating point", "statement": "In floating point, toRGB(toHSV(c)) is c up to 30 units of rounding of its largest channel, for every colour with non-negative channels; the largest channel and a zero channel keep their value, greys come back exactly, and colours given by bytes come back nearest to the same bytes.", "quantifier": "all colours, all precisions from 12 bits on (14 for bytes), round to nearest even", "why_tests_cant": "Near the borders of the six sectors a rounded hue falls into the neighbouring sector, where another formula is used; 2^72 float colours cannot be tried.", "anchors": ["libs/mathlib/include/impl/colorrgb.h: ColorRGB::toHSV", "libs/mathlib/include/impl/colorhsv.h: ColorHSV::toRGB"]}
{"id": "C156", "title": "Quaternions from matrices and orthonormalise in floating point", "statement": "In floating point a quaternion made from a matrix near a rotation is near a unit quaternion of that rotation, whichever of the four branches is taken; a unit quaternion survives the trip to a matrix and back up to its sign and rounding; and orthonormalise turns a drifted matrix into one that is a rotation up to rounding, however large the drift was within 1/50, no further from the original rotation than a multiple of the drift.", "quantifier": "all matrices within 1/50 of a rotation, all nearly unit quaternions, all precisions from 12 bits on, round to nearest even", "why_tests_cant": "The branch is chosen by comparing rounded numbers, so near the borders another branch than the exact one is taken, and the result divides by a root that is small in the wrong branch; tests use a few rotations about the axes.", "anchors": ["libs/mathlib/include/impl/quat.h:45-82", "libs/mathlib/include/impl/quat.h:300-314", "libs/mathlib/include/impl/mat3.h:620-627"]}
{"id": "C157", "title": "Turning for ever in floating point", "statement": "An orientation matrix that is multiplied by a rotation at every step, from either side, and repaired with orthonormalise stays a rotation up to a fixed number of units of rounding however many steps are made, is marked orthonormal, and differs from the exact product of the rotations by at most a constant number of units per step.", "quantifier": "all finite sequences of turns by matrices that are rotations up to 80 units, all precisions from 20 bits on, round to nearest even", "why_tests_cant": "Sequences of operations are unbounded; drift shows after millions of steps, and small turns that are dropped show only when they are added up.", "anchors": ["libs/mathlib/include/impl/mat3.h:1063-1089", "libs/mathlib/include/impl/mat3.h:620-627", "libs/mathlib/include/impl/mat3.h:629-657"]}
{"id": "C158", "title": "Interpolating quaternions in floating point", "statement": "slerp of two quaternions that are unit quaternions up to 8 units of rounding, at a weight in [0, 1], raises no assertion, yields no NaN, and comes within 5100 units of the point of the arc at that weight between the one and the nearer of the other and its negative, or, for quaternions with a dot product of about 0.95 or more, within 97 units of the normalised point of the chord; slerpNoInvert does the same along the arc to the quaternion given unless the two are nearly opposite; lerp is off by 90 units over the length of the chord vector.", "quantifier": "all pairs of quaternions near unit quaternions, all weights in [0, 1], all roundings with a relative error of at most 2^-20", "why_tests_cant": "The arc formula divides by the sine of an angle that is itself the arc cosine of a rounded dot product; samples do not show that the error stays bounded for all angles.", "anchors": ["libs/mathlib/include/impl/quat.h:174-183", "libs/mathlib/include/impl/quat.h:185-223", "libs/mathlib/include/impl/quat.h:239-265"]}
{"id": "C159", "title": "How evenly slerp turns", "statement": "slerp at the weight w turns by the fraction w of the angle between the two quaternions (the second negated if that is nearer).  Where the dot product is 0.95 or more, straight interpolation is used instead; the result is then within 1/1500 of the point of the arc, and exact at the ends and half way.", "quantifier": "all pairs of unit quaternions and all weights in [0, 1], in exact arithmetic and in floating point with a relative error of at most 2^-20", "why_tests_cant": "The deviation of the shortcut is largest at particular weights and angles; a test compares a few with a tolerance that it was tuned to.", "anchors": ["libs/mathlib/include/impl/quat.h:174-183", "libs/mathlib/include/impl/quat.h:185-223"]}
{"id": "C160", "title": "Gauss-Jordan elimination in floating point", "statement": "With rounded arithmetic GaussJordan::solve reports false exactly for singular matrices.  For a matrix dominated by its diagonal it succeeds, the matrix is replaced by the identity, and each column of the solution is off by at most 60 n k units in the last place of its largest entry, k being the largest ratio of a row's sum of magnitudes to the excess of its diagonal entry.", "quantifier": "all sizes n, all numbers of right-hand sides, all real matrices dominated by the diagonal and all right-hand sides, any precision p with 150 n k 2^-p <= 1, for float and double", "why_tests_cant": "The error of an elimination grows from step to step; tests use small integer systems in which every operation is exact.", "anchors": ["libs/mathlib/include/impl/linearequations.h:129-247"]}
{"id": "C161", "title": "The closed spline solver in floating point", "statement": "With rounded arithmetic closedBezierSpline succeeds for three knots or more (up to 2^p/450 of them), and every control point it returns is close to that of the unique smooth closed curve through the knots: within 550 n units of the largest coordinate, the very last one within 2750 n.", "quantifier": "all n from 3 to 2^p/450, all knots, every precision p >= 12, for float and double", "why_tests_cant": "Tests compare a single closed curve with stored numbers; the accuracy for long curves and other knots is not observed.", "anchors": ["libs/mathlib/include/impl/spline3.h:602-649", "libs/mathlib/include/impl/linearequations.h:129-259"]}
{"id": "C162", "title": "Cyclic tridiagonal systems in floating point", "statement": "With rounded arithmetic, if TriDiagonal::solveCyclic reports success for an invertible matrix then its results are numbers close to the solution.  For a matrix dominated by its diagonal it succeeds, and the error is at most 1000 k^4 units in the last place of the largest component, 1000 k^2 if the product of the corners has the sign of the product of the first and last diagonal entry, k being the largest ratio of a row's sum of magnitudes to the excess of its diagonal entry.", "quantifier": "all sizes n > 2, all dominant cyclic tridiagonal matrices with representable entries, all right-hand sides, every precision p >= 12 with 320 k^3 2^-p <= 1", "why_tests_cant": "The correction by Sherman and Morrison divides by a number that may be small or zero after rounding; tests use one small system in which it is not.", "anchors": ["libs/mathlib/include/impl/linearequations.h:71-119"]}
{"id": "C163", "title": "Inverting 4x4 matrices and affine maps in floating point", "statement": "With rounded arithmetic, Mat4::invert and Mat4::inversed return zero for singular matrices only, and otherwise the inverse up to about seven roundings and the relative error of the determinant; for matrices marked as orthonormal, of Mat4 as well as Mat34, the linear part is transposed exactly and the translation is inverted with three roundings; other affine maps are inverted with the errors of the 3x3 inverse.", "quantifier": "all 4x4 matrices and all affine maps of numbers, every rounding with a relative error bound", "why_tests_cant": "Needs matrices whose determinant suffers cancellation; tests compare with a tolerance for a few matrices.", "anchors": ["libs/mathlib/include/impl/mat4.h:652-718", "libs/mathlib/include/impl/mat4.h:951-1033", "libs/mathlib/include/impl/mat34.h:425-443"]}
{"id": "C164", "title": "Points computed on planes in floating point", "statement": "With rounded arithmetic, the point that Plane::hits or Plane::intersects reports for a ray or a segment lies on the plane and on the ray or segment up to a few roundings, however small the angle between them, and the parameter reported for a segment is in [0, 1]; hits are reported and not reported correctly except within the error of the distance; projections and planes through a point are right up to rounding; where three planes meet, a point is reported only if they have exactly one common point, and is near it.", "quantifier": "all planes, segments, rays and points of numbers, every rounding with relative error at most 2^-12 (2^-24 for three planes)", "why_tests_cant": "Needs segments that graze the plane, where the quotient of the distances has no correct digit; tests use segments across the plane.", "anchors": ["libs/mathlib/include/impl/plane.h:87-95", "libs/mathlib/include/impl/plane.h:191-334", "libs/mathlib/include/impl/plane.h:374-393"]}
{"id": "C165", "title": "Balls and segments in floating point", "statement": "With rounded arithmetic, the hit that Sphere::intersects or Circle::intersects reports for a segment has a parameter in [0, 1] and lies on the segment up to rounding; the squared distance of that point of the segment from the centre differs from the squared radius by at most 70u times the sum of the squared radius and the squared distance of the start from the centre, and the point is where the segment enters; a hit is reported if the start is outside and a point of the segment inside by more than that, none if the start is inside by more than that.", "quantifier": "all balls and segments of numbers, every rounding with relative error u at most 2^-12", "why_tests_cant": "The discriminant cancels for distant starts and grazing segments: in float a segment passing the unit sphere at distance 3/2 is reported to hit it.", "anchors": ["libs/mathlib/include/impl/sphere.h:271-341", "libs/mathlib/include/impl/circle.h:249-337"]}
{"id": "C166", "title": "Gauss-Jordan elimination and closed splines on the heap", "statement": "On a heap where every array is one of its blocks, GaussJordan::solve on a matrix and a right-hand side (of numbers or of vectors) in different blocks returns false exactly if the matrix is singular and otherwise replaces the right-hand side by the solution of the system that was in memory at the time of the call; it changes no other block and leaves none of its own. closedBezierSpline on the heap gives the closed spline, also if the second inner control points replace the points.", "quantifier": "all heaps, sizes and contents, exact arithmetic, no allocation failing", "why_tests_cant": "Aliasing, reading work arrays before they are set, and blocks left behind depend on the whole history of the memory; tests use separate arrays.", "anchors": ["libs/mathlib/include/impl/linearequations.h:96-259", "libs/mathlib/include/impl/spline3.h:602-649"]}
{"id": "C167", "title": "The distance of a point from a line in floating point", "statement": "With rounded arithmetic, Line2::distance and the distance from a ray made by Ray2::from have an error of at most nine (seven) rounding units of the distance of the point from the start. Line3::distance and Ray3::distance have an error of at most 33 (31, for Ray3::from 41) units of it if the point is further than 22 (20, 30) units of it from the line; in any case the result is between 0 and that distance, up to rounding.", "quantifier": "all lines, rays and points, every rounding with relative error u (in space u at most 2^-12)", "why_tests_cant": "In space the normal is computed by two vector products that cancel near the line; a test would have to know how near is too near.", "anchors": ["libs/mathlib/include/impl/line2.h:63-71", "libs/mathlib/include/impl/ray2.h:10-17", "libs/mathlib/include/impl/ray2.h:45-49", "libs/mathlib/include/impl/line3.h:63-73", "libs/mathlib/include/impl/ray3.h:10-17", "libs/mathlib/include/impl/ray3.h:45-54"]}
{"id": "C168", "title": "Planes through points and frusta in floating point", "statement": "With rounded arithmetic the distance of a point from a plane made by Plane::from(a, b, c) is right up to rounding units of the sizes of the point and of a, and of the distance of the two divided by the sine of the angle of the triangle at a. Frustum::contains (points and spheres) and Frustum::intersects are right unless the exact configuration is within such an error of one of the six planes; the near plane has the reversed normal of the far plane.", "quantifier": "all triangles with three corners not on a line, all frusta with no degenerate face, all points and balls, every rounding with relative error u at most 2^-12", "why_tests_cant": "How wrong the planes may be depends on the angles of the faces and on how far the corners are from the origin.", "anchors": ["libs/mathlib/include/impl/plane.h:87-115", "libs/mathlib/include/impl/plane.h:191-195", "libs/mathlib/include/impl/frustum.h:45-63", "libs/mathlib/include/impl/frustum.h:83-135", "libs/mathlib/include/impl/frustum.h:153-173"]}
{"id": "C169", "title": "Frames with an exact and an approximate axis in floating point", "statement": "With rounded arithmetic Mat3::set(ecoord, exact, acoord, approx) returns a rotation up to rounding errors for all directions that are not parallel, the one that the exact function returns.", "quantifier": "all pairs of different coordinates, all pairs of directions, every rounding with relative error u at most 2^-12", "why_tests_cant": "Whether the columns are at right angles depends on how much of the vector product is left after cancellation; only directions that are nearly parallel show it.", "anchors": ["libs/mathlib/include/impl/mat3.h:104-147", "libs/mathlib/include/impl/mat3.h:266-272", "libs/mathlib/include/impl/vec3.h:620-633"]}
{"id": "C170", "title": "The inner and outer balls of a box in floating point", "statement": "With rounded arithmetic the ball returned by outerSphere/outerCircle of AABB2/AABB3 contains the box and the ball returned by innerSphere/innerCircle lies in the box, up to relative errors of the radius.", "quantifier": "all boxes with their corners in order, every rounding with relative error u at most 2^-12", "why_tests_cant": "The error depends on how far the box is from the origin compared with its size; boxes near the origin show nothing.", "anchors": ["libs/mathlib/include/impl/aabb2.h:327-347", "libs/mathlib/include/impl/aabb3.h:339-357", "libs/mathlib/include/impl/vec3.h:684-693", "libs/mathlib/include/impl/vec2.h:465-471"]}
{"id": "C171", "title": "The Frenet frame of a Bezier segment in floating point", "statement": "With rounded arithmetic BezierSegment3::frenetFrameAt succeeds wherever the first and second derivative of the segment are linearly independent, and the frame it returns is the rotation made of the unit binormal, unit tangent and normal up to relative rounding errors.", "quantifier": "all segments, all parameters in [0,1], rounding to nearest-even with p >= 12 bits", "why_tests_cant": "Where the curve is almost straight the cross product of the derivatives cancels; test curves are well bent.", "anchors": ["libs/mathlib/include/impl/spline3.h:234-279", "libs/mathlib/include/impl/vec3.h:203-219"]}
{"id": "C172", "title": "Splitting a Bezier segment in floating point leaves no gap", "statement": "With rounded arithmetic the two parts BezierSegment3::split writes begin and end exactly where the segment does and share their joint exactly, as do the points pointAt computes for them, and no point of a part is further than 38 * 2^-p times the largest control coordinate from its point of the curve.", "quantifier": "all segments, all parameters in [0,1], rounding to nearest-even with p >= 12 bits, second part possibly the object itself", "why_tests_cant": "The joint is computed twice; the two expressions must round alike for every parameter, which a test at a few parameters with a tolerance cannot show.", "anchors": ["libs/mathlib/include/impl/spline3.h:281-302", "libs/mathlib/include/impl/spline3.h:205-218"]}
{"id": "C173", "title": "The length of a Bezier segment in floating point", "statement": "With rounded arithmetic BezierSegment3::length returns, for every number of steps, the length exact arithmetic would return up to a hundredth of the largest control coordinate.", "quantifier": "all segments, all numbers of steps, rounding to nearest-even", "why_tests_cant": "The error depends on the number of steps and on the forward differences accumulated over all of them; tests use a few hundred steps and compare with a loose tolerance.", "anchors": ["libs/mathlib/include/impl/spline3.h:304-335"]}
{"id": "C174", "title": "Random numbers in floating point stay in their interval", "statement": "With rounded arithmetic rand(f) is in [0, f], randBetween(from, to) in [from, to] and randAmplitude(f) in [-f, f], for every draw and every RAND_MAX, and each is the exact value up to a few roundings.", "quantifier": "all draws, all values of RAND_MAX, all bounds, rounding to nearest-even with p >= 12 bits", "why_tests_cant": "The bound is exceeded only for the largest of 2^31 draws and special bounds; a random test practically never sees it.", "anchors": ["libs/mathlib/include/functions.h:88-113"]}
{"id": "C175", "title": "Response curves in floating point", "statement": "With rounded arithmetic evaluate still is, for every threshold and curve, an odd monotone function that maps [-1,1] into itself and 1 to 1, and is zero exactly on the dead zone; the linear, parabolic and cubic curve have the exact value up to a relative error of 12 * 2^-p.", "quantifier": "all values, all thresholds in [0,1), all curves, rounding to nearest-even with p >= 12 bits", "why_tests_cant": "Monotonicity under rounding is about neighbouring numbers, of which there are far too many to test.", "anchors": ["libs/mathlib/include/functions.h:212-269"]}
{"id": "C176", "title": "Interpolation of angles in floating point", "statement": "With rounded arithmetic clerp takes the same way between two angles as in exact arithmetic and returns the same angle up to rounding, and clerpMaxAngle never turns by more than maxAngle up to the rounding of one sum.", "quantifier": "all angles, all ratios in [0,1], rounding to nearest-even with p >= 12 bits", "why_tests_cant": "Whether the way taken is the shorter one depends on the last bit of three rounded operations when the angles are nearly opposite.", "anchors": ["libs/mathlib/include/interpolation.h:178-204"]}
{"id": "C177", "title": "Moving, converting and parametrising boxes in floating point", "statement": "With rounded arithmetic, moving a box together with a point or box keeps containment and contact; a box converted between corner and centred form contains the same points; and the point a box computes for parameters inside its range is in the box.", "quantifier": "all boxes, points and vectors; moving: any rounding that keeps the order; otherwise rounding to nearest-even with p bits", "why_tests_cant": "Corner boxes and centred boxes round differently; the failures are off by one unit in the last place.", "anchors": ["libs/mathlib/include/impl/aabb2.h:204-254", "libs/mathlib/include/impl/aabb2.h:361-382", "libs/mathlib/include/impl/aabb3.h:216-266", "libs/mathlib/include/impl/aabb3.h:371-397", "libs/mathlib/include/impl/caabb2.h:42-48", "libs/mathlib/include/impl/caabb2.h:195-245", "libs/mathlib/include/impl/caabb2.h:335-349", "libs/mathlib/include/impl/caabb3.h:349-365"]}
{"id": "C178", "title": "Degrees, radians and the clamped inverse functions in floating point", "statement": "With rounded arithmetic degreeToRadian and radianToDegree are odd, monotone and accurate and undo each other; asin and acos return a number in their range for every number, keep the order, and sin and cos undo them.", "quantifier": "all numbers, rounding to nearest-even with p >= 12 bits", "why_tests_cant": "Whether a conversion comes back depends on the last bits of four operations on the given number; of the whole degrees up to 360 three quarters come back in float.", "anchors": ["libs/mathlib/include/functions.h:34-64"]}
{"id": "C179", "title": "Where two lines cross, in floating point", "statement": "With rounded arithmetic intersection returns 0 exactly for parallel lines, and otherwise 1 with the parameters of the crossing up to rounding.", "quantifier": "all pairs of lines, any arithmetic with relative error u <= 2^-12", "why_tests_cant": "Nearly parallel lines are decided by the last bits of four differences, two products and a difference.", "anchors": ["libs/mathlib/include/impl/vec2.h:548-570"]}
{"id": "C180", "title": "Interpolation of HSV colours in floating point", "statement": "With rounded arithmetic interp of two HSV colours goes the short way round the hue circle, returns a hue in [0,360), and the right colour up to rounding.", "quantifier": "all colours with hues in [0,360) and saturation and value in [0,1], all ratios in (0,1), rounding to nearest-even with p >= 12 bits", "why_tests_cant": "The hue is 360 only for tiny negative hues before reduction, that is for special pairs of hue and ratio.", "anchors": ["libs/mathlib/include/impl/colorhsv.h:69-86"]}
{"id": "C181", "title": "Polar form and circular interpolation of plane vectors in floating point", "statement": "With rounded arithmetic angle and length of a plane vector give it back through fromAngle, and clerp of two vectors has the weighted mean of the lengths and an angle on the way from the one to the other, exact between equal vectors.", "quantifier": "all plane vectors, all ratios strictly between 0 and 1, rounding to nearest-even with p >= 12 bits", "why_tests_cant": "A test compares with a tolerance; that the error stays below a fixed multiple of the unit roundoff times the length, for all vectors and ratios, needs an error analysis through atan2, fmod, sqrt, sin and cos.", "anchors": ["libs/mathlib/include/impl/vec2.h:107-133", "libs/mathlib/include/impl/vec2.h:433-437", "libs/mathlib/include/interpolation.h:178-183"]}
{"id": "C182", "title": "Vec3::slerp in floating point", "statement": "With rounded arithmetic slerp of two vectors turns the one towards the other by the given fraction of the angle between their lines and interpolates the length, each component up to a fixed multiple of the unit roundoff times the larger length; nearly parallel vectors are interpolated linearly; the ends are exact.", "quantifier": "all pairs of vectors, all ratios strictly between 0 and 1, rounding to nearest-even with p >= 20 bits", "why_tests_cant": "A test compares with a tolerance for a few pairs; the error is magnified by asin near the right angle and by the small cross product near parallel vectors, so a bound for all pairs needs an error analysis through length, cross product, asin, the quaternion and its rotation.", "anchors": ["libs/mathlib/include/impl/vec3.h:105-149", "libs/mathlib/include/impl/quat.h:123-139", "libs/mathlib/include/impl/quat.h:555-573"]}
{"id": "C183", "title": "Vec3::slerpMaxAngle in floating point", "statement": "With rounded arithmetic slerpMaxAngle turns the first vector towards the second by no more than the limit, up to a fixed multiple of the unit roundoff, keeps the length between those of the two vectors, and returns the second vector when the limit is not below the angle between the two.", "quantifier": "all pairs of vectors, all limits, rounding to nearest-even with p >= 20 bits", "why_tests_cant": "For nearly parallel vectors the computed axis is mostly rounding noise, and only an argument that the small angle cancels the large error of the axis shows that the result is still right; tests with a few pairs do not reach this.", "anchors": ["libs/mathlib/include/impl/vec3.h:150-195", "libs/mathlib/include/impl/quat.h:123-139", "libs/mathlib/include/impl/quat.h:555-573"]}
{"id": "C184", "title": "Quat::toAxisAngle and Quat::slerpMaxAngle in floating point", "statement": "With rounded arithmetic a rotation built from an axis and an angle comes back from toAxisAngle with the normalised axis and the angle up to rounding, and the quaternions that the constructor normalised never trip the assertion on w when slerpMaxAngle is given two of them.", "quantifier": "all axes, all angles between 0 and a full turn, all limits, rounding to nearest-even with p >= 24 bits", "why_tests_cant": "The product of a quaternion with its inverse exceeds 1 by one unit only for some roundings of the normalisation, and the loss of digits in acos shows only for rotations between the threshold and a few hundredths; tests with a few round angles meet neither.", "anchors": ["libs/mathlib/include/impl/quat.h:123-139", "libs/mathlib/include/impl/quat.h:225-237", "libs/mathlib/include/impl/quat.h:574-597"]}
{"id": "C185", "title": "Quat::set(from, to) in floating point", "statement": "With rounded arithmetic the quaternion built from two non-zero vectors is near the unit quaternion that turns the direction of the first to the direction of the second, for all directions.", "quantifier": "all pairs of non-zero vectors, rounding to nearest-even with p >= 24 bits", "why_tests_cant": "The errors of the cross product and of 1 - cos are divided by the sine and by the half-angle factor, which become small near parallel and near opposite directions; only a bound in terms of these factors covers the whole sphere.", "anchors": ["libs/mathlib/include/impl/quat.h:140-172", "libs/mathlib/include/impl/vec3.h:621-635"]}
{"id": "C186", "title": "Quat::exp in floating point", "statement": "With rounded arithmetic exp of a quaternion whose vector part has the length a is the quaternion (v sin a / a, cos a) up to an error of at most (3.1 a + 6.1) units times the direction cosine in the vector part and (3.1 a + 1) units in w, and exactly 1 for a null vector part.", "quantifier": "all quaternions, rounding to nearest-even with p >= 20 bits", "why_tests_cant": "The error of the computed length enters the sine, the cosine and the quotient at once, and for all lengths up to infinity; tests compare at a few lengths with a fixed tolerance.", "anchors": ["libs/mathlib/include/impl/quat.h:641-661"]}
{"id": "C187", "title": "Quat::log, and log after exp, in floating point", "statement": "With rounded arithmetic log has a small relative error in every coordinate, and log(exp(v)) returns every coordinate of v up to rounding for all v shorter than a right angle.", "quantifier": "all quaternions with -1 < w < 1, all vector parts, rounding to nearest-even with p >= 20 bits", "why_tests_cant": "acos loses half of the digits near 1, yet the quotient a / sin a is insensitive there; below the root of the unit the result jumps to zero. Only a proof over all lengths separates the two ranges.", "anchors": ["libs/mathlib/include/impl/quat.h:620-639", "libs/mathlib/include/impl/quat.h:641-661"]}
{"id": "C188", "title": "fmodCentered in floating point", "statement": "With rounded arithmetic fmodCentered(x,y) is the residue of x modulo y in [-y/2,y/2) up to a few units of y; an x that is in this range already is returned up to a few units.", "quantifier": "all x, all representable y > 0, rounding to nearest-even with p >= 2 bits", "why_tests_cant": "The failing arguments are the one or two numbers next to the end of the range for each y; a test with random or round arguments does not meet them.", "anchors": ["libs/mathlib/include/libs/mathlib/include/functions.h:122-135"]}
{"id": "C189", "title": "The plane through three points, and through a point with two tangents, in floating point", "statement": "With rounded arithmetic the plane made from three points that are not on a line, or from a point and two tangents, has a normal of unit length, close to the exact one, and contains the points, up to rounding.", "quantifier": "all triples of points, all tangents, rounding with relative error u <= 2^-12", "why_tests_cant": "The error grows with the reciprocal of the sine of the angle between the sides; tests take right angles. The triples where the cross product cancels to null are rare.", "anchors": ["libs/mathlib/include/impl/plane.h:47-65", "libs/mathlib/include/impl/plane.h:97-115"]}
{"id": "C190", "title": "The hit of two circles, and of two spheres, in floating point", "statement": "With rounded arithmetic a reported depth of overlap is never negative and right up to 11 units of the sum of the radii, and the reported point is the exact one up to 8.1 units in each coordinate.", "quantifier": "all centres, all radii with a sum that is not negative, rounding to nearest-even with p >= 12 bits", "why_tests_cant": "The test of the squared distance and the root of it are rounded separately; that they never disagree at the boundary rests on the root of a rounded square being exact, for all numbers.", "anchors": ["libs/mathlib/include/impl/circle.h:294-307", "libs/mathlib/include/impl/sphere.h:298-311"]}
{"id": "C191", "title": "Projection along a direction, and a sphere hitting a plane, in floating point", "statement": "With rounded arithmetic project(point, direction) returns nothing exactly for directions parallel to the plane, and otherwise a point on the line, on the plane through the origin, up to rounding; hits(depth, sphere) reports a depth that is not negative and right up to rounding, and decides rightly outside a margin of a few units.", "quantifier": "all planes, points, directions, spheres, rounding with relative error u <= 2^-12", "why_tests_cant": "The rounding of the scalar product decides; parallel directions with a computed product that is not zero are rare among test inputs and give points at a distance of millions.", "anchors": ["libs/mathlib/include/impl/plane.h:209-220", "libs/mathlib/include/impl/plane.h:279-293"]}
{"id": "C192", "title": "Spherical quadrangle interpolation of quaternions in floating point", "statement": "With rounded arithmetic as precise as double, squad of four unit quaternions, none of the interpolated pairs nearly opposite, raises no assertion, gives no NaN, and is the exact composition of the three interpolations up to rounding; at the weights 0 and 1 it is the first and the second quaternion up to rounding.", "quantifier": "all unit quaternions with scalar products at least -0.95, all weights in [0,1], rounding with relative error u <= 2^-30", "why_tests_cant": "The errors of two interpolations are the input of a third; tests compare a few curves with a tolerance.", "anchors": ["libs/mathlib/include/impl/quat.h:267-275"]}
{"id": "C193", "title": "Area and volume of boxes in floating point", "statement": "With rounded arithmetic area() and volume() of both kinds of boxes are right up to a few units in relative error; with rounding to nearest a box inside another never has the larger computed area or volume, and turning a box into one given by centre and extents changes neither by a single bit (the way back can lose everything).", "quantifier": "all boxes, rounding with relative error u <= 2^-12 (accuracy), rounding to nearest with any precision (order and equality)", "why_tests_cant": "Tests compare areas of a few boxes with small integer sides, for which no rounding takes place.", "anchors": ["libs/mathlib/include/impl/aabb2.h:349-353", "libs/mathlib/include/impl/aabb3.h:359-363", "libs/mathlib/include/impl/caabb2.h:323-327", "libs/mathlib/include/impl/caabb3.h:337-341"]}
{"id": "C194", "title": "Scaling boxes about their centres in floating point", "statement": "With rounded arithmetic multiplying a box by a factor, or dividing it by one that is not zero, moves the corners to the right places up to a few units of the size of centre and scaled extents; division by zero is an assertion; boxes given by centre and extents keep their centre bit for bit, and multiplying by a power of two and dividing again is the identity.", "quantifier": "all boxes and factors, rounding with relative error u <= 2^-12; rounding to nearest for the exact statements", "why_tests_cant": "The error is relative to the distance of the centre from the origin, not to the size of the box; tests scale boxes with small integer corners.", "anchors": ["libs/mathlib/include/impl/aabb2.h:220-231", "libs/mathlib/include/impl/aabb2.h:295-302", "libs/mathlib/include/impl/aabb3.h:232-243", "libs/mathlib/include/impl/aabb3.h:307-314", "libs/mathlib/include/impl/caabb2.h:209-222", "libs/mathlib/include/impl/caabb3.h:223-237"]}
{"id": "C195", "title": "Moving planes, and planes from a normal and a distance, in floating point", "statement": "With rounded arithmetic a moved plane keeps its normal bit for bit and the distances of all points change by the given amount up to a few units of the terms; a larger movement never gives a larger distance; a plane from a normal that is not null has exactly the given distance and a normal of length 1 in the right direction up to rounding.", "quantifier": "all planes, points, movements and normals, rounding with relative error u <= 2^-12; rounding to nearest for the order", "why_tests_cant": "The error of a distance is relative to its terms and not to the distance; tests move planes by small integers.", "anchors": ["libs/mathlib/include/impl/plane.h:29-36", "libs/mathlib/include/impl/plane.h:67-85", "libs/mathlib/include/impl/plane.h:117-125", "libs/mathlib/include/impl/plane.h:147-152", "libs/mathlib/include/impl/plane.h:166-173"]}
{"id": "C196", "title": "Points and directions under 4x4 matrices in floating point", "statement": "With rounded arithmetic the coordinates of points and directions transformed by a Mat4 are right up to 4 and 3 roundings of the size of their terms; with rounding to nearest, transforming (x, y, z) is bit for bit transforming (x, y, z, 1), transforming the direction (x, y, z) is bit for bit transforming (x, y, z, 0), and under an affine matrix the fourth coordinate stays exactly 1 or 0.", "quantifier": "all matrices, points and directions, rounding with relative error u < 1; rounding to nearest with any precision for the equalities", "why_tests_cant": "The equalities are about every bit of the result and depend on the order of the sums; tests compare with a tolerance.", "anchors": ["libs/mathlib/include/impl/mat4.h:418-432", "libs/mathlib/include/impl/mat4.h:1177-1184", "libs/mathlib/include/impl/mat4.h:1209-1215", "libs/mathlib/include/impl/mat4.h:1240-1247"]}
{"id": "C197", "title": "Affine maps as Mat34 and as Mat4 in floating point", "statement": "With rounding to nearest an affine map stored as a Mat34 and the Mat4 with the same entries and the last row (0, 0, 0, 1) map points and directions bit for bit alike, and their products have the same entries bit for bit, the last row staying exactly (0, 0, 0, 1).", "quantifier": "all matrices with translations that are numbers of the type and none marked as the identity, rounding to nearest with any precision", "why_tests_cant": "The two classes add the translation at different places of the sum; that this never changes a bit is a statement about every input.", "anchors": ["libs/mathlib/include/impl/mat34.h:247-273", "libs/mathlib/include/impl/mat34.h:587-593", "libs/mathlib/include/impl/mat4.h:410-432", "libs/mathlib/include/impl/mat4.h:1272-1309"]}
{"id": "C198", "title": "Interpolations of quaternions at the ends of the range in floating point", "statement": "With rounding to nearest, slerpNoInvert and slerp at the weight 0 return their first argument and at the weight 1 their second one (slerp: or the negative of it, on the side of the first) up to 3 e + 15 units in each coordinate, for arguments off from unit quaternions by e units; squad at its ends returns the first two quaternions up to 75 units; no assertion fails and no NaN appears.", "quantifier": "all pairs of nearly unit quaternions (0 <= e <= 8), for slerpNoInvert and squad with no pair nearly opposite, rounding to nearest with any precision of at least 21 bits", "why_tests_cant": "In between the error can be some thousand units (C158); that the two sines cancel exactly at the ends is a statement about every pair, on both branches and at the threshold between them.", "anchors": ["libs/mathlib/include/impl/quat.h:174-183", "libs/mathlib/include/impl/quat.h:185-223", "libs/mathlib/include/impl/quat.h:239-265", "libs/mathlib/include/impl/quat.h:267-275"]}
{"id": "C199", "title": "Turning vectors about a coordinate axis in floating point", "statement": "With rounding to nearest, Vec3::rotated about a coordinate axis keeps the coordinate along the axis exactly and turns the other two up to 3.1 units of the distance from the axis; the length is kept up to 4.5 units; turning back by the opposite angle returns the vector up to 7.6 units of its length; and multiplying by the matrix Mat3(axis, angle) gives the same numbers bit for bit. Vec2::rotated likewise.", "quantifier": "all vectors of numbers, all angles, the three axes, rounding to nearest with any precision of at least 12 bits", "why_tests_cant": "A test can turn some vectors by some angles; the bounds and the equality with the matrix hold for every vector and every angle.", "anchors": ["libs/mathlib/include/impl/vec3.h:647-659", "libs/mathlib/include/impl/vec2.h:414-420", "libs/mathlib/include/impl/mat3.h:173-223"]}
