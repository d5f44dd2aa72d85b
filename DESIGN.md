# Formal model of kaalkuul/mathlib

The library is a header-only set of C++ templates over a scalar type `Real`
(`float` or `double`).  This directory holds a Lean 4 model of that code, a small
independent specification, and machine-checked theorems connecting the two.

Paths below are relative to `/repo/libs/mathlib/include`.

## 1. How the code is modelled

* **The template parameter stays a parameter.**  Every model function is generic
  in the scalar type `R` and uses only the operations the C++ uses:
  `+ - * / unary-`, `<`, `<=`, `==` (as a Boolean relation, *not* logical
  equality, so that NaN can differ from itself), integer literals, and the
  `<cmath>` functions through the class `MathFns`.  The same definitions are then
  used at several instances:
  * `ℝ` - exact real arithmetic; all geometric theorems live here;
  * any linear order / any type with the listed operations - for code that only
    compares and copies (min, max, clip, boxes, comparisons, transposition), so
    the theorem covers non-NaN IEEE numbers literally;
  * `Fl K rnd` - "nan or a number of `K`", every operation rounded by `rnd`,
    division by zero / invalid sqrt giving nan.  `rnd = id` gives a
    *definedness* semantics (does a result ever come from dividing by zero?),
    `rnd =` round-to-nearest-even with `p` bits gives concrete floating point
    witnesses;
  * `Float32`, `Float`, `ℚ` - executable.  `Verif/Conformance/*` replays the
    repository's own unit tests on the model in single or double precision: 4052
    of the 4617 checks in `tests/tests/src/test_*.cpp`, translated by
    `tools/conform.py` and evaluated with `#guard` during the build.  All of them
    pass.  The rest use casts, random draws, `sizeof`, `data()`, or functions that
    are not modelled.  These checks are evidence for the transcription, not proofs;
    no theorem depends on them.
* **One Lean definition per C++ function**, each with a comment citing file and
  lines and stating its simplifications.  In-place members are modelled as
  functions returning the new value of the object; when the statement order
  matters (aliasing) the model executes the assignments one by one on an explicit
  memory.
* **Undefined behaviour and assertions are outcomes.**  A function that contains
  an `assert`, may read uninitialised storage, divides integers, may overflow an
  `int` or index an array out of range returns `Res α = Except Fault α` with the
  corresponding `Fault`.  `assert` is modelled as compiled in (failure =
  `Fault.assertion`).
* **Cached matrix flags are part of the state**, as in the code, including the
  tolerance-based `optimize()`.
* **Memory of the solvers**: the array model (`Model/LinearEquations.lean`,
  `Model/Spline.lean`) has separate arrays and no `delete[]`; `Model/Heap.lean` has
  the same functions on a heap with pointers that may be equal, `new` that may
  throw and `delete[]`.  C128-C130 are about the heap versions and show that they
  agree with the array versions.
* **Random numbers**: `::rand()` is an arbitrary integer argument in
  `[0, RAND_MAX]`, or an arbitrary stream of them.
* **Outputs by reference** are returned in a tuple / `Option`.

### Not modelled
Floating point in most geometric theorems: they are about exact reals.  The
claims that say so are about rounding: `Fl K rnd` (rounding without limits of
range: C119-C122 and others) and `Ieee K p emax` (`Spec/Ieee.lean`: IEEE formats
with overflow, gradual underflow, infinities, NaN and signed zeros: C124 on).
`Quat::set(from, via, to)` (impl/quat.h:278-292), which adds two quaternions although
`Quat` has no `operator+`, so that no program can use it; the constructors
`Mat4(const Mat3&, ...)`, declared but never defined.
Fused multiply-add and excess precision of compilers; compiler and ABI, apart from the placement of members that C146 is about (`Model/Layout.lean`);
stream/test code (`tests`, `examples`, and of `testlib` all but the comparisons of the
matchers, which are in `Model/Matchers.lean`).  `float` temporaries inside
`double` code are an explicit parameter: `narrow` for `float distance` in
`Frustum`, `absf` for `fabsf` in `GaussJordan::solve`,
`narrow` in `interpolationRatioD` (easing).  The `float` literals
`0.000976563f`, `1.00098f`, `0.05f`, `0.95f` and `1e-6f` (`DELTA`) are the exact values
of those literals; literals converted by `Real(...)`, such as `Real(0.95)`, are quotients
computed in `Real`.

## 2. Trusted base

* the Lean 4.33.0 kernel and Mathlib's definitions (`ℝ`, `Matrix`, `Quaternion`,
  `Real.sqrt/sin/cos/...`, `HasDerivAt`, `convexHull`, ...);
* axioms: at most `propext`, `Classical.choice`, `Quot.sound` for every theorem
  (`Verif/Audit.lean` checks this during the build);
* the transcription from C++ to Lean (checked by eye against the cited lines, by
  the conformance checks, and by the mutation log in `seeded/LOG.jsonl`);
* no axioms of our own, no `sorry`, no `native_decide`, no `bv_decide`.

How the entries of `seeded/LOG.jsonl` were made: an edited definition replaces the
original in a scratch copy, everything that depends on it is elaborated again, and the
theorems that fail are listed; the claim is that of the properties these belong to, unless
it was written by hand.  A failed proof shows that the theorem depends on the edited part;
that its statement became false was looked at for survivors and for tightened theorems, not
for each entry.  For the entries on C193 to C197 the edited definition was put under another
name in front of a copy of the one property file, so only theorems of that file are listed;
with the original definition in its place the copy is accepted.

## 3. Layout

`lean/Verif/Model/*` the code; `lean/Verif/Spec/*` the independent vocabulary
(matrices, point sets, continuity, ...) and nothing else; `lean/Verif/Proof/*`
helper lemmas; `lean/Verif/Props/*` the property theorems (named `Cnn_...`) and
the examples showing that their hypotheses are satisfiable;
`lean/Verif/Conformance/*` the replayed unit tests.  To regenerate the latter:
`lake env lean --stdin < ../tools/modeldefs.txt > /tmp/defs.txt` and
`python3 ../tools/conform.py /tmp/defs.txt /repo/tests/tests/src Verif/Conformance`.

## 4. Plan per property

Legend: *exact* = proved over `ℝ`; *order* = proved for any linear order;
*rnd* = proved in the rounding instance; **refuted** = the claim is false of the
code; the negation is proved with a concrete witness and what remains true is a
theorem with suffix `_partial`.

| id | model | plan |
|----|-------|------|
| C01 | `clippedBetween,min,max,abs` | order + NaN instance |
| C02 | `next2D,next3D` | induction on the iteration count |
| C03 | `fmod*` with C `fmod` = truncating remainder | exact, uniqueness of residue |
| C04 | `asin,acos` with clamping | exact |
| C05 | degree/radian | exact |
| C06 | int random on `ℤ` with 32-bit overflow and `%0` as faults | exact; `Int.tmod` |
| C07 | real random | exact; last clause **refuted** (`rand() >= 0` always, negative branch dead) |
| C08 | `evaluate` | exact, all six curves |
| C09 | `interpolationRatio` | **refuted** for ExponentialIn/Out/InOut (rounded constants); rest exact |
| C10 | same | **refuted** for the same modes; rest exact |
| C11 | same | exact |
| C12 | `lerp` | exact + int truncation; **refuted** for the moded overloads with the three Exponential modes |
| C13 | `clerp` | **refuted** for `to-from < -pi` (C `fmod` keeps the sign); partial otherwise |
| C14 | `clerpMaxAngle` | turn bound exact; ratio output **refuted** |
| C15 | `TriDiagonal::solve` on arrays | induction on n |
| C16 | same | leading minors; diagonal dominance |
| C17 | `solveCyclic` (Sherman-Morrison) | **refuted** when its denominator vanishes; partial otherwise |
| C18 | `GaussJordan::solve` with pivot bookkeeping | loop invariant: row operations and row/column exchange |
| C19 | same | det tracked through the loop |
| C20 | same | **refuted** (entries reset to 1/0 after instead of before the row operations) |
| C21-C30 | `Vec2/3/4` | exact, against `dotProduct`, `crossProduct`; C24,C30 also for any scalar; C26 (W), C27 (Y) **refuted** in one case |
| C31,C32 | `Vec3::slerp*` | **refuted** for obtuse angles (asin); partial theorems describe every case |
| C33 | `randomUnitVector` | unit length exact; "every direction" **refuted** (first octant only) |
| C34-C36 | `Mat2/3/34/4` products, flags | against `Matrix` |
| C37,C48 | memory model with aliasing | **refuted**, exact condition for the result to be right |
| C38-C42 | transpose, determinant, inverse | against `Matrix.det/adjugate`; flag clause of C38 and the non-TRS / det=1 cases of C41 **refuted** |
| C43 | flag invariant over operation sequences | **refuted** (`rotate(Coord,..)` keeps Identity); partial for the sound operations |
| C44,C45 | rotation constructors | exact; null axis in C44 **refuted** |
| C46 | `translate/scale` | scale clause **refuted**, rest exact |
| C47 | byte-addressed memory, strides | induction on count |
| C49 | entrywise operators | exact |
| C50-C53 | `Quat` | against Mathlib's `Quaternion`; axis/angle extraction (C52) **refuted** below the 1e-3 threshold; C53 also in `XR` (no division by zero) |
| C54 | from two vectors | **refuted** for opposite vectors, partial otherwise |
| C55,C56 | lerp/slerp | exact, and defined on `XR`; `slerpNoInvert` **refuted** for opposite quaternions, constant speed **refuted** in the lerp fallback |
| C57,C58 | `slerpMaxAngle`, `operator/` | **refuted** |
| C59 | log/exp | exact for w > -1, **refuted** at -1 |
| C60-C67 | boxes | order / exact, against point sets |
| C68,C69 | slab tests | exact parameter interval |
| C70 | `hits` | **refuted** both ways, partial |
| C71-C76 | balls | exact, against point sets; C75 hit point **refuted** when the other ball is much larger, C76 **refuted** when starting inside |
| C77-C81 | planes | exact; C79 **refuted** unless d = 0; C80 `hitsLine` **refuted** for segments ending on the plane |
| C82,C83 | frustum | exact; mirroring matrices turn it inside out; sphere intersection only conservative |
| C84 | distances | 2-D exact; 3-D **refuted** for points on the line |
| C85 | triangle | exact when non-degenerate, **refuted** when degenerate |
| C86-C92 | lines, segments, forward differences | exact; derivatives through `HasDerivAt` |
| C93,C94 | spline solvers | through C15/C16 for every n, with uniqueness |
| C95 | closed spline | through C18/C19; **refuted** for n = 2 |
| C96-C99 | colours | exact |
| C100-C103 | rounding instance | **refuted** with computed witnesses, partial otherwise |
| C104 | `Fl ℝ rnd`, `rnd` any monotone rounding (`rne p` for the interpolation ratios) | definedness |
| C105-C108 | vector components, componentwise operations, distance, equality | exact, over every scalar type where no order is needed |
| C109 | `localAxis`, `localPlane` (`Model/Local.lean`) | axes exact; planes **refuted** for shears, partial otherwise |
| C110 | precision conversions (`Model/Cast.lean`), `conv` any monotone map | exact; centred boxes **refuted**, error bound |
| C111 | ball arithmetic on point sets | exact; compound forms **refuted** for negative factors |
| C112,C113 | matrix slerp, orthonormalise | exact; `slerpMaxAngle`, Mat34 translations and scaled rotations **refuted** |
| C114 | Mat34 constructors | exact |
| C115,C116 | squad, circular interpolation | exact; opposite quaternions and `clerpMaxAngle` **refuted** |
| C117 | easing through `float` | exact with `narrow` parameter; positivity for small ratios **refuted** |
| C118 | public columns and flags | **refuted**; proved after `optimize()` |
| C119,C120 | floating point accuracy of vector arithmetic | for every rounding with relative error `u`; `Proof/RelErr.lean` propagates the errors |
| C121 | tests away from the border | same; triangles **refuted** for `float`, proved for exact differences |
| C122 | identities under rounding | exact equalities in `Fl K rnd` |
| C123 | `Vec2` polar angles | against `Complex.arg` and `Real.Angle` |
| C124 | normalisation with the exponent range of IEEE formats | `Spec/Ieee.lean`, a model with NaN, infinities, signed zeros and gradual underflow, checked against hardware `Float32`; **refuted**, proved for moderate sizes |
| C125 | `Sphere` and `Tri2` tests with the exponent range of IEEE formats | **refuted**, proved on a grid of moderate sizes |
| C126 | `inversed` with rounding | **refuted** (cancellation), proved with error bounds while the determinant keeps a correct sign |
| C127 | `inversed` with the exponent range of IEEE formats | **refuted** (the determinant leaves the range), proved for moderate entries |
| C128 | solvers and splines on a heap with `new` that may throw, `Model/Heap.lean` | **refuted** (leak after `std::bad_alloc`), proved for `TriDiagonal::solve` and when memory suffices |
| C129 | tridiagonal solvers with shared arrays | proved by simulation of the heap program by the array program |
| C130 | open splines with shared arrays | proved in the same way |
| C131 | interpolations with reference arguments, `Model/OwnParts.lean` | proved: each component is written after its last use |
| C132 | setters and movers with reference arguments | **refuted**, exact outcome and condition for boxes, sufficient condition for matrices and segments |
| C133 | matchers of `testlib`, `Model/Matchers.lean` | proved: every number once, against its counterpart; IEEE comparison with margin |
| C134 | corner boxes over IEEE numbers | **refuted** by NaN in the first point; hull of the points otherwise; exact effect of NaN on add, union, intersects |
| C135 | `center` in IEEE arithmetic | **refuted** by overflow; inside exactly if no sum overflows |
| C136 | `functions.h` comparisons over IEEE numbers | **refuted** by NaN and `-0`; right in all other cases |
| C137 | constants of pi in `impl/constants.h`, `Model/Constants.lean` | **refuted** for `PI_OVER_3`, `PI_OVER_6` in double; nearest number otherwise |
| C138 | limits in `impl/constants.h` | **refuted** for `MIN_VALUE` by subnormal numbers; right otherwise |
| C139 | `setPointsR` in `Model/OwnParts.lean` | **refuted**: own corners after the first point are lost; exact outcome |
| C140 | `Fl ℝ (rne p)`; run lemma over any arithmetic (`Proof/TriRun`), rounded recurrences (`Proof/TriRound`) | **refuted** without dominance; proved for dominant systems |
| C141 | `Fl ℝ (rne p)`; run lemmas over any arithmetic (`Proof/SplineRun`), C140 for the solver, C93 for the exact spline | proved |
| C142 | `Fl ℝ (rne p)`; `Proof/Apx` carries error and magnitude along | **refuted** (box); proved: error bounds, exact ends |
| C143 | `Fl ℝ (rne p)`; `Proof/FwdRound` sums rounding errors over the steps | **refuted** for tiny steps; proved: drift at most linear in the number of steps |
| C144 | exact arithmetic, iterating the model's `rotate`; the flag is decided by `6 - 2 tr` | **refuted** below 1.28°; proved: exact threshold, exact sums above it |
| C145 | `Fl ℝ (rne p)`, norms in Mathlib's `ℍ[ℝ]` | **refuted** for unbounded chains; proved: drift at most linear in the number of factors |
| C146 | objects as images (cells at offsets, ABI placement rule), sizes and alignments as parameters | proved for all classes but `Mat34` with a narrow scalar: **refuted** for two bytes |
| C147 | constants as definitions, containment against plain inequalities | proved |
| C148 | IEEE numbers with infinities and NaN, any precision and exponent range | **refuted** near the largest numbers; exact NaN condition, finite below half, monotone: proved |
| C149 | any scalar type, no laws assumed; IEEE instance | **refuted** for a matrix of NaNs; exact condition proved, other solvers proved |
| C150 | `Fl ℝ rnd` with relative error `u`; IEEE instance | proved up to factors `(1 - u)^3`, `(1 - u)^4`; **refuted** for IEEE numbers with tiny directions, proved under exponent bounds |
| C151 | IEEE instance over ℝ | proved for `contains` of boxes, balls, planes, triangles; **refuted** for frusta and for `hits`/`intersects`, whose behaviour is characterised |
| C152 | IEEE instance over ℝ; `Fl ℝ rnd` with relative error `u` | proved; exact distances up to factors `(1 - u)^4`, `(1 - u)^3` |
| C153 | `Fl ℝ rnd` with relative error `u ≤ 2^-12` | proved; entries within `33 u`, orthonormal flag for `u ≤ 2^-20` |
| C154 | `Fl ℝ (rne p)`, any `p ≥ 4` | 21 modes monotone and in [0,1]; **refuted** for CubicOut, CubicInOut (overshoot), QuadraticOut, QuadraticInOut, CircularInOut (not monotone) |
| C155 | `Fl ℝ (rne p)`, any `p ≥ 12` | forward errors of both directions against the exact colour, Lipschitz bound of the hexagonal cone |
| C156 | `Fl ℝ (rne p)`, any `p ≥ 12` | forward errors with a symbolic drift; the divisor of the branch taken is bounded below in all four branches |
| C157 | `Fl ℝ (rne p)`, any `p ≥ 20`; lists of turns | induction with the invariant of C156; the Frobenius distance is invariant under rotations, so the errors of the steps add up |
| C158 | `Fl ℝ rnd`, any `IsRel rnd u` with `u ≤ 2^-20` | errors in units of `u` carried through the arc formula; `arccos` is Lipschitz on [-0.96, 0.96]; the chord is handled by `C156_normalize` |
| C159 | `ℝ`, and `Fl ℝ rnd` through C158 | the sine of the angle between the two points is (w sin((1-w)θ) - (1-w) sin(wθ)) over the length of the chord vector; Taylor bounds |
| C160 | `Fl ℝ rnd` | the pivot stays on the diagonal; the stored matrix is the reduced matrix, dominance decreases by 6u a turn, the residual of the exact solution relative to the excess grows by 10 η a turn |
| C161 | `Fl ℝ (rne p)` | C160 with k = 3, the right-hand sides being rounded too |
| C162 | `Fl ℝ (rne p)` | the auxiliary system that is solved belongs to a cyclic system near the given one; C140 for both solves; the denominator of the correction is at least 1/(3κ) because the second solution divided by it solves the cyclic system |
| C163 | `Fl ℝ rnd` | five roundings for every cofactor, nine for the determinant, two for the product with the reciprocal; C126 for `Mat34` |
| C164 | `Fl ℝ rnd` | backward error: the parameter is exact for slightly different distances of the ends, hence the point is near the plane whatever the angle |
| C165 | `Fl ℝ rnd` | error of the discriminant relative to (distance of start)² + radius²; the computed root satisfies the equation up to that; completeness by monotonicity of the quadratic left of the middle of the chord |
| C166 | ordered fields, ℝ | simulation of the array program by the heap program (`Sim`), the blocks of the work arrays being fresh; C18, C19, C95 for the array program |
| C167 | `Fl ℝ rnd` | error of the two vector products relative to the product of the lengths; the component of the computed normal along the line is small, and its component along the true normal is near 1 unless the point is near the line |
| C168 | `Fl ℝ rnd` | error of the normal (two differences, vector product, normalisation) relative to the sine of the angle; the scalar product as in C120 |
| C169 | `Fl ℝ rnd` | error of the vector product relative to its length; every column compared with the exact one; a computed witness in `float` |
| C170 | `Fl ℝ rnd` | relative errors of the midpoint and of the half-sides, compared with the exact balls of C71; a computed witness in `float` |
| C171 | `Fl ℝ (rne p)` | errors of the two derivatives, of their cross product and of the normalisations, compared with the exact frame of C92; a computed witness in `float` |
| C172 | `Fl ℝ (rne p)` | what each statement of `split` writes, errors of the weights and of their combinations; ends from C142 |
| C173 | `Fl ℝ (rne p)` | the rounded forward differences as an iteration (C143), error of each chord and of the running sum; a computed witness in `float` |
| C174 | `Fl ℝ (rne p)` | monotonicity of rounding from the extreme draws, a tie rounded to even for `randAmplitude`; computed witnesses |
| C175 | `Fl ℝ (rne p)` | the curves as compositions of monotone odd functions with a monotone odd rounding; relative errors; computed witnesses in `float` |
| C176 | `Fl ℝ (rne p)` | errors of each operation around the exact remainder; the integer number of turns separates the two ways; a computed witness in `float` |
| C177 | `Fl K rnd` with monotone `rnd`, `Fl K (rne p)` | monotonicity for the order claims; error of each operation for the rest; computed witnesses in `float` |
| C178 | `Fl ℝ (rne p)` | relative errors; Lipschitz bounds of sine and cosine, Jordan's inequality; irrationality of pi; computed witnesses in `float` |
| C179 | `Fl ℝ rnd` with `IsRel rnd u`, `Fl K rnd` | absolute errors of the three determinants, then of the quotients; computed witnesses in `float` |
| C180 | `Fl ℝ (rne p)` | errors of each operation; `fmod` of representable numbers is exact; a computed witness in `float` |
| C181 | `Fl ℝ (rne p)` | C176 for the angle, relative error of the length, Lipschitz bounds of sine and cosine; a computed witness in `float` |
| C182 | `Fl ℝ (rne p)` | error of axis, sine, half-angle quaternion, rotation and length one after the other (Proof/VecSlerpErr); Hölder and Lipschitz bounds of `asin`; a computed witness in `double` |
| C183 | `Fl ℝ (rne p)` | as C182, without a lower bound on the angle: the error of the axis, `O(u / sin)`, times the angle stays `O(u)`; a computed witness in `double` |
| C184 | `Fl ℝ (rne p)` | relative errors of the coordinates share one factor, so the axis keeps `O(u)`; Hölder and Lipschitz bounds of `arccos` for the angle; two computed witnesses in `float` |
| C185 | `Fl ℝ (rne p)` | error of the normalised cross product, `O(u / 2sw)`, times `s`; error of the square roots, `O(u / s)` and `O(u / w)` |
| C186 | `Fl ℝ (rne p)` | relative error of the length, Lipschitz bounds of sine and cosine |
| C187 | `Fl ℝ (rne p)` | relative error of `t / sin t`; `t / sin t` as a function of `cos t` has slope at most 2 (Cauchy's mean value theorem), so the lost digits of `acos` do not matter; nearest number to the cosine below `√u` |
| C188 | `Fl ℝ (rne p)` | exactness of the remainder of representable numbers, monotonicity of rounding, Sterbenz for the final difference; ties to even for the witnesses |
| C189 | `Fl ℝ rnd`, `IsRel rnd u` | error of the cross product relative to the product of the lengths, nearby unit vectors, C164 for the plane through a point |
| C190 | `Fl ℝ (rne p)` | `rne √(rne x²) = x` for representable `x`, monotonicity of rounding; relative errors |
| C191 | `Fl ℝ rnd`, `IsRel rnd u` | backward error of the quotient of two scalar products; double rounding for the witness |
| C192 | `Fl ℝ rnd`, `IsRel rnd u`, `u ≤ 2^-30` | C158 twice with `u`, once with `640 u`, to which the errors of the first two steps are rounding errors |
| C193 | `Fl ℝ rnd`, `IsRel rnd u`; `rne p` | products of relative errors; rounding commutes with powers of two and is monotone |
| C194 | `Fl ℝ rnd`, `IsRel rnd u`; `rne p` | absolute errors of centre and extents; rounding commutes with powers of two; a tie for the witness |
| C195 | `Fl ℝ rnd`, `IsRel rnd u`; `rne p` | absolute errors of sums of products; monotone rounding |
| C196 | `Fl ℝ rnd`, `IsRel rnd u`; `rne p` | absolute errors of sums of products; rounding is idempotent |
| C197 | `Fl ℝ (rne p)` | rounding is idempotent, sums and products commute |
| C198 | `Fl ℝ (rne p)` | the weights 0 and 1 leave the same rounded sine above and below the line; normalising costs a factor of at most 3 |
| C199 | `Fl ℝ (rne p)` | sums of two products; a turn keeps the length of the error; rounding is idempotent and odd |

## 5. Where the code and the claims disagree

Each line: code, what goes wrong, witness, theorem.  Everything listed is proved of
the model; nothing was run.

| code | disagreement | theorem |
|------|--------------|---------|
| `functions.h:106-113` `randAmplitude(from,to)` | `::rand()` is never negative, so the negative branch is dead | `C07_randAmplitude2_refuted` |
| `interpolation.h:38-42, 101-105` | the rounded constants 0.000976563 and 1.00098 make ExponentialIn/Out/InOut leave [0,1], not monotone and discontinuous at 1/2 | `C09_range_refuted`, `C10_refuted`, `C11_half_refuted` |
| `interpolation.h:178-183` `clerp` | C `fmod` keeps the sign: for `to-from < -pi` it turns the long way | `C13_shortest_refuted` |
| `interpolation.h:195-204` `clerpMaxAngle` | the ratio divides the resulting angle, not the turn (1 to 2 by at most 1/2 gives ratio 3/2), and divides by zero for equal angles | `C14_ratio_refuted`, `C104_clerp_undefined` |
| `impl/linearequations.h:71-119` `solveCyclic` | returns true for a singular system without solution (periodic Laplacian of size 3) | `C17_refuted` |
| `impl/linearequations.h:129-247` `GaussJordan::solve` | `fabsf` on `double` reports invertible matrices with tiny entries singular | `C19_double_refuted` |
| same | `a` ends as a permutation matrix, not as the inverse: (2) becomes (1) | `C20_refuted` |
| `impl/vec2.h:422-431`, `impl/vec3.h:661-671` `mirrored` | null vector for a coordinate outside the vector, `mirror` keeps the vector | `C26_refuted` |
| `impl/vec3.h:38-48` `Vec3(Vec2, Y)` | swaps the two components | `C27_refuted` |
| `impl/vec3.h:105-194` `slerp`, `slerpMaxAngle` | arc sine of the angle: wrong for obtuse angles; not unit for small angles; opposite vectors reached at once | `C31_refuted`, `C32_refuted` |
| `randomUnitVector` | only the positive quadrant / octant | `C33_directions_refuted` |
| `operator*=`, `rotate`, `transform` with itself as argument | columns overwritten while still needed | `C37_refuted` |
| `transposed` of the matrices | keeps flags that are no longer true | `C38_flags_refuted` |
| `impl/mat4.h` `invert`, `inversed` | Orthonormal ignores the fourth column; `invert()` of a determinant-one matrix is flagged uninitialised | `C41_refuted` |
| `rotate(Coord, angle)`, products, `Mat4` inverse chain | flags that are false of the entries (Identity kept by a rotation) | `C43_refuted`, `C43_mat4_refuted` |
| `Mat3(axis, angle)` | a null axis gives `cos(angle)*I`, for pi the point reflection | `C44_null_refuted` |
| `Mat34/Mat4::scale` | scales columns of the linear part and coordinates of the translation: neither `S*M` nor `M*S` | `C46_scale_refuted` |
| `transform(src, dst)` with `src == dst` | components overwritten while still needed | `C48_refuted` |
| `impl/quat.h:574-595` `toAxisAngle` | rotations with a vector part shorter than 1e-3 come out as angle 0 | `C52_extract_refuted` |
| `impl/quat.h:140-172` `set(from,to)` | opposite vectors, and different nearly equal ones, give the identity | `C54_refuted` |
| `impl/quat.h:239-265` `slerpNoInvert` | opposite quaternions: division by `sin(pi)` | `C55_noInvert_refuted` |
| `impl/quat.h:185-223` `slerp` | close quaternions: speed not constant | `C56_refuted` |
| `impl/quat.h:225-237` `slerpMaxAngle` | `from` is not applied to the result | `C57_refuted` |
| `impl/quat.h:461-473` `operator/` | multiplies by the divisor and divides by `w²-x²-y²-z²`, which is 0 for quarter turns | `C58_refuted`, `C104_quat_div_undefined` |
| `impl/quat.h:620-639` `log` | `log(-1)` is 0 | `C59_refuted` |
| `AABB::fromIntersection` | disjoint boxes give the box {0} | `C64_refuted` |
| `AABB::hits(ray)` | accepts rays that miss and rejects rays that hit | `C70_refuted_miss`, `C70_refuted_side` |
| `Circle/Sphere::intersects(other, hit)` | hit point outside the ball when the other one is much larger | `C75_circle_refuted`, `C75_sphere_refuted` |
| `Circle/Sphere::intersects(line)` | a segment that starts inside is reported as missing | `C76_sphere_refuted`, `C76_circle_refuted` |
| `Plane::project(point, dir)` | ignores the plane distance | `C79_refuted` |
| `Plane::hits(line)` | misses segments ending on the plane | `C80_hitsLine_refuted` |
| `Plane/Frustum::transform` | a mirroring matrix turns the frustum inside out | `C82_mirror` |
| `Frustum::intersects(sphere)` | conservative only | `C83_conservative` |
| `Line3/Ray3::distance` | points of the line get the distance to the start | `C84_refuted` |
| `Tri2::contains` | degenerate triangles accept the supporting line or everything | `C85_refuted` |
| spline `split` into itself | the first half written over the object spoils the second | `C89_alias` |
| `closedBezierSpline`, n = 2 | 1 instead of 2 beside the diagonal | `C95_refuted` |
| `ColorRGB::toHSV` | largest channel 0 and not grey: division by zero | `C96_negative` |
| `ColorHSV::toRGB` | small negative hues in floating point: uninitialised colour | `C100_refuted` |
| `functions.h:122-128` `fmodPositive` | can return the modulus in floating point | `C101_refuted` |
| `CAABB::add` | floating point: the point just added need not be inside | `C102_refuted` |
| `Mat34/Mat4::localPlane` | uses the image of the axis as normal: wrong for sheared matrices | `C109_plane_refuted` |
| `CAABB2/3` conversion | centre and extent are rounded separately: points of the box fall outside | `C110_centred_refuted` |
| `Circle/Sphere::operator*=`, `operator/=` | a negative factor gives a negative radius; the binary forms assert | `C111_compound_refuted` |
| `impl/vec4.h` | the constructor's default `w` is 1, that of `set` is 0 | `C105_points` |
| `impl/mat4.h` `operator[](Coord)` | has no case for `Coord::W` | `C105_columns` |
| `impl/mat3.h:235-243` `Mat3::slerpMaxAngle` | the first rotation is dropped: between a rotation and itself it gives the identity | `C112_maxAngle_refuted` |
| `impl/mat34.h:113-127` `Mat34::slerp`, `slerpMaxAngle` | the translation of the result is zero | `C112_mat34_refuted` |
| `Mat3::orthonormalise` | the quaternion of a scaled rotation is a different rotation: twice a quarter turn becomes a turn by 106 degrees | `C113_scale_refuted` |
| `Mat34::transform(rs)` with its own linear part | columns and then the translation see the changed matrix | `C37_rs_refuted` |
| `impl/quat.h:267-275` squad | control quaternion opposite to an end: division by `sin(pi)` | `C115_refuted` |
| `impl/vec2.h:135-151` `Vec2::clerpMaxAngle` | ratio of final angle to turn: (0,1) to (-2,0) limited by pi gives (-3,0) | `C116_maxAngle_refuted` |
| `interpolation.h:75-93` float temporaries | in double, QuarticOut and QuinticOut give 0 at 2^-30 | `C117_strict_refuted` |
| `mat3.h:125-128` public columns, `data()` | writing an entry leaves the flags: `setIdentity(); m.x = (2,0,0)` still multiplies as the identity | `C118_refuted` |
| `impl/tri2.h` `contains` in `float` | a point on an edge is rejected because the differences are rounded | `C121_triangle_refuted` |
| `impl/vec3.h` `normalized`, `impl/vec2.h`, `impl/quat.h` `normalize` in `float` | a coordinate above 2^64 gives a null result; below 2^-75 the length is 0 | `C124_refuted`, `C124_quat_range` |
| `sphere.h` `contains`, `intersects` in `float` | differences above 2^64: no point is inside, large balls always intersect; below 2^-75: every point is inside | `C125_refuted` |
| `impl/tri2.h` `contains` in `float` | a vertex of a large triangle is rejected (infinity minus infinity), all points near a tiny triangle are accepted | `C125_triangle_refuted` |
| `impl/mat2.h`, `impl/mat3.h` `inversed` in `float` | [[4097,4098],[4096,4097]] has determinant 1 but is inverted to zero; a singular matrix of integers below 400 is given an inverse | `C126_refuted` |
| `impl/mat2.h`, `impl/mat3.h` `inversed` in `float` | 2^64 times the identity is inverted to zero (plane) or a matrix with NaN (space) although 2^-64 is representable | `C127_refuted` |
| `impl/linearequations.h` `solveCyclic`, `GaussJordan::solve`; `impl/spline3.h` solvers | blocks allocated before a `new` that throws are never released | `C128_leak`, `C128_refuted` |
| `impl/linearequations.h` `TriDiagonal::solve` | with `u` the same array as `a` or `c` it returns true and a wrong result (undocumented restriction) | `C129_overlap` |
| `impl/aabb2.h`, `impl/aabb3.h` `operator-=` | `box -= box.inf` zeroes `inf` and leaves `sup` where it was | `C132_refuted`, `C132_box3_partial` |
| `impl/mat2.h`, `mat3.h`, `mat34.h` `set`, `scale` | columns of the matrix itself as arguments are overwritten before they are read | `C132_refuted` |
| `BezierSegment3::set` | reversing a segment through `p4()`..`p1()` gives `P4, P3, P3, P4` | `C132_segments_partial` |
| `AABB2/3::set(count, points)` | a NaN coordinate in the first point (but in no other) makes the box empty for good | `C134_refuted`, `C134_add2` |
| `AABB2/3::intersects` | a box with NaN bounds intersects every box although it contains no point | `C134_nan2`, `C134_nan3` |
| `AABB2/3::fromUnion`, `min`, `max` | with a NaN operand the second operand is returned, so the result depends on the order | `C134_union2`, `C136_min_max` |
| `AABB2/3::center` | the sum of large corners overflows and the centre is infinite | `C135_refuted2` |
| `abs` | `abs(-0.0)` is `-0.0` | `C136_abs_refuted` |
| `Constants<double>::PI_OVER_3`, `PI_OVER_6` | computed from the rounded `PI`, the quotient is a neighbour of the nearest double | `C137_refuted` |
| `Constants<Real>::MIN_VALUE` | least positive normal number, not the least positive number | `C138_refuted` |
| `AABB2/3::set(count, points[, stride])` | overwrites `inf` and `sup` before reading the rest of the points, which may be its own corners | `C139_refuted` |
| `TriDiagonal::solve` | no pivoting: a tiny pivot makes it report success with a wrong solution | `C140_refuted` |
| `BezierSegment3::pointAt` | near `t = 1` the first coefficient cancels and may come out negative: points leave the box of the control points by a rounding error | `C142_refuted` |
| `BezierSegment3FwdDiff::stepForward` | steps below half a rounding unit are lost: the walk never leaves the first point | `C143_refuted` |
| `Mat3::rotate(axis, angle)`, `Mat34::rotate`, `Mat4::rotate` | rotations by less than 1.28° are taken for the identity and dropped: turning by 1° per frame never turns | `C144_refuted` |
| `Mat34::rotate` | a dropped rotation still moves the translation part: position and orientation come apart | `C144_refuted` |
| `Mat34::data` with a scalar aligned less strictly than `unsigned int` | padding between `rs` and `t`; `data()[9]` is not `t.x` | `C146_refuted` |
| `lerp(-2^127, 2^127, 0)`, `lerp(3*2^103, FLT_MAX, 1)` | NaN, infinity: an intermediate result overflows | `C148_refuted` |
| `GaussJordan::solve` with all entries NaN | `irow`, `icol` are read without having been assigned | `C149_refuted` |
| `TriDiagonal::solve` (Vec3) with n = 0 | no assertion as in the scalar overload, reads `b[0]` | `C149_empty` |
| box `intersects(ray)` with a direction component below 2^-128 | `1 / direction` is infinite, `0 * inf` is NaN: a ray inside the box is a miss, one leaving at once is inside | `C150_refuted` |
| `Frustum::contains`, `intersects` with a NaN point or sphere | `if (distance > 0) return false`: true for every frustum | `C151_frustum` |
| `intersects`/`hits` of balls, planes and boxes with NaN | tests for outside fail, so NaNs are hits | `C151_intersects`, `C151_line`, `C151_planes`, `C151_axis`, `C151_rays` |
| `lerp(int, int, ratio, mode)` with ExponentialIn, ends 0 and INT_MAX | the ratio exceeds 1 by 1e-6, the conversion to `int` overflows | `C12_mode_refuted` |
| `interpolation.h` CubicOut, CubicInOut | the polynomial forms give a ratio above 1 for the second number below 1, in every precision; QuadraticOut/InOut and CircularInOut step back | `C154_cubic_refuted`, `C154_quadratic_refuted`, `C154_circular_refuted` |
| `Mat3::operator*` after `optimize` | in floating point too, turns by up to 1.21° are not carried out, so small steps never add up (C144 in exact arithmetic) | `C157_refuted`, `C157_marked` |
| `Quat::slerp` | for a dot product of 0.95 or more the turn is not the fraction `w` of the angle; it is off by less than 1/1500 | `C159_refuted`, `C159_slerp_partial` |
| `GaussJordan::solve` | in floating point the result `false` does not coincide with singularity, in either direction | `C160_refuted` |
| `TriDiagonal::solveCyclic` | reports success and returns wrong numbers or NaN for well-conditioned systems with a small `b[0]`: the choice of `gamma` makes the auxiliary system as bad as its first pivot | `C162_refuted` |
| `Mat4::invert`, `Mat4::inversed` | a matrix of integers of determinant 1 is inverted to zero in `float` | `C163_refuted` |
| `lerp(a,b,1)` | floating point: need not be `b` | `C103_refuted` |

The later properties, in order:

- **C165**: `Sphere::intersects(line)` and `Circle::intersects(line)` subtract the squared radius from the squared distance of the start, so for starts far away compared to the radius the ball is effectively fuzzy: in `float` the segment from (-8192, 3/2, 0) to (8192, 3/2, 0) is reported to hit the unit sphere (`C165_far`).
- **C166**: `closedBezierSpline` may overwrite the points with the second inner control points but not with the first: with `p2 = p1` it returns `true` and wrong control points (`C166_overlap`).
- **C167**: near the line `Line3::distance` and `Ray3::distance` are not only wrong for points exactly on it (C84): in `float` the point (1+2^-13, 1, 0), at less than 2^-26 from the line through the origin and (1, 1-2^-13, 0), is reported at √2 from it (`C167_near`).
- **C168**: in `float` `Plane::from` of the points (0,0,0), (1+2^-13, 1, 0) and (1, 1-2^-13, 0), which are not on a line, has the null vector as its normal; every point is at distance 0 from it, so as a face of a frustum it excludes nothing (`C168_sliver`).
- **C169**: in `float` `Mat3::set(Coord::X, (2,5,14), Coord::Z, (18,45,126+2^-17))` is nowhere near a rotation: two of its columns are almost parallel and its determinant is less than 1/5, because `approx × exact` consists of rounding errors and is tested only for being exactly 0 (`C169_collapse`).
- **C170**: in `float` `outerCircle` and `innerCircle` of the box from (1,1) to (1+2^-23, 1+2^-23) are both centred at the corner (1,1), since the midpoint is rounded: the outer circle has only about half of the radius that would contain the box, and three quarters of the inner one are outside (`C170_small`).
- **C171**: in `float` `frenetFrameAt` returns `false` at the start of the segment through (0,0,0), (1+2^-13,1,0), (3+2^-12,3-2^-13,0), (0,0,0), though its two derivatives there are independent: the two products in the cross product round to the same number (`C171_missed`).
- **C173**: in `float`, with 2^26 steps, `length` of the straight segment from (3,0,0) to (6,0,0) is at least 3.25 instead of 3: the steps are too short to move the running point, but their lengths are added, and the last chord then covers the whole segment again (`C173_refuted`).
- **C174**: in `double` with `RAND_MAX = 2^31 - 1` the largest draw makes `rand(2 - 2^-52)` return 2, and in `float` the largest draw makes `randBetween(-1, 3 * 2^-25)` return `4 * 2^-25`; both exceed the upper bound (`C174_rand_refuted`, `C174_between_refuted`).
- **C175**: in `float`, `evaluate(2^-30, 0, Exponential)` and the same with `Cosine` return 0 though the dead zone is empty: `pow(2, x) - 1` and `1 - cos(x)` lose all digits of a small argument (`C175_flat`).
- **C176**: in `float`, between `-9 * 2^-26` and the number below pi, which are less than half a turn apart, `clerp` goes the other way round: the difference is rounded to pi and `fmod` of two pi by two pi is zero (`C176_refuted`).
- **C177**: in `float`, `pointAt(1,1)` of the box from `(-1,0)` to `(3 * 2^-25,0)` is outside the box; the centred box made from the box from `(1,0)` to `(1 + 2^-23,0)` does not contain the second corner; moving a centred box and a point in it by the same vector can leave the point outside (`C177_refuted`).  Corner boxes can be moved safely.
- **C178**: in `float`, 11 degrees converted to radians and back are `11 + 2^-20` (`C178_refuted`); `cos(acos(0))` is not zero in any binary precision (`C178_acos_zero`).
- **C179**: in `float`, the parallel lines from `(-2^-24,0)` to `(1,1)` and from `(-3,0)` to `(3 * 2^-24,3)` are said to cross, and lines with directions `(1 + 2^-23,1)` and `(1,1 - 2^-23)` are said to be parallel (`C179_refuted`).
- **C180**: in `float`, from hue 0 to hue 359 at the ratio `2^-20`, `ColorHSV::interp` returns the hue 360 (`C180_refuted`).
- **C181**: in `float`, `Vec2::fromAngle(v.angle(), v.length())` and `Vec2::clerp(v, v, 0.5)` for `v = (1, 1)` both give `(1 - 2^-24, 1 - 2^-24)` (`C181_refuted`).
- **C182**: `Vec3::slerp` takes the angle from `asin`, which near the right angle turns one unit of the sine into an angle of order `√u`: in `double`, `slerp((1,1,0), (-1,1,0), 0.5)` has `x ≥ 8e-9`, some 50 million units, where the exact result is `(0, √2, 0)` (`C182_refuted`). `atan2` of cross and dot product would not lose these digits, and would also repair C31.
- **C183**: in `double`, `slerpMaxAngle((1,1,0), (-1,1,0), 2)` stops some 1.2e-8 before `(-1,1,0)` though the limit is above the right angle (`C183_refuted`), for the same reason as C182.
- **C184**: in `float`, `q = Quat(1, 0, 0, 4)` has `q.inverse() * q` with `w = 1 + 2^-23`, and `toAxisAngle` asserts `w <= 1`; so `slerpMaxAngle(q, q, m)` aborts in a debug build for every limit (`C184_assertion`). And the angle of a small rotation comes from `acos(w)`, which loses half of the digits near 1: 0.002533 comes back as 0.002490 (`C184_digits`). `2 * atan2(|v|, w)` would have neither fault.
- **C185**: as in exact arithmetic, opposite vectors give `(0, 0, 0, -1)`, which turns nothing (`C185_refuted`).
- **C187**: in every precision `log(exp(v))` is exactly null for `|v| <= 0.99 √u` (2.4e-4 in `float`), since `exp` rounds `w` to 1 and `log` looks at `w` only (`C187_lost`). Above `1.6 √u` it is right up to 11 units.
- **C188**: in every precision `fmodCentered(x, 1)` is `-1/2` for the largest number `x` below one half, since `x + 1/2` rounds to 1 (`C188_wrap`); and for `y = 1 + 2^-22`, `x = -y/2 - 2^-24` it is `y/2` in `float`, which is outside the half-open range (`C188_upper`).
- **C189**: in `float` the plane through `(0,0,0)`, `(1 + 2^-23, 1, 0)` and `(1 + 2^-22, 1 + 2^-23, 0)`, which are not on a line, has a null normal, since the cross product cancels (`C189_null`); every point is then on it. For sines above 64 units of rounding the plane is right up to `13 u / sine`.
- **C191**: in `float`, `project` along `(1 + 2^-12, 2^-24, 1)` returns a point for the normal `(1 + 2^-12, 1, -(1 + 2^-11 + 2^-23))` though the two are orthogonal; the test `f == 0` is made on a rounded sum (`C191_refuted`).
- **C193**: in `float` a box given by centre `(2^25, 0)` and extents `(1/2, 1)` has `area()` 2, but 0 after conversion to `AABB2` (`C193_lost`).  Exact conversions keep it (C65).
- **C194**: in `float` an `AABB2` from `3` to `2^24` in x, multiplied by `1`, goes from `3.5`; it does not contain its former corner (`C194_one`).
- **C195**: in `float` a plane at distance `1`, moved by `2^24` and by `-2^24`, is at distance `0` (`C195_back`); exactly, moving back is the identity.
