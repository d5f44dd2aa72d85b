import Verif.Conformance.Base

/-!
# Unit tests of `tests/tests/src/test_functions.cpp`, replayed on the model

Generated by `tools/conform.py`; the numbers are the source lines of the checks.  107 checks;
0 checks of that file are not translated (casts, random draws, `sizeof`, `data()`, and
functions outside the model).
-/

namespace MathLib.Conformance
set_option linter.all false

namespace Functions_0
abbrev R := Float
def run : Res (List Nat) := do
  let mut bad : List Nat := []
  bad := ck bad 9 (decide ((next2D Coord.X) = Coord.Y))
  bad := ck bad 10 (decide ((next2D Coord.Y) = Coord.X))
  bad := ck bad 11 (decide ((next2D Coord.Z) = Coord.Undefined))
  bad := ck bad 12 (decide ((next2D Coord.Undefined) = Coord.Undefined))
  return bad
end Functions_0
#guard passes Functions_0.run

namespace Functions_1
abbrev R := Float
def run : Res (List Nat) := do
  let mut bad : List Nat := []
  bad := ck bad 17 (decide ((next3D Coord.X) = Coord.Y))
  bad := ck bad 18 (decide ((next3D Coord.Y) = Coord.Z))
  bad := ck bad 19 (decide ((next3D Coord.Z) = Coord.X))
  bad := ck bad 20 (decide ((next3D Coord.Undefined) = Coord.Undefined))
  return bad
end Functions_1
#guard passes Functions_1.run

namespace Functions_2
abbrev R := Float
def run : Res (List Nat) := do
  let mut bad : List Nat := []
  bad := ck bad 25 ((degreeToRadian (0.0 : R)) == (0.0 : R))
  bad := ck bad 26 ((degreeToRadian (180.0 : R)) == (MathFns.pi : R))
  return bad
end Functions_2
#guard passes Functions_2.run

namespace Functions_3
abbrev R := Float
def run : Res (List Nat) := do
  let mut bad : List Nat := []
  bad := ck bad 31 ((radianToDegree (0.0 : R)) == (0.0 : R))
  bad := ck bad 32 ((radianToDegree (MathFns.pi : R)) == (180.0 : R))
  return bad
end Functions_3
#guard passes Functions_3.run

namespace Functions_4
abbrev R := Float
def run : Res (List Nat) := do
  let mut bad : List Nat := []
  bad := ck bad 37 (Near.near (0.0 : R) (asin' (0.0 : R)) (0.0 : R))
  bad := ck bad 38 (Near.near (1e-10 : R) (asin' (1.0 : R)) ((MathFns.pi : R) / 2))
  bad := ck bad 39 (Near.near (1e-10 : R) (asin' (-(1.0 : R))) (-((MathFns.pi : R) / 2)))
  return bad
end Functions_4
#guard passes Functions_4.run

namespace Functions_5
abbrev R := Float
def run : Res (List Nat) := do
  let mut bad : List Nat := []
  bad := ck bad 44 (Near.near (1e-10 : R) (acos' (0.0 : R)) ((MathFns.pi : R) / 2))
  bad := ck bad 45 (Near.near (0.0 : R) (acos' (1.0 : R)) (0.0 : R))
  bad := ck bad 46 (Near.near (1e-10 : R) (acos' (-(1.0 : R))) (MathFns.pi : R))
  return bad
end Functions_5
#guard passes Functions_5.run

namespace Functions_6
abbrev R := Float
def run : Res (List Nat) := do
  let mut bad : List Nat := []
  bad := ck bad 147 ((← fmod' (0.0 : R) (10.0 : R)) == (0.0 : R))
  bad := ck bad 148 ((← fmod' (5.0 : R) (10.0 : R)) == (5.0 : R))
  bad := ck bad 149 ((← fmod' (10.0 : R) (10.0 : R)) == (0.0 : R))
  bad := ck bad 150 ((← fmod' (15.0 : R) (10.0 : R)) == (5.0 : R))
  bad := ck bad 151 ((← fmod' (-(5.0 : R)) (10.0 : R)) == (-(5.0 : R)))
  bad := ck bad 152 ((← fmod' (-(10.0 : R)) (10.0 : R)) == (0.0 : R))
  bad := ck bad 153 ((← fmod' (-(15.0 : R)) (10.0 : R)) == (-(5.0 : R)))
  return bad
end Functions_6
#guard passes Functions_6.run

namespace Functions_7
abbrev R := Float
def run : Res (List Nat) := do
  let mut bad : List Nat := []
  bad := ck bad 158 ((← fmodPositive (0.0 : R) (10.0 : R)) == (0.0 : R))
  bad := ck bad 159 ((← fmodPositive (5.0 : R) (10.0 : R)) == (5.0 : R))
  bad := ck bad 160 ((← fmodPositive (10.0 : R) (10.0 : R)) == (0.0 : R))
  bad := ck bad 161 ((← fmodPositive (15.0 : R) (10.0 : R)) == (5.0 : R))
  bad := ck bad 162 ((← fmodPositive (-(5.0 : R)) (10.0 : R)) == (5.0 : R))
  bad := ck bad 163 ((← fmodPositive (-(10.0 : R)) (10.0 : R)) == (0.0 : R))
  bad := ck bad 164 ((← fmodPositive (-(15.0 : R)) (10.0 : R)) == (5.0 : R))
  return bad
end Functions_7
#guard passes Functions_7.run

namespace Functions_8
abbrev R := Float
def run : Res (List Nat) := do
  let mut bad : List Nat := []
  bad := ck bad 169 ((← fmodCentered (0.0 : R) (10.0 : R)) == (0.0 : R))
  bad := ck bad 170 ((← fmodCentered (5.0 : R) (10.0 : R)) == (-(5.0 : R)))
  bad := ck bad 171 ((← fmodCentered (10.0 : R) (10.0 : R)) == (0.0 : R))
  bad := ck bad 172 ((← fmodCentered (15.0 : R) (10.0 : R)) == (-(5.0 : R)))
  bad := ck bad 173 ((← fmodCentered (-(5.0 : R)) (10.0 : R)) == (-(5.0 : R)))
  bad := ck bad 174 ((← fmodCentered (-(10.0 : R)) (10.0 : R)) == (0.0 : R))
  bad := ck bad 175 ((← fmodCentered (-(15.0 : R)) (10.0 : R)) == (-(5.0 : R)))
  return bad
end Functions_8
#guard passes Functions_8.run

namespace Functions_9
abbrev R := Float
def run : Res (List Nat) := do
  let mut bad : List Nat := []
  bad := ck bad 180 ((distance2 (Vec2.zero : Vec2 R) (Vec2.zero : Vec2 R)) == (0.0 : R))
  bad := ck bad 181 ((distance2 (Vec2.zero : Vec2 R) (Vec2.oneX : Vec2 R)) == (1.0 : R))
  bad := ck bad 182 ((distance2 (Vec2.zero : Vec2 R) ((Vec2.oneX : Vec2 R) * (2 : R))) == (2.0 : R))
  bad := ck bad 183 (Near.near (1e-10 : R) (distance2 (Vec2.oneX : Vec2 R) (Vec2.oneY : Vec2 R)) (1.4142135624 : R))
  return bad
end Functions_9
#guard passes Functions_9.run

namespace Functions_10
abbrev R := Float
def run : Res (List Nat) := do
  let mut bad : List Nat := []
  bad := ck bad 189 ((distanceSqr2 (Vec2.zero : Vec2 R) (Vec2.zero : Vec2 R)) == (0.0 : R))
  bad := ck bad 190 ((distanceSqr2 (Vec2.zero : Vec2 R) (Vec2.oneX : Vec2 R)) == (1.0 : R))
  bad := ck bad 191 ((distanceSqr2 (Vec2.zero : Vec2 R) ((Vec2.oneX : Vec2 R) * (2 : R))) == (4.0 : R))
  bad := ck bad 192 ((distanceSqr2 (Vec2.oneX : Vec2 R) (Vec2.oneY : Vec2 R)) == (2.0 : R))
  return bad
end Functions_10
#guard passes Functions_10.run

namespace Functions_11
abbrev R := Float
def run : Res (List Nat) := do
  let mut bad : List Nat := []
  bad := ck bad 197 ((distance3 (Vec3.zero : Vec3 R) (Vec3.zero : Vec3 R)) == (0.0 : R))
  bad := ck bad 198 ((distance3 (Vec3.zero : Vec3 R) (Vec3.oneX : Vec3 R)) == (1.0 : R))
  bad := ck bad 199 ((distance3 (Vec3.zero : Vec3 R) ((Vec3.oneX : Vec3 R) * (2 : R))) == (2.0 : R))
  bad := ck bad 200 (Near.near (1e-10 : R) (distance3 (Vec3.oneX : Vec3 R) (Vec3.oneY : Vec3 R)) (1.4142135624 : R))
  bad := ck bad 202 (Near.near (1e-10 : R) (distance3 (Vec3.oneX : Vec3 R) (Vec3.oneZ : Vec3 R)) (1.4142135624 : R))
  bad := ck bad 204 (Near.near (1e-10 : R) (distance3 (Vec3.oneY : Vec3 R) (Vec3.oneZ : Vec3 R)) (1.4142135624 : R))
  return bad
end Functions_11
#guard passes Functions_11.run

namespace Functions_12
abbrev R := Float
def run : Res (List Nat) := do
  let mut bad : List Nat := []
  bad := ck bad 210 ((distanceSqr3 (Vec3.zero : Vec3 R) (Vec3.zero : Vec3 R)) == (0.0 : R))
  bad := ck bad 211 ((distanceSqr3 (Vec3.zero : Vec3 R) (Vec3.oneX : Vec3 R)) == (1.0 : R))
  bad := ck bad 212 ((distanceSqr3 (Vec3.zero : Vec3 R) ((Vec3.oneX : Vec3 R) * (2 : R))) == (4.0 : R))
  bad := ck bad 213 ((distanceSqr3 (Vec3.oneX : Vec3 R) (Vec3.oneY : Vec3 R)) == (2.0 : R))
  bad := ck bad 214 ((distanceSqr3 (Vec3.oneX : Vec3 R) (Vec3.oneZ : Vec3 R)) == (2.0 : R))
  bad := ck bad 215 ((distanceSqr3 (Vec3.oneY : Vec3 R) (Vec3.oneZ : Vec3 R)) == (2.0 : R))
  return bad
end Functions_12
#guard passes Functions_12.run

namespace Functions_13
abbrev R := Float
def run : Res (List Nat) := do
  let mut bad : List Nat := []
  bad := ck bad 220 ((min' (-10 : R) (-20 : R)) == (-20 : R))
  bad := ck bad 221 ((min' (-20 : R) (-10 : R)) == (-20 : R))
  bad := ck bad 222 ((min' (0 : R) (0 : R)) == (0 : R))
  bad := ck bad 223 ((min' (10 : R) (20 : R)) == (10 : R))
  bad := ck bad 224 ((min' (20 : R) (10 : R)) == (10 : R))
  return bad
end Functions_13
#guard passes Functions_13.run

namespace Functions_14
abbrev R := Float
def run : Res (List Nat) := do
  let mut bad : List Nat := []
  bad := ck bad 229 ((min' (-(10.0 : R)) (-(20.0 : R))) == (-(20.0 : R)))
  bad := ck bad 230 ((min' (-(20.0 : R)) (-(10.0 : R))) == (-(20.0 : R)))
  bad := ck bad 231 ((min' (0.0 : R) (0.0 : R)) == (0.0 : R))
  bad := ck bad 232 ((min' (10.0 : R) (20.0 : R)) == (10.0 : R))
  bad := ck bad 233 ((min' (20.0 : R) (10.0 : R)) == (10.0 : R))
  return bad
end Functions_14
#guard passes Functions_14.run

namespace Functions_15
abbrev R := Float
def run : Res (List Nat) := do
  let mut bad : List Nat := []
  bad := ck bad 238 ((max' (-10 : R) (-20 : R)) == (-10 : R))
  bad := ck bad 239 ((max' (-20 : R) (-10 : R)) == (-10 : R))
  bad := ck bad 240 ((max' (0 : R) (0 : R)) == (0 : R))
  bad := ck bad 241 ((max' (10 : R) (20 : R)) == (20 : R))
  bad := ck bad 242 ((max' (20 : R) (10 : R)) == (20 : R))
  return bad
end Functions_15
#guard passes Functions_15.run

namespace Functions_16
abbrev R := Float
def run : Res (List Nat) := do
  let mut bad : List Nat := []
  bad := ck bad 247 ((max' (-(10.0 : R)) (-(20.0 : R))) == (-(10.0 : R)))
  bad := ck bad 248 ((max' (-(20.0 : R)) (-(10.0 : R))) == (-(10.0 : R)))
  bad := ck bad 249 ((max' (0.0 : R) (0.0 : R)) == (0.0 : R))
  bad := ck bad 250 ((max' (10.0 : R) (20.0 : R)) == (20.0 : R))
  bad := ck bad 251 ((max' (20.0 : R) (10.0 : R)) == (20.0 : R))
  return bad
end Functions_16
#guard passes Functions_16.run

namespace Functions_17
abbrev R := Float
def run : Res (List Nat) := do
  let mut bad : List Nat := []
  bad := ck bad 256 ((clippedBetween (9 : R) (10 : R) (20 : R)) == (10 : R))
  bad := ck bad 257 ((clippedBetween (10 : R) (10 : R) (20 : R)) == (10 : R))
  bad := ck bad 258 ((clippedBetween (15 : R) (10 : R) (20 : R)) == (15 : R))
  bad := ck bad 259 ((clippedBetween (20 : R) (10 : R) (20 : R)) == (20 : R))
  bad := ck bad 260 ((clippedBetween (21 : R) (10 : R) (20 : R)) == (20 : R))
  return bad
end Functions_17
#guard passes Functions_17.run

namespace Functions_18
abbrev R := Float
def run : Res (List Nat) := do
  let mut bad : List Nat := []
  bad := ck bad 265 ((clippedBetween (9.0 : R) (10.0 : R) (20.0 : R)) == (10.0 : R))
  bad := ck bad 266 ((clippedBetween (10.0 : R) (10.0 : R) (20.0 : R)) == (10.0 : R))
  bad := ck bad 267 ((clippedBetween (15.0 : R) (10.0 : R) (20.0 : R)) == (15.0 : R))
  bad := ck bad 268 ((clippedBetween (20.0 : R) (10.0 : R) (20.0 : R)) == (20.0 : R))
  bad := ck bad 269 ((clippedBetween (21.0 : R) (10.0 : R) (20.0 : R)) == (20.0 : R))
  return bad
end Functions_18
#guard passes Functions_18.run

namespace Functions_19
abbrev R := Float
def run : Res (List Nat) := do
  let mut bad : List Nat := []
  bad := ck bad 274 ((← evaluate (0.0 : R) (0.0 : R) ResponseCurveType.Zero) == (0.0 : R))
  bad := ck bad 275 ((← evaluate (0.5 : R) (0.0 : R) ResponseCurveType.Zero) == (0.0 : R))
  bad := ck bad 276 ((← evaluate (1.0 : R) (0.0 : R) ResponseCurveType.Zero) == (0.0 : R))
  return bad
end Functions_19
#guard passes Functions_19.run

namespace Functions_20
abbrev R := Float
def run : Res (List Nat) := do
  let mut bad : List Nat := []
  bad := ck bad 281 ((← evaluate (0.0 : R) (0.0 : R) ResponseCurveType.Linear) == (0.0 : R))
  bad := ck bad 282 ((← evaluate (0.5 : R) (0.0 : R) ResponseCurveType.Linear) == (0.5 : R))
  bad := ck bad 283 ((← evaluate (1.0 : R) (0.0 : R) ResponseCurveType.Linear) == (1.0 : R))
  return bad
end Functions_20
#guard passes Functions_20.run

namespace Functions_21
abbrev R := Float
def run : Res (List Nat) := do
  let mut bad : List Nat := []
  bad := ck bad 288 ((← evaluate (0.0 : R) (0.0 : R) ResponseCurveType.Parabolic) == (0.0 : R))
  bad := ck bad 289 ((← evaluate (0.5 : R) (0.0 : R) ResponseCurveType.Parabolic) == (0.25 : R))
  bad := ck bad 290 ((← evaluate (1.0 : R) (0.0 : R) ResponseCurveType.Parabolic) == (1.0 : R))
  return bad
end Functions_21
#guard passes Functions_21.run

namespace Functions_22
abbrev R := Float
def run : Res (List Nat) := do
  let mut bad : List Nat := []
  bad := ck bad 295 ((← evaluate (0.0 : R) (0.0 : R) ResponseCurveType.Cubic) == (0.0 : R))
  bad := ck bad 296 ((← evaluate (0.5 : R) (0.0 : R) ResponseCurveType.Cubic) == (0.125 : R))
  bad := ck bad 297 ((← evaluate (1.0 : R) (0.0 : R) ResponseCurveType.Cubic) == (1.0 : R))
  return bad
end Functions_22
#guard passes Functions_22.run

namespace Functions_23
abbrev R := Float
def run : Res (List Nat) := do
  let mut bad : List Nat := []
  bad := ck bad 302 ((← evaluate (0.0 : R) (0.0 : R) ResponseCurveType.Exponential) == (0.0 : R))
  bad := ck bad 303 (Near.near (1e-10 : R) (← evaluate (0.5 : R) (0.0 : R) ResponseCurveType.Exponential) (0.4142135624 : R))
  bad := ck bad 305 ((← evaluate (1.0 : R) (0.0 : R) ResponseCurveType.Exponential) == (1.0 : R))
  return bad
end Functions_23
#guard passes Functions_23.run

namespace Functions_24
abbrev R := Float
def run : Res (List Nat) := do
  let mut bad : List Nat := []
  bad := ck bad 310 ((← evaluate (0.0 : R) (0.0 : R) ResponseCurveType.Cosine) == (0.0 : R))
  bad := ck bad 311 (Near.near (1e-10 : R) (← evaluate (0.5 : R) (0.0 : R) ResponseCurveType.Cosine) (0.292893219 : R))
  bad := ck bad 313 ((← evaluate (1.0 : R) (0.0 : R) ResponseCurveType.Cosine) == (1.0 : R))
  return bad
end Functions_24
#guard passes Functions_24.run

end MathLib.Conformance
