import Verif.Conformance.Base

/-!
# Unit tests of `tests/tests/src/test_interpolation.cpp`, replayed on the model

Generated by `tools/conform.py`; the numbers are the source lines of the checks.  123 checks;
12 checks of that file are not translated (casts, random draws, `sizeof`, `data()`, and
functions outside the model).
-/

namespace MathLib.Conformance
set_option linter.all false

namespace Interpolation_0
abbrev R := Float
def run : Res (List Nat) := do
  let mut bad : List Nat := []
  bad := ck bad 9 (Near.near (1e-10 : R) (interpolationRatio (0.0 : R) InterpolationMode.Linear) (0.0 : R))
  bad := ck bad 10 (Near.near (1e-10 : R) (interpolationRatio (0.5 : R) InterpolationMode.Linear) (0.5 : R))
  bad := ck bad 11 (Near.near (1e-10 : R) (interpolationRatio (1.0 : R) InterpolationMode.Linear) (1.0 : R))
  bad := ck bad 12 (Near.near (1e-10 : R) (interpolationRatio (0.0 : R) InterpolationMode.Parabolic) (0.0 : R))
  bad := ck bad 13 (Near.near (1e-10 : R) (interpolationRatio (0.5 : R) InterpolationMode.Parabolic) (0.25 : R))
  bad := ck bad 14 (Near.near (1e-10 : R) (interpolationRatio (1.0 : R) InterpolationMode.Parabolic) (1.0 : R))
  bad := ck bad 15 (Near.near (1e-10 : R) (interpolationRatio (0.0 : R) InterpolationMode.Cubic) (0.0 : R))
  bad := ck bad 16 (Near.near (1e-10 : R) (interpolationRatio (0.5 : R) InterpolationMode.Cubic) (0.125 : R))
  bad := ck bad 17 (Near.near (1e-10 : R) (interpolationRatio (1.0 : R) InterpolationMode.Cubic) (1.0 : R))
  bad := ck bad 18 (Near.near (1e-10 : R) (interpolationRatio (0.0 : R) InterpolationMode.Exponential) (0.0 : R))
  bad := ck bad 19 (Near.near (1e-10 : R) (interpolationRatio (0.5 : R) InterpolationMode.Exponential) (0.4142135624 : R))
  bad := ck bad 20 (Near.near (1e-10 : R) (interpolationRatio (1.0 : R) InterpolationMode.Exponential) (1.0 : R))
  bad := ck bad 21 (Near.near (1e-10 : R) (interpolationRatio (0.0 : R) InterpolationMode.Cosine) (0.0 : R))
  bad := ck bad 22 (Near.near (1e-10 : R) (interpolationRatio (0.5 : R) InterpolationMode.Cosine) (0.2928932188 : R))
  bad := ck bad 23 (Near.near (1e-10 : R) (interpolationRatio (1.0 : R) InterpolationMode.Cosine) (1.0 : R))
  bad := ck bad 24 (Near.near (1e-10 : R) (interpolationRatio (0.0 : R) InterpolationMode.QuadraticIn) (0.0 : R))
  bad := ck bad 25 (Near.near (1e-10 : R) (interpolationRatio (0.5 : R) InterpolationMode.QuadraticIn) (0.25 : R))
  bad := ck bad 26 (Near.near (1e-10 : R) (interpolationRatio (1.0 : R) InterpolationMode.QuadraticIn) (1.0 : R))
  bad := ck bad 27 (Near.near (1e-10 : R) (interpolationRatio (0.0 : R) InterpolationMode.QuadraticOut) (0.0 : R))
  bad := ck bad 28 (Near.near (1e-10 : R) (interpolationRatio (0.5 : R) InterpolationMode.QuadraticOut) (0.75 : R))
  bad := ck bad 29 (Near.near (1e-10 : R) (interpolationRatio (1.0 : R) InterpolationMode.QuadraticOut) (1.0 : R))
  bad := ck bad 30 (Near.near (1e-10 : R) (interpolationRatio (0.0 : R) InterpolationMode.QuadraticInOut) (0.0 : R))
  bad := ck bad 31 (Near.near (1e-10 : R) (interpolationRatio (0.5 : R) InterpolationMode.QuadraticInOut) (0.5 : R))
  bad := ck bad 32 (Near.near (1e-10 : R) (interpolationRatio (1.0 : R) InterpolationMode.QuadraticInOut) (1.0 : R))
  bad := ck bad 33 (Near.near (1e-10 : R) (interpolationRatio (0.0 : R) InterpolationMode.CubicIn) (0.0 : R))
  bad := ck bad 34 (Near.near (1e-10 : R) (interpolationRatio (0.5 : R) InterpolationMode.CubicIn) (0.125 : R))
  bad := ck bad 35 (Near.near (1e-10 : R) (interpolationRatio (1.0 : R) InterpolationMode.CubicIn) (1.0 : R))
  bad := ck bad 36 (Near.near (1e-10 : R) (interpolationRatio (0.0 : R) InterpolationMode.CubicOut) (0.0 : R))
  bad := ck bad 37 (Near.near (1e-10 : R) (interpolationRatio (0.5 : R) InterpolationMode.CubicOut) (0.875 : R))
  bad := ck bad 38 (Near.near (1e-10 : R) (interpolationRatio (1.0 : R) InterpolationMode.CubicOut) (1.0 : R))
  bad := ck bad 39 (Near.near (1e-10 : R) (interpolationRatio (0.0 : R) InterpolationMode.CubicInOut) (0.0 : R))
  bad := ck bad 40 (Near.near (1e-10 : R) (interpolationRatio (0.5 : R) InterpolationMode.CubicInOut) (0.5 : R))
  bad := ck bad 41 (Near.near (1e-10 : R) (interpolationRatio (1.0 : R) InterpolationMode.CubicInOut) (1.0 : R))
  bad := ck bad 42 (Near.near (1e-10 : R) (interpolationRatio (0.0 : R) InterpolationMode.QuarticIn) (0.0 : R))
  bad := ck bad 43 (Near.near (1e-10 : R) (interpolationRatio (0.5 : R) InterpolationMode.QuarticIn) (0.0625 : R))
  bad := ck bad 44 (Near.near (1e-10 : R) (interpolationRatio (1.0 : R) InterpolationMode.QuarticIn) (1.0 : R))
  bad := ck bad 45 (Near.near (1e-10 : R) (interpolationRatio (0.0 : R) InterpolationMode.QuarticOut) (0.0 : R))
  bad := ck bad 46 (Near.near (1e-10 : R) (interpolationRatio (0.5 : R) InterpolationMode.QuarticOut) (0.9375 : R))
  bad := ck bad 47 (Near.near (1e-10 : R) (interpolationRatio (1.0 : R) InterpolationMode.QuarticOut) (1.0 : R))
  bad := ck bad 48 (Near.near (1e-10 : R) (interpolationRatio (0.0 : R) InterpolationMode.QuarticInOut) (0.0 : R))
  bad := ck bad 49 (Near.near (1e-10 : R) (interpolationRatio (0.5 : R) InterpolationMode.QuarticInOut) (0.5 : R))
  bad := ck bad 50 (Near.near (1e-10 : R) (interpolationRatio (1.0 : R) InterpolationMode.QuarticInOut) (1.0 : R))
  bad := ck bad 51 (Near.near (1e-10 : R) (interpolationRatio (0.0 : R) InterpolationMode.QuinticIn) (0.0 : R))
  bad := ck bad 52 (Near.near (1e-10 : R) (interpolationRatio (0.5 : R) InterpolationMode.QuinticIn) (0.03125 : R))
  bad := ck bad 53 (Near.near (1e-10 : R) (interpolationRatio (1.0 : R) InterpolationMode.QuinticIn) (1.0 : R))
  bad := ck bad 54 (Near.near (1e-10 : R) (interpolationRatio (0.0 : R) InterpolationMode.QuinticOut) (0.0 : R))
  bad := ck bad 55 (Near.near (1e-10 : R) (interpolationRatio (0.5 : R) InterpolationMode.QuinticOut) (0.96875 : R))
  bad := ck bad 56 (Near.near (1e-10 : R) (interpolationRatio (1.0 : R) InterpolationMode.QuinticOut) (1.0 : R))
  bad := ck bad 57 (Near.near (1e-10 : R) (interpolationRatio (0.0 : R) InterpolationMode.QuinticInOut) (0.0 : R))
  bad := ck bad 58 (Near.near (1e-10 : R) (interpolationRatio (0.5 : R) InterpolationMode.QuinticInOut) (0.5 : R))
  bad := ck bad 59 (Near.near (1e-10 : R) (interpolationRatio (1.0 : R) InterpolationMode.QuinticInOut) (1.0 : R))
  bad := ck bad 60 (Near.near (1e-10 : R) (interpolationRatio (0.0 : R) InterpolationMode.SinusoidalIn) (0.0 : R))
  bad := ck bad 61 (Near.near (1e-10 : R) (interpolationRatio (0.5 : R) InterpolationMode.SinusoidalIn) (0.2928932188 : R))
  bad := ck bad 62 (Near.near (1e-10 : R) (interpolationRatio (1.0 : R) InterpolationMode.SinusoidalIn) (1.0 : R))
  bad := ck bad 63 (Near.near (1e-10 : R) (interpolationRatio (0.0 : R) InterpolationMode.SinusoidalOut) (0.0 : R))
  bad := ck bad 64 (Near.near (1e-10 : R) (interpolationRatio (0.5 : R) InterpolationMode.SinusoidalOut) (0.7071067812 : R))
  bad := ck bad 65 (Near.near (1e-10 : R) (interpolationRatio (1.0 : R) InterpolationMode.SinusoidalOut) (1.0 : R))
  bad := ck bad 66 (Near.near (1e-10 : R) (interpolationRatio (0.0 : R) InterpolationMode.SinusoidalInOut) (0.0 : R))
  bad := ck bad 67 (Near.near (1e-10 : R) (interpolationRatio (0.5 : R) InterpolationMode.SinusoidalInOut) (0.5 : R))
  bad := ck bad 68 (Near.near (1e-10 : R) (interpolationRatio (1.0 : R) InterpolationMode.SinusoidalInOut) (1.0 : R))
  bad := ck bad 69 (Near.near (1e-10 : R) (interpolationRatio (0.0 : R) InterpolationMode.ExponentialIn) (0.0 : R))
  bad := ck bad 70 (Near.near (1e-10 : R) (interpolationRatio (0.5 : R) InterpolationMode.ExponentialIn) (0.0303031056 : R))
  bad := ck bad 71 (Near.near (1e-10 : R) (interpolationRatio (1.0 : R) InterpolationMode.ExponentialIn) (1.0 : R))
  bad := ck bad 72 (Near.near (1e-10 : R) (interpolationRatio (0.0 : R) InterpolationMode.ExponentialOut) (0.0 : R))
  bad := ck bad 73 (Near.near (1e-10 : R) (interpolationRatio (0.5 : R) InterpolationMode.ExponentialOut) (0.9696968944 : R))
  bad := ck bad 74 (Near.near (1e-10 : R) (interpolationRatio (1.0 : R) InterpolationMode.ExponentialOut) (1.0 : R))
  bad := ck bad 75 (Near.near (1e-10 : R) (interpolationRatio (0.0 : R) InterpolationMode.ExponentialInOut) (0.0 : R))
  bad := ck bad 76 (Near.near (1e-10 : R) (interpolationRatio (0.5 : R) InterpolationMode.ExponentialInOut) (0.4999987502 : R))
  bad := ck bad 77 (Near.near (1e-10 : R) (interpolationRatio (1.0 : R) InterpolationMode.ExponentialInOut) (1.0 : R))
  bad := ck bad 78 (Near.near (1e-10 : R) (interpolationRatio (0.0 : R) InterpolationMode.Exponential2In) (0.0 : R))
  bad := ck bad 79 (Near.near (1e-10 : R) (interpolationRatio (0.5 : R) InterpolationMode.Exponential2In) (0.0009765625 : R))
  bad := ck bad 80 (Near.near (1e-10 : R) (interpolationRatio (1.0 : R) InterpolationMode.Exponential2In) (1.0 : R))
  bad := ck bad 81 (Near.near (1e-10 : R) (interpolationRatio (0.0 : R) InterpolationMode.Exponential2Out) (0.0 : R))
  bad := ck bad 82 (Near.near (1e-10 : R) (interpolationRatio (0.5 : R) InterpolationMode.Exponential2Out) (0.9990234375 : R))
  bad := ck bad 83 (Near.near (1e-10 : R) (interpolationRatio (1.0 : R) InterpolationMode.Exponential2Out) (1.0 : R))
  bad := ck bad 84 (Near.near (1e-10 : R) (interpolationRatio (0.0 : R) InterpolationMode.Exponential2InOut) (0.0 : R))
  bad := ck bad 85 (Near.near (1e-10 : R) (interpolationRatio (0.5 : R) InterpolationMode.Exponential2InOut) (0.5 : R))
  bad := ck bad 86 (Near.near (1e-10 : R) (interpolationRatio (1.0 : R) InterpolationMode.Exponential2InOut) (1.0 : R))
  bad := ck bad 87 (Near.near (1e-10 : R) (interpolationRatio (0.0 : R) InterpolationMode.CircularIn) (0.0 : R))
  bad := ck bad 88 (Near.near (1e-10 : R) (interpolationRatio (0.5 : R) InterpolationMode.CircularIn) (0.1339745962 : R))
  bad := ck bad 89 (Near.near (1e-10 : R) (interpolationRatio (1.0 : R) InterpolationMode.CircularIn) (1.0 : R))
  bad := ck bad 90 (Near.near (1e-10 : R) (interpolationRatio (0.0 : R) InterpolationMode.CircularOut) (0.0 : R))
  bad := ck bad 91 (Near.near (1e-10 : R) (interpolationRatio (0.5 : R) InterpolationMode.CircularOut) (0.8660254038 : R))
  bad := ck bad 92 (Near.near (1e-10 : R) (interpolationRatio (1.0 : R) InterpolationMode.CircularOut) (1.0 : R))
  bad := ck bad 93 (Near.near (1e-10 : R) (interpolationRatio (0.0 : R) InterpolationMode.CircularInOut) (0.0 : R))
  bad := ck bad 94 (Near.near (1e-10 : R) (interpolationRatio (0.5 : R) InterpolationMode.CircularInOut) (0.5 : R))
  bad := ck bad 95 (Near.near (1e-10 : R) (interpolationRatio (1.0 : R) InterpolationMode.CircularInOut) (1.0 : R))
  return bad
end Interpolation_0
#guard passes Interpolation_0.run

namespace Interpolation_1
abbrev R := Float
def run : Res (List Nat) := do
  let mut bad : List Nat := []
  bad := ck bad 100 (decide ((← lerpInt toR 0 100 (0.0 : R)) = 0))
  bad := ck bad 101 (decide ((← lerpInt toR 0 100 (0.5 : R)) = 50))
  bad := ck bad 102 (decide ((← lerpInt toR 0 100 (1.0 : R)) = 100))
  return bad
end Interpolation_1
#guard passes Interpolation_1.run

namespace Interpolation_2
abbrev R := Float
def run : Res (List Nat) := do
  let mut bad : List Nat := []
  bad := ck bad 107 (Near.near (1e-10 : R) (lerp (0.0 : R) (100.0 : R) (0.0 : R)) (0.0 : R))
  bad := ck bad 108 (Near.near (1e-10 : R) (lerp (0.0 : R) (100.0 : R) (0.5 : R)) (50.0 : R))
  bad := ck bad 109 (Near.near (1e-10 : R) (lerp (0.0 : R) (100.0 : R) (1.0 : R)) (100.0 : R))
  return bad
end Interpolation_2
#guard passes Interpolation_2.run

namespace Interpolation_3
abbrev R := Float32
def run : Res (List Nat) := do
  let mut bad : List Nat := []
  bad := ck bad 114 (Near.near (1e-10 : R) (lerpVec2 (Vec2.zero : Vec2 R) (⟨(1.0 : R), (1.0 : R)⟩ : Vec2 R) (0.0 : R)) (Vec2.zero : Vec2 R))
  bad := ck bad 115 (Near.near (1e-10 : R) (lerpVec2 (Vec2.zero : Vec2 R) (⟨(1.0 : R), (1.0 : R)⟩ : Vec2 R) (0.5 : R)) (⟨(0.5 : R), (0.5 : R)⟩ : Vec2 R))
  bad := ck bad 116 (Near.near (1e-10 : R) (lerpVec2 (Vec2.zero : Vec2 R) (⟨(1.0 : R), (1.0 : R)⟩ : Vec2 R) (1.0 : R)) (⟨(1.0 : R), (1.0 : R)⟩ : Vec2 R))
  return bad
end Interpolation_3
#guard passes Interpolation_3.run

namespace Interpolation_4
abbrev R := Float32
def run : Res (List Nat) := do
  let mut bad : List Nat := []
  bad := ck bad 121 (Near.near (1e-10 : R) (lerpVec3 (Vec3.zero : Vec3 R) (⟨(1.0 : R), (1.0 : R), (1.0 : R)⟩ : Vec3 R) (0.0 : R)) (Vec3.zero : Vec3 R))
  bad := ck bad 122 (Near.near (1e-10 : R) (lerpVec3 (Vec3.zero : Vec3 R) (⟨(1.0 : R), (1.0 : R), (1.0 : R)⟩ : Vec3 R) (0.5 : R)) (⟨(0.5 : R), (0.5 : R), (0.5 : R)⟩ : Vec3 R))
  bad := ck bad 123 (Near.near (1e-10 : R) (lerpVec3 (Vec3.zero : Vec3 R) (⟨(1.0 : R), (1.0 : R), (1.0 : R)⟩ : Vec3 R) (1.0 : R)) (⟨(1.0 : R), (1.0 : R), (1.0 : R)⟩ : Vec3 R))
  return bad
end Interpolation_4
#guard passes Interpolation_4.run

namespace Interpolation_5
abbrev R := Float
def run : Res (List Nat) := do
  let mut bad : List Nat := []
  bad := ck bad 128 (decide ((← lerpIntMode toR 0 100 (0.0 : R) InterpolationMode.Cubic) = 0))
  bad := ck bad 129 (decide ((← lerpIntMode toR 0 100 (0.5 : R) InterpolationMode.Cubic) = 12))
  bad := ck bad 130 (decide ((← lerpIntMode toR 0 100 (1.0 : R) InterpolationMode.Cubic) = 100))
  return bad
end Interpolation_5
#guard passes Interpolation_5.run

namespace Interpolation_6
abbrev R := Float
def run : Res (List Nat) := do
  let mut bad : List Nat := []
  bad := ck bad 135 (Near.near (1e-10 : R) (lerpMode (0.0 : R) (100.0 : R) (0.0 : R) InterpolationMode.Cubic) (0.0 : R))
  bad := ck bad 136 (Near.near (1e-10 : R) (lerpMode (0.0 : R) (100.0 : R) (0.5 : R) InterpolationMode.Cubic) (12.5 : R))
  bad := ck bad 137 (Near.near (1e-10 : R) (lerpMode (0.0 : R) (100.0 : R) (1.0 : R) InterpolationMode.Cubic) (100.0 : R))
  return bad
end Interpolation_6
#guard passes Interpolation_6.run

namespace Interpolation_7
abbrev R := Float32
def run : Res (List Nat) := do
  let mut bad : List Nat := []
  bad := ck bad 142 (Near.near (1e-10 : R) (lerpVec2Mode (Vec2.zero : Vec2 R) (⟨(1.0 : R), (1.0 : R)⟩ : Vec2 R) (0.0 : R) InterpolationMode.Cubic) (Vec2.zero : Vec2 R))
  bad := ck bad 143 (Near.near (1e-10 : R) (lerpVec2Mode (Vec2.zero : Vec2 R) (⟨(1.0 : R), (1.0 : R)⟩ : Vec2 R) (0.5 : R) InterpolationMode.Cubic) (⟨(0.125 : R), (0.125 : R)⟩ : Vec2 R))
  bad := ck bad 144 (Near.near (1e-10 : R) (lerpVec2Mode (Vec2.zero : Vec2 R) (⟨(1.0 : R), (1.0 : R)⟩ : Vec2 R) (1.0 : R) InterpolationMode.Cubic) (⟨(1.0 : R), (1.0 : R)⟩ : Vec2 R))
  return bad
end Interpolation_7
#guard passes Interpolation_7.run

namespace Interpolation_8
abbrev R := Float32
def run : Res (List Nat) := do
  let mut bad : List Nat := []
  bad := ck bad 149 (Near.near (1e-10 : R) (lerpVec3Mode (Vec3.zero : Vec3 R) (⟨(1.0 : R), (1.0 : R), (1.0 : R)⟩ : Vec3 R) (0.0 : R) InterpolationMode.Cubic) (Vec3.zero : Vec3 R))
  bad := ck bad 150 (Near.near (1e-10 : R) (lerpVec3Mode (Vec3.zero : Vec3 R) (⟨(1.0 : R), (1.0 : R), (1.0 : R)⟩ : Vec3 R) (0.5 : R) InterpolationMode.Cubic) (⟨(0.125 : R), (0.125 : R), (0.125 : R)⟩ : Vec3 R))
  bad := ck bad 151 (Near.near (1e-10 : R) (lerpVec3Mode (Vec3.zero : Vec3 R) (⟨(1.0 : R), (1.0 : R), (1.0 : R)⟩ : Vec3 R) (1.0 : R) InterpolationMode.Cubic) (⟨(1.0 : R), (1.0 : R), (1.0 : R)⟩ : Vec3 R))
  return bad
end Interpolation_8
#guard passes Interpolation_8.run

namespace Interpolation_9
abbrev R := Float
def run : Res (List Nat) := do
  let mut bad : List Nat := []
  bad := ck bad 156 (Near.near (1e-10 : R) (clerp (0.0 : R) (MathFns.pi : R) (0.0 : R)) (0.0 : R))
  bad := ck bad 157 (Near.near (1e-10 : R) (clerp (0.0 : R) (MathFns.pi : R) (0.5 : R)) (-((MathFns.pi : R) / 2)))
  bad := ck bad 158 (Near.near (1e-10 : R) (clerp (0.0 : R) (MathFns.pi : R) (1.0 : R)) (-(MathFns.pi : R)))
  bad := ck bad 160 (Near.near (1e-10 : R) (clerp (0.0 : R) ((MathFns.pi : R) * (1.5 : R)) (0.0 : R)) (0.0 : R))
  bad := ck bad 161 (Near.near (1e-10 : R) (clerp (0.0 : R) ((MathFns.pi : R) * (1.5 : R)) (0.5 : R)) (-((MathFns.pi : R) / 4)))
  bad := ck bad 162 (Near.near (1e-10 : R) (clerp (0.0 : R) ((MathFns.pi : R) * (1.5 : R)) (1.0 : R)) (-((MathFns.pi : R) / 2)))
  return bad
end Interpolation_9
#guard passes Interpolation_9.run

namespace Interpolation_10
abbrev R := Float
def run : Res (List Nat) := do
  let mut bad : List Nat := []
  bad := ck bad 167 (Near.near (1e-10 : R) (clerpMaxAngle (0.0 : R) (MathFns.pi : R) (0.0 : R)) (0.0 : R))
  bad := ck bad 168 (Near.near (1e-10 : R) (clerpMaxAngle (0.0 : R) (MathFns.pi : R) ((MathFns.pi : R) / 2)) (-((MathFns.pi : R) / 2)))
  bad := ck bad 169 (Near.near (1e-10 : R) (clerpMaxAngle (0.0 : R) (MathFns.pi : R) ((MathFns.pi : R) * (10.0 : R))) (-(MathFns.pi : R)))
  bad := ck bad 171 (Near.near (1e-10 : R) (clerpMaxAngle (0.0 : R) ((MathFns.pi : R) * (1.5 : R)) (0.0 : R)) (0.0 : R))
  bad := ck bad 172 (Near.near (1e-10 : R) (clerpMaxAngle (0.0 : R) ((MathFns.pi : R) * (1.5 : R)) ((MathFns.pi : R) / 4)) (-((MathFns.pi : R) / 4)))
  bad := ck bad 173 (Near.near (1e-10 : R) (clerpMaxAngle (0.0 : R) ((MathFns.pi : R) * (1.5 : R)) ((MathFns.pi : R) * (10.0 : R))) (-((MathFns.pi : R) / 2)))
  return bad
end Interpolation_10
#guard passes Interpolation_10.run

end MathLib.Conformance
