import Verif.Conformance.Base

/-!
# Unit tests of `tests/tests/src/test_spline3.cpp`, replayed on the model

Generated by `tools/conform.py`; the numbers are the source lines of the checks.  235 checks;
6 checks of that file are not translated (casts, random draws, `sizeof`, `data()`, and
functions outside the model).
-/

namespace MathLib.Conformance
set_option linter.all false

namespace Spline3_0
abbrev R := Float32
def run : Res (List Nat) := do
  let mut bad : List Nat := []
  let v1 : Vec3 R := (⟨(0 : R), (0 : R), (0 : R)⟩ : Vec3 R)
  let v2 : Vec3 R := (⟨(1 : R), (1 : R), (1 : R)⟩ : Vec3 R)
  let v3 : Vec3 R := (⟨(0 : R), (1 : R), (0 : R)⟩ : Vec3 R)
  let v4 : Vec3 R := (⟨(1 : R), (0 : R), (1 : R)⟩ : Vec3 R)
  let v5 : HermiteSplineSegment3 R := (⟨v1, v2, v3, v4⟩ : HermiteSplineSegment3 R)
  bad := ck bad 26 (Vec3.eq v5.P1 v1)
  bad := ck bad 27 (Vec3.eq v5.P4 v2)
  bad := ck bad 28 (Vec3.eq v5.R1 v3)
  bad := ck bad 29 (Vec3.eq v5.R4 v4)
  return bad
end Spline3_0
#guard passes Spline3_0.run

namespace Spline3_1
abbrev R := Float32
def run : Res (List Nat) := do
  let mut bad : List Nat := []
  let v1 : Vec3 R := (⟨(0 : R), (0 : R), (0 : R)⟩ : Vec3 R)
  let v2 : Vec3 R := (⟨(1 : R), (1 : R), (1 : R)⟩ : Vec3 R)
  let v3 : Vec3 R := (⟨(0 : R), (1 : R), (0 : R)⟩ : Vec3 R)
  let v4 : Vec3 R := (⟨(1 : R), (0 : R), (1 : R)⟩ : Vec3 R)
  let v5 : HermiteSplineSegment3 R := (⟨v1, v2, v3, v4⟩ : HermiteSplineSegment3 R)
  bad := ck bad 37 (Vec3.eq v5.P1 v1)
  bad := ck bad 38 (Vec3.eq v5.P4 v2)
  bad := ck bad 39 (Vec3.eq v5.R1 v3)
  bad := ck bad 40 (Vec3.eq v5.R4 v4)
  return bad
end Spline3_1
#guard passes Spline3_1.run

namespace Spline3_2
abbrev R := Float32
def run : Res (List Nat) := do
  let mut bad : List Nat := []
  bad := ck bad 77 (Near.near (1e-6 : R) (HermiteSplineSegment3.hp1 (0.0 : R)) (1.0000 : R))
  bad := ck bad 78 (Near.near (1e-6 : R) (HermiteSplineSegment3.hp1 (0.1 : R)) (0.9720 : R))
  bad := ck bad 79 (Near.near (1e-6 : R) (HermiteSplineSegment3.hp1 (0.2 : R)) (0.8960 : R))
  bad := ck bad 80 (Near.near (1e-6 : R) (HermiteSplineSegment3.hp1 (0.3 : R)) (0.7840 : R))
  bad := ck bad 81 (Near.near (1e-6 : R) (HermiteSplineSegment3.hp1 (0.4 : R)) (0.6480 : R))
  bad := ck bad 82 (Near.near (1e-6 : R) (HermiteSplineSegment3.hp1 (0.5 : R)) (0.5000 : R))
  bad := ck bad 83 (Near.near (1e-6 : R) (HermiteSplineSegment3.hp1 (0.6 : R)) (0.3520 : R))
  bad := ck bad 84 (Near.near (1e-6 : R) (HermiteSplineSegment3.hp1 (0.7 : R)) (0.2160 : R))
  bad := ck bad 85 (Near.near (1e-6 : R) (HermiteSplineSegment3.hp1 (0.8 : R)) (0.1040 : R))
  bad := ck bad 86 (Near.near (1e-6 : R) (HermiteSplineSegment3.hp1 (0.9 : R)) (0.0280 : R))
  bad := ck bad 87 (Near.near (1e-6 : R) (HermiteSplineSegment3.hp1 (1.0 : R)) (0.0000 : R))
  return bad
end Spline3_2
#guard passes Spline3_2.run

namespace Spline3_3
abbrev R := Float32
def run : Res (List Nat) := do
  let mut bad : List Nat := []
  bad := ck bad 92 (Near.near (1e-6 : R) (HermiteSplineSegment3.hp4 (0.0 : R)) (0.0000 : R))
  bad := ck bad 93 (Near.near (1e-6 : R) (HermiteSplineSegment3.hp4 (0.1 : R)) (0.0280 : R))
  bad := ck bad 94 (Near.near (1e-6 : R) (HermiteSplineSegment3.hp4 (0.2 : R)) (0.1040 : R))
  bad := ck bad 95 (Near.near (1e-6 : R) (HermiteSplineSegment3.hp4 (0.3 : R)) (0.2160 : R))
  bad := ck bad 96 (Near.near (1e-6 : R) (HermiteSplineSegment3.hp4 (0.4 : R)) (0.3520 : R))
  bad := ck bad 97 (Near.near (1e-6 : R) (HermiteSplineSegment3.hp4 (0.5 : R)) (0.5000 : R))
  bad := ck bad 98 (Near.near (1e-6 : R) (HermiteSplineSegment3.hp4 (0.6 : R)) (0.6480 : R))
  bad := ck bad 99 (Near.near (1e-6 : R) (HermiteSplineSegment3.hp4 (0.7 : R)) (0.7840 : R))
  bad := ck bad 100 (Near.near (1e-6 : R) (HermiteSplineSegment3.hp4 (0.8 : R)) (0.8960 : R))
  bad := ck bad 101 (Near.near (1e-6 : R) (HermiteSplineSegment3.hp4 (0.9 : R)) (0.9720 : R))
  bad := ck bad 102 (Near.near (1e-6 : R) (HermiteSplineSegment3.hp4 (1.0 : R)) (1.0000 : R))
  return bad
end Spline3_3
#guard passes Spline3_3.run

namespace Spline3_4
abbrev R := Float32
def run : Res (List Nat) := do
  let mut bad : List Nat := []
  bad := ck bad 107 (Near.near (1e-6 : R) (HermiteSplineSegment3.hr1 (0.0 : R)) (0.0000 : R))
  bad := ck bad 108 (Near.near (1e-6 : R) (HermiteSplineSegment3.hr1 (0.1 : R)) (0.0810 : R))
  bad := ck bad 109 (Near.near (1e-6 : R) (HermiteSplineSegment3.hr1 (0.2 : R)) (0.1280 : R))
  bad := ck bad 110 (Near.near (1e-6 : R) (HermiteSplineSegment3.hr1 (0.3 : R)) (0.1470 : R))
  bad := ck bad 111 (Near.near (1e-6 : R) (HermiteSplineSegment3.hr1 (0.4 : R)) (0.1440 : R))
  bad := ck bad 112 (Near.near (1e-6 : R) (HermiteSplineSegment3.hr1 (0.5 : R)) (0.1250 : R))
  bad := ck bad 113 (Near.near (1e-6 : R) (HermiteSplineSegment3.hr1 (0.6 : R)) (0.0960 : R))
  bad := ck bad 114 (Near.near (1e-6 : R) (HermiteSplineSegment3.hr1 (0.7 : R)) (0.0630 : R))
  bad := ck bad 115 (Near.near (1e-6 : R) (HermiteSplineSegment3.hr1 (0.8 : R)) (0.0320 : R))
  bad := ck bad 116 (Near.near (1e-6 : R) (HermiteSplineSegment3.hr1 (0.9 : R)) (0.0090 : R))
  bad := ck bad 117 (Near.near (1e-6 : R) (HermiteSplineSegment3.hr1 (1.0 : R)) (0.0000 : R))
  return bad
end Spline3_4
#guard passes Spline3_4.run

namespace Spline3_5
abbrev R := Float32
def run : Res (List Nat) := do
  let mut bad : List Nat := []
  bad := ck bad 122 (Near.near (1e-6 : R) (HermiteSplineSegment3.hr4 (0.0 : R)) (0.0000 : R))
  bad := ck bad 123 (Near.near (1e-6 : R) (HermiteSplineSegment3.hr4 (0.1 : R)) (-(0.0090 : R)))
  bad := ck bad 124 (Near.near (1e-6 : R) (HermiteSplineSegment3.hr4 (0.2 : R)) (-(0.0320 : R)))
  bad := ck bad 125 (Near.near (1e-6 : R) (HermiteSplineSegment3.hr4 (0.3 : R)) (-(0.0630 : R)))
  bad := ck bad 126 (Near.near (1e-6 : R) (HermiteSplineSegment3.hr4 (0.4 : R)) (-(0.0960 : R)))
  bad := ck bad 127 (Near.near (1e-6 : R) (HermiteSplineSegment3.hr4 (0.5 : R)) (-(0.1250 : R)))
  bad := ck bad 128 (Near.near (1e-6 : R) (HermiteSplineSegment3.hr4 (0.6 : R)) (-(0.1440 : R)))
  bad := ck bad 129 (Near.near (1e-6 : R) (HermiteSplineSegment3.hr4 (0.7 : R)) (-(0.1470 : R)))
  bad := ck bad 130 (Near.near (1e-6 : R) (HermiteSplineSegment3.hr4 (0.8 : R)) (-(0.1280 : R)))
  bad := ck bad 131 (Near.near (1e-6 : R) (HermiteSplineSegment3.hr4 (0.9 : R)) (-(0.0810 : R)))
  bad := ck bad 132 (Near.near (1e-6 : R) (HermiteSplineSegment3.hr4 (1.0 : R)) (0.0000 : R))
  return bad
end Spline3_5
#guard passes Spline3_5.run

namespace Spline3_6
abbrev R := Float32
def run : Res (List Nat) := do
  let mut bad : List Nat := []
  bad := ck bad 137 (Near.near (1e-6 : R) (HermiteSplineSegment3.dhp1 (0.0 : R)) (0.0000 : R))
  bad := ck bad 138 (Near.near (1e-6 : R) (HermiteSplineSegment3.dhp1 (0.1 : R)) (-(0.5400 : R)))
  bad := ck bad 139 (Near.near (1e-6 : R) (HermiteSplineSegment3.dhp1 (0.2 : R)) (-(0.9600 : R)))
  bad := ck bad 140 (Near.near (1e-6 : R) (HermiteSplineSegment3.dhp1 (0.3 : R)) (-(1.2600 : R)))
  bad := ck bad 141 (Near.near (1e-6 : R) (HermiteSplineSegment3.dhp1 (0.4 : R)) (-(1.4400 : R)))
  bad := ck bad 142 (Near.near (1e-6 : R) (HermiteSplineSegment3.dhp1 (0.5 : R)) (-(1.5000 : R)))
  bad := ck bad 143 (Near.near (1e-6 : R) (HermiteSplineSegment3.dhp1 (0.6 : R)) (-(1.4400 : R)))
  bad := ck bad 144 (Near.near (1e-6 : R) (HermiteSplineSegment3.dhp1 (0.7 : R)) (-(1.2600 : R)))
  bad := ck bad 145 (Near.near (1e-6 : R) (HermiteSplineSegment3.dhp1 (0.8 : R)) (-(0.9600 : R)))
  bad := ck bad 146 (Near.near (1e-6 : R) (HermiteSplineSegment3.dhp1 (0.9 : R)) (-(0.5400 : R)))
  bad := ck bad 147 (Near.near (1e-6 : R) (HermiteSplineSegment3.dhp1 (1.0 : R)) (0.0000 : R))
  return bad
end Spline3_6
#guard passes Spline3_6.run

namespace Spline3_7
abbrev R := Float32
def run : Res (List Nat) := do
  let mut bad : List Nat := []
  bad := ck bad 152 (Near.near (1e-6 : R) (HermiteSplineSegment3.dhp4 (0.0 : R)) (0.0000 : R))
  bad := ck bad 153 (Near.near (1e-6 : R) (HermiteSplineSegment3.dhp4 (0.1 : R)) (0.5400 : R))
  bad := ck bad 154 (Near.near (1e-6 : R) (HermiteSplineSegment3.dhp4 (0.2 : R)) (0.9600 : R))
  bad := ck bad 155 (Near.near (1e-6 : R) (HermiteSplineSegment3.dhp4 (0.3 : R)) (1.2600 : R))
  bad := ck bad 156 (Near.near (1e-6 : R) (HermiteSplineSegment3.dhp4 (0.4 : R)) (1.4400 : R))
  bad := ck bad 157 (Near.near (1e-6 : R) (HermiteSplineSegment3.dhp4 (0.5 : R)) (1.5000 : R))
  bad := ck bad 158 (Near.near (1e-6 : R) (HermiteSplineSegment3.dhp4 (0.6 : R)) (1.4400 : R))
  bad := ck bad 159 (Near.near (1e-6 : R) (HermiteSplineSegment3.dhp4 (0.7 : R)) (1.2600 : R))
  bad := ck bad 160 (Near.near (1e-6 : R) (HermiteSplineSegment3.dhp4 (0.8 : R)) (0.9600 : R))
  bad := ck bad 161 (Near.near (1e-6 : R) (HermiteSplineSegment3.dhp4 (0.9 : R)) (0.5400 : R))
  bad := ck bad 162 (Near.near (1e-6 : R) (HermiteSplineSegment3.dhp4 (1.0 : R)) (0.0000 : R))
  return bad
end Spline3_7
#guard passes Spline3_7.run

namespace Spline3_8
abbrev R := Float32
def run : Res (List Nat) := do
  let mut bad : List Nat := []
  bad := ck bad 167 (Near.near (1e-6 : R) (HermiteSplineSegment3.dhr1 (0.0 : R)) (1.0000 : R))
  bad := ck bad 168 (Near.near (1e-6 : R) (HermiteSplineSegment3.dhr1 (0.1 : R)) (0.6300 : R))
  bad := ck bad 169 (Near.near (1e-6 : R) (HermiteSplineSegment3.dhr1 (0.2 : R)) (0.3200 : R))
  bad := ck bad 170 (Near.near (1e-6 : R) (HermiteSplineSegment3.dhr1 (0.3 : R)) (0.0700 : R))
  bad := ck bad 171 (Near.near (1e-6 : R) (HermiteSplineSegment3.dhr1 (0.4 : R)) (-(0.1200 : R)))
  bad := ck bad 172 (Near.near (1e-6 : R) (HermiteSplineSegment3.dhr1 (0.5 : R)) (-(0.2500 : R)))
  bad := ck bad 173 (Near.near (1e-6 : R) (HermiteSplineSegment3.dhr1 (0.6 : R)) (-(0.3200 : R)))
  bad := ck bad 174 (Near.near (1e-6 : R) (HermiteSplineSegment3.dhr1 (0.7 : R)) (-(0.3300 : R)))
  bad := ck bad 175 (Near.near (1e-6 : R) (HermiteSplineSegment3.dhr1 (0.8 : R)) (-(0.2800 : R)))
  bad := ck bad 176 (Near.near (1e-6 : R) (HermiteSplineSegment3.dhr1 (0.9 : R)) (-(0.1700 : R)))
  bad := ck bad 177 (Near.near (1e-6 : R) (HermiteSplineSegment3.dhr1 (1.0 : R)) (0.0000 : R))
  return bad
end Spline3_8
#guard passes Spline3_8.run

namespace Spline3_9
abbrev R := Float32
def run : Res (List Nat) := do
  let mut bad : List Nat := []
  bad := ck bad 182 (Near.near (1e-6 : R) (HermiteSplineSegment3.dhr4 (0.0 : R)) (0.0000 : R))
  bad := ck bad 183 (Near.near (1e-6 : R) (HermiteSplineSegment3.dhr4 (0.1 : R)) (-(0.1700 : R)))
  bad := ck bad 184 (Near.near (1e-6 : R) (HermiteSplineSegment3.dhr4 (0.2 : R)) (-(0.2800 : R)))
  bad := ck bad 185 (Near.near (1e-6 : R) (HermiteSplineSegment3.dhr4 (0.3 : R)) (-(0.3300 : R)))
  bad := ck bad 186 (Near.near (1e-6 : R) (HermiteSplineSegment3.dhr4 (0.4 : R)) (-(0.3200 : R)))
  bad := ck bad 187 (Near.near (1e-6 : R) (HermiteSplineSegment3.dhr4 (0.5 : R)) (-(0.2500 : R)))
  bad := ck bad 188 (Near.near (1e-6 : R) (HermiteSplineSegment3.dhr4 (0.6 : R)) (-(0.1200 : R)))
  bad := ck bad 189 (Near.near (1e-6 : R) (HermiteSplineSegment3.dhr4 (0.7 : R)) (0.0700 : R))
  bad := ck bad 190 (Near.near (1e-6 : R) (HermiteSplineSegment3.dhr4 (0.8 : R)) (0.3200 : R))
  bad := ck bad 191 (Near.near (1e-6 : R) (HermiteSplineSegment3.dhr4 (0.9 : R)) (0.6300 : R))
  bad := ck bad 192 (Near.near (1e-6 : R) (HermiteSplineSegment3.dhr4 (1.0 : R)) (1.0000 : R))
  return bad
end Spline3_9
#guard passes Spline3_9.run

namespace Spline3_10
abbrev R := Float32
def run : Res (List Nat) := do
  let mut bad : List Nat := []
  let v1 : Vec3 R := (⟨(0 : R), (0 : R), (0 : R)⟩ : Vec3 R)
  let v2 : Vec3 R := (⟨(0 : R), (1 : R), (0 : R)⟩ : Vec3 R)
  let v3 : Vec3 R := (⟨(1 : R), (0 : R), (1 : R)⟩ : Vec3 R)
  let v4 : Vec3 R := (⟨(1 : R), (1 : R), (1 : R)⟩ : Vec3 R)
  let v5 : BezierSegment3 R := (⟨v1, v2, v3, v4⟩ : BezierSegment3 R)
  bad := ck bad 220 (Vec3.eq v5.P1 v1)
  bad := ck bad 221 (Vec3.eq v5.P2 v2)
  bad := ck bad 222 (Vec3.eq v5.P3 v3)
  bad := ck bad 223 (Vec3.eq v5.P4 v4)
  return bad
end Spline3_10
#guard passes Spline3_10.run

namespace Spline3_11
abbrev R := Float32
def run : Res (List Nat) := do
  let mut bad : List Nat := []
  let v1 : Vec3 R := (⟨(0 : R), (0 : R), (0 : R)⟩ : Vec3 R)
  let v2 : Vec3 R := (⟨(0 : R), (1 : R), (0 : R)⟩ : Vec3 R)
  let v3 : Vec3 R := (⟨(1 : R), (0 : R), (1 : R)⟩ : Vec3 R)
  let v4 : Vec3 R := (⟨(1 : R), (1 : R), (1 : R)⟩ : Vec3 R)
  let v5 : BezierSegment3 R := (⟨v1, v2, v3, v4⟩ : BezierSegment3 R)
  bad := ck bad 231 (Vec3.eq v5.P1 v1)
  bad := ck bad 232 (Vec3.eq v5.P2 v2)
  bad := ck bad 233 (Vec3.eq v5.P3 v3)
  bad := ck bad 234 (Vec3.eq v5.P4 v4)
  return bad
end Spline3_11
#guard passes Spline3_11.run

namespace Spline3_12
abbrev R := Float32
def run : Res (List Nat) := do
  let mut bad : List Nat := []
  bad := ck bad 288 (Near.near (1e-6 : R) (BezierSegment3.hp1 (0.0 : R)) (1.0000 : R))
  bad := ck bad 289 (Near.near (1e-6 : R) (BezierSegment3.hp1 (0.1 : R)) (0.7290 : R))
  bad := ck bad 290 (Near.near (1e-6 : R) (BezierSegment3.hp1 (0.2 : R)) (0.5120 : R))
  bad := ck bad 291 (Near.near (1e-6 : R) (BezierSegment3.hp1 (0.3 : R)) (0.3430 : R))
  bad := ck bad 292 (Near.near (1e-6 : R) (BezierSegment3.hp1 (0.4 : R)) (0.2160 : R))
  bad := ck bad 293 (Near.near (1e-6 : R) (BezierSegment3.hp1 (0.5 : R)) (0.1250 : R))
  bad := ck bad 294 (Near.near (1e-6 : R) (BezierSegment3.hp1 (0.6 : R)) (0.0640 : R))
  bad := ck bad 295 (Near.near (1e-6 : R) (BezierSegment3.hp1 (0.7 : R)) (0.0270 : R))
  bad := ck bad 296 (Near.near (1e-6 : R) (BezierSegment3.hp1 (0.8 : R)) (0.0080 : R))
  bad := ck bad 297 (Near.near (1e-6 : R) (BezierSegment3.hp1 (0.9 : R)) (0.0010 : R))
  bad := ck bad 298 (Near.near (1e-6 : R) (BezierSegment3.hp1 (1.0 : R)) (0.0000 : R))
  return bad
end Spline3_12
#guard passes Spline3_12.run

namespace Spline3_13
abbrev R := Float32
def run : Res (List Nat) := do
  let mut bad : List Nat := []
  bad := ck bad 303 (Near.near (1e-6 : R) (BezierSegment3.hp2 (0.0 : R)) (0.0000 : R))
  bad := ck bad 304 (Near.near (1e-6 : R) (BezierSegment3.hp2 (0.1 : R)) (0.2430 : R))
  bad := ck bad 305 (Near.near (1e-6 : R) (BezierSegment3.hp2 (0.2 : R)) (0.3840 : R))
  bad := ck bad 306 (Near.near (1e-6 : R) (BezierSegment3.hp2 (0.3 : R)) (0.4410 : R))
  bad := ck bad 307 (Near.near (1e-6 : R) (BezierSegment3.hp2 (0.4 : R)) (0.4320 : R))
  bad := ck bad 308 (Near.near (1e-6 : R) (BezierSegment3.hp2 (0.5 : R)) (0.3750 : R))
  bad := ck bad 309 (Near.near (1e-6 : R) (BezierSegment3.hp2 (0.6 : R)) (0.2880 : R))
  bad := ck bad 310 (Near.near (1e-6 : R) (BezierSegment3.hp2 (0.7 : R)) (0.1890 : R))
  bad := ck bad 311 (Near.near (1e-6 : R) (BezierSegment3.hp2 (0.8 : R)) (0.0960 : R))
  bad := ck bad 312 (Near.near (1e-6 : R) (BezierSegment3.hp2 (0.9 : R)) (0.0270 : R))
  bad := ck bad 313 (Near.near (1e-6 : R) (BezierSegment3.hp2 (1.0 : R)) (0.0000 : R))
  return bad
end Spline3_13
#guard passes Spline3_13.run

namespace Spline3_14
abbrev R := Float32
def run : Res (List Nat) := do
  let mut bad : List Nat := []
  bad := ck bad 318 (Near.near (1e-6 : R) (BezierSegment3.hp3 (0.0 : R)) (0.0000 : R))
  bad := ck bad 319 (Near.near (1e-6 : R) (BezierSegment3.hp3 (0.1 : R)) (0.0270 : R))
  bad := ck bad 320 (Near.near (1e-6 : R) (BezierSegment3.hp3 (0.2 : R)) (0.0960 : R))
  bad := ck bad 321 (Near.near (1e-6 : R) (BezierSegment3.hp3 (0.3 : R)) (0.1890 : R))
  bad := ck bad 322 (Near.near (1e-6 : R) (BezierSegment3.hp3 (0.4 : R)) (0.2880 : R))
  bad := ck bad 323 (Near.near (1e-6 : R) (BezierSegment3.hp3 (0.5 : R)) (0.3750 : R))
  bad := ck bad 324 (Near.near (1e-6 : R) (BezierSegment3.hp3 (0.6 : R)) (0.4320 : R))
  bad := ck bad 325 (Near.near (1e-6 : R) (BezierSegment3.hp3 (0.7 : R)) (0.4410 : R))
  bad := ck bad 326 (Near.near (1e-6 : R) (BezierSegment3.hp3 (0.8 : R)) (0.3840 : R))
  bad := ck bad 327 (Near.near (1e-6 : R) (BezierSegment3.hp3 (0.9 : R)) (0.2430 : R))
  bad := ck bad 328 (Near.near (1e-6 : R) (BezierSegment3.hp3 (1.0 : R)) (0.0000 : R))
  return bad
end Spline3_14
#guard passes Spline3_14.run

namespace Spline3_15
abbrev R := Float32
def run : Res (List Nat) := do
  let mut bad : List Nat := []
  bad := ck bad 333 (Near.near (1e-6 : R) (BezierSegment3.hp4 (0.0 : R)) (0.0000 : R))
  bad := ck bad 334 (Near.near (1e-6 : R) (BezierSegment3.hp4 (0.1 : R)) (0.0010 : R))
  bad := ck bad 335 (Near.near (1e-6 : R) (BezierSegment3.hp4 (0.2 : R)) (0.0080 : R))
  bad := ck bad 336 (Near.near (1e-6 : R) (BezierSegment3.hp4 (0.3 : R)) (0.0270 : R))
  bad := ck bad 337 (Near.near (1e-6 : R) (BezierSegment3.hp4 (0.4 : R)) (0.0640 : R))
  bad := ck bad 338 (Near.near (1e-6 : R) (BezierSegment3.hp4 (0.5 : R)) (0.1250 : R))
  bad := ck bad 339 (Near.near (1e-6 : R) (BezierSegment3.hp4 (0.6 : R)) (0.2160 : R))
  bad := ck bad 340 (Near.near (1e-6 : R) (BezierSegment3.hp4 (0.7 : R)) (0.3430 : R))
  bad := ck bad 341 (Near.near (1e-6 : R) (BezierSegment3.hp4 (0.8 : R)) (0.5120 : R))
  bad := ck bad 342 (Near.near (1e-6 : R) (BezierSegment3.hp4 (0.9 : R)) (0.7290 : R))
  bad := ck bad 343 (Near.near (1e-6 : R) (BezierSegment3.hp4 (1.0 : R)) (1.0000 : R))
  return bad
end Spline3_15
#guard passes Spline3_15.run

namespace Spline3_16
abbrev R := Float32
def run : Res (List Nat) := do
  let mut bad : List Nat := []
  bad := ck bad 348 (Near.near (1e-6 : R) (BezierSegment3.dhp1 (0.0 : R)) (-(3.0000 : R)))
  bad := ck bad 349 (Near.near (1e-6 : R) (BezierSegment3.dhp1 (0.1 : R)) (-(2.4300 : R)))
  bad := ck bad 350 (Near.near (1e-6 : R) (BezierSegment3.dhp1 (0.2 : R)) (-(1.9200 : R)))
  bad := ck bad 351 (Near.near (1e-6 : R) (BezierSegment3.dhp1 (0.3 : R)) (-(1.4700 : R)))
  bad := ck bad 352 (Near.near (1e-6 : R) (BezierSegment3.dhp1 (0.4 : R)) (-(1.0800 : R)))
  bad := ck bad 353 (Near.near (1e-6 : R) (BezierSegment3.dhp1 (0.5 : R)) (-(0.7500 : R)))
  bad := ck bad 354 (Near.near (1e-6 : R) (BezierSegment3.dhp1 (0.6 : R)) (-(0.4800 : R)))
  bad := ck bad 355 (Near.near (1e-6 : R) (BezierSegment3.dhp1 (0.7 : R)) (-(0.2700 : R)))
  bad := ck bad 356 (Near.near (1e-6 : R) (BezierSegment3.dhp1 (0.8 : R)) (-(0.1200 : R)))
  bad := ck bad 357 (Near.near (1e-6 : R) (BezierSegment3.dhp1 (0.9 : R)) (-(0.0300 : R)))
  bad := ck bad 358 (Near.near (1e-6 : R) (BezierSegment3.dhp1 (1.0 : R)) (0.0000 : R))
  return bad
end Spline3_16
#guard passes Spline3_16.run

namespace Spline3_17
abbrev R := Float32
def run : Res (List Nat) := do
  let mut bad : List Nat := []
  bad := ck bad 363 (Near.near (1e-6 : R) (BezierSegment3.dhp2 (0.0 : R)) (3.0000 : R))
  bad := ck bad 364 (Near.near (1e-6 : R) (BezierSegment3.dhp2 (0.1 : R)) (1.8900 : R))
  bad := ck bad 365 (Near.near (1e-6 : R) (BezierSegment3.dhp2 (0.2 : R)) (0.9600 : R))
  bad := ck bad 366 (Near.near (1e-6 : R) (BezierSegment3.dhp2 (0.3 : R)) (0.2100 : R))
  bad := ck bad 367 (Near.near (1e-6 : R) (BezierSegment3.dhp2 (0.4 : R)) (-(0.3600 : R)))
  bad := ck bad 368 (Near.near (1e-6 : R) (BezierSegment3.dhp2 (0.5 : R)) (-(0.7500 : R)))
  bad := ck bad 369 (Near.near (1e-6 : R) (BezierSegment3.dhp2 (0.6 : R)) (-(0.9600 : R)))
  bad := ck bad 370 (Near.near (1e-6 : R) (BezierSegment3.dhp2 (0.7 : R)) (-(0.9900 : R)))
  bad := ck bad 371 (Near.near (1e-6 : R) (BezierSegment3.dhp2 (0.8 : R)) (-(0.8400 : R)))
  bad := ck bad 372 (Near.near (1e-6 : R) (BezierSegment3.dhp2 (0.9 : R)) (-(0.5100 : R)))
  bad := ck bad 373 (Near.near (1e-6 : R) (BezierSegment3.dhp2 (1.0 : R)) (0.0000 : R))
  return bad
end Spline3_17
#guard passes Spline3_17.run

namespace Spline3_18
abbrev R := Float32
def run : Res (List Nat) := do
  let mut bad : List Nat := []
  bad := ck bad 378 (Near.near (1e-6 : R) (BezierSegment3.dhp3 (0.0 : R)) (0.0000 : R))
  bad := ck bad 379 (Near.near (1e-6 : R) (BezierSegment3.dhp3 (0.1 : R)) (0.5100 : R))
  bad := ck bad 380 (Near.near (1e-6 : R) (BezierSegment3.dhp3 (0.2 : R)) (0.8400 : R))
  bad := ck bad 381 (Near.near (1e-6 : R) (BezierSegment3.dhp3 (0.3 : R)) (0.9900 : R))
  bad := ck bad 382 (Near.near (1e-6 : R) (BezierSegment3.dhp3 (0.4 : R)) (0.9600 : R))
  bad := ck bad 383 (Near.near (1e-6 : R) (BezierSegment3.dhp3 (0.5 : R)) (0.7500 : R))
  bad := ck bad 384 (Near.near (1e-6 : R) (BezierSegment3.dhp3 (0.6 : R)) (0.3600 : R))
  bad := ck bad 385 (Near.near (1e-6 : R) (BezierSegment3.dhp3 (0.7 : R)) (-(0.2100 : R)))
  bad := ck bad 386 (Near.near (1e-6 : R) (BezierSegment3.dhp3 (0.8 : R)) (-(0.9600 : R)))
  bad := ck bad 387 (Near.near (1e-6 : R) (BezierSegment3.dhp3 (0.9 : R)) (-(1.8900 : R)))
  bad := ck bad 388 (Near.near (1e-6 : R) (BezierSegment3.dhp3 (1.0 : R)) (-(3.0000 : R)))
  return bad
end Spline3_18
#guard passes Spline3_18.run

namespace Spline3_19
abbrev R := Float32
def run : Res (List Nat) := do
  let mut bad : List Nat := []
  bad := ck bad 393 (Near.near (1e-6 : R) (BezierSegment3.dhp4 (0.0 : R)) (0.0000 : R))
  bad := ck bad 394 (Near.near (1e-6 : R) (BezierSegment3.dhp4 (0.1 : R)) (0.0300 : R))
  bad := ck bad 395 (Near.near (1e-6 : R) (BezierSegment3.dhp4 (0.2 : R)) (0.1200 : R))
  bad := ck bad 396 (Near.near (1e-6 : R) (BezierSegment3.dhp4 (0.3 : R)) (0.2700 : R))
  bad := ck bad 397 (Near.near (1e-6 : R) (BezierSegment3.dhp4 (0.4 : R)) (0.4800 : R))
  bad := ck bad 398 (Near.near (1e-6 : R) (BezierSegment3.dhp4 (0.5 : R)) (0.7500 : R))
  bad := ck bad 399 (Near.near (1e-6 : R) (BezierSegment3.dhp4 (0.6 : R)) (1.0800 : R))
  bad := ck bad 400 (Near.near (1e-6 : R) (BezierSegment3.dhp4 (0.7 : R)) (1.4700 : R))
  bad := ck bad 401 (Near.near (1e-6 : R) (BezierSegment3.dhp4 (0.8 : R)) (1.9200 : R))
  bad := ck bad 402 (Near.near (1e-6 : R) (BezierSegment3.dhp4 (0.9 : R)) (2.4300 : R))
  bad := ck bad 403 (Near.near (1e-6 : R) (BezierSegment3.dhp4 (1.0 : R)) (3.0000 : R))
  return bad
end Spline3_19
#guard passes Spline3_19.run

namespace Spline3_20
abbrev R := Float32
def run : Res (List Nat) := do
  let mut bad : List Nat := []
  let v1 : Vec3 R := (Vec3.zero : Vec3 R)
  let v2 : Vec3 R := (Vec3.oneX : Vec3 R)
  let o3 ← SplineSolver3.naturalBezierSpline 2 (bufOf [v1, v2]) (Buf.alloc 1) (Buf.alloc 1)
  bad := ck bad 419 o3.1
  bad := ck bad 421 (Near.near (1e-6 : R) (← (o3.2.1).get 0) (⟨((1.0 : R) / (3.0 : R)), (0 : R), (0 : R)⟩ : Vec3 R))
  bad := ck bad 422 (Near.near (1e-6 : R) (← (o3.2.2).get 0) (⟨((2.0 : R) / (3.0 : R)), (0 : R), (0 : R)⟩ : Vec3 R))
  return bad
end Spline3_20
#guard passes Spline3_20.run

namespace Spline3_21
abbrev R := Float32
def run : Res (List Nat) := do
  let mut bad : List Nat := []
  let v1 : Vec3 R := (Vec3.zero : Vec3 R)
  let v2 : Vec3 R := ((Vec3.oneX : Vec3 R) + (Vec3.oneY : Vec3 R))
  let v3 : Vec3 R := ((Vec3.oneX : Vec3 R) * (2.0 : R))
  let o4 ← SplineSolver3.naturalBezierSpline 3 (bufOf [v1, v2, v3]) (Buf.alloc 2) (Buf.alloc 2)
  bad := ck bad 433 o4.1
  bad := ck bad 435 (Near.near (1e-6 : R) (← (o4.2.1).get 0) (⟨((1.0 : R) / (3.0 : R)), (0.5 : R), (0 : R)⟩ : Vec3 R))
  bad := ck bad 436 (Near.near (1e-6 : R) (← (o4.2.2).get 0) (⟨((2.0 : R) / (3.0 : R)), (1.0 : R), (0 : R)⟩ : Vec3 R))
  bad := ck bad 437 (Near.near (1e-6 : R) (← (o4.2.1).get 1) (⟨((4.0 : R) / (3.0 : R)), (1.0 : R), (0 : R)⟩ : Vec3 R))
  bad := ck bad 438 (Near.near (1e-6 : R) (← (o4.2.2).get 1) (⟨((5.0 : R) / (3.0 : R)), (0.5 : R), (0 : R)⟩ : Vec3 R))
  return bad
end Spline3_21
#guard passes Spline3_21.run

namespace Spline3_22
abbrev R := Float32
def run : Res (List Nat) := do
  let mut bad : List Nat := []
  let v1 : Vec3 R := (⟨(0.0 : R), (0.0 : R), (0.0 : R)⟩ : Vec3 R)
  let v2 : Vec3 R := (⟨(1.0 : R), (1.0 : R), (0.0 : R)⟩ : Vec3 R)
  let v3 : Vec3 R := (⟨(2.0 : R), (0.0 : R), (0.0 : R)⟩ : Vec3 R)
  let v4 : Vec3 R := (⟨(3.0 : R), (1.0 : R), (0.0 : R)⟩ : Vec3 R)
  let v5 : Vec3 R := (⟨(4.0 : R), (0.0 : R), (0.0 : R)⟩ : Vec3 R)
  let o6 ← SplineSolver3.naturalBezierSpline 5 (bufOf [v1, v2, v3, v4, v5]) (Buf.alloc 4) (Buf.alloc 4)
  bad := ck bad 451 o6.1
  bad := ck bad 453 (Near.near (1e-6 : R) (← (o6.2.1).get 0) (⟨((1.0 : R) / (3.0 : R)), ((4.0 : R) / (7.0 : R)), (0.0 : R)⟩ : Vec3 R))
  bad := ck bad 454 (Near.near (1e-6 : R) (← (o6.2.1).get 1) (⟨((4.0 : R) / (3.0 : R)), ((6.0 : R) / (7.0 : R)), (0.0 : R)⟩ : Vec3 R))
  bad := ck bad 455 (Near.near (1e-6 : R) (← (o6.2.1).get 2) (⟨((7.0 : R) / (3.0 : R)), (0.0 : R), (0.0 : R)⟩ : Vec3 R))
  bad := ck bad 456 (Near.near (1e-6 : R) (← (o6.2.1).get 3) (⟨((10.0 : R) / (3.0 : R)), ((8.0 : R) / (7.0 : R)), (0.0 : R)⟩ : Vec3 R))
  bad := ck bad 457 (Near.near (1e-6 : R) (← (o6.2.2).get 0) (⟨((2.0 : R) / (3.0 : R)), ((8.0 : R) / (7.0 : R)), (0.0 : R)⟩ : Vec3 R))
  bad := ck bad 458 (Near.near (1e-6 : R) (← (o6.2.2).get 1) (⟨((5.0 : R) / (3.0 : R)), (0.0 : R), (0.0 : R)⟩ : Vec3 R))
  bad := ck bad 459 (Near.near (1e-6 : R) (← (o6.2.2).get 2) (⟨((8.0 : R) / (3.0 : R)), ((6.0 : R) / (7.0 : R)), (0.0 : R)⟩ : Vec3 R))
  bad := ck bad 460 (Near.near (1e-6 : R) (← (o6.2.2).get 3) (⟨((11.0 : R) / (3.0 : R)), ((4.0 : R) / (7.0 : R)), (0.0 : R)⟩ : Vec3 R))
  return bad
end Spline3_22
#guard passes Spline3_22.run

namespace Spline3_23
abbrev R := Float32
def run : Res (List Nat) := do
  let mut bad : List Nat := []
  let v1 : Vec3 R := (Vec3.zero : Vec3 R)
  let v2 : Vec3 R := (Vec3.oneX : Vec3 R)
  let o3 ← SplineSolver3.bezierSpline 2 (bufOf [v1, v2]) (Vec3.oneY : Vec3 R) (-(Vec3.oneY : Vec3 R)) (Buf.alloc 1) (Buf.alloc 1)
  bad := ck bad 473 o3.1
  bad := ck bad 475 (Near.near (1e-6 : R) (← (o3.2.1).get 0) (Vec3.oneY : Vec3 R))
  bad := ck bad 476 (Near.near (1e-6 : R) (← (o3.2.2).get 0) (-(Vec3.oneY : Vec3 R)))
  return bad
end Spline3_23
#guard passes Spline3_23.run

namespace Spline3_24
abbrev R := Float32
def run : Res (List Nat) := do
  let mut bad : List Nat := []
  let v1 : Vec3 R := (Vec3.zero : Vec3 R)
  let v2 : Vec3 R := ((Vec3.oneX : Vec3 R) + (Vec3.oneY : Vec3 R))
  let v3 : Vec3 R := ((Vec3.oneX : Vec3 R) * (2.0 : R))
  let o4 ← SplineSolver3.bezierSpline 3 (bufOf [v1, v2, v3]) (⟨((1.0 : R) / (3.0 : R)), (0.5 : R), (0 : R)⟩ : Vec3 R) (⟨((5.0 : R) / (3.0 : R)), (0.5 : R), (0 : R)⟩ : Vec3 R) (Buf.alloc 2) (Buf.alloc 2)
  bad := ck bad 487 o4.1
  bad := ck bad 490 (Near.near (1e-6 : R) (← (o4.2.1).get 0) (⟨((1.0 : R) / (3.0 : R)), (0.5 : R), (0 : R)⟩ : Vec3 R))
  bad := ck bad 491 (Near.near (1e-6 : R) (← (o4.2.2).get 0) (⟨((2.0 : R) / (3.0 : R)), (1.0 : R), (0 : R)⟩ : Vec3 R))
  bad := ck bad 492 (Near.near (1e-6 : R) (← (o4.2.1).get 1) (⟨((4.0 : R) / (3.0 : R)), (1.0 : R), (0 : R)⟩ : Vec3 R))
  bad := ck bad 493 (Near.near (1e-6 : R) (← (o4.2.2).get 1) (⟨((5.0 : R) / (3.0 : R)), (0.5 : R), (0 : R)⟩ : Vec3 R))
  return bad
end Spline3_24
#guard passes Spline3_24.run

namespace Spline3_25
abbrev R := Float32
def run : Res (List Nat) := do
  let mut bad : List Nat := []
  let v1 : Vec3 R := (⟨(0.0 : R), (0.0 : R), (0.0 : R)⟩ : Vec3 R)
  let v2 : Vec3 R := (⟨(1.0 : R), (1.0 : R), (0.0 : R)⟩ : Vec3 R)
  let v3 : Vec3 R := (⟨(2.0 : R), (0.0 : R), (0.0 : R)⟩ : Vec3 R)
  let v4 : Vec3 R := (⟨(3.0 : R), (1.0 : R), (0.0 : R)⟩ : Vec3 R)
  let v5 : Vec3 R := (⟨(4.0 : R), (0.0 : R), (0.0 : R)⟩ : Vec3 R)
  let o6 ← SplineSolver3.bezierSpline 5 (bufOf [v1, v2, v3, v4, v5]) (⟨((1.0 : R) / (3.0 : R)), ((4.0 : R) / (7.0 : R)), (0.0 : R)⟩ : Vec3 R) (⟨((11.0 : R) / (3.0 : R)), ((4.0 : R) / (7.0 : R)), (0.0 : R)⟩ : Vec3 R) (Buf.alloc 4) (Buf.alloc 4)
  bad := ck bad 506 o6.1
  bad := ck bad 511 (Near.near (1e-6 : R) (← (o6.2.1).get 0) (⟨((1.0 : R) / (3.0 : R)), ((4.0 : R) / (7.0 : R)), (0.0 : R)⟩ : Vec3 R))
  bad := ck bad 512 (Near.near (1e-6 : R) (← (o6.2.1).get 1) (⟨((4.0 : R) / (3.0 : R)), ((6.0 : R) / (7.0 : R)), (0.0 : R)⟩ : Vec3 R))
  bad := ck bad 513 (Near.near (1e-6 : R) (← (o6.2.1).get 2) (⟨((7.0 : R) / (3.0 : R)), (0.0 : R), (0.0 : R)⟩ : Vec3 R))
  bad := ck bad 514 (Near.near (1e-6 : R) (← (o6.2.1).get 3) (⟨((10.0 : R) / (3.0 : R)), ((8.0 : R) / (7.0 : R)), (0.0 : R)⟩ : Vec3 R))
  bad := ck bad 515 (Near.near (1e-6 : R) (← (o6.2.2).get 0) (⟨((2.0 : R) / (3.0 : R)), ((8.0 : R) / (7.0 : R)), (0.0 : R)⟩ : Vec3 R))
  bad := ck bad 516 (Near.near (1e-6 : R) (← (o6.2.2).get 1) (⟨((5.0 : R) / (3.0 : R)), (0.0 : R), (0.0 : R)⟩ : Vec3 R))
  bad := ck bad 517 (Near.near (1e-6 : R) (← (o6.2.2).get 2) (⟨((8.0 : R) / (3.0 : R)), ((6.0 : R) / (7.0 : R)), (0.0 : R)⟩ : Vec3 R))
  bad := ck bad 518 (Near.near (1e-6 : R) (← (o6.2.2).get 3) (⟨((11.0 : R) / (3.0 : R)), ((4.0 : R) / (7.0 : R)), (0.0 : R)⟩ : Vec3 R))
  return bad
end Spline3_25
#guard passes Spline3_25.run

namespace Spline3_26
abbrev R := Float32
def run : Res (List Nat) := do
  let mut bad : List Nat := []
  let v1 : Vec3 R := (-(Vec3.oneX : Vec3 R))
  let v2 : Vec3 R := (Vec3.oneY : Vec3 R)
  let v3 : Vec3 R := (Vec3.oneX : Vec3 R)
  let v4 : Vec3 R := (-(Vec3.oneY : Vec3 R))
  let o5 ← SplineSolver3.closedBezierSpline abs' 4 (bufOf [v1, v2, v3, v4]) (Buf.alloc 4) (Buf.alloc 4)
  bad := ck bad 533 o5.1
  bad := ck bad 535 (Near.near (1e-6 : R) (← (o5.2.1).get 0) (⟨(-(1.0 : R)), (0.5 : R), (0.0 : R)⟩ : Vec3 R))
  bad := ck bad 536 (Near.near (1e-6 : R) (← (o5.2.1).get 1) (⟨(0.5 : R), (1.0 : R), (0.0 : R)⟩ : Vec3 R))
  bad := ck bad 537 (Near.near (1e-6 : R) (← (o5.2.1).get 2) (⟨(1.0 : R), (-(0.5 : R)), (0.0 : R)⟩ : Vec3 R))
  bad := ck bad 538 (Near.near (1e-6 : R) (← (o5.2.1).get 3) (⟨(-(0.5 : R)), (-(1.0 : R)), (0.0 : R)⟩ : Vec3 R))
  bad := ck bad 539 (Near.near (1e-6 : R) (← (o5.2.2).get 0) (⟨(-(0.5 : R)), (1.0 : R), (0.0 : R)⟩ : Vec3 R))
  bad := ck bad 540 (Near.near (1e-6 : R) (← (o5.2.2).get 1) (⟨(1.0 : R), (0.5 : R), (0.0 : R)⟩ : Vec3 R))
  bad := ck bad 541 (Near.near (1e-6 : R) (← (o5.2.2).get 2) (⟨(0.5 : R), (-(1.0 : R)), (0.0 : R)⟩ : Vec3 R))
  bad := ck bad 542 (Near.near (1e-6 : R) (← (o5.2.2).get 3) (⟨(-(1.0 : R)), (-(0.5 : R)), (0.0 : R)⟩ : Vec3 R))
  return bad
end Spline3_26
#guard passes Spline3_26.run

end MathLib.Conformance
