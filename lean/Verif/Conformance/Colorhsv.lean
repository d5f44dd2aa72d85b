import Verif.Conformance.Base

/-!
# Unit tests of `tests/tests/src/test_colorhsv.cpp`, replayed on the model

Generated by `tools/conform.py`; the numbers are the source lines of the checks.  55 checks;
16 checks of that file are not translated (casts, random draws, `sizeof`, `data()`, and
functions outside the model).
-/

namespace MathLib.Conformance
set_option linter.all false

namespace Colorhsv_0
abbrev R := Float32
def run : Res (List Nat) := do
  let mut bad : List Nat := []
  bad := ck bad 19 ((ColorHSV.Black : ColorHSV R).h == (0.0 : R))
  bad := ck bad 20 ((ColorHSV.Black : ColorHSV R).s == (0.0 : R))
  bad := ck bad 21 ((ColorHSV.Black : ColorHSV R).v == (0.0 : R))
  return bad
end Colorhsv_0
#guard passes Colorhsv_0.run

namespace Colorhsv_1
abbrev R := Float32
def run : Res (List Nat) := do
  let mut bad : List Nat := []
  bad := ck bad 26 ((ColorHSV.Red : ColorHSV R).h == (0.0 : R))
  bad := ck bad 27 ((ColorHSV.Red : ColorHSV R).s == (1.0 : R))
  bad := ck bad 28 ((ColorHSV.Red : ColorHSV R).v == (1.0 : R))
  return bad
end Colorhsv_1
#guard passes Colorhsv_1.run

namespace Colorhsv_2
abbrev R := Float32
def run : Res (List Nat) := do
  let mut bad : List Nat := []
  bad := ck bad 33 ((ColorHSV.Green : ColorHSV R).h == (120.0 : R))
  bad := ck bad 34 ((ColorHSV.Green : ColorHSV R).s == (1.0 : R))
  bad := ck bad 35 ((ColorHSV.Green : ColorHSV R).v == (1.0 : R))
  return bad
end Colorhsv_2
#guard passes Colorhsv_2.run

namespace Colorhsv_3
abbrev R := Float32
def run : Res (List Nat) := do
  let mut bad : List Nat := []
  bad := ck bad 40 ((ColorHSV.Blue : ColorHSV R).h == (240.0 : R))
  bad := ck bad 41 ((ColorHSV.Blue : ColorHSV R).s == (1.0 : R))
  bad := ck bad 42 ((ColorHSV.Blue : ColorHSV R).v == (1.0 : R))
  return bad
end Colorhsv_3
#guard passes Colorhsv_3.run

namespace Colorhsv_4
abbrev R := Float32
def run : Res (List Nat) := do
  let mut bad : List Nat := []
  bad := ck bad 47 ((ColorHSV.White : ColorHSV R).h == (0.0 : R))
  bad := ck bad 48 ((ColorHSV.White : ColorHSV R).s == (0.0 : R))
  bad := ck bad 49 ((ColorHSV.White : ColorHSV R).v == (1.0 : R))
  return bad
end Colorhsv_4
#guard passes Colorhsv_4.run

namespace Colorhsv_5
abbrev R := Float32
def run : Res (List Nat) := do
  let mut bad : List Nat := []
  let v1 : ColorHSV R := (⟨(1 : R), (2 : R), (3 : R)⟩ : ColorHSV R)
  bad := ck bad 57 (v1.h == (1.0 : R))
  bad := ck bad 58 (v1.s == (2.0 : R))
  bad := ck bad 59 (v1.v == (3.0 : R))
  return bad
end Colorhsv_5
#guard passes Colorhsv_5.run

namespace Colorhsv_6
abbrev R := Float32
def run : Res (List Nat) := do
  let mut bad : List Nat := []
  bad := ck bad 66 (Near.near (0.001 : R) (← ColorHSV.interp (ColorHSV.Red : ColorHSV R) (ColorHSV.Green : ColorHSV R) (0.0 : R)) (ColorHSV.Red : ColorHSV R))
  bad := ck bad 68 (Near.near (0.001 : R) (← ColorHSV.interp (ColorHSV.Red : ColorHSV R) (ColorHSV.Green : ColorHSV R) (1.0 : R)) (ColorHSV.Green : ColorHSV R))
  bad := ck bad 70 (Near.near (0.001 : R) (← ColorHSV.interp (ColorHSV.Black : ColorHSV R) (ColorHSV.White : ColorHSV R) (0.5 : R)) (⟨(0.0 : R), (0.0 : R), (0.5 : R)⟩ : ColorHSV R))
  return bad
end Colorhsv_6
#guard passes Colorhsv_6.run

namespace Colorhsv_7
abbrev R := Float32
def run : Res (List Nat) := do
  let mut bad : List Nat := []
  let v1 : ColorHSV R := (⟨(1 : R), (2 : R), (3 : R)⟩ : ColorHSV R)
  bad := ck bad 80 (Near.near (0.001 : R) v1 (⟨(1 : R), (2 : R), (3 : R)⟩ : ColorHSV R))
  return bad
end Colorhsv_7
#guard passes Colorhsv_7.run

namespace Colorhsv_8
abbrev R := Float32
def run : Res (List Nat) := do
  let mut bad : List Nat := []
  let v1 : ColorHSV R := (ColorHSV.Red : ColorHSV R)
  bad := ck bad 87 (Near.near (0.001 : R) v1 (ColorHSV.Red : ColorHSV R))
  let v2 : ColorHSV R := (ColorHSV.Green : ColorHSV R)
  bad := ck bad 89 (Near.near (0.001 : R) v2 (ColorHSV.Green : ColorHSV R))
  let v3 : ColorHSV R := (ColorHSV.Blue : ColorHSV R)
  bad := ck bad 91 (Near.near (0.001 : R) v3 (ColorHSV.Blue : ColorHSV R))
  let v4 : ColorHSV R := (⟨(1 : R), (2 : R), (3 : R)⟩ : ColorHSV R)
  bad := ck bad 93 (Near.near (0.001 : R) v4 (⟨(1 : R), (2 : R), (3 : R)⟩ : ColorHSV R))
  return bad
end Colorhsv_8
#guard passes Colorhsv_8.run

namespace Colorhsv_9
abbrev R := Float32
def run : Res (List Nat) := do
  let mut bad : List Nat := []
  let v1 : ColorHSV R := (← ColorHSV.interp (ColorHSV.Red : ColorHSV R) (ColorHSV.Green : ColorHSV R) (0.0 : R))
  bad := ck bad 100 (Near.near (0.001 : R) v1 (ColorHSV.Red : ColorHSV R))
  let v2 : ColorHSV R := (← ColorHSV.interp (ColorHSV.Red : ColorHSV R) (ColorHSV.Green : ColorHSV R) (1.0 : R))
  bad := ck bad 103 (Near.near (0.001 : R) v2 (ColorHSV.Green : ColorHSV R))
  let v3 : ColorHSV R := (← ColorHSV.interp (ColorHSV.Black : ColorHSV R) (ColorHSV.White : ColorHSV R) (0.5 : R))
  bad := ck bad 106 (Near.near (0.001 : R) v3 (⟨(0.0 : R), (0.0 : R), (0.5 : R)⟩ : ColorHSV R))
  let v4 : ColorHSV R := (← ColorHSV.interp (⟨(0.0 : R), (0.0 : R), (0.0 : R)⟩ : ColorHSV R) (⟨(178.0 : R), (1.0 : R), (1.0 : R)⟩ : ColorHSV R) (0.5 : R))
  bad := ck bad 109 (Near.near (0.001 : R) v4 (⟨(89.0 : R), (0.5 : R), (0.5 : R)⟩ : ColorHSV R))
  let v5 : ColorHSV R := (← ColorHSV.interp (⟨(0.0 : R), (0.0 : R), (0.0 : R)⟩ : ColorHSV R) (⟨(182.0 : R), (1.0 : R), (1.0 : R)⟩ : ColorHSV R) (0.5 : R))
  bad := ck bad 112 (Near.near (0.001 : R) v5 (⟨(271.0 : R), (0.5 : R), (0.5 : R)⟩ : ColorHSV R))
  let v6 : ColorHSV R := (← ColorHSV.interp (⟨(178.0 : R), (1.0 : R), (1.0 : R)⟩ : ColorHSV R) (⟨(0.0 : R), (0.0 : R), (0.0 : R)⟩ : ColorHSV R) (0.5 : R))
  bad := ck bad 115 (Near.near (0.001 : R) v6 (⟨(89.0 : R), (0.5 : R), (0.5 : R)⟩ : ColorHSV R))
  let v7 : ColorHSV R := (← ColorHSV.interp (⟨(182.0 : R), (1.0 : R), (1.0 : R)⟩ : ColorHSV R) (⟨(0.0 : R), (0.0 : R), (0.0 : R)⟩ : ColorHSV R) (0.5 : R))
  bad := ck bad 118 (Near.near (0.001 : R) v7 (⟨(271.0 : R), (0.5 : R), (0.5 : R)⟩ : ColorHSV R))
  return bad
end Colorhsv_9
#guard passes Colorhsv_9.run

namespace Colorhsv_10
abbrev R := Float32
def run : Res (List Nat) := do
  let mut bad : List Nat := []
  let v1 : ColorHSV R := (⟨(1 : R), (2 : R), (3 : R)⟩ : ColorHSV R)
  bad := ck bad 126 (ColorHSV.eq v1 v1)
  bad := ck bad 127 (ColorHSV.eq v1 (⟨(1 : R), (2 : R), (3 : R)⟩ : ColorHSV R))
  return bad
end Colorhsv_10
#guard passes Colorhsv_10.run

namespace Colorhsv_11
abbrev R := Float32
def run : Res (List Nat) := do
  let mut bad : List Nat := []
  let v1 : ColorHSV R := (⟨(1 : R), (2 : R), (3 : R)⟩ : ColorHSV R)
  bad := ck bad 133 (!(ColorHSV.ne v1 v1))
  bad := ck bad 134 (ColorHSV.ne v1 (⟨(1.1 : R), (2 : R), (3 : R)⟩ : ColorHSV R))
  return bad
end Colorhsv_11
#guard passes Colorhsv_11.run

namespace Colorhsv_12
abbrev R := Float32
def run : Res (List Nat) := do
  let mut bad : List Nat := []
  bad := ck bad 141 (ColorRGB.eq (← ColorHSV.toRGB (ColorHSV.Black : ColorHSV R)) (ColorRGB.Black : ColorRGB R))
  bad := ck bad 142 (ColorRGB.eq (← ColorHSV.toRGB (ColorHSV.Red : ColorHSV R)) (ColorRGB.Red : ColorRGB R))
  bad := ck bad 143 (ColorRGB.eq (← ColorHSV.toRGB (ColorHSV.Green : ColorHSV R)) (ColorRGB.Green : ColorRGB R))
  bad := ck bad 144 (ColorRGB.eq (← ColorHSV.toRGB (ColorHSV.Blue : ColorHSV R)) (ColorRGB.Blue : ColorRGB R))
  bad := ck bad 145 (ColorRGB.eq (← ColorHSV.toRGB (ColorHSV.White : ColorHSV R)) (ColorRGB.White : ColorRGB R))
  bad := ck bad 147 (ColorRGB.eq (← ColorHSV.toRGB (⟨(60.0 : R), (1.0 : R), (1.0 : R)⟩ : ColorHSV R)) (ColorRGB.ofInts toR 255 255 0))
  bad := ck bad 148 (ColorRGB.eq (← ColorHSV.toRGB (⟨(180.0 : R), (1.0 : R), (1.0 : R)⟩ : ColorHSV R)) (ColorRGB.ofInts toR 0 255 255))
  bad := ck bad 149 (ColorRGB.eq (← ColorHSV.toRGB (⟨(300.0 : R), (1.0 : R), (1.0 : R)⟩ : ColorHSV R)) (ColorRGB.ofInts toR 255 0 255))
  bad := ck bad 151 (Near.near (0.001 : R) (← ColorHSV.toRGB (⟨(60.0 : R), (0.5 : R), (0.502 : R)⟩ : ColorHSV R)) (ColorRGB.ofInts toR 128 128 64))
  bad := ck bad 153 (Near.near (0.001 : R) (← ColorHSV.toRGB (⟨(180.0 : R), (0.5 : R), (0.502 : R)⟩ : ColorHSV R)) (ColorRGB.ofInts toR 64 128 128))
  bad := ck bad 155 (Near.near (0.001 : R) (← ColorHSV.toRGB (⟨(300.0 : R), (0.5 : R), (0.502 : R)⟩ : ColorHSV R)) (ColorRGB.ofInts toR 128 64 128))
  bad := ck bad 158 (Near.near (0.001 : R) (← ColorHSV.toRGB (⟨(20.0 : R), (0.75 : R), (0.502 : R)⟩ : ColorHSV R)) (ColorRGB.ofInts toR 128 64 32))
  bad := ck bad 160 (Near.near (0.001 : R) (← ColorHSV.toRGB (⟨(340.0 : R), (0.75 : R), (0.502 : R)⟩ : ColorHSV R)) (ColorRGB.ofInts toR 128 32 64))
  bad := ck bad 162 (Near.near (0.001 : R) (← ColorHSV.toRGB (⟨(100.0 : R), (0.75 : R), (0.502 : R)⟩ : ColorHSV R)) (ColorRGB.ofInts toR 64 128 32))
  bad := ck bad 164 (Near.near (0.001 : R) (← ColorHSV.toRGB (⟨(140.0 : R), (0.75 : R), (0.502 : R)⟩ : ColorHSV R)) (ColorRGB.ofInts toR 32 128 64))
  bad := ck bad 166 (Near.near (0.001 : R) (← ColorHSV.toRGB (⟨(260.0 : R), (0.75 : R), (0.502 : R)⟩ : ColorHSV R)) (ColorRGB.ofInts toR 64 32 128))
  bad := ck bad 168 (Near.near (0.001 : R) (← ColorHSV.toRGB (⟨(220.0 : R), (0.75 : R), (0.502 : R)⟩ : ColorHSV R)) (ColorRGB.ofInts toR 32 64 128))
  return bad
end Colorhsv_12
#guard passes Colorhsv_12.run

namespace Colorhsv_13
abbrev R := Float32
def run : Res (List Nat) := do
  let mut bad : List Nat := []
  bad := ck bad 206 (Near.near (0.001 : R) (ColorHSV.White : ColorHSV R) (ColorHSV.White : ColorHSV R))
  return bad
end Colorhsv_13
#guard passes Colorhsv_13.run

end MathLib.Conformance
