import Verif.Conformance.Base

/-!
# Unit tests of `tests/tests/src/test_colorrgb.cpp`, replayed on the model

Generated by `tools/conform.py`; the numbers are the source lines of the checks.  59 checks;
20 checks of that file are not translated (casts, random draws, `sizeof`, `data()`, and
functions outside the model).
-/

namespace MathLib.Conformance
set_option linter.all false

namespace Colorrgb_0
abbrev R := Float32
def run : Res (List Nat) := do
  let mut bad : List Nat := []
  bad := ck bad 19 ((ColorRGB.Black : ColorRGB R).r == (0.0 : R))
  bad := ck bad 20 ((ColorRGB.Black : ColorRGB R).g == (0.0 : R))
  bad := ck bad 21 ((ColorRGB.Black : ColorRGB R).b == (0.0 : R))
  return bad
end Colorrgb_0
#guard passes Colorrgb_0.run

namespace Colorrgb_1
abbrev R := Float32
def run : Res (List Nat) := do
  let mut bad : List Nat := []
  bad := ck bad 26 ((ColorRGB.Red : ColorRGB R).r == (1.0 : R))
  bad := ck bad 27 ((ColorRGB.Red : ColorRGB R).g == (0.0 : R))
  bad := ck bad 28 ((ColorRGB.Red : ColorRGB R).b == (0.0 : R))
  return bad
end Colorrgb_1
#guard passes Colorrgb_1.run

namespace Colorrgb_2
abbrev R := Float32
def run : Res (List Nat) := do
  let mut bad : List Nat := []
  bad := ck bad 33 ((ColorRGB.Green : ColorRGB R).r == (0.0 : R))
  bad := ck bad 34 ((ColorRGB.Green : ColorRGB R).g == (1.0 : R))
  bad := ck bad 35 ((ColorRGB.Green : ColorRGB R).b == (0.0 : R))
  return bad
end Colorrgb_2
#guard passes Colorrgb_2.run

namespace Colorrgb_3
abbrev R := Float32
def run : Res (List Nat) := do
  let mut bad : List Nat := []
  bad := ck bad 40 ((ColorRGB.Blue : ColorRGB R).r == (0.0 : R))
  bad := ck bad 41 ((ColorRGB.Blue : ColorRGB R).g == (0.0 : R))
  bad := ck bad 42 ((ColorRGB.Blue : ColorRGB R).b == (1.0 : R))
  return bad
end Colorrgb_3
#guard passes Colorrgb_3.run

namespace Colorrgb_4
abbrev R := Float32
def run : Res (List Nat) := do
  let mut bad : List Nat := []
  bad := ck bad 47 ((ColorRGB.White : ColorRGB R).r == (1.0 : R))
  bad := ck bad 48 ((ColorRGB.White : ColorRGB R).g == (1.0 : R))
  bad := ck bad 49 ((ColorRGB.White : ColorRGB R).b == (1.0 : R))
  return bad
end Colorrgb_4
#guard passes Colorrgb_4.run

namespace Colorrgb_5
abbrev R := Float32
def run : Res (List Nat) := do
  let mut bad : List Nat := []
  let v1 : ColorRGB R := (ColorRGB.ofGrey (42 : R))
  bad := ck bad 57 (v1.r == (42.0 : R))
  bad := ck bad 58 (v1.g == (42.0 : R))
  bad := ck bad 59 (v1.b == (42.0 : R))
  return bad
end Colorrgb_5
#guard passes Colorrgb_5.run

namespace Colorrgb_6
abbrev R := Float32
def run : Res (List Nat) := do
  let mut bad : List Nat := []
  let v1 : ColorRGB R := (⟨(1.0 : R), (2.0 : R), (3.0 : R)⟩ : ColorRGB R)
  bad := ck bad 65 (v1.r == (1.0 : R))
  bad := ck bad 66 (v1.g == (2.0 : R))
  bad := ck bad 67 (v1.b == (3.0 : R))
  return bad
end Colorrgb_6
#guard passes Colorrgb_6.run

namespace Colorrgb_7
abbrev R := Float32
def run : Res (List Nat) := do
  let mut bad : List Nat := []
  bad := ck bad 74 (Near.near (0.001 : R) (ColorRGB.interp (ColorRGB.Red : ColorRGB R) (ColorRGB.Green : ColorRGB R) (0.0 : R)) (ColorRGB.Red : ColorRGB R))
  bad := ck bad 76 (Near.near (0.001 : R) (ColorRGB.interp (ColorRGB.Red : ColorRGB R) (ColorRGB.Green : ColorRGB R) (1.0 : R)) (ColorRGB.Green : ColorRGB R))
  bad := ck bad 78 (Near.near (0.001 : R) (ColorRGB.interp (ColorRGB.Black : ColorRGB R) (ColorRGB.White : ColorRGB R) (0.5 : R)) (ColorRGB.ofGrey (0.5 : R)))
  return bad
end Colorrgb_7
#guard passes Colorrgb_7.run

namespace Colorrgb_8
abbrev R := Float32
def run : Res (List Nat) := do
  let mut bad : List Nat := []
  let v1 : ColorRGB R := (⟨(1.0 : R), (2.0 : R), (3.0 : R)⟩ : ColorRGB R)
  bad := ck bad 88 (Near.near (0.001 : R) v1 (⟨(1.0 : R), (2.0 : R), (3.0 : R)⟩ : ColorRGB R))
  return bad
end Colorrgb_8
#guard passes Colorrgb_8.run

namespace Colorrgb_9
abbrev R := Float32
def run : Res (List Nat) := do
  let mut bad : List Nat := []
  let v1 : ColorRGB R := (ColorRGB.Red : ColorRGB R)
  bad := ck bad 95 (Near.near (0.001 : R) v1 (ColorRGB.Red : ColorRGB R))
  let v2 : ColorRGB R := (ColorRGB.Green : ColorRGB R)
  bad := ck bad 97 (Near.near (0.001 : R) v2 (ColorRGB.Green : ColorRGB R))
  let v3 : ColorRGB R := (ColorRGB.Blue : ColorRGB R)
  bad := ck bad 99 (Near.near (0.001 : R) v3 (ColorRGB.Blue : ColorRGB R))
  let v4 : ColorRGB R := (⟨(1.0 : R), (2.0 : R), (3.0 : R)⟩ : ColorRGB R)
  bad := ck bad 101 (Near.near (0.001 : R) v4 (⟨(1.0 : R), (2.0 : R), (3.0 : R)⟩ : ColorRGB R))
  return bad
end Colorrgb_9
#guard passes Colorrgb_9.run

namespace Colorrgb_10
abbrev R := Float32
def run : Res (List Nat) := do
  let mut bad : List Nat := []
  let v1 : ColorRGB R := (ColorRGB.interp (ColorRGB.Red : ColorRGB R) (ColorRGB.Green : ColorRGB R) (0.0 : R))
  bad := ck bad 108 (Near.near (0.001 : R) v1 (ColorRGB.Red : ColorRGB R))
  let v2 : ColorRGB R := (ColorRGB.interp (ColorRGB.Red : ColorRGB R) (ColorRGB.Green : ColorRGB R) (1.0 : R))
  bad := ck bad 112 (Near.near (0.001 : R) v2 (ColorRGB.Green : ColorRGB R))
  let v3 : ColorRGB R := (ColorRGB.interp (ColorRGB.Black : ColorRGB R) (ColorRGB.White : ColorRGB R) (0.5 : R))
  bad := ck bad 116 (Near.near (0.001 : R) v3 (ColorRGB.ofGrey (0.5 : R)))
  return bad
end Colorrgb_10
#guard passes Colorrgb_10.run

namespace Colorrgb_11
abbrev R := Float32
def run : Res (List Nat) := do
  let mut bad : List Nat := []
  let v1 : ColorRGB R := (⟨(1.0 : R), (2.0 : R), (3.0 : R)⟩ : ColorRGB R)
  bad := ck bad 155 (Near.near (0.001 : R) (ColorRGB.add v1 (⟨(10.0 : R), (11.0 : R), (12.0 : R)⟩ : ColorRGB R)) (⟨(11.0 : R), (13.0 : R), (15.0 : R)⟩ : ColorRGB R))
  return bad
end Colorrgb_11
#guard passes Colorrgb_11.run

namespace Colorrgb_12
abbrev R := Float32
def run : Res (List Nat) := do
  let mut bad : List Nat := []
  let v1 : ColorRGB R := (⟨(1.0 : R), (2.0 : R), (3.0 : R)⟩ : ColorRGB R)
  bad := ck bad 162 (Near.near (0.001 : R) (ColorRGB.neg v1) (⟨(-(1.0 : R)), (-(2.0 : R)), (-(3.0 : R))⟩ : ColorRGB R))
  return bad
end Colorrgb_12
#guard passes Colorrgb_12.run

namespace Colorrgb_13
abbrev R := Float32
def run : Res (List Nat) := do
  let mut bad : List Nat := []
  let v1 : ColorRGB R := (⟨(1.0 : R), (2.0 : R), (3.0 : R)⟩ : ColorRGB R)
  bad := ck bad 168 (Near.near (0.001 : R) (ColorRGB.sub v1 (⟨(10.0 : R), (11.0 : R), (12.0 : R)⟩ : ColorRGB R)) (⟨(-(9.0 : R)), (-(9.0 : R)), (-(9.0 : R))⟩ : ColorRGB R))
  return bad
end Colorrgb_13
#guard passes Colorrgb_13.run

namespace Colorrgb_14
abbrev R := Float32
def run : Res (List Nat) := do
  let mut bad : List Nat := []
  let v1 : ColorRGB R := (⟨(1.0 : R), (2.0 : R), (3.0 : R)⟩ : ColorRGB R)
  bad := ck bad 175 (Near.near (0.001 : R) (ColorRGB.mul v1 (2 : R)) (⟨(2.0 : R), (4.0 : R), (6.0 : R)⟩ : ColorRGB R))
  return bad
end Colorrgb_14
#guard passes Colorrgb_14.run

namespace Colorrgb_15
abbrev R := Float32
def run : Res (List Nat) := do
  let mut bad : List Nat := []
  let v1 : ColorRGB R := (⟨(1.0 : R), (2.0 : R), (3.0 : R)⟩ : ColorRGB R)
  bad := ck bad 181 (Near.near (0.001 : R) (← ColorRGB.div v1 (0.5 : R)) (⟨(2.0 : R), (4.0 : R), (6.0 : R)⟩ : ColorRGB R))
  return bad
end Colorrgb_15
#guard passes Colorrgb_15.run

namespace Colorrgb_16
abbrev R := Float32
def run : Res (List Nat) := do
  let mut bad : List Nat := []
  let v1 : ColorRGB R := (⟨(1.0 : R), (2.0 : R), (3.0 : R)⟩ : ColorRGB R)
  bad := ck bad 189 (ColorRGB.eq v1 v1)
  bad := ck bad 190 (ColorRGB.eq v1 (⟨(1.0 : R), (2.0 : R), (3.0 : R)⟩ : ColorRGB R))
  return bad
end Colorrgb_16
#guard passes Colorrgb_16.run

namespace Colorrgb_17
abbrev R := Float32
def run : Res (List Nat) := do
  let mut bad : List Nat := []
  let v1 : ColorRGB R := (⟨(1.0 : R), (2.0 : R), (3.0 : R)⟩ : ColorRGB R)
  bad := ck bad 196 (!(ColorRGB.ne v1 v1))
  bad := ck bad 197 (!(ColorRGB.ne v1 (⟨(1.0 : R), (2.0 : R), (3.0 : R)⟩ : ColorRGB R)))
  return bad
end Colorrgb_17
#guard passes Colorrgb_17.run

namespace Colorrgb_18
abbrev R := Float32
def run : Res (List Nat) := do
  let mut bad : List Nat := []
  bad := ck bad 204 (ColorHSV.eq (ColorRGB.toHSV (ColorRGB.Black : ColorRGB R)) (ColorHSV.Black : ColorHSV R))
  bad := ck bad 205 (ColorHSV.eq (ColorRGB.toHSV (ColorRGB.Red : ColorRGB R)) (ColorHSV.Red : ColorHSV R))
  bad := ck bad 206 (ColorHSV.eq (ColorRGB.toHSV (ColorRGB.Green : ColorRGB R)) (ColorHSV.Green : ColorHSV R))
  bad := ck bad 207 (ColorHSV.eq (ColorRGB.toHSV (ColorRGB.Blue : ColorRGB R)) (ColorHSV.Blue : ColorHSV R))
  bad := ck bad 208 (ColorHSV.eq (ColorRGB.toHSV (ColorRGB.White : ColorRGB R)) (ColorHSV.White : ColorHSV R))
  bad := ck bad 210 (ColorHSV.eq (ColorRGB.toHSV (ColorRGB.ofInts toR 255 255 0)) (⟨(60.0 : R), (1.0 : R), (1.0 : R)⟩ : ColorHSV R))
  bad := ck bad 211 (ColorHSV.eq (ColorRGB.toHSV (ColorRGB.ofInts toR 0 255 255)) (⟨(180.0 : R), (1.0 : R), (1.0 : R)⟩ : ColorHSV R))
  bad := ck bad 212 (ColorHSV.eq (ColorRGB.toHSV (ColorRGB.ofInts toR 255 0 255)) (⟨(300.0 : R), (1.0 : R), (1.0 : R)⟩ : ColorHSV R))
  bad := ck bad 214 (Near.near (0.001 : R) (ColorRGB.toHSV (ColorRGB.ofInts toR 128 128 64)) (⟨(60.0 : R), (0.5 : R), (0.502 : R)⟩ : ColorHSV R))
  bad := ck bad 216 (Near.near (0.001 : R) (ColorRGB.toHSV (ColorRGB.ofInts toR 64 128 128)) (⟨(180.0 : R), (0.5 : R), (0.502 : R)⟩ : ColorHSV R))
  bad := ck bad 218 (Near.near (0.001 : R) (ColorRGB.toHSV (ColorRGB.ofInts toR 128 64 128)) (⟨(300.0 : R), (0.5 : R), (0.502 : R)⟩ : ColorHSV R))
  bad := ck bad 221 (Near.near (0.001 : R) (ColorRGB.toHSV (ColorRGB.ofInts toR 128 64 32)) (⟨(20.0 : R), (0.75 : R), (0.502 : R)⟩ : ColorHSV R))
  bad := ck bad 223 (Near.near (0.001 : R) (ColorRGB.toHSV (ColorRGB.ofInts toR 128 32 64)) (⟨(340.0 : R), (0.75 : R), (0.502 : R)⟩ : ColorHSV R))
  bad := ck bad 225 (Near.near (0.001 : R) (ColorRGB.toHSV (ColorRGB.ofInts toR 64 128 32)) (⟨(100.0 : R), (0.75 : R), (0.502 : R)⟩ : ColorHSV R))
  bad := ck bad 227 (Near.near (0.001 : R) (ColorRGB.toHSV (ColorRGB.ofInts toR 32 128 64)) (⟨(140.0 : R), (0.75 : R), (0.502 : R)⟩ : ColorHSV R))
  bad := ck bad 229 (Near.near (0.001 : R) (ColorRGB.toHSV (ColorRGB.ofInts toR 64 32 128)) (⟨(260.0 : R), (0.75 : R), (0.502 : R)⟩ : ColorHSV R))
  bad := ck bad 231 (Near.near (0.001 : R) (ColorRGB.toHSV (ColorRGB.ofInts toR 32 64 128)) (⟨(220.0 : R), (0.75 : R), (0.502 : R)⟩ : ColorHSV R))
  return bad
end Colorrgb_18
#guard passes Colorrgb_18.run

namespace Colorrgb_19
abbrev R := Float32
def run : Res (List Nat) := do
  let mut bad : List Nat := []
  bad := ck bad 269 (Near.near (0.001 : R) (ColorRGB.White : ColorRGB R) (ColorRGB.White : ColorRGB R))
  return bad
end Colorrgb_19
#guard passes Colorrgb_19.run

end MathLib.Conformance
