import Verif.Conformance.Base

/-!
# Unit tests of `tests/tests/src/test_colorrgba.cpp`, replayed on the model

Generated by `tools/conform.py`; the numbers are the source lines of the checks.  63 checks;
16 checks of that file are not translated (casts, random draws, `sizeof`, `data()`, and
functions outside the model).
-/

namespace MathLib.Conformance
set_option linter.all false

namespace Colorrgba_0
abbrev R := Float32
def run : Res (List Nat) := do
  let mut bad : List Nat := []
  bad := ck bad 19 ((ColorRGBA.Black : ColorRGBA R).r == (0.0 : R))
  bad := ck bad 20 ((ColorRGBA.Black : ColorRGBA R).g == (0.0 : R))
  bad := ck bad 21 ((ColorRGBA.Black : ColorRGBA R).b == (0.0 : R))
  return bad
end Colorrgba_0
#guard passes Colorrgba_0.run

namespace Colorrgba_1
abbrev R := Float32
def run : Res (List Nat) := do
  let mut bad : List Nat := []
  bad := ck bad 26 ((ColorRGBA.Red : ColorRGBA R).r == (1.0 : R))
  bad := ck bad 27 ((ColorRGBA.Red : ColorRGBA R).g == (0.0 : R))
  bad := ck bad 28 ((ColorRGBA.Red : ColorRGBA R).b == (0.0 : R))
  return bad
end Colorrgba_1
#guard passes Colorrgba_1.run

namespace Colorrgba_2
abbrev R := Float32
def run : Res (List Nat) := do
  let mut bad : List Nat := []
  bad := ck bad 33 ((ColorRGBA.Green : ColorRGBA R).r == (0.0 : R))
  bad := ck bad 34 ((ColorRGBA.Green : ColorRGBA R).g == (1.0 : R))
  bad := ck bad 35 ((ColorRGBA.Green : ColorRGBA R).b == (0.0 : R))
  return bad
end Colorrgba_2
#guard passes Colorrgba_2.run

namespace Colorrgba_3
abbrev R := Float32
def run : Res (List Nat) := do
  let mut bad : List Nat := []
  bad := ck bad 40 ((ColorRGBA.Blue : ColorRGBA R).r == (0.0 : R))
  bad := ck bad 41 ((ColorRGBA.Blue : ColorRGBA R).g == (0.0 : R))
  bad := ck bad 42 ((ColorRGBA.Blue : ColorRGBA R).b == (1.0 : R))
  return bad
end Colorrgba_3
#guard passes Colorrgba_3.run

namespace Colorrgba_4
abbrev R := Float32
def run : Res (List Nat) := do
  let mut bad : List Nat := []
  bad := ck bad 47 ((ColorRGBA.White : ColorRGBA R).r == (1.0 : R))
  bad := ck bad 48 ((ColorRGBA.White : ColorRGBA R).g == (1.0 : R))
  bad := ck bad 49 ((ColorRGBA.White : ColorRGBA R).b == (1.0 : R))
  return bad
end Colorrgba_4
#guard passes Colorrgba_4.run

namespace Colorrgba_5
abbrev R := Float32
def run : Res (List Nat) := do
  let mut bad : List Nat := []
  let v1 : ColorRGBA R := (ColorRGBA.ofGrey (42 : R) (1 : R))
  bad := ck bad 57 (v1.r == (42.0 : R))
  bad := ck bad 58 (v1.g == (42.0 : R))
  bad := ck bad 59 (v1.b == (42.0 : R))
  return bad
end Colorrgba_5
#guard passes Colorrgba_5.run

namespace Colorrgba_6
abbrev R := Float32
def run : Res (List Nat) := do
  let mut bad : List Nat := []
  let v1 : ColorRGBA R := (⟨(1.0 : R), (2.0 : R), (3.0 : R), (1 : R)⟩ : ColorRGBA R)
  bad := ck bad 65 (v1.r == (1.0 : R))
  bad := ck bad 66 (v1.g == (2.0 : R))
  bad := ck bad 67 (v1.b == (3.0 : R))
  return bad
end Colorrgba_6
#guard passes Colorrgba_6.run

namespace Colorrgba_7
abbrev R := Float32
def run : Res (List Nat) := do
  let mut bad : List Nat := []
  bad := ck bad 74 (Near.near (0.001 : R) (ColorRGBA.interp (ColorRGBA.Red : ColorRGBA R) (ColorRGBA.Green : ColorRGBA R) (0.0 : R)) (ColorRGBA.Red : ColorRGBA R))
  bad := ck bad 76 (Near.near (0.001 : R) (ColorRGBA.interp (ColorRGBA.Red : ColorRGBA R) (ColorRGBA.Green : ColorRGBA R) (1.0 : R)) (ColorRGBA.Green : ColorRGBA R))
  bad := ck bad 78 (Near.near (0.001 : R) (ColorRGBA.interp (ColorRGBA.Black : ColorRGBA R) (ColorRGBA.White : ColorRGBA R) (0.5 : R)) (ColorRGBA.ofGrey (0.5 : R) (1.0 : R)))
  return bad
end Colorrgba_7
#guard passes Colorrgba_7.run

namespace Colorrgba_8
abbrev R := Float32
def run : Res (List Nat) := do
  let mut bad : List Nat := []
  let v1 : ColorRGBA R := (⟨(1.0 : R), (2.0 : R), (3.0 : R), (1 : R)⟩ : ColorRGBA R)
  bad := ck bad 88 (Near.near (0.001 : R) v1 (⟨(1.0 : R), (2.0 : R), (3.0 : R), (1 : R)⟩ : ColorRGBA R))
  return bad
end Colorrgba_8
#guard passes Colorrgba_8.run

namespace Colorrgba_9
abbrev R := Float32
def run : Res (List Nat) := do
  let mut bad : List Nat := []
  let v1 : ColorRGBA R := (ColorRGBA.Red : ColorRGBA R)
  bad := ck bad 95 (Near.near (0.001 : R) v1 (ColorRGBA.Red : ColorRGBA R))
  let v2 : ColorRGBA R := (ColorRGBA.Green : ColorRGBA R)
  bad := ck bad 97 (Near.near (0.001 : R) v2 (ColorRGBA.Green : ColorRGBA R))
  let v3 : ColorRGBA R := (ColorRGBA.Blue : ColorRGBA R)
  bad := ck bad 99 (Near.near (0.001 : R) v3 (ColorRGBA.Blue : ColorRGBA R))
  let v4 : ColorRGBA R := (⟨(1.0 : R), (2.0 : R), (3.0 : R), (1 : R)⟩ : ColorRGBA R)
  bad := ck bad 101 (Near.near (0.001 : R) v4 (⟨(1.0 : R), (2.0 : R), (3.0 : R), (1 : R)⟩ : ColorRGBA R))
  return bad
end Colorrgba_9
#guard passes Colorrgba_9.run

namespace Colorrgba_10
abbrev R := Float32
def run : Res (List Nat) := do
  let mut bad : List Nat := []
  let v1 : ColorRGBA R := (ColorRGBA.interp (ColorRGBA.Red : ColorRGBA R) (ColorRGBA.Green : ColorRGBA R) (0.0 : R))
  bad := ck bad 108 (Near.near (0.001 : R) v1 (ColorRGBA.Red : ColorRGBA R))
  let v2 : ColorRGBA R := (ColorRGBA.interp (ColorRGBA.Red : ColorRGBA R) (ColorRGBA.Green : ColorRGBA R) (1.0 : R))
  bad := ck bad 112 (Near.near (0.001 : R) v2 (ColorRGBA.Green : ColorRGBA R))
  let v3 : ColorRGBA R := (ColorRGBA.interp (ColorRGBA.Black : ColorRGBA R) (ColorRGBA.White : ColorRGBA R) (0.5 : R))
  bad := ck bad 116 (Near.near (0.001 : R) v3 (ColorRGBA.ofGrey (0.5 : R) (1.0 : R)))
  return bad
end Colorrgba_10
#guard passes Colorrgba_10.run

namespace Colorrgba_11
abbrev R := Float32
def run : Res (List Nat) := do
  let mut bad : List Nat := []
  let v1 : ColorRGBA R := (⟨(1.0 : R), (2.0 : R), (3.0 : R), (1 : R)⟩ : ColorRGBA R)
  let v2 : ColorRGBA R := (ColorRGBA.addAssign v1 (⟨(10.0 : R), (11.0 : R), (12.0 : R), (1 : R)⟩ : ColorRGBA R))
  bad := ck bad 126 (Near.near (0.001 : R) v2 (⟨(11.0 : R), (13.0 : R), (15.0 : R), (1 : R)⟩ : ColorRGBA R))
  return bad
end Colorrgba_11
#guard passes Colorrgba_11.run

namespace Colorrgba_12
abbrev R := Float32
def run : Res (List Nat) := do
  let mut bad : List Nat := []
  let v1 : ColorRGBA R := (⟨(1.0 : R), (2.0 : R), (3.0 : R), (1 : R)⟩ : ColorRGBA R)
  let v2 : ColorRGBA R := (ColorRGBA.subAssign v1 (⟨(10.0 : R), (11.0 : R), (12.0 : R), (1 : R)⟩ : ColorRGBA R))
  bad := ck bad 133 (Near.near (0.001 : R) v2 (⟨(-(9.0 : R)), (-(9.0 : R)), (-(9.0 : R)), (1 : R)⟩ : ColorRGBA R))
  return bad
end Colorrgba_12
#guard passes Colorrgba_12.run

namespace Colorrgba_13
abbrev R := Float32
def run : Res (List Nat) := do
  let mut bad : List Nat := []
  let v1 : ColorRGBA R := (⟨(1.0 : R), (2.0 : R), (3.0 : R), (1 : R)⟩ : ColorRGBA R)
  let v2 : ColorRGBA R := (ColorRGBA.mulAssign v1 (3 : R))
  bad := ck bad 140 (Near.near (0.001 : R) v2 (⟨(3.0 : R), (6.0 : R), (9.0 : R), (1 : R)⟩ : ColorRGBA R))
  return bad
end Colorrgba_13
#guard passes Colorrgba_13.run

namespace Colorrgba_14
abbrev R := Float32
def run : Res (List Nat) := do
  let mut bad : List Nat := []
  let v1 : ColorRGBA R := (⟨(1.0 : R), (2.0 : R), (3.0 : R), (1 : R)⟩ : ColorRGBA R)
  let v2 : ColorRGBA R := (← ColorRGBA.divAssign v1 (2 : R))
  bad := ck bad 147 (Near.near (0.001 : R) v2 (⟨(0.5 : R), (1.0 : R), (1.5 : R), (1 : R)⟩ : ColorRGBA R))
  return bad
end Colorrgba_14
#guard passes Colorrgba_14.run

namespace Colorrgba_15
abbrev R := Float32
def run : Res (List Nat) := do
  let mut bad : List Nat := []
  let v1 : ColorRGBA R := (⟨(1.0 : R), (2.0 : R), (3.0 : R), (1 : R)⟩ : ColorRGBA R)
  bad := ck bad 155 (Near.near (0.001 : R) (ColorRGBA.add v1 (⟨(10.0 : R), (11.0 : R), (12.0 : R), (1 : R)⟩ : ColorRGBA R)) (⟨(11.0 : R), (13.0 : R), (15.0 : R), (1 : R)⟩ : ColorRGBA R))
  return bad
end Colorrgba_15
#guard passes Colorrgba_15.run

namespace Colorrgba_16
abbrev R := Float32
def run : Res (List Nat) := do
  let mut bad : List Nat := []
  let v1 : ColorRGBA R := (⟨(1.0 : R), (2.0 : R), (3.0 : R), (1 : R)⟩ : ColorRGBA R)
  bad := ck bad 162 (Near.near (0.001 : R) (ColorRGBA.neg v1) (⟨(-(1.0 : R)), (-(2.0 : R)), (-(3.0 : R)), (1 : R)⟩ : ColorRGBA R))
  return bad
end Colorrgba_16
#guard passes Colorrgba_16.run

namespace Colorrgba_17
abbrev R := Float32
def run : Res (List Nat) := do
  let mut bad : List Nat := []
  let v1 : ColorRGBA R := (⟨(1.0 : R), (2.0 : R), (3.0 : R), (1 : R)⟩ : ColorRGBA R)
  bad := ck bad 168 (Near.near (0.001 : R) (ColorRGBA.sub v1 (⟨(10.0 : R), (11.0 : R), (12.0 : R), (1 : R)⟩ : ColorRGBA R)) (⟨(-(9.0 : R)), (-(9.0 : R)), (-(9.0 : R)), (1 : R)⟩ : ColorRGBA R))
  return bad
end Colorrgba_17
#guard passes Colorrgba_17.run

namespace Colorrgba_18
abbrev R := Float32
def run : Res (List Nat) := do
  let mut bad : List Nat := []
  let v1 : ColorRGBA R := (⟨(1.0 : R), (2.0 : R), (3.0 : R), (1 : R)⟩ : ColorRGBA R)
  bad := ck bad 175 (Near.near (0.001 : R) (ColorRGBA.mul v1 (2 : R)) (⟨(2.0 : R), (4.0 : R), (6.0 : R), (1 : R)⟩ : ColorRGBA R))
  return bad
end Colorrgba_18
#guard passes Colorrgba_18.run

namespace Colorrgba_19
abbrev R := Float32
def run : Res (List Nat) := do
  let mut bad : List Nat := []
  let v1 : ColorRGBA R := (⟨(1.0 : R), (2.0 : R), (3.0 : R), (1 : R)⟩ : ColorRGBA R)
  bad := ck bad 181 (Near.near (0.001 : R) (← ColorRGBA.div v1 (0.5 : R)) (⟨(2.0 : R), (4.0 : R), (6.0 : R), (1 : R)⟩ : ColorRGBA R))
  return bad
end Colorrgba_19
#guard passes Colorrgba_19.run

namespace Colorrgba_20
abbrev R := Float32
def run : Res (List Nat) := do
  let mut bad : List Nat := []
  let v1 : ColorRGBA R := (⟨(1.0 : R), (2.0 : R), (3.0 : R), (1 : R)⟩ : ColorRGBA R)
  bad := ck bad 189 (ColorRGBA.eq v1 v1)
  bad := ck bad 190 (ColorRGBA.eq v1 (⟨(1.0 : R), (2.0 : R), (3.0 : R), (1 : R)⟩ : ColorRGBA R))
  return bad
end Colorrgba_20
#guard passes Colorrgba_20.run

namespace Colorrgba_21
abbrev R := Float32
def run : Res (List Nat) := do
  let mut bad : List Nat := []
  let v1 : ColorRGBA R := (⟨(1.0 : R), (2.0 : R), (3.0 : R), (1 : R)⟩ : ColorRGBA R)
  bad := ck bad 196 (!(ColorRGBA.ne v1 v1))
  bad := ck bad 197 (!(ColorRGBA.ne v1 (⟨(1.0 : R), (2.0 : R), (3.0 : R), (1 : R)⟩ : ColorRGBA R)))
  return bad
end Colorrgba_21
#guard passes Colorrgba_21.run

namespace Colorrgba_22
abbrev R := Float32
def run : Res (List Nat) := do
  let mut bad : List Nat := []
  bad := ck bad 204 (ColorHSV.eq (ColorRGBA.toHSV (ColorRGBA.Black : ColorRGBA R)) (ColorHSV.Black : ColorHSV R))
  bad := ck bad 205 (ColorHSV.eq (ColorRGBA.toHSV (ColorRGBA.Red : ColorRGBA R)) (ColorHSV.Red : ColorHSV R))
  bad := ck bad 206 (ColorHSV.eq (ColorRGBA.toHSV (ColorRGBA.Green : ColorRGBA R)) (ColorHSV.Green : ColorHSV R))
  bad := ck bad 207 (ColorHSV.eq (ColorRGBA.toHSV (ColorRGBA.Blue : ColorRGBA R)) (ColorHSV.Blue : ColorHSV R))
  bad := ck bad 208 (ColorHSV.eq (ColorRGBA.toHSV (ColorRGBA.White : ColorRGBA R)) (ColorHSV.White : ColorHSV R))
  bad := ck bad 210 (ColorHSV.eq (ColorRGBA.toHSV (ColorRGBA.ofInts toR 255 255 0 255)) (⟨(60.0 : R), (1.0 : R), (1.0 : R)⟩ : ColorHSV R))
  bad := ck bad 211 (ColorHSV.eq (ColorRGBA.toHSV (ColorRGBA.ofInts toR 0 255 255 255)) (⟨(180.0 : R), (1.0 : R), (1.0 : R)⟩ : ColorHSV R))
  bad := ck bad 212 (ColorHSV.eq (ColorRGBA.toHSV (ColorRGBA.ofInts toR 255 0 255 255)) (⟨(300.0 : R), (1.0 : R), (1.0 : R)⟩ : ColorHSV R))
  bad := ck bad 214 (Near.near (0.001 : R) (ColorRGBA.toHSV (ColorRGBA.ofInts toR 128 128 64 255)) (⟨(60.0 : R), (0.5 : R), (0.502 : R)⟩ : ColorHSV R))
  bad := ck bad 216 (Near.near (0.001 : R) (ColorRGBA.toHSV (ColorRGBA.ofInts toR 64 128 128 255)) (⟨(180.0 : R), (0.5 : R), (0.502 : R)⟩ : ColorHSV R))
  bad := ck bad 218 (Near.near (0.001 : R) (ColorRGBA.toHSV (ColorRGBA.ofInts toR 128 64 128 255)) (⟨(300.0 : R), (0.5 : R), (0.502 : R)⟩ : ColorHSV R))
  bad := ck bad 221 (Near.near (0.001 : R) (ColorRGBA.toHSV (ColorRGBA.ofInts toR 128 64 32 255)) (⟨(20.0 : R), (0.75 : R), (0.502 : R)⟩ : ColorHSV R))
  bad := ck bad 223 (Near.near (0.001 : R) (ColorRGBA.toHSV (ColorRGBA.ofInts toR 128 32 64 255)) (⟨(340.0 : R), (0.75 : R), (0.502 : R)⟩ : ColorHSV R))
  bad := ck bad 225 (Near.near (0.001 : R) (ColorRGBA.toHSV (ColorRGBA.ofInts toR 64 128 32 255)) (⟨(100.0 : R), (0.75 : R), (0.502 : R)⟩ : ColorHSV R))
  bad := ck bad 227 (Near.near (0.001 : R) (ColorRGBA.toHSV (ColorRGBA.ofInts toR 32 128 64 255)) (⟨(140.0 : R), (0.75 : R), (0.502 : R)⟩ : ColorHSV R))
  bad := ck bad 229 (Near.near (0.001 : R) (ColorRGBA.toHSV (ColorRGBA.ofInts toR 64 32 128 255)) (⟨(260.0 : R), (0.75 : R), (0.502 : R)⟩ : ColorHSV R))
  bad := ck bad 231 (Near.near (0.001 : R) (ColorRGBA.toHSV (ColorRGBA.ofInts toR 32 64 128 255)) (⟨(220.0 : R), (0.75 : R), (0.502 : R)⟩ : ColorHSV R))
  return bad
end Colorrgba_22
#guard passes Colorrgba_22.run

namespace Colorrgba_23
abbrev R := Float32
def run : Res (List Nat) := do
  let mut bad : List Nat := []
  bad := ck bad 269 (Near.near (0.001 : R) (ColorRGBA.White : ColorRGBA R) (ColorRGBA.White : ColorRGBA R))
  return bad
end Colorrgba_23
#guard passes Colorrgba_23.run

end MathLib.Conformance
