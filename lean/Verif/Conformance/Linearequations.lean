import Verif.Conformance.Base

/-!
# Unit tests of `tests/tests/src/test_linearequations.cpp`, replayed on the model

Generated by `tools/conform.py`; the numbers are the source lines of the checks.  66 checks;
0 checks of that file are not translated (casts, random draws, `sizeof`, `data()`, and
functions outside the model).
-/

namespace MathLib.Conformance
set_option linter.all false

namespace Linearequations_0
abbrev R := Float32
def run : Res (List Nat) := do
  let mut bad : List Nat := []
  let v1 : R := (1.0 : R)
  let v2 : R := (1.0 : R)
  let v3 : R := (1.0 : R)
  let v4 : R := (1.0 : R)
  let v5 : R := (1.0 : R)
  let v6 : R := (1.0 : R)
  let o7 ← TriDiagonal.solve (bufOf [v1]) (bufOf [v2, v3]) (bufOf [v4]) (bufOf [v5, v6]) (Buf.alloc 2) 2
  bad := ck bad 16 (!o7.1)
  return bad
end Linearequations_0
#guard passes Linearequations_0.run

namespace Linearequations_1
abbrev R := Float32
def run : Res (List Nat) := do
  let mut bad : List Nat := []
  let v1 : R := (1.0 : R)
  let v2 : R := (2.0 : R)
  let v3 : R := (2.0 : R)
  let v4 : R := (1.0 : R)
  let v5 : R := (1.0 : R)
  let v6 : R := (1.0 : R)
  let o7 ← TriDiagonal.solve (bufOf [v1]) (bufOf [v2, v3]) (bufOf [v4]) (bufOf [v5, v6]) (Buf.alloc 2) 2
  bad := ck bad 26 o7.1
  bad := ck bad 27 (Near.near (1e-6 : R) (← (o7.2).get 0) ((1.0 : R) / (3.0 : R)))
  bad := ck bad 28 (Near.near (1e-6 : R) (← (o7.2).get 1) ((1.0 : R) / (3.0 : R)))
  return bad
end Linearequations_1
#guard passes Linearequations_1.run

namespace Linearequations_2
abbrev R := Float32
def run : Res (List Nat) := do
  let mut bad : List Nat := []
  let v1 : R := (2.0 : R)
  let v2 : R := (2.0 : R)
  let v3 : R := (7.0 : R)
  let v4 : R := (1.0 : R)
  let v5 : R := (1.0 : R)
  let v6 : R := (1.0 : R)
  let o7 ← TriDiagonal.solve (bufOf [v1]) (bufOf [v2, v3]) (bufOf [v4]) (bufOf [v5, v6]) (Buf.alloc 2) 2
  bad := ck bad 38 o7.1
  bad := ck bad 39 (Near.near (1e-6 : R) (← (o7.2).get 0) (0.5 : R))
  bad := ck bad 40 (Near.near (1e-6 : R) (← (o7.2).get 1) (0.0 : R))
  return bad
end Linearequations_2
#guard passes Linearequations_2.run

namespace Linearequations_3
abbrev R := Float32
def run : Res (List Nat) := do
  let mut bad : List Nat := []
  let v1 : R := (1.0 : R)
  let v2 : R := (1.0 : R)
  let v3 : R := (2.0 : R)
  let v4 : R := (2.0 : R)
  let v5 : R := (2.0 : R)
  let v6 : R := (1.0 : R)
  let v7 : R := (1.0 : R)
  let v8 : R := (1.0 : R)
  let v9 : R := (1.0 : R)
  let v10 : R := (1.0 : R)
  let o11 ← TriDiagonal.solve (bufOf [v1, v2]) (bufOf [v3, v4, v5]) (bufOf [v6, v7]) (bufOf [v8, v9, v10]) (Buf.alloc 3) 3
  bad := ck bad 50 o11.1
  bad := ck bad 51 (Near.near (1e-6 : R) (← (o11.2).get 0) (0.5 : R))
  bad := ck bad 52 (Near.near (1e-6 : R) (← (o11.2).get 1) (0.0 : R))
  bad := ck bad 53 (Near.near (1e-6 : R) (← (o11.2).get 2) (0.5 : R))
  return bad
end Linearequations_3
#guard passes Linearequations_3.run

namespace Linearequations_4
abbrev R := Float32
def run : Res (List Nat) := do
  let mut bad : List Nat := []
  let v1 : R := (2.0 : R)
  let v2 : R := (2.0 : R)
  let v3 : R := (2.0 : R)
  let v4 : R := (2.0 : R)
  let v5 : R := (7.0 : R)
  let v6 : R := (1.0 : R)
  let v7 : R := (1.0 : R)
  let v8 : R := (1.0 : R)
  let v9 : R := (1.0 : R)
  let v10 : R := (1.0 : R)
  let o11 ← TriDiagonal.solve (bufOf [v1, v2]) (bufOf [v3, v4, v5]) (bufOf [v6, v7]) (bufOf [v8, v9, v10]) (Buf.alloc 3) 3
  bad := ck bad 63 o11.1
  bad := ck bad 64 (Near.near (1e-6 : R) (← (o11.2).get 0) ((3.0 : R) / (5.0 : R)))
  bad := ck bad 65 (Near.near (1e-6 : R) (← (o11.2).get 1) ((-(1.0 : R)) / (5.0 : R)))
  bad := ck bad 66 (Near.near (1e-6 : R) (← (o11.2).get 2) ((1.0 : R) / (5.0 : R)))
  return bad
end Linearequations_4
#guard passes Linearequations_4.run

namespace Linearequations_5
abbrev R := Float32
def run : Res (List Nat) := do
  let mut bad : List Nat := []
  let v1 : R := (1.0 : R)
  let v2 : R := (1.0 : R)
  let v3 : R := (1.0 : R)
  let v4 : R := (4.0 : R)
  let v5 : R := (2.0 : R)
  let v6 : R := (2.0 : R)
  let v7 : R := (6.5 : R)
  let v8 : R := (1.0 : R)
  let v9 : R := (1.0 : R)
  let v10 : R := (1.0 : R)
  let v11 : R := (1.0 : R)
  let v12 : R := (1.0 : R)
  let v13 : R := (1.0 : R)
  let v14 : R := (1.0 : R)
  let o15 ← TriDiagonal.solve (bufOf [v1, v2, v3]) (bufOf [v4, v5, v6, v7]) (bufOf [v8, v9, v10]) (bufOf [v11, v12, v13, v14]) (Buf.alloc 4) 4
  bad := ck bad 76 o15.1
  bad := ck bad 77 (Near.near (1e-6 : R) (← (o15.2).get 0) ((11.0 : R) / (58.0 : R)))
  bad := ck bad 78 (Near.near (1e-6 : R) (← (o15.2).get 1) ((7.0 : R) / (29.0 : R)))
  bad := ck bad 79 (Near.near (1e-6 : R) (← (o15.2).get 2) ((19.0 : R) / (58.0 : R)))
  bad := ck bad 80 (Near.near (1e-6 : R) (← (o15.2).get 3) ((3.0 : R) / (29.0 : R)))
  return bad
end Linearequations_5
#guard passes Linearequations_5.run

namespace Linearequations_6
abbrev R := Float32
def run : Res (List Nat) := do
  let mut bad : List Nat := []
  let v1 : R := (1.0 : R)
  let v2 : R := (1.0 : R)
  let v3 : R := (1.0 : R)
  let v4 : R := (1.0 : R)
  let v5 : Vec3 R := (Vec3.oneX : Vec3 R)
  let v6 : Vec3 R := (Vec3.oneX : Vec3 R)
  let o7 ← TriDiagonal.solve3 (bufOf [v1]) (bufOf [v2, v3]) (bufOf [v4]) (bufOf [v5, v6]) (Buf.alloc 2) 2
  bad := ck bad 93 (!o7.1)
  return bad
end Linearequations_6
#guard passes Linearequations_6.run

namespace Linearequations_7
abbrev R := Float32
def run : Res (List Nat) := do
  let mut bad : List Nat := []
  let v1 : R := (1.0 : R)
  let v2 : R := (2.0 : R)
  let v3 : R := (2.0 : R)
  let v4 : R := (1.0 : R)
  let v5 : Vec3 R := (Vec3.oneX : Vec3 R)
  let v6 : Vec3 R := (Vec3.oneX : Vec3 R)
  let o7 ← TriDiagonal.solve3 (bufOf [v1]) (bufOf [v2, v3]) (bufOf [v4]) (bufOf [v5, v6]) (Buf.alloc 2) 2
  bad := ck bad 103 o7.1
  bad := ck bad 104 (Near.near (1e-6 : R) (← (o7.2).get 0) ((Vec3.oneX : Vec3 R) * ((1.0 : R) / (3.0 : R))))
  bad := ck bad 105 (Near.near (1e-6 : R) (← (o7.2).get 1) ((Vec3.oneX : Vec3 R) * ((1.0 : R) / (3.0 : R))))
  return bad
end Linearequations_7
#guard passes Linearequations_7.run

namespace Linearequations_8
abbrev R := Float32
def run : Res (List Nat) := do
  let mut bad : List Nat := []
  let v1 : R := (2.0 : R)
  let v2 : R := (2.0 : R)
  let v3 : R := (7.0 : R)
  let v4 : R := (1.0 : R)
  let v5 : Vec3 R := (Vec3.oneX : Vec3 R)
  let v6 : Vec3 R := (Vec3.oneX : Vec3 R)
  let o7 ← TriDiagonal.solve3 (bufOf [v1]) (bufOf [v2, v3]) (bufOf [v4]) (bufOf [v5, v6]) (Buf.alloc 2) 2
  bad := ck bad 115 o7.1
  bad := ck bad 116 (Near.near (1e-6 : R) (← (o7.2).get 0) ((Vec3.oneX : Vec3 R) * (0.5 : R)))
  bad := ck bad 117 (Near.near (1e-6 : R) (← (o7.2).get 1) (Vec3.zero : Vec3 R))
  return bad
end Linearequations_8
#guard passes Linearequations_8.run

namespace Linearequations_9
abbrev R := Float32
def run : Res (List Nat) := do
  let mut bad : List Nat := []
  let v1 : R := (1.0 : R)
  let v2 : R := (1.0 : R)
  let v3 : R := (1.0 : R)
  let v4 : R := (1.0 : R)
  let v5 : R := (1.0 : R)
  let v6 : R := (1.0 : R)
  let v7 : R := (1.0 : R)
  let v8 : R := (1.0 : R)
  let v9 : R := (1.0 : R)
  let v10 : R := (1.0 : R)
  let o11 ← TriDiagonal.solveCyclic (bufOf [v1, v2]) (bufOf [v3, v4, v5]) (bufOf [v6, v7]) (1.0 : R) (1.0 : R) (bufOf [v8, v9, v10]) (Buf.alloc 3) 3
  bad := ck bad 130 (!o11.1)
  return bad
end Linearequations_9
#guard passes Linearequations_9.run

namespace Linearequations_10
abbrev R := Float32
def run : Res (List Nat) := do
  let mut bad : List Nat := []
  let v1 : R := (1.0 : R)
  let v2 : R := (1.0 : R)
  let v3 : R := (2.0 : R)
  let v4 : R := (2.0 : R)
  let v5 : R := (2.0 : R)
  let v6 : R := (1.0 : R)
  let v7 : R := (1.0 : R)
  let v8 : R := (1.0 : R)
  let v9 : R := (1.0 : R)
  let v10 : R := (1.0 : R)
  let o11 ← TriDiagonal.solveCyclic (bufOf [v1, v2]) (bufOf [v3, v4, v5]) (bufOf [v6, v7]) (0.0 : R) (0.0 : R) (bufOf [v8, v9, v10]) (Buf.alloc 3) 3
  bad := ck bad 140 o11.1
  bad := ck bad 141 (Near.near (1e-6 : R) (← (o11.2).get 0) (0.5 : R))
  bad := ck bad 142 (Near.near (1e-6 : R) (← (o11.2).get 1) (0.0 : R))
  bad := ck bad 143 (Near.near (1e-6 : R) (← (o11.2).get 2) (0.5 : R))
  return bad
end Linearequations_10
#guard passes Linearequations_10.run

namespace Linearequations_11
abbrev R := Float32
def run : Res (List Nat) := do
  let mut bad : List Nat := []
  let v1 : R := (2.0 : R)
  let v2 : R := (2.0 : R)
  let v3 : R := (2.0 : R)
  let v4 : R := (2.0 : R)
  let v5 : R := (7.0 : R)
  let v6 : R := (1.0 : R)
  let v7 : R := (1.0 : R)
  let v8 : R := (1.0 : R)
  let v9 : R := (1.0 : R)
  let v10 : R := (1.0 : R)
  let o11 ← TriDiagonal.solveCyclic (bufOf [v1, v2]) (bufOf [v3, v4, v5]) (bufOf [v6, v7]) (0.0 : R) (0.0 : R) (bufOf [v8, v9, v10]) (Buf.alloc 3) 3
  bad := ck bad 153 o11.1
  bad := ck bad 154 (Near.near (1e-6 : R) (← (o11.2).get 0) ((3.0 : R) / (5.0 : R)))
  bad := ck bad 155 (Near.near (1e-6 : R) (← (o11.2).get 1) ((-(1.0 : R)) / (5.0 : R)))
  bad := ck bad 156 (Near.near (1e-6 : R) (← (o11.2).get 2) ((1.0 : R) / (5.0 : R)))
  return bad
end Linearequations_11
#guard passes Linearequations_11.run

namespace Linearequations_12
abbrev R := Float32
def run : Res (List Nat) := do
  let mut bad : List Nat := []
  let v1 : R := (1.0 : R)
  let v2 : R := (1.0 : R)
  let v3 : R := (2.0 : R)
  let v4 : R := (2.0 : R)
  let v5 : R := (2.0 : R)
  let v6 : R := (1.0 : R)
  let v7 : R := (1.0 : R)
  let v8 : R := (1.0 : R)
  let v9 : R := (1.0 : R)
  let v10 : R := (1.0 : R)
  let o11 ← TriDiagonal.solveCyclic (bufOf [v1, v2]) (bufOf [v3, v4, v5]) (bufOf [v6, v7]) (1.0 : R) (1.0 : R) (bufOf [v8, v9, v10]) (Buf.alloc 3) 3
  bad := ck bad 166 o11.1
  bad := ck bad 167 (Near.near (1e-6 : R) (← (o11.2).get 0) (0.25 : R))
  bad := ck bad 168 (Near.near (1e-6 : R) (← (o11.2).get 1) (0.25 : R))
  bad := ck bad 169 (Near.near (1e-6 : R) (← (o11.2).get 2) (0.25 : R))
  return bad
end Linearequations_12
#guard passes Linearequations_12.run

namespace Linearequations_13
abbrev R := Float32
def run : Res (List Nat) := do
  let mut bad : List Nat := []
  let v1 : R := (1.0 : R)
  let v2 : R := (1.0 : R)
  let v3 : R := (1.0 : R)
  let v4 : R := (2.0 : R)
  let v5 : R := (2.0 : R)
  let v6 : R := (2.0 : R)
  let v7 : R := (2.0 : R)
  let v8 : R := (1.0 : R)
  let v9 : R := (1.0 : R)
  let v10 : R := (1.0 : R)
  let v11 : R := (1.0 : R)
  let v12 : R := (1.0 : R)
  let v13 : R := (1.0 : R)
  let v14 : R := (1.0 : R)
  let o15 ← TriDiagonal.solveCyclic (bufOf [v1, v2, v3]) (bufOf [v4, v5, v6, v7]) (bufOf [v8, v9, v10]) (3.0 : R) (3.0 : R) (bufOf [v11, v12, v13, v14]) (Buf.alloc 4) 4
  bad := ck bad 179 o15.1
  bad := ck bad 180 (Near.near (1e-6 : R) (← (o15.2).get 0) ((1.0 : R) / (7.0 : R)))
  bad := ck bad 181 (Near.near (1e-6 : R) (← (o15.2).get 1) ((2.0 : R) / (7.0 : R)))
  bad := ck bad 182 (Near.near (1e-6 : R) (← (o15.2).get 2) ((2.0 : R) / (7.0 : R)))
  bad := ck bad 183 (Near.near (1e-6 : R) (← (o15.2).get 3) ((1.0 : R) / (7.0 : R)))
  return bad
end Linearequations_13
#guard passes Linearequations_13.run

namespace Linearequations_14
abbrev R := Float32
def run : Res (List Nat) := do
  let mut bad : List Nat := []
  let v1 : R := (1.0 : R)
  let v2 : R := (1.0 : R)
  let v3 : R := (1.0 : R)
  let v4 : R := (1.0 : R)
  let v5 : R := (1.0 : R)
  let v6 : R := (1.0 : R)
  let o7 ← GaussJordan.solve abs' (bufOf [v1, v2, v3, v4]) 2 (bufOf [v5, v6]) 1
  bad := ck bad 196 (!o7.isSome)
  return bad
end Linearequations_14
#guard passes Linearequations_14.run

namespace Linearequations_15
abbrev R := Float32
def run : Res (List Nat) := do
  let mut bad : List Nat := []
  let v1 : R := (2.0 : R)
  let v2 : R := (1.0 : R)
  let v3 : R := (1.0 : R)
  let v4 : R := (2.0 : R)
  let v5 : R := (1.0 : R)
  let v6 : R := (1.0 : R)
  let o7 ← GaussJordan.solve abs' (bufOf [v1, v2, v3, v4]) 2 (bufOf [v5, v6]) 1
  bad := ck bad 203 o7.isSome
  bad := ck bad 204 (Near.near (1e-6 : R) (← ((o7.getD (Buf.alloc 0, Buf.alloc 0)).2).get 1) ((1.0 : R) / (3.0 : R)))
  bad := ck bad 205 (Near.near (1e-6 : R) (← ((o7.getD (Buf.alloc 0, Buf.alloc 0)).2).get 0) ((1.0 : R) / (3.0 : R)))
  return bad
end Linearequations_15
#guard passes Linearequations_15.run

namespace Linearequations_16
abbrev R := Float32
def run : Res (List Nat) := do
  let mut bad : List Nat := []
  let v1 : R := (2.0 : R)
  let v2 : R := (1.0 : R)
  let v3 : R := (2.0 : R)
  let v4 : R := (7.0 : R)
  let v5 : R := (1.0 : R)
  let v6 : R := (1.0 : R)
  let o7 ← GaussJordan.solve abs' (bufOf [v1, v2, v3, v4]) 2 (bufOf [v5, v6]) 1
  bad := ck bad 212 o7.isSome
  bad := ck bad 213 (Near.near (1e-6 : R) (← ((o7.getD (Buf.alloc 0, Buf.alloc 0)).2).get 0) (0.5 : R))
  bad := ck bad 214 (Near.near (1e-6 : R) (← ((o7.getD (Buf.alloc 0, Buf.alloc 0)).2).get 1) (0.0 : R))
  return bad
end Linearequations_16
#guard passes Linearequations_16.run

namespace Linearequations_17
abbrev R := Float32
def run : Res (List Nat) := do
  let mut bad : List Nat := []
  let v1 : R := (1.0 : R)
  let v2 : R := (1.0 : R)
  let v3 : R := (1.0 : R)
  let v4 : R := (1.0 : R)
  let v5 : Vec2 R := (Vec2.oneX : Vec2 R)
  let v6 : Vec2 R := (Vec2.oneX : Vec2 R)
  let o7 ← GaussJordan.solve abs' (bufOf [v1, v2, v3, v4]) 2 (bufOf [v5.x, v5.y, v6.x, v6.y]) 2
  bad := ck bad 224 (!o7.isSome)
  return bad
end Linearequations_17
#guard passes Linearequations_17.run

namespace Linearequations_18
abbrev R := Float32
def run : Res (List Nat) := do
  let mut bad : List Nat := []
  let v1 : R := (2.0 : R)
  let v2 : R := (1.0 : R)
  let v3 : R := (1.0 : R)
  let v4 : R := (2.0 : R)
  let v5 : Vec2 R := (Vec2.oneX : Vec2 R)
  let v6 : Vec2 R := (Vec2.oneX : Vec2 R)
  let o7 ← GaussJordan.solve abs' (bufOf [v1, v2, v3, v4]) 2 (bufOf [v5.x, v5.y, v6.x, v6.y]) 2
  bad := ck bad 231 o7.isSome
  bad := ck bad 232 (Near.near (1e-6 : R) (⟨← ((o7.getD (Buf.alloc 0, Buf.alloc 0)).2).get 0, ← ((o7.getD (Buf.alloc 0, Buf.alloc 0)).2).get 1⟩ : Vec2 R) ((Vec2.oneX : Vec2 R) * ((1.0 : R) / (3.0 : R))))
  bad := ck bad 233 (Near.near (1e-6 : R) (⟨← ((o7.getD (Buf.alloc 0, Buf.alloc 0)).2).get 2, ← ((o7.getD (Buf.alloc 0, Buf.alloc 0)).2).get 3⟩ : Vec2 R) ((Vec2.oneX : Vec2 R) * ((1.0 : R) / (3.0 : R))))
  return bad
end Linearequations_18
#guard passes Linearequations_18.run

namespace Linearequations_19
abbrev R := Float32
def run : Res (List Nat) := do
  let mut bad : List Nat := []
  let v1 : R := (2.0 : R)
  let v2 : R := (1.0 : R)
  let v3 : R := (2.0 : R)
  let v4 : R := (7.0 : R)
  let v5 : Vec2 R := (Vec2.oneX : Vec2 R)
  let v6 : Vec2 R := (Vec2.oneX : Vec2 R)
  let o7 ← GaussJordan.solve abs' (bufOf [v1, v2, v3, v4]) 2 (bufOf [v5.x, v5.y, v6.x, v6.y]) 2
  bad := ck bad 240 o7.isSome
  bad := ck bad 241 (Near.near (1e-6 : R) (⟨← ((o7.getD (Buf.alloc 0, Buf.alloc 0)).2).get 0, ← ((o7.getD (Buf.alloc 0, Buf.alloc 0)).2).get 1⟩ : Vec2 R) ((Vec2.oneX : Vec2 R) * (0.5 : R)))
  bad := ck bad 242 (Near.near (1e-6 : R) (⟨← ((o7.getD (Buf.alloc 0, Buf.alloc 0)).2).get 2, ← ((o7.getD (Buf.alloc 0, Buf.alloc 0)).2).get 3⟩ : Vec2 R) (Vec2.zero : Vec2 R))
  return bad
end Linearequations_19
#guard passes Linearequations_19.run

namespace Linearequations_20
abbrev R := Float32
def run : Res (List Nat) := do
  let mut bad : List Nat := []
  let v1 : R := (1.0 : R)
  let v2 : R := (1.0 : R)
  let v3 : R := (1.0 : R)
  let v4 : R := (1.0 : R)
  let v5 : Vec3 R := (Vec3.oneX : Vec3 R)
  let v6 : Vec3 R := (Vec3.oneX : Vec3 R)
  let o7 ← GaussJordan.solve abs' (bufOf [v1, v2, v3, v4]) 2 (bufOf [v5.x, v5.y, v5.z, v6.x, v6.y, v6.z]) 3
  bad := ck bad 252 (!o7.isSome)
  return bad
end Linearequations_20
#guard passes Linearequations_20.run

namespace Linearequations_21
abbrev R := Float32
def run : Res (List Nat) := do
  let mut bad : List Nat := []
  let v1 : R := (2.0 : R)
  let v2 : R := (1.0 : R)
  let v3 : R := (1.0 : R)
  let v4 : R := (2.0 : R)
  let v5 : Vec3 R := (Vec3.oneX : Vec3 R)
  let v6 : Vec3 R := (Vec3.oneX : Vec3 R)
  let o7 ← GaussJordan.solve abs' (bufOf [v1, v2, v3, v4]) 2 (bufOf [v5.x, v5.y, v5.z, v6.x, v6.y, v6.z]) 3
  bad := ck bad 259 o7.isSome
  bad := ck bad 260 (Near.near (1e-6 : R) (⟨← ((o7.getD (Buf.alloc 0, Buf.alloc 0)).2).get 0, ← ((o7.getD (Buf.alloc 0, Buf.alloc 0)).2).get 1, ← ((o7.getD (Buf.alloc 0, Buf.alloc 0)).2).get 2⟩ : Vec3 R) ((Vec3.oneX : Vec3 R) * ((1.0 : R) / (3.0 : R))))
  bad := ck bad 261 (Near.near (1e-6 : R) (⟨← ((o7.getD (Buf.alloc 0, Buf.alloc 0)).2).get 3, ← ((o7.getD (Buf.alloc 0, Buf.alloc 0)).2).get 4, ← ((o7.getD (Buf.alloc 0, Buf.alloc 0)).2).get 5⟩ : Vec3 R) ((Vec3.oneX : Vec3 R) * ((1.0 : R) / (3.0 : R))))
  return bad
end Linearequations_21
#guard passes Linearequations_21.run

namespace Linearequations_22
abbrev R := Float32
def run : Res (List Nat) := do
  let mut bad : List Nat := []
  let v1 : R := (2.0 : R)
  let v2 : R := (1.0 : R)
  let v3 : R := (2.0 : R)
  let v4 : R := (7.0 : R)
  let v5 : Vec3 R := (Vec3.oneX : Vec3 R)
  let v6 : Vec3 R := (Vec3.oneX : Vec3 R)
  let o7 ← GaussJordan.solve abs' (bufOf [v1, v2, v3, v4]) 2 (bufOf [v5.x, v5.y, v5.z, v6.x, v6.y, v6.z]) 3
  bad := ck bad 268 o7.isSome
  bad := ck bad 269 (Near.near (1e-6 : R) (⟨← ((o7.getD (Buf.alloc 0, Buf.alloc 0)).2).get 0, ← ((o7.getD (Buf.alloc 0, Buf.alloc 0)).2).get 1, ← ((o7.getD (Buf.alloc 0, Buf.alloc 0)).2).get 2⟩ : Vec3 R) ((Vec3.oneX : Vec3 R) * (0.5 : R)))
  bad := ck bad 270 (Near.near (1e-6 : R) (⟨← ((o7.getD (Buf.alloc 0, Buf.alloc 0)).2).get 3, ← ((o7.getD (Buf.alloc 0, Buf.alloc 0)).2).get 4, ← ((o7.getD (Buf.alloc 0, Buf.alloc 0)).2).get 5⟩ : Vec3 R) (Vec3.zero : Vec3 R))
  return bad
end Linearequations_22
#guard passes Linearequations_22.run

end MathLib.Conformance
