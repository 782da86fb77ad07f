import Mathlib.Algebra.Field.Basic
import Mathlib.Algebra.Module.Prod

/-!
# Specification vocabulary: the unit cube

The numbering of vertices is that of `Vertices` in FEM_Hexahedron_PCC_3D_ReferenceElement.hpp:58-60: counter-clockwise at the bottom, then
counter-clockwise at the top.
-/

namespace PolyDiM.Spec

/-- Coordinates of vertex `v` of the unit cube as natural numbers. -/
def cubeBits (v : Nat) : Nat × Nat × Nat := (if v % 4 = 1 ∨ v % 4 = 2 then 1 else 0, if 2 ≤ v % 4 then 1 else 0, v / 4)

/-- Vertex `v` of the unit cube. -/
def cubeVertex (K : Type) [Field K] (v : Nat) : K × K × K := (((cubeBits v).1 : K), ((cubeBits v).2.1 : K), ((cubeBits v).2.2 : K))

/-- First and last vertex of the reference edges. -/
def cubeEdges : List (Nat × Nat) := [(0, 1), (1, 2), (3, 2), (0, 3), (4, 5), (5, 6), (7, 6), (4, 7), (0, 4), (1, 5), (3, 7), (2, 6)]

/-- Corner of the reference faces and its two neighbours on the face. -/
def cubeFaces : List (Nat × Nat × Nat) := [(0, 1, 3), (4, 5, 7), (0, 1, 4), (3, 2, 7), (0, 3, 4), (1, 2, 5)]

/-- Two vertices of the cube joined by an edge: exactly one coordinate differs. -/
def CubeAdj (a b : Nat) : Prop := a < 8 ∧ b < 8 ∧
  ((((cubeBits a).1 ≠ (cubeBits b).1) ∧ (cubeBits a).2.1 = (cubeBits b).2.1 ∧ (cubeBits a).2.2 = (cubeBits b).2.2) ∨
   (((cubeBits a).1 = (cubeBits b).1) ∧ (cubeBits a).2.1 ≠ (cubeBits b).2.1 ∧ (cubeBits a).2.2 = (cubeBits b).2.2) ∨
   (((cubeBits a).1 = (cubeBits b).1) ∧ (cubeBits a).2.1 = (cubeBits b).2.1 ∧ (cubeBits a).2.2 ≠ (cubeBits b).2.2))

instance (a b : Nat) : Decidable (CubeAdj a b) := by unfold CubeAdj; infer_instance

/-- The point with coordinates `s, t` in the frame of corner `O` with neighbours `A`, `B`. -/
def framePoint {K : Type} [Field K] (O A B : K × K × K) (s t : K) : K × K × K := O + s • (A - O) + t • (B - O)

end PolyDiM.Spec
