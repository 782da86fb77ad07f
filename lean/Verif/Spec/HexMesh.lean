import Verif.Model.FemHexa
import Verif.Spec.Cube
import Verif.Spec.TetMesh

/-!
# Specification vocabulary: a parallelepiped as stored by a mesh
-/

namespace PolyDiM.Spec

variable {K : Type} [Field K]

/-- The test of the norm is exact: only the zero matrix passes. -/
def ExactNorm (normZero : List (K × K × K) → Bool) : Prop := ∀ l, normZero l = true ↔ ∀ v ∈ l, v = 0

/-- The eight vertices are those of a parallelepiped, numbered like those of the unit cube. -/
def Parallelepiped (V : Nat → K × K × K) : Prop :=
  V 2 = V 1 + V 3 - V 0 ∧ V 5 = V 1 + V 4 - V 0 ∧ V 7 = V 3 + V 4 - V 0 ∧ V 6 = V 1 + V 3 + V 4 - V 0 - V 0

/-- The edges are the twelve edges of the cube, each once, numbered and directed in any way. -/
def HexEdgesOk (edges : List (Nat × Nat)) : Prop :=
  edges.length = 12 ∧ (∀ p ∈ edges, CubeAdj p.1 p.2) ∧ edges.Pairwise fun p q => q ≠ p ∧ q ≠ p.swap

/-- The corners of a face, in the order in which the face lists them. -/
abbrev Corners := Nat × Nat × Nat × Nat

/-- The list of the corners. -/
def cornerList (c : Corners) : List Nat := [c.1, c.2.1, c.2.2.1, c.2.2.2]

/-- A face: its corners form a cycle of four edges of the cube and edge `i` joins corners `i` and `i + 1`. -/
structure HexFaceOk (edges : List (Nat × Nat)) (f : HexFace K) (c : Corners) : Prop where
  cycle : CubeAdj c.1 c.2.1 ∧ CubeAdj c.2.1 c.2.2.1 ∧ CubeAdj c.2.2.1 c.2.2.2 ∧ CubeAdj c.2.2.2 c.1
  different : c.1 ≠ c.2.2.1 ∧ c.2.1 ≠ c.2.2.2
  edges : ∃ e0 e1 e2 e3, f.edges = [e0, e1, e2, e3] ∧ Joins edges e0 c.1 c.2.1 ∧ Joins edges e1 c.2.1 c.2.2.1 ∧ Joins edges e2 c.2.2.1 c.2.2.2 ∧
    Joins edges e3 c.2.2.2 c.1
  number : f.nv = 4
  dirs : f.dirs.length = 4

/-- A nondegenerate parallelepiped as stored by a mesh, with the corners of its faces; the faces are numbered and their corners listed in
any way. -/
structure HexMeshOk (g : HexGeom K) (corners : Nat → Corners) : Prop where
  shape : Parallelepiped g.vertices
  inverse : IsInverse3 (⟨g.vertices 0, g.vertices 1, g.vertices 3, g.vertices 4, g.inv0, g.inv1, g.inv2⟩ : TetMap K)
  edges : HexEdgesOk g.edges
  dirs : g.dirs.length = 12
  number : g.faces.length = 6
  faces : ∀ f, f < 6 → ∃ face, g.faces[f]? = some face ∧ HexFaceOk g.edges face (corners f)
  different : ∀ f f', f < 6 → f' < 6 → f ≠ f' → ∃ v, v ∈ cornerList (corners f) ∧ v ∉ cornerList (corners f')

/-- First and last point of an edge in the direction in which the mesh stores it. -/
def hexMeshEdge {K : Type} (V : Nat → K × K × K) (edge : Nat × Nat) (dir : Bool) : (K × K × K) × (K × K × K) :=
  if dir then (V edge.1, V edge.2) else (V edge.2, V edge.1)

end PolyDiM.Spec
