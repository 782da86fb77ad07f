import Verif.Model.FemTetSpace
import Verif.Props.FemTriangleSpace
import Verif.Props.FemTet

/-!
# Specification vocabulary: a tetrahedron as stored by a mesh
-/

namespace PolyDiM.Spec

variable {K : Type} [Field K]

/-- Vertex `v` of the tetrahedron. -/
def tetVertex (m : TetMap K) (v : Nat) : K × K × K := if v = 0 then m.v0 else if v = 1 then m.v1 else if v = 2 then m.v2 else m.v3

/-- Scalar product. -/
def inner3 (a b : K × K × K) : K := a.1 * b.1 + a.2.1 * b.2.1 + a.2.2 * b.2.2

/-- The stored `QInv` is the (left) inverse of the matrix whose columns are the edges from vertex 0. -/
def IsInverse3 (m : TetMap K) : Prop :=
  (inner3 m.inv0 (m.v1 - m.v0) = 1 ∧ inner3 m.inv0 (m.v2 - m.v0) = 0 ∧ inner3 m.inv0 (m.v3 - m.v0) = 0) ∧
  (inner3 m.inv1 (m.v1 - m.v0) = 0 ∧ inner3 m.inv1 (m.v2 - m.v0) = 1 ∧ inner3 m.inv1 (m.v3 - m.v0) = 0) ∧
  (inner3 m.inv2 (m.v1 - m.v0) = 0 ∧ inner3 m.inv2 (m.v2 - m.v0) = 0 ∧ inner3 m.inv2 (m.v3 - m.v0) = 1)

/-- The edges are the six edges of the tetrahedron, each once, numbered and directed in any way. -/
def TetEdgesOk (edges : List (Nat × Nat)) : Prop :=
  edges.length = 6 ∧ (∀ p ∈ edges, p.1 < 4 ∧ p.2 < 4 ∧ p.1 ≠ p.2) ∧ edges.Pairwise fun p q => q ≠ p ∧ q ≠ p.swap

/-- Edge `e` joins the vertices `a` and `b`. -/
def Joins (edges : List (Nat × Nat)) (e a b : Nat) : Prop := edges[e]? = some (a, b) ∨ edges[e]? = some (b, a)

/-- A face: three different vertices in any order, edge `i` joins vertices `i` and `i + 1`, and the plane triangle is carried by rotation
and translation on the three vertices of the tetrahedron, in the same order. -/
structure TetFaceOk (m : TetMap K) (edges : List (Nat × Nat)) (f : TetFace K) (a b c : Nat) : Prop where
  vertices : f.vertices = [a, b, c]
  range : a < 4 ∧ b < 4 ∧ c < 4
  different : a ≠ b ∧ b ≠ c ∧ a ≠ c
  edges : ∃ e0 e1 e2, f.edges = [e0, e1, e2] ∧ Joins edges e0 a b ∧ Joins edges e1 b c ∧ Joins edges e2 c a
  number : f.nv = 3
  dirs : f.dirs.length = 3
  plane0 : f.shift + (triVertex f.map 0).1 • f.r0 + (triVertex f.map 0).2 • f.r1 = tetVertex m a
  plane1 : f.shift + (triVertex f.map 1).1 • f.r0 + (triVertex f.map 1).2 • f.r1 = tetVertex m b
  plane2 : f.shift + (triVertex f.map 2).1 • f.r0 + (triVertex f.map 2).2 • f.r1 = tetVertex m c

/-- A nondegenerate tetrahedron as stored by a mesh. -/
structure TetMeshOk (g : TetGeom K) : Prop where
  inverse : IsInverse3 g.map
  edges : TetEdgesOk g.edges
  dirs : g.dirs.length = 6
  number : g.faces.length = 4
  faces : ∀ f ∈ g.faces, ∃ a b c, TetFaceOk g.map g.edges f a b c
  different : g.faces.Pairwise fun f f' => ∃ v, v ∈ f.vertices ∧ v ∉ f'.vertices

/-- The point at parameter `t` of the segment from `P` to `Q`. -/
def segPoint3 (P Q : K × K × K) (t : K) : K × K × K := (1 - t) • P + t • Q

/-- The point of the plane triangle of face `f` with coordinates `p`, in space. -/
def liftPoint (f : TetFace K) (p : K × K) : K × K × K := f.shift + p.1 • f.r0 + p.2 • f.r1

end PolyDiM.Spec
