import Verif.Spec.PlaneMesh
import Verif.Spec.DOFs

namespace PolyDiM.Spec

/-- The cells that the Dirichlet conditions keep from moving rigidly: those with two Dirichlet vertices, and those with two vertices in common with such a cell, and so on. -/
inductive Held (mesh : PlaneMesh ℝ) (info : MeshInfo) : Nat → Prop
  | fixed (c a b : Nat) : a ∈ mesh.topo.cell2DVertices c → b ∈ mesh.topo.cell2DVertices c → mesh.coords a ≠ mesh.coords b →
      bTypeOf info (0, a) = some .strong → bTypeOf info (0, b) = some .strong → Held mesh info c
  | next (c c' a b : Nat) : c' ∈ mesh.cells → Held mesh info c' → a ∈ mesh.topo.cell2DVertices c' → b ∈ mesh.topo.cell2DVertices c' → a ∈ mesh.topo.cell2DVertices c →
      b ∈ mesh.topo.cell2DVertices c → mesh.coords a ≠ mesh.coords b → Held mesh info c

end PolyDiM.Spec
