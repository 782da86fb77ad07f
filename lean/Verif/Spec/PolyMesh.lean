import Verif.Model.Quadrature

/-!
# Specification vocabulary: the data of a polygon
-/

namespace PolyDiM.Spec

/-- The data of a polygon with vertices `V 0, …, V (n - 1)` and tangents from each vertex to the next one. -/
structure IsPoly {K : Type} [Field K] (g : PolyEdges K) (n : Nat) (V : Nat → K × K) (len : Nat → K) (dir : Nat → Bool) (nrm : Nat → K × K) : Prop where
  vertices : g.vertices = (List.range n).map V
  lengths : g.lengths = (List.range n).map len
  dirs : g.dirs = (List.range n).map dir
  tangents : g.tangents = (List.range n).map fun i => V ((i + 1) % n) - V i
  normals : g.normals = (List.range n).map nrm

end PolyDiM.Spec
