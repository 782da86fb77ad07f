import Mathlib.Data.Set.Function
import Mathlib.Algebra.MvPolynomial.Eval
import Mathlib.Algebra.MvPolynomial.Degrees
import Mathlib.Data.Real.Basic
import Verif.Spec.Geometry

/-!
# Specification vocabulary: a polygon cut into triangles around a centre

Triangle `t` has the vertices centre, vertex `t`, vertex `t + 1` of the polygon. Nodes are placed at the centre, at the vertices, inside the edges, inside the
spokes (segments from the centre to a vertex) and inside the triangles.
-/

namespace PolyDiM.Spec

/-- The nodes of the triangles around the centre. -/
inductive FanNode where
  | centre
  | vertex (v : Nat)
  | edge (v j : Nat)
  | spoke (v j : Nat)
  | inner (t j : Nat)
  deriving DecidableEq

/-- The nodes of a polygon with `n` vertices, `N1` nodes inside each edge and spoke and `N2` nodes inside each triangle. -/
inductive IsFanNode (n N1 N2 : Nat) : FanNode → Prop where
  | centre : IsFanNode n N1 N2 .centre
  | vertex (v : Nat) (hv : v < n) : IsFanNode n N1 N2 (.vertex v)
  | edge (v j : Nat) (hv : v < n) (hj : j < N1) : IsFanNode n N1 N2 (.edge v j)
  | spoke (v j : Nat) (hv : v < n) (hj : j < N1) : IsFanNode n N1 N2 (.spoke v j)
  | inner (t j : Nat) (ht : t < n) (hj : j < N2) : IsFanNode n N1 N2 (.inner t j)

/-- The node at which DOF `c` of the Lagrange element of triangle `t` sits: three vertices, then the nodes of the three edges (first spoke, edge of the polygon,
second spoke), then the inner ones. The nodes of a spoke are counted from the centre, those of an edge in the direction of the mesh. -/
def fanNode (n N1 t c : Nat) : FanNode :=
  if c = 0 then .centre else if c = 1 then .vertex t else if c = 2 then .vertex ((t + 1) % n)
  else if c < 3 + N1 then .spoke t (c - 3) else if c < 3 + 2 * N1 then .edge t (c - (3 + N1))
  else if c < 3 + 3 * N1 then .spoke ((t + 1) % n) (c - (3 + 2 * N1)) else .inner t (c - (3 + 3 * N1))

end PolyDiM.Spec
