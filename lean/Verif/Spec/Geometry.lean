import Mathlib.Algebra.Field.Basic

/-!
# Specification vocabulary: points of the plane
-/

namespace PolyDiM.Spec

/-- The point at parameter `t` of the segment from `P` to `Q`. -/
def segPoint {K : Type} [Field K] (P Q : K × K) (t : K) : K × K := ((1 - t) * P.1 + t * Q.1, (1 - t) * P.2 + t * Q.2)

/-- The first and the last point of edge `e` of a polygon with `n` vertices `V`, in the direction in which the mesh stores it. -/
def polyEdge {K : Type} (n : Nat) (V : Nat → K × K) (dir : Bool) (e : Nat) : (K × K) × (K × K) :=
  if dir then (V e, V ((e + 1) % n)) else (V ((e + 1) % n), V e)

end PolyDiM.Spec
