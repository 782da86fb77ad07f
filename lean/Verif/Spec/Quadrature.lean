import Mathlib.Algebra.Order.Field.Basic
import Mathlib.Algebra.Order.AbsoluteValue.Basic
import Mathlib.Algebra.Module.Prod
import Mathlib.Algebra.BigOperators.Group.List.Basic

/-!
# Specification vocabulary: quadrature

Written without reference to the model.
-/

namespace PolyDiM.Spec

/-- The quadrature of `f`: the sum of the weights times the values at the points. -/
def quadSum {P K : Type} [Field K] (points : List P) (weights : List K) (f : P → K) : K :=
  (List.zipWith (fun p w => w * f p) points weights).sum

/-- Barycentric combination of three points of the plane. -/
def bary3 {K : Type} [Field K] (A B C : K × K) (a b c : K) : K × K := a • A + b • B + c • C

/-- The point `p` lies in the triangle `A B C`. -/
def InTriangle {K : Type} [Field K] [LinearOrder K] (A B C p : K × K) : Prop :=
  ∃ a b c : K, 0 ≤ a ∧ 0 ≤ b ∧ 0 ≤ c ∧ a + b + c = 1 ∧ p = bary3 A B C a b c

/-- Twice the signed area of the triangle `A B C` (shoelace formula). -/
def shoelace {K : Type} [Field K] (A B C : K × K) : K := A.1 * (B.2 - C.2) + B.1 * (C.2 - A.2) + C.1 * (A.2 - B.2)

/-- The area of the triangle `A B C`. -/
def triArea {K : Type} [Field K] [LinearOrder K] (A B C : K × K) : K := |shoelace A B C| / 2

/-- The point `p` lies in the tetrahedron `A B C D`. -/
def InTetrahedron {K : Type} [Field K] [LinearOrder K] (A B C D p : K × K × K) : Prop :=
  ∃ a b c d : K, 0 ≤ a ∧ 0 ≤ b ∧ 0 ≤ c ∧ 0 ≤ d ∧ a + b + c + d = 1 ∧ p = a • A + b • B + c • C + d • D

/-- The vector product. -/
def cross {K : Type} [Field K] (a b : K × K × K) : K × K × K :=
  (a.2.1 * b.2.2 - a.2.2 * b.2.1, a.2.2 * b.1 - a.1 * b.2.2, a.1 * b.2.1 - a.2.1 * b.1)

/-- Volume of the tetrahedron `A B C D`: a sixth of the absolute triple product of the edges from `A`. -/
def tetVolume {K : Type} [Field K] [LinearOrder K] (A B C D : K × K × K) : K :=
  let c := cross (C - A) (D - A)
  |(B - A).1 * c.1 + (B - A).2.1 * c.2.1 + (B - A).2.2 * c.2.2| / 6

/-- The vector obtained from `v` by a rotation of a right angle clockwise: for the edge of a polygon that runs counter-clockwise, the outward
normal times the length of the edge. -/
def clockwise {K : Type} [Field K] (v : K × K) : K × K := (v.2, -v.1)

/-- Signed area of the polygon with vertices `V 0, …, V (n - 1)` (shoelace formula); positive if they run counter-clockwise. -/
def polyArea {K : Type} [Field K] (n : Nat) (V : Nat → K × K) : K :=
  ((List.range n).map fun i => (V i).1 * (V ((i + 1) % n)).2 - (V ((i + 1) % n)).1 * (V i).2).sum / 2

end PolyDiM.Spec
