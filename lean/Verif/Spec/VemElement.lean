import Verif.Spec.Vem
import Verif.Spec.PolyMesh
import Verif.Model.VemPcc2D

/-!
# Specification vocabulary: elements, tables and DOFs of the virtual element method
-/

namespace PolyDiM.Spec

open MeasureTheory

/-- The scaled monomial with exponents `a`, `b`. -/
noncomputable def scaledMonomial (c : ℝ × ℝ) (h : ℝ) (a b : Nat) (p : ℝ × ℝ) : ℝ := ((p.1 - c.1) / h) ^ a * ((p.2 - c.2) / h) ^ b

/-- The position of the monomial with exponents `a`, `b`: by total degree, then by the exponent of the second variable. -/
def position (a b : Nat) : Nat := (a + b) * (a + b + 1) / 2 + b

/-- The polynomial of degree at most `k` with coefficients `x`, at a point. -/
noncomputable def polyOf (k : Nat) (c : ℝ × ℝ) (h : ℝ) (x : Nat → ℝ) (p : ℝ × ℝ) : ℝ :=
  ∑ d ∈ Finset.range (k + 1), ∑ b ∈ Finset.range (d + 1), x (position (d - b) b) * scaledMonomial c h (d - b) b p

/-- The product of the matrix with the vector, row `j`. -/
def apply {K : Type} [Field K] (A : DMat K) (v : Nat → K) (j : Nat) : K := ∑ b ∈ Finset.range A.cols, A.ent j b * v b

/-- The data of an element: a polygon with vertices `V`, its outward normals, a triangulation, and nonzero scaling factors. -/
structure IsElement (poly : VemPolygon ℝ) (n : Nat) (V : Nat → ℝ × ℝ) (len : Nat → ℝ) (dir : Nat → Bool) (nrm : Nat → ℝ × ℝ) : Prop where
  edges : IsPoly poly.edges n V len dir nrm
  tris : IsTriangulation poly.tris n V
  normals : ∀ e < n, |len e| • nrm e = clockwise (V ((e + 1) % n) - V e)
  measure : poly.measure ≠ 0
  diameter : poly.diameter ≠ 0

/-- The tables of quadrature rules used for order `k`: a rule on the reference triangle exact up to degree `2 k` and a rule on the reference edge
with `k + 1` nodes that contains the ends, has equal weights there and is exact up to degree `2 k - 1`. -/
structure IsTables (k : Nat) (triangle : Nat → Rule (ℝ × ℝ) ℝ) (edge : Nat → Rule ℝ ℝ) (ts ws : List ℝ) (w : ℝ) : Prop where
  low : 1 ≤ k
  high : k ≤ 65536
  triangleLength : (triangle (2 * k)).points.length = (triangle (2 * k)).weights.length
  triangleExact : ExactOnTriangle (2 * k) (triangle (2 * k)).points (triangle (2 * k)).weights
  edgeRule : edge (2 * k - 1) = ⟨0 :: ts ++ [1], w :: ws ++ [w]⟩
  nodes : ts.length = k - 1
  edgeLength : ts.length = ws.length
  edgeExact : ExactOnSegment (2 * k - 1) (0 :: ts ++ [1]) (w :: ws ++ [w])

/-- `v` holds the degrees of freedom of the function `u`: values at the vertices, values at the nodes of every edge, and moments against the
scaled monomials of degree at most `k - 2`. -/
structure IsDofVector (k : Nat) (poly : VemPolygon ℝ) (n : Nat) (V : Nat → ℝ × ℝ) (dir : Nat → Bool) (ts : List ℝ) (u : ℝ × ℝ → ℝ) (v : Nat → ℝ) : Prop where
  vertex : ∀ e < n, v e = u (V e)
  node : ∀ e < n, ∀ i t, ts[i]? = some t → v (n + e * (k - 1) + i) = u (segPoint (polyEdge n V (dir e) e).1 (polyEdge n V (dir e) e).2 t)
  moment : ∀ a b, a + b + 2 ≤ k → v (n + n * (k - 1) + position a b) =
    1 / poly.measure * ∫ p in unionOf poly.tris, scaledMonomial poly.centroid poly.diameter a b p * u p

/-- On every edge of the polygon the function is a polynomial of degree at most `k`. -/
def EdgePolynomial (k n : Nat) (V : Nat → ℝ × ℝ) (u : ℝ × ℝ → ℝ) : Prop :=
  ∀ e < n, ∃ r : Polynomial ℝ, r.natDegree ≤ k ∧ ∀ t, 0 ≤ t → t ≤ 1 → u (segPoint (V e) (V ((e + 1) % n)) t) = r.eval t

end PolyDiM.Spec
