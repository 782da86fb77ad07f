import Verif.Spec.VemMcc
import Verif.Model.VemDf2D

/-!
# Specification vocabulary: velocity fields and DOFs of the divergence-free virtual element
-/

namespace PolyDiM.Spec

open MeasureTheory

/-- The tables of quadrature rules used for order `k ≥ 2`: those of `IsTables` with nonnegative weights on the triangle and distinct nodes in the unit
interval, and a rule on the reference edge with `k + 2` nodes that contains the ends, has equal weights there and is exact up to degree `2 k + 1`. -/
structure IsDfTables (k : Nat) (triangle : Nat → Rule (ℝ × ℝ) ℝ) (edge : Nat → Rule ℝ ℝ) (ts ws : List ℝ) (w : ℝ) (ss vs : List ℝ) (v : ℝ) : Prop
    extends IsTables k triangle edge ts ws w where
  two : 2 ≤ k
  below : k ≤ 65535
  triangleWeights : ∀ x ∈ (triangle (2 * k)).weights, 0 ≤ x
  inside : ∀ t ∈ ts, 0 ≤ t ∧ t ≤ 1
  distinct : (0 :: 1 :: ts).Nodup
  segmentRule : edge (2 * k + 1) = ⟨0 :: ss ++ [1], v :: vs ++ [v]⟩
  segmentNodes : ss.length = k
  segmentLength : ss.length = vs.length
  segmentExact : ExactOnSegment (2 * k + 1) (0 :: ss ++ [1]) (v :: vs ++ [v])
  segmentInside : ∀ t ∈ ss, 0 ≤ t ∧ t ≤ 1

/-- The degree of the divergence of the velocities: `k - 1`, in the reduced space 0. -/
def divDegree (reduced : Bool) (k : Nat) : Nat := if reduced then 0 else k - 1

/-- The integral of `q` times the outward normal component of the field over the boundary. -/
noncomputable def outflow (n : Nat) (V : Nat → ℝ × ℝ) (len : Nat → ℝ) (nrm : Nat → ℝ × ℝ) (u : ℝ × ℝ → ℝ × ℝ) (q : ℝ × ℝ → ℝ) : ℝ :=
  ∑ e ∈ Finset.range n, |len e| * ∫ t in (0 : ℝ)..1, q (segPoint (V e) (V ((e + 1) % n)) t) * dot2 (u (segPoint (V e) (V ((e + 1) % n)) t)) (nrm e)

/-- A velocity on an element: integrable components that are polynomials of degree at most `k` on every edge, and a divergence, in the sense of
integration by parts against the polynomials of degree at most `k + 1`, that is the polynomial `P` of degree at most `m`. -/
structure IsVelocity (k m : Nat) (poly : VemPolygon ℝ) (n : Nat) (V : Nat → ℝ × ℝ) (len : Nat → ℝ) (nrm : Nat → ℝ × ℝ) (u : ℝ × ℝ → ℝ × ℝ)
    (P : MvPolynomial (Fin 2) ℝ) : Prop where
  first : IntegrableOn (fun p => (u p).1) (unionOf poly.tris)
  second : IntegrableOn (fun p => (u p).2) (unionOf poly.tris)
  traceFirst : EdgePolynomial k n V fun p => (u p).1
  traceSecond : EdgePolynomial k n V fun p => (u p).2
  degree : P.totalDegree ≤ m
  divergence : ∀ a b, a + b ≤ k + 1 →
    ∫ p in unionOf poly.tris, scaledMonomial poly.centroid poly.diameter a b p * MvPolynomial.eval ![p.1, p.2] P
      = outflow n V len nrm u (scaledMonomial poly.centroid poly.diameter a b)
        - ∫ p in unionOf poly.tris, dot2 (gradMonomial poly.centroid poly.diameter a b p) (u p)

/-- The field orthogonal to the gradients: the scaled position, turned clockwise. -/
noncomputable def swirl (c : ℝ × ℝ) (h : ℝ) (p : ℝ × ℝ) : ℝ × ℝ := ((p.2 - c.2) / h, -((p.1 - c.1) / h))

/-- The moment of a field against the monomial times the orthogonal field. -/
noncomputable def swirlMoment (poly : VemPolygon ℝ) (u : ℝ × ℝ → ℝ × ℝ) (a b : Nat) : ℝ :=
  ∫ p in unionOf poly.tris, scaledMonomial poly.centroid poly.diameter a b p * dot2 (swirl poly.centroid poly.diameter p) (u p)

/-- `v` holds the degrees of freedom of the velocity `u` with divergence `P`: the first component at the vertices and at the nodes of the edges, the
second component in the same way, the moments against the orthogonal fields of degree at most `k - 2`, and the moments of the divergence against the
monomials of degree 1 to `m`. -/
structure IsVelocityDofs (k m : Nat) (poly : VemPolygon ℝ) (n : Nat) (V : Nat → ℝ × ℝ) (dir : Nat → Bool) (ts : List ℝ) (u : ℝ × ℝ → ℝ × ℝ)
    (P : MvPolynomial (Fin 2) ℝ) (v : Nat → ℝ) : Prop where
  vertexFirst : ∀ e < n, v e = (u (V e)).1
  nodeFirst : ∀ e < n, ∀ i t, ts[i]? = some t →
    v (n + e * (k - 1) + i) = (u (segPoint (polyEdge n V (dir e) e).1 (polyEdge n V (dir e) e).2 t)).1
  vertexSecond : ∀ e < n, v (n + n * (k - 1) + e) = (u (V e)).2
  nodeSecond : ∀ e < n, ∀ i t, ts[i]? = some t →
    v (n + n * (k - 1) + (n + e * (k - 1) + i)) = (u (segPoint (polyEdge n V (dir e) e).1 (polyEdge n V (dir e) e).2 t)).2
  swirl : ∀ a b, a + b + 3 ≤ k → v (2 * (n + n * (k - 1)) + position a b) = swirlMoment poly u a b
  divergence : ∀ a b, 0 < a + b → a + b ≤ m → v (2 * (n + n * (k - 1)) + (k - 2) * (k - 1) / 2 + (position a b - 1))
    = ∫ p in unionOf poly.tris, scaledMonomial poly.centroid poly.diameter a b p * MvPolynomial.eval ![p.1, p.2] P

/-- The number of DOFs of the velocities on a polygon with `n` edges. -/
def numVelocityDofs (k m n : Nat) : Nat := 2 * (n + n * (k - 1)) + (k - 2) * (k - 1) / 2 + ((m + 1) * (m + 2) / 2 - 1)

/-- The vector polynomial with the components `q`. -/
noncomputable def vectorPoly (q : MvPolynomial (Fin 2) ℝ × MvPolynomial (Fin 2) ℝ) (p : ℝ × ℝ) : ℝ × ℝ :=
  (MvPolynomial.eval ![p.1, p.2] q.1, MvPolynomial.eval ![p.1, p.2] q.2)

/-- The divergence of a vector polynomial. -/
noncomputable def divPoly (q : MvPolynomial (Fin 2) ℝ × MvPolynomial (Fin 2) ℝ) : MvPolynomial (Fin 2) ℝ := MvPolynomial.pderiv 0 q.1 + MvPolynomial.pderiv 1 q.2

end PolyDiM.Spec
