import Verif.Spec.VemElement
import Verif.Spec.RT

/-!
# Specification vocabulary: vector fields, fluxes and DOFs of the mixed virtual element method
-/

namespace PolyDiM.Spec

open MeasureTheory

/-- `V` is a square matrix with orthonormal rows, and its rows beyond the number of rows of `A` are in the kernel of `A`: what the matrix of right
singular vectors of `A` (one per row, all of them) satisfies. -/
def RightSingular (A V : DMat ℝ) : Prop :=
  V.rows = A.cols ∧ V.cols = A.cols ∧
  (∀ i < A.cols, ∀ j < A.cols, ∑ l ∈ Finset.range A.cols, V.ent i l * V.ent j l = if i = j then 1 else 0) ∧
  ∀ j < A.cols, A.rows ≤ j → ∀ i < A.rows, ∑ l ∈ Finset.range A.cols, A.ent i l * V.ent j l = 0

/-- The tables of quadrature rules used for order `k`: a rule on the reference triangle exact up to degree `2 k + 2` with nonnegative weights and a
rule on the reference edge with `k + 1` nodes exact up to degree `2 k + 1`. -/
structure IsMixedTables (k : Nat) (triangle : Nat → Rule (ℝ × ℝ) ℝ) (edge : Nat → Rule ℝ ℝ) (ts ws : List ℝ) : Prop where
  high : k ≤ 65534
  triangleLength : (triangle (2 * (k + 1))).points.length = (triangle (2 * (k + 1))).weights.length
  triangleExact : ExactOnTriangle (2 * (k + 1)) (triangle (2 * (k + 1))).points (triangle (2 * (k + 1))).weights
  triangleWeights : ∀ x ∈ (triangle (2 * (k + 1))).weights, 0 ≤ x
  edgeRule : edge (2 * k + 1) = ⟨ts, ws⟩
  nodes : ts.length = k + 1
  edgeLength : ts.length = ws.length
  edgeExact : ExactOnSegment (2 * k + 1) ts ws

/-- The gradient of the scaled monomial with exponents `a`, `b`. -/
noncomputable def gradMonomial (c : ℝ × ℝ) (h : ℝ) (a b : Nat) (p : ℝ × ℝ) : ℝ × ℝ :=
  (a / h * scaledMonomial c h (a - 1) b p, b / h * scaledMonomial c h a (b - 1) p)

/-- The vector field whose components are polynomials of degree at most `k`, with the coefficients of the first component first. -/
noncomputable def fieldOf (k : Nat) (c : ℝ × ℝ) (h : ℝ) (y : Nat → ℝ) (p : ℝ × ℝ) : ℝ × ℝ :=
  (polyOf k c h y p, polyOf k c h (fun j => y ((k + 1) * (k + 2) / 2 + j)) p)

/-- A field on an element: integrable components, and normal components on the edges that are polynomials of degree at most `k` in the parameter
from vertex `e` to vertex `e + 1`, counted outwards. -/
structure IsMixedField (k : Nat) (poly : VemPolygon ℝ) (n : Nat) (u : ℝ × ℝ → ℝ × ℝ) (flux : Nat → Polynomial ℝ) : Prop where
  first : IntegrableOn (fun p => (u p).1) (unionOf poly.tris)
  second : IntegrableOn (fun p => (u p).2) (unionOf poly.tris)
  degree : ∀ e < n, (flux e).natDegree ≤ k

/-- The integral of `div u` times the monomial after integration by parts: flux through the boundary minus the integral of `u` times the gradient. -/
noncomputable def weakDivergence (poly : VemPolygon ℝ) (n : Nat) (V : Nat → ℝ × ℝ) (len : Nat → ℝ) (u : ℝ × ℝ → ℝ × ℝ) (flux : Nat → Polynomial ℝ)
    (a b : Nat) : ℝ :=
  (∑ e ∈ Finset.range n, |len e| *
      ∫ t in (0 : ℝ)..1, scaledMonomial poly.centroid poly.diameter a b (segPoint (V e) (V ((e + 1) % n)) t) * (flux e).eval t)
    - ∫ p in unionOf poly.tris, dot2 (gradMonomial poly.centroid poly.diameter a b p) (u p)

/-- `P` is the divergence of the field, tested with the monomials of degree at most `m`. -/
def HasWeakDivergence (m : Nat) (poly : VemPolygon ℝ) (n : Nat) (V : Nat → ℝ × ℝ) (len : Nat → ℝ) (u : ℝ × ℝ → ℝ × ℝ) (flux : Nat → Polynomial ℝ)
    (P : ℝ × ℝ → ℝ) : Prop :=
  ∀ a b, a + b ≤ m → ∫ p in unionOf poly.tris, scaledMonomial poly.centroid poly.diameter a b p * P p = weakDivergence poly n V len u flux a b

/-- `v` holds the degrees of freedom of the field: normal components at the nodes of every edge, positive in the direction of the mesh edge; moments
against the gradients of the monomials of degree 1 to `k`; moments against the fields with the coefficients `plus l`. -/
structure IsFluxDofs (k : Nat) (poly : VemPolygon ℝ) (n : Nat) (dir : Nat → Bool) (ts : List ℝ) (plus : Nat → Nat → ℝ)
    (u : ℝ × ℝ → ℝ × ℝ) (flux : Nat → Polynomial ℝ) (v : Nat → ℝ) : Prop where
  edge : ∀ e < n, ∀ i t, ts[i]? = some t → v (e * (k + 1) + i) = if dir e then (flux e).eval t else -(flux e).eval (1 - t)
  nabla : ∀ a b, 0 < a + b → a + b ≤ k → v (n * (k + 1) + (position a b - 1)) =
    1 / poly.measure * ∫ p in unionOf poly.tris, dot2 (gradMonomial poly.centroid poly.diameter a b p) (u p)
  plus : ∀ l < k * (k + 1) / 2, v (n * (k + 1) + ((k + 1) * (k + 2) / 2 - 1) + l) =
    1 / poly.measure * ∫ p in unionOf poly.tris, dot2 (fieldOf k poly.centroid poly.diameter (plus l) p) (u p)

/-- The field with coefficients `y` in the decomposition into gradients of the monomials of degree 1 to `k + 1` (first, by position) and the fields
with the coefficients `plus l`. -/
noncomputable def splitField (k : Nat) (c : ℝ × ℝ) (h : ℝ) (plus : Nat → Nat → ℝ) (y : Nat → ℝ) (p : ℝ × ℝ) : ℝ × ℝ :=
  (∑ d ∈ Finset.range (k + 1), ∑ b ∈ Finset.range (d + 2), y (position (d + 1 - b) b - 1) • gradMonomial c h (d + 1 - b) b p)
    + ∑ l ∈ Finset.range (k * (k + 1) / 2), y ((k + 2) * (k + 3) / 2 - 1 + l) • fieldOf k c h (plus l) p

/-- A vector field with polynomial components of degree at most `k`. -/
noncomputable def polyField (q : MvPolynomial (Fin 2) ℝ × MvPolynomial (Fin 2) ℝ) (p : ℝ × ℝ) : ℝ × ℝ :=
  (MvPolynomial.eval ![p.1, p.2] q.1, MvPolynomial.eval ![p.1, p.2] q.2)

/-- The normal components of a vector field on the edges are the polynomials `flux`. -/
def IsNormalTrace (n : Nat) (V : Nat → ℝ × ℝ) (nrm : Nat → ℝ × ℝ) (u : ℝ × ℝ → ℝ × ℝ) (flux : Nat → Polynomial ℝ) : Prop :=
  ∀ e < n, ∀ t, (flux e).eval t = dot2 (u (segPoint (V e) (V ((e + 1) % n)) t)) (nrm e)

end PolyDiM.Spec
