import Verif.Spec.Quadrature
import Verif.Spec.Monomials
import Verif.Spec.TetMesh
import Verif.Model.Mat
import Mathlib.Algebra.MvPolynomial.PDeriv
import Mathlib.MeasureTheory.Measure.Lebesgue.Basic
import Mathlib.MeasureTheory.Integral.Bochner.Set
import Mathlib.MeasureTheory.Integral.IntervalIntegral.Basic
import Mathlib.Algebra.Polynomial.Eval.Defs

/-!
# Specification vocabulary: triangulated polygons, exact quadrature, linear solvers
-/

namespace PolyDiM.Spec

open MeasureTheory

/-- The triangles, all counter-clockwise or flat and not all flat, overlap in null sets only, and the polygon with vertices `V 0, …, V (n - 1)`
is their boundary: edges shared by two triangles cancel, what remains are the edges of the polygon. -/
structure IsTriangulation (tris : List ((ℝ × ℝ) × (ℝ × ℝ) × (ℝ × ℝ))) (n : Nat) (V : Nat → ℝ × ℝ) : Prop where
  ccw : ∀ v ∈ tris, 0 ≤ shoelace v.1 v.2.1 v.2.2
  pos : ∃ v ∈ tris, 0 < shoelace v.1 v.2.1 v.2.2
  disjoint : tris.Pairwise fun v v' => volume ({p : ℝ × ℝ | InTriangle v.1 v.2.1 v.2.2 p} ∩ {p | InTriangle v'.1 v'.2.1 v'.2.2 p}) = 0
  boundary : ∀ Φ : ℝ × ℝ → ℝ × ℝ → ℝ, (∀ P Q, Φ P Q = -Φ Q P) →
    (tris.map fun v => Φ v.1 v.2.1 + Φ v.2.1 v.2.2 + Φ v.2.2 v.1).sum = ∑ e ∈ Finset.range n, Φ (V e) (V ((e + 1) % n))

/-- The union of the triangles. -/
def unionOf (tris : List ((ℝ × ℝ) × (ℝ × ℝ) × (ℝ × ℝ))) : Set (ℝ × ℝ) := {p | ∃ v ∈ tris, InTriangle v.1 v.2.1 v.2.2 p}

/-- The rule integrates the polynomials of total degree at most `k` exactly over the reference triangle. -/
def ExactOnTriangle (k : Nat) (points : List (ℝ × ℝ)) (weights : List ℝ) : Prop :=
  ∀ q : MvPolynomial (Fin 2) ℝ, q.totalDegree ≤ k → quadSum points weights (fun p => MvPolynomial.eval ![p.1, p.2] q)
    = ∫ p in {p : ℝ × ℝ | InTriangle (0, 0) (1, 0) (0, 1) p}, MvPolynomial.eval ![p.1, p.2] q

/-- The rule integrates the polynomials of degree at most `k` exactly over `[0, 1]`. -/
def ExactOnSegment (k : Nat) (points weights : List ℝ) : Prop :=
  ∀ q : Polynomial ℝ, q.natDegree ≤ k → quadSum points weights (fun t => q.eval t) = ∫ t in (0 : ℝ)..1, q.eval t

/-- The integral of a function along the segment from `P` to `Q`, in the parameter from 0 to 1. -/
noncomputable def segInt (f : ℝ × ℝ → ℝ) (P Q : ℝ × ℝ) : ℝ := ∫ t in (0 : ℝ)..1, f (segPoint P Q t)

/-- `X` solves `A X = B`: sizes and equations. -/
def Solves {K : Type} [Field K] (A B X : DMat K) : Prop :=
  X.rows = A.cols ∧ X.cols = B.cols ∧ ∀ i < A.rows, ∀ j < B.cols, ∑ k ∈ Finset.range A.cols, A.ent i k * X.ent k j = B.ent i j

/-- A solver that returns a solution for every square matrix with trivial kernel (`partialPivLu` in exact arithmetic). -/
def SolvesRegular {K : Type} [Field K] (solve : DMat K → DMat K → DMat K) : Prop :=
  ∀ A B : DMat K, A.rows = A.cols → B.rows = A.rows →
    (∀ x : Nat → K, (∀ i < A.rows, ∑ k ∈ Finset.range A.cols, A.ent i k * x k = 0) → ∀ k < A.cols, x k = 0) → Solves A B (solve A B)

/-- A solver that returns a solution for every symmetric positive definite matrix (`llt` in exact arithmetic). -/
def SolvesPosDef {K : Type} [Field K] [LinearOrder K] (solve : DMat K → DMat K → DMat K) : Prop :=
  ∀ A B : DMat K, A.rows = A.cols → B.rows = A.rows → (∀ i < A.rows, ∀ j < A.rows, A.ent i j = A.ent j i) →
    (∀ x : Nat → K, (∃ k < A.rows, x k ≠ 0) → 0 < ∑ i ∈ Finset.range A.rows, x i * ∑ k ∈ Finset.range A.cols, A.ent i k * x k) →
    Solves A B (solve A B)

end PolyDiM.Spec
