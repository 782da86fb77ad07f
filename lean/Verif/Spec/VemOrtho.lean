import Verif.Spec.VemElement
import Verif.Model.VemOrtho2D

/-!
# Specification vocabulary: orthonormal polynomial bases
-/

namespace PolyDiM.Spec

open MeasureTheory

/-- The columns of the matrix are linearly independent. -/
def IndependentCols (A : DMat ℝ) : Prop :=
  ∀ x : Nat → ℝ, (∀ i < A.rows, ∑ j ∈ Finset.range A.cols, A.ent i j * x j = 0) → ∀ j < A.cols, x j = 0

/-- `A = Q R` with orthonormal columns of `Q` and an upper triangular square matrix `R`. -/
structure IsThinQR (A Q R : DMat ℝ) : Prop where
  qRows : Q.rows = A.rows
  qCols : Q.cols = A.cols
  rRows : R.rows = A.cols
  rCols : R.cols = A.cols
  product : ∀ i < A.rows, ∀ j < A.cols, ∑ l ∈ Finset.range A.cols, Q.ent i l * R.ent l j = A.ent i j
  orthonormal : ∀ i < A.cols, ∀ j < A.cols, ∑ l ∈ Finset.range A.rows, Q.ent l i * Q.ent l j = if i = j then 1 else 0
  upper : ∀ i < A.cols, ∀ j < i, R.ent i j = 0

/-- A Gram-Schmidt process in exact arithmetic. -/
def Orthogonalizes (mgs : DMat ℝ → DMat ℝ × DMat ℝ) : Prop := ∀ A, IndependentCols A → IsThinQR A (mgs A).1 (mgs A).2

/-- An inversion of lower triangular matrices in exact arithmetic. -/
def InvertsLower (inv : DMat ℝ → DMat ℝ) : Prop :=
  ∀ A, A.rows = A.cols → (∀ i < A.rows, ∀ j < A.rows, i < j → A.ent i j = 0) → (∀ i < A.rows, A.ent i i ≠ 0) →
    (inv A).rows = A.rows ∧ (inv A).cols = A.rows ∧
      ∀ i < A.rows, ∀ j < A.rows, ∑ l ∈ Finset.range A.rows, A.ent i l * (inv A).ent l j = if i = j then 1 else 0

/-- The library calls behind the orthonormal basis do what they are meant to in exact arithmetic. -/
structure IsOrthoLib (lib : OrthoLib ℝ) : Prop where
  mgs : Orthogonalizes lib.mgs
  inverse : InvertsLower lib.inverseTri
  sqrt : ∀ x, 0 ≤ x → lib.sqrt x * lib.sqrt x = x

/-- The polynomial of degree at most `k` with coefficients `x` in the first `N` polynomials of the basis described by the rows of `Q`. -/
noncomputable def orthoOf (k : Nat) (c : ℝ × ℝ) (h : ℝ) (Q : DMat ℝ) (N : Nat) (x : Nat → ℝ) (p : ℝ × ℝ) : ℝ :=
  ∑ i ∈ Finset.range N, x i * polyOf k c h (fun j => Q.ent i j) p

/-- `v` holds the degrees of freedom of the function `u` for the basis described by the rows of `Q`: values at the vertices, values at the nodes
of every edge, and moments against the polynomials of the basis of degree at most `k - 2`. -/
structure IsOrthoDofs (k : Nat) (poly : VemPolygon ℝ) (Q : DMat ℝ) (n : Nat) (V : Nat → ℝ × ℝ) (dir : Nat → Bool) (ts : List ℝ) (u : ℝ × ℝ → ℝ)
    (v : Nat → ℝ) : Prop where
  vertex : ∀ e < n, v e = u (V e)
  node : ∀ e < n, ∀ i t, ts[i]? = some t → v (n + e * (k - 1) + i) = u (segPoint (polyEdge n V (dir e) e).1 (polyEdge n V (dir e) e).2 t)
  moment : ∀ l < k * (k - 1) / 2, v (n + n * (k - 1) + l) =
    1 / poly.measure * ∫ p in unionOf poly.tris, polyOf k poly.centroid poly.diameter (fun j => Q.ent l j) p * u p

end PolyDiM.Spec
