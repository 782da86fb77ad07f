import Mathlib.Data.Matrix.Mul
import Mathlib.Data.Matrix.Diagonal
import Mathlib.Algebra.Order.Field.Basic
import Mathlib.MeasureTheory.Integral.Bochner.Set
import Mathlib.MeasureTheory.Measure.Haar.OfBasis
import Mathlib.MeasureTheory.Constructions.Pi

/-!
# Spec: diameter and second moments

Independent of the model.
-/

namespace PolyDiM.Spec

open Matrix MeasureTheory

/-- Squared distance of two points. -/
def sqDist {K : Type} [Field K] (p q : Fin 3 → K) : K := ∑ i, (p i - q i) * (p i - q i)

/-- `δ` is the largest distance of two points of the list. -/
def IsDiameter {K : Type} [Field K] [LinearOrder K] (V : List (Fin 3 → K)) (δ : K) : Prop :=
  0 ≤ δ ∧ (∀ p ∈ V, ∀ q ∈ V, sqDist p q ≤ δ * δ) ∧ ∃ p ∈ V, ∃ q ∈ V, sqDist p q = δ * δ

/-- Orthonormal eigenvectors in the columns of `Q` with eigenvalues `lam`. -/
def IsSpectral {K : Type} [Field K] {n : Nat} (H : Matrix (Fin n) (Fin n) K) (lam : Fin n → K) (Q : Matrix (Fin n) (Fin n) K) : Prop :=
  Q.transpose * Q = 1 ∧ H = Q * diagonal lam * Q.transpose

/-- Positive definite quadratic form. -/
def IsPosDef {K : Type} [Field K] [LinearOrder K] {n : Nat} (H : Matrix (Fin n) (Fin n) K) : Prop :=
  H.transpose = H ∧ ∀ x : Fin n → K, x ≠ 0 → 0 < ∑ i, ∑ j, x i * (H i j * x j)

/-- Second moment of a set about a point. -/
noncomputable def secondMoment {n : Nat} (E : Set (Fin n → ℝ)) (c : Fin n → ℝ) (i j : Fin n) : ℝ := ∫ x in E, (x i - c i) * (x j - c j)

end PolyDiM.Spec
