import Verif.Spec.Assembler
import Mathlib.Data.Real.Basic
import Mathlib.Algebra.MvPolynomial.PDeriv

/-!
# Spec: the heat equation in time
-/

namespace PolyDiM.Spec

open MvPolynomial

/-- The bilinear form of a matrix given by triplets, on vectors with `N` entries. -/
noncomputable def tripletForm (F : List (Nat × Nat × ℝ)) (N : Nat) (x y : Nat → ℝ) : ℝ := ∑ i ∈ Finset.range N, x i * ∑ j ∈ Finset.range N, entry F i j * y j

/-- The contract of a linear solver on systems with `N` unknowns: a regular system is solved. -/
def SolvesSystems (N : Nat) (solve : List (Nat × Nat × ℝ) → List (Nat × ℝ) → List ℝ) : Prop :=
  ∀ A b, (∀ x : Nat → ℝ, (∀ i < N, ∑ j ∈ Finset.range N, entry A i j * x j = 0) → ∀ i < N, x i = 0) →
    (solve A b).length = N ∧ ∀ i < N, ∑ j ∈ Finset.range N, entry A i j * (solve A b).getD j 0 = ventry b i

/-- A solution that is a polynomial of degree two in time. -/
noncomputable def heatAt (q₀ q₁ q₂ : MvPolynomial (Fin 2) ℝ) (t : ℝ) : MvPolynomial (Fin 2) ℝ := q₀ + C t * q₁ + C (t ^ 2) * q₂

/-- Its derivative in time. -/
noncomputable def heatRate (q₁ q₂ : MvPolynomial (Fin 2) ℝ) (t : ℝ) : MvPolynomial (Fin 2) ℝ := q₁ + C (2 * t) * q₂

/-- The values `(0, 1, ..., N) / N`. -/
noncomputable def unitGrid (N : Nat) : List ℝ := (List.range (N + 1)).map fun i : Nat => (i : ℝ) / N

end PolyDiM.Spec
