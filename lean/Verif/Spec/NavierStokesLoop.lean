import Verif.Spec.BulkTime
import Mathlib.LinearAlgebra.BilinearMap
import Mathlib.Analysis.SpecialFunctions.Sqrt

/-!
# Spec: a problem with a quadratic term
-/

namespace PolyDiM.Spec

/-- The values of all unknowns: `N` free ones and the given ones behind them. -/
def withStrong (N : Nat) (x : Nat → ℝ) (strong : Nat → ℝ) (i : Nat) : ℝ := if i < N then x i else strong (i - N)

/-- The residual of `A u + b(u, u) = f` at row `i`. -/
noncomputable def quadraticResidual (A : List (Nat × Nat × ℝ)) (f : List (Nat × ℝ)) (b : (Nat → ℝ) →ₗ[ℝ] (Nat → ℝ) →ₗ[ℝ] (Nat → ℝ)) (N : Nat) (strong : Nat → ℝ) (u : Nat → ℝ) (i : Nat) : ℝ :=
  rowTimes A N u i + b (withStrong N u strong) (withStrong N u strong) i - ventry f i

/-- The Euclidean norm of the first `N` entries. -/
noncomputable def euclidNorm (N : Nat) (v : Nat → ℝ) : ℝ := Real.sqrt (∑ i ∈ Finset.range N, v i ^ 2)

end PolyDiM.Spec
