import Verif.Model.Monomials
import Mathlib.Algebra.BigOperators.Group.Finset.Basic
import Mathlib.Analysis.Calculus.Deriv.Basic
import Mathlib.Data.Real.Basic

/-!
# Specification vocabulary for the monomial bases

The value of a scaled monomial and partial derivatives of functions of `n` real variables, without any index arithmetic.
-/

namespace PolyDiM.Spec

/-- The scaled monomial with exponents `e` in `n` variables (what the documentation of Monomials_Utilities.hpp:34-71
promises): `∏ ((x_d - c_d) / h) ^ e_d`. -/
def monomial {K : Type} [Field K] (n : Nat) (e : List Nat) (x c : Nat → K) (h : K) : K :=
  ∏ d ∈ Finset.range n, ((x d - c d) / h) ^ (e.getD d 0)

/-- `v` is the partial derivative of `f` in direction `d` at `x`. -/
def HasPartial (f : (Nat → ℝ) → ℝ) (d : Nat) (x : Nat → ℝ) (v : ℝ) : Prop :=
  HasDerivAt (fun t => f (Function.update x d t)) v (x d)

/-- `v` is the second partial derivative of `f` in direction `d` at `x`: there is a function which is the partial derivative
everywhere and has partial derivative `v` at `x`. -/
def HasSecondPartial (f : (Nat → ℝ) → ℝ) (d : Nat) (x : Nat → ℝ) (v : ℝ) : Prop :=
  ∃ g : (Nat → ℝ) → ℝ, (∀ y, HasPartial f d y (g y)) ∧ HasPartial g d x v

/-- `v` is the Laplacian of `f` (a function of `n` variables) at `x`. -/
def HasLaplacian (n : Nat) (f : (Nat → ℝ) → ℝ) (x : Nat → ℝ) (v : ℝ) : Prop :=
  ∃ s : Nat → ℝ, (∀ d, d < n → HasSecondPartial f d x (s d)) ∧ v = ∑ d ∈ Finset.range n, s d

/-- One of the three monomial classes of the library. -/
def IsKind (K : MonoKind) : Prop := K = mono1 ∨ K = mono2 ∨ K = mono3

/-- The user's expectation on `VanderLaplacian` (Monomials_Utilities.hpp:106-139): called on the result of `Vander`, it writes
inside the matrix and column `i` holds the Laplacian of the function evaluated by `Vander` in column `i`. -/
def LaplacianCorrect (K : MonoKind) (k : Nat) : Prop :=
  ∀ (i : Nat) (x c : Nat → ℝ) (h : ℝ) (row : Nat → ℝ) (f : (Nat → ℝ) → ℝ), i < (compute K k).num → h ≠ 0 →
    (∀ j, j < (compute K k).num → vander (compute K k) x c h j = .ok (row j)) →
    (∀ y, vander (compute K k) y c h i = .ok (f y)) →
    ∃ v, vanderLap K (compute K k) row h i = .ok v ∧ HasLaplacian K.dim f x v

end PolyDiM.Spec
