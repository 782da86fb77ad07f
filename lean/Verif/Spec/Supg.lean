import Verif.Spec.VemElement
import Verif.Model.AssemblerElliptic2D

/-!
# Specification: the advection-diffusion form with the streamline upwind terms

A space is given on one cell by its tables at the quadrature points: the values, the derivatives in x and y and the Laplacians of its basis functions. A row of a table
applied to the coefficients of a function is the value of that function at the point.
-/

namespace PolyDiM.Spec

open Finset

/-- The tables of the space at its `Q` quadrature points, for `n` basis functions. -/
structure CellTables (space : EllipticCell2D ℝ) (Q n : Nat) (Φ X Y S : DMat ℝ) : Prop where
  values : space.valuesInt .pi0km1 = .ok Φ
  derivatives : space.dersInt .pi0km1Der = .ok [X, Y]
  stab : space.stab .piNabla = .ok S
  points : space.internal.points.length = Q
  weights : space.internal.weights.length = Q
  sizes : Φ.rows = Q ∧ Φ.cols = n ∧ X.rows = Q ∧ X.cols = n ∧ Y.rows = Q ∧ Y.cols = n ∧ S.rows = n ∧ S.cols = n

/-- The quadrature of the cell, for a function of the number of the point. -/
def cellSum (rule : Rule (ℝ × ℝ) ℝ) (f : Nat → ℝ) : ℝ := ∑ q ∈ range rule.points.length, rule.weights.getD q 0 * f q

/-- Point number `q`. -/
def rulePoint (rule : Rule (ℝ × ℝ) ℝ) (q : Nat) : ℝ × ℝ := rule.points.getD q 0

/-- The derivative of the function `u` along the advection at point number `q`. -/
noncomputable def streamline (rule : Rule (ℝ × ℝ) ℝ) (X Y : DMat ℝ) (β : ℝ × ℝ → Nat → ℝ) (u : Nat → ℝ) (q : Nat) : ℝ :=
  β (rulePoint rule q) 0 * apply X u q + β (rulePoint rule q) 1 * apply Y u q

/-- The quadrature of `κ ∇u·∇v + (β·∇u) v`. -/
noncomputable def galerkinForm (rule : Rule (ℝ × ℝ) ℝ) (Φ X Y : DMat ℝ) (κ : ℝ × ℝ → ℝ) (β : ℝ × ℝ → Nat → ℝ) (u v : Nat → ℝ) : ℝ :=
  cellSum rule fun q => κ (rulePoint rule q) * (apply X u q * apply X v q + apply Y u q * apply Y v q) + streamline rule X Y β u q * apply Φ v q

/-- The quadrature of `(-κ Δu + β·∇u) (β·∇v)`. -/
noncomputable def upwindForm (rule : Rule (ℝ × ℝ) ℝ) (X Y L : DMat ℝ) (κ : ℝ × ℝ → ℝ) (β : ℝ × ℝ → Nat → ℝ) (u v : Nat → ℝ) : ℝ :=
  cellSum rule fun q => (-(κ (rulePoint rule q) * apply L u q) + streamline rule X Y β u q) * streamline rule X Y β v q

/-- The quadrature of `|β|²`. -/
def advectionSquare (rule : Rule (ℝ × ℝ) ℝ) (β : ℝ × ℝ → Nat → ℝ) : ℝ :=
  cellSum rule fun q => β (rulePoint rule q) 0 ^ 2 + β (rulePoint rule q) 1 ^ 2

/-- The greatest value of `|κ|` at the points. -/
def GreatestOn (rule : Rule (ℝ × ℝ) ℝ) (κ : ℝ × ℝ → ℝ) (k : ℝ) : Prop := IsGreatest {y | ∃ p ∈ rule.points, y = |κ p|} k

end PolyDiM.Spec
