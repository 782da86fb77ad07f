import Verif.Spec.VemElement
import Verif.Model.VemPcc2D

/-!
# Spec: plane linear elasticity
-/

namespace PolyDiM.Spec

/-- Component `h` of a vector that holds two components of `N` numbers, one after the other. -/
def compOf (N : Nat) (v : Nat → ℝ) (h i : Nat) : ℝ := v (h * N + i)

/-- The strain of a displacement with gradient `g` (`g d1 d2` is the derivative of component `d1` in direction `d2`). -/
noncomputable def strain (g : Nat → Nat → ℝ) (d1 d2 : Nat) : ℝ := (g d1 d2 + g d2 d1) / 2

/-- The stress of a displacement with gradient `g`: `2 μ ε + λ tr(ε) I`. -/
noncomputable def stress (μ l : ℝ) (g : Nat → Nat → ℝ) (d1 d2 : Nat) : ℝ := 2 * μ * strain g d1 d2 + if d1 = d2 then l * (g 0 0 + g 1 1) else 0

/-- The work of the stress of one displacement on the strain of another. -/
noncomputable def elasticDensity (μ l : ℝ) (g g' : Nat → Nat → ℝ) : ℝ := ∑ d1 ∈ Finset.range 2, ∑ d2 ∈ Finset.range 2, stress μ l g d1 d2 * strain g' d1 d2

/-- The projected gradient of a vector function of the VEM space, given by the DOFs `v h` of its components. -/
noncomputable def projGrad (k : Nat) (poly : VemPolygon ℝ) (s : VemSpace2D ℝ) (v : Nat → Nat → ℝ) (p : ℝ × ℝ) (d1 d2 : Nat) : ℝ :=
  polyOf (k - 1) poly.centroid poly.diameter (apply (if d2 = 0 then s.derX else s.derY) (v d1)) p

/-- The gradient of a polynomial displacement. -/
noncomputable def polyGrad (q : Nat → MvPolynomial (Fin 2) ℝ) (p : ℝ × ℝ) (d1 d2 : Nat) : ℝ :=
  MvPolynomial.eval ![p.1, p.2] (MvPolynomial.pderiv (if d2 = 0 then 0 else 1) (q d1))

/-- An infinitesimal rigid motion: translation by `(a, b)`, rotation by `c`. -/
def rigid (a b c : ℝ) (h : Nat) (p : ℝ × ℝ) : ℝ := if h = 0 then a - c * p.2 else b + c * p.1

/-- The stress of a polynomial displacement as a polynomial: `μ (∂_d q_h + ∂_h q_d) + λ δ_hd (∂_0 q_0 + ∂_1 q_1)`. -/
noncomputable def elasticStress (μ l : ℝ) (q : Nat → MvPolynomial (Fin 2) ℝ) (h d : Nat) : MvPolynomial (Fin 2) ℝ :=
  MvPolynomial.C μ * (MvPolynomial.pderiv (if d = 0 then 0 else 1) (q h) + MvPolynomial.pderiv (if h = 0 then 0 else 1) (q d))
    + if h = d then MvPolynomial.C l * (MvPolynomial.pderiv 0 (q 0) + MvPolynomial.pderiv 1 (q 1)) else 0

end PolyDiM.Spec
