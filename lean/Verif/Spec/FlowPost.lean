import Verif.Spec.NavierStokesAssembly

/-!
# Spec: distances of a discrete flow from the exact one
-/

namespace PolyDiM.Spec

/-- The pressure on cell `c` of a vector of unknowns, at point `q`; `ψ` are the basis functions of the cell. -/
noncomputable def pressureOn (D : Nat → DOFsData) (N : Nat) (ψ : Nat → Nat → ℝ) (c : Nat) (v : Nat → ℝ) (q : Nat) : ℝ :=
  ∑ j ∈ Finset.range (cellList (D 3) 2 c).length, ψ j q * ((cellList (D 3) 2 c)[j]?).elim 0 fun r => globalValue D N v (3, r)

/-- The square of a broken norm: `n` cells, `Q c` weighted points on cell `c`. -/
noncomputable def brokenSquare (n : Nat) (Q : Nat → Nat) (w : Nat → Nat → ℝ) (f : Nat → Nat → ℝ) : ℝ := ∑ c ∈ Finset.range n, ∑ q ∈ Finset.range (Q c), w c q * f c q

/-- The square of the length of a gradient. -/
def gradSquare (G : Nat → Nat → ℝ) : ℝ := ∑ a ∈ Finset.range 2, ∑ b ∈ Finset.range 2, G a b ^ 2

end PolyDiM.Spec
