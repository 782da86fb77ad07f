import Verif.Spec.NavierStokesAssembly

/-!
# Spec: the flux through the edges with a marker
-/

namespace PolyDiM.Spec

/-- Component `h` of the velocity on edge `e` at point `q`; `β q j` is the value of the basis function of the `j`-th DOF of the edge. -/
noncomputable def edgeSpeed (D : Nat → DOFsData) (N : Nat) (v : Nat → ℝ) (e : Nat) (β : Nat → Nat → ℝ) (h q : Nat) : ℝ :=
  ∑ j ∈ Finset.range (cellList (D h) 1 e).length, β q j * ((cellList (D h) 1 e)[j]?).elim 0 fun r => globalValue D N v (h, r)

/-- The quadrature of the normal component of the velocity over an edge of the given length. -/
noncomputable def normalFlux (Q : Nat) (w : Nat → ℝ) (len : ℝ) (normal : ℝ × ℝ) (u : Nat → Nat → ℝ) : ℝ :=
  |len| * ∑ q ∈ Finset.range Q, w q * (normal.1 * u 0 q + normal.2 * u 1 q)

end PolyDiM.Spec
