import Verif.Model.AssemblerPcc2D

/-!
# Specification vocabulary: a discrete function at quadrature points
-/

namespace PolyDiM.Spec

open Finset

/-- The discrete function with coefficients `u`, at quadrature point `q`, in terms of the values `S q j` of the basis. -/
def discrete {K : Type} [Field K] (m : Nat) (S : Nat → Nat → K) (u : Nat → K) (q : Nat) : K := ∑ j ∈ range m, u j * S q j

/-- Its gradient, as a vector of space with third component zero, in terms of the derivatives `SD d q j` of the basis. -/
def discreteGradient {K : Type} [Field K] (m : Nat) (SD : Nat → Nat → Nat → K) (u : Nat → K) (q d : Nat) : K := if d < 2 then discrete m (SD d) u q else 0

/-- An active cell: its local space, `Q` quadrature points `x q` with weights `w q`, `m` basis functions with values `V q j` (of the projection of degree `k`) and
derivatives `D d q j`, and the values `u j` of the unknowns. -/
structure Sampled (K : Type) where
  space : Space2D K
  Q : Nat
  m : Nat
  x : Nat → K × K
  w : Nat → K
  V : Nat → Nat → K
  D : Nat → Nat → Nat → K
  u : Nat → K

/-- The local space has these data. -/
structure Sampled.Ok {K : Type} (c : Sampled K) : Prop where
  points : c.space.internal.points = (List.range c.Q).map c.x
  weights : c.space.internal.weights = (List.range c.Q).map c.w
  values : c.space.valuesInt .pi0k = .ok ⟨c.Q, c.m, c.V⟩
  ders : c.space.dersInt .pi0km1Der = .ok [⟨c.Q, c.m, c.D 0⟩, ⟨c.Q, c.m, c.D 1⟩]

/-- The numbers `f c q` of the quadrature points of the cells, cell after cell. -/
def cellByCell {K α : Type} (cells : List (Sampled K)) (f : Sampled K → Nat → α) : List α := cells.flatMap fun c => (List.range c.Q).map (f c)

end PolyDiM.Spec
