import Verif.Spec.NavierStokesDf
import Verif.Spec.NavierStokesLoop
import Verif.Spec.DfMesh

/-!
# Spec: the convective form on a mesh
-/

namespace PolyDiM.Spec

/-- The DOFs of the speed on a cell: fields 0, 1 and 2, one after the other. -/
def speedRefs (D : Nat → DOFsData) (c : Nat) : List (Nat × GDOF) := (List.range 3).flatMap fun h => (cellList (D h) 2 c).map fun r => (h, r)

/-- The value of a DOF in a vector with the `N` free unknowns first and the given ones behind them. -/
noncomputable def globalValue (D : Nat → DOFsData) (N : Nat) (v : Nat → ℝ) (x : Nat × GDOF) : ℝ :=
  match lookup (D x.1) x.2 with
  | some ⟨.dof, i⟩ => v (fieldOffset D x.1 + i)
  | some ⟨.strong, i⟩ => v (N + (strongOffset D x.1 + i))
  | _ => 0

/-- The speed on cell `c` of a vector of unknowns; `φ` are the basis fields of the cell. -/
noncomputable def speedOn (D : Nat → DOFsData) (N : Nat) (φ : Nat → PointField ℝ) (c : Nat) (v : Nat → ℝ) : PointField ℝ :=
  combined (speedRefs D c).length φ fun j => ((speedRefs D c)[j]?).elim 0 (globalValue D N v)

/-- 1 if a DOF is the free unknown `i`, and 0 if not. -/
noncomputable def isUnknown (D : Nat → DOFsData) (i : Nat) (x : Nat × GDOF) : ℝ :=
  if fieldOffset D x.1 ≤ i ∧ lookup (D x.1) x.2 = some ⟨.dof, i - fieldOffset D x.1⟩ then 1 else 0

/-- The sum over `n` cells of the local forms `b c`, with the basis function of unknown `i` as test function. -/
noncomputable def meshForm (D : Nat → DOFsData) (N : Nat) (φ : Nat → Nat → PointField ℝ) (b : Nat → PointField ℝ → PointField ℝ → PointField ℝ → ℝ) (n : Nat) (v v' : Nat → ℝ) (i : Nat) : ℝ :=
  ∑ c ∈ Finset.range n, ∑ j ∈ Finset.range (speedRefs D c).length,
    ((speedRefs D c)[j]?).elim 0 (isUnknown D i) * b c (speedOn D N (φ c) c v) (speedOn D N (φ c) c v') (φ c j)

end PolyDiM.Spec
