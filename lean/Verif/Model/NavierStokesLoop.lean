import Verif.Model.BulkTime

/-!
# Model: the nonlinear iteration of the example NavierStokes_DF_PCC_2D

examples/NavierStokes_DF_PCC_2D: main.cpp:146-256 ("main") and the global part of `AssembleNavierStokes`, src/assembler.cpp:445-586 ("asm").
-/

namespace PolyDiM

variable {K : Type} [Field K] [LinearOrder K]

/-- What the loop over the cells in `AssembleNavierStokes` leaves, asm:455-574: the matrices against free and strong unknowns, and the right-hand side. -/
structure ConvectionParts (K : Type) where
  matrix : List (Nat × Nat × K)
  strong : List (Nat × Nat × K)
  rhs : List (Nat × K)

/-- What `AssembleStokes` leaves: `globalMatrixA`, `rightHandSide` and `solutionDirichlet`, src/assembler.cpp:225-355. -/
structure StokesParts (K : Type) where
  matrix : List (Nat × Nat × K)
  rhs : List (Nat × K)
  dirichlet : List K

/-- `globalMatrixC` and `rightHandSideC` at the end of `AssembleNavierStokes`, asm:576-585. -/
def convectionSystem (S : StokesParts K) (C : ConvectionParts K) : List (Nat × Nat × K) × List (Nat × K) :=
  (C.matrix ++ S.matrix, C.rhs ++ (if 0 < S.dirichlet.length then subtractProduct C.strong S.dirichlet else []) ++ S.rhs)

/-- `Norm` of a vector with `n` entries, main:172, 173, 213, 218. -/
def arrayNorm (sqrt : K → K) (n : Nat) (v : Nat → K) : K := sqrt ((List.range n).map fun i => v i * v i).sum

/-- The four tolerances of the configuration, program_configuration.hpp:151-166. -/
structure NlTolerances (K : Type) where
  relResidual : K
  absResidual : K
  relChange : K
  absChange : K

/-- `previousIteration`, `residual_norm` and `num_nl_iterations` (main:171, 176); the two numbers have no value until they are assigned. -/
structure NlState (K : Type) where
  previous : List K
  residual : Option K
  iterations : Option Nat

/-- The functions that the iteration calls: `Eigen_LUSolver`, the loop over the cells in `AssembleNavierStokes` (with the previous iteration), `std::sqrt`. -/
structure NlCalls (K : Type) where
  solve : List (Nat × Nat × K) → List (Nat × K) → List K
  convection : List K → Except Fault (ConvectionParts K)
  sqrt : K → K

/-- The loop main:177-230 with `n` passes left, at the index `l`. Without unknowns the solution is empty (main:189). -/
def nlLoop (f : NlCalls K) (dofs : Nat) (S : StokesParts K) (tol : NlTolerances K) (residual0 solution0 : K) : Nat → Nat → NlState K → Except Fault (NlState K)
  | 0, _, s => .ok s
  | n + 1, l, s => do
    let C ← f.convection s.previous
    let sys := convectionSystem S C
    let u := if 0 < dofs then f.solve sys.1 sys.2 else []
    let residual := arrayNorm f.sqrt dofs (bulkResidual sys.1 sys.2 u)
    let change := arrayNorm f.sqrt dofs fun i => u.getD i 0 - s.previous.getD i 0
    if residual ≤ tol.relResidual * residual0 + tol.absResidual ∧ change ≤ tol.relChange * solution0 + tol.absChange then .ok ⟨u, some residual, some (l + 1)⟩
    else nlLoop f dofs S tol residual0 solution0 n (l + 1) ⟨u, some residual, s.iterations⟩

/-- What the example reports: the solution, `residual_norm` and `num_nl_iterations`, main:235-256. -/
structure NlResult (K : Type) where
  solution : List K
  residual : K
  iterations : Nat

/-- main:146-256: the Stokes solution, the iteration from it, and the reading of the two numbers as arguments of `PostProcessSolution` and `export_solution`. Reading a variable
without a value is undefined. -/
def nlRun (f : NlCalls K) (dofs : Nat) (S : StokesParts K) (tol : NlTolerances K) (max : Nat) : Except Fault (NlResult K) := do
  let u0 := if 0 < dofs then f.solve S.matrix S.rhs else []
  let s ← nlLoop f dofs S tol (arrayNorm f.sqrt dofs (bulkResidual S.matrix S.rhs u0)) (arrayNorm f.sqrt dofs fun i => u0.getD i 0) max 0 ⟨u0, none, none⟩
  match s.residual, s.iterations with
  | some r, some n => .ok ⟨s.previous, r, n⟩
  | _, _ => .error .undefinedBehaviour

end PolyDiM
