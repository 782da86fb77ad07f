import Verif.Model.NavierStokesDf2D
import Verif.Model.NavierStokesLoop
import Verif.Model.AssemblerGlobal2D
import Verif.Model.Assembler

/-!
# Model: the loop over the cells in `AssembleNavierStokes`

examples/NavierStokes_DF_PCC_2D/src/assembler.cpp ("asm").
-/

namespace PolyDiM

variable {K : Type} [Field K]

/-- What the local space gives on one cell, asm:461-480: the values and derivatives of the basis functions of the speed, and the weights of the quadrature. -/
structure SpeedSpace (K : Type) where
  values : List (DMat K)
  ders : List (DMat K)
  weights : List K

/-- The body of the loop over the cells up to the call of the assembly, asm:459-574. The difference in asm:484 is of type `unsigned int`. The assertion in asm:559 is not modelled. -/
def convectionCall (datas : List DOFsData) (count : CountData) (form : Nat) (spaces : Nat → Except Fault (SpeedSpace K)) (previous dirichlet : List K) (c : Nat) :
    Except Fault (Call K) := do
  let t ← spaces c
  let lc ← localCountDofs 2 c datas
  let d3 ← unchecked datas 3
  let np ← localSize 2 c d3
  let d ← globalToLocal 2 c datas lc.total lc.offsets count.offsetsDOFs count.offsetsStrongs previous dirichlet
  let l ← localConvection form t.values t.ders t.weights (u32 (lc.total + 2 ^ 32 - np)) d
  let d0 ← unchecked datas 0
  let d1 ← unchecked datas 1
  let d2 ← unchecked datas 2
  let F : Fields := ⟨[d0, d1, d2], lc.offsets, count.offsetsDOFs, count.offsetsStrongs⟩
  .ok ⟨c, F, some (F, l.1.toLMat), some ((List.range l.2.rows).map fun i => l.2.ent i 0)⟩

/-- The loop over the `n` cells, asm:459-578. The local terms of all cells are computed first and assembled afterwards; the code does both cell by cell. -/
def assembleConvection (datas : List DOFsData) (count : CountData) (form : Nat) (spaces : Nat → Except Fault (SpeedSpace K)) (dirichlet : List K) (n : Nat) (previous : List K) :
    Except Fault (ConvectionParts K) := do
  let calls ← (List.range n).mapM (convectionCall datas count form spaces previous dirichlet)
  let s ← assembleAll 2 .empty calls
  .ok ⟨s.lhsDOFs, s.lhsStrongs, s.rhs⟩

end PolyDiM
