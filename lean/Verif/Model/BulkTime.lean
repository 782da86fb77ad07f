import Verif.Model.AssemblerParabolic2D

/-!
# Model: the time loop of the example with a bulk and a surface equation

examples/Parabolic_PCC_BulkFace_2D: main.cpp:200-344 ("main") and `PostProcessSolution` of src/assembler.cpp:101-179 ("asm").
-/

namespace PolyDiM

variable {K : Type} [Field K] [LinearOrder K]

/-- `error_L2`, `norm_L2`, `error_H1`, `norm_H1` of `PostProcess_Data_2D` and of `PostProcess_Data_1D`, src/assembler.hpp:58-63, 75-80. The values at the nodes and at the cells
are left out. -/
structure FieldErrors (K : Type) where
  errorL2 : K
  normL2 : K
  errorH1 : K
  normH1 : K

/-- `PostProcess_Data`, src/assembler.hpp:87-101, without the mesh size. -/
structure BulkReport (K : Type) where
  bulk : FieldErrors K
  surface : FieldErrors K
  residual : K
  errorL2 : K
  normL2 : K
  errorH1 : K
  normH1 : K
  step : K

/-- Entry `i` of `globalMatrixA * solution - rightHandSide`, asm:121-124. -/
def bulkResidual (A : List (Nat × Nat × K)) (rhs : List (Nat × K)) (u : List K) (i : Nat) : K :=
  ((A.filter fun t => t.1 = i).map fun t => t.2.2 * u.getD t.2.1 0).sum - ((rhs.filter fun t => t.1 = i).map Prod.snd).sum

/-- `sqrt(a * a + b * b)`, asm:150-156, 162-164, 170-172. -/
def bothFields (sqrt : K → K) (surface bulk : K) : K := sqrt (surface * surface + bulk * bulk)

/-- `PostProcessSolution`, asm:101-179. The object `post_process_data` is made by the call (asm:117), so that its `error_L2`, `norm_L2`, `error_H1`, `norm_H1` are the zeros of
src/assembler.hpp:93-97 when asm:158 and asm:166 compare with them. `fields` is the outcome of `PostProcessSolution_2D` and `PostProcessSolution_1D`, in this order. -/
def bulkPost (sqrt : K → K) (dofs : Nat) (dt : K) (A : List (Nat × Nat × K)) (rhs : List (Nat × K)) (u : List K) (fields : FieldErrors K × FieldErrors K) : BulkReport K :=
  let residual := sqrt ((List.range dofs).map fun i => bulkResidual A rhs u i * bulkResidual A rhs u i).sum
  let errorL2 := bothFields sqrt fields.2.errorL2 fields.1.errorL2
  let errorH1 := bothFields sqrt fields.2.errorH1 fields.1.errorH1
  let h1 := if 0 < errorH1 then (errorH1, bothFields sqrt fields.2.normH1 fields.1.normH1) else (0, 0)
  let l2 := if 0 < errorL2 then (errorL2, bothFields sqrt fields.2.normL2 fields.1.normL2) else (0, 0)
  ⟨fields.1, fields.2, residual, l2.1, l2.2, h1.1, h1.2, dt⟩

/-- What one solve leaves: `assembler_data.solution` and `post_process_data`, main:233-255, 315-340. -/
structure BulkStep (K : Type) where
  solution : List K
  report : BulkReport K

/-- The functions that the loop calls: `Eigen_LUSolver` (`Initialize` and `Solve`, main:210, 234, 285, 316), `AssembleRhs` (main:218-231, 297-310), the pair `PostProcessSolution_2D`,
`PostProcessSolution_1D` (asm:128-148) and `std::sqrt`. -/
structure BulkCalls (K : Type) where
  solve : List (Nat × Nat × K) → List (Nat × K) → List K
  assembleRhs : K → Except Fault (List (Nat × K))
  fieldErrors : K → List K → Except Fault (FieldErrors K × FieldErrors K)
  sqrt : K → K

/-- `globalMatrixA *= delta_time; globalMatrixA += globalMatrixM`, main:278-279. -/
def eulerMatrix (dt : K) (A M : List (Nat × Nat × K)) : List (Nat × Nat × K) := scaleTriplets dt A ++ M

/-- One pass of the loop main:290-343; `A` is the matrix after main:279 and `old` is `assembler_data.initial_solution`. -/
def eulerStep (f : BulkCalls K) (dofs : Nat) (dt : K) (A M : List (Nat × Nat × K)) (old : List K) (time : K) : Except Fault (BulkStep K) := do
  let load ← f.assembleRhs time
  let rhs := scaleVector dt load ++ addProduct M old
  let u := f.solve A rhs
  let fields ← f.fieldErrors time u
  .ok ⟨u, bulkPost f.sqrt dofs dt A rhs u fields⟩

/-- The loop main:290-343 over the remaining times: what each pass leaves. -/
def eulerLoop (f : BulkCalls K) (dofs : Nat) (dt : K) (A M : List (Nat × Nat × K)) : List K → List K → Except Fault (List (BulkStep K))
  | _, [] => .ok []
  | old, t :: ts => do
    let s ← eulerStep f dofs dt A M old t
    let rest ← eulerLoop f dofs dt A M s.solution ts
    .ok (s :: rest)

/-- main:205-259: the problem without time; `value_time` and `delta_time` are zero (main:201-202). -/
def bulkStationary (f : BulkCalls K) (dofs : Nat) (A : List (Nat × Nat × K)) : Except Fault (BulkStep K) := do
  let rhs ← f.assembleRhs 0
  let u := f.solve A rhs
  let fields ← f.fieldErrors 0 u
  .ok ⟨u, bulkPost f.sqrt dofs 0 A rhs u fields⟩

/-- main:200-344: what each solve leaves; the last element is what main:350-359 exports. `initial` is the outcome of `ComputeInitialCondition` (main:266-276). The unqualified
`abs` of main:203 is taken as the absolute value. -/
def bulkRun (f : BulkCalls K) (equispace : K → List K) (dofs : Nat) (step first last : K) (A M : List (Nat × Nat × K)) (initial : Except Fault (List K)) :
    Except Fault (List (BulkStep K)) :=
  if (if first - last < 0 then last - first else first - last) < 1 / 10 ^ 12 then do
    let s ← bulkStationary f dofs A
    .ok [s]
  else do
    let u ← initial
    eulerLoop f dofs step (eulerMatrix step A M) M u ((createTimeSteps equispace step first last).drop 1)

end PolyDiM
