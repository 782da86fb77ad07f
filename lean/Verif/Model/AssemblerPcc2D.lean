import Verif.Model.Elliptic
import Verif.Model.VemEval2D
import Verif.Model.Assembler

/-!
# Model: the assembler of the primal formulation in the plane, cell by cell

PolyDiM/src/PDETools/Assembler/assembler_PCC_2D_functions.cpp and PolyDiM/src/PDETools/LocalSpace/LocalSpace_PCC_2D.{hpp,cpp}.

Points have two coordinates; the third one, which the code passes to the coefficient functions, is zero for a plane mesh.
-/

namespace PolyDiM

variable {K : Type} [Field K] [LinearOrder K]

/-- The functions of LocalSpace_PCC_2D.cpp on one cell: `Size` (339-357), `InternalQuadrature` (318-337), `BasisFunctionsValues` at the
quadrature points (170-191) and at given points (193-216), `BasisFunctionsDerivativeValues` (269-291, 293-316), `StabilizationMatrix` (359-382).
The `switch` on the method of every function is the choice of one record. -/
structure Space2D (K : Type) where
  size : Nat
  internal : Rule (K × K) K
  valuesInt : ProjType → Except Fault (DMat K)
  valuesAt : ProjType → List (K × K) → Except Fault (DMat K)
  dersInt : ProjType → Except Fault (List (DMat K))
  dersAt : ProjType → List (K × K) → Except Fault (List (DMat K))
  stab : ProjType → Except Fault (DMat K)

/-- The cases `VEM_PCC` of the functions in LocalSpace_PCC_2D.cpp: 180-184, 205-212, 279-284, 305-312, 326-330, 346-350,
369-374. -/
def vemSpace2D (ref : VemRef2D K) (poly : VemPolygon K) (s : VemSpace2D K) : Space2D K where
  size := s.init.numBasis
  internal := s.internal
  valuesInt := vemValuesInt s
  valuesAt := vemValuesAt ref poly s
  dersInt := vemDerivativesInt s
  dersAt := vemDerivativesAt ref poly s
  stab := vemDofiDofi poly s

/-- The cases `FEM_PCC` of the functions in LocalSpace_PCC_2D.cpp: 176-179, 200-204, 275-278, 300-304, 323-325, 343-345, 365-368. The element
is given by its functions; the type of projection is ignored and the stabilization is zero. -/
def femSpace2D (size : Nat) (internal : Rule (K × K) K) (valuesInt : Except Fault (DMat K)) (valuesAt : List (K × K) → Except Fault (DMat K))
    (dersInt : Except Fault (List (DMat K))) (dersAt : List (K × K) → Except Fault (List (DMat K))) : Space2D K where
  size := size
  internal := internal
  valuesInt := fun _ => valuesInt
  valuesAt := fun _ => valuesAt
  dersInt := fun _ => dersInt
  dersAt := fun _ => dersAt
  stab := fun _ => .ok (.zero size size)

/-- The cases `ZFEM_PCC` of the functions in LocalSpace_PCC_2D.cpp: 185-187, 213-214, 285-287, 313-314, 331-333, 351-353, 375-378. There is no
case for the evaluation at given points: the `default` throws. -/
def zfemSpace2D (size : Nat) (internal : Rule (K × K) K) (valuesInt : Except Fault (DMat K)) (dersInt : Except Fault (List (DMat K))) : Space2D K where
  size := size
  internal := internal
  valuesInt := fun _ => valuesInt
  valuesAt := fun _ _ => .error .runtimeError
  dersInt := fun _ => dersInt
  dersAt := fun _ _ => .error .runtimeError
  stab := fun _ => .ok (.zero size size)

/-- `function_evaluation` of a scalar function, assembler_PCC_2D_functions.cpp:91-102. -/
def evalScalar (points : List (K × K)) (f : K × K → K) : List K := points.map f

/-- `function_evaluation` of a function with `D` components, assembler_PCC_2D_functions.cpp:104-123 (`D = 3`) and 125-142 (`D = 9`). -/
def evalComponents (D : Nat) (points : List (K × K)) (f : K × K → Nat → K) : List (List K) := (List.range D).map fun d => points.map fun p => f p d

/-- `anysotropic_diffusion_term_function`, assembler_PCC_2D_functions_utilities.hpp:59-65. -/
def isotropicTensor (f : K × K → K) (p : K × K) (c : Nat) : K := if c = 0 then f p else if c = 4 then f p else if c = 8 then f p else 0

/-- `v.cwiseAbs().maxCoeff()`, assembler_PCC_2D_functions.cpp:289; on an empty vector it is undefined. -/
def maxAbs (v : List K) : Except Fault K :=
  match v with
  | [] => .error .undefinedBehaviour
  | x :: xs => .ok (xs.foldl (fun m y => max m |y|) |x|)

/-- The loop that computes `k_max`, assembler_PCC_2D_functions.cpp:286-291. -/
def kMax (values : List (List K)) : Except Fault K :=
  values.foldlM (init := 0) fun k v => do
    let m ← maxAbs v
    .ok (if k < m then m else k)

/-- The diffusion part of the local matrix, assembler_PCC_2D_functions.cpp:275-296. The values of the basis functions are computed before, 254-266. -/
def localDiffusion (trial test : Space2D K) (trialDers testDers : List (DMat K)) (values : List (List K)) (A : DMat K) : Except Fault (DMat K) := do
  let D ← cellDiffusionTensor values trialDers testDers trial.internal.weights
  let A ← A.add D
  if test.size = trial.size then do
    let k ← kMax values
    let S ← test.stab .piNabla
    A.add (.smul k S)
  else .ok A

/-- The advection part of the local matrix, assembler_PCC_2D_functions.cpp:298-306. -/
def localAdvection (trial : Space2D K) (testValues : DMat K) (trialDers : List (DMat K)) (values : List (List K)) (A : DMat K) : Except Fault (DMat K) := do
  let B ← cellAdvection values testValues trialDers trial.internal.weights
  A.add B

/-- The reaction part of the local matrix, assembler_PCC_2D_functions.cpp:308-316. -/
def localReaction (trial : Space2D K) (testValues trialValues : DMat K) (values : List K) (A : DMat K) : Except Fault (DMat K) := do
  let B ← cellReaction values trialValues testValues trial.internal.weights
  A.add B

/-- A term that is present only if its coefficient function is given (`if (diffusion_term_function)`, assembler_PCC_2D_functions.cpp:275, 298,
308). -/
def onTerm {α : Type} (term : Option α) (f : α → DMat K → Except Fault (DMat K)) (A : DMat K) : Except Fault (DMat K) :=
  match term with
  | none => .ok A
  | some t => f t A

/-- The local matrix computed by `assemble_elliptic_operator` on one cell, assembler_PCC_2D_functions.cpp:237-316. The default types of
projection are those of LocalSpace_PCC_2D.hpp:108, 113, 123, 129, 138. -/
def localElliptic (trial test : Space2D K) (diffusion advection : Option (K × K → Nat → K)) (reaction : Option (K × K → K)) : Except Fault (DMat K) := do
  let trialValues ← trial.valuesInt .pi0km1
  let trialDers ← trial.dersInt .pi0km1Der
  let testValues ← test.valuesAt .pi0km1 trial.internal.points
  let testDers ← test.dersAt .pi0km1Der trial.internal.points
  let A ← onTerm diffusion (fun f => localDiffusion trial test trialDers testDers (evalComponents 9 trial.internal.points f)) (.zero test.size trial.size)
  let A ← onTerm advection (fun f => localAdvection trial testValues trialDers (evalComponents 3 trial.internal.points f)) A
  onTerm reaction (fun f => localReaction trial testValues trialValues (evalScalar trial.internal.points f)) A

/-- The local matrix of `assemble_diffusion_operator`, assembler_PCC_2D_functions.cpp:1556-1575. -/
def localDiffusionOperator (trial test : Space2D K) (diffusion : K × K → K) : Except Fault (DMat K) :=
  localElliptic trial test (some (isotropicTensor diffusion)) none none

/-- The local right-hand side of `assemble_source_term`, assembler_PCC_2D_functions.cpp:166-191. -/
def localSource (trial test : Space2D K) (f : K × K → K) : Except Fault (DMat K) := do
  let testValues ← test.valuesAt .pi0km1 trial.internal.points
  cellForcing (evalScalar trial.internal.points f) testValues trial.internal.weights

/-- `compute_NS_convective_lhs`, assembler_PCC_2D_functions.cpp:1370-1395. `zero` has the number of columns of the values. -/
def nsConvectiveLhs (u du : List (List K)) (values ders : List (DMat K)) (weights : List K) : Except Fault (DMat K) := do
  let v0 ← unchecked values 0
  let A ← (List.range 2).foldlM (init := DMat.zero v0.cols v0.cols) fun A d1 =>
    (List.range 2).foldlM (init := A) fun A d2 => do
      let v ← atIdx values d1
      let c ← atIdx u d2
      let g ← atIdx ders (2 * d1 + d2)
      let B ← cellTerm c g v weights
      A.add B
  (List.range 2).foldlM (init := A) fun A d1 =>
    (List.range 2).foldlM (init := A) fun A d2 => do
      let v ← atIdx values d1
      let c ← atIdx du (2 * d1 + d2)
      let g ← atIdx values d2
      let B ← cellTerm c g v weights
      A.add B

/-- `compute_NS_convective_rhs`, assembler_PCC_2D_functions.cpp:1397-1412. The result is a matrix with one column. -/
def nsConvectiveRhs (u du : List (List K)) (values : List (DMat K)) (weights : List K) : Except Fault (DMat K) := do
  let v0 ← unchecked values 0
  (List.range 2).foldlM (init := DMat.zero v0.cols 1) fun A d1 =>
    (List.range 2).foldlM (init := A) fun A d2 => do
      let v ← atIdx values d1
      let c ← atIdx u d2
      let g ← atIdx du (2 * d1 + d2)
      let f ← cwiseProduct c g
      let B ← cellForcing f v weights
      A.add B

/-- The basis functions of the speed as vectors, assembler_PCC_2D_functions.cpp:1475-1480: component `d` of the functions in block `d`. -/
def nsValues (values : DMat K) (size : Nat) : Except Fault (List (DMat K)) := do
  let A ← (DMat.zero values.rows (2 * size)).assign 0 0 values.rows size values
  let B ← (DMat.zero values.rows (2 * size)).assign 0 size values.rows size values
  .ok [A, B]

/-- The derivatives of the basis functions of the speed, assembler_PCC_2D_functions.cpp:1482-1496: entry `2 d1 + d2` of the list is the derivative
of component `d1` in direction `d2`. -/
def nsDerivatives (ders : List (DMat K)) (size : Nat) : Except Fault (List (DMat K)) := do
  let r ← atIdx ders 0
  (List.range 4).mapM fun d => do
    let D ← atIdx ders (d % 2)
    (DMat.zero r.rows (2 * size)).assign 0 (d / 2 * size) r.rows size D

/-- `speed_basis_functions_values.at(d) * speed_dofs_values`, assembler_PCC_2D_functions.cpp:1509-1517. -/
def nsOnQuadrature (basis : List (DMat K)) (dofs : List K) : Except Fault (List (List K)) :=
  basis.mapM fun B => do
    let x ← B.mul (.col dofs)
    .ok ((List.range x.rows).map fun q => x.ent q 0)

/-- The local matrix and right-hand side of `assemble_NS_operators` on one cell, assembler_PCC_2D_functions.cpp:1454-1528, given the values of the
unknowns on the cell. -/
def localNS (space : Space2D K) (dofs : List K) : Except Fault (DMat K × DMat K) := do
  let values ← space.valuesInt .pi0km1
  let ders ← space.dersInt .pi0km1Der
  let V ← nsValues values space.size
  let D ← nsDerivatives ders space.size
  let u ← nsOnQuadrature V dofs
  let du ← nsOnQuadrature D dofs
  let lhs ← nsConvectiveLhs u du V D space.internal.weights
  let rhs ← nsConvectiveRhs u du V space.internal.weights
  .ok (lhs, rhs)

/-- The values of the given function at the quadrature points, zero if there is none, assembler_PCC_2D_functions.cpp:798-802. -/
def exactScalar (points : List (K × K)) (exact : Option (K × K → K)) : List K :=
  match exact with
  | some f => evalScalar points f
  | none => List.replicate points.length 0

/-- The same for a gradient, assembler_PCC_2D_functions.cpp:871-880. -/
def exactComponents (points : List (K × K)) (exact : Option (K × K → Nat → K)) : List (List K) :=
  match exact with
  | some f => evalComponents 3 points f
  | none => List.replicate 3 (List.replicate points.length 0)

/-- `weights.transpose() * (values * dofs - exact).array().square()`, assembler_PCC_2D_functions.cpp:790-802, 815-822: the squared error on one cell, the
squared norm of the discrete function and of the given one. -/
def localErrorL2 (space : Space2D K) (dofs : List K) (exact : Option (K × K → K)) : Except Fault (K × K × K) := do
  let V ← space.valuesInt .pi0k
  let e := exactScalar space.internal.points exact
  let x ← V.mul (.col dofs)
  if x.rows = e.length ∧ space.internal.weights.length = e.length then
    .ok (∑ q ∈ Finset.range x.rows, space.internal.weights.getD q 0 * (x.ent q 0 - e.getD q 0) ^ 2,
      ∑ q ∈ Finset.range x.rows, space.internal.weights.getD q 0 * (x.ent q 0) ^ 2,
      ∑ q ∈ Finset.range x.rows, space.internal.weights.getD q 0 * (e.getD q 0) ^ 2)
  else .error .undefinedBehaviour

/-- The same with the gradients, assembler_PCC_2D_functions.cpp:865-880, 893-910. -/
def localErrorH1 (space : Space2D K) (dofs : List K) (exact : Option (K × K → Nat → K)) : Except Fault (K × K × K) := do
  let ders ← space.dersInt .pi0km1Der
  let e := exactComponents space.internal.points exact
  let ex ← atIdx e 0
  let ey ← atIdx e 1
  let DX ← atIdx ders 0
  let DY ← atIdx ders 1
  let x ← DX.mul (.col dofs)
  let y ← DY.mul (.col dofs)
  if x.rows = ex.length ∧ y.rows = ey.length ∧ x.rows = y.rows ∧ space.internal.weights.length = ex.length then
    .ok (∑ q ∈ Finset.range x.rows, space.internal.weights.getD q 0 * ((x.ent q 0 - ex.getD q 0) ^ 2 + (y.ent q 0 - ey.getD q 0) ^ 2),
      ∑ q ∈ Finset.range x.rows, space.internal.weights.getD q 0 * ((x.ent q 0) ^ 2 + (y.ent q 0) ^ 2),
      ∑ q ∈ Finset.range x.rows, space.internal.weights.getD q 0 * ((ex.getD q 0) ^ 2 + (ey.getD q 0) ^ 2))
  else .error .undefinedBehaviour

end PolyDiM
