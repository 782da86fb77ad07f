import Verif.Model.Lagrange

/-!
# Model of the one-dimensional finite element

PolyDiM/src/FEM/PCC/1D/FEM_PCC_1D_ReferenceElement.hpp, FEM_PCC_1D_LocalSpace.hpp, FEM_PCC_1D_LocalSpace.cpp over a field `K` (the
code uses `double`). Counts are unbounded natural numbers. Only row 0 of `DofPositions` is kept (the other two are zero). The
Gauss-Lobatto points come from Gedim and are an input.
-/

namespace PolyDiM

/-- `FEM_PCC_1D_Types`, FEM_PCC_1D_ReferenceElement.hpp:30-34; `other` is any other value cast to the enum. -/
inductive Fem1Type where
  | equispaced
  | gaussLobatto
  | other

/-- `FEM_PCC_1D_ReferenceElement_Data`, FEM_PCC_1D_ReferenceElement.hpp:36-51, without the tabulated quadrature values. -/
structure Fem1Data (K : Type) where
  order : Nat
  num0D : Nat
  num1D : Nat
  numBasis : Nat
  positions : List K
  coef : List K

variable {K : Type} [Field K]

/-- `Eigen::VectorXd::LinSpaced(n, 0.0, 1.0)` for `n ≥ 2` in exact arithmetic (FEM_PCC_1D_ReferenceElement.hpp:103,
FEM_Triangle_PCC_2D_ReferenceElement.hpp:155). -/
def linSpaced (K : Type) [Field K] (n : Nat) : List K := (List.range n).map fun (i : Nat) => (i : K) / ((n - 1 : Nat) : K)

/-- The state of the loop classifying the DOFs, FEM_PCC_1D_ReferenceElement.hpp:90-93, 115-131. -/
structure Fem1State where
  nodeDofs : List Nat
  cellDofs : List Nat
  idx1 : Nat
  idx2 : Nat
  vertexCount : Nat

/-- The body of the loop classifying the DOFs, FEM_PCC_1D_ReferenceElement.hpp:117-130, for `n` basis functions. -/
def fem1Step (n : Nat) (s : Fem1State) (i : Nat) : Fem1State :=
  if i = 0 then ⟨s.nodeDofs ++ [s.vertexCount], s.cellDofs, s.idx1 + 1, s.idx2, s.vertexCount + 1⟩
  else if i = n - 1 then ⟨s.nodeDofs ++ [s.vertexCount], s.cellDofs, s.idx1, s.idx2 + 1, s.vertexCount + 1⟩
  else ⟨s.nodeDofs, s.cellDofs ++ [s.vertexCount], s.idx1, s.idx2, s.vertexCount + 1⟩

/-- The loop, FEM_PCC_1D_ReferenceElement.hpp:115-131. -/
def fem1Loop (n : Nat) : Fem1State := (List.range n).foldl (fem1Step n) ⟨[], [], 0, 0, 0⟩

/-- Copying the columns `l` of `dofPositions`, FEM_PCC_1D_ReferenceElement.hpp:143-150. -/
def fem1Copy (pts : List K) (l : List Nat) : Except Fault (List K) := l.mapM (unchecked pts)

/-- The points chosen by `type`, FEM_PCC_1D_ReferenceElement.hpp:98-111: assigning a row of the wrong size is undefined
behaviour. -/
def fem1Points (order : Nat) (type : Fem1Type) (lobatto : List K) : Except Fault (List K) :=
  match type with
  | .equispaced => .ok (linSpaced K (order + 1))
  | .gaussLobatto => if lobatto.length = order + 1 then .ok lobatto else .error .undefinedBehaviour
  | .other => .error .runtimeError

/-- `FEM_PCC_1D_ReferenceElement::Create`, FEM_PCC_1D_ReferenceElement.hpp:56-162, without the quadrature. The two loops over
`nodeDofsIndex` (lines 133-134 and 143-147) copy `nodeDofs[0 .. idx1)` and then `nodeDofs[idx1 .. idx1 + idx2)`. -/
def fem1Create (order : Nat) (type : Fem1Type) (lobatto : List K) : Except Fault (Fem1Data K) :=
  if order = 0 then .ok ⟨0, 0, 1, 1, [1 / 2], [0]⟩
  else do
    let pts ← fem1Points order type lobatto
    let s := fem1Loop (order + 1)
    if s.vertexCount ≠ order + 1 ∨ s.nodeDofs.length ≠ s.idx1 + s.idx2 then .error .runtimeError
    else
      let nodes ← fem1Copy pts (s.nodeDofs.take (s.idx1 + s.idx2))
      let cells ← fem1Copy pts s.cellDofs
      .ok ⟨order, 1, order - 1, order + 1, nodes ++ cells, lagCoefficients (nodes ++ cells)⟩

/-- `EvaluateBasisFunctions(points, data)(p, i)`, FEM_PCC_1D_ReferenceElement.hpp:186-192, at the point with first coordinate `x`. -/
def fem1Value (d : Fem1Data K) (x : K) (i : Nat) : Except Fault K := lagValue d.positions d.coef x i

/-- `EvaluateBasisFunctionDerivatives(points, data)[0](p, i)`, FEM_PCC_1D_ReferenceElement.hpp:194-209. -/
def fem1Derivative (d : Fem1Data K) (x : K) (i : Nat) : Except Fault K := lagDerivative d.positions d.coef x i

/-- `SegmentMapData`, FEM_PCC_1D_LocalSpace.hpp:33-39; points are functions on `{0, 1, 2}`. -/
structure SegMap (K : Type) where
  origin : Nat → K
  tangent : Nat → K
  length : K
  squaredLength : K

/-- The map data set by `CreateLocalSpace`, FEM_PCC_1D_LocalSpace.cpp:28-31. -/
def fem1Map (origin tangent : Nat → K) (length : K) : SegMap K := ⟨origin, tangent, length, length * length⟩

/-- `F`, FEM_PCC_1D_LocalSpace.hpp:55-63. -/
def segF (m : SegMap K) (t : K) : Nat → K := fun c => m.origin c + m.tangent c * t

/-- `FInv`, FEM_PCC_1D_LocalSpace.hpp:65-73 (first coordinate; the others are left uninitialised and never read). -/
def segFInv (m : SegMap K) (x : Nat → K) : K :=
  ((x 0 - m.origin 0) * m.tangent 0 + (x 1 - m.origin 1) * m.tangent 1 + (x 2 - m.origin 2) * m.tangent 2) / m.squaredLength

/-- `DofsMeshOrder`, FEM_PCC_1D_LocalSpace.cpp:36-57: the first loop runs over two vertices with `num0D` DOFs each. -/
def fem1Order (d : Fem1Data K) : List Nat :=
  List.range' 0 d.num0D ++ List.range' d.num0D d.num0D ++ List.range' (2 * d.num0D) d.num1D

/-- Scattering columns: `out.col(order.at(d)) << in.col(d)`, FEM_PCC_1D_LocalSpace.cpp:66-74 and 88-92: column `c` of the result,
`none` when it is never written. The last write wins. -/
def scatterCol {α : Type} (order : List Nat) (vals : Nat → α) (c : Nat) : Option α :=
  ((List.range order.length).foldl (fun acc d => if order[d]? = some c then some (vals d) else acc) none)

/-- `ComputeBasisFunctionsValues(…, points)`, FEM_PCC_1D_LocalSpace.hpp:106-116: entry of column `c` at the point `x`. -/
def fem1PhysValue (d : Fem1Data K) (m : SegMap K) (x : Nat → K) (c : Nat) : Except Fault K :=
  match scatterCol (fem1Order d) (fun i => i) c with
  | some i => fem1Value d (segFInv m x) i
  | none => .error .undefinedBehaviour

/-- `ComputeBasisFunctionsDerivativeValues(…, points)`, FEM_PCC_1D_LocalSpace.hpp:118-128 with `MapDerivativeValues`,
FEM_PCC_1D_LocalSpace.cpp:76-94. -/
def fem1PhysDerivative (d : Fem1Data K) (m : SegMap K) (x : Nat → K) (c : Nat) : Except Fault K :=
  match scatterCol (fem1Order d) (fun i => i) c with
  | some i => do
    let v ← fem1Derivative d (segFInv m x) i
    .ok (v / m.length)
  | none => .error .undefinedBehaviour

/-- `Dofs.col(c)`, FEM_PCC_1D_LocalSpace.cpp:60. -/
def fem1Dof (d : Fem1Data K) (m : SegMap K) (c : Nat) : Except Fault (Nat → K) :=
  match scatterCol (fem1Order d) (fun i => i) c with
  | some i => do
    let t ← unchecked d.positions i
    .ok (segF m t)
  | none => .error .undefinedBehaviour

end PolyDiM
