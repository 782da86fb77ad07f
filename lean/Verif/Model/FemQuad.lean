import Verif.Model.FemTriangle

/-!
# Model of the quadrilateral Lagrange element

PolyDiM/src/FEM/PCC/2D/FEM_Quadrilateral_PCC_2D_ReferenceElement.hpp, FEM_Quadrilateral_PCC_2D_LocalSpace.hpp and .cpp over a field `K`
(the code uses `double`). Counts are unbounded natural numbers. Columns of `DofPositions` are pairs (the third coordinate is zero).
The maps `MapParallelogram` and `MapQuadrilateral` belong to Gedim, which is not part of the repository: `quadF` states what is assumed
of them. Quadrature tables are left out.
-/

namespace PolyDiM

/-- `Edges_by_vertices`: pairs of vertices to edge index and direction flag. -/
abbrev EdgeMap := List ((Nat × Nat) × (Nat × Bool))

/-- `std::map::at` (used in FEM_Quadrilateral_PCC_2D_LocalSpace.cpp:80). -/
def mapAt {α β : Type} [DecidableEq α] (m : List (α × β)) (a : α) : Except Fault β :=
  match m.find? (fun p => p.1 = a) with
  | some p => .ok p.2
  | none => .error .outOfRange

/-- `FEM_Quadrilateral_PCC_2D_ReferenceElement_Data`, FEM_Quadrilateral_PCC_2D_ReferenceElement.hpp:27-49. -/
structure QuadData (K : Type) where
  order : Nat
  num0D : Nat
  num1D : Nat
  num2D : Nat
  numBasis : Nat
  positions : List (K × K)
  types : List (Nat × Nat)
  edges : EdgeMap
  bnd : Fem1Data K

/-- Writing columns of a table of `N` zeros at given indices, in order (FEM_Quadrilateral_PCC_2D_ReferenceElement.hpp:94-157); an index
out of range is undefined behaviour. -/
def writeCols {α : Type} (N : Nat) (z : α) (ws : List (Nat × α)) : Except Fault (List α) :=
  if ∀ w ∈ ws, w.1 < N then .ok (ws.foldl (fun l w => l.set w.1 w.2) (List.replicate N z)) else .error .undefinedBehaviour

/-- One DOF written by `Create`: index of the column, its type, and the indices of the one-dimensional DOFs whose positions are
copied. -/
structure QuadOp where
  idx : Nat
  type : Nat × Nat
  pos : Nat × Nat

/-- `Edges_by_vertices`, FEM_Quadrilateral_PCC_2D_ReferenceElement.hpp:84-91. -/
def quadEdges : EdgeMap :=
  [((0, 1), (0, true)), ((1, 0), (0, false)), ((1, 2), (1, true)), ((2, 1), (1, false)),
   ((2, 3), (2, false)), ((3, 2), (2, true)), ((3, 0), (3, false)), ((0, 3), (3, true))]

/-- The vertices, FEM_Quadrilateral_PCC_2D_ReferenceElement.hpp:97-118. -/
def quadVertexOps : List QuadOp :=
  [0, 1].flatMap fun d1 =>
    if d1 = 0 then [0, 1].map fun d2 => ⟨2 * d1 + d2, (d2, d1), (d2, d1)⟩
    else [0, 1].map fun d2 =>
      let index := if d2 = 0 then 1 else 0
      ⟨2 * d1 + d2, (index, d1), (index, d1)⟩

/-- Edges 0 and 2, FEM_Quadrilateral_PCC_2D_ReferenceElement.hpp:123-132 (`n0, n1` are `NumDofs0D, NumDofs1D`, `nb` is the number of
one-dimensional basis functions). The segments of the positions have length `n1`, the loop over the types runs over
`2 ≤ d2 < nb`; both are `order - 1` and are written together. -/
def quadHorizontalOps (n0 n1 nb : Nat) : List QuadOp :=
  [0, 1].flatMap fun d1 => (List.range' 2 (nb - 2)).map fun d2 => ⟨4 * n0 + 2 * d1 * n1 + d2 - 2, (d2, d1), (d2, d1)⟩

/-- Edges 1 and 3, FEM_Quadrilateral_PCC_2D_ReferenceElement.hpp:134-144. -/
def quadVerticalOps (n0 n1 nb : Nat) : List QuadOp :=
  [0, 1].flatMap fun d1 =>
    let index := if d1 = 1 then 0 else 1
    (List.range' 2 (nb - 2)).map fun d2 => ⟨4 * n0 + (2 * d1 + 1) * n1 + d2 - 2, (index, d2), (index, d2)⟩

/-- The interior, FEM_Quadrilateral_PCC_2D_ReferenceElement.hpp:146-157: `dof` counts the iterations. -/
def quadInteriorOps (n1 nb : Nat) : List QuadOp :=
  (((List.range' 2 (nb - 2)).flatMap fun d1 => (List.range' 2 (nb - 2)).map fun d2 => (d2, d1)).zipIdx (4 + 4 * n1)).map
    fun p => ⟨p.2, p.1, p.1⟩

/-- All the writes of `Create`, FEM_Quadrilateral_PCC_2D_ReferenceElement.hpp:97-158. -/
def quadOps (order n0 n1 nb : Nat) : List QuadOp :=
  quadVertexOps ++ (if order > 1 then quadHorizontalOps n0 n1 nb ++ quadVerticalOps n0 n1 nb ++ quadInteriorOps n1 nb else [])

variable {K : Type} [Field K]

/-- Reading the two coordinates of a position. -/
def quadRead (pts : List K) (o : QuadOp) : Except Fault (Nat × (K × K)) := do
  let x ← unchecked pts o.pos.1
  let y ← unchecked pts o.pos.2
  .ok (o.idx, (x, y))

/-- `Create`, FEM_Quadrilateral_PCC_2D_ReferenceElement.hpp:63-176, without the quadrature. -/
def quadCreate (K : Type) [Field K] (order : Nat) : Except Fault (QuadData K) :=
  if order = 0 then .error .runtimeError
  else do
    let N := (order + 1) * (order + 1)
    let bnd ← fem1Create (K := K) order .equispaced []
    let ops := quadOps order 1 (order - 1) bnd.numBasis
    let ps ← ops.mapM (quadRead bnd.positions)
    let positions ← writeCols N (0, 0) ps
    let types ← writeCols N (0, 0) (ops.map fun o => (o.idx, o.type))
    .ok ⟨order, 1, order - 1, (order - 1) * (order - 1), N, positions, types, quadEdges, bnd⟩

/-- `EvaluateBasisFunctions(points, data)(p, i)`, FEM_Quadrilateral_PCC_2D_ReferenceElement.hpp:179-204, at the point `(x, y)`. -/
def quadValue (d : QuadData K) (x y : K) (i : Nat) : Except Fault K := do
  let t ← unchecked d.types i
  let vx ← fem1Value d.bnd x t.1
  let vy ← fem1Value d.bnd y t.2
  .ok (vx * vy)

/-- `EvaluateBasisFunctionDerivatives(points, data)[dir](p, i)`, FEM_Quadrilateral_PCC_2D_ReferenceElement.hpp:206-237; direction `0` is
`x`, any other is `y`. -/
def quadDerivative (d : QuadData K) (x y : K) (i dir : Nat) : Except Fault K := do
  let t ← unchecked d.types i
  let vx ← fem1Value d.bnd x t.1
  let dx ← fem1Derivative d.bnd x t.1
  let vy ← fem1Value d.bnd y t.2
  let dy ← fem1Derivative d.bnd y t.2
  .ok (if dir = 0 then dx * vy else vx * dy)

/-- `EvaluateBasisFunctionSecondDerivatives`, FEM_Quadrilateral_PCC_2D_ReferenceElement.hpp:239-243. -/
def quadSecond (_ : QuadData K) (_ _ : K) (_ _ : Nat) : Except Fault K := .error .runtimeError

/-! ## The local space -/

/-- `QuadrilateralType`, set in FEM_Quadrilateral_PCC_2D_LocalSpace.cpp:49-52. -/
inductive QuadKind where
  | parallelogram
  | generic
  deriving DecidableEq

/-- The choice of the kind, FEM_Quadrilateral_PCC_2D_LocalSpace.cpp:35-52; `isZero` is Gedim's `IsValueZero` with the given tolerance. -/
def quadKind (isZero : K → Bool) (V : Nat → K × K) : QuadKind :=
  if isZero ((V 0).1 - (V 1).1 + (V 2).1 - (V 3).1) && isZero ((V 0).2 - (V 1).2 + (V 2).2 - (V 3).2) then .parallelogram else .generic

/-- The maps from the unit square: `MapParallelogram::F` (affine, through vertices 0, 1, 3) and `MapQuadrilateral::F` (bilinear), called in
FEM_Quadrilateral_PCC_2D_LocalSpace.cpp:112-121. They are defined in Gedim; this is the assumption made about them. -/
def quadF (kind : QuadKind) (V : Nat → K × K) (p : K × K) : K × K :=
  match kind with
  | .parallelogram =>
    ((V 0).1 + ((V 1).1 - (V 0).1) * p.1 + ((V 3).1 - (V 0).1) * p.2, (V 0).2 + ((V 1).2 - (V 0).2) * p.1 + ((V 3).2 - (V 0).2) * p.2)
  | .generic =>
    ((1 - p.1) * (1 - p.2) * (V 0).1 + p.1 * (1 - p.2) * (V 1).1 + p.1 * p.2 * (V 2).1 + (1 - p.1) * p.2 * (V 3).1,
     (1 - p.1) * (1 - p.2) * (V 0).2 + p.1 * (1 - p.2) * (V 1).2 + p.1 * p.2 * (V 2).2 + (1 - p.1) * p.2 * (V 3).2)

/-- `Dof1DsIndex[e]`, FEM_Quadrilateral_PCC_2D_LocalSpace.cpp:72-75. -/
def quadEdgeIndex (d : QuadData K) (e : Nat) : Nat := 4 * d.num0D + e * d.num1D

/-- The loop over the DOFs of edge `e`, FEM_Quadrilateral_PCC_2D_LocalSpace.cpp:77-97. -/
def quadEdgeOrder (d : QuadData K) (dirs : List Bool) (e : Nat) : Except Fault (List Nat) := do
  let r ← mapAt d.edges (e, (e + 1) % 4)
  let dir ← atIdx dirs e
  .ok (if dir = r.2 then List.range' (quadEdgeIndex d e) d.num1D else (List.range' (quadEdgeIndex d e) d.num1D).reverse)

/-- `DofsMeshOrder`, FEM_Quadrilateral_PCC_2D_LocalSpace.cpp:57-107: the entries written, in order, in a vector of `numBasis` zeros. -/
def quadOrder (d : QuadData K) (dirs : List Bool) : Except Fault (List Nat) := do
  let o0 ← quadEdgeOrder d dirs 0
  let o1 ← quadEdgeOrder d dirs 1
  let o2 ← quadEdgeOrder d dirs 2
  let o3 ← quadEdgeOrder d dirs 3
  padCols d.numBasis 0 (List.range' 0 (4 * d.num0D) ++ (o0 ++ o1 ++ o2 ++ o3) ++ List.range' (quadEdgeIndex d 4) d.num2D)

/-- `FEM_Quadrilateral_PCC_2D_LocalSpace_Data`: what the functions below read. -/
structure QuadSpace (K : Type) where
  ref : QuadData K
  kind : QuadKind
  vertices : Nat → K × K
  order : List Nat

/-- `CreateLocalSpace`, FEM_Quadrilateral_PCC_2D_LocalSpace.cpp:25-131, for a polygon with `nv` vertices. -/
def quadSpace (d : QuadData K) (isZero : K → Bool) (nv : Nat) (V : Nat → K × K) (dirs : List Bool) : Except Fault (QuadSpace K) :=
  if nv ≠ 4 then .error .runtimeError
  else do
    let o ← quadOrder d dirs
    .ok ⟨d, quadKind isZero V, V, o⟩

/-- `Dofs.col(c)`, FEM_Quadrilateral_PCC_2D_LocalSpace.cpp:109-124 with `MapValues`, FEM_Quadrilateral_PCC_2D_LocalSpace.hpp:30-34. -/
def quadDof (s : QuadSpace K) (c : Nat) : Except Fault (K × K) := do
  let i ← unchecked s.order c
  let p ← unchecked s.ref.positions i
  .ok (quadF s.kind s.vertices p)

/-- `ComputeBasisFunctionsValues(…, points)(p, c)` at the point whose reference point (`FInv`, Gedim) is `q`,
FEM_Quadrilateral_PCC_2D_LocalSpace.hpp:78-106. -/
def quadPhysValue (s : QuadSpace K) (q : K × K) (c : Nat) : Except Fault K := do
  let i ← unchecked s.order c
  quadValue s.ref q.1 q.2 i

/-- `ComputeBasisFunctionsValuesOnEdge(…, points)(p, a)` at the curvilinear coordinate `t`, FEM_Quadrilateral_PCC_2D_LocalSpace.hpp:199-206. -/
def quadOnEdge (d : QuadData K) (t : K) (a : Nat) : Except Fault K := fem1Value d.bnd t a

/-- The inverse of the Jacobian at the point (`BMatrixInv` or a block of `JInv`, Gedim). -/
structure Jac2 (K : Type) where
  i00 : K
  i01 : K
  i10 : K
  i11 : K

/-- `ComputeBasisFunctionsDerivativeValues(…, points)[dir](p, c)` with `MapDerivativeValues`, FEM_Quadrilateral_PCC_2D_LocalSpace.cpp:133-189.
In the first case the columns are gathered (lines 147-149), in the second they are scattered (lines 174-183). The loops over `i, j` of
lines 160-172 are unrolled. -/
def quadPhysDerivative (s : QuadSpace K) (J : Jac2 K) (q : K × K) (c dir : Nat) : Except Fault K :=
  match s.kind with
  | .parallelogram => do
    let i ← unchecked s.order c
    let gx ← quadDerivative s.ref q.1 q.2 i 0
    let gy ← quadDerivative s.ref q.1 q.2 i 1
    .ok (if dir = 0 then J.i00 * gx + J.i10 * gy else J.i01 * gx + J.i11 * gy)
  | .generic =>
    match scatterCol s.order (fun i => i) c with
    | some i => do
      let gx ← quadDerivative s.ref q.1 q.2 i 0
      let gy ← quadDerivative s.ref q.1 q.2 i 1
      .ok (if dir = 0 then J.i00 * gx + J.i10 * gy else J.i11 * gy + J.i01 * gx)
    | none => .error .undefinedBehaviour

end PolyDiM
