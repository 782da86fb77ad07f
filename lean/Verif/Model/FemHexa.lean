import Verif.Model.FemTetSpace

/-!
# Model of the hexahedral Lagrange element

PolyDiM/src/FEM/PCC/3D/FEM_Hexahedron_PCC_3D_ReferenceElement.hpp, FEM_Hexahedron_PCC_3D_LocalSpace.hpp and .cpp over a field `K` (the
code uses `double`). Counts are unbounded natural numbers. The values of the quadrature tables are left out. `MapParallelepiped`,
`MapHexahedron` and `PolyhedronCoordinateSystem` belong to Gedim, which is not part of the repository: the comments state what is
assumed of them.
-/

namespace PolyDiM

/-- An element of `DofTypes`, FEM_Hexahedron_PCC_3D_ReferenceElement.hpp:40. -/
abbrev HexType := Nat × Nat × Nat

/-- `Faces_by_edges`: pairs of edges to face index, FEM_Hexahedron_PCC_3D_ReferenceElement.hpp:36. -/
abbrev FaceMap := List ((Nat × Nat) × Nat)

/-- `FEM_Hexahedron_PCC_3D_ReferenceElement_Data`, FEM_Hexahedron_PCC_3D_ReferenceElement.hpp:26-49, without quadrature and tables. -/
structure HexData (K : Type) where
  order : Nat
  num0D : Nat
  num1D : Nat
  num2D : Nat
  num3D : Nat
  numBasis : Nat
  edges : EdgeMap
  faces : FaceMap
  positions : List (Vec3 K)
  types : List HexType
  edge : Fem1Data K
  boundary : QuadData K

/-- `Edges_by_vertices`, FEM_Hexahedron_PCC_3D_ReferenceElement.hpp:81-87. -/
def hexEdges : EdgeMap :=
  [((0, 1), (0, true)), ((1, 0), (0, false)), ((1, 2), (1, true)), ((2, 1), (1, false)),
   ((2, 3), (2, false)), ((3, 2), (2, true)), ((3, 0), (3, false)), ((0, 3), (3, true)),
   ((4, 5), (4, true)), ((5, 4), (4, false)), ((5, 6), (5, true)), ((6, 5), (5, false)),
   ((6, 7), (6, false)), ((7, 6), (6, true)), ((7, 4), (7, false)), ((4, 7), (7, true)),
   ((0, 4), (8, true)), ((4, 0), (8, false)), ((1, 5), (9, true)), ((5, 1), (9, false)),
   ((3, 7), (10, true)), ((7, 3), (10, false)), ((2, 6), (11, true)), ((6, 2), (11, false))]

/-- `Faces_by_edges`, FEM_Hexahedron_PCC_3D_ReferenceElement.hpp:89-92. -/
def hexFaces : FaceMap :=
  [((0, 2), 0), ((2, 0), 0), ((1, 3), 0), ((3, 1), 0), ((4, 6), 1), ((6, 4), 1),
   ((5, 7), 1), ((7, 5), 1), ((0, 4), 2), ((4, 0), 2), ((8, 9), 2), ((9, 8), 2),
   ((2, 6), 3), ((6, 2), 3), ((10, 11), 3), ((11, 10), 3), ((7, 3), 4), ((3, 7), 4),
   ((8, 10), 4), ((10, 8), 4), ((1, 5), 5), ((9, 11), 5), ((11, 9), 5), ((5, 1), 5)]

/-- One DOF written by `Create` (FEM_Hexahedron_PCC_3D_ReferenceElement.hpp:102-247): index of the column, its type, and the indices of the
one-dimensional DOFs whose positions are copied. -/
structure HexOp where
  idx : Nat
  type : HexType
  pos : HexType

/-- The vertices, FEM_Hexahedron_PCC_3D_ReferenceElement.hpp:102-126. -/
def hexVertexOps : List HexOp :=
  [0, 1].flatMap fun d3 => [0, 1].flatMap fun d1 =>
    if d1 = 0 then [0, 1].map fun d2 => ⟨4 * d3 + 2 * d1 + d2, (d2, d1, d3), (d2, d1, d3)⟩
    else [0, 1].map fun d2 =>
      let index := if d2 = 0 then 1 else 0
      ⟨4 * d3 + 2 * d1 + d2, (index, d1, d3), (index, d1, d3)⟩

/-- The edges parallel to the first axis, FEM_Hexahedron_PCC_3D_ReferenceElement.hpp:130-147 (`n0, n1` are `NumDofs0D, NumDofs1D`, `nb` is the
number of one-dimensional basis functions). The segments of the positions have length `n1`, the loop over the types runs over
`2 ≤ d2 < nb`; both are `order - 1` and are written together. -/
def hexEdgeOpsX (n0 n1 nb : Nat) : List HexOp :=
  [0, 1].flatMap fun d3 => [0, 1].flatMap fun d1 => (List.range' 2 (nb - 2)).map fun d2 =>
    ⟨8 * n0 + (2 * d1 + 4 * d3) * n1 + d2 - 2, (d2, d1, d3), (d2, d1, d3)⟩

/-- The edges parallel to the second axis, FEM_Hexahedron_PCC_3D_ReferenceElement.hpp:149-167. -/
def hexEdgeOpsY (n0 n1 nb : Nat) : List HexOp :=
  [0, 1].flatMap fun d3 => [0, 1].flatMap fun d1 =>
    let index := if d1 = 1 then 0 else 1
    (List.range' 2 (nb - 2)).map fun d2 => ⟨8 * n0 + (2 * d1 + 1 + 4 * d3) * n1 + d2 - 2, (index, d2, d3), (index, d2, d3)⟩

/-- The edges parallel to the third axis, FEM_Hexahedron_PCC_3D_ReferenceElement.hpp:169-187. -/
def hexEdgeOpsZ (n0 n1 nb : Nat) : List HexOp :=
  [0, 1].flatMap fun d3 => [0, 1].flatMap fun d1 => (List.range' 2 (nb - 2)).map fun d2 =>
    ⟨8 * n0 + (8 + d1 + 2 * d3) * n1 + d2 - 2, (d1, d3, d2), (d1, d3, d2)⟩

/-- Two nested loops over the interior one-dimensional DOFs, FEM_Hexahedron_PCC_3D_ReferenceElement.hpp:194-203, 208-217, 222-231, 237-246. -/
def hexLoop2 (nb : Nat) (f : Nat → Nat → HexType) : List HexType :=
  (List.range' 2 (nb - 2)).flatMap fun d1 => (List.range' 2 (nb - 2)).map fun d2 => f d1 d2

/-- The DOFs written with the counter `dof`: faces and interior, FEM_Hexahedron_PCC_3D_ReferenceElement.hpp:191-247. -/
def hexCounted (nb : Nat) : List HexType :=
  ([0, 1].flatMap fun d3 => hexLoop2 nb fun d1 d2 => (d1, d2, d3)) ++ ([0, 1].flatMap fun d3 => hexLoop2 nb fun d1 d2 => (d1, d3, d2)) ++
    ([0, 1].flatMap fun d3 => hexLoop2 nb fun d1 d2 => (d3, d1, d2)) ++
    ((List.range' 2 (nb - 2)).flatMap fun d3 => hexLoop2 nb fun d1 d2 => (d3, d1, d2))

/-- The writes with the counter `dof`, FEM_Hexahedron_PCC_3D_ReferenceElement.hpp:189-247. -/
def hexCountedOps (n0 n1 nb : Nat) : List HexOp := ((hexCounted nb).zipIdx (8 * n0 + 12 * n1)).map fun p => ⟨p.2, p.1, p.1⟩

/-- All the writes of `Create`, FEM_Hexahedron_PCC_3D_ReferenceElement.hpp:102-248. -/
def hexOps (order n0 n1 nb : Nat) : List HexOp :=
  hexVertexOps ++ (if order > 1 then hexEdgeOpsX n0 n1 nb ++ hexEdgeOpsY n0 n1 nb ++ hexEdgeOpsZ n0 n1 nb ++ hexCountedOps n0 n1 nb else [])

variable {K : Type} [Field K]

/-- Reading the three coordinates of a position, e.g. FEM_Hexahedron_PCC_3D_ReferenceElement.hpp:110-111. -/
def hexRead (pts : List K) (o : HexOp) : Except Fault (Nat × Vec3 K) := do
  let x ← unchecked pts o.pos.1
  let y ← unchecked pts o.pos.2.1
  let z ← unchecked pts o.pos.2.2
  .ok (o.idx, (x, y, z))

/-- `Create`, FEM_Hexahedron_PCC_3D_ReferenceElement.hpp:65-261, without the quadrature. -/
def hexCreate (K : Type) [Field K] (order : Nat) : Except Fault (HexData K) :=
  if order = 0 then .error .runtimeError
  else do
    let N := (order + 1) * (order + 1) * (order + 1)
    let edge ← fem1Create (K := K) order .equispaced []
    let ops := hexOps order 1 (order - 1) edge.numBasis
    let ps ← ops.mapM (hexRead edge.positions)
    let positions ← writeCols N (0, 0, 0) ps
    let types ← writeCols N (0, 0, 0) (ops.map fun o => (o.idx, o.type))
    let boundary ← quadCreate K order
    .ok ⟨order, 1, order - 1, (order - 1) * (order - 1), (order - 1) * (order - 1) * (order - 1), N, hexEdges, hexFaces, positions, types,
      edge, boundary⟩

/-- `EvaluateBasisFunctions(points, data)(p, i)`, FEM_Hexahedron_PCC_3D_ReferenceElement.hpp:263-293, at the point `x`. -/
def hexValue (d : HexData K) (x : Vec3 K) (i : Nat) : Except Fault K := do
  let t ← unchecked d.types i
  let vx ← fem1Value d.edge x.1 t.1
  let vy ← fem1Value d.edge x.2.1 t.2.1
  let vz ← fem1Value d.edge x.2.2 t.2.2
  .ok (vx * vy * vz)

/-- `EvaluateBasisFunctionDerivatives(points, data)[dir](p, i)`, FEM_Hexahedron_PCC_3D_ReferenceElement.hpp:295-335; direction `0` is the
first axis, `1` the second, any other the third. -/
def hexDerivative (d : HexData K) (x : Vec3 K) (i dir : Nat) : Except Fault K := do
  let t ← unchecked d.types i
  let vx ← fem1Value d.edge x.1 t.1
  let vy ← fem1Value d.edge x.2.1 t.2.1
  let vz ← fem1Value d.edge x.2.2 t.2.2
  let dx ← fem1Derivative d.edge x.1 t.1
  let dy ← fem1Derivative d.edge x.2.1 t.2.1
  let dz ← fem1Derivative d.edge x.2.2 t.2.2
  .ok (if dir = 0 then dx * vy * vz else if dir = 1 then vx * dy * vz else vx * vy * dz)

/-- `EvaluateBasisFunctionSecondDerivatives`, FEM_Hexahedron_PCC_3D_ReferenceElement.hpp:337-341. -/
def hexSecond (_ : HexData K) (_ : Vec3 K) (_ _ : Nat) : Except Fault K := .error .runtimeError

/-! ## The local space -/

/-- `HexahedronType`, FEM_PCC_3D_LocalSpace_Data.hpp:34-38. -/
inductive HexKind where
  | parallelepiped
  | generic
  deriving DecidableEq

/-- What `CreateLocalSpace` reads of one face: the row of edges of `Faces[f]` and `Faces_2D_Geometry[f]` (number of vertices, vertices,
directions of the edges), FEM_Hexahedron_PCC_3D_LocalSpace.cpp:68-71, 174-184. -/
structure HexFace (K : Type) where
  edges : List Nat
  nv : Nat
  plane : Nat → K × K
  dirs : List Bool

/-- The parts of `FEM_PCC_3D_Polyhedron_Geometry` used by `CreateLocalSpace`, FEM_Hexahedron_PCC_3D_LocalSpace.cpp:23-194, and the rows of
`QInv`, which Gedim computes (`MapParallelepiped::Compute`, line 45). -/
structure HexGeom (K : Type) where
  vertices : Nat → Vec3 K
  inv0 : Vec3 K
  inv1 : Vec3 K
  inv2 : Vec3 K
  edges : List (Nat × Nat)
  dirs : List Bool
  faces : List (HexFace K)

/-- `Coefficients.rightCols(4)`, FEM_Hexahedron_PCC_3D_LocalSpace.cpp:37. Assumption on Gedim: the coefficients of `xy`, `xz`, `yz`, `xyz` in
the trilinear map which sends the vertices of the unit cube to the vertices of the hexahedron. -/
def hexMixed (V : Nat → Vec3 K) : List (Vec3 K) :=
  [V 0 - V 1 + V 2 - V 3, V 0 - V 1 + V 5 - V 4, V 0 - V 3 + V 7 - V 4, V 1 - V 0 - V 2 + V 3 + V 4 - V 5 + V 6 - V 7]

/-- The choice of the kind, FEM_Hexahedron_PCC_3D_LocalSpace.cpp:35-51; `normZero` is Gedim's `IsValueZero` of the norm of the matrix with
the given columns. -/
def hexKind (normZero : List (Vec3 K) → Bool) (V : Nat → Vec3 K) : HexKind := if normZero (hexMixed V) then .parallelepiped else .generic

/-- `MapDataParallelepiped`, FEM_Hexahedron_PCC_3D_LocalSpace.cpp:42-45. Assumption on Gedim: the coordinate system consists of vertex 0 and
its neighbours 1, 3, 4, and the map is affine, as for the tetrahedron. -/
def hexMap (g : HexGeom K) : TetMap K := ⟨g.vertices 0, g.vertices 1, g.vertices 3, g.vertices 4, g.inv0, g.inv1, g.inv2⟩

/-- `polyhedron_to_reference_edge_index` and `_direction`, FEM_Hexahedron_PCC_3D_LocalSpace.cpp:55-64. -/
def hexEdgeRefs (d : HexData K) (edges : List (Nat × Nat)) : Except Fault (List (Nat × Bool)) :=
  (List.range 12).mapM fun e => do
    let p ← unchecked edges e
    mapAt d.edges p

/-- `polyhedron_to_reference_face_index[f]`, FEM_Hexahedron_PCC_3D_LocalSpace.cpp:68-74. -/
def hexFaceRef (d : HexData K) (refs : List (Nat × Bool)) (fe : List Nat) : Except Fault Nat := do
  let e0 ← unchecked fe 0
  let r0 ← unchecked refs e0
  let e2 ← unchecked fe 2
  let r2 ← unchecked refs e2
  mapAt d.faces (r0.1, r2.1)

/-- `polyhedron_to_reference_face_index`, FEM_Hexahedron_PCC_3D_LocalSpace.cpp:66-75. -/
def hexFaceRefs (d : HexData K) (refs : List (Nat × Bool)) (faces : List (HexFace K)) : Except Fault (List Nat) :=
  (List.range 6).mapM fun f => do
    let face ← unchecked faces f
    hexFaceRef d refs face.edges

/-- Writes of `DofsMeshOrder` by the loop over the vertices, FEM_Hexahedron_PCC_3D_LocalSpace.cpp:79-90: (index, value). -/
def hexVertexWrites (d : HexData K) : List (Nat × Nat) :=
  (List.range 8).flatMap fun v => (List.range d.num0D).map fun j => (d.num0D * v + j, v * d.num0D + j)

/-- Writes of one edge, FEM_Hexahedron_PCC_3D_LocalSpace.cpp:95-117: the values run up or down, the indices run up. -/
def hexEdgeWrites (d : HexData K) (dirs : List Bool) (refs : List (Nat × Bool)) (e : Nat) : Except Fault (List (Nat × Nat)) := do
  let r ← unchecked refs e
  let dir ← atIdx dirs e
  let values := List.range' (8 * d.num0D + e * d.num1D) d.num1D
  .ok ((List.range' (d.num0D * 8 + d.num1D * r.1) d.num1D).zip (if dir = r.2 then values else values.reverse))

/-- Writes of one face, FEM_Hexahedron_PCC_3D_LocalSpace.cpp:122-144 (the lines that treat the direction of the face are commented out). -/
def hexFaceWrites (d : HexData K) (frefs : List Nat) (f : Nat) : Except Fault (List (Nat × Nat)) := do
  let r ← unchecked frefs f
  .ok ((List.range' (d.num0D * 8 + d.num1D * 12 + d.num2D * r) d.num2D).zip
    (List.range' (8 * d.num0D + 12 * d.num1D + f * d.num2D) d.num2D))

/-- Writes of the interior, FEM_Hexahedron_PCC_3D_LocalSpace.cpp:146-155. -/
def hexInnerWrites (d : HexData K) : List (Nat × Nat) :=
  (List.range' (d.num0D * 8 + d.num1D * 12 + d.num2D * 6) d.num3D).zip (List.range' (8 * d.num0D + 12 * d.num1D + 6 * d.num2D) d.num3D)

/-- `Boundary_LocalSpace_Data`, FEM_Hexahedron_PCC_3D_LocalSpace.cpp:172-186; `isZero` is Gedim's `IsValueZero` used by the quadrilateral. -/
def hexFaceSpaces (d : HexData K) (isZero : K → Bool) (faces : List (HexFace K)) : Except Fault (List (QuadSpace K)) :=
  (List.range 6).mapM fun f => do
    let face ← unchecked faces f
    quadSpace d.boundary isZero face.nv face.plane face.dirs

/-- `FEM_Hexahedron_PCC_3D_LocalSpace_Data`, FEM_PCC_3D_LocalSpace_Data.hpp:56-75: what the functions below read. -/
structure HexSpace (K : Type) where
  ref : HexData K
  kind : HexKind
  map : TetMap K
  faces : List (QuadSpace K)
  order : List Nat

/-- The call of `InternalQuadrature`, which throws unless the hexahedron is a parallelepiped, FEM_Hexahedron_PCC_3D_LocalSpace.cpp:190 and
247-268. -/
def hexQuadratureCheck (kind : HexKind) : Except Fault Unit :=
  match kind with
  | .parallelepiped => .ok ()
  | .generic => .error .runtimeError

/-- `CreateLocalSpace`, FEM_Hexahedron_PCC_3D_LocalSpace.cpp:23-194. -/
def hexSpace (d : HexData K) (normZero : List (Vec3 K) → Bool) (isZero : K → Bool) (g : HexGeom K) : Except Fault (HexSpace K) := do
  let kind := hexKind normZero g.vertices
  let refs ← hexEdgeRefs d g.edges
  let frefs ← hexFaceRefs d refs g.faces
  let ew ← (List.range 12).mapM (hexEdgeWrites d g.dirs refs)
  let fw ← (List.range 6).mapM (hexFaceWrites d frefs)
  let order ← writeCols d.numBasis 0 (hexVertexWrites d ++ ew.flatten ++ fw.flatten ++ hexInnerWrites d)
  let spaces ← hexFaceSpaces d isZero g.faces
  hexQuadratureCheck kind
  .ok ⟨d, kind, hexMap g, spaces, order⟩

/-- The reference DOF whose column is copied to column `c` by `MapValues`, FEM_Hexahedron_PCC_3D_LocalSpace.cpp:196-205; a column that is
never written is not initialised. -/
def hexSource (s : HexSpace K) (c : Nat) : Except Fault Nat :=
  match scatterCol s.order (fun i => i) c with
  | some i => .ok i
  | none => .error .undefinedBehaviour

/-- `Dofs.col(c)`, FEM_Hexahedron_PCC_3D_LocalSpace.cpp:157-163 (the other case never returns a local space). -/
def hexDof (s : HexSpace K) (c : Nat) : Except Fault (Vec3 K) := do
  let i ← hexSource s c
  let p ← unchecked s.ref.positions i
  .ok (tetF s.map p)

/-- `ComputeBasisFunctionsValues(…, points)(p, c)`, FEM_Hexahedron_PCC_3D_LocalSpace.hpp:61-79. -/
def hexPhysValue (s : HexSpace K) (x : Vec3 K) (c : Nat) : Except Fault K :=
  match s.kind with
  | .parallelepiped => do
    let i ← hexSource s c
    hexValue s.ref (tetFInv s.map x) i
  | .generic => .error .runtimeError

/-- `ComputeBasisFunctionsDerivativeValues(…, points)[dir](p, c)`, FEM_Hexahedron_PCC_3D_LocalSpace.hpp:81-101 with `MapDerivativeValues`,
FEM_Hexahedron_PCC_3D_LocalSpace.cpp:207-245; the loops of lines 217-225 are unrolled. -/
def hexPhysDerivative (s : HexSpace K) (x : Vec3 K) (c dir : Nat) : Except Fault K :=
  match s.kind with
  | .parallelepiped => do
    let i ← hexSource s c
    let g0 ← hexDerivative s.ref (tetFInv s.map x) i 0
    let g1 ← hexDerivative s.ref (tetFInv s.map x) i 1
    let g2 ← hexDerivative s.ref (tetFInv s.map x) i 2
    .ok (if dir = 0 then s.map.inv0.1 * g0 + s.map.inv1.1 * g1 + s.map.inv2.1 * g2
      else if dir = 1 then s.map.inv1.2.1 * g1 + s.map.inv0.2.1 * g0 + s.map.inv2.2.1 * g2
      else s.map.inv2.2.2 * g2 + s.map.inv0.2.2 * g0 + s.map.inv1.2.2 * g1)
  | .generic => .error .runtimeError

/-- `ComputeBasisFunctionsValuesOnFace(…, points)(p, c)`, FEM_Hexahedron_PCC_3D_LocalSpace.hpp:113-123, at a point of the plane of the face whose
reference point (`FInv`, Gedim) is `q`. -/
def hexOnFace (s : HexSpace K) (f : Nat) (q : K × K) (c : Nat) : Except Fault K := do
  let space ← unchecked s.faces f
  quadPhysValue space q c

end PolyDiM
