import Verif.Model.FemTet
import Mathlib.Algebra.Module.Prod

/-!
# Model of the local space of the tetrahedral Lagrange element

PolyDiM/src/FEM/PCC/3D/FEM_Tetrahedron_PCC_3D_LocalSpace.hpp and .cpp over a field `K`. `MapTetrahedron`, `RotatePointsFrom2DTo3D` and
`FindPointInPoints` belong to Gedim, which is not part of the repository: the comments state what is assumed of them. Quadratures are
left out.
-/

namespace PolyDiM

variable {K : Type} [Field K]

/-- `Gedim::MapTetrahedron::MapTetrahedronData` computed from the vertices (FEM_Tetrahedron_PCC_3D_LocalSpace.cpp:36-37): the four vertices
and the rows of `QInv`. Assumption: `Q` has columns `v1 - v0`, `v2 - v0`, `v3 - v0`. -/
structure TetMap (K : Type) where
  v0 : Vec3 K
  v1 : Vec3 K
  v2 : Vec3 K
  v3 : Vec3 K
  inv0 : Vec3 K
  inv1 : Vec3 K
  inv2 : Vec3 K

/-- `Gedim::MapTetrahedron::F` (called in FEM_Tetrahedron_PCC_3D_LocalSpace.cpp:156, 188). -/
def tetF (m : TetMap K) (p : Vec3 K) : Vec3 K := m.v0 + p.1 • (m.v1 - m.v0) + p.2.1 • (m.v2 - m.v0) + p.2.2 • (m.v3 - m.v0)

/-- Product of a row of `QInv` with a vector. -/
def dot3 (a b : Vec3 K) : K := a.1 * b.1 + a.2.1 * b.2.1 + a.2.2 * b.2.2

/-- `Gedim::MapTetrahedron::FInv` (called in FEM_Tetrahedron_PCC_3D_LocalSpace.hpp:64, 76). -/
def tetFInv (m : TetMap K) (x : Vec3 K) : Vec3 K := (dot3 m.inv0 (x - m.v0), dot3 m.inv1 (x - m.v0), dot3 m.inv2 (x - m.v0))

/-- What `CreateLocalSpace` reads of one face: `Faces[f]` (row of vertices, row of edges), `Faces_2D_Geometry[f]` (number of vertices,
directions of the edges, affine map of the plane triangle) and the first two columns of `FacesRotationMatrix[f]` with
`FacesTranslation[f]` (FEM_Tetrahedron_PCC_3D_LocalSpace.cpp:57-64, 72-76, 150-151). -/
structure TetFace (K : Type) where
  vertices : List Nat
  edges : List Nat
  nv : Nat
  dirs : List Bool
  map : TriMap K
  r0 : Vec3 K
  r1 : Vec3 K
  shift : Vec3 K

/-- `RotatePointsFrom2DTo3D` for a point whose third coordinate is zero (FEM_Tetrahedron_PCC_3D_LocalSpace.cpp:152-153). Assumption: rotation
matrix times point plus translation. -/
def faceLift (f : TetFace K) (p : K × K) : Vec3 K := f.shift + p.1 • f.r0 + p.2 • f.r1

/-- The parts of `FEM_PCC_3D_Polyhedron_Geometry` used by `CreateLocalSpace`, FEM_Tetrahedron_PCC_3D_LocalSpace.cpp:24-194. -/
structure TetGeom (K : Type) where
  map : TetMap K
  edges : List (Nat × Nat)
  dirs : List Bool
  faces : List (TetFace K)

/-- `polyhedron_to_reference_edge_index` and `_direction`, FEM_Tetrahedron_PCC_3D_LocalSpace.cpp:42-51. -/
def tetEdgeRefs (edges : List (Nat × Nat)) : Except Fault (List (Nat × Bool)) :=
  (List.range 6).mapM fun e => do
    let p ← unchecked edges e
    mapAt tetEdges p

/-- `Boundary_LocalSpace_Data`, FEM_Tetrahedron_PCC_3D_LocalSpace.cpp:55-68. -/
def tetFaceSpaces (d : TetData K) (faces : List (TetFace K)) : Except Fault (List (TriSpace K)) :=
  (List.range 4).mapM fun f => do
    let face ← unchecked faces f
    triSpace d.boundary face.nv face.dirs face.map

/-- `polyhedron_to_reference_face_index[f]`, FEM_Tetrahedron_PCC_3D_LocalSpace.cpp:72-84; the failure of `Output::Assert` is an exception. -/
def tetFaceRef (refs : List (Nat × Bool)) (fv fe : List Nat) : Except Fault Nat := do
  let e0 ← unchecked fe 0
  let e1 ← unchecked fe 1
  let r0 ← unchecked refs e0
  let r1 ← unchecked refs e1
  let v ← unchecked fv 2
  let a ← mapAt tetFacesByEdgeVertex (r0.1, v)
  let b ← mapAt tetFacesByEdges (r0.1, r1.1)
  if b.1.1 = a then .ok a else .error .runtimeError

/-- `polyhedron_to_reference_face_index`, FEM_Tetrahedron_PCC_3D_LocalSpace.cpp:70-87. -/
def tetFaceRefs (refs : List (Nat × Bool)) (faces : List (TetFace K)) : Except Fault (List Nat) :=
  (List.range 4).mapM fun f => do
    let face ← unchecked faces f
    tetFaceRef refs face.vertices face.edges

/-- Writes of `DofsMeshOrder` by the loop over the vertices, FEM_Tetrahedron_PCC_3D_LocalSpace.cpp:91-102: (index, value). -/
def tetVertexWrites (d : TetData K) : List (Nat × Nat) :=
  (List.range 4).flatMap fun v => (List.range d.num0D).map fun j => (d.num0D * v + j, v * d.num0D + j)

/-- Writes of one edge, FEM_Tetrahedron_PCC_3D_LocalSpace.cpp:107-128: the values run up or down, the indices run up. -/
def tetEdgeWrites (d : TetData K) (dirs : List Bool) (refs : List (Nat × Bool)) (e : Nat) : Except Fault (List (Nat × Nat)) := do
  let r ← unchecked refs e
  let dir ← atIdx dirs e
  let values := List.range' (4 * d.num0D + e * d.num1D) d.num1D
  .ok ((List.range' (d.num0D * 4 + d.num1D * r.1) d.num1D).zip (if dir = r.2 then values else values.reverse))

/-- `FindPointInPoints` (FEM_Tetrahedron_PCC_3D_LocalSpace.cpp:161-163). Assumption: the indices of the points equal to the given one; the code
compares up to a tolerance. -/
def findPoint [DecidableEq K] (pts : List (Vec3 K)) (p : Vec3 K) : List Nat := (pts.zipIdx.filter fun q => q.1 = p).map Prod.snd

/-- `FindPointInPoints` with the assertion that exactly one point is found, FEM_Tetrahedron_PCC_3D_LocalSpace.cpp:161-166. -/
def findOne [DecidableEq K] (pts : List (Vec3 K)) (p : Vec3 K) : Except Fault Nat :=
  match findPoint pts p with
  | [i] => .ok i
  | _ => .error .runtimeError

/-- Writes of one face, FEM_Tetrahedron_PCC_3D_LocalSpace.cpp:134-174. -/
def tetFaceWrites [DecidableEq K] (d : TetData K) (m : TetMap K) (faces : List (TetFace K)) (spaces : List (TriSpace K)) (frefs : List Nat)
    (f : Nat) : Except Fault (List (Nat × Nat)) := do
  let ref ← unchecked frefs f
  let base := d.num0D * 4 + d.num1D * 6 + d.num2D * ref
  if d.num2D > 0 then do
    let space ← unchecked spaces f
    let face ← unchecked faces f
    let plane ← (List.range' (3 * d.num0D + 3 * d.num1D) d.num2D).mapM (triDof space)
    let refs ← (List.range' base d.num2D).mapM (unchecked d.positions)
    let found ← plane.mapM fun p => findOne (refs.map (tetF m)) (faceLift face p)
    .ok ((found.map fun i => base + i).zip (List.range' (4 * d.num0D + 6 * d.num1D + f * d.num2D) d.num2D))
  else .ok []

/-- Writes of the interior, FEM_Tetrahedron_PCC_3D_LocalSpace.cpp:177-186. -/
def tetInnerWrites (d : TetData K) : List (Nat × Nat) :=
  (List.range' (d.num0D * 4 + d.num1D * 6 + d.num2D * 4) d.num3D).zip (List.range' (4 * d.num0D + 6 * d.num1D + 4 * d.num2D) d.num3D)

/-- `FEM_Tetrahedron_PCC_3D_LocalSpace_Data`: what the functions below read. -/
structure TetSpace (K : Type) where
  ref : TetData K
  map : TetMap K
  faces : List (TriSpace K)
  order : List Nat

/-- `CreateLocalSpace`, FEM_Tetrahedron_PCC_3D_LocalSpace.cpp:24-194. -/
def tetSpace [DecidableEq K] (d : TetData K) (g : TetGeom K) : Except Fault (TetSpace K) := do
  let refs ← tetEdgeRefs g.edges
  let spaces ← tetFaceSpaces d g.faces
  let frefs ← tetFaceRefs refs g.faces
  let ew ← (List.range 6).mapM (tetEdgeWrites d g.dirs refs)
  let fw ← (List.range 4).mapM (tetFaceWrites d g.map g.faces spaces frefs)
  let order ← writeCols d.numBasis 0 (tetVertexWrites d ++ ew.flatten ++ fw.flatten ++ tetInnerWrites d)
  .ok ⟨d, g.map, spaces, order⟩

/-- The reference DOF whose column is copied to column `c` by `MapValues`, FEM_Tetrahedron_PCC_3D_LocalSpace.cpp:196-205; a column that is
never written is not initialised. -/
def tetSource (s : TetSpace K) (c : Nat) : Except Fault Nat :=
  match scatterCol s.order (fun i => i) c with
  | some i => .ok i
  | none => .error .undefinedBehaviour

/-- `Dofs.col(c)`, FEM_Tetrahedron_PCC_3D_LocalSpace.cpp:188. -/
def tetDof (s : TetSpace K) (c : Nat) : Except Fault (Vec3 K) := do
  let i ← tetSource s c
  let p ← unchecked s.ref.positions i
  .ok (tetF s.map p)

/-- `ComputeBasisFunctionsValues(…, points)(p, c)`, FEM_Tetrahedron_PCC_3D_LocalSpace.hpp:60-69. -/
def tetPhysValue (s : TetSpace K) (x : Vec3 K) (c : Nat) : Except Fault K := do
  let i ← tetSource s c
  tetValue s.ref (tetFInv s.map x) i

/-- `ComputeBasisFunctionsDerivativeValues(…, points)[dir](p, c)`, FEM_Tetrahedron_PCC_3D_LocalSpace.hpp:71-82 with `MapDerivativeValues`,
FEM_Tetrahedron_PCC_3D_LocalSpace.cpp:207-237; the loops of lines 214-222 are unrolled. -/
def tetPhysDerivative [DecidableEq K] (s : TetSpace K) (x : Vec3 K) (c dir : Nat) : Except Fault K := do
  let i ← tetSource s c
  let g0 ← tetDerivative s.ref (tetFInv s.map x) i 0
  let g1 ← tetDerivative s.ref (tetFInv s.map x) i 1
  let g2 ← tetDerivative s.ref (tetFInv s.map x) i 2
  .ok (if dir = 0 then s.map.inv0.1 * g0 + s.map.inv1.1 * g1 + s.map.inv2.1 * g2
    else if dir = 1 then s.map.inv1.2.1 * g1 + s.map.inv0.2.1 * g0 + s.map.inv2.2.1 * g2
    else s.map.inv2.2.2 * g2 + s.map.inv0.2.2 * g0 + s.map.inv1.2.2 * g1)

/-- `ComputeBasisFunctionsValuesOnFace(…, points)(p, c)`, FEM_Tetrahedron_PCC_3D_LocalSpace.hpp:122-132, at a point of the plane of the face. -/
def tetOnFace (s : TetSpace K) (f : Nat) (p : K × K) (c : Nat) : Except Fault K := do
  let space ← unchecked s.faces f
  triPhysValue space p c

end PolyDiM
