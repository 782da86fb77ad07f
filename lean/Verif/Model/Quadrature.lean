import Verif.Model.FemTetSpace
import Mathlib.Algebra.Order.Field.Basic
import Mathlib.Algebra.Order.AbsoluteValue.Basic

/-!
# Model of the quadrature of polygons and polyhedra

PolyDiM/src/VEM/Quadrature/VEM_Quadrature_2D.cpp and VEM_Quadrature_3D.cpp over a linearly ordered field `K` (the code uses `double`).
The Gedim tables (`FillPointsAndWeights`) are parameters. Points of the plane are pairs (the third coordinate is zero). Sizes are unbounded
natural numbers. A coefficient-wise Eigen operation on arrays of different sizes and a block out of range are undefined behaviour.
-/

namespace PolyDiM

/-- `Gedim::Quadrature::QuadratureData`: the columns of `Points` and the entries of `Weights`
(PolyDiM/src/VEM/Quadrature/VEM_Quadrature_2D.hpp:26-28). -/
structure Rule (P K : Type) where
  points : List P
  weights : List K

/-- `v.segment(off, n) = b` or `m.block(0, off, 3, n) = b` (VEM_Quadrature_2D.cpp:159-162, 226-233). -/
def writeSeg {α : Type} (l : List α) (off n : Nat) (b : List α) : Except Fault (List α) :=
  if b.length = n ∧ off + n ≤ l.length then .ok (l.take off ++ b ++ l.drop (off + n)) else .error .undefinedBehaviour

/-- `v(i) += x` (VEM_Quadrature_2D.cpp:202-207). -/
def addAt {K : Type} [Add K] (l : List K) (i : Nat) (x : K) : Except Fault (List K) := do
  let y ← unchecked l i
  .ok (l.set i (y + x))

variable {K : Type} [Field K] [LinearOrder K]

/-- `data.Weights.array() * DetJ(...).array().abs()` (VEM_Quadrature_2D.cpp:161-162). -/
def scaleArray (weights dets : List K) : Except Fault (List K) :=
  if weights.length = dets.length then .ok (List.zipWith (fun w d => w * |d|) weights dets) else .error .undefinedBehaviour

/-- A triangle of the plane, a `Matrix3d` of vertices (VEM_Quadrature_2D.cpp:156). -/
abbrev Tri2 (K : Type) := (K × K) × (K × K) × (K × K)

/-- `Gedim::MapTriangle::F` with the data computed from the vertices (VEM_Quadrature_2D.cpp:158-160). Assumption: `B` has columns `v1 - v0`,
`v2 - v0` and `b` is `v0`. -/
def tri2F (v : Tri2 K) (p : K × K) : K × K := v.1 + p.1 • (v.2.1 - v.1) + p.2 • (v.2.2 - v.1)

/-- `Gedim::MapTriangle::DetJ`, the determinant of `B` (VEM_Quadrature_2D.cpp:162). -/
def tri2Det (v : Tri2 K) : K := (v.2.1.1 - v.1.1) * (v.2.2.2 - v.1.2) - (v.2.2.1 - v.1.1) * (v.2.1.2 - v.1.2)

/-- One pass of the loop of `PolygonInternalQuadrature`, VEM_Quadrature_2D.cpp:156-162. -/
def polygonQuadStep (data : Rule (K × K) K) (r : Rule (K × K) K) (vt : Tri2 K × Nat) : Except Fault (Rule (K × K) K) := do
  let nq := data.points.length
  let points ← writeSeg r.points (nq * vt.2) nq (data.points.map (tri2F vt.1))
  let w ← scaleArray data.weights (data.points.map fun _ => tri2Det vt.1)
  let weights ← writeSeg r.weights (nq * vt.2) nq w
  .ok ⟨points, weights⟩

/-- `PolygonInternalQuadrature`, VEM_Quadrature_2D.cpp:139-166. -/
def polygonQuad (data : Rule (K × K) K) (tris : List (Tri2 K)) : Except Fault (Rule (K × K) K) :=
  let n := tris.length * data.points.length
  tris.zipIdx.foldlM (polygonQuadStep data) ⟨List.replicate n 0, List.replicate n 0⟩

/-! ## The edges of a polygon -/

/-- The arguments of `PolygonEdgesLobattoQuadrature` and `PolygonEdgesQuadrature` that describe the polygon, VEM_Quadrature_2D.cpp:172-176. -/
structure PolyEdges (K : Type) where
  vertices : List (K × K)
  lengths : List K
  dirs : List Bool
  tangents : List (K × K)
  normals : List (K × K)

/-- `Edges_QuadratureData`: points, weights, and the two components of `WeightsTimesNormal` (VEM_Quadrature_2D.hpp:42-46). -/
structure EdgesRule (K : Type) where
  points : List (K × K)
  weights : List K
  nx : List K
  ny : List K

/-- The points of edge `i` for parameters `ts`, VEM_Quadrature_2D.cpp:215-224 and 271-280. -/
def edgePoints (g : PolyEdges K) (ts : List K) (i : Nat) : Except Fault (List (K × K)) := do
  let n := g.vertices.length
  let dir ← unchecked g.dirs i
  let start ← unchecked g.vertices (if dir then i else (i + 1) % n)
  let tangent ← unchecked g.tangents i
  let direction : K := if dir then 1 else -1
  .ok (ts.map fun t => start + (direction * t) • tangent)

/-- The points, weights and weights times normal of edge `i` written at position `off`, VEM_Quadrature_2D.cpp:213-234 and 265-290. -/
def writeEdge (g : PolyEdges K) (ts ws : List K) (r : EdgesRule K) (i off : Nat) : Except Fault (EdgesRule K) := do
  let len ← unchecked g.lengths i
  let nrm ← unchecked g.normals i
  let pts ← edgePoints g ts i
  let points ← writeSeg r.points off ts.length pts
  let weights ← writeSeg r.weights off ts.length (ws.map (· * |len|))
  let nx ← writeSeg r.nx off ts.length (ws.map (· * (nrm.1 * |len|)))
  let ny ← writeSeg r.ny off ts.length (ws.map (· * (nrm.2 * |len|)))
  .ok ⟨points, weights, nx, ny⟩

/-- The weights of the two ends of edge `i` added to the weights of the vertices, VEM_Quadrature_2D.cpp:198-208. -/
def addEnds (g : PolyEdges K) (ext : K × K) (r : EdgesRule K) (i : Nat) : Except Fault (EdgesRule K) := do
  let n := g.vertices.length
  let len ← unchecked g.lengths i
  let nrm ← unchecked g.normals i
  let w0 ← addAt r.weights i (ext.1 * |len|)
  let w1 ← addAt w0 ((i + 1) % n) (ext.2 * |len|)
  let x0 ← addAt r.nx i (nrm.1 * |len| * ext.1)
  let x1 ← addAt x0 ((i + 1) % n) (nrm.1 * |len| * ext.2)
  let y0 ← addAt r.ny i (nrm.2 * |len| * ext.1)
  let y1 ← addAt y0 ((i + 1) % n) (nrm.2 * |len| * ext.2)
  .ok ⟨r.points, w1, x1, y1⟩

/-- One pass of the loop of `PolygonEdgesLobattoQuadrature`, VEM_Quadrature_2D.cpp:196-237; the second component is
`edgeInternalPointsOffset`. -/
def lobattoStep (g : PolyEdges K) (ts ws : List K) (ext : K × K) (s : EdgesRule K × Nat) (i : Nat) : Except Fault (EdgesRule K × Nat) := do
  let r ← addEnds g ext s.1 i
  if ws.length > 0 then do
    let r' ← writeEdge g ts ws r i s.2
    .ok (r', s.2 + ts.length)
  else .ok (r, s.2)

/-- `PolygonEdgesLobattoQuadrature`, VEM_Quadrature_2D.cpp:168-240. The points are not initialised by the code; the model has zeros there. -/
def lobattoQuad (g : PolyEdges K) (ts ws : List K) (ext : K × K) : Except Fault (EdgesRule K) := do
  let n := g.vertices.length
  let N := n + ws.length * n
  let s ← (List.range n).foldlM (lobattoStep g ts ws ext)
    (⟨g.vertices ++ List.replicate (N - n) 0, List.replicate N 0, List.replicate N 0, List.replicate N 0⟩, n)
  .ok s.1

/-- One pass of the loop of `PolygonEdgesQuadrature`, VEM_Quadrature_2D.cpp:263-292. -/
def edgesStep (g : PolyEdges K) (data : Rule K K) (s : EdgesRule K × Nat) (i : Nat) : Except Fault (EdgesRule K × Nat) := do
  let r ← writeEdge g data.points data.weights s.1 i s.2
  .ok (r, s.2 + data.points.length)

/-- `PolygonEdgesQuadrature`, VEM_Quadrature_2D.cpp:242-295; the points of the reference rule are given by their first coordinate. -/
def edgesQuad (g : PolyEdges K) (data : Rule K K) : Except Fault (EdgesRule K) := do
  let n := g.vertices.length
  let N := data.weights.length * n
  let s ← (List.range n).foldlM (edgesStep g data)
    (⟨List.replicate N 0, List.replicate N 0, List.replicate N 0, List.replicate N 0⟩, 0)
  .ok s.1

/-! ## Reference rules -/

/-- Internal points, internal weights and the weights of the two ends taken from a rule with the ends as first and last points, for the
order of the method, VEM_Quadrature_2D.cpp:38-54 (also 74-90 and 94-110). For order 1 the table is not read. -/
def lobattoSplit (order : Nat) (rule : Rule K K) : Except Fault (List K × List K × (K × K)) :=
  if order = 1 then .ok ([], [], (1 / 2, 1 / 2))
  else do
    let n := rule.points.length
    if n < 2 then .error .undefinedBehaviour
    else do
      let w0 ← unchecked rule.weights 0
      let w1 ← unchecked rule.weights (rule.weights.length - 1)
      if rule.weights.length < n - 1 then .error .undefinedBehaviour
      else .ok ((rule.points.drop 1).take (n - 2), (rule.weights.drop 1).take (n - 2), (w0, w1))

/-- The rule of the edge DOFs in `Compute_PCC_2D`, VEM_Quadrature_2D.cpp:30-57: the Lobatto table of degree `2 * order - 1` (32-bit), split.
`table` is `Quadrature_GaussLobatto1D::FillPointsAndWeights`. -/
def pccEdgeRule (table : Nat → Rule K K) (order : Nat) : Except Fault (List K × List K × (K × K)) :=
  lobattoSplit order (table (u32 (2 * order + 4294967295)))

/-- The first boundary rule in `Compute_DF_PCC_2D`, VEM_Quadrature_2D.cpp:72-90: the Lobatto table of degree `2 * order + 1`, split. -/
def dfSegmentRule (table : Nat → Rule K K) (order : Nat) : Except Fault (List K × List K × (K × K)) :=
  lobattoSplit order (table (u32 (2 * order + 1)))

/-! ## Polyhedra -/

/-- The vertices of a tetrahedron, VEM_Quadrature_3D.cpp:73. -/
abbrev Tet3 (K : Type) := Vec3 K × Vec3 K × Vec3 K × Vec3 K

/-- `Gedim::MapTetrahedron::F` with the data computed from the vertices (VEM_Quadrature_3D.cpp:75-77). Assumption: `Q` has columns `v1 - v0`,
`v2 - v0`, `v3 - v0`. -/
def tet3F (v : Tet3 K) (p : Vec3 K) : Vec3 K := v.1 + p.1 • (v.2.1 - v.1) + p.2.1 • (v.2.2.1 - v.1) + p.2.2 • (v.2.2.2 - v.1)

/-- Determinant of the matrix with columns `a`, `b`, `c` (`Gedim::MapTetrahedron::DetJ`, VEM_Quadrature_3D.cpp:80). -/
def det3 (a b c : Vec3 K) : K :=
  a.1 * (b.2.1 * c.2.2 - c.2.1 * b.2.2) - b.1 * (a.2.1 * c.2.2 - c.2.1 * a.2.2) + c.1 * (a.2.1 * b.2.2 - b.2.1 * a.2.2)

/-- `Gedim::MapTetrahedron::DetJ` (VEM_Quadrature_3D.cpp:80). -/
def tet3Det (v : Tet3 K) : K := det3 (v.2.1 - v.1) (v.2.2.1 - v.1) (v.2.2.2 - v.1)

/-- One pass of the loop of `PolyhedronInternalQuadrature`, VEM_Quadrature_3D.cpp:71-81 and 102-111. -/
def polyhedronQuadStep (data : Rule (Vec3 K) K) (r : Rule (Vec3 K) K) (vt : Tet3 K × Nat) : Except Fault (Rule (Vec3 K) K) := do
  let nq := data.points.length
  let points ← writeSeg r.points (nq * vt.2) nq (data.points.map (tet3F vt.1))
  let w ← scaleArray data.weights (data.points.map fun _ => tet3Det vt.1)
  let weights ← writeSeg r.weights (nq * vt.2) nq w
  .ok ⟨points, weights⟩

/-- `PolyhedronInternalQuadrature` (both overloads), VEM_Quadrature_3D.cpp:55-84 and 86-114. -/
def polyhedronQuad (data : Rule (Vec3 K) K) (tets : List (Tet3 K)) : Except Fault (Rule (Vec3 K) K) :=
  let n := tets.length * data.points.length
  tets.zipIdx.foldlM (polyhedronQuadStep data) ⟨List.replicate n 0, List.replicate n 0⟩

/-- One face as seen by `PolyhedronFacesQuadrature`: the first two columns of the rotation matrix, the translation, the normal and its
direction flag (VEM_Quadrature_3D.cpp:119-122). -/
structure FaceFrame (K : Type) where
  shift : Vec3 K
  r0 : Vec3 K
  r1 : Vec3 K
  normal : Vec3 K
  outward : Bool

/-- `RotatePointsFrom2DTo3D` for a point whose third coordinate is zero (VEM_Quadrature_3D.cpp:143-144, 189-190). Assumption: rotation matrix
times point plus translation. -/
def frameLift (f : FaceFrame K) (p : K × K) : Vec3 K := f.shift + p.1 • f.r0 + p.2 • f.r1

/-- `Faces_QuadratureData_PCC`: points, weights, the three components of `WeightsTimesNormal` (VEM_Quadrature_3D.hpp:34-38). -/
structure FacesRule (K : Type) where
  points : List (Vec3 K)
  weights : List K
  nx : List K
  ny : List K
  nz : List K

/-- One pass of the loop of `PolyhedronFacesQuadrature`, VEM_Quadrature_3D.cpp:139-154; the second component is `quadraturePointOffset`. -/
def facesStep (faces : List (FaceFrame K)) (rules : List (Rule (K × K) K)) (s : FacesRule K × Nat) (f : Nat) :
    Except Fault (FacesRule K × Nat) := do
  let face ← unchecked faces f
  let rule ← unchecked rules f
  let m := rule.points.length
  let sign : K := if face.outward then 1 else -1
  let points ← writeSeg s.1.points s.2 m (rule.points.map (frameLift face))
  let weights ← writeSeg s.1.weights s.2 m rule.weights
  let nx ← writeSeg s.1.nx s.2 m (rule.weights.map (· * sign * face.normal.1))
  let ny ← writeSeg s.1.ny s.2 m (rule.weights.map (· * sign * face.normal.2.1))
  let nz ← writeSeg s.1.nz s.2 m (rule.weights.map (· * sign * face.normal.2.2))
  .ok (⟨points, weights, nx, ny, nz⟩, s.2 + m)

/-- The number of points, VEM_Quadrature_3D.cpp:130-132 (also 172-179). -/
def facesCount (rules : List (Rule (K × K) K)) (nf : Nat) : Except Fault Nat :=
  (List.range nf).foldlM (fun n f => do
    let rule ← unchecked rules f
    .ok (n + rule.points.length)) 0

/-- `PolyhedronFacesQuadrature` for PCC, VEM_Quadrature_3D.cpp:116-157; `rules` are the quadratures of the faces. -/
def facesQuad (faces : List (FaceFrame K)) (rules : List (Rule (K × K) K)) : Except Fault (FacesRule K) := do
  let nf := faces.length
  let N ← facesCount rules nf
  let s ← (List.range nf).foldlM (facesStep faces rules)
    (⟨List.replicate N 0, List.replicate N 0, List.replicate N 0, List.replicate N 0, List.replicate N 0⟩, 0)
  .ok s.1

/-- One pass of the second loop of `PolyhedronFacesQuadrature` for MCC, VEM_Quadrature_3D.cpp:185-194. -/
def mccFacesStep (faces : List (FaceFrame K)) (rules : List (Rule (K × K) K)) (s : Rule (Vec3 K) K × Nat) (f : Nat) :
    Except Fault (Rule (Vec3 K) K × Nat) := do
  let face ← unchecked faces f
  let rule ← unchecked rules f
  let m := rule.points.length
  let points ← writeSeg s.1.points s.2 m (rule.points.map (frameLift face))
  let weights ← writeSeg s.1.weights s.2 m rule.weights
  .ok (⟨points, weights⟩, s.2 + m)

/-- `PolyhedronFacesQuadrature` for MCC, VEM_Quadrature_3D.cpp:159-197: the quadratures of the faces and the one of the whole boundary. -/
def mccFacesQuad (data : Rule (K × K) K) (tris : List (List (Tri2 K))) (faces : List (FaceFrame K)) :
    Except Fault (List (Rule (K × K) K) × Rule (Vec3 K) K) := do
  let nf := tris.length
  let rules ← tris.mapM (polygonQuad data)
  let N ← facesCount rules nf
  let s ← (List.range nf).foldlM (mccFacesStep faces rules) (⟨List.replicate N 0, List.replicate N 0⟩, 0)
  .ok (rules, s.1)

/-- `PolyhedronInternalEdgesQuadraturePoints`, VEM_Quadrature_3D.cpp:199-226: the points of all edges, edge after edge. `ts` are the reference
points. -/
def polyhedronEdgePoints (ts : List K) (V : List (Vec3 K)) (edges : List (Nat × Nat)) (dirs : List Bool) (tangents : List (Vec3 K)) :
    Except Fault (List (Vec3 K)) := do
  let cols ← (List.range edges.length).mapM fun i => do
    let e ← unchecked edges i
    let dir ← unchecked dirs i
    let start ← unchecked V (if dir then e.1 else e.2)
    let tangent ← unchecked tangents i
    let direction : K := if dir then 1 else -1
    .ok (ts.map fun t => start + (direction * t) • tangent)
  .ok cols.flatten

end PolyDiM
