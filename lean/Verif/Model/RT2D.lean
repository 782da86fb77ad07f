import Verif.Model.VemPcc2D
import Verif.Model.Elliptic

/-!
# Model: the Raviart-Thomas element on triangles

PolyDiM/src/FEM/MCC/2D/FEM_Triangle_RT_MCC_2D_ReferenceElement.hpp, PolyDiM/src/FEM/MCC/2D/FEM_Triangle_RT_MCC_2D_LocalSpace.{hpp,cpp}.
`lu` stands for `partialPivLu().solve`, `r2` for `sqrt(2.0)`. Points of the plane are pairs (the third coordinate is zero). Sizes are
unbounded natural numbers.
-/

namespace PolyDiM

variable {K : Type} [Field K] [LinearOrder K]

/-- `w.asDiagonal() * A`, FEM_Triangle_RT_MCC_2D_ReferenceElement.hpp:383-390. -/
def DMat.diagMul (w : List K) (A : DMat K) : Except Fault (DMat K) :=
  if w.length = A.rows then .ok ⟨A.rows, A.cols, fun i j => w.getD i 0 * A.ent i j⟩ else .error .undefinedBehaviour

/-- `v.segment(off, n)`, FEM_Triangle_RT_MCC_2D_ReferenceElement.hpp:130. -/
def segmentOf {α : Type} (l : List α) (off n : Nat) : Except Fault (List α) :=
  if off + n ≤ l.length then .ok ((l.drop off).take n) else .error .undefinedBehaviour

/-- `a + b` of arrays, FEM_Triangle_RT_MCC_2D_ReferenceElement.hpp:165-181. -/
def arraySum (a b : List K) : Except Fault (List K) :=
  if a.length = b.length then .ok (List.zipWith (· + ·) a b) else .error .undefinedBehaviour

/-- `monomials_2D_center`, FEM_Triangle_RT_MCC_2D_ReferenceElement.hpp:343. -/
def rtCenter : K × K := (1 / 3, 1 / 3)

/-- `monomials_2D_scale`, FEM_Triangle_RT_MCC_2D_ReferenceElement.hpp:342. -/
def rtScale : K := 1

/-- `TriangleVertices`, `EdgeLengths`, `EdgeTangents`, `EdgeNormals`, FEM_Triangle_RT_MCC_2D_ReferenceElement.hpp:79-83, with the directions of the edges. -/
def rtEdges (r2 : K) (d : Bool × Bool × Bool) : PolyEdges K where
  vertices := [(0, 0), (1, 0), (0, 1)]
  lengths := [1, r2, 1]
  dirs := [d.1, d.2.1, d.2.2]
  tangents := [(1, 0), (-1, 1), (0, -1)]
  normals := [(0, -1), (1 / r2, 1 / r2), (-1, 0)]

/-- The part of `FEM_Triangle_RT_MCC_2D_ReferenceElement_Data` that does not depend on the directions of the edges, FEM_Triangle_RT_MCC_2D_ReferenceElement.hpp:59-77. -/
structure RtRef (K : Type) where
  order : Nat
  nk : Nat
  nkm1 : Nat
  dofs1D : Nat
  dofs2D : Nat
  numBasis : Nat
  triangle : Rule (K × K) K
  segment : Rule K K
  mono2D : MonoData
  mono1D : MonoData
  pressure : DMat K
  vander1D : DMat K

/-- `Create` up to the loop over the directions, FEM_Triangle_RT_MCC_2D_ReferenceElement.hpp:316-359, with `Compute_MCC_2D`, VEM_Quadrature_2D.cpp:115-125. `triangle` and `gauss` are
the tables of Gedim. The points of the segment are given by their first coordinate. -/
def rtRef (triangle : Nat → Rule (K × K) K) (gauss : Nat → Rule K K) (order : Nat) : Except Fault (RtRef K) := do
  let nk := (order + 1) * (order + 2) / 2
  let nkm1 := order * (order + 1) / 2
  let dofs1D := order + 1
  let dofs2D := 2 * order * (order + 1) / 2
  let t := triangle (2 * (order + 1))
  let s := gauss (2 * order + 1)
  let pressure ← vanderMat (compute mono2 order) t.points rtCenter rtScale
  let vander1D ← vanderMat (compute mono1 order) (s.points.map fun x => (x, 0)) (1 / 2, 0) 1
  .ok ⟨order, nk, nkm1, dofs1D, dofs2D, 3 * dofs1D + dofs2D, t, s, compute mono2 order, compute mono1 order, pressure, vander1D⟩

/-- `Bmatrix`, FEM_Triangle_RT_MCC_2D_ReferenceElement.hpp:101-112. -/
def rtB (ref : RtRef K) (d : Bool × Bool × Bool) : Except Fault (DMat K) :=
  [d.1, d.2.1, d.2.2].zipIdx.foldlM (fun B de => do
    let direction : K := if de.1 then 1 else -1
    let X ← B.block (de.2 * ref.dofs1D) (de.2 * ref.dofs1D) ref.dofs1D ref.dofs1D
    B.assign (de.2 * ref.dofs1D) (de.2 * ref.dofs1D) ref.dofs1D ref.dofs1D (.smul direction X)) (.identity ref.numBasis)

/-- `U.transpose() * w.asDiagonal() * V.block(r, c, m, n)`, FEM_Triangle_RT_MCC_2D_ReferenceElement.hpp:128-132 and every other block of `Gmatrix`. -/
def rtProd (U : DMat K) (w : List K) (V : DMat K) (r c m n : Nat) : Except Fault (DMat K) := do
  let A ← U.tr.mulDiag w
  let B ← V.block r c m n
  A.mul B

/-- `xy_boundary` and `xy_internal`, one row, FEM_Triangle_RT_MCC_2D_ReferenceElement.hpp:123-125, 370-371, 408-409. -/
def rtCentred (points : List (K × K)) (coord : K × K → K) : List K := points.map fun p => 1 / rtScale * (coord p - coord rtCenter)

/-- The rows of the first edge, FEM_Triangle_RT_MCC_2D_ReferenceElement.hpp:127-139. -/
def rtEdge1 (ref : RtRef K) (q : EdgesRule K) (V G : DMat K) : Except Fault (DMat K) := do
  let k1 := ref.order + 1
  let wy ← segmentOf q.ny 0 k1
  let y ← segmentOf (rtCentred q.points Prod.snd) 0 k1
  let X ← rtProd ref.vander1D wy V 0 0 k1 V.cols
  let G ← G.assign 0 ref.nk k1 ref.nk X
  let w ← cwiseProduct wy y
  let X ← rtProd ref.vander1D w V 0 (V.cols - k1) k1 k1
  G.assign 0 (2 * ref.nk) k1 k1 X

/-- The rows of the second edge, FEM_Triangle_RT_MCC_2D_ReferenceElement.hpp:141-187. -/
def rtEdge2 (ref : RtRef K) (q : EdgesRule K) (V G : DMat K) : Except Fault (DMat K) := do
  let k1 := ref.order + 1
  let wx ← segmentOf q.nx k1 k1
  let wy ← segmentOf q.ny k1 k1
  let x ← segmentOf (rtCentred q.points Prod.fst) k1 k1
  let y ← segmentOf (rtCentred q.points Prod.snd) k1 k1
  let X ← rtProd ref.vander1D wx V k1 0 k1 V.cols
  let G ← G.assign k1 0 k1 ref.nk X
  let X ← rtProd ref.vander1D wy V k1 0 k1 V.cols
  let G ← G.assign k1 ref.nk k1 ref.nk X
  let wxx ← cwiseProduct wx x
  let wyy ← cwiseProduct wy y
  let w ← arraySum wxx wyy
  let X ← rtProd ref.vander1D w V k1 (ref.nk - k1) k1 k1
  G.assign k1 (2 * ref.nk) k1 k1 X

/-- The rows of the third edge, FEM_Triangle_RT_MCC_2D_ReferenceElement.hpp:189-214. -/
def rtEdge3 (ref : RtRef K) (q : EdgesRule K) (V G : DMat K) : Except Fault (DMat K) := do
  let k1 := ref.order + 1
  let wx ← segmentOf q.nx (2 * k1) k1
  let x ← segmentOf (rtCentred q.points Prod.fst) (2 * k1) k1
  let X ← rtProd ref.vander1D wx V (V.rows - k1) 0 k1 V.cols
  let G ← G.assign (2 * ref.dofs1D) 0 ref.dofs1D ref.nk X
  let w ← cwiseProduct wx x
  let X ← rtProd ref.vander1D w V (V.rows - k1) (V.cols - k1) k1 k1
  G.assign (2 * ref.dofs1D) (2 * ref.nk) ref.dofs1D k1 X

/-- The rows of the internal DOFs, FEM_Triangle_RT_MCC_2D_ReferenceElement.hpp:216-266. -/
def rtInternal (ref : RtRef K) (G : DMat K) : Except Fault (DMat K) :=
  if 0 < ref.order then do
    let V := ref.pressure
    let k1 := ref.order + 1
    let U ← V.block 0 0 V.rows ref.nkm1
    let X ← rtProd U ref.triangle.weights V 0 0 V.rows V.cols
    let G ← G.assign (3 * ref.dofs1D) 0 ref.nkm1 ref.nk X
    let G ← G.assign (3 * ref.dofs1D + ref.nkm1) ref.nk ref.nkm1 ref.nk X
    let c1 ← V.block 0 1 V.rows 1
    let w1 ← cwiseProduct ref.triangle.weights ((List.range V.rows).map fun i => c1.ent i 0)
    let X ← rtProd U w1 V 0 (V.cols - k1) V.rows k1
    let G ← G.assign (3 * ref.dofs1D) (2 * ref.nk) ref.nkm1 k1 X
    let c2 ← V.block 0 2 V.rows 1
    let w2 ← cwiseProduct ref.triangle.weights ((List.range V.rows).map fun i => c2.ent i 0)
    let X ← rtProd U w2 V 0 (V.cols - k1) V.rows k1
    G.assign (3 * ref.dofs1D + ref.nkm1) (2 * ref.nk) ref.nkm1 k1 X
  else .ok G

/-- `Gmatrix`, FEM_Triangle_RT_MCC_2D_ReferenceElement.hpp:114-266. -/
def rtG (ref : RtRef K) (q : EdgesRule K) : Except Fault (DMat K) := do
  let V ← vanderMat ref.mono2D q.points rtCenter rtScale
  let G ← rtEdge1 ref q V (.zero ref.numBasis ref.numBasis)
  let G ← rtEdge2 ref q V G
  let G ← rtEdge3 ref q V G
  rtInternal ref G

/-- `ComputeVelocityMonomialsCoefficient` for one triple of directions, FEM_Triangle_RT_MCC_2D_ReferenceElement.hpp:95-269. -/
def rtCoefficients (lu : Solver K) (ref : RtRef K) (d : Bool × Bool × Bool) (q : EdgesRule K) : Except Fault (DMat K) := do
  let B ← rtB ref d
  let G ← rtG ref q
  .ok (lu G B)

/-- One component of `EvaluateVelocityBasisFunctions`, FEM_Triangle_RT_MCC_2D_ReferenceElement.hpp:383-390: `r` is the first row of the coefficients, `xs` the centred coordinate. -/
def rtComponent (ref : RtRef K) (C V : DMat K) (r : Nat) (xs : List K) : Except Fault (DMat K) := do
  let k1 := ref.order + 1
  let C0 ← C.block r 0 ref.nk C.cols
  let X ← V.mul C0
  let R ← V.block 0 (V.cols - k1) V.rows k1
  let R ← DMat.diagMul xs R
  let C1 ← C.block (C.rows - k1) 0 k1 C.cols
  let Y ← R.mul C1
  X.add Y

/-- `EvaluateVelocityBasisFunctions`, FEM_Triangle_RT_MCC_2D_ReferenceElement.hpp:365-392. -/
def rtVelocity (ref : RtRef K) (C : DMat K) (points : List (K × K)) : Except Fault (DMat K × DMat K) := do
  let V ← vanderMat ref.mono2D points rtCenter rtScale
  let X ← rtComponent ref C V 0 (rtCentred points Prod.fst)
  let Y ← rtComponent ref C V ref.nk (rtCentred points Prod.snd)
  .ok (X, Y)

/-- `EvaluatePressureBasisFunctions`, FEM_Triangle_RT_MCC_2D_ReferenceElement.hpp:394-401. -/
def rtPressure (ref : RtRef K) (points : List (K × K)) : Except Fault (DMat K) := vanderMat ref.mono2D points rtCenter rtScale

/-- `EvaluateVelocityBasisFunctionsDivergence`, FEM_Triangle_RT_MCC_2D_ReferenceElement.hpp:403-430. -/
def rtDivergence (ref : RtRef K) (C : DMat K) (points : List (K × K)) : Except Fault (DMat K) := do
  let k1 := ref.order + 1
  let V ← vanderMat ref.mono2D points rtCenter rtScale
  let VX ← vanderDerMat ref.mono2D V rtScale 0
  let VY ← vanderDerMat ref.mono2D V rtScale 1
  let C0 ← C.block 0 0 ref.nk C.cols
  let C1 ← C.block ref.nk 0 ref.nk C.cols
  let C2 ← C.block (C.rows - k1) 0 k1 C.cols
  let A ← VX.mul C0
  let B ← VY.mul C1
  let S ← A.add B
  let R ← V.block 0 (V.cols - k1) V.rows k1
  let T ← (DMat.smul (2 * (1 / rtScale)) R).mul C2
  let S ← S.add T
  let R ← VX.block 0 (VX.cols - k1) VX.rows k1
  let R ← DMat.diagMul (rtCentred points Prod.fst) R
  let T ← R.mul C2
  let S ← S.add T
  let R ← VY.block 0 (VY.cols - k1) VY.rows k1
  let R ← DMat.diagMul (rtCentred points Prod.snd) R
  let T ← R.mul C2
  S.add T

/-- `BasisFunctions`, FEM_Triangle_RT_MCC_2D_ReferenceElement.hpp:43-49, and the boundary quadrature of the same directions, FEM_Triangle_RT_MCC_2D_ReferenceElement.hpp:67. -/
structure RtBasis (K : Type) where
  boundary : EdgesRule K
  coefficients : DMat K
  values : DMat K × DMat K
  divergence : DMat K

/-- The directions in the order of the code, FEM_Triangle_RT_MCC_2D_ReferenceElement.hpp:274-281. -/
def rtDirections : List (Bool × Bool × Bool) :=
  [(true, true, true), (true, true, false), (false, true, true), (true, false, true), (false, false, true), (false, true, false),
    (true, false, false), (false, false, false)]

/-- One pass of the loop over the directions, FEM_Triangle_RT_MCC_2D_ReferenceElement.hpp:283-312. -/
def rtBasis (lu : Solver K) (r2 : K) (ref : RtRef K) (d : Bool × Bool × Bool) : Except Fault (RtBasis K) := do
  let q ← edgesQuad (rtEdges r2 d) ref.segment
  let C ← rtCoefficients lu ref d q
  let X ← rtVelocity ref C ref.triangle.points
  let D ← rtDivergence ref C ref.triangle.points
  .ok ⟨q, C, X, D⟩

/-- `Create`, FEM_Triangle_RT_MCC_2D_ReferenceElement.hpp:316-363, with the loop over the directions, FEM_Triangle_RT_MCC_2D_ReferenceElement.hpp:271-313:
the data of the reference element, with the two maps from directions to data as one list of pairs. -/
def rtCreate (lu : Solver K) (r2 : K) (triangle : Nat → Rule (K × K) K) (gauss : Nat → Rule K K) (order : Nat) :
    Except Fault (RtRef K × List ((Bool × Bool × Bool) × RtBasis K)) := do
  let ref ← rtRef triangle gauss order
  let l ← rtDirections.mapM fun d => do
    let b ← rtBasis lu r2 ref d
    .ok (d, b)
  .ok (ref, l)

/-- `basis_functions.at(EdgesDirection)` and `BoundaryQuadrature.at(EdgesDirection)`, FEM_Triangle_RT_MCC_2D_LocalSpace.hpp:65, 74, 103, 121, FEM_Triangle_RT_MCC_2D_LocalSpace.cpp:83:
the map keeps the first of equal keys. -/
def rtAt (l : List ((Bool × Bool × Bool) × RtBasis K)) (d : Bool × Bool × Bool) : Except Fault (RtBasis K) :=
  match l.find? fun e => e.1 = d with
  | some e => .ok e.2
  | none => .error .outOfRange

/-! ## The local space -/

/-- `Gedim::MapTriangle::FInv` with the data computed from the vertices (FEM_Triangle_RT_MCC_2D_LocalSpace.hpp:82, 95, 113). Assumption: the inverse matrix is the adjugate
divided by the determinant. -/
def tri2FInv (v : Tri2 K) (x : K × K) : K × K :=
  (((v.2.2.2 - v.1.2) * (x.1 - v.1.1) - (v.2.2.1 - v.1.1) * (x.2 - v.1.2)) / tri2Det v,
    ((v.2.1.1 - v.1.1) * (x.2 - v.1.2) - (v.2.1.2 - v.1.2) * (x.1 - v.1.1)) / tri2Det v)

/-- `FEM_Triangle_RT_MCC_2D_LocalSpace_Data` (FEM_MCC_2D_LocalSpace_Data.hpp:41-53): vertices of the triangle for the map, directions, quadratures. -/
structure RtSpace (K : Type) where
  map : Tri2 K
  order : Nat
  numVelocity : Nat
  numPressure : Nat
  dirs : Bool × Bool × Bool
  internal : Rule (K × K) K
  boundary : List (Rule (K × K) K)

/-- `InternalQuadrature`, FEM_Triangle_RT_MCC_2D_LocalSpace.cpp:51-63. -/
def rtInternalQuad (v : Tri2 K) (r : Rule (K × K) K) : Except Fault (Rule (K × K) K) := do
  let w ← scaleArray r.weights (r.points.map fun _ => tri2Det v)
  .ok ⟨r.points.map (tri2F v), w⟩

/-- `BoundaryQuadrature`, FEM_Triangle_RT_MCC_2D_LocalSpace.cpp:65-91. -/
def rtBoundaryQuad (ref : RtRef K) (b : RtBasis K) (v : Tri2 K) (lengths : List K) (n : Nat) : Except Fault (List (Rule (K × K) K)) :=
  (List.range n).mapM fun e => do
    let len ← unchecked lengths e
    let p ← segmentOf b.boundary.points (e * ref.dofs1D) ref.dofs1D
    .ok ⟨p.map (tri2F v), ref.segment.weights.map (· * |len|)⟩

/-- `CreateLocalSpace`, FEM_Triangle_RT_MCC_2D_LocalSpace.cpp:24-49. -/
def rtSpace (ref : RtRef K) (l : List ((Bool × Bool × Bool) × RtBasis K)) (vertices : List (K × K)) (dirs : List Bool) (lengths : List K) :
    Except Fault (RtSpace K) :=
  match vertices with
  | [v0, v1, v2] => do
    let d0 ← unchecked dirs 0
    let d1 ← unchecked dirs 1
    let d2 ← unchecked dirs 2
    let internal ← rtInternalQuad (v0, v1, v2) ref.triangle
    let b ← rtAt l (d0, d1, d2)
    let boundary ← rtBoundaryQuad ref b (v0, v1, v2) lengths dirs.length
    .ok ⟨(v0, v1, v2), ref.order, ref.numBasis, ref.nk, (d0, d1, d2), internal, boundary⟩
  | _ => .error .runtimeError

/-- `MapVelocityValues`, FEM_Triangle_RT_MCC_2D_LocalSpace.cpp:93-104. -/
def rtMapVelocity (v : Tri2 K) (X : DMat K × DMat K) : Except Fault (DMat K × DMat K) := do
  let A ← (DMat.smul (v.2.1.1 - v.1.1) X.1).add (DMat.smul (v.2.2.1 - v.1.1) X.2)
  let B ← (DMat.smul (v.2.1.2 - v.1.2) X.1).add (DMat.smul (v.2.2.2 - v.1.2) X.2)
  .ok (DMat.smul (1 / tri2Det v) A, DMat.smul (1 / tri2Det v) B)

/-- `MapPressureValues`, FEM_Triangle_RT_MCC_2D_LocalSpace.cpp:106-112. -/
def rtMapPressure (_v : Tri2 K) (X : DMat K) : DMat K := X

/-- `MapVelocityDivergenceValues`, FEM_Triangle_RT_MCC_2D_LocalSpace.cpp:114-120. -/
def rtMapDivergence (v : Tri2 K) (X : DMat K) : DMat K := DMat.smul (1 / tri2Det v) X

/-- `ComputePressureBasisFunctionsValues` at points, FEM_Triangle_RT_MCC_2D_LocalSpace.hpp:77-87. -/
def rtPressureAt (ref : RtRef K) (s : RtSpace K) (points : List (K × K)) : Except Fault (DMat K) := do
  let X ← rtPressure ref (points.map (tri2FInv s.map))
  .ok (rtMapPressure s.map X)

/-- `ComputeVelocityBasisFunctionsValues` at points, FEM_Triangle_RT_MCC_2D_LocalSpace.hpp:89-105. -/
def rtVelocityAt (ref : RtRef K) (l : List ((Bool × Bool × Bool) × RtBasis K)) (s : RtSpace K) (points : List (K × K)) :
    Except Fault (DMat K × DMat K) := do
  let b ← rtAt l s.dirs
  let X ← rtVelocity ref b.coefficients (points.map (tri2FInv s.map))
  rtMapVelocity s.map X

/-- `ComputeVelocityBasisFunctionsDivergenceValues` at points, FEM_Triangle_RT_MCC_2D_LocalSpace.hpp:107-123. -/
def rtDivergenceAt (ref : RtRef K) (l : List ((Bool × Bool × Bool) × RtBasis K)) (s : RtSpace K) (points : List (K × K)) :
    Except Fault (DMat K) := do
  let b ← rtAt l s.dirs
  let X ← rtDivergence ref b.coefficients (points.map (tri2FInv s.map))
  .ok (rtMapDivergence s.map X)

/-- `ComputePressureBasisFunctionsValues` at the quadrature points, FEM_Triangle_RT_MCC_2D_LocalSpace.hpp:53-57. -/
def rtPressureInt (ref : RtRef K) (s : RtSpace K) : DMat K := rtMapPressure s.map ref.pressure

/-- `ComputeVelocityBasisFunctionsValues` at the quadrature points, FEM_Triangle_RT_MCC_2D_LocalSpace.hpp:59-66. -/
def rtVelocityInt (l : List ((Bool × Bool × Bool) × RtBasis K)) (s : RtSpace K) : Except Fault (DMat K × DMat K) := do
  let b ← rtAt l s.dirs
  rtMapVelocity s.map b.values

/-- `ComputeVelocityBasisFunctionsDivergenceValues` at the quadrature points, FEM_Triangle_RT_MCC_2D_LocalSpace.hpp:68-75. -/
def rtDivergenceInt (l : List ((Bool × Bool × Bool) × RtBasis K)) (s : RtSpace K) : Except Fault (DMat K) := do
  let b ← rtAt l s.dirs
  .ok (rtMapDivergence s.map b.divergence)

end PolyDiM
