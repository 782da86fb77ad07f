import Verif.Model.VemPcc2D
import Verif.Model.Elliptic

/-!
# Model: the VEM local spaces of the mixed formulation on polygons

PolyDiM/src/VEM/MCC/2D/VEM_MCC_2D_ReferenceElement.hpp, VEM_MCC_2D_Velocity_LocalSpace.{hpp,cpp}, VEM_MCC_2D_Pressure_LocalSpace.{hpp,cpp},
PolyDiM/src/VEM/MCC/VEM_MCC_Utilities.hpp and the `VEM_MCC` branches of PolyDiM/src/PDETools/LocalSpace/LocalSpace_MCC_2D.cpp.

Library calls are parameters: `llt` stands for `A.llt().solve(B)`, `svd` for the matrix `V` that `LAPACK_utilities::svd(A, V, S)` returns (its
rows are the right singular vectors), `sqrt` for `std::sqrt`, `triangle` and `edge` for the tables of Gedim. The sizes of the local space are
unbounded natural numbers.
-/

namespace PolyDiM

namespace DMat

variable {K : Type} [Field K]

/-- `w.asDiagonal() * A`, e.g. VEM_MCC_2D_Velocity_LocalSpace.cpp:110. -/
def scaleRows (w : List K) (A : DMat K) : Except Fault (DMat K) :=
  if w.length = A.rows then .ok ⟨A.rows, A.cols, fun i j => w.getD i 0 * A.ent i j⟩ else .error .undefinedBehaviour

/-- `MatrixXd(w.asDiagonal())`, e.g. VEM_MCC_2D_Velocity_LocalSpace.cpp:242. -/
def diag (w : List K) : DMat K := ⟨w.length, w.length, fun i j => if i = j then w.getD i 0 else 0⟩

/-- `M << A, B` for a matrix `M` of size `r × c` filled by two blocks of `r` rows, e.g. VEM_MCC_2D_Velocity_LocalSpace.cpp:118, 127. -/
def beside (r c : Nat) (A B : DMat K) : Except Fault (DMat K) :=
  if A.rows = r ∧ B.rows = r ∧ A.cols + B.cols = c then .ok ⟨r, c, fun i j => if j < A.cols then A.ent i j else B.ent i (j - A.cols)⟩
  else .error .undefinedBehaviour

/-- `M << A, B` for a matrix `M` of size `r × c` filled by two blocks of `c` columns, e.g. VEM_MCC_2D_Velocity_LocalSpace.cpp:145-148. -/
def stack (r c : Nat) (A B : DMat K) : Except Fault (DMat K) :=
  if A.cols = c ∧ B.cols = c ∧ A.rows + B.rows = r then .ok ⟨r, c, fun i j => if i < A.rows then A.ent i j else B.ent (i - A.rows) j⟩
  else .error .undefinedBehaviour

/-- `M << A, Zero, Zero, A` for a matrix `M` of size `r × c`, e.g. VEM_MCC_2D_Velocity_LocalSpace.cpp:133-137. -/
def twice (r c : Nat) (A : DMat K) : Except Fault (DMat K) :=
  if A.rows + A.rows = r ∧ A.cols + A.cols = c then
    .ok ⟨r, c, fun i j => if i < A.rows then (if j < A.cols then A.ent i j else 0) else (if j < A.cols then 0 else A.ent (i - A.rows) (j - A.cols))⟩
  else .error .undefinedBehaviour

end DMat

variable {K : Type} [Field K] [LinearOrder K]

/-- `VEM_MCC_2D_Velocity_ReferenceElement_Data` (I_VEM_MCC_2D_ReferenceElement.hpp): order, DOFs per edge and per cell, monomials of degree at
most `order + 1`, quadrature rules of the reference triangle and edge. -/
structure MccRef2D (K : Type) where
  order : Nat
  dofs1D : Nat
  dofs2D : Nat
  mono : MonoData
  triangle : Rule (K × K) K
  segment : Rule K K

/-- `VEM_MCC_2D_Velocity_ReferenceElement::Create`, VEM_MCC_2D_ReferenceElement.hpp:52-69, with `Compute_MCC_2D`,
PolyDiM/src/VEM/Quadrature/VEM_Quadrature_2D.cpp:115-125. -/
def mccRef2D (triangle : Nat → Rule (K × K) K) (edge : Nat → Rule K K) (order : Nat) : MccRef2D K :=
  ⟨order, u32 (order + 1), u32 (order * u32 (order + 2)), compute mono2 (u32 (order + 1)), triangle (u32 (2 * u32 (order + 1))), edge (u32 (u32 (2 * order) + 1))⟩

/-- The part of `VEM_MCC_2D_Velocity_LocalSpace_Data` (VEM_MCC_2D_LocalSpace_Data.hpp:41-100) set by `InitializeProjectorsComputation`. -/
structure MccInit2D (K : Type) where
  nk : Nat
  nkNabla : Nat
  numBoundary : Nat
  numNabla : Nat
  numPlus : Nat
  numInternal : Nat
  numBasis : Nat
  vanderIntKp1 : DMat K
  vanderInt : DMat K
  vanderBndKp1 : DMat K
  vanderBnd : DMat K
  H : DMat K
  qKp1 : DMat K
  tNabla : DMat K
  tPlus : DMat K
  gkInt : DMat K
  G : DMat K

/-- `weights.array().sqrt()`, VEM_MCC_2D_Velocity_LocalSpace.cpp:109. The square root of a negative number is not a number. -/
def sqrtArray (sqrt : K → K) (w : List K) : Except Fault (List K) :=
  w.mapM fun x => if x < 0 then .error .notANumber else .ok (sqrt x)

/-- `TkNabla` and `TkBigOPlus`, VEM_MCC_2D_Velocity_LocalSpace.cpp:118-131 and 141: the gradients of the monomials of degree 1 to `order + 1`
expressed by the monomials of degree at most `order` of the two components, and the last right singular vectors of that matrix. -/
def mccTk (svd : DMat K → DMat K) (mono : MonoData) (diameter : K) (nk nkNabla : Nat) : Except Fault (DMat K × DMat K) := do
  let dx ← (⟨mono.num, mono.num, fun i j => (mono.der 0 i j : K)⟩ : DMat K).block (mono.num - nkNabla) 0 nkNabla nk
  let dy ← (⟨mono.num, mono.num, fun i j => (mono.der 1 i j : K)⟩ : DMat K).block (mono.num - nkNabla) 0 nkNabla nk
  let tNabla ← DMat.beside nkNabla (2 * nk) (.smul (1 / diameter) dx) (.smul (1 / diameter) dy)
  let V := (svd tNabla).tr
  let R ← V.block 0 (V.cols - (2 * nk - nkNabla)) V.rows (2 * nk - nkNabla)
  .ok (tNabla, R.tr)

/-- The values of the vector polynomials at points, first components then second components: VEM_MCC_2D_Velocity_LocalSpace.cpp:133-139,
143-148 (also 246-259 and VEM_MCC_2D_Velocity_LocalSpace.hpp:123-134). `V` holds the values of the monomials. -/
def mccFields (nk points : Nat) (tNabla tPlus V : DMat K) : Except Fault (DMat K) := do
  let V2 ← DMat.twice (2 * nk) (2 * points) V.tr
  let gNabla ← tNabla.mul V2
  let gPlus ← tPlus.mul V2
  DMat.stack (2 * nk) (2 * points) gNabla gPlus

/-- `InitializeProjectorsComputation`, VEM_MCC_2D_Velocity_LocalSpace.cpp:70-155. -/
def mccInit2D (svd : DMat K → DMat K) (sqrt : K → K) (ref : MccRef2D K) (numEdges : Nat) (centroid : K × K) (diameter : K)
    (internal : Rule (K × K) K) (bndPoints : List (K × K)) : Except Fault (MccInit2D K) := do
  let nk := (ref.order + 1) * (ref.order + 2) / 2
  let nkNabla := nk + (ref.order + 1)
  let numBoundary := ref.dofs1D * numEdges
  let vanderIntKp1 ← vanderMat ref.mono internal.points centroid diameter
  let vanderInt ← vanderIntKp1.block 0 0 vanderIntKp1.rows nk
  let vanderBndKp1 ← vanderMat ref.mono bndPoints centroid diameter
  let vanderBnd ← vanderBndKp1.block 0 0 vanderBndKp1.rows nk
  let sq ← sqrtArray sqrt internal.weights
  let temp ← DMat.scaleRows sq vanderInt
  let H ← temp.tr.mul temp
  let T ← mccTk svd ref.mono diameter nk nkNabla
  let gk ← mccFields nk internal.weights.length T.1 T.2 vanderInt
  let tempG ← DMat.scaleRows (sq ++ sq) gk.tr
  let G ← tempG.tr.mul tempG
  .ok ⟨nk, nkNabla, numBoundary, nk - 1, nk - (ref.order + 1), ref.dofs2D, numBoundary + ref.dofs2D, vanderIntKp1, vanderInt, vanderBndKp1, vanderBnd, H,
    .identity ref.mono.num, T.1, T.2, gk, G⟩

/-- One pass of the loop over the edges in `ComputeValuesOnBoundary`, VEM_MCC_2D_Velocity_LocalSpace.cpp:212-229: the two components of the
normals times the direction, the directions, and the offset. -/
def mccEdgeStep (g : PolyEdges K) (order : Nat) (s : (List K × List K × List K) × Nat) (i : Nat) : Except Fault ((List K × List K × List K) × Nat) := do
  let nrm ← unchecked g.normals i
  let dir ← unchecked g.dirs i
  let direction : K := if dir then 1 else -1
  let nx ← writeSeg s.1.1 s.2 (order + 1) (List.replicate (order + 1) (nrm.1 * direction))
  let ny ← writeSeg s.1.2.1 s.2 (order + 1) (List.replicate (order + 1) (nrm.2 * direction))
  let ds ← writeSeg s.1.2.2 s.2 (order + 1) (List.replicate (order + 1) direction)
  .ok ((nx, ny, ds), s.2 + (order + 1))

/-- `edgeNormalsVector` and `edgeDirectionsVector`, VEM_MCC_2D_Velocity_LocalSpace.cpp:204-229. The directions are not initialised by the code;
the model has zeros there. -/
def mccEdgeVectors (g : PolyEdges K) (order numBoundary : Nat) : Except Fault (List K × List K × List K) := do
  let z := List.replicate numBoundary 0
  let s ← (List.range g.vertices.length).foldlM (mccEdgeStep g order) ((z, z, z), 0)
  .ok s.1

/-- `ComputeValuesOnBoundary`, VEM_MCC_2D_Velocity_LocalSpace.cpp:196-262: `W2`, `B2Nabla` and `GkVanderBoundaryTimesNormal`. -/
def mccBoundary (g : PolyEdges K) (order : Nat) (s : MccInit2D K) (bndWeights : List K) : Except Fault (DMat K × DMat K × DMat K) := do
  let e ← mccEdgeVectors g order s.numBoundary
  let wd ← cwiseProduct bndWeights e.2.2
  let X ← s.vanderBnd.tr.mulDiag wd
  let W2 ← (DMat.zero s.nk s.numBasis).assign 0 0 s.nk s.numBoundary X
  let R ← s.vanderBndKp1.block 0 (s.vanderBndKp1.cols - s.nkNabla) s.vanderBndKp1.rows s.nkNabla
  let Y ← R.tr.mulDiag wd
  let B2 ← (DMat.zero s.nkNabla s.numBasis).assign 0 0 s.nkNabla s.numBoundary Y
  let N ← DMat.stack (2 * s.numBoundary) s.numBoundary (.diag e.1) (.diag e.2.1)
  let gk ← mccFields s.nk bndWeights.length s.tNabla s.tPlus s.vanderBnd
  let Z ← gk.mul N
  .ok (W2, B2, Z.tr)

/-- `ComputeDivergenceCoefficients`, VEM_MCC_2D_Velocity_LocalSpace.cpp:157-172: `Wmatrix` and `Vmatrix`. -/
def mccDivergence (llt : Solver K) (order : Nat) (measure : K) (s : MccInit2D K) (W2 : DMat K) : Except Fault (DMat K × DMat K) := do
  let W1 ← (if 0 < order then
      (DMat.zero s.nk s.numBasis).assign 1 s.numBoundary s.numNabla s.numNabla (.smul (-measure) (.identity s.numNabla))
    else .ok (DMat.zero s.nk s.numBasis))
  let W ← W1.add W2
  .ok (W, llt s.H W)

/-- `ComputeL2Projectors`, VEM_MCC_2D_Velocity_LocalSpace.cpp:174-194: `Bmatrix` and `Pi0k`. -/
def mccL2 (llt : Solver K) (measure : K) (weights : List K) (s : MccInit2D K) (B2 V : DMat K) : Except Fault (DMat K × DMat K) := do
  let R ← s.vanderIntKp1.block 0 (s.vanderIntKp1.cols - s.nkNabla) s.vanderIntKp1.rows s.nkNabla
  let RW ← R.tr.mulDiag weights
  let HH ← RW.mul s.vanderInt
  let B1 ← (DMat.smul (-1) HH).mul V
  let BN ← B1.add B2
  let BP ← (DMat.zero s.numPlus s.numBasis).assign 0 (s.numBasis - s.numPlus) s.numPlus s.numPlus (.smul measure (.identity s.numPlus))
  let B ← DMat.stack (2 * s.nk) s.numBasis BN BP
  .ok (B, llt s.G B)

/-- `ComputePolynomialBasisDofs`, VEM_MCC_Utilities.hpp:31-55. -/
def mccDofs (order : Nat) (measure : K) (s : MccInit2D K) (gkBnd : DMat K) : Except Fault (DMat K) := do
  let D ← (DMat.zero s.numBasis (2 * s.nk)).assign 0 0 s.numBoundary (2 * s.nk) gkBnd
  if 0 < order then do
    let T ← s.G.block 0 0 s.numNabla s.G.cols
    let D ← D.assign s.numBoundary 0 s.numNabla (2 * s.nk) (.smul (1 / measure) T)
    let B ← s.G.block (s.G.rows - s.numPlus) 0 s.numPlus s.G.cols
    D.assign (D.rows - s.numPlus) 0 s.numPlus D.cols (.smul (1 / measure) B)
  else .ok D

/-- `VEM_MCC_2D_Velocity_LocalSpace_Data`, VEM_MCC_2D_LocalSpace_Data.hpp:41-100. -/
structure MccSpace2D (K : Type) where
  init : MccInit2D K
  internal : Rule (K × K) K
  boundary : EdgesRule K
  gkBnd : DMat K
  W : DMat K
  V : DMat K
  B : DMat K
  pi0k : DMat K
  D : DMat K

/-- `CreateLocalSpace` of the velocity, VEM_MCC_2D_Velocity_LocalSpace.cpp:25-68. The polygon data are those of
VEM_MCC_2D_LocalSpace_Data.hpp:25-39, the same fields as in the primal formulation. -/
def mccCreate2D (svd : DMat K → DMat K) (sqrt : K → K) (llt : Solver K) (ref : MccRef2D K) (poly : VemPolygon K) : Except Fault (MccSpace2D K) := do
  let internal ← polygonQuad ref.triangle poly.tris
  let boundary ← edgesQuad poly.edges ref.segment
  let s ← mccInit2D svd sqrt ref poly.edges.lengths.length poly.centroid poly.diameter internal boundary.points
  let b ← mccBoundary poly.edges ref.order s boundary.weights
  let d ← mccDivergence llt ref.order poly.measure s b.1
  let p ← mccL2 llt poly.measure internal.weights s b.2.1 d.2
  let D ← mccDofs ref.order poly.measure s b.2.2
  .ok ⟨s, internal, boundary, b.2.2, d.1, d.2, p.1, p.2, D⟩

/-- `ComputeDofiDofiStabilizationMatrix`, VEM_MCC_Utilities.hpp:57-67 with the arguments of VEM_MCC_2D_Velocity_LocalSpace.hpp:84-94 (the only
projection type is `Pi0k`). -/
def mccStabilization (measure : K) (s : MccSpace2D K) : Except Fault (DMat K) := do
  let P ← s.D.mul s.pi0k
  let S := P.subOne
  (DMat.smul measure S.tr).mul S

/-- The two parts of a matrix of values, VEM_MCC_Utilities.hpp:230-237 and VEM_MCC_2D_Velocity_LocalSpace.hpp:136-143. -/
def mccSplit (points : Nat) (gk pi0k : DMat K) : Except Fault (List (DMat K)) := do
  let temp ← gk.tr.mul pi0k
  (List.range 2).mapM fun d => temp.block (points * d) 0 points temp.cols

/-- `ComputeBasisFunctionsValues` at the quadrature points, VEM_MCC_2D_Velocity_LocalSpace.hpp:96-106 and VEM_MCC_Utilities.hpp:226-238. -/
def mccValues (s : MccSpace2D K) : Except Fault (List (DMat K)) := mccSplit (s.init.gkInt.cols / 2) s.init.gkInt s.pi0k

/-- `ComputeBasisFunctionsValues` at given points, VEM_MCC_2D_Velocity_LocalSpace.hpp:108-148. -/
def mccValuesAt (ref : MccRef2D K) (poly : VemPolygon K) (s : MccSpace2D K) (points : List (K × K)) : Except Fault (List (DMat K)) := do
  let V1 ← vanderMat ref.mono points poly.centroid poly.diameter
  let V ← V1.block 0 0 V1.rows s.init.nk
  let gk ← mccFields s.init.nk points.length s.init.tNabla s.init.tPlus V
  mccSplit points.length gk s.pi0k

/-- `ComputeBasisFunctionsDivergenceValues`, VEM_MCC_2D_Velocity_LocalSpace.hpp:150-153. -/
def mccDivergenceValues (s : MccSpace2D K) : Except Fault (DMat K) := s.init.vanderInt.mul s.V

/-- `VEM_MCC_2D_Pressure_LocalSpace_Data` (VEM_MCC_2D_LocalSpace_Data.hpp:102-120) with the monomials of the reference element. `q` is `Qmatrix`. -/
structure MccPressure2D (K : Type) where
  mono : MonoData
  numBasis : Nat
  nk : Nat
  internal : Rule (K × K) K
  vander : DMat K
  q : DMat K
  H : DMat K

/-- `CreateLocalSpace` of the pressure, VEM_MCC_2D_Pressure_LocalSpace.cpp:24-68, for the reference element of
VEM_MCC_2D_ReferenceElement.hpp:29-46. `Qmatrix` is not set: an `Eigen::MatrixXd` that is not set has no rows and no columns. -/
def mccPressure2D (sqrt : K → K) (triangle : Nat → Rule (K × K) K) (order : Nat) (poly : VemPolygon K) : Except Fault (MccPressure2D K) := do
  let mono := compute mono2 order
  let internal ← polygonQuad (triangle (u32 (2 * u32 (order + 1)))) poly.tris
  let vander ← vanderMat mono internal.points poly.centroid poly.diameter
  let sq ← sqrtArray sqrt internal.weights
  let temp ← DMat.scaleRows sq vander
  let H ← temp.tr.mul temp
  .ok ⟨mono, u32 (u32 (order + 1) * u32 (order + 2)) / 2, (order + 1) * (order + 2) / 2, internal, vander, .zero 0 0, H⟩

/-- `ComputeBasisFunctionsValues` of the pressure at the quadrature points, VEM_MCC_2D_Pressure_LocalSpace.hpp:49-52 (also 62-65). -/
def mccPressureValues (p : MccPressure2D K) : Except Fault (DMat K) := p.vander.mul p.q.tr

/-- `ComputeBasisFunctionsValues` of the pressure at given points, VEM_MCC_2D_Pressure_LocalSpace.hpp:54-60 (also 67-73). -/
def mccPressureValuesAt (poly : VemPolygon K) (p : MccPressure2D K) (points : List (K × K)) : Except Fault (DMat K) := do
  let V ← vanderMat p.mono points poly.centroid poly.diameter
  V.mul p.q.tr

/-- `CreateLocalSpace`, `VEM_MCC` branch, PolyDiM/src/PDETools/LocalSpace/LocalSpace_MCC_2D.cpp:99-130: both spaces; `Qmatrix` of the pressure is
taken from the velocity. -/
def mccLocalSpace (svd : DMat K → DMat K) (sqrt : K → K) (llt : Solver K) (triangle : Nat → Rule (K × K) K) (edge : Nat → Rule K K) (order : Nat)
    (poly : VemPolygon K) : Except Fault (MccSpace2D K × MccPressure2D K) := do
  let v ← mccCreate2D svd sqrt llt (mccRef2D triangle edge order) poly
  let p ← mccPressure2D sqrt triangle order poly
  let q ← v.init.qKp1.block 0 0 v.init.nk v.init.nk
  .ok (v, { p with q := q })

/-- `VelocityBasisFunctionsValuesOnEdges`, `VEM_MCC` branch, LocalSpace_MCC_2D.cpp:252-259. -/
def mccValuesOnEdge (g : PolyEdges K) (ref : MccRef2D K) (e : Nat) : Except Fault (DMat K) := do
  let dir ← unchecked g.dirs e
  .ok (.smul (if dir then 1 else -1) (.identity ref.dofs1D))

/-- `middleCols(n * e, n)` of the points or `segment(n * e, n)` of the weights, LocalSpace_MCC_2D.cpp:348-353 and 438-440. -/
def middle {α : Type} (l : List α) (n e : Nat) : Except Fault (List α) :=
  if n * e + n ≤ l.length then .ok ((l.drop (n * e)).take n) else .error .undefinedBehaviour

/-- `EdgeQuadrature`, VEM branch, LocalSpace_MCC_2D.cpp:340-355. -/
def mccEdgeQuadrature (ref : MccRef2D K) (s : MccSpace2D K) (e : Nat) : Except Fault (Rule (K × K) K) := do
  let points ← middle s.boundary.points ref.segment.points.length e
  let weights ← middle s.boundary.weights ref.segment.points.length e
  .ok ⟨points, weights⟩

/-- `EdgeDofsCoordinates`, `VEM_MCC` branch, LocalSpace_MCC_2D.cpp:432-442 (points only). -/
def mccEdgeCoords (ref : MccRef2D K) (s : MccSpace2D K) (e : Nat) : Except Fault (List (K × K)) := middle s.boundary.points ref.dofs1D e

/-- `EdgeDofs`, `VEM_MCC` branch, LocalSpace_MCC_2D.cpp:473-479. -/
def mccEdgeDofs (g : PolyEdges K) (e : Nat) (values : List K) : Except Fault (List K) := do
  let dir ← unchecked g.dirs e
  .ok (values.map ((if dir then 1 else -1) * ·))

end PolyDiM
