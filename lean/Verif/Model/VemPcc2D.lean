import Verif.Model.Mat
import Verif.Model.Monomials
import Verif.Model.Quadrature

/-!
# Model: the VEM local space of the primal formulation on polygons

PolyDiM/src/VEM/PCC/VEM_PCC_Utilities.hpp, PolyDiM/src/VEM/PCC/2D/VEM_PCC_2D_ReferenceElement.hpp,
PolyDiM/src/VEM/PCC/2D/VEM_PCC_2D_LocalSpace.{hpp,cpp}.

Eigen's linear solvers are parameters: `lu` stands for `A.partialPivLu().solve(B)`, `llt` for `A.llt().solve(B)`.
-/

namespace PolyDiM

variable {K : Type} [Field K] [LinearOrder K]

/-- A linear solver (VEM_PCC_2D_LocalSpace.cpp:355, VEM_PCC_Utilities.hpp:70-71): matrix and right-hand sides to solutions. -/
abbrev Solver (K : Type) := DMat K → DMat K → DMat K

/-- The coordinates of a point of the plane, the third one is zero (the points are 3 × n matrices, Monomials_Utilities.hpp:34-37). -/
def planeCoord (p : K × K) (d : Nat) : K := if d = 0 then p.1 else if d = 1 then p.2 else 0

/-- `Monomials_2D::Vander` as matrix, Monomials_2D.hpp:53-59 and Monomials_Utilities.hpp:34-71: one row per point. -/
def vanderMat (data : MonoData) (points : List (K × K)) (c : K × K) (h : K) : Except Fault (DMat K) := do
  let rows ← points.mapM fun p => (List.range data.num).mapM (vander data (planeCoord p) (planeCoord c) h)
  .ok ⟨points.length, data.num, fun i j => (rows.getD i []).getD j 0⟩

/-- One of the matrices of `Monomials_2D::VanderDerivatives`, Monomials_2D.hpp:61-66 and Monomials_Utilities.hpp:73-104. -/
def vanderDerMat (data : MonoData) (V : DMat K) (h : K) (d : Nat) : Except Fault (DMat K) := do
  let rows ← (List.range V.rows).mapM fun i => (List.range data.num).mapM (vanderDer mono2 data (V.ent i) h d)
  .ok ⟨V.rows, data.num, fun i j => (rows.getD i []).getD j 0⟩

/-- `VEM_PCC_2D_ReferenceElement_Data` (I_VEM_PCC_2D_ReferenceElement.hpp): order, DOFs per cell of dimension 1 and 2, monomials, quadrature
rules of the reference triangle and edge. -/
structure VemRef2D (K : Type) where
  order : Nat
  dofs1D : Nat
  dofs2D : Nat
  mono : MonoData
  triangle : Rule (K × K) K
  ts : List K
  ws : List K
  ext : K × K

/-- `VEM_PCC_2D_ReferenceElement::Create`, VEM_PCC_2D_ReferenceElement.hpp:28-46. `triangle` and `edge` are the tables of Gedim. -/
def vemRef2D (triangle : Nat → Rule (K × K) K) (edge : Nat → Rule K K) (order : Nat) : Except Fault (VemRef2D K) := do
  let s ← pccEdgeRule edge order
  .ok ⟨order, u32 (order + 4294967295), u32 (order * u32 (order + 4294967295)) / 2, compute mono2 order, triangle (u32 (2 * order)), s.1, s.2.1, s.2.2⟩

/-- `VEM_PCC_2D_Polygon_Geometry`, VEM_PCC_2D_LocalSpace_Data.hpp:25-39. -/
structure VemPolygon (K : Type) where
  edges : PolyEdges K
  centroid : K × K
  measure : K
  diameter : K
  tris : List (Tri2 K)

/-- The part of `VEM_PCC_2D_LocalSpace_Data` (VEM_PCC_2D_LocalSpace_Data.hpp:41-101) set by `InitializeProjectorsComputation`. -/
structure VemInit2D (K : Type) where
  numVertex : Nat
  numEdge : Nat
  numInternal : Nat
  numBasis : Nat
  numProj : Nat
  nkm1 : Nat
  nkm2 : Nat
  vanderInt : DMat K
  vanderIntX : DMat K
  vanderIntY : DMat K
  vanderBnd : DMat K
  vanderBndX : DMat K
  vanderBndY : DMat K
  H : DMat K

/-- `InitializeProjectorsComputation`, VEM_PCC_2D_LocalSpace.cpp:260-313. -/
def vemInit2D (ref : VemRef2D K) (poly : VemPolygon K) (internal : Rule (K × K) K) (bndPoints : List (K × K)) : Except Fault (VemInit2D K) := do
  let numVertex := poly.edges.vertices.length
  let numEdge := ref.dofs1D * numVertex
  let numProj := ref.mono.num
  let vanderInt ← vanderMat ref.mono internal.points poly.centroid poly.diameter
  let vanderIntX ← vanderDerMat ref.mono vanderInt poly.diameter 0
  let vanderIntY ← vanderDerMat ref.mono vanderInt poly.diameter 1
  let vanderBnd ← vanderMat ref.mono bndPoints poly.centroid poly.diameter
  let vanderBndX ← vanderDerMat ref.mono vanderBnd poly.diameter 0
  let vanderBndY ← vanderDerMat ref.mono vanderBnd poly.diameter 1
  let VW ← vanderInt.tr.mulDiag internal.weights
  let H ← VW.mul vanderInt
  .ok ⟨numVertex, numEdge, ref.dofs2D, numVertex + numEdge + ref.dofs2D, numProj, numProj - ref.order - 1, (ref.order - 1) * ref.order / 2,
    vanderInt, vanderIntX, vanderIntY, vanderBnd, vanderBndX, vanderBndY, H⟩

/-- `G` before its first row is replaced, VEM_PCC_2D_LocalSpace.cpp:324-327. -/
def vemGradGrad (X Y : DMat K) (w : List K) : Except Fault (DMat K) := do
  let XW ← X.tr.mulDiag w
  let GX ← XW.mul X
  let YW ← Y.tr.mulDiag w
  let GY ← YW.mul Y
  GX.add GY

/-- The case distinction on the order in `ComputePiNabla`, VEM_PCC_2D_LocalSpace.cpp:336-353. -/
def vemPiNablaRows (ref : VemRef2D K) (s : VemInit2D K) (measure diameter : K) (intWeights bndWeights : List K) (G B : DMat K) :
    Except Fault (DMat K × DMat K) :=
  if ref.order = 1 then do
    let B ← B.assign 0 0 1 B.cols (.row bndWeights)
    let g ← s.vanderBnd.tr.mul (.col bndWeights)
    let G ← G.assign 0 0 1 G.cols g.tr
    .ok (G, B)
  else do
    let g ← s.vanderInt.tr.mul (.col intWeights)
    let G ← G.assign 0 0 1 G.cols g.tr
    let L ← (⟨s.numProj, s.numProj, fun i j => (ref.mono.lap i j : K)⟩ : DMat K).block 0 0 s.numProj s.numInternal
    let B ← B.assign 0 (B.cols - s.numInternal) B.rows s.numInternal (.smul (-measure / (diameter * diameter)) L)
    let B ← B.assign 0 (s.numVertex + s.numEdge) 1 1 (.row [measure])
    .ok (G, B)

/-- `ComputePiNabla`, VEM_PCC_2D_LocalSpace.cpp:315-356: the matrices `G`, `B` and the projector. -/
def vemPiNabla (lu : Solver K) (ref : VemRef2D K) (s : VemInit2D K) (measure diameter : K) (intWeights : List K) (bnd : EdgesRule K) :
    Except Fault (DMat K × DMat K × DMat K) := do
  let G ← vemGradGrad s.vanderIntX s.vanderIntY intWeights
  let BX ← s.vanderBndX.tr.mulDiag bnd.nx
  let BY ← s.vanderBndY.tr.mulDiag bnd.ny
  let BB ← BX.add BY
  let B ← (DMat.zero s.numProj s.numBasis).assign 0 0 s.numProj (s.numVertex + s.numEdge) BB
  let GB ← vemPiNablaRows ref s measure diameter intWeights bnd.weights G B
  .ok (GB.1, GB.2, lu GB.1 GB.2)

/-- The internal DOFs in `ComputeL2Projectors`, VEM_PCC_Utilities.hpp:62-68. -/
def vemL2Internal (measure : K) (order numInternal numBasis : Nat) (C : DMat K) : Except Fault (DMat K) :=
  if 1 < order then do
    let C ← C.assign 0 0 numInternal (numBasis - numInternal) (.zero numInternal (numBasis - numInternal))
    C.assign 0 (C.cols - numInternal) numInternal numInternal (.smul measure (.identity numInternal))
  else .ok C

/-- `VEM_PCC_Utilities::ComputeL2Projectors`, VEM_PCC_Utilities.hpp:46-72: `C`, `Pi0km1`, `Pi0k`. -/
def vemL2Projectors (llt : Solver K) (measure : K) (order nkm1 nk numInternal numBasis : Nat) (H piNabla : DMat K) :
    Except Fault (DMat K × DMat K × DMat K) := do
  let HB ← H.block (H.rows - (nk - numInternal)) 0 (nk - numInternal) H.cols
  let X ← HB.mul piNabla
  let C ← (DMat.zero nk numBasis).assign (nk - (nk - numInternal)) 0 (nk - numInternal) numBasis X
  let C ← vemL2Internal measure order numInternal numBasis C
  let Hk ← H.block 0 0 nkm1 nkm1
  let Ck ← C.block 0 0 nkm1 C.cols
  .ok (C, llt Hk Ck, llt H C)

/-- `ComputePolynomialsDofs`, VEM_PCC_2D_LocalSpace.cpp:358-371. -/
def vemDofs (order : Nat) (s : VemInit2D K) (measure : K) : Except Fault (DMat K) := do
  let D ← (DMat.zero s.numBasis s.numProj).assign 0 0 (s.numVertex + s.numEdge) s.numProj s.vanderBnd
  if 1 < order then do
    let T ← s.H.block 0 0 s.numInternal s.H.cols
    D.assign (D.rows - s.numInternal) 0 s.numInternal D.cols ⟨T.rows, T.cols, fun i j => T.ent i j / measure⟩
  else .ok D

/-- One direction of `ComputeL2ProjectorsOfDerivatives`, VEM_PCC_2D_LocalSpace.cpp:379-399: the matrix `E` and the projector. `D` is the
derivative matrix of the monomials. -/
def vemDerProjector (llt : Solver K) (order : Nat) (s : VemInit2D K) (measure diameter : K) (wn : List K) (D : DMat K) :
    Except Fault (DMat K × DMat K) := do
  let V ← s.vanderBnd.block 0 0 s.vanderBnd.rows s.nkm1
  let X ← V.tr.mulDiag wn
  let E ← (DMat.zero s.nkm1 s.numBasis).assign 0 0 s.nkm1 (s.numVertex + s.numEdge) X
  let E ← (if 1 < order then do
      let T ← D.block 0 0 s.nkm1 s.numInternal
      E.assign 0 (E.cols - s.numInternal) E.rows s.numInternal (.smul (-(measure / diameter)) T)
    else .ok E)
  let Hk ← s.H.block 0 0 s.nkm1 s.nkm1
  .ok (E, llt Hk E)

/-- `VEM_PCC_2D_LocalSpace_Data` (VEM_PCC_2D_LocalSpace_Data.hpp:41-101). -/
structure VemSpace2D (K : Type) where
  init : VemInit2D K
  internal : Rule (K × K) K
  boundary : EdgesRule K
  G : DMat K
  B : DMat K
  piNabla : DMat K
  C : DMat K
  pi0km1 : DMat K
  pi0k : DMat K
  derX : DMat K
  derY : DMat K
  D : DMat K
  eX : DMat K
  eY : DMat K

/-- `CreateLocalSpace`, VEM_PCC_2D_LocalSpace.cpp:24-72. -/
def vemCreate2D (lu llt : Solver K) (ref : VemRef2D K) (poly : VemPolygon K) : Except Fault (VemSpace2D K) := do
  let internal ← polygonQuad ref.triangle poly.tris
  let boundary ← lobattoQuad poly.edges ref.ts ref.ws ref.ext
  let s ← vemInit2D ref poly internal boundary.points
  let P ← vemPiNabla lu ref s poly.measure poly.diameter internal.weights boundary
  let L ← vemL2Projectors llt poly.measure ref.order s.nkm1 s.numProj s.numInternal s.numBasis s.H P.2.2
  let EX ← vemDerProjector llt ref.order s poly.measure poly.diameter boundary.nx ⟨s.numProj, s.numProj, fun i j => (ref.mono.der 0 i j : K)⟩
  let EY ← vemDerProjector llt ref.order s poly.measure poly.diameter boundary.ny ⟨s.numProj, s.numProj, fun i j => (ref.mono.der 1 i j : K)⟩
  let D ← vemDofs ref.order s poly.measure
  .ok ⟨s, internal, boundary, P.1, P.2.1, P.2.2, L.1, L.2.1, L.2.2, EX.2, EY.2, D, EX.1, EY.1⟩

/-- `ComputeDofiDofiStabilizationMatrix`, VEM_PCC_Utilities.hpp:234-243. -/
def dofiDofi (projector : DMat K) (coefficient : K) (D : DMat K) : Except Fault (DMat K) := do
  let P ← D.mul projector
  let S := P.subOne
  (DMat.smul coefficient S.tr).mul S

/-- `ComputeDRecipeStabilizationMatrix`, VEM_PCC_Utilities.hpp:245-263. -/
def dRecipe (projector coercivity : DMat K) (coefficients : List K) (D : DMat K) : Except Fault (DMat K) := do
  let P ← D.mul projector
  let S := P.subOne
  if coercivity.cols ≤ coercivity.rows ∧ coefficients.length = coercivity.cols then do
    let weights := coefficients.zipIdx.map fun x => max (coercivity.ent x.2 x.2) x.1
    let SW ← S.tr.mulDiag weights
    SW.mul S
  else .error .undefinedBehaviour

end PolyDiM
