import Verif.Model.VemMcc2D
import Verif.Model.GBasis
import Verif.Model.Lagrange

/-!
# Model: the divergence-free virtual element on polygons

PolyDiM/src/VEM/DF_PCC/2D/VEM_DF_PCC_2D_ReferenceElement.hpp, VEM_DF_PCC_2D_Velocity_LocalSpace.{hpp,cpp},
VEM_DF_PCC_2D_Pressure_LocalSpace.{hpp,cpp}, the reduced versions of these files (VEM_DF_PCC_2D_Reduced_*) and
PolyDiM/src/VEM/DF_PCC/VEM_DF_PCC_Utilities.hpp.

The reduced classes repeat the code of the full ones except for the functions that take the flag `reduced` or have a `Reduced` version here; line
numbers refer to the full version unless said otherwise. Library calls are parameters: `lu` stands for `A.partialPivLu().solve(B)`, `llt` for
`A.llt().solve(B)`, `sqrt` for `std::sqrt`, `triangle` and `edge` for the tables of Gedim. The sizes of the local space are unbounded natural
numbers. Vectors of two matrices, one per component, are pairs.
-/

namespace PolyDiM

/-- `A.block(r, c, m, n) += X`, e.g. VEM_DF_PCC_2D_Velocity_LocalSpace.cpp:283. -/
def DMat.addBlock {K : Type} [Field K] (A : DMat K) (r c m n : Nat) (X : DMat K) : Except Fault (DMat K) :=
  if X.rows = m ∧ X.cols = n ∧ r + m ≤ A.rows ∧ c + n ≤ A.cols then
    .ok ⟨A.rows, A.cols, fun i j => if r ≤ i ∧ i < r + m ∧ c ≤ j ∧ j < c + n then A.ent i j + X.ent (i - r) (j - c) else A.ent i j⟩
  else .error .undefinedBehaviour

/-- `v[d]` for a vector of two matrices, e.g. VEM_DF_PCC_2D_Velocity_LocalSpace.cpp:325. -/
def pick {α : Type} (x : α × α) (d : Nat) : α := if d = 0 then x.1 else x.2

variable {K : Type} [Field K] [LinearOrder K]

/-- `VEM_DF_PCC_2D_Velocity_ReferenceElement_Data` (I_VEM_DF_PCC_2D_ReferenceElement.hpp): order, DOFs per edge, internal DOFs of the divergence and of
the orthogonal complement, monomials, decomposition of vector polynomials, rule of the triangle, and the two edge rules (internal points, internal
weights, weights of the ends). -/
structure DfRef2D (K : Type) where
  reduced : Bool
  order : Nat
  dofs1D : Nat
  dofsDiv : Nat
  dofsBig : Nat
  mono : MonoData
  gbasis : GData K
  triangle : Rule (K × K) K
  segment : List K × List K × (K × K)
  edge : List K × List K × (K × K)

/-- `VEM_DF_PCC_2D_Velocity_ReferenceElement::Create`, VEM_DF_PCC_2D_ReferenceElement.hpp:52-72 (VEM_DF_PCC_2D_Reduced_ReferenceElement.hpp:52-72), with
`Compute_DF_PCC_2D`, PolyDiM/src/VEM/Quadrature/VEM_Quadrature_2D.cpp:66-113. -/
def dfRef2D (reduced : Bool) (triangle : Nat → Rule (K × K) K) (edge : Nat → Rule K K) (order : Nat) : Except Fault (DfRef2D K) := do
  let g ← gbasis2 K order
  let s ← dfSegmentRule edge order
  let e ← pccEdgeRule edge order
  .ok ⟨reduced, order, u32 (order + 4294967295), if reduced then 0 else u32 (u32 (order * u32 (order + 1)) / 2 + 4294967295),
    u32 (u32 (order + 4294967294) * u32 (order + 4294967295)) / 2, compute mono2 order, g, triangle (u32 (2 * order)), s, e⟩

/-- The matrix `VectorDecomposition[d][p]` of `GBasis_Data` (VEM_DF_PCC_2D_Velocity_LocalSpace.cpp:148, GBasis_2D.cpp:46-50). -/
def dfDec (g : GData K) (d p : Nat) : DMat K := ⟨g.Nk, if p = 0 then g.Nkp1 else g.Nkm1, fun j q => (g.dec.getD j fun _ _ _ => 0) d p q⟩

/-- One of the matrices of `GBasis_2D::VanderGBigOPlus`, GBasis_2D.hpp:33-39 (VEM_DF_PCC_2D_Velocity_LocalSpace.cpp:147). -/
def dfGBig (g : GData K) (V : DMat K) (d : Nat) : Except Fault (DMat K) := do
  let rows ← (List.range V.rows).mapM fun i => (List.range g.Nkm1).mapM (gbig2 g V.cols (V.ent i) d)
  .ok ⟨V.rows, g.Nkm1, fun i j => (rows.getD i []).getD j 0⟩

/-- The interpolation points of an edge in `ComputeEdgeBasisCoefficients` and `ComputeValuesOnEdge`, VEM_DF_PCC_Utilities.hpp:40-41, 170-171: a vector of
`order + 1` entries filled with the ends and the internal points. -/
def dfEdgeNodes (order : Nat) (ts : List K) : Except Fault (List K) :=
  if ts.length + 2 = order + 1 then .ok (0 :: 1 :: ts) else .error .undefinedBehaviour

/-- `ComputeValuesOnEdge` with the coefficients of `ComputeEdgeBasisCoefficients`, VEM_DF_PCC_Utilities.hpp:37-43 and 165-173 (also
VEM_DF_PCC_2D_Velocity_LocalSpace.hpp:106-116): one row per coordinate. -/
def dfValuesOnEdge (order : Nat) (ts coordinates : List K) : Except Fault (DMat K) := do
  let nodes ← dfEdgeNodes order ts
  let rows ← coordinates.mapM fun x => (List.range nodes.length).mapM (lagValue nodes (lagCoefficients nodes) x)
  .ok ⟨coordinates.length, nodes.length, fun i j => (rows.getD i []).getD j 0⟩

/-- One pass of the loop over the edges that fills `VanderKp1EdgeProjections`, VEM_DF_PCC_2D_Velocity_LocalSpace.cpp:180-198. `F` holds the values of the
edge functions at the internal quadrature points, the state is the matrix and the offset. -/
def dfEdgeStep (dirs : List Bool) (n order : Nat) (F : DMat K) (s : DMat K × Nat) (e : Nat) : Except Fault (DMat K × Nat) := do
  let dir ← unchecked dirs e
  let origin := if dir then e else (e + 1) % n
  let target := if dir then (e + 1) % n else e
  let F0 ← F.block 0 0 F.rows 1
  let M ← s.1.assign s.2 origin F.rows 1 F0
  let F1 ← F.block 0 1 F.rows 1
  let M ← M.assign s.2 target F.rows 1 F1
  let F2 ← F.block 0 (F.cols - (order - 1)) F.rows (order - 1)
  let M ← M.assign s.2 (n + e * (order - 1)) F.rows (order - 1) F2
  .ok (M, s.2 + F.rows)

/-- `VanderKp1EdgeProjections`, VEM_DF_PCC_2D_Velocity_LocalSpace.cpp:154-198. -/
def dfEdgeProjections (dirs : List Bool) (n order numEdge : Nat) (ts ss : List K) : Except Fault (DMat K) := do
  let M ← (DMat.zero (n + order * n) (n + numEdge)).assign 0 0 n n (.identity n)
  let F ← dfValuesOnEdge order ts ss
  let r ← (List.range n).foldlM (dfEdgeStep dirs n order F) (M, n)
  .ok r.1

/-- The part of `VEM_DF_PCC_2D_Velocity_LocalSpace_Data` (VEM_DF_PCC_2D_LocalSpace_Data.hpp:41-105) set by `InitializeProjectorsComputation`. `nDiv` is
the number of coefficients of the divergence: `Nkm1`, in the reduced version 1 (VEM_DF_PCC_2D_Reduced_Velocity_LocalSpace.cpp:211, 280, 284). -/
structure DfInit2D (K : Type) where
  numVertex : Nat
  numEdge : Nat
  numBoundary : Nat
  numDiv : Nat
  numBig : Nat
  numInternal : Nat
  numBasis : Nat
  nkp1 : Nat
  nk : Nat
  nkm1 : Nat
  nkm2 : Nat
  nkm3 : Nat
  nDiv : Nat
  vanderInt : DMat K
  vanderIntD : DMat K × DMat K
  vanderBnd : DMat K
  vanderBndD : DMat K × DMat K
  vanderBndKp1 : DMat K
  gBig : DMat K × DMat K
  gBigKm2 : DMat K × DMat K
  edgeProj : DMat K
  HKp1 : DMat K
  H : DMat K

/-- `InitializeProjectorsComputation`, VEM_DF_PCC_2D_Velocity_LocalSpace.cpp:88-205 (VEM_DF_PCC_2D_Reduced_Velocity_LocalSpace.cpp:88-205). -/
def dfInit2D (sqrt : K → K) (ref : DfRef2D K) (poly : VemPolygon K) (internal : Rule (K × K) K) (bndPoints dofPoints : List (K × K)) :
    Except Fault (DfInit2D K) := do
  let n := poly.edges.vertices.length
  let numEdge := ref.dofs1D * n
  let numBoundary := 2 * (n + numEdge)
  let numInternal := ref.dofsDiv + ref.dofsBig
  let nk := (ref.order + 1) * (ref.order + 2) / 2
  let nkm1 := ref.order * (ref.order + 1) / 2
  let nkm3 := (ref.order - 2) * (ref.order - 1) / 2
  let vanderIntKp1 ← vanderMat ref.gbasis.mono internal.points poly.centroid poly.diameter
  let vanderInt ← vanderIntKp1.block 0 0 vanderIntKp1.rows nk
  let vanderIntX ← vanderDerMat ref.mono vanderInt poly.diameter 0
  let vanderIntY ← vanderDerMat ref.mono vanderInt poly.diameter 1
  let vanderBnd ← vanderMat ref.mono dofPoints poly.centroid poly.diameter
  let vanderBndX ← vanderDerMat ref.mono vanderBnd poly.diameter 0
  let vanderBndY ← vanderDerMat ref.mono vanderBnd poly.diameter 1
  let vanderBndKp1 ← vanderMat ref.gbasis.mono bndPoints poly.centroid poly.diameter
  let gX ← dfGBig ref.gbasis vanderInt 0
  let gY ← dfGBig ref.gbasis vanderInt 1
  let gX2 ← gX.block 0 0 gX.rows nkm3
  let gY2 ← gY.block 0 0 gY.rows nkm3
  let edgeProj ← dfEdgeProjections poly.edges.dirs n ref.order numEdge ref.edge.1 ref.segment.1
  let sq ← sqrtArray sqrt internal.weights
  let temp ← DMat.scaleRows sq vanderIntKp1
  let HKp1 ← temp.tr.mul temp
  let H ← HKp1.block 0 0 nk nk
  .ok ⟨n, numEdge, numBoundary, ref.dofsDiv, ref.dofsBig, numInternal, numBoundary + numInternal, (ref.order + 3) * (ref.order + 2) / 2, nk, nkm1,
    (ref.order - 1) * ref.order / 2, nkm3, if ref.reduced then 1 else nkm1, vanderInt, (vanderIntX, vanderIntY), vanderBnd, (vanderBndX, vanderBndY),
    vanderBndKp1, (gX, gY), (gX2, gY2), edgeProj, HKp1, H⟩

/-- `Wmatrix` in `ComputeDivergenceCoefficients`, VEM_DF_PCC_2D_Velocity_LocalSpace.cpp:210-225. -/
def dfW (s : DfInit2D K) (dofs : EdgesRule K) : Except Fault (DMat K) := do
  let W ← (DMat.zero s.nkm1 s.numBasis).assign 1 (s.numBoundary + s.numBig) s.numDiv s.numDiv (.identity s.numDiv)
  let W ← W.assign 0 0 1 (s.numVertex + s.numEdge) (.row dofs.nx)
  W.assign 0 (s.numVertex + s.numEdge) 1 (s.numVertex + s.numEdge) (.row dofs.ny)

/-- `Wmatrix` in the reduced `ComputeDivergenceCoefficients`, VEM_DF_PCC_2D_Reduced_Velocity_LocalSpace.cpp:211-218. -/
def dfWReduced (s : DfInit2D K) (dofs : EdgesRule K) : Except Fault (DMat K) := do
  let W ← (DMat.zero 1 s.numBasis).assign 0 0 1 (s.numVertex + s.numEdge) (.row dofs.nx)
  W.assign 0 (s.numVertex + s.numEdge) 1 (s.numVertex + s.numEdge) (.row dofs.ny)

/-- `ComputeDivergenceCoefficients`, VEM_DF_PCC_2D_Velocity_LocalSpace.cpp:207-228: `Wmatrix` and `Vmatrix`. -/
def dfDivergence (llt : Solver K) (s : DfInit2D K) (dofs : EdgesRule K) : Except Fault (DMat K × DMat K) := do
  let W ← dfW s dofs
  let Hk ← s.H.block 0 0 s.nkm1 s.nkm1
  .ok (W, llt Hk W)

/-- The reduced `ComputeDivergenceCoefficients`, VEM_DF_PCC_2D_Reduced_Velocity_LocalSpace.cpp:207-221. -/
def dfDivergenceReduced (measure : K) (s : DfInit2D K) (dofs : EdgesRule K) : Except Fault (DMat K × DMat K) := do
  let W ← dfWReduced s dofs
  .ok (W, .smul (1 / measure) W)

/-- `Dmatrix[d]` in `ComputePolynomialBasisDofs`, VEM_DF_PCC_2D_Velocity_LocalSpace.cpp:230-251; the reduced version
(VEM_DF_PCC_2D_Reduced_Velocity_LocalSpace.cpp:223-239) has no rows for the divergence. -/
def dfDofs (reduced : Bool) (s : DfInit2D K) (weights : List K) (d : Nat) : Except Fault (DMat K) := do
  let D ← (DMat.zero s.numBasis s.nk).assign (d * (s.numVertex + s.numEdge)) 0 (s.numVertex + s.numEdge) s.nk s.vanderBnd
  let GW ← (pick s.gBigKm2 d).tr.mulDiag weights
  let GV ← GW.mul s.vanderInt
  let D ← D.assign s.numBoundary 0 s.numBig D.cols GV
  if reduced then .ok D
  else do
    let V ← s.vanderInt.block 0 1 s.vanderInt.rows s.numDiv
    let VW ← V.tr.mulDiag weights
    let VD ← VW.mul (pick s.vanderIntD d)
    D.assign (D.rows - s.numDiv) 0 s.numDiv D.cols VD

/-- `Cmatrix[d]` in `ComputeCMatrixkm2`, VEM_DF_PCC_2D_Velocity_LocalSpace.cpp:253-296 (VEM_DF_PCC_2D_Reduced_Velocity_LocalSpace.cpp:241-284). -/
def dfC (g : GData K) (diameter : K) (s : DfInit2D K) (bnd : EdgesRule K) (V : DMat K) (d : Nat) : Except Fault (DMat K) := do
  let T ← (dfDec g d 0).block 0 1 s.nk (s.nkp1 - 1)
  let VB ← s.vanderBndKp1.block 0 1 s.vanderBndKp1.rows (s.nkp1 - 1)
  let X ← (DMat.smul diameter T).mul VB.tr
  let X0 ← X.mulDiag bnd.nx
  let Y0 ← X0.mul s.edgeProj
  let C ← (DMat.zero s.nk s.numBasis).assign 0 0 s.nk (s.numVertex + s.numEdge) Y0
  let X1 ← X.mulDiag bnd.ny
  let Y1 ← X1.mul s.edgeProj
  let C ← C.assign 0 (s.numVertex + s.numEdge) s.nk (s.numVertex + s.numEdge) Y1
  let P ← (dfDec g d 1).block 0 0 s.nk s.nkm3
  let C ← C.addBlock 0 s.numBoundary s.nk s.numBig P
  let Hb ← s.HKp1.block 1 0 (s.nkp1 - 1) s.nDiv
  let Z ← (DMat.smul (-diameter) T).mul Hb
  let Z ← Z.mul V
  C.add Z

/-- `Bmatrix[d]` in `ComputePiNabla`, VEM_DF_PCC_2D_Velocity_LocalSpace.cpp:349-366; `Ckm2` is `Cmatrixkm2[d]`. -/
def dfB (mono : MonoData) (measure diameter : K) (s : DfInit2D K) (dofs : EdgesRule K) (Ckm2 : DMat K) (d : Nat) : Except Fault (DMat K) := do
  let BX ← s.vanderBndD.1.tr.mulDiag dofs.nx
  let BY ← s.vanderBndD.2.tr.mulDiag dofs.ny
  let BB ← BX.add BY
  let r ← Ckm2.block 0 0 1 Ckm2.cols
  let B ← (DMat.zero s.nk s.numBasis).assign 0 0 1 s.numBasis (.smul (1 / measure) r)
  let B ← B.addBlock 0 (d * (s.numVertex + s.numEdge)) B.rows (s.numVertex + s.numEdge) BB
  let L ← (⟨mono.num, mono.num, fun i j => (mono.lap i j : K)⟩ : DMat K).block 0 0 s.nk s.nkm2
  let X ← (DMat.smul (-1 / (diameter * diameter)) L).mul Ckm2
  B.add X

/-- `Gmatrix` in `ComputePiNabla`, VEM_DF_PCC_2D_Velocity_LocalSpace.cpp:341-347. -/
def dfG (measure : K) (s : DfInit2D K) (weights : List K) : Except Fault (DMat K) := do
  let G ← vemGradGrad s.vanderIntD.1 s.vanderIntD.2 weights
  let g ← (DMat.smul (1 / measure) s.vanderInt.tr).mul (.col weights)
  G.assign 0 0 1 G.cols g.tr

/-- One term of `EnhancedMassMatrix` in `ComputeL2Projectors`, VEM_DF_PCC_2D_Velocity_LocalSpace.cpp:309-310. -/
def dfEnhancedTerm (s : DfInit2D K) (weights : List K) (piNabla : DMat K) (d : Nat) : Except Fault (DMat K) := do
  let GW ← (pick s.gBig d).tr.mulDiag weights
  let GV ← GW.mul s.vanderInt
  GV.mul piNabla

/-- `tmpE` in `ComputeL2Projectors`, VEM_DF_PCC_2D_Velocity_LocalSpace.cpp:306-312. -/
def dfEnhanced (s : DfInit2D K) (weights : List K) (piNabla : DMat K × DMat K) : Except Fault (DMat K) := do
  let E0 ← dfEnhancedTerm s weights piNabla.1 0
  let E ← (DMat.zero s.gBig.1.cols s.numBasis).add E0
  let E1 ← dfEnhancedTerm s weights piNabla.2 1
  let E ← E.add E1
  E.block s.nkm3 0 (s.nkm1 - s.nkm3) E.cols

/-- `Cmatrix[d]` after `ComputeL2Projectors`, VEM_DF_PCC_2D_Velocity_LocalSpace.cpp:314-320. -/
def dfCFull (g : GData K) (s : DfInit2D K) (E C : DMat K) (d : Nat) : Except Fault (DMat K) := do
  let P ← (dfDec g d 1).block s.nkm2 s.nkm3 (s.nk - s.nkm2) (s.nkm1 - s.nkm3)
  let X ← P.mul E
  C.addBlock (C.rows - (s.nk - s.nkm2)) 0 (s.nk - s.nkm2) C.cols X

/-- `Ematrix[2 d1 + d2]` in `ComputeL2ProjectorsOfDerivatives`, VEM_DF_PCC_2D_Velocity_LocalSpace.cpp:386-395; `Ckm2` is `Cmatrixkm2[d1]`. -/
def dfE (mono : MonoData) (diameter : K) (s : DfInit2D K) (dofs : EdgesRule K) (Ckm2 : DMat K) (d1 d2 : Nat) : Except Fault (DMat K) := do
  let T ← (⟨mono.num, mono.num, fun i j => (mono.der d2 i j : K)⟩ : DMat K).block 0 0 s.nkm1 s.nkm2
  let E ← (DMat.smul (-(1 / diameter)) T).mul Ckm2
  let V ← s.vanderBnd.block 0 0 s.vanderBnd.rows s.nkm1
  let X ← V.tr.mulDiag (if d2 = 0 then dofs.nx else dofs.ny)
  E.addBlock 0 (d1 * (s.numVertex + s.numEdge)) E.rows (s.numVertex + s.numEdge) X

/-- `VEM_DF_PCC_2D_Velocity_LocalSpace_Data` (VEM_DF_PCC_2D_LocalSpace_Data.hpp:41-105). `der` holds `Pi0km1Der` as rows for the component, entries for
the direction. -/
structure DfSpace2D (K : Type) where
  init : DfInit2D K
  internal : Rule (K × K) K
  boundary : EdgesRule K
  dofs : EdgesRule K
  W : DMat K
  V : DMat K
  D : DMat K × DMat K
  Ckm2 : DMat K × DMat K
  C : DMat K × DMat K
  G : DMat K
  B : DMat K × DMat K
  piNabla : DMat K × DMat K
  pi0k : DMat K × DMat K
  pi0km2 : DMat K × DMat K
  der : (DMat K × DMat K) × (DMat K × DMat K)
  measure : K

/-- `CreateLocalSpace`, VEM_DF_PCC_2D_Velocity_LocalSpace.cpp:24-86 (VEM_DF_PCC_2D_Reduced_Velocity_LocalSpace.cpp:24-86), with the solutions of the linear
systems (lines 298-300, 322-331, 368-371, 399-403). -/
def dfCreate2D (sqrt : K → K) (lu llt : Solver K) (ref : DfRef2D K) (poly : VemPolygon K) : Except Fault (DfSpace2D K) := do
  let internal ← polygonQuad ref.triangle poly.tris
  let boundary ← lobattoQuad poly.edges ref.segment.1 ref.segment.2.1 ref.segment.2.2
  let dofs ← lobattoQuad poly.edges ref.edge.1 ref.edge.2.1 ref.edge.2.2
  let s ← dfInit2D sqrt ref poly internal boundary.points dofs.points
  let D0 ← dfDofs ref.reduced s internal.weights 0
  let D1 ← dfDofs ref.reduced s internal.weights 1
  let WV ← (if ref.reduced then dfDivergenceReduced poly.measure s dofs else dfDivergence llt s dofs)
  let C0 ← dfC ref.gbasis poly.diameter s boundary WV.2 0
  let C1 ← dfC ref.gbasis poly.diameter s boundary WV.2 1
  let K0 ← C0.block 0 0 s.nkm2 C0.cols
  let K1 ← C1.block 0 0 s.nkm2 C1.cols
  let G ← dfG poly.measure s internal.weights
  let B0 ← dfB ref.mono poly.measure poly.diameter s dofs K0 0
  let B1 ← dfB ref.mono poly.measure poly.diameter s dofs K1 1
  let N0 := lu G B0
  let N1 := lu G B1
  let E ← dfEnhanced s internal.weights (N0, N1)
  let F0 ← dfCFull ref.gbasis s E C0 0
  let F1 ← dfCFull ref.gbasis s E C1 1
  let H2 ← s.H.block 0 0 s.nkm2 s.nkm2
  let E00 ← dfE ref.mono poly.diameter s dofs K0 0 0
  let E01 ← dfE ref.mono poly.diameter s dofs K0 0 1
  let E10 ← dfE ref.mono poly.diameter s dofs K1 1 0
  let E11 ← dfE ref.mono poly.diameter s dofs K1 1 1
  let H1 ← s.H.block 0 0 s.nkm1 s.nkm1
  .ok ⟨s, internal, boundary, dofs, WV.1, WV.2, (D0, D1), (K0, K1), (F0, F1), G, (B0, B1), (N0, N1), (llt s.H F0, llt s.H F1),
    (llt H2 K0, llt H2 K1), ((llt H1 E00, llt H1 E01), (llt H1 E10, llt H1 E11)), poly.measure⟩

/-- `ProjectionTypes`, VEM_DF_PCC_Utilities.hpp:27-33. -/
inductive DfProjection where
  | pi0km2 | pi0k | piNabla | pi0km1Der

/-- `VEM_DF_PCC_Utilities::ComputeDofiDofiStabilizationMatrix`, VEM_DF_PCC_Utilities.hpp:175-191, for dimension 2. -/
def dfDofiDofi (projector : DMat K × DMat K) (coefficient : K) (D : DMat K × DMat K) : Except Fault (DMat K) := do
  let P0 ← D.1.mul projector.1
  let P1 ← D.2.mul projector.2
  let P ← P0.add P1
  let S := P.subOne
  (DMat.smul coefficient S.tr).mul S

/-- `ComputeDofiDofiStabilizationMatrix`, VEM_DF_PCC_2D_Velocity_LocalSpace.hpp:86-104. -/
def dfStabilization (s : DfSpace2D K) : DfProjection → Except Fault (DMat K)
  | .piNabla => dfDofiDofi s.piNabla 1 s.D
  | .pi0k => dfDofiDofi s.pi0k s.measure s.D
  | _ => .error .runtimeError

/-- `VEM_DF_PCC_Utilities::ComputeBasisFunctionsValues`, VEM_DF_PCC_Utilities.hpp:86-108, for dimension 2 and the values `V` of the monomials. -/
def dfValuesOf (s : DfSpace2D K) (V : DMat K) : DfProjection → Except Fault (DMat K × DMat K)
  | .pi0km2 => do
    let V ← V.block 0 0 V.rows s.init.nkm2
    let X ← V.mul s.pi0km2.1
    let Y ← V.mul s.pi0km2.2
    .ok (X, Y)
  | .pi0k => do
    let X ← V.mul s.pi0k.1
    let Y ← V.mul s.pi0k.2
    .ok (X, Y)
  | _ => .error .runtimeError

/-- `VEM_DF_PCC_Utilities::ComputeBasisFunctionsDerivativeValues`, VEM_DF_PCC_Utilities.hpp:45-77, for dimension 2 and the values `V` of the monomials and
`VD` of their derivatives. -/
def dfDerivativesOf (s : DfSpace2D K) (V : DMat K) (VD : DMat K × DMat K) : DfProjection → Except Fault ((DMat K × DMat K) × (DMat K × DMat K))
  | .piNabla => do
    let X0 ← VD.1.mul s.piNabla.1
    let X1 ← VD.2.mul s.piNabla.1
    let Y0 ← VD.1.mul s.piNabla.2
    let Y1 ← VD.2.mul s.piNabla.2
    .ok ((X0, X1), (Y0, Y1))
  | .pi0km1Der => do
    let V ← V.block 0 0 V.rows s.init.nkm1
    let X0 ← V.mul s.der.1.1
    let X1 ← V.mul s.der.1.2
    let Y0 ← V.mul s.der.2.1
    let Y1 ← V.mul s.der.2.2
    .ok ((X0, X1), (Y0, Y1))
  | _ => .error .runtimeError

/-- `ComputeBasisFunctionsValues` at the internal quadrature points, VEM_DF_PCC_2D_Velocity_LocalSpace.hpp:118-127. -/
def dfValues (s : DfSpace2D K) (t : DfProjection) : Except Fault (DMat K × DMat K) := dfValuesOf s s.init.vanderInt t

/-- `ComputeBasisFunctionsValues` at given points, VEM_DF_PCC_2D_Velocity_LocalSpace.hpp:142-155 and 183-188. -/
def dfValuesAt (ref : DfRef2D K) (poly : VemPolygon K) (s : DfSpace2D K) (t : DfProjection) (points : List (K × K)) : Except Fault (DMat K × DMat K) := do
  let V ← vanderMat ref.mono points poly.centroid poly.diameter
  dfValuesOf s V t

/-- `ComputeBasisFunctionsDerivativeValues` at the internal quadrature points, VEM_DF_PCC_2D_Velocity_LocalSpace.hpp:129-140. -/
def dfDerivatives (s : DfSpace2D K) (t : DfProjection) : Except Fault ((DMat K × DMat K) × (DMat K × DMat K)) :=
  dfDerivativesOf s s.init.vanderInt s.init.vanderIntD t

/-- `ComputeBasisFunctionsDerivativeValues` at given points, VEM_DF_PCC_2D_Velocity_LocalSpace.hpp:157-172 and 199-208. -/
def dfDerivativesAt (ref : DfRef2D K) (poly : VemPolygon K) (s : DfSpace2D K) (t : DfProjection) (points : List (K × K)) :
    Except Fault ((DMat K × DMat K) × (DMat K × DMat K)) := do
  let V ← vanderMat ref.mono points poly.centroid poly.diameter
  let X ← vanderDerMat ref.mono V poly.diameter 0
  let Y ← vanderDerMat ref.mono V poly.diameter 1
  dfDerivativesOf s V (X, Y) t

/-- `ComputeBasisFunctionsDivergenceValues`, VEM_DF_PCC_2D_Velocity_LocalSpace.hpp:220-223 (VEM_DF_PCC_2D_Reduced_Velocity_LocalSpace.hpp:221-224) and
VEM_DF_PCC_Utilities.hpp:79-84. -/
def dfDivergenceValues (s : DfSpace2D K) : Except Fault (DMat K) := do
  let V ← s.init.vanderInt.block 0 0 s.init.vanderInt.rows s.init.nDiv
  V.mul s.V

/-- `VEM_DF_PCC_2D_Pressure_LocalSpace_Data` (VEM_DF_PCC_2D_LocalSpace_Data.hpp:107-125) with the monomials of the reference element. -/
structure DfPressure2D (K : Type) where
  mono : MonoData
  numBasis : Nat
  internal : Rule (K × K) K
  vander : DMat K
  H : DMat K

/-- `VEM_DF_PCC_2D_Pressure_ReferenceElement::Create`, VEM_DF_PCC_2D_ReferenceElement.hpp:29-46 (VEM_DF_PCC_2D_Reduced_ReferenceElement.hpp:29-46), and
`VEM_DF_PCC_2D_Pressure_LocalSpace::CreateLocalSpace`, VEM_DF_PCC_2D_Pressure_LocalSpace.cpp:24-70. -/
def dfPressure2D (sqrt : K → K) (reduced : Bool) (triangle : Nat → Rule (K × K) K) (order : Nat) (poly : VemPolygon K) : Except Fault (DfPressure2D K) := do
  let mono := compute mono2 (if reduced then 0 else u32 (order + 4294967295))
  let internal ← polygonQuad (triangle (u32 (2 * order))) poly.tris
  let vander ← vanderMat mono internal.points poly.centroid poly.diameter
  let sq ← sqrtArray sqrt internal.weights
  let temp ← DMat.scaleRows sq vander
  let H ← temp.tr.mul temp
  .ok ⟨mono, if reduced then 1 else u32 (order * u32 (order + 1)) / 2, internal, vander, H⟩

/-- `ComputeBasisFunctionsValues` of the pressure, VEM_DF_PCC_2D_Pressure_LocalSpace.hpp:48-51. -/
def dfPressureValues (p : DfPressure2D K) : DMat K := p.vander

/-- `ComputeBasisFunctionsValues` of the pressure at given points, VEM_DF_PCC_2D_Pressure_LocalSpace.hpp:53-58. -/
def dfPressureValuesAt (poly : VemPolygon K) (p : DfPressure2D K) (points : List (K × K)) : Except Fault (DMat K) :=
  vanderMat p.mono points poly.centroid poly.diameter

end PolyDiM
