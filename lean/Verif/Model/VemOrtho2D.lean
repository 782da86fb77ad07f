import Verif.Model.VemEval2D
import Verif.Model.VemMcc2D

/-!
# Model: the VEM local space of the primal formulation on polygons, with an orthonormal polynomial basis

PolyDiM/src/VEM/PCC/2D/VEM_PCC_2D_Ortho_LocalSpace.{hpp,cpp} and `MGSOrthonormalize` of PolyDiM/src/Utilities/Monomials_Utilities.hpp.

The functions of Gedim are parameters: `mgs` stands for `LAPACK_utilities::MGS(A, Q, R)`, `inverseTri` for
`LAPACK_utilities::inverseTri(L, X, 'L', 'N')`, `sqrt` for `std::sqrt`.
-/

namespace PolyDiM

variable {K : Type} [Field K] [LinearOrder K]

/-- The functions of the libraries called by `MGSOrthonormalize`, Monomials_Utilities.hpp:149, 154, 159. -/
structure OrthoLib (K : Type) where
  mgs : DMat K → DMat K × DMat K
  inverseTri : DMat K → DMat K
  sqrt : K → K

/-- `Monomials_Utilities::MGSOrthonormalize`, Monomials_Utilities.hpp:141-160: `Hmatrix`, `QmatrixInv`, `Qmatrix`. -/
def mgsOrthonormalize (lib : OrthoLib K) (weights : List K) (vander : DMat K) : Except Fault (DMat K × DMat K × DMat K) := do
  let first := lib.mgs vander
  let sq ← sqrtArray lib.sqrt weights
  let A ← DMat.scaleRows sq first.1
  let second := lib.mgs A
  let H ← second.1.tr.mul second.1
  let R ← second.2.mul first.2
  .ok (H, R.tr, lib.inverseTri R.tr)

/-- What `InitializeProjectorsComputation` sets: the data of the space over monomials, and the change of basis. -/
structure OrthoInit2D (K : Type) where
  init : VemInit2D K
  qInv : DMat K
  q : DMat K

/-- `InitializeProjectorsComputation`, VEM_PCC_2D_Ortho_LocalSpace.cpp:115-167. -/
def orthoInit2D (lib : OrthoLib K) (ref : VemRef2D K) (poly : VemPolygon K) (internal : Rule (K × K) K) (bndPoints : List (K × K)) :
    Except Fault (OrthoInit2D K) := do
  let numVertex := poly.edges.vertices.length
  let numEdge := ref.dofs1D * numVertex
  let numProj := ref.mono.num
  let vanderInt ← vanderMat ref.mono internal.points poly.centroid poly.diameter
  let vanderIntX ← vanderDerMat ref.mono vanderInt poly.diameter 0
  let vanderIntY ← vanderDerMat ref.mono vanderInt poly.diameter 1
  let vanderBnd ← vanderMat ref.mono bndPoints poly.centroid poly.diameter
  let vanderBndX ← vanderDerMat ref.mono vanderBnd poly.diameter 0
  let vanderBndY ← vanderDerMat ref.mono vanderBnd poly.diameter 1
  let O ← mgsOrthonormalize lib internal.weights vanderInt
  .ok ⟨⟨numVertex, numEdge, ref.dofs2D, numVertex + numEdge + ref.dofs2D, numProj, numProj - ref.order - 1, (ref.order - 1) * ref.order / 2,
    vanderInt, vanderIntX, vanderIntY, vanderBnd, vanderBndX, vanderBndY, O.1⟩, O.2.1, O.2.2⟩

/-- `G` before its first row is replaced, VEM_PCC_2D_Ortho_LocalSpace.cpp:177-183. -/
def orthoGradGrad (sqrt : K → K) (X Y Q : DMat K) (w : List K) : Except Fault (DMat K) := do
  let sq ← sqrtArray sqrt w
  let XS ← DMat.scaleRows sq X
  let temp1 ← XS.mul Q.tr
  let YS ← DMat.scaleRows sq Y
  let temp2 ← YS.mul Q.tr
  let GX ← temp1.tr.mul temp1
  let GY ← temp2.tr.mul temp2
  GX.add GY

/-- The case distinction on the order in `ComputePiNabla`, VEM_PCC_2D_Ortho_LocalSpace.cpp:192-216. -/
def orthoPiNablaRows (ref : VemRef2D K) (t : OrthoInit2D K) (measure diameter : K) (intWeights bndWeights : List K) (G B : DMat K) :
    Except Fault (DMat K × DMat K) :=
  if ref.order = 1 then do
    let B ← t.q.mul B
    let B ← B.assign 0 0 1 B.cols (.row bndWeights)
    let g ← t.init.vanderBnd.tr.mul (.col bndWeights)
    let G ← G.assign 0 0 1 G.cols g.tr
    .ok (G, B)
  else do
    let g ← t.init.vanderInt.tr.mul (.col intWeights)
    let G ← G.assign 0 0 1 G.cols g.tr
    let L ← (⟨t.init.numProj, t.init.numProj, fun i j => (ref.mono.lap i j : K)⟩ : DMat K).block 0 0 t.init.numProj t.init.numInternal
    let corner ← t.qInv.block 0 0 t.init.nkm2 t.init.nkm2
    let LQ ← (DMat.smul (-measure / (diameter * diameter)) L).mul corner
    let B ← B.assign 0 (B.cols - t.init.numInternal) B.rows t.init.numInternal LQ
    let B ← t.q.mul B
    let first ← t.qInv.block 0 0 1 t.init.nkm2
    let row ← DMat.beside 1 B.cols (.zero 1 (t.init.numVertex + t.init.numEdge)) (.smul measure first)
    let B ← B.assign 0 0 1 B.cols row
    .ok (G, B)

/-- `ComputePiNabla`, VEM_PCC_2D_Ortho_LocalSpace.cpp:169-220: the matrices `G`, `B` and the projector. -/
def orthoPiNabla (sqrt : K → K) (lu : Solver K) (ref : VemRef2D K) (t : OrthoInit2D K) (measure diameter : K) (intWeights : List K)
    (bnd : EdgesRule K) : Except Fault (DMat K × DMat K × DMat K) := do
  let G ← orthoGradGrad sqrt t.init.vanderIntX t.init.vanderIntY t.q intWeights
  let BX ← t.init.vanderBndX.tr.mulDiag bnd.nx
  let BY ← t.init.vanderBndY.tr.mulDiag bnd.ny
  let BB ← BX.add BY
  let B ← (DMat.zero t.init.numProj t.init.numBasis).assign 0 0 t.init.numProj (t.init.numVertex + t.init.numEdge) BB
  let GB ← orthoPiNablaRows ref t measure diameter intWeights bnd.weights G B
  let g ← GB.1.block 0 0 1 GB.1.cols
  let gQ ← g.mul t.q.tr
  let G ← GB.1.assign 0 0 1 GB.1.cols gQ
  .ok (G, GB.2, lu G GB.2)

/-- `ComputePolynomialsDofs`, VEM_PCC_2D_Ortho_LocalSpace.cpp:222-236. -/
def orthoDofs (order : Nat) (t : OrthoInit2D K) (measure : K) : Except Fault (DMat K) := do
  let VQ ← t.init.vanderBnd.mul t.q.tr
  let D ← (DMat.zero t.init.numBasis t.init.numProj).assign 0 0 (t.init.numVertex + t.init.numEdge) t.init.numProj VQ
  if 1 < order then do
    let T ← t.init.H.block 0 0 t.init.numInternal t.init.H.cols
    D.assign (D.rows - t.init.numInternal) 0 t.init.numInternal D.cols ⟨T.rows, T.cols, fun i j => T.ent i j / measure⟩
  else .ok D

/-- One direction of `ComputeL2ProjectorsOfDerivatives`, VEM_PCC_2D_Ortho_LocalSpace.cpp:244-270: the matrix `E` and the projector. `D` is the
derivative matrix of the monomials. -/
def orthoDerProjector (llt : Solver K) (order : Nat) (t : OrthoInit2D K) (measure diameter : K) (wn : List K) (D : DMat K) :
    Except Fault (DMat K × DMat K) := do
  let V ← t.init.vanderBnd.block 0 0 t.init.vanderBnd.rows t.init.nkm1
  let X ← V.tr.mulDiag wn
  let E ← (DMat.zero t.init.nkm1 t.init.numBasis).assign 0 0 t.init.nkm1 (t.init.numVertex + t.init.numEdge) X
  let E ← (if 1 < order then do
      let T ← D.block 0 0 t.init.nkm1 t.init.numInternal
      let corner ← t.qInv.block 0 0 t.init.nkm2 t.init.nkm2
      let TQ ← (DMat.smul (-(measure / diameter)) T).mul corner
      E.assign 0 (E.cols - t.init.numInternal) E.rows t.init.numInternal TQ
    else .ok E)
  let corner ← t.q.block 0 0 t.init.nkm1 t.init.nkm1
  let E ← corner.mul E
  let Hk ← t.init.H.block 0 0 t.init.nkm1 t.init.nkm1
  .ok (E, llt Hk E)

/-- `VEM_PCC_2D_LocalSpace_Data` (VEM_PCC_2D_LocalSpace_Data.hpp:41-101) as filled by the space with an orthonormal basis. -/
structure OrthoSpace2D (K : Type) where
  base : OrthoInit2D K
  internal : Rule (K × K) K
  boundary : EdgesRule K
  G : DMat K
  B : DMat K
  piNabla : DMat K
  C : DMat K
  pi0km1 : DMat K
  pi0k : DMat K
  eX : DMat K
  eY : DMat K
  derX : DMat K
  derY : DMat K
  D : DMat K

/-- `CreateLocalSpace`, VEM_PCC_2D_Ortho_LocalSpace.cpp:23-71. -/
def orthoCreate2D (lib : OrthoLib K) (lu llt : Solver K) (ref : VemRef2D K) (poly : VemPolygon K) : Except Fault (OrthoSpace2D K) := do
  let internal ← polygonQuad ref.triangle poly.tris
  let boundary ← lobattoQuad poly.edges ref.ts ref.ws ref.ext
  let t ← orthoInit2D lib ref poly internal boundary.points
  let P ← orthoPiNabla lib.sqrt lu ref t poly.measure poly.diameter internal.weights boundary
  let L ← vemL2Projectors llt poly.measure ref.order t.init.nkm1 t.init.numProj t.init.numInternal t.init.numBasis t.init.H P.2.2
  let EX ← orthoDerProjector llt ref.order t poly.measure poly.diameter boundary.nx
    ⟨t.init.numProj, t.init.numProj, fun i j => (ref.mono.der 0 i j : K)⟩
  let EY ← orthoDerProjector llt ref.order t poly.measure poly.diameter boundary.ny
    ⟨t.init.numProj, t.init.numProj, fun i j => (ref.mono.der 1 i j : K)⟩
  let D ← orthoDofs ref.order t poly.measure
  .ok ⟨t, internal, boundary, P.1, P.2.1, P.2.2, L.1, L.2.1, L.2.2, EX.1, EY.1, EX.2, EY.2, D⟩

/-- `ComputePolynomialsValues` at given points, VEM_PCC_2D_Ortho_LocalSpace.hpp:193-199. -/
def orthoPolyValues (ref : VemRef2D K) (poly : VemPolygon K) (t : OrthoSpace2D K) (points : List (K × K)) : Except Fault (DMat K) := do
  let V ← vanderMat ref.mono points poly.centroid poly.diameter
  V.mul t.base.q.tr

/-- `ComputePolynomialsDerivativeValues` at given points, VEM_PCC_2D_Ortho_LocalSpace.hpp:215-228. -/
def orthoPolyDerivatives (ref : VemRef2D K) (poly : VemPolygon K) (t : OrthoSpace2D K) (points : List (K × K)) : Except Fault (List (DMat K)) := do
  let V ← vanderMat ref.mono points poly.centroid poly.diameter
  let X ← vanderDerMat ref.mono V poly.diameter 0
  let Y ← vanderDerMat ref.mono V poly.diameter 1
  let XQ ← X.mul t.base.q.tr
  let YQ ← Y.mul t.base.q.tr
  .ok [XQ, YQ]

/-- `ComputeBasisFunctionsValues` at given points, VEM_PCC_2D_Ortho_LocalSpace.hpp:136-152. -/
def orthoValuesAt (ref : VemRef2D K) (poly : VemPolygon K) (t : OrthoSpace2D K) (type : ProjType) (points : List (K × K)) : Except Fault (DMat K) := do
  let V ← orthoPolyValues ref poly t points
  match type with
  | .pi0km1 => do
    let V1 ← V.block 0 0 V.rows t.base.init.nkm1
    V1.mul t.pi0km1
  | .pi0k => V.mul t.pi0k
  | _ => .error .runtimeError

/-- `ComputeBasisFunctionsDerivativeValues` at given points, VEM_PCC_2D_Ortho_LocalSpace.hpp:154-186. -/
def orthoDerivativesAt (ref : VemRef2D K) (poly : VemPolygon K) (t : OrthoSpace2D K) (type : ProjType) (points : List (K × K)) :
    Except Fault (List (DMat K)) :=
  match type with
  | .pi0km1Der => do
    let V ← orthoPolyValues ref poly t points
    let V1 ← V.block 0 0 V.rows t.base.init.nkm1
    let A ← V1.mul t.derX
    let B ← V1.mul t.derY
    .ok [A, B]
  | .piNabla => do
    let D ← orthoPolyDerivatives ref poly t points
    (List.range 2).mapM fun i => do
      let d ← unchecked D i
      d.mul t.piNabla
  | _ => .error .runtimeError

/-- `ComputeBasisFunctionsValues` at the quadrature points, VEM_PCC_2D_Ortho_LocalSpace.hpp:94-107. -/
def orthoValuesInt (t : OrthoSpace2D K) (type : ProjType) : Except Fault (DMat K) :=
  match type with
  | .pi0km1 => do
    let V ← t.base.init.vanderInt.block 0 0 t.base.init.vanderInt.rows t.base.init.nkm1
    let corner ← t.base.q.block 0 0 t.base.init.nkm1 t.base.init.nkm1
    let VQ ← V.mul corner.tr
    VQ.mul t.pi0km1
  | .pi0k => do
    let VQ ← t.base.init.vanderInt.mul t.base.q.tr
    VQ.mul t.pi0k
  | _ => .error .runtimeError

/-- `ComputeBasisFunctionsDerivativeValues` at the quadrature points, VEM_PCC_2D_Ortho_LocalSpace.hpp:109-134. -/
def orthoDerivativesInt (t : OrthoSpace2D K) (type : ProjType) : Except Fault (List (DMat K)) :=
  match type with
  | .pi0km1Der => do
    let V ← t.base.init.vanderInt.block 0 0 t.base.init.vanderInt.rows t.base.init.nkm1
    let corner ← t.base.q.block 0 0 t.base.init.nkm1 t.base.init.nkm1
    let VQ ← V.mul corner.tr
    let A ← VQ.mul t.derX
    let B ← VQ.mul t.derY
    .ok [A, B]
  | .piNabla => do
    let XQ ← t.base.init.vanderIntX.mul t.base.q.tr
    let A ← XQ.mul t.piNabla
    let YQ ← t.base.init.vanderIntY.mul t.base.q.tr
    let B ← YQ.mul t.piNabla
    .ok [A, B]
  | _ => .error .runtimeError

/-- `ComputeScaledPolynomialsValues`, VEM_PCC_2D_Ortho_LocalSpace.hpp:201-205. -/
def orthoScaledPolyValues (poly : VemPolygon K) (t : OrthoSpace2D K) : Except Fault (DMat K) := do
  let V ← t.base.init.vanderInt.block 0 0 t.base.init.vanderInt.rows t.base.init.nkm2
  let corner ← t.base.q.tr.block 0 0 t.base.init.nkm2 t.base.init.nkm2
  (DMat.smul (1 / poly.measure) V).mul corner

/-- `ComputeBasisFunctionsLaplacianValues` at the quadrature points, VEM_PCC_2D_Ortho_LocalSpace.hpp:242-261. -/
def orthoLaplacianInt (t : OrthoSpace2D K) (type : ProjType) : Except Fault (DMat K) :=
  match type with
  | .pi0km1Der => do
    let corner ← t.base.q.block 0 0 t.base.init.nkm1 t.base.init.nkm1
    let VX ← t.base.init.vanderIntX.block 0 0 t.base.init.vanderIntX.rows t.base.init.nkm1
    let XQ ← VX.mul corner.tr
    let A ← XQ.mul t.derX
    let VY ← t.base.init.vanderIntY.block 0 0 t.base.init.vanderIntY.rows t.base.init.nkm1
    let YQ ← VY.mul corner.tr
    let B ← YQ.mul t.derY
    A.add B
  | _ => .error .runtimeError

/-- `ComputeDofiDofiStabilizationMatrix`, VEM_PCC_2D_Ortho_LocalSpace.hpp:78-90. -/
def orthoDofiDofi (poly : VemPolygon K) (t : OrthoSpace2D K) (type : ProjType) : Except Fault (DMat K) :=
  match type with
  | .piNabla => dofiDofi t.piNabla 1 t.D
  | .pi0k => dofiDofi t.pi0k poly.measure t.D
  | _ => .error .runtimeError

end PolyDiM
