import Verif.Model.VemEval2D
import Verif.Model.VemOrtho2D

/-!
# Model: the analysis of a local VEM space

PolyDiM/src/VEM/PCC/VEM_PCC_PerformanceAnalysis.hpp, called by `ComputePerformance` of PolyDiM/src/PDETools/LocalSpace/LocalSpace_PCC_2D.cpp:606-649 for the spaces with
monomials and with an orthonormal basis. The condition numbers (lines 60-62, singular values by LAPACK) are not modelled. `sqrt` is a parameter.
-/

namespace PolyDiM

variable {K : Type} [Field K] [DecidableEq K]

/-- `A - B`, e.g. VEM_PCC_PerformanceAnalysis.hpp:70. -/
def DMat.sub (A B : DMat K) : Except Fault (DMat K) :=
  if A.rows = B.rows ∧ A.cols = B.cols then .ok ⟨A.rows, A.cols, fun i j => A.ent i j - B.ent i j⟩ else .error .undefinedBehaviour

/-- `A.norm()`, the Frobenius norm, e.g. VEM_PCC_PerformanceAnalysis.hpp:70. -/
def DMat.frobenius (sqrt : K → K) (A : DMat K) : K := sqrt (∑ i ∈ Finset.range A.rows, ∑ j ∈ Finset.range A.cols, A.ent i j * A.ent i j)

/-- A quotient of the analysis, e.g. VEM_PCC_PerformanceAnalysis.hpp:52, 70; by zero it is not a (finite) number. -/
def normQuotient (a b : K) : Except Fault K := if b = 0 then .error .notANumber else .ok (a / b)

/-- `(A - B).norm() / d`, e.g. VEM_PCC_PerformanceAnalysis.hpp:70. -/
def relativeError (sqrt : K → K) (A B : DMat K) (d : K) : Except Fault K := do
  let E ← A.sub B
  normQuotient (E.frobenius sqrt) d

/-- What the analysis reads of `VEM_PCC_2D_LocalSpace_Data` (VEM_PCC_2D_LocalSpace_Data.hpp:41-101) at VEM_PCC_PerformanceAnalysis.hpp:52-114. -/
structure PerfInput (K : Type) where
  diameter : K
  numProj : Nat
  nkm1 : Nat
  q : DMat K
  qInv : DMat K
  piNabla : DMat K
  pi0km1 : DMat K
  pi0k : DMat K
  D : DMat K
  ders : List (DMat K)
  H : DMat K
  C : DMat K
  G : DMat K
  B : DMat K
  Es : List (DMat K)

/-- `VEM_PCC_PerformanceAnalysis_Data`, VEM_PCC_PerformanceAnalysis.hpp:27-41, without the condition numbers. -/
structure PerfData (K : Type) where
  errPiNabla : K
  errPi0km1 : K
  errPi0k : K
  errGrad : List K
  stabNorm : K
  errStab : K
  errHCD : K
  errGBD : K
  errHED : List K

/-- `ErrorPi0km1Grad[d]`, VEM_PCC_PerformanceAnalysis.hpp:79-87; `der` are the derivative matrices of the monomials. -/
def perfGrad (sqrt : K → K) (der : List (DMat K)) (s : PerfInput K) (inv : K) (d : Nat) : Except Fault K := do
  let pi ← unchecked s.ders d
  let M ← unchecked der d
  let T ← M.block 0 0 s.piNabla.rows s.pi0km1.rows
  let QT ← s.q.mul T
  let QI ← s.qInv.block 0 0 s.pi0km1.rows s.pi0km1.rows
  let QTQ ← QT.mul QI
  let R := DMat.smul inv QTQ.tr
  let PD ← pi.mul s.D
  relativeError sqrt PD R (if 1 < s.pi0km1.rows then R.frobenius sqrt else 1)

/-- `ErrorHED[d]`, VEM_PCC_PerformanceAnalysis.hpp:107-114. -/
def perfHED (sqrt : K → K) (der : List (DMat K)) (s : PerfInput K) (inv : K) (d : Nat) : Except Fault K := do
  let M ← unchecked der d
  let T ← M.block 0 0 s.piNabla.rows s.nkm1
  let Hk ← s.H.block 0 0 s.nkm1 s.nkm1
  let R ← (DMat.smul inv T).mul Hk
  let E ← unchecked s.Es d
  let ED ← E.mul s.D
  relativeError sqrt R.tr ED (R.frobenius sqrt)

/-- `ErrorHCD` and `ErrorGBD`, VEM_PCC_PerformanceAnalysis.hpp:95-102: the value stays -1 if one of the matrices is empty. -/
def perfProduct (sqrt : K → K) (H C D : DMat K) : Except Fault K :=
  if 0 < H.rows * H.cols ∧ 0 < C.rows * C.cols then do
    let CD ← C.mul D
    relativeError sqrt H CD (H.frobenius sqrt)
  else .ok (-1)

/-- `Compute`, VEM_PCC_PerformanceAnalysis.hpp:45-118; `stab` is the result of `ComputeDofiDofiStabilizationMatrix` with `PiNabla`. -/
def vemPerformance (sqrt : K → K) (der : List (DMat K)) (stab : Except Fault (DMat K)) (s : PerfInput K) : Except Fault (PerfData K) := do
  let inv ← normQuotient 1 s.diameter
  let one : DMat K := .identity s.numProj
  let P ← s.piNabla.mul s.D
  let e1 ← relativeError sqrt P one (one.frobenius sqrt)
  let Dl ← s.D.block 0 0 s.D.rows s.pi0km1.rows
  let P ← s.pi0km1.mul Dl
  let one1 ← one.block 0 0 s.pi0km1.rows s.pi0km1.rows
  let e2 ← relativeError sqrt P one1 (one1.frobenius sqrt)
  let P ← s.pi0k.mul s.D
  let e3 ← relativeError sqrt P one (one.frobenius sqrt)
  let grad ← (List.range s.ders.length).mapM (perfGrad sqrt der s inv)
  let S ← stab
  let SD ← S.mul s.D
  let e4 ← perfProduct sqrt s.H s.C s.D
  let e5 ← perfProduct sqrt s.G s.B s.D
  let hed ← (List.range s.ders.length).mapM (perfHED sqrt der s inv)
  .ok ⟨e1, e2, e3, grad, S.frobenius sqrt, SD.frobenius sqrt, e4, e5, hed⟩

/-- The space with monomials as input; `Qmatrix` and `QmatrixInv` are identities (VEM_PCC_2D_LocalSpace.cpp:308-309). -/
def vemPerfInput (poly : VemPolygon K) (s : VemSpace2D K) : PerfInput K :=
  ⟨poly.diameter, s.init.numProj, s.init.nkm1, .identity s.init.numProj, .identity s.init.numProj, s.piNabla, s.pi0km1, s.pi0k, s.D, [s.derX, s.derY], s.init.H,
    s.C, s.G, s.B, [s.eX, s.eY]⟩

/-- The space with an orthonormal basis as input (VEM_PCC_2D_Ortho_LocalSpace.cpp:115-276 fills the fields). -/
def orthoPerfInput (poly : VemPolygon K) (t : OrthoSpace2D K) : PerfInput K :=
  ⟨poly.diameter, t.base.init.numProj, t.base.init.nkm1, t.base.q, t.base.qInv, t.piNabla, t.pi0km1, t.pi0k, t.D, [t.derX, t.derY], t.base.init.H,
    t.C, t.G, t.B, [t.eX, t.eY]⟩

/-- `DerivativeMatrices` of the monomials, Monomials_2D.hpp:34-37. -/
def derMatrices (ref : VemRef2D K) (N : Nat) : List (DMat K) := [⟨N, N, fun i j => (ref.mono.der 0 i j : K)⟩, ⟨N, N, fun i j => (ref.mono.der 1 i j : K)⟩]

/-- `ComputePerformance` for the method `VEM_PCC`, LocalSpace_PCC_2D.cpp:617-634. -/
def vemComputePerformance (sqrt : K → K) (ref : VemRef2D K) (poly : VemPolygon K) (s : VemSpace2D K) : Except Fault (PerfData K) :=
  vemPerformance sqrt (derMatrices ref s.init.numProj) (vemDofiDofi poly s .piNabla) (vemPerfInput poly s)

/-- `ComputePerformance` for the method `VEM_PCC_Ortho`, LocalSpace_PCC_2D.cpp:617-634. -/
def orthoComputePerformance (sqrt : K → K) (ref : VemRef2D K) (poly : VemPolygon K) (t : OrthoSpace2D K) : Except Fault (PerfData K) :=
  vemPerformance sqrt (derMatrices ref t.base.init.numProj) (orthoDofiDofi poly t .piNabla) (orthoPerfInput poly t)

end PolyDiM
