import Verif.Model.Zfem2D
import Verif.Model.VemPerformance

/-!
# The analysis of a local ZFEM space (`ZFEM_PCC_PerformanceAnalysis.hpp`)
-/

namespace PolyDiM

variable {K : Type} [Field K]

/-- `(A - B).array().square().matrix().transpose() * w`, ZFEM_PCC_PerformanceAnalysis.hpp:47-52 and 55-63; sizes that do not fit are undefined. -/
def squaredErrors (A B : DMat K) (w : List K) : Except Fault (List K) :=
  if A.rows = B.rows ∧ A.cols = B.cols ∧ A.rows = w.length then
    .ok ((List.range A.cols).map fun j => ∑ i ∈ Finset.range A.rows, (A.ent i j - B.ent i j) * (A.ent i j - B.ent i j) * w.getD i 0)
  else .error .undefinedBehaviour

/-- `ZFEM_PCC_PerformanceAnalysis_Data`, ZFEM_PCC_PerformanceAnalysis.hpp:24-28. -/
structure ZfemPerfData (K : Type) where
  consistency : List K
  derivatives : List (List K)

/-- `Compute2D`, ZFEM_PCC_PerformanceAnalysis.hpp:32-66, as `ComputePerformance` calls it (LocalSpace_PCC_2D.cpp:634-646). `KernelIncenter` and `Diameter` of the
local space are those of the polygon (ZFEM_PCC_2D_LocalSpace.cpp:37-39); `R` is `InternalQuadrature`. -/
def zfemPerformance (ref : ZfemRef K) (poly : ZfemPolygon K) (s : ZfemSpace K) (R : Rule (K × K) K) : Except Fault (ZfemPerfData K) := do
  let V ← vanderMat ref.mono R.points poly.centre poly.diameter
  let VX ← vanderDerMat ref.mono V poly.diameter 0
  let VY ← vanderDerMat ref.mono V poly.diameter 1
  let P ← s.values.mul s.D
  let e ← squaredErrors P V R.weights
  let PX ← s.derX.mul s.D
  let ex ← squaredErrors PX VX R.weights
  let PY ← s.derY.mul s.D
  let ey ← squaredErrors PY VY R.weights
  .ok ⟨e, [ex, ey]⟩

end PolyDiM
