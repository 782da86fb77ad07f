/-!
# Common vocabulary of the model

Faults (exceptions and undefined behaviour) and 32-bit wrap-around.
-/

namespace PolyDiM

/-- Abnormal outcomes. C++ exceptions and undefined behaviour are distinct outcomes of the model
instead of being assumed away.

* `outOfRange`: `std::out_of_range` thrown by `.at(...)`, e.g.
  PolyDiM/src/PDETools/DOFs/DOFsManager.cpp:49-51 (`cells_boundary_info.at(c)`),
  PolyDiM/src/PDETools/DOFs/DOFsManager.hpp:167 (`BoundaryInfo.at(marker)`).
* `unknownBoundaryType`: PolyDiM/src/PDETools/DOFs/DOFsManager.cpp:103.
* `unknownDOFType`: PolyDiM/src/PDETools/DOFs/DOFsManager.cpp:147 and
  PolyDiM/src/PDETools/Assembler/Assembler_Utilities.hpp:153,240,273.
* `runtimeError`: the other `throw std::runtime_error(...)`, e.g.
  PolyDiM/src/FEM/PCC/2D/FEM_Quadrilateral_PCC_2D_ReferenceElement.hpp:66-67.
* `undefinedBehaviour`: unchecked access out of bounds (`operator[]`, Eigen `block`), e.g.
  PolyDiM/src/PDETools/Assembler/Assembler_Utilities.hpp:50 on an empty vector.
* `notANumber`: the floating point result is not a number (`0.0 / 0.0`), e.g.
  PolyDiM/src/FEM/PCC/3D/FEM_Tetrahedron_PCC_3D_ReferenceElement.hpp:386-388. -/
inductive Fault where
  | outOfRange
  | unknownBoundaryType
  | unknownDOFType
  | runtimeError
  | undefinedBehaviour
  | notANumber
  deriving DecidableEq, Repr

/-- `unsigned int` arithmetic wraps modulo 2^32 (the counters of
PolyDiM/src/PDETools/DOFs/DOFsManager.hpp:118-121 and every `unsigned int` index). -/
def u32 (n : Nat) : Nat := n % 4294967296

/-- Checked access `v.at(i)` of `std::vector`
(used throughout PolyDiM/src/PDETools/DOFs/DOFsManager.cpp, e.g. lines 37-54). -/
def atIdx {α : Type _} (l : List α) (i : Nat) : Except Fault α :=
  match l[i]? with
  | some a => .ok a
  | none => .error .outOfRange

/-- Unchecked access `v[i]`: out of bounds is undefined behaviour
(e.g. PolyDiM/src/PDETools/Assembler/Assembler_Utilities.hpp:50-52). -/
def unchecked {α : Type _} (l : List α) (i : Nat) : Except Fault α :=
  match l[i]? with
  | some a => .ok a
  | none => .error .undefinedBehaviour

end PolyDiM
