import Verif.Model.Basic
import Mathlib.Algebra.BigOperators.Group.Finset.Basic
import Mathlib.Algebra.Field.Basic

/-!
# Model: dynamic matrices

`Eigen::MatrixXd` with the operations used by PolyDiM/src/VEM/PCC/VEM_PCC_Utilities.hpp, PolyDiM/src/VEM/PCC/2D/VEM_PCC_2D_LocalSpace.cpp and
PolyDiM/src/PDETools/Equations/EllipticEquation.hpp. Sizes that do not fit are undefined behaviour: Eigen checks them with assertions that
a release build removes.
-/

namespace PolyDiM

/-- `Eigen::MatrixXd`: number of rows, number of columns, entries (used for every matrix of
PolyDiM/src/VEM/PCC/2D/VEM_PCC_2D_LocalSpace_Data.hpp:58-98). Entries outside the size are meaningless. -/
structure DMat (K : Type) where
  rows : Nat
  cols : Nat
  ent : Nat → Nat → K

namespace DMat

variable {K : Type} [Field K]

/-- `MatrixXd::Zero(r, c)`, e.g. VEM_PCC_2D_LocalSpace.cpp:360. -/
def zero (r c : Nat) : DMat K := ⟨r, c, fun _ _ => 0⟩

/-- `MatrixXd::Identity(n, n)`, e.g. VEM_PCC_Utilities.hpp:67. -/
def identity (n : Nat) : DMat K := ⟨n, n, fun i j => if i = j then 1 else 0⟩

/-- `A.transpose()`, e.g. VEM_PCC_2D_LocalSpace.cpp:306. -/
def tr (A : DMat K) : DMat K := ⟨A.cols, A.rows, fun i j => A.ent j i⟩

/-- `A * B`, e.g. VEM_PCC_Utilities.hpp:60. -/
def mul (A B : DMat K) : Except Fault (DMat K) :=
  if A.cols = B.rows then .ok ⟨A.rows, B.cols, fun i j => ∑ k ∈ Finset.range A.cols, A.ent i k * B.ent k j⟩ else .error .undefinedBehaviour

/-- `A * w.asDiagonal()`, e.g. VEM_PCC_2D_LocalSpace.cpp:306. -/
def mulDiag (A : DMat K) (w : List K) : Except Fault (DMat K) :=
  if A.cols = w.length then .ok ⟨A.rows, A.cols, fun i j => A.ent i j * w.getD j 0⟩ else .error .undefinedBehaviour

/-- `A + B`, e.g. VEM_PCC_2D_LocalSpace.cpp:324-327. -/
def add (A B : DMat K) : Except Fault (DMat K) :=
  if A.rows = B.rows ∧ A.cols = B.cols then .ok ⟨A.rows, A.cols, fun i j => A.ent i j + B.ent i j⟩ else .error .undefinedBehaviour

/-- `s * A`, e.g. VEM_PCC_Utilities.hpp:241. -/
def smul (s : K) (A : DMat K) : DMat K := ⟨A.rows, A.cols, fun i j => s * A.ent i j⟩

/-- `A.block(r, c, m, n)`; `topRows`, `bottomRows`, `leftCols`, `topLeftCorner` are special cases (e.g. VEM_PCC_Utilities.hpp:60, 70). -/
def block (A : DMat K) (r c m n : Nat) : Except Fault (DMat K) :=
  if r + m ≤ A.rows ∧ c + n ≤ A.cols then .ok ⟨m, n, fun i j => A.ent (r + i) (c + j)⟩ else .error .undefinedBehaviour

/-- `A.block(r, c, m, n) = X` (e.g. VEM_PCC_Utilities.hpp:60, 66-67). -/
def assign (A : DMat K) (r c m n : Nat) (X : DMat K) : Except Fault (DMat K) :=
  if X.rows = m ∧ X.cols = n ∧ r + m ≤ A.rows ∧ c + n ≤ A.cols then
    .ok ⟨A.rows, A.cols, fun i j => if r ≤ i ∧ i < r + m ∧ c ≤ j ∧ j < c + n then X.ent (i - r) (j - c) else A.ent i j⟩
  else .error .undefinedBehaviour

/-- A vector as one row (e.g. VEM_PCC_2D_LocalSpace.cpp:338: Eigen transposes a column assigned to a row). -/
def row (w : List K) : DMat K := ⟨1, w.length, fun _ j => w.getD j 0⟩

/-- A vector as one column (e.g. VEM_PCC_2D_LocalSpace.cpp:340). -/
def col (w : List K) : DMat K := ⟨w.length, 1, fun i _ => w.getD i 0⟩

/-- `A.diagonal().array() -= 1` (VEM_PCC_Utilities.hpp:239, 251). -/
def subOne (A : DMat K) : DMat K := ⟨A.rows, A.cols, fun i j => if i = j then A.ent i j - 1 else A.ent i j⟩

end DMat

end PolyDiM
