import Verif.Model.Basic
import Mathlib.Data.Matrix.Mul
import Mathlib.Data.Matrix.Diagonal
import Mathlib.LinearAlgebra.Matrix.Determinant.Basic
import Mathlib.Algebra.Order.Field.Basic

/-!
# Model: inertia maps

PolyDiM/src/Utilities/Inertia_Utilities.{hpp,cpp}. Square matrices are Mathlib matrices, a matrix of points is the list of its columns.
What Gedim and Eigen compute is a parameter: the mass matrix of the triangulated element, the eigenvalues and eigenvectors of a symmetric
matrix, the diameter of a set of vertices, the square root.
-/

namespace PolyDiM

open Matrix

variable {K : Type} [Field K] [LinearOrder K]

/-- `Inertia_Data`, Inertia_Utilities.hpp:22-29. -/
structure InertiaData (K : Type) where
  F : Matrix (Fin 3) (Fin 3) K
  FInv : Matrix (Fin 3) (Fin 3) K
  translation : Fin 3 → K
  absDet : K
  signDetQ : K

/-- The library calls of the map in dimension `n`: `PolygonMass` / `PolyhedronMass`, `SelfAdjointEigenSolver` (`none` when `info()` is not
`Success`), `PolygonDiameter` / `PolyhedronDiameter`, `sqrt`; Inertia_Utilities.cpp:52-60, 83, 125-134, 156. `rsqrt` is one over `sqrt`. -/
structure InertiaLib (K : Type) (n : Nat) where
  mass : (Fin 3 → K) → List (List (Fin 3 → K)) → Matrix (Fin n) (Fin n) K
  eig : Matrix (Fin n) (Fin n) K → Option ((Fin n → K) × Matrix (Fin n) (Fin n) K)
  diameter : List (Fin 3 → K) → K
  sqrt : K → K

/-- `FmatrixInv * (points.colwise() - translation)`, Inertia_Utilities.cpp:43, 50, 79. -/
def mapPoints (FInv : Matrix (Fin 3) (Fin 3) K) (t : Fin 3 → K) (points : List (Fin 3 → K)) : List (Fin 3 → K) := points.map fun p => FInv.mulVec (p - t)

/-- `sqrtLambdaInvFirstRescaling.asDiagonal() * QmatrixFirstRescaling.transpose() * sqrtLambdaFirstRescaling.maxCoeff()`,
Inertia_Utilities.cpp:61-62, 135-136; `s` holds the square roots of the eigenvalues and `m` the largest of them. -/
def inertiaB {n : Nat} (s : Fin n → K) (Q : Matrix (Fin n) (Fin n) K) (m : K) : Matrix (Fin n) (Fin n) K := m • (diagonal (fun i => 1 / s i) * Q.transpose)

/-- `QmatrixFirstRescaling * sqrtLambdaFirstRescaling.asDiagonal() / sqrtLambdaFirstRescaling.maxCoeff()`, Inertia_Utilities.cpp:63-64, 137-138. -/
def inertiaBInv {n : Nat} (s : Fin n → K) (Q : Matrix (Fin n) (Fin n) K) (m : K) : Matrix (Fin n) (Fin n) K := (1 / m) • (Q * diagonal s)

/-- `topLeftCorner(2, 2)` read, Inertia_Utilities.cpp:66-67. -/
def topLeft (M : Matrix (Fin 3) (Fin 3) K) : Matrix (Fin 2) (Fin 2) K := fun i j => M i.castSucc j.castSucc

/-- `topLeftCorner(2, 2)` assigned, Inertia_Utilities.cpp:66-67. -/
def setTopLeft (M : Matrix (Fin 3) (Fin 3) K) (A : Matrix (Fin 2) (Fin 2) K) : Matrix (Fin 3) (Fin 3) K := fun i j =>
  if h : i.val < 2 ∧ j.val < 2 then A ⟨i.val, h.1⟩ ⟨j.val, h.2⟩ else M i j

/-- `abs`, Inertia_Utilities.cpp:76, 149. -/
def inertiaAbs (x : K) : K := if 0 ≤ x then x else -x

/-- `InertiaMapping2D`, Inertia_Utilities.cpp:22-91. `thr` is the threshold `1.0e-12` of the sign; the check under `TEST_INERTIA` is not compiled. -/
def inertiaMapping2D (lib : InertiaLib K 2) (thr : K) (vertices : List (Fin 3 → K)) (centroid : Fin 3 → K) (diameter : K)
    (triangulation : List (List (Fin 3 → K))) : Except Fault (InertiaData K) :=
  let invDiameter := 1 / diameter
  let FInv := invDiameter • (1 : Matrix (Fin 3) (Fin 3) K)
  let F := diameter • (1 : Matrix (Fin 3) (Fin 3) K)
  let absDet := 1 * (diameter * diameter)
  let translation : Fin 3 → K := 0
  let centroid1 := FInv.mulVec (centroid - translation)
  let triangulation1 := triangulation.map (mapPoints FInv translation)
  let H := lib.mass centroid1 triangulation1
  match lib.eig H with
  | none => .error .runtimeError
  | some (lam, Q) =>
    let s := fun i => lib.sqrt (lam i)
    let m := max (s 0) (s 1)
    let B := inertiaB s Q m
    let BInv := inertiaBInv s Q m
    let FInv := setTopLeft FInv (B * topLeft FInv)
    let F := setTopLeft F (topLeft F * BInv)
    let detB := BInv.det
    let signDetQ := if thr < detB then 1 else -1
    let absDet := absDet * inertiaAbs detB
    let translation := translation + centroid
    let diameter2 := lib.diameter (mapPoints FInv translation vertices)
    .ok { F := diameter2 • F, FInv := (1 / diameter2) • FInv, translation := translation, absDet := absDet * (diameter2 * diameter2), signDetQ := signDetQ }

/-- `InertiaMapping3D`, Inertia_Utilities.cpp:93-163. `signDetQ` is not written: its old content is the argument `old`. -/
def inertiaMapping3D (lib : InertiaLib K 3) (old : K) (vertices : List (Fin 3 → K)) (centroid : Fin 3 → K) (diameter : K)
    (tetrahedra : List (List (Fin 3 → K))) : Except Fault (InertiaData K) :=
  let invDiameter := 1 / diameter
  let FInv := invDiameter • (1 : Matrix (Fin 3) (Fin 3) K)
  let F := diameter • (1 : Matrix (Fin 3) (Fin 3) K)
  let absDet := 1 * (diameter * diameter * diameter)
  let translation : Fin 3 → K := 0
  let centroid1 := FInv.mulVec (centroid - translation)
  let tetrahedra1 := tetrahedra.map (mapPoints FInv translation)
  let H := lib.mass centroid1 tetrahedra1
  match lib.eig H with
  | none => .error .runtimeError
  | some (lam, Q) =>
    let s := fun i => lib.sqrt (lam i)
    let m := max (max (s 0) (s 1)) (s 2)
    let B := inertiaB s Q m
    let BInv := inertiaBInv s Q m
    let FInv := B * FInv
    let F := F * BInv
    let detB := BInv.det
    let absDet := absDet * inertiaAbs detB
    let translation := translation + centroid
    let diameter2 := lib.diameter (mapPoints FInv translation vertices)
    .ok { F := diameter2 • F, FInv := (1 / diameter2) • FInv, translation := translation, absDet := absDet * (diameter2 * diameter2 * diameter2), signDetQ := old }

end PolyDiM
