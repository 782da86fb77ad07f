import Verif.Model.Basic
import Mathlib.Algebra.Field.Defs
import Mathlib.Algebra.BigOperators.Group.List.Defs

/-!
# Model of the one-dimensional Lagrange functions

PolyDiM/src/Interpolation/lagrange_1D.cpp, over an arbitrary field `K` (the code uses `double`). Each matrix returned by the code
has one row per evaluation point, independent of the other rows; the model gives the entry for one evaluation point `x`.
-/

namespace PolyDiM

variable {K : Type} [Field K]

/-- Row `i` of the matrix `differences`, lagrange_1D.cpp:31-42. -/
def lagDiffRow (pts : List K) (i : Nat) : List K :=
  ((List.range pts.length).filter (fun j => j ≠ i)).map fun j => pts.getD i 0 - pts.getD j 0

/-- `Lagrange_1D_coefficients`, lagrange_1D.cpp:21-53 (the product of an empty row is 1). -/
def lagCoefficients (pts : List K) : List K := (List.range pts.length).map fun i => 1 / (lagDiffRow pts i).prod

/-- The inner loop of `Lagrange_1D_values`, lagrange_1D.cpp:74-78, started with `c` (line 73). -/
def lagProd (pts : List K) (x : K) (i : Nat) (c : K) : K :=
  (List.range pts.length).foldl (fun v j => if i ≠ j then v * (x - pts.getD j 0) else v) c

/-- `Lagrange_1D_values(pts, coef, points)(p, i)`, lagrange_1D.cpp:55-82, `x` being the `p`-th evaluation point. -/
def lagValue (pts coef : List K) (x : K) (i : Nat) : Except Fault K :=
  if pts.length = 1 then .ok 1
  else do
    let c ← unchecked coef i
    .ok (lagProd pts x i c)

/-- The innermost loop of `Lagrange_1D_derivative_values`, lagrange_1D.cpp:107-115. -/
def lagProd2 (pts : List K) (x : K) (i j : Nat) (c : K) : K :=
  (List.range pts.length).foldl (fun v k => if k = j ∨ k = i then v else v * (x - pts.getD k 0)) c

/-- `Lagrange_1D_derivative_values(pts, coef, points)(p, i)`, lagrange_1D.cpp:84-122. -/
def lagDerivative (pts coef : List K) (x : K) (i : Nat) : Except Fault K :=
  if pts.length = 1 then .ok 0
  else do
    let c ← unchecked coef i
    .ok ((List.range pts.length).foldl (fun v j => if j = i then v else v + lagProd2 pts x i j c) 0)

end PolyDiM
