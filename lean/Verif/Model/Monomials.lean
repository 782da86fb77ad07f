import Verif.Model.Basic
import Mathlib.Algebra.Field.Defs

/-!
# Model of the monomial bases

PolyDiM/src/Utilities/Monomials_1D.cpp, Monomials_2D.cpp, Monomials_3D.cpp and Monomials_Utilities.hpp. Exponents are lists
of natural numbers (`Eigen::VectorXi` in the code); the `unsigned int` counts and indices are unbounded natural numbers and
the `int` indices are integers (simplification: no wrap-around; it would need degrees above 1600). Matrices with integer
entries are integer valued, the others have entries in an arbitrary field `K` (the code uses `double`).
-/

namespace PolyDiM

/-- The parts in which `Monomials_1D`, `Monomials_2D`, `Monomials_3D` differ (Monomials_1D.cpp:22-82, Monomials_2D.cpp:22-91,
Monomials_3D.cpp:22-102). -/
structure MonoKind where
  /-- `data.Dimension` -/
  dim : Nat
  /-- `data.NumMonomials` as a function of the degree -/
  num : Nat → Nat
  /-- the rule giving `data.Exponents[i]` from `data.Exponents[i - 1]` -/
  next : List Nat → List Nat
  /-- `DerivativeIndices(data, index)` as a function of `data.Exponents[index]` and `index` -/
  derIndices : List Nat → Nat → List Int
  /-- `SecondDerivativeIndices(data, index)` as a function of `data.Exponents[index]` and `index` -/
  secIndices : List Nat → Nat → List Int

/-- Entry `j` of an exponent vector. -/
def ex (e : List Nat) (j : Nat) : Nat := e.getD j 0

/-- `Monomials_1D`: number of monomials (Monomials_1D.cpp:28), successor rule (38), `DerivativeIndices` (61-71),
`SecondDerivativeIndices` (73-82). -/
def mono1 : MonoKind where
  dim := 1
  num k := k + 1
  next e := [ex e 0 + 1]
  derIndices e index := [if ex e 0 > 0 then (index : Int) - 1 else -1]
  secIndices e index := [if ex e 0 > 1 then (index : Int) - 2 else -1]

/-- `Monomials_2D`: number of monomials (Monomials_2D.cpp:29), successor rule (39-42), `DerivativeIndices` (68-79),
`SecondDerivativeIndices` (81-91). -/
def mono2 : MonoKind where
  dim := 2
  num k := (k + 1) * (k + 2) / 2
  next e := if ex e 0 = 0 then [ex e 1 + 1, 0] else [ex e 0 - 1, ex e 1 + 1]
  derIndices e index :=
    let xDer : Int := (index : Int) - (ex e 0 + ex e 1 : Nat)
    [if ex e 0 > 0 then xDer else -1, if ex e 1 > 0 then xDer - 1 else -1]
  secIndices e index :=
    let xxDer : Int := (index : Int) + 1 - 2 * (ex e 0 + ex e 1 : Nat)
    [if ex e 0 > 1 then xxDer else -1, if ex e 1 > 1 then xxDer - 2 else -1]

/-- `Monomials_3D`: number of monomials (Monomials_3D.cpp:29), successor rule (39-47), `DerivativeIndices` (75-87),
`SecondDerivativeIndices` (89-102). -/
def mono3 : MonoKind where
  dim := 3
  num k := (k + 1) * (k + 2) * (k + 3) / 6
  next e :=
    if ex e 0 = 0 then
      if ex e 1 = 0 then [ex e 2 + 1, 0, 0] else [ex e 0 + ex e 1 - 1, 0, ex e 2 + 1]
    else [ex e 0 - 1, ex e 1 + 1, ex e 2]
  derIndices e index :=
    let xy := ex e 0 + ex e 1
    let xyz := xy + ex e 2
    let zDer : Int := (index : Int) - ((xyz + 1) * (xyz + 2) / 2 : Nat)
    let yDer : Int := zDer + xy
    [if ex e 0 > 0 then yDer + 1 else -1, if ex e 1 > 0 then yDer else -1, if ex e 2 > 0 then zDer else -1]
  secIndices e index :=
    let xy := ex e 0 + ex e 1
    let xyz := xy + ex e 2
    let zDer : Int := (index : Int) - ((xyz + 1) * (xyz + 1) : Nat)
    let xDer : Int := zDer + 2 * xy + 1
    let yDer : Int := xDer - 2
    [if ex e 0 > 1 then xDer else -1, if ex e 1 > 1 then yDer else -1, if ex e 2 > 1 then zDer else -1]

/-- `Monomials_1D::Index`, Monomials_1D.cpp:53-59. -/
def index1 (a : Int) : Int := if 0 ≤ a then a else -1

/-- `Monomials_2D::Index`, Monomials_2D.cpp:57-66. -/
def index2 (a b : Int) : Int := if 0 ≤ a ∧ 0 ≤ b then (a + b) * (a + b + 1) / 2 + b else -1

/-- `Monomials_3D::Index`, Monomials_3D.cpp:62-73. -/
def index3 (a b c : Int) : Int :=
  if 0 ≤ a ∧ 0 ≤ b ∧ 0 ≤ c then
    (a + b + c + 1) * (a + b + c + 2) * (a + b + c + 3) / 6 - (a + b + 1) * (a + b + 2) / 2 + b
  else -1

/-- `Monomials_Data`, Monomials_Data.hpp:22-30. -/
structure MonoData where
  dim : Nat
  degree : Nat
  num : Nat
  exps : List (List Nat)
  /-- `DerivativeMatrices[d](i, j)` -/
  der : Nat → Nat → Nat → Int
  /-- `Laplacian(i, j)` -/
  lap : Nat → Nat → Int

/-- The exponents written by the loop of `Compute` (Monomials_1D.cpp:35-38, Monomials_2D.cpp:36-42,
Monomials_3D.cpp:36-47): `n` exponents starting from `e`, each obtained from the previous one. -/
def expoLoop (next : List Nat → List Nat) : Nat → List Nat → List (List Nat)
  | 0, _ => []
  | n + 1, e => e :: expoLoop next n (next e)

/-- `M(i, j) = x` on an integer matrix when the column is non-negative (Monomials_2D.cpp:47-50). -/
def setIfIdx (M : Nat → Nat → Int) (i : Nat) (j : Int) (x : Int) : Nat → Nat → Int :=
  fun r c => if 0 ≤ j ∧ r = i ∧ (c : Int) = j then x else M r c

/-- The assignments to the matrices for the exponents with positions `i`, `i+1`, … (Monomials_1D.cpp:41-47,
Monomials_2D.cpp:43-51, Monomials_3D.cpp:48-56), in direction `d` for the derivative matrices. -/
def derLoop (K : MonoKind) (d : Nat) : Nat → List (List Nat) → (Nat → Nat → Int) → (Nat → Nat → Int)
  | _, [], M => M
  | i, e :: es, M => derLoop K d (i + 1) es (setIfIdx M i ((K.derIndices e i).getD d (-1)) (ex e d))

/-- The assignments of one row of the Laplacian matrix, directions `d`, `d+1`, …, `n` in all
(Monomials_2D.cpp:45-51). -/
def lapRow (K : MonoKind) (i : Nat) (e : List Nat) : Nat → Nat → (Nat → Nat → Int) → (Nat → Nat → Int)
  | _, 0, M => M
  | d, n + 1, M =>
    lapRow K i e (d + 1) n (setIfIdx M i ((K.secIndices e i).getD d (-1)) ((ex e d : Int) * ((ex e d : Int) - 1)))

/-- The assignments to `data.Laplacian` (Monomials_1D.cpp:41-47, Monomials_2D.cpp:43-51, Monomials_3D.cpp:48-56). -/
def lapLoop (K : MonoKind) : Nat → List (List Nat) → (Nat → Nat → Int) → (Nat → Nat → Int)
  | _, [], M => M
  | i, e :: es, M => lapLoop K (i + 1) es (lapRow K i e 0 K.dim M)

/-- `Monomials_{1,2,3}D::Compute`, Monomials_1D.cpp:22-51, Monomials_2D.cpp:22-55, Monomials_3D.cpp:22-60: the matrices
start at zero and row 0 is never written. -/
def compute (K : MonoKind) (degree : Nat) : MonoData :=
  let exps := expoLoop K.next (K.num degree) (List.replicate K.dim 0)
  { dim := K.dim
    degree := degree
    num := K.num degree
    exps := exps
    der := fun d => derLoop K d 1 exps.tail (fun _ _ => 0)
    lap := lapLoop K 1 exps.tail (fun _ _ => 0) }

section vander
variable {K : Type} [Field K]

/-- `VanderPartial`, Monomials_Utilities.hpp:46-52: for the coordinate `x` of a point, centre `c` and diameter `h`, the
entries `VanderPartial[0..degree]` (used only when there are at least two monomials, so `degree ≥ 1`). -/
def vanderPartial (x c h : K) : Nat → List K
  | 0 => [1]
  | 1 => [1, (x - c) * (1 / h)]
  | n + 2 =>
    let l := vanderPartial x c h (n + 1)
    l ++ [l.getD (n + 1) 0 * ((x - c) * (1 / h))]

/-- Column `i ≥ 1` of `Vander` at one point, Monomials_Utilities.hpp:58-64: the product over the directions; indexing
`VanderPartial` is unchecked. -/
def vanderProd (data : MonoData) (pt c : Nat → K) (h : K) (e : List Nat) : Nat → Except Fault K
  | 0 => .error .undefinedBehaviour
  | 1 => unchecked (vanderPartial (pt 0) (c 0) h data.degree) (ex e 0)
  | d + 2 => do
    let y ← vanderProd data pt c h e (d + 1)
    let z ← unchecked (vanderPartial (pt (d + 1)) (c (d + 1)) h data.degree) (ex e (d + 1))
    .ok (y * z)

/-- `Vander(data, points, centroid, diam)(p, i)`, Monomials_Utilities.hpp:34-71, for the point `pt` in row `p`. -/
def vander (data : MonoData) (pt c : Nat → K) (h : K) (i : Nat) : Except Fault K :=
  if data.num > 1 then
    if i = 0 then .ok 1
    else do
      let e ← unchecked data.exps i
      vanderProd data pt c h e data.dim
  else .ok 1

/-- `VanderDerivatives(data, monomials, Vander, diam)[d](p, k)`, Monomials_Utilities.hpp:73-104, given row `p` of `Vander`. -/
def vanderDer (kind : MonoKind) (data : MonoData) (row : Nat → K) (h : K) (d k : Nat) : Except Fault K :=
  if k = 0 then .ok 0
  else if data.num > 1 then do
    let e ← unchecked data.exps k
    let idx ← unchecked (kind.derIndices e k) d
    if 0 ≤ idx then
      if idx < data.num then .ok (1 / h * (data.der d k idx.toNat : K) * row idx.toNat) else .error .undefinedBehaviour
    else .ok 0
  else .error .undefinedBehaviour

/-- The additions for the directions `d`, …, `d + n - 1` in `VanderLaplacian`, Monomials_Utilities.hpp:129-134 (direction 0,
lines 124-128, assigns instead of adding to a fresh column, which is the same as adding to zero). -/
def lapSum (data : MonoData) (row : Nat → K) (h : K) (k : Nat) (idxs : List Int) : Nat → Except Fault K
  | 0 => .ok 0
  | n + 1 => do
    let s ← lapSum data row h k idxs n
    let idx ← unchecked idxs n
    if 0 ≤ idx then
      if idx < data.num then .ok (s + 1 / (h * h) * (data.lap k idx.toNat : K) * row idx.toNat)
      else .error .undefinedBehaviour
    else .ok s

/-- `VanderLaplacian(data, monomials, Vander, diam)(p, k)`, Monomials_Utilities.hpp:106-139, given row `p` of `Vander`. The
block of three columns set to zero (line 115) must exist; the loop starts at column 3. -/
def vanderLap (kind : MonoKind) (data : MonoData) (row : Nat → K) (h : K) (k : Nat) : Except Fault K :=
  if data.num < 3 then .error .undefinedBehaviour
  else if k < 3 then .ok 0
  else do
    let e ← unchecked data.exps k
    lapSum data row h k (kind.secIndices e k) data.dim

end vander

end PolyDiM
