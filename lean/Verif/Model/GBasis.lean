import Verif.Model.Monomials

/-!
# Model of the vector polynomial decomposition

PolyDiM/src/Utilities/GBasis_2D.cpp, GBasis_2D.hpp, GBasis_3D.cpp, GBasis_Data.hpp. Matrix entries live in a field `K` (the
code uses `double`), counts are unbounded natural numbers; accesses outside a matrix or vector are undefined behaviour. The
tables indexed by exponents (`MatrixExponents`, `MapExponents`) are functions, each access checked against their size.
-/

namespace PolyDiM

/-- A row of all the matrices `VectorDecomposition[i][p]`: entry of component `i`, part `p`, column `c`. -/
abbrev DecRow (K : Type) := Nat → Nat → Nat → K

/-- `VectorDecomposition[i][p](j, idx) = x` on row `j`, checked against the number of columns (GBasis_2D.cpp:58-66,
GBasis_3D.cpp:87-109). -/
def putCol {K : Type} (cols : Nat → Nat) (r : DecRow K) (i p : Nat) (idx : Int) (x : K) : Except Fault (DecRow K) :=
  if 0 ≤ idx ∧ idx < cols p then
    .ok (fun i' p' c => if i' = i ∧ p' = p ∧ (c : Int) = idx then x else r i' p' c)
  else .error .undefinedBehaviour

/-- The assignment guarded by an `if` without `else` (GBasis_2D.cpp:59, 64; GBasis_3D.cpp:88-108). -/
def putColIf {K : Type} (cond : Bool) (cols : Nat → Nat) (r : DecRow K) (i p : Nat) (idx : Except Fault Int) (x : K) :
    Except Fault (DecRow K) :=
  if cond then do
    let j ← idx
    putCol cols r i p j x
  else .ok r

/-- The part of `GBasis_Data` used here, GBasis_Data.hpp:23-43; `firsts` is `SaveFirstGroupVectorDecomposition`, empty in two
dimensions. -/
structure GData (K : Type) where
  degree : Nat
  Nk : Nat
  Nkm1 : Nat
  Nkp1 : Nat
  dimFirst : Nat
  firsts : List Nat
  mono : MonoData
  /-- rows `j = 0, …, Nk - 1` of `VectorDecomposition` -/
  dec : List (DecRow K)

/-- `cond ? table(...) : -1`, GBasis_2D.cpp:77, 80; GBasis_3D.cpp:120-133. -/
def readIf (cond : Bool) (x : Except Fault Int) : Except Fault Int := if cond then x else .ok (-1)

/-! ## Two dimensions -/

/-- Reading `MatrixExponents(a, b)` of size `N × N`, GBasis_2D.cpp:76-80. -/
def getM2 (N : Nat) (M : Nat → Nat → Int) (a b : Nat) : Except Fault Int :=
  if a < N ∧ b < N then .ok (M a b) else .error .undefinedBehaviour

/-- `MatrixExponents(a, b) = x` with its bounds, GBasis_2D.cpp:39, 41. -/
def setM2 (N : Nat) (M : Nat → Nat → Int) (a b : Nat) (x : Int) : Except Fault (Nat → Nat → Int) :=
  if a < N ∧ b < N then .ok (fun a' b' => if a' = a ∧ b' = b then x else M a' b') else .error .undefinedBehaviour

/-- One iteration of the loop filling `MatrixExponents`, GBasis_2D.cpp:38-41 (`e` is the previous exponent). -/
def mapStep2 (N : Nat) (M : Nat → Nat → Int) (e : List Nat) (i : Nat) : Except Fault (Nat → Nat → Int) :=
  if ex e 0 = 0 then setM2 N M (ex e 1 + 1) 0 i else setM2 N M (ex e 0 - 1) (ex e 1 + 1) i

/-- The loop filling `MatrixExponents`, GBasis_2D.cpp:36-42: `n` iterations starting from `i`. -/
def mapLoop2 (N : Nat) (exps : List (List Nat)) : Nat → Nat → (Nat → Nat → Int) → Except Fault (Nat → Nat → Int)
  | 0, _, M => .ok M
  | n + 1, i, M => do
    let e ← unchecked exps (i - 1)
    let M' ← mapStep2 N M e i
    mapLoop2 N exps n (i + 1) M'

/-- One iteration of the loop over `j` (GBasis_2D.cpp:53-67) with `VectorDecompositionIndices` (72-83) inlined. Row `j` of the
zero matrices is written only there, so the row is returned. -/
def decRow2 {K : Type} [Field K] (Nkm1 Nkp1 : Nat) (M : Nat → Nat → Int) (e : List Nat) : Except Fault (DecRow K) := do
  let cols := fun p => if p = 0 then Nkp1 else Nkm1
  let i00 ← getM2 Nkp1 M (ex e 0 + 1) (ex e 1)
  let i01 ← readIf (ex e 1 > 0) (getM2 Nkp1 M (ex e 0) (ex e 1 - 1))
  let i10 ← getM2 Nkp1 M (ex e 0) (ex e 1 + 1)
  let i11 ← readIf (ex e 0 > 0) (getM2 Nkp1 M (ex e 0 - 1) (ex e 1))
  let r ← putCol cols (fun _ _ _ => 0) 0 0 i00 (1 / ((e.sum : K) + 1))
  let r ← putColIf (ex e 1 > 0) cols r 0 1 (.ok i01) ((ex e 1 : K) / ((e.sum : K) + 1))
  let r ← putCol cols r 1 0 i10 (1 / ((e.sum : K) + 1))
  putColIf (ex e 0 > 0) cols r 1 1 (.ok i11) (-(ex e 0 : K) / ((e.sum : K) + 1))

/-- The loop over `j` (GBasis_2D.cpp:53-67, GBasis_3D.cpp:81-110): `n` iterations starting from `j`. -/
def decLoop {K : Type} (f : List Nat → Except Fault (DecRow K)) (exps : List (List Nat)) :
    Nat → Nat → Except Fault (List (DecRow K))
  | 0, _ => .ok []
  | n + 1, j => do
    let e ← unchecked exps j
    let r ← f e
    let rs ← decLoop f exps n (j + 1)
    .ok (r :: rs)

/-- `GBasis_2D::Compute`, GBasis_2D.cpp:22-70. -/
def gbasis2 (K : Type) [Field K] (k : Nat) : Except Fault (GData K) := do
  let mono := compute mono2 (k + 1)
  let Nk := (k + 1) * (k + 2) / 2
  let Nkp1 := (k + 2) * (k + 3) / 2
  let Nkm1 := k * (k + 1) / 2
  let M0 ← setM2 Nkp1 (fun _ _ => -1) 0 0 0
  let M ← mapLoop2 Nkp1 mono.exps (Nkp1 - 1) 1 M0
  let dec ← decLoop (decRow2 Nkm1 Nkp1 M) mono.exps Nk 0
  .ok ⟨k, Nk, Nkm1, Nkp1, 0, [], mono, dec⟩

/-- `GBasis_2D::VanderGBigOPlus(data, vander)[comp](p, col)`, GBasis_2D.hpp:33-39, for `row` the row `p` of `vander`, which has
`ncols` columns. -/
def gbig2 {K : Type} [Field K] (g : GData K) (ncols : Nat) (row : Nat → K) (comp col : Nat) : Except Fault K :=
  if g.Nkm1 ≤ ncols ∧ 2 < ncols ∧ col < g.Nkm1 ∧ comp < 2 then
    .ok (if comp = 0 then row col * row 2 else row col * (-1 * row 1))
  else .error .undefinedBehaviour

/-! ## Three dimensions -/

/-- Reading `MapExponents[a][b][c]` of size `N × N × N`, GBasis_3D.cpp:119-133. -/
def getM3 (N : Nat) (M : Nat → Nat → Nat → Int) (a b c : Nat) : Except Fault Int :=
  if a < N ∧ b < N ∧ c < N then .ok (M a b c) else .error .undefinedBehaviour

/-- `MapExponents[a][b][c] = x` with its bounds, GBasis_3D.cpp:49-56. -/
def setM3 (N : Nat) (M : Nat → Nat → Nat → Int) (a b c : Nat) (x : Int) : Except Fault (Nat → Nat → Nat → Int) :=
  if a < N ∧ b < N ∧ c < N then .ok (fun a' b' c' => if a' = a ∧ b' = b ∧ c' = c then x else M a' b' c')
  else .error .undefinedBehaviour

/-- One iteration of the loop filling `MapExponents`, GBasis_3D.cpp:46-56 (`e` is the previous exponent). -/
def mapStep3 (N : Nat) (M : Nat → Nat → Nat → Int) (e : List Nat) (i : Nat) : Except Fault (Nat → Nat → Nat → Int) :=
  if ex e 0 = 0 then
    if ex e 1 = 0 then setM3 N M (ex e 2 + 1) 0 0 i else setM3 N M (ex e 0 + ex e 1 - 1) 0 (ex e 2 + 1) i
  else setM3 N M (ex e 0 - 1) (ex e 1 + 1) (ex e 2) i

/-- The loop filling `MapExponents`, GBasis_3D.cpp:44-57. -/
def mapLoop3 (N : Nat) (exps : List (List Nat)) :
    Nat → Nat → (Nat → Nat → Nat → Int) → Except Fault (Nat → Nat → Nat → Int)
  | 0, _, M => .ok M
  | n + 1, i, M => do
    let e ← unchecked exps (i - 1)
    let M' ← mapStep3 N M e i
    mapLoop3 N exps n (i + 1) M'

/-- The loop computing `MapFirstGroupVectorDecomposition` and `SaveFirstGroupVectorDecomposition`, GBasis_3D.cpp:70-79: `n`
iterations starting from `j`. -/
def firstLoop (exps : List (List Nat)) : Nat → Nat → List Int → List Nat → Except Fault (List Int × List Nat)
  | 0, _, mp, sv => .ok (mp, sv)
  | n + 1, j, mp, sv => do
    let e ← unchecked exps j
    if ex e 0 = 0 then firstLoop exps n (j + 1) (mp ++ [(sv.length : Int)]) (sv ++ [j])
    else firstLoop exps n (j + 1) (mp ++ [-1]) sv

/-- `MapFirstGroupVectorDecomposition[idx]`, GBasis_3D.cpp:95, 104. -/
def mapFirst (mp : List Int) (idx : Int) : Except Fault Int :=
  if 0 ≤ idx then unchecked mp idx.toNat else .error .undefinedBehaviour

/-- One iteration of the loop over `j` (GBasis_3D.cpp:81-110) with `VectorDecompositionIndices` (115-136) inlined. -/
def decRow3 {K : Type} [Field K] (dimFirst Nkm1 Nkp1 : Nat) (M : Nat → Nat → Nat → Int) (mp : List Int) (e : List Nat) :
    Except Fault (DecRow K) := do
  let cols := fun p => if p = 0 then Nkp1 else if p = 1 then dimFirst else Nkm1
  let a := ex e 0
  let b := ex e 1
  let c := ex e 2
  let g := getM3 Nkp1 M
  let i00 ← g (a + 1) b c
  let i02 ← readIf (c > 0) (g a b (c - 1))
  let i03 ← readIf (b > 0) (g a (b - 1) c)
  let i10 ← g a (b + 1) c
  let i11 ← readIf (a = 0 ∧ c > 0) (g a b (c - 1))
  let i12 ← readIf (a > 0 ∧ c > 0) (g (a - 1) (b + 1) (c - 1))
  let i13 ← readIf (a > 0) (g (a - 1) b c)
  let i20 ← g a b (c + 1)
  let i21 ← readIf (a = 0 ∧ b > 0) (g a (b - 1) c)
  let i22 ← readIf (a > 0) (g (a - 1) b c)
  let i23 ← readIf (a > 0 ∧ b > 0) (g (a - 1) (b - 1) (c + 1))
  let inv : K := 1 / ((e.sum : K) + 1)
  let r ← putCol cols (fun _ _ _ => 0) 0 0 i00 inv
  let r ← putColIf (c > 0) cols r 0 2 (.ok i02) (-(c : K) * inv)
  let r ← putColIf (b > 0) cols r 0 3 (.ok i03) ((b : K) * inv)
  let r ← putCol cols r 1 0 i10 inv
  let r ← putColIf (c > 0 ∧ a = 0) cols r 1 1 (mapFirst mp i11) ((c : K) * inv)
  let r ← putColIf (a > 0 ∧ c > 0) cols r 1 2 (.ok i12) (-(c : K) * inv)
  let r ← putColIf (a > 0) cols r 1 3 (.ok i13) (-((a + c : Nat) : K) * inv)
  let r ← putCol cols r 2 0 i20 inv
  let r ← putColIf (b > 0 ∧ a = 0) cols r 2 1 (mapFirst mp i21) (-(b : K) * inv)
  let r ← putColIf (a > 0) cols r 2 2 (.ok i22) (((a + b : Nat) : K) * inv)
  putColIf (a > 0 ∧ b > 0) cols r 2 3 (.ok i23) ((b : K) * inv)

/-- `GBasis_3D::Compute`, GBasis_3D.cpp:22-113. (For degree 0 the `unsigned` expression `(k - 1) * k` on line 34 is zero, as
it is here.) -/
def gbasis3 (K : Type) [Field K] (k : Nat) : Except Fault (GData K) := do
  let mono := compute mono3 (k + 1)
  let Nk := (k + 1) * (k + 2) * (k + 3) / 6
  let Nkp1 := (k + 2) * (k + 3) * (k + 4) / 6
  let Nkm1 := k * (k + 1) * (k + 2) / 6
  let dimFirst := Nkm1 - (k - 1) * k * (k + 1) / 6
  let M ← mapLoop3 Nkp1 mono.exps (Nkp1 - 1) 1 (fun _ _ _ => 0)
  let fs ← firstLoop mono.exps Nkm1 0 [] []
  let dec ← decLoop (decRow3 dimFirst Nkm1 Nkp1 M fs.1) mono.exps Nk 0
  .ok ⟨k, Nk, Nkm1, Nkp1, dimFirst, fs.2, mono, dec⟩

/-- `GBasis_3D::VanderGBigOPlus(data, vander)[comp](p, col)`, GBasis_3D.cpp:138-166, for `row` the row `p` of `vander`, which
has `ncols` columns. The loop over the first group writes column `count` from the `count`-th saved position. -/
def gbig3 {K : Type} [Field K] (g : GData K) (ncols : Nat) (row : Nat → K) (comp col : Nat) : Except Fault K :=
  if ¬ (comp < 3 ∧ col < g.dimFirst + 2 * g.Nkm1) then .error .undefinedBehaviour
  else if ncols < 4 then .ok 0
  else if ncols < g.Nkm1 ∨ g.dimFirst + 2 * g.Nkm1 < g.firsts.length then .error .undefinedBehaviour
  else if col < g.dimFirst then
    if col < g.firsts.length then do
      let i ← unchecked g.firsts col
      if i < g.Nkm1 then .ok (if comp = 0 then 0 else if comp = 1 then row i * row 3 else -(row i * row 2))
      else .error .undefinedBehaviour
    else .ok 0
  else if col < g.dimFirst + g.Nkm1 then
    .ok (if comp = 0 then -(row (col - g.dimFirst) * row 3) else if comp = 1 then 0 else row (col - g.dimFirst) * row 1)
  else
    .ok (if comp = 0 then row (col - g.dimFirst - g.Nkm1) * row 2
      else if comp = 1 then -(row (col - g.dimFirst - g.Nkm1) * row 1) else 0)

end PolyDiM
