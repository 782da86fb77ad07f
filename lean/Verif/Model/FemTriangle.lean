import Verif.Model.Fem1D

/-!
# Model of the triangular Lagrange element

PolyDiM/src/FEM/PCC/2D/FEM_Triangle_PCC_2D_ReferenceElement.hpp, FEM_Triangle_PCC_2D_LocalSpace.hpp and .cpp over a field `K` (the code
uses `double`). Counts are unbounded natural numbers. Columns of `DofPositions` are pairs (the third coordinate is always zero),
columns of `DofTypes` are triples. Quadrature tables and the boundary element are left out.
-/

namespace PolyDiM

/-- A column of `DofTypes`. -/
abbrev TriType := Nat × Nat × Nat

/-- `FEM_Triangle_PCC_2D_ReferenceElement_Data`, FEM_Triangle_PCC_2D_ReferenceElement.hpp:28-49. -/
structure TriData (K : Type) where
  order : Nat
  num0D : Nat
  num1D : Nat
  num2D : Nat
  numBasis : Nat
  positions : List (K × K)
  types : List TriType

/-- State of the loop over the lattice, FEM_Triangle_PCC_2D_ReferenceElement.hpp:90-97. -/
structure TriState (K : Type) where
  dof : Nat
  e0 : List Nat
  e1 : List Nat
  e2 : List Nat
  cell : List Nat
  pos : List (K × K)
  types : List TriType

variable {K : Type} [Field K]

/-- The body of the double loop, FEM_Triangle_PCC_2D_ReferenceElement.hpp:102-121. -/
def triStep (order : Nat) (s : TriState K) (ij : Nat × Nat) : TriState K :=
  let i := ij.1
  let j := ij.2
  let h : K := 1 / (order : K)
  { dof := s.dof + 1
    e0 := if i = 0 then (if 0 < j ∧ j < order - i then s.e0 ++ [s.dof] else s.e0) else s.e0
    e1 := if i = 0 then s.e1 else if i < order ∧ (j = 0 ∨ j = order - i) then (if j = 0 then s.e1 else s.e1 ++ [s.dof]) else s.e1
    e2 := if i = 0 then s.e2 else if i < order ∧ (j = 0 ∨ j = order - i) then (if j = 0 then s.dof :: s.e2 else s.e2) else s.e2
    cell := if i = 0 then s.cell else if i < order ∧ (j = 0 ∨ j = order - i) then s.cell
      else if i < order then s.cell ++ [s.dof] else s.cell
    pos := s.pos ++ [((j : K) * h, (i : K) * h)]
    types := s.types ++ [(order - i - j, j, i)] }

/-- The iterations of the double loop in order, FEM_Triangle_PCC_2D_ReferenceElement.hpp:98-101. -/
def triLattice (order : Nat) : List (Nat × Nat) :=
  (List.range (order + 1)).flatMap fun i => (List.range (order + 1 - i)).map fun j => (i, j)

/-- The double loop, FEM_Triangle_PCC_2D_ReferenceElement.hpp:98-123. -/
def triLoop (K : Type) [Field K] (order : Nat) : TriState K := (triLattice order).foldl (triStep order) ⟨0, [], [], [], [], [], []⟩

/-- A matrix with `N` columns initialised to zero, in which the first columns have been written
(FEM_Triangle_PCC_2D_ReferenceElement.hpp:93-94, 129-130); writing more than `N` columns is undefined behaviour. -/
def padCols {α : Type} (N : Nat) (z : α) (l : List α) : Except Fault (List α) :=
  if l.length ≤ N then .ok (l ++ List.replicate (N - l.length) z) else .error .undefinedBehaviour

/-- Copying the columns listed in `l`, FEM_Triangle_PCC_2D_ReferenceElement.hpp:132-153. -/
def copyCols {α : Type} (cols : List α) (l : List Nat) : Except Fault (List α) := l.mapM (unchecked cols)

/-- `Create`, FEM_Triangle_PCC_2D_ReferenceElement.hpp:54-171. -/
def triCreate (K : Type) [Field K] (order : Nat) : Except Fault (TriData K) :=
  if order = 0 then .ok ⟨0, 0, 0, 1, 1, [(1 / 3, 1 / 3)], [(0, 0, 0)]⟩
  else do
    let N := (order + 1) * (order + 2) / 2
    let s := triLoop K order
    let localPos ← padCols N (0, 0) s.pos
    let localTypes ← padCols N (0, 0, 0) s.types
    let nodeDofs := [0, order, N - 1]
    let dofs := nodeDofs ++ (s.e0 ++ s.e1 ++ s.e2) ++ s.cell
    let p ← copyCols localPos dofs
    let t ← copyCols localTypes dofs
    let positions ← padCols N (0, 0) p
    let types ← padCols N (0, 0, 0) t
    .ok ⟨order, nodeDofs.length / 3, s.e0.length, s.cell.length, N, positions, types⟩

/-- One of the three loops `for t < n: value *= (z - t*h); value /= (p - t*h)` of `EvaluateBasisFunctions`,
FEM_Triangle_PCC_2D_ReferenceElement.hpp:190-209. -/
def triFactor (h z p : K) (n : Nat) (v : K) : K :=
  (List.range n).foldl (fun v (t : Nat) => v * (z - (t : K) * h) / (p - (t : K) * h)) v

/-- `EvaluateBasisFunctions(points, data)(p, d)`, FEM_Triangle_PCC_2D_ReferenceElement.hpp:173-215, at the point `(x, y)`. -/
def triValue (d : TriData K) (x y : K) (i : Nat) : Except Fault K :=
  if d.order = 0 then .ok 1
  else do
    let t ← unchecked d.types i
    let p ← unchecked d.positions i
    let h : K := 1 / (d.order : K)
    let v := triFactor h (1 - x - y) (1 - p.1 - p.2) t.1 1
    let v := triFactor h x p.1 t.2.1 v
    .ok (triFactor h y p.2 t.2.2 v)

/-- One term of the product: factor, gradient, denominator (`prod_terms`, `grad_terms`, `denominator`,
FEM_Triangle_PCC_2D_ReferenceElement.hpp:240-272). -/
structure TriTerm (K : Type) where
  val : K
  gx : K
  gy : K
  den : K

/-- The terms filled by the three loops, FEM_Triangle_PCC_2D_ReferenceElement.hpp:245-272. -/
def triTerms (h x y : K) (t : TriType) (p : K × K) : List (TriTerm K) :=
  ((List.range t.1).map fun s => ⟨1 - x - y - s * h, -1, -1, 1 - p.1 - p.2 - s * h⟩) ++
  ((List.range t.2.1).map fun s => ⟨x - s * h, 1, 0, p.1 - s * h⟩) ++
  ((List.range t.2.2).map fun s => ⟨y - s * h, 0, 1, p.2 - s * h⟩)

/-- `inner_prod`, FEM_Triangle_PCC_2D_ReferenceElement.hpp:276-281. -/
def triInner (terms : List (TriTerm K)) (i : Nat) : K :=
  (List.range terms.length).foldl (fun v j => if i ≠ j then v * (terms.getD j ⟨0, 0, 0, 0⟩).val else v) 1

/-- `EvaluateBasisFunctionDerivatives(points, data)[dir](p, i)`, FEM_Triangle_PCC_2D_ReferenceElement.hpp:217-291; direction `0` is `x`,
any other is `y`. -/
def triDerivative (d : TriData K) (x y : K) (i : Nat) (dir : Nat) : Except Fault K :=
  if d.order = 0 then .ok 0
  else do
    let t ← unchecked d.types i
    let p ← unchecked d.positions i
    let terms := triTerms (1 / (d.order : K)) x y t p
    let den := terms.foldl (fun v a => v * a.den) 1
    let num := (List.range terms.length).foldl (fun v i =>
      let a := terms.getD i ⟨0, 0, 0, 0⟩
      v + triInner terms i * (if dir = 0 then a.gx else a.gy)) 0
    .ok (num / den)

/-- The constants of order 2, FEM_Triangle_PCC_2D_ReferenceElement.hpp:304-341: one row per basis function, with the entries of
`constant_laplacian[0], …, constant_laplacian[3]`. -/
def triSecond2 (K : Type) [Field K] : List (List K) :=
  [[4, 4, 4, 4], [4, 0, 0, 0], [0, 0, 0, 4], [-8, -4, -4, 0], [0, 4, 4, 0], [0, -4, -4, -8]]

/-- The polynomials of order 3, FEM_Triangle_PCC_2D_ReferenceElement.hpp:342-402, in the same format. -/
def triSecond3 (x y : K) : List (List K) :=
  [[18 - 27 * y - 27 * x, 18 - 27 * y - 27 * x, 18 - 27 * y - 27 * x, 18 - 27 * y - 27 * x],
   [27 * x - 9, 0, 0, 0],
   [0, 0, 0, 27 * y - 9],
   [81 * x + 54 * y - 45, 54 * x + 27 * y - 45 / 2, 54 * x + 27 * y - 45 / 2, 27 * x],
   [36 - 27 * y - 81 * x, 9 / 2 - 27 * x, 9 / 2 - 27 * x, 0],
   [27 * y, 27 * x - 9 / 2, 27 * x - 9 / 2, 0],
   [0, 27 * y - 9 / 2, 27 * y - 9 / 2, 27 * x],
   [0, 9 / 2 - 27 * y, 9 / 2 - 27 * y, 36 - 81 * y - 27 * x],
   [27 * y, 27 * x + 54 * y - 45 / 2, 27 * x + 54 * y - 45 / 2, 54 * x + 81 * y - 45],
   [-54 * y, 27 - 54 * y - 54 * x, 27 - 54 * y - 54 * x, -54 * x]]

/-- `EvaluateBasisFunctionSecondDerivatives(points, data)[der](p, i)` for `i < NumBasisFunctions`, `der < 4`,
FEM_Triangle_PCC_2D_ReferenceElement.hpp:293-408; `der = 0, 1, 2, 3` are `xx, xy, yx, yy`. -/
def triSecond (d : TriData K) (x y : K) (i der : Nat) : K :=
  if d.order = 2 then ((triSecond2 K).getD i []).getD der 0
  else if d.order = 3 then ((triSecond3 x y).getD i []).getD der 0
  else 0

/-! ## The local space -/

/-- The part of `MapTriangleData` (Gedim) used by the element: the affine map `x ↦ B x + b` and the matrix stored as inverse of `B`
(only the first two rows and columns, the triangle lies in the plane). -/
structure TriMap (K : Type) where
  b00 : K
  b01 : K
  b10 : K
  b11 : K
  i00 : K
  i01 : K
  i10 : K
  i11 : K
  o0 : K
  o1 : K

/-- `Gedim::MapTriangle::F` (called in FEM_Triangle_PCC_2D_LocalSpace.cpp:86). -/
def triF (m : TriMap K) (p : K × K) : K × K := (m.b00 * p.1 + m.b01 * p.2 + m.o0, m.b10 * p.1 + m.b11 * p.2 + m.o1)

/-- `Gedim::MapTriangle::FInv` (called in FEM_Triangle_PCC_2D_LocalSpace.hpp:114, 126, 136). -/
def triFInv (m : TriMap K) (p : K × K) : K × K :=
  (m.i00 * (p.1 - m.o0) + m.i01 * (p.2 - m.o1), m.i10 * (p.1 - m.o0) + m.i11 * (p.2 - m.o1))

/-- `Dof1DsIndex[e]`, FEM_Triangle_PCC_2D_LocalSpace.cpp:55-58. -/
def triEdgeIndex (d : TriData K) (e : Nat) : Nat := 3 * d.num0D + e * d.num1D

/-- The loop over the DOFs of edge `e`, FEM_Triangle_PCC_2D_LocalSpace.cpp:60-75. The descending loop
`for (d = Dof1DsIndex[e + 1] - 1; d < UINT_MAX && d >= Dof1DsIndex[e]; d--)` visits the same range backwards (also when it is
empty, because then its first test fails). -/
def triEdgeOrder (d : TriData K) (dirs : List Bool) (e : Nat) : Except Fault (List Nat) := do
  let dir ← atIdx dirs e
  .ok (if dir then List.range' (triEdgeIndex d e) d.num1D else (List.range' (triEdgeIndex d e) d.num1D).reverse)

/-- `DofsMeshOrder`, FEM_Triangle_PCC_2D_LocalSpace.cpp:41-83: the entries written, in order, in a vector of `numBasis` zeros. -/
def triOrder (d : TriData K) (dirs : List Bool) : Except Fault (List Nat) := do
  let o0 ← triEdgeOrder d dirs 0
  let o1 ← triEdgeOrder d dirs 1
  let o2 ← triEdgeOrder d dirs 2
  padCols d.numBasis 0 (List.range' 0 (3 * d.num0D) ++ (o0 ++ o1 ++ o2) ++ List.range' (triEdgeIndex d 3) d.num2D)

/-- `FEM_Triangle_PCC_2D_LocalSpace_Data`: what the functions below read. -/
structure TriSpace (K : Type) where
  ref : TriData K
  map : TriMap K
  order : List Nat

/-- `CreateLocalSpace`, FEM_Triangle_PCC_2D_LocalSpace.cpp:23-93, for a polygon with `nv` vertices whose affine map is `m`. -/
def triSpace (d : TriData K) (nv : Nat) (dirs : List Bool) (m : TriMap K) : Except Fault (TriSpace K) :=
  if nv ≠ 3 then .error .runtimeError
  else do
    let o ← triOrder d dirs
    .ok ⟨d, m, o⟩

/-- `Dofs.col(c)`, FEM_Triangle_PCC_2D_LocalSpace.cpp:86 with `MapValues`, FEM_Triangle_PCC_2D_LocalSpace.hpp:32-36. -/
def triDof (s : TriSpace K) (c : Nat) : Except Fault (K × K) := do
  let i ← unchecked s.order c
  let p ← unchecked s.ref.positions i
  .ok (triF s.map p)

/-- `ComputeBasisFunctionsValues(…, points)(p, c)`, FEM_Triangle_PCC_2D_LocalSpace.hpp:110-117. -/
def triPhysValue (s : TriSpace K) (p : K × K) (c : Nat) : Except Fault K := do
  let i ← unchecked s.order c
  triValue s.ref (triFInv s.map p).1 (triFInv s.map p).2 i

/-- `ComputeBasisFunctionsDerivativeValues(…, points)[dir](p, c)`, FEM_Triangle_PCC_2D_LocalSpace.hpp:131-139 with `MapDerivativeValues`,
FEM_Triangle_PCC_2D_LocalSpace.cpp:95-110. -/
def triPhysDerivative (s : TriSpace K) (p : K × K) (c dir : Nat) : Except Fault K := do
  let i ← unchecked s.order c
  let gx ← triDerivative s.ref (triFInv s.map p).1 (triFInv s.map p).2 i 0
  let gy ← triDerivative s.ref (triFInv s.map p).1 (triFInv s.map p).2 i 1
  .ok (if dir = 0 then s.map.i00 * gx + s.map.i10 * gy else s.map.i01 * gx + s.map.i11 * gy)

/-- `ComputeBasisFunctionsValuesOnEdge(…, points)(p, a)` at the curvilinear coordinate `t`, FEM_Triangle_PCC_2D_LocalSpace.hpp:146-154; the
boundary element is created in FEM_Triangle_PCC_2D_ReferenceElement.hpp:72-73, 158-160. -/
def triOnEdge (d : TriData K) (t : K) (a : Nat) : Except Fault K := do
  let b ← fem1Create (K := K) d.order .equispaced []
  fem1Value b t a

/-- `ComputeBasisFunctionsLaplacianValues(…, points)(p, c)`, FEM_Triangle_PCC_2D_LocalSpace.hpp:119-129 with `MapLaplacianValues`,
FEM_Triangle_PCC_2D_LocalSpace.cpp:112-124, and `B_lap` of line 33; column `c` of the result is column `c` of the reference values. -/
def triPhysLaplacian (s : TriSpace K) (p : K × K) (c : Nat) : Except Fault K :=
  if s.ref.order > 3 then .error .runtimeError
  else if c < s.ref.numBasis then
    let m := s.map
    let q := triFInv m p
    .ok ((m.i00 * m.i00 + m.i01 * m.i01) * triSecond s.ref q.1 q.2 c 0 + (m.i00 * m.i10 + m.i01 * m.i11) * triSecond s.ref q.1 q.2 c 1 +
      (m.i10 * m.i00 + m.i11 * m.i01) * triSecond s.ref q.1 q.2 c 2 + (m.i10 * m.i10 + m.i11 * m.i11) * triSecond s.ref q.1 q.2 c 3)
  else .error .undefinedBehaviour

end PolyDiM
