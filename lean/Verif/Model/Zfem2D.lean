import Verif.Model.FemTriangle
import Verif.Model.VemEval2D

/-!
# Model: the ZFEM element on polygons

PolyDiM/src/ZFEM/PCC/ZFEM_PCC_Utilities.hpp and PolyDiM/src/ZFEM/PCC/2D/ZFEM_PCC_2D_LocalSpace.cpp, .hpp over a field `K` (the code uses `double`). The
polygon is cut into the triangles centre, vertex `t`, vertex `t + 1`; the basis functions are combinations of the Lagrange functions of the triangles.
Counts are unbounded natural numbers; orders start at 1 (for order 0 the code subtracts 1 from an unsigned 0).
-/

namespace PolyDiM

/-! ## The map from the DOFs of the triangles to the nodes -/

/-- `Eigen::MatrixXi`, with `none` for entries that have not been written (`local_to_total`, ZFEM_PCC_Utilities.hpp:239). -/
structure IMat where
  rows : Nat
  cols : Nat
  ent : Nat → Nat → Option Nat

namespace IMat

/-- `M.row(t).segment(c, l.length) = l`; with one value `M(t, c) = v` (ZFEM_PCC_Utilities.hpp:248-250, 261-263). Positions outside the matrix are undefined. -/
def put (M : IMat) (t c : Nat) (l : List Nat) : Except Fault IMat :=
  if t < M.rows ∧ c + l.length ≤ M.cols then
    .ok ⟨M.rows, M.cols, fun i j => if i = t ∧ c ≤ j ∧ j < c + l.length then l[j - c]? else M.ent i j⟩
  else .error .undefinedBehaviour

/-- `M.col(0) = Constant(n, v)`, ZFEM_PCC_Utilities.hpp:255, 268, 282. -/
def putFirst (M : IMat) (n v : Nat) : Except Fault IMat :=
  if n = M.rows ∧ 0 < M.cols then .ok ⟨M.rows, M.cols, fun i j => if i < M.rows ∧ j = 0 then some v else M.ent i j⟩ else .error .undefinedBehaviour

/-- Reading an entry; an entry that has not been written or lies outside is undefined (ZFEM_PCC_Utilities.hpp:79, ZFEM_PCC_2D_LocalSpace.cpp:160). -/
def get (M : IMat) (t c : Nat) : Except Fault Nat :=
  if t < M.rows ∧ c < M.cols then (match M.ent t c with | some v => .ok v | none => .error .undefinedBehaviour) else .error .undefinedBehaviour

end IMat

/-- `edge_reference_id_dofs + a`, ZFEM_PCC_Utilities.hpp:241, 250: the integers `a, …, a + N1 - 1`. -/
def edgeIds (N1 a : Nat) : List Nat := (List.range N1).map (· + a)

/-- `ceil(a / (double)b)`, ZFEM_PCC_Utilities.hpp:292, 323. Doubles are exact here: the quotient of two integers below 2^32 is never rounded onto an integer it
does not equal. -/
def ceilDiv (a b : Nat) : Nat := (a + b - 1) / b

/-- The iterations of the nested loops `for i < repeat_times, for j < m` in order, as the number `i + j * repeat_times`, ZFEM_PCC_Utilities.hpp:293-303, 324-331. -/
def interleave (repeatTimes m : Nat) : List Nat :=
  (List.range repeatTimes).flatMap fun i => (List.range m).map fun j => i + j * repeatTimes

/-- One pass of the loop over `num_pt_triangle`, ZFEM_PCC_Utilities.hpp:297-301; the second component is `count`. -/
def numPtStep (n base other : Nat) (s : List Nat × Nat) (x : Nat) : Except Fault (List Nat × Nat) :=
  if x < n ∧ s.2 < n then
    (if x < s.1.length then .ok (s.1.set x (base + if s.2 < other then 1 else 0), s.2 + 1) else .error .undefinedBehaviour)
  else .ok s

/-- `num_pt_triangle`, ZFEM_PCC_Utilities.hpp:284-303: how many internal DOFs of the polygon lie in each triangle. -/
def numPt (n N2 : Nat) : Except Fault (List Nat) :=
  if n = 0 ∨ N2 = 0 ∨ N2 - 1 = 0 then .error .undefinedBehaviour
  else do
    let s ← (interleave (ceilDiv n (N2 - 1)) (N2 - 1)).foldlM (numPtStep n ((N2 - 1) / n) ((N2 - 1) % n)) (List.replicate n 0, 0)
    .ok s.1

/-- One pass of the loop over `p_mod`, ZFEM_PCC_Utilities.hpp:328-329; the second component is `count`. -/
def pModStep (N2 t : Nat) (s : List Nat × Nat) (x : Nat) : Except Fault (List Nat × Nat) :=
  if x < N2 ∧ s.2 < N2 then
    (if s.2 < s.1.length then .ok (s.1.set s.2 ((x + t + 1) % N2), s.2 + 1) else .error .undefinedBehaviour)
  else .ok s

/-- `p_mod` for triangle `t`, ZFEM_PCC_Utilities.hpp:320-334; `pm` are the values left by the previous triangle. -/
def pMod (N2 t m : Nat) (pm : List Nat) : Except Fault (List Nat) :=
  if N2 > 1 ∧ m > 0 then do
    let s ← (interleave (ceilDiv N2 m) m).foldlM (pModStep N2 t) (pm, 0)
    .ok s.1
  else .ok (List.range N2)

/-- The state of the loop over the triangles for order at least 4, ZFEM_PCC_Utilities.hpp:305-312. -/
structure MapState where
  mat : IMat
  inner : Nat
  dof : Nat
  pm : List Nat

/-- The writes `local_to_total(t, base + p_mod[p]) = offset++` for `lo ≤ p < hi`, ZFEM_PCC_Utilities.hpp:336-346. -/
def putInner (t base : Nat) (pm : List Nat) (lo hi : Nat) (M : IMat) (off : Nat) : Except Fault (IMat × Nat) :=
  (List.range' lo (hi - lo)).foldlM (fun s p => do
    let q ← unchecked pm p
    let M' ← s.1.put t (base + q) [s.2]
    .ok (M', s.2 + 1)) (M, off)

/-- The two spokes of triangle `t`, ZFEM_PCC_Utilities.hpp:261-263, 274-276, 316-318; `a` is the number of the first spoke node. -/
def putSpokes (n N1 a t : Nat) (M : IMat) : Except Fault IMat := do
  let M ← M.put t 3 (edgeIds N1 (a + t * N1))
  M.put t (3 + 2 * N1) (edgeIds N1 (a + (t + 1) % n * N1))

/-- One triangle for order at least 4, ZFEM_PCC_Utilities.hpp:312-347. -/
def mapStep (n N1 N2 nb : Nat) (nums : List Nat) (s : MapState) (t : Nat) : Except Fault MapState := do
  let M ← putSpokes n N1 nb t s.mat
  let m ← unchecked nums t
  let pm ← pMod N2 t m s.pm
  let (M, dof) ← putInner t (3 * (N1 + 1)) pm 0 m M s.dof
  let (M, inner) ← putInner t (3 * (N1 + 1)) pm m N2 M s.inner
  .ok ⟨M, inner, dof, pm⟩

/-- `CreateMaps`, ZFEM_PCC_Utilities.hpp:233-351, for a polygon with `n` vertices, `N1` DOFs per edge, `N2` internal DOFs per triangle and `nb` basis functions. -/
def createMaps (order n N1 N2 nb : Nat) : Except Fault IMat := do
  let M ← (List.range n).foldlM (fun (M : IMat) t => do
    let M ← M.put t 1 [t]
    let M ← M.put t 2 [(t + 1) % n]
    M.put t (3 + N1) (edgeIds N1 (t * N1 + n))) ⟨n, 3 * (1 + N1) + N2, fun _ _ => none⟩
  if order ≤ 2 then do
    let M ← M.putFirst n nb
    (List.range n).foldlM (fun M t => putSpokes n N1 (nb + 1) t M) M
  else if order = 3 then do
    let M ← M.putFirst n (nb - 1)
    (List.range n).foldlM (fun M t => do
      let M ← putSpokes n N1 nb t M
      M.put t (3 + 3 * N1) [nb + n * N1 + t]) M
  else do
    let M ← M.putFirst n (nb - N2)
    let nums ← numPt n N2
    let s ← (List.range n).foldlM (mapStep n N1 N2 nb nums) ⟨M, nb + n * N1, nb - N2 + 1, List.replicate N2 0⟩
    .ok s.mat

/-! ## The weights of the virtual nodes -/

variable {K : Type} [Field K]

/-- `ComputeMinimizerSumOfSquaredWeightsMonomials`, ZFEM_PCC_Utilities.hpp:353-361. -/
def zfemWeights (llt : Solver K) (D V : DMat K) : Except Fault (DMat K) := do
  let M ← D.tr.mul D
  D.mul (llt M V.tr)

/-- `ComputeBasisFunctionsValues` and one direction of `ComputeBasisFunctionsDerivativeValues`, ZFEM_PCC_Utilities.hpp:48-55, 215-231. -/
def zfemCombine (nb nv : Nat) (F W : DMat K) : Except Fault (DMat K) :=
  if nb ≤ F.cols ∧ nv ≤ F.cols then do
    let L ← F.block 0 0 F.rows nb
    let R ← F.block 0 (F.cols - nv) F.rows nv
    let RW ← R.mul W.tr
    L.add RW
  else .error .undefinedBehaviour

/-! ## The local space -/

/-- `ZFEM_PCC_2D_ReferenceElement_Data` (I_ZFEM_PCC_2D_ReferenceElement.hpp:25-34): order, DOFs per edge and cell, triangle element with its quadrature,
monomials. -/
structure ZfemRef (K : Type) where
  order : Nat
  dofs1D : Nat
  dofs2D : Nat
  fem : TriData K
  quad : Rule (K × K) K
  mono : MonoData

/-- `ZFEM_PCC_2D_ReferenceElement::Create`, ZFEM_PCC_2D_ReferenceElement.hpp:28-45; the quadrature table of the triangle element is a parameter. -/
def zfemRef (quad : Nat → Rule (K × K) K) (order : Nat) : Except Fault (ZfemRef K) := do
  let d ← triCreate K order
  .ok ⟨order, order - 1, (order - 1) * (order - 2) / 2, d, quad (2 * order), compute mono2 order⟩

/-- `ZFEM_PCC_2D_Polygon_Geometry` (ZFEM_PCC_2D_LocalSpace_Data.hpp:25-40): number of vertices, for each triangle of `Traingulations` the affine map that
Gedim computes, directions of the edges, centre and diameter. -/
structure ZfemPolygon (K : Type) where
  num : Nat
  maps : List (TriMap K)
  dirs : List Bool
  centre : K × K
  diameter : K

/-- The counters of the local space, ZFEM_PCC_2D_LocalSpace.cpp:46-54. -/
structure ZfemCounts where
  boundary : Nat
  basis : Nat
  total : Nat
  virt : Nat

/-- The values of the counters, ZFEM_PCC_2D_LocalSpace.cpp:46-54 (one DOF per vertex). -/
def zfemCounts (ref : ZfemRef K) (n : Nat) : ZfemCounts :=
  let boundary := n + n * ref.dofs1D
  let basis := boundary + ref.dofs2D
  let total := boundary + 1 + n * (ref.dofs1D + ref.dofs2D)
  ⟨boundary, basis, total, total - basis⟩

/-- The local spaces of the triangles, ZFEM_PCC_2D_LocalSpace.cpp:69-80. -/
def zfemTriangles (ref : ZfemRef K) (poly : ZfemPolygon K) : Except Fault (List (TriSpace K)) :=
  (List.range poly.num).mapM fun v => do
    let m ← unchecked poly.maps v
    let dir ← unchecked poly.dirs v
    triSpace ref.fem 3 [true, dir, false] m

/-- `v(all, idx) = x` for one column: writing outside is undefined (ZFEM_PCC_2D_LocalSpace.cpp:160). -/
def setCol {α : Type} (l : List α) (i : Nat) (x : α) : Except Fault (List α) := if i < l.length then .ok (l.set i x) else .error .undefinedBehaviour

/-- `FinerNodes` of `PolygonFineNodes`, ZFEM_PCC_2D_LocalSpace.cpp:146-160. The assignment to an indexed view needs as many columns on both sides. -/
def zfemNodes (n total : Nat) (tris : List (TriSpace K)) (M : IMat) : Except Fault (List (K × K)) :=
  (List.range n).foldlM (fun nodes t => do
    let s ← unchecked tris t
    if s.order.length = M.cols then
      (List.range M.cols).foldlM (fun nodes c => do
        let i ← M.get t c
        let p ← triDof s c
        setCol nodes i p) nodes
    else .error .undefinedBehaviour) (List.replicate total (0, 0))

/-- The loop over the columns of one triangle, ZFEM_PCC_Utilities.hpp:78-80, 117-119, 155-157, 200-205: column `local_to_global(t, p)` of the rows of the triangle is column
`p` of its values; `vals` has one row per point. -/
def zfemScatter (M : IMat) (t off nq : Nat) (vals : DMat K) (F : DMat K) : Except Fault (DMat K) :=
  (List.range M.cols).foldlM (fun F p => do
    let i ← M.get t p
    let col ← vals.block 0 p vals.rows 1
    F.assign off i nq 1 col) F

/-- `MapValues` at reference points, FEM_Triangle_PCC_2D_LocalSpace.hpp:32-36, 55-59; `ReferenceBasisFunctionValues` is `EvaluateBasisFunctions` at the points of
the quadrature. -/
def triRefValues (s : TriSpace K) (points : List (K × K)) : Except Fault (DMat K) := do
  let rows ← points.mapM fun q => s.order.mapM fun i => triValue s.ref q.1 q.2 i
  .ok ⟨points.length, s.order.length, fun i j => (rows.getD i []).getD j 0⟩

/-- One direction of `MapDerivativeValues` at reference points, FEM_Triangle_PCC_2D_LocalSpace.cpp:95-110. -/
def triRefDerivatives (s : TriSpace K) (points : List (K × K)) (dir : Nat) : Except Fault (DMat K) := do
  let rows ← points.mapM fun q => s.order.mapM fun i => do
    let gx ← triDerivative s.ref q.1 q.2 i 0
    let gy ← triDerivative s.ref q.1 q.2 i 1
    .ok (if dir = 0 then s.map.i00 * gx + s.map.i10 * gy else s.map.i01 * gx + s.map.i11 * gy)
  .ok ⟨points.length, s.order.length, fun i j => (rows.getD i []).getD j 0⟩

/-- `ComputeFEMBasisFunctionsValues` and one direction of `ComputeFEMBasisFunctionsDerivativeValues`, ZFEM_PCC_Utilities.hpp:57-86, 128-164; `vals t` are the
values of triangle `t` at the `nq` points of the quadrature. -/
def zfemFemValues (M : IMat) (nb nv nq : Nat) (tris : List (TriSpace K)) (vals : TriSpace K → Except Fault (DMat K)) : Except Fault (DMat K) := do
  let s ← tris.zipIdx.foldlM (fun (s : DMat K × Nat) st => do
    let v ← vals st.1
    let F ← zfemScatter M st.2 s.2 nq v s.1
    .ok (F, s.2 + nq)) (.zero (nq * tris.length) (nb + nv), 0)
  .ok s.1

/-- The overloads with points, ZFEM_PCC_Utilities.hpp:88-126, 166-213: one list of points per triangle; `vals s pts` are the values of a triangle. -/
def zfemFemValuesAt (M : IMat) (nb nv : Nat) (tris : List (TriSpace K)) (points : List (List (K × K))) (vals : TriSpace K → List (K × K) → Except Fault (DMat K)) :
    Except Fault (DMat K) := do
  let s ← points.zipIdx.foldlM (fun (s : DMat K × Nat) pt =>
    if pt.1.length > 0 then do
      let tri ← unchecked tris pt.2
      let v ← vals tri pt.1
      let F ← zfemScatter M pt.2 s.2 pt.1.length v s.1
      .ok (F, s.2 + pt.1.length)
    else .ok s) (.zero (points.map List.length).sum (nb + nv), 0)
  .ok s.1

/-- What `CreateLocalSpace` stores (ZFEM_PCC_2D_LocalSpace_Data.hpp:42-88), as far as the functions below read it. -/
structure ZfemSpace (K : Type) where
  counts : ZfemCounts
  ts : List K
  coef : List K
  tris : List (TriSpace K)
  map : IMat
  finer : List (K × K)
  coarse : List (K × K)
  virt : List (K × K)
  D : DMat K
  V : DMat K
  weights : DMat K
  values : DMat K
  derX : DMat K
  derY : DMat K

/-- `CreateLocalSpace`, ZFEM_PCC_2D_LocalSpace.cpp:26-144, 162-163; the quadrature of lines 64-67 is `zfemQuadrature`. -/
def zfemCreate (llt : Solver K) (ref : ZfemRef K) (poly : ZfemPolygon K) : Except Fault (ZfemSpace K) := do
  let cn := zfemCounts ref poly.num
  let b ← fem1Create (K := K) ref.fem.order .equispaced []
  let ts ← if 2 + (ref.order - 1) ≤ b.positions.length then .ok ((b.positions.drop 2).take (ref.order - 1)) else .error .undefinedBehaviour
  let coef ← edgeBasisCoefficients ref.order ts
  let tris ← zfemTriangles ref poly
  let M ← createMaps ref.order poly.num ref.fem.num1D ref.fem.num2D cn.basis
  let finer ← zfemNodes poly.num cn.total tris M
  let coarse := finer.take cn.basis
  let virt := finer.drop (finer.length - cn.virt)
  let F ← zfemFemValues M cn.basis cn.virt ref.quad.points.length tris fun s => triRefValues s ref.quad.points
  let FX ← zfemFemValues M cn.basis cn.virt ref.quad.points.length tris fun s => triRefDerivatives s ref.quad.points 0
  let FY ← zfemFemValues M cn.basis cn.virt ref.quad.points.length tris fun s => triRefDerivatives s ref.quad.points 1
  let D ← vanderMat ref.mono coarse poly.centre poly.diameter
  let V ← vanderMat ref.mono virt poly.centre poly.diameter
  let W ← zfemWeights llt D V
  let values ← zfemCombine cn.basis cn.virt F W
  let derX ← zfemCombine cn.basis cn.virt FX W
  let derY ← zfemCombine cn.basis cn.virt FY W
  .ok ⟨cn, ts, coef, tris, M, finer, coarse, virt, D, V, W, values, derX, derY⟩

/-- `InternalQuadrature` of `CreateLocalSpace`, ZFEM_PCC_2D_LocalSpace.cpp:64-67; `tris` is `Traingulations`, the triangles whose maps are `ZfemPolygon.maps` (line 71). -/
def zfemQuadrature [LinearOrder K] (ref : ZfemRef K) (tris : List (Tri2 K)) : Except Fault (Rule (K × K) K) := polygonQuad ref.quad tris

/-- `ComputeBasisFunctionsValues` at given points, one list per triangle, ZFEM_PCC_2D_LocalSpace.hpp:63-79; `FInv` maps the points back
(FEM_Triangle_PCC_2D_LocalSpace.hpp:110-117). -/
def zfemValuesAt (s : ZfemSpace K) (points : List (List (K × K))) : Except Fault (DMat K) := do
  let F ← zfemFemValuesAt s.map s.counts.basis s.counts.virt s.tris points fun tri pts => triRefValues tri (pts.map (triFInv tri.map))
  zfemCombine s.counts.basis s.counts.virt F s.weights

/-- One direction of `ComputeBasisFunctionsDerivativeValues` at given points, ZFEM_PCC_2D_LocalSpace.hpp:81-100. -/
def zfemDerivativesAt (s : ZfemSpace K) (points : List (List (K × K))) (dir : Nat) : Except Fault (DMat K) := do
  let F ← zfemFemValuesAt s.map s.counts.basis s.counts.virt s.tris points fun tri pts => triRefDerivatives tri (pts.map (triFInv tri.map)) dir
  zfemCombine s.counts.basis s.counts.virt F s.weights

/-- `ComputeValuesOnEdge`, ZFEM_PCC_2D_LocalSpace.hpp:102-111 and ZFEM_PCC_Utilities.hpp:38-46. -/
def zfemValuesOnEdge (ref : ZfemRef K) (s : ZfemSpace K) (points : List K) : Except Fault (DMat K) := do
  let x ← edgeNodes ref.order s.ts
  let rows ← points.mapM fun p => (List.range x.length).mapM (lagValue x s.coef p)
  .ok ⟨points.length, x.length, fun i j => (rows.getD i []).getD j 0⟩

end PolyDiM
