import Verif.Spec.VemDf
import Verif.Spec.MixedMesh
import Verif.Model.AssemblerDf2D

/-!
# Specification vocabulary: meshes of polygons for the divergence-free element
-/

namespace PolyDiM.Spec

open MeasureTheory

/-- The boundary of the polygon passes through no point twice. -/
def SimplePolygon (n : Nat) (V : Nat → ℝ × ℝ) : Prop :=
  ∀ e < n, ∀ e' < n, ∀ t t' : ℝ, 0 ≤ t → t < 1 → 0 ≤ t' → t' < 1 →
    segPoint (V e) (V ((e + 1) % n)) t = segPoint (V e') (V ((e' + 1) % n)) t' → e = e' ∧ t = t'

/-- The position of the first free DOF of field `h` in the global vectors: the fields before it come first. -/
def fieldOffset (D : Nat → DOFsData) (h : Nat) : Nat := ∑ i ∈ Finset.range h, (D i).counters.dofs

/-- The position of the first strong DOF of field `h` in the global vectors. -/
def strongOffset (D : Nat → DOFsData) (h : Nat) : Nat := ∑ i ∈ Finset.range h, (D i).counters.strongs

/-- The value a pair of global vectors of several fields holds for a reference to a DOF of field `x.1`. -/
noncomputable def fieldValue (D : Nat → DOFsData) (free strong : List ℝ) (x : Nat × GDOF) : ℝ :=
  valueOf (D x.1) (free.drop (fieldOffset D x.1)) (strong.drop (strongOffset D x.1)) x.2

/-- The gradient of the polynomial of degree at most `k` with coefficients `x`, at a point. -/
noncomputable def gradOf (k : Nat) (c : ℝ × ℝ) (h : ℝ) (x : Nat → ℝ) (p : ℝ × ℝ) : ℝ × ℝ :=
  ∑ d ∈ Finset.range (k + 1), ∑ b ∈ Finset.range (d + 1), x (position (d - b) b) • gradMonomial c h (d - b) b p

/-- The integrand of the Brinkman problem at a point: velocity `u` whose components have the gradients `g.1` and `g.2`, divergence `du` and pressure `p` against `v`, `g'`,
`dv` and `r`. -/
noncomputable def brinkmanIntegrand (test : DfTest ℝ) (x : ℝ × ℝ) (g g' : (ℝ × ℝ) × (ℝ × ℝ)) (u v : ℝ × ℝ) (du dv p r : ℝ) : ℝ :=
  test.viscosity x * (dot2 g.1 g'.1 + dot2 g.2 g'.2)
    + (∑ a ∈ Finset.range 2, ∑ b ∈ Finset.range 2, test.inverseDiffusion x (a + 3 * b) * component u b * component v a) - p * dv + du * r

/-- The quadrature of the integrand on one cell, for degrees of freedom `z`, `v` of velocities and `p`, `r` of pressures: gradients of the elliptic projections, values of the
projections of degree `k`, divergences of degree `m`. -/
noncomputable def flowForm (k m : Nat) (test : DfTest ℝ) (poly : VemPolygon ℝ) (s : DfSpace2D ℝ) (z v p r : Nat → ℝ) : ℝ :=
  quadSum s.internal.points s.internal.weights fun x => brinkmanIntegrand test x
    (gradOf k poly.centroid poly.diameter (apply s.piNabla.1 z) x, gradOf k poly.centroid poly.diameter (apply s.piNabla.2 z) x)
    (gradOf k poly.centroid poly.diameter (apply s.piNabla.1 v) x, gradOf k poly.centroid poly.diameter (apply s.piNabla.2 v) x)
    (polyOf k poly.centroid poly.diameter (apply s.pi0k.1 z) x, polyOf k poly.centroid poly.diameter (apply s.pi0k.2 z) x)
    (polyOf k poly.centroid poly.diameter (apply s.pi0k.1 v) x, polyOf k poly.centroid poly.diameter (apply s.pi0k.2 v) x)
    (polyOf m poly.centroid poly.diameter (apply s.V z) x) (polyOf m poly.centroid poly.diameter (apply s.V v) x)
    (polyOf m poly.centroid poly.diameter p x) (polyOf m poly.centroid poly.diameter r x)

/-- A mesh of polygons for the divergence-free element of order `k`: polygons without crossings, unit normals, edges of positive length; for the reduced space the measure in the
geometric data is the area. The number of degrees of freedom of a cell fits in `unsigned int`. -/
structure IsDfMesh (reduced : Bool) (k : Nat) (mesh : PlaneMesh ℝ) (poly : Nat → VemPolygon ℝ) (n : Nat → Nat) (len : Nat → Nat → ℝ) (dir : Nat → Nat → Bool)
    (nrm : Nat → Nat → ℝ × ℝ) : Prop where
  plane : IsPlaneMesh 1 mesh poly n len dir nrm
  simple : ∀ c < mesh.num2D, SimplePolygon (n c) (cellPoint mesh c)
  unit : ∀ c < mesh.num2D, ∀ e < n c, dot2 (nrm c e) (nrm c e) = 1
  length : ∀ c < mesh.num2D, ∀ e < n c, len c e ≠ 0
  area : ∀ c < mesh.num2D, reduced = true → (poly c).measure = ∫ _p in unionOf (poly c).tris, (1 : ℝ)
  small : ∀ c < mesh.num2D, numVelocityDofs k (divDegree reduced k) (n c) + (divDegree reduced k + 1) * (divDegree reduced k + 2) / 2 < 2 ^ 32

/-- Degree of freedom `j` of one component of the velocity on the boundary of cell `c`: the vertices, then the points on the edges. -/
def borderRef (k : Nat) (mesh : PlaneMesh ℝ) (n : Nat → Nat) (c j : Nat) : GDOF :=
  if j < n c then ⟨0, cellVertex mesh c j, 0⟩ else ⟨1, cellEdge mesh c ((j - n c) / (k - 1)), (j - n c) % (k - 1)⟩

/-- The degrees of freedom of the velocity on cell `c` in global vectors of the four fields: the first component on the boundary, the second one, the interior ones. -/
noncomputable def flowVelocity (k : Nat) (mesh : PlaneMesh ℝ) (n : Nat → Nat) (D : Nat → DOFsData) (free strong : List ℝ) (c j : Nat) : ℝ :=
  if j < n c + n c * (k - 1) then fieldValue D free strong (0, borderRef k mesh n c j)
  else if j < 2 * (n c + n c * (k - 1)) then fieldValue D free strong (1, borderRef k mesh n c (j - (n c + n c * (k - 1))))
  else fieldValue D free strong (2, ⟨2, c, j - 2 * (n c + n c * (k - 1))⟩)

/-- The degrees of freedom of the pressure on cell `c` in global vectors of the four fields. -/
noncomputable def flowPressure (D : Nat → DOFsData) (free strong : List ℝ) (c j : Nat) : ℝ := fieldValue D free strong (3, ⟨2, c, j⟩)

/-- What the program sets up before the assembly (PolyDiM/examples/Brinkman_DF_PCC_2D/main.cpp:108-126): the four fields, their DOFs and the count; all DOFs together and one
more fit in `unsigned int`. -/
structure IsDfSetup (ref : DfRef2D ℝ) (mesh : PlaneMesh ℝ) (boundary : Nat → Nat → Option BInfo) (info : Nat → MeshInfo) (D : Nat → DOFsData) (count : CountData) : Prop where
  infos : ∀ h < 4, dfMeshInfo ref mesh.topo boundary h = .ok (info h)
  dofs : ∀ h < 4, createDOFs 2 (info h) mesh.topo = .ok (D h)
  counted : dfCount ((List.range 4).map fun h => (D h).counters) = .ok count
  small : ∑ h ∈ Finset.range 4, totalRequested (info h) 2 + 1 < 2 ^ 32

/-- No vertex and no edge is on an open part of the boundary: none has type `weak` or `robin` for a component of the velocity. -/
def NoOpening (info : Nat → MeshInfo) : Prop := ∀ h < 2, ∀ d < 2, ∀ b ∈ (info h).bInfo d, b.type ≠ .weak ∧ b.type ≠ .robin

end PolyDiM.Spec
