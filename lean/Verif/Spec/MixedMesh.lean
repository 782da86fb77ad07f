import Verif.Spec.PlaneMesh
import Verif.Spec.VemMcc
import Verif.Model.AssemblerMcc2D

/-!
# Specification vocabulary: the mixed formulation on meshes of polygons
-/

namespace PolyDiM.Spec

/-- A mesh of polygons for the mixed elements of order `k`: the normals are unit vectors, edges have positive length, and the number of degrees of freedom of a
cell (velocity and pressure) fits in `unsigned int`. -/
structure IsMixedMesh (k : Nat) (mesh : PlaneMesh ℝ) (poly : Nat → VemPolygon ℝ) (n : Nat → Nat) (len : Nat → Nat → ℝ) (dir : Nat → Nat → Bool)
    (nrm : Nat → Nat → ℝ × ℝ) : Prop where
  plane : IsPlaneMesh 1 mesh poly n len dir nrm
  unit : ∀ c < mesh.num2D, ∀ e < n c, dot2 (nrm c e) (nrm c e) = 1
  length : ∀ c < mesh.num2D, ∀ e < n c, len c e ≠ 0
  small : ∀ c < mesh.num2D, n c * (k + 1) + k * (k + 2) + (k + 1) * (k + 2) / 2 < 2 ^ 32

/-- Component `d` of a vector. -/
def component (p : ℝ × ℝ) (d : Nat) : ℝ := if d = 0 then p.1 else p.2

/-- The integrand of the mixed formulation at a point: velocity `u` with divergence `du` and pressure `p` against `v`, `dv` and `r`. -/
noncomputable def mixedIntegrand (test : MixedTest ℝ) (x : ℝ × ℝ) (u v : ℝ × ℝ) (du dv p r : ℝ) : ℝ :=
  (∑ a ∈ Finset.range 2, ∑ b ∈ Finset.range 2, test.inverseDiffusion x (a + 3 * b) * component u b * component v a)
    - p * dv - (∑ a ∈ Finset.range 2, test.advection x a * component v a) * p + du * r + test.reaction x * p * r

/-- The vector from the origin of edge `E` of the mesh to its end. -/
def edgeVector (mesh : PlaneMesh ℝ) (E : Nat) : ℝ × ℝ := mesh.coords (mesh.topo.cell1DVertices E).2 - mesh.coords (mesh.topo.cell1DVertices E).1

/-- The length of edge `E` of the mesh. -/
noncomputable def meshLength (mesh : PlaneMesh ℝ) (E : Nat) : ℝ := Real.sqrt (dot2 (edgeVector mesh E) (edgeVector mesh E))

/-- The unit normal of edge `E` of the mesh, to the right of its direction. -/
noncomputable def meshNormal (mesh : PlaneMesh ℝ) (E : Nat) : ℝ × ℝ := (1 / meshLength mesh E) • clockwise (edgeVector mesh E)

/-- The signed number of times edge `E` occurs in the cells: once with its direction and once against it gives zero. -/
def signedSum (mesh : PlaneMesh ℝ) (n : Nat → Nat) (dir : Nat → Nat → Bool) (E : Nat) : ℤ :=
  ((List.range mesh.num2D).map fun c => ∑ e ∈ Finset.range (n c), if cellEdge mesh c e = E then (if dir c e then 1 else -1) else 0).sum

/-- The degrees of freedom of the velocity on cell `c` in global vectors: those of its edges, then the interior ones. -/
noncomputable def velocityDofs (k : Nat) (mesh : PlaneMesh ℝ) (n : Nat → Nat) (data : DOFsData) (free strong : List ℝ) (c j : Nat) : ℝ :=
  if j < n c * (k + 1) then valueOf data free strong ⟨1, cellEdge mesh c (j / (k + 1)), j % (k + 1)⟩ else valueOf data free strong ⟨2, c, j - n c * (k + 1)⟩

/-- The degrees of freedom of the pressure on cell `c` in the global vectors of both fields, in which those of the velocity (`velocity`) come first. -/
noncomputable def pressureDofs (velocity data : DOFsData) (free strong : List ℝ) (c j : Nat) : ℝ :=
  valueOf data (free.drop velocity.counters.dofs) (strong.drop velocity.counters.strongs) ⟨2, c, j⟩

/-- Edge `E` does not have type `strong`. -/
def IsFreeEdge (info : MeshInfo) (E : Nat) : Prop := ∃ b, (info.bInfo 1)[E]? = some b ∧ b.type ≠ .strong

/-- Two cells on both sides of an edge that is not strong and belongs to no other cell. -/
def Adjacent (info : MeshInfo) (mesh : PlaneMesh ℝ) (n : Nat → Nat) (dir : Nat → Nat → Bool) (c c' : Nat) : Prop :=
  c < mesh.num2D ∧ c' < mesh.num2D ∧ ∃ e < n c, ∃ e' < n c', cellEdge mesh c e = cellEdge mesh c' e' ∧ dir c e ≠ dir c' e' ∧ IsFreeEdge info (cellEdge mesh c e) ∧
    ∀ c'' < mesh.num2D, ∀ e'' < n c'', cellEdge mesh c'' e'' = cellEdge mesh c e → (c'' = c ∧ e'' = e) ∨ (c'' = c' ∧ e'' = e')

/-- A cell with an edge that is not strong and belongs to no other cell. -/
def IsOutlet (info : MeshInfo) (mesh : PlaneMesh ℝ) (n : Nat → Nat) (c : Nat) : Prop :=
  c < mesh.num2D ∧ ∃ e < n c, IsFreeEdge info (cellEdge mesh c e) ∧ ∀ c'' < mesh.num2D, ∀ e'' < n c'', cellEdge mesh c'' e'' = cellEdge mesh c e → c'' = c ∧ e'' = e

/-- The inverse of the diffusion is positive definite. -/
def IsDefiniteTensor (test : MixedTest ℝ) : Prop :=
  ∀ x u : ℝ × ℝ, u ≠ 0 → 0 < ∑ a ∈ Finset.range 2, ∑ b ∈ Finset.range 2, test.inverseDiffusion x (a + 3 * b) * component u b * component u a

/-- What the program sets up before the assembly (PolyDiM/examples/Elliptic_MCC_2D/main.cpp:117-131): the DOFs of the velocity and of the pressure, with the same boundary
conditions, and their count; all of them together fit in `unsigned int`. -/
structure IsMixedSetup (k : Nat) (mesh : PlaneMesh ℝ) (boundary : Nat → Option BInfo) (info0 info1 : MeshInfo) (d0 d1 : DOFsData) (count : CountData) : Prop where
  velocityInfo : createConstantInfo 2 mesh.topo ⟨mccVelocityNum k, boundary⟩ = .ok info0
  pressureInfo : createConstantInfo 2 mesh.topo ⟨mccPressureNum k, boundary⟩ = .ok info1
  velocityDofs : createDOFs 2 info0 mesh.topo = .ok d0
  pressureDofs : createDOFs 2 info1 mesh.topo = .ok d1
  counted : countDofs [d0.counters, d1.counters] = .ok count
  small : totalRequested info0 2 + totalRequested info1 2 < 2 ^ 32

/-- `u E` is the polynomial of degree at most `k` on edge `E` with the values `χ` at the nodes of the edge. -/
def IsFluxTrace (k : Nat) (mesh : PlaneMesh ℝ) (ts : List ℝ) (χ : GDOF → ℝ) (u : Nat → Polynomial ℝ) : Prop :=
  ∀ E < mesh.num1D, (u E).natDegree ≤ k ∧ ∀ j t, ts[j]? = some t → (u E).eval t = χ ⟨1, E, j⟩

/-- The boundary term of edge `e` of cell `c` for a velocity whose component along the normals of the edges of the mesh is `u`: minus the integral of the datum times the
outward normal component, where `J` stands for the integral along the edge in the parameter from 0 to 1; only edges of type `weak` have one. -/
noncomputable def mixedWeakValue (info : MeshInfo) (mesh : PlaneMesh ℝ) (dir : Nat → Nat → Bool) (J : (ℝ → ℝ) → ℝ) (f : Nat → ℝ × ℝ → ℝ) (u : Nat → Polynomial ℝ) (c e : Nat) : ℝ :=
  ((info.bInfo 1)[cellEdge mesh c e]?).elim 0 fun b => if b.type = .weak then
    -(meshLength mesh (cellEdge mesh c e) * J fun t => f b.marker (edgePoint mesh (cellEdge mesh c e) t) * ((if dir c e then 1 else -1) * (u (cellEdge mesh c e)).eval t)) else 0

/-- The velocity `q` and the pressure `pr` solve the equations `inverseDiffusion q = - grad pr + advection pr`, `div q + reaction pr = source`, the normal component of `q`
is the datum on the strong edges and `pr` the datum on the weak edges. -/
structure IsMixedSolution (mesh : PlaneMesh ℝ) (n : Nat → Nat) (nrm : Nat → Nat → ℝ × ℝ) (info : MeshInfo) (test : MixedTest ℝ)
    (q : MvPolynomial (Fin 2) ℝ × MvPolynomial (Fin 2) ℝ) (pr : MvPolynomial (Fin 2) ℝ) : Prop where
  law : ∀ x : ℝ × ℝ, ∀ a : Fin 2, ∑ c ∈ Finset.range 2, test.inverseDiffusion x (a.val + 3 * c) * component (polyField q x) c
    = -MvPolynomial.eval ![x.1, x.2] (MvPolynomial.pderiv a pr) + test.advection x a.val * MvPolynomial.eval ![x.1, x.2] pr
  balance : ∀ x : ℝ × ℝ, test.source x = MvPolynomial.eval ![x.1, x.2] (MvPolynomial.pderiv 0 q.1 + MvPolynomial.pderiv 1 q.2) + test.reaction x * MvPolynomial.eval ![x.1, x.2] pr
  weak : ∀ c < mesh.num2D, ∀ e < n c, ∀ b, (info.bInfo 1)[cellEdge mesh c e]? = some b → b.type = .weak →
    ∀ t, test.weak b.marker (edgePoint mesh (cellEdge mesh c e) t)
      = MvPolynomial.eval ![(edgePoint mesh (cellEdge mesh c e) t).1, (edgePoint mesh (cellEdge mesh c e) t).2] pr
  strong : ∀ c < mesh.num2D, ∀ e < n c, ∀ b, (info.bInfo 1)[cellEdge mesh c e]? = some b → b.type = .strong →
    ∀ t, test.strong b.marker (edgePoint mesh (cellEdge mesh c e) t) = dot2 (polyField q (edgePoint mesh (cellEdge mesh c e) t)) (nrm c e)

/-- What the program does with a pair of global vectors is exact on cell `c` for the velocity `q` and the pressure `pr`: the degrees of freedom of the velocity are those of `q`,
its projection is `q` and its divergence that of `q`, and the pressure is the `L²` projection of `pr` onto the polynomials of degree at most `k`. -/
def IsMixedExact (k : Nat) (mesh : PlaneMesh ℝ) (n : Nat → Nat) (dir : Nat → Nat → Bool) (nrm : Nat → Nat → ℝ × ℝ) (ts : List ℝ) (poly : VemPolygon ℝ) (s : MccSpace2D ℝ)
    (d0 d1 : DOFsData) (q : MvPolynomial (Fin 2) ℝ × MvPolynomial (Fin 2) ℝ) (pr : MvPolynomial (Fin 2) ℝ) (free strong : List ℝ) (c : Nat) : Prop :=
  (∃ flux, IsNormalTrace (n c) (cellPoint mesh c) (nrm c) (polyField q) flux ∧
      IsFluxDofs k poly (n c) (dir c) ts s.init.tPlus.ent (polyField q) flux (velocityDofs k mesh n d0 free strong c)) ∧
    (∀ p, splitField k poly.centroid poly.diameter s.init.tPlus.ent (apply s.pi0k (velocityDofs k mesh n d0 free strong c)) p = polyField q p) ∧
    (∀ p : ℝ × ℝ, polyOf k poly.centroid poly.diameter (apply s.V (velocityDofs k mesh n d0 free strong c)) p
      = MvPolynomial.eval ![p.1, p.2] (MvPolynomial.pderiv 0 q.1 + MvPolynomial.pderiv 1 q.2)) ∧
    (∀ y : Nat → ℝ, ∫ p in unionOf poly.tris, polyOf k poly.centroid poly.diameter (pressureDofs d0 d1 free strong c) p * polyOf k poly.centroid poly.diameter y p
      = ∫ p in unionOf poly.tris, MvPolynomial.eval ![p.1, p.2] pr * polyOf k poly.centroid poly.diameter y p) ∧
    (pr.totalDegree ≤ k → ∀ p : ℝ × ℝ, polyOf k poly.centroid poly.diameter (pressureDofs d0 d1 free strong c) p = MvPolynomial.eval ![p.1, p.2] pr)

end PolyDiM.Spec
