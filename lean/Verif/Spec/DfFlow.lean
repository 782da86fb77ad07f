import Verif.Spec.DfMesh
import Mathlib.Logic.Relation

/-!
# Specification vocabulary: flows of the Brinkman problem
-/

namespace PolyDiM.Spec

open MeasureTheory MvPolynomial

/-- The vectors of free and strong values hold the velocity `q` and, on every cell, the projection of the pressure `pr` on the polynomials of degree at most `m`. -/
structure HoldsFlow (k m : Nat) (mesh : PlaneMesh ℝ) (poly : Nat → VemPolygon ℝ) (n : Nat → Nat) (dir : Nat → Nat → Bool) (ts : List ℝ) (D : Nat → DOFsData)
    (free strong : List ℝ) (q : MvPolynomial (Fin 2) ℝ × MvPolynomial (Fin 2) ℝ) (pr : MvPolynomial (Fin 2) ℝ) : Prop where
  velocity : ∀ c < mesh.num2D,
    IsVelocityDofs k m (poly c) (n c) (cellPoint mesh c) (dir c) ts (vectorPoly q) (divPoly q) (flowVelocity k mesh n D free strong c)
  pressure : ∀ c < mesh.num2D, ∀ a b, a + b ≤ m → ∫ p in unionOf (poly c).tris, scaledMonomial (poly c).centroid (poly c).diameter a b p
    * (eval ![p.1, p.2] pr - polyOf m (poly c).centroid (poly c).diameter (flowPressure D free strong c) p) = 0

/-- The data of the Brinkman problem with constant viscosity `ν` of which `q` and `pr` are the velocity and the pressure. -/
structure IsFlowData (test : DfTest ℝ) (ν : ℝ) (q : MvPolynomial (Fin 2) ℝ × MvPolynomial (Fin 2) ℝ) (pr : MvPolynomial (Fin 2) ℝ) : Prop where
  viscosity : ∀ x, test.viscosity x = ν
  sourceFirst : ∀ x, test.source x 0 = -(ν * eval ![x.1, x.2] (pderiv 0 (pderiv 0 q.1) + pderiv 1 (pderiv 1 q.1)))
    + (test.inverseDiffusion x 0 * (vectorPoly q x).1 + test.inverseDiffusion x 3 * (vectorPoly q x).2) + eval ![x.1, x.2] (pderiv 0 pr)
  sourceSecond : ∀ x, test.source x 1 = -(ν * eval ![x.1, x.2] (pderiv 0 (pderiv 0 q.2) + pderiv 1 (pderiv 1 q.2)))
    + (test.inverseDiffusion x 1 * (vectorPoly q x).1 + test.inverseDiffusion x 4 * (vectorPoly q x).2) + eval ![x.1, x.2] (pderiv 1 pr)
  divergence : ∀ x, test.divergence x = eval ![x.1, x.2] (divPoly q)

/-- The boundary data that go with `q` and `pr`: component `h` of the velocity on the strong vertices and edges, the pressure times the normal minus the viscous stress on the weak
edges. An edge that is strong ends in strong vertices; an edge that is neither strong nor weak is passed as often in one direction as in the other. -/
structure IsFlowBoundary (test : DfTest ℝ) (mesh : PlaneMesh ℝ) (n : Nat → Nat) (dir : Nat → Nat → Bool) (nrm : Nat → Nat → ℝ × ℝ) (info : Nat → MeshInfo) (ν : ℝ)
    (q : MvPolynomial (Fin 2) ℝ × MvPolynomial (Fin 2) ℝ) (pr : MvPolynomial (Fin 2) ℝ) : Prop where
  vertex : ∀ h < 2, ∀ v b, ((info h).bInfo 0)[v]? = some b → b.type = .strong → test.strong b.marker (mesh.coords v) h = component (vectorPoly q (mesh.coords v)) h
  edge : ∀ h < 2, ∀ E b t, ((info h).bInfo 1)[E]? = some b → b.type = .strong → test.strong b.marker (edgePoint mesh E t) h = component (vectorPoly q (edgePoint mesh E t)) h
  weakFirst : ∀ c < mesh.num2D, ∀ e < n c, ∀ b, ((info 0).bInfo 1)[cellEdge mesh c e]? = some b → b.type = .weak → ∀ t p, p = edgePoint mesh (cellEdge mesh c e) t →
    test.weak b.marker p 0 = eval ![p.1, p.2] pr * (nrm c e).1
      - ν * (eval ![p.1, p.2] (pderiv 0 q.1) * (nrm c e).1 + eval ![p.1, p.2] (pderiv 1 q.1) * (nrm c e).2)
  weakSecond : ∀ c < mesh.num2D, ∀ e < n c, ∀ b, ((info 1).bInfo 1)[cellEdge mesh c e]? = some b → b.type = .weak → ∀ t p, p = edgePoint mesh (cellEdge mesh c e) t →
    test.weak b.marker p 1 = eval ![p.1, p.2] pr * (nrm c e).2
      - ν * (eval ![p.1, p.2] (pderiv 0 q.2) * (nrm c e).1 + eval ![p.1, p.2] (pderiv 1 q.2) * (nrm c e).2)
  ends : ∀ h < 2, ∀ E, bTypeOf (info h) (1, E) = some .strong →
    bTypeOf (info h) (0, (mesh.topo.cell1DVertices E).1) = some .strong ∧ bTypeOf (info h) (0, (mesh.topo.cell1DVertices E).2) = some .strong
  inner : ∀ h < 2, ∀ E b, ((info h).bInfo 1)[E]? = some b → b.type ≠ .weak → b.type ≠ .strong → signedSum mesh n dir E = 0

/-- A velocity may cross edge `e` of cell `c`: a component that is not strong there is not tangential. -/
def IsPassable (info : Nat → MeshInfo) (mesh : PlaneMesh ℝ) (nrm : Nat → Nat → ℝ × ℝ) (c e : Nat) : Prop :=
  ∃ h < 2, IsFreeEdge (info h) (cellEdge mesh c e) ∧ component (nrm c e) h ≠ 0

/-- Two cells on both sides of a passable edge that belongs to no other cell. -/
def FlowAdjacent (info : Nat → MeshInfo) (mesh : PlaneMesh ℝ) (n : Nat → Nat) (dir : Nat → Nat → Bool) (nrm : Nat → Nat → ℝ × ℝ) (c c' : Nat) : Prop :=
  c < mesh.num2D ∧ c' < mesh.num2D ∧ ∃ e < n c, ∃ e' < n c', cellEdge mesh c e = cellEdge mesh c' e' ∧ dir c e ≠ dir c' e' ∧ IsPassable info mesh nrm c e ∧
    ∀ c'' < mesh.num2D, ∀ e'' < n c'', cellEdge mesh c'' e'' = cellEdge mesh c e → (c'' = c ∧ e'' = e) ∨ (c'' = c' ∧ e'' = e')

/-- A cell with a passable edge that belongs to no other cell. -/
def FlowOutlet (info : Nat → MeshInfo) (mesh : PlaneMesh ℝ) (n : Nat → Nat) (nrm : Nat → Nat → ℝ × ℝ) (c : Nat) : Prop :=
  c < mesh.num2D ∧ ∃ e < n c, IsPassable info mesh nrm c e ∧ ∀ c'' < mesh.num2D, ∀ e'' < n c'', cellEdge mesh c'' e'' = cellEdge mesh c e → c'' = c ∧ e'' = e

/-- Two vertices of one cell. -/
def FlowLinked (mesh : PlaneMesh ℝ) (a b : Nat) : Prop := ∃ c < mesh.num2D, a ∈ mesh.topo.cell2DVertices c ∧ b ∈ mesh.topo.cell2DVertices c

/-- The form of the inverse diffusion at a point. -/
noncomputable def dragForm (test : DfTest ℝ) (x u : ℝ × ℝ) : ℝ :=
  ∑ a ∈ Finset.range 2, ∑ b ∈ Finset.range 2, test.inverseDiffusion x (a + 3 * b) * component u b * component u a

/-- Conditions under which the flow is determined by the data: positive viscosity and a drag that is not negative; every vertex and every edge belongs to a cell. The velocity
is held by a positive drag, or every vertex is linked with a vertex where it is strong. All cells are adjacent, or from every cell there is a way to an outlet. -/
structure IsFlowMesh (test : DfTest ℝ) (mesh : PlaneMesh ℝ) (n : Nat → Nat) (dir : Nat → Nat → Bool) (nrm : Nat → Nat → ℝ × ℝ) (info : Nat → MeshInfo) : Prop where
  cells : 0 < mesh.num2D
  viscosity : ∀ x, 0 < test.viscosity x
  drag : ∀ x u, 0 ≤ dragForm test x u
  vertices : ∀ v < mesh.num0D, ∃ c < mesh.num2D, v ∈ mesh.topo.cell2DVertices c
  edges : ∀ E < mesh.num1D, ∃ c < mesh.num2D, ∃ e < n c, cellEdge mesh c e = E
  held : (∀ x u, u ≠ 0 → 0 < dragForm test x u) ∨
    ∀ h < 2, ∀ v < mesh.num0D, ∃ v', Relation.ReflTransGen (FlowLinked mesh) v v' ∧ bTypeOf (info h) (0, v') = some .strong
  connected : (NoOpening info ∧ ∀ c < mesh.num2D, ∀ c' < mesh.num2D, Relation.ReflTransGen (FlowAdjacent info mesh n dir nrm) c c') ∨
    ∀ c < mesh.num2D, ∃ c', Relation.ReflTransGen (FlowAdjacent info mesh n dir nrm) c c' ∧ FlowOutlet info mesh n nrm c'

end PolyDiM.Spec
