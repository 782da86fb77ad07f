import Verif.Model.AssemblerElliptic1D
import Verif.Spec.Vem
import Verif.Spec.DOFs
import Verif.Spec.PlaneMesh
import Mathlib.Logic.Relation
import Mathlib.Algebra.Polynomial.Derivative

/-!
# Specification: meshes of segments
-/

namespace PolyDiM.Spec

/-- The point at parameter `t` of segment `c`: its first end for `t = 0`, its second end for `t = 1`. -/
noncomputable def linePoint (mesh : LineMesh ℝ) (c : Nat) (t : ℝ) : Nat → ℝ := fun i =>
  mesh.coords (mesh.topo.cell1DVertices c).1 i + t * (mesh.coords (mesh.topo.cell1DVertices c).2 i - mesh.coords (mesh.topo.cell1DVertices c).1 i)

/-- The geometric data describe the segments of the mesh: origin, tangent from the first end to the second, positive Euclidean length. -/
structure IsLineMesh (mesh : LineMesh ℝ) (g : LineGeometry ℝ) : Prop where
  origin : ∀ c < mesh.num1D, g.origin c = mesh.coords (mesh.topo.cell1DVertices c).1
  tangent : ∀ c < mesh.num1D, ∀ i, g.tangent c i = mesh.coords (mesh.topo.cell1DVertices c).2 i - mesh.coords (mesh.topo.cell1DVertices c).1 i
  pos : ∀ c < mesh.num1D, 0 < g.length c
  len : ∀ c < mesh.num1D, g.length c ^ 2 = g.tangent c 0 ^ 2 + g.tangent c 1 ^ 2 + g.tangent c 2 ^ 2

/-- The input for the nodes: nothing for equispaced nodes; for Gauss-Lobatto nodes a list of `k + 1` different points from 0 to 1. -/
def GoodNodes (k : Nat) (type : Fem1Type) (lobatto : List ℝ) : Prop :=
  match type with
  | .equispaced => lobatto.Nodup
  | .gaussLobatto => lobatto.Nodup ∧ ∃ mid, lobatto = 0 :: mid ++ [1] ∧ mid.length = k - 1 ∧ ∀ x ∈ mid, 0 ≤ x ∧ x ≤ 1
  | .other => False

/-- A quadrature rule with nodes inside the segment, exact for polynomials of degree `2 k`. -/
structure IsGauss (k : Nat) (rule : Rule ℝ ℝ) : Prop where
  size : rule.weights.length = rule.points.length
  inside : ∀ t ∈ rule.points, 0 < t ∧ t < 1
  exact : ExactOnSegment (2 * k) rule.points rule.weights

/-- The point of a DOF: the vertex, or the node of the segment (`nodes` are the positions on the reference segment, the two ends first). -/
noncomputable def lineDofPoint (mesh : LineMesh ℝ) (nodes : List ℝ) (r : GDOF) : Nat → ℝ :=
  if r.dim = 0 then mesh.coords r.cell else linePoint mesh r.cell (nodes.getD (2 + r.dof) 0)


/-- The two vectors are the DOFs of `u`: its values at the points of the DOFs. -/
structure IsLineDofs (mesh : LineMesh ℝ) (nodes : List ℝ) (data : DOFsData) (u : (Nat → ℝ) → ℝ) (free strong : List ℝ) : Prop where
  freeSize : free.length = data.counters.dofs
  strongSize : strong.length = data.counters.strongs
  values : ∀ r x, lookup data r = some x → valueOf data free strong r = u (lineDofPoint mesh nodes r)

/-- The boundary type of a vertex or segment. -/
def typeAt (info : MeshInfo) (d c : Nat) : BType := ((info.bInfo d)[c]?.map BInfo.type).getD .none

/-- A solution of `-(κ u')' + σ u = f` on a mesh of segments that is a polynomial of degree at most `k` on every segment: `P c` is the restriction of `u` to segment `c` in the
parameter from 0 to 1. Diffusion and reaction are constant on every segment (not necessarily the same constant). The flux `κ u'` is balanced at the vertices without a
condition, and has the given value at the vertices with a weak condition, in the direction of the segment. -/
structure IsLineSolution (k : Nat) (mesh : LineMesh ℝ) (info : MeshInfo) (len : Nat → ℝ) (test : LineTest ℝ) (u : (Nat → ℝ) → ℝ) (P : Nat → Polynomial ℝ) (κ σ : Nat → ℝ) : Prop where
  degree : ∀ c < mesh.num1D, (P c).natDegree ≤ k
  value : ∀ c < mesh.num1D, ∀ t, 0 ≤ t → t ≤ 1 → u (linePoint mesh c t) = (P c).eval t
  diffusion : ∀ c < mesh.num1D, ∀ t, 0 < t → t < 1 → test.diffusion (linePoint mesh c t) = κ c
  reaction : ∀ c < mesh.num1D, ∀ t, 0 < t → t < 1 → test.reaction (linePoint mesh c t) = σ c
  equation : ∀ c < mesh.num1D, ∀ t, 0 < t → t < 1 →
    test.source (linePoint mesh c t) = -(κ c * (Polynomial.derivative (Polynomial.derivative (P c))).eval t / len c ^ 2) + σ c * (P c).eval t
  balance : ∀ v < mesh.num0D, typeAt info 0 v ≠ .strong → typeAt info 0 v ≠ .weak →
    ∑ c ∈ Finset.range mesh.num1D, κ c / len c * ((if (mesh.topo.cell1DVertices c).2 = v then (Polynomial.derivative (P c)).eval 1 else 0)
      - (if (mesh.topo.cell1DVertices c).1 = v then (Polynomial.derivative (P c)).eval 0 else 0)) = 0
  weakFirst : ∀ c < mesh.num1D, ∀ m, (info.bInfo 0)[(mesh.topo.cell1DVertices c).1]? = some ⟨.weak, m⟩ →
    test.weak m (mesh.coords (mesh.topo.cell1DVertices c).1) = κ c / len c * (Polynomial.derivative (P c)).eval 0
  weakSecond : ∀ c < mesh.num1D, ∀ m, (info.bInfo 0)[(mesh.topo.cell1DVertices c).2]? = some ⟨.weak, m⟩ →
    test.weak m (mesh.coords (mesh.topo.cell1DVertices c).2) = κ c / len c * (Polynomial.derivative (P c)).eval 1
  strong : ∀ v < mesh.num0D, ∀ m, (info.bInfo 0)[v]? = some ⟨.strong, m⟩ → test.strong m (mesh.coords v) = u (mesh.coords v)

/-- Two vertices are the ends of a segment. -/
def LineStep (mesh : LineMesh ℝ) (v w : Nat) : Prop :=
  ∃ c < mesh.num1D, mesh.topo.cell1DVertices c = (v, w) ∨ mesh.topo.cell1DVertices c = (w, v)

/-- The solution is fixed somewhere on every connected piece: a vertex of strong type, or a segment with positive reaction. -/
def LineFixed (mesh : LineMesh ℝ) (info : MeshInfo) (test : LineTest ℝ) : Prop :=
  ∀ v < mesh.num0D, ∃ w, Relation.ReflTransGen (LineStep mesh) v w ∧ (typeAt info 0 w = .strong ∨
    ∃ c < mesh.num1D, ((mesh.topo.cell1DVertices c).1 = w ∨ (mesh.topo.cell1DVertices c).2 = w) ∧ ∀ t, 0 < t → t < 1 → 0 < test.reaction (linePoint mesh c t))

/-- The inputs of the assembly fit together: nodes and element of order `k`, a mesh of segments with its geometry, DOFs created from the boundary description with fewer than
`2^32` DOFs, no segment of strong type (`ComputeStrongTerm` visits only vertices), a quadrature rule exact for degree `2 k`. -/
structure IsLineProblem (k : Nat) (type : Fem1Type) (lobatto : List ℝ) (d : Fem1Data ℝ) (mesh : LineMesh ℝ) (g : LineGeometry ℝ) (boundary : Nat → Option BInfo) (info : MeshInfo)
    (data : DOFsData) (rule : Rule ℝ ℝ) : Prop where
  order : 1 ≤ k
  small : k + 1 < 2 ^ 32
  nodes : GoodNodes k type lobatto
  element : fem1Create k type lobatto = .ok d
  geometry : IsLineMesh mesh g
  created : lineMeshInfo d mesh.topo boundary = .ok info
  dofs : createDOFs 1 info mesh.topo = .ok data
  total : totalRequested info 1 < 2 ^ 32
  segments : ∀ c < mesh.num1D, typeAt info 1 c ≠ .strong
  gauss : IsGauss k rule

/-- The segments are parallel to the first axis and point in its direction, as in the meshes of the domains of the tests, and at a vertex without a condition as many segments end
as begin. -/
structure IsAxisMesh (mesh : LineMesh ℝ) (info : MeshInfo) : Prop where
  forward : ∀ c < mesh.num1D, mesh.coords (mesh.topo.cell1DVertices c).1 0 < mesh.coords (mesh.topo.cell1DVertices c).2 0
  parallel : ∀ c < mesh.num1D, ∀ i, i ≠ 0 → mesh.coords (mesh.topo.cell1DVertices c).1 i = mesh.coords (mesh.topo.cell1DVertices c).2 i
  joined : ∀ v < mesh.num0D, typeAt info 0 v ≠ .strong → typeAt info 0 v ≠ .weak →
    ((Finset.range mesh.num1D).filter fun c => (mesh.topo.cell1DVertices c).2 = v).card = ((Finset.range mesh.num1D).filter fun c => (mesh.topo.cell1DVertices c).1 = v).card

end PolyDiM.Spec
