import Verif.Model.AssemblerGlobal2D
import Verif.Spec.VemElement
import Verif.Spec.Assembler

/-!
# Specification vocabulary: meshes of polygons and global vectors of degrees of freedom
-/

namespace PolyDiM.Spec

/-- Vertex `i` of cell `c`. -/
def cellVertex (mesh : PlaneMesh ℝ) (c i : Nat) : Nat := (mesh.topo.cell2DVertices c).getD i 0

/-- Edge `i` of cell `c`. -/
def cellEdge (mesh : PlaneMesh ℝ) (c i : Nat) : Nat := (mesh.topo.cell2DEdges c).getD i 0

/-- The coordinates of the vertices of cell `c`. -/
def cellPoint (mesh : PlaneMesh ℝ) (c i : Nat) : ℝ × ℝ := mesh.coords (cellVertex mesh c i)

/-- A mesh of polygons: every cell is a polygon with `n c` vertices and edges, edge `i` joins vertex `i` and the next one, and its direction in the cell is
`dir c i`; the number of degrees of freedom of order `k` of a cell fits in `unsigned int`. -/
structure IsPlaneMesh (k : Nat) (mesh : PlaneMesh ℝ) (poly : Nat → VemPolygon ℝ) (n : Nat → Nat) (len : Nat → Nat → ℝ) (dir : Nat → Nat → Bool)
    (nrm : Nat → Nat → ℝ × ℝ) : Prop where
  vertices : ∀ c < mesh.num2D, (mesh.topo.cell2DVertices c).length = n c
  edges : ∀ c < mesh.num2D, (mesh.topo.cell2DEdges c).length = n c
  element : ∀ c < mesh.num2D, IsElement (poly c) (n c) (cellPoint mesh c) (len c) (dir c) (nrm c)
  measure : ∀ c < mesh.num2D, 0 < (poly c).measure
  ends : ∀ c < mesh.num2D, ∀ e < n c, mesh.topo.cell1DVertices (cellEdge mesh c e) =
    if dir c e then (cellVertex mesh c e, cellVertex mesh c ((e + 1) % n c)) else (cellVertex mesh c ((e + 1) % n c), cellVertex mesh c e)
  small : ∀ c < mesh.num2D, n c + n c * (k - 1) + k * (k - 1) / 2 < 2 ^ 32

/-- The value a pair of global vectors holds for a reference to a DOF. -/
noncomputable def valueOf (data : DOFsData) (free strong : List ℝ) (r : GDOF) : ℝ :=
  match lookup data r with
  | some ⟨.dof, i⟩ => free.getD i 0
  | some ⟨.strong, i⟩ => strong.getD i 0
  | _ => 0

/-- The point at parameter `t` of edge `E` of the mesh. -/
noncomputable def edgePoint (mesh : PlaneMesh ℝ) (E : Nat) (t : ℝ) : ℝ × ℝ :=
  segPoint (mesh.coords (mesh.topo.cell1DVertices E).1) (mesh.coords (mesh.topo.cell1DVertices E).2) t

/-- The signed number of times edge `E` occurs in the active cells: once with its direction and once against it gives zero. -/
def signedCount (mesh : PlaneMesh ℝ) (n : Nat → Nat) (dir : Nat → Nat → Bool) (E : Nat) : ℤ :=
  (mesh.cells.map fun c => ∑ e ∈ Finset.range (n c), if cellEdge mesh c e = E then (if dir c e then 1 else -1) else 0).sum

/-- The entities of dimension `d` of a cell. -/
def entities (mesh : PlaneMesh ℝ) (d c : Nat) : List Nat :=
  if d = 0 then mesh.topo.cell2DVertices c else if d = 1 then mesh.topo.cell2DEdges c else [c]

/-- The value a test function has for a reference: `φ i` on free DOF `i`, zero on strong ones. -/
noncomputable def testValue (data : DOFsData) (φ : Nat → ℝ) (r : GDOF) : ℝ :=
  match lookup data r with
  | some ⟨.dof, i⟩ => φ i
  | _ => 0

/-- `u E` is the polynomial of degree at most `k` on edge `E` with the values `χ` at the ends and at the nodes of the edge. -/
def IsTrace (k : Nat) (mesh : PlaneMesh ℝ) (ts : List ℝ) (χ : GDOF → ℝ) (u : Nat → Polynomial ℝ) : Prop :=
  ∀ E < mesh.num1D, (u E).natDegree ≤ k ∧ (u E).eval 0 = χ ⟨0, (mesh.topo.cell1DVertices E).1, 0⟩ ∧ (u E).eval 1 = χ ⟨0, (mesh.topo.cell1DVertices E).2, 0⟩ ∧
    ∀ j t, ts[j]? = some t → (u E).eval t = χ ⟨1, E, j⟩

/-- The Neumann term of edge `e` of cell `c` for the test function with traces `u`, where `J` stands for the integral along the edge in the parameter from 0 to 1; only edges
of type `weak` have one. -/
noncomputable def weakValue (info : MeshInfo) (mesh : PlaneMesh ℝ) (len : Nat → Nat → ℝ) (J : (ℝ → ℝ) → ℝ) (f : Nat → ℝ × ℝ → ℝ) (u : Nat → Polynomial ℝ) (c e : Nat) : ℝ :=
  ((info.bInfo 1)[cellEdge mesh c e]?).elim 0 fun b =>
    if b.type = .weak then |len c e| * J fun t => f b.marker (edgePoint mesh (cellEdge mesh c e) t) * (u (cellEdge mesh c e)).eval t else 0

/-- Two vertices of one active cell. -/
def Linked (mesh : PlaneMesh ℝ) (a b : Nat) : Prop := ∃ c ∈ mesh.cells, a ∈ mesh.topo.cell2DVertices c ∧ b ∈ mesh.topo.cell2DVertices c

end PolyDiM.Spec
