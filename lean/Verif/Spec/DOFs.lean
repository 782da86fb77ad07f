import Verif.Model.DOFs

/-!
# Specification vocabulary for the DOF manager

These definitions say what the properties C01-C10 mean. They only use the input data (`MeshInfo`, `Mesh`) and
the stored output (`DOFsData`), none of the functions of the model.
-/

namespace PolyDiM.Spec

/-- The DOF stored for dimension `d`, cell `c`, position `k`, if any (the user-visible
`CellsDOFs[d][c][k]`, DOFsManager.hpp:122). -/
def dofAt (data : DOFsData) (d c k : Nat) : Option DOF :=
  ((data.dims d).cells[c]?).bind fun x => x.dofs[k]?

/-- Total number of DOFs requested in dimensions `0..D` (input `CellsNumDOFs`, DOFsManager.hpp:82). -/
def totalRequested (info : MeshInfo) (D : Nat) : Nat :=
  ((List.range (D + 1)).map fun d => (info.numDOFs d).sum).sum

/-- Number of DOFs requested in dimensions `0..D` on cells whose boundary type satisfies `p`
(inputs `CellsNumDOFs`, `CellsBoundaryInfo`, DOFsManager.hpp:82-83). -/
def requestedOn (info : MeshInfo) (D : Nat) (p : BType → Bool) : Nat :=
  ((List.range (D + 1)).map fun d =>
    (((info.numDOFs d).zip (info.bInfo d)).map fun nb => if p nb.2.type then nb.1 else 0).sum).sum

/-- The closure of cell `c` of dimension `d` in the documented order: vertices, edges, faces, the cell itself;
each entity is given as (dimension, index) (connectivity of DOFsManager.hpp:30-59). -/
def closure (mesh : Mesh) (d c : Nat) : List (Nat × Nat) :=
  match d with
  | 0 => [(0, c)]
  | 1 => [(0, (mesh.cell1DVertices c).1), (0, (mesh.cell1DVertices c).2), (1, c)]
  | 2 => (mesh.cell2DVertices c).map (Prod.mk 0) ++ (mesh.cell2DEdges c).map (Prod.mk 1) ++ [(2, c)]
  | 3 => (mesh.cell3DVertices c).map (Prod.mk 0) ++ (mesh.cell3DEdges c).map (Prod.mk 1) ++
      (mesh.cell3DFaces c).map (Prod.mk 2) ++ [(3, c)]
  | _ => []

/-- Well-formed input for a mesh of dimension `D`: every cell has a boundary description of a known type, and
its closure only refers to existing cells. -/
def WellFormed (D : Nat) (info : MeshInfo) (mesh : Mesh) : Prop :=
  ∀ d, d ≤ D → ∀ c, c < (info.numDOFs d).length →
    (∃ b, (info.bInfo d)[c]? = some b ∧ b.type ≠ .unknwon) ∧
    ∀ e ∈ closure mesh d c, e.2 < (info.numDOFs e.1).length

/-- The expected type of the DOFs of a cell with boundary type `t` (DOFsManager.cpp:56-105). -/
def typeFor : BType → DType
  | .strong => .strong
  | .none | .weak | .robin => .dof
  | .unknwon => .unknwon

/-- The DOF list of a cell as stored (user-visible `CellsGlobalDOFs[d][c]`, DOFsManager.hpp:123). -/
def globalsAt (data : DOFsData) (d c : Nat) : Option CellGlobal := (data.dims d).globals[c]?

/-- Number of DOFs requested for an entity (input `CellsNumDOFs`, DOFsManager.hpp:82); 0 if there is none. -/
def requested (info : MeshInfo) (e : Nat × Nat) : Nat := ((info.numDOFs e.1)[e.2]?).getD 0

/-- Boundary type of an entity (input `CellsBoundaryInfo`, DOFsManager.hpp:83). -/
def bTypeOf (info : MeshInfo) (e : Nat × Nat) : Option BType := ((info.bInfo e.1)[e.2]?).map BInfo.type

/-- The DOF list a cell must have: the closure entities in order, each with its DOFs `0,1,2,…`. -/
def expectedList (info : MeshInfo) (es : List (Nat × Nat)) : List GDOF :=
  es.flatMap fun e => (List.range (requested info e)).map fun k => ⟨e.1, e.2, k⟩

/-- Where the `i`-th entity of a closure starts in the DOF list of the cell. -/
def offset (info : MeshInfo) (es : List (Nat × Nat)) (i : Nat) : Nat :=
  ((es.take i).map (requested info)).sum

/-- The DOF a reference stands for. -/
def lookup (data : DOFsData) (g : GDOF) : Option DOF := dofAt data g.dim g.cell g.dof

/-- The full claim C08 for one cell: the flags report whether the closure carries DOFs on entities of the
given boundary types. -/
def FlagsExact (info : MeshInfo) (g : CellGlobal) : Prop :=
  (g.hasInternal = true ↔ ∃ r ∈ g.gdofs, bTypeOf info (r.dim, r.cell) = some .none) ∧
  (g.hasBoundary = true ↔ ∃ r ∈ g.gdofs, bTypeOf info (r.dim, r.cell) = some .weak ∨
    bTypeOf info (r.dim, r.cell) = some .robin)

end PolyDiM.Spec
