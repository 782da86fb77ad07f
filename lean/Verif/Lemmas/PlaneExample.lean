import Verif.Lemmas.PlaneCells
import Verif.Lemmas.VemExample

/-!
# Lemmas: a mesh of two triangles

The unit square cut along the diagonal: vertices 0, 1, 2, 3 counter-clockwise from the origin, edge 2 is the diagonal and is traversed against its direction in
cell 1. The lower and the left edge carry a Dirichlet condition (marker 1), the right and the upper edge Neumann conditions (markers 2 and 3).
-/

namespace PolyDiM

open Spec MvPolynomial MeasureTheory

/-- The connectivity of the two triangles. -/
def patchTopo : Mesh where
  cell1DVertices e := [(0, 1), (1, 2), (2, 0), (2, 3), (3, 0)].getD e (0, 0)
  cell2DVertices c := [[0, 1, 2], [0, 2, 3]].getD c []
  cell2DEdges c := [[0, 1, 2], [2, 3, 4]].getD c []
  cell3DVertices _ := []
  cell3DEdges _ := []
  cell3DFaces _ := []
  markers d := if d = 0 then [1, 1, 2, 1] else if d = 1 then [1, 2, 0, 3, 1] else if d = 2 then [0, 0] else []

/-- The boundary conditions by marker. -/
def patchBoundary (m : Nat) : Option BInfo :=
  if m = 0 then some ⟨.none, 0⟩ else if m = 1 then some ⟨.strong, 1⟩ else if m = 2 then some ⟨.weak, 2⟩ else if m = 3 then some ⟨.weak, 3⟩ else none

/-- The mesh of two triangles. -/
noncomputable def patchMesh : PlaneMesh ℝ where
  topo := patchTopo
  coords := squareV
  active0D _ := true
  active2D _ := true

/-- The lengths of the edges. -/
noncomputable def patchLen (c e : Nat) : ℝ := if (c = 0 ∧ e = 2) ∨ (c = 1 ∧ e = 0) then √2 else 1

/-- The directions of the edges. -/
def patchDir (c e : Nat) : Bool := !(c == 1 && e == 0)

/-- The outward normals. -/
noncomputable def patchNrm (c e : Nat) : ℝ × ℝ :=
  (1 / patchLen c e) • clockwise (cellPoint patchMesh c ((e + 1) % 3) - cellPoint patchMesh c e)

/-- The geometry of the cells. -/
noncomputable def patchPoly (c : Nat) : VemPolygon ℝ where
  edges := ⟨(List.range 3).map (cellPoint patchMesh c), (List.range 3).map (patchLen c), (List.range 3).map (patchDir c),
    (List.range 3).map fun i => cellPoint patchMesh c ((i + 1) % 3) - cellPoint patchMesh c i, (List.range 3).map (patchNrm c)⟩
  centroid := if c = 0 then (2 / 3, 1 / 3) else (1 / 3, 2 / 3)
  measure := 1 / 2
  diameter := √2
  tris := [(cellPoint patchMesh c 0, cellPoint patchMesh c 1, cellPoint patchMesh c 2)]

theorem patchLen_pos (c e : Nat) : 0 < patchLen c e := by
  unfold patchLen
  split_ifs <;> positivity

theorem patch_mesh : IsPlaneMesh 2 patchMesh patchPoly (fun _ => 3) patchLen patchDir patchNrm where
  vertices c hc := by
    have : c < 2 := hc
    interval_cases c <;> rfl
  edges c hc := by
    have : c < 2 := hc
    interval_cases c <;> rfl
  element c hc := by
    refine ⟨⟨rfl, rfl, rfl, rfl, rfl⟩, ⟨?_, ⟨_, List.mem_singleton_self _, ?_⟩, List.pairwise_singleton _ _, ?_⟩, ?_, ?_, ?_⟩
    · intro v hv
      rw [List.mem_singleton.1 hv]
      have : c < 2 := hc
      interval_cases c <;> norm_num [cellPoint, cellVertex, patchMesh, patchTopo, squareV, shoelace]
    · have : c < 2 := hc
      interval_cases c <;> norm_num [cellPoint, cellVertex, patchMesh, patchTopo, squareV, shoelace]
    · intro Φ _
      simp [patchPoly, Finset.sum_range_succ]
    · intro e _
      rw [patchNrm, smul_smul, abs_of_pos (patchLen_pos c e), mul_one_div_cancel (patchLen_pos c e).ne', one_smul]
    · norm_num [patchPoly]
    · simp [patchPoly]
  measure c _ := by norm_num [patchPoly]
  ends c hc e he := by
    have : c < 2 := hc
    interval_cases c <;> interval_cases e <;> rfl
  small c _ := by norm_num

/-- The DOFs of the mesh of two triangles. -/
theorem patch_dofs : ∃ ref info data, vemRef2D (fun _ => ⟨nc4Points, nc4Weights⟩) (fun _ => ⟨[0, 1 / 2, 1], [1 / 6, 2 / 3, 1 / 6]⟩) 2 = .ok ref ∧
    vemMeshInfo ref patchMesh.topo patchBoundary = .ok info ∧ createDOFs 2 info patchMesh.topo = .ok data ∧ totalRequested info 2 < 2 ^ 32 ∧
    (info.bInfo 0 = [⟨.strong, 1⟩, ⟨.strong, 1⟩, ⟨.weak, 2⟩, ⟨.strong, 1⟩] ∧ info.bInfo 1 = [⟨.strong, 1⟩, ⟨.weak, 2⟩, ⟨.none, 0⟩, ⟨.weak, 3⟩, ⟨.strong, 1⟩] ∧
      info.bInfo 2 = [⟨.none, 0⟩, ⟨.none, 0⟩]) ∧ data.counters.dofs = 6 ∧ data.counters.strongs = 5 := by
  obtain ⟨info, hi, hb0, hb1, hb2, ht, data, hd, h1, h2⟩ : ∃ info, createConstantInfo 2 patchTopo ⟨numOf 2, patchBoundary⟩ = .ok info ∧
      info.bInfo 0 = [⟨.strong, 1⟩, ⟨.strong, 1⟩, ⟨.weak, 2⟩, ⟨.strong, 1⟩] ∧ info.bInfo 1 = [⟨.strong, 1⟩, ⟨.weak, 2⟩, ⟨.none, 0⟩, ⟨.weak, 3⟩, ⟨.strong, 1⟩] ∧
      info.bInfo 2 = [⟨.none, 0⟩, ⟨.none, 0⟩] ∧ totalRequested info 2 = 11 ∧ ∃ data, createDOFs 2 info patchTopo = .ok data ∧
      data.counters.dofs = 6 ∧ data.counters.strongs = 5 := ⟨_, rfl, rfl, rfl, rfl, rfl, _, rfl, rfl, rfl⟩
  refine ⟨_, info, data, vemRef_ok square_tables, ?_, hd, by omega, ⟨hb0, hb1, hb2⟩, h1, h2⟩
  rw [numOf_ref square_tables (vemRef_ok square_tables)]
  exact hi

end PolyDiM
