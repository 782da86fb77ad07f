import Verif.Lemmas.BrinkmanFlow
import Verif.Lemmas.VemDfExample

/-!
# Lemmas: the divergence-free element on the mesh of two triangles
-/

namespace PolyDiM

open Spec MvPolynomial MeasureTheory

theorem patch_area (c : Nat) (hc : c < patchMesh.num2D) : (patchPoly c).measure = ∫ _p in unionOf (patchPoly c).tris, (1 : ℝ) := by
  obtain ⟨internal, bnd, _, _, hR⟩ := rules_ok (patch_mesh.element c hc) square_tables
  have hD := discrete_ok (patch_mesh.element c hc) (by norm_num) hR
  have h1 := hR.integral 1 (by rw [totalDegree_one]; norm_num)
  have h2 := hD.gaussX (X 0) (by rw [totalDegree_X]; norm_num)
  rw [pderiv_X_self, h1] at h2
  have h3 := hR.anyX (ev2 (X 0))
  rw [show quadLin bnd.points bnd.nx (X 0) = quadSum bnd.points bnd.nx (ev2 (X 0)) from rfl, h3] at h2
  have e : ∀ p, ev2 (1 : MvPolynomial (Fin 2) ℝ) p = 1 := fun p => by simp [ev2]
  simp only [e] at h2
  rw [← h2]
  have : c < 2 := hc
  interval_cases c <;>
    simp [Finset.sum_range_succ, squareV, patchPoly, quadSum, polyEdge, segPoint, ev2, cellPoint, cellVertex, patchMesh, patchTopo, patchDir] <;> norm_num

theorem patch_simple (c : Nat) (hc : c < patchMesh.num2D) : SimplePolygon 3 (cellPoint patchMesh c) := by
  intro e he e' he' t t' h0 h1 h0' h1' h
  have h1 : _ = _ := congrArg Prod.fst h
  have h2 : _ = _ := congrArg Prod.snd h
  have : c < 2 := hc
  interval_cases c <;> interval_cases e <;> interval_cases e' <;> simp [segPoint, squareV, cellPoint, cellVertex, patchMesh, patchTopo] at h1 h2 ⊢ <;> linarith

/-- The mesh of two triangles, order 2. -/
theorem patch_df (red : Bool) : IsDfMesh red 2 patchMesh patchPoly (fun _ => 3) patchLen patchDir patchNrm where
  plane := patch_mixed.plane
  simple := patch_simple
  unit := patch_mixed.unit
  length := patch_mixed.length
  area c hc _ := patch_area c hc
  small c _ := by cases red <;> decide

/-- The whole boundary is strong. -/
def closedBoundary (m : Nat) : Option BInfo := if m = 0 then some ⟨.none, 0⟩ else some ⟨.strong, m⟩

theorem patch_num {red : Bool} {ref : DfRef2D ℝ} (href : dfRef2D red (fun _ => ⟨boolePoints, booleWeights⟩) dfEdgeRules 2 = .ok ref) :
    dfNum ref = fun h d => if h < 2 then (if d = 0 then 1 else if d = 1 then 1 else 0) else if h = 2 then (if d = 2 then (if red then 0 else 2) else 0)
      else if d = 2 then (if red then 1 else 3) else 0 := by
  obtain ⟨h1, -, h3, h4, h5, h6⟩ := ref_edge df_tables href
  funext h d
  unfold dfNum
  rw [h1, h3, h4, h5, h6]
  cases red <;> rfl

/-- The DOFs of the full element, with the lower and the left side strong and the others open. -/
theorem patch_open : ∃ ref info D count, dfRef2D false (fun _ => ⟨boolePoints, booleWeights⟩) dfEdgeRules 2 = .ok ref ∧
    IsDfSetup ref patchMesh (fun _ => patchBoundary) info D count ∧ ¬NoOpening info ∧
    (∀ h < 2, (info h).bInfo 0 = [⟨.strong, 1⟩, ⟨.strong, 1⟩, ⟨.weak, 2⟩, ⟨.strong, 1⟩] ∧
      (info h).bInfo 1 = [⟨.strong, 1⟩, ⟨.weak, 2⟩, ⟨.none, 0⟩, ⟨.weak, 3⟩, ⟨.strong, 1⟩]) ∧ count.totalDOFs = 18 ∧ strongOffset D 4 = 10 := by
  obtain ⟨ref, href⟩ : ∃ ref, dfRef2D false (fun _ => ⟨boolePoints, booleWeights⟩) dfEdgeRules 2 = .ok ref := by
    obtain ⟨g, -, href⟩ := dfRef_ok false df_tables
    exact ⟨_, href⟩
  have key : ∀ h < 4, ∃ i d, createConstantInfo 2 patchTopo ⟨fun d => if h < 2 then (if d = 0 then 1 else if d = 1 then 1 else 0) else if h = 2 then
      (if d = 2 then (if false then 0 else 2) else 0) else if d = 2 then (if false then 1 else 3) else 0, dfBoundary (fun _ => patchBoundary) h⟩ = .ok i ∧
      createDOFs 2 i patchTopo = .ok d ∧ d.counters = ([⟨4, 1, 3, 5⟩, ⟨4, 1, 3, 5⟩, ⟨4, 4, 0, 0⟩, ⟨6, 6, 0, 0⟩] : List Counters).getD h ⟨0, 0, 0, 0⟩ ∧
      totalRequested i 2 = [9, 9, 4, 6].getD h 0 ∧ (h < 2 → i.bInfo 0 = [⟨.strong, 1⟩, ⟨.strong, 1⟩, ⟨.weak, 2⟩, ⟨.strong, 1⟩] ∧
        i.bInfo 1 = [⟨.strong, 1⟩, ⟨.weak, 2⟩, ⟨.none, 0⟩, ⟨.weak, 3⟩, ⟨.strong, 1⟩]) := by
    intro h hh
    interval_cases h
    · exact ⟨_, _, rfl, rfl, rfl, rfl, fun _ => ⟨rfl, rfl⟩⟩
    · exact ⟨_, _, rfl, rfl, rfl, rfl, fun _ => ⟨rfl, rfl⟩⟩
    · exact ⟨_, _, rfl, rfl, rfl, rfl, fun h => absurd h (by norm_num)⟩
    · exact ⟨_, _, rfl, rfl, rfl, rfl, fun h => absurd h (by norm_num)⟩
  obtain ⟨i0, d0, -⟩ := key 0 (by norm_num)
  have : Nonempty MeshInfo := ⟨i0⟩
  have : Nonempty DOFsData := ⟨d0⟩
  choose! info D h1 h2 h3 h4 h5 using key
  have hnum := patch_num href
  have hl : ((List.range 4).map fun h => (D h).counters) = [⟨4, 1, 3, 5⟩, ⟨4, 1, 3, 5⟩, ⟨4, 4, 0, 0⟩, ⟨6, 6, 0, 0⟩] := by
    simp [List.range_succ, h3]
  have hcount : ∃ count, dfCount ((List.range 4).map fun h => (D h).counters) = .ok count ∧ count.totalDOFs = 18 := by
    rw [hl]
    exact ⟨_, rfl, rfl⟩
  obtain ⟨count, hc, ht⟩ := hcount
  refine ⟨ref, info, D, count, href, ⟨fun h hh => ?_, h2, hc, ?_⟩, fun hno => ?_, fun h hh => h5 h (by omega) hh, ht, ?_⟩
  · unfold dfMeshInfo
    rw [hnum]
    exact h1 h hh
  · simp [Finset.sum_range_succ, h4]
  · have := hno 0 (by norm_num) 1 (by norm_num) ⟨.weak, 2⟩ (by rw [(h5 0 (by norm_num) (by norm_num)).2]; decide)
    exact this.1 rfl
  · simp [strongOffset, Finset.sum_range_succ, h3]

/-- The DOFs of the reduced element, with the whole boundary strong: one more unknown. -/
theorem patch_closed : ∃ ref info D count, dfRef2D true (fun _ => ⟨boolePoints, booleWeights⟩) dfEdgeRules 2 = .ok ref ∧
    IsDfSetup ref patchMesh (fun _ => closedBoundary) info D count ∧ NoOpening info ∧
    (∀ h < 2, (info h).bInfo 0 = [⟨.strong, 1⟩, ⟨.strong, 1⟩, ⟨.strong, 2⟩, ⟨.strong, 1⟩] ∧
      (info h).bInfo 1 = [⟨.strong, 1⟩, ⟨.strong, 2⟩, ⟨.none, 0⟩, ⟨.strong, 3⟩, ⟨.strong, 1⟩]) ∧ count.totalDOFs = 5 ∧ strongOffset D 4 = 16 := by
  obtain ⟨ref, href⟩ : ∃ ref, dfRef2D true (fun _ => ⟨boolePoints, booleWeights⟩) dfEdgeRules 2 = .ok ref := by
    obtain ⟨g, -, href⟩ := dfRef_ok true df_tables
    exact ⟨_, href⟩
  have key : ∀ h < 4, ∃ i d, createConstantInfo 2 patchTopo ⟨fun d => if h < 2 then (if d = 0 then 1 else if d = 1 then 1 else 0) else if h = 2 then
      (if d = 2 then (if true then 0 else 2) else 0) else if d = 2 then (if true then 1 else 3) else 0, dfBoundary (fun _ => closedBoundary) h⟩ = .ok i ∧
      createDOFs 2 i patchTopo = .ok d ∧ d.counters = ([⟨1, 1, 0, 8⟩, ⟨1, 1, 0, 8⟩, ⟨0, 0, 0, 0⟩, ⟨2, 2, 0, 0⟩] : List Counters).getD h ⟨0, 0, 0, 0⟩ ∧
      totalRequested i 2 = [9, 9, 0, 2].getD h 0 ∧ (h < 2 → i.bInfo 0 = [⟨.strong, 1⟩, ⟨.strong, 1⟩, ⟨.strong, 2⟩, ⟨.strong, 1⟩] ∧
        i.bInfo 1 = [⟨.strong, 1⟩, ⟨.strong, 2⟩, ⟨.none, 0⟩, ⟨.strong, 3⟩, ⟨.strong, 1⟩]) := by
    intro h hh
    interval_cases h
    · exact ⟨_, _, rfl, rfl, rfl, rfl, fun _ => ⟨rfl, rfl⟩⟩
    · exact ⟨_, _, rfl, rfl, rfl, rfl, fun _ => ⟨rfl, rfl⟩⟩
    · exact ⟨_, _, rfl, rfl, rfl, rfl, fun h => absurd h (by norm_num)⟩
    · exact ⟨_, _, rfl, rfl, rfl, rfl, fun h => absurd h (by norm_num)⟩
  obtain ⟨i0, d0, -⟩ := key 0 (by norm_num)
  have : Nonempty MeshInfo := ⟨i0⟩
  have : Nonempty DOFsData := ⟨d0⟩
  choose! info D h1 h2 h3 h4 h5 using key
  have hnum := patch_num href
  have hl : ((List.range 4).map fun h => (D h).counters) = [⟨1, 1, 0, 8⟩, ⟨1, 1, 0, 8⟩, ⟨0, 0, 0, 0⟩, ⟨2, 2, 0, 0⟩] := by
    simp [List.range_succ, h3]
  have hcount : ∃ count, dfCount ((List.range 4).map fun h => (D h).counters) = .ok count ∧ count.totalDOFs = 5 := by
    rw [hl]
    exact ⟨_, rfl, rfl⟩
  obtain ⟨count, hc, ht⟩ := hcount
  refine ⟨ref, info, D, count, href, ⟨fun h hh => ?_, h2, hc, ?_⟩, fun h hh d hd b hb => ?_, fun h hh => h5 h (by omega) hh, ht, ?_⟩
  · unfold dfMeshInfo
    rw [hnum]
    exact h1 h hh
  · simp [Finset.sum_range_succ, h4]
  · obtain ⟨e0, e1⟩ := h5 h (by omega) hh
    have key : ∀ b ∈ (info h).bInfo d, b.type = .none ∨ b.type = .strong := by
      interval_cases d
      · rw [e0]; decide
      · rw [e1]; decide
    rcases key b hb with h | h <;> rw [h] <;> decide
  · simp [strongOffset, Finset.sum_range_succ, h3]

/-- A Brinkman problem with the solution `u = (x², -2xy)`, `p = xy`: viscosity 1, inverse diffusion `(1 + x²) I`; on the open sides the datum is `p n - ∂u/∂n`. -/
noncomputable def flowTest : DfTest ℝ where
  viscosity _ := 1
  inverseDiffusion x d := if d = 0 ∨ d = 4 then 1 + x.1 ^ 2 else 0
  source x h := if h = 0 then -2 + (1 + x.1 ^ 2) * x.1 ^ 2 + x.2 else (1 + x.1 ^ 2) * (-2 * x.1 * x.2) + x.1
  divergence _ := 0
  strong _ x h := if h = 0 then x.1 ^ 2 else -2 * x.1 * x.2
  weak m x h := if m = 2 then (if h = 0 then x.1 * x.2 - 2 * x.1 else 2 * x.2) else if h = 0 then 0 else x.1 * x.2 + 2 * x.1

theorem dfEdge_exact : ExactOnSegment (2 * 2) (dfEdgeRules (2 * 2)).points (dfEdgeRules (2 * 2)).weights := fun q hq => lobatto_exact q (by omega)

end PolyDiM
