import Verif.Lemmas.BrinkmanUnique
import Verif.Props.AssemblerDfFlow
import Verif.Props.AssemblerMcc2D

/-!
# Properties: the system of the Brinkman assembler is solvable
-/

namespace PolyDiM

open Spec MvPolynomial MeasureTheory

variable {k : Nat} {mesh : PlaneMesh ℝ} {poly : Nat → VemPolygon ℝ} {n : Nat → Nat} {len : Nat → Nat → ℝ} {dir : Nat → Nat → Bool} {nrm : Nat → Nat → ℝ × ℝ}
  {triangle : Nat → Rule (ℝ × ℝ) ℝ} {edge : Nat → Rule ℝ ℝ} {ts ws ss vs : List ℝ} {w v₀ : ℝ} {ref : DfRef2D ℝ} {red : Bool} {sqrt : ℝ → ℝ} {lu llt : Solver ℝ}
  {boundary : Nat → Nat → Option BInfo} {info : Nat → MeshInfo} {D : Nat → DOFsData} {count : CountData} {gauss : Nat → Rule ℝ ℝ}

/-- C122: the matrix of the Brinkman problem is regular, for every order from 2 on, the full and the reduced element, with and without the multiplier for the mean of the pressure. -/
theorem C122_unique (hM : IsDfMesh red k mesh poly n len dir nrm) (hT : IsDfTables k triangle edge ts ws w ss vs v₀) (hsq : ∀ x, 0 ≤ x → sqrt x * sqrt x = x)
    (hlu : SolvesRegular lu) (hllt : SolvesPosDef llt) (href : dfRef2D red triangle edge k = .ok ref) (hs : IsDfSetup ref mesh boundary info D count)
    (hg : (gauss (2 * k)).weights.length = (gauss (2 * k)).points.length) (test : DfTest ℝ) (hF : IsFlowMesh test mesh n dir nrm info) :
    ∃ P : BrinkmanProblem ℝ,
      assembleBrinkman ((List.range 4).map info) ((List.range 4).map D) count k gauss (fun c => (poly c).edges) (dfSpaces sqrt lu llt triangle ref poly) mesh test = .ok P ∧
      ∀ b : Nat → ℝ, ∃! x : List ℝ, x.length = count.totalDOFs ∧ ∀ i < count.totalDOFs, ∑ j ∈ Finset.range count.totalDOFs, entry P.globalMatrix i j * x.getD j 0 = b i := by
  obtain ⟨P, hP, s, p, S, S0, A, b, mean, μ, κ, hB⟩ := brinkman_assemble hM hT hsq hlu hllt href hs hg test
  exact ⟨P, hP, injective_solves fun x hx h0 => flow_kernel hM hT hsq hlu hllt href hF hs hB hx h0⟩

/-- C123: if a vector polynomial of degree at most the order and a polynomial pressure solve the Brinkman problem then the only solution of the assembled system holds them:
the velocity, the projection of the pressure on every cell, and a zero multiplier. -/
theorem C123_exact (hM : IsDfMesh red k mesh poly n len dir nrm) (hT : IsDfTables k triangle edge ts ws w ss vs v₀) (hsq : ∀ x, 0 ≤ x → sqrt x * sqrt x = x)
    (hlu : SolvesRegular lu) (hllt : SolvesPosDef llt) (href : dfRef2D red triangle edge k = .ok ref) (hs : IsDfSetup ref mesh boundary info D count)
    (hgauss : ExactOnSegment (2 * k) (gauss (2 * k)).points (gauss (2 * k)).weights) (hg : (gauss (2 * k)).weights.length = (gauss (2 * k)).points.length) (test : DfTest ℝ)
    (hF : IsFlowMesh test mesh n dir nrm info)
    {q : MvPolynomial (Fin 2) ℝ × MvPolynomial (Fin 2) ℝ} (hq1 : q.1.totalDegree ≤ k) (hq2 : q.2.totalDegree ≤ k) (hred : red = true → (divPoly q).totalDegree = 0)
    {pr : MvPolynomial (Fin 2) ℝ} (hpr : pr.totalDegree ≤ k + 1) (hweak : (∃ h < 2, ∃ b ∈ (info h).bInfo 1, b.type = .weak) → pr.totalDegree ≤ k) {ν : ℝ}
    (hdata : IsFlowData test ν q pr) (hbound : IsFlowBoundary test mesh n dir nrm info ν q pr)
    (hmean : NoOpening info → ∑ c ∈ Finset.range mesh.num2D, ∫ p in unionOf (poly c).tris, eval ![p.1, p.2] pr = 0) :
    ∃ P : BrinkmanProblem ℝ,
      assembleBrinkman ((List.range 4).map info) ((List.range 4).map D) count k gauss (fun c => (poly c).edges) (dfSpaces sqrt lu llt triangle ref poly) mesh test = .ok P ∧
      ∀ x : List ℝ, x.length = count.totalDOFs →
        ((∀ i < count.totalDOFs, ∑ j ∈ Finset.range count.totalDOFs, entry P.globalMatrix i j * x.getD j 0 = ventry P.rightHandSide i) ↔
          (NoOpening info → x.getD (fieldOffset D 4) 0 = 0) ∧ HoldsFlow k (divDegree red k) mesh poly n dir ts D x P.dirichlet q pr) := by
  obtain ⟨P, hP, ⟨x₀, hx₀, hl₀, hold⟩, hpatch⟩ := C121_patch hM hT hsq hlu hllt href hs hgauss hg test hq1 hq2 hred hpr hweak hdata hbound hmean
  obtain ⟨P', hP', huni⟩ := C122_unique hM hT hsq hlu hllt href hs hg test hF
  obtain rfl : P' = P := Except.ok.inj (hP'.symm.trans hP)
  refine ⟨P', hP, fun x hx => ⟨fun hsol => ?_, fun h => hpatch x hx h.1 h.2⟩⟩
  obtain rfl : x = x₀ := (huni fun i => ventry P'.rightHandSide i).unique ⟨hx, hsol⟩ ⟨hx₀, hpatch x₀ hx₀ (fun _ => hl₀) hold⟩
  exact ⟨fun _ => hl₀, hold⟩

theorem flow_drag (x u : ℝ × ℝ) : dragForm flowTest x u = (1 + x.1 ^ 2) * (u.1 ^ 2 + u.2 ^ 2) := by
  simp [dragForm, flowTest, component, Finset.sum_range_succ]
  ring

theorem patch_corners (v : Nat) (hv : v < patchMesh.num0D) : ∃ c < patchMesh.num2D, v ∈ patchMesh.topo.cell2DVertices c := by
  have : v < 4 := hv
  have h0 : 0 < patchMesh.num2D := by norm_num [PlaneMesh.num2D, patchMesh, patchTopo]
  have h1 : 1 < patchMesh.num2D := by norm_num [PlaneMesh.num2D, patchMesh, patchTopo]
  interval_cases v
  · exact ⟨0, h0, by simp [patchMesh, patchTopo]⟩
  · exact ⟨0, h0, by simp [patchMesh, patchTopo]⟩
  · exact ⟨0, h0, by simp [patchMesh, patchTopo]⟩
  · exact ⟨1, h1, by simp [patchMesh, patchTopo]⟩

theorem flow_mesh_open {info : Nat → MeshInfo} (hi : ∀ h < 2, (info h).bInfo 0 = [⟨.strong, 1⟩, ⟨.strong, 1⟩, ⟨.weak, 2⟩, ⟨.strong, 1⟩] ∧
      (info h).bInfo 1 = [⟨.strong, 1⟩, ⟨.weak, 2⟩, ⟨.none, 0⟩, ⟨.weak, 3⟩, ⟨.strong, 1⟩]) : IsFlowMesh flowTest patchMesh (fun _ => 3) patchDir patchNrm info := by
  refine ⟨by norm_num [PlaneMesh.num2D, patchMesh, patchTopo], fun x => by simp [flowTest], fun x u => ?_, patch_corners, patch_cover, Or.inl fun x u hu => ?_, Or.inr fun c hc =>
    ⟨c, .refl, hc, 1, by norm_num, ?_⟩⟩
  · rw [flow_drag]
    positivity
  · rw [flow_drag]
    have : u.1 ≠ 0 ∨ u.2 ≠ 0 := by
      by_contra h
      push Not at h
      exact hu (Prod.ext h.1 h.2)
    rcases this with h | h <;> positivity
  · have : c < 2 := hc
    unfold IsPassable IsFreeEdge
    interval_cases c
    · refine ⟨⟨0, by norm_num, ⟨⟨.weak, 2⟩, by rw [(hi 0 (by norm_num)).2]; rfl, by decide⟩, ?_⟩, fun c hc e he h => ?_⟩
      · simp [component, patchNrm, patchLen, clockwise, cellPoint, cellVertex, patchMesh, patchTopo, squareV]
      · have : c < 2 := hc
        interval_cases c <;> interval_cases e <;> simp_all [cellEdge, patchMesh, patchTopo]
    · refine ⟨⟨1, by norm_num, ⟨⟨.weak, 3⟩, by rw [(hi 1 (by norm_num)).2]; rfl, by decide⟩, ?_⟩, fun c hc e he h => ?_⟩
      · simp [component, patchNrm, patchLen, clockwise, cellPoint, cellVertex, patchMesh, patchTopo, squareV]
      · have : c < 2 := hc
        interval_cases c <;> interval_cases e <;> simp_all [cellEdge, patchMesh, patchTopo]

theorem flow_mesh_closed {info : Nat → MeshInfo} (ho : NoOpening info) (hi : ∀ h < 2, (info h).bInfo 0 = [⟨.strong, 1⟩, ⟨.strong, 1⟩, ⟨.strong, 2⟩, ⟨.strong, 1⟩] ∧
      (info h).bInfo 1 = [⟨.strong, 1⟩, ⟨.strong, 2⟩, ⟨.none, 0⟩, ⟨.strong, 3⟩, ⟨.strong, 1⟩]) : IsFlowMesh flowTest patchMesh (fun _ => 3) patchDir patchNrm info := by
  have hnum : patchMesh.num2D = 2 := rfl
  have hadj : ∀ c e c' e', c < 2 → c' < 2 → c ≠ c' → e = (if c = 0 then 2 else 0) → e' = (if c' = 0 then 2 else 0) → FlowAdjacent info patchMesh (fun _ => 3) patchDir patchNrm c c' := by
    intro c e c' e' hc hc' hne he he'
    have key : ∀ c < 2, IsPassable info patchMesh patchNrm c (if c = 0 then 2 else 0) := by
      intro c hc
      refine ⟨0, by norm_num, ⟨⟨.none, 0⟩, ?_, by decide⟩, ?_⟩
      · rw [(hi 0 (by norm_num)).2]
        interval_cases c <;> rfl
      · interval_cases c <;> simp [component, patchNrm, patchLen, clockwise, cellPoint, cellVertex, patchMesh, patchTopo, squareV]
    refine ⟨hc, hc', e, ?_, e', ?_, ?_, ?_, he ▸ key c hc, fun c'' hc'' e'' he'' h => ?_⟩
    · rw [he]; split_ifs <;> norm_num
    · rw [he']; split_ifs <;> norm_num
    · subst he he'
      interval_cases c <;> interval_cases c' <;> rfl
    · subst he he'
      interval_cases c <;> interval_cases c' <;> first | decide | exact absurd rfl hne
    · have : c'' < 2 := hc''
      subst he he'
      interval_cases c <;> interval_cases c' <;> interval_cases c'' <;> interval_cases e'' <;> simp_all [cellEdge, patchMesh, patchTopo]
  refine ⟨by norm_num [PlaneMesh.num2D, patchMesh, patchTopo], fun x => by simp [flowTest], fun x u => ?_, patch_corners, patch_cover, Or.inr fun h hh v hv => ⟨v, .refl, ?_⟩,
    Or.inl ⟨ho, fun c hc c' hc' => ?_⟩⟩
  · rw [flow_drag]
    positivity
  · have : v < 4 := hv
    unfold bTypeOf
    rw [(hi h hh).1]
    interval_cases v <;> rfl
  · by_cases h : c = c'
    · rw [h]
    · exact .single (hadj c _ c' _ (hnum ▸ hc) (hnum ▸ hc') h rfl rfl)

-- C122, C123: the mesh of two triangles, order 2, the full element with two open sides
example : ∃ (lu : Solver ℝ) (ref : DfRef2D ℝ) (info : Nat → MeshInfo) (D : Nat → DOFsData) (count : CountData) (P : BrinkmanProblem ℝ),
    IsDfSetup ref patchMesh (fun _ => patchBoundary) info D count ∧
    assembleBrinkman ((List.range 4).map info) ((List.range 4).map D) count 2 dfEdgeRules (fun c => (patchPoly c).edges)
      (dfSpaces Real.sqrt lu lu (fun _ => ⟨boolePoints, booleWeights⟩) ref patchPoly) patchMesh flowTest = .ok P ∧
    (∀ b : Nat → ℝ, ∃! x : List ℝ, x.length = 18 ∧ ∀ i < 18, ∑ j ∈ Finset.range 18, entry P.globalMatrix i j * x.getD j 0 = b i) ∧
    ∀ x : List ℝ, x.length = 18 → (∀ i < 18, ∑ j ∈ Finset.range 18, entry P.globalMatrix i j * x.getD j 0 = ventry P.rightHandSide i) →
      HoldsFlow 2 1 patchMesh patchPoly (fun _ => 3) patchDir [1 / 2] D x P.dirichlet squareQ (X 0 * X 1 - C 0) := by
  obtain ⟨lu, h1, h2⟩ := exists_solvers
  obtain ⟨ref, info, D, count, href, hs, ho, hb, ht, hst⟩ := patch_open
  obtain ⟨P, hP, hex⟩ := C123_exact (patch_df false) df_tables real_sqrt h1 h2 href hs (gauss := dfEdgeRules) dfEdge_exact rfl flowTest (flow_mesh_open hb)
    squareQ_degree.1 squareQ_degree.2 (by simp) ((flow_degree 0).trans (by norm_num)) (fun _ => flow_degree 0) (flow_data 0) (flow_boundary_open hb) (fun h => absurd h ho)
  obtain ⟨P', hP', huni⟩ := C122_unique (patch_df false) df_tables real_sqrt h1 h2 href hs (gauss := dfEdgeRules) rfl flowTest (flow_mesh_open hb)
  obtain rfl : P' = P := Except.ok.inj (hP'.symm.trans hP)
  rw [ht] at hex huni
  exact ⟨lu, ref, info, D, count, P', hs, hP, huni, fun x hx hsol => ((hex x hx).1 hsol).2⟩

-- C122, C123: the reduced element with a closed boundary
example : ∃ (lu : Solver ℝ) (ref : DfRef2D ℝ) (info : Nat → MeshInfo) (D : Nat → DOFsData) (count : CountData) (P : BrinkmanProblem ℝ),
    IsDfSetup ref patchMesh (fun _ => closedBoundary) info D count ∧
    assembleBrinkman ((List.range 4).map info) ((List.range 4).map D) count 2 dfEdgeRules (fun c => (patchPoly c).edges)
      (dfSpaces Real.sqrt lu lu (fun _ => ⟨boolePoints, booleWeights⟩) ref patchPoly) patchMesh flowTest = .ok P ∧
    (∀ b : Nat → ℝ, ∃! x : List ℝ, x.length = 5 ∧ ∀ i < 5, ∑ j ∈ Finset.range 5, entry P.globalMatrix i j * x.getD j 0 = b i) ∧
    ∀ x : List ℝ, x.length = 5 → (∀ i < 5, ∑ j ∈ Finset.range 5, entry P.globalMatrix i j * x.getD j 0 = ventry P.rightHandSide i) →
      x.getD (fieldOffset D 4) 0 = 0 ∧ HoldsFlow 2 0 patchMesh patchPoly (fun _ => 3) patchDir [1 / 2] D x P.dirichlet squareQ (X 0 * X 1 - C (1 / 4)) := by
  obtain ⟨lu, h1, h2⟩ := exists_solvers
  obtain ⟨ref, info, D, count, href, hs, ho, hb, ht, hst⟩ := patch_closed
  obtain ⟨P, hP, hex⟩ := C123_exact (patch_df true) df_tables real_sqrt h1 h2 href hs (gauss := dfEdgeRules) dfEdge_exact rfl flowTest (flow_mesh_closed ho hb)
    squareQ_degree.1 squareQ_degree.2 (fun _ => by rw [squareQ_div, totalDegree_zero]) ((flow_degree _).trans (by norm_num)) (fun _ => flow_degree _) (flow_data _)
    (flow_boundary_closed hb _) (fun _ => flow_mean)
  obtain ⟨P', hP', huni⟩ := C122_unique (patch_df true) df_tables real_sqrt h1 h2 href hs (gauss := dfEdgeRules) rfl flowTest (flow_mesh_closed ho hb)
  obtain rfl : P' = P := Except.ok.inj (hP'.symm.trans hP)
  rw [ht] at hex huni
  exact ⟨lu, ref, info, D, count, P', hs, hP, huni, fun x hx hsol => ⟨((hex x hx).1 hsol).1 ho, ((hex x hx).1 hsol).2⟩⟩

end PolyDiM
