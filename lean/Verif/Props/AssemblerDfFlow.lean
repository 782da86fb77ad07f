import Verif.Lemmas.BrinkmanPatch
import Verif.Lemmas.BrinkmanFlowExample

/-!
# Properties: flows the Brinkman assembler computes
-/

namespace PolyDiM

open Spec MvPolynomial MeasureTheory

variable {k : Nat} {mesh : PlaneMesh ℝ} {poly : Nat → VemPolygon ℝ} {n : Nat → Nat} {len : Nat → Nat → ℝ} {dir : Nat → Nat → Bool} {nrm : Nat → Nat → ℝ × ℝ}
  {triangle : Nat → Rule (ℝ × ℝ) ℝ} {edge : Nat → Rule ℝ ℝ} {ts ws ss vs : List ℝ} {w v₀ : ℝ} {ref : DfRef2D ℝ} {red : Bool} {sqrt : ℝ → ℝ} {lu llt : Solver ℝ}
  {boundary : Nat → Nat → Option BInfo} {info : Nat → MeshInfo} {D : Nat → DOFsData} {count : CountData} {gauss : Nat → Rule ℝ ℝ}

/-- C120: the divergence of a solution is the datum, exactly: every velocity with the computed DOFs on a cell has the polynomial `G` as its divergence where the datum is `G`; on a
boundary without open part `G` minus the multiplier. Such a velocity exists on every cell. -/
theorem C120_divergence (hM : IsDfMesh red k mesh poly n len dir nrm) (hT : IsDfTables k triangle edge ts ws w ss vs v₀) (hsq : ∀ x, 0 ≤ x → sqrt x * sqrt x = x)
    (hlu : SolvesRegular lu) (hllt : SolvesPosDef llt) (href : dfRef2D red triangle edge k = .ok ref) (hs : IsDfSetup ref mesh boundary info D count)
    (hg : (gauss (2 * k)).weights.length = (gauss (2 * k)).points.length) (test : DfTest ℝ) :
    ∃ P : BrinkmanProblem ℝ,
      assembleBrinkman ((List.range 4).map info) ((List.range 4).map D) count k gauss (fun c => (poly c).edges) (dfSpaces sqrt lu llt triangle ref poly) mesh test = .ok P ∧
      ∀ x : List ℝ, x.length = count.totalDOFs →
        (∀ i < count.totalDOFs, ∑ j ∈ Finset.range count.totalDOFs, entry P.globalMatrix i j * x.getD j 0 = ventry P.rightHandSide i) → ∀ c < mesh.num2D,
        (∃ u Q, IsVelocity k (divDegree red k) (poly c) (n c) (cellPoint mesh c) (len c) (nrm c) u Q ∧
          IsVelocityDofs k (divDegree red k) (poly c) (n c) (cellPoint mesh c) (dir c) ts u Q (flowVelocity k mesh n D x P.dirichlet c)) ∧
        ∀ u Q, IsVelocity k (divDegree red k) (poly c) (n c) (cellPoint mesh c) (len c) (nrm c) u Q →
          IsVelocityDofs k (divDegree red k) (poly c) (n c) (cellPoint mesh c) (dir c) ts u Q (flowVelocity k mesh n D x P.dirichlet c) →
          ∀ G : MvPolynomial (Fin 2) ℝ, G.totalDegree ≤ divDegree red k → (∀ q, test.divergence q = eval ![q.1, q.2] G) →
            (¬NoOpening info → Q = G) ∧ (NoOpening info → Q = G - C (x.getD (fieldOffset D 4) 0)) := by
  obtain ⟨P, hP, s, p, S, S0, A, b, mean, μ, κ, hB⟩ := brinkman_assemble hM hT hsq hlu hllt href hs hg test
  refine ⟨P, hP, fun x hx hsol c hc => ⟨?_, fun u Q hu hv G hG hdiv => ?_⟩⟩
  · obtain ⟨r1, s1, -, -, h1⟩ := C117_realized (sqrt := sqrt) red (hM.plane.element c hc) (hM.simple c hc) hT hsq hlu hllt (hM.area c hc)
    obtain ⟨u, Q, hu, hv, -⟩ := h1 (flowVelocity k mesh n D x P.dirichlet c)
    exact ⟨u, Q, hu, hv⟩
  · obtain ⟨r1, s1, hr1, hc1, h1⟩ := C109_divergence (sqrt := sqrt) red (hM.plane.element c hc) hT hsq hlu hllt (hM.area c hc)
    obtain rfl : r1 = ref := Except.ok.inj (hr1.symm.trans href)
    obtain rfl : s1 = s c := Except.ok.inj (hc1.symm.trans (hB.created c hc))
    rw [← hx] at hsol
    have hd := flow_divergence hM hT href hs hB hx (fun i hi => hsol i (hx ▸ hi)) hc hG fun q _ => hdiv q
    have hval := h1 u Q _ hu hv
    have ho := boundary_opening hT href hs
    constructor
    · intro hno
      refine ev2_ext fun q => ?_
      have := hd q
      rw [if_neg (fun h => hno (ho.1 h)), sub_zero] at this
      exact (hval q).symm.trans this
    · intro hno
      refine ev2_ext fun q => ?_
      have := hd q
      rw [if_pos (ho.2 hno)] at this
      refine (hval q).symm.trans (this.trans ?_)
      unfold ev2
      rw [map_sub, eval_C]

/-- C121: the patch test. If a vector polynomial of degree at most the order and a polynomial pressure solve the Brinkman problem with the given data then some vector holds them,
and every vector that holds them, with a zero multiplier, solves the assembled system. -/
theorem C121_patch (hM : IsDfMesh red k mesh poly n len dir nrm) (hT : IsDfTables k triangle edge ts ws w ss vs v₀) (hsq : ∀ x, 0 ≤ x → sqrt x * sqrt x = x)
    (hlu : SolvesRegular lu) (hllt : SolvesPosDef llt) (href : dfRef2D red triangle edge k = .ok ref) (hs : IsDfSetup ref mesh boundary info D count)
    (hgauss : ExactOnSegment (2 * k) (gauss (2 * k)).points (gauss (2 * k)).weights) (hg : (gauss (2 * k)).weights.length = (gauss (2 * k)).points.length) (test : DfTest ℝ)
    {q : MvPolynomial (Fin 2) ℝ × MvPolynomial (Fin 2) ℝ} (hq1 : q.1.totalDegree ≤ k) (hq2 : q.2.totalDegree ≤ k) (hred : red = true → (divPoly q).totalDegree = 0)
    {pr : MvPolynomial (Fin 2) ℝ} (hpr : pr.totalDegree ≤ k + 1) (hweak : (∃ h < 2, ∃ b ∈ (info h).bInfo 1, b.type = .weak) → pr.totalDegree ≤ k) {ν : ℝ}
    (hdata : IsFlowData test ν q pr) (hbound : IsFlowBoundary test mesh n dir nrm info ν q pr)
    (hmean : NoOpening info → ∑ c ∈ Finset.range mesh.num2D, ∫ p in unionOf (poly c).tris, eval ![p.1, p.2] pr = 0) :
    ∃ P : BrinkmanProblem ℝ,
      assembleBrinkman ((List.range 4).map info) ((List.range 4).map D) count k gauss (fun c => (poly c).edges) (dfSpaces sqrt lu llt triangle ref poly) mesh test = .ok P ∧
      (∃ x : List ℝ, x.length = count.totalDOFs ∧ x.getD (fieldOffset D 4) 0 = 0 ∧ HoldsFlow k (divDegree red k) mesh poly n dir ts D x P.dirichlet q pr) ∧
      ∀ x : List ℝ, x.length = count.totalDOFs → (NoOpening info → x.getD (fieldOffset D 4) 0 = 0) → HoldsFlow k (divDegree red k) mesh poly n dir ts D x P.dirichlet q pr →
        ∀ i < count.totalDOFs, ∑ j ∈ Finset.range count.totalDOFs, entry P.globalMatrix i j * x.getD j 0 = ventry P.rightHandSide i := by
  obtain ⟨P, hP, s, p, S, S0, A, b, mean, μ, κ, hB⟩ := brinkman_assemble hM hT hsq hlu hllt href hs hg test
  have ho := boundary_opening hT href hs
  refine ⟨P, hP, flow_exact hM hT href hs hB hq1 hq2 hpr hbound, fun x hx hl hold i hi => ?_⟩
  rw [← hx]
  refine flow_patch hM hT hsq hlu hllt href hs hgauss hB hq1 hq2 hred hpr hweak hdata.viscosity ?_ hdata.divergence ?_ hbound.ends hbound.inner hx hold.velocity
    (fun c hc => (pressure_moments hT red (hB.space c hc) hpr _).1 (hold.pressure c hc)) (fun h => hl (ho.1 h)) ?_ hi
  · intro y
    refine Fin.forall_fin_two.2 ⟨?_, ?_⟩
    · have := hdata.sourceFirst y
      simp only [Finset.sum_range_succ, Finset.sum_range_zero, zero_add, component, pick, Fin.isValue, Fin.val_zero, if_pos, ev2]
      simpa using this
    · have := hdata.sourceSecond y
      simp only [Finset.sum_range_succ, Finset.sum_range_zero, zero_add, component, pick, Fin.isValue, Fin.val_one, if_pos, ev2]
      simpa using this
  · intro h hh c hc e he b hb hbw t
    rcases (show h = 0 ∨ h = 1 by omega) with rfl | rfl
    · rw [hbound.weakFirst c hc e he b hb hbw t _ rfl]
      simp only [stressPoly, if_pos, ev2, map_mul, map_sub, eval_C]
      ring
    · rw [hbound.weakSecond c hc e he b hb hbw t _ rfl]
      simp only [stressPoly, if_neg (show ¬ (1 : Nat) = 0 by omega), ev2, map_mul, map_sub, eval_C]
      ring
  · intro h
    refine Eq.trans ?_ (hmean (ho.1 h))
    show ∑ c ∈ Finset.range mesh.num2D, _ = _
    refine Finset.sum_congr rfl fun c hc => ?_
    rw [(hB.space c (Finset.mem_range.1 hc)).rules.integral _ (hpr.trans (by have := hT.two; omega))]

theorem flow_degree (a : ℝ) : (X 0 * X 1 - C a : MvPolynomial (Fin 2) ℝ).totalDegree ≤ 2 :=
  (totalDegree_sub _ _).trans (max_le ((totalDegree_mul _ _).trans (by simp)) (by rw [totalDegree_C]; norm_num))

-- C120, C121: the mesh of two triangles, order 2, the full element with two open sides
example : ∃ (lu : Solver ℝ) (ref : DfRef2D ℝ) (info : Nat → MeshInfo) (D : Nat → DOFsData) (count : CountData) (P : BrinkmanProblem ℝ) (x : List ℝ),
    IsDfSetup ref patchMesh (fun _ => patchBoundary) info D count ∧
    assembleBrinkman ((List.range 4).map info) ((List.range 4).map D) count 2 dfEdgeRules (fun c => (patchPoly c).edges)
      (dfSpaces Real.sqrt lu lu (fun _ => ⟨boolePoints, booleWeights⟩) ref patchPoly) patchMesh flowTest = .ok P ∧
    x.length = 18 ∧ HoldsFlow 2 1 patchMesh patchPoly (fun _ => 3) patchDir [1 / 2] D x P.dirichlet squareQ (X 0 * X 1 - C 0) ∧
    (∀ i < 18, ∑ j ∈ Finset.range 18, entry P.globalMatrix i j * x.getD j 0 = ventry P.rightHandSide i) ∧
    ∀ c < 2, ∃ u, IsVelocity 2 1 (patchPoly c) 3 (cellPoint patchMesh c) (patchLen c) (patchNrm c) u 0 ∧
      IsVelocityDofs 2 1 (patchPoly c) 3 (cellPoint patchMesh c) (patchDir c) [1 / 2] u 0 (flowVelocity 2 patchMesh (fun _ => 3) D x P.dirichlet c) := by
  obtain ⟨lu, h1, h2⟩ := exists_solvers
  obtain ⟨ref, info, D, count, href, hs, ho, hb, ht, hst⟩ := patch_open
  obtain ⟨P, hP, ⟨x, hx, -, hold⟩, hpatch⟩ := C121_patch (patch_df false) df_tables real_sqrt h1 h2 href hs (gauss := dfEdgeRules) dfEdge_exact rfl flowTest
    squareQ_degree.1 squareQ_degree.2 (by simp) ((flow_degree 0).trans (by norm_num)) (fun _ => flow_degree 0) (flow_data 0) (flow_boundary_open hb) (fun h => absurd h ho)
  obtain ⟨P', hP', hdiv⟩ := C120_divergence (patch_df false) df_tables real_sqrt h1 h2 href hs (gauss := dfEdgeRules) rfl flowTest
  obtain rfl : P' = P := Except.ok.inj (hP'.symm.trans hP)
  have hsol := hpatch x hx (fun h => absurd h ho) hold
  have key := hdiv x hx hsol
  refine ⟨lu, ref, info, D, count, P', x, hs, hP, hx.trans ht, hold, ht ▸ hsol, fun c hc => ?_⟩
  obtain ⟨⟨u, Q, hu, hv⟩, hQ⟩ := key c hc
  obtain rfl := (hQ u Q hu hv 0 (by simp) fun q => by simp [flowTest]).1 ho
  exact ⟨u, hu, hv⟩

-- C120, C121: the reduced element with a closed boundary
example : ∃ (lu : Solver ℝ) (ref : DfRef2D ℝ) (info : Nat → MeshInfo) (D : Nat → DOFsData) (count : CountData) (P : BrinkmanProblem ℝ) (x : List ℝ),
    IsDfSetup ref patchMesh (fun _ => closedBoundary) info D count ∧
    assembleBrinkman ((List.range 4).map info) ((List.range 4).map D) count 2 dfEdgeRules (fun c => (patchPoly c).edges)
      (dfSpaces Real.sqrt lu lu (fun _ => ⟨boolePoints, booleWeights⟩) ref patchPoly) patchMesh flowTest = .ok P ∧
    x.length = 5 ∧ HoldsFlow 2 0 patchMesh patchPoly (fun _ => 3) patchDir [1 / 2] D x P.dirichlet squareQ (X 0 * X 1 - C (1 / 4)) ∧
    (∀ i < 5, ∑ j ∈ Finset.range 5, entry P.globalMatrix i j * x.getD j 0 = ventry P.rightHandSide i) ∧
    ∀ c < 2, ∃ u, IsVelocity 2 0 (patchPoly c) 3 (cellPoint patchMesh c) (patchLen c) (patchNrm c) u 0 ∧
      IsVelocityDofs 2 0 (patchPoly c) 3 (cellPoint patchMesh c) (patchDir c) [1 / 2] u 0 (flowVelocity 2 patchMesh (fun _ => 3) D x P.dirichlet c) := by
  obtain ⟨lu, h1, h2⟩ := exists_solvers
  obtain ⟨ref, info, D, count, href, hs, ho, hb, ht, hst⟩ := patch_closed
  obtain ⟨P, hP, ⟨x, hx, hx0, hold⟩, hpatch⟩ := C121_patch (patch_df true) df_tables real_sqrt h1 h2 href hs (gauss := dfEdgeRules) dfEdge_exact rfl flowTest
    squareQ_degree.1 squareQ_degree.2 (fun _ => by rw [squareQ_div, totalDegree_zero]) ((flow_degree _).trans (by norm_num)) (fun _ => flow_degree _) (flow_data _)
    (flow_boundary_closed hb _) (fun _ => flow_mean)
  obtain ⟨P', hP', hdiv⟩ := C120_divergence (patch_df true) df_tables real_sqrt h1 h2 href hs (gauss := dfEdgeRules) rfl flowTest
  obtain rfl : P' = P := Except.ok.inj (hP'.symm.trans hP)
  have hsol := hpatch x hx (fun _ => hx0) hold
  have key := hdiv x hx hsol
  refine ⟨lu, ref, info, D, count, P', x, hs, hP, hx.trans ht, hold, ht ▸ hsol, fun c hc => ?_⟩
  obtain ⟨⟨u, Q, hu, hv⟩, hQ⟩ := key c hc
  have := (hQ u Q hu hv 0 (by simp) fun q => by simp [flowTest]).2 ho
  rw [hx0, map_zero, sub_zero] at this
  subst this
  exact ⟨u, hu, hv⟩

end PolyDiM
