import Verif.Lemmas.BrinkmanFlow
import Verif.Props.DOFs
import Verif.Lemmas.BrinkmanExample

/-!
# Properties C118 and C119: the assembler of the Brinkman problem
-/

namespace PolyDiM

open Spec MvPolynomial MeasureTheory

variable {k : Nat} {mesh : PlaneMesh ℝ} {poly : Nat → VemPolygon ℝ} {n : Nat → Nat} {len : Nat → Nat → ℝ} {dir : Nat → Nat → Bool} {nrm : Nat → Nat → ℝ × ℝ}
  {triangle : Nat → Rule (ℝ × ℝ) ℝ} {edge : Nat → Rule ℝ ℝ} {ts ws ss vs : List ℝ} {w v₀ : ℝ} {ref : DfRef2D ℝ} {red : Bool} {sqrt : ℝ → ℝ} {lu llt : Solver ℝ}
  {boundary : Nat → Nat → Option BInfo} {info : Nat → MeshInfo} {D : Nat → DOFsData} {count : CountData} {gauss : Nat → Rule ℝ ℝ}

/-- C118: the number of unknowns. There is one unknown for every free DOF of the four fields and one more, the multiplier of the mean of the pressure, exactly if the boundary has
no open part. -/
theorem C118_unknowns (hT : IsDfTables k triangle edge ts ws w ss vs v₀) (href : dfRef2D red triangle edge k = .ok ref) (hs : IsDfSetup ref mesh boundary info D count) :
    (NoOpening info → count.totalDOFs = fieldOffset D 4 + 1) ∧ (¬NoOpening info → count.totalDOFs = fieldOffset D 4) ∧ count.totalStrong = strongOffset D 4 := by
  obtain ⟨b, rfl, hb⟩ := df_count hT href hs
  refine ⟨fun h => ?_, fun h => ?_, rfl⟩
  · show _ + _ = _
    rw [if_pos (hb.2 h)]
  · show _ + _ = _
    rw [if_neg fun h' => h (hb.1 h'), add_zero]

theorem boundary_opening (hT : IsDfTables k triangle edge ts ws w ss vs v₀) (href : dfRef2D red triangle edge k = .ok ref) (hs : IsDfSetup ref mesh boundary info D count) :
    count.totalBoundary = 0 ↔ NoOpening info := by
  obtain ⟨b, rfl, hb⟩ := df_count hT href hs
  exact hb

open Classical in
/-- C118: the matrix the assembler builds is that of the Brinkman problem. For all vectors `x`, `g` of free and strong values and all test vectors `y` the product is the sum over
the cells of the quadrature of the form of the velocities and pressures the vectors stand for, plus the two stabilizations, times the largest absolute values of the viscosity and
of an entry of the inverse diffusion at a quadrature point; if the boundary has no open part, plus the multiplier of `x` times the mean of the pressure of `y` and the other way round. -/
theorem C118_matrix (hM : IsDfMesh red k mesh poly n len dir nrm) (hT : IsDfTables k triangle edge ts ws w ss vs v₀) (hsq : ∀ x, 0 ≤ x → sqrt x * sqrt x = x)
    (hlu : SolvesRegular lu) (hllt : SolvesPosDef llt) (href : dfRef2D red triangle edge k = .ok ref) (hs : IsDfSetup ref mesh boundary info D count)
    (hg : (gauss (2 * k)).weights.length = (gauss (2 * k)).points.length) (test : DfTest ℝ) :
    ∃ (P : BrinkmanProblem ℝ) (s : Nat → DfSpace2D ℝ) (S S0 : Nat → DMat ℝ) (μ κ : Nat → ℝ),
      assembleBrinkman ((List.range 4).map info) ((List.range 4).map D) count k gauss (fun c => (poly c).edges) (dfSpaces sqrt lu llt triangle ref poly) mesh test = .ok P ∧
      (∀ c < mesh.num2D, dfCreate2D sqrt lu llt ref (poly c) = .ok (s c) ∧ dfStabilization (s c) .piNabla = .ok (S c) ∧ dfStabilization (s c) .pi0k = .ok (S0 c) ∧
        IsGreatest {y | ∃ x ∈ (s c).internal.points, y = |test.viscosity x|} (μ c) ∧
        IsGreatest {y | ∃ x ∈ (s c).internal.points, ∃ d < 9, y = |test.inverseDiffusion x d|} (κ c)) ∧
      ∀ x g y : List ℝ, x.length = count.totalDOFs → g.length = strongOffset D 4 →
        ∑ i ∈ Finset.range count.totalDOFs, y.getD i 0 *
            (∑ j ∈ Finset.range x.length, entry P.globalMatrix i j * x.getD j 0 + ∑ j ∈ Finset.range g.length, entry P.dirichletMatrix i j * g.getD j 0)
          = ((List.range mesh.num2D).map fun c =>
              flowForm k (divDegree red k) test (poly c) (s c) (flowVelocity k mesh n D x g c) (flowVelocity k mesh n D y (List.replicate g.length 0) c)
                (flowPressure D x g c) (flowPressure D y (List.replicate g.length 0) c)
              + μ c * (∑ i ∈ Finset.range (numVelocityDofs k (divDegree red k) (n c)), flowVelocity k mesh n D y (List.replicate g.length 0) c i *
                  apply (S c) (flowVelocity k mesh n D x g c) i)
              + κ c * ∑ i ∈ Finset.range (numVelocityDofs k (divDegree red k) (n c)), flowVelocity k mesh n D y (List.replicate g.length 0) c i *
                  apply (S0 c) (flowVelocity k mesh n D x g c) i).sum
            + if NoOpening info then
                ((List.range mesh.num2D).map fun c => quadSum (s c).internal.points (s c).internal.weights
                  (polyOf (divDegree red k) (poly c).centroid (poly c).diameter (flowPressure D y (List.replicate g.length 0) c))).sum * x.getD (fieldOffset D 4) 0
                + y.getD (fieldOffset D 4) 0 * ((List.range mesh.num2D).map fun c => quadSum (s c).internal.points (s c).internal.weights
                  (polyOf (divDegree red k) (poly c).centroid (poly c).diameter (flowPressure D x g c))).sum else 0 := by
  obtain ⟨P, hP, s, p, S, S0, A, b, mean, μ, κ, hB⟩ := brinkman_assemble hM hT hsq hlu hllt href hs hg test
  refine ⟨P, s, S, S0, μ, κ, hP, fun c hc => ⟨hB.created c hc, (hB.cell c hc).stab, (hB.cell c hc).stab0, (hB.cell c hc).greatMu, (hB.cell c hc).greatK⟩, fun x g y hx hg => ?_⟩
  rw [flow_rows hM hT href hs hB x g y hx hg, if_congr (boundary_opening hT href hs) rfl rfl]

/-- C119: `solutionDirichlet` holds the values of the datum. The entry of every strong DOF of a component of the velocity is the datum of that component, with the marker of its vertex
or edge, at its vertex or at its node on the edge; all other entries are zero. -/
theorem C119_strong (hM : IsDfMesh red k mesh poly n len dir nrm) (hT : IsDfTables k triangle edge ts ws w ss vs v₀) (hsq : ∀ x, 0 ≤ x → sqrt x * sqrt x = x)
    (hlu : SolvesRegular lu) (hllt : SolvesPosDef llt) (href : dfRef2D red triangle edge k = .ok ref) (hs : IsDfSetup ref mesh boundary info D count)
    (hg : (gauss (2 * k)).weights.length = (gauss (2 * k)).points.length) (test : DfTest ℝ) :
    ∃ P : BrinkmanProblem ℝ,
      assembleBrinkman ((List.range 4).map info) ((List.range 4).map D) count k gauss (fun c => (poly c).edges) (dfSpaces sqrt lu llt triangle ref poly) mesh test = .ok P ∧
      P.dirichlet.length = strongOffset D 4 ∧
      (∀ c < mesh.num2D, ∀ h < 2, ∀ v ∈ mesh.topo.cell2DVertices c, ∀ j i, lookup (D h) ⟨0, v, j⟩ = some ⟨.strong, i⟩ →
        ∃ m, ((info h).bInfo 0)[v]? = some m ∧ P.dirichlet.getD (strongOffset D h + i) 0 = test.strong m.marker (mesh.coords v) h) ∧
      (∀ c < mesh.num2D, ∀ h < 2, ∀ e < n c, ∀ j t i, ts[j]? = some t → lookup (D h) ⟨1, cellEdge mesh c e, j⟩ = some ⟨.strong, i⟩ →
        ∃ m, ((info h).bInfo 1)[cellEdge mesh c e]? = some m ∧ P.dirichlet.getD (strongOffset D h + i) 0 = test.strong m.marker (edgePoint mesh (cellEdge mesh c e) t) h) ∧
      ∀ a, (∀ c < mesh.num2D, ∀ h < 2, ∀ i, ((∃ v ∈ mesh.topo.cell2DVertices c, ∃ j, lookup (D h) ⟨0, v, j⟩ = some ⟨.strong, i⟩) ∨
        ∃ e < n c, ∃ j, lookup (D h) ⟨1, cellEdge mesh c e, j⟩ = some ⟨.strong, i⟩) → a ≠ strongOffset D h + i) → P.dirichlet.getD a 0 = 0 := by
  obtain ⟨P, hP, s, p, S, S0, A, b, mean, μ, κ, hB⟩ := brinkman_assemble hM hT hsq hlu hllt href hs hg test
  refine ⟨P, hP, hB.dirichletLength, fun c hc h hh v hv j i hl => ?_, fun c hc h hh e he j t i hj hl => ?_, fun a ha => hB.dirichletZero a fun c hc h hh r i hr hl => ?_⟩
  · obtain ⟨m, h1, h2⟩ := hB.dirichlet c hc h hh _ i (.inl ⟨v, hv, rfl, rfl⟩) hl
    exact ⟨m, h1, h2⟩
  · obtain ⟨m, h1, h2⟩ := hB.dirichlet c hc h hh _ i (.inr ⟨e, he, rfl, rfl⟩) hl
    refine ⟨m, h1, ?_⟩
    rw [h2, dofPoint, if_neg (by norm_num)]
    dsimp only
    rw [List.getD_eq_getElem?_getD, hj, Option.getD_some]
  · refine ha c hc h hh i ?_
    obtain ⟨d, e, j⟩ := r
    rcases hr with ⟨v, hv, hd, he⟩ | ⟨e', he', hd, he⟩
    · dsimp only at hd he
      subst hd he
      exact .inl ⟨_, hv, _, hl⟩
    · dsimp only at hd he
      subst hd he
      exact .inr ⟨_, he', _, hl⟩

/-- C119: the right-hand side is that of the Brinkman problem. For every test vector `y` whose two components have the traces `u 0`, `u 1` on the edges, it is the sum over the
cells of the quadrature of the source times the projected velocity plus the datum of the divergence times the pressure, minus the boundary terms with the edge quadrature, minus the
strong columns times `solutionDirichlet`. -/
theorem C119_rhs (hM : IsDfMesh red k mesh poly n len dir nrm) (hT : IsDfTables k triangle edge ts ws w ss vs v₀) (hsq : ∀ x, 0 ≤ x → sqrt x * sqrt x = x)
    (hlu : SolvesRegular lu) (hllt : SolvesPosDef llt) (href : dfRef2D red triangle edge k = .ok ref) (hs : IsDfSetup ref mesh boundary info D count)
    (hg : (gauss (2 * k)).weights.length = (gauss (2 * k)).points.length) (test : DfTest ℝ) :
    ∃ (P : BrinkmanProblem ℝ) (s : Nat → DfSpace2D ℝ),
      assembleBrinkman ((List.range 4).map info) ((List.range 4).map D) count k gauss (fun c => (poly c).edges) (dfSpaces sqrt lu llt triangle ref poly) mesh test = .ok P ∧
      (∀ c < mesh.num2D, dfCreate2D sqrt lu llt ref (poly c) = .ok (s c)) ∧
      ∀ (y : List ℝ) (u : Nat → Nat → Polynomial ℝ),
        (∀ h < 2, IsTrace k mesh ts (fun r => fieldValue D y (List.replicate (strongOffset D 4) 0) (h, r)) (u h)) →
        ∑ i ∈ Finset.range count.totalDOFs, y.getD i 0 * ventry P.rightHandSide i
          = ((List.range mesh.num2D).map fun c => quadSum (s c).internal.points (s c).internal.weights fun q =>
              test.source q 0 * polyOf k (poly c).centroid (poly c).diameter (apply (s c).pi0k.1 (flowVelocity k mesh n D y (List.replicate (strongOffset D 4) 0) c)) q
              + test.source q 1 * polyOf k (poly c).centroid (poly c).diameter (apply (s c).pi0k.2 (flowVelocity k mesh n D y (List.replicate (strongOffset D 4) 0) c)) q
              + test.divergence q * polyOf (divDegree red k) (poly c).centroid (poly c).diameter (flowPressure D y (List.replicate (strongOffset D 4) 0) c) q).sum
            - ((List.range mesh.num2D).map fun c => ∑ h ∈ Finset.range 2, ∑ e ∈ Finset.range (n c),
                weakValue (info h) mesh len (quadSum (gauss (2 * k)).points (gauss (2 * k)).weights) (fun m p => test.weak m p h) (u h) c e).sum
            - ∑ i ∈ Finset.range count.totalDOFs, y.getD i 0 * ∑ j ∈ Finset.range P.dirichlet.length, entry P.dirichletMatrix i j * P.dirichlet.getD j 0 := by
  obtain ⟨P, hP, s, p, S, S0, A, b, mean, μ, κ, hB⟩ := brinkman_assemble hM hT hsq hlu hllt href hs hg test
  refine ⟨P, s, hP, hB.created, fun y u hu => ?_⟩
  have h := flow_rhs hM hT href hB y (strongOffset D 4) u hu
  simp only [mul_add (List.getD y _ _), Finset.sum_add_distrib] at h
  rw [eq_sub_iff_add_eq, h]

/-- C119: for data of a component that are polynomials of degree at most `k` along the weak edges and an edge quadrature of degree `2 k` the boundary terms are the integrals. -/
theorem C119_weak_integral {points weights : List ℝ} (hgauss : ExactOnSegment (2 * k) points weights)
    {info : MeshInfo} (weak : Nat → ℝ × ℝ → ℝ) {u : Nat → Polynomial ℝ} {c e : Nat} (hu : (u (cellEdge mesh c e)).natDegree ≤ k)
    (hw : ∀ b, (info.bInfo 1)[cellEdge mesh c e]? = some b → b.type = .weak →
      ∃ q : Polynomial ℝ, q.natDegree ≤ k ∧ ∀ t, weak b.marker (edgePoint mesh (cellEdge mesh c e) t) = q.eval t) :
    weakValue info mesh len (quadSum points weights) weak u c e = weakValue info mesh len (fun f => ∫ t in (0 : ℝ)..1, f t) weak u c e := by
  unfold weakValue
  cases hb : (info.bInfo 1)[cellEdge mesh c e]? with
  | none => rfl
  | some b =>
    simp only [Option.elim_some]
    by_cases hbw : b.type = .weak
    swap
    · rw [if_neg hbw, if_neg hbw]
    rw [if_pos hbw, if_pos hbw]
    obtain ⟨q, hq, hqe⟩ := hw b hb hbw
    have h := hgauss (q * u (cellEdge mesh c e)) (Polynomial.natDegree_mul_le.trans (by omega))
    simp only [Polynomial.eval_mul] at h
    simp only [hqe]
    rw [h]

/-- C119: the conditions of each field. Every vertex, edge and cell gets for component `h` of the velocity the condition which the map of component `h` gives to its marker, and
the conditions of the internal velocity DOFs and of the pressure are `none` everywhere. -/
theorem C119_conditions {h : Nat} {topo : Mesh} {info : MeshInfo} (hi : dfMeshInfo ref topo boundary h = .ok info) :
    ∀ d ≤ 2, (info.bInfo d).length = (topo.markers d).length ∧ ∀ c m : Nat, (topo.markers d)[c]? = some m →
      (h = 0 → (info.bInfo d)[c]? = boundary 0 m) ∧ (h = 1 → (info.bInfo d)[c]? = boundary 1 m) ∧ (2 ≤ h → (info.bInfo d)[c]? = some ⟨.none, 0⟩) := by
  intro d hd
  obtain ⟨-, hb, hc⟩ := ((C10_constant_info 2 topo _).2.2 info hi).1 d hd
  refine ⟨hb, fun c m hm => ?_⟩
  have h2 := (hc c m hm).2
  refine ⟨?_, ?_, fun hh => ?_⟩
  · rintro rfl
    exact h2
  · rintro rfl
    exact h2
  · rw [h2]
    exact if_neg (by omega)

-- C119: a wall with slip: on edges with marker 3 the first component is prescribed, the second one is not
example (ref : DfRef2D ℝ) : ∃ i0 i1 : MeshInfo,
    dfMeshInfo ref patchMesh.topo (fun h m => some ⟨if m = 0 then .none else if m = 3 ∧ h = 1 then .weak else .strong, m⟩) 0 = .ok i0 ∧
    dfMeshInfo ref patchMesh.topo (fun h m => some ⟨if m = 0 then .none else if m = 3 ∧ h = 1 then .weak else .strong, m⟩) 1 = .ok i1 ∧
    (i0.bInfo 1)[3]? = some ⟨.strong, 3⟩ ∧ (i1.bInfo 1)[3]? = some ⟨.weak, 3⟩ := by
  obtain ⟨i0, h0⟩ := (C10_constant_info 2 patchMesh.topo ⟨dfNum ref 0, dfBoundary (fun h m => some ⟨if m = 0 then .none else if m = 3 ∧ h = 1 then .weak else .strong, m⟩) 0⟩).1.2
    fun _ _ _ _ => rfl
  obtain ⟨i1, h1⟩ := (C10_constant_info 2 patchMesh.topo ⟨dfNum ref 1, dfBoundary (fun h m => some ⟨if m = 0 then .none else if m = 3 ∧ h = 1 then .weak else .strong, m⟩) 1⟩).1.2
    fun _ _ _ _ => rfl
  exact ⟨i0, i1, h0, h1, ((C119_conditions h0 1 (by norm_num)).2 3 3 rfl).1 rfl, ((C119_conditions h1 1 (by norm_num)).2 3 3 rfl).2.1 rfl⟩

-- C118, C119: the full element of order 2 on two triangles, with open sides
example : ∃ (lu : Solver ℝ) (ref : DfRef2D ℝ) (info : Nat → MeshInfo) (D : Nat → DOFsData) (count : CountData) (P : BrinkmanProblem ℝ),
    IsDfSetup ref patchMesh (fun _ => patchBoundary) info D count ∧
    assembleBrinkman ((List.range 4).map info) ((List.range 4).map D) count 2 dfEdgeRules (fun c => (patchPoly c).edges)
      (dfSpaces Real.sqrt lu lu (fun _ => ⟨boolePoints, booleWeights⟩) ref patchPoly) patchMesh flowTest = .ok P ∧
    count.totalDOFs = 18 ∧ fieldOffset D 4 = 18 ∧ P.dirichlet.length = 10 ∧ ∀ i, lookup (D 1) ⟨1, 0, 0⟩ = some ⟨.strong, i⟩ → P.dirichlet.getD (strongOffset D 1 + i) 0 = 0 := by
  obtain ⟨lu, h1, h2⟩ := exists_solvers
  obtain ⟨ref, info, D, count, href, hs, ho, -, ht, hst⟩ := patch_open
  obtain ⟨P, s, S, S0, μ, κ, hP, -⟩ := C118_matrix (patch_df false) df_tables real_sqrt h1 h2 href hs (gauss := dfEdgeRules) rfl flowTest
  obtain ⟨P', hP', hl, -, he, -⟩ := C119_strong (patch_df false) df_tables real_sqrt h1 h2 href hs (gauss := dfEdgeRules) rfl flowTest
  obtain rfl : P' = P := Except.ok.inj (hP'.symm.trans hP)
  refine ⟨lu, ref, info, D, count, P', hs, hP, ht, ((C118_unknowns df_tables href hs).2.1 ho).symm.trans ht, hl.trans hst, fun i hi => ?_⟩
  obtain ⟨m, -, h⟩ := he 0 (by decide) 1 (by norm_num) 0 (by norm_num) 0 (1 / 2) i rfl hi
  rw [h]
  norm_num [flowTest, edgePoint, segPoint, cellEdge, patchMesh, patchTopo, squareV]

-- C118: the reduced element with a closed boundary has the additional unknown
example : ∃ (ref : DfRef2D ℝ) (info : Nat → MeshInfo) (D : Nat → DOFsData) (count : CountData), IsDfSetup ref patchMesh (fun _ => closedBoundary) info D count ∧
    count.totalDOFs = 5 ∧ fieldOffset D 4 = 4 := by
  obtain ⟨ref, info, D, count, href, hs, ho, -, ht, hst⟩ := patch_closed
  have := (C118_unknowns df_tables href hs).1 ho
  exact ⟨ref, info, D, count, hs, ht, by omega⟩

-- C119: traces of test vectors exist
example (D : Nat → DOFsData) (y : List ℝ) (m : Nat) : ∃ u : Nat → Nat → Polynomial ℝ, ∀ h < 2, IsTrace 2 patchMesh [1 / 2] (fun r => fieldValue D y (List.replicate m 0) (h, r)) (u h) := by
  have h := fun h => exists_trace df_tables.toIsTables df_tables.distinct patchMesh (fun r => fieldValue D y (List.replicate m 0) (h, r))
  choose u hu using h
  exact ⟨u, fun h _ => hu h⟩

-- C119: the edge quadrature
example : ExactOnSegment (2 * 2) (dfEdgeRules (2 * 2)).points (dfEdgeRules (2 * 2)).weights := dfEdge_exact

-- C119: the datum on the open sides has degree 2 along the edge
example (c e h m : Nat) : ∃ q : Polynomial ℝ, q.natDegree ≤ 2 ∧ ∀ t, flowTest.weak m (edgePoint patchMesh (cellEdge patchMesh c e) t) h = q.eval t := by
  obtain ⟨q, hq, hqe⟩ := poly1_pullback (patchMesh.coords (patchMesh.topo.cell1DVertices (cellEdge patchMesh c e)).1) (patchMesh.coords (patchMesh.topo.cell1DVertices (cellEdge patchMesh c e)).2)
    (if m = 2 then (if h = 0 then X 0 * X 1 - C 2 * X 0 else C 2 * X 1) else if h = 0 then 0 else X 0 * X 1 + C 2 * X 0)
  refine ⟨q, hq.trans ?_, fun t => ?_⟩
  · have hx : ∀ i : Fin 2, (C 2 * X i : MvPolynomial (Fin 2) ℝ).totalDegree ≤ 2 := fun i => (totalDegree_mul _ _).trans (by simp)
    have hm : (X 0 * X 1 : MvPolynomial (Fin 2) ℝ).totalDegree ≤ 2 := (totalDegree_mul _ _).trans (by simp)
    split_ifs
    · exact (totalDegree_sub _ _).trans (max_le hm (hx 0))
    · exact hx 1
    · simp
    · exact (totalDegree_add _ _).trans (max_le hm (hx 0))
  · rw [hqe]
    unfold flowTest edgePoint
    dsimp only
    split_ifs <;> simp

end PolyDiM
