import Verif.Lemmas.MixedUnique
import Verif.Props.VemMcc
import Verif.Lemmas.PlaneExample

/-!
# Properties C103 to C107: the assembler of the mixed formulation
-/

namespace PolyDiM

open Spec MvPolynomial MeasureTheory

variable {k : Nat} {mesh : PlaneMesh ℝ} {poly : Nat → VemPolygon ℝ} {n : Nat → Nat} {len : Nat → Nat → ℝ} {dir : Nat → Nat → Bool} {nrm : Nat → Nat → ℝ × ℝ}
  {triangle : Nat → Rule (ℝ × ℝ) ℝ} {edge : Nat → Rule ℝ ℝ} {ts ws : List ℝ} {svd : DMat ℝ → DMat ℝ} {sqrt : ℝ → ℝ} {llt : Solver ℝ}
  {boundary : Nat → Option BInfo} {info0 info1 : MeshInfo} {d0 d1 : DOFsData} {count : CountData}

theorem mixed_pair (hs : IsMixedSetup k mesh boundary info0 info1 d0 d1 count) : Pair (mccVelocityNum k) (mccPressureNum k) mesh.topo info0 info1 d0 d1 := by
  have h := hs.small
  obtain ⟨-, -, -, -, h0⟩ := C03_counters 2 info0 mesh.topo d0 hs.velocityDofs (show totalRequested info0 2 < _ by omega)
  obtain ⟨-, -, -, -, h1⟩ := C03_counters 2 info1 mesh.topo d1 hs.pressureDofs (show totalRequested info1 2 < _ by omega)
  have h0' : d0.counters.dofs + d0.counters.strongs = totalRequested info0 2 := h0
  have h1' : d1.counters.dofs + d1.counters.strongs = totalRequested info1 2 := h1
  exact ⟨field_handler hs.velocityInfo hs.velocityDofs (by omega), field_handler hs.pressureInfo hs.pressureDofs (by omega), by omega, by omega⟩

/-- The quadrature rule of the local space. -/
theorem mcc_internal_rule {poly : VemPolygon ℝ} {ref : MccRef2D ℝ} {s : MccSpace2D ℝ} (h : mccCreate2D svd sqrt llt ref poly = .ok s) :
    polygonQuad ref.triangle poly.tris = .ok s.internal := by
  unfold mccCreate2D at h
  obtain ⟨i, hi, h⟩ := (bind_ok_iff _ _ _).1 h
  obtain ⟨x, -, h⟩ := (bind_ok_iff _ _ _).1 h
  obtain ⟨x, -, h⟩ := (bind_ok_iff _ _ _).1 h
  obtain ⟨x, -, h⟩ := (bind_ok_iff _ _ _).1 h
  obtain ⟨x, -, h⟩ := (bind_ok_iff _ _ _).1 h
  obtain ⟨x, -, h⟩ := (bind_ok_iff _ _ _).1 h
  obtain ⟨x, -, h⟩ := (bind_ok_iff _ _ _).1 h
  cases h
  exact hi

theorem test_velocity (hM : IsMixedMesh k mesh poly n len dir nrm) (hT : IsMixedTables k triangle edge ts ws) {c : Nat} (hc : c < mesh.num2D) (y : List ℝ) (m : Nat) {j : Nat}
    (hj : j < n c * (k + 1) + k * (k + 2)) : velTest k mesh d0 (fun i => y.getD i 0) c j = velocityDofs k mesh n d0 y (List.replicate m 0) c j := by
  rw [← pair_velocity (d1 := d0) hM hT hc y _ hj, velTest, Pair.pairValues, (vel_list hM hT hc).1, if_pos hj, valueOf_zero]

theorem test_pressure (hM : IsMixedMesh k mesh poly n len dir nrm) (hT : IsMixedTables k triangle edge ts ws) {c : Nat} (hc : c < mesh.num2D) (y : List ℝ) (m : Nat) {j : Nat}
    (hj : j < (k + 1) * (k + 2) / 2) : preTest k mesh d0 d1 (fun i => y.getD i 0) c j = pressureDofs d0 d1 y (List.replicate m 0) c j := by
  rw [← pair_pressure hM hT hc y _ hj, preTest, Pair.pairValues, (vel_list hM hT hc).1, if_neg (by omega), Nat.add_sub_cancel_left, List.drop_replicate, valueOf_zero]
  congr 2
  funext i
  rw [List.getD_eq_getElem?_getD, List.getD_eq_getElem?_getD, List.getElem?_drop]

theorem polyOf_congr (c : ℝ × ℝ) (h : ℝ) {x y : Nat → ℝ} (hxy : ∀ j < (k + 1) * (k + 2) / 2, x j = y j) (p : ℝ × ℝ) : polyOf k c h x p = polyOf k c h y p := by
  refine Finset.sum_congr rfl fun d hd => Finset.sum_congr rfl fun b hb => ?_
  have hd := Finset.mem_range.1 hd
  have hb := Finset.mem_range.1 hb
  have : position (d - b) b < tri (k + 1) := position_lt.2 (by omega)
  rw [hxy _ (by rw [tri_div]; exact this)]

/-- C103: the matrix the assembler builds is that of the mixed formulation. For all vectors `x`, `g` of free and strong values and all test vectors `y` the product is the sum
over the cells of the quadrature of the mixed form of the projected velocities, the divergences and the pressures the vectors stand for, plus the stabilization times the largest
absolute value of an entry of the inverse diffusion at a quadrature point. -/
theorem C103_matrix (hM : IsMixedMesh k mesh poly n len dir nrm) (hT : IsMixedTables k triangle edge ts ws) (hsvd : ∀ A, RightSingular A (svd A))
    (hsq : ∀ x, 0 ≤ x → sqrt x * sqrt x = x) (hllt : SolvesPosDef llt) (hs : IsMixedSetup k mesh boundary info0 info1 d0 d1 count) (test : MixedTest ℝ) :
    ∃ (P : MixedProblem ℝ) (s : Nat → MccSpace2D ℝ) (S : Nat → DMat ℝ) (kmax : Nat → ℝ), assembleMixed info0 d0 d1 count (mccSpaces svd sqrt llt triangle edge k poly) mesh test = .ok P ∧
      (∀ c < mesh.num2D, mccCreate2D svd sqrt llt (mccRef2D triangle edge k) (poly c) = .ok (s c) ∧ polygonQuad (triangle (2 * (k + 1))) (poly c).tris = .ok (s c).internal ∧
        mccStabilization (poly c).measure (s c) = .ok (S c) ∧ IsGreatest {y | ∃ x ∈ (s c).internal.points, ∃ d < 9, y = |test.inverseDiffusion x d|} (kmax c)) ∧
      ∀ x g y : List ℝ, x.length = d0.counters.dofs + d1.counters.dofs → g.length = d0.counters.strongs + d1.counters.strongs →
        ∑ i ∈ Finset.range (d0.counters.dofs + d1.counters.dofs), y.getD i 0 *
            (∑ j ∈ Finset.range x.length, entry P.globalMatrix i j * x.getD j 0 + ∑ j ∈ Finset.range g.length, entry P.neumannMatrix i j * g.getD j 0)
          = ((List.range mesh.num2D).map fun c => quadSum (s c).internal.points (s c).internal.weights (fun p => mixedIntegrand test p
              (splitField k (poly c).centroid (poly c).diameter (s c).init.tPlus.ent (apply (s c).pi0k (velocityDofs k mesh n d0 x g c)) p)
              (splitField k (poly c).centroid (poly c).diameter (s c).init.tPlus.ent (apply (s c).pi0k (velocityDofs k mesh n d0 y (List.replicate g.length 0) c)) p)
              (polyOf k (poly c).centroid (poly c).diameter (apply (s c).V (velocityDofs k mesh n d0 x g c)) p)
              (polyOf k (poly c).centroid (poly c).diameter (apply (s c).V (velocityDofs k mesh n d0 y (List.replicate g.length 0) c)) p)
              (polyOf k (poly c).centroid (poly c).diameter (pressureDofs d0 d1 x g c) p)
              (polyOf k (poly c).centroid (poly c).diameter (pressureDofs d0 d1 y (List.replicate g.length 0) c) p))
            + kmax c * ∑ i ∈ Finset.range (n c * (k + 1) + k * (k + 2)), velocityDofs k mesh n d0 y (List.replicate g.length 0) c i *
              ∑ j ∈ Finset.range (n c * (k + 1) + k * (k + 2)), (S c).ent i j * velocityDofs k mesh n d0 x g c j).sum := by
  obtain ⟨P, hP, s, p, S, A, b, kmax, hS⟩ := mixed_assemble hM hT hsvd hsq hllt (mixed_pair hs) hs.counted test
  refine ⟨P, s, S, kmax, hP, fun c hc => ⟨hS.created c hc, ?_, (hS.cell c hc).stab, (hS.cell c hc).great⟩, fun x g y hx hg => ?_⟩
  · have := mcc_internal_rule (hS.created c hc)
    rwa [mccRef_ok hT] at this
  rw [hS.rows x g hx hg fun i => y.getD i 0]
  congr 1
  refine List.map_congr_left fun c hc => ?_
  have hc := List.mem_range.1 hc
  rw [Finset.sum_congr rfl (fun j hj => by rw [test_velocity hM hT hc y g.length (Finset.mem_range.1 hj)]),
    Finset.sum_congr (s₁ := Finset.range ((k + 1) * (k + 2) / 2)) rfl (fun j hj => by rw [test_pressure hM hT hc y g.length (Finset.mem_range.1 hj)]), (hS.cell c hc).form]
  have e1 : apply (s c).pi0k (Pair.pairValues (mccVelocityNum k) (mccPressureNum k) mesh.topo d0 d1 x g c) = apply (s c).pi0k (velocityDofs k mesh n d0 x g c) := by
    funext i
    refine Finset.sum_congr rfl fun j hj => ?_
    rw [(hS.space c hc).pSol.2.1, (hS.space c hc).bCols] at hj
    rw [pair_velocity hM hT hc x g (Finset.mem_range.1 hj)]
  have e2 : apply (s c).V (Pair.pairValues (mccVelocityNum k) (mccPressureNum k) mesh.topo d0 d1 x g c) = apply (s c).V (velocityDofs k mesh n d0 x g c) := by
    funext i
    refine Finset.sum_congr rfl fun j hj => ?_
    rw [(hS.space c hc).vSol.2.1, (hS.space c hc).wCols] at hj
    rw [pair_velocity hM hT hc x g (Finset.mem_range.1 hj)]
  rw [e1, e2]
  congr 1
  · refine quadSum_congr _ _ fun p _ => ?_
    rw [polyOf_congr (x := fun j => Pair.pairValues (mccVelocityNum k) (mccPressureNum k) mesh.topo d0 d1 x g c (n c * (k + 1) + k * (k + 2) + j)) _ _
      fun j hj => pair_pressure hM hT hc x g hj]
  · congr 1
    refine Finset.sum_congr rfl fun i _ => ?_
    congr 1
    exact Finset.sum_congr rfl fun j hj => by rw [pair_velocity hM hT hc x g (Finset.mem_range.1 hj)]

/-- C104: `solutionNeumann` holds the normal components of the exact velocity. For every field whose outward normal component is the datum on the strong edges, the entry of
every strong degree of freedom of an edge is its component along the normal of that edge of the mesh at the node; all other entries are zero. -/
theorem C104_strong (hM : IsMixedMesh k mesh poly n len dir nrm) (hT : IsMixedTables k triangle edge ts ws) (hsvd : ∀ A, RightSingular A (svd A))
    (hsq : ∀ x, 0 ≤ x → sqrt x * sqrt x = x) (hllt : SolvesPosDef llt) (hs : IsMixedSetup k mesh boundary info0 info1 d0 d1 count) (test : MixedTest ℝ) (u : ℝ × ℝ → ℝ × ℝ)
    (hu : ∀ c < mesh.num2D, ∀ e < n c, ∀ b, (info0.bInfo 1)[cellEdge mesh c e]? = some b → b.type = .strong →
      ∀ t, test.strong b.marker (edgePoint mesh (cellEdge mesh c e) t) = dot2 (u (edgePoint mesh (cellEdge mesh c e) t)) (nrm c e)) :
    ∃ P, assembleMixed info0 d0 d1 count (mccSpaces svd sqrt llt triangle edge k poly) mesh test = .ok P ∧ P.neumann.length = d0.counters.strongs + d1.counters.strongs ∧
      (∀ c < mesh.num2D, ∀ e < n c, ∀ j t i, ts[j]? = some t → lookup d0 ⟨1, cellEdge mesh c e, j⟩ = some ⟨.strong, i⟩ →
        P.neumann.getD i 0 = dot2 (u (edgePoint mesh (cellEdge mesh c e) t)) (meshNormal mesh (cellEdge mesh c e))) ∧
      ∀ i, (∀ c < mesh.num2D, ∀ e < n c, ∀ j, lookup d0 ⟨1, cellEdge mesh c e, j⟩ ≠ some ⟨.strong, i⟩) → P.neumann.getD i 0 = 0 := by
  have H := mixed_pair hs
  obtain ⟨P, hP, s, p, S, A, b, kmax, hS⟩ := mixed_assemble hM hT hsvd hsq hllt H hs.counted test
  refine ⟨P, hP, hS.neumannLength, fun c hc e he j t i hj hl => ?_, hS.neumannZero⟩
  obtain ⟨c', hc', e', he', hE, m, hm, hv⟩ := hS.neumann c hc e he j i hl
  obtain ⟨x, b', hx, hb', -, -, ht⟩ := H.first.cell 1 (by norm_num) _ (H.first.edges c hc _ (List.mem_of_getElem? (cell_edge_mem hM.plane hc he)))
  rw [hm] at hb'
  obtain rfl := Option.some.inj hb'
  rw [Handler.lookup_cell hx] at hl
  have hms := typeFor_strong (ht _ (List.mem_of_getElem? hl)).symm
  rw [hv, List.getD_eq_getElem?_getD, hj, Option.getD_some]
  rw [← hE] at hm ⊢
  rw [hu c' hc' e' he' m hm hms, edge_normal hM hc' he']
  have := sgn_sq (dir c') e'
  simp only [dot2, Prod.smul_fst, Prod.smul_snd, smul_eq_mul]
  linear_combination ((u (edgePoint mesh (cellEdge mesh c' e') t)).1 * (meshNormal mesh (cellEdge mesh c' e')).1
    + (u (edgePoint mesh (cellEdge mesh c' e') t)).2 * (meshNormal mesh (cellEdge mesh c' e')).2) * this

/-- C104: the right-hand side is that of the mixed formulation. For every test vector `y`, with traces `u` of the normal component on the edges of the mesh, it is the sum over
the cells of the quadrature of the source times the pressure, plus the boundary terms with the edge quadrature, minus the strong columns times `solutionNeumann`. -/
theorem C104_rhs (hM : IsMixedMesh k mesh poly n len dir nrm) (hT : IsMixedTables k triangle edge ts ws) (hsvd : ∀ A, RightSingular A (svd A))
    (hsq : ∀ x, 0 ≤ x → sqrt x * sqrt x = x) (hllt : SolvesPosDef llt) (hs : IsMixedSetup k mesh boundary info0 info1 d0 d1 count) (test : MixedTest ℝ) :
    ∃ (P : MixedProblem ℝ) (rule : Nat → Rule (ℝ × ℝ) ℝ), assembleMixed info0 d0 d1 count (mccSpaces svd sqrt llt triangle edge k poly) mesh test = .ok P ∧
      (∀ c < mesh.num2D, polygonQuad (triangle (2 * (k + 1))) (poly c).tris = .ok (rule c)) ∧
      ∀ (y : List ℝ) (u : Nat → Polynomial ℝ), IsFluxTrace k mesh ts (valueOf d0 y (List.replicate d0.counters.strongs 0)) u →
        ∑ i ∈ Finset.range (d0.counters.dofs + d1.counters.dofs), y.getD i 0 * ventry P.rightHandSide i
          = ((List.range mesh.num2D).map fun c => quadSum (rule c).points (rule c).weights fun p => test.source p *
              polyOf k (poly c).centroid (poly c).diameter (pressureDofs d0 d1 y (List.replicate (d0.counters.strongs + d1.counters.strongs) 0) c) p).sum
            + ((List.range mesh.num2D).map fun c => ∑ e ∈ Finset.range (n c), mixedWeakValue info0 mesh dir (quadSum ts ws) test.weak u c e).sum
            - ∑ i ∈ Finset.range (d0.counters.dofs + d1.counters.dofs), y.getD i 0 * ∑ j ∈ Finset.range P.neumann.length, entry P.neumannMatrix i j * P.neumann.getD j 0 := by
  have H := mixed_pair hs
  obtain ⟨P, hP, s, p, S, A, b, kmax, hS⟩ := mixed_assemble hM hT hsvd hsq hllt H hs.counted test
  refine ⟨P, fun c => (s c).internal, hP, fun c hc => by
    have := mcc_internal_rule (hS.created c hc)
    rwa [mccRef_ok hT] at this, fun y u hu => ?_⟩
  have h := hS.rhs fun i => y.getD i 0
  simp only [mul_add (List.getD y _ _), Finset.sum_add_distrib] at h
  rw [eq_sub_iff_add_eq, h]
  congr 2
  · refine List.map_congr_left fun c hc => ?_
    have hc := List.mem_range.1 hc
    rw [Finset.sum_congr (s₁ := Finset.range ((k + 1) * (k + 2) / 2)) rfl
      (fun j hj => by rw [test_pressure hM hT hc y (d0.counters.strongs + d1.counters.strongs) (Finset.mem_range.1 hj)]), (hS.cell c hc).rhs]
  · refine List.map_congr_left fun c hc => Finset.sum_congr rfl fun e he => ?_
    have hc := List.mem_range.1 hc
    have he := Finset.mem_range.1 he
    have hE := H.first.edges c hc _ (List.mem_of_getElem? (cell_edge_mem hM.plane hc he))
    obtain ⟨-, hu⟩ := hu _ hE
    obtain ⟨x, m, hx, hm, -⟩ := H.first.cell 1 (by norm_num) _ hE
    unfold mixedWeak mixedWeakValue
    simp only [hm, Option.elim_some]
    split_ifs with hw hd
    all_goals try rfl
    all_goals
      congr 1
      rw [← sum_quadSum ts ws hT.edgeLength.symm (fun j => test.weak m.marker (edgePoint mesh (cellEdge mesh c e) (ts.getD j 0)) *
        (sgn (dir c) e * testValue d0 (fun i => y.getD i 0) ⟨1, cellEdge mesh c e, j⟩)) _ (fun j t hj => by
          rw [hu j t hj, valueOf_zero, List.getD_eq_getElem?_getD, hj, Option.getD_some, sgn]
          simp [hd]), hT.nodes, Finset.mul_sum]
      refine Finset.sum_congr rfl fun j _ => ?_
      ring

/-- C104: for data that are polynomials of degree at most `k + 1` along the weak edges the boundary terms are the integrals. -/
theorem C104_weak_integral (hT : IsMixedTables k triangle edge ts ws) (weak : Nat → ℝ × ℝ → ℝ) {u : Nat → Polynomial ℝ} {c e : Nat}
    (hu : (u (cellEdge mesh c e)).natDegree ≤ k)
    (hw : ∀ b, (info0.bInfo 1)[cellEdge mesh c e]? = some b → b.type = .weak →
      ∃ q : Polynomial ℝ, q.natDegree ≤ k + 1 ∧ ∀ t, weak b.marker (edgePoint mesh (cellEdge mesh c e) t) = q.eval t) :
    mixedWeakValue info0 mesh dir (quadSum ts ws) weak u c e = mixedWeakValue info0 mesh dir (fun f => ∫ t in (0 : ℝ)..1, f t) weak u c e := by
  unfold mixedWeakValue
  cases hb : (info0.bInfo 1)[cellEdge mesh c e]? with
  | none => rfl
  | some b =>
    simp only [Option.elim_some]
    by_cases hbw : b.type = .weak
    swap
    · rw [if_neg hbw, if_neg hbw]
    rw [if_pos hbw, if_pos hbw]
    obtain ⟨q, hq, hqe⟩ := hw b hb hbw
    have h := hT.edgeExact (q * (Polynomial.C (if dir c e then 1 else -1) * u (cellEdge mesh c e))) (by
      refine Polynomial.natDegree_mul_le.trans ?_
      have := Polynomial.natDegree_C_mul_le (if dir c e then (1 : ℝ) else -1) (u (cellEdge mesh c e))
      omega)
    simp only [Polynomial.eval_mul, Polynomial.eval_C] at h
    simp only [hqe]
    rw [h]

/-- C105: the patch test. For every solution of the equations whose velocity has degree at most `k` and whose pressure has degree at most `k + 1` (`k` if there are terms of order
one and zero), there is a solution of the discrete system that is exact on every cell. -/
theorem C105_patch_test (hM : IsMixedMesh k mesh poly n len dir nrm) (hT : IsMixedTables k triangle edge ts ws) (hsvd : ∀ A, RightSingular A (svd A))
    (hsq : ∀ x, 0 ≤ x → sqrt x * sqrt x = x) (hllt : SolvesPosDef llt) (hs : IsMixedSetup k mesh boundary info0 info1 d0 d1 count) (test : MixedTest ℝ)
    {q : MvPolynomial (Fin 2) ℝ × MvPolynomial (Fin 2) ℝ} (hq1 : q.1.totalDegree ≤ k) (hq2 : q.2.totalDegree ≤ k)
    {pr : MvPolynomial (Fin 2) ℝ} (hpr : pr.totalDegree ≤ k + 1) (hsol : IsMixedSolution mesh n nrm info0 test q pr)
    (hlow : pr.totalDegree ≤ k ∨ ∀ x, test.reaction x = 0 ∧ ∀ a < 2, test.advection x a = 0)
    (hnone : ∀ E b, (info0.bInfo 1)[E]? = some b → b.type ≠ .weak → b.type ≠ .strong → signedSum mesh n dir E = 0)
    (hc0 : ∀ c < mesh.num2D, ∀ b, (info0.bInfo 2)[c]? = some b → b.type ≠ .strong) (hc1 : ∀ c < mesh.num2D, ∀ b, (info1.bInfo 2)[c]? = some b → b.type ≠ .strong) :
    ∃ (P : MixedProblem ℝ) (s : Nat → MccSpace2D ℝ) (free : List ℝ), assembleMixed info0 d0 d1 count (mccSpaces svd sqrt llt triangle edge k poly) mesh test = .ok P ∧
      (∀ c < mesh.num2D, mccCreate2D svd sqrt llt (mccRef2D triangle edge k) (poly c) = .ok (s c)) ∧ free.length = d0.counters.dofs + d1.counters.dofs ∧
      (∀ i < d0.counters.dofs + d1.counters.dofs, ∑ j ∈ Finset.range free.length, entry P.globalMatrix i j * free.getD j 0 = ventry P.rightHandSide i) ∧
      ∀ c < mesh.num2D, IsMixedExact k mesh n dir nrm ts (poly c) (s c) d0 d1 q pr free P.neumann c := by
  have H := mixed_pair hs
  obtain ⟨P, hP, s, p, S, A, b, kmax, hS⟩ := mixed_assemble hM hT hsvd hsq hllt H hs.counted test
  obtain ⟨free, hl, hf, hd⟩ := mixed_patch hM hT hsvd hsq hllt H hS hq1 hq2 hpr hsol.law hsol.balance hlow hsol.weak hsol.strong hnone hc0 hc1
  refine ⟨P, s, free, hP, hS.created, hl, hf, fun c hc => ?_⟩
  have hE := hM.plane.element c hc
  obtain ⟨⟨flux, hn, hv⟩, hp⟩ := hd c hc
  obtain ⟨s1, hs1, h1⟩ := C98_exact hE hT hsvd hsq hllt
  obtain rfl : s1 = s c := Except.ok.inj (hs1.symm.trans (hS.created c hc))
  obtain ⟨s2, hs2, h2⟩ := C97_polynomial hE hT hsvd hsq hllt
  obtain rfl : s2 = s c := Except.ok.inj (hs2.symm.trans (hS.created c hc))
  refine ⟨⟨flux, hn, hv⟩, h1 q hq1 hq2 flux hn _ hv, h2 q hq1 hq2 flux hn _ hv, fun y => ?_, fun hk => ?_⟩
  · have hy : quadLin (s c).internal.points (s c).internal.weights (combo (k + 1) (poly c).centroid (poly c).diameter (tri (k + 1)) y *
        (pr - combo (k + 1) (poly c).centroid (poly c).diameter (tri (k + 1)) (pressureDofs d0 d1 free P.neumann c))) = 0 := by
      rw [mul_comm, quadLin_combo]
      refine Finset.sum_eq_zero fun j hj => ?_
      rw [mul_comm (pr - _), hp j (Finset.mem_range.1 hj), zero_mul]
    rw [mul_sub, map_sub, sub_eq_zero] at hy
    have hdeg : ∀ x, (combo (k + 1) (poly c).centroid (poly c).diameter (tri (k + 1)) x).totalDegree ≤ k := fun x => combo_degree x (by omega)
    rw [(hS.space c hc).rules.integral _ ((totalDegree_mul _ _).trans (by have := hdeg y; omega)),
      (hS.space c hc).rules.integral _ ((totalDegree_mul _ _).trans (by have := hdeg y; have := hdeg (pressureDofs d0 d1 free P.neumann c); omega))] at hy
    have e : ∀ x p, ev2 (combo (k + 1) (poly c).centroid (poly c).diameter (tri (k + 1)) x) p = polyOf k (poly c).centroid (poly c).diameter x p :=
      fun x p => ev2_combo (k + 1) _ _ (by omega) x p
    have e2 : ∀ a b p, ev2 (a * b) p = ev2 a p * ev2 b p := fun a b p => by simp [ev2]
    simp only [e2, e] at hy
    have e3 : ∀ p : ℝ × ℝ, eval ![p.1, p.2] pr = ev2 pr p := fun p => rfl
    simp only [e3, mul_comm _ (polyOf k (poly c).centroid (poly c).diameter y _)]
    exact hy.symm
  · obtain ⟨x, hx⟩ : ∃ x, pr = combo (k + 1) (poly c).centroid (poly c).diameter (tri (k + 1)) x :=
      basisPoly_span _ _ _ hE.diameter (Nat.le_succ k) pr hk
    have := mH_ext hE (hS.space c hc) (x := x) (y := pressureDofs d0 d1 free P.neumann c) (fun i hi => by
      have := hp i hi
      rwa [mul_sub, map_sub, sub_eq_zero, hx] at this)
    intro p
    rw [← polyOf_congr (x := x) _ _ (fun j hj => this j (by rwa [tri_div] at hj)), ← ev2_combo (k + 1) _ _ (show k ≤ k + 1 by omega), ← hx]

/-- C106: the discrete system has exactly one solution, for every right-hand side: the inverse of the diffusion is positive definite, there is no advection, the reaction is
nonnegative, every edge belongs to a cell, and the reaction is positive or from every cell one gets across edges that are not strong to an edge that is not strong and
belongs to one cell only. -/
theorem C106_unique (hM : IsMixedMesh k mesh poly n len dir nrm) (hT : IsMixedTables k triangle edge ts ws) (hsvd : ∀ A, RightSingular A (svd A))
    (hsq : ∀ x, 0 ≤ x → sqrt x * sqrt x = x) (hllt : SolvesPosDef llt) (hs : IsMixedSetup k mesh boundary info0 info1 d0 d1 count) (test : MixedTest ℝ)
    (hν : IsDefiniteTensor test) (hβ : ∀ x, ∀ a < 2, test.advection x a = 0) (hγ : ∀ x, 0 ≤ test.reaction x)
    (hc0 : ∀ c < mesh.num2D, ∀ b, (info0.bInfo 2)[c]? = some b → b.type ≠ .strong) (hcover : ∀ E < mesh.num1D, ∃ c < mesh.num2D, ∃ e < n c, cellEdge mesh c e = E)
    (hconn : (∀ x, 0 < test.reaction x) ∨ ∀ c < mesh.num2D, ∃ c', Relation.ReflTransGen (Adjacent info0 mesh n dir) c c' ∧ IsOutlet info0 mesh n c') :
    ∃ P, assembleMixed info0 d0 d1 count (mccSpaces svd sqrt llt triangle edge k poly) mesh test = .ok P ∧
      ∀ b : Nat → ℝ, ∃! x : List ℝ, x.length = d0.counters.dofs + d1.counters.dofs ∧
        ∀ i < d0.counters.dofs + d1.counters.dofs, ∑ j ∈ Finset.range (d0.counters.dofs + d1.counters.dofs), entry P.globalMatrix i j * x.getD j 0 = b i := by
  have H := mixed_pair hs
  obtain ⟨P, hP, s, p, S, A, b, kmax, hS⟩ := mixed_assemble hM hT hsvd hsq hllt H hs.counted test
  exact ⟨P, hP, injective_solves fun x hx h0 => mixed_kernel hM hT hsvd hsq hllt H hS hν hβ hγ hc0 hcover hconn hx h0⟩

/-- C107: whatever vector solves the system `globalMatrixA x = rightHandSide` is exact on every cell, where the velocity of the continuous problem has degree at most `k` and the
pressure has degree at most `k + 1` (`k` if there is a reaction). -/
theorem C107_exact (hM : IsMixedMesh k mesh poly n len dir nrm) (hT : IsMixedTables k triangle edge ts ws) (hsvd : ∀ A, RightSingular A (svd A))
    (hsq : ∀ x, 0 ≤ x → sqrt x * sqrt x = x) (hllt : SolvesPosDef llt) (hs : IsMixedSetup k mesh boundary info0 info1 d0 d1 count) (test : MixedTest ℝ)
    (hν : IsDefiniteTensor test) (hβ : ∀ x, ∀ a < 2, test.advection x a = 0) (hγ : ∀ x, 0 ≤ test.reaction x)
    {q : MvPolynomial (Fin 2) ℝ × MvPolynomial (Fin 2) ℝ} (hq1 : q.1.totalDegree ≤ k) (hq2 : q.2.totalDegree ≤ k)
    {pr : MvPolynomial (Fin 2) ℝ} (hpr : pr.totalDegree ≤ k + 1) (hsol : IsMixedSolution mesh n nrm info0 test q pr)
    (hlow : pr.totalDegree ≤ k ∨ ∀ x, test.reaction x = 0)
    (hnone : ∀ E b, (info0.bInfo 1)[E]? = some b → b.type ≠ .weak → b.type ≠ .strong → signedSum mesh n dir E = 0)
    (hc0 : ∀ c < mesh.num2D, ∀ b, (info0.bInfo 2)[c]? = some b → b.type ≠ .strong) (hc1 : ∀ c < mesh.num2D, ∀ b, (info1.bInfo 2)[c]? = some b → b.type ≠ .strong)
    (hcover : ∀ E < mesh.num1D, ∃ c < mesh.num2D, ∃ e < n c, cellEdge mesh c e = E)
    (hconn : (∀ x, 0 < test.reaction x) ∨ ∀ c < mesh.num2D, ∃ c', Relation.ReflTransGen (Adjacent info0 mesh n dir) c c' ∧ IsOutlet info0 mesh n c') :
    ∃ (P : MixedProblem ℝ) (s : Nat → MccSpace2D ℝ), assembleMixed info0 d0 d1 count (mccSpaces svd sqrt llt triangle edge k poly) mesh test = .ok P ∧
      (∀ c < mesh.num2D, mccCreate2D svd sqrt llt (mccRef2D triangle edge k) (poly c) = .ok (s c)) ∧
      ∀ x : List ℝ, x.length = d0.counters.dofs + d1.counters.dofs →
        (∀ i < d0.counters.dofs + d1.counters.dofs, ∑ j ∈ Finset.range (d0.counters.dofs + d1.counters.dofs), entry P.globalMatrix i j * x.getD j 0 = ventry P.rightHandSide i) →
        ∀ c < mesh.num2D, IsMixedExact k mesh n dir nrm ts (poly c) (s c) d0 d1 q pr x P.neumann c := by
  obtain ⟨P, s, free, hP, hcr, hl, hf, he⟩ := C105_patch_test hM hT hsvd hsq hllt hs test hq1 hq2 hpr hsol (hlow.imp id fun h x => ⟨h x, hβ x⟩) hnone hc0 hc1
  obtain ⟨P', hP', hu⟩ := C106_unique hM hT hsvd hsq hllt hs test hν hβ hγ hc0 hcover hconn
  obtain rfl : P' = P := Except.ok.inj (hP'.symm.trans hP)
  refine ⟨P', s, hP, hcr, fun x hx h => ?_⟩
  obtain rfl := (hu (ventry P'.rightHandSide)).unique ⟨hx, h⟩ ⟨hl, by rwa [hl] at hf⟩
  exact he

theorem patch_mixed : IsMixedMesh 1 patchMesh patchPoly (fun _ => 3) patchLen patchDir patchNrm where
  plane := ⟨patch_mesh.vertices, patch_mesh.edges, patch_mesh.element, patch_mesh.measure, patch_mesh.ends, fun _ _ => by norm_num⟩
  unit c hc e he := by
    have : c < 2 := hc
    interval_cases c <;> interval_cases e <;>
      norm_num [patchNrm, patchLen, clockwise, cellPoint, cellVertex, patchMesh, patchTopo, squareV, dot2, ← mul_inv]
  length c _ e _ := (patchLen_pos c e).ne'
  small _ _ := by norm_num

/-- The DOFs of velocity and pressure on the mesh of two triangles, order 1. -/
theorem patch_setup : ∃ info0 info1 d0 d1 count, IsMixedSetup 1 patchMesh patchBoundary info0 info1 d0 d1 count ∧
    info0.bInfo 1 = [⟨.strong, 1⟩, ⟨.weak, 2⟩, ⟨.none, 0⟩, ⟨.weak, 3⟩, ⟨.strong, 1⟩] ∧ info0.bInfo 2 = [⟨.none, 0⟩, ⟨.none, 0⟩] ∧ info1.bInfo 2 = [⟨.none, 0⟩, ⟨.none, 0⟩] ∧
    d0.counters.dofs = 12 ∧ d0.counters.strongs = 4 ∧ d1.counters.dofs = 6 ∧ d1.counters.strongs = 0 := by
  obtain ⟨info0, h0, b1, b2, t0, d0, e0, f0, g0⟩ : ∃ info0, createConstantInfo 2 patchTopo ⟨mccVelocityNum 1, patchBoundary⟩ = .ok info0 ∧
      info0.bInfo 1 = [⟨.strong, 1⟩, ⟨.weak, 2⟩, ⟨.none, 0⟩, ⟨.weak, 3⟩, ⟨.strong, 1⟩] ∧ info0.bInfo 2 = [⟨.none, 0⟩, ⟨.none, 0⟩] ∧ totalRequested info0 2 = 16 ∧
      ∃ d0, createDOFs 2 info0 patchTopo = .ok d0 ∧ d0.counters.dofs = 12 ∧ d0.counters.strongs = 4 := ⟨_, rfl, rfl, rfl, rfl, _, rfl, rfl, rfl⟩
  obtain ⟨info1, h1, c2, t1, d1, e1, f1, g1⟩ : ∃ info1, createConstantInfo 2 patchTopo ⟨mccPressureNum 1, patchBoundary⟩ = .ok info1 ∧
      info1.bInfo 2 = [⟨.none, 0⟩, ⟨.none, 0⟩] ∧ totalRequested info1 2 = 6 ∧
      ∃ d1, createDOFs 2 info1 patchTopo = .ok d1 ∧ d1.counters.dofs = 6 ∧ d1.counters.strongs = 0 := ⟨_, rfl, rfl, rfl, _, rfl, rfl, rfl⟩
  exact ⟨info0, info1, d0, d1, _, ⟨h0, h1, e0, e1, rfl, by omega⟩, b1, b2, c2, f0, g0, f1, g1⟩

/-- The Darcy problem with the solution `p = x² + y²`, `u = (-2 x, -2 y)`: the normal component is zero on the lower and the left side, the pressure is given on the others. -/
noncomputable def patchTest : MixedTest ℝ where
  inverseDiffusion _ d := if d = 0 ∨ d = 4 then 1 else 0
  advection _ _ := 0
  reaction _ := 0
  source _ := -4
  strong _ _ := 0
  weak _ x := x.1 * x.1 + x.2 * x.2

theorem patch_definite : IsDefiniteTensor patchTest := by
  intro x u hu
  have : u.1 ≠ 0 ∨ u.2 ≠ 0 := by
    by_contra h
    push Not at h
    exact hu (Prod.ext h.1 h.2)
  simp only [patchTest, Finset.sum_range_succ, Finset.sum_range_zero, component]
  norm_num
  rcases this with h | h
  · exact add_pos_of_pos_of_nonneg (mul_self_pos.2 h) (mul_self_nonneg _)
  · exact add_pos_of_nonneg_of_pos (mul_self_nonneg _) (mul_self_pos.2 h)

theorem patch_solution {info : MeshInfo} (hb : info.bInfo 1 = [⟨.strong, 1⟩, ⟨.weak, 2⟩, ⟨.none, 0⟩, ⟨.weak, 3⟩, ⟨.strong, 1⟩]) :
    IsMixedSolution patchMesh (fun _ => 3) patchNrm info patchTest (C (-2) * X 0, C (-2) * X 1) (X 0 * X 0 + X 1 * X 1) where
  law x a := by
    fin_cases a <;> simp [patchTest, Finset.sum_range_succ, component, polyField] <;> ring
  balance x := by simp [patchTest]; norm_num
  weak c _ e _ b _ _ t := by simp [patchTest]
  strong c hc e he b hb' ht t := by
    rw [hb] at hb'
    have : c < 2 := hc
    interval_cases c <;> interval_cases e <;> obtain rfl := Option.some.inj hb' <;> first | (cases ht; done) | skip
    all_goals norm_num [patchTest, patchNrm, patchLen, clockwise, cellPoint, cellVertex, cellEdge, patchMesh, patchTopo, squareV, dot2, edgePoint, segPoint, polyField]

theorem patch_none {info : MeshInfo} (hb : info.bInfo 1 = [⟨.strong, 1⟩, ⟨.weak, 2⟩, ⟨.none, 0⟩, ⟨.weak, 3⟩, ⟨.strong, 1⟩]) (E : Nat) (b : BInfo)
    (hb' : (info.bInfo 1)[E]? = some b) (hw : b.type ≠ .weak) (hs : b.type ≠ .strong) : signedSum patchMesh (fun _ => 3) patchDir E = 0 := by
  rw [hb] at hb'
  have hE : E < 5 := (List.getElem?_eq_some_iff.1 hb').1
  interval_cases E <;> obtain rfl := Option.some.inj hb' <;> first | exact absurd rfl hs | exact absurd rfl hw | decide

theorem patch_cells {info : MeshInfo} (hb : info.bInfo 2 = [⟨.none, 0⟩, ⟨.none, 0⟩]) (c : Nat) (hc : c < patchMesh.num2D) (b : BInfo) (hb' : (info.bInfo 2)[c]? = some b) :
    b.type ≠ .strong := by
  rw [hb] at hb'
  have : c < 2 := hc
  interval_cases c <;> obtain rfl := Option.some.inj hb' <;> decide

theorem patch_cover (E : Nat) (hE : E < patchMesh.num1D) : ∃ c < patchMesh.num2D, ∃ e < 3, cellEdge patchMesh c e = E := by
  have : E < 5 := hE
  have h0 : 0 < patchMesh.num2D := by norm_num [PlaneMesh.num2D, patchMesh, patchTopo]
  have h1 : 1 < patchMesh.num2D := by norm_num [PlaneMesh.num2D, patchMesh, patchTopo]
  interval_cases E
  · exact ⟨0, h0, 0, by norm_num, rfl⟩
  · exact ⟨0, h0, 1, by norm_num, rfl⟩
  · exact ⟨0, h0, 2, by norm_num, rfl⟩
  · exact ⟨1, h1, 1, by norm_num, rfl⟩
  · exact ⟨1, h1, 2, by norm_num, rfl⟩

theorem patch_outlets {info : MeshInfo} (hb : info.bInfo 1 = [⟨.strong, 1⟩, ⟨.weak, 2⟩, ⟨.none, 0⟩, ⟨.weak, 3⟩, ⟨.strong, 1⟩]) (c : Nat) (hc : c < patchMesh.num2D) :
    ∃ c', Relation.ReflTransGen (Adjacent info patchMesh (fun _ => 3) patchDir) c c' ∧ IsOutlet info patchMesh (fun _ => 3) c' := by
  refine ⟨c, .refl, hc, 1, by norm_num, ?_⟩
  have : c < 2 := hc
  unfold IsFreeEdge
  rw [hb]
  interval_cases c
  · refine ⟨⟨⟨.weak, 2⟩, rfl, by decide⟩, fun c hc e he h => ?_⟩
    have : c < 2 := hc
    interval_cases c <;> interval_cases e <;> simp_all [cellEdge, patchMesh, patchTopo]
  · refine ⟨⟨⟨.weak, 3⟩, rfl, by decide⟩, fun c hc e he h => ?_⟩
    have : c < 2 := hc
    interval_cases c <;> interval_cases e <;> simp_all [cellEdge, patchMesh, patchTopo]

theorem patch_degrees : (C (-2) * X 0 : MvPolynomial (Fin 2) ℝ).totalDegree ≤ 1 ∧ (C (-2) * X 1 : MvPolynomial (Fin 2) ℝ).totalDegree ≤ 1 ∧
    (X 0 * X 0 + X 1 * X 1 : MvPolynomial (Fin 2) ℝ).totalDegree ≤ 1 + 1 :=
  ⟨(totalDegree_mul _ _).trans (by simp), (totalDegree_mul _ _).trans (by simp),
    (totalDegree_add _ _).trans (max_le ((totalDegree_mul _ _).trans (by simp)) ((totalDegree_mul _ _).trans (by simp)))⟩

-- C103 to C107: the mesh of two triangles, order 1
example : ∃ svd llt info0 info1 d0 d1 count P, ∃ s : Nat → MccSpace2D ℝ, (∀ A, RightSingular A (svd A)) ∧ SolvesPosDef llt ∧
    IsMixedSetup 1 patchMesh patchBoundary info0 info1 d0 d1 count ∧ assembleMixed info0 d0 d1 count (mccSpaces svd Real.sqrt llt (fun _ => ⟨conicalPoints, conicalWeights⟩)
      (fun _ => ⟨[1 / 2 - Real.sqrt 3 / 6, 1 / 2 + Real.sqrt 3 / 6], [1 / 2, 1 / 2]⟩) 1 patchPoly) patchMesh patchTest = .ok P ∧
    P.neumann.length = 4 ∧
    (∀ b : Nat → ℝ, ∃! x : List ℝ, x.length = 18 ∧ ∀ i < 18, ∑ j ∈ Finset.range 18, entry P.globalMatrix i j * x.getD j 0 = b i) ∧
    ∀ x : List ℝ, x.length = 18 → (∀ i < 18, ∑ j ∈ Finset.range 18, entry P.globalMatrix i j * x.getD j 0 = ventry P.rightHandSide i) →
      ∀ c < 2, IsMixedExact 1 patchMesh (fun _ => 3) patchDir patchNrm [1 / 2 - Real.sqrt 3 / 6, 1 / 2 + Real.sqrt 3 / 6] (patchPoly c) (s c) d0 d1
        (C (-2) * X 0, C (-2) * X 1) (X 0 * X 0 + X 1 * X 1) x P.neumann c := by
  obtain ⟨svd, hsvd⟩ := exists_svd
  obtain ⟨llt, _, hllt⟩ := exists_solvers
  obtain ⟨info0, info1, d0, d1, count, hs, b1, b2, c2, f0, g0, f1, g1⟩ := patch_setup
  have hsq : ∀ x : ℝ, 0 ≤ x → Real.sqrt x * Real.sqrt x = x := fun x hx => Real.mul_self_sqrt hx
  obtain ⟨q1, q2, q3⟩ := patch_degrees
  obtain ⟨P, s, hP, hcr, h⟩ := C107_exact patch_mixed mixed_tables hsvd hsq hllt hs patchTest patch_definite (fun _ _ _ => rfl) (fun _ => le_rfl) q1 q2 q3 (patch_solution b1)
    (.inr fun _ => rfl) (patch_none b1) (patch_cells b2) (patch_cells c2) patch_cover (.inr (patch_outlets b1))
  obtain ⟨P1, hP1, hu⟩ := C106_unique patch_mixed mixed_tables hsvd hsq hllt hs patchTest patch_definite (fun _ _ _ => rfl) (fun _ => le_rfl) (patch_cells b2) patch_cover (.inr (patch_outlets b1))
  obtain rfl : P1 = P := Except.ok.inj (hP1.symm.trans hP)
  obtain ⟨P2, hP2, hl, -⟩ := C104_strong patch_mixed mixed_tables hsvd hsq hllt hs patchTest _ (patch_solution b1).strong
  obtain rfl : P2 = P1 := Except.ok.inj (hP2.symm.trans hP)
  rw [f0, f1] at hu h
  rw [g0, g1] at hl
  exact ⟨svd, llt, info0, info1, d0, d1, count, P2, s, hsvd, hllt, hs, hP, hl, hu, h⟩

-- C104: the datum on the weak edges is a polynomial of degree 2 along the edge
example (c e : Nat) : ∃ q : Polynomial ℝ, q.natDegree ≤ 1 + 1 ∧ ∀ m t, patchTest.weak m (edgePoint patchMesh (cellEdge patchMesh c e) t) = q.eval t := by
  obtain ⟨q, hq, hqe⟩ := poly1_pullback (patchMesh.coords (patchMesh.topo.cell1DVertices (cellEdge patchMesh c e)).1) (patchMesh.coords (patchMesh.topo.cell1DVertices (cellEdge patchMesh c e)).2)
    (X 0 * X 0 + X 1 * X 1)
  refine ⟨q, hq.trans patch_degrees.2.2, fun m t => ?_⟩
  rw [hqe]
  simp only [edgePoint, map_add, map_mul, eval_X]
  rfl

-- C104: every test vector has traces
example (y : List ℝ) (m : Nat) (data : DOFsData) : ∃ u, IsFluxTrace 1 patchMesh [1 / 2 - Real.sqrt 3 / 6, 1 / 2 + Real.sqrt 3 / 6] (valueOf data y (List.replicate m 0)) u := by
  have h3 : (Real.sqrt 3 : ℝ) ≠ 0 := by positivity
  refine ⟨fun E => Polynomial.C (valueOf data y (List.replicate m 0) ⟨1, E, 0⟩) + Polynomial.C ((valueOf data y (List.replicate m 0) ⟨1, E, 1⟩ - valueOf data y (List.replicate m 0) ⟨1, E, 0⟩) /
    (Real.sqrt 3 / 3)) * (Polynomial.X - Polynomial.C (1 / 2 - Real.sqrt 3 / 6)), fun E _ => ⟨?_, fun j t hj => ?_⟩⟩
  · refine (Polynomial.natDegree_add_le _ _).trans (max_le (by simp) ((Polynomial.natDegree_C_mul_le _ _).trans ?_))
    exact (Polynomial.natDegree_sub_C).le.trans (by simp)
  · match j with
    | 0 => obtain rfl := Option.some.inj hj; simp
    | 1 =>
      obtain rfl := Option.some.inj hj
      simp only [Polynomial.eval_add, Polynomial.eval_mul, Polynomial.eval_sub, Polynomial.eval_C, Polynomial.eval_X]
      field_simp
      ring
    | j + 2 => simp at hj

end PolyDiM
