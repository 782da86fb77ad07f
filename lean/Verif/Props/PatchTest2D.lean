import Verif.Lemmas.PatchGlobal
import Verif.Props.PlaneMesh2D

/-!
# Properties C92 and C93: Neumann conditions and the patch test
-/

namespace PolyDiM

open Spec MvPolynomial MeasureTheory

variable {k : Nat} {mesh : PlaneMesh ℝ} {poly : Nat → VemPolygon ℝ} {n : Nat → Nat} {len : Nat → Nat → ℝ} {dir : Nat → Nat → Bool} {nrm : Nat → Nat → ℝ × ℝ}
  {triangle : Nat → Rule (ℝ × ℝ) ℝ} {edge : Nat → Rule ℝ ℝ} {ts ws : List ℝ} {w : ℝ} {lu llt : Solver ℝ}
  {ref : VemRef2D ℝ} {boundary : Nat → Option BInfo} {info : MeshInfo} {data : DOFsData} {gauss : Nat → Rule ℝ ℝ}

/-- C92: `assemble_weak_term` is the Neumann term of the weak formulation. For every test function, given by its values `φ` at the free DOFs and its traces `u` on the edges,
the vector tested with `φ` is the sum over the edges of type `weak` of the active cells of the integral of the datum times the test function along the edge, for data that are
polynomials of degree at most `k` along these edges. -/
theorem C92_weak (hM : IsPlaneMesh k mesh poly n len dir nrm) (hT : IsTables k triangle edge ts ws w) (hd : (0 :: 1 :: ts).Nodup) (hlu : SolvesRegular lu)
    (hllt : SolvesPosDef llt) (hr : vemRef2D triangle edge k = .ok ref) (hi : vemMeshInfo ref mesh.topo boundary = .ok info) (hdata : createDOFs 2 info mesh.topo = .ok data)
    (hov : totalRequested info 2 < 2 ^ 32) (hgl : (gauss (2 * k)).weights.length = (gauss (2 * k)).points.length)
    (hge : ExactOnSegment (2 * k) (gauss (2 * k)).points (gauss (2 * k)).weights) (hg01 : ∀ t ∈ (gauss (2 * k)).points, 0 ≤ t ∧ t ≤ 1) {gN : Nat → ℝ × ℝ → ℝ}
    (hgN : ∀ c ∈ mesh.cells, ∀ e < n c, ∀ b : BInfo, (info.bInfo 1)[cellEdge mesh c e]? = some b → b.type = .weak →
      ∃ p : Polynomial ℝ, p.natDegree ≤ k ∧ ∀ t, 0 ≤ t → t ≤ 1 → gN b.marker (edgePoint mesh (cellEdge mesh c e) t) = p.eval t) :
    ∃ W, weakTerm info data k gauss (fun c => (poly c).edges) (vemSpaces lu llt ref poly) mesh gN = .ok W ∧
      ∀ φ u, IsTrace k mesh ts (testValue data φ) u → ∑ i ∈ Finset.range data.counters.dofs, ventry W i * φ i
        = (mesh.cells.map fun c => ∑ e ∈ Finset.range (n c), weakValue info mesh len (fun g => ∫ t in (0 : ℝ)..1, g t) gN u c e).sum := by
  have H := handler_plane hT hr hi hdata hov
  obtain ⟨W, hW, hb, h⟩ := weak_ok hM hT hd hlu hllt hr H hgl gN
  refine ⟨W, hW, fun φ u hu => ?_⟩
  rw [tested_ventry φ _ W hb, h φ u hu]
  congr 1
  refine List.map_congr_left fun c hc => Finset.sum_congr rfl fun e he => ?_
  have hc' := (mem_cells.1 hc).1
  have he' := Finset.mem_range.1 he
  have hE := H.edges c hc' _ (List.mem_of_getElem? (cell_edge_mem hM hc' he'))
  unfold weakValue
  cases hb : (info.bInfo 1)[cellEdge mesh c e]? with
  | none => rfl
  | some b =>
    simp only [Option.elim_some]
    split_ifs with ht
    · congr 1
      obtain ⟨p, hp, hpe⟩ := hgN c hc e he' b hb ht
      have hex := hge (p * u (cellEdge mesh c e)) ((Polynomial.natDegree_mul_le).trans (by have := (hu _ hE).1; omega))
      rw [quadSum_congr _ _ (g := fun t => (p * u (cellEdge mesh c e)).eval t) (fun t ht => by
        rw [hpe t (hg01 t ht).1 (hg01 t ht).2, Polynomial.eval_mul]), hex]
      refine intervalIntegral.integral_congr fun t ht => ?_
      rw [Set.uIcc_of_le zero_le_one] at ht
      simp only [Polynomial.eval_mul]
      rw [hpe t ht.1 ht.2]
    · rfl

/-- The rows of an assembled system applied to the degrees of freedom of a polynomial, if on every cell only the boundary terms of a flux remain. -/
theorem patch_rows (hM : IsPlaneMesh k mesh poly n len dir nrm) (hT : IsTables k triangle edge ts ws w) (hd : (0 :: 1 :: ts).Nodup) (hlu : SolvesRegular lu)
    (hllt : SolvesPosDef llt) (hr : vemRef2D triangle edge k = .ok ref) (hi : vemMeshInfo ref mesh.topo boundary = .ok info) (hdata : createDOFs 2 info mesh.topo = .ok data)
    (hov : totalRequested info 2 < 2 ^ 32) (hgl : (gauss (2 * k)).weights.length = (gauss (2 * k)).points.length)
    (hge : ExactOnSegment (2 * k) (gauss (2 * k)).points (gauss (2 * k)).weights) (hg01 : ∀ t ∈ (gauss (2 * k)).points, 0 ≤ t ∧ t ≤ 1)
    {q F₁ F₂ : MvPolynomial (Fin 2) ℝ} (hq : q.totalDegree ≤ k) (hd1 : F₁.totalDegree ≤ k - 1) (hd2 : F₂.totalDegree ≤ k - 1) {gN : Nat → ℝ × ℝ → ℝ}
    (htypes : ∀ (E : Nat) (b : BInfo), (info.bInfo 1)[E]? = some b → b.type = .none ∨ b.type = .weak ∨ b.type = .strong)
    (hinner : ∀ (E : Nat) (b : BInfo), (info.bInfo 1)[E]? = some b → b.type = .none → signedCount mesh n dir E = 0)
    (hstrong : ∀ (E : Nat) (b : BInfo), (info.bInfo 1)[E]? = some b → b.type = .strong → bTypeOf info (0, (mesh.topo.cell1DVertices E).1) = some .strong ∧
      bTypeOf info (0, (mesh.topo.cell1DVertices E).2) = some .strong)
    (hN : ∀ c ∈ mesh.cells, ∀ e < n c, ∀ b : BInfo, (info.bInfo 1)[cellEdge mesh c e]? = some b → b.type = .weak → ∀ t, 0 ≤ t → t ≤ 1 →
      gN b.marker (edgePoint mesh (cellEdge mesh c e) t)
        = eval ![(edgePoint mesh (cellEdge mesh c e) t).1, (edgePoint mesh (cellEdge mesh c e) t).2] F₁ * (nrm c e).1
          + eval ![(edgePoint mesh (cellEdge mesh c e) t).1, (edgePoint mesh (cellEdge mesh c e) t).2] F₂ * (nrm c e).2)
    (A b : Nat → DMat ℝ) (hloc : ∀ c < mesh.num2D, (A c).rows = (vemList k mesh.topo c).length ∧ (A c).cols = (vemList k mesh.topo c).length ∧
      (b c).rows = (vemList k mesh.topo c).length ∧
      ∀ y, IsDofVector k (poly c) (n c) (cellPoint mesh c) (dir c) ts (fun p => eval ![p.1, p.2] q) y → ∀ v : Nat → ℝ,
        ∑ i ∈ Finset.range (vemList k mesh.topo c).length, v i * (apply (A c) y i - (b c).ent i 0)
          = ∑ e ∈ Finset.range (n c), ((clockwise (cellPoint mesh c ((e + 1) % n c) - cellPoint mesh c e)).1 *
                nodeSum ts ws w (fun t => eval ![(edgePoint mesh (cellEdge mesh c e) t).1, (edgePoint mesh (cellEdge mesh c e) t).2] F₁)
                  (v (startOf (n c) (dir c e) e)) (v (stopOf (n c) (dir c e) e)) (fun r => v (n c + e * (k - 1) + r))
              + (clockwise (cellPoint mesh c ((e + 1) % n c) - cellPoint mesh c e)).2 *
                nodeSum ts ws w (fun t => eval ![(edgePoint mesh (cellEdge mesh c e) t).1, (edgePoint mesh (cellEdge mesh c e) t).2] F₂)
                  (v (startOf (n c) (dir c e) e)) (v (stopOf (n c) (dir c e) e)) (fun r => v (n c + e * (k - 1) + r)))) :
    ∃ S R W v, assembleAll 2 .empty (mesh.cells.map fun c => (⟨c, oneField data, some (oneField data, (A c).toLMat), none⟩ : Call ℝ)) = .ok S ∧
      assembleAll 2 .empty (mesh.cells.map fun c => (⟨c, oneField data, none, some (b c).toList⟩ : Call ℝ)) = .ok R ∧
      weakTerm info data k gauss (fun c => (poly c).edges) (vemSpaces lu llt ref poly) mesh gN = .ok W ∧
      evaluateOnDofs data k (vemSpaces lu llt ref poly) mesh (fun p => eval ![p.1, p.2] q) = .ok v ∧ v.free.length = data.counters.dofs ∧ v.strong.length = data.counters.strongs ∧
      ∀ i, ∑ j ∈ Finset.range v.free.length, entry S.lhsDOFs i j * v.free.getD j 0 + ∑ j ∈ Finset.range v.strong.length, entry S.lhsStrongs i j * v.strong.getD j 0
        = ventry R.rhs i + ventry W i := by
  have H := handler_plane hT hr hi hdata hov
  have hk := hT.low
  have hcells : ∀ c ∈ mesh.cells, c < mesh.num2D := fun c hc => (mem_cells.1 hc).1
  have hsmall : ∀ c ∈ mesh.cells, (vemList k mesh.topo c).length < 2 ^ 32 := fun c hc => by
    rw [vemList_length k mesh.topo c (n c) (hM.vertices c (hcells c hc)) (hM.edges c (hcells c hc))]
    exact hM.small c (hcells c hc)
  obtain ⟨S, hS, hSv⟩ := H.assemble_matrix mesh.cells hcells hsmall A fun c hc => by
    obtain ⟨h1, h2, -⟩ := hloc c (hcells c hc)
    exact ⟨h1, h2⟩
  obtain ⟨R, hR, hRv⟩ := H.assemble_vector mesh.cells hcells b fun c hc => by
    exact (hloc c (hcells c hc)).2.2.1
  -- the Neumann term
  obtain ⟨W, hW, hWv⟩ := C92_weak (gN := gN) hM hT hd hlu hllt hr hi hdata hov hgl hge hg01 (by
    intro c hc e he bb hb ht
    obtain ⟨q1, hq1, he1⟩ := poly1_pullback (mesh.coords (mesh.topo.cell1DVertices (cellEdge mesh c e)).1) (mesh.coords (mesh.topo.cell1DVertices (cellEdge mesh c e)).2) F₁
    obtain ⟨q2, hq2, he2⟩ := poly1_pullback (mesh.coords (mesh.topo.cell1DVertices (cellEdge mesh c e)).1) (mesh.coords (mesh.topo.cell1DVertices (cellEdge mesh c e)).2) F₂
    refine ⟨Polynomial.C (nrm c e).1 * q1 + Polynomial.C (nrm c e).2 * q2, ?_, fun t h0 h1 => ?_⟩
    · refine (Polynomial.natDegree_add_le _ _).trans (max_le ?_ ?_)
      · exact (Polynomial.natDegree_C_mul_le _ _).trans (by omega)
      · exact (Polynomial.natDegree_C_mul_le _ _).trans (by omega)
    · rw [hN c hc e he bb hb ht t h0 h1, Polynomial.eval_add, Polynomial.eval_mul, Polynomial.eval_mul, Polynomial.eval_C, Polynomial.eval_C, he1, he2]
      simp only [edgePoint]
      ring)
  -- the polynomial
  obtain ⟨M, hM1, hM2⟩ := moments_ok hM hT hlu hllt hr fun p => eval ![p.1, p.2] q
  obtain ⟨v, hv, hvf, hvs, hvv⟩ := evaluate_ok hM hT hlu hllt hr H _ M hM1
  refine ⟨S, R, W, v, hS, hR, hW, hv, hvf, hvs, fun i => ?_⟩
  · rw [hSv v.free v.strong hvf hvs i, hRv i]
    set χ : GDOF → ℝ := rowTest data i with hχ
    have hχt : testValue data (fun j => if j = i then 1 else 0) = χ := by
      funext r
      rw [testValue, hχ, rowTest]
      cases hl : lookup data r with
      | none => simp
      | some x =>
        obtain ⟨t, j⟩ := x
        cases t <;> simp
    obtain ⟨u, hu⟩ := exists_trace hT hd mesh χ
    -- the row of the Neumann term
    have hWi : ventry W i = (mesh.cells.map fun c => ∑ e ∈ Finset.range (n c), weakValue info mesh len (fun g => ∫ t in (0 : ℝ)..1, g t) gN u c e).sum := by
      by_cases hi' : i < data.counters.dofs
      · rw [← hWv _ u (hχt ▸ hu), Finset.sum_eq_single_of_mem i (Finset.mem_range.2 hi') (fun j _ hj => by rw [if_neg hj, mul_zero]), if_pos rfl, mul_one]
      · have h0 : ∀ r, χ r = 0 := by
          intro r
          rw [hχ, rowTest, if_neg]
          intro h
          exact hi' (H.free r i h)
        obtain ⟨W', hW', hb', -⟩ := weak_ok hM hT hd hlu hllt hr H hgl gN
        obtain rfl : W' = W := Except.ok.inj (hW'.symm.trans hW)
        have hz : ventry W' i = 0 := by
          unfold ventry
          refine List.sum_eq_zero fun x hx => ?_
          obtain ⟨p, hp, rfl⟩ := List.mem_map.1 hx
          rw [if_neg]
          have := hb' p hp
          omega
        rw [hz, ← hWv (fun _ => 0) u (by
          have : testValue data (fun _ => 0) = χ := by
            funext r
            rw [h0, testValue]
            split <;> rfl
          rw [this]
          exact hu)]
        simp
    -- the flux through an edge
    set I : MvPolynomial (Fin 2) ℝ → Nat → ℝ := fun F E => ∫ t in (0 : ℝ)..1, eval ![(edgePoint mesh E t).1, (edgePoint mesh E t).2] F * (u E).eval t with hI
    set cw : Nat → Nat → ℝ × ℝ := fun c e => clockwise (cellPoint mesh c ((e + 1) % n c) - cellPoint mesh c e) with hcw
    set τ : Nat → ℝ := fun E => (clockwise (mesh.coords (mesh.topo.cell1DVertices E).2 - mesh.coords (mesh.topo.cell1DVertices E).1)).1 * I F₁ E
      + (clockwise (mesh.coords (mesh.topo.cell1DVertices E).2 - mesh.coords (mesh.topo.cell1DVertices E).1)).2 * I F₂ E with hτ
    have hEdge : ∀ c ∈ mesh.cells, ∀ e < n c, cellEdge mesh c e < mesh.num1D := fun c hc e he =>
      H.edges c (hcells c hc) _ (List.mem_of_getElem? (cell_edge_mem hM (hcells c hc) he))
    have hflux : ∀ c ∈ mesh.cells, ∀ e < n c, (cw c e).1 * I F₁ (cellEdge mesh c e) + (cw c e).2 * I F₂ (cellEdge mesh c e)
        = τ (cellEdge mesh c e) * ((if dir c e then 1 else -1 : ℤ) : ℝ) := by
      intro c hc e he
      simp only [hcw, hτ, hM.ends c (hcells c hc) e he, cellPoint]
      cases dir c e <;> simp [clockwise]; ring
    have hres : ∀ c ∈ mesh.cells, ∑ j ∈ Finset.range (vemList k mesh.topo c).length,
          onList (vemList k mesh.topo c) χ j * apply (A c) (onList (vemList k mesh.topo c) (valueOf data v.free v.strong)) j
        = ∑ j ∈ Finset.range (vemList k mesh.topo c).length, onList (vemList k mesh.topo c) χ j * (b c).ent j 0
          + ∑ e ∈ Finset.range (n c), τ (cellEdge mesh c e) * ((if dir c e then 1 else -1 : ℤ) : ℝ) := by
      intro c hc
      have hc' := hcells c hc
      obtain ⟨-, -, -, h⟩ := hloc c hc'
      have hy : IsDofVector k (poly c) (n c) (cellPoint mesh c) (dir c) ts (fun p => eval ![p.1, p.2] q) (onList (vemList k mesh.topo c) (valueOf data v.free v.strong)) := by
        refine local_dofVector hM hT.nodes hc' (hM2 q (by omega) (fun _ => rfl) c hc') fun j r hj => ?_
        rw [onList, hj, Option.elim_some, hvv c hc' r (List.mem_of_getElem? hj)]
      have := h _ hy (onList (vemList k mesh.topo c) χ)
      simp only [mul_sub, Finset.sum_sub_distrib] at this
      rw [sub_eq_iff_eq_add'] at this
      rw [this]
      congr 1
      refine Finset.sum_congr rfl fun e he => ?_
      have he' := Finset.mem_range.1 he
      have hn : (e + 1) % n c < n c := Nat.mod_lt _ (by omega)
      have hstart : onList (vemList k mesh.topo c) χ (startOf (n c) (dir c e) e) = χ ⟨0, (mesh.topo.cell1DVertices (cellEdge mesh c e)).1, 0⟩ := by
        rw [onList, vemList_vertex (hM.vertices c hc') (by unfold startOf; split_ifs <;> omega), Option.elim_some, hM.ends c hc' e he', startOf]
        split_ifs <;> rfl
      have hstop : onList (vemList k mesh.topo c) χ (stopOf (n c) (dir c e) e) = χ ⟨0, (mesh.topo.cell1DVertices (cellEdge mesh c e)).2, 0⟩ := by
        rw [onList, vemList_vertex (hM.vertices c hc') (by unfold stopOf; split_ifs <;> omega), Option.elim_some, hM.ends c hc' e he', stopOf]
        split_ifs <;> rfl
      have hnode : ∀ X, nodeSum ts ws w X (χ ⟨0, (mesh.topo.cell1DVertices (cellEdge mesh c e)).1, 0⟩) (χ ⟨0, (mesh.topo.cell1DVertices (cellEdge mesh c e)).2, 0⟩)
          (fun r => onList (vemList k mesh.topo c) χ (n c + e * (k - 1) + r))
          = nodeSum ts ws w X (χ ⟨0, (mesh.topo.cell1DVertices (cellEdge mesh c e)).1, 0⟩) (χ ⟨0, (mesh.topo.cell1DVertices (cellEdge mesh c e)).2, 0⟩)
            (fun r => χ ⟨1, cellEdge mesh c e, r⟩) := by
        intro X
        unfold nodeSum
        congr 1
        refine Finset.sum_congr rfl fun r hr => ?_
        have hr' : r < k - 1 := by rw [← hT.nodes, hT.edgeLength]; exact Finset.mem_range.1 hr
        dsimp only
        rw [onList, vemList_node (hM.vertices c hc') (hM.edges c hc') he' hr', Option.elim_some]
        rfl
      rw [hstart, hstop, hnode, hnode, nodeSum_trace hT hu (hEdge c hc e he') hd1, nodeSum_trace hT hu (hEdge c hc e he') hd2]
      exact hflux c hc e he'
    -- the edges of every type
    set G : Nat → ℝ := fun E => ((info.bInfo 1)[E]?).elim 0 fun b => if b.type = .none then τ E else 0 with hG
    have hedge : ∀ c ∈ mesh.cells, ∀ e < n c, τ (cellEdge mesh c e) * ((if dir c e then 1 else -1 : ℤ) : ℝ)
        = weakValue info mesh len (fun g => ∫ t in (0 : ℝ)..1, g t) gN u c e + G (cellEdge mesh c e) * ((if dir c e then 1 else -1 : ℤ) : ℝ) := by
      intro c hc e he
      obtain ⟨-, bb, -, hb, -⟩ := H.cell 1 (by norm_num) _ (hEdge c hc e he)
      simp only [hG, weakValue, hb, Option.elim_some]
      rcases htypes _ _ hb with ht | ht | ht
      · have h1 : bb.type ≠ .weak := by rw [ht]; decide
        rw [if_neg h1, if_pos ht, zero_add]
      · have h1 : bb.type ≠ .none := by rw [ht]; decide
        rw [if_pos ht, if_neg h1, zero_mul, add_zero, ← hflux c hc e he]
        have hnorm := (hM.element c (hcells c hc)).normals e he
        have hn1 : (cw c e).1 = |len c e| * (nrm c e).1 := by simp only [hcw]; rw [← hnorm]; rfl
        have hn2 : (cw c e).2 = |len c e| * (nrm c e).2 := by simp only [hcw]; rw [← hnorm]; rfl
        have hcont : ∀ F : MvPolynomial (Fin 2) ℝ, IntervalIntegrable (fun t => eval ![(edgePoint mesh (cellEdge mesh c e) t).1, (edgePoint mesh (cellEdge mesh c e) t).2] F
            * (u (cellEdge mesh c e)).eval t) volume 0 1 := by
          intro F
          obtain ⟨q', -, hq'⟩ := poly1_pullback (mesh.coords (mesh.topo.cell1DVertices (cellEdge mesh c e)).1) (mesh.coords (mesh.topo.cell1DVertices (cellEdge mesh c e)).2) F
          have : (fun t => eval ![(edgePoint mesh (cellEdge mesh c e) t).1, (edgePoint mesh (cellEdge mesh c e) t).2] F * (u (cellEdge mesh c e)).eval t)
              = fun t => q'.eval t * (u (cellEdge mesh c e)).eval t := by
            funext t
            rw [hq']
            rfl
          rw [this]
          exact (q'.continuous.mul (u (cellEdge mesh c e)).continuous).intervalIntegrable _ _
        rw [hn1, hn2, mul_assoc, mul_assoc, ← mul_add]
        congr 1
        simp only [hI]
        rw [← intervalIntegral.integral_const_mul, ← intervalIntegral.integral_const_mul, ← intervalIntegral.integral_add ((hcont F₁).const_mul _) ((hcont F₂).const_mul _)]
        refine intervalIntegral.integral_congr fun t ht' => ?_
        rw [Set.uIcc_of_le zero_le_one] at ht'
        rw [hN c hc e he bb hb ht t ht'.1 ht'.2]
        ring
      · have h1 : bb.type ≠ .none := by rw [ht]; decide
        have h2 : bb.type ≠ .weak := by rw [ht]; decide
        rw [if_neg h1, if_neg h2, zero_mul, add_zero]
        have hE := hEdge c hc e he
        obtain ⟨s1, s2⟩ := hstrong _ _ hb ht
        have hzero : ∀ {d E j}, d ≤ 2 → E < (mesh.topo.markers d).length → bTypeOf info (d, E) = some .strong → χ ⟨d, E, j⟩ = 0 := by
          intro d E j hd hE hs
          rw [hχ, rowTest, if_neg]
          intro hl
          obtain ⟨b', hb', ht'⟩ := H.type_of hd hE hl
          rw [bTypeOf] at hs
          dsimp only at hs
          rw [hb', Option.map_some, Option.some.injEq] at hs
          rw [hs] at ht'
          cases ht'
        have hn0 : ∀ F : MvPolynomial (Fin 2) ℝ, F.totalDegree ≤ k - 1 → I F (cellEdge mesh c e) = 0 := by
          intro F hF
          simp only [hI]
          rw [← nodeSum_trace hT hu hE hF, hzero (by norm_num) (H.ends _ hE).1 s1, hzero (by norm_num) (H.ends _ hE).2 s2]
          simp only [nodeSum]
          have : ∀ r, χ ⟨1, cellEdge mesh c e, r⟩ = 0 := fun r => hzero (by norm_num) hE (by rw [bTypeOf, hb, Option.map_some, ht])
          simp [this]
        simp only [hτ]
        rw [hn0 F₁ hd1, hn0 F₂ hd2]
        ring
    have hsum : ∀ f g h : Nat → ℝ, (∀ c ∈ mesh.cells, f c = g c + h c) → (mesh.cells.map f).sum = (mesh.cells.map g).sum + (mesh.cells.map h).sum := by
      intro f g h hfg
      rw [← List.sum_map_add]
      congr 1
      exact List.map_congr_left hfg
    rw [hsum _ _ _ hres, hWi]
    congr 1
    rw [hsum _ (fun c => ∑ e ∈ Finset.range (n c), weakValue info mesh len (fun g => ∫ t in (0 : ℝ)..1, g t) gN u c e)
      (fun c => ∑ e ∈ Finset.range (n c), G (cellEdge mesh c e) * ((if dir c e then 1 else -1 : ℤ) : ℝ)) (fun c hc => by
        rw [← Finset.sum_add_distrib]
        exact Finset.sum_congr rfl fun e he => hedge c hc e (Finset.mem_range.1 he)),
      regroup mesh.cells n (cellEdge mesh) (fun c e => if dir c e then 1 else -1) mesh.num1D hEdge G]
    rw [Finset.sum_eq_zero, add_zero]
    intro E _
    simp only [hG]
    cases hb : (info.bInfo 1)[E]? with
    | none => simp
    | some bb =>
      simp only [Option.elim_some]
      split_ifs with ht
      · have := hinner E bb hb ht
        unfold signedCount at this
        rw [this, Int.cast_zero, mul_zero]
      · rw [zero_mul]

/-- C93, patch test on the whole mesh. Let `q` be a polynomial of degree at most `k` and `F` the flux `K ∇q` with a constant matrix `K`. The system assembled by
`assemble_elliptic_operator`, with the source `-div F` of `assemble_source_term`, the Neumann datum `F · n` of `assemble_weak_term` and any Dirichlet condition, is solved exactly by
the degrees of freedom of `q`: every row of the free matrix applied to the free DOFs plus the same row of the strong matrix applied to the strong DOFs equals the right-hand side.
The mesh may have any polygons; inner edges occur in the two cells with opposite directions, edges with a Dirichlet condition have both ends with a Dirichlet condition. -/
theorem C93_patch (hM : IsPlaneMesh k mesh poly n len dir nrm) (hT : IsTables k triangle edge ts ws w) (hd : (0 :: 1 :: ts).Nodup) (hlu : SolvesRegular lu)
    (hllt : SolvesPosDef llt) (hr : vemRef2D triangle edge k = .ok ref) (hi : vemMeshInfo ref mesh.topo boundary = .ok info) (hdata : createDOFs 2 info mesh.topo = .ok data)
    (hov : totalRequested info 2 < 2 ^ 32) (hgl : (gauss (2 * k)).weights.length = (gauss (2 * k)).points.length)
    (hge : ExactOnSegment (2 * k) (gauss (2 * k)).points (gauss (2 * k)).weights) (hg01 : ∀ t ∈ (gauss (2 * k)).points, 0 ≤ t ∧ t ≤ 1)
    (κ : Nat → ℝ) {q F₁ F₂ : MvPolynomial (Fin 2) ℝ} (hq : q.totalDegree ≤ k)
    (hF₁ : F₁ = C (κ 0) * pderiv 0 q + C (κ 3) * pderiv 1 q) (hF₂ : F₂ = C (κ 1) * pderiv 0 q + C (κ 4) * pderiv 1 q) {gN : Nat → ℝ × ℝ → ℝ}
    (htypes : ∀ (E : Nat) (b : BInfo), (info.bInfo 1)[E]? = some b → b.type = .none ∨ b.type = .weak ∨ b.type = .strong)
    (hinner : ∀ (E : Nat) (b : BInfo), (info.bInfo 1)[E]? = some b → b.type = .none → signedCount mesh n dir E = 0)
    (hstrong : ∀ (E : Nat) (b : BInfo), (info.bInfo 1)[E]? = some b → b.type = .strong → bTypeOf info (0, (mesh.topo.cell1DVertices E).1) = some .strong ∧
      bTypeOf info (0, (mesh.topo.cell1DVertices E).2) = some .strong)
    (hN : ∀ c ∈ mesh.cells, ∀ e < n c, ∀ b : BInfo, (info.bInfo 1)[cellEdge mesh c e]? = some b → b.type = .weak → ∀ t, 0 ≤ t → t ≤ 1 →
      gN b.marker (edgePoint mesh (cellEdge mesh c e) t)
        = eval ![(edgePoint mesh (cellEdge mesh c e) t).1, (edgePoint mesh (cellEdge mesh c e) t).2] F₁ * (nrm c e).1
          + eval ![(edgePoint mesh (cellEdge mesh c e) t).1, (edgePoint mesh (cellEdge mesh c e) t).2] F₂ * (nrm c e).2) :
    ∃ A b W v, assembleElliptic data data (vemSpaces lu llt ref poly) (vemSpaces lu llt ref poly) mesh (some fun _ => κ) none none = .ok A ∧
      assembleSource data (vemSpaces lu llt ref poly) (vemSpaces lu llt ref poly) mesh
        (fun p => -(eval ![p.1, p.2] (pderiv 0 F₁) + eval ![p.1, p.2] (pderiv 1 F₂))) = .ok b ∧
      weakTerm info data k gauss (fun c => (poly c).edges) (vemSpaces lu llt ref poly) mesh gN = .ok W ∧
      evaluateOnDofs data k (vemSpaces lu llt ref poly) mesh (fun p => eval ![p.1, p.2] q) = .ok v ∧
      ∀ i, ∑ j ∈ Finset.range v.free.length, entry A.lhsDOFs i j * v.free.getD j 0 + ∑ j ∈ Finset.range v.strong.length, entry A.lhsStrongs i j * v.strong.getD j 0
        = ventry b.rhs i + ventry W i := by
  have H := handler_plane hT hr hi hdata hov
  have hk := hT.low
  have hdeg : ∀ d, (pderiv d q).totalDegree ≤ k - 1 := fun d => (totalDegree_pderiv d q).trans (by omega)
  have hCm : ∀ (a : ℝ) d, (C a * pderiv d q).totalDegree ≤ k - 1 := fun a d => (totalDegree_mul _ _).trans (by rw [totalDegree_C, zero_add]; exact hdeg d)
  have hd1 : F₁.totalDegree ≤ k - 1 := by
    rw [hF₁]
    exact (totalDegree_add _ _).trans (max_le (hCm _ _) (hCm _ _))
  have hd2 : F₂.totalDegree ≤ k - 1 := by
    rw [hF₂]
    exact (totalDegree_add _ _).trans (max_le (hCm _ _) (hCm _ _))
  -- the local matrices and vectors
  have hloc : ∀ c, ∃ (A b : DMat ℝ), c < mesh.num2D → ∃ s, vemCreate2D lu llt ref (poly c) = .ok s ∧
      localElliptic (vemSpace2D ref (poly c) s) (vemSpace2D ref (poly c) s) (some fun _ => κ) none none = .ok A ∧
      localSource (vemSpace2D ref (poly c) s) (vemSpace2D ref (poly c) s) (fun p => -(eval ![p.1, p.2] (pderiv 0 F₁) + eval ![p.1, p.2] (pderiv 1 F₂))) = .ok b ∧
      A.rows = (vemList k mesh.topo c).length ∧ A.cols = (vemList k mesh.topo c).length ∧ b.rows = (vemList k mesh.topo c).length ∧
      ∀ y, IsDofVector k (poly c) (n c) (cellPoint mesh c) (dir c) ts (fun p => eval ![p.1, p.2] q) y → ∀ v : Nat → ℝ,
        ∑ i ∈ Finset.range (vemList k mesh.topo c).length, v i * (apply A y i - b.ent i 0)
          = ∑ e ∈ Finset.range (n c), ((clockwise (cellPoint mesh c ((e + 1) % n c) - cellPoint mesh c e)).1 *
                nodeSum ts ws w (fun t => eval ![(edgePoint mesh (cellEdge mesh c e) t).1, (edgePoint mesh (cellEdge mesh c e) t).2] F₁)
                  (v (startOf (n c) (dir c e) e)) (v (stopOf (n c) (dir c e) e)) (fun r => v (n c + e * (k - 1) + r))
              + (clockwise (cellPoint mesh c ((e + 1) % n c) - cellPoint mesh c e)).2 *
                nodeSum ts ws w (fun t => eval ![(edgePoint mesh (cellEdge mesh c e) t).1, (edgePoint mesh (cellEdge mesh c e) t).2] F₂)
                  (v (startOf (n c) (dir c e) e)) (v (stopOf (n c) (dir c e) e)) (fun r => v (n c + e * (k - 1) + r))) := by
    intro c
    by_cases hc : c < mesh.num2D
    swap
    · exact ⟨⟨0, 0, fun _ _ => 0⟩, ⟨0, 0, fun _ _ => 0⟩, fun h => absurd h hc⟩
    obtain ⟨r', s, A, b, hr', hs, hA, hb, h1, h2, h3, -, h5⟩ := local_residual (hM.element c hc) hT hlu hllt (hM.measure c hc) κ hq hF₁ hF₂
    obtain rfl : r' = ref := Except.ok.inj (hr'.symm.trans hr)
    have hl := vemList_length k mesh.topo c (n c) (hM.vertices c hc) (hM.edges c hc)
    refine ⟨A, b, fun _ => ⟨s, hs, hA, hb, h1.trans hl.symm, h2.trans hl.symm, h3.trans hl.symm, fun y hy v => ?_⟩⟩
    rw [hl, h5 y hy v]
    refine Finset.sum_congr rfl fun e he => ?_
    simp only [edge_point hM hc (Finset.mem_range.1 he)]
  choose A b hloc using hloc
  have hcells : ∀ c ∈ mesh.cells, c < mesh.num2D := fun c hc => (mem_cells.1 hc).1
  have hsp : ∀ c < mesh.num2D, ∀ s, vemCreate2D lu llt ref (poly c) = .ok s → vemSpaces lu llt ref poly c = .ok (vemCell2D ref (poly c) s) := by
    intro c _ s hs
    rw [vemSpaces, hs, except_ok_bind]
  obtain ⟨S, R, W, v, hS, hR, hW, hv, -, -, hrow⟩ := patch_rows hM hT hd hlu hllt hr hi hdata hov hgl hge hg01 hq hd1 hd2 htypes hinner hstrong hN A b fun c hc => by
    obtain ⟨s, -, -, -, h1, h2, h3, h4⟩ := hloc c hc
    exact ⟨h1, h2, h3, h4⟩
  refine ⟨S, R, W, v, ?_, ?_, hW, hv, hrow⟩
  · unfold assembleElliptic
    rw [mapM_ok _ (fun c => (⟨c, oneField data, some (oneField data, (A c).toLMat), none⟩ : Call ℝ)) _ fun c hc => ?_, except_ok_bind, hS]
    obtain ⟨s, hs, hA, -⟩ := hloc c (hcells c hc)
    rw [ellipticCall, hsp c (hcells c hc) s hs, except_ok_bind, except_ok_bind]
    show (do let A ← localElliptic (vemSpace2D ref (poly c) s) (vemSpace2D ref (poly c) s) (some fun _ => κ) none none; Except.ok (_ : Call ℝ)) = _
    rw [hA, except_ok_bind]
  · unfold assembleSource
    rw [mapM_ok _ (fun c => (⟨c, oneField data, none, some (b c).toList⟩ : Call ℝ)) _ fun c hc => ?_, except_ok_bind, hR]
    obtain ⟨s, hs, -, hb, -⟩ := hloc c (hcells c hc)
    rw [sourceCall, hsp c (hcells c hc) s hs, except_ok_bind, except_ok_bind]
    show (do let b ← localSource (vemSpace2D ref (poly c) s) (vemSpace2D ref (poly c) s) _; Except.ok (_ : Call ℝ)) = _
    rw [hb, except_ok_bind]

/-- C93, with the Dirichlet data: `assemble_strong_solution`, given the values of `q` on the Dirichlet boundary, computes the strong DOFs of `q`, and the system
formed with it is solved by the free DOFs of `q`. -/
theorem C93_dirichlet (hM : IsPlaneMesh k mesh poly n len dir nrm) (hT : IsTables k triangle edge ts ws w) (hd : (0 :: 1 :: ts).Nodup) (hlu : SolvesRegular lu)
    (hllt : SolvesPosDef llt) (hr : vemRef2D triangle edge k = .ok ref) (hi : vemMeshInfo ref mesh.topo boundary = .ok info) (hdata : createDOFs 2 info mesh.topo = .ok data)
    (hov : totalRequested info 2 < 2 ^ 32) (hgl : (gauss (2 * k)).weights.length = (gauss (2 * k)).points.length)
    (hge : ExactOnSegment (2 * k) (gauss (2 * k)).points (gauss (2 * k)).weights) (hg01 : ∀ t ∈ (gauss (2 * k)).points, 0 ≤ t ∧ t ≤ 1)
    (κ : Nat → ℝ) {q F₁ F₂ : MvPolynomial (Fin 2) ℝ} (hq : q.totalDegree ≤ k)
    (hF₁ : F₁ = C (κ 0) * pderiv 0 q + C (κ 3) * pderiv 1 q) (hF₂ : F₂ = C (κ 1) * pderiv 0 q + C (κ 4) * pderiv 1 q) {gD gN : Nat → ℝ × ℝ → ℝ}
    (htypes : ∀ (E : Nat) (b : BInfo), (info.bInfo 1)[E]? = some b → b.type = .none ∨ b.type = .weak ∨ b.type = .strong)
    (hinner : ∀ (E : Nat) (b : BInfo), (info.bInfo 1)[E]? = some b → b.type = .none → signedCount mesh n dir E = 0)
    (hstrong : ∀ (E : Nat) (b : BInfo), (info.bInfo 1)[E]? = some b → b.type = .strong → bTypeOf info (0, (mesh.topo.cell1DVertices E).1) = some .strong ∧
      bTypeOf info (0, (mesh.topo.cell1DVertices E).2) = some .strong)
    (hN : ∀ c ∈ mesh.cells, ∀ e < n c, ∀ b : BInfo, (info.bInfo 1)[cellEdge mesh c e]? = some b → b.type = .weak → ∀ t, 0 ≤ t → t ≤ 1 →
      gN b.marker (edgePoint mesh (cellEdge mesh c e) t)
        = eval ![(edgePoint mesh (cellEdge mesh c e) t).1, (edgePoint mesh (cellEdge mesh c e) t).2] F₁ * (nrm c e).1
          + eval ![(edgePoint mesh (cellEdge mesh c e) t).1, (edgePoint mesh (cellEdge mesh c e) t).2] F₂ * (nrm c e).2)
    (hg : ∀ d ≤ 2, ∀ (b : BInfo) (E : Nat), (info.bInfo d)[E]? = some b → b.type = .strong → d ≤ 1 ∧ ∃ c ∈ mesh.cells, E ∈ entities mesh d c)
    (hf : ∀ d ≤ 2, ∀ (b : BInfo) (E : Nat), (info.bInfo d)[E]? = some b → b.type = .strong → ∀ p : ℝ × ℝ, gD b.marker p = eval ![p.1, p.2] q) :
    ∃ A b W v g, assembleElliptic data data (vemSpaces lu llt ref poly) (vemSpaces lu llt ref poly) mesh (some fun _ => κ) none none = .ok A ∧
      assembleSource data (vemSpaces lu llt ref poly) (vemSpaces lu llt ref poly) mesh
        (fun p => -(eval ![p.1, p.2] (pderiv 0 F₁) + eval ![p.1, p.2] (pderiv 1 F₂))) = .ok b ∧
      weakTerm info data k gauss (fun c => (poly c).edges) (vemSpaces lu llt ref poly) mesh gN = .ok W ∧
      strongSolution info data k (vemSpaces lu llt ref poly) mesh gD = .ok g ∧
      evaluateOnDofs data k (vemSpaces lu llt ref poly) mesh (fun p => eval ![p.1, p.2] q) = .ok v ∧ v.strong = g ∧
      ∀ i, ∑ j ∈ Finset.range v.free.length, entry A.lhsDOFs i j * v.free.getD j 0 + ∑ j ∈ Finset.range g.length, entry A.lhsStrongs i j * g.getD j 0
        = ventry b.rhs i + ventry W i := by
  obtain ⟨A, b, W, v, hA, hb, hW, hv, h⟩ := C93_patch hM hT hd hlu hllt hr hi hdata hov hgl hge hg01 κ hq hF₁ hF₂ htypes hinner hstrong hN
  obtain ⟨v', hv', hs⟩ := C91_interpolant hM hT hlu hllt hr hi hdata hov hg hf
  obtain rfl : v' = v := Except.ok.inj (hv'.symm.trans hv)
  exact ⟨A, b, W, v', v'.strong, hA, hb, hW, hs, hv, rfl, h⟩

/-- The rule of Boole is exact to degree 5. -/
theorem boole_exact : ExactOnSegment 4 [0, 1 / 4, 1 / 2, 3 / 4, 1] [7 / 90, 16 / 45, 2 / 15, 16 / 45, 7 / 90] := by
  intro q hq
  have hq' : ∀ t, q.eval t = q.coeff 0 + q.coeff 1 * t + q.coeff 2 * t ^ 2 + q.coeff 3 * t ^ 3 + q.coeff 4 * t ^ 4 := by
    intro t
    rw [Polynomial.eval_eq_sum_range' (n := 5) (by omega)]
    simp [Finset.sum_range_succ]
  simp only [hq']
  rw [intervalIntegral.integral_add, intervalIntegral.integral_add, intervalIntegral.integral_add, intervalIntegral.integral_add, intervalIntegral.integral_const_mul,
    intervalIntegral.integral_const_mul, intervalIntegral.integral_const_mul, intervalIntegral.integral_const_mul, integral_pow, integral_pow, integral_pow, integral_id,
    intervalIntegral.integral_const]
  · norm_num [quadSum]
    ring
  all_goals exact Continuous.intervalIntegrable (by fun_prop) _ _

/-- The edges of the mesh of two triangles and the conditions they carry. -/
theorem patch_conditions {info : MeshInfo} (hb0 : info.bInfo 0 = [⟨.strong, 1⟩, ⟨.strong, 1⟩, ⟨.weak, 2⟩, ⟨.strong, 1⟩])
    (hb1 : info.bInfo 1 = [⟨.strong, 1⟩, ⟨.weak, 2⟩, ⟨.none, 0⟩, ⟨.weak, 3⟩, ⟨.strong, 1⟩]) :
    (∀ (E : Nat) (b : BInfo), (info.bInfo 1)[E]? = some b → b.type = .none ∨ b.type = .weak ∨ b.type = .strong) ∧
    (∀ (E : Nat) (b : BInfo), (info.bInfo 1)[E]? = some b → b.type = .none → signedCount patchMesh (fun _ => 3) patchDir E = 0) ∧
    (∀ (E : Nat) (b : BInfo), (info.bInfo 1)[E]? = some b → b.type = .strong → bTypeOf info (0, (patchMesh.topo.cell1DVertices E).1) = some .strong ∧
      bTypeOf info (0, (patchMesh.topo.cell1DVertices E).2) = some .strong) ∧
    ∀ F₁ F₂ : ℝ × ℝ → ℝ, ∀ c ∈ patchMesh.cells, ∀ e < 3, ∀ b : BInfo, (info.bInfo 1)[cellEdge patchMesh c e]? = some b → b.type = .weak → ∀ p : ℝ × ℝ,
      (if b.marker = 2 then F₁ p else F₂ p) = F₁ p * (patchNrm c e).1 + F₂ p * (patchNrm c e).2 := by
  have hcells : patchMesh.cells = [0, 1] := by simp [PlaneMesh.cells, PlaneMesh.num2D, patchMesh, patchTopo, List.range_succ]
  refine ⟨fun E b hb => ?_, fun E b hb ht => ?_, fun E b hb ht => ?_, fun F₁ F₂ c hc e he b hb ht p => ?_⟩
  · rw [hb1] at hb
    have hE : E < 5 := (List.getElem?_eq_some_iff.1 hb).1
    interval_cases E <;> obtain rfl := Option.some.inj hb <;> simp
  · rw [hb1] at hb
    have hE : E < 5 := (List.getElem?_eq_some_iff.1 hb).1
    rw [signedCount, hcells]
    interval_cases E <;> obtain rfl := Option.some.inj hb <;> first | (cases ht; done) | rfl
  · rw [hb1] at hb
    have hE : E < 5 := (List.getElem?_eq_some_iff.1 hb).1
    interval_cases E <;> obtain rfl := Option.some.inj hb <;> first | (cases ht; done) | (simp [bTypeOf, hb0, patchMesh, patchTopo])
  · rw [hcells] at hc
    rw [hb1] at hb
    simp only [List.mem_cons, List.not_mem_nil, or_false] at hc
    rcases hc with rfl | rfl <;> interval_cases e <;> obtain rfl := Option.some.inj hb <;> first | (cases ht; done) | skip
    all_goals norm_num [patchNrm, patchLen, clockwise, cellPoint, cellVertex, patchMesh, patchTopo, squareV]

-- C92: the mesh of two triangles, order 2, Neumann data of degree 2 on the right and the upper side
example : ∃ lu llt : Solver ℝ, ∃ ref info data W, SolvesRegular lu ∧ SolvesPosDef llt ∧ vemMeshInfo ref patchMesh.topo patchBoundary = .ok info ∧
    createDOFs 2 info patchMesh.topo = .ok data ∧
    weakTerm info data 2 (fun _ => ⟨[0, 1 / 4, 1 / 2, 3 / 4, 1], [7 / 90, 16 / 45, 2 / 15, 16 / 45, 7 / 90]⟩) (fun c => (patchPoly c).edges) (vemSpaces lu llt ref patchPoly) patchMesh
      (fun m p => m + p.1 * p.2) = .ok W := by
  obtain ⟨lu, h1, h2⟩ := exists_solvers
  obtain ⟨ref, info, data, hr, hi, hd, ho, ⟨hb0, hb1, hb2⟩, hc, hs⟩ := patch_dofs
  obtain ⟨W, hW, -⟩ := C92_weak (gauss := fun _ => ⟨[0, 1 / 4, 1 / 2, 3 / 4, 1], [7 / 90, 16 / 45, 2 / 15, 16 / 45, 7 / 90]⟩) (gN := fun m p => m + p.1 * p.2) patch_mesh square_tables
    (by norm_num) h1 h2 hr hi hd ho rfl boole_exact (by intro t ht; simp only [List.mem_cons, List.not_mem_nil, or_false] at ht; rcases ht with rfl | rfl | rfl | rfl | rfl <;> norm_num)
    (fun c _ e _ b _ _ => by
      obtain ⟨q, hq, hqe⟩ := poly1_pullback (patchMesh.coords (patchMesh.topo.cell1DVertices (cellEdge patchMesh c e)).1) (patchMesh.coords (patchMesh.topo.cell1DVertices (cellEdge patchMesh c e)).2)
        (C (b.marker : ℝ) + X 0 * X 1)
      refine ⟨q, hq.trans ((totalDegree_add _ _).trans (max_le (by rw [totalDegree_C]; omega) ((totalDegree_mul _ _).trans (by simp [totalDegree_X])))), fun t _ _ => ?_⟩
      rw [hqe]
      simp only [edgePoint, map_add, map_mul, eval_C, eval_X]
      rfl)
  exact ⟨lu, lu, ref, info, data, W, h1, h2, hi, hd, hW⟩

-- C93: the mesh of two triangles, order 2, any polynomial of degree 2, any constant tensor
example (κ : Nat → ℝ) (q : MvPolynomial (Fin 2) ℝ) (hq : q.totalDegree ≤ 2) : ∃ lu llt : Solver ℝ, ∃ ref info data, ∃ A b : Sys ℝ, ∃ W, ∃ v : OnDofs ℝ, ∃ g, SolvesRegular lu ∧ SolvesPosDef llt ∧
    vemMeshInfo ref patchMesh.topo patchBoundary = .ok info ∧ createDOFs 2 info patchMesh.topo = .ok data ∧
    assembleElliptic data data (vemSpaces lu llt ref patchPoly) (vemSpaces lu llt ref patchPoly) patchMesh (some fun _ => κ) none none = .ok A ∧
    strongSolution info data 2 (vemSpaces lu llt ref patchPoly) patchMesh (fun _ p => eval ![p.1, p.2] q) = .ok g ∧ v.strong = g ∧ g.length = 5 ∧ v.free.length = 6 ∧
    ∀ i, ∑ j ∈ Finset.range v.free.length, entry A.lhsDOFs i j * v.free.getD j 0 + ∑ j ∈ Finset.range g.length, entry A.lhsStrongs i j * g.getD j 0
        = ventry b.rhs i + ventry W i := by
  obtain ⟨lu, h1, h2⟩ := exists_solvers
  obtain ⟨ref, info, data, hr, hi, hd, ho, ⟨hb0, hb1, hb2⟩, hc, hs⟩ := patch_dofs
  obtain ⟨p1, p2, p3, p4⟩ := patch_conditions hb0 hb1
  have hcells : patchMesh.cells = [0, 1] := by simp [PlaneMesh.cells, PlaneMesh.num2D, patchMesh, patchTopo, List.range_succ]
  obtain ⟨A, b, W, v, g, hA, -, -, hg, hv, hvg, h⟩ := C93_dirichlet (gauss := fun _ => ⟨[0, 1 / 4, 1 / 2, 3 / 4, 1], [7 / 90, 16 / 45, 2 / 15, 16 / 45, 7 / 90]⟩)
    (gD := fun _ p => eval ![p.1, p.2] q) (gN := fun m p => if m = 2 then eval ![p.1, p.2] (C (κ 0) * pderiv 0 q + C (κ 3) * pderiv 1 q) else
      eval ![p.1, p.2] (C (κ 1) * pderiv 0 q + C (κ 4) * pderiv 1 q)) patch_mesh square_tables
    (by norm_num) h1 h2 hr hi hd ho rfl boole_exact (by intro t ht; simp only [List.mem_cons, List.not_mem_nil, or_false] at ht; rcases ht with rfl | rfl | rfl | rfl | rfl <;> norm_num)
    κ hq rfl rfl p1 p2 p3 (fun c hc e he b hb ht t _ _ => p4 (fun p => eval ![p.1, p.2] _) (fun p => eval ![p.1, p.2] _) c hc e he b hb ht _) (fun d hd' b E hb ht => by
      rw [hcells]
      interval_cases d
      · rw [hb0] at hb
        have hE : E < 4 := (List.getElem?_eq_some_iff.1 hb).1
        interval_cases E <;> simp_all [entities, patchMesh, patchTopo]
      · rw [hb1] at hb
        have hE : E < 5 := (List.getElem?_eq_some_iff.1 hb).1
        interval_cases E <;> simp_all [entities, patchMesh, patchTopo]
      · rw [hb2] at hb
        have hE : E < 2 := (List.getElem?_eq_some_iff.1 hb).1
        interval_cases E <;> obtain rfl := Option.some.inj hb <;> cases ht) (fun _ _ _ _ _ _ _ => rfl)
  have H := handler_plane square_tables hr hi hd ho
  obtain ⟨M, hM1, -⟩ := moments_ok patch_mesh square_tables h1 h2 hr fun p => eval ![p.1, p.2] q
  obtain ⟨v', hv', hf', hs', -⟩ := evaluate_ok patch_mesh square_tables h1 h2 hr H _ M hM1
  obtain rfl : v' = v := Except.ok.inj (hv'.symm.trans hv)
  exact ⟨lu, lu, ref, info, data, A, b, W, v', g, h1, h2, hi, hd, hA, hg, hvg, by rw [← hvg, hs', hs], by rw [hf', hc], h⟩

end PolyDiM
