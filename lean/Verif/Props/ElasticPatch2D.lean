import Verif.Lemmas.ElasticGlobal

/-!
# C163: the patch test for the elasticity example
-/

namespace PolyDiM

open Spec MvPolynomial

variable {k : Nat} {mesh : PlaneMesh ℝ} {poly : Nat → VemPolygon ℝ} {n : Nat → Nat} {len : Nat → Nat → ℝ} {dir : Nat → Nat → Bool} {nrm : Nat → Nat → ℝ × ℝ}
  {triangle : Nat → Rule (ℝ × ℝ) ℝ} {edge : Nat → Rule ℝ ℝ} {ts ws : List ℝ} {w : ℝ} {lu llt : Solver ℝ}
  {ref : VemRef2D ℝ} {boundary : Nat → Option BInfo} {info : MeshInfo} {data : DOFsData} {gauss : Nat → Rule ℝ ℝ}

/-- Residuals of the cells that are boundary terms of a flux add up to the Neumann term. -/
theorem patch_component (hM : IsPlaneMesh k mesh poly n len dir nrm) (hT : IsTables k triangle edge ts ws w) (hd : (0 :: 1 :: ts).Nodup) (hlu : SolvesRegular lu)
    (hllt : SolvesPosDef llt) (hr : vemRef2D triangle edge k = .ok ref) (hi : vemMeshInfo ref mesh.topo boundary = .ok info) (hdata : createDOFs 2 info mesh.topo = .ok data)
    (hov : totalRequested info 2 < 2 ^ 32) (hgl : (gauss (2 * k)).weights.length = (gauss (2 * k)).points.length)
    (hge : ExactOnSegment (2 * k) (gauss (2 * k)).points (gauss (2 * k)).weights) (hg01 : ∀ t ∈ (gauss (2 * k)).points, 0 ≤ t ∧ t ≤ 1)
    {q F₁ F₂ : MvPolynomial (Fin 2) ℝ} (hq : q.totalDegree ≤ k) (hd1 : F₁.totalDegree ≤ k - 1) (hd2 : F₂.totalDegree ≤ k - 1) {gN : Nat → ℝ × ℝ → ℝ}
    (htypes : ∀ (E : Nat) (b : BInfo), (info.bInfo 1)[E]? = some b → b.type = .none ∨ b.type = .weak ∨ b.type = .strong)
    (hinner : ∀ (E : Nat) (b : BInfo), (info.bInfo 1)[E]? = some b → b.type = .none → signedCount mesh n dir E = 0)
    (hstrong : ∀ (E : Nat) (b : BInfo), (info.bInfo 1)[E]? = some b → b.type = .strong → bTypeOf info (0, (mesh.topo.cell1DVertices E).1) = some .strong ∧
      bTypeOf info (0, (mesh.topo.cell1DVertices E).2) = some .strong)
    (hN : ∀ c ∈ mesh.cells, ∀ e < n c, ∀ b : BInfo, (info.bInfo 1)[cellEdge mesh c e]? = some b → b.type = .weak → ∀ t, 0 ≤ t → t ≤ 1 →
      gN b.marker (edgePoint mesh (cellEdge mesh c e) t)
        = eval ![(edgePoint mesh (cellEdge mesh c e) t).1, (edgePoint mesh (cellEdge mesh c e) t).2] F₁ * (nrm c e).1
          + eval ![(edgePoint mesh (cellEdge mesh c e) t).1, (edgePoint mesh (cellEdge mesh c e) t).2] F₂ * (nrm c e).2)
    (r : Nat → Nat → ℝ) (hloc : ∀ c < mesh.num2D, ∀ v : Nat → ℝ,
        ∑ i ∈ Finset.range (vemList k mesh.topo c).length, v i * r c i
          = ∑ e ∈ Finset.range (n c), ((clockwise (cellPoint mesh c ((e + 1) % n c) - cellPoint mesh c e)).1 *
                nodeSum ts ws w (fun t => eval ![(edgePoint mesh (cellEdge mesh c e) t).1, (edgePoint mesh (cellEdge mesh c e) t).2] F₁)
                  (v (startOf (n c) (dir c e) e)) (v (stopOf (n c) (dir c e) e)) (fun r => v (n c + e * (k - 1) + r))
              + (clockwise (cellPoint mesh c ((e + 1) % n c) - cellPoint mesh c e)).2 *
                nodeSum ts ws w (fun t => eval ![(edgePoint mesh (cellEdge mesh c e) t).1, (edgePoint mesh (cellEdge mesh c e) t).2] F₂)
                  (v (startOf (n c) (dir c e) e)) (v (stopOf (n c) (dir c e) e)) (fun r => v (n c + e * (k - 1) + r)))) :
    ∃ W, weakTerm info data k gauss (fun c => (poly c).edges) (vemSpaces lu llt ref poly) mesh gN = .ok W ∧
      ∀ i, (mesh.cells.map fun c => ∑ j ∈ Finset.range (vemList k mesh.topo c).length, onList (vemList k mesh.topo c) (rowTest data i) j * r c j).sum = ventry W i := by
  have H := handler_plane hT hr hi hdata hov
  have hcells : ∀ c ∈ mesh.cells, c < mesh.num2D := fun c hc => (mem_cells.1 hc).1
  have hsmall : ∀ c ∈ mesh.cells, (vemList k mesh.topo c).length < 2 ^ 32 := fun c hc => by
    rw [vemList_length k mesh.topo c (n c) (hM.vertices c (hcells c hc)) (hM.edges c (hcells c hc))]
    exact hM.small c (hcells c hc)
  set A : Nat → DMat ℝ := fun c => DMat.zero (vemList k mesh.topo c).length (vemList k mesh.topo c).length with hA
  set b : Nat → DMat ℝ := fun c => ⟨(vemList k mesh.topo c).length, 1, fun i _ => -r c i⟩ with hb
  have hz : ∀ c y i, apply (A c) y i = 0 := fun c y i => by simp [apply, hA, DMat.zero]
  obtain ⟨S, R, W, v, hS, hR, hW, -, hvf, hvs, hrow⟩ := patch_rows (gN := gN) hM hT hd hlu hllt hr hi hdata hov hgl hge hg01 hq hd1 hd2 htypes hinner hstrong hN A b fun c hc => by
    refine ⟨rfl, rfl, rfl, fun y _ v => ?_⟩
    rw [← hloc c hc v]
    refine Finset.sum_congr rfl fun i _ => ?_
    rw [hz]
    simp [hb]
  obtain ⟨S', hS', hSv⟩ := H.assemble_matrix mesh.cells hcells hsmall A fun c _ => ⟨rfl, rfl⟩
  obtain ⟨R', hR', hRv⟩ := H.assemble_vector mesh.cells hcells b fun c _ => rfl
  obtain rfl : S' = S := Except.ok.inj (hS'.symm.trans hS)
  obtain rfl : R' = R := Except.ok.inj (hR'.symm.trans hR)
  refine ⟨W, hW, fun i => ?_⟩
  have h := hrow i
  rw [hSv v.free v.strong hvf hvs i, hRv i] at h
  simp only [hz, mul_zero, Finset.sum_const_zero, hb, mul_neg, Finset.sum_neg_distrib] at h
  have h0 : (mesh.cells.map fun _ : Nat => (0 : ℝ)).sum = 0 := by simp
  have hneg : (mesh.cells.map fun c => -∑ j ∈ Finset.range (vemList k mesh.topo c).length, onList (vemList k mesh.topo c) (rowTest data i) j * r c j).sum
      = -(mesh.cells.map fun c => ∑ j ∈ Finset.range (vemList k mesh.topo c).length, onList (vemList k mesh.topo c) (rowTest data i) j * r c j).sum := by
    rw [List.sum_neg, List.map_map]
    rfl
  rw [h0, hneg] at h
  linarith

/-- C163: the elasticity example with the VEM passes the patch test. Let `q` be a displacement whose components are polynomials of degree at most `k`, and let the Lamé
coefficients be constants. With the source `-div σ(q)`, the values of `q` on the Dirichlet boundary and the traction `σ(q) n` on the Neumann boundary the system made by
`Assemble` is solved by the degrees of freedom of `q`, those of the first component followed by those of the second. `solutionDirichlet` holds the strong DOFs of `q`. -/
theorem C163_patch (hM : IsPlaneMesh k mesh poly n len dir nrm) (hT : IsTables k triangle edge ts ws w) (hd : (0 :: 1 :: ts).Nodup) (hlu : SolvesRegular lu)
    (hllt : SolvesPosDef llt) (hr : vemRef2D triangle edge k = .ok ref) (hi : vemMeshInfo ref mesh.topo boundary = .ok info) (hdata : createDOFs 2 info mesh.topo = .ok data)
    (hov : 2 * totalRequested info 2 < 2 ^ 32) (hsmall : ∀ c < mesh.num2D, 2 * (n c + n c * (k - 1) + k * (k - 1) / 2) < 2 ^ 32)
    (hgl : (gauss (2 * k)).weights.length = (gauss (2 * k)).points.length)
    (hge : ExactOnSegment (2 * k) (gauss (2 * k)).points (gauss (2 * k)).weights) (hg01 : ∀ t ∈ (gauss (2 * k)).points, 0 ≤ t ∧ t ≤ 1)
    (hact : ∀ c < mesh.num2D, mesh.active2D c = true) {μ l : ℝ} {test : ElasticTest ℝ} {q : Nat → MvPolynomial (Fin 2) ℝ}
    (hq : ∀ h < 2, (q h).totalDegree ≤ k) (hμ : ∀ p, test.lame p 0 = μ) (hl : ∀ p, test.lame p 1 = l)
    (hsrc : ∀ p, ∀ h < 2, test.source p h = -(eval ![p.1, p.2] (pderiv 0 (elasticStress μ l q h 0) + pderiv 1 (elasticStress μ l q h 1))))
    (htypes : ∀ (E : Nat) (b : BInfo), (info.bInfo 1)[E]? = some b → b.type = .none ∨ b.type = .weak ∨ b.type = .strong)
    (hinner : ∀ (E : Nat) (b : BInfo), (info.bInfo 1)[E]? = some b → b.type = .none → signedCount mesh n dir E = 0)
    (hstrong : ∀ (E : Nat) (b : BInfo), (info.bInfo 1)[E]? = some b → b.type = .strong → bTypeOf info (0, (mesh.topo.cell1DVertices E).1) = some .strong ∧
      bTypeOf info (0, (mesh.topo.cell1DVertices E).2) = some .strong)
    (hN : ∀ c ∈ mesh.cells, ∀ e < n c, ∀ b : BInfo, (info.bInfo 1)[cellEdge mesh c e]? = some b → b.type = .weak → ∀ t, 0 ≤ t → t ≤ 1 → ∀ h < 2,
      test.weak b.marker (edgePoint mesh (cellEdge mesh c e) t) h
        = stress μ l (polyGrad q (edgePoint mesh (cellEdge mesh c e) t)) h 0 * (nrm c e).1 + stress μ l (polyGrad q (edgePoint mesh (cellEdge mesh c e) t)) h 1 * (nrm c e).2)
    (hg : ∀ d ≤ 2, ∀ (b : BInfo) (E : Nat), (info.bInfo d)[E]? = some b → b.type = .strong → d ≤ 1 ∧ ∃ c ∈ mesh.cells, E ∈ entities mesh d c)
    (hf : ∀ d ≤ 2, ∀ (b : BInfo) (E : Nat), (info.bInfo d)[E]? = some b → b.type = .strong → ∀ p : ℝ × ℝ, ∀ h < 2, test.strong b.marker p h = eval ![p.1, p.2] (q h)) :
    ∃ P v₀ v₁, assembleElastic info data k gauss (fun c => (poly c).edges) (vemSpaces lu llt ref poly) mesh test = .ok P ∧
      evaluateOnDofs data k (vemSpaces lu llt ref poly) mesh (fun p => eval ![p.1, p.2] (q 0)) = .ok v₀ ∧
      evaluateOnDofs data k (vemSpaces lu llt ref poly) mesh (fun p => eval ![p.1, p.2] (q 1)) = .ok v₁ ∧
      v₀.free.length = data.counters.dofs ∧ v₁.free.length = data.counters.dofs ∧ P.dirichlet = v₀.strong ++ v₁.strong ∧
      ∀ i, ∑ j ∈ Finset.range (2 * data.counters.dofs), entry P.globalMatrix i j * (v₀.free ++ v₁.free).getD j 0 = ventry P.rightHandSide i := by
  have hov' : totalRequested info 2 < 2 ^ 32 := by omega
  have H := handler_plane hT hr hi hdata hov'
  have HF : FHandler (numOf k) mesh.topo info data := field_handler (numOf_ref hT hr mesh.topo boundary ▸ hi) hdata hov'
  obtain ⟨-, -, -, -, s2⟩ := C03_counters 2 info mesh.topo data hdata hov'
  have s2 : data.counters.dofs + data.counters.strongs = totalRequested info 2 := s2
  have HP : Pair (numOf k) (numOf k) mesh.topo info info data data := ⟨HF, HF, by omega, by omega⟩
  have hk := hT.low
  have hcells : mesh.cells = List.range mesh.num2D := by
    unfold PlaneMesh.cells
    exact List.filter_eq_self.2 fun c hc => hact c (List.mem_range.1 hc)
  have hlen : ∀ c < mesh.num2D, (vemList k mesh.topo c).length = n c + n c * (k - 1) + k * (k - 1) / 2 := fun c hc =>
    vemList_length k mesh.topo c (n c) (hM.vertices c hc) (hM.edges c hc)
  -- the displacement
  obtain ⟨M₀, hM01, hM02⟩ := moments_ok hM hT hlu hllt hr fun p => eval ![p.1, p.2] (q 0)
  obtain ⟨M₁, hM11, hM12⟩ := moments_ok hM hT hlu hllt hr fun p => eval ![p.1, p.2] (q 1)
  obtain ⟨v₀, hv0, hv0f, hv0s, hv0v⟩ := evaluate_ok hM hT hlu hllt hr H _ M₀ hM01
  obtain ⟨v₁, hv1, hv1f, hv1s, hv1v⟩ := evaluate_ok hM hT hlu hllt hr H _ M₁ hM11
  set y : Nat → Nat → ℝ := Pair.pairValues (numOf k) (numOf k) mesh.topo data data (v₀.free ++ v₁.free) (v₀.strong ++ v₁.strong) with hy
  have hy0 : ∀ c < mesh.num2D, ∀ j r, (vemList k mesh.topo c)[j]? = some r → compOf (vemList k mesh.topo c).length (y c) 0 j = nodeValue mesh ts (fun p => eval ![p.1, p.2] (q 0)) M₀ r := by
    intro c hc j r hj
    have hjl : j < (vemList k mesh.topo c).length := (List.getElem?_eq_some_iff.1 hj).1
    rw [compOf, zero_mul, zero_add, hy, Pair.pairValues, fieldList_vem, if_pos hjl, onList, hj, Option.elim_some, ← hv0v c hc r (List.mem_of_getElem? hj)]
    obtain ⟨x, hx, ht⟩ := H.lookup_list hc (List.mem_of_getElem? hj)
    obtain ⟨t, g⟩ := x
    cases t with
    | dof =>
      have := H.free r g hx
      simp only [valueOf, hx]
      rw [List.getD_eq_getElem?_getD, List.getElem?_append_left (by omega), ← List.getD_eq_getElem?_getD]
    | strong =>
      have := H.strong r g hx
      simp only [valueOf, hx]
      rw [List.getD_eq_getElem?_getD, List.getElem?_append_left (by omega), ← List.getD_eq_getElem?_getD]
    | _ => exact absurd rfl ht
  have hy1 : ∀ c < mesh.num2D, ∀ j r, (vemList k mesh.topo c)[j]? = some r → compOf (vemList k mesh.topo c).length (y c) 1 j = nodeValue mesh ts (fun p => eval ![p.1, p.2] (q 1)) M₁ r := by
    intro c hc j r hj
    rw [compOf, one_mul, hy, Pair.pairValues, fieldList_vem, if_neg (by omega), Nat.add_sub_cancel_left, onList, hj, Option.elim_some, ← hv1v c hc r (List.mem_of_getElem? hj),
      ← hv0f, ← hv0s, List.drop_left, List.drop_left]
  have hdof : ∀ c < mesh.num2D, ∀ h < 2, IsDofVector k (poly c) (n c) (cellPoint mesh c) (dir c) ts (fun p => eval ![p.1, p.2] (q h))
      (compOf (n c + n c * (k - 1) + k * (k - 1) / 2) (y c) h) := by
    intro c hc h hh
    rw [← hlen c hc]
    obtain rfl | rfl : h = 0 ∨ h = 1 := by omega
    · exact local_dofVector hM hT.nodes hc (hM02 (q 0) (by have := hq 0 (by norm_num); omega) (fun _ => rfl) c hc) (hy0 c hc)
    · exact local_dofVector hM hT.nodes hc (hM12 (q 1) (by have := hq 1 (by norm_num); omega) (fun _ => rfl) c hc) (hy1 c hc)
  -- the cells
  have hloc : ∀ c, ∃ A b : DMat ℝ, c < mesh.num2D → ∃ s, vemCreate2D lu llt ref (poly c) = .ok s ∧ elasticLocal (vemCell2D ref (poly c) s) test = .ok (A, b) ∧
      A.rows = 2 * (vemList k mesh.topo c).length ∧ A.cols = 2 * (vemList k mesh.topo c).length ∧ b.rows = 2 * (vemList k mesh.topo c).length ∧ ∀ h < 2, ∀ u : Nat → ℝ,
        ∑ i ∈ Finset.range (vemList k mesh.topo c).length,
            u i * (apply A (y c) (h * (vemList k mesh.topo c).length + i) - b.ent (h * (vemList k mesh.topo c).length + i) 0)
          = ∑ e ∈ Finset.range (n c), ((clockwise (cellPoint mesh c ((e + 1) % n c) - cellPoint mesh c e)).1 *
                nodeSum ts ws w (fun t => eval ![(edgePoint mesh (cellEdge mesh c e) t).1, (edgePoint mesh (cellEdge mesh c e) t).2] (elasticStress μ l q h 0))
                  (u (startOf (n c) (dir c e) e)) (u (stopOf (n c) (dir c e) e)) (fun r => u (n c + e * (k - 1) + r))
              + (clockwise (cellPoint mesh c ((e + 1) % n c) - cellPoint mesh c e)).2 *
                nodeSum ts ws w (fun t => eval ![(edgePoint mesh (cellEdge mesh c e) t).1, (edgePoint mesh (cellEdge mesh c e) t).2] (elasticStress μ l q h 1))
                  (u (startOf (n c) (dir c e) e)) (u (stopOf (n c) (dir c e) e)) (fun r => u (n c + e * (k - 1) + r))) := by
    intro c
    by_cases hc : c < mesh.num2D
    · obtain ⟨r', s, A, b, hr', hs, hrun, h1, h2, h3, h4⟩ := elastic_residual (hM.element c hc) hT hlu hllt (hM.measure c hc) hq hμ hl hsrc
      obtain rfl : r' = ref := Except.ok.inj (hr'.symm.trans hr)
      refine ⟨A, b, fun _ => ⟨s, hs, hrun, by rw [h1, hlen c hc], by rw [h2, hlen c hc], by rw [h3, hlen c hc], fun h hh u => ?_⟩⟩
      rw [hlen c hc, h4 (y c) (hdof c hc) h hh u]
      refine Finset.sum_congr rfl fun e he => ?_
      simp only [edge_point hM hc (Finset.mem_range.1 he)]
    · exact ⟨⟨0, 0, fun _ _ => 0⟩, ⟨0, 0, fun _ _ => 0⟩, fun h => absurd h hc⟩
  choose A b hloc using hloc
  have hmem : ∀ c ∈ mesh.cells, c < mesh.num2D := fun c hc => (mem_cells.1 hc).1
  -- the two components
  have hcomp := fun h (hh : h < 2) => patch_component (gN := fun i p => test.weak i p h) hM hT hd hlu hllt hr hi hdata hov' hgl hge hg01 (hq h hh) (degree_stress μ l hq hh (by norm_num : 0 < 2))
    (degree_stress μ l hq hh (by norm_num : 1 < 2)) htypes hinner hstrong
    (fun c hc e he b hb ht t h0 h1 => by rw [hN c hc e he b hb ht t h0 h1 h hh, eval_stress, eval_stress])
    (fun c i => apply (A c) (y c) (h * (vemList k mesh.topo c).length + i) - (b c).ent (h * (vemList k mesh.topo c).length + i) 0)
    fun c hc => by
      obtain ⟨s, -, -, -, -, -, h4⟩ := hloc c hc
      exact h4 h hh
  obtain ⟨W₀, hW0, hsum0⟩ := hcomp 0 (by norm_num)
  obtain ⟨W₁, hW1, hsum1⟩ := hcomp 1 (by norm_num)
  obtain ⟨S, hS, hSl, hSr⟩ := HP.assemble mesh.cells hmem (fun c hc => by rw [fieldList_vem, hlen c (hmem c hc)]; have := hsmall c (hmem c hc); omega) A (fun c => (b c).toList)
    (fun c hc => by
      obtain ⟨s, -, -, h1, h2, -⟩ := hloc c (hmem c hc)
      rw [fieldList_vem]
      omega)
    (fun c hc => by
      obtain ⟨s, -, -, -, -, h3, -⟩ := hloc c (hmem c hc)
      rw [fieldList_vem, DMat.toList, List.length_map, List.length_range]
      omega)
  -- the strong term
  obtain ⟨v', hv', hst0⟩ := C91_interpolant (gD := fun i p => test.strong i p 0) hM hT hlu hllt hr hi hdata hov' hg fun d hd b E hb ht p => hf d hd b E hb ht p 0 (by norm_num)
  obtain rfl : v' = v₀ := Except.ok.inj (hv'.symm.trans hv0)
  obtain ⟨v'', hv'', hst1⟩ := C91_interpolant (gD := fun i p => test.strong i p 1) hM hT hlu hllt hr hi hdata hov' hg fun d hd b E hb ht p => hf d hd b E hb ht p 1 (by norm_num)
  obtain rfl : v'' = v₁ := Except.ok.inj (hv''.symm.trans hv1)
  obtain ⟨_, hl0, hfold0⟩ := (bind_ok_iff _ _ _).1 hst0
  obtain ⟨g₀, hg0, rfl⟩ := mapM_inv hl0
  obtain ⟨_, hl1, hfold1⟩ := (bind_ok_iff _ _ _).1 hst1
  obtain ⟨g₁, hg1, rfl⟩ := mapM_inv hl1
  -- the weak term
  obtain ⟨_, hw0, he0⟩ := (bind_ok_iff _ _ _).1 hW0
  obtain ⟨f₀, hf0, rfl⟩ := mapM_inv hw0
  obtain ⟨_, hw1, he1⟩ := (bind_ok_iff _ _ _).1 hW1
  obtain ⟨f₁, hf1, rfl⟩ := mapM_inv hw1
  have he0 : (mesh.cells.map f₀).flatten = W₀ := Except.ok.inj he0
  have he1 : (mesh.cells.map f₁).flatten = W₁ := Except.ok.inj he1
  obtain ⟨bb, hcount⟩ := HP.count
  have hcell : ∀ c, ∃ Ls Lw : List (Nat × ℝ), c ∈ mesh.cells →
      elasticCell info data ⟨bb, data.counters.dofs + data.counters.dofs, data.counters.strongs + data.counters.strongs, [0, data.counters.dofs], [0, data.counters.strongs]⟩ k gauss
        (fun c => (poly c).edges) (vemSpaces lu llt ref poly) mesh test c
        = .ok ⟨⟨c, pairFields data data (fieldList (numOf k) mesh.topo c).length, some (pairFields data data (fieldList (numOf k) mesh.topo c).length, (A c).toLMat),
            some (b c).toList⟩, Ls, Lw⟩ ∧ Merges data.counters.strongs Ls (g₀ c) (g₁ c) ∧ Merges data.counters.dofs Lw (f₀ c) (f₁ c) := by
    intro c
    by_cases hc : c ∈ mesh.cells
    swap
    · exact ⟨[], [], fun h => absurd h hc⟩
    have hc' := hmem c hc
    obtain ⟨s, hs, hrun, -⟩ := hloc c hc'
    have hsp : vemSpaces lu llt ref poly c = .ok (vemCell2D ref (poly c) s) := by rw [vemSpaces, hs, except_ok_bind]
    obtain ⟨Ls, hLs, hms⟩ := elasticStrong_ok (off := data.counters.strongs) H hc' hs (hg0 c hc) (hg1 c hc)
    have hw0 := hf0 c hc
    rw [hsp, except_ok_bind] at hw0
    obtain ⟨es, hes, hw0⟩ := (bind_ok_iff _ _ _).1 hw0
    have hw1 := hf1 c hc
    rw [hsp, except_ok_bind] at hw1
    obtain ⟨fs, hfs, hw1⟩ := (bind_ok_iff _ _ _).1 hw1
    obtain ⟨Lw, hLw, hmw⟩ := elasticWeak_ok (off := data.counters.dofs) hes hfs
    rw [Except.ok.inj hw0, Except.ok.inj hw1] at hmw
    refine ⟨Ls, Lw, fun _ => ⟨?_, hms, hmw⟩⟩
    have hlc := HP.local_count hc' (by rw [fieldList_vem, hlen c hc']; have := hsmall c hc'; omega)
    rw [elasticCell, hsp, except_ok_bind, hrun, except_ok_bind, hlc, except_ok_bind]
    dsimp only
    rw [hLs, except_ok_bind, hLw, except_ok_bind]
    rfl
  choose Ls Lw hcell using hcell
  have hms := Merges.flatten mesh.cells Ls g₀ g₁ fun c hc => (hcell c hc).2.1
  have hmw := Merges.flatten mesh.cells Lw f₀ f₁ fun c hc => (hcell c hc).2.2
  have hfold := hms.fold _ _ _ _ (by simp) hfold0 hfold1
  rw [List.replicate_append_replicate] at hfold
  refine ⟨⟨S.lhsDOFs, S.lhsStrongs, S.rhs ++ (mesh.cells.map Lw).flatten ++ (if 0 < data.counters.strongs then subtractProduct S.lhsStrongs (v'.strong ++ v''.strong) else []),
    v'.strong ++ v''.strong⟩, v', v'', ?_, hv0, hv1, hv0f, hv1f, rfl, fun i => ?_⟩
  · unfold assembleElastic
    rw [hcount, except_ok_bind, ← hcells, mapM_ok _ _ _ fun c hc => (hcell c hc).1, except_ok_bind]
    simp only [List.map_map, Function.comp_def]
    rw [hS, except_ok_bind, hfold, except_ok_bind]
  · have hval := hSl (v'.free ++ v''.free) (v'.strong ++ v''.strong) (by rw [List.length_append]; omega) (by rw [List.length_append]; omega) i
    rw [← hy] at hval
    dsimp only
    have hfl : (v'.free ++ v''.free).length = 2 * data.counters.dofs := by rw [List.length_append]; omega
    rw [hfl] at hval
    have hmain : ∑ j ∈ Finset.range (2 * data.counters.dofs), entry S.lhsDOFs i j * (v'.free ++ v''.free).getD j 0
        + ∑ j ∈ Finset.range (v'.strong ++ v''.strong).length, entry S.lhsStrongs i j * (v'.strong ++ v''.strong).getD j 0
        = ventry S.rhs i + ventry (mesh.cells.map Lw).flatten i := by
      rw [hval, hSr i, hmw.add, he0, he1, ← hsum0 i]
      have h1 : (if data.counters.dofs ≤ i then ventry W₁ (i - data.counters.dofs) else 0)
          = (mesh.cells.map fun c => ∑ j ∈ Finset.range (vemList k mesh.topo c).length, onList (vemList k mesh.topo c) (rowShift data data.counters.dofs i) j *
              (apply (A c) (y c) (1 * (vemList k mesh.topo c).length + j) - (b c).ent (1 * (vemList k mesh.topo c).length + j) 0)).sum := by
        split_ifs with hle
        · rw [← hsum1]
          refine congrArg List.sum (List.map_congr_left fun c _ => Finset.sum_congr rfl fun j _ => ?_)
          have : rowShift data data.counters.dofs i = rowTest data (i - data.counters.dofs) := by
            funext r
            simp only [rowShift, rowTest, hle, true_and]
          rw [this]
        · have : rowShift data data.counters.dofs i = fun _ => 0 := by
            funext r
            simp only [rowShift, hle, false_and, if_false]
          rw [this]
          have hz : ∀ c j, onList (vemList k mesh.topo c) (fun _ => (0 : ℝ)) j = 0 := fun c j => by
            unfold onList
            cases (vemList k mesh.topo c)[j]? <;> rfl
          simp [hz]
      have h0 : rowShift data 0 i = rowTest data i := by
        funext r
        simp [rowShift, rowTest]
      rw [h1, h0, ← List.sum_map_add, ← List.sum_map_add]
      refine congrArg List.sum (List.map_congr_left fun c hc => ?_)
      obtain ⟨s, -, -, -, -, h3, -⟩ := hloc c (hmem c hc)
      have hg : ∀ j < 2 * (vemList k mesh.topo c).length, ((b c).toList).getD j 0 = (b c).ent j 0 := fun j hj => by
        rw [DMat.toList, List.getD_eq_getElem?_getD, List.getElem?_map, List.getElem?_range (by omega)]
        rfl
      simp only [fieldList_vem, mul_sub, Finset.sum_sub_distrib, zero_mul, zero_add, one_mul]
      have e0 : ∑ j ∈ Finset.range (vemList k mesh.topo c).length, onList (vemList k mesh.topo c) (rowTest data i) j * ((b c).toList).getD j 0
          = ∑ j ∈ Finset.range (vemList k mesh.topo c).length, onList (vemList k mesh.topo c) (rowTest data i) j * (b c).ent j 0 :=
        Finset.sum_congr rfl fun j hj => by rw [hg j (by have := Finset.mem_range.1 hj; omega)]
      have e1 : ∑ j ∈ Finset.range (vemList k mesh.topo c).length, onList (vemList k mesh.topo c) (rowShift data data.counters.dofs i) j *
            ((b c).toList).getD ((vemList k mesh.topo c).length + j) 0
          = ∑ j ∈ Finset.range (vemList k mesh.topo c).length, onList (vemList k mesh.topo c) (rowShift data data.counters.dofs i) j *
            (b c).ent ((vemList k mesh.topo c).length + j) 0 :=
        Finset.sum_congr rfl fun j hj => by rw [hg _ (by have := Finset.mem_range.1 hj; omega)]
      rw [e0, e1]
      ring
    rw [ventry_append, ventry_append, ← hmain]
    split_ifs with h0
    · rw [ventry_subtract]
      ring
    · have : (v'.strong ++ v''.strong).length = 0 := by rw [List.length_append]; omega
      rw [this]
      simp [ventry]

/-- The data of the example (no text of the repository): Lamé coefficients `μ` and `l` and the exact displacement `q`; the Neumann sides of `patchMesh` are the right one (marker 2) and the upper one
(marker 3). -/
noncomputable def patchElastic (μ l : ℝ) (q : Nat → MvPolynomial (Fin 2) ℝ) : ElasticTest ℝ :=
  { lame := fun _ d => if d = 0 then μ else l
    source := fun p h => -(eval ![p.1, p.2] (pderiv 0 (elasticStress μ l q h 0) + pderiv 1 (elasticStress μ l q h 1)))
    strong := fun _ p h => eval ![p.1, p.2] (q h)
    weak := fun m p h => if m = 2 then stress μ l (polyGrad q p) h 0 else stress μ l (polyGrad q p) h 1 }

theorem patch_held {info : MeshInfo} (hb0 : info.bInfo 0 = [⟨.strong, 1⟩, ⟨.strong, 1⟩, ⟨.weak, 2⟩, ⟨.strong, 1⟩])
    (hb1 : info.bInfo 1 = [⟨.strong, 1⟩, ⟨.weak, 2⟩, ⟨.none, 0⟩, ⟨.weak, 3⟩, ⟨.strong, 1⟩]) (hb2 : info.bInfo 2 = [⟨.none, 0⟩, ⟨.none, 0⟩]) :
    ∀ d ≤ 2, ∀ (b : BInfo) (E : Nat), (info.bInfo d)[E]? = some b → b.type = .strong → d ≤ 1 ∧ ∃ c ∈ patchMesh.cells, E ∈ entities patchMesh d c := by
  have hcells : patchMesh.cells = [0, 1] := by simp [PlaneMesh.cells, PlaneMesh.num2D, patchMesh, patchTopo, List.range_succ]
  intro d hd' b E hb ht
  rw [hcells]
  interval_cases d
  · rw [hb0] at hb
    have hE : E < 4 := (List.getElem?_eq_some_iff.1 hb).1
    interval_cases E <;> simp_all [entities, patchMesh, patchTopo]
  · rw [hb1] at hb
    have hE : E < 5 := (List.getElem?_eq_some_iff.1 hb).1
    interval_cases E <;> simp_all [entities, patchMesh, patchTopo]
  · rw [hb2] at hb
    have hE : E < 2 := (List.getElem?_eq_some_iff.1 hb).1
    interval_cases E <;> obtain rfl := Option.some.inj hb <;> cases ht

-- C163: the mesh of two triangles, order 2, any displacement of degree 2
example (μ l : ℝ) (q : Nat → MvPolynomial (Fin 2) ℝ) (hq : ∀ h < 2, (q h).totalDegree ≤ 2) : ∃ lu llt : Solver ℝ, ∃ ref info data P v₀ v₁, SolvesRegular lu ∧ SolvesPosDef llt ∧
    vemMeshInfo ref patchMesh.topo patchBoundary = .ok info ∧ createDOFs 2 info patchMesh.topo = .ok data ∧
    assembleElastic info data 2 (fun _ => ⟨[0, 1 / 4, 1 / 2, 3 / 4, 1], [7 / 90, 16 / 45, 2 / 15, 16 / 45, 7 / 90]⟩) (fun c => (patchPoly c).edges)
      (vemSpaces lu llt ref patchPoly) patchMesh (patchElastic μ l q) = .ok P ∧
    evaluateOnDofs data 2 (vemSpaces lu llt ref patchPoly) patchMesh (fun p => eval ![p.1, p.2] (q 0)) = .ok v₀ ∧
    evaluateOnDofs data 2 (vemSpaces lu llt ref patchPoly) patchMesh (fun p => eval ![p.1, p.2] (q 1)) = .ok v₁ ∧ v₀.free.length = 6 ∧ v₁.free.length = 6 ∧
    ∀ i, ∑ j ∈ Finset.range 12, entry P.globalMatrix i j * (v₀.free ++ v₁.free).getD j 0 = ventry P.rightHandSide i := by
  obtain ⟨lu, h1, h2⟩ := exists_solvers
  obtain ⟨ref, info, data, hr, hi, hd, ho, ⟨hb0, hb1, hb2⟩, hc, hs⟩ := patch_dofs
  obtain ⟨p1, p2, p3, p4⟩ := patch_conditions hb0 hb1
  obtain ⟨-, -, -, -, s2⟩ := C03_counters 2 info patchMesh.topo data hd ho
  have s2 : data.counters.dofs + data.counters.strongs = totalRequested info 2 := s2
  obtain ⟨P, v₀, v₁, hP, hv0, hv1, hf0, hf1, -, h⟩ := C163_patch (gauss := fun _ => ⟨[0, 1 / 4, 1 / 2, 3 / 4, 1], [7 / 90, 16 / 45, 2 / 15, 16 / 45, 7 / 90]⟩)
    (test := patchElastic μ l q) patch_mesh square_tables
    (by norm_num) h1 h2 hr hi hd (by omega) (fun c hc => by norm_num) rfl boole_exact
    (by intro t ht; simp only [List.mem_cons, List.not_mem_nil, or_false] at ht; rcases ht with rfl | rfl | rfl | rfl | rfl <;> norm_num)
    (fun c _ => rfl) hq (fun _ => rfl) (fun _ => rfl) (fun _ _ _ => rfl) p1 p2 p3
    (fun c hc e he b hb ht t _ _ h _ => p4 (fun p => stress μ l (polyGrad q p) h 0) (fun p => stress μ l (polyGrad q p) h 1) c hc e he b hb ht _)
    (patch_held hb0 hb1 hb2) (fun _ _ _ _ _ _ _ _ _ => rfl)
  rw [hc] at hf0 hf1 h
  exact ⟨lu, lu, ref, info, data, P, v₀, v₁, h1, h2, hi, hd, hP, hv0, hv1, hf0, hf1, h⟩

end PolyDiM
