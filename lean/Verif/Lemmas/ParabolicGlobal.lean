import Verif.Lemmas.ParabolicLocal

/-!
# Lemmas: the global system of the example Parabolic_PCC_2D
-/

namespace PolyDiM

open Spec MvPolynomial

variable {k : Nat} {mesh : PlaneMesh ℝ} {poly : Nat → VemPolygon ℝ} {n : Nat → Nat} {len : Nat → Nat → ℝ} {dir : Nat → Nat → Bool} {nrm : Nat → Nat → ℝ × ℝ}
  {triangle : Nat → Rule (ℝ × ℝ) ℝ} {edge : Nat → Rule ℝ ℝ} {ts ws : List ℝ} {w : ℝ} {lu llt : Solver ℝ}
  {ref : VemRef2D ℝ} {boundary : Nat → Option BInfo} {info : MeshInfo} {data : DOFsData} {gauss : Nat → Rule ℝ ℝ}

/-- Row `i` of the vector assembled from the source `f`. -/
noncomputable def heatLoad (k : Nat) (data : DOFsData) (mesh : PlaneMesh ℝ) (s : Nat → VemSpace2D ℝ) (Φ : Nat → DMat ℝ) (f : ℝ × ℝ → ℝ) (i : Nat) : ℝ :=
  (mesh.cells.map fun c => ∑ j ∈ Finset.range (vemList k mesh.topo c).length, onList (vemList k mesh.topo c) (rowTest data i) j
    * cellSum (s c).internal fun q => f (rulePoint (s c).internal q) * (Φ c).ent q j).sum

theorem heatLoad_linear (s : Nat → VemSpace2D ℝ) (Φ : Nat → DMat ℝ) (a b : ℝ) (f g : ℝ × ℝ → ℝ) (i : Nat) :
    heatLoad k data mesh s Φ (fun p => a * f p + b * g p) i = a * heatLoad k data mesh s Φ f i + b * heatLoad k data mesh s Φ g i := by
  unfold heatLoad
  rw [← List.sum_map_mul_left, ← List.sum_map_mul_left, ← List.sum_map_add]
  congr 1
  refine List.map_congr_left fun c _ => ?_
  rw [Finset.mul_sum, Finset.mul_sum, ← Finset.sum_add_distrib]
  refine Finset.sum_congr rfl fun j _ => ?_
  unfold cellSum
  simp only [Finset.mul_sum, ← Finset.sum_add_distrib]
  exact Finset.sum_congr rfl fun q _ => by ring

/-- The rows of an assembled matrix, given by the triplets on the free and on the strong DOFs. -/
def heatRow (F D : List (Nat × Nat × ℝ)) (free strong : List ℝ) (i : Nat) : ℝ :=
  ∑ j ∈ Finset.range free.length, entry F i j * free.getD j 0 + ∑ j ∈ Finset.range strong.length, entry D i j * strong.getD j 0

/-- The spaces, the tables and the local matrices of the cells, and the assembled matrices. -/
structure HeatMesh (k : Nat) (mesh : PlaneMesh ℝ) (poly : Nat → VemPolygon ℝ) (n : Nat → Nat) (len : Nat → Nat → ℝ) (dir : Nat → Nat → Bool) (ts ws : List ℝ) (w : ℝ)
    (lu llt : Solver ℝ) (ref : VemRef2D ℝ) (data : DOFsData) (test : ParabolicTest ℝ) (s : Nat → VemSpace2D ℝ) (Φ S T A M : Nat → DMat ℝ) (κmax : Nat → ℝ) (P : ParabolicStatic ℝ) :
    Prop where
  space : ∀ c < mesh.num2D, vemCreate2D lu llt ref (poly c) = .ok (s c)
  good : ∀ c < mesh.num2D, SpaceOk k (n c) (cellPoint mesh c) (len c) (dir c) ts ws w (poly c) (s c)
  cell : ∀ c < mesh.num2D, HeatLocal k (n c) ref (poly c) (s c) test (Φ c) (S c) (T c) (A c) (M c) (κmax c)
  static : parabolicStatic data (vemSpaces lu llt ref poly) mesh test = .ok P
  size : ∀ c < mesh.num2D, (vemList k mesh.topo c).length = n c + n c * (k - 1) + k * (k - 1) / 2
  assembled : ∃ X, assembleAll 2 .empty (mesh.cells.map fun c => (⟨c, oneField data, some (oneField data, (A c).toLMat), none⟩ : Call ℝ)) = .ok X ∧ X.lhsDOFs = P.globalA ∧
    X.lhsStrongs = P.dirichletA
  rowsA : ∀ free strong : List ℝ, free.length = data.counters.dofs → strong.length = data.counters.strongs → ∀ i, heatRow P.globalA P.dirichletA free strong i
    = (mesh.cells.map fun c => ∑ j ∈ Finset.range (vemList k mesh.topo c).length,
        onList (vemList k mesh.topo c) (rowTest data i) j * apply (A c) (onList (vemList k mesh.topo c) (valueOf data free strong)) j).sum
  rowsM : ∀ free strong : List ℝ, free.length = data.counters.dofs → strong.length = data.counters.strongs → ∀ i, heatRow P.globalM P.dirichletM free strong i
    = (mesh.cells.map fun c => ∑ j ∈ Finset.range (vemList k mesh.topo c).length,
        onList (vemList k mesh.topo c) (rowTest data i) j * apply (M c) (onList (vemList k mesh.topo c) (valueOf data free strong)) j).sum

theorem all_cells (hact : ∀ c < mesh.num2D, mesh.active2D c = true) : mesh.cells = List.range mesh.num2D := by
  unfold PlaneMesh.cells
  exact List.filter_eq_self.2 fun c hc => hact c (List.mem_range.1 hc)

theorem heat_mesh (hM : IsPlaneMesh k mesh poly n len dir nrm) (hT : IsTables k triangle edge ts ws w) (hlu : SolvesRegular lu)
    (hllt : SolvesPosDef llt) (hr : vemRef2D triangle edge k = .ok ref) (H : Handler k mesh.topo info data) (hact : ∀ c < mesh.num2D, mesh.active2D c = true) (test : ParabolicTest ℝ) :
    ∃ s Φ S T A M κmax P, HeatMesh k mesh poly n len dir ts ws w lu llt ref data test s Φ S T A M κmax P := by
  have hcells := all_cells hact
  have hmem : ∀ c ∈ mesh.cells, c < mesh.num2D := fun c hc => (mem_cells.1 hc).1
  have hsize : ∀ c < mesh.num2D, (vemList k mesh.topo c).length = n c + n c * (k - 1) + k * (k - 1) / 2 := fun c hc =>
    vemList_length k mesh.topo c (n c) (hM.vertices c hc) (hM.edges c hc)
  have hloc : ∀ c < mesh.num2D, ∃ s, vemCreate2D lu llt ref (poly c) = .ok s ∧ SpaceOk k (n c) (cellPoint mesh c) (len c) (dir c) ts ws w (poly c) s ∧
      ∃ Φ S T A M κmax, HeatLocal k (n c) ref (poly c) s test Φ S T A M κmax := fun c hc => by
    obtain ⟨r', s, hr', hs, hok, h⟩ := heat_local (hM.element c hc) hT hlu hllt (hM.measure c hc)
    obtain rfl : r' = ref := Except.ok.inj (hr'.symm.trans hr)
    exact ⟨s, hs, hok, h test⟩
  have hloc' : ∀ c, ∃ (s : VemSpace2D ℝ) (Φ S T A M : DMat ℝ) (κmax : ℝ), c < mesh.num2D → vemCreate2D lu llt ref (poly c) = .ok s ∧
      SpaceOk k (n c) (cellPoint mesh c) (len c) (dir c) ts ws w (poly c) s ∧ HeatLocal k (n c) ref (poly c) s test Φ S T A M κmax := fun c => by
    by_cases hc : c < mesh.num2D
    · obtain ⟨s, h1, h2, Φ, S, T, A, M, κmax, h3⟩ := hloc c hc
      exact ⟨s, Φ, S, T, A, M, κmax, fun _ => ⟨h1, h2, h3⟩⟩
    · by_cases h0 : 0 < mesh.num2D
      · obtain ⟨s, -, -, Φ, S, T, A, M, κmax, -⟩ := hloc 0 h0
        exact ⟨s, Φ, S, T, A, M, κmax, fun h => absurd h hc⟩
      · have z : DMat ℝ := ⟨0, 0, fun _ _ => 0⟩
        exact ⟨⟨⟨0, 0, 0, 0, 0, 0, 0, z, z, z, z, z, z, z⟩, ⟨[], []⟩, ⟨[], [], [], []⟩, z, z, z, z, z, z, z, z, z, z, z⟩, z, z, z, z, z, 0, fun h => absurd h hc⟩
  choose s Φ S T A M κmax hall using hloc'
  obtain ⟨X, hX, hXv⟩ := H.assemble_matrix mesh.cells hmem (fun c hc => by rw [hsize c (hmem c hc)]; exact hM.small c (hmem c hc)) A fun c hc => by
    have h := (hall c (hmem c hc)).2.2
    rw [hsize c (hmem c hc)]
    exact ⟨h.rows, h.cols⟩
  obtain ⟨Y, hY, hYv⟩ := H.assemble_matrix mesh.cells hmem (fun c hc => by rw [hsize c (hmem c hc)]; exact hM.small c (hmem c hc)) M fun c hc => by
    have h := (hall c (hmem c hc)).2.2
    rw [hsize c (hmem c hc)]
    exact ⟨h.rowsM, h.colsM⟩
  refine ⟨s, Φ, S, T, A, M, κmax, ⟨X.lhsDOFs, X.lhsStrongs, Y.lhsDOFs, Y.lhsStrongs⟩, fun c hc => (hall c hc).1, fun c hc => (hall c hc).2.1, fun c hc => (hall c hc).2.2, ?_, hsize,
    ⟨X, hX, rfl, rfl⟩, hXv, hYv⟩
  unfold parabolicStatic
  rw [mapM_ok _ (fun c => ((⟨c, oneField data, some (oneField data, (A c).toLMat), none⟩ : Call ℝ), (⟨c, oneField data, some (oneField data, (M c).toLMat), none⟩ : Call ℝ)))]
  · simp only [except_ok_bind, List.map_map, Function.comp_def]
    rw [← hcells, hX, except_ok_bind, hY, except_ok_bind]
  · intro c hc
    obtain ⟨h1, -, h2⟩ := hall c (List.mem_range.1 hc)
    rw [vemSpaces, h1, except_ok_bind, except_ok_bind, h2.run, except_ok_bind]

section mesh
variable {test : ParabolicTest ℝ} {s : Nat → VemSpace2D ℝ} {Φ S T A M : Nat → DMat ℝ} {κmax : Nat → ℝ} {P : ParabolicStatic ℝ}

/-- The rows of the mass matrix on the degrees of freedom of a polynomial. -/
theorem heat_mass (hM : IsPlaneMesh k mesh poly n len dir nrm) (hT : IsTables k triangle edge ts ws w) (hlu : SolvesRegular lu)
    (hllt : SolvesPosDef llt) (hr : vemRef2D triangle edge k = .ok ref) (H : Handler k mesh.topo info data)
    (hH : HeatMesh k mesh poly n len dir ts ws w lu llt ref data test s Φ S T A M κmax P) {q : MvPolynomial (Fin 2) ℝ} (hq : q.totalDegree ≤ k) {v : OnDofs ℝ}
    (hv : evaluateOnDofs data k (vemSpaces lu llt ref poly) mesh (fun p => eval ![p.1, p.2] q) = .ok v) (i : Nat) :
    heatRow P.globalM P.dirichletM v.free v.strong i = heatLoad k data mesh s Φ (fun p => eval ![p.1, p.2] q) i := by
  obtain ⟨N, hN1, hN2⟩ := moments_ok hM hT hlu hllt hr fun p => eval ![p.1, p.2] q
  obtain ⟨v', hv', hvf, hvs, hvv⟩ := evaluate_ok hM hT hlu hllt hr H _ N hN1
  obtain rfl : v' = v := Except.ok.inj (hv'.symm.trans hv)
  rw [hH.rowsM _ _ hvf hvs, heatLoad]
  congr 1
  refine List.map_congr_left fun c hc => ?_
  have hc' := (mem_cells.1 hc).1
  have hy : IsDofVector k (poly c) (n c) (cellPoint mesh c) (dir c) ts (fun p => eval ![p.1, p.2] q) (onList (vemList k mesh.topo c) (valueOf data v'.free v'.strong)) := by
    refine local_dofVector hM hT.nodes hc' (hN2 q (by omega) (fun _ => rfl) c hc') fun j r hj => ?_
    rw [onList, hj, Option.elim_some, hvv c hc' r (List.mem_of_getElem? hj)]
  rw [hH.size c hc', mass_poly (hM.element c hc') hT hlu hllt (hM.measure c hc') hr (hH.space c hc') (hH.good c hc') (hH.cell c hc') hq hy]
  exact ((hH.cell c hc').source (fun p => eval ![p.1, p.2] q) _).symm

/-- The rows of the stiffness matrix on the degrees of freedom of a polynomial: its source and its flux. -/
theorem heat_stiff (hM : IsPlaneMesh k mesh poly n len dir nrm) (hT : IsTables k triangle edge ts ws w) (hd : (0 :: 1 :: ts).Nodup) (hlu : SolvesRegular lu)
    (hllt : SolvesPosDef llt) (hr : vemRef2D triangle edge k = .ok ref) (hi : vemMeshInfo ref mesh.topo boundary = .ok info) (hdata : createDOFs 2 info mesh.topo = .ok data)
    (hov : totalRequested info 2 < 2 ^ 32) (hgl : (gauss (2 * k)).weights.length = (gauss (2 * k)).points.length)
    (hge : ExactOnSegment (2 * k) (gauss (2 * k)).points (gauss (2 * k)).weights) (hg01 : ∀ t ∈ (gauss (2 * k)).points, 0 ≤ t ∧ t ≤ 1)
    (hH : HeatMesh k mesh poly n len dir ts ws w lu llt ref data test s Φ S T A M κmax P) {κ : ℝ} (hκ : ∀ p, test.diffusion p = κ)
    {q : MvPolynomial (Fin 2) ℝ} (hq : q.totalDegree ≤ k) {gN : Nat → ℝ × ℝ → ℝ}
    (htypes : ∀ (E : Nat) (b : BInfo), (info.bInfo 1)[E]? = some b → b.type = .none ∨ b.type = .weak ∨ b.type = .strong)
    (hinner : ∀ (E : Nat) (b : BInfo), (info.bInfo 1)[E]? = some b → b.type = .none → signedCount mesh n dir E = 0)
    (hstrong : ∀ (E : Nat) (b : BInfo), (info.bInfo 1)[E]? = some b → b.type = .strong → bTypeOf info (0, (mesh.topo.cell1DVertices E).1) = some .strong ∧
      bTypeOf info (0, (mesh.topo.cell1DVertices E).2) = some .strong)
    (hN : ∀ c ∈ mesh.cells, ∀ e < n c, ∀ b : BInfo, (info.bInfo 1)[cellEdge mesh c e]? = some b → b.type = .weak → ∀ t, 0 ≤ t → t ≤ 1 →
      gN b.marker (edgePoint mesh (cellEdge mesh c e) t)
        = κ * (eval ![(edgePoint mesh (cellEdge mesh c e) t).1, (edgePoint mesh (cellEdge mesh c e) t).2] (pderiv 0 q) * (nrm c e).1
          + eval ![(edgePoint mesh (cellEdge mesh c e) t).1, (edgePoint mesh (cellEdge mesh c e) t).2] (pderiv 1 q) * (nrm c e).2)) :
    ∃ W v, weakTerm info data k gauss (fun c => (poly c).edges) (vemSpaces lu llt ref poly) mesh gN = .ok W ∧
      evaluateOnDofs data k (vemSpaces lu llt ref poly) mesh (fun p => eval ![p.1, p.2] q) = .ok v ∧ v.free.length = data.counters.dofs ∧ v.strong.length = data.counters.strongs ∧
      ∀ i, heatRow P.globalA P.dirichletA v.free v.strong i
        = heatLoad k data mesh s Φ (fun p => -(κ * eval ![p.1, p.2] (pderiv 0 (pderiv 0 q) + pderiv 1 (pderiv 1 q)))) i + ventry W i := by
  have H := handler_plane hT hr hi hdata hov
  have hk := hT.low
  have hdeg : ∀ d, (C κ * pderiv d q).totalDegree ≤ k - 1 := fun d => (totalDegree_mul _ _).trans (by
    rw [totalDegree_C, zero_add]
    exact (totalDegree_pderiv d q).trans (by omega))
  set f : ℝ × ℝ → ℝ := fun p => -(κ * eval ![p.1, p.2] (pderiv 0 (pderiv 0 q) + pderiv 1 (pderiv 1 q))) with hf
  set et : EllipticTest ℝ := ⟨test.diffusion, fun _ _ => 0, f, fun _ _ => 0, fun _ _ => 0⟩ with het
  have hmem : ∀ c ∈ mesh.cells, c < mesh.num2D := fun c hc => (mem_cells.1 hc).1
  set b : Nat → DMat ℝ := fun c => ⟨(vemList k mesh.topo c).length, 1, fun i _ => cellSum (s c).internal fun r => f (rulePoint (s c).internal r) * (Φ c).ent r i⟩ with hb
  obtain ⟨X, R, W, v, hX, hR, hW, hv, hvf, hvs, hrow⟩ := patch_rows (gN := gN) hM hT hd hlu hllt hr hi hdata hov hgl hge hg01 hq (hdeg 0) (hdeg 1) htypes hinner hstrong
    (fun c hc e he b hb ht t h0 h1 => by
      rw [hN c hc e he b hb ht t h0 h1]
      simp only [map_mul, eval_C]
      ring) A b fun c hc => by
    obtain ⟨r', s', hr', hs', hl⟩ := elliptic_residual (test := et) (hM.element c hc) hT hlu hllt (hM.measure c hc) ⟨false, 1⟩ 1 κ hq rfl rfl hκ (fun p => by simp [het, hf])
    obtain rfl : r' = ref := Except.ok.inj (hr'.symm.trans hr)
    obtain rfl : s' = s c := Except.ok.inj (hs'.symm.trans (hH.space c hc))
    obtain ⟨l, hl, h1, h2, h3, h4⟩ := hl fun h => absurd h (by simp)
    obtain ⟨e1, e2⟩ := (hH.cell c hc).elliptic et 1 1 l rfl rfl hl
    refine ⟨?_, ?_, rfl, fun y hy v => ?_⟩
    · rw [hH.size c hc]; exact (hH.cell c hc).rows
    · rw [hH.size c hc]; exact (hH.cell c hc).cols
    · have := h4 y hy v
      rw [e1] at this
      simp only [e2] at this
      rw [hH.size c hc]
      simp only [hb]
      rw [this]
      refine Finset.sum_congr rfl fun e he => ?_
      simp only [edge_point hM hc (Finset.mem_range.1 he)]
  refine ⟨W, v, hW, hv, hvf, hvs, fun i => ?_⟩
  obtain ⟨X', hX', e1, e2⟩ := hH.assembled
  obtain rfl : X' = X := Except.ok.inj (hX'.symm.trans hX)
  rw [heatRow, ← e1, ← e2, hrow i]
  congr 1
  obtain ⟨R', hR', hRv⟩ := H.assemble_vector mesh.cells hmem b fun c hc => rfl
  obtain rfl : R' = R := Except.ok.inj (hR'.symm.trans hR)
  rw [hRv i]
  rfl

theorem parabolicStrong_same (H : Handler k mesh.topo info data) {time : ℝ} {c : Nat} (hc : c < mesh.num2D) {s : VemSpace2D ℝ}
    (hs : vemCreate2D lu llt ref (poly c) = .ok s) {l : List (Nat × ℝ)} (hl : strongCell info data k (vemSpaces lu llt ref poly) mesh (test.strong time) c = .ok l) :
    parabolicStrong info data (vemCell2D ref (poly c) s) mesh test time c = .ok l := by
  have hsp : vemSpaces lu llt ref poly c = .ok (vemCell2D ref (poly c) s) := by rw [vemSpaces, hs, except_ok_bind]
  obtain ⟨vs, hvs, hl⟩ := (bind_ok_iff _ _ _).1 hl
  have hes : ∃ es, (mesh.topo.cell2DEdges c).zipIdx.mapM (strongEdge info data (vemCell2D ref (poly c) s) (test.strong time)) = .ok es ∧ l = vs.flatten ++ es.flatten := by
    split_ifs at hl with hk
    · rw [hsp, except_ok_bind] at hl
      obtain ⟨es, hes, hl⟩ := (bind_ok_iff _ _ _).1 hl
      exact ⟨es, hes, (Except.ok.inj hl).symm⟩
    · refine ⟨_, mapM_ok _ (fun _ => []) _ fun e he => ?_, ?_⟩
      · obtain ⟨x, b, hx, hb, -, hlen, -⟩ := H.cell 1 (by norm_num) e.1 (H.edges c hc _ (List.fst_mem_of_mem_zipIdx he))
        rw [strongEdge, atIdx, hb]
        simp only [except_ok_bind]
        rw [atIdx, hx]
        simp only [except_ok_bind]
        rw [if_pos (Or.inr (by rw [hlen]; simp only [numOf, one_ne_zero, if_false, if_true]; omega))]
      · rw [flatten_nil _ _ fun _ _ => rfl, List.append_nil]
        exact (Except.ok.inj hl).symm
  obtain ⟨es, hes, rfl⟩ := hes
  unfold parabolicStrong
  rw [hvs, except_ok_bind, hes, except_ok_bind]

/-- `Assemble` at one time: the source, the Neumann term and the strong values. -/
theorem heat_assemble (H : Handler k mesh.topo info data) (hact : ∀ c < mesh.num2D, mesh.active2D c = true)
    (hH : HeatMesh k mesh poly n len dir ts ws w lu llt ref data test s Φ S T A M κmax P) {time : ℝ} {W : List (Nat × ℝ)} {g : List ℝ}
    (hW : weakTerm info data k gauss (fun c => (poly c).edges) (vemSpaces lu llt ref poly) mesh (test.weak time) = .ok W)
    (hg : strongSolution info data k (vemSpaces lu llt ref poly) mesh (test.strong time) = .ok g) :
    ∃ d, parabolicAssemble info data k gauss (fun c => (poly c).edges) (vemSpaces lu llt ref poly) mesh test time = .ok d ∧ d.dirichlet = g ∧
      ∀ i, ventry d.rightHandSide i = heatLoad k data mesh s Φ (test.source time) i + ventry W i := by
  have hcells := all_cells hact
  have hmem : ∀ c ∈ mesh.cells, c < mesh.num2D := fun c hc => (mem_cells.1 hc).1
  set b : Nat → DMat ℝ := fun c => ⟨(vemList k mesh.topo c).length, 1, fun i _ => cellSum (s c).internal fun r => test.source time (rulePoint (s c).internal r) * (Φ c).ent r i⟩ with hb
  obtain ⟨R, hR, hRv⟩ := H.assemble_vector mesh.cells hmem b fun c hc => rfl
  obtain ⟨logS, hlogS, hfold⟩ := (bind_ok_iff _ _ _).1 hg
  obtain ⟨gS, hgS, rfl⟩ := mapM_inv hlogS
  obtain ⟨logW, hlogW, hWe⟩ := (bind_ok_iff _ _ _).1 hW
  obtain ⟨gW, hgW, rfl⟩ := mapM_inv hlogW
  have hWe' : (mesh.cells.map gW).flatten = W := Except.ok.inj hWe
  rw [hcells] at hgS hgW hWe' hfold hR
  refine ⟨⟨R.rhs ++ W, g⟩, ?_, rfl, fun i => ?_⟩
  · unfold parabolicAssemble
    rw [mapM_ok _ (fun c => (⟨⟨c, oneField data, none, some (b c).toList⟩, gS c, gW c⟩ : ParabolicCell ℝ))]
    · simp only [except_ok_bind, List.map_map, Function.comp_def]
      rw [hR, except_ok_bind, hfold, except_ok_bind, hWe']
    · intro c hc
      have hc' := List.mem_range.1 hc
      have hL := hH.cell c hc'
      have hw := hgW c hc
      have hsp : vemSpaces lu llt ref poly c = .ok (vemCell2D ref (poly c) (s c)) := by rw [vemSpaces, hH.space c hc', except_ok_bind]
      rw [hsp, except_ok_bind] at hw
      rw [parabolicCell, hsp, except_ok_bind, hL.values, except_ok_bind]
      have hfo := hL.forcing (test.source time)
      rw [← hH.size c hc'] at hfo
      have hfo' : cellForcing (evalScalar (vemCell2D ref (poly c) (s c)).internal.points (test.source time)) (Φ c) (vemCell2D ref (poly c) (s c)).internal.weights = .ok (b c) := hfo
      rw [hfo', except_ok_bind, parabolicStrong_same H hc' (hH.space c hc') (hgS c hc), except_ok_bind]
      have hw' : parabolicWeak info data k gauss (poly c).edges (vemCell2D ref (poly c) (s c)) mesh test time c = .ok (gW c) := hw
      rw [hw', except_ok_bind]
  · dsimp only
    rw [ventry_append, hRv i]
    rfl

end mesh

theorem entry_scale (a : ℝ) (A : List (Nat × Nat × ℝ)) (i j : Nat) : entry (scaleTriplets a A) i j = a * entry A i j := by
  unfold entry scaleTriplets
  rw [List.map_map, ← List.sum_map_mul_left]
  congr 1
  refine List.map_congr_left fun t _ => ?_
  simp only [Function.comp_def, mul_ite, mul_zero]

theorem ventry_scale (a : ℝ) (f : List (Nat × ℝ)) (i : Nat) : ventry (scaleVector a f) i = a * ventry f i := by
  unfold ventry scaleVector
  rw [List.map_map, ← List.sum_map_mul_left]
  congr 1
  refine List.map_congr_left fun t _ => ?_
  simp only [Function.comp_def, mul_ite, mul_zero]

theorem ventry_product (A : List (Nat × Nat × ℝ)) (x : List ℝ) (i : Nat) : ventry (addProduct A x) i = ∑ j ∈ Finset.range x.length, entry A i j * x.getD j 0 := by
  have h := ventry_subtract A x i
  have h2 : ventry (subtractProduct A x) i = -ventry (addProduct A x) i := by
    induction A with
    | nil => simp [ventry, subtractProduct, addProduct]
    | cons t A ih =>
      have ih' := ih (ventry_subtract A x i)
      unfold ventry subtractProduct addProduct at ih' ⊢
      simp only [List.map_cons, List.sum_cons, ih', neg_add]
      congr 1
      split_ifs <;> simp
  rw [h2] at h
  exact neg_injective h

/-- The right-hand side of a step, minus the new matrix on a vector. -/
theorem theta_rows (dt theta : ℝ) (P : ParabolicStatic ℝ) (st : ParabolicState ℝ) (d : ParabolicData ℝ) (x : List ℝ) (i : Nat) :
    ∑ j ∈ Finset.range x.length, entry (thetaMatrices dt theta P).next i j * x.getD j 0 - ventry (thetaRhs dt theta (thetaMatrices dt theta P) st d) i
      = dt * theta * (heatRow P.globalA P.dirichletA x d.dirichlet i - ventry d.rightHandSide i)
        + dt * (1 - theta) * (heatRow P.globalA P.dirichletA st.free st.strong i - ventry st.force i)
        + (heatRow P.globalM P.dirichletM x d.dirichlet i - heatRow P.globalM P.dirichletM st.free st.strong i) := by
  unfold thetaRhs thetaMatrices
  simp only [ventry_append, ventry_scale, ventry_product, ventry_subtract, entry_append, entry_scale, heatRow, add_mul, Finset.sum_add_distrib, mul_assoc, ← Finset.mul_sum]
  ring

end PolyDiM
