import Verif.Lemmas.PlaneExample

/-!
# Properties C90, C91 and C94: global vectors of degrees of freedom

The whole chain is run: reference element, numbers of DOFs per entity, numbering by the DOF manager, local spaces, and the functions of the assembler that fill or
read the global vectors.
-/

namespace PolyDiM

open Spec MvPolynomial MeasureTheory

variable {k : Nat} {mesh : PlaneMesh ℝ} {poly : Nat → VemPolygon ℝ} {n : Nat → Nat} {len : Nat → Nat → ℝ} {dir : Nat → Nat → Bool} {nrm : Nat → Nat → ℝ × ℝ}
  {triangle : Nat → Rule (ℝ × ℝ) ℝ} {edge : Nat → Rule ℝ ℝ} {ts ws : List ℝ} {w : ℝ} {lu llt : Solver ℝ}
  {ref : VemRef2D ℝ} {boundary : Nat → Option BInfo} {info : MeshInfo} {data : DOFsData}

/-- The local vector of a cell, given by the values of its references, is the vector of DOFs of a function. -/
theorem local_dofVector (hM : IsPlaneMesh k mesh poly n len dir nrm) (hts : ts.length = k - 1) {c : Nat} (hc : c < mesh.num2D) {u : ℝ × ℝ → ℝ} {M : Nat → Nat → ℝ}
    (hmom : ∀ a b, a + b + 2 ≤ k → M c (position a b) = 1 / (poly c).measure * ∫ p in unionOf (poly c).tris, scaledMonomial (poly c).centroid (poly c).diameter a b p * u p)
    {y : Nat → ℝ} (hy : ∀ j r, (vemList k mesh.topo c)[j]? = some r → y j = nodeValue mesh ts u M r) :
    IsDofVector k (poly c) (n c) (cellPoint mesh c) (dir c) ts u y := by
  refine ⟨fun e he => ?_, fun e he i t hi => ?_, fun a b hab => ?_⟩
  · rw [hy e _ (vemList_vertex (hM.vertices c hc) he)]
    rfl
  · have hlt : i < k - 1 := by
      rw [← hts]
      exact (List.getElem?_eq_some_iff.1 hi).1
    rw [hy _ _ (vemList_node (hM.vertices c hc) (hM.edges c hc) he hlt), edge_point hM hc he]
    have hti : ts.getD i 0 = t := by
      rw [List.getD_eq_getElem?_getD, hi]
      rfl
    rw [← hti]
    rfl
  · have hp : position a b < k * (k - 1) / 2 := by
      have := (position_lt (k := k - 2) (a := a) (b := b)).2 (by omega)
      rw [show k - 2 + 1 = k - 1 by omega] at this
      rwa [half_tri]
    rw [hy _ _ (vemList_internal (hM.vertices c hc) (hM.edges c hc) hp), ← hmom a b hab]
    rfl

/-- C90: `evaluate_function_on_dofs` fills vectors with the sizes of the DOF manager; for every function the value stored for a vertex of a cell is the value of
the function there, and the values stored for an edge are its values at the nodes of that edge, in the direction of the mesh. -/
theorem C90_nodes (hM : IsPlaneMesh k mesh poly n len dir nrm) (hT : IsTables k triangle edge ts ws w) (hlu : SolvesRegular lu) (hllt : SolvesPosDef llt)
    (hr : vemRef2D triangle edge k = .ok ref) (hi : vemMeshInfo ref mesh.topo boundary = .ok info) (hdata : createDOFs 2 info mesh.topo = .ok data)
    (hov : totalRequested info 2 < 2 ^ 32) (f : ℝ × ℝ → ℝ) :
    ∃ v, evaluateOnDofs data k (vemSpaces lu llt ref poly) mesh f = .ok v ∧ v.free.length = data.counters.dofs ∧ v.strong.length = data.counters.strongs ∧
      ∀ c < mesh.num2D, (∀ p ∈ mesh.topo.cell2DVertices c, valueOf data v.free v.strong ⟨0, p, 0⟩ = f (mesh.coords p)) ∧
        ∀ E ∈ mesh.topo.cell2DEdges c, ∀ j t, ts[j]? = some t → valueOf data v.free v.strong ⟨1, E, j⟩ = f (edgePoint mesh E t) := by
  obtain ⟨M, hM1, -⟩ := moments_ok hM hT hlu hllt hr f
  obtain ⟨v, hv, h1, h2, h3⟩ := evaluate_ok hM hT hlu hllt hr (handler_plane hT hr hi hdata hov) f M hM1
  refine ⟨v, hv, h1, h2, fun c hc => ⟨fun p hp => ?_, fun E hE j t hj => ?_⟩⟩
  · rw [h3 c hc ⟨0, p, 0⟩ (by simp [vemList, hp])]
    rfl
  · have hlt : j < k - 1 := by
      rw [← hT.nodes]
      exact (List.getElem?_eq_some_iff.1 hj).1
    rw [h3 c hc ⟨1, E, j⟩ (by simp [vemList, hE, hlt])]
    show f (edgePoint mesh E (ts.getD j 0)) = _
    rw [List.getD_eq_getElem?_getD, hj]
    rfl

/-- C90: for a polynomial of degree at most `k + 2` the vectors of `evaluate_function_on_dofs` hold the exact degrees of freedom: what `GlobalSolutionToLocalSolution`
extracts for any cell is the vector of DOFs of the polynomial on that cell. -/
theorem C90_polynomial (hM : IsPlaneMesh k mesh poly n len dir nrm) (hT : IsTables k triangle edge ts ws w) (hlu : SolvesRegular lu) (hllt : SolvesPosDef llt)
    (hr : vemRef2D triangle edge k = .ok ref) (hi : vemMeshInfo ref mesh.topo boundary = .ok info) (hdata : createDOFs 2 info mesh.topo = .ok data)
    (hov : totalRequested info 2 < 2 ^ 32) {q : MvPolynomial (Fin 2) ℝ} (hq : q.totalDegree ≤ k + 2) :
    ∃ v, evaluateOnDofs data k (vemSpaces lu llt ref poly) mesh (fun p => eval ![p.1, p.2] q) = .ok v ∧ v.free.length = data.counters.dofs ∧
      v.strong.length = data.counters.strongs ∧ ∀ c < mesh.num2D, ∃ y,
        globalToLocal 2 c [data] (n c + n c * (k - 1) + k * (k - 1) / 2) [0] [0] [0] v.free v.strong = .ok y ∧
        y.length = n c + n c * (k - 1) + k * (k - 1) / 2 ∧
        IsDofVector k (poly c) (n c) (cellPoint mesh c) (dir c) ts (fun p => eval ![p.1, p.2] q) fun j => y.getD j 0 := by
  have H := handler_plane hT hr hi hdata hov
  obtain ⟨M, hM1, hM2⟩ := moments_ok hM hT hlu hllt hr fun p => eval ![p.1, p.2] q
  obtain ⟨v, hv, h1, h2, h3⟩ := evaluate_ok hM hT hlu hllt hr H _ M hM1
  refine ⟨v, hv, h1, h2, fun c hc => ?_⟩
  obtain ⟨y, hy, hyl, hyv⟩ := H.local_values hc h1 h2
  rw [vemList_length k mesh.topo c (n c) (hM.vertices c hc) (hM.edges c hc)] at hy hyl
  refine ⟨y, hy, hyl, local_dofVector hM hT.nodes hc (hM2 q hq (fun _ => rfl) c hc) fun j r hj => ?_⟩
  rw [hyv j r hj, h3 c hc r (List.mem_of_getElem? hj)]

/-- The mesh of two triangles, order 2, and a polynomial of degree 4 meet the hypotheses of `C90_nodes` and `C90_polynomial`. -/
example : ∃ lu llt : Solver ℝ, ∃ ref info data v y, SolvesRegular lu ∧ SolvesPosDef llt ∧ vemMeshInfo ref patchMesh.topo patchBoundary = .ok info ∧
    createDOFs 2 info patchMesh.topo = .ok data ∧
    evaluateOnDofs data 2 (vemSpaces lu llt ref patchPoly) patchMesh (fun p => eval ![p.1, p.2] (X 0 ^ 3 * X 1 : MvPolynomial (Fin 2) ℝ)) = .ok v ∧
    v.free.length = 6 ∧ v.strong.length = 5 ∧ globalToLocal 2 1 [data] 7 [0] [0] [0] v.free v.strong = .ok y ∧
    IsDofVector 2 (patchPoly 1) 3 (cellPoint patchMesh 1) (patchDir 1) [1 / 2] (fun p => eval ![p.1, p.2] (X 0 ^ 3 * X 1 : MvPolynomial (Fin 2) ℝ)) fun j => y.getD j 0 := by
  obtain ⟨lu, h1, h2⟩ := exists_solvers
  obtain ⟨ref, info, data, hr, hi, hd, ho, -, hc, hs⟩ := patch_dofs
  have hq : (X 0 ^ 3 * X 1 : MvPolynomial (Fin 2) ℝ).totalDegree ≤ 2 + 2 := by
    refine (totalDegree_mul _ _).trans ?_
    rw [totalDegree_X]
    have := totalDegree_pow (X 0 : MvPolynomial (Fin 2) ℝ) 3
    rw [totalDegree_X] at this
    omega
  obtain ⟨v, hv, hf, hst, h⟩ := C90_polynomial patch_mesh square_tables h1 h2 hr hi hd ho hq
  obtain ⟨y, hy, -, hdof⟩ := h 1 (by show 1 < 2; norm_num)
  exact ⟨lu, lu, ref, info, data, v, y, h1, h2, hi, hd, hv, hf.trans hc, hst.trans hs, hy, hdof⟩

/-- C91: `assemble_strong_solution` fills the vector of the strong DOFs: at a vertex of an active cell the boundary datum of the marker of the vertex at that point, at a
node of an edge of an active cell the datum of the marker of the edge at that node; every other entry, in particular of the internal DOFs of cells, is zero. -/
theorem C91_strong (hM : IsPlaneMesh k mesh poly n len dir nrm) (hT : IsTables k triangle edge ts ws w) (hlu : SolvesRegular lu) (hllt : SolvesPosDef llt)
    (hr : vemRef2D triangle edge k = .ok ref) (hi : vemMeshInfo ref mesh.topo boundary = .ok info) (hdata : createDOFs 2 info mesh.topo = .ok data)
    (hov : totalRequested info 2 < 2 ^ 32) (gD : Nat → ℝ × ℝ → ℝ) :
    ∃ g, strongSolution info data k (vemSpaces lu llt ref poly) mesh gD = .ok g ∧ g.length = data.counters.strongs ∧
      (∀ c ∈ mesh.cells, ∀ p ∈ mesh.topo.cell2DVertices c, ∀ b, (info.bInfo 0)[p]? = some b → b.type = .strong →
        ∃ i, lookup data ⟨0, p, 0⟩ = some ⟨.strong, i⟩ ∧ g[i]? = some (gD b.marker (mesh.coords p))) ∧
      (∀ c ∈ mesh.cells, ∀ E ∈ mesh.topo.cell2DEdges c, ∀ b, (info.bInfo 1)[E]? = some b → b.type = .strong → ∀ j t, ts[j]? = some t →
        ∃ i, lookup data ⟨1, E, j⟩ = some ⟨.strong, i⟩ ∧ g[i]? = some (gD b.marker (edgePoint mesh E t))) ∧
      ∀ r i, lookup data r = some ⟨.strong, i⟩ → (∀ c ∈ mesh.cells, (r.dim = 0 → r.cell ∉ mesh.topo.cell2DVertices c) ∧ (r.dim = 1 → r.cell ∉ mesh.topo.cell2DEdges c)) →
        g[i]? = some 0 := by
  have H := handler_plane hT hr hi hdata hov
  obtain ⟨g, hg, hl, hv⟩ := strong_ok hM hT hlu hllt hr H gD
  have hget : ∀ {r i x}, lookup data r = some ⟨.strong, i⟩ → g.getD i 0 = x → g[i]? = some x := by
    intro r i x h1 h2
    have : i < g.length := by rw [hl]; exact H.strong r i h1
    rw [List.getD_eq_getElem?_getD, List.getElem?_eq_getElem this] at h2
    rw [List.getElem?_eq_getElem this, ← h2]
    rfl
  refine ⟨g, hg, hl, fun c hc p hp b hb ht => ?_, fun c hc E hE b hb ht j t hj => ?_, fun r i hri hnot => ?_⟩
  · obtain ⟨x, b', hx, hb', hx', -⟩ := H.lookup_some (d := 0) (by norm_num) (H.verts c (mem_cells.1 hc).1 p hp) (j := 0) (by simp [numOf])
    rw [hb] at hb'
    obtain rfl := Option.some.inj hb'
    obtain ⟨t, i⟩ := x
    dsimp only at hx'
    rw [ht, show typeFor .strong = .strong from rfl] at hx'
    subst hx'
    refine ⟨i, hx, hget hx ?_⟩
    rw [(hv _ i hx).1 c hc (by simp [hp])]
    simp [nodeValue, markerOf, hb]
  · have hlt : j < k - 1 := by
      rw [← hT.nodes]
      exact (List.getElem?_eq_some_iff.1 hj).1
    obtain ⟨x, b', hx, hb', hx', -⟩ := H.lookup_some (d := 1) (by norm_num) (H.edges c (mem_cells.1 hc).1 E hE) (j := j) (by simpa [numOf] using hlt)
    rw [hb] at hb'
    obtain rfl := Option.some.inj hb'
    obtain ⟨t', i⟩ := x
    dsimp only at hx'
    rw [ht, show typeFor .strong = .strong from rfl] at hx'
    subst hx'
    refine ⟨i, hx, hget hx ?_⟩
    rw [(hv _ i hx).1 c hc (by simp [hE, hlt])]
    simp [nodeValue, markerOf, hb, List.getD_eq_getElem?_getD, hj]
  · refine hget hri ((hv r i hri).2 fun c hc hmem => ?_)
    simp only [List.mem_append, List.mem_map, List.mem_flatMap] at hmem
    rcases hmem with ⟨v, hv, rfl⟩ | ⟨E, hE, j, -, rfl⟩
    · exact (hnot c hc).1 rfl hv
    · exact (hnot c hc).2 rfl hE

/-- C91: where every strong vertex and edge lies on an active cell, no cell is strong and the datum agrees with a function `f`,
`assemble_strong_solution` gives the same strong DOFs as `evaluate_function_on_dofs` does for `f`. -/
theorem C91_interpolant (hM : IsPlaneMesh k mesh poly n len dir nrm) (hT : IsTables k triangle edge ts ws w) (hlu : SolvesRegular lu) (hllt : SolvesPosDef llt)
    (hr : vemRef2D triangle edge k = .ok ref) (hi : vemMeshInfo ref mesh.topo boundary = .ok info) (hdata : createDOFs 2 info mesh.topo = .ok data)
    (hov : totalRequested info 2 < 2 ^ 32) {f : ℝ × ℝ → ℝ} {gD : Nat → ℝ × ℝ → ℝ}
    (hg : ∀ d ≤ 2, ∀ (b : BInfo) (E : Nat), (info.bInfo d)[E]? = some b → b.type = .strong → d ≤ 1 ∧ ∃ c ∈ mesh.cells, E ∈ entities mesh d c)
    (hf : ∀ d ≤ 2, ∀ (b : BInfo) (E : Nat), (info.bInfo d)[E]? = some b → b.type = .strong → ∀ p, gD b.marker p = f p) :
    ∃ v, evaluateOnDofs data k (vemSpaces lu llt ref poly) mesh f = .ok v ∧ strongSolution info data k (vemSpaces lu llt ref poly) mesh gD = .ok v.strong := by
  have H := handler_plane hT hr hi hdata hov
  obtain ⟨M, hM1, -⟩ := moments_ok hM hT hlu hllt hr f
  obtain ⟨v, hv, h1, h2, h3⟩ := evaluate_ok hM hT hlu hllt hr H f M hM1
  obtain ⟨g, hg', hl, hgv⟩ := strong_ok hM hT hlu hllt hr H gD
  suffices h : g = v.strong from ⟨v, hv, h ▸ hg'⟩
  refine List.ext_getElem? fun i => ?_
  by_cases hi' : i < data.counters.strongs
  swap
  · rw [List.getElem?_eq_none (by omega), List.getElem?_eq_none (by omega)]
  obtain ⟨⟨d, E, j⟩, hri⟩ := H.ontoStrong i hi'
  obtain ⟨hd, hc, hj⟩ := H.range _ _ hri
  dsimp only at hd hc hj
  obtain ⟨b, hb, hbt⟩ := H.type_of hd hc hri
  have hbs : b.type = .strong := typeFor_strong hbt.symm
  obtain ⟨hd1, c, hcc, hE⟩ := hg d hd b E hb hbs
  have hmem : (⟨d, E, j⟩ : GDOF) ∈ (mesh.topo.cell2DVertices c).map (fun v => (⟨0, v, 0⟩ : GDOF)) ++ (mesh.topo.cell2DEdges c).flatMap (fun e => (List.range (k - 1)).map fun j => ⟨1, e, j⟩) := by
    interval_cases d
    · have : j = 0 := by simpa [numOf] using hj
      simp [this, show E ∈ mesh.topo.cell2DVertices c from hE]
    · have : j < k - 1 := by simpa [numOf] using hj
      simp [this, show E ∈ mesh.topo.cell2DEdges c from hE]
  have hgi := (hgv _ i hri).1 c hcc hmem
  have hvi := h3 c (mem_cells.1 hcc).1 ⟨d, E, j⟩ (List.mem_append_left _ hmem)
  rw [valueOf, hri] at hvi
  dsimp only at hvi hgi
  rw [List.getD_eq_getElem?_getD, List.getElem?_eq_getElem (by omega), Option.getD_some] at hgi hvi
  rw [List.getElem?_eq_getElem (by omega), List.getElem?_eq_getElem (by omega), hgi, hvi]
  have hm : markerOf info d E = b.marker := by simp [markerOf, hb]
  have hgf : gD (markerOf info d E) = f := by
    rw [hm]
    exact funext (hf d hd b E hb hbs)
  rw [hgf]
  congr 1
  unfold nodeValue
  dsimp only
  interval_cases d <;> rfl

/-- The mesh of two triangles meets the hypotheses of `C91_strong` and `C91_interpolant`: five strong DOFs, and the third vertex carries the value of the datum. -/
example : ∃ lu llt : Solver ℝ, ∃ ref info data g i, SolvesRegular lu ∧ SolvesPosDef llt ∧ vemMeshInfo ref patchMesh.topo patchBoundary = .ok info ∧
    createDOFs 2 info patchMesh.topo = .ok data ∧
    strongSolution info data 2 (vemSpaces lu llt ref patchPoly) patchMesh (fun m p => m * (p.1 + 7 * p.2)) = .ok g ∧ g.length = 5 ∧
    lookup data ⟨0, 3, 0⟩ = some ⟨.strong, i⟩ ∧ g[i]? = some 7 := by
  obtain ⟨lu, h1, h2⟩ := exists_solvers
  obtain ⟨ref, info, data, hr, hi, hd, ho, hb, hc, hs⟩ := patch_dofs
  obtain ⟨g, hg, hl, hv, -, -⟩ := C91_strong patch_mesh square_tables h1 h2 hr hi hd ho fun m p => m * (p.1 + 7 * p.2)
  obtain ⟨i, hl', hgi⟩ := hv 1 (by simp [PlaneMesh.cells, PlaneMesh.num2D, patchMesh, patchTopo]) 3 (by simp [patchMesh, patchTopo]) ⟨.strong, 1⟩ (by rw [hb.1]; rfl) rfl
  refine ⟨lu, lu, ref, info, data, g, i, h1, h2, hi, hd, hg, hl.trans hs, hl', ?_⟩
  rw [hgi]
  norm_num [patchMesh, squareV]

/-- The mesh of two triangles meets the conditions on strong entities in `C91_interpolant`. -/
example : ∃ ref info data, vemRef2D (fun _ => ⟨nc4Points, nc4Weights⟩) (fun _ => ⟨[0, 1 / 2, 1], [1 / 6, 2 / 3, 1 / 6]⟩) 2 = .ok ref ∧
    vemMeshInfo ref patchMesh.topo patchBoundary = .ok info ∧ createDOFs 2 info patchMesh.topo = .ok data ∧
    (∀ d ≤ 2, ∀ (b : BInfo) (E : Nat), (info.bInfo d)[E]? = some b → b.type = .strong → d ≤ 1 ∧ ∃ c ∈ patchMesh.cells, E ∈ entities patchMesh d c) := by
  obtain ⟨ref, info, data, hr, hi, hd, -, ⟨hb0, hb1, hb2⟩, -⟩ := patch_dofs
  refine ⟨ref, info, data, hr, hi, hd, fun d hd' b E hb ht => ?_⟩
  have hcells : patchMesh.cells = [0, 1] := by simp [PlaneMesh.cells, PlaneMesh.num2D, patchMesh, patchTopo, List.range_succ]
  rw [hcells]
  interval_cases d
  · rw [hb0] at hb
    have hE : E < 4 := (List.getElem?_eq_some_iff.1 hb).1
    interval_cases E <;> simp_all [entities, patchMesh, patchTopo]
  · rw [hb1] at hb
    have hE : E < 5 := (List.getElem?_eq_some_iff.1 hb).1
    interval_cases E <;> simp_all [entities, patchMesh, patchTopo]
  · rw [hb2] at hb
    have hE : E < 2 := (List.getElem?_eq_some_iff.1 hb).1
    interval_cases E <;> simp_all
    all_goals rw [← hb] at ht; simp at ht

/-- C94: `extract_solution_on_cell0Ds` returns, for every active vertex, the value its degree of freedom has in the solution, and zero elsewhere. -/
theorem C94_extract (hT : IsTables k triangle edge ts ws w)
    (hr : vemRef2D triangle edge k = .ok ref) (hi : vemMeshInfo ref mesh.topo boundary = .ok info) (hdata : createDOFs 2 info mesh.topo = .ok data)
    (hov : totalRequested info 2 < 2 ^ 32) {free strong : List ℝ} (hf : free.length = data.counters.dofs) (hs : strong.length = data.counters.strongs) :
    ∃ y, solutionOnCell0Ds mesh data free strong = .ok y ∧ y.length = mesh.num0D ∧
      ∀ p < mesh.num0D, y[p]? = some (if mesh.active0D p then valueOf data free strong ⟨0, p, 0⟩ else 0) := by
  have H := handler_plane hT hr hi hdata hov
  have hok : ∀ p ∈ List.range mesh.num0D, (if mesh.active0D p then valueOnCell0D data free strong p else .ok 0)
      = .ok (if mesh.active0D p then valueOf data free strong ⟨0, p, 0⟩ else 0) := by
    intro p hp
    split_ifs
    · obtain ⟨x, b, hx, -, -, hxl, -⟩ := H.cell 0 (by norm_num) p (List.mem_range.1 hp)
      have h1 : numOf k 0 = 1 := rfl
      obtain ⟨y, hy⟩ : ∃ y, x.dofs = [y] := List.length_eq_one_iff.1 (by omega)
      have hl : lookup data ⟨0, p, 0⟩ = some y := by
        rw [Handler.lookup_cell hx, hy]
        rfl
      unfold valueOnCell0D
      rw [(atIdx_ok_iff _ _ _).2 hx, except_ok_bind, hy, List.foldlM_cons]
      rw [valueOf, hl]
      have hk := H.known _ _ hl
      obtain ⟨t, i⟩ := y
      cases t with
      | unknwon => exact absurd rfl hk
      | dof =>
        have := H.free _ i hl
        dsimp only
        rw [(unchecked_ok_iff _ _ _).2 (List.getElem?_eq_getElem (show i < free.length by omega)), except_ok_bind, List.foldlM_nil,
          List.getD_eq_getElem?_getD, List.getElem?_eq_getElem (show i < free.length by omega)]
        rfl
      | strong =>
        have := H.strong _ i hl
        dsimp only
        rw [(unchecked_ok_iff _ _ _).2 (List.getElem?_eq_getElem (show i < strong.length by omega)), except_ok_bind, List.foldlM_nil,
          List.getD_eq_getElem?_getD, List.getElem?_eq_getElem (show i < strong.length by omega)]
        rfl
    · rfl
  refine ⟨_, mapM_ok _ (fun p => if mesh.active0D p then valueOf data free strong ⟨0, p, 0⟩ else 0) _ hok, by simp, fun p hp => ?_⟩
  simp [hp]

/-- C94: the values of an interpolated function come back unchanged at every active vertex of the mesh that belongs to a cell. -/
theorem C94_roundtrip (hM : IsPlaneMesh k mesh poly n len dir nrm) (hT : IsTables k triangle edge ts ws w) (hlu : SolvesRegular lu) (hllt : SolvesPosDef llt)
    (hr : vemRef2D triangle edge k = .ok ref) (hi : vemMeshInfo ref mesh.topo boundary = .ok info) (hdata : createDOFs 2 info mesh.topo = .ok data)
    (hov : totalRequested info 2 < 2 ^ 32) (f : ℝ × ℝ → ℝ) :
    ∃ v y, evaluateOnDofs data k (vemSpaces lu llt ref poly) mesh f = .ok v ∧ solutionOnCell0Ds mesh data v.free v.strong = .ok y ∧
      ∀ c < mesh.num2D, ∀ p ∈ mesh.topo.cell2DVertices c, mesh.active0D p = true → y[p]? = some (f (mesh.coords p)) := by
  obtain ⟨v, hv, h1, h2, h3⟩ := C90_nodes hM hT hlu hllt hr hi hdata hov f
  obtain ⟨y, hy, -, hyv⟩ := C94_extract (mesh := mesh) hT hr hi hdata hov h1 h2
  refine ⟨v, y, hv, hy, fun c hc p hp ha => ?_⟩
  rw [hyv p ((handler_plane hT hr hi hdata hov).verts c hc p hp), if_pos ha, (h3 c hc).1 p hp]

/-- The mesh of two triangles meets the hypotheses of `C94_extract` and `C94_roundtrip`. -/
example : ∃ lu llt : Solver ℝ, ∃ ref info data v y, SolvesRegular lu ∧ SolvesPosDef llt ∧ vemMeshInfo ref patchMesh.topo patchBoundary = .ok info ∧
    createDOFs 2 info patchMesh.topo = .ok data ∧ evaluateOnDofs data 2 (vemSpaces lu llt ref patchPoly) patchMesh (fun p => p.1 + 2 * p.2) = .ok v ∧
    solutionOnCell0Ds patchMesh data v.free v.strong = .ok y ∧ y[2]? = some 3 := by
  obtain ⟨lu, h1, h2⟩ := exists_solvers
  obtain ⟨ref, info, data, hr, hi, hd, ho, -⟩ := patch_dofs
  obtain ⟨v, y, hv, hy, h⟩ := C94_roundtrip patch_mesh square_tables h1 h2 hr hi hd ho fun p => p.1 + 2 * p.2
  refine ⟨lu, lu, ref, info, data, v, y, h1, h2, hi, hd, hv, hy, ?_⟩
  rw [h 1 (by show 1 < 2; norm_num) 2 (by simp [patchMesh, patchTopo]) rfl]
  norm_num [patchMesh, squareV]

end PolyDiM
