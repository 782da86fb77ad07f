import Verif.Lemmas.EllipticGlobal

/-!
# C133: the patch test for the advection-diffusion example
-/

namespace PolyDiM

open Spec MvPolynomial

variable {k : Nat} {mesh : PlaneMesh ℝ} {poly : Nat → VemPolygon ℝ} {n : Nat → Nat} {len : Nat → Nat → ℝ} {dir : Nat → Nat → Bool} {nrm : Nat → Nat → ℝ × ℝ}
  {triangle : Nat → Rule (ℝ × ℝ) ℝ} {edge : Nat → Rule ℝ ℝ} {ts ws : List ℝ} {w : ℝ} {lu llt : Solver ℝ}
  {ref : VemRef2D ℝ} {boundary : Nat → Option BInfo} {info : MeshInfo} {data : DOFsData} {gauss : Nat → Rule ℝ ℝ}

/-- C133: the advection-diffusion example with the VEM passes the patch test. Let `q` be a polynomial of degree at most `k`, `κ` a constant diffusion and `β` any advection field.
With the source `-κ Δq + β·∇q`, the values of `q` on the Dirichlet boundary and the flux `κ ∇q·n` on the Neumann boundary the system made by `Assemble` is solved by the degrees
of freedom of `q`: without SUPG, and with SUPG if the advection does not vanish on a whole cell. `solutionDirichlet` holds the strong DOFs of `q`. -/
theorem C133_patch (hM : IsPlaneMesh k mesh poly n len dir nrm) (hT : IsTables k triangle edge ts ws w) (hd : (0 :: 1 :: ts).Nodup) (hlu : SolvesRegular lu)
    (hllt : SolvesPosDef llt) (hr : vemRef2D triangle edge k = .ok ref) (hi : vemMeshInfo ref mesh.topo boundary = .ok info) (hdata : createDOFs 2 info mesh.topo = .ok data)
    (hov : totalRequested info 2 < 2 ^ 32) (hgl : (gauss (2 * k)).weights.length = (gauss (2 * k)).points.length)
    (hge : ExactOnSegment (2 * k) (gauss (2 * k)).points (gauss (2 * k)).weights) (hg01 : ∀ t ∈ (gauss (2 * k)).points, 0 ≤ t ∧ t ≤ 1)
    (hact : ∀ c < mesh.num2D, mesh.active2D c = true) (config : EllipticConfig ℝ) (diameters : Nat → ℝ) (κ : ℝ) {test : EllipticTest ℝ} {q : MvPolynomial (Fin 2) ℝ}
    (hq : q.totalDegree ≤ k) (hdiff : ∀ p, test.diffusion p = κ)
    (hsrc : ∀ p, test.source p = -(κ * eval ![p.1, p.2] (pderiv 0 (pderiv 0 q) + pderiv 1 (pderiv 1 q)))
      + (test.advection p 0 * eval ![p.1, p.2] (pderiv 0 q) + test.advection p 1 * eval ![p.1, p.2] (pderiv 1 q)))
    (hsupg : config.supg = true → ∀ c < mesh.num2D, ∀ s, vemCreate2D lu llt ref (poly c) = .ok s → advectionSquare s.internal test.advection ≠ 0)
    (htypes : ∀ (E : Nat) (b : BInfo), (info.bInfo 1)[E]? = some b → b.type = .none ∨ b.type = .weak ∨ b.type = .strong)
    (hinner : ∀ (E : Nat) (b : BInfo), (info.bInfo 1)[E]? = some b → b.type = .none → signedCount mesh n dir E = 0)
    (hstrong : ∀ (E : Nat) (b : BInfo), (info.bInfo 1)[E]? = some b → b.type = .strong → bTypeOf info (0, (mesh.topo.cell1DVertices E).1) = some .strong ∧
      bTypeOf info (0, (mesh.topo.cell1DVertices E).2) = some .strong)
    (hN : ∀ c ∈ mesh.cells, ∀ e < n c, ∀ b : BInfo, (info.bInfo 1)[cellEdge mesh c e]? = some b → b.type = .weak → ∀ t, 0 ≤ t → t ≤ 1 →
      test.weak b.marker (edgePoint mesh (cellEdge mesh c e) t)
        = κ * (eval ![(edgePoint mesh (cellEdge mesh c e) t).1, (edgePoint mesh (cellEdge mesh c e) t).2] (pderiv 0 q) * (nrm c e).1
          + eval ![(edgePoint mesh (cellEdge mesh c e) t).1, (edgePoint mesh (cellEdge mesh c e) t).2] (pderiv 1 q) * (nrm c e).2))
    (hg : ∀ d ≤ 2, ∀ (b : BInfo) (E : Nat), (info.bInfo d)[E]? = some b → b.type = .strong → d ≤ 1 ∧ ∃ c ∈ mesh.cells, E ∈ entities mesh d c)
    (hf : ∀ d ≤ 2, ∀ (b : BInfo) (E : Nat), (info.bInfo d)[E]? = some b → b.type = .strong → ∀ p : ℝ × ℝ, test.strong b.marker p = eval ![p.1, p.2] q) :
    ∃ P v, assembleEllipticExample config info data k gauss (fun c => (poly c).edges) diameters (vemEllipticSpaces lu llt ref poly) mesh test = .ok P ∧
      evaluateOnDofs data k (vemSpaces lu llt ref poly) mesh (fun p => eval ![p.1, p.2] q) = .ok v ∧ v.free.length = data.counters.dofs ∧ P.dirichlet = v.strong ∧
      ∀ i, ∑ j ∈ Finset.range v.free.length, entry P.globalMatrix i j * v.free.getD j 0 = ventry P.rightHandSide i := by
  have H := handler_plane hT hr hi hdata hov
  have hk := hT.low
  have hcells : mesh.cells = List.range mesh.num2D := by
    unfold PlaneMesh.cells
    exact List.filter_eq_self.2 fun c hc => hact c (List.mem_range.1 hc)
  have hdeg : ∀ d, (C κ * pderiv d q).totalDegree ≤ k - 1 := fun d => (totalDegree_mul _ _).trans (by
    rw [totalDegree_C, zero_add]
    exact (totalDegree_pderiv d q).trans (by omega))
  -- the cells
  have hloc : ∀ c, ∃ l : EllipticLocal ℝ, c < mesh.num2D → ∃ s, vemCreate2D lu llt ref (poly c) = .ok s ∧
      ellipticLocal config (vemEllipticCell ref (poly c) s) (diameters c) test = .ok l ∧
      l.matrix.rows = (vemList k mesh.topo c).length ∧ l.matrix.cols = (vemList k mesh.topo c).length ∧ l.rhs.rows = (vemList k mesh.topo c).length ∧
      ∀ y, IsDofVector k (poly c) (n c) (cellPoint mesh c) (dir c) ts (fun p => eval ![p.1, p.2] q) y → ∀ v : Nat → ℝ,
        ∑ i ∈ Finset.range (vemList k mesh.topo c).length, v i * (apply l.matrix y i - l.rhs.ent i 0)
          = ∑ e ∈ Finset.range (n c), ((clockwise (cellPoint mesh c ((e + 1) % n c) - cellPoint mesh c e)).1 *
                nodeSum ts ws w (fun t => eval ![(edgePoint mesh (cellEdge mesh c e) t).1, (edgePoint mesh (cellEdge mesh c e) t).2] (C κ * pderiv 0 q))
                  (v (startOf (n c) (dir c e) e)) (v (stopOf (n c) (dir c e) e)) (fun r => v (n c + e * (k - 1) + r))
              + (clockwise (cellPoint mesh c ((e + 1) % n c) - cellPoint mesh c e)).2 *
                nodeSum ts ws w (fun t => eval ![(edgePoint mesh (cellEdge mesh c e) t).1, (edgePoint mesh (cellEdge mesh c e) t).2] (C κ * pderiv 1 q))
                  (v (startOf (n c) (dir c e) e)) (v (stopOf (n c) (dir c e) e)) (fun r => v (n c + e * (k - 1) + r))) := by
    intro c
    by_cases hc : c < mesh.num2D
    swap
    · exact ⟨⟨⟨0, 0, fun _ _ => 0⟩, ⟨0, 0, fun _ _ => 0⟩, none, 0⟩, fun h => absurd h hc⟩
    obtain ⟨r', s, hr', hs, hl⟩ := elliptic_residual (hM.element c hc) hT hlu hllt (hM.measure c hc) config (diameters c) κ hq rfl rfl hdiff hsrc
    obtain rfl : r' = ref := Except.ok.inj (hr'.symm.trans hr)
    obtain ⟨l, hl, h1, h2, h3, h4⟩ := hl fun h => hsupg h c hc s hs
    have hlen := vemList_length k mesh.topo c (n c) (hM.vertices c hc) (hM.edges c hc)
    refine ⟨l, fun _ => ⟨s, hs, hl, h1.trans hlen.symm, h2.trans hlen.symm, h3.trans hlen.symm, fun y hy v => ?_⟩⟩
    rw [hlen, h4 y hy v]
    refine Finset.sum_congr rfl fun e he => ?_
    simp only [edge_point hM hc (Finset.mem_range.1 he)]
  choose l hloc using hloc
  obtain ⟨S, R, W, v, hS, hR, hW, hv, hvf, hvs, hrow⟩ := patch_rows (gN := test.weak) hM hT hd hlu hllt hr hi hdata hov hgl hge hg01 hq (hdeg 0) (hdeg 1) htypes hinner hstrong
    (fun c hc e he b hb ht t h0 h1 => by
      rw [hN c hc e he b hb ht t h0 h1]
      simp only [map_mul, eval_C]
      ring) (fun c => (l c).matrix) (fun c => (l c).rhs) fun c hc => by
    obtain ⟨s, -, -, h1, h2, h3, h4⟩ := hloc c hc
    exact ⟨h1, h2, h3, h4⟩
  obtain ⟨v', hv', hst⟩ := C91_interpolant (gD := test.strong) hM hT hlu hllt hr hi hdata hov hg hf
  obtain rfl : v' = v := Except.ok.inj (hv'.symm.trans hv)
  -- the strong and the weak term
  obtain ⟨logS, hlogS, hfold⟩ := (bind_ok_iff _ _ _).1 hst
  obtain ⟨gS, hgS, rfl⟩ := mapM_inv hlogS
  obtain ⟨logW, hlogW, hWe⟩ := (bind_ok_iff _ _ _).1 hW
  obtain ⟨gW, hgW, rfl⟩ := mapM_inv hlogW
  have hWe' : (mesh.cells.map gW).flatten = W := Except.ok.inj hWe
  have hsplit := assembleAll_split mesh.cells (fun c => (l c).matrix) (fun c => (l c).rhs) hS hR
  rw [hcells] at hgS hgW hWe' hfold hsplit
  have hcell : ∀ c ∈ List.range mesh.num2D, ellipticCell config info data k gauss (fun c => (poly c).edges) diameters (vemEllipticSpaces lu llt ref poly) mesh test c
      = .ok ⟨⟨c, oneField data, some (oneField data, (l c).matrix.toLMat), some (l c).rhs.toList⟩, gS c, gW c, (l c).peclet, (l c).stability⟩ := by
    intro c hc
    have hc' := List.mem_range.1 hc
    obtain ⟨s, hs, hl, -⟩ := hloc c hc'
    have hsp : vemSpaces lu llt ref poly c = .ok (vemCell2D ref (poly c) s) := by rw [vemSpaces, hs, except_ok_bind]
    have hw := hgW c hc
    rw [hsp, except_ok_bind] at hw
    obtain ⟨es, hes, hw⟩ := (bind_ok_iff _ _ _).1 hw
    rw [ellipticCell, vemEllipticSpaces, hs, except_ok_bind, except_ok_bind, hl, except_ok_bind, strong_same H hdata hc' hs (hgS c hc), except_ok_bind, weak_same H hdata hc' hes,
      except_ok_bind, Except.ok.inj hw]
  refine ⟨⟨S.lhsDOFs, S.lhsStrongs, R.rhs ++ W ++ (if 0 < data.counters.strongs then subtractProduct S.lhsStrongs v'.strong else []), v'.strong,
    (List.range mesh.num2D).map fun c => (l c).peclet, (List.range mesh.num2D).map fun c => (l c).stability⟩, v', ?_, hv, hvf, rfl, fun i => ?_⟩
  · unfold assembleEllipticExample
    rw [mapM_ok _ _ _ hcell, except_ok_bind]
    simp only [List.map_map, Function.comp_def]
    rw [hsplit, except_ok_bind]
    dsimp only
    rw [hfold, except_ok_bind, hWe']
  · have h := hrow i
    dsimp only
    rw [ventry_append, ventry_append, ← h]
    split_ifs with h0
    · rw [ventry_subtract]
      ring
    · have : v'.strong.length = 0 := by omega
      rw [this]
      simp [ventry]

/-- The data of the examples: diffusion `κ`, advection `(1, 0)` and the exact solution `q`; the Neumann sides of `patchMesh` are the right one (marker 2) and the upper one (marker 3). -/
noncomputable def patchFlow (κ : ℝ) (q : MvPolynomial (Fin 2) ℝ) : EllipticTest ℝ :=
  { diffusion := fun _ => κ
    advection := fun _ d => if d = 0 then 1 else 0
    source := fun p => -(κ * eval ![p.1, p.2] (pderiv 0 (pderiv 0 q) + pderiv 1 (pderiv 1 q))) + eval ![p.1, p.2] (pderiv 0 q)
    strong := fun _ p => eval ![p.1, p.2] q
    weak := fun m p => if m = 2 then κ * eval ![p.1, p.2] (pderiv 0 q) else κ * eval ![p.1, p.2] (pderiv 1 q) }

-- C133: the mesh of two triangles, order 2, SUPG on, any polynomial of degree 2
example (κ : ℝ) (q : MvPolynomial (Fin 2) ℝ) (hq : q.totalDegree ≤ 2) : ∃ lu llt : Solver ℝ, ∃ ref info data P v, SolvesRegular lu ∧ SolvesPosDef llt ∧
    vemMeshInfo ref patchMesh.topo patchBoundary = .ok info ∧ createDOFs 2 info patchMesh.topo = .ok data ∧
    assembleEllipticExample ⟨true, 1⟩ info data 2 (fun _ => ⟨[0, 1 / 4, 1 / 2, 3 / 4, 1], [7 / 90, 16 / 45, 2 / 15, 16 / 45, 7 / 90]⟩) (fun c => (patchPoly c).edges) (fun _ => 1)
      (vemEllipticSpaces lu llt ref patchPoly) patchMesh (patchFlow κ q) = .ok P ∧
    evaluateOnDofs data 2 (vemSpaces lu llt ref patchPoly) patchMesh (fun p => eval ![p.1, p.2] q) = .ok v ∧ v.free.length = 6 ∧
    ∀ i, ∑ j ∈ Finset.range v.free.length, entry P.globalMatrix i j * v.free.getD j 0 = ventry P.rightHandSide i := by
  obtain ⟨lu, h1, h2⟩ := exists_solvers
  obtain ⟨ref, info, data, hr, hi, hd, ho, ⟨hb0, hb1, hb2⟩, hc, hs⟩ := patch_dofs
  obtain ⟨p1, p2, p3, p4⟩ := patch_conditions hb0 hb1
  have hcells : patchMesh.cells = [0, 1] := by simp [PlaneMesh.cells, PlaneMesh.num2D, patchMesh, patchTopo, List.range_succ]
  obtain ⟨P, v, hP, hv, hvf, -, h⟩ := C133_patch (gauss := fun _ => ⟨[0, 1 / 4, 1 / 2, 3 / 4, 1], [7 / 90, 16 / 45, 2 / 15, 16 / 45, 7 / 90]⟩) (test := patchFlow κ q) patch_mesh square_tables
    (by norm_num) h1 h2 hr hi hd ho rfl boole_exact (by intro t ht; simp only [List.mem_cons, List.not_mem_nil, or_false] at ht; rcases ht with rfl | rfl | rfl | rfl | rfl <;> norm_num)
    (fun c _ => rfl) ⟨true, 1⟩ (fun _ => 1) κ hq (fun _ => rfl) (fun p => by simp [patchFlow])
    (fun _ c hc s hs => by
      obtain ⟨r', s', hr', hs', hok⟩ := vemCreate_ok (patch_mesh.element c hc) square_tables h1 h2
      obtain rfl : r' = ref := Except.ok.inj (hr'.symm.trans hr)
      obtain rfl : s' = s := Except.ok.inj (hs'.symm.trans hs)
      exact (advection_pos (β := (patchFlow κ q).advection) hok fun p => ⟨rfl, rfl⟩).1.ne')
    p1 p2 p3 (fun c hc e he b hb ht t _ _ => (p4 (fun p => κ * eval ![p.1, p.2] (pderiv 0 q)) (fun p => κ * eval ![p.1, p.2] (pderiv 1 q)) c hc e he b hb ht _).trans (by ring))
    (fun d hd' b E hb ht => by
      rw [hcells]
      interval_cases d
      · rw [hb0] at hb
        have hE : E < 4 := (List.getElem?_eq_some_iff.1 hb).1
        interval_cases E <;> simp_all [entities, patchMesh, patchTopo]
      · rw [hb1] at hb
        have hE : E < 5 := (List.getElem?_eq_some_iff.1 hb).1
        interval_cases E <;> simp_all [entities, patchMesh, patchTopo]
      · rw [hb2] at hb
        have hE : E < 2 := (List.getElem?_eq_some_iff.1 hb).1
        interval_cases E <;> obtain rfl := Option.some.inj hb <;> cases ht) (fun _ _ _ _ _ _ _ => rfl)
  exact ⟨lu, lu, ref, info, data, P, v, h1, h2, hi, hd, hP, hv, hvf.trans hc, h⟩

end PolyDiM
