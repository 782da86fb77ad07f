import Verif.Lemmas.PlaneEnergy
import Verif.Props.PatchTest2D

/-!
# Property C95: the discrete problem of the plane has exactly one solution
-/

namespace PolyDiM

open Spec MvPolynomial MeasureTheory

variable {k : Nat} {mesh : PlaneMesh ℝ} {poly : Nat → VemPolygon ℝ} {n : Nat → Nat} {len : Nat → Nat → ℝ} {dir : Nat → Nat → Bool} {nrm : Nat → Nat → ℝ × ℝ}
  {triangle : Nat → Rule (ℝ × ℝ) ℝ} {edge : Nat → Rule ℝ ℝ} {ts ws : List ℝ} {w : ℝ} {lu llt : Solver ℝ}
  {ref : VemRef2D ℝ} {boundary : Nat → Option BInfo} {info : MeshInfo} {data : DOFsData} {gauss : Nat → Rule ℝ ℝ}

/-- The quadrature rule of the local space. -/
theorem create_internal {poly : VemPolygon ℝ} {s : VemSpace2D ℝ} (h : vemCreate2D lu llt ref poly = .ok s) : polygonQuad ref.triangle poly.tris = .ok s.internal := by
  unfold vemCreate2D at h
  obtain ⟨i, hi, h⟩ := (bind_ok_iff _ _ _).1 h
  obtain ⟨b, -, h⟩ := (bind_ok_iff _ _ _).1 h
  obtain ⟨x, -, h⟩ := (bind_ok_iff _ _ _).1 h
  obtain ⟨x, -, h⟩ := (bind_ok_iff _ _ _).1 h
  obtain ⟨x, -, h⟩ := (bind_ok_iff _ _ _).1 h
  obtain ⟨x, -, h⟩ := (bind_ok_iff _ _ _).1 h
  obtain ⟨x, -, h⟩ := (bind_ok_iff _ _ _).1 h
  obtain ⟨x, -, h⟩ := (bind_ok_iff _ _ _).1 h
  cases h
  exact hi

/-- C95, a tensor that may vary. The matrix of the free DOFs assembled by `assemble_elliptic_operator` with a diffusion term that is positive definite in the active
cells is positive definite, and so for all data the discrete problem has exactly one solution. The mesh is covered by active cells, and every vertex is linked, through cells,
with a vertex that carries a Dirichlet condition. -/
theorem C95_variable (hM : IsPlaneMesh k mesh poly n len dir nrm) (hT : IsTables k triangle edge ts ws w) (hlu : SolvesRegular lu)
    (hllt : SolvesPosDef llt) (hr : vemRef2D triangle edge k = .ok ref) (hi : vemMeshInfo ref mesh.topo boundary = .ok info) (hdata : createDOFs 2 info mesh.topo = .ok data)
    (hov : totalRequested info 2 < 2 ^ 32) (κ : ℝ × ℝ → Nat → ℝ)
    (hw0 : ∀ w ∈ (triangle (2 * k)).weights, 0 ≤ w) (hin : ∀ p ∈ (triangle (2 * k)).points, InTriangle (0, 0) (1, 0) (0, 1) p)
    (hκ : ∀ c ∈ mesh.cells, ∀ p ∈ unionOf (poly c).tris, ∀ a b : ℝ, a ≠ 0 ∨ b ≠ 0 → 0 < a * (κ p 0 * a + κ p 3 * b) + b * (κ p 1 * a + κ p 4 * b))
    (hcover : ∀ d ≤ 2, ∀ E < (mesh.topo.markers d).length, ∃ c ∈ mesh.cells, E ∈ entities mesh d c)
    (hconn : ∀ p < mesh.num0D, ∃ q, Relation.ReflTransGen (Linked mesh) p q ∧ bTypeOf info (0, q) = some .strong) :
    ∃ A, assembleElliptic data data (vemSpaces lu llt ref poly) (vemSpaces lu llt ref poly) mesh (some κ) none none = .ok A ∧
      (∀ x : List ℝ, x.length = data.counters.dofs →
        0 ≤ ∑ i ∈ Finset.range data.counters.dofs, x.getD i 0 * ∑ j ∈ Finset.range data.counters.dofs, entry A.lhsDOFs i j * x.getD j 0 ∧
        (∑ i ∈ Finset.range data.counters.dofs, x.getD i 0 * ∑ j ∈ Finset.range data.counters.dofs, entry A.lhsDOFs i j * x.getD j 0 = 0 →
          ∀ i < data.counters.dofs, x.getD i 0 = 0)) ∧
      ∀ b : Nat → ℝ, ∃! x : List ℝ, x.length = data.counters.dofs ∧ ∀ i < data.counters.dofs, ∑ j ∈ Finset.range data.counters.dofs, entry A.lhsDOFs i j * x.getD j 0 = b i := by
  have H := handler_plane hT hr hi hdata hov
  have hrt : ref.triangle = triangle (2 * k) := by
    obtain rfl := Except.ok.inj ((vemRef_ok hT).symm.trans hr)
    rfl
  have hloc : ∀ c, ∃ A : DMat ℝ, c < mesh.num2D → ∃ s, vemCreate2D lu llt ref (poly c) = .ok s ∧
      localElliptic (vemSpace2D ref (poly c) s) (vemSpace2D ref (poly c) s) (some κ) none none = .ok A ∧
      A.rows = (vemList k mesh.topo c).length ∧ A.cols = (vemList k mesh.topo c).length ∧
      ((∀ w ∈ s.internal.weights, 0 ≤ w) →
        (∀ p ∈ s.internal.points, ∀ a b : ℝ, a ≠ 0 ∨ b ≠ 0 → 0 < a * (κ p 0 * a + κ p 3 * b) + b * (κ p 1 * a + κ p 4 * b)) →
        ∀ x : Nat → ℝ, 0 ≤ ∑ i ∈ Finset.range A.rows, x i * apply A x i ∧
          (∑ i ∈ Finset.range A.rows, x i * apply A x i = 0 ↔ ∃ a : ℝ, IsDofVector k (poly c) (n c) (cellPoint mesh c) (dir c) ts (fun _ => a) x)) := by
    intro c
    by_cases hc : c < mesh.num2D
    swap
    · exact ⟨⟨0, 0, fun _ _ => 0⟩, fun h => absurd h hc⟩
    obtain ⟨r1, s1, A, hr1, hs1, hA, hd⟩ := C86_variable (hM.element c hc) hT hlu hllt (hM.measure c hc) κ
    obtain ⟨r2, s2, A2, S, K, hr2, hs2, -, hA2, h1, h2, -⟩ := vem_energy (hM.element c hc) hT hlu hllt (hM.measure c hc) κ
    obtain rfl : r1 = ref := Except.ok.inj (hr1.symm.trans hr)
    obtain rfl : r2 = r1 := Except.ok.inj (hr2.symm.trans hr)
    obtain rfl : s2 = s1 := Except.ok.inj (hs2.symm.trans hs1)
    obtain rfl : A2 = A := Except.ok.inj (hA2.symm.trans hA)
    have hl := vemList_length k mesh.topo c (n c) (hM.vertices c hc) (hM.edges c hc)
    exact ⟨A2, fun _ => ⟨s2, hs1, hA, h1.trans hl.symm, h2.trans hl.symm, hd⟩⟩
  choose A hloc using hloc
  have hcells : ∀ c ∈ mesh.cells, c < mesh.num2D := fun c hc => (mem_cells.1 hc).1
  have hsmall : ∀ c ∈ mesh.cells, (vemList k mesh.topo c).length < 2 ^ 32 := fun c hc => by
    rw [vemList_length k mesh.topo c (n c) (hM.vertices c (hcells c hc)) (hM.edges c (hcells c hc))]
    exact hM.small c (hcells c hc)
  obtain ⟨S, hS, hSv⟩ := H.assemble_matrix mesh.cells hcells hsmall A fun c hc => by
    obtain ⟨s, -, -, h1, h2, -⟩ := hloc c (hcells c hc)
    exact ⟨h1, h2⟩
  have hdef : ∀ x : List ℝ, x.length = data.counters.dofs → _ := fun x hx => definite_core hM hT.nodes H (A := A) (fun c hc => by
      obtain ⟨s, -, -, h1, -⟩ := hloc c (hcells c hc)
      exact h1) (fun c hc => by
      obtain ⟨s, hs, -, -, -, h⟩ := hloc c (hcells c hc)
      have hq := create_internal hs
      rw [hrt] at hq
      obtain ⟨r1, hr1, hr1w⟩ := C47_weights_nonneg (triangle (2 * k)) hT.triangleLength (poly c).tris hw0
      obtain ⟨r2, hr2, hr2p⟩ := C47_points_inside (triangle (2 * k)) hT.triangleLength (poly c).tris hin
      obtain rfl : r1 = s.internal := Except.ok.inj (hr1.symm.trans hq)
      obtain rfl : r2 = s.internal := Except.ok.inj (hr2.symm.trans hq)
      exact h hr1w fun p hp => hκ c hc p (hr2p p hp)) hcover hconn hSv hx
  refine ⟨S, ?_, hdef, fun b => definite_solves (fun x hx => (hdef x hx).2) b⟩
  unfold assembleElliptic
  rw [mapM_ok _ (fun c => (⟨c, oneField data, some (oneField data, (A c).toLMat), none⟩ : Call ℝ)) _ fun c hc => ?_, except_ok_bind, hS]
  obtain ⟨s, hs, hA, -⟩ := hloc c (hcells c hc)
  have hsp : vemSpaces lu llt ref poly c = .ok (vemCell2D ref (poly c) s) := by rw [vemSpaces, hs, except_ok_bind]
  rw [ellipticCall, hsp, except_ok_bind, except_ok_bind]
  show (do let A ← localElliptic (vemSpace2D ref (poly c) s) (vemSpace2D ref (poly c) s) (some κ) none none; Except.ok (_ : Call ℝ)) = _
  rw [hA, except_ok_bind]

/-- C95: the same for a constant tensor, whatever the signs of the weights of the rules. -/
theorem C95_solvable (hM : IsPlaneMesh k mesh poly n len dir nrm) (hT : IsTables k triangle edge ts ws w) (hlu : SolvesRegular lu)
    (hllt : SolvesPosDef llt) (hr : vemRef2D triangle edge k = .ok ref) (hi : vemMeshInfo ref mesh.topo boundary = .ok info) (hdata : createDOFs 2 info mesh.topo = .ok data)
    (hov : totalRequested info 2 < 2 ^ 32) (κ : Nat → ℝ) (hκ : ∀ a b : ℝ, a ≠ 0 ∨ b ≠ 0 → 0 < a * (κ 0 * a + κ 3 * b) + b * (κ 1 * a + κ 4 * b))
    (hcover : ∀ d ≤ 2, ∀ E < (mesh.topo.markers d).length, ∃ c ∈ mesh.cells, E ∈ entities mesh d c)
    (hconn : ∀ p < mesh.num0D, ∃ q, Relation.ReflTransGen (Linked mesh) p q ∧ bTypeOf info (0, q) = some .strong) :
    ∃ A, assembleElliptic data data (vemSpaces lu llt ref poly) (vemSpaces lu llt ref poly) mesh (some fun _ => κ) none none = .ok A ∧
      (∀ x : List ℝ, x.length = data.counters.dofs →
        0 ≤ ∑ i ∈ Finset.range data.counters.dofs, x.getD i 0 * ∑ j ∈ Finset.range data.counters.dofs, entry A.lhsDOFs i j * x.getD j 0 ∧
        (∑ i ∈ Finset.range data.counters.dofs, x.getD i 0 * ∑ j ∈ Finset.range data.counters.dofs, entry A.lhsDOFs i j * x.getD j 0 = 0 →
          ∀ i < data.counters.dofs, x.getD i 0 = 0)) ∧
      ∀ b : Nat → ℝ, ∃! x : List ℝ, x.length = data.counters.dofs ∧ ∀ i < data.counters.dofs, ∑ j ∈ Finset.range data.counters.dofs, entry A.lhsDOFs i j * x.getD j 0 = b i := by
  have H := handler_plane hT hr hi hdata hov
  have hloc : ∀ c, ∃ A : DMat ℝ, c < mesh.num2D → ∃ s, vemCreate2D lu llt ref (poly c) = .ok s ∧
      localElliptic (vemSpace2D ref (poly c) s) (vemSpace2D ref (poly c) s) (some fun _ => κ) none none = .ok A ∧
      A.rows = (vemList k mesh.topo c).length ∧ A.cols = (vemList k mesh.topo c).length ∧
      ∀ x : Nat → ℝ, 0 ≤ ∑ i ∈ Finset.range A.rows, x i * apply A x i ∧
          (∑ i ∈ Finset.range A.rows, x i * apply A x i = 0 ↔ ∃ a : ℝ, IsDofVector k (poly c) (n c) (cellPoint mesh c) (dir c) ts (fun _ => a) x) := by
    intro c
    by_cases hc : c < mesh.num2D
    swap
    · exact ⟨⟨0, 0, fun _ _ => 0⟩, fun h => absurd h hc⟩
    obtain ⟨r1, s1, A, hr1, hs1, hA, hd⟩ := C86_constant (hM.element c hc) hT hlu hllt (hM.measure c hc) κ hκ
    obtain ⟨r2, s2, A2, S, K, hr2, hs2, -, hA2, h1, h2, -⟩ := vem_energy (hM.element c hc) hT hlu hllt (hM.measure c hc) fun _ => κ
    obtain rfl : r1 = ref := Except.ok.inj (hr1.symm.trans hr)
    obtain rfl : r2 = r1 := Except.ok.inj (hr2.symm.trans hr)
    obtain rfl : s2 = s1 := Except.ok.inj (hs2.symm.trans hs1)
    obtain rfl : A2 = A := Except.ok.inj (hA2.symm.trans hA)
    have hl := vemList_length k mesh.topo c (n c) (hM.vertices c hc) (hM.edges c hc)
    exact ⟨A2, fun _ => ⟨s2, hs1, hA, h1.trans hl.symm, h2.trans hl.symm, hd⟩⟩
  choose A hloc using hloc
  have hcells : ∀ c ∈ mesh.cells, c < mesh.num2D := fun c hc => (mem_cells.1 hc).1
  have hsmall : ∀ c ∈ mesh.cells, (vemList k mesh.topo c).length < 2 ^ 32 := fun c hc => by
    rw [vemList_length k mesh.topo c (n c) (hM.vertices c (hcells c hc)) (hM.edges c (hcells c hc))]
    exact hM.small c (hcells c hc)
  obtain ⟨S, hS, hSv⟩ := H.assemble_matrix mesh.cells hcells hsmall A fun c hc => by
    obtain ⟨s, -, -, h1, h2, -⟩ := hloc c (hcells c hc)
    exact ⟨h1, h2⟩
  have hdef : ∀ x : List ℝ, x.length = data.counters.dofs → _ := fun x hx => definite_core hM hT.nodes H (A := A) (fun c hc => by
      obtain ⟨s, -, -, h1, -⟩ := hloc c (hcells c hc)
      exact h1) (fun c hc => by
      obtain ⟨s, hs, -, -, -, h⟩ := hloc c (hcells c hc)
      exact h) hcover hconn hSv hx
  refine ⟨S, ?_, hdef, fun b => definite_solves (fun x hx => (hdef x hx).2) b⟩
  unfold assembleElliptic
  rw [mapM_ok _ (fun c => (⟨c, oneField data, some (oneField data, (A c).toLMat), none⟩ : Call ℝ)) _ fun c hc => ?_, except_ok_bind, hS]
  obtain ⟨s, hs, hA, -⟩ := hloc c (hcells c hc)
  have hsp : vemSpaces lu llt ref poly c = .ok (vemCell2D ref (poly c) s) := by rw [vemSpaces, hs, except_ok_bind]
  rw [ellipticCall, hsp, except_ok_bind, except_ok_bind]
  show (do let A ← localElliptic (vemSpace2D ref (poly c) s) (vemSpace2D ref (poly c) s) (some fun _ => κ) none none; Except.ok (_ : Call ℝ)) = _
  rw [hA, except_ok_bind]

/-- C95, exactness: whenever the exact solution is a polynomial of degree at most `k`, every solution of the assembled system is the vector of its degrees of freedom. -/
theorem C95_exact (hM : IsPlaneMesh k mesh poly n len dir nrm) (hT : IsTables k triangle edge ts ws w) (hd : (0 :: 1 :: ts).Nodup) (hlu : SolvesRegular lu)
    (hllt : SolvesPosDef llt) (hr : vemRef2D triangle edge k = .ok ref) (hi : vemMeshInfo ref mesh.topo boundary = .ok info) (hdata : createDOFs 2 info mesh.topo = .ok data)
    (hov : totalRequested info 2 < 2 ^ 32) (hgl : (gauss (2 * k)).weights.length = (gauss (2 * k)).points.length)
    (hge : ExactOnSegment (2 * k) (gauss (2 * k)).points (gauss (2 * k)).weights) (hg01 : ∀ t ∈ (gauss (2 * k)).points, 0 ≤ t ∧ t ≤ 1)
    (κ : Nat → ℝ) (hκ : ∀ a b : ℝ, a ≠ 0 ∨ b ≠ 0 → 0 < a * (κ 0 * a + κ 3 * b) + b * (κ 1 * a + κ 4 * b))
    (hcover : ∀ d ≤ 2, ∀ E < (mesh.topo.markers d).length, ∃ c ∈ mesh.cells, E ∈ entities mesh d c)
    (hconn : ∀ p < mesh.num0D, ∃ q, Relation.ReflTransGen (Linked mesh) p q ∧ bTypeOf info (0, q) = some .strong)
    {q F₁ F₂ : MvPolynomial (Fin 2) ℝ} (hq : q.totalDegree ≤ k)
    (hF₁ : F₁ = C (κ 0) * pderiv 0 q + C (κ 3) * pderiv 1 q) (hF₂ : F₂ = C (κ 1) * pderiv 0 q + C (κ 4) * pderiv 1 q) {gD gN : Nat → ℝ × ℝ → ℝ}
    (htypes : ∀ (E : Nat) (b : BInfo), (info.bInfo 1)[E]? = some b → b.type = .none ∨ b.type = .weak ∨ b.type = .strong)
    (hinner : ∀ (E : Nat) (b : BInfo), (info.bInfo 1)[E]? = some b → b.type = .none → signedCount mesh n dir E = 0)
    (hstrong : ∀ (E : Nat) (b : BInfo), (info.bInfo 1)[E]? = some b → b.type = .strong → bTypeOf info (0, (mesh.topo.cell1DVertices E).1) = some .strong ∧
      bTypeOf info (0, (mesh.topo.cell1DVertices E).2) = some .strong)
    (hN : ∀ c ∈ mesh.cells, ∀ e < n c, ∀ b : BInfo, (info.bInfo 1)[cellEdge mesh c e]? = some b → b.type = .weak → ∀ t, 0 ≤ t → t ≤ 1 →
      gN b.marker (edgePoint mesh (cellEdge mesh c e) t)
        = eval ![(edgePoint mesh (cellEdge mesh c e) t).1, (edgePoint mesh (cellEdge mesh c e) t).2] F₁ * (nrm c e).1
          + eval ![(edgePoint mesh (cellEdge mesh c e) t).1, (edgePoint mesh (cellEdge mesh c e) t).2] F₂ * (nrm c e).2)
    (hg : ∀ d ≤ 2, ∀ (b : BInfo) (E : Nat), (info.bInfo d)[E]? = some b → b.type = .strong → d ≤ 1)
    (hf : ∀ d ≤ 2, ∀ (b : BInfo) (E : Nat), (info.bInfo d)[E]? = some b → b.type = .strong → ∀ p : ℝ × ℝ, gD b.marker p = eval ![p.1, p.2] q) :
    ∃ A b W v g, assembleElliptic data data (vemSpaces lu llt ref poly) (vemSpaces lu llt ref poly) mesh (some fun _ => κ) none none = .ok A ∧
      assembleSource data (vemSpaces lu llt ref poly) (vemSpaces lu llt ref poly) mesh
        (fun p => -(eval ![p.1, p.2] (pderiv 0 F₁) + eval ![p.1, p.2] (pderiv 1 F₂))) = .ok b ∧
      weakTerm info data k gauss (fun c => (poly c).edges) (vemSpaces lu llt ref poly) mesh gN = .ok W ∧
      strongSolution info data k (vemSpaces lu llt ref poly) mesh gD = .ok g ∧
      evaluateOnDofs data k (vemSpaces lu llt ref poly) mesh (fun p => eval ![p.1, p.2] q) = .ok v ∧
      ∀ x : List ℝ, x.length = data.counters.dofs → ((∀ i < data.counters.dofs,
        ∑ j ∈ Finset.range data.counters.dofs, entry A.lhsDOFs i j * x.getD j 0 + ∑ j ∈ Finset.range g.length, entry A.lhsStrongs i j * g.getD j 0
          = ventry b.rhs i + ventry W i) ↔ x = v.free) := by
  have hlen : ∀ d ≤ 2, (info.bInfo d).length = (mesh.topo.markers d).length := by
    obtain ⟨-, -, hinfo⟩ := C10_constant_info 2 mesh.topo ⟨numOf k, boundary⟩
    rw [numOf_ref hT hr] at hi
    intro d hd
    exact ((hinfo info hi).1 d hd).2.1
  obtain ⟨A, b, W, v, g, hA, hb, hW, hg', hv, hvg, h⟩ := C93_dirichlet hM hT hd hlu hllt hr hi hdata hov hgl hge hg01 κ hq hF₁ hF₂ htypes hinner hstrong hN
    (fun d hd b E hb ht => ⟨hg d hd b E hb ht, hcover d hd E (by rw [← hlen d hd]; exact (List.getElem?_eq_some_iff.1 hb).1)⟩) hf
  obtain ⟨A', hA', -, hu⟩ := C95_solvable hM hT hlu hllt hr hi hdata hov κ hκ hcover hconn
  obtain rfl : A' = A := Except.ok.inj (hA'.symm.trans hA)
  have H := handler_plane hT hr hi hdata hov
  obtain ⟨M, hM1, -⟩ := moments_ok hM hT hlu hllt hr fun p => eval ![p.1, p.2] q
  obtain ⟨v', hv', hvf, hvs, -⟩ := evaluate_ok hM hT hlu hllt hr H _ M hM1
  obtain rfl : v' = v := Except.ok.inj (hv'.symm.trans hv)
  rw [hvf] at h
  refine ⟨A', b, W, v', g, hA, hb, hW, hg', hv, fun x hx => ⟨fun hsol => ?_, fun hxv i _ => ?_⟩⟩
  · refine (hu fun i => ventry b.rhs i + ventry W i - ∑ j ∈ Finset.range g.length, entry A'.lhsStrongs i j * g.getD j 0).unique ⟨hx, fun i hi => ?_⟩ ⟨hvf, fun i hi => ?_⟩
    · rw [← hsol i hi, add_sub_cancel_right]
    · rw [← h i, add_sub_cancel_right]
  · rw [hxv]
    exact h i

/-- In the mesh of two triangles every entity is in a cell, and every vertex is linked with vertex 0. -/
theorem patch_links {info : MeshInfo} (hb0 : info.bInfo 0 = [⟨.strong, 1⟩, ⟨.strong, 1⟩, ⟨.weak, 2⟩, ⟨.strong, 1⟩]) :
    (∀ d ≤ 2, ∀ E < (patchMesh.topo.markers d).length, ∃ c ∈ patchMesh.cells, E ∈ entities patchMesh d c) ∧
    ∀ p < patchMesh.num0D, ∃ q, Relation.ReflTransGen (Linked patchMesh) p q ∧ bTypeOf info (0, q) = some .strong := by
  have hcells : patchMesh.cells = [0, 1] := by simp [PlaneMesh.cells, PlaneMesh.num2D, patchMesh, patchTopo, List.range_succ]
  constructor
  · intro d hd E hE
    rw [hcells]
    interval_cases d
    · have : E < 4 := hE
      interval_cases E <;> simp [entities, patchMesh, patchTopo]
    · have : E < 5 := hE
      interval_cases E <;> simp [entities, patchMesh, patchTopo]
    · have : E < 2 := hE
      interval_cases E <;> simp [entities]
  · intro p hp
    have : p < 4 := hp
    refine ⟨0, .single ?_, by simp [bTypeOf, hb0]⟩
    unfold Linked
    rw [hcells]
    interval_cases p <;> simp [patchMesh, patchTopo]

/-- The tables of order 1: the rule of the midpoints and the trapezoidal rule. -/
theorem midpoint_tables : IsTables 1 (fun _ => ⟨[(1 / 2, 0), (1 / 2, 1 / 2), (0, 1 / 2)], [1 / 6, 1 / 6, 1 / 6]⟩) (fun _ => ⟨[0, 1], [1 / 2, 1 / 2]⟩) [] [] (1 / 2) where
  low := le_rfl
  high := by norm_num
  triangleLength := rfl
  triangleExact := by
    refine triangle_exact_of_monomials 2 _ _ fun a b hab => ?_
    have e1 : ∀ x : ℝ, ∫ y in (0 : ℝ)..(1 - x), x ^ a * y ^ b = x ^ a * ((1 - x) ^ (b + 1) / (b + 1)) := by
      intro x
      rw [intervalIntegral.integral_const_mul, integral_pow]
      simp
    simp only [e1]
    have hb : b ≤ 2 := by omega
    have ha : a ≤ 2 := by omega
    have fin : ∀ (f : ℝ → ℝ) (c0 c1 c2 c3 s : ℝ), (∀ x, f x = c0 + c1 * x + c2 * x ^ 2 + c3 * x ^ 3) →
        s = c0 + c1 / 2 + c2 / 3 + c3 / 4 → s = ∫ x in (0 : ℝ)..1, f x := by
      intro f c0 c1 c2 c3 s hf hs
      simp only [hf]
      rw [hs, intervalIntegral.integral_add, intervalIntegral.integral_add, intervalIntegral.integral_add, intervalIntegral.integral_const_mul,
        intervalIntegral.integral_const_mul, intervalIntegral.integral_const_mul, integral_pow, integral_pow, integral_id, intervalIntegral.integral_const]
      · norm_num
        ring
      all_goals exact Continuous.intervalIntegrable (by fun_prop) _ _
    interval_cases b <;> interval_cases a <;> first | omega | skip
    · exact fin _ (1) (-1) (0) (0) _ (fun x => by norm_num; try ring) (by norm_num [quadSum])
    · exact fin _ (0) (1) (-1) (0) _ (fun x => by norm_num; try ring) (by norm_num [quadSum])
    · exact fin _ (0) (0) (1) (-1) _ (fun x => by norm_num; try ring) (by norm_num [quadSum])
    · exact fin _ (1 / 2) (-1) (1 / 2) (0) _ (fun x => by norm_num; try ring) (by norm_num [quadSum])
    · exact fin _ (0) (1 / 2) (-1) (1 / 2) _ (fun x => by norm_num; try ring) (by norm_num [quadSum])
    · exact fin _ (1 / 3) (-1) (1) (-1 / 3) _ (fun x => by norm_num; try ring) (by norm_num [quadSum])
  edgeRule := rfl
  nodes := rfl
  edgeLength := rfl
  edgeExact := by
    intro q hq
    have hq' : ∀ t, q.eval t = q.coeff 0 + q.coeff 1 * t := by
      intro t
      rw [Polynomial.eval_eq_sum_range' (n := 2) (by omega)]
      simp [Finset.sum_range_succ]
    simp only [hq']
    rw [intervalIntegral.integral_add, intervalIntegral.integral_const_mul, integral_id, intervalIntegral.integral_const]
    · norm_num [quadSum]
      ring
    all_goals exact Continuous.intervalIntegrable (by fun_prop) _ _

-- C95_variable: the mesh of two triangles, order 1, a tensor that grows with the first coordinate; one free DOF
example : ∃ lu llt : Solver ℝ, ∃ ref info data, ∃ A : Sys ℝ, SolvesRegular lu ∧ SolvesPosDef llt ∧
    vemMeshInfo ref patchMesh.topo patchBoundary = .ok info ∧ createDOFs 2 info patchMesh.topo = .ok data ∧ data.counters.dofs = 1 ∧
    assembleElliptic data data (vemSpaces lu llt ref patchPoly) (vemSpaces lu llt ref patchPoly) patchMesh (some fun p c => if c = 0 ∨ c = 4 then 1 + p.1 ^ 2 else 0) none none = .ok A ∧
    ∀ b : Nat → ℝ, ∃! x : List ℝ, x.length = data.counters.dofs ∧ ∀ i < data.counters.dofs, ∑ j ∈ Finset.range data.counters.dofs, entry A.lhsDOFs i j * x.getD j 0 = b i := by
  obtain ⟨lu, h1, h2⟩ := exists_solvers
  have hM : IsPlaneMesh 1 patchMesh patchPoly (fun _ => 3) patchLen patchDir patchNrm :=
    ⟨patch_mesh.vertices, patch_mesh.edges, patch_mesh.element, patch_mesh.measure, patch_mesh.ends, fun _ _ => by norm_num⟩
  obtain ⟨info, hi, hb0, ht, data, hd, hc⟩ : ∃ info, createConstantInfo 2 patchTopo ⟨numOf 1, patchBoundary⟩ = .ok info ∧
      info.bInfo 0 = [⟨.strong, 1⟩, ⟨.strong, 1⟩, ⟨.weak, 2⟩, ⟨.strong, 1⟩] ∧ totalRequested info 2 = 4 ∧ ∃ data, createDOFs 2 info patchTopo = .ok data ∧
      data.counters.dofs = 1 := ⟨_, rfl, rfl, rfl, _, rfl, rfl⟩
  obtain ⟨ref, hr⟩ : ∃ ref, vemRef2D (fun _ => ⟨[((1 / 2 : ℝ), 0), (1 / 2, 1 / 2), (0, 1 / 2)], [1 / 6, 1 / 6, 1 / 6]⟩) (fun _ => ⟨[0, 1], [1 / 2, 1 / 2]⟩) 1 = .ok ref :=
    ⟨_, vemRef_ok midpoint_tables⟩
  have hi' : vemMeshInfo ref patchMesh.topo patchBoundary = .ok info := by
    rw [numOf_ref midpoint_tables hr]
    exact hi
  obtain ⟨l1, l2⟩ := patch_links hb0
  obtain ⟨A, hA, -, h⟩ := C95_variable hM midpoint_tables h1 h2 hr hi' hd (by omega) (fun p c => if c = 0 ∨ c = 4 then 1 + p.1 ^ 2 else 0)
    (by intro w hw; simp only [List.mem_cons, List.not_mem_nil, or_false] at hw; rcases hw with rfl | rfl | rfl <;> norm_num)
    (by
      intro p hp
      simp only [List.mem_cons, List.not_mem_nil, or_false] at hp
      rcases hp with rfl | rfl | rfl
      · exact ⟨1 / 2, 1 / 2, 0, by norm_num, by norm_num, by norm_num, by norm_num, by norm_num [bary3]⟩
      · exact ⟨0, 1 / 2, 1 / 2, by norm_num, by norm_num, by norm_num, by norm_num, by norm_num [bary3]⟩
      · exact ⟨1 / 2, 0, 1 / 2, by norm_num, by norm_num, by norm_num, by norm_num, by norm_num [bary3]⟩)
    (fun _ _ p _ a b h => by
      norm_num
      have e : a * ((1 + p.1 ^ 2) * a) + b * ((1 + p.1 ^ 2) * b) = (1 + p.1 ^ 2) * (a ^ 2 + b ^ 2) := by ring
      rw [e]
      refine mul_pos (by positivity) ?_
      rcases h with h | h <;> positivity) l1 l2
  exact ⟨lu, lu, ref, info, data, A, h1, h2, hi', hd, hc, hA, h⟩

-- C95: the mesh of two triangles, order 2, a tensor that is not symmetric; the polynomial is `q`
example (q : MvPolynomial (Fin 2) ℝ) (hq : q.totalDegree ≤ 2) : ∃ lu llt : Solver ℝ, ∃ ref info data, ∃ A b : Sys ℝ, ∃ W, ∃ v : OnDofs ℝ, ∃ g : List ℝ, SolvesRegular lu ∧ SolvesPosDef llt ∧
    vemMeshInfo ref patchMesh.topo patchBoundary = .ok info ∧ createDOFs 2 info patchMesh.topo = .ok data ∧ data.counters.dofs = 6 ∧
    assembleElliptic data data (vemSpaces lu llt ref patchPoly) (vemSpaces lu llt ref patchPoly) patchMesh (some fun _ c => if c = 0 then 2 else if c = 1 then -1 else if c = 3 then 1 else 3)
      none none = .ok A ∧
    evaluateOnDofs data 2 (vemSpaces lu llt ref patchPoly) patchMesh (fun p => eval ![p.1, p.2] q) = .ok v ∧
    ∀ x : List ℝ, x.length = data.counters.dofs → ((∀ i < data.counters.dofs,
        ∑ j ∈ Finset.range data.counters.dofs, entry A.lhsDOFs i j * x.getD j 0 + ∑ j ∈ Finset.range g.length, entry A.lhsStrongs i j * g.getD j 0
          = ventry b.rhs i + ventry W i) ↔ x = v.free) := by
  obtain ⟨lu, h1, h2⟩ := exists_solvers
  obtain ⟨ref, info, data, hr, hi, hd, ho, ⟨hb0, hb1, hb2⟩, hc, hs⟩ := patch_dofs
  obtain ⟨p1, p2, p3, p4⟩ := patch_conditions hb0 hb1
  obtain ⟨l1, l2⟩ := patch_links hb0
  obtain ⟨A, b, W, v, g, hA, -, -, hg, hv, h⟩ := C95_exact (gauss := fun _ => ⟨[0, 1 / 4, 1 / 2, 3 / 4, 1], [7 / 90, 16 / 45, 2 / 15, 16 / 45, 7 / 90]⟩)
    (gD := fun _ p => eval ![p.1, p.2] q) (gN := fun m p => if m = 2 then eval ![p.1, p.2] (C 2 * pderiv 0 q + C 1 * pderiv 1 q) else
      eval ![p.1, p.2] (C (-1) * pderiv 0 q + C 3 * pderiv 1 q)) patch_mesh square_tables
    (by norm_num) h1 h2 hr hi hd ho rfl boole_exact (by intro t ht; simp only [List.mem_cons, List.not_mem_nil, or_false] at ht; rcases ht with rfl | rfl | rfl | rfl | rfl <;> norm_num)
    (fun c => if c = 0 then 2 else if c = 1 then -1 else if c = 3 then 1 else 3) (fun a b h => by
      norm_num
      rcases h with h | h
      · nlinarith [pow_pos (abs_pos.2 h) 2, sq_abs a, sq_nonneg b]
      · nlinarith [pow_pos (abs_pos.2 h) 2, sq_abs b, sq_nonneg a]) l1 l2
    hq rfl rfl p1 p2 p3 (fun c hc e he b hb ht t _ _ => by
      have := p4 (fun p => eval ![p.1, p.2] (C 2 * pderiv 0 q + C 1 * pderiv 1 q)) (fun p => eval ![p.1, p.2] (C (-1) * pderiv 0 q + C 3 * pderiv 1 q)) c hc e he b hb ht
        (edgePoint patchMesh (cellEdge patchMesh c e) t)
      simpa using this) (fun d hd' b E hb ht => by
      interval_cases d
      · norm_num
      · norm_num
      · rw [hb2] at hb
        have hE : E < 2 := (List.getElem?_eq_some_iff.1 hb).1
        interval_cases E <;> obtain rfl := Option.some.inj hb <;> cases ht) (fun _ _ _ _ _ _ _ => rfl)
  exact ⟨lu, lu, ref, info, data, A, b, W, v, g, h1, h2, hi, hd, hc, hA, hv, h⟩

end PolyDiM
