import Verif.Spec.Held
import Verif.Lemmas.ParabolicTime
import Verif.Props.Elastic2D
import Verif.Props.ElasticPatch2D
import Verif.Props.Solvability2D

/-!
# C164: the matrix of the elasticity example
-/

namespace PolyDiM

open Spec MvPolynomial

variable {k : Nat} {mesh : PlaneMesh ℝ} {poly : Nat → VemPolygon ℝ} {n : Nat → Nat} {len : Nat → Nat → ℝ} {dir : Nat → Nat → Bool} {nrm : Nat → Nat → ℝ × ℝ}
  {triangle : Nat → Rule (ℝ × ℝ) ℝ} {edge : Nat → Rule ℝ ℝ} {ts ws : List ℝ} {w : ℝ} {lu llt : Solver ℝ}
  {ref : VemRef2D ℝ} {boundary : Nat → Option BInfo} {info : MeshInfo} {data : DOFsData} {gauss : Nat → Rule ℝ ℝ}

/-- A rigid motion that vanishes at two points vanishes. -/
theorem rigid_zero {a b c : ℝ} {p q : ℝ × ℝ} (hpq : p ≠ q) (h0 : ∀ h < 2, rigid a b c h p = 0) (h1 : ∀ h < 2, rigid a b c h q = 0) : a = 0 ∧ b = 0 ∧ c = 0 := by
  have e1 : a - c * p.2 = 0 := h0 0 (by norm_num)
  have e2 : b + c * p.1 = 0 := h0 1 (by norm_num)
  have e3 : a - c * q.2 = 0 := h1 0 (by norm_num)
  have e4 : b + c * q.1 = 0 := h1 1 (by norm_num)
  have hc : c = 0 := by
    by_contra hc
    refine hpq (Prod.ext ?_ ?_)
    · exact mul_left_cancel₀ hc (by linarith)
    · exact mul_left_cancel₀ hc (by linarith)
  subst hc
  exact ⟨by linarith, by linarith, rfl⟩

/-- A strong vertex has the test value zero. -/
theorem test_strong (H : Handler k mesh.topo info data) {q : Nat} (hq : bTypeOf info (0, q) = some .strong) (φ : Nat → ℝ) : testValue data φ ⟨0, q, 0⟩ = 0 := by
  rw [testValue]
  cases hl : lookup data ⟨0, q, 0⟩ with
  | none => rfl
  | some z =>
    obtain ⟨t, i⟩ := z
    cases t with
    | dof =>
      obtain ⟨-, hqr, -⟩ := H.range _ _ hl
      obtain ⟨b', hb', ht'⟩ := H.type_of (by norm_num) hqr hl
      rw [bTypeOf] at hq
      dsimp only at hq hb'
      rw [hb', Option.map_some, Option.some.injEq] at hq
      rw [hq] at ht'
      cases ht'
    | _ => rfl

/-- A reference whose cell has only zeros has the value zero. -/
theorem covered_zero (hM : IsPlaneMesh k mesh poly n len dir nrm) (hts : ts.length = k - 1) (H : Handler k mesh.topo info data)
    (hcover : ∀ d ≤ 2, ∀ E < (mesh.topo.markers d).length, ∃ c ∈ mesh.cells, E ∈ entities mesh d c) {χ : GDOF → ℝ}
    (hz : ∀ c ∈ mesh.cells, IsDofVector k (poly c) (n c) (cellPoint mesh c) (dir c) ts (fun _ => (0 : ℝ)) (onList (vemList k mesh.topo c) χ)) {r : GDOF} {x : DOF}
    (hr : lookup data r = some x) : χ r = 0 := by
  obtain ⟨hd, hrc, hrd⟩ := H.range _ _ hr
  obtain ⟨c, hc, hmem⟩ := hcover r.dim hd r.cell hrc
  have hc' := (mem_cells.1 hc).1
  have hin : r ∈ vemList k mesh.topo c := by
    obtain ⟨d, E, j⟩ := r
    simp only [vemList, List.mem_append, List.mem_map, List.mem_flatMap, List.mem_range]
    dsimp only at hd hmem hrd
    interval_cases d
    · have : j = 0 := by simpa [numOf] using hrd
      subst this
      exact Or.inl (Or.inl ⟨E, by simpa [entities] using hmem, rfl⟩)
    · exact Or.inl (Or.inr ⟨E, by simpa [entities] using hmem, j, by simpa [numOf] using hrd, rfl⟩)
    · obtain rfl : E = c := by simpa [entities] using hmem
      exact Or.inr ⟨j, by simpa [numOf] using hrd, rfl⟩
  obtain ⟨j, hj⟩ := List.mem_iff_getElem?.1 hin
  have hjl : j < (vemList k mesh.topo c).length := (List.getElem?_eq_some_iff.1 hj).1
  rw [vemList_length k mesh.topo c (n c) (hM.vertices c hc') (hM.edges c hc')] at hjl
  have h0v : IsDofVector k (poly c) (n c) (cellPoint mesh c) (dir c) ts (fun _ => (0 : ℝ)) (fun _ => 0) :=
    ⟨fun _ _ => rfl, fun _ _ _ _ _ => rfl, fun _ _ _ => by simp⟩
  have := dofVector_unique hts (hz c hc) h0v j (by
    have e4 : k * (k - 1) / 2 = tri (k - 1) := by
      rcases k with _ | _ | k
      · rfl
      · rfl
      · have := tri_div k
        simpa [mul_comm] using this
    omega)
  rw [← this, onList, hj, Option.elim_some]

/-- The local values of a vector of both components that vanishes on the strong DOFs. -/
noncomputable def twoValues (k : Nat) (mesh : PlaneMesh ℝ) (data : DOFsData) (x : List ℝ) : Nat → Nat → ℝ :=
  Pair.pairValues (numOf k) (numOf k) mesh.topo data data x (List.replicate (data.counters.strongs + data.counters.strongs) 0)

theorem twoValues_comp (k : Nat) (mesh : PlaneMesh ℝ) (data : DOFsData) (x : List ℝ) (c : Nat) {h : Nat} (hh : h < 2) {j : Nat} (hj : j < (vemList k mesh.topo c).length) :
    compOf (vemList k mesh.topo c).length (twoValues k mesh data x c) h j
      = onList (vemList k mesh.topo c) (testValue data fun i => x.getD (h * data.counters.dofs + i) 0) j := by
  obtain rfl | rfl : h = 0 ∨ h = 1 := by omega
  · rw [compOf, zero_mul, zero_add, twoValues, Pair.pairValues, fieldList_vem, if_pos hj, valueOf_zero]
    simp only [zero_mul, zero_add]
  · rw [compOf, one_mul, twoValues, Pair.pairValues, fieldList_vem, if_neg (by omega), Nat.add_sub_cancel_left, List.drop_replicate, Nat.add_sub_cancel, valueOf_zero]
    simp only [one_mul, List.getD_eq_getElem?_getD, List.getElem?_drop]

/-- The matrix of the two components, as a form on the cells. -/
theorem elastic_form (H : Handler k mesh.topo info data) {A : Nat → DMat ℝ} {S : Sys ℝ}
    (hS : ∀ free strong : List ℝ, free.length = data.counters.dofs + data.counters.dofs → strong.length = data.counters.strongs + data.counters.strongs → ∀ i,
        ∑ j ∈ Finset.range free.length, entry S.lhsDOFs i j * free.getD j 0 + ∑ j ∈ Finset.range strong.length, entry S.lhsStrongs i j * strong.getD j 0
          = (mesh.cells.map fun c => ∑ j ∈ Finset.range (fieldList (numOf k) mesh.topo c).length,
                onList (fieldList (numOf k) mesh.topo c) (rowShift data 0 i) j * apply (A c) (Pair.pairValues (numOf k) (numOf k) mesh.topo data data free strong c) j
              + ∑ j ∈ Finset.range (fieldList (numOf k) mesh.topo c).length, onList (fieldList (numOf k) mesh.topo c) (rowShift data data.counters.dofs i) j *
                apply (A c) (Pair.pairValues (numOf k) (numOf k) mesh.topo data data free strong c) ((fieldList (numOf k) mesh.topo c).length + j)).sum)
    {x z : List ℝ} (hx : x.length = 2 * data.counters.dofs) :
    ∑ i ∈ Finset.range (2 * data.counters.dofs), z.getD i 0 * ∑ j ∈ Finset.range (2 * data.counters.dofs), entry S.lhsDOFs i j * x.getD j 0
      = (mesh.cells.map fun c => ∑ i ∈ Finset.range (2 * (vemList k mesh.topo c).length), twoValues k mesh data z c i * apply (A c) (twoValues k mesh data x c) i).sum := by
  have hrow : ∀ i, ∑ j ∈ Finset.range (2 * data.counters.dofs), entry S.lhsDOFs i j * x.getD j 0
      = (mesh.cells.map fun c => ∑ j ∈ Finset.range (vemList k mesh.topo c).length, onList (vemList k mesh.topo c) (rowShift data 0 i) j * apply (A c) (twoValues k mesh data x c) j).sum
        + (mesh.cells.map fun c => ∑ j ∈ Finset.range (vemList k mesh.topo c).length, onList (vemList k mesh.topo c) (rowShift data data.counters.dofs i) j *
            apply (A c) (twoValues k mesh data x c) ((vemList k mesh.topo c).length + j)).sum := by
    intro i
    have := hS x (List.replicate (data.counters.strongs + data.counters.strongs) 0) (by omega) List.length_replicate i
    rw [hx] at this
    simp only [fieldList_vem] at this
    rw [← List.sum_map_add, twoValues, ← this, left_eq_add]
    refine Finset.sum_eq_zero fun j _ => ?_
    rw [List.getD_eq_getElem?_getD, List.getElem?_replicate]
    split_ifs <;> simp
  have hz : ∀ c j, onList (vemList k mesh.topo c) (fun _ => (0 : ℝ)) j = 0 := fun c j => by
    unfold onList
    cases (vemList k mesh.topo c)[j]? <;> rfl
  have r0 : ∀ i, rowShift data 0 i = rowTest data i := fun i => by
    funext r
    simp [rowShift, rowTest]
  have r1 : ∀ i, rowShift data data.counters.dofs (data.counters.dofs + i) = rowTest data i := fun i => by
    funext r
    simp [rowShift, rowTest]
  have r2 : ∀ i < data.counters.dofs, rowShift data data.counters.dofs i = fun _ => 0 := fun i hi => by
    funext r
    rw [rowShift, if_neg fun h => by omega]
  have r3 : ∀ i, rowTest data (data.counters.dofs + i) = fun _ => 0 := fun i => by
    funext r
    rw [rowTest, if_neg fun h => by have := H.free r _ h; omega]
  rw [show 2 * data.counters.dofs = data.counters.dofs + data.counters.dofs by omega] at hrow ⊢
  rw [Finset.sum_range_add]
  have e0 : ∀ i < data.counters.dofs, ∑ j ∈ Finset.range (data.counters.dofs + data.counters.dofs), entry S.lhsDOFs i j * x.getD j 0
      = (mesh.cells.map fun c => ∑ j ∈ Finset.range (vemList k mesh.topo c).length, onList (vemList k mesh.topo c) (rowTest data i) j * apply (A c) (twoValues k mesh data x c) j).sum := by
    intro i hi
    rw [hrow, r0, r2 i hi]
    simp [hz]
  have e1 : ∀ i, ∑ j ∈ Finset.range (data.counters.dofs + data.counters.dofs), entry S.lhsDOFs (data.counters.dofs + i) j * x.getD j 0
      = (mesh.cells.map fun c => ∑ j ∈ Finset.range (vemList k mesh.topo c).length, onList (vemList k mesh.topo c) (rowTest data i) j *
          apply (A c) (twoValues k mesh data x c) ((vemList k mesh.topo c).length + j)).sum := by
    intro i
    rw [hrow, r0, r3, r1]
    simp [hz]
  have hd : ∀ i, z.getD (data.counters.dofs + i) 0 = (z.drop data.counters.dofs).getD i 0 := fun i => by
    simp only [List.getD_eq_getElem?_getD, List.getElem?_drop]
  rw [Finset.sum_congr rfl fun i hi => by rw [e0 i (Finset.mem_range.1 hi)], tested_rows H z mesh.cells fun c => apply (A c) (twoValues k mesh data x c)]
  simp only [e1, hd]
  rw [tested_rows H (z.drop data.counters.dofs) mesh.cells fun c j => apply (A c) (twoValues k mesh data x c) ((vemList k mesh.topo c).length + j), ← List.sum_map_add]
  refine congrArg List.sum (List.map_congr_left fun c _ => ?_)
  rw [show 2 * (vemList k mesh.topo c).length = (vemList k mesh.topo c).length + (vemList k mesh.topo c).length by omega, Finset.sum_range_add]
  congr 1
  · refine Finset.sum_congr rfl fun j hj => ?_
    have := twoValues_comp k mesh data z c (h := 0) (by norm_num) (Finset.mem_range.1 hj)
    simp only [compOf, zero_mul, zero_add] at this
    rw [this]
  · refine Finset.sum_congr rfl fun j hj => ?_
    have := twoValues_comp k mesh data z c (h := 1) (by norm_num) (Finset.mem_range.1 hj)
    simp only [compOf, one_mul, hd] at this
    rw [this]

/-- The calls of `Assemble` in the elasticity example, for all data: the matrix comes from the matrices of the cells. -/
theorem elastic_calls (hM : IsPlaneMesh k mesh poly n len dir nrm) (hT : IsTables k triangle edge ts ws w) (hr : vemRef2D triangle edge k = .ok ref)
    (hi : vemMeshInfo ref mesh.topo boundary = .ok info) (hdata : createDOFs 2 info mesh.topo = .ok data) (hov : 2 * totalRequested info 2 < 2 ^ 32)
    (hsmall : ∀ c < mesh.num2D, 2 * (n c + n c * (k - 1) + k * (k - 1) / 2) < 2 ^ 32) (hact : ∀ c < mesh.num2D, mesh.active2D c = true) {test : ElasticTest ℝ}
    {A b : Nat → DMat ℝ} (hloc : ∀ c < mesh.num2D, ∃ s, vemCreate2D lu llt ref (poly c) = .ok s ∧ elasticLocal (vemCell2D ref (poly c) s) test = .ok (A c, b c) ∧
      (A c).rows = 2 * (vemList k mesh.topo c).length ∧ (A c).cols = 2 * (vemList k mesh.topo c).length ∧ (b c).rows = 2 * (vemList k mesh.topo c).length) {P : ElasticProblem ℝ}
    (hP : assembleElastic info data k gauss (fun c => (poly c).edges) (vemSpaces lu llt ref poly) mesh test = .ok P) {x z : List ℝ} (hx : x.length = 2 * data.counters.dofs) :
    ∑ i ∈ Finset.range (2 * data.counters.dofs), z.getD i 0 * ∑ j ∈ Finset.range (2 * data.counters.dofs), entry P.globalMatrix i j * x.getD j 0
      = (mesh.cells.map fun c => ∑ i ∈ Finset.range (2 * (vemList k mesh.topo c).length), twoValues k mesh data z c i * apply (A c) (twoValues k mesh data x c) i).sum := by
  have hov' : totalRequested info 2 < 2 ^ 32 := by omega
  have H := handler_plane hT hr hi hdata hov'
  have HF : FHandler (numOf k) mesh.topo info data := field_handler (numOf_ref hT hr mesh.topo boundary ▸ hi) hdata hov'
  obtain ⟨-, -, -, -, s2⟩ := C03_counters 2 info mesh.topo data hdata hov'
  have s2 : data.counters.dofs + data.counters.strongs = totalRequested info 2 := s2
  have HP : Pair (numOf k) (numOf k) mesh.topo info info data data := ⟨HF, HF, by omega, by omega⟩
  have hcells : mesh.cells = List.range mesh.num2D := by
    unfold PlaneMesh.cells
    exact List.filter_eq_self.2 fun c hc => hact c (List.mem_range.1 hc)
  have hlen : ∀ c < mesh.num2D, (vemList k mesh.topo c).length = n c + n c * (k - 1) + k * (k - 1) / 2 := fun c hc =>
    vemList_length k mesh.topo c (n c) (hM.vertices c hc) (hM.edges c hc)
  have hmem : ∀ c ∈ mesh.cells, c < mesh.num2D := fun c hc => (mem_cells.1 hc).1
  have hsm : ∀ c < mesh.num2D, (fieldList (numOf k) mesh.topo c).length + (fieldList (numOf k) mesh.topo c).length < 2 ^ 32 := fun c hc => by
    rw [fieldList_vem, hlen c hc]
    have := hsmall c hc
    omega
  obtain ⟨S, hS, hSl, -⟩ := HP.assemble mesh.cells hmem (fun c hc => hsm c (hmem c hc)) A (fun c => (b c).toList)
    (fun c hc => by
      obtain ⟨s, -, -, h1, h2, -⟩ := hloc c (hmem c hc)
      rw [fieldList_vem]
      omega)
    (fun c hc => by
      obtain ⟨s, -, -, -, -, h3⟩ := hloc c (hmem c hc)
      rw [fieldList_vem, DMat.toList, List.length_map, List.length_range]
      omega)
  obtain ⟨bb, hcount⟩ := HP.count
  unfold assembleElastic at hP
  rw [hcount, except_ok_bind] at hP
  obtain ⟨cells, hc1, hP⟩ := (bind_ok_iff _ _ _).1 hP
  have : Inhabited (ElasticCellOut ℝ) := ⟨⟨⟨0, pairFields data data 0, none, none⟩, [], []⟩⟩
  obtain ⟨g, hg, rfl⟩ := mapM_inv hc1
  have hcall : ∀ c ∈ List.range mesh.num2D, (g c).call = (⟨c, pairFields data data (fieldList (numOf k) mesh.topo c).length,
      some (pairFields data data (fieldList (numOf k) mesh.topo c).length, (A c).toLMat), some (b c).toList⟩ : Call ℝ) := by
    intro c hc
    have h := hg c hc
    have hc' := List.mem_range.1 hc
    obtain ⟨s, hs, hrun, -⟩ := hloc c hc'
    have hsp : vemSpaces lu llt ref poly c = .ok (vemCell2D ref (poly c) s) := by rw [vemSpaces, hs, except_ok_bind]
    rw [elasticCell, hsp, except_ok_bind, hrun, except_ok_bind, HP.local_count hc' (hsm c hc'), except_ok_bind] at h
    dsimp only at h
    obtain ⟨_, -, h⟩ := (bind_ok_iff _ _ _).1 h
    obtain ⟨_, -, h⟩ := (bind_ok_iff _ _ _).1 h
    rw [← Except.ok.inj h]
    rfl
  have hmap : ((List.range mesh.num2D).map g).map ElasticCellOut.call = mesh.cells.map fun c => (⟨c, pairFields data data (fieldList (numOf k) mesh.topo c).length,
      some (pairFields data data (fieldList (numOf k) mesh.topo c).length, (A c).toLMat), some (b c).toList⟩ : Call ℝ) := by
    rw [List.map_map, hcells]
    exact List.map_congr_left hcall
  rw [hmap, hS, except_ok_bind] at hP
  obtain ⟨_, -, hP⟩ := (bind_ok_iff _ _ _).1 hP
  rw [← Except.ok.inj hP]
  exact elastic_form H hSl hx

/-- C164: the matrix of the free DOFs made by `Assemble` of the elasticity example with constant coefficients `μ > 0`, `μ + λ > 0` is symmetric and positive definite, as the
Cholesky solver of main.cpp asks for, and so for all data the discrete problem has exactly one solution. Every cell is active and held by the Dirichlet conditions. -/
theorem C164_definite (hM : IsPlaneMesh k mesh poly n len dir nrm) (hT : IsTables k triangle edge ts ws w) (hlu : SolvesRegular lu)
    (hllt : SolvesPosDef llt) (hr : vemRef2D triangle edge k = .ok ref) (hi : vemMeshInfo ref mesh.topo boundary = .ok info) (hdata : createDOFs 2 info mesh.topo = .ok data)
    (hov : 2 * totalRequested info 2 < 2 ^ 32) (hsmall : ∀ c < mesh.num2D, 2 * (n c + n c * (k - 1) + k * (k - 1) / 2) < 2 ^ 32)
    (hact : ∀ c < mesh.num2D, mesh.active2D c = true) {μ l : ℝ} (hμ : 0 < μ) (hl : 0 < μ + l) {test : ElasticTest ℝ} (h0 : ∀ p, test.lame p 0 = μ) (h1 : ∀ p, test.lame p 1 = l)
    (hcover : ∀ d ≤ 2, ∀ E < (mesh.topo.markers d).length, ∃ c ∈ mesh.cells, E ∈ entities mesh d c) (hheld : ∀ c ∈ mesh.cells, Held mesh info c) {P : ElasticProblem ℝ}
    (hP : assembleElastic info data k gauss (fun c => (poly c).edges) (vemSpaces lu llt ref poly) mesh test = .ok P) :
    (∀ i < 2 * data.counters.dofs, ∀ j < 2 * data.counters.dofs, entry P.globalMatrix i j = entry P.globalMatrix j i) ∧
      (∀ x : List ℝ, x.length = 2 * data.counters.dofs →
        0 ≤ ∑ i ∈ Finset.range (2 * data.counters.dofs), x.getD i 0 * ∑ j ∈ Finset.range (2 * data.counters.dofs), entry P.globalMatrix i j * x.getD j 0 ∧
        (∑ i ∈ Finset.range (2 * data.counters.dofs), x.getD i 0 * ∑ j ∈ Finset.range (2 * data.counters.dofs), entry P.globalMatrix i j * x.getD j 0 = 0 →
          ∀ i < 2 * data.counters.dofs, x.getD i 0 = 0)) ∧
      ∀ b : Nat → ℝ, ∃! x : List ℝ, x.length = 2 * data.counters.dofs ∧
        ∀ i < 2 * data.counters.dofs, ∑ j ∈ Finset.range (2 * data.counters.dofs), entry P.globalMatrix i j * x.getD j 0 = b i := by
  have hov' : totalRequested info 2 < 2 ^ 32 := by omega
  have H := handler_plane hT hr hi hdata hov'
  have hmem : ∀ c ∈ mesh.cells, c < mesh.num2D := fun c hc => (mem_cells.1 hc).1
  have hlen : ∀ c < mesh.num2D, (vemList k mesh.topo c).length = n c + n c * (k - 1) + k * (k - 1) / 2 := fun c hc =>
    vemList_length k mesh.topo c (n c) (hM.vertices c hc) (hM.edges c hc)
  have hloc : ∀ c, ∃ A b : DMat ℝ, c < mesh.num2D → (∃ s, vemCreate2D lu llt ref (poly c) = .ok s ∧ elasticLocal (vemCell2D ref (poly c) s) test = .ok (A, b) ∧
      A.rows = 2 * (vemList k mesh.topo c).length ∧ A.cols = 2 * (vemList k mesh.topo c).length ∧ b.rows = 2 * (vemList k mesh.topo c).length) ∧ (∀ i j, A.ent i j = A.ent j i) ∧
      ∀ x : Nat → ℝ, 0 ≤ ∑ i ∈ Finset.range (2 * (vemList k mesh.topo c).length), x i * apply A x i ∧
        (∑ i ∈ Finset.range (2 * (vemList k mesh.topo c).length), x i * apply A x i = 0 ↔
          ∃ a b d : ℝ, ∀ h < 2, IsDofVector k (poly c) (n c) (cellPoint mesh c) (dir c) ts (rigid a b d h) (compOf (vemList k mesh.topo c).length x h)) := by
    intro c
    by_cases hc : c < mesh.num2D
    swap
    · exact ⟨⟨0, 0, fun _ _ => 0⟩, ⟨0, 0, fun _ _ => 0⟩, fun h => absurd h hc⟩
    obtain ⟨r', s, hr', hs, hsp, hall⟩ := elastic_local (hM.element c hc) hT hlu hllt (hM.measure c hc)
    obtain rfl : r' = ref := Except.ok.inj (hr'.symm.trans hr)
    obtain ⟨S, A, b, μmax, h⟩ := hall test
    refine ⟨A, b, fun _ => ⟨⟨s, hs, h.run, ?_, ?_, ?_⟩, h.symm, fun x => ?_⟩⟩
    · rw [h.rows, hlen c hc]
    · rw [h.cols, hlen c hc]
    · rw [h.rowsB, hlen c hc]
    · rw [hlen c hc]
      exact elastic_energy (hM.element c hc) hT hlu hllt (hM.measure c hc) hμ hl h0 h1 hr hs hsp h x
  choose A b hloc using hloc
  have e4 : k * (k - 1) / 2 = tri (k - 1) := by
    rcases k with _ | _ | k
    · rfl
    · rfl
    · have := tri_div k
      simpa [mul_comm] using this
  have hform := fun (x z : List ℝ) (hx : x.length = 2 * data.counters.dofs) =>
    elastic_calls (z := z) hM hT hr hi hdata hov hsmall hact (fun c hc => (hloc c hc).1) hP hx
  have hdef : ∀ x : List ℝ, x.length = 2 * data.counters.dofs →
        0 ≤ ∑ i ∈ Finset.range (2 * data.counters.dofs), x.getD i 0 * ∑ j ∈ Finset.range (2 * data.counters.dofs), entry P.globalMatrix i j * x.getD j 0 ∧
        (∑ i ∈ Finset.range (2 * data.counters.dofs), x.getD i 0 * ∑ j ∈ Finset.range (2 * data.counters.dofs), entry P.globalMatrix i j * x.getD j 0 = 0 →
          ∀ i < 2 * data.counters.dofs, x.getD i 0 = 0) := by
    intro x hx
    rw [hform x x hx]
    have hnn : ∀ z ∈ mesh.cells.map fun c => ∑ i ∈ Finset.range (2 * (vemList k mesh.topo c).length), twoValues k mesh data x c i * apply (A c) (twoValues k mesh data x c) i,
        0 ≤ z := by
      intro z hz
      obtain ⟨c, hc, rfl⟩ := List.mem_map.1 hz
      exact ((hloc c (hmem c hc)).2.2 _).1
    refine ⟨List.sum_nonneg hnn, fun hzero => ?_⟩
    set χ : Nat → GDOF → ℝ := fun h => testValue data fun i => x.getD (h * data.counters.dofs + i) 0 with hχ
    -- every cell moves rigidly
    have hcell : ∀ c ∈ mesh.cells, ∃ a b d : ℝ, ∀ h < 2, IsDofVector k (poly c) (n c) (cellPoint mesh c) (dir c) ts (rigid a b d h) (onList (vemList k mesh.topo c) (χ h)) := by
      intro c hc
      have hE : ∑ i ∈ Finset.range (2 * (vemList k mesh.topo c).length), twoValues k mesh data x c i * apply (A c) (twoValues k mesh data x c) i = 0 := by
        refine le_antisymm ?_ (hnn _ (List.mem_map_of_mem hc))
        rw [← hzero]
        exact List.single_le_sum hnn _ (List.mem_map_of_mem hc)
      obtain ⟨a, b', d, hr'⟩ := ((hloc c (hmem c hc)).2.2 _).2.1 hE
      refine ⟨a, b', d, fun h hh => ?_⟩
      exact dofVector_congr hT.nodes (hr' h hh) fun j hj => twoValues_comp k mesh data x c hh (by rw [hlen c (hmem c hc), e4]; exact hj)
    have hvert : ∀ c ∈ mesh.cells, ∀ (u : ℝ × ℝ → ℝ) (h : Nat), IsDofVector k (poly c) (n c) (cellPoint mesh c) (dir c) ts u (onList (vemList k mesh.topo c) (χ h)) →
        ∀ p ∈ mesh.topo.cell2DVertices c, χ h ⟨0, p, 0⟩ = u (mesh.coords p) := by
      intro c hc u h ha p hp
      obtain ⟨e, he⟩ := List.mem_iff_getElem?.1 hp
      have hlt : e < n c := by
        rw [← hM.vertices c (hmem c hc)]
        exact (List.getElem?_eq_some_iff.1 he).1
      have := ha.vertex e hlt
      rw [onList, vemList_vertex (hM.vertices c (hmem c hc)) hlt, Option.elim_some, List.getD_eq_getElem?_getD, he, cellPoint, cellVertex, List.getD_eq_getElem?_getD, he] at this
      exact this
    -- and the motion is zero
    have hstill : ∀ c ∈ mesh.cells, ∀ p q : Nat, p ∈ mesh.topo.cell2DVertices c → q ∈ mesh.topo.cell2DVertices c → mesh.coords p ≠ mesh.coords q →
        (∀ h < 2, χ h ⟨0, p, 0⟩ = 0) → (∀ h < 2, χ h ⟨0, q, 0⟩ = 0) →
        ∀ h < 2, IsDofVector k (poly c) (n c) (cellPoint mesh c) (dir c) ts (fun _ => (0 : ℝ)) (onList (vemList k mesh.topo c) (χ h)) := by
      intro c hc p q hp hq hpq h0 h1 h hh
      obtain ⟨a, b', d, hd⟩ := hcell c hc
      obtain ⟨rfl, rfl, rfl⟩ := rigid_zero hpq (fun h hh => (hvert c hc _ h (hd h hh) p hp).symm.trans (h0 h hh)) (fun h hh => (hvert c hc _ h (hd h hh) q hq).symm.trans (h1 h hh))
      have := hd h hh
      have hz : rigid 0 0 0 h = fun _ => 0 := by
        funext p
        simp [rigid]
      rwa [hz] at this
    have hz : ∀ c, Held mesh info c → c ∈ mesh.cells →
        ∀ h < 2, IsDofVector k (poly c) (n c) (cellPoint mesh c) (dir c) ts (fun _ => (0 : ℝ)) (onList (vemList k mesh.topo c) (χ h)) := by
      intro c hc
      induction hc with
      | fixed c p q hp hq hpq h0 h1 => exact fun hc => hstill c hc p q hp hq hpq (fun h _ => test_strong H h0 _) (fun h _ => test_strong H h1 _)
      | next c c' p q hc' _ hp' hq' hp hq hpq ih =>
        exact fun hc => hstill c hc p q hp hq hpq (fun h hh => hvert c' hc' _ h (ih hc' h hh) p hp') (fun h hh => hvert c' hc' _ h (ih hc' h hh) q hq')
    have hval : ∀ h < 2, ∀ i < data.counters.dofs, x.getD (h * data.counters.dofs + i) 0 = 0 := by
      intro h hh i hi
      obtain ⟨r, hr⟩ := H.ontoFree i hi
      have := covered_zero hM hT.nodes H hcover (χ := χ h) (fun c hc => hz c (hheld c hc) hc h hh) hr
      simp only [hχ, testValue, hr] at this
      exact this
    intro i hi
    rcases Nat.lt_or_ge i data.counters.dofs with h | h
    · simpa using hval 0 (by norm_num) i h
    · have := hval 1 (by norm_num) (i - data.counters.dofs) (by omega)
      rwa [one_mul, Nat.add_sub_cancel' h] at this
  refine ⟨fun i hi j hj => ?_, hdef, fun b => definite_solves (fun x hx => (hdef x hx).2) b⟩
  set M := 2 * data.counters.dofs with hMd
  have hu : ∀ i m, ((List.range M).map fun m => if m = i then (1 : ℝ) else 0).getD m 0 = if m < M ∧ m = i then 1 else 0 := by
    intro i m
    rw [List.getD_eq_getElem?_getD, List.getElem?_map]
    rcases Nat.lt_or_ge m M with h | h
    · rw [List.getElem?_range h]
      simp [h]
    · rw [List.getElem?_eq_none (by simpa using h)]
      simp [Nat.not_lt.2 h]
  have hpick : ∀ i < M, ∀ j < M, ∑ r ∈ Finset.range M, ((List.range M).map fun m => if m = i then (1 : ℝ) else 0).getD r 0 *
      ∑ s ∈ Finset.range M, entry P.globalMatrix r s * ((List.range M).map fun m => if m = j then (1 : ℝ) else 0).getD s 0 = entry P.globalMatrix i j := by
    intro i hi j hj
    simp only [hu]
    rw [Finset.sum_eq_single_of_mem i (Finset.mem_range.2 hi) (fun r _ hne => by rw [if_neg fun h => hne h.2, zero_mul]), if_pos ⟨hi, rfl⟩, one_mul,
      Finset.sum_eq_single_of_mem j (Finset.mem_range.2 hj) (fun r _ hne => by rw [if_neg fun h => hne h.2, mul_zero]), if_pos ⟨hj, rfl⟩, mul_one]
  rw [← hpick i hi j hj, ← hpick j hj i hi, hform _ _ (by simp), hform _ _ (by simp)]
  refine congrArg List.sum (List.map_congr_left fun c hc => ?_)
  obtain ⟨⟨s, -, -, -, hcols, -⟩, hsym, -⟩ := hloc c (hmem c hc)
  exact local_symm hcols hsym _ _

/-- C164, the patch test: with the data of a polynomial displacement its degrees of freedom are the only solution. -/
theorem C164_exact (hM : IsPlaneMesh k mesh poly n len dir nrm) (hT : IsTables k triangle edge ts ws w) (hd : (0 :: 1 :: ts).Nodup) (hlu : SolvesRegular lu)
    (hllt : SolvesPosDef llt) (hr : vemRef2D triangle edge k = .ok ref) (hi : vemMeshInfo ref mesh.topo boundary = .ok info) (hdata : createDOFs 2 info mesh.topo = .ok data)
    (hov : 2 * totalRequested info 2 < 2 ^ 32) (hsmall : ∀ c < mesh.num2D, 2 * (n c + n c * (k - 1) + k * (k - 1) / 2) < 2 ^ 32)
    (hgl : (gauss (2 * k)).weights.length = (gauss (2 * k)).points.length)
    (hge : ExactOnSegment (2 * k) (gauss (2 * k)).points (gauss (2 * k)).weights) (hg01 : ∀ t ∈ (gauss (2 * k)).points, 0 ≤ t ∧ t ≤ 1)
    (hact : ∀ c < mesh.num2D, mesh.active2D c = true) {μ l : ℝ} {test : ElasticTest ℝ} {q : Nat → MvPolynomial (Fin 2) ℝ}
    (hq : ∀ h < 2, (q h).totalDegree ≤ k) (hμ : ∀ p, test.lame p 0 = μ) (hl : ∀ p, test.lame p 1 = l)
    (hsrc : ∀ p, ∀ h < 2, test.source p h = -(eval ![p.1, p.2] (pderiv 0 (elasticStress μ l q h 0) + pderiv 1 (elasticStress μ l q h 1))))
    (htypes : ∀ (E : Nat) (b : BInfo), (info.bInfo 1)[E]? = some b → b.type = .none ∨ b.type = .weak ∨ b.type = .strong)
    (hinner : ∀ (E : Nat) (b : BInfo), (info.bInfo 1)[E]? = some b → b.type = .none → signedCount mesh n dir E = 0)
    (hstrong : ∀ (E : Nat) (b : BInfo), (info.bInfo 1)[E]? = some b → b.type = .strong → bTypeOf info (0, (mesh.topo.cell1DVertices E).1) = some .strong ∧
      bTypeOf info (0, (mesh.topo.cell1DVertices E).2) = some .strong)
    (hN : ∀ c ∈ mesh.cells, ∀ e < n c, ∀ b : BInfo, (info.bInfo 1)[cellEdge mesh c e]? = some b → b.type = .weak → ∀ t, 0 ≤ t → t ≤ 1 → ∀ h < 2,
      test.weak b.marker (edgePoint mesh (cellEdge mesh c e) t) h
        = stress μ l (polyGrad q (edgePoint mesh (cellEdge mesh c e) t)) h 0 * (nrm c e).1 + stress μ l (polyGrad q (edgePoint mesh (cellEdge mesh c e) t)) h 1 * (nrm c e).2)
    (hg : ∀ d ≤ 2, ∀ (b : BInfo) (E : Nat), (info.bInfo d)[E]? = some b → b.type = .strong → d ≤ 1 ∧ ∃ c ∈ mesh.cells, E ∈ entities mesh d c)
    (hf : ∀ d ≤ 2, ∀ (b : BInfo) (E : Nat), (info.bInfo d)[E]? = some b → b.type = .strong → ∀ p : ℝ × ℝ, ∀ h < 2, test.strong b.marker p h = eval ![p.1, p.2] (q h))
    (hμ0 : 0 < μ) (hl0 : 0 < μ + l)
    (hcover : ∀ d ≤ 2, ∀ E < (mesh.topo.markers d).length, ∃ c ∈ mesh.cells, E ∈ entities mesh d c) (hheld : ∀ c ∈ mesh.cells, Held mesh info c) :
    ∃ P v₀ v₁, assembleElastic info data k gauss (fun c => (poly c).edges) (vemSpaces lu llt ref poly) mesh test = .ok P ∧
      evaluateOnDofs data k (vemSpaces lu llt ref poly) mesh (fun p => eval ![p.1, p.2] (q 0)) = .ok v₀ ∧
      evaluateOnDofs data k (vemSpaces lu llt ref poly) mesh (fun p => eval ![p.1, p.2] (q 1)) = .ok v₁ ∧
      ∀ x : List ℝ, x.length = 2 * data.counters.dofs →
        ((∀ i < 2 * data.counters.dofs, ∑ j ∈ Finset.range (2 * data.counters.dofs), entry P.globalMatrix i j * x.getD j 0 = ventry P.rightHandSide i) ↔ x = v₀.free ++ v₁.free) := by
  obtain ⟨P, v₀, v₁, hP, hv0, hv1, hf0, hf1, -, hsol⟩ := C163_patch hM hT hd hlu hllt hr hi hdata hov hsmall hgl hge hg01 hact hq hμ hl hsrc htypes hinner hstrong hN hg hf
  obtain ⟨-, -, huniq⟩ := C164_definite hM hT hlu hllt hr hi hdata hov hsmall hact hμ0 hl0 hμ hl hcover hheld hP
  refine ⟨P, v₀, v₁, hP, hv0, hv1, fun x hx => ⟨fun h => ?_, fun h i _ => by rw [h]; exact hsol i⟩⟩
  exact (huniq fun i => ventry P.rightHandSide i).unique ⟨hx, h⟩ ⟨by rw [List.length_append]; omega, fun i _ => hsol i⟩

-- C164: the mesh of two triangles, order 2, any displacement of degree 2, `μ = 3/2`, `λ = 3`
example (q : Nat → MvPolynomial (Fin 2) ℝ) (hq : ∀ h < 2, (q h).totalDegree ≤ 2) : ∃ lu llt : Solver ℝ, ∃ ref info data P v₀ v₁, SolvesRegular lu ∧ SolvesPosDef llt ∧
    vemMeshInfo ref patchMesh.topo patchBoundary = .ok info ∧ createDOFs 2 info patchMesh.topo = .ok data ∧ data.counters.dofs = 6 ∧
    assembleElastic info data 2 (fun _ => ⟨[0, 1 / 4, 1 / 2, 3 / 4, 1], [7 / 90, 16 / 45, 2 / 15, 16 / 45, 7 / 90]⟩) (fun c => (patchPoly c).edges)
      (vemSpaces lu llt ref patchPoly) patchMesh (patchElastic (3 / 2) 3 q) = .ok P ∧
    evaluateOnDofs data 2 (vemSpaces lu llt ref patchPoly) patchMesh (fun p => eval ![p.1, p.2] (q 0)) = .ok v₀ ∧
    evaluateOnDofs data 2 (vemSpaces lu llt ref patchPoly) patchMesh (fun p => eval ![p.1, p.2] (q 1)) = .ok v₁ ∧
    ∀ x : List ℝ, x.length = 2 * data.counters.dofs →
        ((∀ i < 2 * data.counters.dofs, ∑ j ∈ Finset.range (2 * data.counters.dofs), entry P.globalMatrix i j * x.getD j 0 = ventry P.rightHandSide i) ↔ x = v₀.free ++ v₁.free) := by
  obtain ⟨lu, h1, h2⟩ := exists_solvers
  obtain ⟨ref, info, data, hr, hi, hd, ho, ⟨hb0, hb1, hb2⟩, hc, hs⟩ := patch_dofs
  obtain ⟨p1, p2, p3, p4⟩ := patch_conditions hb0 hb1
  obtain ⟨l1, -⟩ := patch_links hb0
  have hcells : patchMesh.cells = [0, 1] := by simp [PlaneMesh.cells, PlaneMesh.num2D, patchMesh, patchTopo, List.range_succ]
  have g0 : Held patchMesh info 0 := .fixed 0 0 1 (by simp [patchMesh, patchTopo]) (by simp [patchMesh, patchTopo]) (by simp [patchMesh, squareV]) (by simp [bTypeOf, hb0])
    (by simp [bTypeOf, hb0])
  have g1 : Held patchMesh info 1 := .next 1 0 0 2 (by simp [hcells]) g0 (by simp [patchMesh, patchTopo]) (by simp [patchMesh, patchTopo]) (by simp [patchMesh, patchTopo])
    (by simp [patchMesh, patchTopo]) (by simp [patchMesh, squareV])
  have hheld : ∀ c ∈ patchMesh.cells, Held patchMesh info c := by
    rw [hcells]
    intro c hc
    simp only [List.mem_cons, List.not_mem_nil, or_false] at hc
    rcases hc with rfl | rfl
    · exact g0
    · exact g1
  obtain ⟨-, -, -, -, s2⟩ := C03_counters 2 info patchMesh.topo data hd ho
  have s2 : data.counters.dofs + data.counters.strongs = totalRequested info 2 := s2
  obtain ⟨P, v₀, v₁, hP, hv0, hv1, h⟩ := C164_exact (μ := 3 / 2) (l := 3) (gauss := fun _ => ⟨[0, 1 / 4, 1 / 2, 3 / 4, 1], [7 / 90, 16 / 45, 2 / 15, 16 / 45, 7 / 90]⟩)
    (test := patchElastic (3 / 2) 3 q) patch_mesh square_tables
    (by norm_num) h1 h2 hr hi hd (by omega) (fun c hc => by norm_num) rfl boole_exact
    (by intro t ht; simp only [List.mem_cons, List.not_mem_nil, or_false] at ht; rcases ht with rfl | rfl | rfl | rfl | rfl <;> norm_num)
    (fun c _ => rfl) hq (fun _ => rfl) (fun _ => rfl) (fun _ _ _ => rfl) p1 p2 p3
    (fun c hc e he b hb ht t _ _ h _ => p4 (fun p => stress (3 / 2) 3 (polyGrad q p) h 0) (fun p => stress (3 / 2) 3 (polyGrad q p) h 1) c hc e he b hb ht _)
    (patch_held hb0 hb1 hb2) (fun _ _ _ _ _ _ _ _ _ => rfl) (by norm_num) (by norm_num) l1 hheld
  exact ⟨lu, lu, ref, info, data, P, v₀, v₁, h1, h2, hi, hd, hc, hP, hv0, hv1, h⟩

end PolyDiM
