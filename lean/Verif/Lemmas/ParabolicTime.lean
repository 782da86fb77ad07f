import Verif.Lemmas.ParabolicGlobal
import Verif.Lemmas.PlaneEnergy
import Verif.Props.PlaneMesh2D
import Verif.Spec.Parabolic

/-!
# Lemmas: the steps of the θ-method
-/

namespace PolyDiM

open Spec MvPolynomial

variable {k : Nat} {mesh : PlaneMesh ℝ} {poly : Nat → VemPolygon ℝ} {n : Nat → Nat} {len : Nat → Nat → ℝ} {dir : Nat → Nat → Bool} {nrm : Nat → Nat → ℝ × ℝ}
  {triangle : Nat → Rule (ℝ × ℝ) ℝ} {edge : Nat → Rule ℝ ℝ} {ts ws : List ℝ} {w : ℝ} {lu llt : Solver ℝ}
  {ref : VemRef2D ℝ} {boundary : Nat → Option BInfo} {info : MeshInfo} {data : DOFsData} {gauss : Nat → Rule ℝ ℝ}
  {test : ParabolicTest ℝ} {s : Nat → VemSpace2D ℝ} {Φ S T A M : Nat → DMat ℝ} {κmax : Nat → ℝ} {P : ParabolicStatic ℝ}

theorem listOf_getD (N : Nat) (x : Nat → ℝ) {i : Nat} (hi : i < N) : ((List.range N).map x).getD i 0 = x i := by
  rw [List.getD_eq_getElem?_getD, List.getElem?_map, List.getElem?_range hi]
  rfl

/-- The form of an assembled matrix is the sum of the forms of the cells. -/
theorem assembled_form (H : Handler k mesh.topo info data) {F D : List (Nat × Nat × ℝ)} {B : Nat → DMat ℝ}
    (hrows : ∀ free strong : List ℝ, free.length = data.counters.dofs → strong.length = data.counters.strongs → ∀ i, heatRow F D free strong i
      = (mesh.cells.map fun c => ∑ j ∈ Finset.range (vemList k mesh.topo c).length,
          onList (vemList k mesh.topo c) (rowTest data i) j * apply (B c) (onList (vemList k mesh.topo c) (valueOf data free strong)) j).sum) (x y : Nat → ℝ) :
    tripletForm F data.counters.dofs x y = (mesh.cells.map fun c => ∑ j ∈ Finset.range (vemList k mesh.topo c).length,
      onList (vemList k mesh.topo c) (testValue data fun i => ((List.range data.counters.dofs).map x).getD i 0) j *
        apply (B c) (onList (vemList k mesh.topo c) (testValue data fun i => ((List.range data.counters.dofs).map y).getD i 0)) j).sum := by
  set N := data.counters.dofs with hN
  set X := (List.range N).map x with hX
  set Y := (List.range N).map y with hY
  have hYl : Y.length = N := by simp [hY]
  rw [← tested_rows H X mesh.cells fun c => apply (B c) (onList (vemList k mesh.topo c) (testValue data fun i => Y.getD i 0))]
  unfold tripletForm
  refine Finset.sum_congr rfl fun i hi => ?_
  rw [hX, listOf_getD N x (Finset.mem_range.1 hi)]
  congr 1
  have := hrows Y (List.replicate data.counters.strongs 0) hYl List.length_replicate i
  rw [valueOf_zero] at this
  rw [← this, heatRow, hYl]
  have h0 : ∑ j ∈ Finset.range (List.replicate data.counters.strongs (0 : ℝ)).length, entry D i j * (List.replicate data.counters.strongs (0 : ℝ)).getD j 0 = 0 :=
    Finset.sum_eq_zero fun j _ => by
      rw [List.getD_eq_getElem?_getD, List.getElem?_replicate]
      split_ifs <;> simp
  rw [h0, add_zero]
  refine Finset.sum_congr rfl fun j hj => ?_
  rw [hY, listOf_getD N y (Finset.mem_range.1 hj)]

theorem local_symm {B : DMat ℝ} {N : Nat} (hc : B.cols = N) (hs : ∀ i j, B.ent i j = B.ent j i) (x y : Nat → ℝ) :
    ∑ i ∈ Finset.range N, x i * apply B y i = ∑ i ∈ Finset.range N, y i * apply B x i := by
  rw [apply_eq hc, apply_eq hc]
  simp only [Finset.mul_sum]
  rw [Finset.sum_comm]
  exact Finset.sum_congr rfl fun i _ => Finset.sum_congr rfl fun j _ => by rw [hs]; ring

theorem tripletForm_add (F G : List (Nat × Nat × ℝ)) (a : ℝ) (N : Nat) (x y : Nat → ℝ) :
    tripletForm (scaleTriplets a F ++ G) N x y = a * tripletForm F N x y + tripletForm G N x y := by
  unfold tripletForm
  simp only [entry_append, entry_scale, add_mul, Finset.sum_add_distrib, mul_add, mul_assoc, ← Finset.mul_sum]
  congr 1
  rw [Finset.mul_sum]
  refine Finset.sum_congr rfl fun i _ => ?_
  ring

section forms
variable (hM : IsPlaneMesh k mesh poly n len dir nrm) (hT : IsTables k triangle edge ts ws w) (hlu : SolvesRegular lu)
    (hllt : SolvesPosDef llt) (hr : vemRef2D triangle edge k = .ok ref) (H : Handler k mesh.topo info data)
    (hH : HeatMesh k mesh poly n len dir ts ws w lu llt ref data test s Φ S T A M κmax P)
include hH H

theorem stiff_symm (x y : Nat → ℝ) : tripletForm P.globalA data.counters.dofs x y = tripletForm P.globalA data.counters.dofs y x := by
  rw [assembled_form H hH.rowsA, assembled_form H hH.rowsA]
  congr 1
  refine List.map_congr_left fun c hc => ?_
  have hc' := (mem_cells.1 hc).1
  exact local_symm (by rw [(hH.cell c hc').cols, hH.size c hc']) (hH.cell c hc').symm _ _

theorem mass_symm (x y : Nat → ℝ) : tripletForm P.globalM data.counters.dofs x y = tripletForm P.globalM data.counters.dofs y x := by
  rw [assembled_form H hH.rowsM, assembled_form H hH.rowsM]
  congr 1
  refine List.map_congr_left fun c hc => ?_
  have hc' := (mem_cells.1 hc).1
  exact local_symm (by rw [(hH.cell c hc').colsM, hH.size c hc']) (hH.cell c hc').symmM _ _

include hM hT hlu hllt hr

theorem mass_nonneg (x : Nat → ℝ) : 0 ≤ tripletForm P.globalM data.counters.dofs x x := by
  rw [assembled_form H hH.rowsM]
  refine List.sum_nonneg fun z hz => ?_
  obtain ⟨c, hc, rfl⟩ := List.mem_map.1 hz
  have hc' := (mem_cells.1 hc).1
  rw [hH.size c hc']
  exact (mass_psd (hM.element c hc') hT hlu hllt (hM.measure c hc') hr (hH.space c hc') (hH.good c hc') (hH.cell c hc') _).1

theorem stiff_nonneg {κ : ℝ} (hκ : ∀ p, test.diffusion p = κ) (hκ0 : 0 < κ) (x : Nat → ℝ) : 0 ≤ tripletForm P.globalA data.counters.dofs x x := by
  rw [assembled_form H hH.rowsA]
  refine List.sum_nonneg fun z hz => ?_
  obtain ⟨c, hc, rfl⟩ := List.mem_map.1 hz
  have hc' := (mem_cells.1 hc).1
  rw [hH.size c hc']
  exact (heat_energy (hM.element c hc') hT hlu hllt (hM.measure c hc') hr (hH.space c hc') (hH.good c hc') (hH.cell c hc') hκ hκ0 _).1

/-- Both energies vanish on the zero vector only. -/
theorem heat_zero {κ : ℝ} (hκ : ∀ p, test.diffusion p = κ) (hκ0 : 0 < κ) (hcover : ∀ d ≤ 2, ∀ E < (mesh.topo.markers d).length, ∃ c ∈ mesh.cells, E ∈ entities mesh d c) (x : Nat → ℝ)
    (hA : tripletForm P.globalA data.counters.dofs x x = 0) (hB : tripletForm P.globalM data.counters.dofs x x = 0) : ∀ i < data.counters.dofs, x i = 0 := by
  set χ : GDOF → ℝ := testValue data fun i => ((List.range data.counters.dofs).map x).getD i 0 with hχ
  have vanish : ∀ f : Nat → ℝ, (∀ c ∈ mesh.cells, 0 ≤ f c) → (mesh.cells.map f).sum = 0 → ∀ c ∈ mesh.cells, f c = 0 := by
    intro f h0 hs c hc
    have hnn : ∀ z ∈ mesh.cells.map f, 0 ≤ z := fun z hz => by
      obtain ⟨c, hc, rfl⟩ := List.mem_map.1 hz
      exact h0 c hc
    refine le_antisymm ?_ (h0 c hc)
    rw [← hs]
    exact List.single_le_sum hnn _ (List.mem_map_of_mem hc)
  rw [assembled_form H hH.rowsA] at hA
  rw [assembled_form H hH.rowsM] at hB
  have hA' := vanish _ (fun c hc => by
    have hc' := (mem_cells.1 hc).1
    rw [hH.size c hc']
    exact (heat_energy (hM.element c hc') hT hlu hllt (hM.measure c hc') hr (hH.space c hc') (hH.good c hc') (hH.cell c hc') hκ hκ0 _).1) hA
  have hB' := vanish _ (fun c hc => by
    have hc' := (mem_cells.1 hc).1
    rw [hH.size c hc']
    exact (mass_psd (hM.element c hc') hT hlu hllt (hM.measure c hc') hr (hH.space c hc') (hH.good c hc') (hH.cell c hc') _).1) hB
  intro i hi
  obtain ⟨r, hr'⟩ := H.ontoFree i hi
  have hval : χ r = x i := by
    rw [hχ, testValue, hr']
    exact listOf_getD _ x hi
  rw [← hval]
  obtain ⟨hd, hrc, hrd⟩ := H.range _ _ hr'
  obtain ⟨c, hc, hmem⟩ := hcover r.dim hd r.cell hrc
  have hc' := (mem_cells.1 hc).1
  have hin : r ∈ vemList k mesh.topo c := by
    obtain ⟨d, E, j⟩ := r
    simp only [vemList, List.mem_append, List.mem_map, List.mem_flatMap, List.mem_range]
    dsimp only at hd hmem hrd
    interval_cases d
    · have : j = 0 := by simpa [numOf] using hrd
      subst this
      exact Or.inl (Or.inl ⟨E, by simpa [entities] using hmem, rfl⟩)
    · exact Or.inl (Or.inr ⟨E, by simpa [entities] using hmem, j, by simpa [numOf] using hrd, rfl⟩)
    · obtain rfl : E = c := by simpa [entities] using hmem
      exact Or.inr ⟨j, by simpa [numOf] using hrd, rfl⟩
  obtain ⟨j, hj⟩ := List.mem_iff_getElem?.1 hin
  have hjl : j < (vemList k mesh.topo c).length := (List.getElem?_eq_some_iff.1 hj).1
  have e1 := hA' c hc
  have e2 := hB' c hc
  rw [hH.size c hc'] at e1 e2 hjl
  have := heat_definite (hM.element c hc') hT hlu hllt (hM.measure c hc') hr (hH.space c hc') (hH.good c hc') (hH.cell c hc') hκ hκ0 _ e1 e2 j hjl
  rw [onList, hj, Option.elim_some] at this
  exact this

/-- The matrix of a step is definite. -/
theorem step_definite {κ : ℝ} (hκ : ∀ p, test.diffusion p = κ) (hκ0 : 0 < κ) (hcover : ∀ d ≤ 2, ∀ E < (mesh.topo.markers d).length, ∃ c ∈ mesh.cells, E ∈ entities mesh d c)
    {dt theta : ℝ} (ha : 0 < dt * theta) (x : Nat → ℝ) :
    0 ≤ tripletForm (thetaMatrices dt theta P).next data.counters.dofs x x ∧
      (tripletForm (thetaMatrices dt theta P).next data.counters.dofs x x = 0 → ∀ i < data.counters.dofs, x i = 0) := by
  have h1 := stiff_nonneg hM hT hlu hllt hr H hH hκ hκ0 x
  have h2 := mass_nonneg hM hT hlu hllt hr H hH x
  have h3 := mul_nonneg ha.le h1
  rw [thetaMatrices, tripletForm_add]
  refine ⟨add_nonneg h3 h2, fun h => heat_zero hM hT hlu hllt hr H hH hκ hκ0 hcover x ?_ (by linarith)⟩
  exact (mul_eq_zero.1 (show dt * theta * tripletForm P.globalA data.counters.dofs x x = 0 by linarith)).resolve_left ha.ne'

end forms

/-- A definite system is solved by the solver, and a solution is what the solver returns. -/
theorem solver_unique {N : Nat} {solve : List (Nat × Nat × ℝ) → List (Nat × ℝ) → List ℝ} (hsolve : SolvesSystems N solve) {B : List (Nat × Nat × ℝ)}
    (hdef : ∀ x : Nat → ℝ, tripletForm B N x x = 0 → ∀ i < N, x i = 0) (b : List (Nat × ℝ)) {v : List ℝ} (hl : v.length = N)
    (hv : ∀ i < N, ∑ j ∈ Finset.range N, entry B i j * v.getD j 0 = ventry b i) : solve B b = v := by
  have hreg : ∀ x : Nat → ℝ, (∀ i < N, ∑ j ∈ Finset.range N, entry B i j * x j = 0) → ∀ i < N, x i = 0 := fun x h => hdef x (by
    unfold tripletForm
    exact Finset.sum_eq_zero fun i hi => by rw [h i (Finset.mem_range.1 hi), mul_zero])
  obtain ⟨h1, h2⟩ := hsolve B b hreg
  have h3 := hreg (fun j => (solve B b).getD j 0 - v.getD j 0) fun i hi => by
    simp only [mul_sub, Finset.sum_sub_distrib]
    rw [h2 i hi, hv i hi, sub_self]
  refine List.ext_getElem (h1.trans hl.symm) fun i hi hi' => ?_
  have := h3 i (h1 ▸ hi)
  rw [List.getD_eq_getElem?_getD, List.getD_eq_getElem?_getD, List.getElem?_eq_getElem hi, List.getElem?_eq_getElem hi'] at this
  exact sub_eq_zero.1 this

theorem exists_system_solver (N : Nat) : ∃ solve, SolvesSystems N solve := by
  classical
  have : ∀ (A : List (Nat × Nat × ℝ)) (b : List (Nat × ℝ)), ∃ x : List ℝ, (∀ x : Nat → ℝ, (∀ i < N, ∑ j ∈ Finset.range N, entry A i j * x j = 0) → ∀ i < N, x i = 0) →
      x.length = N ∧ ∀ i < N, ∑ j ∈ Finset.range N, entry A i j * x.getD j 0 = ventry b i := by
    intro A b
    by_cases h : ∀ x : Nat → ℝ, (∀ i < N, ∑ j ∈ Finset.range N, entry A i j * x j = 0) → ∀ i < N, x i = 0
    swap
    · exact ⟨[], fun h' => absurd h' h⟩
    let f : (Fin N → ℝ) →ₗ[ℝ] (Fin N → ℝ) := Matrix.mulVecLin (fun i j => entry A i j)
    have hf : ∀ x i, f x i = ∑ j : Fin N, entry A i j * x j := fun x i => rfl
    have hext : ∀ x : Fin N → ℝ, ∀ i, ∑ j ∈ Finset.range N, entry A i j * (if h : j < N then x ⟨j, h⟩ else 0) = ∑ j : Fin N, entry A i j * x j := by
      intro x i
      rw [← Fin.sum_univ_eq_sum_range (fun j => entry A i j * (if h : j < N then x ⟨j, h⟩ else 0))]
      exact Finset.sum_congr rfl fun j _ => by rw [dif_pos j.2]
    have hinj : Function.Injective f := by
      rw [← LinearMap.ker_eq_bot, LinearMap.ker_eq_bot']
      intro x hx
      have := h (fun j => if h : j < N then x ⟨j, h⟩ else 0) fun i hi => by
        rw [hext x i, ← hf x ⟨i, hi⟩, hx]
        rfl
      funext i
      have h2 := this i i.2
      rwa [dif_pos i.2] at h2
    obtain ⟨x, hx⟩ := (LinearMap.injective_iff_surjective.1 hinj) fun i => ventry b i
    refine ⟨(List.range N).map fun j => if h : j < N then x ⟨j, h⟩ else 0, fun _ => ⟨by simp, fun i hi => ?_⟩⟩
    rw [Finset.sum_congr rfl fun j hj => by rw [listOf_getD N _ (Finset.mem_range.1 hj)], hext x i, ← hf x ⟨i, hi⟩, hx]
  choose solve h using this
  exact ⟨solve, h⟩

section run
variable (hM : IsPlaneMesh k mesh poly n len dir nrm) (hT : IsTables k triangle edge ts ws w) (hd : (0 :: 1 :: ts).Nodup) (hlu : SolvesRegular lu)
    (hllt : SolvesPosDef llt) (hr : vemRef2D triangle edge k = .ok ref) (hi : vemMeshInfo ref mesh.topo boundary = .ok info) (hdata : createDOFs 2 info mesh.topo = .ok data)
    (hov : totalRequested info 2 < 2 ^ 32) (hgl : (gauss (2 * k)).weights.length = (gauss (2 * k)).points.length)
    (hge : ExactOnSegment (2 * k) (gauss (2 * k)).points (gauss (2 * k)).weights) (hg01 : ∀ t ∈ (gauss (2 * k)).points, 0 ≤ t ∧ t ≤ 1)
    (hact : ∀ c < mesh.num2D, mesh.active2D c = true)
    (htypes : ∀ (E : Nat) (b : BInfo), (info.bInfo 1)[E]? = some b → b.type = .none ∨ b.type = .weak ∨ b.type = .strong)
    (hinner : ∀ (E : Nat) (b : BInfo), (info.bInfo 1)[E]? = some b → b.type = .none → signedCount mesh n dir E = 0)
    (hstrong : ∀ (E : Nat) (b : BInfo), (info.bInfo 1)[E]? = some b → b.type = .strong → bTypeOf info (0, (mesh.topo.cell1DVertices E).1) = some .strong ∧
      bTypeOf info (0, (mesh.topo.cell1DVertices E).2) = some .strong)
    (hg : ∀ d ≤ 2, ∀ (b : BInfo) (E : Nat), (info.bInfo d)[E]? = some b → b.type = .strong → d ≤ 1 ∧ ∃ c ∈ mesh.cells, E ∈ entities mesh d c)
    (hH : HeatMesh k mesh poly n len dir ts ws w lu llt ref data test s Φ S T A M κmax P) {κ : ℝ} (hκ : ∀ p, test.diffusion p = κ)
    {U V : ℝ → MvPolynomial (Fin 2) ℝ} (hU : ∀ t, (U t).totalDegree ≤ k)
    (hsrc : ∀ t p, test.source t p = eval ![p.1, p.2] (V t) - κ * eval ![p.1, p.2] (pderiv 0 (pderiv 0 (U t)) + pderiv 1 (pderiv 1 (U t))))
    (hN : ∀ τ, ∀ c ∈ mesh.cells, ∀ e < n c, ∀ b : BInfo, (info.bInfo 1)[cellEdge mesh c e]? = some b → b.type = .weak → ∀ t, 0 ≤ t → t ≤ 1 →
      test.weak τ b.marker (edgePoint mesh (cellEdge mesh c e) t)
        = κ * (eval ![(edgePoint mesh (cellEdge mesh c e) t).1, (edgePoint mesh (cellEdge mesh c e) t).2] (pderiv 0 (U τ)) * (nrm c e).1
          + eval ![(edgePoint mesh (cellEdge mesh c e) t).1, (edgePoint mesh (cellEdge mesh c e) t).2] (pderiv 1 (U τ)) * (nrm c e).2))
    (hf : ∀ t, ∀ d ≤ 2, ∀ (b : BInfo) (E : Nat), (info.bInfo d)[E]? = some b → b.type = .strong → ∀ p : ℝ × ℝ, test.strong t b.marker p = eval ![p.1, p.2] (U t))
include hM hT hd hlu hllt hr hi hdata hov hgl hge hg01 hact htypes hinner hstrong hg hH hκ hU hsrc hN hf

/-- What the assembler computes at time `t`. -/
theorem heat_data (t : ℝ) : ∃ d v, parabolicAssemble info data k gauss (fun c => (poly c).edges) (vemSpaces lu llt ref poly) mesh test t = .ok d ∧
    evaluateOnDofs data k (vemSpaces lu llt ref poly) mesh (fun p => eval ![p.1, p.2] (U t)) = .ok v ∧ v.free.length = data.counters.dofs ∧ v.strong.length = data.counters.strongs ∧
    d.dirichlet = v.strong ∧ (∀ i, heatRow P.globalM P.dirichletM v.free v.strong i = heatLoad k data mesh s Φ (fun p => eval ![p.1, p.2] (U t)) i) ∧
    ∀ i, heatRow P.globalA P.dirichletA v.free v.strong i - ventry d.rightHandSide i = -heatLoad k data mesh s Φ (fun p => eval ![p.1, p.2] (V t)) i := by
  have H := handler_plane hT hr hi hdata hov
  obtain ⟨W, v, hW, hv, hl1, hl2, hA⟩ := heat_stiff hM hT hd hlu hllt hr hi hdata hov hgl hge hg01 hH hκ (hU t) htypes hinner hstrong (hN t)
  obtain ⟨v', hv', hst⟩ := C91_interpolant (gD := test.strong t) hM hT hlu hllt hr hi hdata hov hg (hf t)
  obtain rfl : v' = v := Except.ok.inj (hv'.symm.trans hv)
  obtain ⟨d, hd1, hd2, hd3⟩ := heat_assemble H hact hH hW hst
  refine ⟨d, v', hd1, hv, hl1, hl2, hd2, heat_mass hM hT hlu hllt hr H hH (hU t) hv, fun i => ?_⟩
  rw [hA, hd3]
  have e : test.source t = fun p : ℝ × ℝ => 1 * eval ![p.1, p.2] (V t) + 1 * -(κ * eval ![p.1, p.2] (pderiv 0 (pderiv 0 (U t)) + pderiv 1 (pderiv 1 (U t)))) := by
    funext p
    rw [hsrc]
    ring
  rw [e, heatLoad_linear]
  ring

/-- A step from the DOFs of the solution leads to the DOFs of the solution. -/
theorem heat_step {solve : List (Nat × Nat × ℝ) → List (Nat × ℝ) → List ℝ} (hsolve : SolvesSystems data.counters.dofs solve) {dt theta : ℝ}
    (hdef : ∀ x : Nat → ℝ, tripletForm (thetaMatrices dt theta P).next data.counters.dofs x x = 0 → ∀ i < data.counters.dofs, x i = 0) {a b : ℝ}
    (hrate : ∀ p : ℝ × ℝ, eval ![p.1, p.2] (U b) - eval ![p.1, p.2] (U a) = dt * (theta * eval ![p.1, p.2] (V b) + (1 - theta) * eval ![p.1, p.2] (V a)))
    {da db : ParabolicData ℝ} {va vb : OnDofs ℝ}
    (hda : parabolicAssemble info data k gauss (fun c => (poly c).edges) (vemSpaces lu llt ref poly) mesh test a = .ok da)
    (hdb : parabolicAssemble info data k gauss (fun c => (poly c).edges) (vemSpaces lu llt ref poly) mesh test b = .ok db)
    (hva : evaluateOnDofs data k (vemSpaces lu llt ref poly) mesh (fun p => eval ![p.1, p.2] (U a)) = .ok va)
    (hvb : evaluateOnDofs data k (vemSpaces lu llt ref poly) mesh (fun p => eval ![p.1, p.2] (U b)) = .ok vb) :
    thetaStep solve data.counters.dofs dt theta (thetaMatrices dt theta P) ⟨va.free, va.strong, da.rightHandSide⟩ db = ⟨vb.free, vb.strong, db.rightHandSide⟩ := by
  obtain ⟨d, v, e1, e2, -, -, e5, e6, e7⟩ := heat_data hM hT hd hlu hllt hr hi hdata hov hgl hge hg01 hact htypes hinner hstrong hg hH hκ hU hsrc hN hf a
  obtain rfl := Except.ok.inj (e1.symm.trans hda)
  obtain rfl := Except.ok.inj (e2.symm.trans hva)
  obtain ⟨d', v', f1, f2, f3, f4, f5, f6, f7⟩ := heat_data hM hT hd hlu hllt hr hi hdata hov hgl hge hg01 hact htypes hinner hstrong hg hH hκ hU hsrc hN hf b
  obtain rfl := Except.ok.inj (f1.symm.trans hdb)
  obtain rfl := Except.ok.inj (f2.symm.trans hvb)
  unfold thetaStep
  rw [f5]
  have hfree : (if 0 < data.counters.dofs then solve (thetaMatrices dt theta P).next (thetaRhs dt theta (thetaMatrices dt theta P) ⟨v.free, v.strong, d.rightHandSide⟩ d') else [])
      = v'.free := by
    split_ifs with h0
    · refine solver_unique hsolve hdef _ f3 fun i _ => ?_
      have h := theta_rows dt theta P ⟨v.free, v.strong, d.rightHandSide⟩ d' v'.free i
      rw [f3, f5] at h
      dsimp only at h
      rw [f7, e7, f6, e6] at h
      have hlin : heatLoad k data mesh s Φ (fun p => eval ![p.1, p.2] (U b)) i - heatLoad k data mesh s Φ (fun p => eval ![p.1, p.2] (U a)) i
          = dt * theta * heatLoad k data mesh s Φ (fun p => eval ![p.1, p.2] (V b)) i + dt * (1 - theta) * heatLoad k data mesh s Φ (fun p => eval ![p.1, p.2] (V a)) i := by
        rw [← heatLoad_linear]
        have h1 := heatLoad_linear (k := k) (data := data) (mesh := mesh) s Φ 1 (-1) (fun p => eval ![p.1, p.2] (U b)) (fun p => eval ![p.1, p.2] (U a)) i
        have h2 : (fun p : ℝ × ℝ => 1 * eval ![p.1, p.2] (U b) + -1 * eval ![p.1, p.2] (U a))
            = fun p => dt * theta * eval ![p.1, p.2] (V b) + dt * (1 - theta) * eval ![p.1, p.2] (V a) := by
          funext p
          linear_combination hrate p
        rw [h2] at h1
        rw [h1]
        ring
      linear_combination h + hlin
    · exact (List.length_eq_zero_iff.1 (by omega)).symm
  rw [hfree]

/-- The loop goes through the DOFs of the solution. -/
theorem heat_loop {solve : List (Nat × Nat × ℝ) → List (Nat × ℝ) → List ℝ} (hsolve : SolvesSystems data.counters.dofs solve) {dt theta : ℝ}
    (hdef : ∀ x : Nat → ℝ, tripletForm (thetaMatrices dt theta P).next data.counters.dofs x x = 0 → ∀ i < data.counters.dofs, x i = 0)
    (hrate : ∀ a b : ℝ, b = a + dt → ∀ p : ℝ × ℝ, eval ![p.1, p.2] (U b) - eval ![p.1, p.2] (U a) = dt * (theta * eval ![p.1, p.2] (V b) + (1 - theta) * eval ![p.1, p.2] (V a)))
    (times : List ℝ) : ∀ (a : ℝ), (a :: times).IsChain (fun a b => b = a + dt) → ∀ {da : ParabolicData ℝ} {va : OnDofs ℝ},
    parabolicAssemble info data k gauss (fun c => (poly c).edges) (vemSpaces lu llt ref poly) mesh test a = .ok da →
    evaluateOnDofs data k (vemSpaces lu llt ref poly) mesh (fun p => eval ![p.1, p.2] (U a)) = .ok va →
    ∃ states, thetaLoop solve data.counters.dofs dt theta (thetaMatrices dt theta P)
        (parabolicAssemble info data k gauss (fun c => (poly c).edges) (vemSpaces lu llt ref poly) mesh test) ⟨va.free, va.strong, da.rightHandSide⟩ times = .ok states ∧
      List.Forall₂ (fun t (st : ParabolicState ℝ) => ∃ v, evaluateOnDofs data k (vemSpaces lu llt ref poly) mesh (fun p => eval ![p.1, p.2] (U t)) = .ok v ∧
        st.free = v.free ∧ st.strong = v.strong) times states := by
  induction times with
  | nil => exact fun a _ da va _ _ => ⟨[], rfl, List.Forall₂.nil⟩
  | cons b times ih =>
    intro a hch da va hda hva
    obtain ⟨hab, hch'⟩ := List.isChain_cons_cons.1 hch
    obtain ⟨db, vb, hdb, hvb, -⟩ := heat_data hM hT hd hlu hllt hr hi hdata hov hgl hge hg01 hact htypes hinner hstrong hg hH hκ hU hsrc hN hf b
    have hst := heat_step hM hT hd hlu hllt hr hi hdata hov hgl hge hg01 hact htypes hinner hstrong hg hH hκ hU hsrc hN hf hsolve hdef (hrate a b hab) hda hdb hva hvb
    obtain ⟨states, h1, h2⟩ := ih b hch' hdb hvb
    refine ⟨⟨vb.free, vb.strong, db.rightHandSide⟩ :: states, ?_, List.Forall₂.cons ⟨vb, hvb, rfl, rfl⟩ h2⟩
    unfold thetaLoop
    rw [hdb, except_ok_bind]
    dsimp only
    rw [hst, h1]
    rfl

/-- The run goes through the DOFs of the solution. -/
theorem heat_run {solve : List (Nat × Nat × ℝ) → List (Nat × ℝ) → List ℝ} (hsolve : SolvesSystems data.counters.dofs solve) {dt theta : ℝ}
    (hdef : ∀ x : Nat → ℝ, tripletForm (thetaMatrices dt theta P).next data.counters.dofs x x = 0 → ∀ i < data.counters.dofs, x i = 0)
    (hrate : ∀ a b : ℝ, b = a + dt → ∀ p : ℝ × ℝ, eval ![p.1, p.2] (U b) - eval ![p.1, p.2] (U a) = dt * (theta * eval ![p.1, p.2] (V b) + (1 - theta) * eval ![p.1, p.2] (V a)))
    {first : ℝ} {rest : List ℝ} (hch : (first :: rest).IsChain fun a b => b = a + dt) (h0 : ∀ p : ℝ × ℝ, test.initial p = eval ![p.1, p.2] (U first)) :
    ∃ states, parabolicRun solve info data k gauss (fun c => (poly c).edges) (vemSpaces lu llt ref poly) mesh test dt theta (first :: rest) = .ok states ∧
      List.Forall₂ (fun t (st : ParabolicState ℝ) => ∃ v, evaluateOnDofs data k (vemSpaces lu llt ref poly) mesh (fun p => eval ![p.1, p.2] (U t)) = .ok v ∧
        st.free = v.free ∧ st.strong = v.strong) (first :: rest) states := by
  obtain ⟨d, v, hd', hv, -⟩ := heat_data hM hT hd hlu hllt hr hi hdata hov hgl hge hg01 hact htypes hinner hstrong hg hH hκ hU hsrc hN hf first
  obtain ⟨states, h1, h2⟩ := heat_loop hM hT hd hlu hllt hr hi hdata hov hgl hge hg01 hact htypes hinner hstrong hg hH hκ hU hsrc hN hf hsolve hdef hrate rest first hch hd' hv
  have hini : parabolicInitial data k (vemSpaces lu llt ref poly) mesh test = .ok v := by
    have e : test.initial = fun p => eval ![p.1, p.2] (U first) := funext h0
    rw [← hv, ← e]
    rfl
  refine ⟨⟨v.free, v.strong, d.rightHandSide⟩ :: states, ?_, List.Forall₂.cons ⟨v, hv, rfl, rfl⟩ h2⟩
  unfold parabolicRun
  rw [hH.static, except_ok_bind, hini, except_ok_bind]
  have ht : unchecked (first :: rest) 0 = .ok first := rfl
  rw [ht, except_ok_bind, hd', except_ok_bind]
  dsimp only [List.drop]
  rw [h1]
  rfl

end run

end PolyDiM
