import Verif.Lemmas.MixedEdges
import Verif.Lemmas.PlaneEnergy

/-!
# Lemmas: the assembled system of the mixed assembler
-/

namespace PolyDiM

open Spec MvPolynomial MeasureTheory

noncomputable instance : Inhabited (DMat ℝ) := ⟨⟨0, 0, fun _ _ => 0⟩⟩

noncomputable instance : Inhabited (MccSpace2D ℝ) :=
  ⟨⟨⟨0, 0, 0, 0, 0, 0, 0, default, default, default, default, default, default, default, default, default, default⟩, ⟨[], []⟩, ⟨[], [], [], []⟩, default, default, default, default,
    default, default⟩⟩

noncomputable instance : Inhabited (MccPressure2D ℝ) := ⟨⟨compute mono2 0, 0, 0, ⟨[], []⟩, default, default, default⟩⟩

/-- Rows tested with a function, on one list. -/
theorem shift_tested {num : Nat → Nat} {topo : Mesh} {info : MeshInfo} {data : DOFsData} (H : FHandler num topo info data) (φ : Nat → ℝ) (off N : Nat)
    (hN : off + data.counters.dofs ≤ N) (r : GDOF) : ∑ i ∈ Finset.range N, φ i * rowShift data off i r = testValue data (fun i => φ (off + i)) r := by
  unfold rowShift testValue
  cases hl : lookup data r with
  | none => simp
  | some y =>
    obtain ⟨t, i⟩ := y
    cases t with
    | dof =>
      have hi := H.free r i hl
      simp only [Option.some.injEq, DOF.mk.injEq, true_and]
      rw [Finset.sum_eq_single_of_mem (off + i) (Finset.mem_range.2 (by omega)) (fun i' _ hne => by rw [if_neg (by omega), mul_zero]), if_pos (by omega), mul_one]
    | strong => simp
    | unknwon => simp

theorem onList_tested {num : Nat → Nat} {topo : Mesh} {info : MeshInfo} {data : DOFsData} (H : FHandler num topo info data) (φ : Nat → ℝ) (off N : Nat)
    (hN : off + data.counters.dofs ≤ N) (l : List GDOF) (j : Nat) :
    ∑ i ∈ Finset.range N, φ i * onList l (rowShift data off i) j = onList l (testValue data fun i => φ (off + i)) j := by
  unfold onList
  cases l[j]? with
  | none => simp
  | some r => exact shift_tested H φ off N hN r

/-- The rows of two fields tested with a function. -/
theorem pair_tested {num0 num1 : Nat → Nat} {topo : Mesh} {info0 info1 : MeshInfo} {d0 d1 : DOFsData} (H : Pair num0 num1 topo info0 info1 d0 d1) (φ : Nat → ℝ) (cells : List Nat)
    (f : Nat → Nat → ℝ) :
    ∑ i ∈ Finset.range (d0.counters.dofs + d1.counters.dofs), φ i * (cells.map fun c =>
        ∑ j ∈ Finset.range (fieldList num0 topo c).length, onList (fieldList num0 topo c) (rowShift d0 0 i) j * f c j
        + ∑ j ∈ Finset.range (fieldList num1 topo c).length, onList (fieldList num1 topo c) (rowShift d1 d0.counters.dofs i) j * f c ((fieldList num0 topo c).length + j)).sum
      = (cells.map fun c => ∑ j ∈ Finset.range (fieldList num0 topo c).length, onList (fieldList num0 topo c) (testValue d0 φ) j * f c j
        + ∑ j ∈ Finset.range (fieldList num1 topo c).length, onList (fieldList num1 topo c) (testValue d1 fun i => φ (d0.counters.dofs + i)) j
            * f c ((fieldList num0 topo c).length + j)).sum := by
  induction cells with
  | nil => simp
  | cons c cells ih =>
    simp only [List.map_cons, List.sum_cons, mul_add _ _ (List.sum _), Finset.sum_add_distrib]
    rw [ih]
    congr 1
    simp only [mul_add, Finset.sum_add_distrib, Finset.mul_sum]
    have e0 : (testValue d0 φ) = testValue d0 fun i => φ (0 + i) := by simp
    rw [e0]
    congr 1
    · rw [Finset.sum_comm]
      refine Finset.sum_congr rfl fun j _ => ?_
      simp only [← mul_assoc]
      rw [← Finset.sum_mul, onList_tested H.first φ 0 _ (by omega)]
    · rw [Finset.sum_comm]
      refine Finset.sum_congr rfl fun j _ => ?_
      simp only [← mul_assoc]
      rw [← Finset.sum_mul, onList_tested H.second φ d0.counters.dofs _ le_rfl]

theorem ventry_subtract (A : List (Nat × Nat × ℝ)) (x : List ℝ) (i : Nat) :
    ventry (subtractProduct A x) i = -∑ j ∈ Finset.range x.length, entry A i j * x.getD j 0 := by
  induction A with
  | nil => simp [ventry, subtractProduct, entry]
  | cons t A ih =>
    have h1 : ventry (subtractProduct (t :: A) x) i = (if t.1 = i then -(t.2.2 * x.getD t.2.1 0) else 0) + ventry (subtractProduct A x) i := by
      simp [ventry, subtractProduct]
    have h2 : ∀ j, entry (t :: A) i j = (if t.1 = i ∧ t.2.1 = j then t.2.2 else 0) + entry A i j := fun j => by simp [entry]
    rw [h1, ih]
    simp only [h2, add_mul, Finset.sum_add_distrib, neg_add]
    congr 1
    by_cases hi : t.1 = i
    · simp only [hi, true_and, if_true]
      by_cases hj : t.2.1 < x.length
      · rw [Finset.sum_eq_single_of_mem t.2.1 (Finset.mem_range.2 hj) fun j _ hne => by rw [if_neg (Ne.symm hne), zero_mul], if_pos rfl]
      · rw [List.getD_eq_getElem?_getD, List.getElem?_eq_none (by omega), Finset.sum_eq_zero]
        · simp
        · intro j hj'
          have := Finset.mem_range.1 hj'
          rw [if_neg (by omega), zero_mul]
    · simp [hi]

section
variable {k : Nat} {mesh : PlaneMesh ℝ} {poly : Nat → VemPolygon ℝ} {n : Nat → Nat} {len : Nat → Nat → ℝ} {dir : Nat → Nat → Bool} {nrm : Nat → Nat → ℝ × ℝ}
  {triangle : Nat → Rule (ℝ × ℝ) ℝ} {edge : Nat → Rule ℝ ℝ} {ts ws : List ℝ} {svd : DMat ℝ → DMat ℝ} {sqrt : ℝ → ℝ} {llt : Solver ℝ}
  {info0 info1 : MeshInfo} {d0 d1 : DOFsData} {count : CountData}

/-- The local vectors of the velocity of a test function. -/
noncomputable def velTest (k : Nat) (mesh : PlaneMesh ℝ) (d0 : DOFsData) (φ : Nat → ℝ) (c : Nat) : Nat → ℝ :=
  onList (fieldList (mccVelocityNum k) mesh.topo c) (testValue d0 φ)

/-- The local vectors of the pressure of a test function. -/
noncomputable def preTest (k : Nat) (mesh : PlaneMesh ℝ) (d0 d1 : DOFsData) (φ : Nat → ℝ) (c : Nat) : Nat → ℝ :=
  onList (fieldList (mccPressureNum k) mesh.topo c) (testValue d1 fun i => φ (d0.counters.dofs + i))

/-- The assembled system: what is known of the local spaces, of the strong values, and of the rows tested with arbitrary functions. -/
structure MSystem (k : Nat) (mesh : PlaneMesh ℝ) (poly : Nat → VemPolygon ℝ) (n : Nat → Nat) (len : Nat → Nat → ℝ) (dir : Nat → Nat → Bool) (nrm : Nat → Nat → ℝ × ℝ)
    (triangle : Nat → Rule (ℝ × ℝ) ℝ) (edge : Nat → Rule ℝ ℝ) (ts ws : List ℝ) (svd : DMat ℝ → DMat ℝ) (sqrt : ℝ → ℝ) (llt : Solver ℝ) (info0 : MeshInfo) (d0 d1 : DOFsData)
    (test : MixedTest ℝ) (s : Nat → MccSpace2D ℝ) (p : Nat → MccPressure2D ℝ) (S A : Nat → DMat ℝ) (b : Nat → List ℝ) (kmax : Nat → ℝ) (P : MixedProblem ℝ) : Prop where
  created : ∀ c < mesh.num2D, mccCreate2D svd sqrt llt (mccRef2D triangle edge k) (poly c) = .ok (s c)
  space : ∀ c < mesh.num2D, MSpaceOk k (n c) (cellPoint mesh c) (len c) (dir c) (nrm c) ts ws (poly c) (s c)
  cell : ∀ c < mesh.num2D, MCell k (n c) (mccRef2D triangle edge k) (poly c) test (s c) (p c) (S c) (A c) (b c) (kmax c)
  neumannLength : P.neumann.length = d0.counters.strongs + d1.counters.strongs
  neumann : ∀ c < mesh.num2D, ∀ e < n c, ∀ j i, lookup d0 ⟨1, cellEdge mesh c e, j⟩ = some ⟨.strong, i⟩ → ∃ c' < mesh.num2D, ∃ e' < n c', cellEdge mesh c' e' = cellEdge mesh c e ∧
    ∃ m, (info0.bInfo 1)[cellEdge mesh c e]? = some m ∧ P.neumann.getD i 0 = sgn (dir c') e' * test.strong m.marker (edgePoint mesh (cellEdge mesh c e) (ts.getD j 0))
  neumannZero : ∀ i, (∀ c < mesh.num2D, ∀ e < n c, ∀ j, lookup d0 ⟨1, cellEdge mesh c e, j⟩ ≠ some ⟨.strong, i⟩) → P.neumann.getD i 0 = 0
  rows : ∀ free strong : List ℝ, free.length = d0.counters.dofs + d1.counters.dofs → strong.length = d0.counters.strongs + d1.counters.strongs → ∀ φ : Nat → ℝ,
    ∑ i ∈ Finset.range (d0.counters.dofs + d1.counters.dofs), φ i *
        (∑ j ∈ Finset.range free.length, entry P.globalMatrix i j * free.getD j 0 + ∑ j ∈ Finset.range strong.length, entry P.neumannMatrix i j * strong.getD j 0)
      = ((List.range mesh.num2D).map fun c => ∑ j ∈ Finset.range (n c * (k + 1) + k * (k + 2)),
          velTest k mesh d0 φ c j * apply (A c) (Pair.pairValues (mccVelocityNum k) (mccPressureNum k) mesh.topo d0 d1 free strong c) j
        + ∑ j ∈ Finset.range ((k + 1) * (k + 2) / 2),
          preTest k mesh d0 d1 φ c j * apply (A c) (Pair.pairValues (mccVelocityNum k) (mccPressureNum k) mesh.topo d0 d1 free strong c) (n c * (k + 1) + k * (k + 2) + j)).sum
  rhs : ∀ φ : Nat → ℝ, ∑ i ∈ Finset.range (d0.counters.dofs + d1.counters.dofs), φ i *
        (ventry P.rightHandSide i + ∑ j ∈ Finset.range P.neumann.length, entry P.neumannMatrix i j * P.neumann.getD j 0)
      = ((List.range mesh.num2D).map fun c => ∑ j ∈ Finset.range (n c * (k + 1) + k * (k + 2)), velTest k mesh d0 φ c j * (b c).getD j 0
        + ∑ j ∈ Finset.range ((k + 1) * (k + 2) / 2), preTest k mesh d0 d1 φ c j * (b c).getD (n c * (k + 1) + k * (k + 2) + j) 0).sum
      + ((List.range mesh.num2D).map fun c => ∑ e ∈ Finset.range (n c), mixedWeak k mesh dir ts ws info0 d0 test.weak c e φ).sum

theorem zipIdx_sum (l : List Nat) (m : Nat) (hl : l.length = m) (f : Nat × Nat → ℝ) :
    (l.zipIdx.map f).sum = ∑ e ∈ Finset.range m, f (l.getD e 0, e) := by
  subst hl
  rw [Finset.sum_range, ← List.sum_ofFn]
  congr 1
  apply List.ext_getElem
  · simp
  · intro j h1 h2
    have hj : j < l.length := by simpa using h1
    simp

/-- The writes of a list of edges. -/
theorem strong_flatten {α : Type} (l : List α) (f : α → Except Fault (List (Nat × ℝ))) (Q : α → Nat × ℝ → Prop) (R : α → Nat → Prop)
    (h : ∀ a ∈ l, ∃ log, f a = .ok log ∧ (∀ x ∈ log, Q a x) ∧ ∀ i, R a i → ∃ y, (i, y) ∈ log) :
    ∃ logs, l.mapM f = .ok logs ∧ (∀ x ∈ logs.flatten, ∃ a ∈ l, Q a x) ∧ ∀ a ∈ l, ∀ i, R a i → ∃ y, (i, y) ∈ logs.flatten := by
  induction l with
  | nil => exact ⟨[], rfl, by simp, by simp⟩
  | cons a l ih =>
    obtain ⟨log, h1, h2, h3⟩ := h a List.mem_cons_self
    obtain ⟨logs, h4, h5, h6⟩ := ih fun a ha => h a (List.mem_cons_of_mem _ ha)
    refine ⟨log :: logs, ?_, ?_, ?_⟩
    · rw [List.mapM_cons, h1, except_ok_bind, h4, except_ok_bind]
      rfl
    · intro x hx
      rw [List.flatten_cons, List.mem_append] at hx
      rcases hx with hx | hx
      · exact ⟨a, List.mem_cons_self, h2 x hx⟩
      · obtain ⟨a', ha', h⟩ := h5 x hx
        exact ⟨a', List.mem_cons_of_mem _ ha', h⟩
    · intro a' ha' i hR
      rw [List.flatten_cons]
      rcases List.mem_cons.1 ha' with rfl | ha'
      · obtain ⟨y, hy⟩ := h3 i hR
        exact ⟨y, List.mem_append_left _ hy⟩
      · obtain ⟨y, hy⟩ := h6 a' ha' i hR
        exact ⟨y, List.mem_append_right _ hy⟩

/-- One cell of the assembler. -/
theorem mixedCell_ok (hM : IsMixedMesh k mesh poly n len dir nrm) (hT : IsMixedTables k triangle edge ts ws)
    (H : Pair (mccVelocityNum k) (mccPressureNum k) mesh.topo info0 info1 d0 d1) (hcount : countDofs [d0.counters, d1.counters] = .ok count) (test : MixedTest ℝ) {c : Nat}
    (hc : c < mesh.num2D) {s : MccSpace2D ℝ} {p : MccPressure2D ℝ} {S A : DMat ℝ} {b : List ℝ} {kmax : ℝ}
    (hl : mccLocalSpace svd sqrt llt triangle edge k (poly c) = .ok (s, p))
    (hs : MSpaceOk k (n c) (cellPoint mesh c) (len c) (dir c) (nrm c) ts ws (poly c) s)
    (hC : MCell k (n c) (mccRef2D triangle edge k) (poly c) test s p S A b kmax) :
    ∃ weak strong, mixedCell info0 d0 d1 count (mccSpaces svd sqrt llt triangle edge k poly) mesh test c
        = .ok ⟨⟨c, pairFields d0 d1 (fieldList (mccVelocityNum k) mesh.topo c).length, some (pairFields d0 d1 (fieldList (mccVelocityNum k) mesh.topo c).length, A.toLMat), some b⟩, weak, strong⟩ ∧
      (∀ x ∈ weak, x.1 < d0.counters.dofs) ∧ (∀ φ, tested φ weak = ∑ e ∈ Finset.range (n c), mixedWeak k mesh dir ts ws info0 d0 test.weak c e φ) ∧
      (∀ x ∈ strong, ∃ e < n c, ∃ j m, (info0.bInfo 1)[cellEdge mesh c e]? = some m ∧ lookup d0 ⟨1, cellEdge mesh c e, j⟩ = some ⟨.strong, x.1⟩ ∧
        x.2 = sgn (dir c) e * test.strong m.marker (edgePoint mesh (cellEdge mesh c e) (ts.getD j 0))) ∧
      ∀ e < n c, ∀ j i, lookup d0 ⟨1, cellEdge mesh c e, j⟩ = some ⟨.strong, i⟩ → ∃ y, (i, y) ∈ strong := by
  obtain ⟨v1, -, -⟩ := vel_list hM hT hc
  obtain ⟨p1, -⟩ := pre_list hT mesh.topo c
  have hsm := hM.small c hc
  obtain ⟨bd, hb⟩ := H.count
  rw [hcount] at hb
  obtain rfl := (Except.ok.inj hb)
  have hmem : ∀ E e, (E, e) ∈ (mesh.topo.cell2DEdges c).zipIdx → e < n c ∧ E = cellEdge mesh c e := by
    intro E e ha
    rw [List.mem_zipIdx_iff_getElem?] at ha
    dsimp only at ha
    have he : e < n c := by rw [← hM.plane.edges c hc]; exact (List.getElem?_eq_some_iff.1 ha).1
    rw [cell_edge_mem hM.plane hc he] at ha
    exact ⟨he, (Option.some.inj ha).symm⟩
  have hget : ∀ e < n c, (cellEdge mesh c e, e) ∈ (mesh.topo.cell2DEdges c).zipIdx := fun e he => List.mem_zipIdx_iff_getElem?.2 (cell_edge_mem hM.plane hc he)
  obtain ⟨weak, hw1, hw2, hw3⟩ := tested_flatten (fun φ : Nat → ℝ => φ) (fun _ => True) d0.counters.dofs (mesh.topo.cell2DEdges c).zipIdx
    (mixedWeakEdge info0 d0 (mccCell2D (mccRef2D triangle edge k) (poly c) (s, p)) test) (fun φ a => mixedWeak k mesh dir ts ws info0 d0 test.weak c a.2 φ) (by
      rintro ⟨E, e⟩ ha
      obtain ⟨he, rfl⟩ := hmem _ _ ha
      obtain ⟨log, g1, g2, g3⟩ := mixedWeak_ok (p := p) hM hT H.first hc he hs test
      exact ⟨log, g1, g2, fun φ _ => g3 φ⟩)
  obtain ⟨strong, hs1, hs2, hs3⟩ := strong_flatten (mesh.topo.cell2DEdges c).zipIdx
    (mixedStrongEdge info0 d0 (mccCell2D (mccRef2D triangle edge k) (poly c) (s, p)) test)
    (fun a x => ∃ j m, (info0.bInfo 1)[a.1]? = some m ∧ lookup d0 ⟨1, a.1, j⟩ = some ⟨.strong, x.1⟩ ∧
        x.2 = sgn (dir c) a.2 * test.strong m.marker (edgePoint mesh a.1 (ts.getD j 0)))
    (fun a i => ∃ j, lookup d0 ⟨1, a.1, j⟩ = some ⟨.strong, i⟩) (by
      rintro ⟨E, e⟩ ha
      obtain ⟨he, rfl⟩ := hmem _ _ ha
      obtain ⟨log, g1, g2, g3⟩ := mixedStrong_ok (p := p) hM hT H.first hc he hs test
      exact ⟨log, g1, g2, fun i ⟨j, hj⟩ => g3 j i hj⟩)
  obtain ⟨l, hl1, hl2, hl3⟩ := hC.computed
  have hcall : mixedCall d0 d1 ⟨bd, d0.counters.dofs + d1.counters.dofs, d0.counters.strongs + d1.counters.strongs, [0, d0.counters.dofs], [0, d0.counters.strongs]⟩
      (mccCell2D (mccRef2D triangle edge k) (poly c) (s, p)) test c
        = .ok ⟨c, pairFields d0 d1 (fieldList (mccVelocityNum k) mesh.topo c).length, some (pairFields d0 d1 (fieldList (mccVelocityNum k) mesh.topo c).length, A.toLMat), some b⟩ := by
    unfold mixedCall
    rw [hl1, except_ok_bind, H.local_count hc (by rw [v1, p1]; exact hsm), except_ok_bind, H.size_second hc, except_ok_bind]
    dsimp only
    rw [v1, p1, hl2, except_ok_bind, hl3, except_ok_bind]
    rfl
  refine ⟨weak.flatten, strong.flatten, ?_, hw2, fun φ => ?_, fun x hx => ?_, fun e he j i hji => ?_⟩
  · unfold mixedCell mccSpaces
    rw [hl, except_ok_bind, except_ok_bind, hcall, except_ok_bind, hw1, except_ok_bind, hs1, except_ok_bind]
  · rw [hw3 φ trivial, zipIdx_sum _ (n c) (hM.plane.edges c hc)]
  · obtain ⟨⟨E, e⟩, ha, j, m, h⟩ := hs2 x hx
    obtain ⟨he, rfl⟩ := hmem _ _ ha
    exact ⟨e, he, j, m, h⟩
  · exact hs3 _ (hget e he) i ⟨j, hji⟩

/-- The assembled system. -/
theorem mixed_assemble (hM : IsMixedMesh k mesh poly n len dir nrm) (hT : IsMixedTables k triangle edge ts ws) (hsvd : ∀ A, RightSingular A (svd A))
    (hsq : ∀ x, 0 ≤ x → sqrt x * sqrt x = x) (hllt : SolvesPosDef llt)
    (H : Pair (mccVelocityNum k) (mccPressureNum k) mesh.topo info0 info1 d0 d1) (hcount : countDofs [d0.counters, d1.counters] = .ok count) (test : MixedTest ℝ) :
    ∃ P, assembleMixed info0 d0 d1 count (mccSpaces svd sqrt llt triangle edge k poly) mesh test = .ok P ∧ ∃ s p S A b kmax,
      MSystem k mesh poly n len dir nrm triangle edge ts ws svd sqrt llt info0 d0 d1 test s p S A b kmax P := by
  choose! s p S A b kmax hl hcr hsp hC using fun (c : Nat) (hc : c < mesh.num2D) =>
    vem_cell (hM.plane.element c hc) hT hsvd hsq hllt (hM.plane.measure c hc) test
  choose! weak strong hcell hwl hwt hsq' hsc using fun (c : Nat) (hc : c < mesh.num2D) => mixedCell_ok hM hT H hcount test hc (hl c hc) (hsp c hc) (hC c hc)
  have hcells := mapM_ok _ _ (List.range mesh.num2D) fun c hc => hcell c (List.mem_range.1 hc)
  have hlist : ∀ c < mesh.num2D, (fieldList (mccVelocityNum k) mesh.topo c).length = n c * (k + 1) + k * (k + 2) := fun c hc => (vel_list hM hT hc).1
  have hlist1 : ∀ c, (fieldList (mccPressureNum k) mesh.topo c).length = (k + 1) * (k + 2) / 2 := fun c => (pre_list hT mesh.topo c).1
  obtain ⟨Sy, hSy, hrows, hrhs⟩ := H.assemble (List.range mesh.num2D) (fun c hc => List.mem_range.1 hc)
    (fun c hc => by rw [hlist c (List.mem_range.1 hc), hlist1]; exact hM.small c (List.mem_range.1 hc)) A b
    (fun c hc => by rw [hlist c (List.mem_range.1 hc), hlist1]; exact ⟨(hC c (List.mem_range.1 hc)).rows, (hC c (List.mem_range.1 hc)).cols⟩)
    (fun c hc => by rw [hlist c (List.mem_range.1 hc), hlist1]; exact (hC c (List.mem_range.1 hc)).size)
  obtain ⟨bd, hb⟩ := H.count
  rw [hcount] at hb
  obtain rfl := (Except.ok.inj hb)
  have hin : ∀ x ∈ ((List.range mesh.num2D).map strong).flatten, ∃ c < mesh.num2D, x ∈ strong c := by
    intro x hx
    obtain ⟨l, hl, hx⟩ := List.mem_flatten.1 hx
    obtain ⟨c, hc, rfl⟩ := List.mem_map.1 hl
    exact ⟨c, List.mem_range.1 hc, hx⟩
  obtain ⟨nu, hnu, hnl, hnv⟩ := fold_writes (((List.range mesh.num2D).map strong).flatten) (List.replicate (d0.counters.strongs + d1.counters.strongs) 0) (by
    intro x hx
    obtain ⟨c, hc, hx⟩ := hin x hx
    obtain ⟨e, he, j, m, -, h, -⟩ := hsq' c hc x hx
    have := H.first.strong _ _ h
    rw [List.length_replicate]
    omega)
  rw [List.length_replicate] at hnl
  refine ⟨⟨Sy.lhsDOFs, Sy.lhsStrongs, Sy.rhs ++ ((List.range mesh.num2D).map weak).flatten ++
    (if 0 < d0.counters.strongs + d1.counters.strongs then subtractProduct Sy.lhsStrongs nu else []), nu⟩, ?_, s, p, S, A, b, kmax, hcr, hsp, hC, hnl, ?_, ?_, ?_, ?_⟩
  · unfold assembleMixed
    rw [hcells, except_ok_bind, List.map_map]
    have e1 : (MixedCell.call ∘ fun c => (⟨⟨c, pairFields d0 d1 (fieldList (mccVelocityNum k) mesh.topo c).length,
        some (pairFields d0 d1 (fieldList (mccVelocityNum k) mesh.topo c).length, (A c).toLMat), some (b c)⟩, weak c, strong c⟩ : MixedCell ℝ))
        = fun c => ⟨c, pairFields d0 d1 (fieldList (mccVelocityNum k) mesh.topo c).length,
          some (pairFields d0 d1 (fieldList (mccVelocityNum k) mesh.topo c).length, (A c).toLMat), some (b c)⟩ := rfl
    rw [e1, hSy, except_ok_bind, List.map_map, List.map_map]
    have e2 : (MixedCell.strong ∘ fun c => (⟨⟨c, pairFields d0 d1 (fieldList (mccVelocityNum k) mesh.topo c).length,
        some (pairFields d0 d1 (fieldList (mccVelocityNum k) mesh.topo c).length, (A c).toLMat), some (b c)⟩, weak c, strong c⟩ : MixedCell ℝ)) = strong := rfl
    have e3 : (MixedCell.weak ∘ fun c => (⟨⟨c, pairFields d0 d1 (fieldList (mccVelocityNum k) mesh.topo c).length,
        some (pairFields d0 d1 (fieldList (mccVelocityNum k) mesh.topo c).length, (A c).toLMat), some (b c)⟩, weak c, strong c⟩ : MixedCell ℝ)) = weak := rfl
    rw [e2, e3, hnu, except_ok_bind]
  · intro c hc e he j i hji
    obtain ⟨y, hy⟩ := hsc c hc e he j i hji
    obtain ⟨y, hy, hv⟩ := (hnv i).1 ⟨y, List.mem_flatten.2 ⟨strong c, List.mem_map.2 ⟨c, List.mem_range.2 hc, rfl⟩, hy⟩⟩
    obtain ⟨c', hc', hy⟩ := hin _ hy
    obtain ⟨e', he', j', m, hm, h1, h2⟩ := hsq' c' hc' _ hy
    have := H.first.inj _ _ _ h1 hji (by simp)
    simp only [GDOF.mk.injEq, true_and] at this
    refine ⟨c', hc', e', he', this.1, m, by rw [← this.1]; exact hm, ?_⟩
    show nu.getD i 0 = _
    rw [hv]
    dsimp only at h2
    rw [h2, this.1, this.2]
  · intro i hi
    show nu.getD i 0 = _
    rw [(hnv i).2, List.getD_eq_getElem?_getD, List.getElem?_replicate]
    · split_ifs <;> rfl
    · intro y hy
      obtain ⟨c, hc, hy⟩ := hin _ hy
      obtain ⟨e, he, j, m, -, h1, -⟩ := hsq' c hc _ hy
      exact hi c hc e he j h1
  · intro free str hf hs φ
    have := pair_tested H φ (List.range mesh.num2D) fun c j => apply (A c) (Pair.pairValues (mccVelocityNum k) (mccPressureNum k) mesh.topo d0 d1 free str c) j
    simp only [← hrows free str hf hs] at this
    refine this.trans ?_
    congr 1
    refine List.map_congr_left fun c hc => ?_
    rw [hlist c (List.mem_range.1 hc), hlist1]
    rfl
  · intro φ
    have hlast : ∀ i, ventry (if 0 < d0.counters.strongs + d1.counters.strongs then subtractProduct Sy.lhsStrongs nu else []) i
        = -∑ j ∈ Finset.range nu.length, entry Sy.lhsStrongs i j * nu.getD j 0 := by
      intro i
      split_ifs with h
      · exact ventry_subtract _ _ _
      · rw [hnl, show d0.counters.strongs + d1.counters.strongs = 0 by omega]
        simp [ventry]
    dsimp only
    simp only [ventry_append, hlast, neg_add_cancel_right]
    simp only [mul_add (φ _), Finset.sum_add_distrib]
    congr 1
    · have := pair_tested H φ (List.range mesh.num2D) fun c j => (b c).getD j 0
      simp only [← hrhs] at this
      refine this.trans ?_
      congr 1
      refine List.map_congr_left fun c hc => ?_
      rw [hlist c (List.mem_range.1 hc), hlist1]
      rfl
    · have h1 := tested_ventry φ (d0.counters.dofs + d1.counters.dofs) ((List.range mesh.num2D).map weak).flatten (by
        intro x hx
        obtain ⟨l, hl, hx⟩ := List.mem_flatten.1 hx
        obtain ⟨c, hc, rfl⟩ := List.mem_map.1 hl
        have := hwl c (List.mem_range.1 hc) x hx
        omega)
      have h2 : tested φ ((List.range mesh.num2D).map weak).flatten = ((List.range mesh.num2D).map fun c => tested φ (weak c)).sum := by
        induction List.range mesh.num2D with
        | nil => simp [tested]
        | cons c l ih => rw [List.map_cons, List.flatten_cons, tested_append, ih, List.map_cons, List.sum_cons]
      simp only [mul_comm (φ _)]
      rw [h1, h2]
      congr 1
      exact List.map_congr_left fun c hc => hwt c (List.mem_range.1 hc) φ

end

end PolyDiM
