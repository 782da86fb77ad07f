import Verif.Lemmas.BrinkmanRefs
import Verif.Lemmas.MixedGlobal

/-!
# Lemmas: the assembled Brinkman system
-/

namespace PolyDiM

open Spec

noncomputable instance : Inhabited (DfSpace2D ℝ) :=
  ⟨⟨⟨0, 0, 0, 0, 0, 0, 0, 0, 0, 0, 0, 0, 0, default, default, default, default, default, default, default, default, default, default⟩, ⟨[], []⟩, ⟨[], [], [], []⟩, ⟨[], [], [], []⟩,
    default, default, default, default, default, default, default, default, default, default, default, 0⟩⟩

noncomputable instance : Inhabited (DfPressure2D ℝ) := ⟨⟨compute mono2 0, 0, ⟨[], []⟩, default, default⟩⟩

theorem entry_tested (φ x : Nat → ℝ) (N M : Nat) (l : List (Nat × Nat × ℝ)) (h : ∀ t ∈ l, t.1 < N ∧ t.2.1 < M) :
    ∑ i ∈ Finset.range N, φ i * ∑ j ∈ Finset.range M, entry l i j * x j = (l.map fun t => φ t.1 * t.2.2 * x t.2.1).sum := by
  induction l with
  | nil => simp [entry]
  | cons t l ih =>
    obtain ⟨h1, h2⟩ := h t List.mem_cons_self
    have e : ∀ i j, entry (t :: l) i j = (if t.1 = i ∧ t.2.1 = j then t.2.2 else 0) + entry l i j := fun i j => by simp [entry]
    simp only [e, add_mul, Finset.sum_add_distrib, mul_add]
    rw [ih fun t ht => h t (List.mem_cons_of_mem _ ht), List.map_cons, List.sum_cons]
    congr 1
    rw [Finset.sum_eq_single_of_mem t.1 (Finset.mem_range.2 h1), Finset.sum_eq_single_of_mem t.2.1 (Finset.mem_range.2 h2)]
    · simp [mul_assoc]
    · intro j _ hj
      simp [hj.symm]
    · intro i _ hi
      simp [hi.symm]

section
variable {k : Nat} {mesh : PlaneMesh ℝ} {poly : Nat → VemPolygon ℝ} {n : Nat → Nat} {len : Nat → Nat → ℝ} {dir : Nat → Nat → Bool} {nrm : Nat → Nat → ℝ × ℝ}
  {triangle : Nat → Rule (ℝ × ℝ) ℝ} {edge : Nat → Rule ℝ ℝ} {ts ws ss vs : List ℝ} {w v₀ : ℝ} {ref : DfRef2D ℝ} {red : Bool} {sqrt : ℝ → ℝ} {lu llt : Solver ℝ}
  {boundary : Nat → Nat → Option BInfo} {info : Nat → MeshInfo} {D : Nat → DOFsData} {count : CountData} {gauss : Nat → Rule ℝ ℝ}

/-- Reference `r` is a DOF of a component of the velocity on the boundary of cell `c`. -/
def OnBorder (mesh : PlaneMesh ℝ) (n : Nat → Nat) (c : Nat) (r : GDOF) : Prop :=
  (∃ v ∈ mesh.topo.cell2DVertices c, r.dim = 0 ∧ r.cell = v) ∨ ∃ e < n c, r.dim = 1 ∧ r.cell = cellEdge mesh c e

/-- The strong term of one component on one cell. -/
theorem dfStrongComponent_ok (hM : IsPlaneMesh 1 mesh poly n len dir nrm) (hT : IsDfTables k triangle edge ts ws w ss vs v₀)
    (href : dfRef2D red triangle edge k = .ok ref) (H : Quad (dfNum ref) mesh.topo info D) (s : DfSpace2D ℝ) (p : DfPressure2D ℝ) (test : DfTest ℝ) {c h : Nat}
    (hc : c < mesh.num2D) (hh : h < 2) :
    ∃ log, dfStrongComponent ((List.range 4).map info) ((List.range 4).map D) ((List.range 4).map (strongOffset D)) (dfCell2D ref (poly c) s p) mesh test c h = .ok log ∧
      (∀ x ∈ log, ∃ r b i, OnBorder mesh n c r ∧ ((info h).bInfo r.dim)[r.cell]? = some b ∧ lookup (D h) r = some ⟨.strong, i⟩ ∧ x.1 = strongOffset D h + i ∧
        x.2 = test.strong b.marker (dofPoint mesh ts r) h) ∧
      ∀ r i, OnBorder mesh n c r → lookup (D h) r = some ⟨.strong, i⟩ → ∃ y, (strongOffset D h + i, y) ∈ log := by
  obtain ⟨g0, g1, g2⟩ := (df_numbers hT href).1 h hh
  have HF := H.field h (by omega)
  have hmem : ∀ E e, (E, e) ∈ (mesh.topo.cell2DEdges c).zipIdx → e < n c ∧ E = cellEdge mesh c e := by
    intro E e ha
    rw [List.mem_zipIdx_iff_getElem?] at ha
    dsimp only at ha
    have he : e < n c := by rw [← hM.edges c hc]; exact (List.getElem?_eq_some_iff.1 ha).1
    rw [cell_edge_mem hM hc he] at ha
    exact ⟨he, (Option.some.inj ha).symm⟩
  have hget : ∀ e < n c, (cellEdge mesh c e, e) ∈ (mesh.topo.cell2DEdges c).zipIdx := fun e he => List.mem_zipIdx_iff_getElem?.2 (cell_edge_mem hM hc he)
  obtain ⟨lv, v1, v2, v3⟩ := strong_flatten (mesh.topo.cell2DVertices c) (dfStrongVertex (info h) (D h) (strongOffset D h) h mesh test)
    (fun v x => ∃ j b i, ((info h).bInfo 0)[v]? = some b ∧ lookup (D h) ⟨0, v, j⟩ = some ⟨.strong, i⟩ ∧ x.1 = i + strongOffset D h ∧
        x.2 = test.strong b.marker (dofPoint mesh ts ⟨0, v, j⟩) h)
    (fun v a => ∃ j i, lookup (D h) ⟨0, v, j⟩ = some ⟨.strong, i⟩ ∧ a = i + strongOffset D h) (by
      intro v hv
      obtain ⟨log, e1, e2, e3⟩ := dfStrongVertex_ok (ts := ts) HF g0 test (strongOffset D h) h (HF.verts c hc v hv)
      refine ⟨log, e1, e2, ?_⟩
      rintro a ⟨j, i, hji, rfl⟩
      exact e3 j i hji)
  obtain ⟨le, u1, u2, u3⟩ := strong_flatten (mesh.topo.cell2DEdges c).zipIdx (dfStrongEdge (info h) (D h) (strongOffset D h) h (dfCell2D ref (poly c) s p) test)
    (fun a x => ∃ j b i, ((info h).bInfo 1)[a.1]? = some b ∧ lookup (D h) ⟨1, a.1, j⟩ = some ⟨.strong, i⟩ ∧ x.1 = i + strongOffset D h ∧
        x.2 = test.strong b.marker (dofPoint mesh ts ⟨1, a.1, j⟩) h)
    (fun e a => ∃ j i, lookup (D h) ⟨1, e.1, j⟩ = some ⟨.strong, i⟩ ∧ a = i + strongOffset D h) (by
      rintro ⟨E, e⟩ ha
      obtain ⟨he, rfl⟩ := hmem _ _ ha
      obtain ⟨log, e1, e2, e3⟩ := dfStrongEdge_ok hM hT href HF g1 s p test (strongOffset D h) h hc he
      refine ⟨log, e1, e2, ?_⟩
      rintro a ⟨j, i, hji, rfl⟩
      exact e3 j i hji)
  refine ⟨lv.flatten ++ le.flatten, ?_, fun x hx => ?_, fun r i hr hi => ?_⟩
  · unfold dfStrongComponent
    rw [unchecked_map_range _ _ _ (show h < 4 by omega), except_ok_bind, unchecked_map_range _ _ _ (show h < 4 by omega), except_ok_bind,
      unchecked_map_range _ _ _ (show h < 4 by omega), except_ok_bind, v1, except_ok_bind, u1, except_ok_bind]
  · rcases List.mem_append.1 hx with hx | hx
    · obtain ⟨v, hv, j, b, i, e1, e2, e3, e4⟩ := v2 x hx
      exact ⟨_, b, i, Or.inl ⟨v, hv, rfl, rfl⟩, e1, e2, by omega, e4⟩
    · obtain ⟨⟨E, e⟩, ha, j, b, i, e1, e2, e3, e4⟩ := u2 x hx
      obtain ⟨he, rfl⟩ := hmem _ _ ha
      exact ⟨_, b, i, Or.inr ⟨e, he, rfl, rfl⟩, e1, e2, by omega, e4⟩
  · obtain ⟨d, a, j⟩ := r
    rcases hr with ⟨v, hv, rfl, rfl⟩ | ⟨e, he, rfl, rfl⟩
    · obtain ⟨y, hy⟩ := v3 _ hv _ ⟨j, i, hi, rfl⟩
      exact ⟨y, List.mem_append_left _ (by rw [Nat.add_comm]; exact hy)⟩
    · obtain ⟨y, hy⟩ := u3 _ (hget e he) _ ⟨j, i, hi, rfl⟩
      exact ⟨y, List.mem_append_right _ (by rw [Nat.add_comm]; exact hy)⟩

/-- The weak term of one component on one cell. -/
theorem dfWeakComponent_ok (hM : IsPlaneMesh 1 mesh poly n len dir nrm) (hT : IsDfTables k triangle edge ts ws w ss vs v₀)
    (href : dfRef2D red triangle edge k = .ok ref) (H : Quad (dfNum ref) mesh.topo info D) {gauss : Rule ℝ ℝ} (hg : gauss.weights.length = gauss.points.length)
    (s : DfSpace2D ℝ) (p : DfPressure2D ℝ) (test : DfTest ℝ) {c h : Nat} (hc : c < mesh.num2D) (hh : h < 2) :
    ∃ log, dfWeakComponent ((List.range 4).map info) ((List.range 4).map D) ((List.range 4).map (fieldOffset D)) gauss (poly c).edges (dfCell2D ref (poly c) s p) mesh test c h
        = .ok log ∧ (∀ p ∈ log, p.1 < fieldOffset D 4) ∧
      ∀ x : (Nat → ℝ) × (Nat → Polynomial ℝ), IsTrace k mesh ts (fun r => fieldTest D x.1 (h, r)) x.2 →
        tested x.1 log = -∑ e ∈ Finset.range (n c), weakValue (info h) mesh len (quadSum gauss.points gauss.weights) (fun m p => test.weak m p h) x.2 c e := by
  obtain ⟨g0, g1, g2⟩ := (df_numbers hT href).1 h hh
  have HF := H.field h (by omega)
  have hoff := (offset_le D (show h < 4 by omega)).1
  obtain ⟨es, h1, h2, h3⟩ := tested_flatten (τ := (Nat → ℝ) × (Nat → Polynomial ℝ)) (fun x => x.1) (fun x => IsTrace k mesh ts (fun r => fieldTest D x.1 (h, r)) x.2)
    (fieldOffset D 4) (List.range (n c)) (dfWeakEdge (info h) (D h) (fieldOffset D h) h gauss (poly c).edges (dfCell2D ref (poly c) s p) mesh test c)
    (fun x e => -weakValue (info h) mesh len (quadSum gauss.points gauss.weights) (fun m p => test.weak m p h) x.2 c e) (by
      intro e he
      obtain ⟨log, e1, e2, e3⟩ := dfWeakEdge_ok hM hT href HF g0 g1 hg s p test (fieldOffset D h) h hc (List.mem_range.1 he)
      exact ⟨log, e1, fun p hp => lt_of_lt_of_le (e2 p hp) hoff, e3⟩)
  refine ⟨es.flatten, ?_, h2, fun x hx => ?_⟩
  · unfold dfWeakComponent
    rw [unchecked_map_range _ _ _ (show h < 4 by omega), except_ok_bind, unchecked_map_range _ _ _ (show h < 4 by omega), except_ok_bind,
      unchecked_map_range _ _ _ (show h < 4 by omega), except_ok_bind, (hM.element c hc).edges.vertices, List.length_map, List.length_range, h1, except_ok_bind]
  · rw [h3 x hx, ← Finset.sum_neg_distrib]
    rfl

/-- The entries of the mean value on one cell. -/
theorem lagrangeTerm_ok (hT : IsDfTables k triangle edge ts ws w ss vs v₀) (href : dfRef2D red triangle edge k = .ok ref)
    (hs : IsDfSetup ref mesh boundary info D count) {c : Nat} (hc : c < mesh.num2D) {test : DfTest ℝ} {s : DfSpace2D ℝ} {p : DfPressure2D ℝ} {S S0 A : DMat ℝ}
    {b mean : List ℝ} {μ κ : ℝ} (hC : BCell k (divDegree red k) (n c) ref (poly c) test s p S S0 A b mean μ κ) :
    ∃ log, lagrangeTerm ((List.range 4).map D) count (dfCell2D ref (poly c) s p) c = .ok log ∧
      (∀ t ∈ log, t.1 < count.totalDOFs ∧ t.2.1 < count.totalDOFs) ∧
      ∀ φ x : Nat → ℝ, (log.map fun t => φ t.1 * t.2.2 * x t.2.1).sum = if count.totalBoundary = 0 then
        (∑ j ∈ Finset.range ((divDegree red k + 1) * (divDegree red k + 2) / 2), fieldTest D φ (3, ⟨2, c, j⟩) * mean.getD j 0) * x (fieldOffset D 4)
          + φ (fieldOffset D 4) * ∑ j ∈ Finset.range ((divDegree red k + 1) * (divDegree red k + 2) / 2), fieldTest D x (3, ⟨2, c, j⟩) * mean.getD j 0 else 0 := by
  obtain ⟨h30, h31, h32⟩ := (df_numbers hT href).2.2
  obtain ⟨bd, rfl, hbd⟩ := df_count hT href hs
  have H := df_quad hs
  have HF := H.field 3 (by norm_num)
  have hoff := (offset_le D (show 3 < 4 by norm_num)).1
  have hd := H.dofs
  unfold lagrangeTerm
  dsimp only
  by_cases h0 : bd = 0
  swap
  · rw [if_neg h0]
    exact ⟨[], rfl, by simp, fun φ x => by simp [h0]⟩
  rw [if_pos h0]
  simp only [if_pos h0]
  obtain ⟨X, hX, hXl⟩ := hC.meanOk
  obtain ⟨g, hg⟩ := Option.isSome_iff_exists.1 (HF.exist c hc)
  have hlist := HF.list c hc
  rw [cellList, hg, Option.map_some, Option.getD_some] at hlist
  have hfl : fieldList (dfNum ref 3) mesh.topo c = (List.range ((divDegree red k + 1) * (divDegree red k + 2) / 2)).map fun j => ⟨2, c, j⟩ := by
    rw [fieldList, h30, h31, h32, refs_flat, refs_flat]
    simp [entityRefs]
  have hlam : u32 (fieldOffset D 4 + 1 + 4294967295) = fieldOffset D 4 := by
    unfold u32
    omega
  rw [show (dfCell2D ref (poly c) s p).internal = s.internal from rfl, hX, except_ok_bind, unchecked_map_range _ _ _ (show 3 < 4 by norm_num), except_ok_bind,
    unchecked_map_range _ _ _ (show 3 < 4 by norm_num), except_ok_bind, (atIdx_ok_iff _ _ _).2 hg, except_ok_bind, hlam, hXl, hlist, hfl]
  have hlook : ∀ j < (divDegree red k + 1) * (divDegree red k + 2) / 2, ∃ i, lookup (D 3) ⟨2, c, j⟩ = some ⟨.dof, i⟩ := by
    intro j hj
    obtain ⟨x, b', hx, hb', -, hl, ht⟩ := HF.cell 2 le_rfl c hc
    have hjl : j < x.dofs.length := by rw [hl, h32]; exact hj
    have hn := (df_types hs (show 3 < 4 by norm_num) (show 2 ≤ 2 by norm_num)).2.2.2 (by norm_num) b' (List.mem_of_getElem? hb')
    have := ht _ (List.getElem_mem hjl)
    rw [hn] at this
    refine ⟨(x.dofs[j]).globalIndex, ?_⟩
    rw [Handler.lookup_cell hx, List.getElem?_eq_getElem hjl]
    generalize x.dofs[j] = y at this
    obtain ⟨t, i⟩ := y
    dsimp only at this
    rw [this]
    rfl
  obtain ⟨log, e1, e2, e3⟩ := lagrangeLoop_ok HF (off := fieldOffset D 3) (lambda := fieldOffset D 4) (mean := mean) (by omega)
    ((List.range ((divDegree red k + 1) * (divDegree red k + 2) / 2)).map fun j => ⟨2, c, j⟩) 0 (by simp [hC.meanLength]) (by
      intro r hr
      obtain ⟨j, hj, rfl⟩ := List.mem_map.1 hr
      exact hlook j (List.mem_range.1 hj))
  refine ⟨log, e1, fun t ht => ?_, fun φ x => ?_⟩
  · obtain ⟨f1, f2⟩ := e2 t ht
    exact ⟨by omega, by omega⟩
  · rw [e3]
    have key : ∀ ψ : Nat → ℝ, ∑ j ∈ Finset.range ((List.range ((divDegree red k + 1) * (divDegree red k + 2) / 2)).map fun j => (⟨2, c, j⟩ : GDOF)).length, mean.getD (0 + j) 0 *
        (((List.range ((divDegree red k + 1) * (divDegree red k + 2) / 2)).map fun j => (⟨2, c, j⟩ : GDOF))[j]?).elim 0 (testValue (D 3) fun i => ψ (fieldOffset D 3 + i))
        = ∑ j ∈ Finset.range ((divDegree red k + 1) * (divDegree red k + 2) / 2), fieldTest D ψ (3, ⟨2, c, j⟩) * mean.getD j 0 := by
      intro ψ
      rw [List.length_map, List.length_range]
      refine Finset.sum_congr rfl fun j hj => ?_
      rw [List.getElem?_map, List.getElem?_range (Finset.mem_range.1 hj), zero_add, mul_comm]
      rfl
    rw [key, key]

/-- One cell of the assembler. -/
theorem brinkmanCell_ok (hM : IsDfMesh red k mesh poly n len dir nrm) (hT : IsDfTables k triangle edge ts ws w ss vs v₀)
    (href : dfRef2D red triangle edge k = .ok ref) (hs : IsDfSetup ref mesh boundary info D count) (hg : (gauss (2 * k)).weights.length = (gauss (2 * k)).points.length)
    (test : DfTest ℝ) {c : Nat} (hc : c < mesh.num2D) {s : DfSpace2D ℝ} {p : DfPressure2D ℝ} {S S0 A : DMat ℝ} {b mean : List ℝ} {μ κ : ℝ}
    (hp : dfPressure2D sqrt red triangle k (poly c) = .ok p) (hcr : dfCreate2D sqrt lu llt ref (poly c) = .ok s)
    (hC : BCell k (divDegree red k) (n c) ref (poly c) test s p S S0 A b mean μ κ) :
    ∃ lag strong weak, brinkmanCell ((List.range 4).map info) ((List.range 4).map D) count k gauss (fun c => (poly c).edges) (dfSpaces sqrt lu llt triangle ref poly) mesh test c
        = .ok ⟨⟨c, quadFields (dfNum ref) mesh.topo D c, some (quadFields (dfNum ref) mesh.topo D c, A.toLMat), some b⟩, lag, strong, weak⟩ ∧
      ((∀ t ∈ lag, t.1 < count.totalDOFs ∧ t.2.1 < count.totalDOFs) ∧
      ∀ φ x : Nat → ℝ, (lag.map fun t => φ t.1 * t.2.2 * x t.2.1).sum = if count.totalBoundary = 0 then
        (∑ j ∈ Finset.range ((divDegree red k + 1) * (divDegree red k + 2) / 2), fieldTest D φ (3, ⟨2, c, j⟩) * mean.getD j 0) * x (fieldOffset D 4)
          + φ (fieldOffset D 4) * ∑ j ∈ Finset.range ((divDegree red k + 1) * (divDegree red k + 2) / 2), fieldTest D x (3, ⟨2, c, j⟩) * mean.getD j 0 else 0) ∧
      ((∀ x ∈ strong, ∃ h < 2, ∃ r b i, OnBorder mesh n c r ∧ ((info h).bInfo r.dim)[r.cell]? = some b ∧ lookup (D h) r = some ⟨.strong, i⟩ ∧ x.1 = strongOffset D h + i ∧
        x.2 = test.strong b.marker (dofPoint mesh ts r) h) ∧
      ∀ h < 2, ∀ r i, OnBorder mesh n c r → lookup (D h) r = some ⟨.strong, i⟩ → ∃ y, (strongOffset D h + i, y) ∈ strong) ∧
      (∀ x ∈ weak, x.1 < fieldOffset D 4) ∧
      ∀ φ (u : Nat → Nat → Polynomial ℝ), (∀ h < 2, IsTrace k mesh ts (fun r => fieldTest D φ (h, r)) (u h)) → tested φ weak
        = -∑ h ∈ Finset.range 2, ∑ e ∈ Finset.range (n c),
            weakValue (info h) mesh len (quadSum (gauss (2 * k)).points (gauss (2 * k)).weights) (fun m p => test.weak m p h) (u h) c e := by
  have H := df_quad hs
  have hsm := hM.small c hc
  obtain ⟨h1, h2, h3, -⟩ := ref_edge hT href
  have hlen := df_list_length hM.plane hT href hc
  obtain ⟨l, hl1, hl2, hl3⟩ := hC.computed
  obtain ⟨lag, g1, g2, g3⟩ := lagrangeTerm_ok hT href hs hc hC
  obtain ⟨strong, s1, s2, s3⟩ := strong_flatten (List.range 2)
    (dfStrongComponent ((List.range 4).map info) ((List.range 4).map D) ((List.range 4).map (strongOffset D)) (dfCell2D ref (poly c) s p) mesh test c)
    (fun h x => ∃ r b i, OnBorder mesh n c r ∧ ((info h).bInfo r.dim)[r.cell]? = some b ∧ lookup (D h) r = some ⟨.strong, i⟩ ∧ x.1 = strongOffset D h + i ∧
        x.2 = test.strong b.marker (dofPoint mesh ts r) h)
    (fun h a => ∃ r i, OnBorder mesh n c r ∧ lookup (D h) r = some ⟨.strong, i⟩ ∧ a = strongOffset D h + i) (by
      intro h hh
      obtain ⟨log, e1, e2, e3⟩ := dfStrongComponent_ok hM.plane hT href H s p test hc (List.mem_range.1 hh)
      refine ⟨log, e1, e2, ?_⟩
      rintro a ⟨r, i, hr, hi, rfl⟩
      exact e3 r i hr hi)
  obtain ⟨weak, w1, w2, w3⟩ := tested_flatten (τ := (Nat → ℝ) × (Nat → Nat → Polynomial ℝ)) (fun x => x.1)
    (fun x => ∀ h < 2, IsTrace k mesh ts (fun r => fieldTest D x.1 (h, r)) (x.2 h)) (fieldOffset D 4) (List.range 2)
    (dfWeakComponent ((List.range 4).map info) ((List.range 4).map D) ((List.range 4).map (fieldOffset D)) (gauss (2 * k)) (poly c).edges (dfCell2D ref (poly c) s p) mesh test c)
    (fun x h => -∑ e ∈ Finset.range (n c), weakValue (info h) mesh len (quadSum (gauss (2 * k)).points (gauss (2 * k)).weights) (fun m p => test.weak m p h) (x.2 h) c e) (by
      intro h hh
      have hh := List.mem_range.1 hh
      obtain ⟨log, e1, e2, e3⟩ := dfWeakComponent_ok hM.plane hT href H hg s p test hc hh
      exact ⟨log, e1, e2, fun x hx => e3 (x.1, x.2 h) (hx h hh)⟩)
  refine ⟨lag, strong.flatten, weak.flatten, ?_, ⟨g2, g3⟩, ⟨fun x hx => ?_, fun h hh r i hr hi => ?_⟩, w2, fun φ u hu => ?_⟩
  · have hb := hT.below
    have hu : u32 (2 * k) = 2 * k := Nat.mod_eq_of_lt (by omega)
    obtain ⟨bd, rfl, -⟩ := df_count hT href hs
    have hcall : brinkmanCall ((List.range 4).map D) ⟨bd, fieldOffset D 4 + (if bd = 0 then 1 else 0), strongOffset D 4, (List.range 4).map (fieldOffset D), (List.range 4).map (strongOffset D)⟩
        (dfCell2D ref (poly c) s p) test c = .ok ⟨c, quadFields (dfNum ref) mesh.topo D c, some (quadFields (dfNum ref) mesh.topo D c, A.toLMat), some b⟩ := by
      have hnp : (fieldList (dfNum ref 3) mesh.topo c).length = (divDegree red k + 1) * (divDegree red k + 2) / 2 := by
        obtain ⟨h30, h31, h32⟩ := (df_numbers hT href).2.2
        rw [fieldList, h30, h31, h32, refs_flat, refs_flat]
        simp [entityRefs]
      unfold brinkmanCall
      rw [hl1, except_ok_bind, H.local_count hc (by rw [hlen]; exact hsm), except_ok_bind, unchecked_map_range _ _ _ (show 3 < 4 by norm_num), except_ok_bind,
        H.size hc (by norm_num), except_ok_bind]
      dsimp only
      rw [hnp, hlen, hl2, except_ok_bind, hl3, except_ok_bind]
      rfl
    unfold brinkmanCell dfSpaces
    rw [h1, h3, hp, except_ok_bind, hcr, except_ok_bind, except_ok_bind, hcall, except_ok_bind, g1, except_ok_bind, hu]
    dsimp only
    rw [s1, except_ok_bind, w1, except_ok_bind]
  · obtain ⟨h, hh, hr⟩ := s2 x hx
    exact ⟨h, List.mem_range.1 hh, hr⟩
  · exact s3 h (List.mem_range.2 hh) _ ⟨r, i, hr, hi, rfl⟩
  · rw [w3 (φ, u) hu, ← Finset.sum_neg_distrib]
    rfl

/-- The assembled system: what is known of the local spaces, of the strong values, and of the rows tested with arbitrary functions. -/
structure BSystem (red : Bool) (k : Nat) (mesh : PlaneMesh ℝ) (poly : Nat → VemPolygon ℝ) (n : Nat → Nat) (len : Nat → Nat → ℝ) (dir : Nat → Nat → Bool)
    (ts ws : List ℝ) (w : ℝ) (ss vs : List ℝ) (v₀ : ℝ) (sqrt : ℝ → ℝ) (lu llt : Solver ℝ) (ref : DfRef2D ℝ) (info : Nat → MeshInfo) (D : Nat → DOFsData) (count : CountData)
    (gauss : Nat → Rule ℝ ℝ) (test : DfTest ℝ) (s : Nat → DfSpace2D ℝ) (p : Nat → DfPressure2D ℝ) (S S0 A : Nat → DMat ℝ) (b mean : Nat → List ℝ) (μ κ : Nat → ℝ)
    (P : BrinkmanProblem ℝ) : Prop where
  created : ∀ c < mesh.num2D, dfCreate2D sqrt lu llt ref (poly c) = .ok (s c)
  space : ∀ c < mesh.num2D, DfSpaceOk k (divDegree red k) (n c) (cellPoint mesh c) (len c) (dir c) ts ws w ss vs v₀ (poly c) (s c)
  cell : ∀ c < mesh.num2D, BCell k (divDegree red k) (n c) ref (poly c) test (s c) (p c) (S c) (S0 c) (A c) (b c) (mean c) (μ c) (κ c)
  dirichletLength : P.dirichlet.length = strongOffset D 4
  dirichlet : ∀ c < mesh.num2D, ∀ h < 2, ∀ r i, OnBorder mesh n c r → lookup (D h) r = some ⟨.strong, i⟩ →
    ∃ m, ((info h).bInfo r.dim)[r.cell]? = some m ∧ P.dirichlet.getD (strongOffset D h + i) 0 = test.strong m.marker (dofPoint mesh ts r) h
  dirichletZero : ∀ a, (∀ c < mesh.num2D, ∀ h < 2, ∀ r i, OnBorder mesh n c r → lookup (D h) r = some ⟨.strong, i⟩ → a ≠ strongOffset D h + i) → P.dirichlet.getD a 0 = 0
  rows : ∀ free strong : List ℝ, free.length = count.totalDOFs → strong.length = strongOffset D 4 → ∀ φ : Nat → ℝ,
    ∑ i ∈ Finset.range count.totalDOFs, φ i *
        (∑ j ∈ Finset.range free.length, entry P.globalMatrix i j * free.getD j 0 + ∑ j ∈ Finset.range strong.length, entry P.dirichletMatrix i j * strong.getD j 0)
      = ((List.range mesh.num2D).map fun c => ∑ j ∈ Finset.range (numVelocityDofs k (divDegree red k) (n c) + (divDegree red k + 1) * (divDegree red k + 2) / 2),
          onRefs (quadList (dfNum ref) mesh.topo c) (fieldTest D φ) j * apply (A c) (Quad.values (dfNum ref) mesh.topo D free strong c) j).sum
        + if count.totalBoundary = 0 then
            ((List.range mesh.num2D).map fun c => ∑ j ∈ Finset.range ((divDegree red k + 1) * (divDegree red k + 2) / 2), fieldTest D φ (3, ⟨2, c, j⟩) * (mean c).getD j 0).sum
              * free.getD (fieldOffset D 4) 0
            + φ (fieldOffset D 4) * ((List.range mesh.num2D).map fun c => ∑ j ∈ Finset.range ((divDegree red k + 1) * (divDegree red k + 2) / 2),
                fieldTest D (fun i => free.getD i 0) (3, ⟨2, c, j⟩) * (mean c).getD j 0).sum else 0
  rhs : ∀ (φ : Nat → ℝ) (u : Nat → Nat → Polynomial ℝ), (∀ h < 2, IsTrace k mesh ts (fun r => fieldTest D φ (h, r)) (u h)) →
    ∑ i ∈ Finset.range count.totalDOFs, φ i *
        (ventry P.rightHandSide i + ∑ j ∈ Finset.range P.dirichlet.length, entry P.dirichletMatrix i j * P.dirichlet.getD j 0)
      = ((List.range mesh.num2D).map fun c => ∑ j ∈ Finset.range (numVelocityDofs k (divDegree red k) (n c) + (divDegree red k + 1) * (divDegree red k + 2) / 2),
          onRefs (quadList (dfNum ref) mesh.topo c) (fieldTest D φ) j * (b c).getD j 0).sum
      - ((List.range mesh.num2D).map fun c => ∑ h ∈ Finset.range 2, ∑ e ∈ Finset.range (n c),
          weakValue (info h) mesh len (quadSum (gauss (2 * k)).points (gauss (2 * k)).weights) (fun m p => test.weak m p h) (u h) c e).sum

theorem sum_flatten {α β : Type} (l : List α) (f : α → List β) (g : β → ℝ) : ((l.map f).flatten.map g).sum = (l.map fun a => ((f a).map g).sum).sum := by
  induction l with
  | nil => simp
  | cons a l ih => rw [List.map_cons, List.flatten_cons, List.map_append, List.sum_append, ih, List.map_cons, List.sum_cons]

/-- The assembled system. -/
theorem brinkman_assemble (hM : IsDfMesh red k mesh poly n len dir nrm) (hT : IsDfTables k triangle edge ts ws w ss vs v₀) (hsq : ∀ x, 0 ≤ x → sqrt x * sqrt x = x)
    (hlu : SolvesRegular lu) (hllt : SolvesPosDef llt) (href : dfRef2D red triangle edge k = .ok ref) (hs : IsDfSetup ref mesh boundary info D count)
    (hg : (gauss (2 * k)).weights.length = (gauss (2 * k)).points.length) (test : DfTest ℝ) :
    ∃ P, assembleBrinkman ((List.range 4).map info) ((List.range 4).map D) count k gauss (fun c => (poly c).edges) (dfSpaces sqrt lu llt triangle ref poly) mesh test = .ok P ∧
      ∃ s p S S0 A b mean μ κ, BSystem red k mesh poly n len dir ts ws w ss vs v₀ sqrt lu llt ref info D count gauss test s p S S0 A b mean μ κ P := by
  choose! s p S S0 A b mean μ κ hp hcr hsp hC using fun (c : Nat) (hc : c < mesh.num2D) =>
    df_cell red (hM.plane.element c hc) hT hsq hlu hllt (hM.area c hc) (hM.plane.measure c hc) href test
  choose! lag strong weak hcell hlag hstr hwl hwt using fun (c : Nat) (hc : c < mesh.num2D) => brinkmanCell_ok hM hT href hs hg test hc (hp c hc) (hcr c hc) (hC c hc)
  have H := df_quad hs
  have hcells := mapM_ok _ _ (List.range mesh.num2D) fun c hc => hcell c (List.mem_range.1 hc)
  have hlist : ∀ c < mesh.num2D, (quadList (dfNum ref) mesh.topo c).length
      = numVelocityDofs k (divDegree red k) (n c) + (divDegree red k + 1) * (divDegree red k + 2) / 2 := fun c hc => df_list_length hM.plane hT href hc
  obtain ⟨Sy, hSy, hrows, hrhs⟩ := H.assemble (List.range mesh.num2D) (fun c hc => List.mem_range.1 hc)
    (fun c hc => by rw [hlist c (List.mem_range.1 hc)]; exact hM.small c (List.mem_range.1 hc)) A b
    (fun c hc => by rw [hlist c (List.mem_range.1 hc)]; exact ⟨(hC c (List.mem_range.1 hc)).rows, (hC c (List.mem_range.1 hc)).cols⟩)
    (fun c hc => by rw [hlist c (List.mem_range.1 hc)]; exact (hC c (List.mem_range.1 hc)).size)
  have hin : ∀ x ∈ ((List.range mesh.num2D).map strong).flatten, ∃ c < mesh.num2D, x ∈ strong c := by
    intro x hx
    obtain ⟨l, hl, hx⟩ := List.mem_flatten.1 hx
    obtain ⟨c, hc, rfl⟩ := List.mem_map.1 hl
    exact ⟨c, List.mem_range.1 hc, hx⟩
  obtain ⟨nu, hnu, hnl, hnv⟩ := fold_writes (((List.range mesh.num2D).map strong).flatten) (List.replicate (strongOffset D 4) 0) (by
    intro x hx
    obtain ⟨c, hc, hx⟩ := hin x hx
    obtain ⟨h, hh, r, m, i, -, -, h1, h2, -⟩ := (hstr c hc).1 x hx
    have := (H.field h (by omega)).strong _ _ h1
    have := (offset_le D (show h < 4 by omega)).2
    rw [List.length_replicate]
    omega)
  rw [List.length_replicate] at hnl
  have hcount : count.totalDOFs = fieldOffset D 4 + (if count.totalBoundary = 0 then 1 else 0) ∧ count.totalStrong = strongOffset D 4 := by
    obtain ⟨bd, rfl, -⟩ := df_count hT href hs
    exact ⟨rfl, rfl⟩
  have hle : fieldOffset D 4 ≤ count.totalDOFs := by rw [hcount.1]; exact Nat.le_add_right _ _
  refine ⟨⟨Sy.lhsDOFs ++ ((List.range mesh.num2D).map lag).flatten, Sy.lhsStrongs, Sy.rhs ++ ((List.range mesh.num2D).map weak).flatten ++
    (if 0 < strongOffset D 4 then subtractProduct Sy.lhsStrongs nu else []), nu⟩, ?_, s, p, S, S0, A, b, mean, μ, κ, hcr, hsp, hC, hnl, ?_, ?_, ?_, ?_⟩
  · unfold assembleBrinkman
    rw [hcells, except_ok_bind, List.map_map, List.map_map, List.map_map, List.map_map]
    have e1 : (BrinkmanCell.call ∘ fun c => (⟨⟨c, quadFields (dfNum ref) mesh.topo D c, some (quadFields (dfNum ref) mesh.topo D c, (A c).toLMat), some (b c)⟩, lag c, strong c, weak c⟩ : BrinkmanCell ℝ))
        = fun c => ⟨c, quadFields (dfNum ref) mesh.topo D c, some (quadFields (dfNum ref) mesh.topo D c, (A c).toLMat), some (b c)⟩ := rfl
    have e2 : (BrinkmanCell.strong ∘ fun c => (⟨⟨c, quadFields (dfNum ref) mesh.topo D c, some (quadFields (dfNum ref) mesh.topo D c, (A c).toLMat), some (b c)⟩, lag c, strong c, weak c⟩ : BrinkmanCell ℝ))
        = strong := rfl
    have e3 : (BrinkmanCell.weak ∘ fun c => (⟨⟨c, quadFields (dfNum ref) mesh.topo D c, some (quadFields (dfNum ref) mesh.topo D c, (A c).toLMat), some (b c)⟩, lag c, strong c, weak c⟩ : BrinkmanCell ℝ))
        = weak := rfl
    have e4 : (BrinkmanCell.lagrange ∘ fun c => (⟨⟨c, quadFields (dfNum ref) mesh.topo D c, some (quadFields (dfNum ref) mesh.topo D c, (A c).toLMat), some (b c)⟩, lag c, strong c, weak c⟩ : BrinkmanCell ℝ))
        = lag := rfl
    rw [e1, e2, e3, e4, hSy, except_ok_bind, hcount.2, hnu, except_ok_bind]
  · intro c hc h hh r i hr hi
    obtain ⟨y, hy⟩ := (hstr c hc).2 h hh r i hr hi
    obtain ⟨y, hy, hv⟩ := (hnv _).1 ⟨y, List.mem_flatten.2 ⟨strong c, List.mem_map.2 ⟨c, List.mem_range.2 hc, rfl⟩, hy⟩⟩
    obtain ⟨c', hc', hy⟩ := hin _ hy
    obtain ⟨h', hh', r', m, i', hr', hm, h1, h2, h3⟩ := (hstr c' hc').1 _ hy
    have b1 := (H.field h (by omega)).strong _ _ hi
    have b2 := (H.field h' (by omega)).strong _ _ h1
    have o0 : strongOffset D 0 = 0 := rfl
    have o1 : strongOffset D 1 = (D 0).counters.strongs := by simp [strongOffset]
    dsimp only at h2
    have hhh : h' = h ∧ i' = i := by
      interval_cases h <;> interval_cases h' <;> simp only [o0, o1] at h2 <;> omega
    obtain ⟨rfl, rfl⟩ := hhh
    obtain rfl := (H.field h' (by omega)).inj _ _ _ h1 hi (by simp)
    refine ⟨m, hm, ?_⟩
    show nu.getD _ 0 = _
    rw [hv]
    exact h3
  · intro a ha
    show nu.getD a 0 = _
    rw [(hnv a).2, List.getD_eq_getElem?_getD, List.getElem?_replicate]
    · split_ifs <;> rfl
    · intro y hy
      obtain ⟨c, hc, hy⟩ := hin _ hy
      obtain ⟨h, hh, r, m, i, hr, hm, h1, h2, -⟩ := (hstr c hc).1 _ hy
      exact ha c hc h hh r i hr h1 h2
  · intro free str hf hst φ
    dsimp only
    have h1 := H.tested_rows φ hle (List.range mesh.num2D) fun c j => apply (A c) (Quad.values (dfNum ref) mesh.topo D free str c) j
    simp only [← hrows free str (hf ▸ hle) hst] at h1
    have h2 := entry_tested φ (fun j => free.getD j 0) count.totalDOFs free.length ((List.range mesh.num2D).map lag).flatten (by
      intro t ht
      obtain ⟨l, hl, ht⟩ := List.mem_flatten.1 ht
      obtain ⟨c, hc, rfl⟩ := List.mem_map.1 hl
      rw [hf]
      exact (hlag c (List.mem_range.1 hc)).1 t ht)
    simp only [entry_append, add_mul (entry _ _ _), Finset.sum_add_distrib]
    have e : ∀ i, φ i * (∑ j ∈ Finset.range free.length, entry Sy.lhsDOFs i j * free.getD j 0
          + ∑ j ∈ Finset.range free.length, entry ((List.range mesh.num2D).map lag).flatten i j * free.getD j 0
          + ∑ j ∈ Finset.range str.length, entry Sy.lhsStrongs i j * str.getD j 0)
        = φ i * (∑ j ∈ Finset.range free.length, entry Sy.lhsDOFs i j * free.getD j 0 + ∑ j ∈ Finset.range str.length, entry Sy.lhsStrongs i j * str.getD j 0)
          + φ i * ∑ j ∈ Finset.range free.length, entry ((List.range mesh.num2D).map lag).flatten i j * free.getD j 0 := fun i => by ring
    simp only [e, Finset.sum_add_distrib]
    rw [h1, h2, sum_flatten]
    congr 1
    · congr 1
      refine List.map_congr_left fun c hc => ?_
      rw [hlist c (List.mem_range.1 hc)]
    · rw [List.map_congr_left fun c hc => (hlag c (List.mem_range.1 hc)).2 φ fun j => free.getD j 0]
      split_ifs
      · rw [List.sum_map_add, List.sum_map_mul_right, List.sum_map_mul_left]
      · simp
  · intro φ u hu
    have hlast : ∀ i, ventry (if 0 < strongOffset D 4 then subtractProduct Sy.lhsStrongs nu else []) i
        = -∑ j ∈ Finset.range nu.length, entry Sy.lhsStrongs i j * nu.getD j 0 := by
      intro i
      split_ifs with h
      · exact ventry_subtract _ _ _
      · rw [hnl, show strongOffset D 4 = 0 by omega]
        simp [ventry]
    dsimp only
    simp only [ventry_append, hlast, neg_add_cancel_right]
    simp only [mul_add (φ _), Finset.sum_add_distrib]
    rw [sub_eq_add_neg]
    congr 1
    · have := H.tested_rows φ hle (List.range mesh.num2D) fun c j => (b c).getD j 0
      simp only [← hrhs] at this
      refine this.trans ?_
      congr 1
      refine List.map_congr_left fun c hc => ?_
      rw [hlist c (List.mem_range.1 hc)]
    · have h1 := tested_ventry φ count.totalDOFs ((List.range mesh.num2D).map weak).flatten (by
        intro x hx
        obtain ⟨l, hl, hx⟩ := List.mem_flatten.1 hx
        obtain ⟨c, hc, rfl⟩ := List.mem_map.1 hl
        exact lt_of_lt_of_le (hwl c (List.mem_range.1 hc) x hx) hle)
      simp only [mul_comm (φ _)]
      rw [h1, tested, sum_flatten, neg_eq_neg_one_mul, ← List.sum_map_mul_left]
      simp only [neg_one_mul]
      congr 1
      exact List.map_congr_left fun c hc => hwt c (List.mem_range.1 hc) φ u hu

end

end PolyDiM
