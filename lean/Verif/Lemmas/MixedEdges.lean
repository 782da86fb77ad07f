import Verif.Lemmas.MixedCell
import Verif.Lemmas.FieldPair
import Verif.Lemmas.PlaneWeak

/-!
# Lemmas: the edges of a mesh in the mixed assembler
-/

namespace PolyDiM

open Spec MvPolynomial MeasureTheory

section
variable {k : Nat} {mesh : PlaneMesh ℝ} {poly : Nat → VemPolygon ℝ} {n : Nat → Nat} {len : Nat → Nat → ℝ} {dir : Nat → Nat → Bool} {nrm : Nat → Nat → ℝ × ℝ}
  {triangle : Nat → Rule (ℝ × ℝ) ℝ} {edge : Nat → Rule ℝ ℝ} {ts ws : List ℝ}

theorem edge_vector (hM : IsMixedMesh k mesh poly n len dir nrm) {c e : Nat} (hc : c < mesh.num2D) (he : e < n c) :
    |len c e| • nrm c e = sgn (dir c) e • clockwise (edgeVector mesh (cellEdge mesh c e)) := by
  rw [(hM.plane.element c hc).normals e he, edgeVector, hM.plane.ends c hc e he]
  unfold sgn cellPoint clockwise
  cases dir c e <;> simp

theorem sgn_sq (d : Nat → Bool) (e : Nat) : sgn d e * sgn d e = 1 := by
  unfold sgn
  cases d e <;> simp

/-- The length of an edge is that of the edge of the mesh. -/
theorem edge_length (hM : IsMixedMesh k mesh poly n len dir nrm) {c e : Nat} (hc : c < mesh.num2D) (he : e < n c) :
    |len c e| = meshLength mesh (cellEdge mesh c e) := by
  have h := edge_vector hM hc he
  have hu := hM.unit c hc e he
  have h1 : |len c e| * |len c e| = dot2 (edgeVector mesh (cellEdge mesh c e)) (edgeVector mesh (cellEdge mesh c e)) := by
    have e1 := congrArg Prod.fst h
    have e2 := congrArg Prod.snd h
    simp only [clockwise, Prod.smul_mk, smul_eq_mul, Prod.smul_fst, Prod.smul_snd] at e1 e2
    have s := sgn_sq (dir c) e
    unfold dot2 at hu ⊢
    have f1 : (|len c e| * (nrm c e).1) ^ 2 = (sgn (dir c) e * (edgeVector mesh (cellEdge mesh c e)).2) ^ 2 := by rw [e1]
    have f2 : (|len c e| * (nrm c e).2) ^ 2 = (sgn (dir c) e * -(edgeVector mesh (cellEdge mesh c e)).1) ^ 2 := by rw [e2]
    linear_combination -(|len c e| * |len c e|) * hu + f1 + f2 + ((edgeVector mesh (cellEdge mesh c e)).2 ^ 2 + (edgeVector mesh (cellEdge mesh c e)).1 ^ 2) * s
  rw [meshLength, ← h1, Real.sqrt_mul_self (abs_nonneg _)]

theorem edge_length_pos (hM : IsMixedMesh k mesh poly n len dir nrm) {c e : Nat} (hc : c < mesh.num2D) (he : e < n c) : 0 < meshLength mesh (cellEdge mesh c e) := by
  rw [← edge_length hM hc he]
  exact abs_pos.2 (hM.length c hc e he)

/-- The normal of an edge of a cell is that of the edge of the mesh, up to the direction. -/
theorem edge_normal (hM : IsMixedMesh k mesh poly n len dir nrm) {c e : Nat} (hc : c < mesh.num2D) (he : e < n c) :
    nrm c e = sgn (dir c) e • meshNormal mesh (cellEdge mesh c e) := by
  have h := edge_vector hM hc he
  have hp := (edge_length_pos hM hc he).ne'
  rw [edge_length hM hc he] at h
  rw [meshNormal, smul_comm, ← h, smul_smul, one_div, inv_mul_cancel₀ hp, one_smul]

theorem vel_num (hT : IsMixedTables k triangle edge ts ws) : mccVelocityNum k 0 = 0 ∧ mccVelocityNum k 1 = k + 1 ∧ mccVelocityNum k 2 = k * (k + 2) := by
  have h2 := hT.high
  have e1 : u32 (k + 1) = k + 1 := by unfold u32; omega
  have e2 : u32 (k + 2) = k + 2 := by unfold u32; omega
  have e3 : u32 (k * (k + 2)) = k * (k + 2) := by
    unfold u32
    refine Nat.mod_eq_of_lt ?_
    calc k * (k + 2) ≤ 65534 * 65536 := Nat.mul_le_mul h2 (by omega)
      _ < 4294967296 := by norm_num
  refine ⟨rfl, ?_, ?_⟩
  · simp [mccVelocityNum, e1]
  · simp [mccVelocityNum, e2, e3]

theorem pre_num (hT : IsMixedTables k triangle edge ts ws) : mccPressureNum k 0 = 0 ∧ mccPressureNum k 1 = 0 ∧ mccPressureNum k 2 = (k + 1) * (k + 2) / 2 := by
  have h2 := hT.high
  have e1 : u32 (k + 1) = k + 1 := by unfold u32; omega
  have e2 : u32 (k + 2) = k + 2 := by unfold u32; omega
  have e3 : u32 ((k + 1) * (k + 2)) = (k + 1) * (k + 2) := by
    unfold u32
    refine Nat.mod_eq_of_lt ?_
    calc (k + 1) * (k + 2) ≤ 65535 * 65536 := Nat.mul_le_mul (by omega) (by omega)
      _ < 4294967296 := by norm_num
  refine ⟨rfl, rfl, ?_⟩
  simp [mccPressureNum, e1, e2, e3]

theorem vel_list_eq (hT : IsMixedTables k triangle edge ts ws) (topo : Mesh) (c : Nat) : fieldList (mccVelocityNum k) topo c
    = (topo.cell2DEdges c).flatMap (entityRefs 1 (k + 1)) ++ entityRefs 2 (k * (k + 2)) c := by
  obtain ⟨h0, h1, h2⟩ := vel_num hT
  rw [fieldList, h0, h1, h2]
  have : (topo.cell2DVertices c).flatMap (entityRefs 0 0) = [] := List.flatMap_eq_nil_iff.2 fun _ _ => rfl
  rw [this, List.nil_append]

theorem pre_list_eq (hT : IsMixedTables k triangle edge ts ws) (topo : Mesh) (c : Nat) : fieldList (mccPressureNum k) topo c = entityRefs 2 ((k + 1) * (k + 2) / 2) c := by
  obtain ⟨h0, h1, h2⟩ := pre_num hT
  rw [fieldList, h0, h1, h2]
  have e0 : (topo.cell2DVertices c).flatMap (entityRefs 0 0) = [] := List.flatMap_eq_nil_iff.2 fun _ _ => rfl
  have e1 : (topo.cell2DEdges c).flatMap (entityRefs 1 0) = [] := List.flatMap_eq_nil_iff.2 fun _ _ => rfl
  rw [e0, e1, List.nil_append, List.nil_append]

/-- The DOFs of the velocity of a cell. -/
theorem vel_list (hM : IsMixedMesh k mesh poly n len dir nrm) (hT : IsMixedTables k triangle edge ts ws) {c : Nat} (hc : c < mesh.num2D) :
    (fieldList (mccVelocityNum k) mesh.topo c).length = n c * (k + 1) + k * (k + 2) ∧
    (∀ e < n c, ∀ i < k + 1, (fieldList (mccVelocityNum k) mesh.topo c)[e * (k + 1) + i]? = some ⟨1, cellEdge mesh c e, i⟩) ∧
    ∀ j < k * (k + 2), (fieldList (mccVelocityNum k) mesh.topo c)[n c * (k + 1) + j]? = some ⟨2, c, j⟩ := by
  rw [vel_list_eq hT]
  have hl : ((mesh.topo.cell2DEdges c).flatMap (entityRefs 1 (k + 1))).length = n c * (k + 1) := by
    rw [List.length_flatMap, ← hM.plane.edges c hc]
    simp [entityRefs]
  refine ⟨by rw [List.length_append, hl, entityRefs, List.length_map, List.length_range], fun e he i hi => ?_, fun j hj => ?_⟩
  · have hlt : e * (k + 1) + i < n c * (k + 1) := by
      calc e * (k + 1) + i < e * (k + 1) + (k + 1) := by omega
        _ = (e + 1) * (k + 1) := by ring
        _ ≤ _ := Nat.mul_le_mul_right _ he
    rw [List.getElem?_append_left (by rw [hl]; exact hlt), flatMap_get _ _ (k + 1) e i _ (by simp [entityRefs]) (cell_edge_mem hM.plane hc he) hi, entityRefs, List.getElem?_map,
      List.getElem?_range hi]
    rfl
  · rw [List.getElem?_append_right (by rw [hl]; omega), hl, Nat.add_sub_cancel_left, entityRefs, List.getElem?_map, List.getElem?_range hj]
    rfl

/-- The DOFs of the pressure of a cell. -/
theorem pre_list (hT : IsMixedTables k triangle edge ts ws) (topo : Mesh) (c : Nat) :
    (fieldList (mccPressureNum k) topo c).length = (k + 1) * (k + 2) / 2 ∧
    ∀ j < (k + 1) * (k + 2) / 2, (fieldList (mccPressureNum k) topo c)[j]? = some ⟨2, c, j⟩ := by
  rw [pre_list_eq hT]
  refine ⟨by simp [entityRefs], fun j hj => ?_⟩
  rw [entityRefs, List.getElem?_map, List.getElem?_range hj]
  rfl

/-- The term of edge `e` of cell `c` tested with a function. -/
noncomputable def mixedWeak (k : Nat) (mesh : PlaneMesh ℝ) (dir : Nat → Nat → Bool) (ts ws : List ℝ) (info : MeshInfo) (data : DOFsData) (weak : Nat → ℝ × ℝ → ℝ) (c e : Nat)
    (φ : Nat → ℝ) : ℝ :=
  ((info.bInfo 1)[cellEdge mesh c e]?).elim 0 fun b => if b.type = .weak then
    -∑ j ∈ Finset.range (k + 1), weak b.marker (edgePoint mesh (cellEdge mesh c e) (ts.getD j 0)) * (meshLength mesh (cellEdge mesh c e) * ws.getD j 0 * sgn (dir c) e)
      * testValue data φ ⟨1, cellEdge mesh c e, j⟩ else 0

theorem mixedWeak_ok (hM : IsMixedMesh k mesh poly n len dir nrm) (hT : IsMixedTables k triangle edge ts ws) {info : MeshInfo} {data : DOFsData}
    (H : FHandler (mccVelocityNum k) mesh.topo info data) {c e : Nat} (hc : c < mesh.num2D) (he : e < n c) {s : MccSpace2D ℝ} {p : MccPressure2D ℝ}
    (hs : MSpaceOk k (n c) (cellPoint mesh c) (len c) (dir c) (nrm c) ts ws (poly c) s) (test : MixedTest ℝ) :
    ∃ log, mixedWeakEdge info data (mccCell2D (mccRef2D triangle edge k) (poly c) (s, p)) test (cellEdge mesh c e, e) = .ok log ∧
      (∀ x ∈ log, x.1 < data.counters.dofs) ∧ ∀ φ, tested φ log = mixedWeak k mesh dir ts ws info data test.weak c e φ := by
  have hE := hM.plane.element c hc
  have hE' := H.edges c hc _ (List.mem_of_getElem? (cell_edge_mem hM.plane hc he))
  obtain ⟨x, b, hx, hb, -, hl, ht⟩ := H.cell 1 (by norm_num) _ hE'
  rw [(vel_num hT).2.1] at hl
  unfold mixedWeakEdge mixedWeak
  dsimp only
  rw [(atIdx_ok_iff _ _ _).2 hb, except_ok_bind]
  simp only [hb, Option.elim_some]
  by_cases hw : b.type = .weak
  swap
  · rw [if_pos hw]
    exact ⟨[], rfl, by simp, fun φ => by simp [tested, hw]⟩
  rw [if_neg (not_not.2 hw)]
  simp only [if_pos hw]
  obtain ⟨m, hm, hml, hmi⟩ := mid_ok hs.rules.plen he
  obtain ⟨wt, hwt, hwl, hwi⟩ := mid_ok hs.rules.blen he
  obtain ⟨X, hX, hX1, hX2, hX3⟩ := mccValuesOnEdge_ok hE hT he
  have hq : (mccCell2D (mccRef2D triangle edge k) (poly c) (s, p)).edgeQuadrature e = .ok ⟨m, wt⟩ := by
    show mccEdgeQuadrature _ _ _ = _
    rw [mccEdgeQuadrature, mccRef_ok hT]
    dsimp only
    rw [hT.nodes, hm, except_ok_bind, hwt, except_ok_bind]
  have hv : (mccCell2D (mccRef2D triangle edge k) (poly c) (s, p)).valuesOnEdge e = .ok X := hX
  rw [hq, except_ok_bind, hv, except_ok_bind, DMat.mulDiag_ok _ _ (by show X.rows = _; rw [hX1, hwl]), except_ok_bind,
    DMat.mul_ok _ _ (by show X.rows = (evalScalar m _).length; rw [hX1, evalScalar, List.length_map, hml]), except_ok_bind, (atIdx_ok_iff _ _ _).2 hx, except_ok_bind]
  set Y : DMat ℝ := ⟨X.cols, 1, fun i j => ∑ q ∈ Finset.range X.rows, (-1 * X.ent q i) * wt.getD q 0 * (DMat.col (evalScalar m (test.weak b.marker))).ent q j⟩ with hY
  show ∃ log, weakAdds (DMat.toList Y) id 0 x.dofs = .ok log ∧ _
  obtain ⟨log, h1, h2, h3⟩ := weakAdds_ok (DMat.toList Y) id x.dofs 0 (by
    intro y hy
    obtain ⟨j, hj⟩ := List.mem_iff_getElem?.1 hy
    exact H.known ⟨1, _, j⟩ y (by rw [Handler.lookup_cell hx, hj])) (by
    intro i hi
    have : (DMat.toList Y).length = X.cols := by rw [DMat.toList, List.length_map, List.length_range]
    rw [id, zero_add, this, hX2]
    omega)
  refine ⟨log, h1, fun p hp => ?_, fun φ => ?_⟩
  · obtain ⟨y, hy, rfl⟩ := h2 p hp
    obtain ⟨j, hj⟩ := List.mem_iff_getElem?.1 hy
    exact H.free ⟨1, _, j⟩ p.1 (by rw [Handler.lookup_cell hx, hj])
  · rw [h3, hl, ← Finset.sum_neg_distrib]
    refine Finset.sum_congr rfl fun i hi => ?_
    have hi := Finset.mem_range.1 hi
    rw [testValue, Handler.lookup_cell hx, zero_add, id, ← neg_mul]
    congr 1
    have hYi : (DMat.toList Y).getD i 0 = Y.ent i 0 := by
      rw [DMat.toList, List.getD_eq_getElem?_getD, List.getElem?_map, List.getElem?_range (by show i < X.cols; omega)]
      rfl
    rw [hYi]
    show ∑ q ∈ Finset.range X.rows, (-1 * X.ent q i) * wt.getD q 0 * (evalScalar m (test.weak b.marker)).getD q 0 = _
    rw [hX1, ← edge_length hM hc he]
    have hXe : ∀ q < k + 1, X.ent q i = if q = i then sgn (dir c) e else 0 := by
      intro q hq
      have := hX3 (fun j => if j = i then 1 else 0) q hq
      rw [apply, hX2, Finset.sum_eq_single_of_mem i (Finset.mem_range.2 hi) fun j _ hj => by rw [if_neg hj, mul_zero], if_pos rfl, mul_one] at this
      rw [this]
      split_ifs <;> simp
    rw [Finset.sum_eq_single_of_mem i (Finset.mem_range.2 hi) fun q hq hqi => by rw [hXe q (Finset.mem_range.1 hq), if_neg hqi]; ring, hXe i hi, if_pos rfl]
    have hit : i < ts.length := by rw [hT.nodes]; exact hi
    have hiw : i < ws.length := by rw [← hT.edgeLength]; exact hit
    obtain ⟨g1, g2⟩ := hs.rules.at' e he i _ _ (List.getElem?_eq_getElem hit) (List.getElem?_eq_getElem hiw)
    rw [← hmi i hi, edge_point hM.plane hc he] at g1
    rw [← hwi i hi] at g2
    rw [evalScalar, List.getD_eq_getElem?_getD, List.getD_eq_getElem?_getD, List.getElem?_map, g1, g2, List.getD_eq_getElem?_getD, List.getD_eq_getElem?_getD,
      List.getElem?_eq_getElem hit, List.getElem?_eq_getElem hiw]
    simp only [Option.getD_some, Option.map_some]
    ring

/-- What is written for edge `e` of cell `c`: values of the datum at the nodes of the edge, with the sign of the direction. -/
theorem mixedStrong_ok (hM : IsMixedMesh k mesh poly n len dir nrm) (hT : IsMixedTables k triangle edge ts ws) {info : MeshInfo} {data : DOFsData}
    (H : FHandler (mccVelocityNum k) mesh.topo info data) {c e : Nat} (hc : c < mesh.num2D) (he : e < n c) {s : MccSpace2D ℝ} {p : MccPressure2D ℝ}
    (hs : MSpaceOk k (n c) (cellPoint mesh c) (len c) (dir c) (nrm c) ts ws (poly c) s) (test : MixedTest ℝ) :
    ∃ log, mixedStrongEdge info data (mccCell2D (mccRef2D triangle edge k) (poly c) (s, p)) test (cellEdge mesh c e, e) = .ok log ∧
      (∀ x ∈ log, ∃ j b, (info.bInfo 1)[cellEdge mesh c e]? = some b ∧ lookup data ⟨1, cellEdge mesh c e, j⟩ = some ⟨.strong, x.1⟩ ∧
        x.2 = sgn (dir c) e * test.strong b.marker (edgePoint mesh (cellEdge mesh c e) (ts.getD j 0))) ∧
      ∀ j i, lookup data ⟨1, cellEdge mesh c e, j⟩ = some ⟨.strong, i⟩ → ∃ y, (i, y) ∈ log := by
  have hE := hM.plane.element c hc
  have hE' := H.edges c hc _ (List.mem_of_getElem? (cell_edge_mem hM.plane hc he))
  obtain ⟨x, b, hx, hb, -, hl, ht⟩ := H.cell 1 (by norm_num) _ hE'
  rw [(vel_num hT).2.1] at hl
  unfold mixedStrongEdge
  dsimp only
  rw [(atIdx_ok_iff _ _ _).2 hb, except_ok_bind, (atIdx_ok_iff _ _ _).2 hx, except_ok_bind]
  split_ifs with hw
  · refine ⟨[], rfl, by simp, fun j i hji => ?_⟩
    rw [Handler.lookup_cell hx] at hji
    have h1 := ht _ (List.mem_of_getElem? hji)
    have h2 := typeFor_strong h1.symm
    rcases hw with hw | hw
    · exact absurd h2 hw
    · omega
  obtain ⟨m, hm, hml, hmi⟩ := mid_ok hs.rules.plen he
  have hq : (mccCell2D (mccRef2D triangle edge k) (poly c) (s, p)).edgeCoords e = .ok m := by
    show mccEdgeCoords _ _ _ = _
    rw [mccEdgeCoords, mccRef_ok hT]
    exact hm
  have hv : (mccCell2D (mccRef2D triangle edge k) (poly c) (s, p)).edgeDofs e (evalScalar m (test.strong b.marker))
      = .ok ((evalScalar m (test.strong b.marker)).map (sgn (dir c) e * ·)) := by
    show mccEdgeDofs _ _ _ = _
    rw [mccEdgeDofs, show unchecked (poly c).edges.dirs e = .ok (dir c e) from by rw [unchecked, hE.edges.dirs, List.getElem?_map, List.getElem?_range he]; rfl, except_ok_bind]
    rfl
  rw [hq, except_ok_bind, hv, except_ok_bind]
  obtain ⟨log, h1, h2, h3⟩ := strongWrites_ok ((evalScalar m (test.strong b.marker)).map (sgn (dir c) e * ·)) x.dofs 0 (by
    intro y hy
    obtain ⟨j, hj⟩ := List.mem_iff_getElem?.1 hy
    exact H.known ⟨1, _, j⟩ y (by rw [Handler.lookup_cell hx, hj])) (by simp [evalScalar, hml, hl])
  refine ⟨log, h1, fun p hp => ?_, fun j i hji => ?_⟩
  · obtain ⟨i, g1, g2⟩ := h2 p hp
    have hi : i < k + 1 := by rw [← hl]; exact (List.getElem?_eq_some_iff.1 g1).1
    refine ⟨i, b, hb, by rw [Handler.lookup_cell hx, g1], ?_⟩
    have hit : i < ts.length := by rw [hT.nodes]; exact hi
    have hiw : i < ws.length := by rw [← hT.edgeLength]; exact hit
    obtain ⟨g3, -⟩ := hs.rules.at' e he i _ _ (List.getElem?_eq_getElem hit) (List.getElem?_eq_getElem hiw)
    rw [← hmi i hi, edge_point hM.plane hc he] at g3
    rw [zero_add, List.getElem?_map, evalScalar, List.getElem?_map, g3] at g2
    rw [List.getD_eq_getElem?_getD, List.getElem?_eq_getElem hit]
    exact (Option.some.inj g2).symm
  · rw [Handler.lookup_cell hx] at hji
    exact h3 _ (List.mem_of_getElem? hji) rfl

/-- Writes to a vector: the last one counts. -/
theorem fold_writes (log : List (Nat × ℝ)) : ∀ v : List ℝ, (∀ p ∈ log, p.1 < v.length) →
    ∃ v', log.foldlM (fun v w => writeAt v w.1 w.2) v = .ok v' ∧ v'.length = v.length ∧
      ∀ i, ((∃ y, (i, y) ∈ log) → ∃ y, (i, y) ∈ log ∧ v'.getD i 0 = y) ∧ ((∀ y, (i, y) ∉ log) → v'.getD i 0 = v.getD i 0) := by
  induction log with
  | nil => exact fun v _ => ⟨v, rfl, rfl, fun i => ⟨by simp, fun _ => rfl⟩⟩
  | cons p log ih =>
    intro v h
    have hp := h p List.mem_cons_self
    obtain ⟨v', h1, h2, h3⟩ := ih (v.set p.1 p.2) fun q hq => by rw [List.length_set]; exact h q (List.mem_cons_of_mem _ hq)
    refine ⟨v', ?_, by rw [h2, List.length_set], fun i => ⟨fun ⟨y, hy⟩ => ?_, fun hn => ?_⟩⟩
    · rw [List.foldlM_cons, writeAt, if_pos hp, except_ok_bind, h1]
    · by_cases hin : ∃ y, (i, y) ∈ log
      · obtain ⟨z, hz, hz'⟩ := (h3 i).1 hin
        exact ⟨z, List.mem_cons_of_mem _ hz, hz'⟩
      · rcases List.mem_cons.1 hy with rfl | hy
        · refine ⟨y, List.mem_cons_self, ?_⟩
          rw [(h3 i).2 fun z hz => hin ⟨z, hz⟩, List.getD_eq_getElem?_getD, List.getElem?_set_self hp, Option.getD_some]
        · exact absurd ⟨y, hy⟩ hin
    · rw [(h3 i).2 fun z hz => hn z (List.mem_cons_of_mem _ hz), List.getD_eq_getElem?_getD, List.getElem?_set_ne, ← List.getD_eq_getElem?_getD]
      rintro rfl
      exact hn p.2 List.mem_cons_self

end

end PolyDiM
