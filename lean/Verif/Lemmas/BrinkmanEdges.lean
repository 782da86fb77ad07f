import Verif.Lemmas.BrinkmanCell
import Verif.Lemmas.FieldQuad
import Verif.Lemmas.MixedEdges
import Verif.Lemmas.PlaneWeak
import Verif.Lemmas.PlaneCells

/-!
# Lemmas: boundary terms of the Brinkman assembler and the mean value of the pressure
-/

namespace PolyDiM

open Spec

/-- The additions to the DOFs of one entity. -/
theorem FHandler.weak {num : Nat → Nat} {mesh : Mesh} {info : MeshInfo} {data : DOFsData} (H : FHandler num mesh info data) {d c : Nat} (hd : d ≤ 2)
    (hc : c < (mesh.markers d).length) : ∃ x, atIdx (data.dims d).cells c = .ok x ∧ ∀ (values : List ℝ) (pos : Nat → Nat), (∀ i < num d, pos i < values.length) →
      ∃ log, weakAdds values pos 0 x.dofs = .ok log ∧ (∀ p ∈ log, p.1 < data.counters.dofs) ∧
        ∀ φ : Nat → ℝ, tested φ log = ∑ i ∈ Finset.range (num d), values.getD (pos i) 0 * testValue data φ ⟨d, c, i⟩ := by
  obtain ⟨x, b, hx, -, -, hl, ht⟩ := H.cell d hd c hc
  refine ⟨x, (atIdx_ok_iff _ _ _).2 hx, fun values pos hpos => ?_⟩
  obtain ⟨log, h1, h2, h3⟩ := weakAdds_ok values pos x.dofs 0 (by
    intro y hy
    obtain ⟨j, hj⟩ := List.mem_iff_getElem?.1 hy
    exact H.known ⟨d, c, j⟩ y (by rw [Handler.lookup_cell hx, hj])) (by
    intro i hi
    rw [zero_add]
    exact hpos i (by omega))
  refine ⟨log, h1, fun p hp => ?_, fun φ => ?_⟩
  · obtain ⟨y, hy, rfl⟩ := h2 p hp
    obtain ⟨j, hj⟩ := List.mem_iff_getElem?.1 hy
    exact H.free ⟨d, c, j⟩ p.1 (by rw [Handler.lookup_cell hx, hj])
  · rw [h3, hl]
    refine Finset.sum_congr rfl fun i _ => ?_
    rw [testValue, Handler.lookup_cell hx, zero_add]
    rfl

theorem tested_shift (φ : Nat → ℝ) (off : Nat) (l : List (Nat × ℝ)) : tested φ (shiftWrites off l) = tested (fun i => φ (off + i)) l := by
  unfold tested shiftWrites
  rw [List.map_map]
  congr 1
  refine List.map_congr_left fun p _ => ?_
  simp [Nat.add_comm]

theorem mem_shift {off : Nat} {l : List (Nat × ℝ)} {x : Nat × ℝ} : x ∈ shiftWrites off l ↔ ∃ i, x.1 = i + off ∧ (i, x.2) ∈ l := by
  unfold shiftWrites
  rw [List.mem_map]
  constructor
  · rintro ⟨w, hw, rfl⟩
    exact ⟨w.1, rfl, hw⟩
  · rintro ⟨i, h, hi⟩
    exact ⟨_, hi, Prod.ext h.symm rfl⟩

section
variable {k K : Nat} {mesh : PlaneMesh ℝ} {poly : Nat → VemPolygon ℝ} {n : Nat → Nat} {len : Nat → Nat → ℝ} {dir : Nat → Nat → Bool} {nrm : Nat → Nat → ℝ × ℝ}
  {triangle : Nat → Rule (ℝ × ℝ) ℝ} {edge : Nat → Rule ℝ ℝ} {ts ws ss vs : List ℝ} {w v₀ : ℝ} {ref : DfRef2D ℝ} {red : Bool}

theorem ref_edge (hT : IsDfTables k triangle edge ts ws w ss vs v₀) (href : dfRef2D red triangle edge k = .ok ref) : ref.order = k ∧ ref.edge.1 = ts ∧ ref.reduced = red ∧
    ref.dofs1D = k - 1 ∧ ref.dofsDiv = tri (divDegree red k + 1) - 1 ∧ ref.dofsBig = tri (k - 2) := by
  obtain ⟨g, -, h⟩ := dfRef_ok red hT
  obtain rfl : ref = _ := Except.ok.inj (href.symm.trans h)
  exact ⟨rfl, rfl, rfl, rfl, rfl, rfl⟩

/-- The edge functions reproduce polynomials. -/
theorem df_functions (hT : IsDfTables k triangle edge ts ws w ss vs v₀) (points : List ℝ) :
    ∃ A, dfValuesOnEdge k ts points = .ok A ∧ A.rows = points.length ∧ A.cols = k + 1 ∧
      ∀ r : Polynomial ℝ, r.natDegree ≤ k → ∀ i t, points[i]? = some t → ∑ j ∈ Finset.range (k + 1), r.eval ((0 :: 1 :: ts).getD j 0) * A.ent i j = r.eval t := by
  have hk := hT.low
  have hd := hT.distinct
  have hl : (0 :: 1 :: ts).length = k + 1 := by
    rw [List.length_cons, List.length_cons, hT.nodes]
    omega
  choose ℓ hℓ _ hrep using fun x : ℝ => C30_reproduction (0 :: 1 :: ts) hd x
  have hx : dfEdgeNodes k ts = .ok (0 :: 1 :: ts) := if_pos (by rw [hT.nodes]; omega)
  have hrows : (points.mapM fun p => (List.range (0 :: 1 :: ts).length).mapM (lagValue (0 :: 1 :: ts) (lagCoefficients (0 :: 1 :: ts)) p))
      = .ok (points.map fun p => (List.range (0 :: 1 :: ts).length).map (ℓ p)) :=
    mapM_ok _ _ _ fun p _ => mapM_ok _ _ _ fun j hj => hℓ p j (List.mem_range.1 hj)
  refine ⟨⟨points.length, (0 :: 1 :: ts).length, fun i j => ((points.map fun p => (List.range (0 :: 1 :: ts).length).map (ℓ p)).getD i []).getD j 0⟩, ?_, rfl, hl, ?_⟩
  · unfold dfValuesOnEdge
    rw [hx, except_ok_bind, hrows, except_ok_bind]
  · intro r hr i t hi
    rw [← hl, ← hrep t r (by
      rw [hl]
      exact lt_of_le_of_lt Polynomial.degree_le_natDegree (by exact_mod_cast Nat.lt_succ_of_le hr))]
    refine Finset.sum_congr rfl fun j hj => ?_
    congr 1
    simp only [List.getD_eq_getElem?_getD, List.getElem?_map, hi, Option.map_some, Option.getD_some]
    rw [List.getElem?_range (Finset.mem_range.1 hj)]
    rfl

/-- The values of the boundary condition on one edge. -/
theorem dfWeakContributions_ok (hM : IsPlaneMesh K mesh poly n len dir nrm) (hT : IsDfTables k triangle edge ts ws w ss vs v₀)
    (href : dfRef2D red triangle edge k = .ok ref) {gauss : Rule ℝ ℝ} (hg : gauss.weights.length = gauss.points.length) (s : DfSpace2D ℝ) (p : DfPressure2D ℝ)
    (f : ℝ × ℝ → ℝ) {c e : Nat} (hc : c < mesh.num2D) (he : e < n c) :
    ∃ values, dfWeakContributions gauss (poly c).edges (dfCell2D ref (poly c) s p) f e = .ok values ∧ values.length = k + 1 ∧
      ∀ r : Polynomial ℝ, r.natDegree ≤ k → ∑ j ∈ Finset.range (k + 1), values.getD j 0 * r.eval ((0 :: 1 :: ts).getD j 0)
        = -(|len c e| * quadSum gauss.points gauss.weights fun t => f (edgePoint mesh (cellEdge mesh c e) t) * r.eval t) := by
  obtain ⟨A, hA, hAr, hAc, hrep⟩ := df_functions hT gauss.points
  have hE := (hM.element c hc).edges
  have hn : (e + 1) % n c < n c := Nat.mod_lt _ (by omega)
  unfold dfWeakContributions
  rw [hE.dirs, unchecked_map_range _ _ _ he, except_ok_bind, hE.vertices, List.length_map, List.length_range, hE.tangents, hE.lengths]
  rw [unchecked_map_range _ _ _ (show (if dir c e = true then e else (e + 1) % n c) < n c by split_ifs <;> omega), except_ok_bind, unchecked_map_range _ _ _ he, except_ok_bind]
  extract_lets direction points
  rw [unchecked_map_range _ _ _ he, except_ok_bind]
  have hpts : points = gauss.points.map (edgePoint mesh (cellEdge mesh c e)) := by
    refine List.map_congr_left fun t _ => ?_
    rw [← edge_point hM hc he]
    simp only [direction]
    unfold polyEdge segPoint
    split_ifs
    · ext <;> simp <;> ring
    · ext <;> simp <;> ring
  extract_lets weights
  have hvals : (dfCell2D ref (poly c) s p).valuesOnEdge gauss.points = .ok A := by
    obtain ⟨h1, h2, -⟩ := ref_edge hT href
    show dfValuesOnEdge ref.order ref.edge.1 _ = _
    rw [h1, h2, hA]
  rw [hvals, except_ok_bind, DMat.mulDiag_ok _ _ (by show A.rows = weights.length; simp only [weights, List.length_map]; rw [hAr, hg]), except_ok_bind,
    DMat.mul_ok _ _ (by show A.rows = (evalScalar points f).length; rw [hAr, hpts]; simp [evalScalar]), except_ok_bind]
  refine ⟨_, rfl, by simp [DMat.toList, DMat.tr, DMat.smul, hAc], fun r hr => ?_⟩
  rw [← sum_quadSum gauss.points gauss.weights hg (fun i => f (edgePoint mesh (cellEdge mesh c e) (gauss.points.getD i 0)) * ∑ j ∈ Finset.range (k + 1), r.eval ((0 :: 1 :: ts).getD j 0) * A.ent i j)
    _ (fun i t hi => by
      rw [hrep r hr i t hi, List.getD_eq_getElem?_getD, hi]
      rfl), Finset.mul_sum, ← Finset.sum_neg_distrib]
  have hent : ∀ j < k + 1, (DMat.toList (⟨(DMat.smul (-1) A.tr).rows, (DMat.col (evalScalar points f)).cols, fun i j =>
      ∑ l ∈ Finset.range (DMat.smul (-1) A.tr).cols, (DMat.smul (-1) A.tr).ent i l * weights.getD l 0 * (DMat.col (evalScalar points f)).ent l j⟩ : DMat ℝ)).getD j 0
      = ∑ i ∈ Finset.range gauss.points.length, (-1 * A.ent i j) * (gauss.weights.getD i 0 * |len c e|) * f (edgePoint mesh (cellEdge mesh c e) (gauss.points.getD i 0)) := by
    intro j hj
    rw [DMat.toList, List.getD_eq_getElem?_getD, List.getElem?_map, List.getElem?_range (by show j < A.cols; omega), Option.map_some, Option.getD_some]
    show ∑ l ∈ Finset.range A.rows, (-1 * A.ent l j) * weights.getD l 0 * (evalScalar points f).getD l 0 = _
    rw [hAr]
    refine Finset.sum_congr rfl fun i hi => ?_
    have hi' := Finset.mem_range.1 hi
    simp only [weights, hpts, evalScalar, List.getD_eq_getElem?_getD, List.getElem?_map, List.getElem?_eq_getElem hi',
      List.getElem?_eq_getElem (show i < gauss.weights.length by omega), Option.map_some, Option.getD_some]
  rw [Finset.sum_congr rfl fun j hj => by rw [hent j (Finset.mem_range.1 hj)]]
  simp only [Finset.sum_mul, Finset.mul_sum, ← Finset.sum_neg_distrib]
  rw [Finset.sum_comm]
  refine Finset.sum_congr rfl fun i _ => Finset.sum_congr rfl fun j _ => ?_
  ring

/-- One edge of the weak term of one component. -/
theorem dfWeakEdge_ok (hM : IsPlaneMesh K mesh poly n len dir nrm) (hT : IsDfTables k triangle edge ts ws w ss vs v₀)
    (href : dfRef2D red triangle edge k = .ok ref) {num : Nat → Nat} {info : MeshInfo} {data : DOFsData} (H : FHandler num mesh.topo info data)
    (n0 : num 0 = 1) (n1 : num 1 = k - 1) {gauss : Rule ℝ ℝ} (hg : gauss.weights.length = gauss.points.length)
    (s : DfSpace2D ℝ) (p : DfPressure2D ℝ) (test : DfTest ℝ) (off h : Nat) {c e : Nat} (hc : c < mesh.num2D) (he : e < n c) :
    ∃ log, dfWeakEdge info data off h gauss (poly c).edges (dfCell2D ref (poly c) s p) mesh test c e = .ok log ∧ (∀ p ∈ log, p.1 < off + data.counters.dofs) ∧
      ∀ x : (Nat → ℝ) × (Nat → Polynomial ℝ), IsTrace k mesh ts (testValue data fun i => x.1 (off + i)) x.2 →
        tested x.1 log = -weakValue info mesh len (quadSum gauss.points gauss.weights) (fun m p => test.weak m p h) x.2 c e := by
  have hk := hT.low
  have hE := H.edges c hc _ (List.mem_of_getElem? (cell_edge_mem hM hc he))
  obtain ⟨-, b, -, hb, -⟩ := H.cell 1 (by norm_num) _ hE
  unfold dfWeakEdge weakValue
  rw [(unchecked_ok_iff _ _ _).2 (cell_edge_mem hM hc he), except_ok_bind, (atIdx_ok_iff _ _ _).2 hb, except_ok_bind]
  simp only [hb, Option.elim_some]
  by_cases ht : b.type = .weak
  swap
  · rw [if_pos ht]
    exact ⟨[], rfl, by simp, fun x _ => by rw [if_neg ht]; simp [tested]⟩
  rw [if_neg (not_not.2 ht)]
  obtain ⟨values, hv, hvl, hvs⟩ := dfWeakContributions_ok hM hT href hg s p (fun p => test.weak b.marker p h) hc he
  obtain ⟨h1, h2⟩ := H.ends _ hE
  obtain ⟨x0, hx0, hw0⟩ := H.weak (d := 0) (by norm_num) h1
  obtain ⟨x1, hx1, hw1⟩ := H.weak (d := 0) (by norm_num) h2
  obtain ⟨x2, hx2, hw2⟩ := H.weak (d := 1) (by norm_num) hE
  obtain ⟨l0, hl0, hb0, hs0⟩ := hw0 values (fun _ => 0) (fun i _ => by omega)
  obtain ⟨l1, hl1, hb1, hs1⟩ := hw1 values (fun _ => 1) (fun i _ => by omega)
  obtain ⟨l2, hl2, hb2, hs2⟩ := hw2 values (· + 2) (fun i hi => by show i + 2 < _; omega)
  rw [hv, except_ok_bind, hx0, except_ok_bind, hl0, except_ok_bind, hx1, except_ok_bind, hl1, except_ok_bind, hx2, except_ok_bind, hl2, except_ok_bind]
  refine ⟨_, rfl, fun p hp => ?_, fun x hx => ?_⟩
  · obtain ⟨i, hi, hp⟩ := mem_shift.1 hp
    rw [List.mem_append, List.mem_append] at hp
    rcases hp with (hp | hp) | hp
    · have := hb0 _ hp; dsimp only at this; omega
    · have := hb1 _ hp; dsimp only at this; omega
    · have := hb2 _ hp; dsimp only at this; omega
  · obtain ⟨hu, hu0, hu1, hut⟩ := hx _ hE
    rw [if_pos ht, ← hvs _ hu, tested_shift, tested_append, tested_append, hs0, hs1, hs2, n0, n1, Finset.sum_range_one, Finset.sum_range_one, show k + 1 = k - 1 + 1 + 1 by omega,
      Finset.sum_range_succ' _ (k - 1 + 1), Finset.sum_range_succ' _ (k - 1)]
    simp only [List.getD_cons_zero, List.getD_cons_succ]
    rw [hu0, hu1]
    have : ∀ j ∈ Finset.range (k - 1), values.getD (j + 1 + 1) 0 * (x.2 (cellEdge mesh c e)).eval (ts.getD j 0)
        = values.getD (j + 2) 0 * testValue data (fun i => x.1 (off + i)) ⟨1, cellEdge mesh c e, j⟩ := by
      intro j hj
      have hj' : j < ts.length := by rw [hT.nodes]; exact Finset.mem_range.1 hj
      rw [List.getD_eq_getElem?_getD (l := ts), List.getElem?_eq_getElem hj', Option.getD_some, hut j _ (List.getElem?_eq_getElem hj')]
    rw [Finset.sum_congr rfl this]
    ring

/-- The point of the mesh a DOF of a component of the velocity belongs to. -/
noncomputable def dofPoint (mesh : PlaneMesh ℝ) (ts : List ℝ) (r : GDOF) : ℝ × ℝ := if r.dim = 0 then mesh.coords r.cell else edgePoint mesh r.cell (ts.getD r.dof 0)

/-- One vertex of the strong term of one component. -/
theorem dfStrongVertex_ok {num : Nat → Nat} {info : MeshInfo} {data : DOFsData} (H : FHandler num mesh.topo info data) (n0 : num 0 = 1) (test : DfTest ℝ) (off h : Nat)
    {v : Nat} (hv : v < mesh.num0D) :
    ∃ log, dfStrongVertex info data off h mesh test v = .ok log ∧
      (∀ x ∈ log, ∃ j b i, (info.bInfo 0)[v]? = some b ∧ lookup data ⟨0, v, j⟩ = some ⟨.strong, i⟩ ∧ x.1 = i + off ∧
        x.2 = test.strong b.marker (dofPoint mesh ts ⟨0, v, j⟩) h) ∧
      ∀ j i, lookup data ⟨0, v, j⟩ = some ⟨.strong, i⟩ → ∃ y, (i + off, y) ∈ log := by
  obtain ⟨x, b, hx, hb, -, hl, ht⟩ := H.cell 0 (by norm_num) v hv
  rw [n0] at hl
  unfold dfStrongVertex
  rw [(atIdx_ok_iff _ _ _).2 hb, except_ok_bind]
  by_cases hw : b.type = .strong
  swap
  · rw [if_pos hw]
    refine ⟨[], rfl, by simp, fun j i hji => ?_⟩
    rw [Handler.lookup_cell hx] at hji
    exact absurd (typeFor_strong (ht _ (List.mem_of_getElem? hji)).symm) hw
  rw [if_neg (not_not.2 hw), (atIdx_ok_iff _ _ _).2 hx, except_ok_bind]
  obtain ⟨log, h1, h2, h3⟩ := strongWrites_ok (evalScalar [mesh.coords v] fun p => test.strong b.marker p h) x.dofs 0 (by
    intro y hy
    obtain ⟨j, hj⟩ := List.mem_iff_getElem?.1 hy
    exact H.known ⟨0, _, j⟩ y (by rw [Handler.lookup_cell hx, hj])) (by simp [evalScalar, hl])
  rw [h1, except_ok_bind]
  refine ⟨_, rfl, fun p hp => ?_, fun j i hji => ?_⟩
  · obtain ⟨i, hi, hp⟩ := mem_shift.1 hp
    obtain ⟨j, g1, g2⟩ := h2 _ hp
    have hj : j < 1 := by rw [← hl]; exact (List.getElem?_eq_some_iff.1 g1).1
    refine ⟨j, b, i, hb, by rw [Handler.lookup_cell hx, g1], hi, ?_⟩
    obtain rfl : j = 0 := by omega
    exact (Option.some.inj g2).symm
  · rw [Handler.lookup_cell hx] at hji
    obtain ⟨y, hy⟩ := h3 _ (List.mem_of_getElem? hji) rfl
    exact ⟨y, mem_shift.2 ⟨i, rfl, hy⟩⟩

/-- One edge of the strong term of one component. -/
theorem dfStrongEdge_ok (hM : IsPlaneMesh K mesh poly n len dir nrm) (hT : IsDfTables k triangle edge ts ws w ss vs v₀)
    (href : dfRef2D red triangle edge k = .ok ref) {num : Nat → Nat} {info : MeshInfo} {data : DOFsData} (H : FHandler num mesh.topo info data)
    (n1 : num 1 = k - 1) (s : DfSpace2D ℝ) (p : DfPressure2D ℝ) (test : DfTest ℝ) (off h : Nat) {c e : Nat} (hc : c < mesh.num2D) (he : e < n c) :
    ∃ log, dfStrongEdge info data off h (dfCell2D ref (poly c) s p) test (cellEdge mesh c e, e) = .ok log ∧
      (∀ x ∈ log, ∃ j b i, (info.bInfo 1)[cellEdge mesh c e]? = some b ∧ lookup data ⟨1, cellEdge mesh c e, j⟩ = some ⟨.strong, i⟩ ∧ x.1 = i + off ∧
        x.2 = test.strong b.marker (dofPoint mesh ts ⟨1, cellEdge mesh c e, j⟩) h) ∧
      ∀ j i, lookup data ⟨1, cellEdge mesh c e, j⟩ = some ⟨.strong, i⟩ → ∃ y, (i + off, y) ∈ log := by
  have hE' := H.edges c hc _ (List.mem_of_getElem? (cell_edge_mem hM hc he))
  obtain ⟨x, b, hx, hb, -, hl, ht⟩ := H.cell 1 (by norm_num) _ hE'
  rw [n1] at hl
  unfold dfStrongEdge
  dsimp only
  rw [(atIdx_ok_iff _ _ _).2 hb, except_ok_bind, (atIdx_ok_iff _ _ _).2 hx, except_ok_bind]
  split_ifs with hw
  · refine ⟨[], rfl, by simp, fun j i hji => ?_⟩
    rw [Handler.lookup_cell hx] at hji
    have h1 := ht _ (List.mem_of_getElem? hji)
    have h2 := typeFor_strong h1.symm
    rcases hw with hw | hw
    · exact absurd h2 hw
    · have := (List.getElem?_eq_some_iff.1 hji).1
      omega
  have hq : (dfCell2D ref (poly c) s p).edgeCoords e = .ok (ts.map (edgePoint mesh (cellEdge mesh c e))) := by
    show vemEdgeCoords ref.edge.1 (poly c).edges e = _
    rw [(ref_edge hT href).2.1, vemEdgeCoords_ok (hM.element c hc) ts he]
    exact congrArg Except.ok (List.map_congr_left fun t _ => edge_point hM hc he t)
  rw [hq, except_ok_bind]
  obtain ⟨log, h1, h2, h3⟩ := strongWrites_ok (evalScalar (ts.map (edgePoint mesh (cellEdge mesh c e))) fun p => test.strong b.marker p h) x.dofs 0 (by
    intro y hy
    obtain ⟨j, hj⟩ := List.mem_iff_getElem?.1 hy
    exact H.known ⟨1, _, j⟩ y (by rw [Handler.lookup_cell hx, hj])) (by simp [evalScalar, hT.nodes, hl])
  rw [h1, except_ok_bind]
  refine ⟨_, rfl, fun p hp => ?_, fun j i hji => ?_⟩
  · obtain ⟨i, hi, hp⟩ := mem_shift.1 hp
    obtain ⟨j, g1, g2⟩ := h2 _ hp
    have hj : j < k - 1 := by rw [← hl]; exact (List.getElem?_eq_some_iff.1 g1).1
    have hit : j < ts.length := by rw [hT.nodes]; exact hj
    refine ⟨j, b, i, hb, by rw [Handler.lookup_cell hx, g1], hi, ?_⟩
    dsimp only at g2
    rw [zero_add, evalScalar, List.getElem?_map, List.getElem?_map, List.getElem?_eq_getElem hit] at g2
    rw [dofPoint, if_neg (by norm_num), List.getD_eq_getElem?_getD, List.getElem?_eq_getElem hit]
    exact (Option.some.inj g2).symm
  · rw [Handler.lookup_cell hx] at hji
    obtain ⟨y, hy⟩ := h3 _ (List.mem_of_getElem? hji) rfl
    exact ⟨y, mem_shift.2 ⟨i, rfl, hy⟩⟩

/-- The entries of the mean value, from position `k` on. -/
theorem lagrangeLoop_ok {num : Nat → Nat} {topo : Mesh} {info : MeshInfo} {data : DOFsData} (H : FHandler num topo info data) {off lambda : Nat} {mean : List ℝ}
    (hsmall : off + data.counters.dofs ≤ 2 ^ 32) (gs : List GDOF) : ∀ k, k + gs.length ≤ mean.length → (∀ r ∈ gs, ∃ i, lookup data r = some ⟨.dof, i⟩) →
    ∃ log, lagrangeLoop data.dims off lambda mean k gs = .ok log ∧
      (∀ t ∈ log, (t.1 = lambda ∨ t.1 < off + data.counters.dofs) ∧ (t.2.1 = lambda ∨ t.2.1 < off + data.counters.dofs)) ∧ ∀ (φ x : Nat → ℝ), (log.map fun t => φ t.1 * t.2.2 * x t.2.1).sum
      = (∑ j ∈ Finset.range gs.length, mean.getD (k + j) 0 * (gs[j]?).elim 0 (testValue data fun i => φ (off + i))) * x lambda
        + φ lambda * ∑ j ∈ Finset.range gs.length, mean.getD (k + j) 0 * (gs[j]?).elim 0 (testValue data fun i => x (off + i)) := by
  induction gs with
  | nil => exact fun k _ _ => ⟨[], rfl, by simp, fun φ x => by simp⟩
  | cons g gs ih =>
    intro k hk hg
    rw [List.length_cons] at hk
    obtain ⟨log, h1, hb, h2⟩ := ih (k + 1) (by omega) fun r hr => hg r (List.mem_cons_of_mem _ hr)
    obtain ⟨i, hi⟩ := hg g List.mem_cons_self
    have hin := H.free g i hi
    have hkm : k < mean.length := by omega
    have hu : unchecked mean k = .ok mean[k] := (unchecked_ok_iff _ _ _).2 (List.getElem?_eq_getElem hkm)
    have hlook := hi
    unfold lookup at hlook
    obtain ⟨x, hx, hd⟩ := Option.bind_eq_some_iff.1 hlook
    refine ⟨(i + off, lambda, mean[k]) :: (lambda, i + off, mean[k]) :: log, ?_, fun t ht => ?_, fun φ x => ?_⟩
    · unfold lagrangeLoop
      rw [(atIdx_ok_iff _ _ _).2 hx, except_ok_bind, (atIdx_ok_iff _ _ _).2 hd, except_ok_bind, hu, except_ok_bind, h1, except_ok_bind]
      dsimp only
      rw [show u32 (i + off) = i + off from Nat.mod_eq_of_lt (by omega)]
    · rcases List.mem_cons.1 ht with rfl | ht
      · exact ⟨Or.inr (by dsimp only; omega), Or.inl rfl⟩
      · rcases List.mem_cons.1 ht with rfl | ht
        · exact ⟨Or.inl rfl, Or.inr (by dsimp only; omega)⟩
        · exact hb t ht
    · rw [List.map_cons, List.map_cons, List.sum_cons, List.sum_cons, h2, List.length_cons, Finset.sum_range_succ' _ gs.length, Finset.sum_range_succ' _ gs.length]
      simp only [List.getElem?_cons_succ, List.getElem?_cons_zero, Option.elim_some, add_zero, Nat.add_right_comm k _ 1, ← Nat.add_assoc]
      have hm : mean.getD k 0 = mean[k] := by rw [List.getD_eq_getElem?_getD, List.getElem?_eq_getElem hkm, Option.getD_some]
      have ht : ∀ ψ : Nat → ℝ, testValue data ψ g = ψ i := fun ψ => by rw [testValue, hi]
      rw [hm, ht, ht, Nat.add_comm i off]
      ring

end

end PolyDiM
