import Verif.Lemmas.PlaneCells
import Verif.Props.Lagrange

/-!
# Lemmas: the term of the Neumann conditions
-/

namespace PolyDiM

open Spec MvPolynomial MeasureTheory

/-- The additions of a log tested with `φ`. -/
noncomputable def tested (φ : Nat → ℝ) (log : List (Nat × ℝ)) : ℝ := (log.map fun p => p.2 * φ p.1).sum

theorem tested_append (φ : Nat → ℝ) (l l' : List (Nat × ℝ)) : tested φ (l ++ l') = tested φ l + tested φ l' := by
  simp [tested]

theorem tested_ventry (φ : Nat → ℝ) (N : Nat) (log : List (Nat × ℝ)) (h : ∀ p ∈ log, p.1 < N) :
    ∑ i ∈ Finset.range N, ventry log i * φ i = tested φ log := by
  induction log with
  | nil => simp [ventry, tested]
  | cons p log ih =>
    have h1 := ih fun q hq => h q (List.mem_cons_of_mem _ hq)
    have h2 := h p List.mem_cons_self
    simp only [ventry, tested, List.map_cons, List.sum_cons, add_mul, Finset.sum_add_distrib] at h1 ⊢
    rw [h1, Finset.sum_eq_single_of_mem p.1 (Finset.mem_range.2 h2) (fun i _ hi => by rw [if_neg (Ne.symm hi), zero_mul]), if_pos rfl]

theorem tested_flatten {α τ : Type} (φ : τ → Nat → ℝ) (T : τ → Prop) (N : Nat) (l : List α) (f : α → Except Fault (List (Nat × ℝ))) (g : τ → α → ℝ)
    (h : ∀ a ∈ l, ∃ log, f a = .ok log ∧ (∀ p ∈ log, p.1 < N) ∧ ∀ x, T x → tested (φ x) log = g x a) :
    ∃ logs, l.mapM f = .ok logs ∧ (∀ p ∈ logs.flatten, p.1 < N) ∧ ∀ x, T x → tested (φ x) logs.flatten = (l.map (g x)).sum := by
  induction l with
  | nil => exact ⟨[], rfl, by simp, fun x _ => by simp [tested]⟩
  | cons a l ih =>
    obtain ⟨log, h1, h2, h3⟩ := h a List.mem_cons_self
    obtain ⟨logs, h4, h5, h6⟩ := ih fun a ha => h a (List.mem_cons_of_mem _ ha)
    refine ⟨log :: logs, ?_, ?_, fun x hx => ?_⟩
    · rw [List.mapM_cons, h1, except_ok_bind, h4, except_ok_bind]
      rfl
    · intro p hp
      rw [List.flatten_cons, List.mem_append] at hp
      exact hp.elim (h2 p) (h5 p)
    · rw [List.flatten_cons, tested_append, h3 x hx, h6 x hx, List.map_cons, List.sum_cons]

theorem weakAdds_ok (values : List ℝ) (pos : Nat → Nat) (xs : List DOF) : ∀ k, (∀ x ∈ xs, x.type ≠ .unknwon) → (∀ i < xs.length, pos (k + i) < values.length) →
    ∃ log, weakAdds values pos k xs = .ok log ∧ (∀ p ∈ log, ∃ x ∈ xs, x = ⟨.dof, p.1⟩) ∧
      ∀ φ : Nat → ℝ, tested φ log = ∑ i ∈ Finset.range xs.length, values.getD (pos (k + i)) 0 * (match xs[i]? with | some ⟨.dof, j⟩ => φ j | _ => 0) := by
  induction xs with
  | nil => exact fun k _ _ => ⟨[], rfl, by simp, fun φ => by simp [tested]⟩
  | cons x xs ih =>
    intro k ht hl
    obtain ⟨log, h1, h2, h3⟩ := ih (k + 1) (fun y hy => ht y (List.mem_cons_of_mem _ hy)) (fun i hi => by
      have := hl (i + 1) (by simpa using hi)
      rwa [show k + (i + 1) = k + 1 + i by omega] at this)
    have hk : pos k < values.length := hl 0 (by simp)
    have hu : unchecked values (pos k) = .ok values[pos k] := (unchecked_ok_iff _ _ _).2 (List.getElem?_eq_getElem hk)
    have hx := ht x List.mem_cons_self
    have hsum : ∀ φ : Nat → ℝ, ∑ i ∈ Finset.range (x :: xs).length, values.getD (pos (k + i)) 0 * (match (x :: xs)[i]? with | some ⟨.dof, j⟩ => φ j | _ => 0)
        = tested φ log + values.getD (pos k) 0 * (match some x with | some ⟨.dof, j⟩ => φ j | _ => 0) := by
      intro φ
      rw [h3, List.length_cons, Finset.sum_range_succ']
      congr 1
      refine Finset.sum_congr rfl fun i _ => ?_
      rw [show k + (i + 1) = k + 1 + i by omega, List.getElem?_cons_succ]
    obtain ⟨t, j⟩ := x
    cases t with
    | unknwon => exact absurd rfl hx
    | strong =>
      refine ⟨log, h1, fun p hp => ?_, fun φ => ?_⟩
      · obtain ⟨y, hy, h⟩ := h2 p hp
        exact ⟨y, List.mem_cons_of_mem _ hy, h⟩
      · rw [hsum]
        simp
    | dof =>
      refine ⟨(j, values[pos k]) :: log, ?_, fun p hp => ?_, fun φ => ?_⟩
      · show (do let y ← unchecked values (pos k); let rest ← weakAdds values pos (k + 1) xs; Except.ok ((j, y) :: rest)) = _
        rw [hu, except_ok_bind, h1, except_ok_bind]
      · rcases List.mem_cons.1 hp with rfl | hp
        · exact ⟨_, List.mem_cons_self, rfl⟩
        · obtain ⟨y, hy, h⟩ := h2 p hp
          exact ⟨y, List.mem_cons_of_mem _ hy, h⟩
      · rw [hsum, List.getD_eq_getElem?_getD, List.getElem?_eq_getElem hk, Option.getD_some]
        simp only [tested, List.map_cons, List.sum_cons]
        ring

/-- The additions to the DOFs of one entity. -/
theorem Handler.weak {k : Nat} {mesh : Mesh} {info : MeshInfo} {data : DOFsData} (H : Handler k mesh info data) {d c : Nat} (hd : d ≤ 2)
    (hc : c < (mesh.markers d).length) : ∃ x, atIdx (data.dims d).cells c = .ok x ∧ ∀ (values : List ℝ) (pos : Nat → Nat), (∀ i < numOf k d, pos i < values.length) →
      ∃ log, weakAdds values pos 0 x.dofs = .ok log ∧ (∀ p ∈ log, p.1 < data.counters.dofs) ∧
        ∀ φ : Nat → ℝ, tested φ log = ∑ i ∈ Finset.range (numOf k d), values.getD (pos i) 0 * testValue data φ ⟨d, c, i⟩ := by
  obtain ⟨x, b, hx, -, -, hl, ht⟩ := H.cell d hd c hc
  refine ⟨x, (atIdx_ok_iff _ _ _).2 hx, fun values pos hpos => ?_⟩
  obtain ⟨log, h1, h2, h3⟩ := weakAdds_ok values pos x.dofs 0 (by
    intro y hy
    obtain ⟨j, hj⟩ := List.mem_iff_getElem?.1 hy
    exact H.known ⟨d, c, j⟩ y (by rw [Handler.lookup_cell hx, hj])) (by
    intro i hi
    rw [zero_add]
    exact hpos i (by omega))
  refine ⟨log, h1, fun p hp => ?_, fun φ => ?_⟩
  · obtain ⟨y, hy, rfl⟩ := h2 p hp
    obtain ⟨j, hj⟩ := List.mem_iff_getElem?.1 hy
    exact H.free ⟨d, c, j⟩ p.1 (by rw [Handler.lookup_cell hx, hj])
  · rw [h3, hl]
    refine Finset.sum_congr rfl fun i _ => ?_
    rw [testValue, Handler.lookup_cell hx, zero_add]
    rfl

section
variable {k : Nat} {mesh : PlaneMesh ℝ} {poly : Nat → VemPolygon ℝ} {n : Nat → Nat} {len : Nat → Nat → ℝ} {dir : Nat → Nat → Bool} {nrm : Nat → Nat → ℝ × ℝ}
  {triangle : Nat → Rule (ℝ × ℝ) ℝ} {edge : Nat → Rule ℝ ℝ} {ts ws : List ℝ} {w : ℝ} {lu llt : Solver ℝ}
  {ref : VemRef2D ℝ} {boundary : Nat → Option BInfo} {info : MeshInfo} {data : DOFsData}

/-- The edge functions reproduce polynomials. -/
theorem edge_functions (hT : IsTables k triangle edge ts ws w) (hd : (0 :: 1 :: ts).Nodup) (hr : vemRef2D triangle edge k = .ok ref) (points : List ℝ) :
    ∃ A, vemValuesOnEdge ref points = .ok A ∧ A.rows = points.length ∧ A.cols = k + 1 ∧
      ∀ r : Polynomial ℝ, r.natDegree ≤ k → ∀ i t, points[i]? = some t → ∑ j ∈ Finset.range (k + 1), r.eval ((0 :: 1 :: ts).getD j 0) * A.ent i j = r.eval t := by
  have hk := hT.low
  have hl : (0 :: 1 :: ts).length = k + 1 := by
    rw [List.length_cons, List.length_cons, hT.nodes]
    omega
  choose ℓ hℓ _ hrep using fun x : ℝ => C30_reproduction (0 :: 1 :: ts) hd x
  obtain rfl : ref = _ := Except.ok.inj (hr.symm.trans (vemRef_ok hT))
  have hx : edgeNodes k ts = .ok (0 :: 1 :: ts) := if_pos (by rw [hT.nodes]; omega)
  have hrows : (points.mapM fun p => (List.range (0 :: 1 :: ts).length).mapM (lagValue (0 :: 1 :: ts) (lagCoefficients (0 :: 1 :: ts)) p))
      = .ok (points.map fun p => (List.range (0 :: 1 :: ts).length).map (ℓ p)) :=
    mapM_ok _ _ _ fun p _ => mapM_ok _ _ _ fun j hj => hℓ p j (List.mem_range.1 hj)
  refine ⟨⟨points.length, (0 :: 1 :: ts).length, fun i j => ((points.map fun p => (List.range (0 :: 1 :: ts).length).map (ℓ p)).getD i []).getD j 0⟩, ?_, rfl, hl, ?_⟩
  · unfold vemValuesOnEdge edgeBasisCoefficients
    rw [hx, except_ok_bind, except_ok_bind, except_ok_bind, hrows, except_ok_bind]
  · intro r hr i t hi
    rw [← hl, ← hrep t r (by
      rw [hl]
      exact lt_of_le_of_lt Polynomial.degree_le_natDegree (by exact_mod_cast Nat.lt_succ_of_le hr))]
    refine Finset.sum_congr rfl fun j hj => ?_
    congr 1
    simp only [List.getD_eq_getElem?_getD, List.getElem?_map, hi, Option.map_some, Option.getD_some]
    rw [List.getElem?_range (Finset.mem_range.1 hj)]
    rfl

/-- The values of the Neumann condition on one edge. -/
theorem weakContributions_ok (hM : IsPlaneMesh k mesh poly n len dir nrm) (hT : IsTables k triangle edge ts ws w) (hd : (0 :: 1 :: ts).Nodup)
    (hr : vemRef2D triangle edge k = .ok ref) {gauss : Rule ℝ ℝ} (hg : gauss.weights.length = gauss.points.length) (s : VemSpace2D ℝ) (f : ℝ × ℝ → ℝ)
    {c e : Nat} (hc : c < mesh.num2D) (he : e < n c) :
    ∃ values, weakContributions gauss (poly c).edges (vemCell2D ref (poly c) s) f e = .ok values ∧ values.length = k + 1 ∧
      ∀ r : Polynomial ℝ, r.natDegree ≤ k → ∑ j ∈ Finset.range (k + 1), values.getD j 0 * r.eval ((0 :: 1 :: ts).getD j 0)
        = |len c e| * quadSum gauss.points gauss.weights fun t => f (edgePoint mesh (cellEdge mesh c e) t) * r.eval t := by
  obtain ⟨A, hA, hAr, hAc, hrep⟩ := edge_functions hT hd hr gauss.points
  have hE := (hM.element c hc).edges
  have hn : (e + 1) % n c < n c := Nat.mod_lt _ (by omega)
  unfold weakContributions
  rw [hE.dirs, unchecked_map_range _ _ _ he, except_ok_bind, hE.vertices, List.length_map, List.length_range, hE.tangents, hE.lengths]
  rw [unchecked_map_range _ _ _ (show (if dir c e = true then e else (e + 1) % n c) < n c by split_ifs <;> omega), except_ok_bind, unchecked_map_range _ _ _ he, except_ok_bind]
  extract_lets direction points
  rw [unchecked_map_range _ _ _ he, except_ok_bind]
  have hpts : points = gauss.points.map (edgePoint mesh (cellEdge mesh c e)) := by
    refine List.map_congr_left fun t _ => ?_
    rw [← edge_point hM hc he]
    simp only [direction]
    unfold polyEdge segPoint
    split_ifs
    · ext <;> simp <;> ring
    · ext <;> simp <;> ring
  extract_lets weights
  have hvals : (vemCell2D ref (poly c) s).valuesOnEdge e gauss.points = .ok A := hA
  rw [hvals, except_ok_bind, DMat.mulDiag_ok _ _ (by show A.rows = weights.length; simp only [weights, List.length_map]; rw [hAr, hg]), except_ok_bind,
    DMat.mul_ok _ _ (by show A.rows = (evalScalar points f).length; rw [hAr, hpts]; simp [evalScalar]), except_ok_bind]
  refine ⟨_, rfl, by simp [DMat.toList, DMat.tr, hAc], fun r hr => ?_⟩
  rw [← sum_quadSum gauss.points gauss.weights hg (fun i => f (edgePoint mesh (cellEdge mesh c e) (gauss.points.getD i 0)) * ∑ j ∈ Finset.range (k + 1), r.eval ((0 :: 1 :: ts).getD j 0) * A.ent i j)
    _ (fun i t hi => by
      rw [hrep r hr i t hi, List.getD_eq_getElem?_getD, hi]
      rfl), Finset.mul_sum]
  have hent : ∀ j < k + 1, (DMat.toList (⟨A.tr.rows, (DMat.col (evalScalar points f)).cols, fun i j =>
      ∑ l ∈ Finset.range A.tr.cols, A.tr.ent i l * weights.getD l 0 * (DMat.col (evalScalar points f)).ent l j⟩ : DMat ℝ)).getD j 0
      = ∑ i ∈ Finset.range gauss.points.length, A.ent i j * (gauss.weights.getD i 0 * |len c e|) * f (edgePoint mesh (cellEdge mesh c e) (gauss.points.getD i 0)) := by
    intro j hj
    rw [DMat.toList, List.getD_eq_getElem?_getD, List.getElem?_map, List.getElem?_range (by show j < A.cols; omega), Option.map_some, Option.getD_some]
    show ∑ l ∈ Finset.range A.rows, A.ent l j * weights.getD l 0 * (evalScalar points f).getD l 0 = _
    rw [hAr]
    refine Finset.sum_congr rfl fun i hi => ?_
    have hi' := Finset.mem_range.1 hi
    simp only [weights, hpts, evalScalar, List.getD_eq_getElem?_getD, List.getElem?_map, List.getElem?_eq_getElem hi',
      List.getElem?_eq_getElem (show i < gauss.weights.length by omega), Option.map_some, Option.getD_some]
  rw [Finset.sum_congr rfl fun j hj => by rw [hent j (Finset.mem_range.1 hj)]]
  simp only [Finset.sum_mul, Finset.mul_sum]
  rw [Finset.sum_comm]
  refine Finset.sum_congr rfl fun i _ => Finset.sum_congr rfl fun j _ => ?_
  ring

theorem weakEdge_ok (hM : IsPlaneMesh k mesh poly n len dir nrm) (hT : IsTables k triangle edge ts ws w) (hd : (0 :: 1 :: ts).Nodup)
    (hr : vemRef2D triangle edge k = .ok ref) (H : Handler k mesh.topo info data) {gauss : Rule ℝ ℝ} (hg : gauss.weights.length = gauss.points.length)
    (s : VemSpace2D ℝ) (f : Nat → ℝ × ℝ → ℝ) {c e : Nat} (hc : c < mesh.num2D) (he : e < n c) :
    ∃ log, weakEdge info data gauss (poly c).edges (vemCell2D ref (poly c) s) mesh f c e = .ok log ∧ (∀ p ∈ log, p.1 < data.counters.dofs) ∧
      ∀ x : (Nat → ℝ) × (Nat → Polynomial ℝ), IsTrace k mesh ts (testValue data x.1) x.2 →
        tested x.1 log = weakValue info mesh len (quadSum gauss.points gauss.weights) f x.2 c e := by
  have hk := hT.low
  have hE := H.edges c hc _ (List.mem_of_getElem? (cell_edge_mem hM hc he))
  obtain ⟨-, b, -, hb, -⟩ := H.cell 1 (by norm_num) _ hE
  unfold weakEdge weakValue
  rw [(unchecked_ok_iff _ _ _).2 (cell_edge_mem hM hc he), except_ok_bind, (atIdx_ok_iff _ _ _).2 hb, except_ok_bind]
  simp only [hb, Option.elim_some]
  by_cases ht : b.type = .weak
  swap
  · rw [if_pos ht]
    exact ⟨[], rfl, by simp, fun x _ => by rw [if_neg ht]; rfl⟩
  rw [if_neg (not_not.2 ht)]
  obtain ⟨values, hv, hvl, hvs⟩ := weakContributions_ok hM hT hd hr hg s (f b.marker) hc he
  obtain ⟨h1, h2⟩ := H.ends _ hE
  have n0 : numOf k 0 = 1 := rfl
  have n1 : numOf k 1 = k - 1 := rfl
  obtain ⟨x0, hx0, hw0⟩ := H.weak (d := 0) (by norm_num) h1
  obtain ⟨x1, hx1, hw1⟩ := H.weak (d := 0) (by norm_num) h2
  obtain ⟨x2, hx2, hw2⟩ := H.weak (d := 1) (by norm_num) hE
  obtain ⟨l0, hl0, hb0, hs0⟩ := hw0 values (fun _ => 0) (fun i _ => by omega)
  obtain ⟨l1, hl1, hb1, hs1⟩ := hw1 values (fun _ => 1) (fun i _ => by omega)
  obtain ⟨l2, hl2, hb2, hs2⟩ := hw2 values (· + 2) (fun i hi => by show i + 2 < _; omega)
  rw [hv, except_ok_bind, hx0, except_ok_bind, hl0, except_ok_bind, hx1, except_ok_bind, hl1, except_ok_bind, hx2, except_ok_bind, hl2, except_ok_bind]
  refine ⟨_, rfl, fun p hp => ?_, fun x hx => ?_⟩
  · rw [List.mem_append, List.mem_append] at hp
    rcases hp with (hp | hp) | hp
    · exact hb0 p hp
    · exact hb1 p hp
    · exact hb2 p hp
  · obtain ⟨hu, hu0, hu1, hut⟩ := hx _ hE
    rw [if_pos ht, ← hvs _ hu, tested_append, tested_append, hs0, hs1, hs2, n0, n1, Finset.sum_range_one, Finset.sum_range_one, show k + 1 = k - 1 + 1 + 1 by omega,
      Finset.sum_range_succ' _ (k - 1 + 1), Finset.sum_range_succ' _ (k - 1)]
    simp only [List.getD_cons_zero, List.getD_cons_succ]
    rw [hu0, hu1]
    have : ∀ j ∈ Finset.range (k - 1), values.getD (j + 1 + 1) 0 * (x.2 (cellEdge mesh c e)).eval (ts.getD j 0) = values.getD (j + 2) 0 * testValue data x.1 ⟨1, cellEdge mesh c e, j⟩ := by
      intro j hj
      have hj' : j < ts.length := by rw [hT.nodes]; exact Finset.mem_range.1 hj
      rw [List.getD_eq_getElem?_getD (l := ts), List.getElem?_eq_getElem hj', Option.getD_some, hut j _ (List.getElem?_eq_getElem hj')]
    rw [Finset.sum_congr rfl this]
    ring

/-- The vector of `assemble_weak_term`. -/
theorem weak_ok (hM : IsPlaneMesh k mesh poly n len dir nrm) (hT : IsTables k triangle edge ts ws w) (hd : (0 :: 1 :: ts).Nodup)
    (hlu : SolvesRegular lu) (hllt : SolvesPosDef llt) (hr : vemRef2D triangle edge k = .ok ref) (H : Handler k mesh.topo info data) {gauss : Nat → Rule ℝ ℝ}
    (hg : (gauss (2 * k)).weights.length = (gauss (2 * k)).points.length) (f : Nat → ℝ × ℝ → ℝ) :
    ∃ W, weakTerm info data k gauss (fun c => (poly c).edges) (vemSpaces lu llt ref poly) mesh f = .ok W ∧ (∀ p ∈ W, p.1 < data.counters.dofs) ∧
      ∀ φ u, IsTrace k mesh ts (testValue data φ) u → tested φ W
        = (mesh.cells.map fun c => ∑ e ∈ Finset.range (n c), weakValue info mesh len (quadSum (gauss (2 * k)).points (gauss (2 * k)).weights) f u c e).sum := by
  have hk := hT.high
  have hu32 : u32 (2 * k) = 2 * k := by unfold u32; omega
  obtain ⟨logs, h1, h2, h3⟩ := tested_flatten (τ := (Nat → ℝ) × (Nat → Polynomial ℝ)) (fun x => x.1) (fun x => IsTrace k mesh ts (testValue data x.1) x.2)
    data.counters.dofs mesh.cells (fun c => do
      let space ← vemSpaces lu llt ref poly c
      let es ← (List.range (poly c).edges.vertices.length).mapM (weakEdge info data (gauss (u32 (2 * k))) (poly c).edges space mesh f c)
      .ok es.flatten)
    (fun x c => ∑ e ∈ Finset.range (n c), weakValue info mesh len (quadSum (gauss (2 * k)).points (gauss (2 * k)).weights) f x.2 c e) (by
      intro c hc
      have hc' := (mem_cells.1 hc).1
      obtain ⟨s, -, hsp, -⟩ := space_ok hM hT hlu hllt hr hc'
      rw [hu32]
      obtain ⟨es, h1, h2, h3⟩ := tested_flatten (τ := (Nat → ℝ) × (Nat → Polynomial ℝ)) (fun x => x.1) (fun x => IsTrace k mesh ts (testValue data x.1) x.2)
        data.counters.dofs (List.range (n c)) (weakEdge info data (gauss (2 * k)) (poly c).edges (vemCell2D ref (poly c) s) mesh f c)
        (fun x e => weakValue info mesh len (quadSum (gauss (2 * k)).points (gauss (2 * k)).weights) f x.2 c e)
        (fun e he => weakEdge_ok hM hT hd hr H hg s f hc' (List.mem_range.1 he))
      refine ⟨es.flatten, ?_, h2, fun x hx => ?_⟩
      · rw [hsp, except_ok_bind, (hM.element c hc').edges.vertices, List.length_map, List.length_range, h1, except_ok_bind]
      · rw [h3 x hx]
        rfl)
  refine ⟨logs.flatten, ?_, h2, fun φ u hx => h3 (φ, u) hx⟩
  unfold weakTerm
  rw [h1, except_ok_bind]

end

end PolyDiM
