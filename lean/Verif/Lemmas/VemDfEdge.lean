import Verif.Lemmas.VemDfInit

/-!
# Lemmas: the interpolation on the edges in the divergence-free virtual element
-/

namespace PolyDiM

open Spec MvPolynomial MeasureTheory

variable {k m n : Nat} {V : Nat → ℝ × ℝ} {len : Nat → ℝ} {dir : Nat → Bool} {nrm : Nat → ℝ × ℝ} {poly : VemPolygon ℝ}
  {triangle : Nat → Rule (ℝ × ℝ) ℝ} {edge : Nat → Rule ℝ ℝ} {ts ws ss vs : List ℝ} {w v₀ : ℝ}

/-- A polygon has two vertices at least. -/
theorem two_vertices (hE : IsElement poly n V len dir nrm) : 2 ≤ n := by
  by_contra hn
  have hz : ∀ e < n, V ((e + 1) % n) = V e := by
    intro e he
    rw [show n = 1 by omega, show e = 0 by omega]
  have hb := hE.tris.boundary (fun P Q => P.1 * Q.2 - Q.1 * P.2) (fun P Q => by ring)
  obtain ⟨v, hv, hp⟩ := hE.tris.pos
  have := sum_pos_of poly.tris (fun v => shoelace v.1 v.2.1 v.2.2) hE.tris.ccw hv hp
  have e : (poly.tris.map fun v : Tri2 ℝ => v.1.1 * v.2.1.2 - v.2.1.1 * v.1.2 + (v.2.1.1 * v.2.2.2 - v.2.2.1 * v.2.1.2) + (v.2.2.1 * v.1.2 - v.1.1 * v.2.2.2))
      = poly.tris.map fun v => shoelace v.1 v.2.1 v.2.2 := List.map_congr_left fun v _ => by
    unfold shoelace
    ring
  rw [e, Finset.sum_eq_zero] at hb
  · linarith
  · intro e he
    rw [hz e (Finset.mem_range.1 he)]
    ring

/-- The trace of a function in the direction in which the mesh stores the edge. -/
theorem edge_trace {u : ℝ × ℝ → ℝ} (hu : EdgePolynomial k n V u) {e : Nat} (he : e < n) (d : Bool) :
    ∃ r : Polynomial ℝ, r.natDegree ≤ k ∧ ∀ t, 0 ≤ t → t ≤ 1 → u (segPoint (polyEdge n V d e).1 (polyEdge n V d e).2 t) = r.eval t := by
  obtain ⟨r, hr, hru⟩ := hu e he
  unfold polyEdge
  split_ifs
  · exact ⟨r, hr, hru⟩
  · refine ⟨r.comp (1 - Polynomial.X), ?_, fun t h0 h1 => ?_⟩
    · refine Polynomial.natDegree_comp_le.trans ?_
      have : (1 - Polynomial.X : Polynomial ℝ).natDegree ≤ 1 := by
        refine (Polynomial.natDegree_sub_le _ _).trans ?_
        simp
      calc _ ≤ k * 1 := Nat.mul_le_mul hr this
        _ = k := mul_one k
    · have hrev : segPoint (V ((e + 1) % n)) (V e) t = segPoint (V e) (V ((e + 1) % n)) (1 - t) := by
        simp only [segPoint, Prod.mk.injEq]
        constructor <;> ring
      rw [hrev, hru (1 - t) (by linarith) (by linarith)]
      simp

/-- A rule on the edges integrates a polynomial times a function of the space. -/
theorem edge_exact' {D : Nat} (hex : ExactOnSegment D (0 :: ts ++ [1]) (w :: ws ++ [w])) (hts : ∀ t ∈ ts, 0 ≤ t ∧ t ≤ 1) {u : ℝ × ℝ → ℝ}
    (hu : EdgePolynomial k n V u) {z : MvPolynomial (Fin 2) ℝ} (hz : z.totalDegree + k ≤ D) {e : Nat} (he : e < n) (d : Bool) :
    quadSum (0 :: ts ++ [1]) (w :: ws ++ [w]) (fun t => ev2 z (segPoint (polyEdge n V d e).1 (polyEdge n V d e).2 t) *
      u (segPoint (polyEdge n V d e).1 (polyEdge n V d e).2 t)) = segInt (fun p => ev2 z p * u p) (V e) (V ((e + 1) % n)) := by
  obtain ⟨z', hz', hpull⟩ := poly1_pullback (polyEdge n V d e).1 (polyEdge n V d e).2 z
  have hpull' : ∀ t, ev2 z (segPoint (polyEdge n V d e).1 (polyEdge n V d e).2 t) = z'.eval t := fun t => (hpull t).symm
  obtain ⟨r', hr', hru'⟩ := edge_trace hu he d
  have hprod : ∀ t, 0 ≤ t → t ≤ 1 → ev2 z (segPoint (polyEdge n V d e).1 (polyEdge n V d e).2 t) *
      u (segPoint (polyEdge n V d e).1 (polyEdge n V d e).2 t) = (z' * r').eval t := by
    intro t h0 h1
    rw [hpull', hru' t h0 h1, Polynomial.eval_mul]
  rw [quadSum_congr _ _ (g := fun t => (z' * r').eval t) (by
    intro t ht
    rw [List.mem_append, List.mem_cons, List.mem_singleton] at ht
    rcases ht with (rfl | ht) | rfl
    · exact hprod 0 le_rfl zero_le_one
    · exact hprod t (hts t ht).1 (hts t ht).2
    · exact hprod 1 zero_le_one le_rfl), hex _ (by
    refine Polynomial.natDegree_mul_le.trans ?_
    omega)]
  have hsym : segInt (fun p => ev2 z p * u p) (V e) (V ((e + 1) % n)) = segInt (fun p => ev2 z p * u p) (polyEdge n V d e).1 (polyEdge n V d e).2 := by
    unfold polyEdge
    split_ifs
    · rfl
    · exact segInt_symm _ _ _
  rw [hsym, segInt]
  refine intervalIntegral.integral_congr fun t ht => ?_
  rw [Set.uIcc_of_le zero_le_one] at ht
  exact (hprod t ht.1 ht.2).symm

/-- The values of the edge functions. -/
theorem dfValuesOnEdge_ok (hts : ts.length + 1 = k) (coords : List ℝ) : ∃ F, dfValuesOnEdge k ts coords = .ok F ∧ F.rows = coords.length ∧ F.cols = k + 1 ∧
    ∀ i x, coords[i]? = some x → ∀ j < k + 1, F.ent i j = (Lagrange.basis (Finset.range (k + 1)) (fun j => (0 :: 1 :: ts).getD j 0) j).eval x := by
  unfold dfValuesOnEdge dfEdgeNodes
  rw [if_pos (by omega), except_ok_bind]
  have hl : (0 :: 1 :: ts : List ℝ).length = k + 1 := by simp; omega
  rw [mapM_ok _ (fun x => (List.range (k + 1)).map fun j => (Lagrange.basis (Finset.range (k + 1)) (fun j => (0 :: 1 :: ts).getD j 0) j).eval x) _ (by
    intro x _
    rw [hl]
    refine mapM_ok _ _ _ fun j hj => ?_
    have := lagValue_ok (0 :: 1 :: ts) x (i := j) (by rw [hl]; exact List.mem_range.1 hj)
    rw [hl] at this
    exact this), except_ok_bind]
  refine ⟨_, rfl, rfl, hl, ?_⟩
  intro i x hx j hj
  simp only [List.getD_eq_getElem?_getD, List.getElem?_map, hx, Option.map_some, Option.getD_some, List.getElem?_range hj]

/-- A row of the projection that belongs to an edge. -/
def edgeRow (n k : Nat) (d : Bool) (e : Nat) (F : Nat → ℝ) (b : Nat) : ℝ :=
  if n + e * (k - 1) ≤ b ∧ b < n + e * (k - 1) + (k - 1) then F (2 + (b - (n + e * (k - 1))))
  else if b = (if d then (e + 1) % n else e) then F 1 else if b = (if d then e else (e + 1) % n) then F 0 else 0

theorem edgeProj_ok (hk : 1 ≤ k) (hE : IsElement poly n V len dir nrm) (hts : ts.length + 1 = k) (hss : ss.length = k) :
    ∃ M F, dfEdgeProjections poly.edges.dirs n k ((k - 1) * n) ts ss = .ok M ∧ dfValuesOnEdge k ts ss = .ok F ∧ M.rows = n + k * n ∧ M.cols = n + n * (k - 1) ∧
      (∀ r < n, ∀ b, M.ent r b = if b = r then 1 else 0) ∧
      ∀ e < n, ∀ i < k, ∀ b, M.ent (n + e * k + i) b = edgeRow n k (dir e) e (F.ent i) b := by
  have hn := two_vertices hE
  obtain ⟨F, hF, hFr, hFc, _⟩ := dfValuesOnEdge_ok hts ss
  rw [hss] at hFr
  have hk' : (k - 1) * n = n * (k - 1) := mul_comm _ _
  unfold dfEdgeProjections
  rw [DMat.assign_ok _ _ _ _ _ _ (by rfl) (by rfl) (by simp [DMat.zero]) (by simp [DMat.zero]), except_ok_bind, hF, except_ok_bind]
  have key : ∀ N ≤ n, ∃ M, (List.range N).foldlM (dfEdgeStep poly.edges.dirs n k F) (⟨(DMat.zero (n + k * n) (n + (k - 1) * n) : DMat ℝ).rows,
      (DMat.zero (n + k * n) (n + (k - 1) * n) : DMat ℝ).cols, fun i j => if 0 ≤ i ∧ i < 0 + n ∧ 0 ≤ j ∧ j < 0 + n then (DMat.identity n : DMat ℝ).ent (i - 0) (j - 0)
        else (DMat.zero (n + k * n) (n + (k - 1) * n) : DMat ℝ).ent i j⟩, n) = .ok (M, n + N * k) ∧ M.rows = n + k * n ∧ M.cols = n + n * (k - 1) ∧
      (∀ r < n, ∀ b, M.ent r b = if b = r then 1 else 0) ∧
      (∀ e < N, ∀ i < k, ∀ b, M.ent (n + e * k + i) b = edgeRow n k (dir e) e (F.ent i) b) ∧ ∀ r, n + N * k ≤ r → ∀ b, M.ent r b = 0 := by
    intro N
    induction N with
    | zero =>
      intro _
      refine ⟨_, by rw [List.range_zero, List.foldlM_nil, Nat.zero_mul]; rfl, rfl, by show n + (k - 1) * n = _; rw [hk'], ?_, fun e he => absurd he (by omega), ?_⟩
      · intro r hr b
        dsimp only [DMat.identity, DMat.zero]
        by_cases hb : b < n
        · rw [if_pos (by omega)]
          by_cases hbr : b = r
          · rw [if_pos hbr, if_pos (by omega)]
          · rw [if_neg hbr, if_neg (by omega)]
        · rw [if_neg (by omega), if_neg (by omega)]
      · intro r hr b
        dsimp only [DMat.zero]
        rw [if_neg (by omega)]
    | succ N ih =>
      intro hN
      obtain ⟨M, hM, hr, hc, h1, h2, h3⟩ := ih (by omega)
      have hNk : n + N * k + k ≤ n + k * n := by
        have : (N + 1) * k ≤ n * k := Nat.mul_le_mul_right k (by omega)
        nlinarith
      have hNk' : n + N * (k - 1) + (k - 1) ≤ n + n * (k - 1) := by
        have : (N + 1) * (k - 1) ≤ n * (k - 1) := Nat.mul_le_mul_right _ (by omega)
        nlinarith
      have hlt : (N + 1) % n < n := Nat.mod_lt _ (by omega)
      rw [List.range_succ, List.foldlM_append, hM, except_ok_bind, List.foldlM_cons]
      have hstep : ∃ M', dfEdgeStep poly.edges.dirs n k F (M, n + N * k) N = .ok (M', n + N * k + k) ∧ M'.rows = M.rows ∧ M'.cols = M.cols ∧
          ∀ r b, M'.ent r b = if n + N * k ≤ r ∧ r < n + N * k + k then edgeRow n k (dir N) N (F.ent (r - (n + N * k))) b else M.ent r b := by
        unfold dfEdgeStep
        rw [(unchecked_ok_iff _ _ _).2 (show poly.edges.dirs[N]? = some (dir N) by rw [hE.edges.dirs, List.getElem?_map, List.getElem?_range (by omega), Option.map_some]), except_ok_bind]
        dsimp only
        rw [hFr]
        have ho : (if dir N then N else (N + 1) % n) < n := by split_ifs <;> omega
        have ht : (if dir N then (N + 1) % n else N) < n := by split_ifs <;> omega
        generalize hO : (if dir N then N else (N + 1) % n) = o at *
        generalize hT : (if dir N then (N + 1) % n else N) = t at *
        rw [DMat.block_ok _ _ _ _ _ (by omega) (by omega), except_ok_bind, DMat.assign_ok _ _ _ _ _ _ (by rfl) (by rfl) (by omega) (by omega), except_ok_bind,
          DMat.block_ok _ _ _ _ _ (by omega) (by omega), except_ok_bind, DMat.assign_ok _ _ _ _ _ _ (by rfl) (by rfl) (by dsimp only; omega) (by dsimp only; omega), except_ok_bind,
          DMat.block_ok _ _ _ _ _ (by omega) (by omega), except_ok_bind, DMat.assign_ok _ _ _ _ _ _ (by rfl) (by rfl) (by dsimp only; omega) (by dsimp only; omega), except_ok_bind]
        refine ⟨_, rfl, rfl, rfl, ?_⟩
        intro r b
        dsimp only
        rw [hFc]
        unfold edgeRow
        rw [hO, hT]
        by_cases hrr : n + N * k ≤ r ∧ r < n + N * k + k
        · rw [if_pos hrr]
          by_cases hb : n + N * (k - 1) ≤ b ∧ b < n + N * (k - 1) + (k - 1)
          · rw [if_pos ⟨hrr.1, hrr.2, hb⟩, if_pos hb]
            congr 1 <;> omega
          · rw [if_neg (fun h => hb h.2.2), if_neg hb]
            by_cases hbt : b = t
            · rw [if_pos ⟨hrr.1, hrr.2, by omega, by omega⟩, if_pos hbt]
              congr 1 <;> omega
            · rw [if_neg (by omega), if_neg hbt]
              by_cases hbo : b = o
              · rw [if_pos ⟨hrr.1, hrr.2, by omega, by omega⟩, if_pos hbo]
                congr 1 <;> omega
              · rw [if_neg (by omega), if_neg hbo]
                exact h3 r hrr.1 b
        · rw [if_neg hrr, if_neg (fun h => hrr ⟨h.1, h.2.1⟩), if_neg (fun h => hrr ⟨h.1, h.2.1⟩), if_neg (fun h => hrr ⟨h.1, h.2.1⟩)]
      obtain ⟨M', hM', hr', hc', he'⟩ := hstep
      refine ⟨M', by rw [hM', except_ok_bind, List.foldlM_nil, show n + (N + 1) * k = n + N * k + k by ring]; rfl, hr'.trans hr, hc'.trans hc, ?_, ?_, ?_⟩
      · intro r hr b
        rw [he', if_neg (by omega)]
        exact h1 r hr b
      · intro e he i hi b
        rw [he']
        by_cases heN : e = N
        · rw [heN, if_pos (by omega), show n + N * k + i - (n + N * k) = i by omega]
        · have hlt : e * k + i < N * k := by
            have : (e + 1) * k ≤ N * k := Nat.mul_le_mul_right k (by omega)
            nlinarith
          rw [if_neg (by omega)]
          exact h2 e (by omega) i hi b
      · intro r hr b
        have e1 : (N + 1) * k = N * k + k := by ring
        rw [he', if_neg (by omega)]
        exact h3 r (by omega) b
  obtain ⟨M, hM, hr, hc, h1, h2, _⟩ := key n le_rfl
  rw [hM, except_ok_bind]
  exact ⟨M, F, rfl, rfl, hr, hc, h1, h2⟩

/-- A row of the projection gives the value of the interpolating polynomial. -/
theorem edgeRow_sum (hn : 2 ≤ n) {e : Nat} (he : e < n) (d : Bool) (F X : Nat → ℝ) :
    ∑ b ∈ Finset.range (n + n * (k - 1)), edgeRow n k d e F b * X b
      = F 0 * X (if d then e else (e + 1) % n) + F 1 * X (if d then (e + 1) % n else e) + ∑ j ∈ Finset.range (k - 1), F (2 + j) * X (n + e * (k - 1) + j) := by
  have hmod : (e + 1) % n < n := Nat.mod_lt _ (by omega)
  have hne : (e + 1) % n ≠ e := by
    rcases Nat.lt_or_ge (e + 1) n with h | h
    · rw [Nat.mod_eq_of_lt h]
      omega
    · rw [show e + 1 = n by omega, Nat.mod_self]
      omega
  have hle : e * (k - 1) + (k - 1) ≤ n * (k - 1) := by
    have : (e + 1) * (k - 1) ≤ n * (k - 1) := Nat.mul_le_mul_right _ (by omega)
    nlinarith
  rw [sum_split]
  congr 1
  · have ho : (if d then e else (e + 1) % n) < n := by split_ifs <;> omega
    have ht : (if d then (e + 1) % n else e) < n := by split_ifs <;> omega
    have hot : (if d then e else (e + 1) % n) ≠ (if d then (e + 1) % n else e) := by cases d <;> simp [hne, Ne.symm hne]
    unfold edgeRow
    generalize (if d then e else (e + 1) % n) = o at *
    generalize (if d then (e + 1) % n else e) = t at *
    have : ∀ b ∈ Finset.range n, (if n + e * (k - 1) ≤ b ∧ b < n + e * (k - 1) + (k - 1) then F (2 + (b - (n + e * (k - 1))))
        else if b = t then F 1 else if b = o then F 0 else 0) * X b = (if b = o then F 0 * X o else 0) + (if b = t then F 1 * X t else 0) := by
      intro b hb
      have hb := Finset.mem_range.1 hb
      rw [if_neg (by omega)]
      by_cases h1 : b = t
      · rw [if_pos h1, if_neg (by omega), if_pos h1, h1, zero_add]
      · by_cases h2 : b = o
        · rw [if_neg h1, if_pos h2, if_pos h2, if_neg h1, h2, add_zero]
        · rw [if_neg h1, if_neg h2, if_neg h2, if_neg h1, zero_mul, add_zero]
    rw [Finset.sum_congr rfl this, Finset.sum_add_distrib, Finset.sum_ite_eq' , Finset.sum_ite_eq', if_pos (Finset.mem_range.2 ho), if_pos (Finset.mem_range.2 ht)]
  · have ho : (if d then e else (e + 1) % n) < n := by split_ifs <;> omega
    have ht : (if d then (e + 1) % n else e) < n := by split_ifs <;> omega
    obtain ⟨q, hq⟩ : ∃ q, n * (k - 1) = e * (k - 1) + ((k - 1) + q) := ⟨n * (k - 1) - (e * (k - 1) + (k - 1)), by omega⟩
    rw [hq, sum_split, sum_split, Finset.sum_eq_zero, zero_add, Finset.sum_eq_zero (s := Finset.range q), add_zero]
    · refine Finset.sum_congr rfl fun j hj => ?_
      have hj := Finset.mem_range.1 hj
      unfold edgeRow
      rw [if_pos (by omega), show n + (e * (k - 1) + j) - (n + e * (k - 1)) = j by omega, ← Nat.add_assoc]
    · intro j hj
      unfold edgeRow
      rw [if_neg (by omega), if_neg (by omega), if_neg (by omega), zero_mul]
    · intro j hj
      have hj := Finset.mem_range.1 hj
      unfold edgeRow
      rw [if_neg (by omega), if_neg (by omega), if_neg (by omega), zero_mul]

/-- The projection takes the values at the DOF points of a function that is polynomial on the edges to its values at the quadrature points. -/
structure EdgeProjOk (k n : Nat) (V : Nat → ℝ × ℝ) (dofPoints bndPoints : List (ℝ × ℝ)) (M : DMat ℝ) : Prop where
  rows : M.rows = bndPoints.length
  cols : M.cols = dofPoints.length
  interp : ∀ f : ℝ × ℝ → ℝ, EdgePolynomial k n V f → ∀ X : Nat → ℝ, (∀ (b : Nat) (p : ℝ × ℝ), dofPoints[b]? = some p → X b = f p) →
    ∀ (r : Nat) (p : ℝ × ℝ), bndPoints[r]? = some p → ∑ b ∈ Finset.range dofPoints.length, M.ent r b * X b = f p

/-- The points on the edges. -/
noncomputable def dfPoints (n : Nat) (V : Nat → ℝ × ℝ) (dir : Nat → Bool) (ts : List ℝ) : List (ℝ × ℝ) :=
  (List.range n).map V ++ (List.range n).flatMap fun e => ts.map fun t => segPoint (polyEdge n V (dir e) e).1 (polyEdge n V (dir e) e).2 t

theorem dfPoints_length (n : Nat) (V : Nat → ℝ × ℝ) (dir : Nat → Bool) (ts : List ℝ) : (dfPoints n V dir ts).length = n + n * ts.length := by
  rw [dfPoints, List.length_append, List.length_map, List.length_range, flatMap_const_length _ _ ts.length (by simp), List.length_range]

theorem dfPoints_vertex (n : Nat) (V : Nat → ℝ × ℝ) (dir : Nat → Bool) (ts : List ℝ) {e : Nat} (he : e < n) : (dfPoints n V dir ts)[e]? = some (V e) := by
  rw [dfPoints, List.getElem?_append_left (by simpa using he), List.getElem?_map, List.getElem?_range he, Option.map_some]

theorem dfPoints_node (n : Nat) (V : Nat → ℝ × ℝ) (dir : Nat → Bool) (ts : List ℝ) {e : Nat} (he : e < n) {i : Nat} {t : ℝ} (ht : ts[i]? = some t) :
    (dfPoints n V dir ts)[n + e * ts.length + i]? = some (segPoint (polyEdge n V (dir e) e).1 (polyEdge n V (dir e) e).2 t) := by
  have hi := (List.getElem?_eq_some_iff.1 ht).1
  rw [dfPoints, List.getElem?_append_right (by simp; omega), List.length_map, List.length_range, show n + e * ts.length + i - n = e * ts.length + i by omega,
    flatMap_get _ _ ts.length _ _ e (by simp) (by rw [List.getElem?_range he]) hi, List.getElem?_map, ht, Option.map_some]

/-- Every point is a vertex or a node of an edge. -/
theorem dfPoints_cases (n : Nat) (V : Nat → ℝ × ℝ) (dir : Nat → Bool) (ts : List ℝ) {r : Nat} {p : ℝ × ℝ} (hr : (dfPoints n V dir ts)[r]? = some p) :
    (r < n ∧ p = V r) ∨ ∃ e < n, ∃ i t, ts[i]? = some t ∧ r = n + e * ts.length + i ∧ p = segPoint (polyEdge n V (dir e) e).1 (polyEdge n V (dir e) e).2 t := by
  have hlt := (List.getElem?_eq_some_iff.1 hr).1
  rw [dfPoints_length] at hlt
  by_cases hrn : r < n
  · rw [dfPoints_vertex n V dir ts hrn, Option.some_inj] at hr
    exact .inl ⟨hrn, hr.symm⟩
  · have hk0 : 0 < ts.length := Nat.pos_of_ne_zero fun h0 => by rw [h0, Nat.mul_zero] at hlt; omega
    have he : (r - n) / ts.length < n := Nat.div_lt_of_lt_mul (by rw [mul_comm]; omega)
    have hi : (r - n) % ts.length < ts.length := Nat.mod_lt _ hk0
    have hsplit : (r - n) / ts.length * ts.length + (r - n) % ts.length = r - n := Nat.div_add_mod' _ _
    have hrr : r = n + (r - n) / ts.length * ts.length + (r - n) % ts.length := by omega
    obtain ⟨t, ht⟩ : ∃ t, ts[(r - n) % ts.length]? = some t := ⟨_, List.getElem?_eq_getElem hi⟩
    refine .inr ⟨_, he, _, t, ht, hrr, ?_⟩
    rw [hrr, dfPoints_node n V dir ts he ht, Option.some_inj] at hr
    exact hr.symm

theorem edgeProj_interp (hk : 1 ≤ k) (hE : IsElement poly n V len dir nrm) (hts : ts.length + 1 = k) (hss : ss.length = k) (hd : (0 :: 1 :: ts).Nodup)
    (hin : ∀ t ∈ ts, 0 ≤ t ∧ t ≤ 1) (hsin : ∀ t ∈ ss, 0 ≤ t ∧ t ≤ 1) :
    ∃ M, dfEdgeProjections poly.edges.dirs n k ((k - 1) * n) ts ss = .ok M ∧ EdgeProjOk k n V (dfPoints n V dir ts) (dfPoints n V dir ss) M := by
  obtain ⟨M, F, hM, hF, hr, hc, h1, h2⟩ := edgeProj_ok hk hE hts hss
  obtain ⟨F', hF', _, _, hFe⟩ := dfValuesOnEdge_ok hts ss
  rw [hF, Except.ok.injEq] at hF'
  subst hF'
  have hn := two_vertices hE
  have htl : ts.length = k - 1 := by omega
  have hL : (dfPoints n V dir ts).length = n + n * (k - 1) := by rw [dfPoints_length, htl]
  refine ⟨M, hM, by rw [hr, dfPoints_length, hss, mul_comm], by rw [hc, hL], ?_⟩
  intro f hf X hX r p hp
  rw [hL]
  rcases dfPoints_cases n V dir ss hp with ⟨hrn, rfl⟩ | ⟨e, he, i, t, ht, rfl, rfl⟩
  · rw [Finset.sum_eq_single r]
    · rw [h1 r hrn, if_pos rfl, one_mul]
      exact hX r _ (dfPoints_vertex n V dir ts hrn)
    · intro b _ hb
      rw [h1 r hrn, if_neg hb, zero_mul]
    · intro hnot
      exact absurd (Finset.mem_range.2 (by omega)) hnot
  · obtain ⟨q, hq, hqf⟩ := edge_trace hf he (dir e)
    have htm := hsin t (List.mem_of_getElem? ht)
    have hi : i < k := hss ▸ (List.getElem?_eq_some_iff.1 ht).1
    rw [hss]
    simp only [h2 e he i hi]
    rw [edgeRow_sum hn he, hqf t htm.1 htm.2]
    have hmod : (e + 1) % n < n := Nat.mod_lt _ (by omega)
    have e0 : X (if dir e then e else (e + 1) % n) = q.eval 0 := by
      rw [← hqf 0 le_rfl zero_le_one]
      refine (hX _ _ (dfPoints_vertex n V dir ts (by split_ifs <;> omega))).trans (congrArg f ?_)
      unfold polyEdge segPoint
      split_ifs <;> simp
    have e1 : X (if dir e then (e + 1) % n else e) = q.eval 1 := by
      rw [← hqf 1 zero_le_one le_rfl]
      refine (hX _ _ (dfPoints_vertex n V dir ts (by split_ifs <;> omega))).trans (congrArg f ?_)
      unfold polyEdge segPoint
      split_ifs <;> simp
    have e2 : ∀ j < k - 1, X (n + e * (k - 1) + j) = q.eval (ts.getD j 0) := by
      intro j hj
      obtain ⟨x, hx⟩ : ∃ x, ts[j]? = some x := ⟨_, List.getElem?_eq_getElem (by omega)⟩
      have hxm := hin x (List.mem_of_getElem? hx)
      have := hX _ _ (dfPoints_node n V dir ts he hx)
      rw [htl, hqf x hxm.1 hxm.2] at this
      rw [this, List.getD_eq_getElem?_getD, hx, Option.getD_some]
    have hl : (0 :: 1 :: ts : List ℝ).length = k + 1 := by simp; omega
    have hint := Lagrange.eq_interpolate (s := Finset.range (k + 1)) (v := fun j => (0 :: 1 :: ts : List ℝ).getD j 0) (by rw [← hl]; exact nodes_injOn hd)
      (f := q) (by
        rw [Finset.card_range]
        refine lt_of_le_of_lt Polynomial.degree_le_natDegree ?_
        exact_mod_cast (by omega : q.natDegree < k + 1))
    conv_rhs => rw [hint]
    rw [Lagrange.interpolate_apply, Polynomial.eval_finsetSum, show k + 1 = 2 + (k - 1) by omega, sum_split, Finset.sum_range_succ, Finset.sum_range_one, e0, e1,
      ← show k + 1 = 2 + (k - 1) by omega]
    simp only [Polynomial.eval_mul, Polynomial.eval_C, List.getD_cons_zero, List.getD_cons_succ]
    rw [hFe i t ht 0 (by omega), hFe i t ht 1 (by omega), mul_comm (q.eval 0), mul_comm (q.eval 1)]
    congr 1
    refine Finset.sum_congr rfl fun j hj => ?_
    have hj := Finset.mem_range.1 hj
    rw [hFe i t ht _ (by omega), e2 j hj, mul_comm, show 2 + j = j + 1 + 1 by omega, List.getD_cons_succ, List.getD_cons_succ]

end PolyDiM
