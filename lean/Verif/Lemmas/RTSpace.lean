import Verif.Lemmas.RTMap

/-!
# Lemmas: the local space of the Raviart-Thomas element
-/

namespace PolyDiM

open Spec MvPolynomial MeasureTheory

section
variable {k : Nat} {triangle : Nat → Rule (ℝ × ℝ) ℝ} {gauss : Nat → Rule ℝ ℝ} {ts ws : List ℝ} {ref : RtRef ℝ} {l : List ((Bool × Bool × Bool) × RtBasis ℝ)}

theorem rtNum_val (k : Nat) : rtNum k = (k + 1) * (k + 3) := by
  have h := two_tri (k + 1)
  rw [rtNum, h]
  ring

theorem dirOf_eta (dir : Nat → Bool) {e : Nat} (he : e < 3) : dirOf (dir 0, dir 1, dir 2) e = dir e := by
  rcases (show e = 0 ∨ e = 1 ∨ e = 2 by omega) with rfl | rfl | rfl <;> simp [dirOf]

theorem isRTDofs_dirs {dir dir' : Nat → Bool} (h : ∀ e < 3, dir e = dir' e) {v : ℝ × ℝ → ℝ × ℝ} {c : Nat → ℝ} (hv : IsRTDofs k dir v c) : IsRTDofs k dir' v c :=
  ⟨fun e he i hi => by rw [← h e he]; exact hv.edge e he i hi, hv.inner1, hv.inner2⟩

theorem rtFun_congr {x y : Nat → ℝ} (h : ∀ j < rtNum k, x j = y j) : rtFun k x = rtFun k y := by
  have : rtField k x = rtField k y := by
    unfold rtField
    refine congrArg₂ Prod.mk (Finset.sum_congr rfl fun j hj => ?_) (Finset.sum_congr rfl fun j hj => ?_) <;> rw [h j (Finset.mem_range.1 hj)]
  unfold rtFun
  rw [this]

/-- Every field has degrees of freedom. -/
theorem exists_rtDofs (dir : Nat → Bool) (v : ℝ × ℝ → ℝ × ℝ) : ∃ c, IsRTDofs k dir v c := by
  refine ⟨fun i => if i < 3 * (k + 1) then fluxMoment v (rtEdgeEnds dir (i / (k + 1))).1 (rtEdgeEnds dir (i / (k + 1))).2 (i % (k + 1))
    else if i < 3 * (k + 1) + tri k then ∫ p in refTri, ev2 (rtPoly k (i - 3 * (k + 1))) p * (v p).1
    else ∫ p in refTri, ev2 (rtPoly k (i - (3 * (k + 1) + tri k))) p * (v p).2, (isRTDofs_iff dir v _).2 ⟨?_, ?_, ?_⟩⟩
  · intro e he i hi
    have h1 : (e * (k + 1) + i) / (k + 1) = e := by
      rw [mul_comm, Nat.mul_add_div (by omega), Nat.div_eq_of_lt hi, add_zero]
    have h2 : (e * (k + 1) + i) % (k + 1) = i := by
      rw [mul_comm, Nat.mul_add_mod, Nat.mod_eq_of_lt hi]
    have h3 : e * (k + 1) + i < 3 * (k + 1) := by
      rcases (show e = 0 ∨ e = 1 ∨ e = 2 by omega) with rfl | rfl | rfl <;> omega
    rw [if_pos h3, h1, h2]
  · intro i hi
    rw [if_neg (by omega), if_pos (by omega), Nat.add_sub_cancel_left]
  · intro i hi
    rw [if_neg (by omega), if_neg (by omega), Nat.add_sub_cancel_left]

theorem rtDivPoly_congr {x y : Nat → ℝ} (h : ∀ j < rtNum k, x j = y j) : rtDivPoly k x = rtDivPoly k y := by
  have : rtField k x = rtField k y := by
    unfold rtField
    refine congrArg₂ Prod.mk (Finset.sum_congr rfl fun j hj => ?_) (Finset.sum_congr rfl fun j hj => ?_) <;> rw [h j (Finset.mem_range.1 hj)]
  unfold rtDivPoly
  rw [this]

theorem rtDivPoly_sum (N : Nat) (A : Nat → Nat → ℝ) (c : Nat → ℝ) :
    rtDivPoly k (fun l => ∑ j ∈ Finset.range N, A l j * c j) = ∑ j ∈ Finset.range N, C (c j) * rtDivPoly k (fun l => A l j) := by
  have hp : ∀ (i : Fin 2) (x : Nat → ℝ) (P : Nat → MvPolynomial (Fin 2) ℝ), pderiv i (∑ l ∈ Finset.range (rtNum k), C (x l) * P l)
      = ∑ l ∈ Finset.range (rtNum k), C (x l) * pderiv i (P l) := by
    intro i x P
    rw [map_sum]
    refine Finset.sum_congr rfl fun l _ => ?_
    rw [Derivation.leibniz, pderiv_C, smul_zero, add_zero, smul_eq_mul]
  have hs : ∀ P : Nat → MvPolynomial (Fin 2) ℝ, ∑ l ∈ Finset.range (rtNum k), C (∑ j ∈ Finset.range N, A l j * c j) * P l
      = ∑ j ∈ Finset.range N, C (c j) * ∑ l ∈ Finset.range (rtNum k), C (A l j) * P l := by
    intro P
    simp only [map_sum, map_mul, Finset.sum_mul, Finset.mul_sum]
    rw [Finset.sum_comm]
    exact Finset.sum_congr rfl fun j _ => Finset.sum_congr rfl fun l _ => by ring
  simp only [rtDivPoly, rtField, hp]
  rw [hs, hs, ← Finset.sum_add_distrib]
  exact Finset.sum_congr rfl fun j _ => by rw [mul_add]

theorem rtDivPoly_degree (x : Nat → ℝ) : (rtDivPoly k x).totalDegree ≤ k := by
  obtain ⟨a, b, h, ha, hb, hh, e, -⟩ := rtField_rt (k := k) x
  rw [rtDivPoly, e]
  dsimp only
  rw [rt_div hh]
  have h1 := totalDegree_pderiv 0 a
  have h2 := totalDegree_pderiv 1 b
  refine (totalDegree_add _ _).trans (max_le ((totalDegree_add _ _).trans (max_le ?_ ?_)) ?_)
  · omega
  · omega
  · refine (totalDegree_mul _ _).trans ?_
    rw [totalDegree_C, zero_add]
    exact hh.totalDegree_le

/-- Every polynomial of degree at most `k` is the divergence of a field of the space. -/
theorem rtDivPoly_onto (q : MvPolynomial (Fin 2) ℝ) (hq : q.totalDegree ≤ k) : ∃ x, rtDivPoly k x = q := by
  have h2 : ∑ i ∈ Finset.range (k + 1), homogeneousComponent i q = q := by
    refine Eq.trans (Finset.sum_subset (Finset.range_mono (by omega)) ?_).symm (sum_homogeneousComponent q)
    intro i _ hi
    exact homogeneousComponent_eq_zero i q (by simpa using hi)
  have hne : ∀ i : Nat, ((i : ℝ) + 2) ≠ 0 := fun i => by positivity
  have hH : ∀ i : Nat, (C (1 / ((i : ℝ) + 2)) * homogeneousComponent i q).IsHomogeneous i := fun i => by
    simpa using (isHomogeneous_C (Fin 2) (1 / ((i : ℝ) + 2))).mul (homogeneousComponent_isHomogeneous i q)
  have hd : ∀ i : Nat, pderiv 0 (X 0 * (C (1 / ((i : ℝ) + 2)) * homogeneousComponent i q)) + pderiv 1 (X 1 * (C (1 / ((i : ℝ) + 2)) * homogeneousComponent i q))
      = homogeneousComponent i q := by
    intro i
    have := rt_div (a := 0) (b := 0) (hH i)
    rw [zero_add, zero_add, map_zero, map_zero, zero_add, zero_add, ← mul_assoc (C _) (C _), ← C_mul, mul_one_div, div_self (hne i), C_1, one_mul] at this
    exact this
  have hX : ∀ t : Fin 2, (∑ i ∈ Finset.range k, X t * (C (1 / ((i : ℝ) + 2)) * homogeneousComponent i q)).totalDegree ≤ k := by
    intro t
    refine (totalDegree_finsetSum _ _).trans (Finset.sup_le fun i hi => ?_)
    rw [Finset.mem_range] at hi
    refine (totalDegree_mul _ _).trans ?_
    rw [totalDegree_X]
    have := (hH i).totalDegree_le
    omega
  obtain ⟨x, hx⟩ := rtField_span (hX 0) (hX 1) (hH k)
  refine ⟨x, ?_⟩
  rw [rtDivPoly, hx]
  dsimp only
  rw [map_add, map_add, map_sum, map_sum]
  have : ∀ a b c d : MvPolynomial (Fin 2) ℝ, a + b + (c + d) = a + c + (b + d) := fun a b c d => by ring
  rw [this, ← Finset.sum_add_distrib, Finset.sum_congr rfl fun i _ => hd i, hd k, ← Finset.sum_range_succ, h2]

/-- The divergence theorem for a field of the space. -/
theorem rtDivPoly_integral (dir : Nat → Bool) (x : Nat → ℝ) : ∫ p in refTri, ev2 (rtDivPoly k x) p
    = ∑ e ∈ Finset.range 3, dirSign (dir e) * fluxMoment (rtFun k x) (rtEdgeEnds dir e).1 (rtEdgeEnds dir e).2 0 := by
  have h := gauss_ref (rtField k x).1 (rtField k x).2
  have e1 : ∀ p, ev2 (rtDivPoly k x) p = ev2 (pderiv 0 (rtField k x).1) p + ev2 (pderiv 1 (rtField k x).2) p := fun p => by
    simp only [rtDivPoly, ev2, map_add]
  simp only [e1]
  rw [h]
  refine Finset.sum_congr rfl fun e he => ?_
  have key : ∀ p, dot2 (ev2 (rtField k x).1 p, ev2 (rtField k x).2 p) (clockwise (rtVertex ((e + 1) % 3) - rtVertex e))
      = dirSign (dir e) * dot2 (rtFun k x p) (clockwise ((rtEdgeEnds dir e).2 - (rtEdgeEnds dir e).1)) := fun p => rtNormal_sign dir e _
  unfold segInt fluxMoment
  simp only [key, pow_zero, mul_one]
  rw [intervalIntegral.integral_const_mul]
  congr 1
  unfold rtEdgeEnds polyEdge
  cases dir e
  · simp only [Bool.false_eq_true, if_false]
    have := intervalIntegral.integral_comp_sub_left (fun t => dot2 (rtFun k x (segPoint (rtVertex ((e + 1) % 3)) (rtVertex e) t)) (clockwise (rtVertex e - rtVertex ((e + 1) % 3))))
      (a := 0) (b := 1) 1
    rw [sub_self, sub_zero] at this
    rw [← this]
    congr 1
    funext t
    rw [segPoint_swap]
  · simp only [if_true]

/-- What is known of the whole reference element. -/
structure RtOk (k : Nat) (triangle : Nat → Rule (ℝ × ℝ) ℝ) (ts ws : List ℝ) (ref : RtRef ℝ) (l : List ((Bool × Bool × Bool) × RtBasis ℝ)) : Prop where
  data : RtRefOk k (triangle (2 * (k + 1))) ts ws ref
  basis : ∀ d, ∃ b, rtAt l d = .ok b ∧ RtBasisOk k d (triangle (2 * (k + 1))) ts ws b ∧
    rtVelocity ref b.coefficients (triangle (2 * (k + 1))).points = .ok b.values ∧ rtDivergence ref b.coefficients (triangle (2 * (k + 1))).points = .ok b.divergence

/-- What is known of the local space. -/
structure RtSpaceOk (k : Nat) (V : Nat → ℝ × ℝ) (dir : Nat → Bool) (len : Nat → ℝ) (tr : Rule (ℝ × ℝ) ℝ) (ts ws : List ℝ) (s : RtSpace ℝ) : Prop where
  map : s.map = (V 0, V 1, V 2)
  order : s.order = k
  numVelocity : s.numVelocity = rtNum k
  numPressure : s.numPressure = tri (k + 1)
  dirs : s.dirs = (dir 0, dir 1, dir 2)
  internal : s.internal = ⟨tr.points.map (tri2F (V 0, V 1, V 2)), tr.weights.map (· * |tri2Det (V 0, V 1, V 2)|)⟩
  boundary : s.boundary = (List.range 3).map fun e => ⟨ts.map fun t => segPoint (polyEdge 3 V (dir e) e).1 (polyEdge 3 V (dir e) e).2 t, ws.map (· * |len e|)⟩

theorem tri2F_vertex (V : Nat → ℝ × ℝ) {e : Nat} (he : e < 3) : tri2F (V 0, V 1, V 2) (rtVertex e) = V e := by
  rcases (show e = 0 ∨ e = 1 ∨ e = 2 by omega) with rfl | rfl | rfl <;> simp [tri2F, rtVertex]

theorem tri2F_ends (V : Nat → ℝ × ℝ) (dir : Nat → Bool) {e : Nat} (he : e < 3) :
    tri2F (V 0, V 1, V 2) (rtEdgeEnds dir e).1 = (polyEdge 3 V (dir e) e).1 ∧ tri2F (V 0, V 1, V 2) (rtEdgeEnds dir e).2 = (polyEdge 3 V (dir e) e).2 := by
  unfold rtEdgeEnds polyEdge
  cases dir e
  · simp only [Bool.false_eq_true, if_false]
    exact ⟨tri2F_vertex V (Nat.mod_lt _ (by omega)), tri2F_vertex V he⟩
  · simp only [if_true]
    exact ⟨tri2F_vertex V he, tri2F_vertex V (Nat.mod_lt _ (by omega))⟩

theorem rtSpace_ok (hT : IsRTTables k triangle gauss ts ws) (hO : RtOk k triangle ts ws ref l) (V : Nat → ℝ × ℝ) (dir : Nat → Bool) (len : Nat → ℝ) :
    ∃ s, rtSpace ref l [V 0, V 1, V 2] [dir 0, dir 1, dir 2] [len 0, len 1, len 2] = .ok s ∧ RtSpaceOk k V dir len (triangle (2 * (k + 1))) ts ws s := by
  obtain ⟨b, hb, hb1, -⟩ := hO.basis (dir 0, dir 1, dir 2)
  have hB : rtBoundaryQuad ref b (V 0, V 1, V 2) [len 0, len 1, len 2] 3
      = .ok ((List.range 3).map fun e => ⟨ts.map fun t => segPoint (polyEdge 3 V (dir e) e).1 (polyEdge 3 V (dir e) e).2 t, ws.map (· * |len e|)⟩) := by
    unfold rtBoundaryQuad
    refine mapM_ok _ _ _ fun e he => ?_
    rw [List.mem_range] at he
    have hu : unchecked [len 0, len 1, len 2] e = .ok (len e) := by
      rcases (show e = 0 ∨ e = 1 ∨ e = 2 by omega) with rfl | rfl | rfl <;> rfl
    have hle : e * (k + 1) + (k + 1) ≤ b.boundary.points.length := by
      rw [hb1.quad.plen]
      rcases (show e = 0 ∨ e = 1 ∨ e = 2 by omega) with rfl | rfl | rfl <;> omega
    have hs : segmentOf b.boundary.points (e * (k + 1)) (k + 1) = .ok (ts.map fun t => segPoint (rtEdgeEnds dir e).1 (rtEdgeEnds dir e).2 t) := by
      unfold segmentOf
      rw [if_pos hle]
      congr 1
      refine List.ext_getElem? fun t => ?_
      simp only [List.getElem?_map, List.getElem?_take, List.getElem?_drop]
      by_cases ht : t < k + 1
      · rw [if_pos ht, hb1.quad.point e he t ht]
        have h3 : ts[t]? = some (ts.getD t 0) := by
          rw [List.getD_eq_getElem?_getD, List.getElem?_eq_getElem (by rw [hT.nodes]; exact ht)]
          rfl
        have h4 : rtEdgeEnds (dirOf (dir 0, dir 1, dir 2)) e = rtEdgeEnds dir e := by
          unfold rtEdgeEnds
          rw [dirOf_eta dir he]
        rw [h3, h4]
        rfl
      · rw [if_neg ht, List.getElem?_eq_none (by rw [hT.nodes]; omega)]
        rfl
    rw [hu, except_ok_bind, hO.data.dofs1D, hs, except_ok_bind, hO.data.segment]
    congr 2
    rw [List.map_map]
    refine List.map_congr_left fun t _ => ?_
    show tri2F _ (segPoint _ _ t) = _
    rw [tri2F_segPoint, (tri2F_ends V dir he).1, (tri2F_ends V dir he).2]
  have hI : rtInternalQuad (V 0, V 1, V 2) ref.triangle
      = .ok ⟨(triangle (2 * (k + 1))).points.map (tri2F (V 0, V 1, V 2)), (triangle (2 * (k + 1))).weights.map (· * |tri2Det (V 0, V 1, V 2)|)⟩ := by
    unfold rtInternalQuad
    rw [hO.data.triangle, scaleArray_const _ _ _ hT.triangleLength, except_ok_bind]
  refine ⟨_, by
    unfold rtSpace
    dsimp only
    rw [show unchecked [dir 0, dir 1, dir 2] 0 = .ok (dir 0) from rfl, except_ok_bind, show unchecked [dir 0, dir 1, dir 2] 1 = .ok (dir 1) from rfl, except_ok_bind,
      show unchecked [dir 0, dir 1, dir 2] 2 = .ok (dir 2) from rfl, except_ok_bind, hI, except_ok_bind, hb, except_ok_bind,
      show [dir 0, dir 1, dir 2].length = 3 from rfl, hB, except_ok_bind], ?_, ?_, ?_, ?_, ?_, ?_, ?_⟩
  · rfl
  · exact hO.data.order
  · exact hO.data.numBasis
  · exact hO.data.nk
  · rfl
  · rfl
  · rfl

/-- The values and divergences on a triangle. -/
theorem rtSpace_values (hO : RtOk k triangle ts ws ref l) {V : Nat → ℝ × ℝ} {dir : Nat → Bool} {len : Nat → ℝ} {s : RtSpace ℝ}
    (hs : RtSpaceOk k V dir len (triangle (2 * (k + 1))) ts ws s) {b : RtBasis ℝ} (hb : rtAt l (dir 0, dir 1, dir 2) = .ok b)
    (hb1 : RtBasisOk k (dir 0, dir 1, dir 2) (triangle (2 * (k + 1))) ts ws b) (points : List (ℝ × ℝ)) :
    (∃ X Y, rtVelocityAt ref l s points = .ok (X, Y) ∧ X.rows = points.length ∧ X.cols = rtNum k ∧ Y.rows = points.length ∧ Y.cols = rtNum k ∧
      ∀ (i : Nat) (x : ℝ × ℝ), points[i]? = some x → ∀ j < rtNum k,
        (X.ent i j, Y.ent i j) = piola (V 0, V 1, V 2) (rtFun k fun l => b.coefficients.ent l j) x) ∧
    ∃ D, rtDivergenceAt ref l s points = .ok D ∧ D.rows = points.length ∧ D.cols = rtNum k ∧
      ∀ (i : Nat) (x : ℝ × ℝ), points[i]? = some x → ∀ j < rtNum k,
        D.ent i j = 1 / tri2Det (V 0, V 1, V 2) * ev2 (rtDivPoly k fun l => b.coefficients.ent l j) (tri2FInv (V 0, V 1, V 2) x) := by
  obtain ⟨X, Y, hX, x1, x2, y1, y2, hXe⟩ := rtVelocity_ok hO.data hb1.rows (points.map (tri2FInv (V 0, V 1, V 2)))
  obtain ⟨D, hD, d1, d2, hDe⟩ := rtDivergence_ok hO.data hb1.rows (points.map (tri2FInv (V 0, V 1, V 2)))
  obtain ⟨X', Y', hX', x1', x2', y1', y2', hXe'⟩ := rtMapVelocity_ok (V 0, V 1, V 2) (x1.trans y1.symm) (x2.trans y2.symm)
  rw [hb1.cols] at hXe hDe
  refine ⟨⟨X', Y', ?_, ?_, ?_, ?_, ?_, ?_⟩, rtMapDivergence (V 0, V 1, V 2) D, ?_, ?_, ?_, ?_⟩
  · unfold rtVelocityAt
    rw [hs.dirs, hb, except_ok_bind, hs.map, hX, except_ok_bind, hX']
  · rw [x1', x1, List.length_map]
  · rw [x2', x2, hb1.cols]
  · rw [y1', x1, List.length_map]
  · rw [y2', x2, hb1.cols]
  · intro i x hx j hj
    exact hXe' _ _ _ _ (hXe i _ (by rw [List.getElem?_map, hx]; rfl) j hj)
  · unfold rtDivergenceAt
    rw [hs.dirs, hb, except_ok_bind, hs.map, hD, except_ok_bind]
  · exact d1.trans (List.length_map _)
  · exact d2.trans hb1.cols
  · intro i x hx j hj
    show 1 / tri2Det _ * D.ent i j = _
    rw [hDe i _ (by rw [List.getElem?_map, hx]; rfl) j hj]

end

end PolyDiM
