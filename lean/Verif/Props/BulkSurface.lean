import Verif.Spec.BulkSurface
import Verif.Spec.TestDataBulk
import Verif.Props.Elliptic1D

/-!
# C170: the exchange terms and the surface equation of the bulk-surface example
-/

namespace PolyDiM

open Spec Polynomial

section

variable {k : Nat} {d : Fem1Data ℝ} {mid : List ℝ}

theorem LineRef.tableAt (R : LineRef k d mid) {f : (Nat → ℝ) → Nat → Except Fault ℝ} {F : (Nat → ℝ) → Nat → ℝ} (hf : ∀ x, ∀ i < k + 1, f x i = .ok (F x i)) (points : List (Nat → ℝ)) :
    ∃ T, fem1At d f points = .ok ⟨points.length, k + 1, T⟩ ∧ ∀ q < points.length, ∀ i < k + 1, T q i = F (points.getD q fun _ => 0) i := by
  unfold fem1At
  rw [mapM_ok _ (fun t => (List.range (k + 1)).map (F t)) points, except_ok_bind, R.numBasis]
  · refine ⟨_, rfl, fun q hq i hi => ?_⟩
    simp [List.getD_eq_getElem?_getD, hq, hi]
  · intro t _
    rw [R.numBasis]
    exact mapM_ok _ _ _ fun i hi => hf t i (List.mem_range.1 hi)

theorem LineRef.scatter (R : LineRef k d mid) (hk : 1 ≤ k) {i : Nat} (hi : i < k + 1) : scatterCol (fem1Order d) (fun i => i) i = some i := by
  rw [fem1Order_eq, R.num0D, R.num1D, show 2 * 1 + (k - 1) = k + 1 by omega, scatter_id _ _ hi]

theorem LineRef.physValue (R : LineRef k d mid) (hk : 1 ≤ k) (m : SegMap ℝ) (x : Nat → ℝ) {i : Nat} (hi : i < k + 1) :
    fem1PhysValue d m x i = .ok ((lineBasis d i).eval (segFInv m x)) := by
  unfold fem1PhysValue
  rw [R.scatter hk hi]
  exact R.value _ hi

theorem LineRef.physDerivative (R : LineRef k d mid) (hk : 1 ≤ k) (m : SegMap ℝ) (x : Nat → ℝ) {i : Nat} (hi : i < k + 1) :
    fem1PhysDerivative d m x i = .ok ((Polynomial.derivative (lineBasis d i)).eval (segFInv m x) / m.length) := by
  unfold fem1PhysDerivative
  rw [R.scatter hk hi]
  dsimp only
  rw [R.value_der _ hi, except_ok_bind]

/-- The values of a function at the points of the rule on the surface. -/
theorem surface_points (rule : Rule ℝ ℝ) (g : LineGeometry ℝ) (c : Nat) (f : (Nat → ℝ) → ℝ) :
    (surfaceRule rule g c).points.map f = (List.range rule.points.length).map fun q => f fun h => g.origin c h + rule.points.getD q 0 * g.tangent c h := by
  rw [surfaceRule, List.map_map, map_getD rule.points 0]
  rfl

theorem surface_weights {rule : Rule ℝ ℝ} (hrule : rule.weights.length = rule.points.length) (g : LineGeometry ℝ) (c : Nat) :
    (surfaceRule rule g c).weights = (List.range rule.points.length).map fun q => rule.weights.getD q 0 * g.length c := by
  rw [surfaceRule]
  dsimp only
  rw [map_getD rule.weights 0, hrule]

/-- A mass matrix on a segment of the surface, in terms of traces. -/
theorem LineRef.surface_mass (R : LineRef k d mid) {rule : Rule ℝ ℝ} (hrule : rule.weights.length = rule.points.length) (g : LineGeometry ℝ) (c : Nat) {T : Nat → Nat → ℝ}
    (hT : ∀ q < rule.points.length, ∀ i < k + 1, T q i = (lineBasis d i).eval (rule.points.getD q 0)) (γ : (Nat → ℝ) → ℝ) :
    ∃ A, cellReactionSame ((surfaceRule rule g c).points.map γ) ⟨rule.points.length, k + 1, T⟩ (surfaceRule rule g c).weights = .ok A ∧ A.rows = k + 1 ∧ A.cols = k + 1 ∧
      ∀ (v x : Nat → ℝ) (P Q : ℝ[X]), P.natDegree ≤ k → Q.natDegree ≤ k → (∀ j < k + 1, P.eval (d.positions.getD j 0) = v j) → (∀ j < k + 1, Q.eval (d.positions.getD j 0) = x j) →
        ∑ i ∈ Finset.range (k + 1), v i * ∑ j ∈ Finset.range (k + 1), A.ent i j * x j
          = quadSum rule.points rule.weights fun t => g.length c * (γ (fun h => g.origin c h + t * g.tangent c h) * (P.eval t * Q.eval t)) := by
  obtain ⟨M, hM, hMr, hMc, -, hMf⟩ := C53_reaction rule.points.length (k + 1) (k + 1) (fun q => rule.weights.getD q 0 * g.length c)
    (fun q => γ fun h => g.origin c h + rule.points.getD q 0 * g.tangent c h) T T
  refine ⟨M, ?_, hMr, hMc, fun v x P Q hP hQ hv hx => ?_⟩
  · rw [surface_points, surface_weights hrule]
    exact hM
  · have eP := R.reproduce hP (x := v) fun i hi => (hv i hi).symm
    have eQ := R.reproduce hQ (x := x) fun i hi => (hx i hi).symm
    rw [hMf x v]
    have e : ∀ q ∈ Finset.range rule.points.length, rule.weights.getD q 0 * g.length c *
        ((γ fun h => g.origin c h + rule.points.getD q 0 * g.tangent c h) * ((∑ i ∈ Finset.range (k + 1), v i * T q i) * ∑ j ∈ Finset.range (k + 1), x j * T q j)) =
        rule.weights.getD q 0 * (g.length c *
          ((γ fun h => g.origin c h + rule.points.getD q 0 * g.tangent c h) * (P.eval (rule.points.getD q 0) * Q.eval (rule.points.getD q 0)))) := by
      intro q hq
      have s : ∀ z : Nat → ℝ, ∑ i ∈ Finset.range (k + 1), z i * T q i = (lineInterp k d z).eval (rule.points.getD q 0) := by
        intro z
        rw [← interp_table]
        exact Finset.sum_congr rfl fun i hi => by rw [hT q (Finset.mem_range.1 hq) i (Finset.mem_range.1 hi)]
      rw [s, s, eP, eQ]
      ring
    rw [Finset.sum_congr rfl e]
    refine sum_quadSum rule.points rule.weights hrule _ _ fun i t hi => ?_
    rw [List.getD_eq_getElem?_getD, hi, Option.getD_some]

end

theorem exchangeForm_append (S T : List (Nat × Nat × ℝ)) (y x : Nat → ℝ) : exchangeForm (S ++ T) y x = exchangeForm S y x + exchangeForm T y x := by
  simp [exchangeForm]

theorem exchangeForm_flatten (n : Nat) (F : Nat → List (Nat × Nat × ℝ)) (y x : Nat → ℝ) : exchangeForm ((List.range n).map F).flatten y x = ∑ i ∈ Finset.range n, exchangeForm (F i) y x := by
  induction n with
  | zero => simp [exchangeForm]
  | succ n ih => rw [List.range_succ, List.map_append, List.flatten_append, exchangeForm_append, ih, Finset.sum_range_succ]; simp

theorem exchangeForm_map (n : Nat) (F : Nat → Nat × Nat × ℝ) (y x : Nat → ℝ) : exchangeForm ((List.range n).map F) y x = ∑ i ∈ Finset.range n, y (F i).1 * (F i).2.2 * x (F i).2.1 := by
  rw [exchangeForm, List.map_map, ← range_sum]
  rfl

/-- The number of an unknown of an edge. -/
theorem edgeIndex_ok {data : DOFsData} {e i : Nat} {b : CellGlobal} {r : GDOF} {x : DOF} (hb : (data.dims 1).globals[e]? = some b) (hr : b.gdofs[i]? = some r) (hx : lookup data r = some x) :
    edgeIndex data e i = .ok x.globalIndex := by
  unfold edgeIndex
  rw [(atIdx_ok_iff _ _ _).2 hb, except_ok_bind, (atIdx_ok_iff _ _ _).2 hr, except_ok_bind, (resolve_iff _ _ _).2 hx, except_ok_bind]

/-- The exchange terms of one segment. -/
theorem transitionCell_ok {k n : Nat} (hk : 1 ≤ k) {d : Fem1Data ℝ} {mid : List ℝ} (R : LineRef k d mid) {bulk surface : DOFsData} {offset : Nat} {newToOld : List Nat} {bulkNo surfaceNo : Nat → Nat → Nat}
    (h : IsTraceMesh k n bulk surface offset newToOld bulkNo surfaceNo) {rule : Rule ℝ ℝ} (hrule : rule.weights.length = rule.points.length) (g : LineGeometry ℝ) (marker : Nat → Nat)
    (test : ExchangeTest ℝ) {c : Nat} (hc : c < n) :
    ∃ T, transitionCell bulk surface offset newToOld d rule g marker test c = .ok T ∧ ∀ (y x : Nat → ℝ) (U V W Z : ℝ[X]),
      IsSegmentTrace k d.positions bulkNo x c U → IsSegmentTrace k d.positions surfaceNo x c V → IsSegmentTrace k d.positions bulkNo y c W → IsSegmentTrace k d.positions surfaceNo y c Z →
      exchangeForm T y x = quadSum rule.points rule.weights fun t => g.length c *
        (test.alpha 2 0 (fun h => g.origin c h + t * g.tangent c h) * (W.eval t * U.eval t) - test.beta 2 0 (fun h => g.origin c h + t * g.tangent c h) * (V.eval t * W.eval t)
          - test.alpha 1 (marker c) (fun h => g.origin c h + t * g.tangent c h) * (Z.eval t * U.eval t)) := by
  obtain ⟨s, hs, hlen, hsn⟩ := h.surface c hc
  obtain ⟨e, b, he, hb, hbn⟩ := h.bulk c hc
  obtain ⟨T, hT, hTe⟩ := R.tableAt (fun x i hi => R.physValue hk unitSegment x hi) (rule.points.map fun t h => if h = 0 then t else 0)
  rw [List.length_map] at hT hTe
  have hTq : ∀ q < rule.points.length, ∀ i < k + 1, T q i = (lineBasis d i).eval (rule.points.getD q 0) := by
    intro q hq i hi
    rw [hTe q hq i hi]
    congr 1
    simp [List.getD_eq_getElem?_getD, hq, segFInv, unitSegment, fem1Map]
  obtain ⟨A1, hA1, hA1r, hA1c, fA1⟩ := R.surface_mass hrule g c hTq (test.alpha 1 (marker c))
  obtain ⟨A2, hA2, hA2r, hA2c, fA2⟩ := R.surface_mass hrule g c hTq (test.alpha 2 0)
  obtain ⟨B2, hB2, hB2r, hB2c, fB2⟩ := R.surface_mass hrule g c hTq (test.beta 2 0)
  have hS : ∀ i < k + 1, ∃ gi, edgeIndex surface c i = .ok gi ∧ u32 (gi + offset) = surfaceNo c i := by
    intro i hi
    obtain ⟨r, x, h1, h2, h3, h4⟩ := hsn i hi
    refine ⟨_, edgeIndex_ok hs h1 h2, ?_⟩
    rw [h3, u32]
    exact Nat.mod_eq_of_lt h4
  have hB : ∀ j < k + 1, edgeIndex bulk e j = .ok (bulkNo c j) := by
    intro j hj
    obtain ⟨r, x, h1, h2, h3⟩ := hbn j hj
    rw [edgeIndex_ok hb h1 h2, h3]
  have get : ∀ A : DMat ℝ, A.rows = k + 1 → A.cols = k + 1 → ∀ i < k + 1, ∀ j < k + 1, A.toLMat.get i j = .ok (A.ent i j) := by
    intro A h1 h2 i hi j hj
    rw [LMat.get, if_pos]
    · rfl
    · exact ⟨by rw [← h1] at hi; exact hi, by rw [← h2] at hj; exact hj⟩
  refine ⟨((List.range (k + 1)).map fun i => (List.range (k + 1)).map fun j =>
      [(bulkNo c j, surfaceNo c i, -B2.ent i j), (surfaceNo c i, bulkNo c j, -A1.ent i j)]).flatten.flatten ++
    ((List.range (k + 1)).map fun i => (List.range (k + 1)).map fun j => (bulkNo c i, bulkNo c j, A2.ent i j)).flatten, ?_, ?_⟩
  · unfold transitionCell
    dsimp only
    rw [hT, except_ok_bind, (atIdx_ok_iff _ _ _).2 hs, except_ok_bind, hA1, except_ok_bind, hA2, except_ok_bind, hB2, except_ok_bind, (unchecked_ok_iff _ _ _).2 he, except_ok_bind, hlen]
    rw [mapM_ok _ (fun i => (List.range (k + 1)).map fun j => [(bulkNo c j, surfaceNo c i, -B2.ent i j), (surfaceNo c i, bulkNo c j, -A1.ent i j)]), except_ok_bind,
      mapM_ok _ (fun i => (List.range (k + 1)).map fun j => (bulkNo c i, bulkNo c j, A2.ent i j)), except_ok_bind]
    · intro i hi
      have hi' := List.mem_range.1 hi
      rw [hB i hi', except_ok_bind]
      refine mapM_ok _ _ _ fun j hj => ?_
      have hj' := List.mem_range.1 hj
      rw [hB j hj', except_ok_bind, get A2 hA2r hA2c i hi' j hj', except_ok_bind]
    · intro i hi
      have hi' := List.mem_range.1 hi
      obtain ⟨gi, h1, h2⟩ := hS i hi'
      rw [h1, except_ok_bind]
      refine mapM_ok _ _ _ fun j hj => ?_
      have hj' := List.mem_range.1 hj
      rw [hB j hj', except_ok_bind, get B2 hB2r hB2c i hi' j hj', except_ok_bind, get A1 hA1r hA1c i hi' j hj', except_ok_bind, h2]
  · intro y x U V W Z hU hV hW hZ
    have e1 := fA1 (fun i => y (surfaceNo c i)) (fun j => x (bulkNo c j)) Z U hZ.1 hU.1 hZ.2 hU.2
    have e2 := fA2 (fun i => y (bulkNo c i)) (fun j => x (bulkNo c j)) W U hW.1 hU.1 hW.2 hU.2
    have e3 := fB2 (fun i => x (surfaceNo c i)) (fun j => y (bulkNo c j)) V W hV.1 hW.1 hV.2 hW.2
    rw [exchangeForm_append, List.flatten_flatten, List.map_map, exchangeForm_flatten, exchangeForm_flatten]
    have f1 : ∀ i ∈ Finset.range (k + 1), exchangeForm ((List.flatten ∘ fun i => (List.range (k + 1)).map fun j =>
        [(bulkNo c j, surfaceNo c i, -B2.ent i j), (surfaceNo c i, bulkNo c j, -A1.ent i j)]) i) y x =
        -(x (surfaceNo c i) * ∑ j ∈ Finset.range (k + 1), B2.ent i j * y (bulkNo c j)) - y (surfaceNo c i) * ∑ j ∈ Finset.range (k + 1), A1.ent i j * x (bulkNo c j) := by
      intro i _
      rw [Function.comp_apply, exchangeForm_flatten, Finset.mul_sum, Finset.mul_sum, ← Finset.sum_neg_distrib, ← Finset.sum_sub_distrib]
      refine Finset.sum_congr rfl fun j _ => ?_
      simp only [exchangeForm, List.map_cons, List.map_nil, List.sum_cons, List.sum_nil]
      ring
    have f2 : ∀ i ∈ Finset.range (k + 1), exchangeForm ((List.range (k + 1)).map fun j => (bulkNo c i, bulkNo c j, A2.ent i j)) y x =
        y (bulkNo c i) * ∑ j ∈ Finset.range (k + 1), A2.ent i j * x (bulkNo c j) := by
      intro i _
      rw [exchangeForm_map, Finset.mul_sum]
      exact Finset.sum_congr rfl fun j _ => by ring
    rw [Finset.sum_congr rfl f1, Finset.sum_congr rfl f2, Finset.sum_sub_distrib, Finset.sum_neg_distrib, e1, e2, e3]
    have e4 : quadSum rule.points rule.weights (fun t => g.length c *
        (test.alpha 2 0 (fun h => g.origin c h + t * g.tangent c h) * (W.eval t * U.eval t) - test.beta 2 0 (fun h => g.origin c h + t * g.tangent c h) * (V.eval t * W.eval t)
          - test.alpha 1 (marker c) (fun h => g.origin c h + t * g.tangent c h) * (Z.eval t * U.eval t))) =
        quadSum rule.points rule.weights (fun t => (g.length c * (test.alpha 2 0 (fun h => g.origin c h + t * g.tangent c h) * (W.eval t * U.eval t)) +
          (-1) * (g.length c * (test.beta 2 0 (fun h => g.origin c h + t * g.tangent c h) * (V.eval t * W.eval t)))) +
          (-1) * (g.length c * (test.alpha 1 (marker c) (fun h => g.origin c h + t * g.tangent c h) * (Z.eval t * U.eval t)))) :=
      quadSum_congr _ _ fun t _ => by ring
    rw [e4, quadSum_add, quadSum_add, quadSum_const_mul _ _ (-1), quadSum_const_mul _ _ (-1)]
    ring

/-- **C170, exchange.** The run succeeds. As a bilinear form the triplets are, summed over the segments, the quadrature of `alpha_2 u w - beta_2 v w - alpha_1 u z`, where `u` and `v` are the trace of the bulk function
and the surface function of the unknowns, `w` and `z` those of the test vector: the first two terms test with the bulk function, the last one with the surface function. -/
theorem C170_exchange {k n : Nat} (hk : 1 ≤ k) {type : Fem1Type} {lobatto : List ℝ} (hn : GoodNodes k type lobatto) {d : Fem1Data ℝ} (hd : fem1Create k type lobatto = .ok d)
    {bulk surface : DOFsData} {offset : Nat} {newToOld : List Nat} {bulkNo surfaceNo : Nat → Nat → Nat} (h : IsTraceMesh k n bulk surface offset newToOld bulkNo surfaceNo)
    {rule : Rule ℝ ℝ} (hrule : rule.weights.length = rule.points.length) (g : LineGeometry ℝ) (marker : Nat → Nat) (test : ExchangeTest ℝ) :
    ∃ T, transitionMatrices bulk surface offset newToOld d rule g marker test n = .ok T ∧ ∀ (y x : Nat → ℝ) (U V W Z : Nat → ℝ[X]),
      (∀ c < n, IsSegmentTrace k d.positions bulkNo x c (U c)) → (∀ c < n, IsSegmentTrace k d.positions surfaceNo x c (V c)) →
      (∀ c < n, IsSegmentTrace k d.positions bulkNo y c (W c)) → (∀ c < n, IsSegmentTrace k d.positions surfaceNo y c (Z c)) →
      exchangeForm T y x = ∑ c ∈ Finset.range n, quadSum rule.points rule.weights fun t => g.length c *
        (test.alpha 2 0 (fun h => g.origin c h + t * g.tangent c h) * ((W c).eval t * (U c).eval t) - test.beta 2 0 (fun h => g.origin c h + t * g.tangent c h) * ((V c).eval t * (W c).eval t)
          - test.alpha 1 (marker c) (fun h => g.origin c h + t * g.tangent c h) * ((Z c).eval t * (U c).eval t)) := by
  obtain ⟨mid, R⟩ := lineRef_of hk hn hd
  choose! F hF hform using fun c (hc : c < n) => transitionCell_ok hk R h hrule g marker test hc
  refine ⟨((List.range n).map F).flatten, ?_, fun y x U V W Z hU hV hW hZ => ?_⟩
  · unfold transitionMatrices
    rw [mapM_ok _ F _ fun c hc => hF c (List.mem_range.1 hc), except_ok_bind]
  · rw [exchangeForm_flatten]
    refine Finset.sum_congr rfl fun c hc => ?_
    have hc' := Finset.mem_range.1 hc
    exact hform c hc' y x _ _ _ _ (hU c hc') (hV c hc') (hW c hc') (hZ c hc')

/-- **C170, exact.** With coefficients that are constant on every segment and a rule exact for degree `2 k` the exchange terms are the integrals over the segments. -/
theorem C170_exact {k n : Nat} (hk : 1 ≤ k) {type : Fem1Type} {lobatto : List ℝ} (hn : GoodNodes k type lobatto) {d : Fem1Data ℝ} (hd : fem1Create k type lobatto = .ok d)
    {bulk surface : DOFsData} {offset : Nat} {newToOld : List Nat} {bulkNo surfaceNo : Nat → Nat → Nat} (h : IsTraceMesh k n bulk surface offset newToOld bulkNo surfaceNo)
    {rule : Rule ℝ ℝ} (hG : IsGauss k rule) (g : LineGeometry ℝ) (marker : Nat → Nat) (test : ExchangeTest ℝ) {a1 a2 b2 : Nat → ℝ}
    (h1 : ∀ c < n, ∀ t, 0 < t → t < 1 → test.alpha 1 (marker c) (fun h => g.origin c h + t * g.tangent c h) = a1 c)
    (h2 : ∀ c < n, ∀ t, 0 < t → t < 1 → test.alpha 2 0 (fun h => g.origin c h + t * g.tangent c h) = a2 c)
    (h3 : ∀ c < n, ∀ t, 0 < t → t < 1 → test.beta 2 0 (fun h => g.origin c h + t * g.tangent c h) = b2 c) :
    ∃ T, transitionMatrices bulk surface offset newToOld d rule g marker test n = .ok T ∧ ∀ (y x : Nat → ℝ) (U V W Z : Nat → ℝ[X]),
      (∀ c < n, IsSegmentTrace k d.positions bulkNo x c (U c)) → (∀ c < n, IsSegmentTrace k d.positions surfaceNo x c (V c)) →
      (∀ c < n, IsSegmentTrace k d.positions bulkNo y c (W c)) → (∀ c < n, IsSegmentTrace k d.positions surfaceNo y c (Z c)) →
      exchangeForm T y x = ∑ c ∈ Finset.range n, ∫ t in (0 : ℝ)..1, g.length c *
        (a2 c * ((W c).eval t * (U c).eval t) - b2 c * ((V c).eval t * (W c).eval t) - a1 c * ((Z c).eval t * (U c).eval t)) := by
  obtain ⟨T, hT, hform⟩ := C170_exchange hk hn hd h hG.size g marker test
  refine ⟨T, hT, fun y x U V W Z hU hV hW hZ => ?_⟩
  rw [hform y x U V W Z hU hV hW hZ]
  refine Finset.sum_congr rfl fun c hc => ?_
  have hc' := Finset.mem_range.1 hc
  have m : ∀ p q : ℝ[X], p.natDegree ≤ k → q.natDegree ≤ k → (p * q).natDegree ≤ 2 * k := fun p q hp hq => natDegree_mul_le.trans (by omega)
  have hdeg : (C (g.length c) * (C (a2 c) * (W c * U c) - C (b2 c) * (V c * W c) - C (a1 c) * (Z c * U c))).natDegree ≤ 2 * k := by
    have := natDegree_sub_le_of_le (natDegree_sub_le_of_le ((natDegree_C_mul_le (a2 c) _).trans (m _ _ (hW c hc').1 (hU c hc').1)) ((natDegree_C_mul_le (b2 c) _).trans (m _ _ (hV c hc').1 (hW c hc').1)))
      ((natDegree_C_mul_le (a1 c) _).trans (m _ _ (hZ c hc').1 (hU c hc').1))
    rw [max_self, max_self] at this
    exact (natDegree_C_mul_le _ _).trans this
  have hE := hG.exact _ hdeg
  simp only [eval_sub, eval_mul, eval_C] at hE
  rw [← hE]
  refine quadSum_congr _ _ fun t ht => ?_
  obtain ⟨t0, t1⟩ := hG.inside t ht
  rw [h1 c hc' t t0 t1, h2 c hc' t t0 t1, h3 c hc' t t0 t1]

/-- **C170, surface.** The local matrices of the surface equation: the quadrature of `k v' z' + (r + beta_1) v z` and of `v z`, with derivatives with respect to the arc length. -/
theorem C170_surface {k : Nat} (hk : 1 ≤ k) {type : Fem1Type} {lobatto : List ℝ} (hn : GoodNodes k type lobatto) {d : Fem1Data ℝ} (hd : fem1Create k type lobatto = .ok d)
    {rule : Rule ℝ ℝ} (hrule : rule.weights.length = rule.points.length) (g : LineGeometry ℝ) (marker : Nat → Nat) (test : ExchangeTest ℝ) {c : Nat} (hs : IsSegment (g.tangent c) (g.length c)) :
    ∃ A M, surfaceLocal d rule g marker test c = .ok (A, M) ∧ A.rows = k + 1 ∧ A.cols = k + 1 ∧ M.rows = k + 1 ∧ M.cols = k + 1 ∧
      ∀ p r : ℝ[X], p.natDegree ≤ k → r.natDegree ≤ k →
        ∑ i ∈ Finset.range (k + 1), r.eval (d.positions.getD i 0) * ∑ j ∈ Finset.range (k + 1), A.ent i j * p.eval (d.positions.getD j 0)
          = quadSum rule.points rule.weights (fun t => g.length c *
              (test.diffusion 1 (marker c) (fun h => g.origin c h + t * g.tangent c h) * (((Polynomial.derivative r).eval t / g.length c) * ((Polynomial.derivative p).eval t / g.length c))
                + (test.reaction 1 (marker c) (fun h => g.origin c h + t * g.tangent c h) + test.beta 1 (marker c) (fun h => g.origin c h + t * g.tangent c h)) * (r.eval t * p.eval t))) ∧
        ∑ i ∈ Finset.range (k + 1), r.eval (d.positions.getD i 0) * ∑ j ∈ Finset.range (k + 1), M.ent i j * p.eval (d.positions.getD j 0)
          = quadSum rule.points rule.weights (fun t => g.length c * (r.eval t * p.eval t)) := by
  obtain ⟨mid, R⟩ := lineRef_of hk hn hd
  set m := fem1Map (g.origin c) (g.tangent c) (g.length c) with hm
  have hplen : (surfaceRule rule g c).points.length = rule.points.length := by simp [surfaceRule]
  have hinv : ∀ q < rule.points.length, segFInv m ((surfaceRule rule g c).points.getD q fun _ => 0) = rule.points.getD q 0 := by
    intro q hq
    have e : ((surfaceRule rule g c).points.getD q fun _ => 0) = segF m (rule.points.getD q 0) := by
      funext i
      simp [surfaceRule, List.getD_eq_getElem?_getD, hq, segF, hm, fem1Map, mul_comm]
    rw [e]
    exact (C55_map _ _ _ hs).1 _
  obtain ⟨T, hT, hTe⟩ := R.tableAt (fun x i hi => R.physValue hk m x hi) (surfaceRule rule g c).points
  obtain ⟨D, hD, hDe⟩ := R.tableAt (fun x i hi => R.physDerivative hk m x hi) (surfaceRule rule g c).points
  rw [hplen] at hT hTe hD hDe
  have hTq : ∀ q < rule.points.length, ∀ i < k + 1, T q i = (lineBasis d i).eval (rule.points.getD q 0) := fun q hq i hi => by rw [hTe q hq i hi, hinv q hq]
  have hDq : ∀ q < rule.points.length, ∀ i < k + 1, D q i = (Polynomial.derivative (lineBasis d i)).eval (rule.points.getD q 0) / g.length c := fun q hq i hi => by
    rw [hDe q hq i hi, hinv q hq]
    rfl
  obtain ⟨Cm, hC, hCr, hCc, fC⟩ := R.surface_mass hrule g c hTq fun x => test.reaction 1 (marker c) x + test.beta 1 (marker c) x
  obtain ⟨M, hM, hMr, hMc, fM⟩ := R.surface_mass hrule g c hTq fun _ => 1
  obtain ⟨A, hA, hAr, hAc, -, hAf⟩ := C53_diffusion rule.points.length (k + 1) (k + 1) 1 le_rfl (fun q => rule.weights.getD q 0 * g.length c)
    (fun q => test.diffusion 1 (marker c) fun h => g.origin c h + rule.points.getD q 0 * g.tangent c h) (fun _ => D) (fun _ => D)
  have hone : (rule.points.map fun _ => (1 : ℝ)) = (surfaceRule rule g c).points.map fun _ => 1 := by simp [surfaceRule, Function.comp_def]
  refine ⟨⟨k + 1, k + 1, fun i j => A.ent i j + Cm.ent i j⟩, M, ?_, rfl, rfl, hMr, hMc, fun p r hp hr => ⟨?_, ?_⟩⟩
  · unfold surfaceLocal
    dsimp only
    have hA' : cellDiffusionSame ((surfaceRule rule g c).points.map (test.diffusion 1 (marker c))) [⟨rule.points.length, k + 1, D⟩] (surfaceRule rule g c).weights = .ok A := by
      rw [surface_points, surface_weights hrule]
      exact hA
    rw [← hm, hT, except_ok_bind, hD, except_ok_bind, hA', except_ok_bind, hC, except_ok_bind, hone, hM, except_ok_bind, DMat.add, if_pos ⟨by rw [hAr, hCr], by rw [hAc, hCc]⟩, except_ok_bind, hAr, hAc]
  · dsimp only
    have e1 := fC (fun i => r.eval (d.positions.getD i 0)) (fun j => p.eval (d.positions.getD j 0)) r p hr hp (fun _ _ => rfl) fun _ _ => rfl
    have e2 := hAf (fun j => p.eval (d.positions.getD j 0)) fun i => r.eval (d.positions.getD i 0)
    have ep := R.reproduce hp (x := fun j => p.eval (d.positions.getD j 0)) fun i _ => rfl
    have er := R.reproduce hr (x := fun j => r.eval (d.positions.getD j 0)) fun i _ => rfl
    have e3 : ∑ i ∈ Finset.range (k + 1), r.eval (d.positions.getD i 0) * ∑ j ∈ Finset.range (k + 1), A.ent i j * p.eval (d.positions.getD j 0) =
        quadSum rule.points rule.weights (fun t => g.length c * (test.diffusion 1 (marker c) (fun h => g.origin c h + t * g.tangent c h) *
          (((Polynomial.derivative r).eval t / g.length c) * ((Polynomial.derivative p).eval t / g.length c)))) := by
      rw [e2]
      have s : ∀ q ∈ Finset.range rule.points.length, ∀ z : Nat → ℝ, ∑ i ∈ Finset.range (k + 1), z i * D q i = (Polynomial.derivative (lineInterp k d z)).eval (rule.points.getD q 0) / g.length c := by
        intro q hq z
        rw [← interp_table_der, Finset.sum_div]
        refine Finset.sum_congr rfl fun i hi => ?_
        rw [hDq q (Finset.mem_range.1 hq) i (Finset.mem_range.1 hi)]
        ring
      rw [Finset.sum_congr rfl fun q hq => by rw [Finset.sum_range_one, s q hq, s q hq, ep, er, mul_assoc]]
      refine sum_quadSum rule.points rule.weights hrule _ _ fun i t hi => ?_
      rw [List.getD_eq_getElem?_getD, hi, Option.getD_some]
    have split : ∀ i, ∑ j ∈ Finset.range (k + 1), (A.ent i j + Cm.ent i j) * p.eval (d.positions.getD j 0) =
        ∑ j ∈ Finset.range (k + 1), A.ent i j * p.eval (d.positions.getD j 0) + ∑ j ∈ Finset.range (k + 1), Cm.ent i j * p.eval (d.positions.getD j 0) := by
      intro i
      rw [← Finset.sum_add_distrib]
      exact Finset.sum_congr rfl fun j _ => by ring
    simp only [split, mul_add]
    rw [Finset.sum_add_distrib, e3, e1, ← quadSum_add]
  · have e1 := fM (fun i => r.eval (d.positions.getD i 0)) (fun j => p.eval (d.positions.getD j 0)) r p hr hp (fun _ _ => rfl) fun _ _ => rfl
    rw [e1]
    exact quadSum_congr _ _ fun t _ => by ring

/-- A triangle (`cells = 1`), or its boundary (`cells = 0`). -/
def ringTopo (cells : Nat) : Mesh where
  cell1DVertices := fun c => (c, (c + 1) % 3)
  cell2DVertices := fun _ => [0, 1, 2]
  cell2DEdges := fun _ => [0, 1, 2]
  cell3DVertices := fun _ => []
  cell3DEdges := fun _ => []
  cell3DFaces := fun _ => []
  markers := fun d => if d = 0 then [1, 1, 1] else if d = 1 then [1, 1, 1] else if d = 2 then List.replicate cells 0 else []

/-- The exchange coefficients of `Elliptic_Problem`. -/
def ellipticExchange : ExchangeTest ℝ := ⟨fun _ _ _ => 1, fun _ _ _ => 1, fun _ _ _ => 1, fun _ _ _ => 2⟩

-- C170: a triangle and its three sides, order 1, with the coefficients of `Elliptic_Problem` and the DOFs that the handlers compute
example : ∃ (d : Fem1Data ℝ) (infoB infoS : MeshInfo) (bulk surface : DOFsData), fem1Create 1 .equispaced [] = .ok d ∧ GoodNodes 1 .equispaced [] ∧
    createConstantInfo 2 (ringTopo 1) ⟨lineNum 1, fun _ => some ⟨.none, 0⟩⟩ = .ok infoB ∧ createDOFs 2 infoB (ringTopo 1) = .ok bulk ∧
    createConstantInfo 1 (ringTopo 0) ⟨lineNum 1, fun _ => some ⟨.none, 0⟩⟩ = .ok infoS ∧ createDOFs 1 infoS (ringTopo 0) = .ok surface ∧
    IsTraceMesh 1 3 bulk surface bulk.counters.dofs [0, 1, 2] (fun c j => (c + j) % 3) (fun c j => 3 + (c + j) % 3) ∧ IsGauss 1 ⟨gauss2Points, [1 / 2, 1 / 2]⟩ ∧
    IsSegment (twoGeometry.tangent 0) (twoGeometry.length 0) ∧
    ∃ T, transitionMatrices bulk surface bulk.counters.dofs [0, 1, 2] d ⟨gauss2Points, [1 / 2, 1 / 2]⟩ twoGeometry (fun _ => 1) ellipticExchange 3 = .ok T := by
  obtain ⟨d, hd, -⟩ := C55_layout (K := ℝ) 1 le_rfl []
  have hn : GoodNodes 1 .equispaced [] := List.nodup_nil
  obtain ⟨infoB, hiB, bulk, hB, cB, b0, b1, b2⟩ : ∃ infoB, createConstantInfo 2 (ringTopo 1) ⟨lineNum 1, fun _ => some ⟨.none, 0⟩⟩ = .ok infoB ∧ ∃ bulk, createDOFs 2 infoB (ringTopo 1) = .ok bulk ∧
      bulk.counters.dofs = 3 ∧
      (∃ b, (bulk.dims 1).globals[0]? = some b ∧ b.gdofs = [⟨0, 0, 0⟩, ⟨0, 1, 0⟩] ∧ lookup bulk ⟨0, 0, 0⟩ = some ⟨.dof, 0⟩) ∧
      (∃ b, (bulk.dims 1).globals[1]? = some b ∧ b.gdofs = [⟨0, 1, 0⟩, ⟨0, 2, 0⟩] ∧ lookup bulk ⟨0, 1, 0⟩ = some ⟨.dof, 1⟩) ∧
      ∃ b, (bulk.dims 1).globals[2]? = some b ∧ b.gdofs = [⟨0, 2, 0⟩, ⟨0, 0, 0⟩] ∧ lookup bulk ⟨0, 2, 0⟩ = some ⟨.dof, 2⟩ :=
    ⟨_, rfl, _, rfl, rfl, ⟨_, rfl, rfl, rfl⟩, ⟨_, rfl, rfl, rfl⟩, _, rfl, rfl, rfl⟩
  obtain ⟨infoS, hiS, surface, hS, s0, s1, s2⟩ : ∃ infoS, createConstantInfo 1 (ringTopo 0) ⟨lineNum 1, fun _ => some ⟨.none, 0⟩⟩ = .ok infoS ∧ ∃ surface, createDOFs 1 infoS (ringTopo 0) = .ok surface ∧
      (∃ b, (surface.dims 1).globals[0]? = some b ∧ b.gdofs = [⟨0, 0, 0⟩, ⟨0, 1, 0⟩] ∧ lookup surface ⟨0, 0, 0⟩ = some ⟨.dof, 0⟩) ∧
      (∃ b, (surface.dims 1).globals[1]? = some b ∧ b.gdofs = [⟨0, 1, 0⟩, ⟨0, 2, 0⟩] ∧ lookup surface ⟨0, 1, 0⟩ = some ⟨.dof, 1⟩) ∧
      ∃ b, (surface.dims 1).globals[2]? = some b ∧ b.gdofs = [⟨0, 2, 0⟩, ⟨0, 0, 0⟩] ∧ lookup surface ⟨0, 2, 0⟩ = some ⟨.dof, 2⟩ :=
    ⟨_, rfl, _, rfl, ⟨_, rfl, rfl, rfl⟩, ⟨_, rfl, rfl, rfl⟩, _, rfl, rfl, rfl⟩
  obtain ⟨x0, h0, g0, l0⟩ := b0
  obtain ⟨x1, h1, g1, l1⟩ := b1
  obtain ⟨x2, h2, g2, l2⟩ := b2
  obtain ⟨y0, k0, e0, m0⟩ := s0
  obtain ⟨y1, k1, e1, m1⟩ := s1
  obtain ⟨y2, k2, e2, m2⟩ := s2
  have ht : IsTraceMesh 1 3 bulk surface bulk.counters.dofs [0, 1, 2] (fun c j => (c + j) % 3) (fun c j => 3 + (c + j) % 3) := by
    rw [cB]
    constructor
    · intro c hc
      interval_cases c
      · refine ⟨_, k0, by rw [e0]; rfl, fun j hj => ?_⟩
        rw [e0]
        interval_cases j
        · exact ⟨_, _, rfl, m0, rfl, by norm_num⟩
        · exact ⟨_, _, rfl, m1, rfl, by norm_num⟩
      · refine ⟨_, k1, by rw [e1]; rfl, fun j hj => ?_⟩
        rw [e1]
        interval_cases j
        · exact ⟨_, _, rfl, m1, rfl, by norm_num⟩
        · exact ⟨_, _, rfl, m2, rfl, by norm_num⟩
      · refine ⟨_, k2, by rw [e2]; rfl, fun j hj => ?_⟩
        rw [e2]
        interval_cases j
        · exact ⟨_, _, rfl, m2, rfl, by norm_num⟩
        · exact ⟨_, _, rfl, m0, rfl, by norm_num⟩
    · intro c hc
      interval_cases c
      · refine ⟨_, _, rfl, h0, fun j hj => ?_⟩
        rw [g0]
        interval_cases j
        · exact ⟨_, _, rfl, l0, rfl⟩
        · exact ⟨_, _, rfl, l1, rfl⟩
      · refine ⟨_, _, rfl, h1, fun j hj => ?_⟩
        rw [g1]
        interval_cases j
        · exact ⟨_, _, rfl, l1, rfl⟩
        · exact ⟨_, _, rfl, l2, rfl⟩
      · refine ⟨_, _, rfl, h2, fun j hj => ?_⟩
        rw [g2]
        interval_cases j
        · exact ⟨_, _, rfl, l2, rfl⟩
        · exact ⟨_, _, rfl, l0, rfl⟩
  obtain ⟨T, hT, -⟩ := C170_exact le_rfl hn hd ht gauss2_line twoGeometry (fun _ => 1) ellipticExchange (a1 := fun _ => 1) (a2 := fun _ => 1) (b2 := fun _ => 2) (fun _ _ _ _ _ => rfl)
    (fun _ _ _ _ _ => rfl) (fun _ _ _ _ _ => rfl)
  refine ⟨d, infoB, infoS, bulk, surface, hd, hn, hiB, hB, hiS, hS, ht, gauss2_line, ?_, T, hT⟩
  constructor <;> norm_num [twoGeometry]

end PolyDiM
