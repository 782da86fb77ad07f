import Verif.Lemmas.RTField

/-!
# Lemmas: the degrees of freedom of the Raviart-Thomas element
-/

namespace PolyDiM

open Spec MvPolynomial MeasureTheory

section
variable {k : Nat} {triangle : Nat → Rule (ℝ × ℝ) ℝ} {gauss : Nat → Rule ℝ ℝ} {tr : Rule (ℝ × ℝ) ℝ} {ts ws : List ℝ} {d : Bool × Bool × Bool} {G : DMat ℝ}

/-- The sign of an edge. -/
def dirSign (b : Bool) : ℝ := if b then 1 else -1

theorem dirSign_sq (b : Bool) : dirSign b * dirSign b = 1 := by cases b <;> simp [dirSign]

theorem dirSign_ne (b : Bool) : dirSign b ≠ 0 := by cases b <;> simp [dirSign]

theorem rtNormal_sign (dir : Nat → Bool) (e : Nat) (a : ℝ × ℝ) :
    dot2 a (rtNormal e) = dirSign (dir e) * dot2 a (clockwise ((rtEdgeEnds dir e).2 - (rtEdgeEnds dir e).1)) := by
  unfold rtNormal rtEdgeEnds polyEdge dirSign dot2 clockwise
  cases dir e
  · simp
    ring
  · simp

/-- The discrete flux moments of a Raviart-Thomas field are its flux moments. -/
theorem rtFlux_exact (hs : ts.length = k + 1) (hw : ws.length = k + 1) (he : ExactOnSegment (2 * k + 1) ts ws) (x : Nat → ℝ) {e i : Nat} (hi : i < k + 1) :
    rtFlux k d ts ws e i (rtField k x)
      = dirSign (dirOf d e) * fluxMoment (rtFun k x) (rtEdgeEnds (dirOf d) e).1 (rtEdgeEnds (dirOf d) e).2 i := by
  set P := (rtEdgeEnds (dirOf d) e).1 with hP
  set Q := (rtEdgeEnds (dirOf d) e).2 with hQ
  obtain ⟨r, hr, er⟩ := rt_trace (rtFun_isRT (k := k) x) P Q
  have hdeg : (r * (Polynomial.X - Polynomial.C (1 / 2)) ^ i).natDegree ≤ 2 * k + 1 := by
    refine Polynomial.natDegree_mul_le.trans ?_
    have := (Polynomial.natDegree_pow_le (p := (Polynomial.X - Polynomial.C (1 / 2 : ℝ))) (n := i))
    rw [Polynomial.natDegree_X_sub_C] at this
    omega
  have hex := he _ hdeg
  have hint : fluxMoment (rtFun k x) P Q i = ∫ t in (0 : ℝ)..1, (r * (Polynomial.X - Polynomial.C (1 / 2)) ^ i).eval t := by
    unfold fluxMoment
    refine intervalIntegral.integral_congr fun t _ => ?_
    simp [er]
  rw [hint, ← hex, ← sum_quadSum ts ws (by omega) (fun t => dot2 (rtFun k x (rtPt d ts e t)) (clockwise (Q - P)) * (ts.getD t 0 - 1 / 2) ^ i) _ (fun t τ hτ => by
    have : ts.getD t 0 = τ := by rw [List.getD_eq_getElem?_getD, hτ]; rfl
    rw [rtPt, this, ← hP, ← hQ]
    simp [er]), hs, Finset.mul_sum, rtFlux]
  refine Finset.sum_congr rfl fun t _ => ?_
  have := rtNormal_sign (dirOf d) e (rtFun k x (rtPt d ts e t))
  rw [← hP, ← hQ] at this
  have h2 : (rtNormal e).1 * ev2 (rtField k x).1 (rtPt d ts e t) + (rtNormal e).2 * ev2 (rtField k x).2 (rtPt d ts e t) = dot2 (rtFun k x (rtPt d ts e t)) (rtNormal e) := by
    simp only [dot2, rtFun]
    ring
  rw [h2, this]
  ring

theorem rtField_degree (x : Nat → ℝ) : (rtField k x).1.totalDegree ≤ k + 1 ∧ (rtField k x).2.totalDegree ≤ k + 1 := by
  obtain ⟨a, b, h, ha, hb, hh, e, -⟩ := rtField_rt (k := k) x
  have hhd := hh.totalDegree_le
  have : ∀ (i : Fin 2) (c : MvPolynomial (Fin 2) ℝ), c.totalDegree ≤ k → (c + X i * h).totalDegree ≤ k + 1 := by
    intro i c hc
    refine (totalDegree_add _ _).trans (max_le (by omega) ((totalDegree_mul _ _).trans ?_))
    rw [totalDegree_X]
    omega
  rw [e]
  exact ⟨this 0 a ha, this 1 b hb⟩

theorem rtPoly_low_degree {i : Nat} (hi : i < tri k) : (rtPoly k i).totalDegree + 1 ≤ k := by
  obtain ⟨m, rfl⟩ : ∃ m, k = m + 1 := by
    rcases k with _ | m
    · exact absurd hi (by simp [tri])
    · exact ⟨m, rfl⟩
  have := basisPoly_degree (m + 1) rtCenter rtScale (j := i) (m := m) (by rw [num2_eq]; exact hi.trans_le (tri_le (by omega))) hi
  exact Nat.succ_le_succ this

theorem quadLin_exact (he : ExactOnTriangle (2 * (k + 1)) tr.points tr.weights) {q : MvPolynomial (Fin 2) ℝ} (hq : q.totalDegree ≤ 2 * (k + 1)) :
    quadLin tr.points tr.weights q = ∫ p in refTri, ev2 q p := he q hq

theorem rtInner_exact (he : ExactOnTriangle (2 * (k + 1)) tr.points tr.weights) (x : Nat → ℝ) {i : Nat} (hi : i < tri k) :
    quadLin tr.points tr.weights (rtPoly k i * (rtField k x).1) = (∫ p in refTri, ev2 (rtPoly k i) p * (rtFun k x p).1) ∧
    quadLin tr.points tr.weights (rtPoly k i * (rtField k x).2) = ∫ p in refTri, ev2 (rtPoly k i) p * (rtFun k x p).2 := by
  have h1 := rtPoly_low_degree hi
  have h2 := rtField_degree (k := k) x
  constructor
  · rw [quadLin_exact he ((totalDegree_mul _ _).trans (by omega))]
    simp [ev2, rtFun]
  · rw [quadLin_exact he ((totalDegree_mul _ _).trans (by omega))]
    simp [ev2, rtFun]

theorem rtFlux_field (e i : Nat) (x : Nat → ℝ) :
    ∑ j ∈ Finset.range (rtNum k), rtFlux k d ts ws e i (rtCol k j) * x j = rtFlux k d ts ws e i (rtField k x) := by
  simp only [rtFlux, rtField, ev2, map_sum, map_mul, eval_C, Finset.sum_mul, Finset.mul_sum]
  rw [Finset.sum_comm]
  refine Finset.sum_congr rfl fun t _ => ?_
  rw [← Finset.sum_add_distrib, Finset.mul_sum]
  exact Finset.sum_congr rfl fun j _ => by ring

theorem quadLin_field (s : MvPolynomial (Fin 2) ℝ) (x : Nat → ℝ) (P : Nat → MvPolynomial (Fin 2) ℝ) (N : Nat) :
    ∑ j ∈ Finset.range N, quadLin tr.points tr.weights (s * P j) * x j = quadLin tr.points tr.weights (s * ∑ j ∈ Finset.range N, C (x j) * P j) := by
  rw [Finset.mul_sum, map_sum]
  refine Finset.sum_congr rfl fun j _ => ?_
  rw [show s * (C (x j) * P j) = C (x j) * (s * P j) by ring, quadLin_C_mul, mul_comm]

/-- What the rows of the system compute. -/
theorem rtG_apply (hT : IsRTTables k triangle gauss ts ws) (hG : RtGOk k d (triangle (2 * (k + 1))) ts ws G) (x : Nat → ℝ) :
    (∀ e < 3, ∀ i < k + 1, ∑ j ∈ Finset.range (rtNum k), G.ent (e * (k + 1) + i) j * x j
      = dirSign (dirOf d e) * fluxMoment (rtFun k x) (rtEdgeEnds (dirOf d) e).1 (rtEdgeEnds (dirOf d) e).2 i) ∧
    (∀ i < tri k, ∑ j ∈ Finset.range (rtNum k), G.ent (3 * (k + 1) + i) j * x j = ∫ p in refTri, ev2 (rtPoly k i) p * (rtFun k x p).1) ∧
    (∀ i < tri k, ∑ j ∈ Finset.range (rtNum k), G.ent (3 * (k + 1) + tri k + i) j * x j = ∫ p in refTri, ev2 (rtPoly k i) p * (rtFun k x p).2) := by
  refine ⟨?_, ?_, ?_⟩
  · intro e he i hi
    rw [← rtFlux_exact hT.nodes hT.weights hT.segmentExact x hi, ← rtFlux_field]
    exact Finset.sum_congr rfl fun j hj => by rw [hG.edge e he i hi j (Finset.mem_range.1 hj)]
  · intro i hi
    rw [← (rtInner_exact hT.triangleExact x hi).1, rtField, ← quadLin_field]
    exact Finset.sum_congr rfl fun j hj => by rw [hG.inner1 i hi j (Finset.mem_range.1 hj)]
  · intro i hi
    rw [← (rtInner_exact hT.triangleExact x hi).2, rtField, ← quadLin_field]
    exact Finset.sum_congr rfl fun j hj => by rw [hG.inner2 i hi j (Finset.mem_range.1 hj)]

theorem segPoint_swap (P Q : ℝ × ℝ) (t : ℝ) : segPoint P Q t = segPoint Q P (1 - t) := by
  simp only [segPoint]
  refine Prod.ext ?_ ?_ <;> ring

/-- A field whose degrees of freedom vanish is zero. -/
theorem rtFun_zero (dir : Nat → Bool) (x : Nat → ℝ)
    (hedge : ∀ e < 3, ∀ i < k + 1, fluxMoment (rtFun k x) (rtEdgeEnds dir e).1 (rtEdgeEnds dir e).2 i = 0)
    (h1 : ∀ i < tri k, ∫ p in refTri, ev2 (rtPoly k i) p * (rtFun k x p).1 = 0) (h2 : ∀ i < tri k, ∫ p in refTri, ev2 (rtPoly k i) p * (rtFun k x p).2 = 0) :
    ∀ j < rtNum k, x j = 0 := by
  have hRT := rtFun_isRT (k := k) x
  obtain ⟨a, b, h, ha, hb, hh, e, hz⟩ := rtField_rt (k := k) x
  have hcont : ∀ q : MvPolynomial (Fin 2) ℝ, IntegrableOn (fun p => ev2 q p) refTri := fun q => (poly2_continuous q).continuousOn.integrableOn_compact refTriangle_compact
  have hspan : ∀ (f : MvPolynomial (Fin 2) ℝ), (∀ i < tri k, ∫ p in refTri, ev2 (rtPoly k i) p * ev2 f p = 0) → ∀ q : MvPolynomial (Fin 2) ℝ, q.totalDegree + 1 ≤ k →
      ∫ p in refTri, ev2 f p * ev2 q p = 0 := by
    intro f hf q hq
    obtain ⟨y, hy⟩ := low_span q (Or.inl hq)
    have : ∀ p, ev2 f p * ev2 q p = ∑ j ∈ Finset.range (tri k), y j * (ev2 (rtPoly k j) p * ev2 f p) := by
      intro p
      rw [hy]
      simp only [ev2, map_sum, map_mul, eval_C, Finset.mul_sum]
      exact Finset.sum_congr rfl fun j _ => by ring
    simp only [this]
    rw [integral_finsetSum _ (fun j _ => by
      have h' : IntegrableOn (fun p => y j * (ev2 (rtPoly k j) p * ev2 f p)) refTri := by
        have := hcont (C (y j) * (rtPoly k j * f))
        simpa [ev2] using this
      exact h')]
    refine Finset.sum_eq_zero fun j hj => ?_
    rw [integral_const_mul, hf j (Finset.mem_range.1 hj), mul_zero]
  have e1 : (rtField k x).1 = a + X 0 * h := by rw [e]
  have e2 : (rtField k x).2 = b + X 1 * h := by rw [e]
  obtain ⟨ha0, hb0, hh0⟩ := rt_unisolvent ha hb hh (fun e' he t => by
    rw [← e1, ← e2]
    show dot2 (rtFun k x _) _ = 0
    have hz0 : ∀ t, dot2 (rtFun k x (segPoint (rtEdgeEnds dir e').1 (rtEdgeEnds dir e').2 t)) (clockwise ((rtEdgeEnds dir e').2 - (rtEdgeEnds dir e').1)) = 0 := fun t =>
      rt_trace_zero hRT _ _ (fun i hi => hedge e' he i (by omega)) t
    have hn := rtNormal_sign dir e'
    unfold rtEdgeEnds polyEdge at hz0
    rcases hd : dir e' with _ | _
    · rw [hd] at hz0
      simp only [Bool.false_eq_true, if_false] at hz0
      have := hz0 (1 - t)
      rw [← segPoint_swap] at this
      rw [show clockwise (rtVertex ((e' + 1) % 3) - rtVertex e') = -clockwise (rtVertex e' - rtVertex ((e' + 1) % 3)) by
        simp only [clockwise, Prod.snd_sub, Prod.fst_sub]
        refine Prod.ext ?_ ?_ <;> simp]
      have h' : ∀ a b : ℝ × ℝ, dot2 a (-b) = -dot2 a b := fun a b => by simp [dot2]; ring
      rw [h', this, neg_zero]
    · rw [hd] at hz0
      simpa using hz0 t) (fun q hq => ⟨by
        rw [← e1]
        exact hspan _ h1 q hq, by
        rw [← e2]
        exact hspan _ h2 q hq⟩)
  exact hz ha0 hb0 hh0

theorem row_cases {i : Nat} (hi : i < rtNum k) : (∃ e < 3, ∃ l < k + 1, i = e * (k + 1) + l) ∨ (∃ l < tri k, i = 3 * (k + 1) + l) ∨ ∃ l < tri k, i = 3 * (k + 1) + tri k + l := by
  have := rtNum_eq k
  rcases (show i < 3 * (k + 1) ∨ (3 * (k + 1) ≤ i ∧ i < 3 * (k + 1) + tri k) ∨ 3 * (k + 1) + tri k ≤ i by omega) with h | h | h
  · refine Or.inl ⟨i / (k + 1), Nat.div_lt_of_lt_mul (by rw [mul_comm]; exact h), i % (k + 1), Nat.mod_lt _ (by omega), ?_⟩
    rw [mul_comm, Nat.div_add_mod]
  · exact Or.inr (Or.inl ⟨i - 3 * (k + 1), by omega, by omega⟩)
  · exact Or.inr (Or.inr ⟨i - (3 * (k + 1) + tri k), by omega, by omega⟩)

theorem rtG_injective (hT : IsRTTables k triangle gauss ts ws) (hG : RtGOk k d (triangle (2 * (k + 1))) ts ws G) (x : Nat → ℝ)
    (hx : ∀ i < rtNum k, ∑ j ∈ Finset.range (rtNum k), G.ent i j * x j = 0) : ∀ j < rtNum k, x j = 0 := by
  obtain ⟨g1, g2, g3⟩ := rtG_apply hT hG x
  have := rtNum_eq k
  refine rtFun_zero (dirOf d) x ?_ ?_ ?_
  · intro e he i hi
    have hle : e * (k + 1) + i < rtNum k := by
      rcases (show e = 0 ∨ e = 1 ∨ e = 2 by omega) with rfl | rfl | rfl <;> omega
    have := g1 e he i hi
    rw [hx _ hle] at this
    exact (mul_eq_zero.1 this.symm).resolve_left (dirSign_ne _)
  · intro i hi
    rw [← g2 i hi, hx _ (by omega)]
  · intro i hi
    rw [← g3 i hi, hx _ (by omega)]

theorem sign_edge {e i : Nat} (he : e < 3) (hi : i < k + 1) : rtSign k d (e * (k + 1) + i) = dirSign (dirOf d e) := by
  have h1 : (e * (k + 1) + i) / (k + 1) = e := by
    rw [mul_comm, Nat.mul_add_div (by omega), Nat.div_eq_of_lt hi, add_zero]
  rw [rtSign, if_pos (by rcases (show e = 0 ∨ e = 1 ∨ e = 2 by omega) with rfl | rfl | rfl <;> omega), h1]
  rfl

theorem sign_inner {i : Nat} (hi : 3 * (k + 1) ≤ i) : rtSign k d i = 1 := by rw [rtSign, if_neg (by omega)]

/-- The degrees of freedom, in the words of the system. -/
theorem isRTDofs_iff (dir : Nat → Bool) (v : ℝ × ℝ → ℝ × ℝ) (c : Nat → ℝ) : IsRTDofs k dir v c ↔
    (∀ e < 3, ∀ i < k + 1, c (e * (k + 1) + i) = fluxMoment v (rtEdgeEnds dir e).1 (rtEdgeEnds dir e).2 i) ∧
    (∀ i < tri k, c (3 * (k + 1) + i) = ∫ p in refTri, ev2 (rtPoly k i) p * (v p).1) ∧
    (∀ i < tri k, c (3 * (k + 1) + tri k + i) = ∫ p in refTri, ev2 (rtPoly k i) p * (v p).2) := by
  have hpos : ∀ a b, a + b + 1 ≤ k → position a b < tri k ∧ ∀ p, ev2 (rtPoly k (position a b)) p = scaledMonomial (1 / 3, 1 / 3) 1 a b p := by
    intro a b hab
    obtain ⟨m, rfl⟩ : ∃ m, k = m + 1 := ⟨k - 1, by omega⟩
    exact ⟨position_lt.2 (by omega), fun p => ev2_basis_position (m + 1) (1 / 3, 1 / 3) 1 (by omega) p⟩
  have hex : ∀ i < tri k, ∃ a b, a + b + 1 ≤ k ∧ position a b = i := by
    intro i hi
    rcases k with _ | m
    · exact absurd hi (by simp [tri])
    · obtain ⟨a, b, h1, h2⟩ := exists_position hi
      exact ⟨a, b, by omega, h2⟩
  constructor
  · intro h
    refine ⟨fun e he i hi => h.edge e he i (by omega), fun i hi => ?_, fun i hi => ?_⟩
    · obtain ⟨a, b, hab, rfl⟩ := hex i hi
      rw [h.inner1 a b hab]
      simp only [(hpos a b hab).2]
    · obtain ⟨a, b, hab, rfl⟩ := hex i hi
      have := h.inner2 a b hab
      rw [tri_div'] at this
      rw [this]
      simp only [(hpos a b hab).2]
  · rintro ⟨h1, h2, h3⟩
    refine ⟨fun e he i hi => h1 e he i (by omega), fun a b hab => ?_, fun a b hab => ?_⟩
    · rw [h2 _ (hpos a b hab).1]
      simp only [(hpos a b hab).2]
    · rw [tri_div', h3 _ (hpos a b hab).1]
      simp only [(hpos a b hab).2]

/-- The system says that `c` holds the degrees of freedom of the field. -/
theorem dofs_iff (hT : IsRTTables k triangle gauss ts ws) (hG : RtGOk k d (triangle (2 * (k + 1))) ts ws G) (x c : Nat → ℝ) :
    IsRTDofs k (dirOf d) (rtFun k x) c ↔ ∀ i < rtNum k, ∑ j ∈ Finset.range (rtNum k), G.ent i j * x j = rtSign k d i * c i := by
  obtain ⟨g1, g2, g3⟩ := rtG_apply hT hG x
  have hN := rtNum_eq k
  rw [isRTDofs_iff]
  constructor
  · rintro ⟨h1, h2, h3⟩ i hi
    rcases row_cases hi with ⟨e, he, l, hl, rfl⟩ | ⟨l, hl, rfl⟩ | ⟨l, hl, rfl⟩
    · rw [g1 e he l hl, h1 e he l hl, sign_edge he hl]
    · rw [g2 l hl, h2 l hl, sign_inner (by omega), one_mul]
    · rw [g3 l hl, h3 l hl, sign_inner (by omega), one_mul]
  · intro h
    refine ⟨fun e he i hi => ?_, fun i hi => ?_, fun i hi => ?_⟩
    · have hle : e * (k + 1) + i < rtNum k := by
        rcases (show e = 0 ∨ e = 1 ∨ e = 2 by omega) with rfl | rfl | rfl <;> omega
      have := h _ hle
      rw [g1 e he i hi, sign_edge he hi] at this
      exact (mul_left_cancel₀ (dirSign_ne _) this).symm
    · have := h (3 * (k + 1) + i) (by omega)
      rw [g2 i hi, sign_inner (by omega), one_mul] at this
      exact this.symm
    · have := h (3 * (k + 1) + tri k + i) (by omega)
      rw [g3 i hi, sign_inner (by omega), one_mul] at this
      exact this.symm

end

end PolyDiM
