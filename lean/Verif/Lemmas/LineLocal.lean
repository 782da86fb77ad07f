import Verif.Lemmas.Line

/-!
# Lemmas: residual and energy on one segment
-/

namespace PolyDiM

open Spec Polynomial

variable {k : Nat} {d : Fem1Data ℝ} {mid : List ℝ} {rule : Rule ℝ ℝ}

theorem gauss_sum (hG : IsGauss k rule) {p : ℝ[X]} (hp : p.natDegree ≤ 2 * k) :
    ∑ q ∈ Finset.range rule.points.length, rule.weights.getD q 0 * p.eval (rule.points.getD q 0) = ∫ t in (0 : ℝ)..1, p.eval t := by
  rw [← hG.exact p hp]
  refine sum_quadSum rule.points rule.weights hG.size (fun q => p.eval (rule.points.getD q 0)) (fun t => p.eval t) fun i t hi => ?_
  rw [List.getD_eq_getElem?_getD, hi, Option.getD_some]

theorem integral_derivative (p : ℝ[X]) : ∫ t in (0 : ℝ)..1, (Polynomial.derivative p).eval t = p.eval 1 - p.eval 0 :=
  intervalIntegral.integral_eq_sub_of_hasDerivAt (fun t _ => p.hasDerivAt t) ((Polynomial.derivative p).continuous.intervalIntegrable _ _)

theorem point_mem {q : Nat} (hq : q < rule.points.length) : rule.points.getD q 0 ∈ rule.points := by
  rw [List.getD_eq_getElem?_getD, List.getElem?_eq_getElem hq, Option.getD_some]
  exact List.getElem_mem hq

/-- The residual of a solution on one segment: only the fluxes at the two ends remain. -/
theorem LineRef.local_residual (R : LineRef k d mid) (hk : 1 ≤ k) (hG : IsGauss k rule) (g : LineGeometry ℝ) (c : Nat) (hl : 0 < g.length c) (test : LineTest ℝ)
    {κ σ : ℝ} {P : ℝ[X]} (hP : P.natDegree ≤ k)
    (hdiff : ∀ t ∈ rule.points, test.diffusion (segF (fem1Map (g.origin c) (g.tangent c) (g.length c)) t) = κ)
    (hreac : ∀ t ∈ rule.points, test.reaction (segF (fem1Map (g.origin c) (g.tangent c) (g.length c)) t) = σ)
    (hsrc : ∀ t ∈ rule.points, test.source (segF (fem1Map (g.origin c) (g.tangent c) (g.length c)) t)
      = -(κ * (Polynomial.derivative (Polynomial.derivative P)).eval t / g.length c ^ 2) + σ * P.eval t) :
    ∃ s A b, lineSpace d rule g c = .ok s ∧ lineLocal s test = .ok (A, b) ∧ A.rows = k + 1 ∧ A.cols = k + 1 ∧ b.rows = k + 1 ∧
      ∀ x : Nat → ℝ, (∀ i < k + 1, x i = P.eval (d.positions.getD i 0)) → ∀ v : Nat → ℝ,
        ∑ i ∈ Finset.range (k + 1), v i * (∑ j ∈ Finset.range (k + 1), A.ent i j * x j - b.ent i 0)
          = κ / g.length c * ((Polynomial.derivative P).eval 1 * v 1 - (Polynomial.derivative P).eval 0 * v 0) := by
  obtain ⟨s, A, b, hs, hl', hAr, hAc, hbr, -, hA, hb⟩ := R.local_form hk hG.size g c test
  refine ⟨s, A, b, hs, hl', hAr, hAc, hbr, fun x hx v => ?_⟩
  simp only [mul_sub, Finset.sum_sub_distrib]
  rw [hA v x, hb v, ← Finset.sum_sub_distrib, R.reproduce hP hx]
  set V := lineInterp k d v with hV
  have hVd : V.natDegree ≤ k := R.interp_degree v
  have h1 : ∀ q ∈ Finset.range rule.points.length,
      rule.weights.getD q 0 * |g.length c| *
            (test.diffusion (segF (fem1Map (g.origin c) (g.tangent c) (g.length c)) (rule.points.getD q 0)) *
                (((Polynomial.derivative V).eval (rule.points.getD q 0) / g.length c) * ((Polynomial.derivative P).eval (rule.points.getD q 0) / g.length c))
              + test.reaction (segF (fem1Map (g.origin c) (g.tangent c) (g.length c)) (rule.points.getD q 0)) *
                (V.eval (rule.points.getD q 0) * P.eval (rule.points.getD q 0)))
        - rule.weights.getD q 0 * |g.length c| *
            (test.source (segF (fem1Map (g.origin c) (g.tangent c) (g.length c)) (rule.points.getD q 0)) * V.eval (rule.points.getD q 0))
      = κ / g.length c * (rule.weights.getD q 0 * (Polynomial.derivative (V * Polynomial.derivative P)).eval (rule.points.getD q 0)) := by
    intro q hq
    have hm := point_mem (Finset.mem_range.1 hq)
    rw [hdiff _ hm, hreac _ hm, hsrc _ hm, abs_of_pos hl, derivative_mul, eval_add, eval_mul, eval_mul]
    field_simp
    ring
  rw [Finset.sum_congr rfl h1, ← Finset.mul_sum, gauss_sum hG, integral_derivative, eval_mul, eval_mul, hV, R.interp_one hk, R.interp_zero]
  · ring
  · have h2 := natDegree_derivative_le P
    have h3 := natDegree_derivative_le (V * Polynomial.derivative P)
    have h4 := natDegree_mul_le (p := V) (q := Polynomial.derivative P)
    omega

/-- Nothing but the zero polynomial has a vanishing integral of its square. -/
theorem square_integral_zero {p : ℝ[X]} (h : ∫ t in (0 : ℝ)..1, (p * p).eval t = 0) : p = 0 := by
  by_contra hp
  have hpos : 0 < ∫ t in (0 : ℝ)..1, (p * p).eval t := by
    obtain ⟨t, ht, hne⟩ : ∃ t ∈ Set.Ioo (0 : ℝ) 1, p.eval t ≠ 0 := by
      by_contra hall
      push Not at hall
      exact hp (Polynomial.eq_zero_of_infinite_isRoot p ((Set.Ioo_infinite (by norm_num : (0 : ℝ) < 1)).mono fun t ht => hall t ht))
    refine intervalIntegral.integral_pos (by norm_num) (p * p).continuous.continuousOn (fun s _ => ?_) ⟨t, ⟨ht.1.le, ht.2.le⟩, ?_⟩
    · rw [eval_mul]; exact mul_self_nonneg _
    · rw [eval_mul]; exact mul_self_pos.2 hne
  exact hpos.ne' h

/-- The energy of one segment: never negative; when it vanishes the function is constant, and zero where the reaction is positive. -/
theorem LineRef.local_energy (R : LineRef k d mid) (hk : 1 ≤ k) (hG : IsGauss k rule) (hw : ∀ w ∈ rule.weights, 0 ≤ w) (g : LineGeometry ℝ) (c : Nat) (hl : 0 < g.length c)
    (test : LineTest ℝ) (hdiff : ∀ t ∈ rule.points, 0 < test.diffusion (segF (fem1Map (g.origin c) (g.tangent c) (g.length c)) t))
    (hreac : ∀ t ∈ rule.points, 0 ≤ test.reaction (segF (fem1Map (g.origin c) (g.tangent c) (g.length c)) t)) :
    ∃ s A b, lineSpace d rule g c = .ok s ∧ lineLocal s test = .ok (A, b) ∧ A.rows = k + 1 ∧ A.cols = k + 1 ∧ b.rows = k + 1 ∧
      ∀ v : Nat → ℝ, 0 ≤ ∑ i ∈ Finset.range (k + 1), v i * ∑ j ∈ Finset.range (k + 1), A.ent i j * v j ∧
        (∑ i ∈ Finset.range (k + 1), v i * ∑ j ∈ Finset.range (k + 1), A.ent i j * v j = 0 →
          (∀ i < k + 1, v i = v 0) ∧ ((∀ t ∈ rule.points, 0 < test.reaction (segF (fem1Map (g.origin c) (g.tangent c) (g.length c)) t)) → v 0 = 0)) := by
  obtain ⟨s, A, b, hs, hl', hAr, hAc, hbr, -, hA, -⟩ := R.local_form hk hG.size g c test
  refine ⟨s, A, b, hs, hl', hAr, hAc, hbr, fun v => ?_⟩
  rw [hA v v]
  set V := lineInterp k d v with hV
  set m := fem1Map (g.origin c) (g.tangent c) (g.length c) with hm
  have hVd : V.natDegree ≤ k := R.interp_degree v
  have hw' : ∀ q < rule.points.length, 0 ≤ rule.weights.getD q 0 := by
    intro q hq
    rw [← hG.size] at hq
    rw [List.getD_eq_getElem?_getD, List.getElem?_eq_getElem hq, Option.getD_some]
    exact hw _ (List.getElem_mem hq)
  have hterm : ∀ q ∈ Finset.range rule.points.length, 0 ≤ rule.weights.getD q 0 * |g.length c| *
            (test.diffusion (segF m (rule.points.getD q 0)) * (((Polynomial.derivative V).eval (rule.points.getD q 0) / g.length c)
                  * ((Polynomial.derivative V).eval (rule.points.getD q 0) / g.length c))
              + test.reaction (segF m (rule.points.getD q 0)) * (V.eval (rule.points.getD q 0) * V.eval (rule.points.getD q 0))) := by
    intro q hq
    have hmem := point_mem (Finset.mem_range.1 hq)
    refine mul_nonneg (mul_nonneg (hw' q (Finset.mem_range.1 hq)) (abs_nonneg _)) (add_nonneg (mul_nonneg (hdiff _ hmem).le (mul_self_nonneg _))
      (mul_nonneg (hreac _ hmem) (mul_self_nonneg _)))
  refine ⟨Finset.sum_nonneg hterm, fun h0 => ?_⟩
  have hz := (Finset.sum_eq_zero_iff_of_nonneg hterm).1 h0
  have key : ∀ q ∈ Finset.range rule.points.length, rule.weights.getD q 0 = 0 ∨ ((Polynomial.derivative V).eval (rule.points.getD q 0) = 0 ∧
      (0 < test.reaction (segF m (rule.points.getD q 0)) → V.eval (rule.points.getD q 0) = 0)) := by
    intro q hq
    have hmem := point_mem (Finset.mem_range.1 hq)
    rcases mul_eq_zero.1 (hz q hq) with h1 | h1
    · rcases mul_eq_zero.1 h1 with h2 | h2
      · exact Or.inl h2
      · exact absurd h2 (abs_pos.2 hl.ne').ne'
    · right
      have hn1 := mul_nonneg (hdiff _ hmem).le (mul_self_nonneg ((Polynomial.derivative V).eval (rule.points.getD q 0) / g.length c))
      have hn2 := mul_nonneg (hreac _ hmem) (mul_self_nonneg (V.eval (rule.points.getD q 0)))
      obtain ⟨h3, h4⟩ := (add_eq_zero_iff_of_nonneg hn1 hn2).1 h1
      refine ⟨?_, fun hr => ?_⟩
      · have := mul_self_eq_zero.1 ((mul_eq_zero.1 h3).resolve_left (hdiff _ hmem).ne')
        exact (div_eq_zero_iff.1 this).resolve_right hl.ne'
      · exact mul_self_eq_zero.1 ((mul_eq_zero.1 h4).resolve_left hr.ne')
  have hder : Polynomial.derivative V = 0 := by
    refine square_integral_zero ?_
    rw [← gauss_sum hG]
    · refine Finset.sum_eq_zero fun q hq => ?_
      rcases key q hq with h | h
      · rw [h, zero_mul]
      · rw [eval_mul, h.1, zero_mul, mul_zero]
    · have h1 := natDegree_derivative_le V
      have h2 := natDegree_mul_le (p := Polynomial.derivative V) (q := Polynomial.derivative V)
      omega
  have hconst : V = C (V.coeff 0) := eq_C_of_derivative_eq_zero hder
  refine ⟨fun i hi => ?_, fun hr => ?_⟩
  · have h1 := R.interp_node v hi
    have h2 := R.interp_zero v
    rw [← hV, hconst, eval_C] at h1 h2
    rw [← h1, ← h2]
  · have hV0 : V = 0 := by
      refine square_integral_zero ?_
      rw [← gauss_sum hG]
      · refine Finset.sum_eq_zero fun q hq => ?_
        rcases key q hq with h | h
        · rw [h, zero_mul]
        · rw [eval_mul, h.2 (hr _ (point_mem (Finset.mem_range.1 hq))), zero_mul, mul_zero]
      · have h2 := natDegree_mul_le (p := V) (q := V)
        omega
    rw [← R.interp_zero v, ← hV, hV0, eval_zero]

end PolyDiM
