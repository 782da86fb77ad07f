import Verif.Spec.RT
import Verif.Lemmas.VemAlg
import Mathlib.Algebra.Polynomial.Taylor
import Mathlib.RingTheory.MvPolynomial.EulerIdentity
import Mathlib.Topology.Algebra.Polynomial

/-!
# Lemmas: unisolvence of the Raviart-Thomas space
-/

namespace PolyDiM

open Spec MvPolynomial MeasureTheory

/-- A polynomial in one variable with vanishing moments is zero. -/
theorem poly1_zero_of_moments (k : Nat) (r : Polynomial ℝ) (hr : r.natDegree ≤ k) (h : ∀ i ≤ k, ∫ t in (0 : ℝ)..1, r.eval t * (t - 1 / 2) ^ i = 0) :
    r = 0 := by
  have hc : ∀ i, IntervalIntegrable (fun t => (Polynomial.taylor (1 / 2) r).coeff i * (r.eval t * (t - 1 / 2) ^ i)) volume 0 1 := fun i =>
    (continuous_const.mul (r.continuous.mul ((continuous_id.sub continuous_const).pow i))).intervalIntegrable _ _
  have h2 : ∫ t in (0 : ℝ)..1, r.eval t * r.eval t = 0 := by
    have e : ∀ t : ℝ, r.eval t * r.eval t = ∑ i ∈ Finset.range (k + 1), (Polynomial.taylor (1 / 2) r).coeff i * (r.eval t * (t - 1 / 2) ^ i) := by
      intro t
      have := congrArg (Polynomial.eval t) (Polynomial.sum_taylor_eq r (1 / 2))
      rw [Polynomial.sum_over_range' _ (by simp) (k + 1) (by rw [Polynomial.natDegree_taylor]; omega), Polynomial.eval_finsetSum] at this
      simp only [Polynomial.eval_mul, Polynomial.eval_C, Polynomial.eval_pow, Polynomial.eval_sub, Polynomial.eval_X] at this
      refine (congrArg (· * r.eval t) this.symm).trans ?_
      rw [Finset.sum_mul]
      refine Finset.sum_congr rfl fun i _ => by ring
    simp only [e]
    rw [intervalIntegral.integral_finsetSum fun i _ => hc i]
    refine Finset.sum_eq_zero fun i hi => ?_
    rw [intervalIntegral.integral_const_mul, h i (by have := Finset.mem_range.1 hi; omega), mul_zero]
  have hcont : Continuous fun t => r.eval t * r.eval t := r.continuous.mul r.continuous
  rw [intervalIntegral.integral_of_le zero_le_one, setIntegral_eq_zero_iff_of_nonneg_ae (Filter.Eventually.of_forall fun p => mul_self_nonneg _)
    (hcont.intervalIntegrable 0 1).1] at h2
  have h' : (fun p => r.eval p * r.eval p) =ᵐ[volume.restrict (Set.Ioo (0 : ℝ) 1)] fun _ => 0 := ae_restrict_of_ae_restrict_of_subset Set.Ioo_subset_Ioc_self h2
  have h3 := Measure.eqOn_open_of_ae_eq h' isOpen_Ioo hcont.continuousOn continuousOn_const
  refine Polynomial.eq_zero_of_infinite_isRoot r (Set.Infinite.mono ?_ (Set.Ioo_infinite (zero_lt_one (α := ℝ))))
  intro t ht
  exact mul_self_eq_zero.1 (h3 ht)

/-- The same with a nonnegative weight that is positive inside the triangle. -/
theorem zero_of_weighted_square (i : Fin 2) (q : MvPolynomial (Fin 2) ℝ) (h : ∫ p in refTri, ev2 (X i * q) p * ev2 q p = 0) : q = 0 := by
  have hx : ∀ p : ℝ × ℝ, ev2 (X i * q) p * ev2 q p = ev2 (X i) p * (ev2 q p * ev2 q p) := by
    intro p
    simp only [ev2, map_mul]
    ring
  simp only [hx] at h
  have hc : Continuous fun p => ev2 (X i) p * (ev2 q p * ev2 q p) := (poly2_continuous _).mul ((poly2_continuous q).mul (poly2_continuous q))
  have hint : IntegrableOn (fun p => ev2 (X i) p * (ev2 q p * ev2 q p)) refTri := hc.continuousOn.integrableOn_compact refTriangle_compact
  have hpos : ∀ p ∈ refTri, 0 ≤ ev2 (X i) p := by
    intro p hp
    rw [refTri, refTriangle] at hp
    obtain ⟨h1, h2, _⟩ := hp
    fin_cases i <;> simpa [ev2]
  have hm : MeasurableSet refTri := refTriangle_compact.measurableSet
  rw [setIntegral_eq_zero_iff_of_nonneg_ae (ae_restrict_of_forall_mem hm fun p hp => mul_nonneg (hpos p hp) (mul_self_nonneg _)) hint] at h
  set U : Set (ℝ × ℝ) := Set.Ioo (0 : ℝ) (1 / 2) ×ˢ Set.Ioo (0 : ℝ) (1 / 2) with hU
  have hUo : IsOpen U := isOpen_Ioo.prod isOpen_Ioo
  have hUT : U ⊆ refTri := by
    rintro p ⟨⟨h1, h2⟩, h3, h4⟩
    rw [refTri, refTriangle]
    exact ⟨h1.le, h3.le, by linarith⟩
  have h' : (fun p => ev2 (X i) p * (ev2 q p * ev2 q p)) =ᵐ[volume.restrict U] fun _ => 0 := ae_restrict_of_ae_restrict_of_subset hUT h
  have h2 := Measure.eqOn_open_of_ae_eq h' hUo hc.continuousOn continuousOn_const
  refine ev2_zero_of_box q fun p hp1 hp2 => ?_
  have h3 := h2 (show p ∈ U from ⟨hp1, hp2⟩)
  have hp : ev2 (X i) p ≠ 0 := by
    fin_cases i
    · simpa [ev2] using hp1.1.ne'
    · simpa [ev2] using hp2.1.ne'
  exact mul_self_eq_zero.1 ((mul_eq_zero.1 h3).resolve_left hp)

/-- A polynomial is its restriction to an axis plus the coordinate times a polynomial of lower degree. -/
theorem axis_split (i : Fin 2) (a : MvPolynomial (Fin 2) ℝ) : ∃ a' : MvPolynomial (Fin 2) ℝ, a'.totalDegree ≤ a.totalDegree - 1 ∧
    a = aeval (fun j => if j = i then 0 else X j) a + X i * a' ∧ (a.totalDegree = 0 → a' = 0) := by
  refine ⟨∑ d ∈ a.support, if d i = 0 then 0 else MvPolynomial.monomial (d - Finsupp.single i 1) (coeff d a), ?_, ?_, ?_⟩
  · refine (totalDegree_finsetSum _ _).trans (Finset.sup_le fun d hd => ?_)
    split_ifs with h0
    · simp
    · refine (totalDegree_monomial_le _ _).trans ?_
      have h1 := le_totalDegree hd
      have h2 : (d - Finsupp.single i 1).sum (fun _ => id) + 1 ≤ d.sum fun _ e => e := by
        rw [Finsupp.sum_fintype _ _ (by simp), Finsupp.sum_fintype _ _ (by simp), Fin.sum_univ_two, Fin.sum_univ_two]
        fin_cases i <;> simp at h0 ⊢ <;> omega
      omega
  · conv_lhs => rw [a.as_sum]
    conv_rhs => rw [show aeval (fun j => if j = i then 0 else X j) a = ∑ d ∈ a.support, aeval (fun j => if j = i then (0 : MvPolynomial (Fin 2) ℝ) else X j) (MvPolynomial.monomial d (coeff d a)) by
      conv_lhs => rw [a.as_sum, map_sum]]
    rw [Finset.mul_sum, ← Finset.sum_add_distrib]
    refine Finset.sum_congr rfl fun d _ => ?_
    rw [aeval_monomial, algebraMap_eq, Finsupp.prod_fintype _ _ (by simp), Fin.prod_univ_two]
    by_cases h0 : d i = 0
    · rw [if_pos h0, mul_zero, add_zero, monomial_eq, Finsupp.prod_fintype _ _ (by simp), Fin.prod_univ_two]
      fin_cases i
      · simp at h0
        simp [h0]
      · simp at h0
        simp [h0]
    · have h1 : MvPolynomial.monomial d (coeff d a) = X i * MvPolynomial.monomial (d - Finsupp.single i 1) (coeff d a) := by
        rw [X, monomial_mul, one_mul, add_tsub_cancel_of_le]
        rw [Finsupp.single_le_iff]
        omega
      rw [if_neg h0, ← h1]
      fin_cases i
      · simp at h0
        simp [h0]
      · simp at h0
        simp [h0]
  · intro h0
    refine Finset.sum_eq_zero fun d hd => ?_
    have h1 := le_totalDegree hd
    rw [if_pos]
    rw [Finsupp.sum_fintype _ _ (by simp), Fin.sum_univ_two] at h1
    fin_cases i <;> simp <;> omega

theorem refTri_tri2L (p : ℝ × ℝ) : ((0 : ℝ), (0 : ℝ)) + tri2L ((0, 0), (1, 0), (0, 1)) p = p := by
  ext <;> simp [tri2L]

/-- The divergence theorem on the reference triangle. -/
theorem gauss_ref (q r : MvPolynomial (Fin 2) ℝ) : ∫ p in refTri, (ev2 (pderiv 0 q) p + ev2 (pderiv 1 r) p)
    = ∑ e ∈ Finset.range 3, segInt (fun p => dot2 (ev2 q p, ev2 r p) (clockwise (rtVertex ((e + 1) % 3) - rtVertex e))) (rtVertex e) (rtVertex ((e + 1) % 3)) := by
  have hx := gauss_tri_x ((0, 0), (1, 0), (0, 1)) q
  have hy := gauss_tri_y ((0, 0), (1, 0), (0, 1)) r
  simp only [refTri_tri2L] at hx hy
  have hs : shoelace ((0 : ℝ), (0 : ℝ)) (1, 0) (0, 1) = 1 := by simp [shoelace]
  rw [hs, one_mul] at hx hy
  have hi : ∀ s : MvPolynomial (Fin 2) ℝ, IntegrableOn (fun p => ev2 s p) {p : ℝ × ℝ | InTriangle (0, 0) (1, 0) (0, 1) p} :=
    fun s => (poly2_continuous s).continuousOn.integrableOn_compact refTriangle_compact
  rw [refTri, integral_add (hi _) (hi _), hx, hy]
  have hseg : ∀ (q r : MvPolynomial (Fin 2) ℝ) (P Q n : ℝ × ℝ), segInt (fun p => dot2 (ev2 q p, ev2 r p) n) P Q = segInt (ev2 q) P Q * n.1 + segInt (ev2 r) P Q * n.2 := by
    intro q r P Q n
    have hcs : Continuous fun t : ℝ => segPoint P Q t := by unfold segPoint; fun_prop
    have hc : ∀ (s : MvPolynomial (Fin 2) ℝ) (a : ℝ), IntervalIntegrable (fun t => ev2 s (segPoint P Q t) * a) volume 0 1 :=
      fun s a => (((poly2_continuous s).comp hcs).mul continuous_const).intervalIntegrable _ _
    unfold segInt dot2
    dsimp only
    rw [intervalIntegral.integral_add (hc _ _) (hc _ _), intervalIntegral.integral_mul_const, intervalIntegral.integral_mul_const]
  simp only [Finset.sum_range_succ, Finset.sum_range_zero, hseg, rtVertex, clockwise]
  norm_num
  ring

theorem totalDegree_pderiv (i : Fin 2) (q : MvPolynomial (Fin 2) ℝ) : (pderiv i q).totalDegree ≤ q.totalDegree - 1 := by
  conv_lhs => rw [q.as_sum, map_sum]
  refine (totalDegree_finsetSum _ _).trans (Finset.sup_le fun d hd => ?_)
  rw [pderiv_monomial]
  by_cases h0 : d i = 0
  · simp [h0]
  · refine (totalDegree_monomial_le _ _).trans ?_
    have h1 := le_totalDegree hd
    have h2 : (d - Finsupp.single i 1).sum (fun _ => id) + 1 ≤ d.sum fun _ e => e := by
      rw [Finsupp.sum_fintype _ _ (by simp), Finsupp.sum_fintype _ _ (by simp), Fin.sum_univ_two, Fin.sum_univ_two]
      fin_cases i <;> simp at h0 ⊢ <;> omega
    omega

theorem pderiv_const (i : Fin 2) (q : MvPolynomial (Fin 2) ℝ) (h : q.totalDegree = 0) : pderiv i q = 0 := by
  rw [totalDegree_eq_zero_iff_eq_C.1 h, pderiv_C]

/-- The normal component of a Raviart-Thomas field along a segment is a polynomial of degree at most `k`. -/
theorem rt_trace {k : Nat} {v : ℝ × ℝ → ℝ × ℝ} (hv : IsRT k v) (P Q : ℝ × ℝ) :
    ∃ r : Polynomial ℝ, r.natDegree ≤ k ∧ ∀ t, r.eval t = dot2 (v (segPoint P Q t)) (clockwise (Q - P)) := by
  obtain ⟨a, b, h, ha, hb, hh, hv⟩ := hv
  obtain ⟨ra, hra, ea⟩ := poly1_pullback P Q a
  obtain ⟨rb, hrb, eb⟩ := poly1_pullback P Q b
  obtain ⟨rh, hrh, eh⟩ := poly1_pullback P Q h
  have hhd : h.totalDegree ≤ k := hh.totalDegree_le
  refine ⟨ra * Polynomial.C (Q.2 - P.2) + rb * Polynomial.C (-(Q.1 - P.1)) + rh * Polynomial.C (P.1 * (Q.2 - P.2) - P.2 * (Q.1 - P.1)), ?_, ?_⟩
  · have hm : ∀ (r : Polynomial ℝ) (c : ℝ), r.natDegree ≤ k → (r * Polynomial.C c).natDegree ≤ k := fun r c hr =>
      (Polynomial.natDegree_mul_C_le r c).trans hr
    exact Polynomial.natDegree_add_le_of_degree_le (Polynomial.natDegree_add_le_of_degree_le (hm _ _ (hra.trans ha)) (hm _ _ (hrb.trans hb))) (hm _ _ (hrh.trans hhd))
  · intro t
    rw [hv, Polynomial.eval_add, Polynomial.eval_add, Polynomial.eval_mul, Polynomial.eval_mul, Polynomial.eval_mul, Polynomial.eval_C, Polynomial.eval_C,
      Polynomial.eval_C, ea, eb, eh]
    simp only [dot2, clockwise, segPoint, Prod.fst_sub, Prod.snd_sub]
    ring

theorem rt_trace_zero {k : Nat} {v : ℝ × ℝ → ℝ × ℝ} (hv : IsRT k v) (P Q : ℝ × ℝ) (h : ∀ i ≤ k, fluxMoment v P Q i = 0) (t : ℝ) :
    dot2 (v (segPoint P Q t)) (clockwise (Q - P)) = 0 := by
  obtain ⟨r, hr, e⟩ := rt_trace hv P Q
  have : r = 0 := by
    refine poly1_zero_of_moments k r hr fun i hi => ?_
    simp only [e]
    exact h i hi
  rw [← e, this, Polynomial.eval_zero]

section
variable {k : Nat} {a b h : MvPolynomial (Fin 2) ℝ}

theorem rt_div (hh : h.IsHomogeneous k) : pderiv 0 (a + X 0 * h) + pderiv 1 (b + X 1 * h) = pderiv 0 a + pderiv 1 b + C ((k : ℝ) + 2) * h := by
  have he := hh.sum_X_mul_pderiv
  rw [Fin.sum_univ_two] at he
  have e0 : pderiv 0 (a + X 0 * h) = pderiv 0 a + (X 0 * pderiv 0 h + h) := by
    simp only [map_add, Derivation.leibniz, pderiv_X_self, smul_eq_mul, mul_one]
  have e1 : pderiv 1 (b + X 1 * h) = pderiv 1 b + (X 1 * pderiv 1 h + h) := by
    simp only [map_add, Derivation.leibniz, pderiv_X_self, smul_eq_mul, mul_one]
  rw [e0, e1, C_add, map_natCast, add_mul, ← nsmul_eq_mul, ← he, show (C 2 : MvPolynomial (Fin 2) ℝ) = 2 by rw [show (2 : ℝ) = ((2 : ℕ) : ℝ) by norm_num, map_natCast]; norm_num]
  ring

/-- Unisolvence: a Raviart-Thomas field on the reference triangle without flux moments and without inner moments is zero. -/
theorem rt_unisolvent (ha : a.totalDegree ≤ k) (hb : b.totalDegree ≤ k) (hh : h.IsHomogeneous k)
    (hedge : ∀ e < 3, ∀ t, dot2 (ev2 (a + X 0 * h) (segPoint (rtVertex e) (rtVertex ((e + 1) % 3)) t),
      ev2 (b + X 1 * h) (segPoint (rtVertex e) (rtVertex ((e + 1) % 3)) t)) (clockwise (rtVertex ((e + 1) % 3) - rtVertex e)) = 0)
    (hint : ∀ q : MvPolynomial (Fin 2) ℝ, q.totalDegree + 1 ≤ k → ∫ p in refTri, ev2 (a + X 0 * h) p * ev2 q p = 0 ∧ ∫ p in refTri, ev2 (b + X 1 * h) p * ev2 q p = 0) :
    a = 0 ∧ b = 0 ∧ h = 0 := by
  have hhd : h.totalDegree ≤ k := hh.totalDegree_le
  set f := a + X 0 * h with hf
  set g := b + X 1 * h with hg
  have hi : ∀ s : MvPolynomial (Fin 2) ℝ, IntegrableOn (fun p => ev2 s p) refTri :=
    fun s => (poly2_continuous s).continuousOn.integrableOn_compact refTriangle_compact
  have hin : ∀ q : MvPolynomial (Fin 2) ℝ, q.totalDegree ≤ k → ∀ i, ∫ p in refTri, ev2 (f * pderiv i q) p = 0 ∧ ∫ p in refTri, ev2 (g * pderiv i q) p = 0 := by
    intro q hq i
    by_cases h0 : q.totalDegree = 0
    · rw [pderiv_const i q h0]
      simp [ev2]
    · have h1 := totalDegree_pderiv i q
      have h2 := hint (pderiv i q) (by omega)
      simpa [ev2] using h2
  have hdiv0 : ∀ q : MvPolynomial (Fin 2) ℝ, q.totalDegree ≤ k → ∫ p in refTri, ev2 ((pderiv 0 f + pderiv 1 g) * q) p = 0 := by
    intro q hq
    have hgs := gauss_ref (f * q) (g * q)
    have hz : ∀ e ∈ Finset.range 3, segInt (fun p => dot2 (ev2 (f * q) p, ev2 (g * q) p) (clockwise (rtVertex ((e + 1) % 3) - rtVertex e)))
        (rtVertex e) (rtVertex ((e + 1) % 3)) = 0 := by
      intro e he
      unfold segInt
      rw [intervalIntegral.integral_congr (g := fun _ => 0)]
      · simp
      · intro t _
        have := hedge e (Finset.mem_range.1 he) t
        simp only [dot2, ev2, map_mul] at this ⊢
        linear_combination MvPolynomial.eval ![(segPoint (rtVertex e) (rtVertex ((e + 1) % 3)) t).1, (segPoint (rtVertex e) (rtVertex ((e + 1) % 3)) t).2] q * this
    rw [Finset.sum_eq_zero hz] at hgs
    have he : ∀ p, ev2 (pderiv 0 (f * q)) p + ev2 (pderiv 1 (g * q)) p = ev2 ((pderiv 0 f + pderiv 1 g) * q) p + (ev2 (f * pderiv 0 q) p + ev2 (g * pderiv 1 q) p) := by
      intro p
      simp only [ev2, Derivation.leibniz, smul_eq_mul, map_add, map_mul]
      ring
    simp only [he] at hgs
    rw [integral_add (hi _) (by exact (hi _).add (hi _)), integral_add (hi _) (hi _), (hin q hq 0).1, (hin q hq 1).2, add_zero, add_zero] at hgs
    exact hgs
  have hdd : (pderiv 0 f + pderiv 1 g).totalDegree ≤ k := by
    rw [hf, hg, rt_div hh]
    refine (totalDegree_add _ _).trans (max_le ((totalDegree_add _ _).trans (max_le ?_ ?_)) ?_)
    · have := totalDegree_pderiv 0 a; omega
    · have := totalDegree_pderiv 1 b; omega
    · refine (totalDegree_mul _ _).trans ?_
      rw [totalDegree_C, zero_add]
      exact hhd
  have hdiv : pderiv 0 f + pderiv 1 g = 0 := by
    refine zero_of_ref_square _ ?_
    have := hdiv0 _ hdd
    simpa only [ev2, map_mul, refTri] using this
  have hh0 : h = 0 := by
    rw [hf, hg, rt_div hh] at hdiv
    have hc := congrArg (homogeneousComponent k) hdiv
    have hp : ∀ (i : Fin 2) (q : MvPolynomial (Fin 2) ℝ), q.totalDegree ≤ k → homogeneousComponent k (pderiv i q) = 0 := by
      intro i q hq
      by_cases h0 : q.totalDegree = 0
      · rw [pderiv_const i q h0, map_zero]
      · refine homogeneousComponent_eq_zero _ _ ?_
        have := totalDegree_pderiv i q
        omega
    rw [map_add, map_add, hp 0 a ha, hp 1 b hb, zero_add, zero_add, map_zero, homogeneousComponent_C_mul,
      homogeneousComponent_of_mem ((mem_homogeneousSubmodule k h).2 hh), if_pos rfl] at hc
    refine (mul_eq_zero.1 hc).resolve_left ?_
    intro hc0
    have h1 := C_eq_zero.1 hc0
    have h2 : (0 : ℝ) < (k : ℝ) + 2 := by positivity
    linarith
  have hfa : f = a := by rw [hf, hh0, mul_zero, add_zero]
  have hgb : g = b := by rw [hg, hh0, mul_zero, add_zero]
  have hax : ∀ (i : Fin 2) (q : MvPolynomial (Fin 2) ℝ), q.totalDegree ≤ k → (∀ p : ℝ × ℝ, (if i = 0 then p.1 else p.2) = 0 → ev2 q p = 0) →
      (∀ r : MvPolynomial (Fin 2) ℝ, r.totalDegree + 1 ≤ k → ∫ p in refTri, ev2 q p * ev2 r p = 0) → q = 0 := by
    intro i q hq hz hm
    obtain ⟨q', hd, he, hc⟩ := axis_split i q
    have h0 : aeval (fun j => if j = i then 0 else X j) q = (0 : MvPolynomial (Fin 2) ℝ) := by
      refine ev2_ext fun p => ?_
      have h1 := hz (if i = 0 then 0 else p.1, if i = 0 then p.2 else 0) (by split_ifs <;> rfl)
      have e : ev2 (aeval (fun j => if j = i then (0 : MvPolynomial (Fin 2) ℝ) else X j) q) p = ev2 q (if i = 0 then 0 else p.1, if i = 0 then p.2 else 0) := by
        simp only [ev2]
        rw [aeval_def, eval_eval₂]
        have h1 : (MvPolynomial.eval ![p.1, p.2]).comp (algebraMap ℝ (MvPolynomial (Fin 2) ℝ)) = RingHom.id ℝ := by
          ext x
          exact eval_C x
        rw [h1]
        unfold MvPolynomial.eval
        rw [coe_eval₂Hom]
        congr 1
        ext j
        fin_cases i <;> fin_cases j <;> simp
      rw [e, h1]
      simp [ev2]
    rw [h0, zero_add] at he
    by_cases hq0 : q.totalDegree = 0
    · rw [he, hc hq0, mul_zero]
    · have := hm q' (by omega)
      rw [he] at this
      rw [he, zero_of_weighted_square i q' this, mul_zero]
  refine ⟨hax 0 a ha ?_ ?_, hax 1 b hb ?_ ?_, hh0⟩
  · intro p hp
    have := hedge 2 (by norm_num) (1 - p.2)
    rw [hfa] at this
    simp only [if_pos] at hp
    have e : segPoint (rtVertex 2) (rtVertex ((2 + 1) % 3)) (1 - p.2) = p := by
      ext <;> simp [segPoint, rtVertex, hp]
    rw [e] at this
    simpa [dot2, clockwise, rtVertex] using this
  · intro r hr
    rw [← hfa]
    exact (hint r hr).1
  · intro p hp
    have := hedge 0 (by norm_num) p.1
    rw [hgb] at this
    simp at hp
    have e : segPoint (rtVertex 0) (rtVertex ((0 + 1) % 3)) p.1 = p := by
      ext <;> simp [segPoint, rtVertex, hp]
    rw [e] at this
    simpa [dot2, clockwise, rtVertex] using this
  · intro r hr
    rw [← hgb]
    exact (hint r hr).2

end

end PolyDiM
