import Verif.Lemmas.Gauss
import Verif.Lemmas.MonomialsFinal
import Verif.Model.VemPcc2D

/-!
# Lemmas: the scaled monomials as polynomials in two variables
-/

namespace PolyDiM

open Spec MvPolynomial

/-- The polynomial of a scaled monomial. -/
noncomputable def monoPoly (c : ℝ × ℝ) (h : ℝ) (e : List Nat) : MvPolynomial (Fin 2) ℝ :=
  (C (1 / h) * (X 0 - C c.1)) ^ ex e 0 * (C (1 / h) * (X 1 - C c.2)) ^ ex e 1

theorem ev2_monoPoly (c : ℝ × ℝ) (h : ℝ) (e : List Nat) (p : ℝ × ℝ) : ev2 (monoPoly c h e) p = Spec.monomial 2 e (planeCoord p) (planeCoord c) h := by
  simp only [ev2, monoPoly, map_mul, map_pow, map_sub, eval_C, eval_X, Spec.monomial, Finset.prod_range_succ, Finset.prod_range_zero, one_mul, planeCoord, ex]
  simp [div_eq_inv_mul]

theorem lin_degree (a b : ℝ) (i : Fin 2) : (C a * (X i - C b) : MvPolynomial (Fin 2) ℝ).totalDegree ≤ 1 := by
  refine (totalDegree_mul _ _).trans ?_
  rw [totalDegree_C, zero_add]
  refine (totalDegree_sub _ _).trans ?_
  rw [totalDegree_C, totalDegree_X]
  simp

theorem monoPoly_degree (c : ℝ × ℝ) (h : ℝ) (e : List Nat) : (monoPoly c h e).totalDegree ≤ ex e 0 + ex e 1 := by
  refine (totalDegree_mul _ _).trans (Nat.add_le_add ?_ ?_)
  · refine (totalDegree_pow _ _).trans ?_
    calc _ ≤ ex e 0 * 1 := Nat.mul_le_mul_left _ (lin_degree _ _ _)
      _ = _ := mul_one _
  · refine (totalDegree_pow _ _).trans ?_
    calc _ ≤ ex e 1 * 1 := Nat.mul_le_mul_left _ (lin_degree _ _ _)
      _ = _ := mul_one _

theorem monoPoly_pderiv0 (c : ℝ × ℝ) (h : ℝ) (a b : Nat) : pderiv 0 (monoPoly c h [a, b]) = C ((a : ℝ) / h) * monoPoly c h [a - 1, b] := by
  simp only [monoPoly, ex, List.getD_cons_zero, List.getD_cons_succ, Derivation.leibniz, Derivation.leibniz_pow, pderiv_C, map_sub, pderiv_X_self, smul_eq_mul,
    pderiv_X_of_ne (show (1 : Fin 2) ≠ 0 by decide), sub_zero, mul_zero, zero_add, add_zero, mul_one, nsmul_eq_mul, smul_zero]
  rw [show C ((a : ℝ) / h) = (a : MvPolynomial (Fin 2) ℝ) * C (1 / h) by rw [div_eq_mul_one_div, C_mul, map_natCast]]
  ring

theorem monoPoly_pderiv1 (c : ℝ × ℝ) (h : ℝ) (a b : Nat) : pderiv 1 (monoPoly c h [a, b]) = C ((b : ℝ) / h) * monoPoly c h [a, b - 1] := by
  simp only [monoPoly, ex, List.getD_cons_zero, List.getD_cons_succ, Derivation.leibniz, Derivation.leibniz_pow, pderiv_C, map_sub, pderiv_X_self, smul_eq_mul,
    pderiv_X_of_ne (show (0 : Fin 2) ≠ 1 by decide), sub_zero, mul_zero, add_zero, mul_one, nsmul_eq_mul, smul_zero]
  rw [show C ((b : ℝ) / h) = (b : MvPolynomial (Fin 2) ℝ) * C (1 / h) by rw [div_eq_mul_one_div, C_mul, map_natCast]]
  ring

/-- The monomial with number `j`. -/
noncomputable def basisPoly (k : Nat) (c : ℝ × ℝ) (h : ℝ) (j : Nat) : MvPolynomial (Fin 2) ℝ := monoPoly c h ((compute mono2 k).exps.getD j [])

section
variable (k : Nat) (c : ℝ × ℝ) (h : ℝ)

theorem exps2_get {j : Nat} (hj : j < (compute mono2 k).num) : ∃ a b, (compute mono2 k).exps[j]? = some [a, b] ∧ a + b ≤ k ∧ rank2 [a, b] = j := by
  obtain ⟨e, he⟩ := get_of_lt mono2 hj
  obtain ⟨hl, hs, hr⟩ := (exps_iff ranked2 k j e).1 he
  obtain ⟨a, b, rfl⟩ := len2 hl
  exact ⟨a, b, he, by simpa using hs, hr⟩

theorem basisPoly_get {j : Nat} {e : List Nat} (he : (compute mono2 k).exps[j]? = some e) : basisPoly k c h j = monoPoly c h e := by
  rw [basisPoly, List.getD_eq_getElem?_getD, he]
  rfl

theorem basisPoly_rank {a b : Nat} (hab : a + b ≤ k) : basisPoly k c h (rank2 [a, b]) = monoPoly c h [a, b] :=
  basisPoly_get k c h ((exps_iff ranked2 k _ _).2 ⟨rfl, by simpa using hab, rfl⟩)

theorem rank2_eq (a b : Nat) : rank2 [a, b] = tri (a + b) + b := rfl

theorem num2_eq : (compute mono2 k).num = tri (k + 1) := tri_div k

theorem rank2_lt_iff {a b m : Nat} : rank2 [a, b] < tri (m + 1) ↔ a + b ≤ m := by
  rw [rank2_eq]
  constructor
  · intro hlt
    by_contra hc
    have := tri_le (show m + 1 ≤ a + b by omega)
    omega
  · intro hle
    have := tri_le (show a + b + 1 ≤ m + 1 by omega)
    rw [tri_succ] at this
    omega

theorem basisPoly_zero : basisPoly k c h 0 = 1 := by
  have := basisPoly_rank k c h (a := 0) (b := 0) (by omega)
  rw [show rank2 [0, 0] = 0 from rfl] at this
  rw [this]
  simp [monoPoly, ex]

/-- Degree of the monomials in the first `tri (m + 1)` positions. -/
theorem basisPoly_degree {j m : Nat} (hj : j < (compute mono2 k).num) (hm : j < tri (m + 1)) : (basisPoly k c h j).totalDegree ≤ m := by
  obtain ⟨a, b, he, hab, hr⟩ := exps2_get k hj
  rw [basisPoly_get k c h he]
  refine (monoPoly_degree c h _).trans ?_
  rw [← hr, rank2_lt_iff] at hm
  simpa [ex] using hm

theorem sum_single_range {N r : Nat} (hr : r < N) (x : MvPolynomial (Fin 2) ℝ) (F : Nat → MvPolynomial (Fin 2) ℝ) (hF : F r = x) (h0 : ∀ l < N, l ≠ r → F l = 0) :
    ∑ l ∈ Finset.range N, F l = x := by
  rw [Finset.sum_eq_single r, hF]
  · intro l hl hlr
    exact h0 l (Finset.mem_range.1 hl) hlr
  · intro hn
    exact absurd (Finset.mem_range.2 hr) hn

/-- The derivative matrices express the derivatives of the monomials, by monomials of lower degree. -/
theorem basisPoly_pderiv {j m : Nat} (hj : j < (compute mono2 k).num) (hm : j < tri (m + 1)) (hk : m ≤ k) (d : Fin 2) :
    pderiv d (basisPoly k c h j) = ∑ l ∈ Finset.range (tri m), C (((compute mono2 k).der d j l : ℝ) / h) * basisPoly k c h l := by
  obtain ⟨a, b, he, hab, hr⟩ := exps2_get k hj
  rw [basisPoly_get k c h he]
  have hmab : a + b ≤ m := by rwa [← hr, rank2_lt_iff] at hm
  have hde := der_entry ranked2 diff2 he (d := d) (by show (d : Nat) < 2; omega)
  fin_cases d
  · rw [Fin.zero_eta, monoPoly_pderiv0]
    simp only [Fin.val_zero, ex, List.getD_cons_zero, List.set_cons_zero] at hde ⊢
    rcases Nat.eq_zero_or_pos a with rfl | ha
    · simp only [hde]
      simp
    · have hlt : rank2 [a - 1, b] < tri m := by
        obtain ⟨m', rfl⟩ : ∃ m', m = m' + 1 := ⟨m - 1, by omega⟩
        rw [rank2_lt_iff]
        omega
      refine (sum_single_range hlt _ _ ?_ ?_).symm
      · rw [hde, if_pos ⟨ha, rfl⟩, basisPoly_rank k c h (by omega)]
        norm_num
      · intro l _ hl
        rw [hde, if_neg (fun hh => hl hh.2.symm)]
        simp
  · simp only [Fin.mk_one]
    rw [monoPoly_pderiv1]
    simp only [ex, List.getD_cons_zero, List.getD_cons_succ, List.set_cons_zero, List.set_cons_succ] at hde ⊢
    rcases Nat.eq_zero_or_pos b with rfl | hb
    · simp only [hde]
      simp
    · have hlt : rank2 [a, b - 1] < tri m := by
        obtain ⟨m', rfl⟩ : ∃ m', m = m' + 1 := ⟨m - 1, by omega⟩
        rw [rank2_lt_iff]
        omega
      refine (sum_single_range hlt _ _ ?_ ?_).symm
      · rw [hde, if_pos ⟨hb, rfl⟩, basisPoly_rank k c h (by omega)]
        norm_num
      · intro l _ hl
        rw [hde, if_neg (fun hh => hl hh.2.symm)]
        simp

theorem lap_part {a b r m : Nat} (N : Nat) (hr : 2 ≤ a → r < N) (hb : 2 ≤ a → basisPoly k c h r = monoPoly c h [m, b]) :
    ∑ l ∈ Finset.range N, C (((if 2 ≤ a ∧ r = l then (a : Int) * ((a : Int) - 1) else 0 : Int) : ℝ) / (h * h)) * basisPoly k c h l
      = C ((a : ℝ) / h) * (C (((a - 1 : Nat) : ℝ) / h) * monoPoly c h [m, b]) := by
  by_cases ha : 2 ≤ a
  · refine sum_single_range (hr ha) _ _ ?_ ?_
    · rw [if_pos ⟨ha, rfl⟩, hb ha, ← mul_assoc, ← C_mul]
      congr 2
      push_cast [Nat.cast_sub (show 1 ≤ a by omega)]
      rw [div_mul_div_comm]
    · intro l _ hl
      rw [if_neg (fun hh => hl hh.2.symm)]
      simp
  · have h0 : (a : ℝ) / h * (((a - 1 : Nat) : ℝ) / h) = 0 := by
      rcases (show a = 0 ∨ a = 1 by omega) with rfl | rfl <;> simp
    rw [← mul_assoc, ← C_mul, h0]
    simp [ha]

/-- The Laplacian matrix expresses the Laplacians of the monomials, by monomials of lower degree. -/
theorem basisPoly_lap {j m : Nat} (hj : j < (compute mono2 k).num) (hm : j < tri (m + 1)) (hk : m ≤ k) :
    pderiv 0 (pderiv 0 (basisPoly k c h j)) + pderiv 1 (pderiv 1 (basisPoly k c h j))
      = ∑ l ∈ Finset.range (tri (m - 1)), C (((compute mono2 k).lap j l : ℝ) / (h * h)) * basisPoly k c h l := by
  obtain ⟨a, b, he, hab, hr⟩ := exps2_get k hj
  have hmab : a + b ≤ m := by rwa [← hr, rank2_lt_iff] at hm
  have hle := lap_entry ranked2 diff2 (fun _ _ => rfl) he
  rw [basisPoly_get k c h he, monoPoly_pderiv0, monoPoly_pderiv1, Derivation.leibniz, Derivation.leibniz, pderiv_C, pderiv_C, smul_zero, add_zero,
    smul_zero, add_zero, smul_eq_mul, smul_eq_mul, monoPoly_pderiv0, monoPoly_pderiv1]
  have h0 := lap_part k c h (a := a) (b := b) (r := rank2 [a - 2, b]) (m := a - 1 - 1) (tri (m - 1))
    (fun ha => by
      obtain ⟨m', rfl⟩ : ∃ m', m = m' + 2 := ⟨m - 2, by omega⟩
      rw [show m' + 2 - 1 = m' + 1 by omega, rank2_lt_iff]
      omega) (fun ha => basisPoly_rank k c h (by omega))
  have h1 : ∑ l ∈ Finset.range (tri (m - 1)), C (((if 2 ≤ b ∧ rank2 [a, b - 2] = l then (b : Int) * ((b : Int) - 1) else 0 : Int) : ℝ) / (h * h)) * basisPoly k c h l
      = C ((b : ℝ) / h) * (C (((b - 1 : Nat) : ℝ) / h) * monoPoly c h [a, b - 1 - 1]) := by
    have hm2 : 2 ≤ b → rank2 [a, b - 2] < tri (m - 1) := fun hb => by
      obtain ⟨m', rfl⟩ : ∃ m', m = m' + 2 := ⟨m - 2, by omega⟩
      rw [show m' + 2 - 1 = m' + 1 by omega, rank2_lt_iff]
      omega
    exact lap_part k c h (a := b) (b := b - 1 - 1) (r := rank2 [a, b - 2]) (m := a) (tri (m - 1)) hm2 (fun hb => basisPoly_rank k c h (by omega))
  rw [← h0, ← h1, ← Finset.sum_add_distrib]
  refine Finset.sum_congr rfl fun l _ => ?_
  rw [← add_mul, ← C_add, hle l, show mono2.dim = 2 from rfl, Finset.sum_range_succ, Finset.sum_range_one]
  simp only [ex, List.getD_cons_zero, List.getD_cons_succ, List.set_cons_zero, List.set_cons_succ]
  push_cast
  rw [add_div]

/-- The substitution that undoes centre and scale. -/
noncomputable def unscale : MvPolynomial (Fin 2) ℝ →ₐ[ℝ] MvPolynomial (Fin 2) ℝ := aeval ![C c.1 + C h * X 0, C c.2 + C h * X 1]

/-- The substitution of centre and scale. -/
noncomputable def rescale : MvPolynomial (Fin 2) ℝ →ₐ[ℝ] MvPolynomial (Fin 2) ℝ := aeval ![C (1 / h) * (X 0 - C c.1), C (1 / h) * (X 1 - C c.2)]

theorem unscale_monoPoly (hh : h ≠ 0) (e : List Nat) :
    unscale c h (monoPoly c h e) = MvPolynomial.monomial (Finsupp.single 0 (ex e 0) + Finsupp.single 1 (ex e 1)) 1 := by
  have e0 : (C (1 / h) * (C c.1 + C h * X 0 - C c.1) : MvPolynomial (Fin 2) ℝ) = X 0 := by
    rw [add_sub_cancel_left, ← mul_assoc, ← C_mul, one_div_mul_cancel hh, C_1, one_mul]
  have e1 : (C (1 / h) * (C c.2 + C h * X 1 - C c.2) : MvPolynomial (Fin 2) ℝ) = X 1 := by
    rw [add_sub_cancel_left, ← mul_assoc, ← C_mul, one_div_mul_cancel hh, C_1, one_mul]
  have u0 : unscale c h (X 0) = C c.1 + C h * X 0 := by simp [unscale]
  have u1 : unscale c h (X 1) = C c.2 + C h * X 1 := by simp [unscale]
  have uC : ∀ a, unscale c h (C a) = C a := fun a => by simp [unscale, algebraMap_eq]
  rw [monoPoly, map_mul, map_pow, map_pow, map_mul, map_mul, map_sub, map_sub, u0, u1, uC, uC, uC, e0, e1, X_pow_eq_monomial, X_pow_eq_monomial,
    monomial_mul, one_mul]

/-- The monomials are linearly independent. -/
theorem basisPoly_independent (hh : h ≠ 0) (x : Nat → ℝ) (h0 : ∑ j ∈ Finset.range (compute mono2 k).num, C (x j) * basisPoly k c h j = 0) :
    ∀ j < (compute mono2 k).num, x j = 0 := by
  intro j hj
  obtain ⟨a, b, he, hab, hr⟩ := exps2_get k hj
  have h1 := congrArg (fun q => coeff (Finsupp.single 0 a + Finsupp.single 1 b) (unscale c h q)) h0
  simp only [map_sum, map_mul, map_zero, coeff_zero, coeff_sum] at h1
  rw [Finset.sum_eq_single j] at h1
  · rw [basisPoly_get k c h he, unscale_monoPoly c h hh] at h1
    simpa [unscale, algebraMap_eq, ex] using h1
  · intro l hl hlj
    obtain ⟨a', b', he', hab', hr'⟩ := exps2_get k (Finset.mem_range.1 hl)
    rw [basisPoly_get k c h he', unscale_monoPoly c h hh]
    have hu : unscale c h (C (x l)) = C (x l) := by simp [unscale, algebraMap_eq]
    rw [hu, coeff_C_mul, coeff_monomial, if_neg, mul_zero]
    intro heq
    apply hlj
    have g0 := DFunLike.congr_fun heq 0
    have g1 := DFunLike.congr_fun heq 1
    simp [ex] at g0 g1
    rw [← hr, ← hr', g0, g1]
  · intro hn
    exact absurd (Finset.mem_range.2 hj) hn

theorem rescale_unscale (hh : h ≠ 0) (q : MvPolynomial (Fin 2) ℝ) : rescale c h (unscale c h q) = q := by
  have : (rescale c h).comp (unscale c h) = AlgHom.id ℝ _ := by
    refine MvPolynomial.algHom_ext fun i => ?_
    have e : ∀ (a : ℝ) (Y : MvPolynomial (Fin 2) ℝ), C a + C h * (C (1 / h) * (Y - C a)) = Y := by
      intro a Y
      rw [← mul_assoc, ← C_mul, mul_one_div_cancel hh, C_1, one_mul, add_sub_cancel]
    fin_cases i
    · simp only [Fin.zero_eta, AlgHom.comp_apply, unscale, aeval_X, Matrix.cons_val_zero, map_add, map_mul, rescale, AlgHom.id_apply]
      simpa [algebraMap_eq] using e c.1 (X 0)
    · simp only [Fin.mk_one, AlgHom.comp_apply, unscale, aeval_X, Matrix.cons_val_one, rescale, AlgHom.id_apply]
      simpa [algebraMap_eq] using e c.2 (X 1)
  exact DFunLike.congr_fun this q

theorem rescale_monomial (d : Fin 2 →₀ ℕ) (a : ℝ) : rescale c h (MvPolynomial.monomial d a) = C a * monoPoly c h [d 0, d 1] := by
  rw [rescale, aeval_monomial, algebraMap_eq, Finsupp.prod_fintype _ _ (by simp)]
  simp [monoPoly, ex]

/-- The monomials span the polynomials of degree at most `m`. -/
theorem basisPoly_span (hh : h ≠ 0) {m : Nat} (hm : m ≤ k) (q : MvPolynomial (Fin 2) ℝ) (hq : q.totalDegree ≤ m) :
    ∃ x : Nat → ℝ, q = ∑ j ∈ Finset.range (tri (m + 1)), C (x j) * basisPoly k c h j := by
  have hmem : q ∈ Submodule.span ℝ (Set.range fun j : Fin (tri (m + 1)) => basisPoly k c h j) := by
    rw [← rescale_unscale c h hh q]
    have hdeg : (unscale c h q).totalDegree ≤ m := by
      refine (totalDegree_aeval_le _ ?_ q).trans hq
      intro i
      have hl : ∀ (a : ℝ) (i : Fin 2), (C a + C h * X i : MvPolynomial (Fin 2) ℝ).totalDegree ≤ 1 := by
        intro a i
        refine (totalDegree_add _ _).trans (max_le ?_ (deg_CX h i))
        rw [totalDegree_C]
        omega
      fin_cases i
      · exact hl _ _
      · exact hl _ _
    rw [(unscale c h q).as_sum, map_sum]
    refine Submodule.sum_mem _ fun d hd => ?_
    rw [rescale_monomial]
    have hd' : d 0 + d 1 ≤ m := by
      have := le_totalDegree hd
      rw [Finsupp.sum_fintype _ _ (by simp), Fin.sum_univ_two] at this
      omega
    rw [← basisPoly_rank k c h (show d 0 + d 1 ≤ k by omega), ← smul_eq_C_mul]
    exact Submodule.smul_mem _ _ (Submodule.subset_span ⟨⟨rank2 [d 0, d 1], rank2_lt_iff.2 hd'⟩, rfl⟩)
  obtain ⟨f, hf⟩ := (Submodule.mem_span_range_iff_exists_fun ℝ).1 hmem
  refine ⟨fun j => if hj : j < tri (m + 1) then f ⟨j, hj⟩ else 0, ?_⟩
  rw [← hf, Finset.sum_range]
  refine Finset.sum_congr rfl fun j _ => ?_
  dsimp only
  rw [dif_pos j.2, smul_eq_C_mul]

end

end PolyDiM
