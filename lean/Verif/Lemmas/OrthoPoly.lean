import Verif.Lemmas.OrthoQR
import Verif.Lemmas.VemEval

/-!
# Lemmas: the polynomials of the orthonormal basis
-/

namespace PolyDiM

open Spec MvPolynomial

section

variable {k : Nat} {c : ℝ × ℝ} {h : ℝ} {H QI Q : DMat ℝ} {points : List (ℝ × ℝ)} {w : List ℝ}

/-- A polynomial of the basis described by the rows of `Q`. -/
noncomputable def oPoly (k : Nat) (c : ℝ × ℝ) (h : ℝ) (Q : DMat ℝ) (i : Nat) : MvPolynomial (Fin 2) ℝ := combo k c h (tri (k + 1)) fun j => Q.ent i j

/-- A combination of the first `M` polynomials of that basis. -/
noncomputable def oCombo (k : Nat) (c : ℝ × ℝ) (h : ℝ) (Q : DMat ℝ) (M : Nat) (x : Nat → ℝ) : MvPolynomial (Fin 2) ℝ :=
  ∑ i ∈ Finset.range M, C (x i) * oPoly k c h Q i

theorem oCombo_eq (M : Nat) (x : Nat → ℝ) : oCombo k c h Q M x = combo k c h (tri (k + 1)) fun j => ∑ i ∈ Finset.range M, x i * Q.ent i j := by
  unfold oCombo oPoly combo
  simp only [Finset.mul_sum]
  rw [Finset.sum_comm]
  refine Finset.sum_congr rfl fun j _ => ?_
  rw [map_sum, Finset.sum_mul]
  exact Finset.sum_congr rfl fun i _ => by rw [map_mul]; ring

/-- The orthonormal basis of the polynomials on an element. -/
abbrev OBasis (k : Nat) (c : ℝ × ℝ) (h : ℝ) (points : List (ℝ × ℝ)) (w : List ℝ) (H QI Q : DMat ℝ) : Prop :=
  BasisOk (tri (k + 1)) (fun a b => quadLin points w (basisPoly k c h a * basisPoly k c h b)) H QI Q

theorem basis_oPoly (hB : OBasis k c h points w H QI Q) {j : Nat} (hj : j < tri (k + 1)) : basisPoly k c h j = oCombo k c h Q (tri (k + 1)) fun i => QI.ent j i := by
  rw [oCombo_eq, combo]
  have : ∀ l ∈ Finset.range (tri (k + 1)), C (∑ i ∈ Finset.range (tri (k + 1)), QI.ent j i * Q.ent i l) * basisPoly k c h l
      = if j = l then basisPoly k c h l else 0 := by
    intro l hl
    rw [hB.right j hj l (Finset.mem_range.1 hl)]
    split <;> simp
  rw [Finset.sum_congr rfl this, Finset.sum_ite_eq, if_pos (Finset.mem_range.2 hj)]

theorem oPoly_gram (hB : OBasis k c h points w H QI Q) {i j : Nat} (hi : i < tri (k + 1)) (hj : j < tri (k + 1)) :
    quadLin points w (oPoly k c h Q i * oPoly k c h Q j) = if i = j then 1 else 0 := by
  rw [← hB.gram i hi j hj, mul_comm, oPoly, oPoly, quadLin_combo]
  refine Finset.sum_congr rfl fun a _ => ?_
  rw [mul_comm, mul_comm (combo k c h _ _), quadLin_combo]

theorem oPoly_oCombo (hB : OBasis k c h points w H QI Q) {M i : Nat} (hM : M ≤ tri (k + 1)) (hi : i < tri (k + 1)) (x : Nat → ℝ) :
    quadLin points w (oPoly k c h Q i * oCombo k c h Q M x) = if i < M then x i else 0 := by
  unfold oCombo
  rw [Finset.mul_sum, map_sum]
  have : ∀ j ∈ Finset.range M, quadLin points w (oPoly k c h Q i * (C (x j) * oPoly k c h Q j)) = if i = j then x j else 0 := by
    intro j hj
    have hj := Finset.mem_range.1 hj
    rw [show oPoly k c h Q i * (C (x j) * oPoly k c h Q j) = C (x j) * (oPoly k c h Q i * oPoly k c h Q j) by ring, quadLin_C_mul,
      oPoly_gram hB hi (by omega)]
    split <;> simp
  rw [Finset.sum_congr rfl this, Finset.sum_ite_eq]
  simp

/-- A linear functional of a polynomial of the basis. -/
theorem lin_oPoly (F : MvPolynomial (Fin 2) ℝ →ₗ[ℝ] ℝ) (i : Nat) : F (oPoly k c h Q i) = ∑ a ∈ Finset.range (tri (k + 1)), Q.ent i a * F (basisPoly k c h a) := by
  unfold oPoly combo
  rw [map_sum]
  exact Finset.sum_congr rfl fun j _ => by rw [← smul_eq_C_mul, map_smul, smul_eq_mul]

theorem lin_basis (hB : OBasis k c h points w H QI Q) (F : MvPolynomial (Fin 2) ℝ →ₗ[ℝ] ℝ) {j : Nat} (hj : j < tri (k + 1)) :
    F (basisPoly k c h j) = ∑ i ∈ Finset.range (tri (k + 1)), QI.ent j i * F (oPoly k c h Q i) := by
  conv_lhs => rw [basis_oPoly hB hj]
  unfold oCombo
  rw [map_sum]
  exact Finset.sum_congr rfl fun j _ => by rw [← smul_eq_C_mul, map_smul, smul_eq_mul]

/-- Applying the lower triangular matrix cannot hide a difference. -/
theorem lower_inj (hB : OBasis k c h points w H QI Q) {r : Nat → ℝ} (hr : ∀ i < tri (k + 1), ∑ a ∈ Finset.range (tri (k + 1)), Q.ent i a * r a = 0) :
    ∀ a < tri (k + 1), r a = 0 := by
  intro a ha
  have : ∑ i ∈ Finset.range (tri (k + 1)), QI.ent a i * ∑ b ∈ Finset.range (tri (k + 1)), Q.ent i b * r b = r a := by
    simp only [Finset.mul_sum]
    rw [Finset.sum_comm]
    have h1 : ∀ b ∈ Finset.range (tri (k + 1)), ∑ i ∈ Finset.range (tri (k + 1)), QI.ent a i * (Q.ent i b * r b) = if a = b then r b else 0 := by
      intro b hb
      have : ∀ i ∈ Finset.range (tri (k + 1)), QI.ent a i * (Q.ent i b * r b) = QI.ent a i * Q.ent i b * r b := fun i _ => by ring
      rw [Finset.sum_congr rfl this, ← Finset.sum_mul, hB.right a ha b (Finset.mem_range.1 hb)]
      split <;> simp
    rw [Finset.sum_congr rfl h1, Finset.sum_ite_eq, if_pos (Finset.mem_range.2 ha)]
  rw [← this]
  exact Finset.sum_eq_zero fun i hi => by rw [hr i (Finset.mem_range.1 hi), mul_zero]

theorem oPoly_degree (hB : OBasis k c h points w H QI Q) {a : Nat} (ha : a ≤ k) {i : Nat} (hi : i < tri (a + 1)) : (oPoly k c h Q i).totalDegree ≤ a := by
  have hle : tri (a + 1) ≤ tri (k + 1) := tri_le (by omega)
  have : oPoly k c h Q i = combo k c h (tri (a + 1)) fun j => Q.ent i j := by
    unfold oPoly combo
    refine (Finset.sum_subset (Finset.range_subset_range.2 hle) fun j hj hj' => ?_).symm
    have hj := Finset.mem_range.1 hj
    have hj' : tri (a + 1) ≤ j := by simpa using hj'
    beta_reduce
    rw [hB.qLower i (by omega) j hj (by omega), C_0, zero_mul]
  rw [this]
  exact combo_degree _ ha

theorem oCombo_degree (hB : OBasis k c h points w H QI Q) {a : Nat} (ha : a ≤ k) (x : Nat → ℝ) : (oCombo k c h Q (tri (a + 1)) x).totalDegree ≤ a := by
  unfold oCombo
  refine (totalDegree_finsetSum _ _).trans (Finset.sup_le fun i hi => ?_)
  refine (totalDegree_mul _ _).trans ?_
  rw [totalDegree_C, zero_add]
  exact oPoly_degree hB ha (Finset.mem_range.1 hi)

/-- Every polynomial of degree at most `a` is a combination of the first polynomials of the basis, with its moments as coefficients. -/
theorem oCombo_span (hB : OBasis k c h points w H QI Q) (hh : h ≠ 0) {a : Nat} (ha : a ≤ k) {q : MvPolynomial (Fin 2) ℝ} (hq : q.totalDegree ≤ a) :
    q = oCombo k c h Q (tri (a + 1)) fun i => quadLin points w (oPoly k c h Q i * q) := by
  have hle : tri (a + 1) ≤ tri (k + 1) := tri_le (by omega)
  obtain ⟨y, hy⟩ := basisPoly_span k c h hh ha q hq
  have h1 : ∃ x, q = oCombo k c h Q (tri (a + 1)) x := by
    refine ⟨fun i => ∑ j ∈ Finset.range (tri (a + 1)), y j * QI.ent j i, ?_⟩
    have e : ∀ j ∈ Finset.range (tri (a + 1)), C (y j) * basisPoly k c h j = ∑ i ∈ Finset.range (tri (a + 1)), C (y j * QI.ent j i) * oPoly k c h Q i := by
      intro j hj
      have hj := Finset.mem_range.1 hj
      conv_lhs => rw [basis_oPoly hB (show j < tri (k + 1) by omega)]
      unfold oCombo
      rw [Finset.mul_sum]
      refine (Finset.sum_subset (Finset.range_subset_range.2 hle) fun i hi hi' => ?_).symm.trans (Finset.sum_congr rfl fun i _ => by rw [map_mul]; ring)
      have hi := Finset.mem_range.1 hi
      have hi' : tri (a + 1) ≤ i := by simpa using hi'
      beta_reduce
      rw [hB.iLower j (by omega) i hi (by omega), C_0, zero_mul, mul_zero]
    rw [hy, Finset.sum_congr rfl e, Finset.sum_comm]
    unfold oCombo
    refine Finset.sum_congr rfl fun i _ => ?_
    rw [map_sum, Finset.sum_mul]
  obtain ⟨x, hx⟩ := h1
  have h2 : ∀ i < tri (a + 1), quadLin points w (oPoly k c h Q i * q) = x i := by
    intro i hi
    rw [hx, oPoly_oCombo hB hle (by omega), if_pos hi]
  conv_lhs => rw [hx]
  unfold oCombo
  exact Finset.sum_congr rfl fun i hi => by beta_reduce; rw [h2 i (Finset.mem_range.1 hi)]

/-- The values of the polynomials of the basis. -/
theorem values_q {P : Nat → MvPolynomial (Fin 2) ℝ} {V : DMat ℝ} (hV : Values points (tri (k + 1)) P V) (hr : Q.rows = tri (k + 1)) (hc : Q.cols = tri (k + 1)) :
    ∃ W, V.mul Q.tr = .ok W ∧ Values points (tri (k + 1)) (fun i => ∑ j ∈ Finset.range (tri (k + 1)), C (Q.ent i j) * P j) W := by
  refine ⟨_, DMat.mul_ok _ _ (by rw [hV.cols]; exact hc.symm), hV.rows, hr, fun i p hp j hj => ?_⟩
  dsimp only [DMat.tr]
  rw [hV.cols]
  simp only [ev2, map_sum, map_mul, eval_C]
  refine Finset.sum_congr rfl fun l hl => ?_
  rw [hV.ent i p hp l (Finset.mem_range.1 hl), mul_comm]

theorem pderiv_oPoly (d : Fin 2) (i : Nat) : pderiv d (oPoly k c h Q i) = ∑ j ∈ Finset.range (tri (k + 1)), C (Q.ent i j) * pderiv d (basisPoly k c h j) := by
  unfold oPoly
  rw [pderiv_combo]

end

end PolyDiM
