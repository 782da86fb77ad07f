import Verif.Lemmas.VemDof
import Verif.Lemmas.VemExample
import Verif.Model.VemMcc2D
import Verif.Spec.VemMcc

/-!
# Lemmas: the decomposition of the vector polynomials in the mixed virtual element method
-/

namespace PolyDiM

open Spec MvPolynomial MeasureTheory

theorem beside_ok {K : Type} (r c : Nat) (A B : DMat K) (h1 : A.rows = r) (h2 : B.rows = r) (h3 : A.cols + B.cols = c) :
    DMat.beside r c A B = .ok ⟨r, c, fun i j => if j < A.cols then A.ent i j else B.ent i (j - A.cols)⟩ := if_pos ⟨h1, h2, h3⟩

theorem stack_ok {K : Type} (r c : Nat) (A B : DMat K) (h1 : A.cols = c) (h2 : B.cols = c) (h3 : A.rows + B.rows = r) :
    DMat.stack r c A B = .ok ⟨r, c, fun i j => if i < A.rows then A.ent i j else B.ent (i - A.rows) j⟩ := if_pos ⟨h1, h2, h3⟩

theorem twice_ok {K : Type} [Field K] (r c : Nat) (A : DMat K) (h1 : A.rows + A.rows = r) (h2 : A.cols + A.cols = c) :
    DMat.twice r c A = .ok ⟨r, c, fun i j => if i < A.rows then (if j < A.cols then A.ent i j else 0)
      else (if j < A.cols then 0 else A.ent (i - A.rows) (j - A.cols))⟩ := if_pos ⟨h1, h2⟩

theorem scaleRows_ok {K : Type} [Field K] (w : List K) (A : DMat K) (h : w.length = A.rows) :
    DMat.scaleRows w A = .ok ⟨A.rows, A.cols, fun i j => w.getD i 0 * A.ent i j⟩ := if_pos h

/-- One component of the vector polynomial with given coefficients. -/
noncomputable def cfield (k : Nat) (c : ℝ × ℝ) (h : ℝ) (y : Nat → ℝ) (d : Fin 2) : MvPolynomial (Fin 2) ℝ :=
  combo (k + 1) c h (tri (k + 1)) fun j => y (d * tri (k + 1) + j)

/-- What the two matrices of coefficients satisfy. -/
structure TkOk (k : Nat) (c : ℝ × ℝ) (h : ℝ) (tNabla tPlus : DMat ℝ) : Prop where
  nRows : tNabla.rows = tri (k + 2) - 1
  nCols : tNabla.cols = 2 * tri (k + 1)
  pRows : tPlus.rows = tri k
  pCols : tPlus.cols = 2 * tri (k + 1)
  nabla : ∀ j < tri (k + 2) - 1, ∀ d, cfield k c h (tNabla.ent j) d = pderiv d (basisPoly (k + 1) c h (j + 1))
  ortho : ∀ i < tri k, ∀ j < tri k, ∑ l ∈ Finset.range (2 * tri (k + 1)), tPlus.ent i l * tPlus.ent j l = if i = j then 1 else 0
  kern : ∀ i < tri (k + 2) - 1, ∀ j < tri k, ∑ l ∈ Finset.range (2 * tri (k + 1)), tNabla.ent i l * tPlus.ent j l = 0

theorem mcc_counts (k : Nat) : tri (k + 2) = tri (k + 1) + (k + 2) ∧ tri (k + 1) = tri k + (k + 1) := ⟨tri_succ _, tri_succ _⟩

theorem mccTk_ok {svd : DMat ℝ → DMat ℝ} (hsvd : ∀ A, RightSingular A (svd A)) (k : Nat) (c : ℝ × ℝ) (h : ℝ) :
    ∃ T, mccTk svd (compute mono2 (k + 1)) h (tri (k + 1)) (tri (k + 1) + (k + 1)) = .ok T ∧ TkOk k c h T.1 T.2 := by
  obtain ⟨t1, t2⟩ := mcc_counts k
  have hnum : (compute mono2 (k + 1)).num = tri (k + 2) := num2_eq (k + 1)
  have hM : tri (k + 1) + (k + 1) = tri (k + 2) - 1 := by omega
  rw [hM]
  have key : ∀ tN : DMat ℝ, tN.rows = tri (k + 2) - 1 → tN.cols = 2 * tri (k + 1) → (∀ j < tri (k + 2) - 1, ∀ d : Fin 2, ∀ l < tri (k + 1),
      tN.ent j (d * tri (k + 1) + l) = ((compute mono2 (k + 1)).der d (j + 1) l : ℝ) / h) →
      ∃ T, (do
        let V := (svd tN).tr
        let R ← V.block 0 (V.cols - (2 * tri (k + 1) - (tri (k + 2) - 1))) V.rows (2 * tri (k + 1) - (tri (k + 2) - 1))
        Except.ok (tN, R.tr)) = .ok T ∧ TkOk k c h T.1 T.2 := by
    intro tN hrows hcols hent
    obtain ⟨hr, hc, ho, hk⟩ := hsvd tN
    rw [hcols] at hr hc ho hk
    rw [hrows] at hk
    dsimp only
    rw [DMat.block_ok _ _ _ _ _ (by simp [DMat.tr]) (by simp only [DMat.tr, hr]; omega), except_ok_bind]
    refine ⟨_, rfl, hrows, hcols, ?_, ?_, ?_, ?_, ?_⟩
    · simp only [DMat.tr]
      omega
    · simp only [DMat.tr, hc]
    · intro j hj d
      rw [basisPoly_pderiv (k + 1) c h (j := j + 1) (m := k + 1) (by rw [hnum]; omega) (by show j + 1 < tri (k + 2); omega) le_rfl d, cfield, combo]
      refine Finset.sum_congr rfl fun l hl => ?_
      dsimp only
      rw [hent j hj d l (Finset.mem_range.1 hl)]
    · intro i hi j hj
      have := ho (tri (k + 2) - 1 + i) (by omega) (tri (k + 2) - 1 + j) (by omega)
      simp only [DMat.tr, hr]
      rw [show 2 * tri (k + 1) - (2 * tri (k + 1) - (tri (k + 2) - 1)) = tri (k + 2) - 1 by omega]
      simp only [zero_add]
      rw [this]
      simp
    · intro i hi j hj
      have := hk (tri (k + 2) - 1 + j) (by omega) (by omega) i hi
      simp only [DMat.tr, hr]
      rw [show 2 * tri (k + 1) - (2 * tri (k + 1) - (tri (k + 2) - 1)) = tri (k + 2) - 1 by omega]
      simp only [zero_add]
      exact this
  unfold mccTk
  rw [DMat.block_ok _ _ _ _ _ (by dsimp only; omega) (by dsimp only; omega), except_ok_bind, DMat.block_ok _ _ _ _ _ (by dsimp only; omega) (by dsimp only; omega), except_ok_bind,
    beside_ok _ _ _ _ (by rfl) (by rfl) (by simp only [DMat.smul]; omega), except_ok_bind]
  refine key _ rfl rfl ?_
  intro j hj d l hl
  have e1 : (compute mono2 (k + 1)).num - (tri (k + 2) - 1) + j = j + 1 := by rw [hnum]; omega
  simp only [DMat.smul, e1]
  fin_cases d
  · rw [if_pos (by simpa using hl)]
    simp [div_eq_inv_mul]
  · rw [if_neg (by simp)]
    simp [div_eq_inv_mul]

/-- The fields of the decomposition. -/
noncomputable def fld (k : Nat) (c : ℝ × ℝ) (h : ℝ) (tPlus : DMat ℝ) (j : Nat) (d : Fin 2) : MvPolynomial (Fin 2) ℝ :=
  if j < tri (k + 2) - 1 then pderiv d (basisPoly (k + 1) c h (j + 1)) else cfield k c h (tPlus.ent (j - (tri (k + 2) - 1))) d

/-- All rows of coefficients. -/
def rowT (k : Nat) (tNabla tPlus : DMat ℝ) (j l : Nat) : ℝ := if j < tri (k + 2) - 1 then tNabla.ent j l else tPlus.ent (j - (tri (k + 2) - 1)) l

section
variable {k : Nat} {c : ℝ × ℝ} {h : ℝ} {tNabla tPlus : DMat ℝ}

theorem cfield_rowT (hT : TkOk k c h tNabla tPlus) (j : Nat) (d : Fin 2) : cfield k c h (rowT k tNabla tPlus j) d = fld k c h tPlus j d := by
  unfold rowT fld
  by_cases hj : j < tri (k + 2) - 1
  · simp only [if_pos hj]
    exact hT.nabla j hj d
  · simp only [if_neg hj]

theorem cfield_degree (y : Nat → ℝ) (d : Fin 2) : (cfield k c h y d).totalDegree ≤ k := combo_degree _ (by omega)

theorem fld_degree (hT : TkOk k c h tNabla tPlus) (j : Nat) (d : Fin 2) : (fld k c h tPlus j d).totalDegree ≤ k := by
  rw [← cfield_rowT hT]
  exact cfield_degree _ _

theorem sum_cfield (L : Nat) (x : Nat → ℝ) (Y : Nat → Nat → ℝ) (d : Fin 2) :
    ∑ j ∈ Finset.range L, C (x j) * cfield k c h (Y j) d = cfield k c h (fun l => ∑ j ∈ Finset.range L, x j * Y j l) d := by
  unfold cfield combo
  simp only [Finset.mul_sum, map_sum, Finset.sum_mul]
  rw [Finset.sum_comm]
  refine Finset.sum_congr rfl fun l _ => Finset.sum_congr rfl fun j _ => ?_
  rw [C_mul, mul_assoc]

theorem cfield_zero (hh : h ≠ 0) {y : Nat → ℝ} (h0 : ∀ d, cfield k c h y d = 0) : ∀ l < 2 * tri (k + 1), y l = 0 := by
  intro l hl
  have hz : ∀ d : Fin 2, ∀ j < tri (k + 1), y (d * tri (k + 1) + j) = 0 := by
    intro d j hj
    have e : combo (k + 1) c h (tri (k + 1)) (fun j => y (d * tri (k + 1) + j)) = combo (k + 1) c h (tri (k + 1)) fun _ => 0 := by
      have := h0 d
      rw [cfield] at this
      rw [this]
      simp [combo]
    exact combo_ext hh (show k ≤ k + 1 by omega) e j hj
  by_cases h1 : l < tri (k + 1)
  · have := hz 0 l h1
    simpa using this
  · have := hz 1 (l - tri (k + 1)) (by omega)
    simp only [Fin.val_one, one_mul] at this
    rwa [show tri (k + 1) + (l - tri (k + 1)) = l by omega] at this

/-- The rows of coefficients are independent. -/
theorem rowT_independent (hT : TkOk k c h tNabla tPlus) (hh : h ≠ 0) (x : Nat → ℝ)
    (h0 : ∀ l < 2 * tri (k + 1), ∑ j ∈ Finset.range (2 * tri (k + 1)), x j * rowT k tNabla tPlus j l = 0) : ∀ j < 2 * tri (k + 1), x j = 0 := by
  obtain ⟨t1, t2⟩ := mcc_counts k
  set M := tri (k + 2) - 1 with hM
  have hsplit : 2 * tri (k + 1) = M + tri k := by omega
  have hsum : ∀ l, ∑ j ∈ Finset.range (2 * tri (k + 1)), x j * rowT k tNabla tPlus j l
      = ∑ j ∈ Finset.range M, x j * tNabla.ent j l + ∑ i ∈ Finset.range (tri k), x (M + i) * tPlus.ent i l := by
    intro l
    rw [hsplit, sum_split]
    congr 1
    · refine Finset.sum_congr rfl fun j hj => ?_
      rw [rowT, if_pos (Finset.mem_range.1 hj)]
    · refine Finset.sum_congr rfl fun i _ => ?_
      rw [rowT, if_neg (by omega), ← hM, Nat.add_sub_cancel_left]
  have hplus : ∀ i < tri k, x (M + i) = 0 := by
    intro i hi
    have : ∑ l ∈ Finset.range (2 * tri (k + 1)), (∑ j ∈ Finset.range (2 * tri (k + 1)), x j * rowT k tNabla tPlus j l) * tPlus.ent i l = 0 :=
      Finset.sum_eq_zero fun l hl => by rw [h0 l (Finset.mem_range.1 hl), zero_mul]
    simp only [hsum, add_mul, Finset.sum_add_distrib] at this
    have e1 : ∑ l ∈ Finset.range (2 * tri (k + 1)), (∑ j ∈ Finset.range M, x j * tNabla.ent j l) * tPlus.ent i l = 0 := by
      simp only [Finset.sum_mul]
      rw [Finset.sum_comm]
      refine Finset.sum_eq_zero fun j hj => ?_
      have := hT.kern j (Finset.mem_range.1 hj) i hi
      simp only [mul_assoc]
      rw [← Finset.mul_sum, this, mul_zero]
    have e2 : ∑ l ∈ Finset.range (2 * tri (k + 1)), (∑ j ∈ Finset.range (tri k), x (M + j) * tPlus.ent j l) * tPlus.ent i l = x (M + i) := by
      simp only [Finset.sum_mul]
      rw [Finset.sum_comm, Finset.sum_eq_single i]
      · simp only [mul_assoc]
        rw [← Finset.mul_sum, hT.ortho i hi i hi, if_pos rfl, mul_one]
      · intro j hj hji
        simp only [mul_assoc]
        rw [← Finset.mul_sum, hT.ortho j (Finset.mem_range.1 hj) i hi, if_neg hji, mul_zero]
      · intro hn
        exact absurd (Finset.mem_range.2 hi) hn
    rw [e1, e2, zero_add] at this
    exact this
  have hnabla : ∀ j < M, x j = 0 := by
    set q := ∑ j ∈ Finset.range M, C (x j) * basisPoly (k + 1) c h (j + 1) with hq
    have hgrad : ∀ d, pderiv d q = 0 := by
      intro d
      rw [hq, map_sum]
      have e : ∀ j ∈ Finset.range M, pderiv d (C (x j) * basisPoly (k + 1) c h (j + 1)) = C (x j) * cfield k c h (tNabla.ent j) d := by
        intro j hj
        rw [hT.nabla j (Finset.mem_range.1 hj) d, Derivation.leibniz, pderiv_C, smul_zero, add_zero, smul_eq_mul]
      rw [Finset.sum_congr rfl e, sum_cfield]
      unfold cfield combo
      refine Finset.sum_eq_zero fun l hl => ?_
      have hl' := Finset.mem_range.1 hl
      have hd : (d : Nat) * tri (k + 1) + l < 2 * tri (k + 1) := by
        fin_cases d <;> simp <;> omega
      have := h0 _ hd
      rw [hsum, Finset.sum_eq_zero (s := Finset.range (tri k)) (fun i hi => by rw [hplus i (Finset.mem_range.1 hi), zero_mul]), add_zero] at this
      dsimp only
      rw [this, C_0, zero_mul]
    obtain ⟨a, ha⟩ := const_of_grad q (hgrad 0) (hgrad 1)
    have hind : ∑ j ∈ Finset.range (compute mono2 (k + 1)).num, C (if j = 0 then -a else x (j - 1)) * basisPoly (k + 1) c h j = 0 := by
      rw [num2_eq, show tri (k + 1 + 1) = M + 1 by rw [hM]; show tri (k + 2) = _; omega, Finset.sum_range_succ']
      simp only [Nat.add_sub_cancel, if_pos, Nat.succ_ne_zero, if_false, basisPoly_zero, mul_one]
      rw [← hq, ha, ← C_add, add_neg_cancel, C_0]
    intro j hj
    have := basisPoly_independent (k + 1) c h hh _ hind (j + 1) (by rw [num2_eq]; show j + 1 < tri (k + 2); omega)
    simpa using this
  intro j hj
  by_cases hjM : j < M
  · exact hnabla j hjM
  · have := hplus (j - M) (by omega)
    rwa [show M + (j - M) = j by omega] at this

/-- The fields are independent. -/
theorem fld_independent (hT : TkOk k c h tNabla tPlus) (hh : h ≠ 0) (x : Nat → ℝ)
    (h0 : ∀ d, ∑ j ∈ Finset.range (2 * tri (k + 1)), C (x j) * fld k c h tPlus j d = 0) : ∀ j < 2 * tri (k + 1), x j = 0 := by
  refine rowT_independent hT hh x (cfield_zero hh (c := c) (k := k) fun d => ?_)
  rw [← sum_cfield, ← h0 d]
  exact Finset.sum_congr rfl fun j _ => by rw [cfield_rowT hT]

/-- The fields span the vector polynomials of degree at most `k`. -/
theorem fld_span (hT : TkOk k c h tNabla tPlus) (hh : h ≠ 0) (q : Fin 2 → MvPolynomial (Fin 2) ℝ) (hq : ∀ d, (q d).totalDegree ≤ k) :
    ∃ x : Nat → ℝ, ∀ d, q d = ∑ j ∈ Finset.range (2 * tri (k + 1)), C (x j) * fld k c h tPlus j d := by
  obtain ⟨y0, hy0⟩ := basisPoly_span (k + 1) c h hh (show k ≤ k + 1 by omega) (q 0) (hq 0)
  obtain ⟨y1, hy1⟩ := basisPoly_span (k + 1) c h hh (show k ≤ k + 1 by omega) (q 1) (hq 1)
  set y : Nat → ℝ := fun l => if l < tri (k + 1) then y0 l else y1 (l - tri (k + 1)) with hy
  obtain ⟨X, hX⟩ := exists_solves (⟨2 * tri (k + 1), 2 * tri (k + 1), fun l j => rowT k tNabla tPlus j l⟩ : DMat ℝ) ⟨2 * tri (k + 1), 1, fun l _ => y l⟩ rfl
    (fun x hx => rowT_independent hT hh x (fun l hl => by
      rw [← hx l hl]
      exact Finset.sum_congr rfl fun j _ => mul_comm _ _))
  refine ⟨fun j => X.ent j 0, fun d => ?_⟩
  have e : ∑ j ∈ Finset.range (2 * tri (k + 1)), C (X.ent j 0) * fld k c h tPlus j d = cfield k c h y d := by
    rw [Finset.sum_congr rfl (fun j _ => by rw [← cfield_rowT hT] : ∀ j ∈ Finset.range (2 * tri (k + 1)), C (X.ent j 0) * fld k c h tPlus j d
      = C (X.ent j 0) * cfield k c h (rowT k tNabla tPlus j) d), sum_cfield]
    unfold cfield combo
    refine Finset.sum_congr rfl fun l hl => ?_
    have hl' := Finset.mem_range.1 hl
    have hd : (d : Nat) * tri (k + 1) + l < 2 * tri (k + 1) := by
      fin_cases d <;> simp <;> omega
    have := hX.2.2 _ hd 0 (by simp)
    dsimp only at this ⊢
    rw [← this]
    congr 2
    exact Finset.sum_congr rfl fun j _ => mul_comm _ _
  rw [e]
  fin_cases d
  · simp only [Fin.zero_eta, hy0, cfield, combo]
    refine Finset.sum_congr rfl fun l hl => ?_
    simp only [hy, zero_mul, zero_add, if_pos (Finset.mem_range.1 hl)]
  · simp only [Fin.mk_one, hy1, cfield, combo]
    refine Finset.sum_congr rfl fun l hl => ?_
    simp only [hy, one_mul, add_lt_iff_neg_left, not_lt_zero, if_false, Nat.add_sub_cancel_left]

end

end PolyDiM
