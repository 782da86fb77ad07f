import Verif.Lemmas.VemAlg
import Verif.Lemmas.VemMccInit
import Verif.Model.VemOrtho2D
import Verif.Spec.VemOrtho
import Mathlib.LinearAlgebra.Matrix.Block
import Mathlib.LinearAlgebra.Matrix.ToLinearEquiv
import Mathlib.LinearAlgebra.Matrix.NonsingularInverse

/-!
# Lemmas: the orthonormal basis computed by two Gram-Schmidt steps
-/

namespace PolyDiM

open Spec MvPolynomial

/-- The first rows and columns as a matrix. -/
def toM (A : DMat ℝ) (r c : Nat) : Matrix (Fin r) (Fin c) ℝ := fun i j => A.ent i j

theorem toM_mul (A B : DMat ℝ) (r m c : Nat) (i : Fin r) (j : Fin c) : (toM A r m * toM B m c) i j = ∑ l ∈ Finset.range m, A.ent i l * B.ent l j := by
  rw [Matrix.mul_apply, Finset.sum_range]
  rfl

theorem det_ne_zero_of_injective {N : Nat} {R : Matrix (Fin N) (Fin N) ℝ} (h : ∀ x, R.mulVec x = 0 → x = 0) : R.det ≠ 0 := by
  intro h0
  obtain ⟨v, hv, hv'⟩ := Matrix.exists_mulVec_eq_zero_iff.2 h0
  exact hv (h v hv')

theorem diag_ne_zero {N : Nat} {R : Matrix (Fin N) (Fin N) ℝ} (hu : ∀ i j, j < i → R i j = 0) (hd : R.det ≠ 0) (i : Fin N) : R i i ≠ 0 := by
  have hb : R.IsUpperTriangular := fun i j h => hu i j h
  rw [Matrix.det_of_isUpperTriangular hb, Finset.prod_ne_zero_iff] at hd
  exact hd i (Finset.mem_univ i)

theorem exists_right {N : Nat} {R : Matrix (Fin N) (Fin N) ℝ} (hd : R.det ≠ 0) (y : Fin N → ℝ) : ∃ x, R.mulVec x = y :=
  ⟨R⁻¹.mulVec y, by rw [Matrix.mulVec_mulVec, Matrix.mul_nonsing_inv _ (isUnit_iff_ne_zero.2 hd), Matrix.one_mulVec]⟩

/-- The inverse of a lower triangular matrix is lower triangular. -/
theorem lower_of_inverse {N : Nat} {A X : Nat → Nat → ℝ} (hl : ∀ i < N, ∀ j < N, i < j → A i j = 0) (hd : ∀ i < N, A i i ≠ 0)
    (h : ∀ i < N, ∀ j < N, ∑ l ∈ Finset.range N, A i l * X l j = if i = j then 1 else 0) : ∀ i < N, ∀ j < N, i < j → X i j = 0 := by
  intro i
  induction i using Nat.strong_induction_on with
  | _ i ih =>
    intro hi j hj hij
    have h1 := h i hi j hj
    rw [if_neg (by omega), Finset.sum_eq_single i] at h1
    · exact (mul_eq_zero.1 h1).resolve_left (hd i hi)
    · intro l hl' hne
      have hlN := Finset.mem_range.1 hl'
      rcases Nat.lt_or_ge l i with hlt | hge
      · rw [ih l hlt hlN j hj (by omega), mul_zero]
      · rw [hl i hi l hlN (by omega), zero_mul]
    · intro hn
      exact absurd (Finset.mem_range.2 hi) hn

/-- What `MGSOrthonormalize` returns: `QI` is lower triangular with inverse `Q`, and the rows of `Q` are orthonormal for the Gram matrix `M`. -/
structure BasisOk (N : Nat) (M : Nat → Nat → ℝ) (H QI Q : DMat ℝ) : Prop where
  hRows : H.rows = N
  hCols : H.cols = N
  hEnt : ∀ i < N, ∀ j < N, H.ent i j = if i = j then 1 else 0
  iRows : QI.rows = N
  iCols : QI.cols = N
  qRows : Q.rows = N
  qCols : Q.cols = N
  iLower : ∀ i < N, ∀ j < N, i < j → QI.ent i j = 0
  qLower : ∀ i < N, ∀ j < N, i < j → Q.ent i j = 0
  right : ∀ i < N, ∀ j < N, ∑ l ∈ Finset.range N, QI.ent i l * Q.ent l j = if i = j then 1 else 0
  left : ∀ i < N, ∀ j < N, ∑ l ∈ Finset.range N, Q.ent i l * QI.ent l j = if i = j then 1 else 0
  gram : ∀ i < N, ∀ j < N, ∑ a ∈ Finset.range N, Q.ent i a * ∑ b ∈ Finset.range N, M a b * Q.ent j b = if i = j then 1 else 0

theorem mgs_ok {lib : OrthoLib ℝ} (hm : Orthogonalizes lib.mgs) (hi : InvertsLower lib.inverseTri) (hsq : ∀ x, 0 ≤ x → lib.sqrt x * lib.sqrt x = x)
    {points : List (ℝ × ℝ)} {w : List ℝ} (hw : w.length = points.length) (hpos : ∀ x ∈ w, 0 ≤ x) {N : Nat} {P : Nat → MvPolynomial (Fin 2) ℝ} {V : DMat ℝ}
    (hV : Values points N P V)
    (hreg : ∀ x : Nat → ℝ, (∀ i < N, ∑ j ∈ Finset.range N, quadLin points w (P i * P j) * x j = 0) → ∀ j < N, x j = 0) :
    ∃ H QI Q, mgsOrthonormalize lib w V = .ok (H, QI, Q) ∧ BasisOk N (fun a b => quadLin points w (P a * P b)) H QI Q := by
  classical
  set m := points.length with hmdef
  have hsqw : ∀ i, (w.map lib.sqrt).getD i 0 * (w.map lib.sqrt).getD i 0 = w.getD i 0 := by
    intro i
    by_cases hi : i < w.length
    · have : (w.map lib.sqrt).getD i 0 = lib.sqrt w[i] := by simp [List.getD_eq_getElem?_getD, hi]
      rw [this, hsq _ (hpos _ (List.getElem_mem hi))]
      simp [List.getD_eq_getElem?_getD, hi]
    · simp [List.getD_eq_getElem?_getD, hi]
  set d : Fin m → ℝ := fun i => (w.map lib.sqrt).getD i 0 with hd
  -- the Gram matrix
  have hgram : ∀ i < N, ∀ j < N, quadLin points w (P i * P j) = ∑ l ∈ Finset.range m, w.getD l 0 * (V.ent l i * V.ent l j) := by
    intro i hi j hj
    rw [← sum_quadLin points w hw (fun l => V.ent l i * V.ent l j)]
    intro l p hl
    rw [hV.ent l p hl i hi, hV.ent l p hl j hj]
    simp [ev2]
  let M : Matrix (Fin N) (Fin N) ℝ := fun i j => quadLin points w (P i * P j)
  have hM : M = (Matrix.diagonal d * toM V m N).transpose * (Matrix.diagonal d * toM V m N) := by
    ext i j
    rw [Matrix.mul_apply]
    show quadLin points w (P i * P j) = _
    rw [hgram i i.2 j j.2, Finset.sum_range]
    refine Finset.sum_congr rfl fun l _ => ?_
    rw [Matrix.transpose_apply, Matrix.diagonal_mul, Matrix.diagonal_mul, ← hsqw l]
    show _ = (d l * V.ent l i) * (d l * V.ent l j)
    simp only [hd]
    ring
  have hregM : ∀ x, M.mulVec x = 0 → x = 0 := by
    intro x hx
    funext i
    have := hreg (fun j => if h : j < N then x ⟨j, h⟩ else 0) (by
      intro i hi
      have h1 := congrFun hx ⟨i, hi⟩
      rw [Finset.sum_range]
      simpa [Matrix.mulVec, dotProduct, M] using h1) i i.2
    simpa using this
  -- the first step
  have hind1 : IndependentCols V := by
    intro x hx
    rw [hV.cols] at hx ⊢
    rw [hV.rows] at hx
    refine hreg x fun i hi => ?_
    have : ∀ j ∈ Finset.range N, quadLin points w (P i * P j) * x j = ∑ l ∈ Finset.range m, w.getD l 0 * V.ent l i * (V.ent l j * x j) := by
      intro j hj
      rw [hgram i hi j (Finset.mem_range.1 hj), Finset.sum_mul]
      exact Finset.sum_congr rfl fun l _ => by ring
    rw [Finset.sum_congr rfl this, Finset.sum_comm]
    refine Finset.sum_eq_zero fun l hl => ?_
    rw [← Finset.mul_sum, hx l (Finset.mem_range.1 hl), mul_zero]
  have q1 := hm V hind1
  have hVr : V.rows = m := hV.rows
  have hVc : V.cols = N := hV.cols
  set Q1 := (lib.mgs V).1
  set R1 := (lib.mgs V).2
  have e1 : toM Q1 m N * toM R1 N N = toM V m N := by
    ext i j
    rw [toM_mul]
    have := q1.product i (by rw [hVr]; exact i.2) j (by rw [hVc]; exact j.2)
    rw [hVc] at this
    exact this
  have hR1 : (toM R1 N N).det ≠ 0 := by
    refine det_ne_zero_of_injective fun x hx => hregM x ?_
    rw [hM, ← e1, ← Matrix.mulVec_mulVec, ← Matrix.mulVec_mulVec, ← Matrix.mulVec_mulVec, hx, Matrix.mulVec_zero, Matrix.mulVec_zero, Matrix.mulVec_zero]
  have hu1 : ∀ i j : Fin N, j < i → toM R1 N N i j = 0 := fun i j h => q1.upper i (by rw [hVc]; exact i.2) j h
  -- the second step
  unfold mgsOrthonormalize
  dsimp only
  rw [sqrtArray_ok lib.sqrt _ hpos, except_ok_bind, scaleRows_ok _ _ (by rw [List.length_map, hw, q1.qRows, hVr]), except_ok_bind]
  set A : DMat ℝ := ⟨Q1.rows, Q1.cols, fun i j => (w.map lib.sqrt).getD i 0 * Q1.ent i j⟩ with hA
  have hAr : A.rows = m := q1.qRows.trans hVr
  have hAc : A.cols = N := q1.qCols.trans hVc
  have hAm : toM A m N = Matrix.diagonal d * toM Q1 m N := by
    ext i j
    rw [Matrix.diagonal_mul]
    rfl
  have hind2 : IndependentCols A := by
    intro y hy
    rw [hAr, hAc] at hy
    rw [hAc]
    obtain ⟨x, hx⟩ := exists_right hR1 fun j => y j
    have h0 : (toM A m N).mulVec (fun j => y j) = 0 := by
      funext i
      have := hy i i.2
      rw [Finset.sum_range] at this
      exact this
    have hx0 : x = 0 := hregM x (by
      rw [hM, ← e1, ← Matrix.mul_assoc (Matrix.diagonal d), ← hAm, ← Matrix.mulVec_mulVec, ← Matrix.mulVec_mulVec, hx, h0, Matrix.mulVec_zero])
    rw [hx0, Matrix.mulVec_zero] at hx
    intro j hj
    exact (congrFun hx ⟨j, hj⟩).symm
  have q2 := hm A hind2
  set Q2 := (lib.mgs A).1
  set R2 := (lib.mgs A).2
  have e2 : toM Q2 m N * toM R2 N N = Matrix.diagonal d * toM Q1 m N := by
    rw [← hAm]
    ext i j
    rw [toM_mul]
    have := q2.product i (by rw [hAr]; exact i.2) j (by rw [hAc]; exact j.2)
    rw [hAc] at this
    exact this
  have o2 : (toM Q2 m N).transpose * toM Q2 m N = 1 := by
    ext i j
    rw [Matrix.mul_apply, Matrix.one_apply]
    have := q2.orthonormal i (by rw [hAc]; exact i.2) j (by rw [hAc]; exact j.2)
    rw [hAr, Finset.sum_range] at this
    simp only [Fin.ext_iff]
    exact this
  rw [DMat.mul_ok _ _ (by rfl), except_ok_bind, DMat.mul_ok _ _ (by rw [q2.rCols, q1.rRows, hAc, hVc]), except_ok_bind]
  have hR2c : R2.cols = N := q2.rCols.trans hAc
  have hR2r : R2.rows = N := q2.rRows.trans hAc
  have hR1c : R1.cols = N := q1.rCols.trans hVc
  -- the factor
  let T : DMat ℝ := ⟨R2.rows, R1.cols, fun i j => ∑ k ∈ Finset.range R2.cols, R2.ent i k * R1.ent k j⟩
  have hT : toM T N N = toM R2 N N * toM R1 N N := by
    ext i j
    rw [toM_mul]
    show ∑ k ∈ Finset.range R2.cols, R2.ent i k * R1.ent k j = _
    rw [hR2c]
  have hMT : M = (toM T N N).transpose * toM T N N := by
    have h1 : Matrix.diagonal d * toM V m N = toM Q2 m N * toM T N N := by rw [← e1, ← Matrix.mul_assoc, ← e2, Matrix.mul_assoc, ← hT]
    rw [hM, h1, Matrix.transpose_mul, Matrix.mul_assoc, ← Matrix.mul_assoc _ (toM Q2 m N), o2, Matrix.one_mul]
  have hTd : (toM T N N).det ≠ 0 := det_ne_zero_of_injective fun x hx => hregM x (by rw [hMT, ← Matrix.mulVec_mulVec, hx, Matrix.mulVec_zero])
  have hTu : ∀ i < N, ∀ j < N, j < i → T.ent i j = 0 := by
    intro i hi j hj hji
    show ∑ k ∈ Finset.range R2.cols, R2.ent i k * R1.ent k j = 0
    rw [hR2c]
    refine Finset.sum_eq_zero fun l hl => ?_
    have hlN := Finset.mem_range.1 hl
    rcases Nat.lt_or_ge l i with hlt | hge
    · rw [q2.upper i (by rw [hAc]; exact hi) l hlt, zero_mul]
    · rw [q1.upper l (by rw [hVc]; exact hlN) j (by omega), mul_zero]
  have hdiag : ∀ i < N, T.ent i i ≠ 0 := fun i hi => diag_ne_zero (R := toM T N N) (fun i j h => hTu i i.2 j j.2 h) hTd ⟨i, hi⟩
  obtain ⟨x1, x2, x3⟩ := hi T.tr (by show R1.cols = R2.rows; rw [hR1c, hR2r]) (by
      intro i hi j hj hij
      have : T.tr.rows = N := hR1c
      rw [this] at hi hj
      exact hTu j hj i hi hij) (by
      intro i hi
      have : T.tr.rows = N := hR1c
      rw [this] at hi
      exact hdiag i hi)
  have hTr : T.tr.rows = N := hR1c
  rw [hTr] at x1 x2 x3
  set Q := lib.inverseTri T.tr
  have hright : toM T.tr N N * toM Q N N = 1 := by
    ext i j
    rw [toM_mul, Matrix.one_apply, x3 i i.2 j j.2]
    simp [Fin.ext_iff]
  have hleft : toM Q N N * toM T.tr N N = 1 := mul_eq_one_comm.1 hright
  refine ⟨_, _, _, rfl, q2.qCols.trans hAc, q2.qCols.trans hAc, ?_, hR1c, hR2r, x1, x2, ?_, ?_, ?_, ?_, ?_⟩
  · intro i hi j hj
    dsimp only [DMat.tr]
    have := q2.orthonormal i (by rw [hAc]; exact hi) j (by rw [hAc]; exact hj)
    rw [← q2.qRows] at this
    exact this
  · intro i hi j hj hij
    exact hTu j hj i hi hij
  · exact lower_of_inverse (A := T.tr.ent) (fun i hi j hj hij => hTu j hj i hi hij) hdiag x3
  · exact x3
  · intro i hi j hj
    have := congrFun (congrFun hleft ⟨i, hi⟩) ⟨j, hj⟩
    rw [toM_mul, Matrix.one_apply] at this
    simpa [Fin.ext_iff] using this
  · intro i hi j hj
    have h1 : toM Q N N * M * (toM Q N N).transpose = 1 := by
      have h2 : (toM T N N).transpose = toM T.tr N N := rfl
      have h3 : toM T N N = (toM T.tr N N).transpose := rfl
      rw [hMT, h2, ← Matrix.mul_assoc, hleft, Matrix.one_mul, h3, ← Matrix.transpose_mul, hleft, Matrix.transpose_one]
    have h2 := congrFun (congrFun h1 ⟨i, hi⟩) ⟨j, hj⟩
    rw [Matrix.mul_assoc, Matrix.mul_apply, Matrix.one_apply] at h2
    rw [Finset.sum_range]
    simp only [Fin.mk.injEq] at h2
    rw [← h2]
    refine Finset.sum_congr rfl fun a _ => ?_
    rw [Matrix.mul_apply, Finset.sum_range]
    rfl

end PolyDiM
