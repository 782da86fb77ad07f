import Verif.Lemmas.VemMccInit
import Verif.Lemmas.VemDof
import Verif.Lemmas.GBasis
import Verif.Lemmas.Lagrange
import Verif.Props.Lagrange
import Verif.Spec.VemDf

/-!
# Lemmas: the tables and matrices of the divergence-free virtual element
-/

namespace PolyDiM

open Spec MvPolynomial MeasureTheory

variable {k m n : Nat} {V : Nat → ℝ × ℝ} {len : Nat → ℝ} {dir : Nat → Bool} {nrm : Nat → ℝ × ℝ} {poly : VemPolygon ℝ}
  {triangle : Nat → Rule (ℝ × ℝ) ℝ} {edge : Nat → Rule ℝ ℝ} {ts ws ss vs : List ℝ} {w v₀ : ℝ} {lu llt : Solver ℝ} {sqrt : ℝ → ℝ} {red : Bool}

theorem addBlock_ok {K : Type} [Field K] (A : DMat K) (r c m n : Nat) (X : DMat K) (h1 : X.rows = m) (h2 : X.cols = n) (h3 : r + m ≤ A.rows) (h4 : c + n ≤ A.cols) :
    A.addBlock r c m n X = .ok ⟨A.rows, A.cols, fun i j => if r ≤ i ∧ i < r + m ∧ c ≤ j ∧ j < c + n then A.ent i j + X.ent (i - r) (j - c) else A.ent i j⟩ :=
  if_pos ⟨h1, h2, h3, h4⟩

/-- The monomials of a higher degree start with those of a lower one. -/
theorem basis_mono {k l : Nat} (hkl : k ≤ l) (c : ℝ × ℝ) (h : ℝ) {j : Nat} (hj : j < tri (k + 1)) : basisPoly l c h j = basisPoly k c h j := by
  obtain ⟨a, b, _, hab, rfl⟩ := exps2_get k (j := j) (by rwa [num2_eq])
  rw [basisPoly_rank k c h hab, basisPoly_rank l c h (by omega)]

/-! ## The decomposition of vector polynomials -/

/-- The rows of the decomposition. -/
structure DecOk (k : Nat) (g : GData ℝ) : Prop where
  nk : g.Nk = tri (k + 1)
  nkm1 : g.Nkm1 = tri k
  nkp1 : g.Nkp1 = tri (k + 2)
  mono : g.mono = compute mono2 (k + 1)
  ent : ∀ a b, a + b ≤ k → ∀ d p q, (dfDec g d p).ent (rank2 [a, b]) q = row2 [a, b] d p q

theorem dec_ok (k : Nat) : ∃ g, gbasis2 ℝ k = .ok g ∧ DecOk k g := by
  obtain ⟨g, hg, _, h1, h2, h3, h4, _, h5⟩ := gbasis2_ok k
  refine ⟨g, hg, h1, h2, h3, h4, ?_⟩
  intro a b hab d p q
  have hlt : rank2 [a, b] < tri (k + 1) := rank2_lt k hab
  obtain ⟨a', b', he, _, hr⟩ := exps2_get (k + 1) (j := rank2 [a, b]) (by rw [num2_eq]; exact rank2_lt (k + 1) (by omega))
  obtain ⟨rfl, rfl⟩ := rank2_inj hr
  have := h5 _ _ hlt he
  simp only [dfDec, List.getD_eq_getElem?_getD, this, Option.getD_some]

variable {g : GData ℝ}

/-- The monomial whose gradient appears in the decomposition. -/
def gradIdx (d a b : Nat) : Nat := if d = 0 then rank2 [a + 1, b] else rank2 [a, b + 1]

/-- The monomial that multiplies the orthogonal field in the decomposition. -/
def swirlIdx (d a b : Nat) : Nat := if d = 0 then rank2 [a, b - 1] else rank2 [a - 1, b]

/-- Sums with a row of the gradient part of the decomposition: `f` is never used at 0. -/
theorem dec_grad (hg : DecOk k g) {a b : Nat} (hab : a + b ≤ k) {d : Nat} (hd : d < 2) (f : Nat → ℝ) :
    ∑ q ∈ Finset.range (tri (k + 2) - 1), (dfDec g d 0).ent (rank2 [a, b]) (1 + q) * f (1 + q)
      = 1 / ((a : ℝ) + b + 1) * f (gradIdx d a b) := by
  unfold gradIdx
  have hpos : ∀ a b, 0 < a + b → 0 < rank2 [a, b] := by
    intro a b h
    rw [rank2_eq]
    have : tri 1 ≤ tri (a + b) := tri_le h
    have : tri 1 = 1 := rfl
    omega
  have key : ∀ r, 0 < r → r < tri (k + 2) → (∀ q, (dfDec g d 0).ent (rank2 [a, b]) q = if q = r then 1 / ((a : ℝ) + b + 1) else 0) →
      ∑ q ∈ Finset.range (tri (k + 2) - 1), (dfDec g d 0).ent (rank2 [a, b]) (1 + q) * f (1 + q) = 1 / ((a : ℝ) + b + 1) * f r := by
    intro r h0 hr he
    rw [Finset.sum_eq_single (r - 1)]
    · rw [he, if_pos (by omega), show 1 + (r - 1) = r by omega]
    · intro q _ hq
      rw [he, if_neg (by omega), zero_mul]
    · intro hn
      rw [Finset.mem_range] at hn
      omega
  rcases (by omega : d = 0 ∨ d = 1) with rfl | rfl
  · rw [if_pos rfl]
    refine key _ (hpos _ _ (by omega)) (rank2_lt (k + 1) (by omega)) fun q => ?_
    rw [hg.ent a b hab]
    simp [row2, ex]
  · rw [if_neg (by omega)]
    refine key _ (hpos _ _ (by omega)) (rank2_lt (k + 1) (by omega)) fun q => ?_
    rw [hg.ent a b hab]
    simp [row2, ex]

/-- The index in the orthogonal part of the decomposition, with the coefficient. -/
noncomputable def decCoef (d a b : Nat) : ℝ := if d = 0 then (b : ℝ) / (a + b + 1) else -(a : ℝ) / (a + b + 1)

theorem dec_swirl (hg : DecOk k g) {a b : Nat} (hab : a + b ≤ k) {d : Nat} (hd : d < 2) (M N : Nat) (f : Nat → ℝ) :
    ∑ q ∈ Finset.range N, (dfDec g d 1).ent (rank2 [a, b]) (M + q) * f (M + q)
      = if M ≤ (swirlIdx d a b) ∧ (swirlIdx d a b) < M + N then
          decCoef d a b * f (swirlIdx d a b) else 0 := by
  unfold swirlIdx
  have key : ∀ r, (∀ q, (dfDec g d 1).ent (rank2 [a, b]) q = if q = r then decCoef d a b else 0) →
      ∑ q ∈ Finset.range N, (dfDec g d 1).ent (rank2 [a, b]) (M + q) * f (M + q) = if M ≤ r ∧ r < M + N then decCoef d a b * f r else 0 := by
    intro r he
    by_cases h : M ≤ r ∧ r < M + N
    · rw [if_pos h, Finset.sum_eq_single (r - M)]
      · rw [he, if_pos (by omega), show M + (r - M) = r by omega]
      · intro q _ hq
        rw [he, if_neg (by omega), zero_mul]
      · intro hn
        rw [Finset.mem_range] at hn
        omega
    · rw [if_neg h]
      refine Finset.sum_eq_zero fun q hq => ?_
      rw [Finset.mem_range] at hq
      rw [he, if_neg (by omega), zero_mul]
  rcases (by omega : d = 0 ∨ d = 1) with rfl | rfl
  · simp only [if_pos]
    refine key _ fun q => ?_
    rw [hg.ent a b hab]
    by_cases hb : b = 0
    · simp [row2, ex, decCoef, hb]
    · simp [row2, ex, decCoef, Nat.pos_of_ne_zero hb]
  · simp only [if_neg one_ne_zero]
    refine key _ fun q => ?_
    rw [hg.ent a b hab]
    by_cases ha : a = 0
    · simp [row2, ex, decCoef, ha]
    · simp [row2, ex, decCoef, Nat.pos_of_ne_zero ha]

/-- The decomposition itself, tested with two linear functionals. -/
theorem dec_identity (c : ℝ × ℝ) (h : ℝ) (hh : h ≠ 0) {a b : Nat} (hab : a + b ≤ k) {d : Nat} (hd : d < 2) (F : Nat → MvPolynomial (Fin 2) ℝ →ₗ[ℝ] ℝ) :
    h * (1 / ((a : ℝ) + b + 1) * (F 0 (pderiv 0 (basisPoly (k + 1) c h (gradIdx d a b)))
        + F 1 (pderiv 1 (basisPoly (k + 1) c h (gradIdx d a b)))))
      + decCoef d a b * (F 0 (basisPoly k c h (swirlIdx d a b) * basisPoly 1 c h 2)
        + F 1 (-(basisPoly k c h (swirlIdx d a b) * basisPoly 1 c h 1)))
      = F d (basisPoly k c h (rank2 [a, b])) := by
  unfold gradIdx swirlIdx
  have h2 : basisPoly 1 c h 2 = monoPoly c h [0, 1] := basisPoly_rank 1 c h (a := 0) (b := 1) le_rfl
  have h1 : basisPoly 1 c h 1 = monoPoly c h [1, 0] := basisPoly_rank 1 c h (a := 1) (b := 0) le_rfl
  have hmul : ∀ a b a' b', monoPoly c h [a, b] * monoPoly c h [a', b'] = monoPoly c h [a + a', b + b'] := by
    intro a b a' b'
    simp only [monoPoly, ex, List.getD_cons_zero, List.getD_cons_succ]
    ring
  have hC : ∀ (i : Nat) (x : ℝ) (q : MvPolynomial (Fin 2) ℝ), F i (C x * q) = x * F i q := by
    intro i x q
    rw [C_mul', map_smul, smul_eq_mul]
  have hne : (a : ℝ) + b + 1 ≠ 0 := by positivity
  rw [h1, h2, basisPoly_rank k c h hab]
  rcases (by omega : d = 0 ∨ d = 1) with rfl | rfl
  · simp only [if_pos]
    rw [basisPoly_rank (k + 1) c h (by omega), basisPoly_rank k c h (by omega), monoPoly_pderiv0, monoPoly_pderiv1, hmul, hmul, map_neg, hC, hC, decCoef, if_pos rfl]
    simp only [Nat.add_sub_cancel, Nat.add_zero]
    rcases Nat.eq_zero_or_pos b with rfl | hb
    · simp
      field_simp
    · rw [Nat.sub_add_cancel hb]
      push_cast
      field_simp
      ring
  · simp only [if_neg one_ne_zero]
    rw [basisPoly_rank (k + 1) c h (by omega), basisPoly_rank k c h (by omega), monoPoly_pderiv0, monoPoly_pderiv1, hmul, hmul, map_neg, hC, hC, decCoef, if_neg one_ne_zero]
    simp only [Nat.add_sub_cancel, Nat.add_zero]
    rcases Nat.eq_zero_or_pos a with rfl | ha
    · simp
      field_simp
    · rw [Nat.sub_add_cancel ha]
      push_cast
      field_simp
      ring

end PolyDiM
