import Mathlib.RingTheory.Binomial
import Mathlib.Algebra.Field.Basic
import Mathlib.Algebra.CharZero.Defs
import Mathlib.Data.Nat.Factorial.BigOperators
import Mathlib.Algebra.BigOperators.Intervals
import Mathlib.Algebra.BigOperators.Field
import Mathlib.Tactic.FieldSimp
import Mathlib.Tactic.Ring

/-! Helper lemmas: generalised binomial coefficients and Vandermonde's identity. -/

namespace PolyDiM
open Finset Polynomial

variable {K : Type} [Field K]

/-- The generalised binomial coefficient `z choose n`, as a product. -/
def bq (z : K) (n : Nat) : K := ∏ t ∈ range n, (z - t) / ((n : K) - t)

theorem descPochhammer_smeval_prod (z : K) (n : Nat) : (descPochhammer ℤ n).smeval z = ∏ t ∈ range n, (z - (t : K)) := by
  induction n with
  | zero => simp
  | succ n ih =>
    rw [descPochhammer_succ_right, smeval_mul, ih, prod_range_succ, smeval_sub, smeval_X, ← C_eq_natCast, smeval_C, npow_one, npow_zero]
    simp

theorem prod_fact (n : Nat) : ∏ t ∈ range n, ((n : K) - t) = (n.factorial : K) := by
  have : ∏ t ∈ range n, ((n : K) - t) = ∏ t ∈ range n, ((fun j : Nat => ((j + 1 : Nat) : K)) (n - 1 - t)) := by
    apply prod_congr rfl
    intro t ht
    rw [mem_range] at ht
    have : n - 1 - t + 1 = n - t := by omega
    simp only [this]
    rw [Nat.cast_sub (by omega)]
  rw [this, prod_range_reflect (fun j : Nat => ((j + 1 : Nat) : K)), ← Nat.cast_prod, prod_range_add_one_eq_factorial]

theorem bq_eq (z : K) (n : Nat) : bq z n = (descPochhammer ℤ n).smeval z / (n.factorial : K) := by
  unfold bq
  rw [prod_div_distrib, prod_fact, descPochhammer_smeval_prod]

/-- Vandermonde's identity. -/
theorem bq_add [CharZero K] (x y : K) (n : Nat) : ∑ ij ∈ antidiagonal n, bq x ij.1 * bq y ij.2 = bq (x + y) n := by
  rw [bq_eq (x + y), Ring.descPochhammer_smeval_add n (Commute.all x y), sum_div]
  apply sum_congr rfl
  rintro ⟨i, j⟩ h
  rw [mem_antidiagonal] at h
  simp only at h
  subst h
  rw [bq_eq, bq_eq]
  have h := Nat.choose_mul_factorial_mul_factorial (Nat.le_add_right i j)
  rw [Nat.add_sub_cancel_left] at h
  have h' : ((i + j).choose i : K) * (i.factorial : K) * (j.factorial : K) = ((i + j).factorial : K) := by exact_mod_cast h
  have hi : (i.factorial : K) ≠ 0 := Nat.cast_ne_zero.2 (Nat.factorial_ne_zero i)
  have hj : (j.factorial : K) ≠ 0 := Nat.cast_ne_zero.2 (Nat.factorial_ne_zero j)
  have hij : ((i + j).factorial : K) ≠ 0 := Nat.cast_ne_zero.2 (Nat.factorial_ne_zero _)
  have hc : ((i + j).choose i : K) ≠ 0 := by
    intro h0; rw [h0] at h'; simp at h'; exact hij h'.symm
  rw [← h']
  field_simp

theorem bq_self [CharZero K] (n : Nat) : bq (n : K) n = 1 := by
  unfold bq
  apply prod_eq_one
  intro t ht
  rw [mem_range] at ht
  apply div_self
  rw [sub_ne_zero]
  exact_mod_cast (by omega : n ≠ t)

theorem bq_lt (m n : Nat) (h : m < n) : bq (m : K) n = 0 := by
  unfold bq
  exact prod_eq_zero (mem_range.2 h) (by simp)

theorem bq_zero (z : K) : bq z 0 = 1 := by simp [bq]

/-- Vandermonde's identity for three terms. -/
theorem bq_add3 [CharZero K] (x y z : K) (n : Nat) :
    ∑ p ∈ antidiagonal n, ∑ q ∈ antidiagonal p.2, bq x p.1 * (bq y q.1 * bq z q.2) = bq (x + y + z) n := by
  rw [add_assoc, ← bq_add x (y + z) n]
  apply sum_congr rfl
  intro p _
  rw [← mul_sum, bq_add]

/-- Vandermonde's identity for four terms. -/
theorem bq_add4 [CharZero K] (x y z w : K) (n : Nat) :
    ∑ p ∈ antidiagonal n, ∑ q ∈ antidiagonal p.2, ∑ r ∈ antidiagonal q.2, bq x p.1 * (bq y q.1 * (bq z r.1 * bq w r.2)) =
      bq (x + y + z + w) n := by
  rw [add_assoc, add_assoc, ← bq_add x (y + (z + w)) n]
  apply sum_congr rfl
  intro p _
  rw [← add_assoc, ← bq_add3 y z w, mul_sum]
  apply sum_congr rfl
  intro q _
  rw [mul_sum]

end PolyDiM
