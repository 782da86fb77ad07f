import Verif.Lemmas.FemQuad
import Verif.Lemmas.FemTriangleSpace
import Mathlib.Algebra.BigOperators.Group.Finset.Basic

/-! Helper lemmas: the equispaced 1D Lagrange functions as products of generalised binomial coefficients. -/

namespace PolyDiM
open Finset

variable {K : Type} [Field K]

/-- The lattice number of the 1D DOF `a` of order `n`: first end, last end, interior. -/
def latNum (n a : Nat) : Nat := if a = 0 then 0 else if a = 1 then n else a - 1

theorem equi_lat [CharZero K] (k a : Nat) (ha : a < k + 2) : (equi K k).getD a 0 = (latNum (k + 1) a : K) / ((k + 1 : Nat) : K) := by
  have hk : ((k + 1 : Nat) : K) ≠ 0 := Nat.cast_ne_zero.2 (by omega)
  unfold equi latNum
  rw [fem1Pos_linSpaced]
  rcases a with _ | _ | a
  · simp
  · simp only [Nat.zero_add, one_ne_zero, if_false, if_true, div_self hk]
    rfl
  · have : a < k := by omega
    simp [this]

theorem latNum_lt {k a : Nat} (ha : a < k + 2) : latNum (k + 1) a < k + 2 := by
  unfold latNum; split_ifs <;> omega

theorem latNum_inj {k a b : Nat} (ha : a < k + 2) (hb : b < k + 2) (h : latNum (k + 1) a = latNum (k + 1) b) : a = b := by
  unfold latNum at h; split_ifs at h <;> omega

/-- The inverse of `latNum`. -/
def latIdx (n m : Nat) : Nat := if m = 0 then 0 else if m = n then 1 else m + 1

theorem latIdx_lt {k m : Nat} (hm : m < k + 2) : latIdx (k + 1) m < k + 2 := by
  unfold latIdx; split_ifs <;> omega

theorem latNum_latIdx {k m : Nat} (hm : m < k + 2) : latNum (k + 1) (latIdx (k + 1) m) = m := by
  unfold latIdx
  by_cases h0 : m = 0
  · simp [h0, latNum]
  by_cases h1 : m = k + 1
  · simp [h1, latNum]
  · simp [h0, h1, latNum]

/-- The 1D Lagrange function of lattice number `m`, order `n`. -/
def edgeFn (n m : Nat) (t : K) : K := bq ((n : K) * (1 - t)) (n - m) * bq ((n : K) * t) m

theorem lattice_prod [CharZero K] (n m : Nat) (hm : m ≤ n) (z : K) :
    ∏ l ∈ (range (n + 1)).erase m, (z - l) / ((m : K) - l) = bq ((n : K) - z) (n - m) * bq z m := by
  have hsplit : (range (n + 1)).erase m = range m ∪ (range (n - m)).image fun t => n - t := by
    ext l
    simp only [mem_erase, mem_range, mem_union, mem_image]
    constructor
    · intro h
      by_cases hl : l < m
      · exact Or.inl hl
      · exact Or.inr ⟨n - l, by omega, by omega⟩
    · rintro (h | ⟨t, ht, rfl⟩) <;> omega
  rw [hsplit, prod_union, prod_image, mul_comm]
  · congr 1
    unfold bq
    apply prod_congr rfl
    intro t ht
    rw [mem_range] at ht
    rw [Nat.cast_sub (by omega : t ≤ n), Nat.cast_sub hm, ← neg_div_neg_eq]
    congr 1 <;> ring
  · intro a ha b hb h
    simp only [coe_range, Set.mem_Iio] at ha hb
    simp only at h
    omega
  · rw [disjoint_left]
    intro l hl
    simp only [mem_range, mem_image, not_exists, not_and] at hl ⊢
    intro t ht h
    omega

/-- The 1D basis functions in closed form. -/
theorem fem1Value_lat [CharZero K] (k a : Nat) (ha : a < k + 2) (t : K) :
    fem1Value (bndRef K k) t a = .ok (edgeFn (k + 1) (latNum (k + 1) a) t) := by
  have hk : ((k + 1 : Nat) : K) ≠ 0 := Nat.cast_ne_zero.2 (by omega)
  have hl := equi_length (K := K) k
  show lagValue (equi K k) (lagCoefficients (equi K k)) t a = _
  rw [lagValue_ok _ _ (by omega), hl]
  congr 1
  unfold Lagrange.basis Lagrange.basisDivisor
  rw [Polynomial.eval_prod]
  have hL := lattice_prod (K := K) (k + 1) (latNum (k + 1) a) (Nat.lt_succ_iff.1 (latNum_lt ha)) (((k + 1 : Nat) : K) * t)
  unfold edgeFn
  rw [show ((k + 1 : Nat) : K) * (1 - t) = ((k + 1 : Nat) : K) - ((k + 1 : Nat) : K) * t by ring, ← hL]
  refine prod_nbij (fun j => latNum (k + 1) j) ?_ ?_ ?_ ?_
  · intro j hj
    rw [mem_erase, mem_range] at hj ⊢
    exact ⟨fun h => hj.1 (latNum_inj hj.2 ha h), latNum_lt hj.2⟩
  · intro i hi j hj h
    have hi := mem_erase.1 hi
    have hj := mem_erase.1 hj
    rw [mem_range] at hi hj
    exact latNum_inj hi.2 hj.2 h
  · intro l hl
    have hl := mem_erase.1 hl
    rw [mem_range] at hl
    refine ⟨latIdx (k + 1) l, ?_, latNum_latIdx hl.2⟩
    rw [mem_coe, mem_erase, mem_range]
    refine ⟨fun h => hl.1 ?_, latIdx_lt hl.2⟩
    rw [← h, latNum_latIdx hl.2]
  · intro j hj
    rw [mem_erase, mem_range] at hj
    simp only [Polynomial.eval_mul, Polynomial.eval_C, Polynomial.eval_sub, Polynomial.eval_X]
    rw [equi_lat k a ha, equi_lat k j hj.2]
    have hne : (latNum (k + 1) a : K) - (latNum (k + 1) j : K) ≠ 0 := by
      rw [sub_ne_zero]
      intro h
      exact hj.1 (latNum_inj ha hj.2 (Nat.cast_injective h)).symm
    field_simp

theorem bq_zero_left (n : Nat) : bq (0 : K) n = if n = 0 then 1 else 0 := by
  unfold bq
  rcases n with _ | n
  · simp
  · rw [if_neg (by omega)]
    apply prod_eq_zero (mem_range.2 (Nat.succ_pos n))
    simp

/-- Reversing the segment. -/
theorem edgeFn_symm (n m : Nat) (hm : m ≤ n) (t : K) : edgeFn n (n - m) (1 - t) = edgeFn (K := K) n m t := by
  unfold edgeFn
  rw [Nat.sub_sub_self hm, sub_sub_cancel, mul_comm]

theorem edgeFn_zero [CharZero K] (n m : Nat) : edgeFn (K := K) n m 0 = if m = 0 then 1 else 0 := by
  unfold edgeFn
  rw [mul_zero, bq_zero_left, sub_zero, mul_one]
  split_ifs with h
  · subst h
    rw [Nat.sub_zero, bq_self, one_mul]
  · rw [mul_zero]

theorem edgeFn_one [CharZero K] (n m : Nat) (hm : m ≤ n) : edgeFn (K := K) n m 1 = if m = n then 1 else 0 := by
  rw [← edgeFn_symm n m hm, sub_self, edgeFn_zero]
  by_cases h : m = n
  · rw [if_pos h, if_pos (by omega)]
  · rw [if_neg h, if_neg (by omega)]

end PolyDiM
