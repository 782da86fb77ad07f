import Verif.Model.VemPcc2D
import Verif.Lemmas.Mat
import Mathlib.Algebra.Order.BigOperators.Ring.Finset
import Mathlib.Tactic.Ring
import Mathlib.Tactic.NormNum

/-!
# Property C50: the stabilization matrices of VEM PCC
-/

namespace PolyDiM

open Spec Finset

variable {K : Type} [Field K] [LinearOrder K]

omit [LinearOrder K] in
/-- The vector `D Π x - x`. -/
theorem sub_one_apply (n m : Nat) (P D : Nat → Nat → K) (x : Nat → K) (i : Nat) (hi : i < m) :
    ∑ j ∈ range m, (if i = j then (∑ l ∈ range n, D i l * P l j) - 1 else ∑ l ∈ range n, D i l * P l j) * x j
      = (∑ l ∈ range n, D i l * ∑ j ∈ range m, P l j * x j) - x i := by
  have h1 : ∀ j ∈ range m, (if i = j then (∑ l ∈ range n, D i l * P l j) - 1 else ∑ l ∈ range n, D i l * P l j) * x j
      = (∑ l ∈ range n, D i l * (P l j * x j)) - if i = j then x j else 0 := by
    intro j _
    split_ifs
    · rw [sub_mul, sum_mul, one_mul]
      simp only [mul_assoc]
    · rw [sum_mul, sub_zero]
      simp only [mul_assoc]
  rw [sum_congr rfl h1, sum_sub_distrib, sum_comm, sum_ite_eq, if_pos (mem_range.2 hi)]
  simp only [mul_sum]

omit [LinearOrder K] in
/-- The quadratic form of `Sᵀ W S`. -/
theorem congruence_form (m : Nat) (S : Nat → Nat → K) (w : Nat → K) (x y : Nat → K) :
    ∑ i ∈ range m, x i * ∑ j ∈ range m, (∑ k ∈ range m, w k * S k i * S k j) * y j
      = ∑ k ∈ range m, w k * (∑ i ∈ range m, S k i * x i) * (∑ j ∈ range m, S k j * y j) := by
  simp only [sum_mul, mul_sum]
  have e1 : ∑ i ∈ range m, ∑ j ∈ range m, ∑ k ∈ range m, x i * (w k * S k i * S k j * y j)
      = ∑ i ∈ range m, ∑ k ∈ range m, ∑ j ∈ range m, x i * (w k * S k i * S k j * y j) := sum_congr rfl fun i _ => sum_comm
  rw [e1, sum_comm]
  refine sum_congr rfl fun k _ => ?_
  rw [sum_comm]
  exact sum_congr rfl fun j _ => sum_congr rfl fun i _ => by ring

omit [LinearOrder K] in
/-- C50: the dofi-dofi stabilization exists for every projector (`n × m`) and DOF matrix (`m × n`), is symmetric and its bilinear form is the
coefficient times the product of `D Π x - x` and `D Π y - y`. -/
theorem C50_dofi_form (n m : Nat) (P D : Nat → Nat → K) (c : K) :
    ∃ S, dofiDofi ⟨n, m, P⟩ c ⟨m, n, D⟩ = .ok S ∧ S.rows = m ∧ S.cols = m ∧ (∀ i j, S.ent i j = S.ent j i) ∧
      ∀ x y : Nat → K, ∑ i ∈ range m, x i * ∑ j ∈ range m, S.ent i j * y j
        = c * ∑ k ∈ range m, ((∑ l ∈ range n, D k l * ∑ j ∈ range m, P l j * x j) - x k) * ((∑ l ∈ range n, D k l * ∑ j ∈ range m, P l j * y j) - y k) := by
  have e : dofiDofi ⟨n, m, P⟩ c ⟨m, n, D⟩ = .ok ⟨m, m, fun i j => ∑ k ∈ range m,
      c * (if k = i then (∑ l ∈ range n, D k l * P l i) - 1 else ∑ l ∈ range n, D k l * P l i) *
        (if k = j then (∑ l ∈ range n, D k l * P l j) - 1 else ∑ l ∈ range n, D k l * P l j)⟩ := by
    unfold dofiDofi
    rw [DMat.mul_ok _ _ rfl, except_ok_bind]
    exact DMat.mul_ok _ _ rfl
  refine ⟨_, e, rfl, rfl, ?_, ?_⟩
  · intro i j
    dsimp only
    exact sum_congr rfl fun k _ => by ring
  · intro x y
    have := congruence_form m (fun k i => if k = i then (∑ l ∈ range n, D k l * P l i) - 1 else ∑ l ∈ range n, D k l * P l i) (fun _ => c) x y
    rw [this, mul_sum]
    refine sum_congr rfl fun k hk => ?_
    rw [sub_one_apply n m P D x k (mem_range.1 hk), sub_one_apply n m P D y k (mem_range.1 hk), mul_assoc]

/-- C50: for a non-negative coefficient the dofi-dofi stabilization is positive semidefinite. -/
theorem C50_dofi_psd [IsStrictOrderedRing K] (n m : Nat) (P D : Nat → Nat → K) (c : K) (hc : 0 ≤ c) :
    ∃ S, dofiDofi ⟨n, m, P⟩ c ⟨m, n, D⟩ = .ok S ∧ ∀ x : Nat → K, 0 ≤ ∑ i ∈ range m, x i * ∑ j ∈ range m, S.ent i j * x j := by
  obtain ⟨S, hS, _, _, _, hf⟩ := C50_dofi_form n m P D c
  refine ⟨S, hS, fun x => ?_⟩
  rw [hf]
  exact mul_nonneg hc (sum_nonneg fun k _ => mul_self_nonneg _)

/-- C50: for a positive coefficient the kernel of the dofi-dofi stabilization, and the set where its quadratic form vanishes, are the vectors
that projection and evaluation reproduce. -/
theorem C50_dofi_kernel [IsStrictOrderedRing K] (n m : Nat) (P D : Nat → Nat → K) (c : K) (hc : 0 < c) :
    ∃ S, dofiDofi ⟨n, m, P⟩ c ⟨m, n, D⟩ = .ok S ∧ ∀ x : Nat → K,
      ((∀ i < m, ∑ j ∈ range m, S.ent i j * x j = 0) ↔ ∀ k < m, ∑ l ∈ range n, D k l * ∑ j ∈ range m, P l j * x j = x k) ∧
      (∑ i ∈ range m, x i * ∑ j ∈ range m, S.ent i j * x j = 0 ↔ ∀ k < m, ∑ l ∈ range n, D k l * ∑ j ∈ range m, P l j * x j = x k) := by
  obtain ⟨S, hS, _, _, _, hf⟩ := C50_dofi_form n m P D c
  refine ⟨S, hS, fun x => ?_⟩
  have h2 : ∑ i ∈ range m, x i * ∑ j ∈ range m, S.ent i j * x j = 0 ↔ ∀ k < m, ∑ l ∈ range n, D k l * ∑ j ∈ range m, P l j * x j = x k := by
    rw [hf, mul_eq_zero, or_iff_right hc.ne', sum_eq_zero_iff_of_nonneg fun k _ => mul_self_nonneg _]
    simp only [mem_range, mul_self_eq_zero, sub_eq_zero]
  refine ⟨⟨fun h => h2.1 ?_, fun h => ?_⟩, h2⟩
  · exact sum_eq_zero fun i hi => by rw [h i (mem_range.1 hi), mul_zero]
  · intro i hi
    have := hf (fun j => if j = i then 1 else 0) x
    simp only [ite_mul, one_mul, zero_mul, sum_ite_eq', mem_range, hi, if_true] at this
    rw [this]
    refine mul_eq_zero_of_right _ (sum_eq_zero fun k hk => ?_)
    rw [sub_eq_zero.2 (h k (mem_range.1 hk)), mul_zero]

omit [LinearOrder K] in
/-- C50: where the projector maps the DOFs `D a` of a polynomial with coefficients `a` to `a`, the dofi-dofi stabilization vanishes. -/
theorem C50_dofi_polynomials (n m : Nat) (P D : Nat → Nat → K) (c : K) (a : Nat → K)
    (h : ∀ l < n, ∑ j ∈ range m, P l j * ∑ q ∈ range n, D j q * a q = a l) :
    ∃ S, dofiDofi ⟨n, m, P⟩ c ⟨m, n, D⟩ = .ok S ∧ ∀ i < m, ∑ j ∈ range m, S.ent i j * ∑ q ∈ range n, D j q * a q = 0 := by
  obtain ⟨S, hS, _, _, _, hf⟩ := C50_dofi_form n m P D c
  refine ⟨S, hS, fun i hi => ?_⟩
  have := hf (fun j => if j = i then 1 else 0) (fun j => ∑ q ∈ range n, D j q * a q)
  simp only [ite_mul, one_mul, zero_mul, sum_ite_eq', mem_range, hi, if_true] at this
  rw [this]
  refine mul_eq_zero_of_right _ (sum_eq_zero fun k hk => mul_eq_zero_of_right _ (sub_eq_zero.2 ?_))
  exact sum_congr rfl fun l hl => by rw [h l (mem_range.1 hl)]

/-- C50: the D-recipe stabilization exists when the coercivity matrix is `m × m` and the coefficients are `m`; it is symmetric, and its bilinear
form is the product of `D Π x - x` and `D Π y - y` weighted with the larger one of diagonal entry and coefficient. -/
theorem C50_drecipe_form (n m : Nat) (P D A : Nat → Nat → K) (c : Nat → K) :
    ∃ S, dRecipe ⟨n, m, P⟩ ⟨m, m, A⟩ ((List.range m).map c) ⟨m, n, D⟩ = .ok S ∧ S.rows = m ∧ S.cols = m ∧ (∀ i j, S.ent i j = S.ent j i) ∧
      ∀ x y : Nat → K, ∑ i ∈ range m, x i * ∑ j ∈ range m, S.ent i j * y j = ∑ k ∈ range m, max (A k k) (c k) *
        ((∑ l ∈ range n, D k l * ∑ j ∈ range m, P l j * x j) - x k) * ((∑ l ∈ range n, D k l * ∑ j ∈ range m, P l j * y j) - y k) := by
  set W : List K := ((List.range m).map c).zipIdx.map fun z => max (A z.2 z.2) z.1 with hW
  have hlen : W.length = m := by simp [W]
  have hget : ∀ k < m, W.getD k 0 = max (A k k) (c k) := by
    intro k hk
    simp [W, List.getD_eq_getElem?_getD, hk]
  have e : dRecipe ⟨n, m, P⟩ ⟨m, m, A⟩ ((List.range m).map c) ⟨m, n, D⟩ = .ok ⟨m, m, fun i j => ∑ k ∈ range m,
      (if k = i then (∑ l ∈ range n, D k l * P l i) - 1 else ∑ l ∈ range n, D k l * P l i) * W.getD k 0 *
        (if k = j then (∑ l ∈ range n, D k l * P l j) - 1 else ∑ l ∈ range n, D k l * P l j)⟩ := by
    unfold dRecipe
    rw [DMat.mul_ok _ _ rfl, except_ok_bind]
    dsimp only
    rw [if_pos ⟨le_refl _, by simp⟩, DMat.mulDiag_ok _ _ (by rw [← hW, hlen]; rfl), except_ok_bind]
    exact DMat.mul_ok _ _ rfl
  refine ⟨_, e, rfl, rfl, ?_, ?_⟩
  · intro i j
    dsimp only
    exact sum_congr rfl fun k _ => by ring
  · intro x y
    have := congruence_form m (fun k i => if k = i then (∑ l ∈ range n, D k l * P l i) - 1 else ∑ l ∈ range n, D k l * P l i)
      (fun k => max (A k k) (c k)) x y
    refine Eq.trans ?_ (this.trans (sum_congr rfl fun k hk => ?_))
    · dsimp only
      refine sum_congr rfl fun i _ => congrArg _ (sum_congr rfl fun j _ => congrArg (· * y j) (sum_congr rfl fun k hk => ?_))
      rw [hget k (mem_range.1 hk)]
      ring
    · rw [sub_one_apply n m P D x k (mem_range.1 hk), sub_one_apply n m P D y k (mem_range.1 hk)]

/-- C50: for non-negative coefficients the D-recipe stabilization is positive semidefinite, whatever the coercivity matrix is. -/
theorem C50_drecipe_psd [IsStrictOrderedRing K] (n m : Nat) (P D A : Nat → Nat → K) (c : Nat → K) (hc : ∀ k < m, 0 ≤ c k) :
    ∃ S, dRecipe ⟨n, m, P⟩ ⟨m, m, A⟩ ((List.range m).map c) ⟨m, n, D⟩ = .ok S ∧
      ∀ x : Nat → K, 0 ≤ ∑ i ∈ range m, x i * ∑ j ∈ range m, S.ent i j * x j := by
  obtain ⟨S, hS, _, _, _, hf⟩ := C50_drecipe_form n m P D A c
  refine ⟨S, hS, fun x => ?_⟩
  rw [hf]
  refine sum_nonneg fun k hk => ?_
  rw [mul_assoc]
  exact mul_nonneg (le_max_of_le_right (hc k (mem_range.1 hk))) (mul_self_nonneg _)

/-- C50: where the projector maps the DOFs `D a` of a polynomial with coefficients `a` to `a`, the D-recipe stabilization vanishes. -/
theorem C50_drecipe_polynomials (n m : Nat) (P D A : Nat → Nat → K) (c : Nat → K) (a : Nat → K)
    (h : ∀ l < n, ∑ j ∈ range m, P l j * ∑ q ∈ range n, D j q * a q = a l) :
    ∃ S, dRecipe ⟨n, m, P⟩ ⟨m, m, A⟩ ((List.range m).map c) ⟨m, n, D⟩ = .ok S ∧
      ∀ i < m, ∑ j ∈ range m, S.ent i j * ∑ q ∈ range n, D j q * a q = 0 := by
  obtain ⟨S, hS, _, _, _, hf⟩ := C50_drecipe_form n m P D A c
  refine ⟨S, hS, fun i hi => ?_⟩
  have := hf (fun j => if j = i then 1 else 0) (fun j => ∑ q ∈ range n, D j q * a q)
  simp only [ite_mul, one_mul, zero_mul, sum_ite_eq', mem_range, hi, if_true] at this
  rw [this]
  refine sum_eq_zero fun k hk => mul_eq_zero_of_right _ (sub_eq_zero.2 ?_)
  exact sum_congr rfl fun l hl => by rw [h l (mem_range.1 hl)]

/-- C50: for positive coefficients the kernel of the D-recipe stabilization is the same as the one of the dofi-dofi stabilization. -/
theorem C50_drecipe_kernel [IsStrictOrderedRing K] (n m : Nat) (P D A : Nat → Nat → K) (c : Nat → K) (hc : ∀ k < m, 0 < c k) :
    ∃ S, dRecipe ⟨n, m, P⟩ ⟨m, m, A⟩ ((List.range m).map c) ⟨m, n, D⟩ = .ok S ∧ ∀ x : Nat → K,
      (∀ i < m, ∑ j ∈ range m, S.ent i j * x j = 0) ↔ ∀ k < m, ∑ l ∈ range n, D k l * ∑ j ∈ range m, P l j * x j = x k := by
  obtain ⟨S, hS, _, _, _, hf⟩ := C50_drecipe_form n m P D A c
  refine ⟨S, hS, fun x => ⟨fun h => ?_, fun h => ?_⟩⟩
  · have h0 : ∑ i ∈ range m, x i * ∑ j ∈ range m, S.ent i j * x j = 0 :=
      sum_eq_zero fun i hi => by rw [h i (mem_range.1 hi), mul_zero]
    have hpos : ∀ k ∈ range m, 0 < max (A k k) (c k) := fun k hk => lt_max_of_lt_right (hc k (mem_range.1 hk))
    rw [hf, sum_eq_zero_iff_of_nonneg fun k hk => by
      rw [mul_assoc]
      exact mul_nonneg (hpos k hk).le (mul_self_nonneg _)] at h0
    intro k hk
    have := h0 k (mem_range.2 hk)
    rw [mul_assoc, mul_eq_zero, or_iff_right (hpos k (mem_range.2 hk)).ne', mul_self_eq_zero, sub_eq_zero] at this
    exact this
  · intro i hi
    have := hf (fun j => if j = i then 1 else 0) x
    simp only [ite_mul, one_mul, zero_mul, sum_ite_eq', mem_range, hi, if_true] at this
    rw [this]
    refine sum_eq_zero fun k hk => ?_
    rw [sub_eq_zero.2 (h k (mem_range.1 hk)), mul_zero]

/-- The hypothesis of the statement on polynomials is met by constants on two DOFs with the mean value as projector. -/
example : ∀ l < 1, ∑ _j ∈ range 2, (1 / 2 : ℚ) * ∑ _q ∈ range 1, (1 : ℚ) * 7 = (fun _ => (7 : ℚ)) l := by
  intro l _
  norm_num

/-- The stabilization of that projector is not zero: the form of the vector `(1, -1)` is `2`. -/
example : ∃ S, dofiDofi (K := ℚ) ⟨1, 2, fun _ _ => 1 / 2⟩ 1 ⟨2, 1, fun _ _ => 1⟩ = .ok S ∧ S.ent 0 0 = 1 / 2 ∧ S.ent 0 1 = -1 / 2 := by
  refine ⟨_, rfl, ?_, ?_⟩ <;> norm_num [sum_range_succ, DMat.subOne, DMat.smul, DMat.tr]

end PolyDiM
