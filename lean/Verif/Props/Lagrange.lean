import Verif.Lemmas.Lagrange

/-!
# C29-C31: one-dimensional Lagrange functions

The theorems are about `lagCoefficients`, `lagValue`, `lagDerivative` of `Verif/Model/Lagrange.lean`. The vocabulary is Mathlib's:
polynomials, `Polynomial.eval`, `HasDerivAt`.
-/

namespace PolyDiM
open Polynomial

/-- **C29.** With the coefficients of `Lagrange_1D_coefficients`, the `i`-th function of `Lagrange_1D_values` is `1` at the `i`-th
point and `0` at the others. -/
theorem C29_nodal {K : Type} [Field K] (pts : List K) (hd : pts.Nodup) (i j : Nat) (hi : i < pts.length) (x : K)
    (hx : pts[j]? = some x) :
    lagValue pts (lagCoefficients pts) x i = .ok (if i = j then 1 else 0) := by
  obtain ⟨hj, hj'⟩ := List.getElem?_eq_some_iff.1 hx
  have hxe : x = (fun j => pts.getD j 0) j := by
    rw [← hj']; simp [hj]
  rw [lagValue_ok pts x hi, hxe]
  congr 1
  by_cases hij : i = j
  · subst hij
    rw [if_pos rfl]
    exact Lagrange.eval_basis_self (nodes_injOn hd) (Finset.mem_range.2 hi)
  · rw [if_neg hij]
    exact Lagrange.eval_basis_of_ne (F := K) (v := fun j => pts.getD j 0) hij (Finset.mem_range.2 hj)

example : ([0, 1 / 2, 1] : List ℚ).Nodup ∧ ([0, 1 / 2, 1] : List ℚ)[1]? = some (1 / 2) ∧
    lagValue [0, 1 / 2, 1] (lagCoefficients [0, 1 / 2, 1]) (1 / 2 : ℚ) 1 = .ok 1 ∧
    lagValue [0, 1 / 2, 1] (lagCoefficients [0, 1 / 2, 1]) (1 : ℚ) 1 = .ok 0 := by
  have hd : ([0, 1 / 2, 1] : List ℚ).Nodup := by norm_num
  refine ⟨hd, rfl, ?_, ?_⟩
  · exact C29_nodal (K := ℚ) _ hd 1 1 (by simp) _ rfl
  · exact C29_nodal (K := ℚ) _ hd 1 2 (by simp) _ rfl

/-- **C30.** For distinct points the functions sum to one everywhere (unless there is no point at all) and the interpolant of every
polynomial `p` of degree below the number of points is `p` itself. -/
theorem C30_reproduction {K : Type} [Field K] (pts : List K) (hd : pts.Nodup) (x : K) :
    ∃ ℓ : Nat → K, (∀ i, i < pts.length → lagValue pts (lagCoefficients pts) x i = .ok (ℓ i)) ∧
      (pts ≠ [] → ∑ i ∈ Finset.range pts.length, ℓ i = 1) ∧
      ∀ p : K[X], p.degree < pts.length → ∑ i ∈ Finset.range pts.length, p.eval (pts.getD i 0) * ℓ i = p.eval x := by
  refine ⟨fun i => (Lagrange.basis (Finset.range pts.length) (fun j => pts.getD j 0) i).eval x,
    fun i hi => lagValue_ok pts x hi, fun hne => ?_, fun p hp => ?_⟩
  · rw [← Polynomial.eval_finset_sum, Lagrange.sum_basis (nodes_injOn hd), Polynomial.eval_one]
    rw [Finset.nonempty_range_iff]
    simpa using hne
  · have h := Lagrange.eq_interpolate (s := Finset.range pts.length) (v := fun j => pts.getD j 0) (nodes_injOn hd)
      (by rw [Finset.card_range]; exact hp)
    conv_rhs => rw [h]
    rw [Lagrange.interpolate_apply, Polynomial.eval_finset_sum]
    exact Finset.sum_congr rfl fun i _ => by rw [Polynomial.eval_mul, Polynomial.eval_C]

example : ([0, 1 / 2, 1] : List ℚ).Nodup ∧ ([0, 1 / 2, 1] : List ℚ) ≠ [] ∧
    (X ^ 2 : ℚ[X]).degree < ([0, 1 / 2, 1] : List ℚ).length := by
  refine ⟨by norm_num, by simp, ?_⟩
  rw [degree_X_pow]
  exact_mod_cast (by decide : (2 : Nat) < 3)

/-- **C31.** For any points and coefficients (one per point) the entries of `Lagrange_1D_derivative_values` are the derivatives of the
functions evaluated by `Lagrange_1D_values`. -/
theorem C31_derivative (pts coef : List ℝ) (hc : coef.length = pts.length) (i : Nat) (hi : i < pts.length) :
    ∃ (f f' : ℝ → ℝ), (∀ x, lagValue pts coef x i = .ok (f x)) ∧ (∀ x, lagDerivative pts coef x i = .ok (f' x)) ∧
      ∀ x, HasDerivAt f (f' x) x := by
  by_cases h1 : pts.length = 1
  · exact ⟨fun _ => 1, fun _ => 0, fun x => if_pos h1, fun x => if_pos h1, fun x => hasDerivAt_const x 1⟩
  · obtain ⟨c, hci⟩ : ∃ c, coef[i]? = some c := ⟨_, List.getElem?_eq_getElem (by omega)⟩
    refine ⟨fun x => c * ∏ j ∈ (Finset.range pts.length).erase i, (x - pts.getD j 0),
      fun x => ∑ j ∈ (Finset.range pts.length).erase i,
        c * ∏ k ∈ ((Finset.range pts.length).erase i).erase j, (x - pts.getD k 0), fun x => ?_, fun x => ?_, fun x => ?_⟩
    · unfold lagValue
      rw [if_neg h1, (unchecked_ok_iff _ _ _).2 hci, except_ok_bind, lagProd_eq]
    · unfold lagDerivative
      rw [if_neg h1, (unchecked_ok_iff _ _ _).2 hci, except_ok_bind, foldl_sum, zero_add]
      congr 1
      exact Finset.sum_congr rfl fun j _ => lagProd2_eq pts x i j c
    · have h2 := HasDerivAt.fun_finsetProd (u := (Finset.range pts.length).erase i) (x := x)
        (f := fun j y => y - pts.getD j 0) (f' := fun _ => 1)
        (fun j _ => (hasDerivAt_sub_const_iff (pts.getD j 0)).2 (hasDerivAt_id x))
      refine (h2.const_mul c).congr_deriv ?_
      rw [Finset.mul_sum]
      exact Finset.sum_congr rfl fun j _ => by simp

example : (lagCoefficients [0, 1, (3 : ℝ)]).length = [0, 1, (3 : ℝ)].length ∧ 2 < [0, 1, (3 : ℝ)].length := by
  simp [lagCoefficients]

end PolyDiM
