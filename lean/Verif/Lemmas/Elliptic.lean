import Verif.Model.Elliptic
import Verif.Lemmas.Mat
import Verif.Lemmas.Quadrature
import Mathlib.Algebra.Order.BigOperators.Ring.Finset
import Mathlib.Tactic.Ring

/-!
# Lemmas: element matrices of elliptic equations
-/

namespace PolyDiM

open Finset

variable {K : Type} [Field K]

/-- A vector given by its entries. -/
def vecOf {α : Type} (n : Nat) (f : Nat → α) : List α := (List.range n).map f

theorem atIdx_vecOf {α : Type} {n i : Nat} (f : Nat → α) (h : i < n) : atIdx (vecOf n f) i = .ok (f i) := by
  unfold atIdx vecOf
  rw [List.getElem?_map, List.getElem?_range h]
  rfl

theorem unchecked_vecOf {α : Type} {n i : Nat} (f : Nat → α) (h : i < n) : unchecked (vecOf n f) i = .ok (f i) := by
  unfold unchecked vecOf
  rw [List.getElem?_map, List.getElem?_range h]
  rfl

theorem vecOf_length {α : Type} (n : Nat) (f : Nat → α) : (vecOf n f).length = n := by simp [vecOf]

theorem vecOf_getD {n i : Nat} (f : Nat → K) (h : i < n) : (vecOf n f).getD i 0 = f i := by simp [vecOf, List.getD_eq_getElem?_getD, h]

theorem cwise_ok (n : Nat) (f g : Nat → K) : cwiseProduct (vecOf n f) (vecOf n g) = .ok (vecOf n fun i => f i * g i) := by
  unfold cwiseProduct
  rw [if_pos (by rw [vecOf_length, vecOf_length])]
  congr 1
  unfold vecOf
  rw [List.zipWith_map, List.zipWith_self]

theorem cellTerm_ok (Q n m : Nat) (w v : Nat → K) (S T : Nat → Nat → K) :
    cellTerm (vecOf Q v) ⟨Q, m, S⟩ ⟨Q, n, T⟩ (vecOf Q w) = .ok ⟨n, m, fun i j => ∑ q ∈ range Q, T q i * (vecOf Q fun i => w i * v i).getD q 0 * S q j⟩ := by
  unfold cellTerm
  rw [cwise_ok, except_ok_bind, DMat.mulDiag_ok _ _ (by rw [vecOf_length]; rfl), except_ok_bind]
  exact DMat.mul_ok _ _ rfl

theorem cellTerm_ent (Q : Nat) (w v : Nat → K) (S T : Nat → Nat → K) (i j : Nat) :
    ∑ q ∈ range Q, T q i * (vecOf Q fun i => w i * v i).getD q 0 * S q j = ∑ q ∈ range Q, w q * (v q * (T q i * S q j)) :=
  sum_congr rfl fun q hq => by
    rw [vecOf_getD _ (mem_range.1 hq)]
    ring

theorem cellForcing_ok (Q n : Nat) (w f : Nat → K) (T : Nat → Nat → K) :
    cellForcing (vecOf Q f) ⟨Q, n, T⟩ (vecOf Q w) = .ok ⟨n, 1, fun i _ => ∑ q ∈ range Q, T q i * (vecOf Q w).getD q 0 * (vecOf Q f).getD q 0⟩ := by
  unfold cellForcing
  rw [DMat.mulDiag_ok _ _ (by rw [vecOf_length]; rfl), except_ok_bind]
  exact DMat.mul_ok _ _ (by rw [show (DMat.col (vecOf Q f)).rows = Q from vecOf_length Q f]; rfl)

theorem cellForcing_ent (Q : Nat) (w f : Nat → K) (T : Nat → Nat → K) (i : Nat) :
    ∑ q ∈ range Q, T q i * (vecOf Q w).getD q 0 * (vecOf Q f).getD q 0 = ∑ q ∈ range Q, w q * (f q * T q i) :=
  sum_congr rfl fun q hq => by
    rw [vecOf_getD _ (mem_range.1 hq), vecOf_getD _ (mem_range.1 hq)]
    ring

/-- Accumulation of matrices of one size. -/
theorem acc_ok (r c : Nat) (B : Nat → Nat → Nat → K) (g : DMat K → Nat → Except Fault (DMat K)) (l : List Nat) (A : Nat → Nat → K)
    (h : ∀ A, ∀ d ∈ l, g A d = A.add ⟨r, c, B d⟩) :
    l.foldlM g ⟨r, c, A⟩ = .ok ⟨r, c, fun i j => A i j + (l.map fun d => B d i j).sum⟩ := by
  have := foldlM_eq g (fun pre => (⟨r, c, fun i j => A i j + (pre.map fun d => B d i j).sum⟩ : DMat K)) l (by
    intro pre a post hl
    rw [h _ a (by rw [hl]; simp), DMat.add_ok _ _ (by rfl) (by rfl)]
    simp only [List.map_append, List.map_cons, List.map_nil, List.sum_append, List.sum_cons, List.sum_nil, add_zero, add_assoc])
  simpa only [List.map_nil, List.sum_nil, add_zero] using this

theorem range_sum (D : Nat) (f : Nat → K) : ((List.range D).map f).sum = ∑ d ∈ range D, f d := by
  induction D with
  | zero => rfl
  | succ D ih => rw [List.range_succ, List.map_append, List.sum_append, ih, Finset.sum_range_succ]; simp

/-- First term plus the others. -/
theorem head_sum {D : Nat} (hD : 1 ≤ D) (f : Nat → K) : f 0 + ((List.range' 1 (D - 1)).map f).sum = ∑ d ∈ range D, f d := by
  obtain ⟨D, rfl⟩ : ∃ d, D = d + 1 := ⟨D - 1, by omega⟩
  rw [Finset.sum_range_succ', add_comm, Nat.add_sub_cancel]
  congr 1
  rw [List.range'_eq_map_range, List.map_map, range_sum]
  exact sum_congr rfl fun d _ => by rw [Function.comp_apply, add_comm 1 d]

/-- The bilinear form of a matrix. -/
def form (n m : Nat) (F : Nat → Nat → K) (v u : Nat → K) : K := ∑ i ∈ range n, v i * ∑ j ∈ range m, F i j * u j

theorem form_sum (n m : Nat) (s : Finset Nat) (F : Nat → Nat → Nat → K) (v u : Nat → K) :
    form n m (fun i j => ∑ q ∈ s, F q i j) v u = ∑ q ∈ s, form n m (F q) v u := by
  unfold form
  rw [sum_comm]
  refine sum_congr rfl fun i _ => ?_
  rw [← mul_sum]
  congr 1
  rw [sum_comm]
  exact sum_congr rfl fun j _ => by rw [sum_mul]

theorem form_mul (n m : Nat) (c : K) (F : Nat → Nat → K) (v u : Nat → K) : form n m (fun i j => c * F i j) v u = c * form n m F v u := by
  unfold form
  rw [mul_sum]
  refine sum_congr rfl fun i _ => ?_
  rw [mul_sum, mul_sum, mul_sum]
  exact sum_congr rfl fun j _ => by ring

theorem form_prod (n m : Nat) (a b : Nat → K) (v u : Nat → K) :
    form n m (fun i j => a i * b j) v u = (∑ i ∈ range n, v i * a i) * ∑ j ∈ range m, u j * b j := by
  unfold form
  rw [sum_mul]
  refine sum_congr rfl fun i _ => ?_
  rw [mul_sum, mul_sum]
  exact sum_congr rfl fun j _ => by ring

end PolyDiM
