import Verif.Model.Lagrange
import Verif.Lemmas.MonomialsFinal
import Mathlib.LinearAlgebra.Lagrange
import Mathlib.Analysis.Calculus.Deriv.Pow
import Mathlib.Analysis.Calculus.Deriv.Mul
import Mathlib.Analysis.Calculus.Deriv.Add

/-! Helper lemmas: Lagrange functions. -/

namespace PolyDiM
variable {K : Type} [Field K]

theorem foldl_prod (P : Nat → Prop) [DecidablePred P] (g : Nat → K) (c : K) (n : Nat) :
    (List.range n).foldl (fun v j => if P j then v * g j else v) c =
      c * ∏ j ∈ (Finset.range n).filter P, g j := by
  induction n with
  | zero => simp
  | succ n ih =>
    rw [List.range_succ, List.foldl_append, ih, Finset.range_add_one, Finset.filter_insert]
    by_cases h : P n
    · rw [if_pos h, Finset.prod_insert (by simp)]
      simp only [List.foldl_cons, List.foldl_nil, if_pos h]
      ring
    · rw [if_neg h]
      simp only [List.foldl_cons, List.foldl_nil, if_neg h]

theorem lagProd_eq (pts : List K) (x : K) (i : Nat) (c : K) :
    lagProd pts x i c = c * ∏ j ∈ (Finset.range pts.length).erase i, (x - pts.getD j 0) := by
  unfold lagProd
  rw [foldl_prod (fun j => i ≠ j)]
  congr 1
  apply Finset.prod_congr _ (fun _ _ => rfl)
  ext j
  simp [and_comm, eq_comm]

theorem lagProd2_eq (pts : List K) (x : K) (i j : Nat) (c : K) :
    lagProd2 pts x i j c = c * ∏ k ∈ ((Finset.range pts.length).erase i).erase j, (x - pts.getD k 0) := by
  unfold lagProd2
  have : (fun (v : K) (k : Nat) => if k = j ∨ k = i then v else v * (x - pts.getD k 0)) =
      fun v k => if ¬ (k = j ∨ k = i) then v * (x - pts.getD k 0) else v := by
    funext v k
    by_cases h : k = j ∨ k = i
    · rw [if_pos h, if_neg (not_not.2 h)]
    · rw [if_neg h, if_pos h]
  rw [this, foldl_prod (fun k => ¬ (k = j ∨ k = i))]
  congr 1
  apply Finset.prod_congr _ (fun _ _ => rfl)
  ext k
  simp only [Finset.mem_filter, Finset.mem_range, Finset.mem_erase]
  tauto

theorem foldl_sum (i : Nat) (g : Nat → K) (c : K) (n : Nat) :
    (List.range n).foldl (fun v j => if j = i then v else v + g j) c = c + ∑ j ∈ (Finset.range n).erase i, g j := by
  induction n with
  | zero => simp
  | succ n ih =>
    rw [List.range_succ, List.foldl_append, ih]
    simp only [List.foldl_cons, List.foldl_nil]
    by_cases h : n = i
    · rw [if_pos h]
      congr 1
      apply Finset.sum_congr _ (fun _ _ => rfl)
      ext j
      simp only [Finset.mem_erase, Finset.mem_range]
      omega
    · rw [if_neg h, Finset.range_add_one, Finset.erase_insert_of_ne h, Finset.sum_insert (by simp)]
      ring

theorem lagCoefficients_get (pts : List K) {i : Nat} (hi : i < pts.length) :
    (lagCoefficients pts)[i]? = some (∏ j ∈ (Finset.range pts.length).erase i, (pts.getD i 0 - pts.getD j 0))⁻¹ := by
  have hp : ∀ n, (((List.range n).filter (fun j => j ≠ i)).map fun j => pts.getD i 0 - pts.getD j 0).prod =
      ∏ j ∈ (Finset.range n).erase i, (pts.getD i 0 - pts.getD j 0) := by
    intro n
    induction n with
    | zero => simp
    | succ n ih =>
      rw [List.range_succ, List.filter_append, List.map_append, List.prod_append, ih]
      by_cases h : n = i
      · subst h
        simp [Finset.range_add_one]
      · rw [Finset.range_add_one, Finset.erase_insert_of_ne h, Finset.prod_insert (by simp)]
        simp [h]
        ring
  unfold lagCoefficients lagDiffRow
  rw [List.getElem?_map, List.getElem?_range hi, Option.map_some, hp, one_div]

/-- The entries of `Lagrange_1D_values` are the values of Mathlib's Lagrange basis. -/
theorem lagValue_ok (pts : List K) (x : K) {i : Nat} (hi : i < pts.length) :
    lagValue pts (lagCoefficients pts) x i =
      .ok ((Lagrange.basis (Finset.range pts.length) (fun j => pts.getD j 0) i).eval x) := by
  unfold lagValue Lagrange.basis
  rw [Polynomial.eval_prod]
  by_cases h1 : pts.length = 1
  · have : i = 0 := by omega
    subst this
    rw [if_pos h1, h1]
    simp
  · rw [if_neg h1, (unchecked_ok_iff _ _ _).2 (lagCoefficients_get pts hi), except_ok_bind, lagProd_eq, ← Finset.prod_inv_distrib,
      ← Finset.prod_mul_distrib]
    congr 1
    apply Finset.prod_congr rfl
    intro j _
    simp [Lagrange.basisDivisor]

theorem nodes_injOn {pts : List K} (h : pts.Nodup) :
    Set.InjOn (fun j => pts.getD j 0) (Finset.range pts.length : Set Nat) := by
  intro i hi j hj hij
  have hi' : i < pts.length := by simpa using hi
  have hj' : j < pts.length := by simpa using hj
  have hg : ∀ {i : Nat} (h : i < pts.length), pts.getD i 0 = pts[i] := fun h => by simp [h]
  have hij : pts.getD i 0 = pts.getD j 0 := hij
  rw [hg hi', hg hj'] at hij
  exact (List.Nodup.getElem_inj_iff h).1 hij

end PolyDiM
