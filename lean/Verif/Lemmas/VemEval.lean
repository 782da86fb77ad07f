import Verif.Lemmas.VemSpace
import Verif.Model.VemEval2D

/-!
# Lemmas: evaluation of the VEM basis functions
-/

namespace PolyDiM

open Spec MvPolynomial

theorem values_left {points : List (ℝ × ℝ)} {N N' : Nat} {P : Nat → MvPolynomial (Fin 2) ℝ} {V : DMat ℝ} (hV : Values points N P V) (h : N' ≤ N) :
    ∃ W, V.block 0 0 V.rows N' = .ok W ∧ Values points N' P W := by
  refine ⟨_, DMat.block_ok _ _ _ _ _ (by omega) (by rw [hV.cols]; omega), hV.rows, rfl, fun i p hp j hj => ?_⟩
  simp only [Nat.zero_add]
  exact hV.ent i p hp j (by omega)

theorem values_mul {points : List (ℝ × ℝ)} {N : Nat} {P : Nat → MvPolynomial (Fin 2) ℝ} {V : DMat ℝ} (hV : Values points N P V) (A : DMat ℝ) (hA : A.rows = N) :
    ∃ M, V.mul A = .ok M ∧ M.rows = points.length ∧ M.cols = A.cols ∧ ∀ (v : Nat → ℝ) (i : Nat) (p : ℝ × ℝ), points[i]? = some p →
      apply M v i = ev2 (∑ j ∈ Finset.range N, C (apply A v j) * P j) p := by
  refine ⟨_, DMat.mul_ok _ _ (by rw [hV.cols, hA]), hV.rows, rfl, fun v i p hp => ?_⟩
  simp only [apply, ev2, map_sum, map_mul, eval_C, Finset.sum_mul]
  rw [Finset.sum_comm, hV.cols]
  refine Finset.sum_congr rfl fun j hj => Finset.sum_congr rfl fun b _ => ?_
  rw [hV.ent i p hp j (Finset.mem_range.1 hj)]
  ring

theorem polyDer_ok {k : Nat} {ref : VemRef2D ℝ} (hm : ref.mono = compute mono2 k) (poly : VemPolygon ℝ) (points : List (ℝ × ℝ)) :
    ∃ V X Y, vanderMat ref.mono points poly.centroid poly.diameter = .ok V ∧ vanderDerMat ref.mono V poly.diameter 0 = .ok X ∧
      vanderDerMat ref.mono V poly.diameter 1 = .ok Y ∧ vemPolyDerivatives ref poly points = .ok [X, Y] ∧
      Values points (tri (k + 1)) (basisPoly k poly.centroid poly.diameter) V ∧
      Values points (tri (k + 1)) (fun j => pderiv 0 (basisPoly k poly.centroid poly.diameter j)) X ∧
      Values points (tri (k + 1)) (fun j => pderiv 1 (basisPoly k poly.centroid poly.diameter j)) Y := by
  rw [hm]
  obtain ⟨V, hV, hV1, hV2⟩ := vanderMat_ok k poly.centroid poly.diameter points
  obtain ⟨X, hX, hX1⟩ := vanderDerMat_ok k poly.centroid poly.diameter points V hV1.rows hV2 0
  obtain ⟨Y, hY, hY1⟩ := vanderDerMat_ok k poly.centroid poly.diameter points V hV1.rows hV2 1
  rw [num2_eq] at hV1 hX1 hY1
  simp only [Fin.val_zero, Fin.val_one] at hX hY
  refine ⟨V, X, Y, hV, hX, hY, ?_, hV1, hX1, hY1⟩
  unfold vemPolyDerivatives
  rw [hm, hV, except_ok_bind, hX, except_ok_bind, hY, except_ok_bind]

theorem pderiv_combo {k : Nat} {c : ℝ × ℝ} {h : ℝ} (N : Nat) (x : Nat → ℝ) (d : Fin 2) :
    ∑ j ∈ Finset.range N, C (x j) * pderiv d (basisPoly k c h j) = pderiv d (combo k c h N x) := by
  unfold combo
  rw [map_sum]
  exact Finset.sum_congr rfl fun j _ => by rw [pderiv_C_mul]

theorem mapM_range_two {α : Type} (f : Nat → Except Fault α) {a b : α} (h0 : f 0 = .ok a) (h1 : f 1 = .ok b) :
    (List.range 2).mapM f = .ok [a, b] := by
  have : List.range 2 = [0, 1] := rfl
  rw [this, List.mapM_cons, h0, except_ok_bind, List.mapM_cons, h1, except_ok_bind, List.mapM_nil]
  rfl

theorem rows_getD {α : Type} (points : List α) (f : α → Nat → ℝ) {N i j : Nat} {t : α} (hi : points[i]? = some t) (hj : j < N) :
    ((points.map fun p => (List.range N).map (f p)).getD i []).getD j 0 = f t j := by
  simp [List.getD_eq_getElem?_getD, hi, hj]

end PolyDiM
