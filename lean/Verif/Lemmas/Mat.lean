import Verif.Model.Mat
import Verif.Lemmas.MonomialsFinal
import Verif.Lemmas.Quadrature
import Mathlib.Algebra.BigOperators.Ring.Finset

/-!
# Lemmas: dynamic matrices
-/

namespace PolyDiM

open Spec

namespace DMat

variable {K : Type} [Field K]

theorem mul_ok (A B : DMat K) (h : A.cols = B.rows) :
    A.mul B = .ok ⟨A.rows, B.cols, fun i j => ∑ k ∈ Finset.range A.cols, A.ent i k * B.ent k j⟩ := if_pos h

theorem mulDiag_ok (A : DMat K) (w : List K) (h : A.cols = w.length) :
    A.mulDiag w = .ok ⟨A.rows, A.cols, fun i j => A.ent i j * w.getD j 0⟩ := if_pos h

theorem add_ok (A B : DMat K) (h : A.rows = B.rows) (h' : A.cols = B.cols) :
    A.add B = .ok ⟨A.rows, A.cols, fun i j => A.ent i j + B.ent i j⟩ := if_pos ⟨h, h'⟩

omit [Field K] in
theorem block_ok (A : DMat K) (r c m n : Nat) (h : r + m ≤ A.rows) (h' : c + n ≤ A.cols) :
    A.block r c m n = .ok ⟨m, n, fun i j => A.ent (r + i) (c + j)⟩ := if_pos ⟨h, h'⟩

omit [Field K] in
theorem assign_ok (A : DMat K) (r c m n : Nat) (X : DMat K) (h1 : X.rows = m) (h2 : X.cols = n) (h3 : r + m ≤ A.rows) (h4 : c + n ≤ A.cols) :
    A.assign r c m n X = .ok ⟨A.rows, A.cols, fun i j => if r ≤ i ∧ i < r + m ∧ c ≤ j ∧ j < c + n then X.ent (i - r) (j - c) else A.ent i j⟩ :=
  if_pos ⟨h1, h2, h3, h4⟩

end DMat

variable {K : Type} [Field K]

/-- A sum over the rows of a matrix of values at points is a quadrature. -/
theorem sum_quadSum {P : Type} (points : List P) (w : List K) (h : w.length = points.length) (F : Nat → K) (f : P → K)
    (hF : ∀ (i : Nat) (p : P), points[i]? = some p → F i = f p) :
    ∑ i ∈ Finset.range points.length, w.getD i 0 * F i = quadSum points w f := by
  induction points generalizing w F with
  | nil => simp [quadSum]
  | cons p ps ih =>
    obtain ⟨a, w', rfl⟩ : ∃ a w', w = a :: w' := by
      cases w with
      | nil => simp at h
      | cons a w' => exact ⟨a, w', rfl⟩
    rw [List.length_cons, Finset.sum_range_succ']
    have := ih w' (by simpa using h) (fun i => F (i + 1)) (fun i q hq => hF (i + 1) q (by simpa using hq))
    simp only [List.getD_cons_succ, List.getD_cons_zero]
    rw [this, hF 0 p rfl]
    simp only [quadSum, List.zipWith_cons_cons, List.sum_cons]
    ring

end PolyDiM
