import Verif.Model.AssemblerPcc2D
import Verif.Lemmas.Elliptic
import Verif.Props.Elliptic
import Mathlib.Order.Bounds.Basic
import Mathlib.Algebra.Order.Group.Unbundled.Abs

/-!
# Lemmas: the assembler of the primal formulation in the plane
-/

namespace PolyDiM

open Finset

section
variable {K : Type} [Field K] [LinearOrder K]

theorem foldl_maxAbs (xs : List K) (m : K) :
    m ≤ xs.foldl (fun m y => max m |y|) m ∧ (∀ y ∈ xs, |y| ≤ xs.foldl (fun m y => max m |y|) m) ∧
      (xs.foldl (fun m y => max m |y|) m = m ∨ ∃ y ∈ xs, xs.foldl (fun m y => max m |y|) m = |y|) := by
  induction xs generalizing m with
  | nil => exact ⟨le_rfl, by simp, Or.inl rfl⟩
  | cons a xs ih =>
    obtain ⟨h1, h2, h3⟩ := ih (max m |a|)
    rw [List.foldl_cons]
    refine ⟨(le_max_left _ _).trans h1, ?_, ?_⟩
    · intro y hy
      rcases List.mem_cons.1 hy with rfl | hy
      · exact (le_max_right _ _).trans h1
      · exact h2 y hy
    · rcases h3 with h3 | ⟨y, hy, h3⟩
      · rcases max_choice m |a| with h | h
        · exact Or.inl (h3.trans h)
        · exact Or.inr ⟨a, by simp, h3.trans h⟩
      · exact Or.inr ⟨y, by simp [hy], h3⟩

theorem maxAbs_ok {v : List K} (hv : v ≠ []) : ∃ m, maxAbs v = .ok m ∧ (∀ y ∈ v, |y| ≤ m) ∧ ∃ y ∈ v, m = |y| := by
  obtain ⟨x, xs, rfl⟩ := List.exists_cons_of_ne_nil hv
  obtain ⟨h1, h2, h3⟩ := foldl_maxAbs xs |x|
  refine ⟨_, rfl, ?_, ?_⟩
  · intro y hy
    rcases List.mem_cons.1 hy with rfl | hy
    · exact h1
    · exact h2 y hy
  · rcases h3 with h3 | ⟨y, hy, h3⟩
    · exact ⟨x, by simp, h3⟩
    · exact ⟨y, by simp [hy], h3⟩

theorem kMax_fold (values : List (List K)) (hv : ∀ v ∈ values, v ≠ []) (k : K) :
    ∃ m, values.foldlM (init := k) (fun k v => do
        let m ← maxAbs v
        (.ok (if k < m then m else k) : Except Fault K)) = .ok m ∧ k ≤ m ∧ (∀ v ∈ values, ∀ y ∈ v, |y| ≤ m) ∧ (m = k ∨ ∃ v ∈ values, ∃ y ∈ v, m = |y|) := by
  induction values generalizing k with
  | nil => exact ⟨k, rfl, le_rfl, by simp, Or.inl rfl⟩
  | cons v values ih =>
    obtain ⟨a, ha, ha1, y0, hy0, ha2⟩ := maxAbs_ok (hv v (by simp))
    obtain ⟨m, hm, h1, h2, h3⟩ := ih (fun v hv' => hv v (by simp [hv'])) (if k < a then a else k)
    have hka : k ≤ (if k < a then a else k) ∧ a ≤ (if k < a then a else k) := by
      split_ifs with h
      · exact ⟨h.le, le_rfl⟩
      · exact ⟨le_rfl, not_lt.1 h⟩
    refine ⟨m, ?_, hka.1.trans h1, ?_, ?_⟩
    · rw [List.foldlM_cons, ha, except_ok_bind, except_ok_bind]
      exact hm
    · intro v' hv' y hy
      rcases List.mem_cons.1 hv' with rfl | hv'
      · exact (ha1 y hy).trans (hka.2.trans h1)
      · exact h2 v' hv' y hy
    · rcases h3 with h3 | ⟨v', hv', y, hy, h3⟩
      · split_ifs at h3 with h
        · exact Or.inr ⟨v, by simp, y0, hy0, h3.trans ha2⟩
        · exact Or.inl h3
      · exact Or.inr ⟨v', by simp [hv'], y, hy, h3⟩

/-- The largest absolute value of all entries. -/
theorem kMax_ok [IsStrictOrderedRing K] {D Q : Nat} (hD : 0 < D) (hQ : 0 < Q) (f : Nat → Nat → K) :
    ∃ m, kMax (vecOf D fun d => vecOf Q fun q => f q d) = .ok m ∧ IsGreatest {y | ∃ q < Q, ∃ d < D, y = |f q d|} m := by
  obtain ⟨m, hm, h1, h2, h3⟩ := kMax_fold (vecOf D fun d => vecOf Q fun q => f q d) (by
    intro v hv
    obtain ⟨d, -, rfl⟩ := List.mem_map.1 hv
    rw [Ne, ← List.length_eq_zero_iff, vecOf_length]
    omega) 0
  have up : ∀ q < Q, ∀ d < D, |f q d| ≤ m := fun q hq d hd =>
    h2 _ (List.mem_map.2 ⟨d, List.mem_range.2 hd, rfl⟩) _ (List.mem_map.2 ⟨q, List.mem_range.2 hq, rfl⟩)
  refine ⟨m, hm, ?_, ?_⟩
  · rcases h3 with h3 | ⟨v, hv, y, hy, h3⟩
    · exact ⟨0, hQ, 0, hD, le_antisymm (h3.trans_le (abs_nonneg _)) (up 0 hQ 0 hD)⟩
    · obtain ⟨d, hd, rfl⟩ := List.mem_map.1 hv
      obtain ⟨q, hq, rfl⟩ := List.mem_map.1 hy
      exact ⟨q, List.mem_range.1 hq, d, List.mem_range.1 hd, h3⟩
  · rintro y ⟨q, hq, d, hd, rfl⟩
    exact up q hq d hd
end

section
variable {K : Type}

theorem eq_vecOf {α : Type} [Inhabited α] (l : List α) : l = vecOf l.length fun i => l.getD i default := by
  refine List.ext_getElem (by rw [vecOf_length]) fun i h1 h2 => ?_
  simp [vecOf, List.getD_eq_getElem?_getD, h1]

theorem eval_vecOf (D Q : Nat) (x : Nat → K × K) (f : K × K → Nat → K) :
    evalComponents D (vecOf Q x) f = vecOf D fun d => vecOf Q fun q => f (x q) d := by
  unfold evalComponents vecOf
  simp only [List.map_map, Function.comp_def]

theorem evalScalar_vecOf (Q : Nat) (x : Nat → K × K) (f : K × K → K) : evalScalar (vecOf Q x) f = vecOf Q fun q => f (x q) := by
  unfold evalScalar vecOf
  rw [List.map_map]
  rfl

theorem pair_vecOf {α : Type} (f : Nat → α) : [f 0, f 1] = vecOf 2 f := rfl
end

end PolyDiM
