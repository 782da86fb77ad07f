import Verif.Lemmas.ZfemMaps

/-!
# C124: the numbering of the nodes of the ZFEM element
-/

namespace PolyDiM

open Spec

theorem two_mul_half (k : Nat) (hk : 1 ≤ k) : 3 * (1 + (k - 1)) + (k - 1) * (k - 2) / 2 = (k + 1) * (k + 2) / 2 := by
  obtain ⟨a, rfl⟩ := Nat.exists_eq_add_of_le hk
  cases a with
  | zero => rfl
  | succ a =>
    have e1 : (1 + (a + 1) + 1) * (1 + (a + 1) + 2) = (a + 1) * a + 2 * (3 * (a + 2)) := by ring
    rw [show 1 + (a + 1) - 1 = a + 1 by omega, show 1 + (a + 1) - 2 = a by omega, e1, Nat.add_mul_div_left _ _ (by norm_num)]
    omega

/-- **C124.** For every order and every polygon, `CreateMaps` numbers the nodes of the triangles around the centre: every entry of `local_to_total` is
written, two entries are equal exactly when they stand for the same node, and the numbers are `0, 1, …` without gaps. The vertices of the polygon come first, then
the nodes of its edges; the basis functions (the first `nb` numbers) belong to no node of a spoke, to the centre exactly from order 3 on, and to as many inner nodes
in one triangle as in any other, up to one. -/
theorem C124_numbering (k n : Nat) (hk : 1 ≤ k) (hn : 1 ≤ n) :
    ∃ (M : IMat) (num : FanNode → Nat),
      createMaps k n (k - 1) ((k - 1) * (k - 2) / 2) (n + n * (k - 1) + (k - 1) * (k - 2) / 2) = .ok M ∧
      M.rows = n ∧ M.cols = (k + 1) * (k + 2) / 2 ∧
      (∀ t < n, ∀ c < M.cols, M.ent t c = some (num (fanNode n (k - 1) t c))) ∧
      Set.BijOn num {x | IsFanNode n (k - 1) ((k - 1) * (k - 2) / 2) x} {i | i < n + n * (k - 1) + 1 + n * ((k - 1) + (k - 1) * (k - 2) / 2)} ∧
      (∀ v, num (.vertex v) = v) ∧
      (∀ v j, num (.edge v j) = n + v * (k - 1) + j) ∧
      (∀ v j, n + n * (k - 1) + (k - 1) * (k - 2) / 2 ≤ num (.spoke v j)) ∧
      (num .centre < n + n * (k - 1) + (k - 1) * (k - 2) / 2 ↔ 3 ≤ k) ∧
      ∀ t < n,
        ((k - 1) * (k - 2) / 2 - 1) / n ≤
          (List.range ((k - 1) * (k - 2) / 2)).countP (fun j => num (.inner t j) < n + n * (k - 1) + (k - 1) * (k - 2) / 2) ∧
        (List.range ((k - 1) * (k - 2) / 2)).countP (fun j => num (.inner t j) < n + n * (k - 1) + (k - 1) * (k - 2) / 2) ≤
          ((k - 1) * (k - 2) / 2 - 1) / n + 1 := by
  have hcols := two_mul_half k hk
  rcases (show k ≤ 2 ∨ k = 3 ∨ 4 ≤ k by omega) with h | h | h
  · have h0 : (k - 1) * (k - 2) / 2 = 0 := by
      rcases (show k = 1 ∨ k = 2 by omega) with rfl | rfl <;> rfl
    rw [h0] at hcols ⊢
    have hz : n * (k - 1 + 0) = n * (k - 1) := by rw [Nat.add_zero]
    obtain ⟨e, h1, h2⟩ := createMaps_low (n := n) (N1 := k - 1) (nb := n + n * (k - 1) + 0) h
    refine ⟨_, _, h1, rfl, hcols, h2, ?_, fun _ => rfl, fun _ _ => rfl, ?_, ?_, ?_⟩
    · refine fanNum_bij ?_ ?_ ?_ ?_ ?_ ?_
      · omega
      · omega
      · omega
      · intro t _ j hj; omega
      · intro t _ j hj; omega
      · intro i h3 h4
        omega
    · intro v j
      simp only [fanNum]
      omega
    · simp only [fanNum]
      omega
    · intro t _
      simp
  · subst h
    obtain ⟨e, h1, h2⟩ := createMaps_three (n := n) (N1 := 2) (nb := n + n * 2 + 1)
    refine ⟨_, _, h1, rfl, rfl, h2, ?_, fun _ => rfl, fun _ _ => rfl, ?_, ?_, ?_⟩
    · have hred : (3 - 1) * (3 - 2) / 2 = 1 := rfl
      rw [hred]
      refine fanNum_bij ?_ ?_ ?_ ?_ ?_ ?_
      · omega
      · omega
      · omega
      · intro t ht j hj; omega
      · intro t ht j hj u hu l hl h; omega
      · intro i h3 h4
        by_cases h5 : i < n + n * 2 + 1 + n * 2
        · omega
        · exact Or.inr (Or.inr ⟨i - (n + n * 2 + 1 + n * 2), by omega, 0, by omega, by omega⟩)
    · intro v j
      simp only [fanNum]
      omega
    · simp only [fanNum]
      omega
    · intro t _
      have hz : (List.range ((3 - 1) * (3 - 2) / 2)).countP (fun j => decide (fanNum n 2 (n + n * 2 + 1 - 1) (n + n * 2 + 1)
          (fun t _ => n + n * 2 + 1 + n * 2 + t) (.inner t j) < n + n * (3 - 1) + (3 - 1) * (3 - 2) / 2)) = 0 := by
        rw [List.countP_eq_zero]
        intro j _
        rw [decide_eq_true_eq, not_lt]
        show n + n * 2 + 1 ≤ n + n * 2 + 1 + n * 2 + t
        omega
      rw [hz]
      simp
  · have h3 : 3 ≤ (k - 1) * (k - 2) / 2 := by
      obtain ⟨a, rfl⟩ := Nat.exists_eq_add_of_le h
      rw [show 4 + a - 1 = a + 3 by omega, show 4 + a - 2 = a + 2 by omega, Nat.le_div_iff_mul_le (by norm_num)]
      nlinarith
    obtain ⟨N2, hN⟩ : ∃ N2, (k - 1) * (k - 2) / 2 = N2 := ⟨_, rfl⟩
    rw [hN] at hcols h3 ⊢
    obtain ⟨nums, e, hl, hs, hb, hd, h1, h2⟩ := createMaps_high (N1 := k - 1) (nb := n + n * (k - 1) + N2) h hn ((by norm_num : 2 ≤ 3).trans h3)
    refine ⟨_, _, h1, rfl, hcols, h2, innerNum_bij hl hs hb (le_trans (by norm_num) h3), fun _ => rfl, fun _ _ => rfl, ?_, ?_, ?_⟩
    · intro v j
      simp only [fanNum]
      omega
    · simp only [fanNum]
      omega
    · intro t ht
      have hc := innerNum_count (N1 := k - 1) hl hs hb (le_trans (by norm_num) h3) ht
      have hm := hd _ (List.getElem_mem (show t < nums.length by omega))
      have hm' : (N2 - 1) / n ≤ nums.getD t 0 ∧ nums.getD t 0 ≤ (N2 - 1) / n + 1 := by
        simpa [List.getD, show t < nums.length by omega] using hm
      rw [← hc] at hm'
      exact hm'

/-- A pentagon with order 5: 25 nodes on the boundary, 6 basis functions inside, 76 nodes in all. -/
example : ∃ M, createMaps 5 5 4 6 31 = .ok M ∧ M.ent 0 0 = some 25 ∧ M.ent 4 2 = some 0 ∧ M.ent 2 (3 + 4) = some 13 := by
  refine ⟨_, rfl, rfl, rfl, rfl⟩

end PolyDiM
