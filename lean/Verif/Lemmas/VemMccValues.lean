import Verif.Lemmas.VemMccProj

/-!
# Lemmas: values of the mixed basis functions, in the cell and on the edges
-/

namespace PolyDiM

open Spec MvPolynomial MeasureTheory

section
variable {k n : Nat} {V : Nat → ℝ × ℝ} {len : Nat → ℝ} {dir : Nat → Bool} {nrm : Nat → ℝ × ℝ} {poly : VemPolygon ℝ}
  {triangle : Nat → Rule (ℝ × ℝ) ℝ} {edge : Nat → Rule ℝ ℝ} {ts ws : List ℝ} {s : MccSpace2D ℝ} {c : ℝ × ℝ} {h : ℝ} {tPlus : DMat ℝ}

theorem mccSplit_ok {points : List (ℝ × ℝ)} {gk P : DMat ℝ} (hg : FieldValues k c h tPlus points gk) (hP : P.rows = 2 * tri (k + 1)) :
    ∃ X Y, mccSplit points.length gk P = .ok [X, Y] ∧ X.rows = points.length ∧ Y.rows = points.length ∧ X.cols = P.cols ∧ Y.cols = P.cols ∧
      ∀ (v : Nat → ℝ) (i : Nat) (p : ℝ × ℝ), points[i]? = some p → (apply X v i, apply Y v i) = splitField k c h tPlus.ent (apply P v) p := by
  unfold mccSplit
  rw [DMat.mul_ok gk.tr P (by show gk.rows = _; rw [hg.rows, hP]), except_ok_bind, show List.range 2 = [0, 1] from rfl, List.mapM_cons, List.mapM_cons, List.mapM_nil,
    DMat.block_ok _ _ _ _ _ (by show points.length * 0 + points.length ≤ gk.cols; rw [hg.cols]; omega) (by simp), except_ok_bind,
    DMat.block_ok _ _ _ _ _ (by show points.length * 1 + points.length ≤ gk.cols; rw [hg.cols]; omega) (by simp), except_ok_bind]
  refine ⟨_, _, rfl, rfl, rfl, rfl, rfl, ?_⟩
  intro v i p hi
  have key : ∀ d : Fin 2, ∑ b ∈ Finset.range P.cols, (∑ l ∈ Finset.range gk.rows, gk.ent l (points.length * d + i) * P.ent l b) * v b
      = ev2 (gsum k c h tPlus (apply P v) d) p := by
    intro d
    simp only [Finset.sum_mul]
    rw [Finset.sum_comm, gsum, ev2, map_sum, hg.rows]
    refine Finset.sum_congr rfl fun l hl => ?_
    rw [map_mul, eval_C, ← ev2, ← hg.ent i p hi l (Finset.mem_range.1 hl) d, apply, Finset.sum_mul, mul_comm points.length]
    exact Finset.sum_congr rfl fun b _ => by ring
  rw [split_ev2, ← key 0, ← key 1]
  simp only [apply, Fin.val_zero, Fin.val_one, Nat.zero_add]
  rfl

theorem mccValues_ok (hS : MSpaceOk k n V len dir nrm ts ws poly s) :
    ∃ X Y, mccValues s = .ok [X, Y] ∧ X.rows = s.internal.points.length ∧ Y.rows = s.internal.points.length ∧ X.cols = n * (k + 1) + k * (k + 2) ∧ Y.cols = n * (k + 1) + k * (k + 2) ∧
      ∀ (v : Nat → ℝ) (i : Nat) (p : ℝ × ℝ), s.internal.points[i]? = some p →
        (apply X v i, apply Y v i) = splitField k poly.centroid poly.diameter s.init.tPlus.ent (apply s.pi0k v) p := by
  obtain ⟨X, Y, h1, h2, h3, h4, h5, h6⟩ := mccSplit_ok hS.init.gk (hS.pSol.1.trans hS.init.gCols)
  refine ⟨X, Y, ?_, h2, h3, h4.trans (hS.pSol.2.1.trans hS.bCols), h5.trans (hS.pSol.2.1.trans hS.bCols), h6⟩
  rw [mccValues, hS.init.gk.cols, Nat.mul_div_cancel_left _ (by omega : 0 < 2)]
  exact h1

theorem mccValuesAt_ok (hT : IsMixedTables k triangle edge ts ws) (hS : MSpaceOk k n V len dir nrm ts ws poly s) (points : List (ℝ × ℝ)) :
    ∃ X Y, mccValuesAt (mccRef2D triangle edge k) poly s points = .ok [X, Y] ∧ X.rows = points.length ∧ Y.rows = points.length ∧
      X.cols = n * (k + 1) + k * (k + 2) ∧ Y.cols = n * (k + 1) + k * (k + 2) ∧
      ∀ (v : Nat → ℝ) (i : Nat) (p : ℝ × ℝ), points[i]? = some p →
        (apply X v i, apply Y v i) = splitField k poly.centroid poly.diameter s.init.tPlus.ent (apply s.pi0k v) p := by
  obtain ⟨X, hX, hXv, _⟩ := vanderMat_ok (k + 1) poly.centroid poly.diameter points
  rw [num2_eq] at hXv
  have hle : tri (k + 1) ≤ tri (k + 1 + 1) := tri_le (by omega)
  have hX' : Values points (tri (k + 1)) (basisPoly (k + 1) poly.centroid poly.diameter) ⟨X.rows, tri (k + 1), fun i j => X.ent (0 + i) (0 + j)⟩ :=
    ⟨hXv.rows, rfl, fun i p hp j hj => by simpa using hXv.ent i p hp j (by omega)⟩
  obtain ⟨gk, hgk, hG⟩ := mccFields_ok hS.init.tk points hX'
  obtain ⟨A, B, h1, h2, h3, h4, h5, h6⟩ := mccSplit_ok hG (hS.pSol.1.trans hS.init.gCols)
  refine ⟨A, B, ?_, h2, h3, h4.trans (hS.pSol.2.1.trans hS.bCols), h5.trans (hS.pSol.2.1.trans hS.bCols), h6⟩
  unfold mccValuesAt
  rw [mccRef_ok hT]
  dsimp only
  rw [hX, except_ok_bind, hS.init.nk, DMat.block_ok _ _ _ _ _ (by omega) (by rw [hXv.cols]; omega), except_ok_bind, hgk, except_ok_bind]
  exact h1

theorem mccDivergenceValues_ok (hS : MSpaceOk k n V len dir nrm ts ws poly s) :
    ∃ X, mccDivergenceValues s = .ok X ∧ X.rows = s.internal.points.length ∧ X.cols = n * (k + 1) + k * (k + 2) ∧
      ∀ (v : Nat → ℝ) (i : Nat) (p : ℝ × ℝ), s.internal.points[i]? = some p → apply X v i = polyOf k poly.centroid poly.diameter (apply s.V v) p := by
  have hr : s.V.rows = tri (k + 1) := hS.vSol.1.trans hS.init.hCols
  rw [mccDivergenceValues, DMat.mul_ok _ _ (by rw [hS.init.vInt.cols, hr])]
  refine ⟨_, rfl, hS.init.vInt.rows, hS.vSol.2.1.trans hS.wCols, ?_⟩
  intro v i p hi
  rw [← ev2_combo (k + 1) _ _ (by omega : k ≤ k + 1), combo, ev2, map_sum]
  simp only [apply, Finset.sum_mul]
  rw [Finset.sum_comm, hS.init.vInt.cols]
  refine Finset.sum_congr rfl fun j hj => ?_
  rw [hS.init.vInt.ent i p hi j (Finset.mem_range.1 hj), map_mul, eval_C, Finset.sum_mul]
  exact Finset.sum_congr rfl fun b _ => by ring

/-- The pressure space on its own. -/
theorem mccPressure_ok {sqrt : ℝ → ℝ} (hE : IsElement poly n V len dir nrm) (hT : IsMixedTables k triangle edge ts ws) (hsq : ∀ x, 0 ≤ x → sqrt x * sqrt x = x) :
    ∃ p, mccPressure2D sqrt triangle k poly = .ok p ∧ p.mono = compute mono2 k ∧ p.numBasis = tri (k + 1) ∧ p.nk = tri (k + 1) ∧ p.q = .zero 0 0 ∧
      polygonQuad (triangle (2 * (k + 1))) poly.tris = .ok p.internal ∧ Values p.internal.points (tri (k + 1)) (basisPoly k poly.centroid poly.diameter) p.vander ∧
      p.H.rows = tri (k + 1) ∧ p.H.cols = tri (k + 1) ∧ ∀ i < tri (k + 1), ∀ j < tri (k + 1), p.H.ent i j =
        ∫ x in unionOf poly.tris, ev2 (basisPoly k poly.centroid poly.diameter i * basisPoly k poly.centroid poly.diameter j) x := by
  have hk := hT.high
  obtain ⟨internal, bnd, hi, _, hR⟩ := mrules_ok hE hT
  obtain ⟨X, hX, hXv, _⟩ := vanderMat_ok k poly.centroid poly.diameter internal.points
  rw [num2_eq] at hXv
  have u1 : u32 (k + 1) = k + 1 := Nat.mod_eq_of_lt (by omega)
  have u2 : u32 (2 * (k + 1)) = 2 * (k + 1) := Nat.mod_eq_of_lt (by omega)
  have u3 : u32 (k + 2) = k + 2 := Nat.mod_eq_of_lt (by omega)
  have u4 : u32 ((k + 1) * (k + 2)) = (k + 1) * (k + 2) := by
    refine Nat.mod_eq_of_lt ?_
    have : (k + 1) * (k + 2) ≤ 65535 * 65536 := Nat.mul_le_mul (by omega) (by omega)
    omega
  have hs3 : ∀ l < internal.weights.length, (internal.weights.map sqrt).getD l 0 * (internal.weights.map sqrt).getD l 0 = internal.weights.getD l 0 := by
    intro l hl
    simp only [List.getD_eq_getElem?_getD, List.getElem?_map, List.getElem?_eq_getElem hl, Option.map_some, Option.getD_some]
    exact hsq _ (hR.wpos _ (List.getElem_mem hl))
  unfold mccPressure2D
  rw [u1, u2, u3, u4, hi, except_ok_bind, hX, except_ok_bind, sqrtArray_ok sqrt _ hR.wpos, except_ok_bind, scaleRows_ok _ _ (by rw [List.length_map, hXv.rows, hR.wlen]), except_ok_bind, DMat.mul_ok _ _ (by rfl), except_ok_bind]
  refine ⟨_, rfl, rfl, tri_div k, tri_div k, rfl, rfl, hXv, hXv.cols, hXv.cols, ?_⟩
  intro i hi j hj
  rw [← hR.integral _ ((totalDegree_mul _ _).trans (by
    have h1 := basisPoly_degree k poly.centroid poly.diameter (by rw [num2_eq]; exact hi) hi
    have h2 := basisPoly_degree k poly.centroid poly.diameter (by rw [num2_eq]; exact hj) hj
    omega))]
  dsimp only [DMat.tr]
  rw [hXv.rows]
  refine (Finset.sum_congr rfl fun l hl => ?_).trans (sum_quadSum internal.points internal.weights hR.wlen (fun l => X.ent l i * X.ent l j) _ ?_)
  · rw [mul_mul_mul_comm, hs3 l (by rw [hR.wlen]; exact Finset.mem_range.1 hl)]
  · intro l p hp
    rw [hXv.ent l p hp i hi, hXv.ent l p hp j hj, ev2, ev2, ev2, map_mul]

theorem mid_ok {α : Type} {l : List α} {n k : Nat} (hl : l.length = n * (k + 1)) {e : Nat} (he : e < n) :
    ∃ m, middle l (k + 1) e = .ok m ∧ m.length = k + 1 ∧ ∀ i < k + 1, m[i]? = l[e * (k + 1) + i]? := by
  have hle : e * (k + 1) + (k + 1) ≤ n * (k + 1) := by
    calc _ = (e + 1) * (k + 1) := by ring
      _ ≤ _ := Nat.mul_le_mul_right _ he
  refine ⟨_, if_pos (by rw [hl, mul_comm (k + 1)]; exact hle), ?_, ?_⟩
  · rw [List.length_take, List.length_drop, hl, mul_comm (k + 1) e]
    omega
  · intro i hi
    rw [List.getElem?_take, if_pos hi, List.getElem?_drop, mul_comm (k + 1) e]

theorem mccValuesOnEdge_ok (hE : IsElement poly n V len dir nrm) (hT : IsMixedTables k triangle edge ts ws) {e : Nat} (he : e < n) :
    ∃ X, mccValuesOnEdge poly.edges (mccRef2D triangle edge k) e = .ok X ∧ X.rows = k + 1 ∧ X.cols = k + 1 ∧ ∀ (w : Nat → ℝ), ∀ i < k + 1, apply X w i = sgn dir e * w i := by
  rw [mccValuesOnEdge, mccRef_ok hT]
  rw [show unchecked poly.edges.dirs e = .ok (dir e) from by rw [unchecked, hE.edges.dirs, List.getElem?_map, List.getElem?_range he]; rfl, except_ok_bind]
  refine ⟨_, rfl, rfl, rfl, ?_⟩
  intro w i hi
  simp only [apply, DMat.smul, DMat.identity, sgn]
  rw [Finset.sum_eq_single_of_mem i (Finset.mem_range.2 hi) fun b _ hb => by rw [if_neg (Ne.symm hb), mul_zero, zero_mul], if_pos rfl, mul_one]

end

end PolyDiM
