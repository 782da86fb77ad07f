import Verif.Lemmas.RTDofs

/-!
# Lemmas: the basis functions of the Raviart-Thomas element
-/

namespace PolyDiM

open Spec MvPolynomial MeasureTheory

section
variable {k : Nat} {triangle : Nat → Rule (ℝ × ℝ) ℝ} {gauss : Nat → Rule ℝ ℝ} {tr : Rule (ℝ × ℝ) ℝ} {ts ws : List ℝ} {ref : RtRef ℝ} {d : Bool × Bool × Bool}

theorem ev2_combo_sum (N : Nat) (x : Nat → ℝ) (p : ℝ × ℝ) : ev2 (combo k rtCenter rtScale N x) p = ∑ l ∈ Finset.range N, ev2 (rtPoly k l) p * x l := by
  simp only [combo, ev2, map_sum, map_mul, eval_C]
  exact Finset.sum_congr rfl fun l _ => mul_comm _ _

theorem ev2_combo_pderiv (i : Fin 2) (N : Nat) (x : Nat → ℝ) (p : ℝ × ℝ) :
    ev2 (pderiv i (combo k rtCenter rtScale N x)) p = ∑ l ∈ Finset.range N, ev2 (pderiv i (rtPoly k l)) p * x l := by
  have : pderiv i (combo k rtCenter rtScale N x) = ∑ l ∈ Finset.range N, C (x l) * pderiv i (rtPoly k l) := by
    rw [combo, map_sum]
    refine Finset.sum_congr rfl fun l _ => ?_
    rw [Derivation.leibniz, pderiv_C, smul_zero, add_zero, smul_eq_mul]
  rw [this]
  simp only [ev2, map_sum, map_mul, eval_C]
  exact Finset.sum_congr rfl fun l _ => mul_comm _ _

theorem ev2_top (x : Nat → ℝ) (p : ℝ × ℝ) : ev2 (rtTop k x) p = ∑ b ∈ Finset.range (k + 1), ev2 (rtPoly k (tri k + b)) p * x (2 * tri (k + 1) + b) := by
  simp only [rtTop, ev2, map_sum, map_mul, eval_C]
  exact Finset.sum_congr rfl fun l _ => mul_comm _ _

theorem ev2_top_pderiv (i : Fin 2) (x : Nat → ℝ) (p : ℝ × ℝ) :
    ev2 (pderiv i (rtTop k x)) p = ∑ b ∈ Finset.range (k + 1), ev2 (pderiv i (rtPoly k (tri k + b))) p * x (2 * tri (k + 1) + b) := by
  have : pderiv i (rtTop k x) = ∑ b ∈ Finset.range (k + 1), C (x (2 * tri (k + 1) + b)) * pderiv i (rtPoly k (tri k + b)) := by
    rw [rtTop, map_sum]
    refine Finset.sum_congr rfl fun l _ => ?_
    rw [Derivation.leibniz, pderiv_C, smul_zero, add_zero, smul_eq_mul]
  rw [this]
  simp only [ev2, map_sum, map_mul, eval_C]
  exact Finset.sum_congr rfl fun l _ => mul_comm _ _

theorem rtNum_sub (k : Nat) : rtNum k - (k + 1) = 2 * tri (k + 1) := by rw [rtNum, Nat.add_sub_cancel]

theorem rtComponent_ok (hr : RtRefOk k tr ts ws ref) {A V : DMat ℝ} (hA : A.rows = rtNum k) {points : List (ℝ × ℝ)} (hV : Values points (tri (k + 1)) (rtPoly k) V)
    {r : Nat} (hrl : r + tri (k + 1) ≤ rtNum k) {xs : List ℝ} (hxs : xs.length = points.length) :
    ∃ Y, rtComponent ref A V r xs = .ok Y ∧ Y.rows = points.length ∧ Y.cols = A.cols ∧ ∀ (i : Nat) (p : ℝ × ℝ), points[i]? = some p → ∀ j < A.cols,
      Y.ent i j = ev2 (combo k rtCenter rtScale (tri (k + 1)) fun l => A.ent (r + l) j) p + xs.getD i 0 * ev2 (rtTop k fun l => A.ent l j) p := by
  have ht := tri_succ k
  have hN : rtNum k = 2 * tri (k + 1) + (k + 1) := rfl
  refine ⟨_, by
    unfold rtComponent
    rw [hr.order, hr.nk, hA, hV.cols, hV.rows]
    dsimp only
    rw [rtNum_sub, tri_sub_succ, DMat.block_ok _ _ _ _ _ (by rw [hA]; exact hrl) (by omega), except_ok_bind, DMat.mul_ok _ _ (by exact hV.cols), except_ok_bind,
      DMat.block_ok _ _ _ _ _ (by rw [hV.rows]; omega) (by rw [hV.cols]; omega), except_ok_bind, diagMul_ok _ _ (by exact hxs), except_ok_bind,
      DMat.block_ok _ _ _ _ _ (by rw [hA]; omega) (by omega), except_ok_bind, DMat.mul_ok _ _ (by rfl), except_ok_bind,
      DMat.add_ok _ _ (by exact hV.rows) (by rfl)], ?_, ?_, ?_⟩
  · exact hV.rows
  · rfl
  intro i p hp j hj
  dsimp only
  rw [ev2_combo_sum, ev2_top, hV.cols, Finset.mul_sum]
  refine congrArg₂ _ (Finset.sum_congr rfl fun l hl => ?_) (Finset.sum_congr rfl fun b hb => ?_)
  · rw [hV.ent i p hp l (Finset.mem_range.1 hl), zero_add]
  · rw [Finset.mem_range] at hb
    rw [zero_add, zero_add, hV.ent i p hp _ (by omega), mul_assoc]

theorem rtVelocity_ok (hr : RtRefOk k tr ts ws ref) {A : DMat ℝ} (hA : A.rows = rtNum k) (points : List (ℝ × ℝ)) :
    ∃ X Y, rtVelocity ref A points = .ok (X, Y) ∧ X.rows = points.length ∧ X.cols = A.cols ∧ Y.rows = points.length ∧ Y.cols = A.cols ∧
      ∀ (i : Nat) (p : ℝ × ℝ), points[i]? = some p → ∀ j < A.cols, (X.ent i j, Y.ent i j) = rtFun k (fun l => A.ent l j) p := by
  obtain ⟨V, hV, hV1, -⟩ := vanderMat_ok k rtCenter rtScale points
  rw [num2_eq] at hV1
  have hN : rtNum k = 2 * tri (k + 1) + (k + 1) := rfl
  obtain ⟨X', h1, r1, c1, e1⟩ := rtComponent_ok hr hA hV1 (r := 0) (by omega) (rtCentred_length points Prod.fst)
  obtain ⟨Y', h2, r2, c2, e2⟩ := rtComponent_ok hr hA hV1 (r := tri (k + 1)) (by omega) (rtCentred_length points Prod.snd)
  refine ⟨X', Y', by unfold rtVelocity; rw [hr.mono2D, hV, except_ok_bind, h1, except_ok_bind, hr.nk, h2, except_ok_bind], r1, c1, r2, c2, ?_⟩
  intro i p hp j hj
  rw [e1 i p hp j hj, e2 i p hp j hj, rtFun, rtField_eq, rtCentred_getD _ rfl hp, rtCentred_getD _ rfl hp]
  simp only [zero_add]
  refine Prod.ext ?_ ?_
  · dsimp only
    rw [← ev2_shift0]
    simp [ev2]
  · dsimp only
    rw [← ev2_shift1]
    simp [ev2]

/-- The divergence of the field. -/
noncomputable def rtDivPoly (k : Nat) (x : Nat → ℝ) : MvPolynomial (Fin 2) ℝ := pderiv 0 (rtField k x).1 + pderiv 1 (rtField k x).2

theorem rtDivPoly_eq (x : Nat → ℝ) : rtDivPoly k x = pderiv 0 (combo k rtCenter rtScale (tri (k + 1)) x)
    + pderiv 1 (combo k rtCenter rtScale (tri (k + 1)) fun l => x (tri (k + 1) + l)) + C 2 * rtTop k x + (X 0 - C (1 / 3)) * pderiv 0 (rtTop k x)
    + (X 1 - C (1 / 3)) * pderiv 1 (rtTop k x) := by
  have h0 : pderiv 0 ((X 0 - C (1 / 3) : MvPolynomial (Fin 2) ℝ) * rtTop k x) = (X 0 - C (1 / 3)) * pderiv 0 (rtTop k x) + rtTop k x := by
    rw [Derivation.leibniz, map_sub, pderiv_C, pderiv_X_self, smul_eq_mul, smul_eq_mul, sub_zero, mul_one]
  have h1 : pderiv 1 ((X 1 - C (1 / 3) : MvPolynomial (Fin 2) ℝ) * rtTop k x) = (X 1 - C (1 / 3)) * pderiv 1 (rtTop k x) + rtTop k x := by
    rw [Derivation.leibniz, map_sub, pderiv_C, pderiv_X_self, smul_eq_mul, smul_eq_mul, sub_zero, mul_one]
  rw [rtDivPoly, rtField_eq]
  dsimp only
  rw [map_add, map_add, h0, h1, show (C 2 : MvPolynomial (Fin 2) ℝ) = 2 by rw [show (2 : ℝ) = ((2 : ℕ) : ℝ) by norm_num, map_natCast]; norm_num]
  ring

theorem rtDivergence_ok (hr : RtRefOk k tr ts ws ref) {A : DMat ℝ} (hA : A.rows = rtNum k) (points : List (ℝ × ℝ)) :
    ∃ D, rtDivergence ref A points = .ok D ∧ D.rows = points.length ∧ D.cols = A.cols ∧
      ∀ (i : Nat) (p : ℝ × ℝ), points[i]? = some p → ∀ j < A.cols, D.ent i j = ev2 (rtDivPoly k fun l => A.ent l j) p := by
  obtain ⟨V, hV, hV1, hV2⟩ := vanderMat_ok k rtCenter rtScale points
  obtain ⟨VX, hVX, hVX1⟩ := vanderDerMat_ok k rtCenter rtScale points V hV1.rows hV2 0
  obtain ⟨VY, hVY, hVY1⟩ := vanderDerMat_ok k rtCenter rtScale points V hV1.rows hV2 1
  rw [num2_eq] at hV1 hVX1 hVY1
  simp only [Fin.val_zero, Fin.val_one] at hVX hVY
  have ht := tri_succ k
  have hN : rtNum k = 2 * tri (k + 1) + (k + 1) := rfl
  have hl0 := rtCentred_length points Prod.fst
  have hl1 := rtCentred_length points Prod.snd
  refine ⟨_, by
    unfold rtDivergence
    rw [hr.order, hr.nk, hr.mono2D, hA, hV, except_ok_bind, hVX, except_ok_bind, hVY, except_ok_bind]
    rw [hV1.rows, hVX1.rows, hVY1.rows, hV1.cols, hVX1.cols, hVY1.cols, rtNum_sub, tri_sub_succ,
      DMat.block_ok _ _ _ _ _ (by rw [hA]; omega) (by omega), except_ok_bind,
      DMat.block_ok _ _ _ _ _ (by rw [hA]; omega) (by omega), except_ok_bind,
      DMat.block_ok _ _ _ _ _ (by rw [hA]; omega) (by omega), except_ok_bind,
      DMat.mul_ok _ _ (by exact hVX1.cols), except_ok_bind, DMat.mul_ok _ _ (by exact hVY1.cols), except_ok_bind,
      DMat.add_ok _ _ (by exact hVX1.rows.trans hVY1.rows.symm) (by rfl), except_ok_bind,
      DMat.block_ok _ _ _ _ _ (by rw [hV1.rows]; omega) (by rw [hV1.cols]; omega), except_ok_bind,
      DMat.mul_ok _ _ (by rfl), except_ok_bind, DMat.add_ok _ _ (by exact hVX1.rows) (by rfl), except_ok_bind,
      DMat.block_ok _ _ _ _ _ (by rw [hVX1.rows]; omega) (by rw [hVX1.cols]; omega), except_ok_bind,
      diagMul_ok _ _ (by exact hl0), except_ok_bind,
      DMat.mul_ok _ _ (by rfl), except_ok_bind, DMat.add_ok _ _ (by exact hVX1.rows) (by rfl), except_ok_bind,
      DMat.block_ok _ _ _ _ _ (by rw [hVY1.rows]; omega) (by rw [hVY1.cols]; omega), except_ok_bind,
      diagMul_ok _ _ (by exact hl1), except_ok_bind,
      DMat.mul_ok _ _ (by rfl), except_ok_bind, DMat.add_ok _ _ (by exact hVX1.rows) (by rfl)], ?_, ?_, ?_⟩
  · exact hVX1.rows
  · rfl
  intro i p hp j hj
  dsimp only [DMat.smul]
  rw [rtDivPoly_eq]
  have e : ∀ a b c d f : MvPolynomial (Fin 2) ℝ, ev2 (a + b + c + (X 0 - C (1 / 3)) * d + (X 1 - C (1 / 3)) * f) p
      = ev2 a p + ev2 b p + ev2 c p + (p.1 - 1 / 3) * ev2 d p + (p.2 - 1 / 3) * ev2 f p := by
    intro a b c d f
    simp [ev2]
  have e2 : ∀ a : MvPolynomial (Fin 2) ℝ, ev2 (C 2 * a) p = 2 * ev2 a p := fun a => by simp [ev2]
  rw [e, e2, ev2_combo_pderiv, ev2_combo_pderiv, ev2_top, ev2_top_pderiv, ev2_top_pderiv, hVX1.cols, hVY1.cols, rtCentred_getD _ rfl hp, rtCentred_getD _ rfl hp,
    Finset.mul_sum, Finset.mul_sum, Finset.mul_sum]
  refine congrArg₂ _ (congrArg₂ _ (congrArg₂ _ (congrArg₂ _ ?_ ?_) ?_) ?_) ?_
  · refine Finset.sum_congr rfl fun l hl => ?_
    rw [hVX1.ent i p hp l (Finset.mem_range.1 hl), zero_add, zero_add]
  · refine Finset.sum_congr rfl fun l hl => ?_
    rw [hVY1.ent i p hp l (Finset.mem_range.1 hl), zero_add]
  · refine Finset.sum_congr rfl fun b hb => ?_
    rw [Finset.mem_range] at hb
    rw [zero_add, zero_add, hV1.ent i p hp _ (by omega), show 2 * (1 / (rtScale : ℝ)) = 2 by simp [rtScale], mul_assoc]
  · refine Finset.sum_congr rfl fun b hb => ?_
    rw [Finset.mem_range] at hb
    rw [zero_add, zero_add, hVX1.ent i p hp _ (by omega), mul_assoc]
  · refine Finset.sum_congr rfl fun b hb => ?_
    rw [Finset.mem_range] at hb
    rw [zero_add, zero_add, hVY1.ent i p hp _ (by omega), mul_assoc]

/-- What is known of the data of one triple of directions. -/
structure RtBasisOk (k : Nat) (d : Bool × Bool × Bool) (tr : Rule (ℝ × ℝ) ℝ) (ts ws : List ℝ) (b : RtBasis ℝ) : Prop where
  quad : RtEdgesOk k d ts ws b.boundary
  rows : b.coefficients.rows = rtNum k
  cols : b.coefficients.cols = rtNum k
  dual : ∀ j < rtNum k, IsRTDofs k (dirOf d) (rtFun k fun l => b.coefficients.ent l j) (fun i => if i = j then 1 else 0)
  repro : ∀ x c : Nat → ℝ, IsRTDofs k (dirOf d) (rtFun k x) c → ∀ l < rtNum k, x l = ∑ j ∈ Finset.range (rtNum k), b.coefficients.ent l j * c j

theorem rtBasis_ok {lu : Solver ℝ} (hlu : SolvesRegular lu) {r2 : ℝ} (hr2 : 0 < r2) (hT : IsRTTables k triangle gauss ts ws) (hr : RtRefOk k (triangle (2 * (k + 1))) ts ws ref)
    (d : Bool × Bool × Bool) : ∃ b, rtBasis lu r2 ref d = .ok b ∧ RtBasisOk k d (triangle (2 * (k + 1))) ts ws b ∧
      rtVelocity ref b.coefficients (triangle (2 * (k + 1))).points = .ok b.values ∧ rtDivergence ref b.coefficients (triangle (2 * (k + 1))).points = .ok b.divergence := by
  obtain ⟨q, hq, hq1⟩ := rtQuad_ok hr2 d hT.nodes hT.weights
  obtain ⟨B, hB, hBr, hBc, hBe⟩ := rtB_ok hr d
  obtain ⟨G, hG, hG1⟩ := rtG_ok hr hq1 hT.triangleLength.symm
  have hS : Solves G B (lu G B) := hlu G B (by rw [hG1.rows, hG1.cols]) (by rw [hBr, hG1.rows]) (fun x hx => by
    rw [hG1.rows, hG1.cols] at hx
    rw [hG1.cols]
    exact rtG_injective hT hG1 x hx)
  have hC : rtCoefficients lu ref d q = .ok (lu G B) := by
    unfold rtCoefficients
    rw [hB, except_ok_bind, hG, except_ok_bind]
  have hCr : (lu G B).rows = rtNum k := by rw [hS.1, hG1.cols]
  have hCc : (lu G B).cols = rtNum k := by rw [hS.2.1, hBc]
  obtain ⟨X, Y, hX, -⟩ := rtVelocity_ok hr hCr (triangle (2 * (k + 1))).points
  obtain ⟨D, hD, -⟩ := rtDivergence_ok hr hCr (triangle (2 * (k + 1))).points
  refine ⟨⟨q, lu G B, (X, Y), D⟩, ?_, ⟨hq1, hCr, hCc, ?_, ?_⟩, hX, hD⟩
  · unfold rtBasis
    rw [hr.segment, hq, except_ok_bind, hC, except_ok_bind, hr.triangle, hX, except_ok_bind, hD, except_ok_bind]
  · intro j hj
    rw [dofs_iff hT hG1]
    intro i hi
    have := hS.2.2 i (by rw [hG1.rows]; exact hi) j (by rw [hBc]; exact hj)
    rw [hG1.cols, hBe] at this
    rw [this]
    split_ifs <;> simp
  · intro x c hc
    rw [dofs_iff hT hG1] at hc
    refine inj_ext (A := G.ent) (rtG_injective hT hG1) fun i hi => ?_
    have := solves_apply hS c (i := i) (by rw [hG1.rows]; exact hi)
    rw [hG1.cols, hBc] at this
    rw [this, hc i hi]
    simp only [hBe]
    rw [Finset.sum_eq_single i]
    · rw [if_pos rfl]
    · intro l _ hl
      rw [if_neg hl.symm, zero_mul]
    · intro hn
      exact absurd (Finset.mem_range.2 hi) hn

theorem mem_directions (d : Bool × Bool × Bool) : d ∈ rtDirections := by
  rcases d with ⟨_ | _, _ | _, _ | _⟩ <;> decide

/-- `Create` succeeds and the map has data for every triple of directions. -/
theorem rtCreate_ok {lu : Solver ℝ} (hlu : SolvesRegular lu) {r2 : ℝ} (hr2 : 0 < r2) (hT : IsRTTables k triangle gauss ts ws) :
    ∃ ref l, rtCreate lu r2 triangle gauss k = .ok (ref, l) ∧ RtRefOk k (triangle (2 * (k + 1))) ts ws ref ∧ ∀ d, ∃ b, rtAt l d = .ok b ∧
      RtBasisOk k d (triangle (2 * (k + 1))) ts ws b ∧ rtVelocity ref b.coefficients (triangle (2 * (k + 1))).points = .ok b.values ∧
      rtDivergence ref b.coefficients (triangle (2 * (k + 1))).points = .ok b.divergence := by
  obtain ⟨ref, hr, hr1⟩ := rtRef_ok (triangle := triangle) hT.segment hT.nodes
  choose b hb hb1 using rtBasis_ok hlu hr2 hT hr1
  have hl : rtDirections.mapM (fun d => do
      let b ← rtBasis lu r2 ref d
      .ok (d, b)) = .ok (rtDirections.map fun d => (d, b d)) := mapM_ok _ _ _ fun d _ => by rw [hb d, except_ok_bind]
  refine ⟨ref, _, by unfold rtCreate; rw [hr, except_ok_bind, hl, except_ok_bind], hr1, fun d => ⟨b d, ?_, hb1 d⟩⟩
  unfold rtAt
  have : (rtDirections.map fun d => (d, b d)).find? (fun e => decide (e.1 = d)) = some (d, b d) := by
    rcases d with ⟨_ | _, _ | _, _ | _⟩ <;> simp [rtDirections, List.find?]
  rw [this]

end

end PolyDiM
