import Verif.Lemmas.RT2D

/-!
# Lemmas: the system of the Raviart-Thomas element
-/

namespace PolyDiM

open Spec MvPolynomial

section
variable {k : Nat} {tr : Rule (ℝ × ℝ) ℝ} {ts ws : List ℝ} {ref : RtRef ℝ} {d : Bool × Bool × Bool} {q : EdgesRule ℝ} {V : DMat ℝ}

/-- The point of edge `e` with number `t`. -/
noncomputable def rtPt (d : Bool × Bool × Bool) (ts : List ℝ) (e t : Nat) : ℝ × ℝ :=
  segPoint (rtEdgeEnds (dirOf d) e).1 (rtEdgeEnds (dirOf d) e).2 (ts.getD t 0)

/-- The rows of edge `e`: the discrete flux moments of a vector polynomial. -/
noncomputable def rtFlux (k : Nat) (d : Bool × Bool × Bool) (ts ws : List ℝ) (e i : Nat) (u : MvPolynomial (Fin 2) ℝ × MvPolynomial (Fin 2) ℝ) : ℝ :=
  ∑ t ∈ Finset.range (k + 1), (ts.getD t 0 - 1 / 2) ^ i * ws.getD t 0 *
    ((rtNormal e).1 * ev2 u.1 (rtPt d ts e t) + (rtNormal e).2 * ev2 u.2 (rtPt d ts e t))

theorem rtCentred_getD {points : List (ℝ × ℝ)} (coord : ℝ × ℝ → ℝ) (hc : coord rtCenter = 1 / 3) {s : Nat} {p : ℝ × ℝ} (hp : points[s]? = some p) :
    (rtCentred points coord).getD s 0 = coord p - 1 / 3 := by
  rw [rtCentred, List.getD_eq_getElem?_getD, List.getElem?_map, hp]
  simp [hc, rtScale]

theorem rtCentred_length (points : List (ℝ × ℝ)) (coord : ℝ × ℝ → ℝ) : (rtCentred points coord).length = points.length := by simp [rtCentred]

theorem rtCol_low {j : Nat} (hj : j < tri (k + 1)) : rtCol k j = (rtPoly k j, 0) := if_pos hj

theorem rtCol_mid {j : Nat} (h1 : tri (k + 1) ≤ j) (h2 : j < 2 * tri (k + 1)) : rtCol k j = (0, rtPoly k (j - tri (k + 1))) := by
  rw [rtCol, if_neg (by omega), if_pos h2]

theorem rtCol_high {j : Nat} (h1 : 2 * tri (k + 1) ≤ j) : rtCol k j = ((X 0 - C (1 / 3)) * rtPoly k (tri k + (j - 2 * tri (k + 1))),
    (X 1 - C (1 / 3)) * rtPoly k (tri k + (j - 2 * tri (k + 1)))) := by
  rw [rtCol, if_neg (by omega), if_neg (by omega)]

theorem ev2_zero (p : ℝ × ℝ) : ev2 0 p = 0 := by simp [ev2]

theorem ev2_shift0 (s : MvPolynomial (Fin 2) ℝ) (p : ℝ × ℝ) : ev2 ((X 0 - C (1 / 3)) * s) p = (p.1 - 1 / 3) * ev2 s p := by simp [ev2]
theorem ev2_shift1 (s : MvPolynomial (Fin 2) ℝ) (p : ℝ × ℝ) : ev2 ((X 1 - C (1 / 3)) * s) p = (p.2 - 1 / 3) * ev2 s p := by simp [ev2]

theorem tri_sub_succ (k : Nat) : tri (k + 1) - (k + 1) = tri k := by
  rw [tri_succ]
  omega

theorem rtEdge1_ok (hr : RtRefOk k tr ts ws ref) (hq : RtEdgesOk k d ts ws q) (hV : Values q.points (tri (k + 1)) (rtPoly k) V) (G : DMat ℝ)
    (hGr : G.rows = rtNum k) (hGc : G.cols = rtNum k) (h0 : ∀ i < k + 1, ∀ j, G.ent i j = 0) :
    ∃ G', rtEdge1 ref q V G = .ok G' ∧ G'.rows = rtNum k ∧ G'.cols = rtNum k ∧ (∀ i < k + 1, ∀ j < rtNum k, G'.ent i j = rtFlux k d ts ws 0 i (rtCol k j)) ∧
      ∀ i j, k + 1 ≤ i → G'.ent i j = G.ent i j := by
  have hVr : V.rows = 3 * (k + 1) := by rw [hV.rows, hq.plen]
  have hNk := rtNum_eq k
  have hN : rtNum k = 2 * tri (k + 1) + (k + 1) := rfl
  have ht := tri_succ k
  have hn : (rtNormal 0).1 = 0 := by simp [rtNormal, rtVertex, clockwise]
  have hpt : ∀ t < k + 1, q.points[t]? = some (rtPt d ts 0 t) := fun t ht => by
    have := hq.point 0 (by norm_num) t ht
    rwa [zero_mul, zero_add] at this
  have hny : ∀ t < k + 1, q.ny.getD t 0 = ws.getD t 0 * (rtNormal 0).2 := fun t ht => by
    have := hq.ny 0 (by norm_num) t ht
    rwa [zero_mul, zero_add] at this
  refine ⟨_, by
      unfold rtEdge1
      rw [hr.order, hr.nk, hV.cols]
      dsimp only
      rw [tri_sub_succ, segmentOf_ok _ _ _ (by rw [hq.ylen]; omega), except_ok_bind, segmentOf_ok _ _ _ (by rw [rtCentred_length, hq.plen]; omega), except_ok_bind,
        rtProd_ok _ _ _ _ _ _ _ hr.vRows (by omega) (by rw [hV.cols]; omega), except_ok_bind,
        DMat.assign_ok _ _ _ _ _ _ (by exact hr.vCols) (by rfl) (by omega) (by omega), except_ok_bind,
        cwise_ok, except_ok_bind, rtProd_ok _ _ _ _ _ _ _ hr.vRows (by omega) (by rw [hV.cols]; omega), except_ok_bind,
        DMat.assign_ok _ _ _ _ _ _ (by exact hr.vCols) (by rfl) (by simp only; omega) (by simp only; omega)], ?_, ?_, ?_, ?_⟩
  · exact hGr
  · exact hGc
  · intro i hi j hj
    dsimp only
    simp only [vec_sum, zero_add, Nat.sub_zero, Nat.zero_le, true_and]
    unfold rtFlux
    rw [hn]
    by_cases h1 : j < tri (k + 1)
    · rw [if_neg (by omega), if_neg (by omega), h0 i hi, rtCol_low h1]
      simp [ev2_zero]
    · by_cases h2 : j < 2 * tri (k + 1)
      · rw [if_neg (by omega), if_pos (by omega), rtCol_mid (by omega) h2]
        refine Finset.sum_congr rfl fun t ht' => ?_
        rw [Finset.mem_range] at ht'
        rw [hr.vEnt t ht' i hi, hny t ht', hV.ent _ _ (hpt t ht') _ (by omega)]
        ring
      · rw [if_pos (by omega), rtCol_high (by omega)]
        refine Finset.sum_congr rfl fun t ht' => ?_
        rw [Finset.mem_range] at ht'
        rw [hr.vEnt t ht' i hi, hny t ht', hV.ent _ _ (hpt t ht') _ (by omega), rtCentred_getD _ rfl (hpt t ht'), ev2_shift1]
        ring
  · intro i j hi
    dsimp only
    rw [if_neg (by omega), if_neg (by omega)]

theorem rtEdge2_ok (hr : RtRefOk k tr ts ws ref) (hq : RtEdgesOk k d ts ws q) (hV : Values q.points (tri (k + 1)) (rtPoly k) V) (G : DMat ℝ)
    (hGr : G.rows = rtNum k) (hGc : G.cols = rtNum k) :
    ∃ G', rtEdge2 ref q V G = .ok G' ∧ G'.rows = rtNum k ∧ G'.cols = rtNum k ∧
      (∀ i < k + 1, ∀ j < rtNum k, G'.ent (k + 1 + i) j = rtFlux k d ts ws 1 i (rtCol k j)) ∧
      ∀ i j, (i < k + 1 ∨ 2 * (k + 1) ≤ i) → G'.ent i j = G.ent i j := by
  have hVr : V.rows = 3 * (k + 1) := by rw [hV.rows, hq.plen]
  have hNk := rtNum_eq k
  have hN : rtNum k = 2 * tri (k + 1) + (k + 1) := rfl
  have ht := tri_succ k
  have hpt : ∀ t < k + 1, q.points[k + 1 + t]? = some (rtPt d ts 1 t) := fun t ht => by
    have := hq.point 1 (by norm_num) t ht
    rwa [one_mul] at this
  have hnx : ∀ t < k + 1, q.nx.getD (k + 1 + t) 0 = ws.getD t 0 * (rtNormal 1).1 := fun t ht => by
    have := hq.nx 1 (by norm_num) t ht
    rwa [one_mul] at this
  have hny : ∀ t < k + 1, q.ny.getD (k + 1 + t) 0 = ws.getD t 0 * (rtNormal 1).2 := fun t ht => by
    have := hq.ny 1 (by norm_num) t ht
    rwa [one_mul] at this
  refine ⟨_, by
      unfold rtEdge2
      rw [hr.order, hr.nk, hV.cols]
      dsimp only
      rw [tri_sub_succ, segmentOf_ok _ _ _ (by rw [hq.xlen]; omega), except_ok_bind, segmentOf_ok _ _ _ (by rw [hq.ylen]; omega), except_ok_bind,
        segmentOf_ok _ _ _ (by rw [rtCentred_length, hq.plen]; omega), except_ok_bind,
        segmentOf_ok _ _ _ (by rw [rtCentred_length, hq.plen]; omega), except_ok_bind,
        rtProd_ok _ _ _ _ _ _ _ hr.vRows (by omega) (by rw [hV.cols]; omega), except_ok_bind,
        DMat.assign_ok _ _ _ _ _ _ (by exact hr.vCols) (by rfl) (by omega) (by omega), except_ok_bind,
        rtProd_ok _ _ _ _ _ _ _ hr.vRows (by omega) (by rw [hV.cols]; omega), except_ok_bind,
        DMat.assign_ok _ _ _ _ _ _ (by exact hr.vCols) (by rfl) (by simp only; omega) (by simp only; omega), except_ok_bind,
        cwise_ok, except_ok_bind, cwise_ok, except_ok_bind, arraySum_ok, except_ok_bind,
        rtProd_ok _ _ _ _ _ _ _ hr.vRows (by omega) (by rw [hV.cols]; omega), except_ok_bind,
        DMat.assign_ok _ _ _ _ _ _ (by exact hr.vCols) (by rfl) (by simp only; omega) (by simp only; omega)], ?_, ?_, ?_, ?_⟩
  · exact hGr
  · exact hGc
  · intro i hi j hj
    dsimp only
    simp only [vec_sum, zero_add, Nat.sub_zero, Nat.zero_le, true_and, Nat.add_sub_cancel_left]
    unfold rtFlux
    by_cases h1 : j < tri (k + 1)
    · rw [if_neg (by omega), if_neg (by omega), if_pos (by omega), rtCol_low h1]
      refine Finset.sum_congr rfl fun t ht' => ?_
      rw [Finset.mem_range] at ht'
      rw [hr.vEnt t ht' i hi, hnx t ht', hV.ent _ _ (hpt t ht') _ (by omega), ev2_zero]
      ring
    · by_cases h2 : j < 2 * tri (k + 1)
      · rw [if_neg (by omega), if_pos (by omega), rtCol_mid (by omega) h2]
        refine Finset.sum_congr rfl fun t ht' => ?_
        rw [Finset.mem_range] at ht'
        rw [hr.vEnt t ht' i hi, hny t ht', hV.ent _ _ (hpt t ht') _ (by omega), ev2_zero]
        ring
      · rw [if_pos (by omega), rtCol_high (by omega)]
        refine Finset.sum_congr rfl fun t ht' => ?_
        rw [Finset.mem_range] at ht'
        rw [hr.vEnt t ht' i hi, hnx t ht', hny t ht', hV.ent _ _ (hpt t ht') _ (by omega), rtCentred_getD _ rfl (hpt t ht'), rtCentred_getD _ rfl (hpt t ht'),
          ev2_shift0, ev2_shift1]
        ring
  · intro i j hi
    dsimp only
    rw [if_neg (by omega), if_neg (by omega), if_neg (by omega)]

theorem rtEdge3_ok (hr : RtRefOk k tr ts ws ref) (hq : RtEdgesOk k d ts ws q) (hV : Values q.points (tri (k + 1)) (rtPoly k) V) (G : DMat ℝ)
    (hGr : G.rows = rtNum k) (hGc : G.cols = rtNum k) (h0 : ∀ i < k + 1, ∀ j, G.ent (2 * (k + 1) + i) j = 0) :
    ∃ G', rtEdge3 ref q V G = .ok G' ∧ G'.rows = rtNum k ∧ G'.cols = rtNum k ∧
      (∀ i < k + 1, ∀ j < rtNum k, G'.ent (2 * (k + 1) + i) j = rtFlux k d ts ws 2 i (rtCol k j)) ∧
      ∀ i j, (i < 2 * (k + 1) ∨ 3 * (k + 1) ≤ i) → G'.ent i j = G.ent i j := by
  have hVr : V.rows = 3 * (k + 1) := by rw [hV.rows, hq.plen]
  have hVr' : V.rows - (k + 1) = 2 * (k + 1) := by omega
  have hNk := rtNum_eq k
  have hN : rtNum k = 2 * tri (k + 1) + (k + 1) := rfl
  have ht := tri_succ k
  have hn : (rtNormal 2).2 = 0 := by simp [rtNormal, rtVertex, clockwise]
  have hpt : ∀ t < k + 1, q.points[2 * (k + 1) + t]? = some (rtPt d ts 2 t) := fun t ht => hq.point 2 (by norm_num) t ht
  have hnx : ∀ t < k + 1, q.nx.getD (2 * (k + 1) + t) 0 = ws.getD t 0 * (rtNormal 2).1 := fun t ht => hq.nx 2 (by norm_num) t ht
  refine ⟨_, by
      unfold rtEdge3
      rw [hr.order, hr.nk, hr.dofs1D, hV.cols]
      dsimp only
      rw [tri_sub_succ, hVr', segmentOf_ok _ _ _ (by rw [hq.xlen]; omega), except_ok_bind, segmentOf_ok _ _ _ (by rw [rtCentred_length, hq.plen]; omega), except_ok_bind,
        rtProd_ok _ _ _ _ _ _ _ hr.vRows (by omega) (by rw [hV.cols]; omega), except_ok_bind,
        DMat.assign_ok _ _ _ _ _ _ (by exact hr.vCols) (by rfl) (by omega) (by omega), except_ok_bind,
        cwise_ok, except_ok_bind, rtProd_ok _ _ _ _ _ _ _ hr.vRows (by omega) (by rw [hV.cols]; omega), except_ok_bind,
        DMat.assign_ok _ _ _ _ _ _ (by exact hr.vCols) (by rfl) (by simp only; omega) (by simp only; omega)], ?_, ?_, ?_, ?_⟩
  · exact hGr
  · exact hGc
  · intro i hi j hj
    dsimp only
    simp only [vec_sum, zero_add, Nat.sub_zero, Nat.zero_le, true_and, Nat.add_sub_cancel_left]
    unfold rtFlux
    rw [hn]
    by_cases h1 : j < tri (k + 1)
    · rw [if_neg (by omega), if_pos (by omega), rtCol_low h1]
      refine Finset.sum_congr rfl fun t ht' => ?_
      rw [Finset.mem_range] at ht'
      rw [hr.vEnt t ht' i hi, hnx t ht', hV.ent _ _ (hpt t ht') _ (by omega)]
      ring
    · by_cases h2 : j < 2 * tri (k + 1)
      · rw [if_neg (by omega), if_neg (by omega), h0 i hi, rtCol_mid (by omega) h2]
        simp [ev2_zero]
      · rw [if_pos (by omega), rtCol_high (by omega)]
        refine Finset.sum_congr rfl fun t ht' => ?_
        rw [Finset.mem_range] at ht'
        rw [hr.vEnt t ht' i hi, hnx t ht', hV.ent _ _ (hpt t ht') _ (by omega), rtCentred_getD _ rfl (hpt t ht'), ev2_shift0]
        ring
  · intro i j hi
    dsimp only
    rw [if_neg (by omega), if_neg (by omega)]

theorem rtPoly_one (hk : 0 < k) : rtPoly k 1 = X 0 - C (1 / 3) := by
  have := basisPoly_rank k rtCenter rtScale (a := 1) (b := 0) (by omega)
  rw [show rank2 [1, 0] = 1 from rfl] at this
  rw [rtPoly, this]
  simp [monoPoly, ex, rtCenter, rtScale]

theorem rtPoly_two (hk : 0 < k) : rtPoly k 2 = X 1 - C (1 / 3) := by
  have := basisPoly_rank k rtCenter rtScale (a := 0) (b := 1) (by omega)
  rw [show rank2 [0, 1] = 2 from rfl] at this
  rw [rtPoly, this]
  simp [monoPoly, ex, rtCenter, rtScale]

theorem rtInternal_ok (hr : RtRefOk k tr ts ws ref) (hw : tr.weights.length = tr.points.length) (G : DMat ℝ)
    (hGr : G.rows = rtNum k) (hGc : G.cols = rtNum k) (h0 : ∀ i j, 3 * (k + 1) ≤ i → G.ent i j = 0) :
    ∃ G', rtInternal ref G = .ok G' ∧ G'.rows = rtNum k ∧ G'.cols = rtNum k ∧
      (∀ i < tri k, ∀ j < rtNum k, G'.ent (3 * (k + 1) + i) j = quadLin tr.points tr.weights (rtPoly k i * (rtCol k j).1)) ∧
      (∀ i < tri k, ∀ j < rtNum k, G'.ent (3 * (k + 1) + tri k + i) j = quadLin tr.points tr.weights (rtPoly k i * (rtCol k j).2)) ∧
      ∀ i j, i < 3 * (k + 1) → G'.ent i j = G.ent i j := by
  have hV := hr.pressure
  have hNk := rtNum_eq k
  have hN : rtNum k = 2 * tri (k + 1) + (k + 1) := rfl
  have ht := tri_succ k
  by_cases hk : 0 < k
  · have hk2 : 1 ≤ tri k := by
      obtain ⟨m, rfl⟩ : ∃ m, k = m + 1 := ⟨k - 1, by omega⟩
      rw [tri_succ]
      omega
    have hwe : tr.weights = vecOf tr.points.length fun t => tr.weights.getD t 0 := vecOf_eta _ _ hw
    have hsum : ∀ (i j : Nat) (s : MvPolynomial (Fin 2) ℝ) (g : Nat → ℝ), i < tri k → j < tri (k + 1) →
        (∀ t p, tr.points[t]? = some p → g t = ev2 s p) →
        ∑ t ∈ Finset.range tr.points.length, ref.pressure.ent t i * (tr.weights.getD t 0 * g t) * ref.pressure.ent t j
          = quadLin tr.points tr.weights (rtPoly k i * (s * rtPoly k j)) := by
      intro i j s g hi hj hg
      rw [← sum_quadLin tr.points tr.weights hw (fun t => ref.pressure.ent t i * (g t * ref.pressure.ent t j)) _ (fun t p hp => by
        rw [hV.ent t p hp i (by omega), hV.ent t p hp j hj, hg t p hp]
        simp [ev2])]
      exact Finset.sum_congr rfl fun t _ => by ring
    have hsum1 : ∀ (i j : Nat), i < tri k → j < tri (k + 1) →
        ∑ t ∈ Finset.range tr.points.length, ref.pressure.ent t i * tr.weights.getD t 0 * ref.pressure.ent t j
          = quadLin tr.points tr.weights (rtPoly k i * rtPoly k j) := by
      intro i j hi hj
      have := hsum i j 1 (fun _ => 1) hi hj (fun t p _ => by simp [ev2])
      simpa only [mul_one, one_mul] using this
    have hc1 : ∀ t p, tr.points[t]? = some p → ref.pressure.ent t 1 = ev2 (X 0 - C (1 / 3)) p := fun t p hp => by
      rw [hV.ent t p hp 1 (by omega), rtPoly_one hk]
    have hc2 : ∀ t p, tr.points[t]? = some p → ref.pressure.ent t 2 = ev2 (X 1 - C (1 / 3)) p := fun t p hp => by
      rw [hV.ent t p hp 2 (by omega), rtPoly_two hk]
    refine ⟨_, by
      unfold rtInternal
      rw [if_pos (by rw [hr.order]; exact hk), hr.order, hr.nk, hr.nkm1, hr.dofs1D, hr.triangle]
      dsimp only
      rw [hV.rows, hV.cols, tri_sub_succ, DMat.block_ok _ _ _ _ _ (by rw [hV.rows]; omega) (by rw [hV.cols]; omega), except_ok_bind, hwe,
        rtProd_ok _ _ _ _ _ _ _ (by rfl) (by rw [hV.rows]; omega) (by rw [hV.cols]; omega), except_ok_bind,
        DMat.assign_ok _ _ _ _ _ _ (by rfl) (by rfl) (by omega) (by omega), except_ok_bind,
        DMat.assign_ok _ _ _ _ _ _ (by rfl) (by rfl) (by simp only; omega) (by simp only; omega), except_ok_bind,
        DMat.block_ok _ _ _ _ _ (by rw [hV.rows]; omega) (by rw [hV.cols]; omega), except_ok_bind,
        show ∀ f : Nat → ℝ, (List.range tr.points.length).map f = vecOf tr.points.length f from fun _ => rfl,
        cwise_ok, except_ok_bind,
        rtProd_ok _ _ _ _ _ _ _ (by rfl) (by rw [hV.rows]; omega) (by rw [hV.cols]; omega), except_ok_bind,
        DMat.assign_ok _ _ _ _ _ _ (by rfl) (by rfl) (by simp only; omega) (by simp only; omega), except_ok_bind,
        DMat.block_ok _ _ _ _ _ (by rw [hV.rows]; omega) (by rw [hV.cols]; omega), except_ok_bind,
        show ∀ f : Nat → ℝ, (List.range tr.points.length).map f = vecOf tr.points.length f from fun _ => rfl,
        cwise_ok, except_ok_bind,
        rtProd_ok _ _ _ _ _ _ _ (by rfl) (by rw [hV.rows]; omega) (by rw [hV.cols]; omega), except_ok_bind,
        DMat.assign_ok _ _ _ _ _ _ (by rfl) (by rfl) (by simp only; omega) (by simp only; omega)], ?_, ?_, ?_, ?_, ?_⟩
    · exact hGr
    · exact hGc
    · intro i hi j hj
      dsimp only
      simp only [vec_sum, zero_add, Nat.sub_zero, Nat.add_zero]
      by_cases h1 : j < tri (k + 1)
      · rw [if_neg (by omega), if_neg (by omega), if_neg (by omega), if_pos (by omega), rtCol_low h1, Nat.add_sub_cancel_left]
        exact hsum1 i j hi h1
      · by_cases h2 : j < 2 * tri (k + 1)
        · rw [if_neg (by omega), if_neg (by omega), if_neg (by omega), if_neg (by omega), h0 _ _ (by omega), rtCol_mid (by omega) h2, mul_zero, map_zero]
        · rw [if_neg (by omega), if_pos (by omega), rtCol_high (by omega), Nat.add_sub_cancel_left]
          exact hsum i _ _ _ hi (by omega) hc1
    · intro i hi j hj
      dsimp only
      simp only [vec_sum, zero_add, Nat.sub_zero, Nat.add_zero]
      by_cases h1 : j < tri (k + 1)
      · rw [if_neg (by omega), if_neg (by omega), if_neg (by omega), if_neg (by omega), h0 _ _ (by omega), rtCol_low h1, mul_zero, map_zero]
      · by_cases h2 : j < 2 * tri (k + 1)
        · rw [if_neg (by omega), if_neg (by omega), if_pos (by omega), rtCol_mid (by omega) h2, Nat.add_sub_cancel_left]
          exact hsum1 i _ hi (by omega)
        · rw [if_pos (by omega), rtCol_high (by omega), Nat.add_sub_cancel_left]
          exact hsum i _ _ _ hi (by omega) hc2
    · intro i j hi
      dsimp only
      rw [if_neg (by omega), if_neg (by omega), if_neg (by omega), if_neg (by omega)]
  · have hk0 : k = 0 := by omega
    refine ⟨G, by unfold rtInternal; rw [if_neg (by rw [hr.order]; exact hk)], hGr, hGc, ?_, ?_, fun _ _ _ => rfl⟩
    · intro i hi
      rw [hk0] at hi
      exact absurd hi (by simp [tri])
    · intro i hi
      rw [hk0] at hi
      exact absurd hi (by simp [tri])

/-- What is known of the matrix of the system. -/
structure RtGOk (k : Nat) (d : Bool × Bool × Bool) (tr : Rule (ℝ × ℝ) ℝ) (ts ws : List ℝ) (G : DMat ℝ) : Prop where
  rows : G.rows = rtNum k
  cols : G.cols = rtNum k
  edge : ∀ e < 3, ∀ i < k + 1, ∀ j < rtNum k, G.ent (e * (k + 1) + i) j = rtFlux k d ts ws e i (rtCol k j)
  inner1 : ∀ i < tri k, ∀ j < rtNum k, G.ent (3 * (k + 1) + i) j = quadLin tr.points tr.weights (rtPoly k i * (rtCol k j).1)
  inner2 : ∀ i < tri k, ∀ j < rtNum k, G.ent (3 * (k + 1) + tri k + i) j = quadLin tr.points tr.weights (rtPoly k i * (rtCol k j).2)

theorem rtG_ok (hr : RtRefOk k tr ts ws ref) (hq : RtEdgesOk k d ts ws q) (hw : tr.weights.length = tr.points.length) :
    ∃ G, rtG ref q = .ok G ∧ RtGOk k d tr ts ws G := by
  obtain ⟨V, hV, hV1, -⟩ := vanderMat_ok k rtCenter rtScale q.points
  rw [num2_eq] at hV1
  obtain ⟨G1, h1, r1, c1, e1, o1⟩ := rtEdge1_ok hr hq hV1 (.zero ref.numBasis ref.numBasis) hr.numBasis hr.numBasis (fun _ _ _ => rfl)
  obtain ⟨G2, h2, r2, c2, e2, o2⟩ := rtEdge2_ok hr hq hV1 G1 r1 c1
  obtain ⟨G3, h3, r3, c3, e3, o3⟩ := rtEdge3_ok hr hq hV1 G2 r2 c2 (fun i hi j => by
    rw [o2 _ _ (by omega), o1 _ _ (by omega)]
    rfl)
  obtain ⟨G4, h4, r4, c4, e4, e5, o4⟩ := rtInternal_ok hr hw G3 r3 c3 (fun i j hi => by
    rw [o3 _ _ (by omega), o2 _ _ (by omega), o1 _ _ (by omega)]
    rfl)
  refine ⟨G4, ?_, r4, c4, ?_, e4, e5⟩
  · unfold rtG
    rw [hr.mono2D, hV, except_ok_bind, h1, except_ok_bind, h2, except_ok_bind, h3, except_ok_bind, h4]
  · intro e he i hi j hj
    rcases (show e = 0 ∨ e = 1 ∨ e = 2 by omega) with rfl | rfl | rfl
    · rw [zero_mul, zero_add, o4 _ _ (by omega), o3 _ _ (by omega), o2 _ _ (by omega), e1 i hi j hj]
    · rw [one_mul, o4 _ _ (by omega), o3 _ _ (by omega), e2 i hi j hj]
    · rw [o4 _ _ (by omega), e3 i hi j hj]

/-- The sign of row `i` of the right side. -/
def rtSign (k : Nat) (d : Bool × Bool × Bool) (i : Nat) : ℝ :=
  if i < 3 * (k + 1) then (if dirOf d (i / (k + 1)) then 1 else -1) else 1

theorem rtB_ok (hr : RtRefOk k tr ts ws ref) (d : Bool × Bool × Bool) :
    ∃ B, rtB ref d = .ok B ∧ B.rows = rtNum k ∧ B.cols = rtNum k ∧ ∀ i j, B.ent i j = if i = j then rtSign k d i else 0 := by
  have hNk := rtNum_eq k
  refine ⟨_, by
    unfold rtB
    rw [hr.dofs1D, hr.numBasis]
    simp only [List.zipIdx_cons, List.zipIdx_nil, List.foldlM_cons, List.foldlM_nil, zero_add]
    rw [DMat.block_ok _ _ _ _ _ (by simp only [DMat.identity]; omega) (by simp only [DMat.identity]; omega), except_ok_bind,
      DMat.assign_ok _ _ _ _ _ _ (by rfl) (by rfl) (by simp only [DMat.identity]; omega) (by simp only [DMat.identity]; omega), except_ok_bind,
      DMat.block_ok _ _ _ _ _ (by simp only [DMat.identity]; omega) (by simp only [DMat.identity]; omega), except_ok_bind,
      DMat.assign_ok _ _ _ _ _ _ (by rfl) (by rfl) (by simp only [DMat.identity]; omega) (by simp only [DMat.identity]; omega), except_ok_bind,
      DMat.block_ok _ _ _ _ _ (by simp only [DMat.identity]; omega) (by simp only [DMat.identity]; omega), except_ok_bind,
      DMat.assign_ok _ _ _ _ _ _ (by rfl) (by rfl) (by simp only [DMat.identity]; omega) (by simp only [DMat.identity]; omega), except_ok_bind]
    rfl, rfl, rfl, ?_⟩
  intro i j
  simp only [DMat.identity, DMat.smul]
  have hdiv : ∀ e, e * (k + 1) ≤ i → i < (e + 1) * (k + 1) → i / (k + 1) = e := fun e h1 h2 => by
    rw [Nat.div_eq_iff (by omega)]
    constructor
    · omega
    · rw [Nat.add_mul] at h2
      omega
  unfold rtSign
  generalize h0 : (if d.1 = true then (1 : ℝ) else -1) = s0
  generalize h1 : (if d.2.1 = true then (1 : ℝ) else -1) = s1
  generalize h2 : (if d.2.2 = true then (1 : ℝ) else -1) = s2
  rcases (show i < k + 1 ∨ (k + 1 ≤ i ∧ i < 2 * (k + 1)) ∨ (2 * (k + 1) ≤ i ∧ i < 3 * (k + 1)) ∨ 3 * (k + 1) ≤ i by omega) with h | h | h | h
  · rw [if_pos (show i < 3 * (k + 1) by omega), hdiv 0 (by omega) (by omega), show (if dirOf d 0 = true then (1 : ℝ) else -1) = s0 from h0]
    clear h0 h1 h2
    split_ifs <;> first | omega | ring
  · rw [if_pos (show i < 3 * (k + 1) by omega), hdiv 1 (by omega) (by omega), show (if dirOf d 1 = true then (1 : ℝ) else -1) = s1 from h1]
    clear h0 h1 h2
    split_ifs <;> first | omega | ring
  · rw [if_pos (show i < 3 * (k + 1) by omega), hdiv 2 (by omega) (by omega), show (if dirOf d 2 = true then (1 : ℝ) else -1) = s2 from h2]
    clear h0 h1 h2
    split_ifs <;> first | omega | ring
  · rw [if_neg (show ¬ i < 3 * (k + 1) by omega), if_neg (by omega), if_neg (by omega), if_neg (by omega)]

end

end PolyDiM
