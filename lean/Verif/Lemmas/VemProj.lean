import Verif.Lemmas.Vem

/-!
# Lemmas: the projectors of the VEM local space
-/

namespace PolyDiM

open Spec MvPolynomial

/-- What is needed of the quadrature rules of an element. -/
structure Discrete (k : Nat) (internal : Rule (ℝ × ℝ) ℝ) (bnd : EdgesRule ℝ) : Prop where
  wlen : internal.weights.length = internal.points.length
  blen : bnd.weights.length = bnd.points.length
  xlen : bnd.nx.length = bnd.points.length
  ylen : bnd.ny.length = bnd.points.length
  gaussX : ∀ q : MvPolynomial (Fin 2) ℝ, q.totalDegree ≤ 2 * k - 1 → quadLin bnd.points bnd.nx q = quadLin internal.points internal.weights (pderiv 0 q)
  gaussY : ∀ q : MvPolynomial (Fin 2) ℝ, q.totalDegree ≤ 2 * k - 1 → quadLin bnd.points bnd.ny q = quadLin internal.points internal.weights (pderiv 1 q)
  nonneg : ∀ q : MvPolynomial (Fin 2) ℝ, q.totalDegree ≤ k → 0 ≤ quadLin internal.points internal.weights (q * q)
  definite : ∀ q : MvPolynomial (Fin 2) ℝ, q.totalDegree ≤ k → quadLin internal.points internal.weights (q * q) = 0 → q = 0
  perimeter : quadLin bnd.points bnd.weights 1 ≠ 0

section
variable {k n : Nat} {c : ℝ × ℝ} {h m : ℝ} {internal : Rule (ℝ × ℝ) ℝ} {bnd : EdgesRule ℝ} {s : VemInit2D ℝ}

/-- The matrix of the DOFs of the monomials. -/
structure DofsOk (k L : Nat) (c : ℝ × ℝ) (h m : ℝ) (internal : Rule (ℝ × ℝ) ℝ) (bnd : List (ℝ × ℝ)) (D : DMat ℝ) : Prop where
  rows : D.rows = L + tri (k - 1)
  cols : D.cols = tri (k + 1)
  value : ∀ (b : Nat) (p : ℝ × ℝ), bnd[b]? = some p → ∀ j < tri (k + 1), D.ent b j = ev2 (basisPoly k c h j) p
  moment : ∀ l < tri (k - 1), ∀ j < tri (k + 1), D.ent (L + l) j = quadLin internal.points internal.weights (basisPoly k c h l * basisPoly k c h j) / m

theorem tri_sub_le (k : Nat) : tri (k - 1) ≤ tri (k + 1) := tri_le (by omega)

theorem vemDofs_ok (hs : InitOk k n c h internal bnd.points s) (hk : 1 ≤ k) (hL : n + (k - 1) * n = bnd.points.length) :
    ∃ D, vemDofs k s m = .ok D ∧ DofsOk k bnd.points.length c h m internal bnd.points D := by
  unfold vemDofs
  rw [DMat.assign_ok _ _ _ _ _ _ (by rw [hs.vanderBnd.rows, hs.numVertex, hs.numEdge, hL]) (by rw [hs.vanderBnd.cols, hs.numProj])
    (by simp only [DMat.zero, hs.numVertex, hs.numEdge, hs.numBasis]; omega) (by simp [DMat.zero]), except_ok_bind]
  have hval : ∀ (b : Nat) (p : ℝ × ℝ), bnd.points[b]? = some p → ∀ j < tri (k + 1),
      (if 0 ≤ b ∧ b < 0 + (s.numVertex + s.numEdge) ∧ 0 ≤ j ∧ j < 0 + s.numProj then s.vanderBnd.ent (b - 0) (j - 0)
        else (DMat.zero s.numBasis s.numProj : DMat ℝ).ent b j) = ev2 (basisPoly k c h j) p := by
    intro b p hb j hj
    have hbl := (List.getElem?_eq_some_iff.1 hb).1
    rw [if_pos ⟨by omega, by rw [hs.numVertex, hs.numEdge, hL]; omega, by omega, by rw [hs.numProj]; omega⟩]
    exact hs.vanderBnd.ent b p hb j hj
  by_cases h1 : 1 < k
  · rw [if_pos h1, DMat.block_ok _ _ _ _ _ (by rw [hs.hRows, hs.numInternal]; have := tri_sub_le k; omega) (by omega), except_ok_bind]
    dsimp only
    rw [DMat.assign_ok _ _ _ _ _ _ (by rfl) (by simp only [DMat.zero, hs.hCols, hs.numProj]) (by simp only [DMat.zero, hs.numInternal, hs.numBasis]; omega)
      (by simp [DMat.zero])]
    refine ⟨_, rfl, ?_, ?_, ?_, ?_⟩
    · simp only [DMat.zero, hs.numBasis, hL]
    · simp only [DMat.zero, hs.numProj]
    · intro b p hb j hj
      have hbl := (List.getElem?_eq_some_iff.1 hb).1
      dsimp only
      rw [if_neg (by simp only [DMat.zero, hs.numBasis, hs.numInternal]; omega)]
      exact hval b p hb j hj
    · intro l hl j hj
      refine (if_pos ?_).trans ?_
      · simp only [DMat.zero, hs.numBasis, hs.numInternal, hs.numProj]
        omega
      dsimp only [DMat.zero]
      rw [show 0 + (bnd.points.length + l - (s.numBasis - s.numInternal)) = l by rw [hs.numBasis, hs.numInternal]; omega, show 0 + (j - 0) = j by omega,
        hs.hEnt l (by have := tri_sub_le k; omega) j hj]
  · obtain rfl : k = 1 := by omega
    rw [if_neg h1]
    refine ⟨_, rfl, ?_, ?_, hval, ?_⟩
    · simp only [DMat.zero, hs.numBasis, hL]
    · simp only [DMat.zero, hs.numProj]
    · intro l hl
      simp [tri] at hl

/-- The matrices of the energy projector. -/
structure NablaOk (k : Nat) (c : ℝ × ℝ) (h m : ℝ) (internal : Rule (ℝ × ℝ) ℝ) (bnd : EdgesRule ℝ) (G B : DMat ℝ) : Prop where
  gRows : G.rows = tri (k + 1)
  gCols : G.cols = tri (k + 1)
  bRows : B.rows = tri (k + 1)
  bCols : B.cols = bnd.points.length + tri (k - 1)
  gEnt : ∀ i < tri (k + 1), 0 < i → ∀ j < tri (k + 1), G.ent i j =
    quadLin internal.points internal.weights (pderiv 0 (basisPoly k c h i) * pderiv 0 (basisPoly k c h j))
      + quadLin internal.points internal.weights (pderiv 1 (basisPoly k c h i) * pderiv 1 (basisPoly k c h j))
  gFirst : ∀ j < tri (k + 1), G.ent 0 j = if k = 1 then quadLin bnd.points bnd.weights (basisPoly k c h j)
    else quadLin internal.points internal.weights (basisPoly k c h j)
  bBnd : ∀ i < tri (k + 1), 0 < i → ∀ (b : Nat) (p : ℝ × ℝ), bnd.points[b]? = some p → B.ent i b =
    ev2 (pderiv 0 (basisPoly k c h i)) p * bnd.nx.getD b 0 + ev2 (pderiv 1 (basisPoly k c h i)) p * bnd.ny.getD b 0
  bInt : ∀ i < tri (k + 1), 0 < i → ∀ l < tri (k - 1), B.ent i (bnd.points.length + l) = -m / (h * h) * ((compute mono2 k).lap i l : ℝ)
  bFirst : if k = 1 then ∀ b < bnd.points.length, B.ent 0 b = bnd.weights.getD b 0
    else (∀ b < bnd.points.length, B.ent 0 b = 0) ∧ ∀ l < tri (k - 1), B.ent 0 (bnd.points.length + l) = if l = 0 then m else 0

theorem vemGradGrad_ok (hs : InitOk k n c h internal bnd.points s) (hw : internal.weights.length = internal.points.length) :
    ∃ G, vemGradGrad s.vanderIntX s.vanderIntY internal.weights = .ok G ∧ G.rows = tri (k + 1) ∧ G.cols = tri (k + 1) ∧
      ∀ i < tri (k + 1), ∀ j < tri (k + 1), G.ent i j = quadLin internal.points internal.weights (pderiv 0 (basisPoly k c h i) * pderiv 0 (basisPoly k c h j))
        + quadLin internal.points internal.weights (pderiv 1 (basisPoly k c h i) * pderiv 1 (basisPoly k c h j)) := by
  obtain ⟨AX, X, h1, h2, h3, h4, h5⟩ := gram_ok internal.points internal.weights hw _ _ _ hs.vanderIntX
  obtain ⟨AY, Y, g1, g2, g3, g4, g5⟩ := gram_ok internal.points internal.weights hw _ _ _ hs.vanderIntY
  unfold vemGradGrad
  rw [h1, except_ok_bind, h2, except_ok_bind, g1, except_ok_bind, g2, except_ok_bind, DMat.add_ok _ _ (h3.trans g3.symm) (h4.trans g4.symm)]
  refine ⟨_, rfl, h3, h4, ?_⟩
  intro i hi j hj
  dsimp only
  rw [h5 i hi j hj, g5 i hi j hj]

theorem colsum (points : List (ℝ × ℝ)) (w : List ℝ) (hw : w.length = points.length) (N : Nat) (P : Nat → MvPolynomial (Fin 2) ℝ) (V : DMat ℝ)
    (hV : Values points N P V) : ∃ g, V.tr.mul (.col w) = .ok g ∧ g.rows = N ∧ g.cols = 1 ∧ ∀ j < N, ∀ z, g.ent j z = quadLin points w (P j) := by
  refine ⟨_, DMat.mul_ok _ _ (by simp only [DMat.tr, DMat.col, hV.rows, hw]), hV.cols, rfl, ?_⟩
  intro j hj z
  simp only [DMat.tr, DMat.col, hV.rows]
  rw [← sum_quadLin points w hw (fun l => V.ent l j) _ (fun l p hl => hV.ent l p hl j hj)]
  exact Finset.sum_congr rfl fun l _ => by ring

theorem lap_zero_row (k : Nat) (l : Nat) : (compute mono2 k).lap 0 l = 0 := by
  have he : (compute mono2 k).exps[0]? = some [0, 0] := (exps_iff ranked2 k 0 [0, 0]).2 ⟨rfl, by simp, rfl⟩
  rw [lap_entry ranked2 diff2 (fun _ _ => rfl) he]
  refine Finset.sum_eq_zero fun d hd => if_neg ?_
  rw [show mono2.dim = 2 from rfl, Finset.mem_range] at hd
  rcases (show d = 0 ∨ d = 1 by omega) with rfl | rfl <;> simp [ex]

theorem vemPiNabla_ok (lu : Solver ℝ) (ref : VemRef2D ℝ) (ho : ref.order = k) (hmono : ref.mono = compute mono2 k)
    (hs : InitOk k n c h internal bnd.points s) (hd : Discrete k internal bnd) (hk : 1 ≤ k) (hL : n + (k - 1) * n = bnd.points.length) :
    ∃ G B, vemPiNabla lu ref s m h internal.weights bnd = .ok (G, B, lu G B) ∧ NablaOk k c h m internal bnd G B := by
  obtain ⟨G, hG, hGr, hGc, hGe⟩ := vemGradGrad_ok hs hd.wlen
  have htri := tri_sub_le k
  have hpos : 0 < tri (k + 1) := by rw [tri_succ]; omega
  have hBX := DMat.mulDiag_ok s.vanderBndX.tr bnd.nx (by rw [hd.xlen, ← hs.vanderBndX.rows]; rfl)
  have hBY := DMat.mulDiag_ok s.vanderBndY.tr bnd.ny (by rw [hd.ylen, ← hs.vanderBndY.rows]; rfl)
  unfold vemPiNabla
  rw [hG, except_ok_bind, hBX, except_ok_bind, hBY, except_ok_bind,
    DMat.add_ok _ _ (by simp only [DMat.tr, hs.vanderBndX.cols, hs.vanderBndY.cols]) (by simp only [DMat.tr, hs.vanderBndX.rows, hs.vanderBndY.rows]), except_ok_bind,
    DMat.assign_ok _ _ _ _ _ _ (by simp only [DMat.tr, hs.vanderBndX.cols, hs.numProj])
      (by simp only [DMat.tr, hs.vanderBndX.rows, hs.numVertex, hs.numEdge, hL]) (by simp [DMat.zero])
      (by simp only [DMat.zero, hs.numVertex, hs.numEdge, hs.numBasis]; omega), except_ok_bind]
  simp only [DMat.tr, DMat.zero, Nat.zero_le, true_and, Nat.zero_add, Nat.sub_zero, hs.numProj, hs.numVertex, hs.numEdge, hs.numBasis, hL]
  -- the entries of the first version of B
  set B0 : DMat ℝ := ⟨tri (k + 1), bnd.points.length + tri (k - 1), fun i j => if i < tri (k + 1) ∧ j < bnd.points.length then
    s.vanderBndX.ent j i * bnd.nx.getD j 0 + s.vanderBndY.ent j i * bnd.ny.getD j 0 else 0⟩ with hB0
  have hB0e : ∀ i < tri (k + 1), ∀ (b : Nat) (p : ℝ × ℝ), bnd.points[b]? = some p → B0.ent i b =
      ev2 (pderiv 0 (basisPoly k c h i)) p * bnd.nx.getD b 0 + ev2 (pderiv 1 (basisPoly k c h i)) p * bnd.ny.getD b 0 := by
    intro i hi b p hb
    have hbl := (List.getElem?_eq_some_iff.1 hb).1
    rw [hB0]
    dsimp only
    rw [if_pos ⟨hi, hbl⟩, hs.vanderBndX.ent b p hb i hi, hs.vanderBndY.ent b p hb i hi]
  have hB0z : ∀ b < bnd.points.length, B0.ent 0 b = 0 := by
    intro b hb
    rw [hB0e 0 hpos b (bnd.points[b]) (List.getElem?_eq_getElem hb), basisPoly_zero]
    simp [ev2]
  by_cases h1 : k = 1
  · obtain ⟨g, hg, hgr, hgc, hge⟩ := colsum bnd.points bnd.weights hd.blen _ _ _ hs.vanderBnd
    have hBc : B0.cols = bnd.weights.length := by
      rw [hB0, hd.blen, h1]
      rfl
    unfold vemPiNablaRows
    rw [ho, if_pos h1, DMat.assign_ok _ _ _ _ _ _ (by rfl) (by rw [hBc]; rfl) (by show 0 + 1 ≤ tri (k + 1); omega) (by omega), except_ok_bind, hg, except_ok_bind,
      DMat.assign_ok _ _ _ _ _ _ (by exact hgc) (by show g.rows = _; rw [hgr, hGc]) (by rw [hGr]; omega) (by omega), except_ok_bind, except_ok_bind]
    refine ⟨_, _, rfl, hGr, hGc, rfl, rfl, ?_, ?_, ?_, ?_, ?_⟩
    · intro i hi hi0 j hj
      dsimp only
      rw [if_neg (by omega)]
      exact hGe i hi j hj
    · intro j hj
      dsimp only
      rw [if_pos ⟨by omega, by omega, by omega, by rw [hGc]; omega⟩, if_pos h1]
      exact hge j hj _
    · intro i hi hi0 b p hb
      dsimp only
      rw [if_neg (by omega)]
      exact hB0e i hi b p hb
    · intro i hi hi0 l hl
      rw [h1] at hl
      simp [tri] at hl
    · rw [if_pos h1]
      intro b hb
      dsimp only
      rw [if_pos ⟨by omega, by omega, by omega, by rw [hBc, hd.blen]; omega⟩]
      rfl
  · obtain ⟨g, hg, hgr, hgc, hge⟩ := colsum internal.points internal.weights hd.wlen _ _ _ hs.vanderInt
    have hint : 0 < tri (k - 1) := by
      obtain ⟨k', rfl⟩ : ∃ k', k = k' + 2 := ⟨k - 2, by omega⟩
      rw [show k' + 2 - 1 = k' + 1 by omega, tri_succ]
      omega
    unfold vemPiNablaRows
    rw [ho, if_neg h1, hg, except_ok_bind,
      DMat.assign_ok _ _ _ _ _ _ (by exact hgc) (by show g.rows = _; rw [hgr, hGc]) (by rw [hGr]; omega) (by omega), except_ok_bind,
      DMat.block_ok _ _ _ _ _ (by simp) (by simp only [hs.numProj, hs.numInternal]; omega), except_ok_bind,
      DMat.assign_ok _ _ _ _ _ _ (by simp only [DMat.smul, hs.numProj, hB0]) (by rfl) (by omega) (by simp only [hs.numInternal, hB0]; omega), except_ok_bind]
    simp only [hs.numVertex, hs.numEdge, hs.numInternal, hL, hmono]
    rw [DMat.assign_ok _ _ _ _ _ _ (by rfl) (by rfl) (by simp only [hB0]; omega) (by simp only [hB0]; omega), except_ok_bind, except_ok_bind]
    have hc : B0.cols = bnd.points.length + tri (k - 1) := rfl
    have hr : B0.rows = tri (k + 1) := rfl
    refine ⟨_, _, rfl, hGr, hGc, rfl, rfl, ?_, ?_, ?_, ?_, ?_⟩
    · intro i hi hi0 j hj
      dsimp only
      rw [if_neg (by omega)]
      exact hGe i hi j hj
    · intro j hj
      dsimp only
      rw [if_pos ⟨by omega, by omega, by omega, by rw [hGc]; omega⟩, if_neg h1]
      exact hge j hj _
    · intro i hi hi0 b p hb
      have hbl := (List.getElem?_eq_some_iff.1 hb).1
      dsimp only
      rw [if_neg (by omega), if_neg (by omega)]
      exact hB0e i hi b p hb
    · intro i hi hi0 l hl
      dsimp only
      rw [if_neg (by omega), if_pos ⟨by omega, by omega, by omega, by omega⟩]
      simp only [DMat.smul]
      rw [show 0 + (i - 0) = i by omega, show 0 + (bnd.points.length + l - (B0.cols - tri (k - 1))) = l by omega]
    · rw [if_neg h1]
      constructor
      · intro b hb
        dsimp only
        rw [if_neg (by omega), if_neg (by omega)]
        exact hB0z b hb
      · intro l hl
        dsimp only
        by_cases hl0 : l = 0
        · rw [if_pos hl0, if_pos ⟨by omega, by omega, by omega, by omega⟩]
          simp [DMat.row, hl0]
        · rw [if_neg hl0, if_neg (by omega), if_pos ⟨by omega, by omega, by omega, by omega⟩]
          simp only [DMat.smul, Nat.sub_zero, Nat.zero_add]
          rw [lap_zero_row]
          simp

end

end PolyDiM
