import Verif.Lemmas.OrthoPoly
import Verif.Lemmas.VemMccFields

/-!
# Lemmas: the projectors of the space with an orthonormal basis
-/

namespace PolyDiM

open Spec MvPolynomial

section
variable {K : Type} [Field K]

theorem mul_ex {A B : DMat K} (h : A.cols = B.rows) : ∃ M, A.mul B = .ok M ∧ M.rows = A.rows ∧ M.cols = B.cols ∧
    ∀ i j, M.ent i j = ∑ l ∈ Finset.range A.cols, A.ent i l * B.ent l j := ⟨_, DMat.mul_ok _ _ h, rfl, rfl, fun _ _ => rfl⟩

omit [Field K] in
theorem assign_ex {A X : DMat K} {r c m n : Nat} (h1 : X.rows = m) (h2 : X.cols = n) (h3 : r + m ≤ A.rows) (h4 : c + n ≤ A.cols) :
    ∃ M, A.assign r c m n X = .ok M ∧ M.rows = A.rows ∧ M.cols = A.cols ∧
      ∀ i j, M.ent i j = if r ≤ i ∧ i < r + m ∧ c ≤ j ∧ j < c + n then X.ent (i - r) (j - c) else A.ent i j :=
  ⟨_, DMat.assign_ok _ _ _ _ _ _ h1 h2 h3 h4, rfl, rfl, fun _ _ => rfl⟩

omit [Field K] in
theorem block_ex {A : DMat K} {r c m n : Nat} (h1 : r + m ≤ A.rows) (h2 : c + n ≤ A.cols) :
    ∃ M, A.block r c m n = .ok M ∧ M.rows = m ∧ M.cols = n ∧ ∀ i j, M.ent i j = A.ent (r + i) (c + j) :=
  ⟨_, DMat.block_ok _ _ _ _ _ h1 h2, rfl, rfl, fun _ _ => rfl⟩

end

section
variable {k n : Nat} {c : ℝ × ℝ} {h m : ℝ} {internal : Rule (ℝ × ℝ) ℝ} {bnd : EdgesRule ℝ} {s : VemInit2D ℝ} {H QI Q : DMat ℝ}

/-- `(√w V)ᵀ (√w V)` for a matrix of values. -/
theorem sqrt_gram {sqrt : ℝ → ℝ} (hsq : ∀ x, 0 ≤ x → sqrt x * sqrt x = x) {points : List (ℝ × ℝ)} {w : List ℝ} (hw : w.length = points.length)
    (hpos : ∀ x ∈ w, 0 ≤ x) {P : Nat → MvPolynomial (Fin 2) ℝ} {V : DMat ℝ} (hV : Values points (tri (k + 1)) P V) (hr : Q.rows = tri (k + 1))
    (hc : Q.cols = tri (k + 1)) : ∃ A B M, DMat.scaleRows (w.map sqrt) V = .ok A ∧ A.mul Q.tr = .ok B ∧ B.tr.mul B = .ok M ∧ M.rows = tri (k + 1) ∧
      M.cols = tri (k + 1) ∧ ∀ i < tri (k + 1), ∀ j < tri (k + 1), M.ent i j = quadLin points w
        ((∑ a ∈ Finset.range (tri (k + 1)), C (Q.ent i a) * P a) * ∑ a ∈ Finset.range (tri (k + 1)), C (Q.ent j a) * P a) := by
  have hsqw : ∀ i, (w.map sqrt).getD i 0 * (w.map sqrt).getD i 0 = w.getD i 0 := by
    intro i
    by_cases hi : i < w.length
    · have : (w.map sqrt).getD i 0 = sqrt w[i] := by simp [List.getD_eq_getElem?_getD, hi]
      rw [this, hsq _ (hpos _ (List.getElem_mem hi))]
      simp [List.getD_eq_getElem?_getD, hi]
    · simp [List.getD_eq_getElem?_getD, hi]
  refine ⟨_, _, _, scaleRows_ok _ _ (by rw [List.length_map, hw, hV.rows]), DMat.mul_ok _ _ (by exact hV.cols.trans hc.symm), DMat.mul_ok _ _ rfl, hr, hr, ?_⟩
  intro i hi j hj
  dsimp only [DMat.tr]
  rw [hV.cols, hV.rows, ← sum_quadLin points w hw fun l => (∑ a ∈ Finset.range (tri (k + 1)), V.ent l a * Q.ent i a) * ∑ a ∈ Finset.range (tri (k + 1)), V.ent l a * Q.ent j a]
  · refine Finset.sum_congr rfl fun l _ => ?_
    rw [← hsqw l]
    simp only [mul_assoc]
    rw [← Finset.mul_sum, ← Finset.mul_sum]
    ring
  · intro l p hp
    simp only [ev2, map_mul, map_sum, eval_C]
    congr 1 <;>
    · refine Finset.sum_congr rfl fun a ha => ?_
      rw [hV.ent l p hp a (Finset.mem_range.1 ha), mul_comm]

theorem orthoGradGrad_ok (hs : InitOk k n c h internal bnd.points s) (hd : Discrete k internal bnd) {sqrt : ℝ → ℝ} (hsq : ∀ x, 0 ≤ x → sqrt x * sqrt x = x)
    (hpos : ∀ x ∈ internal.weights, 0 ≤ x) (hB : OBasis k c h internal.points internal.weights H QI Q) :
    ∃ G, orthoGradGrad sqrt s.vanderIntX s.vanderIntY Q internal.weights = .ok G ∧ G.rows = tri (k + 1) ∧ G.cols = tri (k + 1) ∧
      ∀ i < tri (k + 1), ∀ j < tri (k + 1), G.ent i j =
        quadLin internal.points internal.weights (pderiv 0 (oPoly k c h Q i) * pderiv 0 (oPoly k c h Q j))
          + quadLin internal.points internal.weights (pderiv 1 (oPoly k c h Q i) * pderiv 1 (oPoly k c h Q j)) := by
  obtain ⟨A, T, M, h1, h2, h3, h4, h5, h6⟩ := sqrt_gram hsq hd.wlen hpos hs.vanderIntX hB.qRows hB.qCols
  obtain ⟨A', T', M', g1, g2, g3, g4, g5, g6⟩ := sqrt_gram hsq hd.wlen hpos hs.vanderIntY hB.qRows hB.qCols
  unfold orthoGradGrad
  rw [sqrtArray_ok sqrt _ hpos, except_ok_bind, h1, except_ok_bind, h2, except_ok_bind, g1, except_ok_bind, g2, except_ok_bind, h3, except_ok_bind, g3, except_ok_bind,
    DMat.add_ok _ _ (h4.trans g4.symm) (h5.trans g5.symm)]
  refine ⟨_, rfl, h4, h5, ?_⟩
  intro i hi j hj
  dsimp only
  rw [h6 i hi j hj, g6 i hi j hj]
  simp only [pderiv_oPoly]

/-- What the projector of the energy solves for. -/
structure ONablaOk (k : Nat) (c : ℝ × ℝ) (h m : ℝ) (internal : Rule (ℝ × ℝ) ℝ) (bnd : EdgesRule ℝ) (QI Q G B : DMat ℝ) (W : Nat → Nat → ℝ) : Prop where
  gRows : G.rows = tri (k + 1)
  gCols : G.cols = tri (k + 1)
  bRows : B.rows = tri (k + 1)
  bCols : B.cols = bnd.points.length + tri (k - 1)
  gEnt : ∀ i < tri (k + 1), 0 < i → ∀ j < tri (k + 1), G.ent i j =
    quadLin internal.points internal.weights (pderiv 0 (oPoly k c h Q i) * pderiv 0 (oPoly k c h Q j))
      + quadLin internal.points internal.weights (pderiv 1 (oPoly k c h Q i) * pderiv 1 (oPoly k c h Q j))
  gFirst : ∀ j < tri (k + 1), G.ent 0 j = if k = 1 then quadLin bnd.points bnd.weights (oPoly k c h Q j)
    else quadLin internal.points internal.weights (oPoly k c h Q j)
  bEnt : ∀ i < tri (k + 1), 0 < i → ∀ b < bnd.points.length + tri (k - 1), B.ent i b = ∑ a ∈ Finset.range (tri (k + 1)), Q.ent i a * W a b
  wBnd : ∀ a < tri (k + 1), ∀ (b : Nat) (p : ℝ × ℝ), bnd.points[b]? = some p → W a b =
    ev2 (pderiv 0 (basisPoly k c h a)) p * bnd.nx.getD b 0 + ev2 (pderiv 1 (basisPoly k c h a)) p * bnd.ny.getD b 0
  wInt : ∀ a < tri (k + 1), ∀ l < tri (k - 1), W a (bnd.points.length + l) =
    ∑ r ∈ Finset.range (tri (k - 1)), -m / (h * h) * ((compute mono2 k).lap a r : ℝ) * QI.ent r l
  bFirst : if k = 1 then ∀ b < bnd.points.length, B.ent 0 b = bnd.weights.getD b 0
    else (∀ b < bnd.points.length, B.ent 0 b = 0) ∧ ∀ l < tri (k - 1), B.ent 0 (bnd.points.length + l) = m * QI.ent 0 l

theorem orthoPiNabla_ok (lu : Solver ℝ) (ref : VemRef2D ℝ) (ho : ref.order = k) (hmono : ref.mono = compute mono2 k)
    (hs : InitOk k n c h internal bnd.points s) (hk2 : s.nkm2 = tri (k - 1)) (hd : Discrete k internal bnd) (hk : 1 ≤ k) (hL : n + (k - 1) * n = bnd.points.length)
    {sqrt : ℝ → ℝ} (hsq : ∀ x, 0 ≤ x → sqrt x * sqrt x = x) (hpos : ∀ x ∈ internal.weights, 0 ≤ x)
    (hB : OBasis k c h internal.points internal.weights H QI Q) :
    ∃ G B W, orthoPiNabla sqrt lu ref ⟨{ s with H := H }, QI, Q⟩ m h internal.weights bnd = .ok (G, B, lu G B) ∧ ONablaOk k c h m internal bnd QI Q G B W := by
  obtain ⟨G, hG, hGr, hGc, hGe⟩ := orthoGradGrad_ok hs hd hsq hpos hB
  have htri := tri_sub_le k
  have hp0 : 0 < tri (k + 1) := by rw [tri_succ]; omega
  have hBX := DMat.mulDiag_ok s.vanderBndX.tr bnd.nx (by rw [hd.xlen, ← hs.vanderBndX.rows]; rfl)
  have hBY := DMat.mulDiag_ok s.vanderBndY.tr bnd.ny (by rw [hd.ylen, ← hs.vanderBndY.rows]; rfl)
  have hb : s.numBasis = bnd.points.length + tri (k - 1) := by rw [hs.numBasis, hL]
  have hv : s.numVertex + s.numEdge = bnd.points.length := by rw [hs.numVertex, hs.numEdge, hL]
  unfold orthoPiNabla
  dsimp only
  rw [hG, except_ok_bind, hBX, except_ok_bind, hBY, except_ok_bind,
    DMat.add_ok _ _ (by simp only [DMat.tr, hs.vanderBndX.cols, hs.vanderBndY.cols]) (by simp only [DMat.tr, hs.vanderBndX.rows, hs.vanderBndY.rows]), except_ok_bind]
  obtain ⟨B0, hB0, hB0r, hB0c, hB0e⟩ := assign_ex (A := (DMat.zero s.numProj s.numBasis : DMat ℝ))
    (X := ⟨s.vanderBndX.tr.rows, s.vanderBndX.tr.cols, fun i j => s.vanderBndX.tr.ent i j * bnd.nx.getD j 0 + s.vanderBndY.tr.ent i j * bnd.ny.getD j 0⟩)
    (r := 0) (c := 0) (m := s.numProj) (n := s.numVertex + s.numEdge) (by exact hs.vanderBndX.cols.trans hs.numProj.symm)
    (by rw [hv]; exact hs.vanderBndX.rows) (by simp [DMat.zero]) (by simp only [DMat.zero]; omega)
  rw [hB0, except_ok_bind]
  have hB0r : B0.rows = tri (k + 1) := hB0r.trans hs.numProj
  have hB0c : B0.cols = bnd.points.length + tri (k - 1) := hB0c.trans hb
  have hB0v : ∀ a < tri (k + 1), ∀ (b : Nat) (p : ℝ × ℝ), bnd.points[b]? = some p → B0.ent a b =
      ev2 (pderiv 0 (basisPoly k c h a)) p * bnd.nx.getD b 0 + ev2 (pderiv 1 (basisPoly k c h a)) p * bnd.ny.getD b 0 := by
    intro a ha b p hbp
    have hbl := (List.getElem?_eq_some_iff.1 hbp).1
    rw [hB0e, if_pos (by rw [hs.numProj, hv]; omega)]
    dsimp only [DMat.tr]
    rw [Nat.sub_zero, Nat.sub_zero, hs.vanderBndX.ent b p hbp a ha, hs.vanderBndY.ent b p hbp a ha]
  -- the last step: the first row of G in the new basis
  have hlast : ∀ (G1 B1 : DMat ℝ) (F : MvPolynomial (Fin 2) ℝ →ₗ[ℝ] ℝ), G1.rows = tri (k + 1) → G1.cols = tri (k + 1) →
      (∀ j < tri (k + 1), G1.ent 0 j = F (basisPoly k c h j)) →
      ∃ G2, (do let g ← G1.block 0 0 1 G1.cols; let gQ ← g.mul Q.tr; let G ← G1.assign 0 0 1 G1.cols gQ; (.ok (G, B1, lu G B1) : Except Fault _)) = .ok (G2, B1, lu G2 B1) ∧
        G2.rows = tri (k + 1) ∧ G2.cols = tri (k + 1) ∧ (∀ i, 0 < i → ∀ j, G2.ent i j = G1.ent i j) ∧ ∀ j < tri (k + 1), G2.ent 0 j = F (oPoly k c h Q j) := by
    intro G1 B1 F h1 h2 h3
    obtain ⟨g, hg, hgr, hgc, hge⟩ := block_ex (A := G1) (r := 0) (c := 0) (m := 1) (n := G1.cols) (by omega) (by omega)
    obtain ⟨q, hq, hqr, hqc, hqe⟩ := mul_ex (A := g) (B := Q.tr) (by rw [hgc, h2]; exact hB.qCols.symm)
    obtain ⟨G2, hG2, hr2, hc2, he2⟩ := assign_ex (A := G1) (X := q) (r := 0) (c := 0) (m := 1) (n := G1.cols) (hqr.trans hgr) (by rw [hqc, h2]; exact hB.qRows) (by omega) (by omega)
    refine ⟨G2, ?_, hr2.trans h1, hc2.trans h2, ?_, ?_⟩
    · rw [hg, except_ok_bind, hq, except_ok_bind, hG2, except_ok_bind]
    · intro i hi j
      rw [he2, if_neg (by omega)]
    · intro j hj
      rw [he2, if_pos (by omega), hqe, hgc, h2, lin_oPoly]
      refine Finset.sum_congr rfl fun a ha => ?_
      rw [hge, Nat.zero_add, Nat.zero_add, h3 a (Finset.mem_range.1 ha), mul_comm]
      simp only [DMat.tr, Nat.sub_zero]
  by_cases h1 : k = 1
  · obtain ⟨g, hg, hgr, hgc, hge⟩ := colsum bnd.points bnd.weights hd.blen _ _ _ hs.vanderBnd
    have ht0 : tri (k - 1) = 0 := by rw [h1]; rfl
    obtain ⟨B1, hB1, hB1r, hB1c, hB1e⟩ := mul_ex (A := Q) (B := B0) (by rw [hB.qCols, hB0r])
    obtain ⟨B2, hB2, hB2r, hB2c, hB2e⟩ := assign_ex (A := B1) (X := .row bnd.weights) (r := 0) (c := 0) (m := 1) (n := B1.cols) rfl
      (by rw [hB1c, hB0c, ht0, ← hd.blen]; rfl) (by rw [hB1r, hB.qRows]; omega) (by omega)
    obtain ⟨G1, hG1, hG1r, hG1c, hG1e⟩ := assign_ex (A := G) (X := g.tr) (r := 0) (c := 0) (m := 1) (n := G.cols) (by exact hgc) (by show g.rows = _; rw [hgr, hGc]) (by omega) (by omega)
    obtain ⟨G2, hG2, h2r, h2c, h2e, h20⟩ := hlast G1 B2 (quadLin bnd.points bnd.weights) (hG1r.trans hGr) (hG1c.trans hGc) (by
      intro j hj
      rw [hG1e, if_pos (by omega)]
      exact hge j hj _)
    refine ⟨G2, B2, B0.ent, ?_, ?_⟩
    · unfold orthoPiNablaRows
      rw [ho, if_pos h1]
      dsimp only
      rw [hB1, except_ok_bind, hB2, except_ok_bind, hg, except_ok_bind, hG1, except_ok_bind, except_ok_bind]
      exact hG2
    · refine ⟨h2r, h2c, hB2r.trans (hB1r.trans hB.qRows), hB2c.trans (hB1c.trans hB0c), ?_, ?_, ?_, hB0v, ?_, ?_⟩
      · intro i hi hi0 j hj
        rw [h2e i hi0, hG1e, if_neg (by omega)]
        exact hGe i hi j hj
      · intro j hj
        rw [h20 j hj, if_pos h1]
      · intro i hi hi0 b hbb
        rw [hB2e, if_neg (by omega), hB1e, hB.qCols]
      · intro a ha l hl
        omega
      · rw [if_pos h1]
        intro b hbb
        rw [hB2e, if_pos (by omega)]
        rfl
  · obtain ⟨g, hg, hgr, hgc, hge⟩ := colsum internal.points internal.weights hd.wlen _ _ _ hs.vanderInt
    have hint : 0 < tri (k - 1) := by
      obtain ⟨k', rfl⟩ : ∃ k', k = k' + 2 := ⟨k - 2, by omega⟩
      rw [show k' + 2 - 1 = k' + 1 by omega, tri_succ]
      omega
    obtain ⟨G1, hG1, hG1r, hG1c, hG1e⟩ := assign_ex (A := G) (X := g.tr) (r := 0) (c := 0) (m := 1) (n := G.cols) (by exact hgc) (by show g.rows = _; rw [hgr, hGc]) (by omega) (by omega)
    obtain ⟨T, hT, hTr, hTc, hTe⟩ := block_ex (A := (⟨s.numProj, s.numProj, fun i j => (ref.mono.lap i j : ℝ)⟩ : DMat ℝ)) (r := 0) (c := 0) (m := s.numProj) (n := s.numInternal)
      (by simp) (by dsimp only; rw [hs.numProj, hs.numInternal]; omega)
    obtain ⟨cor, hcor, hcorr, hcorc, hcore⟩ := block_ex (A := QI) (r := 0) (c := 0) (m := s.nkm2) (n := s.nkm2) (by rw [hB.iRows, hk2]; omega) (by rw [hB.iCols, hk2]; omega)
    obtain ⟨TQ, hTQ, hTQr, hTQc, hTQe⟩ := mul_ex (A := DMat.smul (-m / (h * h)) T) (B := cor) (by show T.cols = _; rw [hTc, hcorr, hs.numInternal, hk2])
    obtain ⟨B1, hB1, hB1r, hB1c, hB1e⟩ := assign_ex (A := B0) (X := TQ) (r := 0) (c := B0.cols - s.numInternal) (m := B0.rows) (n := s.numInternal)
      (by rw [hTQr, hB0r]; exact hTr.trans hs.numProj) (by rw [hTQc, hcorc, hk2, hs.numInternal]) (by omega) (by rw [hB0c, hs.numInternal]; omega)
    obtain ⟨B2, hB2, hB2r, hB2c, hB2e⟩ := mul_ex (A := Q) (B := B1) (by rw [hB.qCols, hB1r, hB0r])
    have hB2c : B2.cols = bnd.points.length + tri (k - 1) := hB2c.trans (hB1c.trans hB0c)
    obtain ⟨fi, hfi, hfir, hfic, hfie⟩ := block_ex (A := QI) (r := 0) (c := 0) (m := 1) (n := s.nkm2) (by rw [hB.iRows]; omega) (by rw [hB.iCols, hk2]; omega)
    have hrow := beside_ok 1 B2.cols (.zero 1 (s.numVertex + s.numEdge) : DMat ℝ) (.smul m fi) rfl hfir (by
      show s.numVertex + s.numEdge + fi.cols = _
      rw [hfic, hv, hB2c, hk2])
    obtain ⟨B3, hB3, hB3r, hB3c, hB3e⟩ := assign_ex (A := B2) (X := ⟨1, B2.cols, fun i j => if j < (DMat.zero 1 (s.numVertex + s.numEdge) : DMat ℝ).cols then
        (DMat.zero 1 (s.numVertex + s.numEdge) : DMat ℝ).ent i j else (DMat.smul m fi).ent i (j - (DMat.zero 1 (s.numVertex + s.numEdge) : DMat ℝ).cols)⟩)
      (r := 0) (c := 0) (m := 1) (n := B2.cols) rfl rfl (by rw [hB2r, hB.qRows]; omega) (by omega)
    obtain ⟨G2, hG2, h2r, h2c, h2e, h20⟩ := hlast G1 B3 (quadLin internal.points internal.weights) (hG1r.trans hGr) (hG1c.trans hGc) (by
      intro j hj
      rw [hG1e, if_pos (by omega)]
      exact hge j hj _)
    refine ⟨G2, B3, B1.ent, ?_, ?_⟩
    · unfold orthoPiNablaRows
      rw [ho, if_neg h1]
      dsimp only
      rw [hg, except_ok_bind, hG1, except_ok_bind, hT, except_ok_bind, hcor, except_ok_bind, hTQ, except_ok_bind, hB1, except_ok_bind, hB2, except_ok_bind,
        hfi, except_ok_bind, hrow, except_ok_bind, hB3, except_ok_bind, except_ok_bind]
      exact hG2
    · refine ⟨h2r, h2c, hB3r.trans (hB2r.trans hB.qRows), hB3c.trans hB2c, ?_, ?_, ?_, ?_, ?_, ?_⟩
      · intro i hi hi0 j hj
        rw [h2e i hi0, hG1e, if_neg (by omega)]
        exact hGe i hi j hj
      · intro j hj
        rw [h20 j hj, if_neg h1]
      · intro i hi hi0 b hbb
        rw [hB3e, if_neg (by omega), hB2e, hB.qCols]
      · intro a ha b p hbp
        have hbl := (List.getElem?_eq_some_iff.1 hbp).1
        rw [hB1e, if_neg (by rw [hB0c, hs.numInternal]; omega)]
        exact hB0v a ha b p hbp
      · intro a ha l hl
        rw [hB1e, if_pos (by rw [hB0c, hB0r, hs.numInternal]; omega), hTQe]
        show ∑ r ∈ Finset.range T.cols, _ = _
        rw [hTc, hs.numInternal]
        refine Finset.sum_congr rfl fun r _ => ?_
        rw [hcore, hB0c]
        simp only [DMat.smul, hTe, hmono]
        simp
      · rw [if_neg h1]
        constructor
        · intro b hbb
          rw [hB3e, if_pos (by omega)]
          exact if_pos (show b - 0 < s.numVertex + s.numEdge by omega)
        · intro l hl
          rw [hB3e, if_pos (by omega)]
          refine (if_neg (show ¬bnd.points.length + l - 0 < s.numVertex + s.numEdge by omega)).trans ?_
          simp only [DMat.smul, hfie, DMat.zero]
          simp [hv]

/-- Solving with the identity. -/
theorem identity_solve {llt : Solver ℝ} (hl : SolvesPosDef llt) {H R : DMat ℝ} {M : Nat} (hr : H.rows = M) (hc : H.cols = M)
    (he : ∀ i < M, ∀ j < M, H.ent i j = if i = j then 1 else 0) (hR : R.rows = M) :
    (llt H R).rows = M ∧ (llt H R).cols = R.cols ∧ ∀ i < M, ∀ j < R.cols, (llt H R).ent i j = R.ent i j := by
  have hrow : ∀ (x : Nat → ℝ) (i : Nat), i < M → ∑ l ∈ Finset.range H.cols, H.ent i l * x l = x i := by
    intro x i hi
    rw [hc]
    have : ∀ l ∈ Finset.range M, H.ent i l * x l = if i = l then x l else 0 := by
      intro l hl
      rw [he i hi l (Finset.mem_range.1 hl)]
      split <;> simp
    rw [Finset.sum_congr rfl this, Finset.sum_ite_eq, if_pos (Finset.mem_range.2 hi)]
  obtain ⟨h1, h2, h3⟩ := hl H R (hr.trans hc.symm) (hR.trans hr.symm) (by
    intro i hi j hj
    rw [hr] at hi hj
    rw [he i hi j hj, he j hj i hi]
    by_cases hij : i = j <;> simp [hij, eq_comm]) (by
    rintro x ⟨i, hi, hx⟩
    rw [hr] at hi ⊢
    have : ∀ i ∈ Finset.range M, x i * ∑ l ∈ Finset.range H.cols, H.ent i l * x l = x i * x i := fun i hi => by rw [hrow x i (Finset.mem_range.1 hi)]
    rw [Finset.sum_congr rfl this]
    refine Finset.sum_pos' (fun i _ => mul_self_nonneg _) ⟨i, Finset.mem_range.2 hi, ?_⟩
    exact lt_of_le_of_ne (mul_self_nonneg _) (Ne.symm (mul_ne_zero hx hx)))
  refine ⟨h1.trans hc, h2, ?_⟩
  intro i hi j hj
  rw [← h3 i (by omega) j hj, hrow (fun l => (llt H R).ent l j) i hi]

/-- The L2 projectors. -/
structure OL2Ok (k L : Nat) (m : ℝ) (X Cm Y Z : DMat ℝ) : Prop where
  cRows : Cm.rows = tri (k + 1)
  cCols : Cm.cols = L + tri (k - 1)
  yRows : Y.rows = tri k
  yCols : Y.cols = L + tri (k - 1)
  zRows : Z.rows = tri (k + 1)
  zCols : Z.cols = L + tri (k - 1)
  cLow : ∀ i < tri (k - 1), ∀ b < L + tri (k - 1), Cm.ent i b = if b = L + i then m else 0
  cHigh : ∀ i < tri (k + 1), tri (k - 1) ≤ i → ∀ b < L + tri (k - 1), Cm.ent i b = X.ent i b
  yEnt : ∀ i < tri k, ∀ b < L + tri (k - 1), Y.ent i b = Cm.ent i b
  zEnt : ∀ i < tri (k + 1), ∀ b < L + tri (k - 1), Z.ent i b = Cm.ent i b

theorem orthoL2_ok (hs : InitOk k n c h internal bnd.points s) (hk : 1 ≤ k) (hL : n + (k - 1) * n = bnd.points.length)
    (hB : OBasis k c h internal.points internal.weights H QI Q) {llt : Solver ℝ} (hl : SolvesPosDef llt) (X : DMat ℝ) (hXr : X.rows = tri (k + 1))
    (hXc : X.cols = bnd.points.length + tri (k - 1)) :
    ∃ Cm Y Z, vemL2Projectors llt m k s.nkm1 s.numProj s.numInternal s.numBasis H X = .ok (Cm, Y, Z) ∧ OL2Ok k bnd.points.length m X Cm Y Z := by
  have htri := tri_sub_le k
  have hk1 : tri (k - 1) ≤ tri k := tri_le (by omega)
  have hk2 : tri k ≤ tri (k + 1) := tri_le (by omega)
  have hb : s.numBasis = bnd.points.length + tri (k - 1) := by rw [hs.numBasis, hL]
  obtain ⟨HB, h1, h1r, h1c, h1e⟩ := block_ex (A := H) (r := H.rows - (s.numProj - s.numInternal)) (c := 0) (m := s.numProj - s.numInternal) (n := H.cols)
    (by rw [hB.hRows, hs.numProj, hs.numInternal]; omega) (by omega)
  obtain ⟨HX, h2, h2r, h2c, h2e⟩ := mul_ex (A := HB) (B := X) (by rw [h1c, hB.hCols, hXr])
  obtain ⟨C0, h3, h3r, h3c, h3e⟩ := assign_ex (A := (DMat.zero s.numProj s.numBasis : DMat ℝ)) (X := HX) (r := s.numProj - (s.numProj - s.numInternal)) (c := 0)
    (m := s.numProj - s.numInternal) (n := s.numBasis) (h2r.trans h1r) (by rw [h2c, hXc, hb]) (by simp only [DMat.zero]; rw [hs.numProj, hs.numInternal]; omega) (by simp [DMat.zero])
  have hhigh : ∀ i < tri (k + 1), tri (k - 1) ≤ i → ∀ b < bnd.points.length + tri (k - 1), C0.ent i b = X.ent i b := by
    intro i hi hi1 b hbb
    rw [h3e, if_pos (by rw [hs.numProj, hs.numInternal, hb]; omega), h2e, h1c, hB.hCols]
    have : ∀ l ∈ Finset.range (tri (k + 1)), HB.ent (i - (s.numProj - (s.numProj - s.numInternal))) l * X.ent l (b - 0) = if i = l then X.ent l b else 0 := by
      intro l hl
      rw [h1e, show H.rows - (s.numProj - s.numInternal) + (i - (s.numProj - (s.numProj - s.numInternal))) = i by
        rw [hB.hRows, hs.numProj, hs.numInternal]; omega, Nat.zero_add, Nat.sub_zero, hB.hEnt i hi l (Finset.mem_range.1 hl)]
      split <;> simp
    rw [Finset.sum_congr rfl this, Finset.sum_ite_eq, if_pos (Finset.mem_range.2 hi)]
  have hC : ∃ Cm, vemL2Internal m k s.numInternal s.numBasis C0 = .ok Cm ∧ Cm.rows = tri (k + 1) ∧ Cm.cols = bnd.points.length + tri (k - 1) ∧
      (∀ i < tri (k - 1), ∀ b < bnd.points.length + tri (k - 1), Cm.ent i b = if b = bnd.points.length + i then m else 0) ∧
      ∀ i < tri (k + 1), tri (k - 1) ≤ i → ∀ b < bnd.points.length + tri (k - 1), Cm.ent i b = X.ent i b := by
    have h3r : C0.rows = tri (k + 1) := h3r.trans hs.numProj
    have h3c : C0.cols = bnd.points.length + tri (k - 1) := h3c.trans hb
    unfold vemL2Internal
    by_cases h1 : 1 < k
    · rw [if_pos h1]
      rw [DMat.assign_ok _ _ _ _ _ _ (by rfl) (by rfl) (by have := hs.numInternal; omega) (by have := hs.numInternal; omega), except_ok_bind,
        DMat.assign_ok _ _ _ _ _ _ (by rfl) (by rfl) (by have := hs.numInternal; dsimp only; omega) (by have := hs.numInternal; dsimp only; omega)]
      refine ⟨_, rfl, h3r, h3c, ?_, ?_⟩
      · intro i hi b hbb
        by_cases hb1 : bnd.points.length ≤ b
        · refine (if_pos ?_).trans ?_
          · simp only [hb, h3c, hs.numInternal]
            omega
          · simp only [DMat.smul, DMat.identity, Nat.sub_zero, h3c, hs.numInternal]
            by_cases hbi : b = bnd.points.length + i
            · rw [if_pos (by omega), if_pos hbi, mul_one]
            · rw [if_neg (by omega), if_neg hbi, mul_zero]
        · refine (if_neg ?_).trans ((if_pos ?_).trans ?_)
          · simp only [hb, h3c, hs.numInternal]
            omega
          · simp only [hb, h3c, hs.numInternal]
            omega
          · rw [if_neg (by omega)]
            rfl
      · intro i hi hi1 b hbb
        refine (if_neg ?_).trans ((if_neg ?_).trans (hhigh i hi hi1 b hbb))
        · simp only [hs.numInternal]
          omega
        · simp only [hs.numInternal]
          omega
    · rw [if_neg h1]
      have h0 : tri (k - 1) = 0 := by rw [show k - 1 = 0 by omega]; rfl
      exact ⟨_, rfl, h3r, h3c, fun i hi => by omega, hhigh⟩
  obtain ⟨Cm, hCe, hCr, hCc, hClow, hChigh⟩ := hC
  obtain ⟨Hk, h4, h4r, h4c, h4e⟩ := block_ex (A := H) (r := 0) (c := 0) (m := s.nkm1) (n := s.nkm1) (by rw [hB.hRows, hs.nkm1]; omega) (by rw [hB.hCols, hs.nkm1]; omega)
  obtain ⟨Ck, h5, h5r, h5c, h5e⟩ := block_ex (A := Cm) (r := 0) (c := 0) (m := s.nkm1) (n := Cm.cols) (by rw [hCr, hs.nkm1]; omega) (by omega)
  obtain ⟨y1, y2, y3⟩ := identity_solve hl (H := Hk) (R := Ck) (M := tri k) (h4r.trans hs.nkm1) (h4c.trans hs.nkm1) (fun i hi j hj => by
    rw [h4e, Nat.zero_add, Nat.zero_add, hB.hEnt i (by omega) j (by omega)]) (h5r.trans hs.nkm1)
  obtain ⟨z1, z2, z3⟩ := identity_solve hl (H := H) (R := Cm) (M := tri (k + 1)) hB.hRows hB.hCols hB.hEnt hCr
  refine ⟨Cm, llt Hk Ck, llt H Cm, ?_, hCr, hCc, y1, y2.trans (h5c.trans hCc), z1, z2.trans hCc, hClow, hChigh, ?_, ?_⟩
  · unfold vemL2Projectors
    rw [h1, except_ok_bind, h2, except_ok_bind, h3, except_ok_bind, hCe, except_ok_bind, h4, except_ok_bind, h5, except_ok_bind]
  · intro i hi b hbb
    rw [y3 i hi b (by rw [h5c, hCc]; exact hbb), h5e, Nat.zero_add, Nat.zero_add]
  · intro i hi b hbb
    exact z3 i hi b (by rw [hCc]; exact hbb)

/-- The projector of one derivative. -/
structure ODerOk (k L : Nat) (c : ℝ × ℝ) (h m : ℝ) (points : List (ℝ × ℝ)) (wn : List ℝ) (d : Fin 2) (QI Q E Y : DMat ℝ) (W : Nat → Nat → ℝ) : Prop where
  eRows : E.rows = tri k
  eCols : E.cols = L + tri (k - 1)
  yRows : Y.rows = tri k
  yCols : Y.cols = L + tri (k - 1)
  ent : ∀ i < tri k, ∀ b < L + tri (k - 1), E.ent i b = ∑ a ∈ Finset.range (tri k), Q.ent i a * W a b
  bnd : ∀ a < tri k, ∀ (b : Nat) (p : ℝ × ℝ), points[b]? = some p → W a b = wn.getD b 0 * ev2 (basisPoly k c h a) p
  int : ∀ a < tri k, ∀ l < tri (k - 1), W a (L + l) = ∑ r ∈ Finset.range (tri (k - 1)), -(m / h) * ((compute mono2 k).der d a r : ℝ) * QI.ent r l
  yEnt : ∀ i < tri k, ∀ b < L + tri (k - 1), Y.ent i b = E.ent i b

theorem orthoDer_ok (hs : InitOk k n c h internal bnd.points s) (hk2 : s.nkm2 = tri (k - 1)) (hL : n + (k - 1) * n = bnd.points.length)
    (hB : OBasis k c h internal.points internal.weights H QI Q) {llt : Solver ℝ} (hl : SolvesPosDef llt) (wn : List ℝ) (hw : wn.length = bnd.points.length) (d : Fin 2) :
    ∃ E Y W, orthoDerProjector llt k ⟨{ s with H := H }, QI, Q⟩ m h wn ⟨s.numProj, s.numProj, fun i j => ((compute mono2 k).der d i j : ℝ)⟩ = .ok (E, Y) ∧
      ODerOk k bnd.points.length c h m bnd.points wn d QI Q E Y W := by
  have htri := tri_sub_le k
  have hk1 : tri (k - 1) ≤ tri k := tri_le (by omega)
  have hkk : tri k ≤ tri (k + 1) := tri_le (by omega)
  have hb : s.numBasis = bnd.points.length + tri (k - 1) := by rw [hs.numBasis, hL]
  have hv : s.numVertex + s.numEdge = bnd.points.length := by rw [hs.numVertex, hs.numEdge, hL]
  obtain ⟨V, h1, h1v⟩ := values_left hs.vanderBnd (show tri k ≤ tri (k + 1) from hkk)
  have h2 := DMat.mulDiag_ok V.tr wn (by rw [hw]; exact h1v.rows)
  obtain ⟨E0, h3, h3r, h3c, h3e⟩ := assign_ex (A := (DMat.zero s.nkm1 s.numBasis : DMat ℝ)) (X := ⟨V.tr.rows, V.tr.cols, fun i j => V.tr.ent i j * wn.getD j 0⟩) (r := 0) (c := 0)
    (m := s.nkm1) (n := s.numVertex + s.numEdge) (by rw [hs.nkm1]; exact h1v.cols) (by rw [hv]; exact h1v.rows) (by simp [DMat.zero]) (by simp only [DMat.zero]; omega)
  have h3r : E0.rows = tri k := h3r.trans hs.nkm1
  have h3c : E0.cols = bnd.points.length + tri (k - 1) := h3c.trans hb
  have hval : ∀ a < tri k, ∀ (b : Nat) (p : ℝ × ℝ), bnd.points[b]? = some p → E0.ent a b = wn.getD b 0 * ev2 (basisPoly k c h a) p := by
    intro a ha b p hbp
    have hbl := (List.getElem?_eq_some_iff.1 hbp).1
    rw [h3e, if_pos (by rw [hs.nkm1, hv]; omega)]
    simp only [DMat.tr, Nat.sub_zero]
    rw [h1v.ent b p hbp a ha]
    ring
  have hE : ∃ E1, (if 1 < k then do
      let T ← (⟨s.numProj, s.numProj, fun i j => ((compute mono2 k).der d i j : ℝ)⟩ : DMat ℝ).block 0 0 s.nkm1 s.numInternal
      let corner ← QI.block 0 0 s.nkm2 s.nkm2
      let TQ ← (DMat.smul (-(m / h)) T).mul corner
      E0.assign 0 (E0.cols - s.numInternal) E0.rows s.numInternal TQ
    else .ok E0) = .ok E1 ∧ E1.rows = tri k ∧ E1.cols = bnd.points.length + tri (k - 1) ∧
      (∀ a < tri k, ∀ (b : Nat) (p : ℝ × ℝ), bnd.points[b]? = some p → E1.ent a b = wn.getD b 0 * ev2 (basisPoly k c h a) p) ∧
      ∀ a < tri k, ∀ l < tri (k - 1), E1.ent a (bnd.points.length + l) = ∑ r ∈ Finset.range (tri (k - 1)), -(m / h) * ((compute mono2 k).der d a r : ℝ) * QI.ent r l := by
    by_cases h1 : 1 < k
    · obtain ⟨T, hT, hTr, hTc, hTe⟩ := block_ex (A := (⟨s.numProj, s.numProj, fun i j => ((compute mono2 k).der d i j : ℝ)⟩ : DMat ℝ)) (r := 0) (c := 0) (m := s.nkm1)
        (n := s.numInternal) (by dsimp only; rw [hs.numProj, hs.nkm1]; omega) (by dsimp only; rw [hs.numProj, hs.numInternal]; omega)
      obtain ⟨cor, hcor, hcorr, hcorc, hcore⟩ := block_ex (A := QI) (r := 0) (c := 0) (m := s.nkm2) (n := s.nkm2) (by rw [hB.iRows, hk2]; omega) (by rw [hB.iCols, hk2]; omega)
      obtain ⟨TQ, hTQ, hTQr, hTQc, hTQe⟩ := mul_ex (A := DMat.smul (-(m / h)) T) (B := cor) (by show T.cols = _; rw [hTc, hcorr, hs.numInternal, hk2])
      obtain ⟨E1, hE1, hE1r, hE1c, hE1e⟩ := assign_ex (A := E0) (X := TQ) (r := 0) (c := E0.cols - s.numInternal) (m := E0.rows) (n := s.numInternal)
        (by rw [hTQr, h3r]; exact hTr.trans hs.nkm1) (by rw [hTQc, hcorc, hk2, hs.numInternal]) (by omega) (by rw [h3c, hs.numInternal]; omega)
      refine ⟨E1, ?_, hE1r.trans h3r, hE1c.trans h3c, ?_, ?_⟩
      · rw [if_pos h1, hT, except_ok_bind, hcor, except_ok_bind, hTQ, except_ok_bind, hE1]
      · intro a ha b p hbp
        have hbl := (List.getElem?_eq_some_iff.1 hbp).1
        rw [hE1e, if_neg (by rw [h3c, hs.numInternal]; omega)]
        exact hval a ha b p hbp
      · intro a ha l hl
        rw [hE1e, if_pos (by rw [h3c, h3r, hs.numInternal]; omega), hTQe]
        show ∑ r ∈ Finset.range T.cols, _ = _
        rw [hTc, hs.numInternal]
        refine Finset.sum_congr rfl fun r _ => ?_
        rw [hcore, h3c]
        simp only [DMat.smul, hTe]
        simp
    · have h0 : tri (k - 1) = 0 := by rw [show k - 1 = 0 by omega]; rfl
      exact ⟨E0, by rw [if_neg h1], h3r, h3c, hval, fun a _ l hl => by omega⟩
  obtain ⟨E1, hE1, hE1r, hE1c, hE1b, hE1i⟩ := hE
  obtain ⟨cq, h4, h4r, h4c, h4e⟩ := block_ex (A := Q) (r := 0) (c := 0) (m := s.nkm1) (n := s.nkm1) (by rw [hB.qRows, hs.nkm1]; omega) (by rw [hB.qCols, hs.nkm1]; omega)
  obtain ⟨E, h5, h5r, h5c, h5e⟩ := mul_ex (A := cq) (B := E1) (by rw [h4c, hE1r, hs.nkm1])
  obtain ⟨Hk, h6, h6r, h6c, h6e⟩ := block_ex (A := H) (r := 0) (c := 0) (m := s.nkm1) (n := s.nkm1) (by rw [hB.hRows, hs.nkm1]; omega) (by rw [hB.hCols, hs.nkm1]; omega)
  obtain ⟨y1, y2, y3⟩ := identity_solve hl (H := Hk) (R := E) (M := tri k) (h6r.trans hs.nkm1) (h6c.trans hs.nkm1) (fun i hi j hj => by
    rw [h6e, Nat.zero_add, Nat.zero_add, hB.hEnt i (by omega) j (by omega)]) (h5r.trans (h4r.trans hs.nkm1))
  refine ⟨E, llt Hk E, E1.ent, ?_, h5r.trans (h4r.trans hs.nkm1), h5c.trans hE1c, y1, y2.trans (h5c.trans hE1c), ?_, hE1b, hE1i, ?_⟩
  · unfold orthoDerProjector
    dsimp only
    rw [show s.vanderBnd.block 0 0 s.vanderBnd.rows s.nkm1 = .ok V by rw [hs.nkm1]; exact h1, except_ok_bind, h2, except_ok_bind, h3, except_ok_bind]
    refine (congrArg (· >>= _) hE1).trans ?_
    rw [except_ok_bind, h4, except_ok_bind, h5, except_ok_bind, h6, except_ok_bind]
  · intro i hi b hbb
    rw [h5e, h4c, hs.nkm1]
    exact Finset.sum_congr rfl fun a _ => by rw [h4e, Nat.zero_add, Nat.zero_add]
  · intro i hi b hbb
    exact y3 i hi b (by rw [h5c, hE1c]; exact hbb)

/-- The degrees of freedom of the polynomials. -/
structure ODofsOk (k L : Nat) (c : ℝ × ℝ) (h m : ℝ) (bnd : List (ℝ × ℝ)) (Q D : DMat ℝ) : Prop where
  rows : D.rows = L + tri (k - 1)
  cols : D.cols = tri (k + 1)
  value : ∀ (b : Nat) (p : ℝ × ℝ), bnd[b]? = some p → ∀ j < tri (k + 1), D.ent b j = ev2 (oPoly k c h Q j) p
  moment : ∀ l < tri (k - 1), ∀ j < tri (k + 1), D.ent (L + l) j = (if l = j then 1 else 0) / m

theorem orthoDofs_ok (hs : InitOk k n c h internal bnd.points s) (hL : n + (k - 1) * n = bnd.points.length)
    (hB : OBasis k c h internal.points internal.weights H QI Q) :
    ∃ D, orthoDofs k ⟨{ s with H := H }, QI, Q⟩ m = .ok D ∧ ODofsOk k bnd.points.length c h m bnd.points Q D := by
  have htri := tri_sub_le k
  have hb : s.numBasis = bnd.points.length + tri (k - 1) := by rw [hs.numBasis, hL]
  have hv : s.numVertex + s.numEdge = bnd.points.length := by rw [hs.numVertex, hs.numEdge, hL]
  obtain ⟨VQ, h1, h1v⟩ := values_q hs.vanderBnd hB.qRows hB.qCols
  obtain ⟨D, h2, h2r, h2c, h2e⟩ := assign_ex (A := (DMat.zero s.numBasis s.numProj : DMat ℝ)) (X := VQ) (r := 0) (c := 0) (m := s.numVertex + s.numEdge) (n := s.numProj)
    (by rw [hv]; exact h1v.rows) (by rw [hs.numProj]; exact h1v.cols) (by simp only [DMat.zero]; omega) (by simp [DMat.zero])
  have h2r : D.rows = bnd.points.length + tri (k - 1) := h2r.trans hb
  have h2c : D.cols = tri (k + 1) := h2c.trans hs.numProj
  have hval : ∀ (b : Nat) (p : ℝ × ℝ), bnd.points[b]? = some p → ∀ j < tri (k + 1), D.ent b j = ev2 (oPoly k c h Q j) p := by
    intro b p hbp j hj
    have hbl := (List.getElem?_eq_some_iff.1 hbp).1
    rw [h2e, if_pos (by rw [hs.numProj, hv]; omega), Nat.sub_zero, Nat.sub_zero, h1v.ent b p hbp j hj]
    rfl
  unfold orthoDofs
  dsimp only
  rw [h1, except_ok_bind, h2, except_ok_bind]
  by_cases h1 : 1 < k
  · obtain ⟨T, hT, hTr, hTc, hTe⟩ := block_ex (A := H) (r := 0) (c := 0) (m := s.numInternal) (n := H.cols) (by rw [hB.hRows, hs.numInternal]; omega) (by omega)
    obtain ⟨D1, h3, h3r, h3c, h3e⟩ := assign_ex (A := D) (X := ⟨T.rows, T.cols, fun i j => T.ent i j / m⟩) (r := D.rows - s.numInternal) (c := 0) (m := s.numInternal) (n := D.cols)
      hTr (by rw [h2c]; exact hTc.trans hB.hCols) (by rw [h2r, hs.numInternal]; omega) (by omega)
    rw [if_pos h1, hT, except_ok_bind, h3]
    refine ⟨D1, rfl, h3r.trans h2r, h3c.trans h2c, ?_, ?_⟩
    · intro b p hbp j hj
      have hbl := (List.getElem?_eq_some_iff.1 hbp).1
      rw [h3e, if_neg (by rw [h2r, hs.numInternal]; omega)]
      exact hval b p hbp j hj
    · intro l hl j hj
      rw [h3e, if_pos (by rw [h2r, h2c, hs.numInternal]; omega)]
      dsimp only
      rw [hTe, h2r, hs.numInternal, show 0 + (bnd.points.length + l - (bnd.points.length + tri (k - 1) - tri (k - 1))) = l by omega, show 0 + (j - 0) = j by omega,
        hB.hEnt l (by omega) j hj]
  · have h0 : tri (k - 1) = 0 := by rw [show k - 1 = 0 by omega]; rfl
    rw [if_neg h1]
    exact ⟨D, rfl, h2r, h2c, hval, fun l hl => by omega⟩

end

end PolyDiM
