import Verif.Lemmas.VemMccInit

/-!
# Lemmas: the matrices of the mixed virtual element method
-/

namespace PolyDiM

open Spec MvPolynomial MeasureTheory

/-- The sign of an edge. -/
def sgn (dir : Nat → Bool) (e : Nat) : ℝ := if dir e then 1 else -1

section
variable {k n : Nat} {V : Nat → ℝ × ℝ} {len : Nat → ℝ} {dir : Nat → Bool} {nrm : Nat → ℝ × ℝ} {poly : VemPolygon ℝ}
  {triangle : Nat → Rule (ℝ × ℝ) ℝ} {edge : Nat → Rule ℝ ℝ} {ts ws : List ℝ}

theorem mccEdgeVectors_eq {g : PolyEdges ℝ} (hg : IsPoly g n V len dir nrm) (k : Nat) :
    mccEdgeVectors g k (n * (k + 1)) = .ok ((List.range n).flatMap (fun e => List.replicate (k + 1) ((nrm e).1 * sgn dir e)),
      (List.range n).flatMap (fun e => List.replicate (k + 1) ((nrm e).2 * sgn dir e)), (List.range n).flatMap fun e => List.replicate (k + 1) (sgn dir e)) := by
  unfold mccEdgeVectors
  have hv : g.vertices.length = n := by rw [hg.vertices]; simp
  have H := foldlM_eq (mccEdgeStep g k) (fun pre =>
      (((pre.flatMap (fun e => List.replicate (k + 1) ((nrm e).1 * sgn dir e)) ++ List.replicate ((n - pre.length) * (k + 1)) 0,
        pre.flatMap (fun e => List.replicate (k + 1) ((nrm e).2 * sgn dir e)) ++ List.replicate ((n - pre.length) * (k + 1)) 0,
        pre.flatMap (fun e => List.replicate (k + 1) (sgn dir e)) ++ List.replicate ((n - pre.length) * (k + 1)) 0),
        pre.length * (k + 1)) : (List ℝ × List ℝ × List ℝ) × Nat))
    (List.range n) (by
    intro pre a post hr
    obtain ⟨ha, han, hlen, _⟩ := range_prefix n pre post a hr
    have hm : (n - pre.length) * (k + 1) = (k + 1) + (n - (pre.length + 1)) * (k + 1) := by
      rw [hlen, show pre.length + 1 + post.length - pre.length = post.length + 1 by omega,
        show pre.length + 1 + post.length - (pre.length + 1) = post.length by omega]
      ring
    unfold mccEdgeStep
    dsimp only
    rw [hg.normals, unchecked_map_range _ _ _ han, except_ok_bind, hg.dirs, unchecked_map_range _ _ _ han, except_ok_bind, hm,
      writeSeg_next _ _ _ _ _ _ (by rw [flatMap_const_length _ _ (k + 1) (by simp)]) (by simp), except_ok_bind,
      writeSeg_next _ _ _ _ _ _ (by rw [flatMap_const_length _ _ (k + 1) (by simp)]) (by simp), except_ok_bind,
      writeSeg_next _ _ _ _ _ _ (by rw [flatMap_const_length _ _ (k + 1) (by simp)]) (by simp), except_ok_bind]
    simp [Nat.add_mul, sgn])
  simp only [List.flatMap_nil, List.nil_append, List.length_nil, Nat.sub_zero, List.length_range, Nat.sub_self, Nat.zero_mul,
    List.replicate_zero, List.append_nil] at H
  dsimp only
  rw [hv, H, except_ok_bind]

theorem blocks_get (n m : Nat) (f : Nat → ℝ) {e i : Nat} (he : e < n) (hi : i < m) :
    ((List.range n).flatMap fun e => List.replicate m (f e)).getD (e * m + i) 0 = f e := by
  rw [List.getD_eq_getElem?_getD, flatMap_get _ _ m e i e (by simp) (by rw [List.getElem?_range he]) hi]
  simp [hi]

/-- The sum over the edge DOFs of a vector, weighted with the quadrature rule, signs and a polynomial. -/
noncomputable def bsum (k n : Nat) (V : Nat → ℝ × ℝ) (len : Nat → ℝ) (dir : Nat → Bool) (ts ws : List ℝ) (v : Nat → ℝ) (z : MvPolynomial (Fin 2) ℝ) : ℝ :=
  ∑ e ∈ Finset.range n, ∑ i ∈ Finset.range (k + 1), ev2 z (segPoint (polyEdge n V (dir e) e).1 (polyEdge n V (dir e) e).2 (ts.getD i 0)) *
    (|len e| * ws.getD i 0 * sgn dir e) * v (e * (k + 1) + i)

theorem cwiseP_ok (a b : List ℝ) (h : a.length = b.length) : cwiseProduct a b = .ok (List.zipWith (· * ·) a b) := if_pos h

theorem normals_ok (a b : List ℝ) (L : Nat) (ha : a.length = L) (hb : b.length = L) : ∃ N, DMat.stack (2 * L) L (.diag a) (.diag b) = .ok N ∧
    N.rows = 2 * L ∧ N.cols = L ∧ (∀ i < L, ∀ j, N.ent i j = if i = j then a.getD i 0 else 0) ∧ ∀ i j, N.ent (L + i) j = if i = j then b.getD i 0 else 0 := by
  subst ha
  refine ⟨_, stack_ok _ _ _ _ rfl hb (by show a.length + b.length = _; omega), rfl, rfl, ?_, ?_⟩
  · intro i hi j
    have h1 : i < (DMat.diag a).rows := hi
    simp only [if_pos h1]
    rfl
  · intro i j
    have h1 : ¬a.length + i < (DMat.diag a).rows := by show ¬a.length + i < a.length; omega
    simp only [if_neg h1]
    show (if a.length + i - a.length = j then b.getD (a.length + i - a.length) 0 else 0) = _
    rw [Nat.add_sub_cancel_left]

/-- What `ComputeValuesOnBoundary` guarantees. -/
structure MBoundaryOk (k n : Nat) (c : ℝ × ℝ) (h : ℝ) (V : Nat → ℝ × ℝ) (len : Nat → ℝ) (dir : Nat → Bool) (nrm : Nat → ℝ × ℝ) (ts ws : List ℝ) (tPlus : DMat ℝ)
    (W2 B2 gkBnd : DMat ℝ) : Prop where
  wRows : W2.rows = tri (k + 1)
  wCols : W2.cols = n * (k + 1) + k * (k + 2)
  wSum : ∀ i < tri (k + 1), ∀ v : Nat → ℝ, ∑ b ∈ Finset.range (n * (k + 1) + k * (k + 2)), W2.ent i b * v b = bsum k n V len dir ts ws v (basisPoly (k + 1) c h i)
  bRows : B2.rows = tri (k + 2) - 1
  bCols : B2.cols = n * (k + 1) + k * (k + 2)
  bSum : ∀ j < tri (k + 2) - 1, ∀ v : Nat → ℝ, ∑ b ∈ Finset.range (n * (k + 1) + k * (k + 2)), B2.ent j b * v b
    = bsum k n V len dir ts ws v (basisPoly (k + 1) c h (j + 1))
  gRows : gkBnd.rows = n * (k + 1)
  gCols : gkBnd.cols = 2 * tri (k + 1)
  gEnt : ∀ e < n, ∀ i t, ts[i]? = some t → ∀ j < 2 * tri (k + 1), gkBnd.ent (e * (k + 1) + i) j =
    sgn dir e * (ev2 (fld k c h tPlus j 0) (segPoint (polyEdge n V (dir e) e).1 (polyEdge n V (dir e) e).2 t) * (nrm e).1
      + ev2 (fld k c h tPlus j 1) (segPoint (polyEdge n V (dir e) e).1 (polyEdge n V (dir e) e).2 t) * (nrm e).2)

theorem mccBoundary_ok (hE : IsElement poly n V len dir nrm) (hT : IsMixedTables k triangle edge ts ws) {internal : Rule (ℝ × ℝ) ℝ} {bnd : EdgesRule ℝ}
    (hR : MRulesOk k n V len dir ts ws poly.tris internal bnd) {c : ℝ × ℝ} {h : ℝ} {s : MccInit2D ℝ} (hs : MInitOk k n c h internal bnd.points s) :
    ∃ b, mccBoundary poly.edges k s bnd.weights = .ok b ∧ MBoundaryOk k n c h V len dir nrm ts ws s.tPlus b.1 b.2.1 b.2.2 := by
  obtain ⟨t1, t2⟩ := mcc_counts k
  obtain ⟨gk, hgk, hgv⟩ := mccFields_ok hs.tk bnd.points hs.vBnd
  rw [hR.plen] at hgk
  set ds := (List.range n).flatMap fun e => List.replicate (k + 1) (sgn dir e) with hds
  have hdl : ds.length = n * (k + 1) := by rw [hds, flatMap_const_length _ _ (k + 1) (by simp), List.length_range]
  have hwl : (List.zipWith (· * ·) bnd.weights ds).length = n * (k + 1) := by rw [List.length_zipWith, hR.blen, hdl, min_self]
  have hwd : ∀ e < n, ∀ i < k + 1, (List.zipWith (· * ·) bnd.weights ds).getD (e * (k + 1) + i) 0 = |len e| * ws.getD i 0 * sgn dir e := by
    intro e he i hi
    obtain ⟨t, ht⟩ : ∃ t, ts[i]? = some t := ⟨_, List.getElem?_eq_getElem (by rw [hT.nodes]; exact hi)⟩
    obtain ⟨w, hw⟩ : ∃ w, ws[i]? = some w := ⟨_, List.getElem?_eq_getElem (by rw [← hT.edgeLength, hT.nodes]; exact hi)⟩
    have h1 := (hR.at' e he i t w ht hw).2
    have h2 : ds[e * (k + 1) + i]? = some (sgn dir e) := by
      rw [hds, flatMap_get _ _ (k + 1) e i e (by simp) (by rw [List.getElem?_range he]) hi]
      simp [hi]
    rw [List.getD_eq_getElem?_getD, List.getElem?_zipWith, h1, h2, List.getD_eq_getElem?_getD, hw]
    rfl
  have hpt : ∀ e < n, ∀ i < k + 1, bnd.points[e * (k + 1) + i]? = some (segPoint (polyEdge n V (dir e) e).1 (polyEdge n V (dir e) e).2 (ts.getD i 0)) := by
    intro e he i hi
    obtain ⟨t, ht⟩ : ∃ t, ts[i]? = some t := ⟨_, List.getElem?_eq_getElem (by rw [hT.nodes]; exact hi)⟩
    obtain ⟨w, hw⟩ : ∃ w, ws[i]? = some w := ⟨_, List.getElem?_eq_getElem (by rw [← hT.edgeLength, hT.nodes]; exact hi)⟩
    have := (hR.at' e he i t w ht hw).1
    rw [this, List.getD_eq_getElem?_getD, ht]
    rfl
  have hlt : ∀ e < n, ∀ i < k + 1, e * (k + 1) + i < n * (k + 1) := by
    intro e he i hi
    calc e * (k + 1) + i < e * (k + 1) + (k + 1) := by omega
      _ = (e + 1) * (k + 1) := by ring
      _ ≤ n * (k + 1) := Nat.mul_le_mul_right _ he
  obtain ⟨Nm, hNm, hNr, hNc, hN1, hN2⟩ := normals_ok ((List.range n).flatMap fun e => List.replicate (k + 1) ((nrm e).1 * sgn dir e))
    ((List.range n).flatMap fun e => List.replicate (k + 1) ((nrm e).2 * sgn dir e)) (n * (k + 1))
    (by rw [flatMap_const_length _ _ (k + 1) (by simp), List.length_range]) (by rw [flatMap_const_length _ _ (k + 1) (by simp), List.length_range])
  unfold mccBoundary
  rw [hs.numBoundary, mccEdgeVectors_eq hE.edges, except_ok_bind]
  dsimp only
  rw [← hds, cwiseP_ok _ _ (by rw [hR.blen, hdl]), except_ok_bind, DMat.mulDiag_ok _ _ (by show s.vanderBnd.rows = _; rw [hs.vBnd.rows, hwl, hR.plen]), except_ok_bind,
    DMat.assign_ok _ _ _ _ _ _ (by show s.vanderBnd.cols = _; rw [hs.vBnd.cols, hs.nk]) (by show s.vanderBnd.rows = _; rw [hs.vBnd.rows, hR.plen]) (by simp [DMat.zero])
      (by simp only [DMat.zero, hs.numBasis]; omega), except_ok_bind,
    DMat.block_ok _ _ _ _ _ (by omega) (by rw [hs.vBndK.cols, hs.nkNabla]; omega), except_ok_bind, DMat.mulDiag_ok _ _ (by show s.vanderBndKp1.rows = _; rw [hs.vBndK.rows, hwl, hR.plen]), except_ok_bind,
    DMat.assign_ok _ _ _ _ _ _ (by rfl) (by show s.vanderBndKp1.rows = _; rw [hs.vBndK.rows, hR.plen]) (by simp [DMat.zero])
      (by simp only [DMat.zero, hs.numBasis]; omega), except_ok_bind,
    hNm, except_ok_bind,
    hs.nk, hR.blen, hgk, except_ok_bind, DMat.mul_ok _ _ (by rw [hgv.cols, hR.plen, hNr]), except_ok_bind]
  refine ⟨_, rfl, ?_⟩
  constructor
  · rfl
  · exact hs.numBasis
  · intro i hi v
    dsimp only [DMat.zero]
    rw [sum_split, Finset.sum_eq_zero (s := Finset.range (k * (k + 2))) (fun l _ => by rw [if_neg (by omega), zero_mul]), add_zero, sum_range_blocks, bsum]
    refine Finset.sum_congr rfl fun e he => Finset.sum_congr rfl fun r hr => ?_
    have he' := Finset.mem_range.1 he
    have hr' := Finset.mem_range.1 hr
    have := hlt e he' r hr'
    rw [if_pos (by omega), Nat.sub_zero, Nat.sub_zero, hwd e he' r hr']
    show s.vanderBnd.ent _ _ * _ * _ = _
    rw [hs.vBnd.ent _ _ (hpt e he' r hr') i hi]
  · exact hs.nkNabla
  · exact hs.numBasis
  · intro j hj v
    dsimp only [DMat.zero]
    rw [sum_split, Finset.sum_eq_zero (s := Finset.range (k * (k + 2))) (fun l _ => by rw [if_neg (by omega), zero_mul]), add_zero, sum_range_blocks, bsum]
    refine Finset.sum_congr rfl fun e he => Finset.sum_congr rfl fun r hr => ?_
    have he' := Finset.mem_range.1 he
    have hr' := Finset.mem_range.1 hr
    have := hlt e he' r hr'
    rw [if_pos (by rw [hs.nkNabla]; omega), Nat.sub_zero, Nat.sub_zero, hwd e he' r hr']
    show s.vanderBndKp1.ent (0 + _) (s.vanderBndKp1.cols - s.nkNabla + j) * _ * _ = _
    rw [hs.vBndK.cols, hs.nkNabla, show tri (k + 2) - (tri (k + 2) - 1) + j = j + 1 by omega, zero_add, hs.vBndK.ent _ _ (hpt e he' r hr') (j + 1) (by omega)]
  · exact hNc
  · exact hgv.rows
  · intro e he i t ht j hj
    have hi : i < k + 1 := by
      rw [← hT.nodes]
      exact (List.getElem?_eq_some_iff.1 ht).1
    have hb := hlt e he i hi
    have hp := hpt e he i hi
    have htd : ts.getD i 0 = t := by rw [List.getD_eq_getElem?_getD, ht]; rfl
    rw [htd] at hp
    dsimp only [DMat.tr]
    rw [hgv.cols, two_mul, sum_split, hR.plen, Finset.sum_eq_single (e * (k + 1) + i), Finset.sum_eq_single (e * (k + 1) + i)]
    · rw [hN1 _ hb, if_pos rfl, hN2, if_pos rfl, blocks_get n (k + 1) (fun e => (nrm e).1 * sgn dir e) he hi,
        blocks_get n (k + 1) (fun e => (nrm e).2 * sgn dir e) he hi]
      have g0 := hgv.ent _ _ hp j hj 0
      have g1 := hgv.ent _ _ hp j hj 1
      simp only [Fin.val_zero, zero_mul, zero_add, Fin.val_one, one_mul, hR.plen] at g0 g1
      rw [g0, g1]
      ring
    · intro b hb' hne
      rw [hN2, if_neg hne, mul_zero]
    · intro hn
      exact absurd (Finset.mem_range.2 hb) hn
    · intro b hb' hne
      rw [hN1 _ (Finset.mem_range.1 hb'), if_neg hne, mul_zero]
    · intro hn
      exact absurd (Finset.mem_range.2 hb) hn

/-- The mass matrix of the monomials is positive definite. -/
theorem mH_posdef (hE : IsElement poly n V len dir nrm) {internal : Rule (ℝ × ℝ) ℝ} {bnd : EdgesRule ℝ} (hR : MRulesOk k n V len dir ts ws poly.tris internal bnd)
    {c : ℝ × ℝ} {h : ℝ} (hh : h ≠ 0) {s : MccInit2D ℝ} (hs : MInitOk k n c h internal bnd.points s) {llt : Solver ℝ} (hllt : SolvesPosDef llt) {B : DMat ℝ}
    (hB : B.rows = tri (k + 1)) : Solves s.H B (llt s.H B) := by
  refine hllt s.H B (hs.hRows.trans hs.hCols.symm) (hB.trans hs.hRows.symm) ?_ ?_
  · rw [hs.hRows]
    intro i hi j hj
    rw [hs.hEnt i hi j hj, hs.hEnt j hj i hi, mul_comm]
  · rw [hs.hRows, hs.hCols]
    rintro x ⟨l, hl, hx⟩
    have e : ∑ i ∈ Finset.range (tri (k + 1)), x i * ∑ j ∈ Finset.range (tri (k + 1)), s.H.ent i j * x j
        = quadLin internal.points internal.weights (combo (k + 1) c h (tri (k + 1)) x * combo (k + 1) c h (tri (k + 1)) x) := by
      rw [quadLin_combo]
      refine Finset.sum_congr rfl fun i hi => ?_
      rw [mul_comm (combo _ _ _ _ _), quadLin_combo, mul_comm]
      congr 1
      exact Finset.sum_congr rfl fun j hj => by rw [hs.hEnt i (Finset.mem_range.1 hi) j (Finset.mem_range.1 hj)]
    rw [e]
    have hdeg : (combo (k + 1) c h (tri (k + 1)) x).totalDegree ≤ k + 1 := (combo_degree x (show k ≤ k + 1 by omega)).trans (by omega)
    refine lt_of_le_of_ne (mquad_nonneg (poly := poly) hR _ hdeg) fun h0 => hx ?_
    have := mquad_definite hE hR _ hdeg h0.symm
    exact combo_ext hh (show k ≤ k + 1 by omega) (y := fun _ => 0) (this.trans (by simp [combo])) l hl

/-- A combination of the fields. -/
noncomputable def gsum (k : Nat) (c : ℝ × ℝ) (h : ℝ) (tPlus : DMat ℝ) (x : Nat → ℝ) (d : Fin 2) : MvPolynomial (Fin 2) ℝ :=
  ∑ j ∈ Finset.range (2 * tri (k + 1)), C (x j) * fld k c h tPlus j d

theorem gsum_degree {c : ℝ × ℝ} {h : ℝ} {tNabla tPlus : DMat ℝ} (hT : TkOk k c h tNabla tPlus) (x : Nat → ℝ) (d : Fin 2) : (gsum k c h tPlus x d).totalDegree ≤ k := by
  refine (totalDegree_finsetSum _ _).trans (Finset.sup_le fun j _ => ?_)
  refine (totalDegree_mul _ _).trans ?_
  rw [totalDegree_C, zero_add]
  exact fld_degree hT j d

theorem quadLin_gsum (points : List (ℝ × ℝ)) (w : List ℝ) (c : ℝ × ℝ) (h : ℝ) (tPlus : DMat ℝ) (x : Nat → ℝ) (d : Fin 2) (p : MvPolynomial (Fin 2) ℝ) :
    quadLin points w (p * gsum k c h tPlus x d) = ∑ j ∈ Finset.range (2 * tri (k + 1)), quadLin points w (p * fld k c h tPlus j d) * x j := by
  rw [gsum, Finset.mul_sum, map_sum]
  refine Finset.sum_congr rfl fun j _ => ?_
  rw [show p * (C (x j) * fld k c h tPlus j d) = C (x j) * (p * fld k c h tPlus j d) by ring, quadLin_C_mul, mul_comm]

/-- A row of the mass matrix of the fields. -/
theorem mG_row {internal : Rule (ℝ × ℝ) ℝ} {bnd : List (ℝ × ℝ)} {c : ℝ × ℝ} {h : ℝ} {s : MccInit2D ℝ} (hs : MInitOk k n c h internal bnd s) (x : Nat → ℝ)
    {i : Nat} (hi : i < 2 * tri (k + 1)) : ∑ j ∈ Finset.range (2 * tri (k + 1)), s.G.ent i j * x j
      = ∑ d : Fin 2, quadLin internal.points internal.weights (fld k c h s.tPlus i d * gsum k c h s.tPlus x d) := by
  simp only [quadLin_gsum]
  rw [Finset.sum_comm]
  refine Finset.sum_congr rfl fun j hj => ?_
  rw [hs.gEnt i hi j (Finset.mem_range.1 hj), Finset.sum_mul]

theorem mG_form {internal : Rule (ℝ × ℝ) ℝ} {bnd : List (ℝ × ℝ)} {c : ℝ × ℝ} {h : ℝ} {s : MccInit2D ℝ} (hs : MInitOk k n c h internal bnd s) (x y : Nat → ℝ) :
    ∑ i ∈ Finset.range (2 * tri (k + 1)), x i * ∑ j ∈ Finset.range (2 * tri (k + 1)), s.G.ent i j * y j
      = ∑ d : Fin 2, quadLin internal.points internal.weights (gsum k c h s.tPlus x d * gsum k c h s.tPlus y d) := by
  have e : ∀ d : Fin 2, quadLin internal.points internal.weights (gsum k c h s.tPlus x d * gsum k c h s.tPlus y d)
      = ∑ i ∈ Finset.range (2 * tri (k + 1)), x i * quadLin internal.points internal.weights (fld k c h s.tPlus i d * gsum k c h s.tPlus y d) := by
    intro d
    rw [mul_comm, quadLin_gsum]
    exact Finset.sum_congr rfl fun i _ => by rw [mul_comm, mul_comm (gsum _ _ _ _ _ _)]
  simp only [e]
  rw [Finset.sum_comm]
  refine Finset.sum_congr rfl fun i hi => ?_
  rw [mG_row hs y (Finset.mem_range.1 hi), Finset.mul_sum]

theorem mG_zero (hE : IsElement poly n V len dir nrm) {internal : Rule (ℝ × ℝ) ℝ} {bnd : EdgesRule ℝ} (hR : MRulesOk k n V len dir ts ws poly.tris internal bnd)
    {c : ℝ × ℝ} {h : ℝ} (hh : h ≠ 0) {s : MccInit2D ℝ} (hs : MInitOk k n c h internal bnd.points s) (x : Nat → ℝ)
    (h0 : ∑ d : Fin 2, quadLin internal.points internal.weights (gsum k c h s.tPlus x d * gsum k c h s.tPlus x d) ≤ 0) : ∀ j < 2 * tri (k + 1), x j = 0 := by
  have hdeg : ∀ d, (gsum k c h s.tPlus x d).totalDegree ≤ k + 1 := fun d => (gsum_degree hs.tk x d).trans (by omega)
  have hnn := fun d => mquad_nonneg (poly := poly) hR _ (hdeg d)
  rw [Fin.sum_univ_two] at h0
  refine fld_independent hs.tk hh x fun d => ?_
  refine mquad_definite hE hR _ (hdeg d) (le_antisymm ?_ (hnn d))
  have h0' := hnn 0
  have h1' := hnn 1
  fin_cases d
  · show quadLin internal.points internal.weights (gsum k c h s.tPlus x 0 * gsum k c h s.tPlus x 0) ≤ 0
    linarith
  · show quadLin internal.points internal.weights (gsum k c h s.tPlus x 1 * gsum k c h s.tPlus x 1) ≤ 0
    linarith

theorem mG_posdef (hE : IsElement poly n V len dir nrm) {internal : Rule (ℝ × ℝ) ℝ} {bnd : EdgesRule ℝ} (hR : MRulesOk k n V len dir ts ws poly.tris internal bnd)
    {c : ℝ × ℝ} {h : ℝ} (hh : h ≠ 0) {s : MccInit2D ℝ} (hs : MInitOk k n c h internal bnd.points s) {llt : Solver ℝ} (hllt : SolvesPosDef llt) {B : DMat ℝ}
    (hB : B.rows = 2 * tri (k + 1)) : Solves s.G B (llt s.G B) := by
  refine hllt s.G B (hs.gRows.trans hs.gCols.symm) (hB.trans hs.gRows.symm) ?_ ?_
  · rw [hs.gRows]
    intro i hi j hj
    rw [hs.gEnt i hi j hj, hs.gEnt j hj i hi]
    exact Finset.sum_congr rfl fun d _ => by rw [mul_comm]
  · rw [hs.gRows, hs.gCols]
    rintro x ⟨l, hl, hx⟩
    rw [mG_form hs]
    by_contra hc
    exact hx (mG_zero hE hR hh hs x (not_lt.1 hc) l hl)

/-- Everything about the local space of an element. -/
structure MSpaceOk (k n : Nat) (V : Nat → ℝ × ℝ) (len : Nat → ℝ) (dir : Nat → Bool) (nrm : Nat → ℝ × ℝ) (ts ws : List ℝ) (poly : VemPolygon ℝ)
    (s : MccSpace2D ℝ) : Prop where
  init : MInitOk k n poly.centroid poly.diameter s.internal s.boundary.points s.init
  rules : MRulesOk k n V len dir ts ws poly.tris s.internal s.boundary
  wRows : s.W.rows = tri (k + 1)
  wCols : s.W.cols = n * (k + 1) + k * (k + 2)
  wSum : ∀ i < tri (k + 1), ∀ v : Nat → ℝ, ∑ b ∈ Finset.range (n * (k + 1) + k * (k + 2)), s.W.ent i b * v b
    = bsum k n V len dir ts ws v (basisPoly (k + 1) poly.centroid poly.diameter i) - if i = 0 then 0 else poly.measure * v (n * (k + 1) + (i - 1))
  vSol : Solves s.init.H s.W s.V
  bRows : s.B.rows = 2 * tri (k + 1)
  bCols : s.B.cols = n * (k + 1) + k * (k + 2)
  bNabla : ∀ j < tri (k + 2) - 1, ∀ v : Nat → ℝ, ∑ b ∈ Finset.range (n * (k + 1) + k * (k + 2)), s.B.ent j b * v b
    = bsum k n V len dir ts ws v (basisPoly (k + 1) poly.centroid poly.diameter (j + 1))
      - ∑ i ∈ Finset.range (tri (k + 1)), quadLin s.internal.points s.internal.weights
          (basisPoly (k + 1) poly.centroid poly.diameter (j + 1) * basisPoly (k + 1) poly.centroid poly.diameter i) *
        ∑ b ∈ Finset.range (n * (k + 1) + k * (k + 2)), s.V.ent i b * v b
  bPlus : ∀ l < tri k, ∀ v : Nat → ℝ, ∑ b ∈ Finset.range (n * (k + 1) + k * (k + 2)), s.B.ent (tri (k + 2) - 1 + l) b * v b
    = poly.measure * v (n * (k + 1) + (tri (k + 1) - 1) + l)
  pSol : Solves s.init.G s.B s.pi0k
  dRows : s.D.rows = n * (k + 1) + k * (k + 2)
  dCols : s.D.cols = 2 * tri (k + 1)
  dEdge : ∀ e < n, ∀ i t, ts[i]? = some t → ∀ j < 2 * tri (k + 1), s.D.ent (e * (k + 1) + i) j =
    sgn dir e * (ev2 (fld k poly.centroid poly.diameter s.init.tPlus j 0) (segPoint (polyEdge n V (dir e) e).1 (polyEdge n V (dir e) e).2 t) * (nrm e).1
      + ev2 (fld k poly.centroid poly.diameter s.init.tPlus j 1) (segPoint (polyEdge n V (dir e) e).1 (polyEdge n V (dir e) e).2 t) * (nrm e).2)
  dNabla : ∀ l < tri (k + 1) - 1, ∀ j < 2 * tri (k + 1), s.D.ent (n * (k + 1) + l) j = 1 / poly.measure * s.init.G.ent l j
  dPlus : ∀ l < tri k, ∀ j < 2 * tri (k + 1), s.D.ent (n * (k + 1) + (tri (k + 1) - 1) + l) j = 1 / poly.measure * s.init.G.ent (tri (k + 2) - 1 + l) j

theorem mccDivergence_ok {c : ℝ × ℝ} {h m : ℝ} {internal : Rule (ℝ × ℝ) ℝ} {bnd : List (ℝ × ℝ)} {s : MccInit2D ℝ} (hs : MInitOk k n c h internal bnd s)
    {W2 B2 gkBnd : DMat ℝ} (hb : MBoundaryOk k n c h V len dir nrm ts ws s.tPlus W2 B2 gkBnd) (llt : Solver ℝ) :
    ∃ W, mccDivergence llt k m s W2 = .ok (W, llt s.H W) ∧ W.rows = tri (k + 1) ∧ W.cols = n * (k + 1) + k * (k + 2) ∧
      ∀ i < tri (k + 1), ∀ v : Nat → ℝ, ∑ b ∈ Finset.range (n * (k + 1) + k * (k + 2)), W.ent i b * v b
        = bsum k n V len dir ts ws v (basisPoly (k + 1) c h i) - if i = 0 then 0 else m * v (n * (k + 1) + (i - 1)) := by
  obtain ⟨t1, t2⟩ := mcc_counts k
  have hi' := mcc_internal k
  obtain ⟨W1, hW1, hr, hc, hent⟩ : ∃ W1 : DMat ℝ, (if 0 < k then
      (DMat.zero s.nk s.numBasis).assign 1 s.numBoundary s.numNabla s.numNabla (.smul (-m) (.identity s.numNabla))
    else .ok (DMat.zero s.nk s.numBasis)) = .ok W1 ∧ W1.rows = tri (k + 1) ∧ W1.cols = n * (k + 1) + k * (k + 2) ∧ ∀ i < tri (k + 1), ∀ b,
      W1.ent i b = if i ≠ 0 ∧ b = n * (k + 1) + (i - 1) then -m else 0 := by
    by_cases hk : 0 < k
    · rw [if_pos hk, DMat.assign_ok _ _ _ _ _ _ (by rfl) (by rfl) (by simp only [DMat.zero, hs.nk, hs.numNabla]; omega) (by simp only [DMat.zero, hs.numBoundary, hs.numNabla, hs.numBasis]; omega)]
      refine ⟨_, rfl, hs.nk, hs.numBasis, fun i hi b => ?_⟩
      simp only [DMat.zero, DMat.smul, DMat.identity, hs.numBoundary, hs.numNabla]
      by_cases h1 : i ≠ 0 ∧ b = n * (k + 1) + (i - 1)
      · rw [if_pos h1, if_pos (by omega), if_pos (by omega), mul_one]
      · rw [if_neg h1]
        by_cases h2 : 1 ≤ i ∧ i < 1 + (tri (k + 1) - 1) ∧ n * (k + 1) ≤ b ∧ b < n * (k + 1) + (tri (k + 1) - 1)
        · rw [if_pos h2, if_neg (by omega), mul_zero]
        · rw [if_neg h2]
    · rw [if_neg hk]
      refine ⟨_, rfl, hs.nk, hs.numBasis, fun i hi b => ?_⟩
      obtain rfl : k = 0 := by omega
      rw [if_neg (by rw [show tri (0 + 1) = 1 from rfl] at hi; omega)]
      rfl
  unfold mccDivergence
  rw [hW1, except_ok_bind, DMat.add_ok _ _ (hr.trans hb.wRows.symm) (hc.trans hb.wCols.symm), except_ok_bind]
  refine ⟨_, rfl, hr, hc, fun i hi v => ?_⟩
  dsimp only
  simp only [add_mul, Finset.sum_add_distrib]
  rw [hb.wSum i hi v, add_comm, sub_eq_add_neg]
  congr 1
  by_cases h0 : i = 0
  · rw [if_pos h0, neg_zero]
    refine Finset.sum_eq_zero fun b _ => ?_
    rw [hent i hi b, if_neg (by omega), zero_mul]
  · rw [if_neg h0, Finset.sum_eq_single (n * (k + 1) + (i - 1))]
    · rw [hent i hi, if_pos ⟨h0, rfl⟩]
      ring
    · intro b _ hne
      rw [hent i hi, if_neg (by omega), zero_mul]
    · intro hn
      exact absurd (Finset.mem_range.2 (by omega)) hn

theorem mccL2_ok {c : ℝ × ℝ} {h m : ℝ} {internal : Rule (ℝ × ℝ) ℝ} {bnd : List (ℝ × ℝ)} {s : MccInit2D ℝ} (hs : MInitOk k n c h internal bnd s)
    (hw : internal.weights.length = internal.points.length)
    {W2 B2 gkBnd : DMat ℝ} (hb : MBoundaryOk k n c h V len dir nrm ts ws s.tPlus W2 B2 gkBnd) (llt : Solver ℝ) {X : DMat ℝ} (hX : X.rows = tri (k + 1))
    (hXc : X.cols = n * (k + 1) + k * (k + 2)) :
    ∃ B, mccL2 llt m internal.weights s B2 X = .ok (B, llt s.G B) ∧ B.rows = 2 * tri (k + 1) ∧ B.cols = n * (k + 1) + k * (k + 2) ∧
      (∀ j < tri (k + 2) - 1, ∀ v : Nat → ℝ, ∑ b ∈ Finset.range (n * (k + 1) + k * (k + 2)), B.ent j b * v b
        = bsum k n V len dir ts ws v (basisPoly (k + 1) c h (j + 1))
          - ∑ i ∈ Finset.range (tri (k + 1)), quadLin internal.points internal.weights (basisPoly (k + 1) c h (j + 1) * basisPoly (k + 1) c h i) *
            ∑ b ∈ Finset.range (n * (k + 1) + k * (k + 2)), X.ent i b * v b) ∧
      ∀ l < tri k, ∀ v : Nat → ℝ, ∑ b ∈ Finset.range (n * (k + 1) + k * (k + 2)), B.ent (tri (k + 2) - 1 + l) b * v b = m * v (n * (k + 1) + (tri (k + 1) - 1) + l) := by
  obtain ⟨t1, t2⟩ := mcc_counts k
  have hi' := mcc_internal k
  have key : ∀ P Q : DMat ℝ, P.rows = tri (k + 2) - 1 → P.cols = n * (k + 1) + k * (k + 2) → Q.rows = tri k → Q.cols = n * (k + 1) + k * (k + 2) →
      (∀ j < tri (k + 2) - 1, ∀ b, P.ent j b = ∑ i ∈ Finset.range (tri (k + 1)),
        -(quadLin internal.points internal.weights (basisPoly (k + 1) c h (j + 1) * basisPoly (k + 1) c h i) * X.ent i b) + B2.ent j b) →
      (∀ l < tri k, ∀ b < n * (k + 1) + k * (k + 2), Q.ent l b = if b = n * (k + 1) + (tri (k + 1) - 1) + l then m else 0) →
      ∃ B, (do let B ← DMat.stack (2 * s.nk) s.numBasis P Q
               return (B, llt s.G B) : Except Fault (DMat ℝ × DMat ℝ)) = .ok (B, llt s.G B) ∧ B.rows = 2 * tri (k + 1) ∧ B.cols = n * (k + 1) + k * (k + 2) ∧
      (∀ j < tri (k + 2) - 1, ∀ v : Nat → ℝ, ∑ b ∈ Finset.range (n * (k + 1) + k * (k + 2)), B.ent j b * v b
        = bsum k n V len dir ts ws v (basisPoly (k + 1) c h (j + 1))
          - ∑ i ∈ Finset.range (tri (k + 1)), quadLin internal.points internal.weights (basisPoly (k + 1) c h (j + 1) * basisPoly (k + 1) c h i) *
            ∑ b ∈ Finset.range (n * (k + 1) + k * (k + 2)), X.ent i b * v b) ∧
      ∀ l < tri k, ∀ v : Nat → ℝ, ∑ b ∈ Finset.range (n * (k + 1) + k * (k + 2)), B.ent (tri (k + 2) - 1 + l) b * v b = m * v (n * (k + 1) + (tri (k + 1) - 1) + l) := by
    intro P Q hPr hPc hQr hQc hP hQ
    rw [stack_ok _ _ _ _ (by rw [hPc, hs.numBasis]) (by rw [hQc, hs.numBasis]) (by rw [hPr, hQr, hs.nk]; omega), except_ok_bind]
    refine ⟨_, rfl, ?_, hs.numBasis, ?_, ?_⟩
    · show 2 * s.nk = _
      rw [hs.nk]
    · intro j hj v
      have h1 : j < P.rows := by rw [hPr]; exact hj
      dsimp only
      simp only [if_pos h1, hP j hj, add_mul, Finset.sum_add_distrib]
      rw [hb.bSum j hj v, add_comm, sub_eq_add_neg]
      congr 1
      simp only [neg_mul, Finset.sum_neg_distrib, Finset.sum_mul, Finset.mul_sum]
      rw [Finset.sum_comm]
      simp only [mul_assoc]
    · intro l hl v
      have h1 : ¬tri (k + 2) - 1 + l < P.rows := by rw [hPr]; omega
      dsimp only
      simp only [if_neg h1]
      rw [hPr, Nat.add_sub_cancel_left, Finset.sum_eq_single (n * (k + 1) + (tri (k + 1) - 1) + l)]
      · rw [hQ l hl _ (by omega), if_pos rfl]
      · intro b hb' hne
        rw [hQ l hl b (Finset.mem_range.1 hb'), if_neg hne, zero_mul]
      · intro hn
        exact absurd (Finset.mem_range.2 (by omega)) hn
  unfold mccL2
  rw [DMat.block_ok _ _ _ _ _ (by omega) (by rw [hs.vIntK.cols, hs.nkNabla]; omega), except_ok_bind, DMat.mulDiag_ok _ _ (by show s.vanderIntKp1.rows = _; rw [hs.vIntK.rows, hw]), except_ok_bind,
    DMat.mul_ok _ _ (by show s.vanderIntKp1.rows = _; rw [hs.vIntK.rows, hs.vInt.rows]), except_ok_bind, DMat.mul_ok _ _ (by show s.vanderInt.cols = _; rw [hs.vInt.cols, hX]), except_ok_bind,
    DMat.add_ok _ _ (by show s.nkNabla = _; rw [hs.nkNabla, hb.bRows]) (by show X.cols = _; rw [hXc, hb.bCols]), except_ok_bind,
    DMat.assign_ok _ _ _ _ _ _ (by rfl) (by rfl) (by simp [DMat.zero]) (by simp only [DMat.zero, hs.numBasis, hs.numPlus]; omega), except_ok_bind]
  refine key _ _ hs.nkNabla hXc hs.numPlus hs.numBasis ?_ ?_
  · intro j hj b
    dsimp only [DMat.smul, DMat.tr]
    congr 1
    rw [hs.vInt.cols]
    refine Finset.sum_congr rfl fun i hi => ?_
    have hi2 := Finset.mem_range.1 hi
    rw [hs.vIntK.rows, hs.vIntK.cols, hs.nkNabla, show tri (k + 2) - (tri (k + 2) - 1) + j = j + 1 by omega,
      ← sum_quadLin internal.points internal.weights hw (fun q => s.vanderIntKp1.ent q (j + 1) * s.vanderInt.ent q i) _ (fun q p hq => by
        rw [hs.vIntK.ent q p hq (j + 1) (by omega), hs.vInt.ent q p hq i hi2]
        simp [ev2]), ← neg_mul]
    congr 1
    refine (neg_one_mul _).trans (congrArg Neg.neg (Finset.sum_congr rfl fun q _ => ?_))
    rw [zero_add]
    ring
  · intro l hl b hb'
    dsimp only [DMat.smul, DMat.zero, DMat.identity]
    rw [hs.numBasis, hs.numPlus]
    by_cases h2 : 0 ≤ l ∧ l < 0 + tri k ∧ n * (k + 1) + k * (k + 2) - tri k ≤ b ∧ b < n * (k + 1) + k * (k + 2) - tri k + tri k
    · rw [if_pos h2]
      by_cases h3 : b = n * (k + 1) + (tri (k + 1) - 1) + l
      · rw [if_pos h3, if_pos (by omega), mul_one]
      · rw [if_neg h3, if_neg (by omega), mul_zero]
    · rw [if_neg h2, if_neg (by omega)]

theorem mccDofs_ok {c : ℝ × ℝ} {h m : ℝ} {internal : Rule (ℝ × ℝ) ℝ} {bnd : List (ℝ × ℝ)} {s : MccInit2D ℝ} (hs : MInitOk k n c h internal bnd s)
    (hT : IsMixedTables k triangle edge ts ws) {W2 B2 gkBnd : DMat ℝ} (hb : MBoundaryOk k n c h V len dir nrm ts ws s.tPlus W2 B2 gkBnd) :
    ∃ D, mccDofs k m s gkBnd = .ok D ∧ D.rows = n * (k + 1) + k * (k + 2) ∧ D.cols = 2 * tri (k + 1) ∧
      (∀ e < n, ∀ i t, ts[i]? = some t → ∀ j < 2 * tri (k + 1), D.ent (e * (k + 1) + i) j = gkBnd.ent (e * (k + 1) + i) j) ∧
      (∀ l < tri (k + 1) - 1, ∀ j < 2 * tri (k + 1), D.ent (n * (k + 1) + l) j = 1 / m * s.G.ent l j) ∧
      ∀ l < tri k, ∀ j < 2 * tri (k + 1), D.ent (n * (k + 1) + (tri (k + 1) - 1) + l) j = 1 / m * s.G.ent (tri (k + 2) - 1 + l) j := by
  obtain ⟨t1, t2⟩ := mcc_counts k
  have hi' := mcc_internal k
  have hlt : ∀ e < n, ∀ i < k + 1, e * (k + 1) + i < n * (k + 1) := by
    intro e he i hi
    calc e * (k + 1) + i < e * (k + 1) + (k + 1) := by omega
      _ = (e + 1) * (k + 1) := by ring
      _ ≤ n * (k + 1) := Nat.mul_le_mul_right _ he
  have hidx : ∀ i t, ts[i]? = some t → i < k + 1 := fun i t ht => by
    rw [← hT.nodes]
    exact (List.getElem?_eq_some_iff.1 ht).1
  unfold mccDofs
  rw [DMat.assign_ok _ _ _ _ _ _ (by rw [hb.gRows, hs.numBoundary]) (by rw [hb.gCols, hs.nk]) (by simp only [DMat.zero, hs.numBoundary, hs.numBasis]; omega) (by simp [DMat.zero]), except_ok_bind]
  by_cases hk : 0 < k
  · rw [if_pos hk, DMat.block_ok _ _ _ _ _ (by rw [hs.gRows, hs.numNabla]; omega) (by omega), except_ok_bind,
      DMat.assign_ok _ _ _ _ _ _ (by rfl) (by show s.G.cols = _; rw [hs.gCols, hs.nk]) (by simp only [DMat.zero, hs.numBoundary, hs.numBasis, hs.numNabla]; omega) (by simp [DMat.zero]), except_ok_bind,
      DMat.block_ok _ _ _ _ _ (by rw [hs.gRows, hs.numPlus]; omega) (by omega), except_ok_bind,
      DMat.assign_ok _ _ _ _ _ _ (by rfl) (by show s.G.cols = 2 * s.nk; rw [hs.gCols, hs.nk]) (by simp only [DMat.zero, hs.numBasis, hs.numPlus]; omega) (by simp [DMat.zero])]
    refine ⟨_, rfl, hs.numBasis, ?_, ?_, ?_, ?_⟩
    · show 2 * s.nk = _
      rw [hs.nk]
    · intro e he i t ht j hj
      have := hlt e he i (hidx i t ht)
      dsimp only [DMat.zero, DMat.smul]
      rw [hs.numBasis, hs.numPlus, hs.nk, hs.numBoundary, hs.numNabla]
      exact (if_neg (by omega)).trans ((if_neg (by omega)).trans (if_pos (by omega)))
    · intro l hl j hj
      dsimp only [DMat.zero, DMat.smul]
      rw [hs.numBasis, hs.numPlus, hs.nk, hs.numBoundary, hs.numNabla]
      refine (if_neg (by omega)).trans ((if_pos (by omega)).trans ?_)
      congr 2 <;> omega
    · intro l hl j hj
      dsimp only [DMat.zero, DMat.smul]
      rw [hs.numBasis, hs.numPlus, hs.nk, hs.numBoundary, hs.numNabla, hs.gRows]
      refine (if_pos (by omega)).trans ?_
      congr 2 <;> omega
  · rw [if_neg hk]
    obtain rfl : k = 0 := by omega
    refine ⟨_, rfl, hs.numBasis, ?_, ?_, ?_, ?_⟩
    · show 2 * s.nk = _
      rw [hs.nk]
    · intro e he i t ht j hj
      have := hlt e he i (hidx i t ht)
      dsimp only [DMat.zero]
      rw [hs.nk, hs.numBoundary, if_pos (by omega)]
      rfl
    · intro l hl
      exact absurd hl (by simp [tri])
    · intro l hl
      exact absurd hl (by simp [tri])

theorem mccRef_ok (hT : IsMixedTables k triangle edge ts ws) :
    mccRef2D triangle edge k = ⟨k, k + 1, k * (k + 2), compute mono2 (k + 1), triangle (2 * (k + 1)), ⟨ts, ws⟩⟩ := by
  have h2 := hT.high
  have e1 : u32 (k + 1) = k + 1 := by unfold u32; omega
  have e2 : u32 (k + 2) = k + 2 := by unfold u32; omega
  have e3 : u32 (k * (k + 2)) = k * (k + 2) := by
    unfold u32
    refine Nat.mod_eq_of_lt ?_
    calc k * (k + 2) ≤ 65534 * 65536 := Nat.mul_le_mul h2 (by omega)
      _ < 4294967296 := by norm_num
  have e4 : u32 (2 * (k + 1)) = 2 * (k + 1) := by unfold u32; omega
  have e5 : u32 (u32 (2 * k) + 1) = 2 * k + 1 := by unfold u32; omega
  unfold mccRef2D
  rw [e1, e2, e3, e4, e5, hT.edgeRule]

theorem mccCreate_ok (hE : IsElement poly n V len dir nrm) (hT : IsMixedTables k triangle edge ts ws) {svd : DMat ℝ → DMat ℝ} {sqrt : ℝ → ℝ} {llt : Solver ℝ}
    (hsvd : ∀ A, RightSingular A (svd A)) (hsq : ∀ x, 0 ≤ x → sqrt x * sqrt x = x) (hllt : SolvesPosDef llt) :
    ∃ s, mccCreate2D svd sqrt llt (mccRef2D triangle edge k) poly = .ok s ∧ MSpaceOk k n V len dir nrm ts ws poly s := by
  have hh := hE.diameter
  obtain ⟨internal, bnd, hi, hb, hR⟩ := mrules_ok hE hT
  rw [mccRef_ok hT]
  obtain ⟨s, hs, hI⟩ := mccInit_ok (n := n) hsvd hsq (⟨k, k + 1, k * (k + 2), compute mono2 (k + 1), triangle (2 * (k + 1)), ⟨ts, ws⟩⟩ : MccRef2D ℝ) rfl rfl rfl rfl
    poly.centroid poly.diameter internal hR.wlen hR.wpos bnd.points
  obtain ⟨⟨W2, B2, gb⟩, hbd, hB⟩ := mccBoundary_ok hE hT hR hI
  dsimp only at hB
  obtain ⟨W, hW, hWr, hWc, hWs⟩ := mccDivergence_ok (m := poly.measure) hI hB llt
  have hV : Solves s.H W (llt s.H W) := mH_posdef hE hR hh hI hllt hWr
  obtain ⟨B, hL, hBr, hBc, hB1, hB2⟩ := mccL2_ok (m := poly.measure) hI hR.wlen hB llt (X := llt s.H W) (hV.1.trans hI.hCols) (hV.2.1.trans hWc)
  obtain ⟨D, hD, hDr, hDc, hD1, hD2, hD3⟩ := mccDofs_ok (m := poly.measure) hI hT hB
  refine ⟨⟨s, internal, bnd, gb, W, llt s.H W, B, llt s.G B, D⟩, ?_, hI, hR, hWr, hWc, hWs, hV, hBr, hBc, hB1, hB2, mG_posdef hE hR hh hI hllt hBr, hDr, hDc, ?_, hD2, hD3⟩
  · unfold mccCreate2D
    dsimp only
    rw [hi, except_ok_bind, hb, except_ok_bind, hE.edges.lengths, List.length_map, List.length_range, hs, except_ok_bind, hbd, except_ok_bind, hW, except_ok_bind, hL, except_ok_bind, hD,
      except_ok_bind]
  · intro e he i t ht j hj
    rw [hD1 e he i t ht j hj, hB.gEnt e he i t ht j hj]

end

end PolyDiM
