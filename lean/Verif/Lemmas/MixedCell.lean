import Verif.Lemmas.MixedLocal
import Verif.Spec.MixedMesh

/-!
# Lemmas: the mixed assembler on one virtual element
-/

namespace PolyDiM

open Spec MvPolynomial MeasureTheory

section
variable {k n : Nat} {V : Nat → ℝ × ℝ} {len : Nat → ℝ} {dir : Nat → Bool} {nrm : Nat → ℝ × ℝ} {poly : VemPolygon ℝ}
  {triangle : Nat → Rule (ℝ × ℝ) ℝ} {edge : Nat → Rule ℝ ℝ} {ts ws : List ℝ} {s : MccSpace2D ℝ}
  {svd : DMat ℝ → DMat ℝ} {sqrt : ℝ → ℝ} {llt : Solver ℝ}

theorem bsum_combo (v : Nat → ℝ) (N : Nat) (c : ℝ × ℝ) (h : ℝ) (x : Nat → ℝ) :
    bsum k n V len dir ts ws v (combo (k + 1) c h N x) = ∑ j ∈ Finset.range N, bsum k n V len dir ts ws v (basisPoly (k + 1) c h j) * x j := by
  unfold bsum combo
  simp only [ev2, map_sum, map_mul, eval_C, Finset.sum_mul]
  rw [Finset.sum_comm (s := Finset.range N)]
  refine Finset.sum_congr rfl fun e _ => ?_
  rw [Finset.sum_comm (s := Finset.range N)]
  exact Finset.sum_congr rfl fun i _ => Finset.sum_congr rfl fun j _ => by ring

/-- The discrete divergence tested with the monomials is the right-hand side of its system. -/
theorem quad_V (hs : MSpaceOk k n V len dir nrm ts ws poly s) (v : Nat → ℝ) {i : Nat} (hi : i < tri (k + 1)) :
    quadLin s.internal.points s.internal.weights (basisPoly (k + 1) poly.centroid poly.diameter i *
        combo (k + 1) poly.centroid poly.diameter (tri (k + 1)) (Spec.apply s.V v))
      = bsum k n V len dir ts ws v (basisPoly (k + 1) poly.centroid poly.diameter i) - if i = 0 then 0 else poly.measure * v (n * (k + 1) + (i - 1)) := by
  rw [← hs.wSum i hi v, quadLin_combo]
  have h1 := solves_apply hs.vSol v (i := i) (by rw [hs.init.hRows]; exact hi)
  rw [hs.init.hCols, hs.wCols] at h1
  rw [← h1]
  refine Finset.sum_congr rfl fun j hj => ?_
  rw [hs.init.hEnt i hi j (Finset.mem_range.1 hj), Spec.apply, hs.vSol.2.1, hs.wCols]

/-- The Gauss-Green formula for the discrete divergence and projection of an arbitrary vector of degrees of freedom. -/
theorem discrete_gauss (hE : IsElement poly n V len dir nrm) (hs : MSpaceOk k n V len dir nrm ts ws poly s) (v : Nat → ℝ) {z : MvPolynomial (Fin 2) ℝ}
    (hz : z.totalDegree ≤ k + 1) :
    quadLin s.internal.points s.internal.weights (z * combo (k + 1) poly.centroid poly.diameter (tri (k + 1)) (Spec.apply s.V v))
      + ∑ d : Fin 2, quadLin s.internal.points s.internal.weights (pderiv d z * gsum k poly.centroid poly.diameter s.init.tPlus (Spec.apply s.pi0k v) d)
      = bsum k n V len dir ts ws v z := by
  obtain ⟨x, hx⟩ := basisPoly_span (k + 1) poly.centroid poly.diameter hE.diameter le_rfl z hz
  obtain ⟨t1, t2⟩ := mcc_counts k
  have hbase : ∀ j < tri (k + 2), quadLin s.internal.points s.internal.weights (basisPoly (k + 1) poly.centroid poly.diameter j *
        combo (k + 1) poly.centroid poly.diameter (tri (k + 1)) (Spec.apply s.V v))
      + ∑ d : Fin 2, quadLin s.internal.points s.internal.weights (pderiv d (basisPoly (k + 1) poly.centroid poly.diameter j) *
        gsum k poly.centroid poly.diameter s.init.tPlus (Spec.apply s.pi0k v) d)
      = bsum k n V len dir ts ws v (basisPoly (k + 1) poly.centroid poly.diameter j) := by
    intro j hj
    rcases j with _ | j
    · rw [quad_V hs v (by omega), if_pos rfl, sub_zero]
      have h0 : basisPoly (k + 1) poly.centroid poly.diameter 0 = 1 := basisPoly_zero _ _ _
      rw [h0]
      simp
    · have hj2 : j < 2 * tri (k + 1) := by
        omega
      have h1 := solves_apply hs.pSol v (i := j) (by rw [hs.init.gRows]; exact hj2)
      rw [hs.init.gCols, hs.bCols, hs.bNabla j (by omega) v] at h1
      have h2 := mG_row hs.init (Spec.apply s.pi0k v) hj2
      have h3 : ∀ l, Spec.apply s.pi0k v l = ∑ b ∈ Finset.range (n * (k + 1) + k * (k + 2)), s.pi0k.ent l b * v b := fun l => by
        rw [Spec.apply, hs.pSol.2.1, hs.bCols]
      have h4 : ∀ l, Spec.apply s.V v l = ∑ b ∈ Finset.range (n * (k + 1) + k * (k + 2)), s.V.ent l b * v b := fun l => by
        rw [Spec.apply, hs.vSol.2.1, hs.wCols]
      simp only [h3] at h2
      rw [h1] at h2
      have h5 : ∀ d, fld k poly.centroid poly.diameter s.init.tPlus j d = pderiv d (basisPoly (k + 1) poly.centroid poly.diameter (j + 1)) := fun d => by
        rw [fld, if_pos (by omega)]
      simp only [h5] at h2
      rw [quadLin_combo]
      simp only [h4]
      rw [← h2]
      ring
  have hx' : z = combo (k + 1) poly.centroid poly.diameter (tri (k + 2)) x := hx
  rw [hx', bsum_combo]
  rw [mul_comm (combo (k + 1) _ _ _ x), quadLin_combo]
  simp only [mul_comm (pderiv _ (combo (k + 1) _ _ _ x)), quadLin_combo_pderiv]
  rw [Finset.sum_comm, ← Finset.sum_add_distrib]
  refine Finset.sum_congr rfl fun j hj => ?_
  rw [← hbase j (Finset.mem_range.1 hj), ← Finset.sum_mul, ← add_mul, mul_comm (combo (k + 1) _ _ _ _)]
  simp only [mul_comm (gsum k _ _ _ _ _)]

/-- The local matrix and right-hand side of an element. -/
structure MCell (k n : Nat) (ref : MccRef2D ℝ) (poly : VemPolygon ℝ) (test : MixedTest ℝ) (s : MccSpace2D ℝ) (p : MccPressure2D ℝ) (S A : DMat ℝ) (b : List ℝ)
    (kmax : ℝ) : Prop where
  stab : mccStabilization poly.measure s = .ok S
  computed : ∃ l, mixedLocal (mccCell2D ref poly (s, p)) test = .ok l ∧
    mixedMatrix (n * (k + 1) + k * (k + 2) + (k + 1) * (k + 2) / 2) l = .ok A ∧
    mixedRhs (n * (k + 1) + k * (k + 2) + (k + 1) * (k + 2) / 2) ((k + 1) * (k + 2) / 2) l = .ok b
  rows : A.rows = n * (k + 1) + k * (k + 2) + (k + 1) * (k + 2) / 2
  cols : A.cols = n * (k + 1) + k * (k + 2) + (k + 1) * (k + 2) / 2
  size : b.length = n * (k + 1) + k * (k + 2) + (k + 1) * (k + 2) / 2
  great : IsGreatest {y | ∃ x ∈ s.internal.points, ∃ d < 9, y = |test.inverseDiffusion x d|} kmax
  form : ∀ z v r : Nat → ℝ, ∑ j ∈ Finset.range (n * (k + 1) + k * (k + 2)), v j * apply A z j
      + ∑ j ∈ Finset.range ((k + 1) * (k + 2) / 2), r j * apply A z (n * (k + 1) + k * (k + 2) + j)
    = quadSum s.internal.points s.internal.weights (fun x => mixedIntegrand test x
        (splitField k poly.centroid poly.diameter s.init.tPlus.ent (apply s.pi0k z) x) (splitField k poly.centroid poly.diameter s.init.tPlus.ent (apply s.pi0k v) x)
        (polyOf k poly.centroid poly.diameter (apply s.V z) x) (polyOf k poly.centroid poly.diameter (apply s.V v) x)
        (polyOf k poly.centroid poly.diameter (fun j => z (n * (k + 1) + k * (k + 2) + j)) x) (polyOf k poly.centroid poly.diameter r x))
      + kmax * ∑ i ∈ Finset.range (n * (k + 1) + k * (k + 2)), v i * ∑ j ∈ Finset.range (n * (k + 1) + k * (k + 2)), S.ent i j * z j
  rhs : ∀ v r : Nat → ℝ, ∑ j ∈ Finset.range (n * (k + 1) + k * (k + 2)), v j * b.getD j 0
      + ∑ j ∈ Finset.range ((k + 1) * (k + 2) / 2), r j * b.getD (n * (k + 1) + k * (k + 2) + j) 0
    = quadSum s.internal.points s.internal.weights fun x => test.source x * polyOf k poly.centroid poly.diameter r x

theorem mquad_pos (hE : IsElement poly n V len dir nrm) (hs : MSpaceOk k n V len dir nrm ts ws poly s) : 0 < s.internal.points.length := by
  rcases Nat.eq_zero_or_pos s.internal.points.length with h | h
  · have := mquad_definite hE hs.rules 1 (by simp) (by
      rw [List.eq_nil_of_length_eq_zero h]
      simp [quadLin, quadSum])
    exact absurd this one_ne_zero
  · exact h

theorem vem_cell (hE : IsElement poly n V len dir nrm) (hT : IsMixedTables k triangle edge ts ws) (hsvd : ∀ A, RightSingular A (svd A))
    (hsq : ∀ x, 0 ≤ x → sqrt x * sqrt x = x) (hllt : SolvesPosDef llt) (hm : 0 < poly.measure) (test : MixedTest ℝ) :
    ∃ s p S A b kmax, mccLocalSpace svd sqrt llt triangle edge k poly = .ok (s, p) ∧ mccCreate2D svd sqrt llt (mccRef2D triangle edge k) poly = .ok s ∧
      MSpaceOk k n V len dir nrm ts ws poly s ∧ MCell k n (mccRef2D triangle edge k) poly test s p S A b kmax := by
  obtain ⟨s, p, P, hloc, hs, hpn, hP, hPr, hPc, hPv, -, -⟩ := C101_pressure hE hT hsvd hsq hllt
  obtain ⟨s', hs', hS⟩ := mccCreate_ok hE hT hsvd hsq hllt
  obtain rfl : s = s' := Except.ok.inj (hs.symm.trans hs')
  obtain ⟨s', S, hs', hst, hSr, hSc, -, -⟩ := C100_form hE hT hsvd hsq hllt hm
  obtain rfl : s = s' := Except.ok.inj (hs.symm.trans hs')
  obtain ⟨X, Y, hv, hXr, hYr, hXc, hYc, hXY⟩ := mccValues_ok hS
  obtain ⟨D, hD, hDr, hDc, hDv⟩ := mccDivergenceValues_ok hS
  have hQ := mquad_pos hE hS
  set pts := s.internal.points with hpts
  set wts := s.internal.weights with hwts
  have hxs : pts = vecOf pts.length fun q => pts.getD q 0 := by
    refine List.ext_getElem? fun i => ?_
    rw [vecOf, List.getElem?_map]
    by_cases hi : i < pts.length
    · rw [List.getElem?_range hi, Option.map_some, List.getD_eq_getElem?_getD, List.getElem?_eq_getElem hi, Option.getD_some]
    · rw [List.getElem?_eq_none (by omega), List.getElem?_eq_none (by simpa using hi)]
      rfl
  have hws : wts = vecOf pts.length fun q => wts.getD q 0 := by
    have hl : wts.length = pts.length := hS.rules.wlen
    refine List.ext_getElem? fun i => ?_
    rw [vecOf, List.getElem?_map]
    by_cases hi : i < pts.length
    · rw [List.getElem?_range hi, Option.map_some, List.getD_eq_getElem?_getD, List.getElem?_eq_getElem (by omega), Option.getD_some]
    · rw [List.getElem?_eq_none (by omega), List.getElem?_eq_none (by simpa using hi)]
      rfl
  have hTab : MixedTables (mccCell2D (mccRef2D triangle edge k) poly (s, p)) pts.length (n * (k + 1) + k * (k + 2)) ((k + 1) * (k + 2) / 2) (fun q => pts.getD q 0)
      (fun q => wts.getD q 0) (fun d => if d = 0 then X.ent else Y.ent) D.ent P.ent S.ent := by
    refine ⟨hv.trans ?_, hD.trans ?_, hP.trans ?_, hst.trans ?_, hxs, hws⟩
    · rw [← hXr, ← hXc]
      congr 2
      rw [hXr, hXc, ← hYr, ← hYc, if_neg one_ne_zero]
    · rw [← hDr, ← hDc]
    · rw [← hPr, ← hPc]
    · have : S = ⟨S.rows, S.cols, S.ent⟩ := rfl
      rw [hSr, hSc] at this
      rw [← this]
  obtain ⟨kmax, l, A, b, hk, hl, hA, hb, hA1, hA2, hb1, hform, hrhs⟩ := mixedMatrix_ok hTab hQ test
  have hcomb : ∀ {m : Nat} {M : DMat ℝ} (hM : M.cols = m) (v : Nat → ℝ) (q : Nat), comb m M.ent v q = apply M v q := by
    intro m M hM v q
    rw [comb, apply, hM]
    exact Finset.sum_congr rfl fun j _ => mul_comm _ _
  have hpr : ∀ (r : Nat → ℝ) (q : Nat) x, pts[q]? = some x → comb ((k + 1) * (k + 2) / 2) P.ent r q = polyOf k poly.centroid poly.diameter r x := by
    intro r q x hx
    rw [comb, ← ev2_combo k poly.centroid poly.diameter le_rfl, combo, ev2, map_sum, tri_div]
    refine Finset.sum_congr rfl fun j hj => ?_
    obtain ⟨a, c, hac, rfl⟩ := exists_position (Finset.mem_range.1 hj)
    rw [hPv q x hx a c hac, map_mul, eval_C, ← ev2_basis_position k poly.centroid poly.diameter hac]
  have hvel : ∀ (v : Nat → ℝ) (q : Nat) x, pts[q]? = some x → ∀ d < 2, comb (n * (k + 1) + k * (k + 2)) ((fun d => if d = 0 then X.ent else Y.ent) d) v q
      = component (splitField k poly.centroid poly.diameter s.init.tPlus.ent (apply s.pi0k v) x) d := by
    intro v q x hx d hd
    rw [← hXY v q x hx]
    unfold component
    rcases (show d = 0 ∨ d = 1 by omega) with rfl | rfl
    · exact hcomb hXc v q
    · exact hcomb hYc v q
  have hget : ∀ q x, pts[q]? = some x → pts.getD q 0 = x := fun q x hx => by rw [List.getD_eq_getElem?_getD, hx, Option.getD_some]
  refine ⟨s, p, S, A, b, kmax, hloc, hs, hS, hst, ⟨l, hl, hA, hb⟩, hA1, hA2, hb1, ?_, fun z v r => ?_, fun v r => ?_⟩
  · convert hk using 1
    ext y
    constructor
    · rintro ⟨x, hx, d, hd, rfl⟩
      obtain ⟨q, hq, rfl⟩ := List.getElem_of_mem hx
      exact ⟨q, hq, d, hd, by rw [hget q _ (List.getElem?_eq_getElem hq)]⟩
    · rintro ⟨q, hq, d, hd, rfl⟩
      exact ⟨pts[q], List.getElem_mem _, d, hd, by rw [hget q _ (List.getElem?_eq_getElem hq)]⟩
  · rw [hform z v r]
    congr 1
    refine sum_quadSum pts wts hS.rules.wlen _ _ fun q x hx => ?_
    have e0 := hvel z q x hx 0 (by norm_num)
    have e1 := hvel z q x hx 1 (by norm_num)
    have f0 := hvel v q x hx 0 (by norm_num)
    have f1 := hvel v q x hx 1 (by norm_num)
    simp only [Finset.sum_range_succ, Finset.sum_range_zero, zero_add] at *
    rw [e0, e1, f0, f1, hget q x hx, hcomb hDc, hcomb hDc, hDv z q x hx, hDv v q x hx, hpr _ q x hx, hpr _ q x hx, mixedIntegrand]
    simp only [Finset.sum_range_succ, Finset.sum_range_zero, zero_add]
    ring
  · rw [hrhs v r]
    refine sum_quadSum pts wts hS.rules.wlen _ _ fun q x hx => ?_
    rw [hget q x hx, hpr _ q x hx]

/-- The patch test on one cell: the form of a polynomial velocity and of a pressure against arbitrary vectors. -/
theorem cell_patch (hE : IsElement poly n V len dir nrm) (hT : IsMixedTables k triangle edge ts ws) (hsvd : ∀ A, RightSingular A (svd A))
    (hsq : ∀ x, 0 ≤ x → sqrt x * sqrt x = x) (hllt : SolvesPosDef llt) {test : MixedTest ℝ} {p : MccPressure2D ℝ} {S A : DMat ℝ} {b : List ℝ} {kmax : ℝ}
    (hcr : mccCreate2D svd sqrt llt (mccRef2D triangle edge k) poly = .ok s)
    (hs : MSpaceOk k n V len dir nrm ts ws poly s) (hC : MCell k n (mccRef2D triangle edge k) poly test s p S A b kmax)
    {q : MvPolynomial (Fin 2) ℝ × MvPolynomial (Fin 2) ℝ} (hq1 : q.1.totalDegree ≤ k) (hq2 : q.2.totalDegree ≤ k) {flux : Nat → Polynomial ℝ}
    (hn : IsNormalTrace n V nrm (polyField q) flux) {z : Nat → ℝ} (hz : IsFluxDofs k poly n dir ts s.init.tPlus.ent (polyField q) flux z)
    {pr : MvPolynomial (Fin 2) ℝ} (hpr : pr.totalDegree ≤ k + 1)
    (hν : ∀ x ∈ s.internal.points, ∀ a : Fin 2, ∑ c ∈ Finset.range 2, test.inverseDiffusion x (a.val + 3 * c) * component (polyField q x) c
      = -ev2 (pderiv a pr) x + test.advection x a.val * ev2 pr x)
    (hf : ∀ x ∈ s.internal.points, test.source x = ev2 (pderiv 0 q.1 + pderiv 1 q.2) x + test.reaction x * ev2 pr x)
    (hβ : ∀ x ∈ s.internal.points, ∀ a < 2, test.advection x a * (ev2 pr x - polyOf k poly.centroid poly.diameter (fun j => z (n * (k + 1) + k * (k + 2) + j)) x) = 0)
    (hγ : ∀ x ∈ s.internal.points, test.reaction x * (ev2 pr x - polyOf k poly.centroid poly.diameter (fun j => z (n * (k + 1) + k * (k + 2) + j)) x) = 0)
    (ho : ∀ y, quadSum s.internal.points s.internal.weights (fun x => (ev2 pr x - polyOf k poly.centroid poly.diameter (fun j => z (n * (k + 1) + k * (k + 2) + j)) x)
      * polyOf k poly.centroid poly.diameter y x) = 0) (v r : Nat → ℝ) :
    ∑ j ∈ Finset.range (n * (k + 1) + k * (k + 2)), v j * apply A z j
      + ∑ j ∈ Finset.range ((k + 1) * (k + 2) / 2), r j * apply A z (n * (k + 1) + k * (k + 2) + j)
    = ∑ j ∈ Finset.range (n * (k + 1) + k * (k + 2)), v j * b.getD j 0
      + ∑ j ∈ Finset.range ((k + 1) * (k + 2) / 2), r j * b.getD (n * (k + 1) + k * (k + 2) + j) 0 - bsum k n V len dir ts ws v pr := by
  obtain ⟨s', h1, hdiv⟩ := C97_polynomial hE hT hsvd hsq hllt
  obtain rfl : s = s' := Except.ok.inj (hcr.symm.trans h1)
  obtain ⟨s', h1, hproj⟩ := C98_exact hE hT hsvd hsq hllt
  obtain rfl : s = s' := Except.ok.inj (hcr.symm.trans h1)
  obtain ⟨s', S', h1, hS', hstab⟩ := C100_polynomials hE hT hsvd hsq hllt
  obtain rfl : s = s' := Except.ok.inj (hcr.symm.trans h1)
  obtain rfl : S = S' := Except.ok.inj (hC.stab.symm.trans hS')
  have hst0 : ∑ i ∈ Finset.range (n * (k + 1) + k * (k + 2)), v i * ∑ j ∈ Finset.range (n * (k + 1) + k * (k + 2)), S.ent i j * z j = 0 :=
    Finset.sum_eq_zero fun i hi => by rw [hstab q hq1 hq2 flux hn z hz i (Finset.mem_range.1 hi), mul_zero]
  rw [hC.form z v r, hC.rhs v r, hst0, mul_zero, add_zero, ← discrete_gauss hE hs v hpr]
  set G := gsum k poly.centroid poly.diameter s.init.tPlus (Spec.apply s.pi0k v) with hG
  set D := combo (k + 1) poly.centroid poly.diameter (tri (k + 1)) (Spec.apply s.V v) with hD
  have hDe : ∀ x, polyOf k poly.centroid poly.diameter (Spec.apply s.V v) x = ev2 D x := fun x => (ev2_combo (k + 1) _ _ (show k ≤ k + 1 by omega) _ _).symm
  have key : quadSum s.internal.points s.internal.weights (fun x => mixedIntegrand test x
        (splitField k poly.centroid poly.diameter s.init.tPlus.ent (apply s.pi0k z) x) (splitField k poly.centroid poly.diameter s.init.tPlus.ent (apply s.pi0k v) x)
        (polyOf k poly.centroid poly.diameter (apply s.V z) x) (polyOf k poly.centroid poly.diameter (apply s.V v) x)
        (polyOf k poly.centroid poly.diameter (fun j => z (n * (k + 1) + k * (k + 2) + j)) x) (polyOf k poly.centroid poly.diameter r x))
      = quadSum s.internal.points s.internal.weights (fun x => (test.source x * polyOf k poly.centroid poly.diameter r x + ev2 (-(pr * D + ∑ d : Fin 2, pderiv d pr * G d)) x)
        + (ev2 pr x - polyOf k poly.centroid poly.diameter (fun j => z (n * (k + 1) + k * (k + 2) + j)) x) * polyOf k poly.centroid poly.diameter (Spec.apply s.V v) x) := by
    refine quadSum_congr _ _ fun x hx => ?_
    have n0 := hν x hx 0
    have n1 := hν x hx 1
    have f0 := hf x hx
    have b0 := hβ x hx 0 (by norm_num)
    have b1 := hβ x hx 1 (by norm_num)
    have g0 := hγ x hx
    rw [hproj q hq1 hq2 flux hn z hz x, hdiv q hq1 hq2 flux hn z hz x, split_ev2, mixedIntegrand, hDe x]
    have ed : eval ![x.1, x.2] (pderiv 0 q.1 + pderiv 1 q.2) = ev2 (pderiv 0 q.1 + pderiv 1 q.2) x := rfl
    have e3 : ev2 (-(pr * D + ∑ d : Fin 2, pderiv d pr * G d)) x = -(ev2 pr x * ev2 D x + (ev2 (pderiv 0 pr) x * ev2 (G 0) x + ev2 (pderiv 1 pr) x * ev2 (G 1) x)) := by
      simp [ev2]
    rw [ed, e3]
    simp only [Finset.sum_range_succ, Finset.sum_range_zero, zero_add, Fin.val_zero, Fin.val_one] at n0 n1 ⊢
    simp only [component, ← hG, if_true, one_ne_zero, if_false] at n0 n1 ⊢
    generalize polyOf k poly.centroid poly.diameter (fun j => z (n * (k + 1) + k * (k + 2) + j)) x = ph at *
    linear_combination ev2 (G 0) x * n0 + ev2 (G 1) x * n1 - polyOf k poly.centroid poly.diameter r x * f0 + ev2 (G 0) x * b0 + ev2 (G 1) x * b1
      - polyOf k poly.centroid poly.diameter r x * g0
  rw [key, quadSum_add, quadSum_add, ho, add_zero, sub_eq_add_neg]
  congr 1
  show quadLin s.internal.points s.internal.weights (-(pr * D + ∑ d : Fin 2, pderiv d pr * G d)) = _
  rw [map_neg, map_add, map_sum]

end

end PolyDiM
