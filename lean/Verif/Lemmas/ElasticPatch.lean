import Verif.Lemmas.ElasticCell
import Verif.Lemmas.PatchLocal

/-!
# Lemmas: the residual of a polynomial displacement on one cell
-/

namespace PolyDiM

open Spec MvPolynomial Finset

theorem eval_stress (μ l : ℝ) (q : Nat → MvPolynomial (Fin 2) ℝ) (p : ℝ × ℝ) {h d : Nat} :
    eval ![p.1, p.2] (elasticStress μ l q h d) = stress μ l (polyGrad q p) h d := by
  unfold elasticStress stress strain polyGrad
  by_cases hd : h = d
  · rw [if_pos hd, if_pos hd]
    simp only [map_add, map_mul, eval_C, if_true, one_ne_zero, if_false]
    ring
  · rw [if_neg hd, if_neg hd]
    simp only [map_add, map_mul, eval_C, map_zero]
    ring

theorem degree_stress {k : Nat} (μ l : ℝ) {q : Nat → MvPolynomial (Fin 2) ℝ} (hq : ∀ h < 2, (q h).totalDegree ≤ k) {h d : Nat} (hh : h < 2) (hd : d < 2) :
    (elasticStress μ l q h d).totalDegree ≤ k - 1 := by
  have e : ∀ (i : Fin 2) (a : Nat), a < 2 → (pderiv i (q a)).totalDegree ≤ k - 1 := fun i a ha => (totalDegree_pderiv i _).trans (by have := hq a ha; omega)
  have m : ∀ (a : ℝ) (x y : MvPolynomial (Fin 2) ℝ), x.totalDegree ≤ k - 1 → y.totalDegree ≤ k - 1 → (C a * (x + y)).totalDegree ≤ k - 1 := by
    intro a x y hx hy
    refine (totalDegree_mul _ _).trans ?_
    rw [totalDegree_C, zero_add]
    exact (totalDegree_add _ _).trans (max_le hx hy)
  unfold elasticStress
  refine (totalDegree_add _ _).trans (max_le (m _ _ _ (e _ _ hh) (e _ _ hd)) ?_)
  split_ifs
  · exact m _ _ _ (e _ _ (by norm_num)) (e _ _ (by norm_num))
  · simp

section element
variable {k n : Nat} {V : Nat → ℝ × ℝ} {len : Nat → ℝ} {dir : Nat → Bool} {nrm : Nat → ℝ × ℝ} {triangle : Nat → Rule (ℝ × ℝ) ℝ} {edge : Nat → Rule ℝ ℝ} {ts ws : List ℝ} {w : ℝ}
  {lu llt : Solver ℝ} {poly : VemPolygon ℝ}

/-- Against polynomials of degree `k - 1` the two L2 projections of a function are the same. -/
theorem load_same {s : VemSpace2D ℝ} (hk : 1 ≤ k) (hs : SpaceOk k n V len dir ts ws w poly s) (hh : poly.diameter ≠ 0) (v : Nat → ℝ) {z : MvPolynomial (Fin 2) ℝ}
    (hz : z.totalDegree ≤ k - 1) : quadLin s.internal.points s.internal.weights (z * combo k poly.centroid poly.diameter (tri k) (apply s.pi0km1 v))
      = quadLin s.internal.points s.internal.weights (z * combo k poly.centroid poly.diameter (tri (k + 1)) (apply s.pi0k v)) := by
  have hkk : k - 1 + 1 = k := by omega
  obtain ⟨x, hx⟩ := basisPoly_span k poly.centroid poly.diameter hh (show k - 1 ≤ k by omega) z hz
  rw [hkk] at hx
  have hx' : z = combo k poly.centroid poly.diameter (tri k) x := hx
  rw [hx', mul_comm, quadLin_combo, mul_comm, quadLin_combo]
  refine sum_congr rfl fun i hi => ?_
  have hi := mem_range.1 hi
  rw [mul_comm (combo _ _ _ _ _), mul_comm (combo _ _ _ _ _), apply_eq hs.l2.yCols, apply_eq hs.l2.zCols, hs.l2.yEq v i hi, hs.l2.zEq v i (hi.trans_le (tri_le (by omega)))]

/-- The residual of a polynomial displacement on one cell, tested in component `h`: only the boundary terms of the stress remain. -/
theorem elastic_residual (hE : IsElement poly n V len dir nrm) (hT : IsTables k triangle edge ts ws w) (hlu : SolvesRegular lu) (hllt : SolvesPosDef llt) (hpos : 0 < poly.measure)
    {μ l : ℝ} {test : ElasticTest ℝ} {q : Nat → MvPolynomial (Fin 2) ℝ} (hq : ∀ h < 2, (q h).totalDegree ≤ k) (hμ : ∀ p, test.lame p 0 = μ) (hl : ∀ p, test.lame p 1 = l)
    (hsrc : ∀ p, ∀ h < 2, test.source p h = -(eval ![p.1, p.2] (pderiv 0 (elasticStress μ l q h 0) + pderiv 1 (elasticStress μ l q h 1)))) :
    ∃ ref s A b, vemRef2D triangle edge k = .ok ref ∧ vemCreate2D lu llt ref poly = .ok s ∧ elasticLocal (vemCell2D ref poly s) test = .ok (A, b) ∧
      A.rows = 2 * (n + n * (k - 1) + k * (k - 1) / 2) ∧ A.cols = 2 * (n + n * (k - 1) + k * (k - 1) / 2) ∧ b.rows = 2 * (n + n * (k - 1) + k * (k - 1) / 2) ∧
      ∀ y, (∀ h < 2, IsDofVector k poly n V dir ts (fun p => eval ![p.1, p.2] (q h)) (compOf (n + n * (k - 1) + k * (k - 1) / 2) y h)) → ∀ h < 2, ∀ u : Nat → ℝ,
        ∑ i ∈ range (n + n * (k - 1) + k * (k - 1) / 2),
            u i * (apply A y (h * (n + n * (k - 1) + k * (k - 1) / 2) + i) - b.ent (h * (n + n * (k - 1) + k * (k - 1) / 2) + i) 0)
          = ∑ e ∈ range n, ((clockwise (V ((e + 1) % n) - V e)).1 *
                nodeSum ts ws w (fun t => eval ![(segPoint (polyEdge n V (dir e) e).1 (polyEdge n V (dir e) e).2 t).1, (segPoint (polyEdge n V (dir e) e).1 (polyEdge n V (dir e) e).2 t).2]
                  (elasticStress μ l q h 0)) (u (startOf n (dir e) e)) (u (stopOf n (dir e) e)) (fun r => u (n + e * (k - 1) + r))
              + (clockwise (V ((e + 1) % n) - V e)).2 *
                nodeSum ts ws w (fun t => eval ![(segPoint (polyEdge n V (dir e) e).1 (polyEdge n V (dir e) e).2 t).1, (segPoint (polyEdge n V (dir e) e).1 (polyEdge n V (dir e) e).2 t).2]
                  (elasticStress μ l q h 1)) (u (startOf n (dir e) e)) (u (stopOf n (dir e) e)) (fun r => u (n + e * (k - 1) + r))) := by
  obtain ⟨ref, s, hr, hc, hs, hloc⟩ := elastic_local hE hT hlu hllt hpos
  obtain ⟨S, A, b, μmax, hF⟩ := hloc test
  obtain ⟨r3, s3, hr3, hc3, -, -, -, -, hexact⟩ := C71_derivatives hE hT hlu hllt
  obtain rfl : r3 = ref := Except.ok.inj (hr3.symm.trans hr)
  obtain rfl : s3 = s := Except.ok.inj (hc3.symm.trans hc)
  refine ⟨r3, s3, A, b, hr, hc, hF.run, hF.rows, hF.cols, hF.rowsB, fun y hy h hh u => ?_⟩
  have hk := hT.low
  have hkk : k - 1 + 1 = k := by omega
  set N := n + n * (k - 1) + k * (k - 1) / 2 with hN
  have hNs : s3.boundary.points.length + tri (k - 1) = N := by rw [hN, ← hs.length, half_tri]
  set v : Nat → ℝ := fun i => if h * N ≤ i ∧ i < h * N + N then u (i - h * N) else 0 with hv
  -- the test vector
  have hcomp : ∀ h' < 2, ∀ i < N, compOf N v h' i = if h' = h then u i else 0 := by
    intro h' hh' i hi
    simp only [compOf, hv]
    split_ifs with h1 h2 h2
    · rw [h2, Nat.add_sub_cancel_left]
    · exfalso
      obtain rfl | rfl : h = 0 ∨ h = 1 := by omega
      · obtain rfl : h' = 1 := by omega
        omega
      · obtain rfl : h' = 0 := by omega
        omega
    · exact absurd ⟨by rw [h2]; omega, by rw [h2]; omega⟩ h1
    · rfl
  have htest : ∀ f : Nat → ℝ, ∑ i ∈ range (2 * N), v i * f i = ∑ i ∈ range N, u i * f (h * N + i) := by
    intro f
    rw [two_mul, sum_range_add]
    have h0 : ∀ i < N, v i = if 0 = h then u i else 0 := fun i hi => by
      rw [← hcomp 0 (by norm_num) i hi, compOf, zero_mul, zero_add]
    have h1 : ∀ i < N, v (N + i) = if 1 = h then u i else 0 := fun i hi => by
      rw [← hcomp 1 (by norm_num) i hi, compOf, one_mul]
    obtain rfl | rfl : h = 0 ∨ h = 1 := by omega
    · rw [sum_eq_zero (s := range N) (f := fun i => v (N + i) * f (N + i)), add_zero]
      · refine sum_congr rfl fun i hi => ?_
        rw [h0 i (mem_range.1 hi), if_pos rfl, zero_mul, zero_add]
      · intro i hi
        rw [h1 i (mem_range.1 hi), if_neg (by norm_num), zero_mul]
    · rw [sum_eq_zero (s := range N) (f := fun i => v i * f i), zero_add]
      · refine sum_congr rfl fun i hi => ?_
        rw [h1 i (mem_range.1 hi), if_pos rfl, one_mul]
      · intro i hi
        rw [h0 i (mem_range.1 hi), if_neg (by norm_num), zero_mul]
  have hap : ∀ (B : DMat ℝ), B.cols = N → ∀ h' < 2, ∀ j, apply B (compOf N v h') j = if h' = h then apply B u j else 0 := by
    intro B hB h' hh' j
    rw [apply_eq hB, apply_eq hB]
    split_ifs with h1
    · exact sum_congr rfl fun i hi => by rw [hcomp h' hh' i (mem_range.1 hi), if_pos h1]
    · exact sum_eq_zero fun i hi => by rw [hcomp h' hh' i (mem_range.1 hi), if_neg h1, mul_zero]
  obtain ⟨EX, hDX⟩ := hs.derX
  obtain ⟨EY, hDY⟩ := hs.derY
  set F₁ := elasticStress μ l q h 0 with hF₁
  set F₂ := elasticStress μ l q h 1 with hF₂
  have hF₁d : F₁.totalDegree ≤ k - 1 := degree_stress μ l hq hh (by norm_num)
  have hF₂d : F₂.totalDegree ≤ k - 1 := degree_stress μ l hq hh (by norm_num)
  set PX := combo k poly.centroid poly.diameter (tri k) (apply s3.derX u) with hPX
  set PY := combo k poly.centroid poly.diameter (tri k) (apply s3.derY u) with hPY
  set P0 := combo k poly.centroid poly.diameter (tri k) (apply s3.pi0km1 u) with hP0
  set P1 := combo k poly.centroid poly.diameter (tri (k + 1)) (apply s3.pi0k u) with hP1
  have hX : ∀ p, ev2 PX p = polyOf (k - 1) poly.centroid poly.diameter (apply s3.derX u) p := fun p => by
    rw [← ev2_combo k _ _ (show k - 1 ≤ k by omega), hkk]
  have hY : ∀ p, ev2 PY p = polyOf (k - 1) poly.centroid poly.diameter (apply s3.derY u) p := fun p => by
    rw [← ev2_combo k _ _ (show k - 1 ≤ k by omega), hkk]
  have h1 : ∀ p, ev2 P1 p = polyOf k poly.centroid poly.diameter (apply s3.pi0k u) p := fun p => by
    rw [← ev2_combo k _ _ le_rfl]
  have hzero : ∀ (m : Nat) (p : ℝ × ℝ), polyOf m poly.centroid poly.diameter (fun _ => 0) p = 0 := fun m p => by simp [polyOf]
  have hgv : ∀ p, ∀ d1 < 2, projGrad k poly s3 (compOf N v) p d1 0 = if d1 = h then ev2 PX p else 0 := by
    intro p d1 hd
    rw [projGrad, if_pos rfl, hX]
    have : apply s3.derX (compOf N v d1) = fun j => if d1 = h then apply s3.derX u j else 0 := funext fun j => hap _ (hDX.yCols.trans hNs) d1 hd j
    rw [this]
    split_ifs
    · rfl
    · exact hzero _ _
  have hgv' : ∀ p, ∀ d1 < 2, projGrad k poly s3 (compOf N v) p d1 1 = if d1 = h then ev2 PY p else 0 := by
    intro p d1 hd
    rw [projGrad, if_neg one_ne_zero, hY]
    have : apply s3.derY (compOf N v d1) = fun j => if d1 = h then apply s3.derY u j else 0 := funext fun j => hap _ (hDY.yCols.trans hNs) d1 hd j
    rw [this]
    split_ifs
    · rfl
    · exact hzero _ _
  have hgy : ∀ p, ∀ d1 < 2, ∀ d2 < 2, projGrad k poly s3 (compOf N y) p d1 d2 = polyGrad q p d1 d2 := by
    intro p d1 h1 d2 h2
    obtain rfl | rfl : d2 = 0 ∨ d2 = 1 := by omega
    · rw [projGrad, polyGrad, if_pos rfl, if_pos rfl]
      exact (hexact (q d1) (hq d1 h1) _ (hy d1 h1) p).1
    · rw [projGrad, polyGrad, if_neg one_ne_zero, if_neg one_ne_zero]
      exact (hexact (q d1) (hq d1 h1) _ (hy d1 h1) p).2
  have hstab : ∑ h' ∈ range 2, ∑ i ∈ range S.rows, compOf N v h' i * apply S (compOf N y h') i = 0 :=
    sum_eq_zero fun h' hh' => stab_null hE hT hlu hllt hpos hr hc hF.stab (hq h' (mem_range.1 hh')) (hy h' (mem_range.1 hh')) _
  have hform := hF.form v y
  rw [← hN, hstab, mul_zero, add_zero] at hform
  have hload := hF.load v
  rw [← hN] at hload
  have r2 : ∀ f : Nat → ℝ, ∑ d ∈ range 2, f d = f 0 + f 1 := fun f => by simp only [sum_range_succ, sum_range_zero, zero_add]
  have hquad : quadSum s3.internal.points s3.internal.weights (fun p => elasticDensity (test.lame p 0) (test.lame p 1)
        (projGrad k poly s3 (compOf N y) p) (projGrad k poly s3 (compOf N v) p))
      = quadLin s3.internal.points s3.internal.weights (F₁ * PX) + quadLin s3.internal.points s3.internal.weights (F₂ * PY) := by
    rw [← map_add]
    show _ = quadSum _ _ (ev2 _)
    congr 1
    funext p
    have e : ev2 (F₁ * PX + F₂ * PY) p = stress μ l (polyGrad q p) h 0 * ev2 PX p + stress μ l (polyGrad q p) h 1 * ev2 PY p := by
      have e0 : eval ![p.1, p.2] F₁ = stress μ l (polyGrad q p) h 0 := eval_stress μ l q p
      have e1 : eval ![p.1, p.2] F₂ = stress μ l (polyGrad q p) h 1 := eval_stress μ l q p
      simp only [ev2, map_add, map_mul, e0, e1]
    rw [e, hμ, hl]
    simp only [elasticDensity, r2, strain, stress, hgy p 0 (by norm_num) 0 (by norm_num), hgy p 0 (by norm_num) 1 (by norm_num), hgy p 1 (by norm_num) 0 (by norm_num),
      hgy p 1 (by norm_num) 1 (by norm_num), hgv p 0 (by norm_num), hgv p 1 (by norm_num), hgv' p 0 (by norm_num), hgv' p 1 (by norm_num)]
    obtain rfl | rfl : h = 0 ∨ h = 1 := by omega
    · simp only [if_true, zero_ne_one, one_ne_zero, if_false]
      ring
    · simp only [if_true, zero_ne_one, one_ne_zero, if_false]
      ring
  have hsrcq : quadSum s3.internal.points s3.internal.weights (fun p => ∑ h' ∈ range 2, test.source p h' * polyOf k poly.centroid poly.diameter (apply s3.pi0k (compOf N v h')) p)
      = -(quadLin s3.internal.points s3.internal.weights (pderiv 0 F₁ * P1) + quadLin s3.internal.points s3.internal.weights (pderiv 1 F₂ * P1)) := by
    rw [← map_add, ← map_neg]
    show _ = quadSum _ _ (ev2 _)
    congr 1
    funext p
    have e : ∀ h' < 2, polyOf k poly.centroid poly.diameter (apply s3.pi0k (compOf N v h')) p = if h' = h then ev2 P1 p else 0 := by
      intro h' hh'
      have : apply s3.pi0k (compOf N v h') = fun j => if h' = h then apply s3.pi0k u j else 0 := funext fun j => hap _ (hs.l2.zCols.trans hNs) h' hh' j
      rw [this]
      split_ifs
      · exact (h1 p).symm
      · exact hzero _ _
    have e2 : ev2 (-(pderiv 0 F₁ * P1 + pderiv 1 F₂ * P1)) p = test.source p h * ev2 P1 p := by
      rw [hsrc p h hh]
      simp only [ev2, map_add, map_mul, map_neg]
      ring
    rw [e2, r2, e 0 (by norm_num), e 1 (by norm_num)]
    obtain rfl | rfl : h = 0 ∨ h = 1 := by omega
    · simp
    · simp
  have d1 := discrete_derivative hk hs hE.diameter hDX u F₁ hF₁d
  have d2 := discrete_derivative hk hs hE.diameter hDY u F₂ hF₂d
  have hpd : ∀ (i : Fin 2) (F : MvPolynomial (Fin 2) ℝ), F.totalDegree ≤ k - 1 → (pderiv i F).totalDegree ≤ k - 1 := fun i F hF => (totalDegree_pderiv i F).trans (by omega)
  rw [load_same hk hs hE.diameter u (hpd 0 F₁ hF₁d)] at d1
  rw [load_same hk hs hE.diameter u (hpd 1 F₂ hF₂d)] at d2
  obtain ⟨t1, -⟩ := boundary_terms hE hT hr hc F₁ u
  obtain ⟨-, t2⟩ := boundary_terms hE hT hr hc F₂ u
  rw [← hs.length, t1] at d1
  rw [← hs.length, t2] at d2
  simp only [mul_sub, sum_sub_distrib]
  rw [← htest fun i => apply A y i, ← htest fun i => b.ent i 0, hform, hload, hquad, hsrcq, d1, d2, sum_add_distrib]
  simp only [ev2]
  ring

end element

end PolyDiM
