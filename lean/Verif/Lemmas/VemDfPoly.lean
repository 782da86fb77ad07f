import Verif.Lemmas.VemDfSpace
import Verif.Lemmas.VemEval

/-!
# Lemmas: vector polynomials in the divergence-free virtual element
-/

namespace PolyDiM

open Spec MvPolynomial MeasureTheory

variable {k m n : Nat} {V : Nat → ℝ × ℝ} {len : Nat → ℝ} {dir : Nat → Bool} {nrm : Nat → ℝ × ℝ} {poly : VemPolygon ℝ}
  {triangle : Nat → Rule (ℝ × ℝ) ℝ} {edge : Nat → Rule ℝ ℝ} {ts ws ss vs : List ℝ} {w v₀ : ℝ} {sqrt : ℝ → ℝ} {red : Bool} {lu llt : Solver ℝ} {s : DfSpace2D ℝ}

/-- The moments against the orthogonal fields. -/
theorem swirl_intU {u : ℝ × ℝ → ℝ × ℝ} (hu : ∀ d : Nat, IntegrableOn (fun p => pick (u p) d) (unionOf poly.tris)) {a b : Nat} (hab : a + b ≤ k) :
    swirlMoment poly u a b = intU poly.tris (hu 0) (gPoly k poly.centroid poly.diameter 0 (position a b)) + intU poly.tris (hu 1) (gPoly k poly.centroid poly.diameter 1 (position a b)) := by
  set c := poly.centroid
  set h := poly.diameter
  show _ = (∫ p in unionOf poly.tris, ev2 _ p * pick (u p) 0) + ∫ p in unionOf poly.tris, ev2 _ p * pick (u p) 1
  have j0 := ev2_mul_integrable poly.tris (hu 0) (gPoly k c h 0 (position a b))
  have j1 := ev2_mul_integrable poly.tris (hu 1) (gPoly k c h 1 (position a b))
  refine Eq.trans ?_ (integral_add j0 j1)
  refine integral_congr_ae (Filter.Eventually.of_forall fun p => ?_)
  have b2 := ev2_basis_position 1 c h (show 0 + 1 ≤ 1 by omega) p
  have b1 := ev2_basis_position 1 c h (show 1 + 0 ≤ 1 by omega) p
  have b0 := ev2_basis_position k c h hab p
  rw [show position 0 1 = 2 from rfl] at b2
  rw [show position 1 0 = 1 from rfl] at b1
  have g0 : ev2 (gPoly k c h 0 (position a b)) p = scaledMonomial c h a b p * scaledMonomial c h 0 1 p := by
    rw [gPoly, if_pos rfl, ← b0, ← b2]
    simp only [ev2, map_mul]
  have g1 : ev2 (gPoly k c h 1 (position a b)) p = -(scaledMonomial c h a b p * scaledMonomial c h 1 0 p) := by
    rw [gPoly, if_neg one_ne_zero, ← b0, ← b1]
    simp only [ev2, map_mul, map_neg]
  dsimp only
  rw [g0, g1]
  simp only [pick, dot2, swirl, scaledMonomial, if_true, one_ne_zero, if_false, pow_zero, pow_one, one_mul, mul_one]
  ring

theorem ev2_integrable (tris : List (Tri2 ℝ)) (r : MvPolynomial (Fin 2) ℝ) : IntegrableOn (ev2 r) (unionOf tris) :=
  (poly2_continuous r).continuousOn.integrableOn_compact (unionOf_compact tris)

/-- A vector polynomial of degree at most `k` is a velocity. -/
theorem poly_velocity (hE : IsElement poly n V len dir nrm) {internal : Rule (ℝ × ℝ) ℝ} {dofs : EdgesRule ℝ} (hR : RulesOk k n V len dir ts ws w poly.tris internal dofs)
    {q : Fin 2 → MvPolynomial (Fin 2) ℝ} (hq : ∀ d, (q d).totalDegree ≤ k) (hm : (pderiv 0 (q 0) + pderiv 1 (q 1)).totalDegree ≤ m) :
    IsVelocity k m poly n V len nrm (fun p => (ev2 (q 0) p, ev2 (q 1) p)) (pderiv 0 (q 0) + pderiv 1 (q 1)) := by
  have hi := ev2_integrable poly.tris
  have htr : ∀ d, EdgePolynomial k n V (ev2 (q d)) := by
    intro d e _
    obtain ⟨r, hr, hr'⟩ := poly1_pullback (V e) (V ((e + 1) % n)) (q d)
    exact ⟨r, hr.trans (hq d), fun t _ _ => (hr' t).symm⟩
  refine ⟨hi _, hi _, htr 0, htr 1, hm, fun a b hab => ?_⟩
  have hp : position a b < tri (k + 2) := position_lt.2 hab
  obtain ⟨z, hz, hzd, hze⟩ : ∃ z : MvPolynomial (Fin 2) ℝ, z = basisPoly (k + 1) poly.centroid poly.diameter (position a b) ∧ z.totalDegree ≤ k + 1
      ∧ ev2 z = scaledMonomial poly.centroid poly.diameter a b :=
    ⟨_, rfl, basisPoly_degree (k + 1) _ _ (by rw [num2_eq]; exact hp) hp, funext fun p => ev2_basis_position (k + 1) _ _ hab p⟩
  have hg : ∀ p, gradMonomial poly.centroid poly.diameter a b p = (ev2 (pderiv 0 z) p, ev2 (pderiv 1 z) p) := by
    intro p
    rw [hz, grad_ev2 (k + 1) _ _ hab]
  simp only [hg, ← hze]
  have hdegP : ∀ d, (z * q d).totalDegree ≤ 2 * k + 1 := fun d => (totalDegree_mul _ _).trans (by have := hq d; omega)
  have hdeg : ∀ d, (pderiv d (z * q d)).totalDegree ≤ 2 * k := fun d => (totalDegree_pderiv _ _).trans (by have := hdegP d; omega)
  have h1 : (∫ p in unionOf poly.tris, ev2 z p * ev2 (pderiv 0 (q 0) + pderiv 1 (q 1)) p)
        + ∫ p in unionOf poly.tris, dot2 (ev2 (pderiv 0 z) p, ev2 (pderiv 1 z) p) (ev2 (q 0) p, ev2 (q 1) p)
      = (∫ p in unionOf poly.tris, ev2 (pderiv 0 (z * q 0)) p) + ∫ p in unionOf poly.tris, ev2 (pderiv 1 (z * q 1)) p := by
    rw [← integral_add (hi _) (hi _)]
    have e1 : (fun p => ev2 z p * ev2 (pderiv 0 (q 0) + pderiv 1 (q 1)) p) = ev2 (z * (pderiv 0 (q 0) + pderiv 1 (q 1))) := by
      funext p
      simp [ev2]
    have e2 : (fun p => dot2 (ev2 (pderiv 0 z) p, ev2 (pderiv 1 z) p) (ev2 (q 0) p, ev2 (q 1) p)) = ev2 (pderiv 0 z * q 0 + pderiv 1 z * q 1) := by
      funext p
      simp [ev2, dot2]
    rw [e1, e2, ← integral_add (hi _) (hi _)]
    congr 1
    funext p
    simp only [ev2, Derivation.leibniz, smul_eq_mul, map_add, map_mul]
    ring
  show (∫ p in unionOf poly.tris, ev2 z p * ev2 (pderiv 0 (q 0) + pderiv 1 (q 1)) p) = _
  rw [eq_sub_iff_add_eq, h1, ← hR.integral _ (hdeg 0), ← hR.integral _ (hdeg 1), hR.pieces _ (hdeg 0), hR.pieces _ (hdeg 1),
    (gauss_polygon hE.tris (z * q 0)).1, (gauss_polygon hE.tris (z * q 1)).2, ← Finset.sum_add_distrib, outflow]
  refine Finset.sum_congr rfl fun e he => ?_
  obtain ⟨n1, n2⟩ := normal_parts hE (Finset.mem_range.1 he)
  have hc : ∀ r : MvPolynomial (Fin 2) ℝ, IntervalIntegrable (fun t => ev2 r (segPoint (V e) (V ((e + 1) % n)) t)) volume 0 1 := by
    intro r
    obtain ⟨r', _, hr'⟩ := poly1_pullback (V e) (V ((e + 1) % n)) r
    have : (fun t => ev2 r (segPoint (V e) (V ((e + 1) % n)) t)) = fun t => r'.eval t := funext fun t => (hr' t).symm
    rw [this]
    exact r'.continuous.intervalIntegrable 0 1
  rw [← n1, ← n2, segInt, segInt, mul_comm (nrm e).1, mul_comm (nrm e).2, mul_assoc, mul_assoc, ← mul_add, ← intervalIntegral.integral_const_mul, ← intervalIntegral.integral_const_mul,
    ← intervalIntegral.integral_add ((hc _).const_mul _) ((hc _).const_mul _)]
  congr 2
  funext t
  simp only [ev2, dot2, map_mul]
  ring

variable (hE : IsElement poly n V len dir nrm) (hT : IsDfTables k triangle edge ts ws w ss vs v₀) (hs : DfSpaceOk k m n V len dir ts ws w ss vs v₀ poly s)
  {q : Fin 2 → MvPolynomial (Fin 2) ℝ} (hq : ∀ d, (q d).totalDegree ≤ k)

theorem pick_poly (q : Fin 2 → MvPolynomial (Fin 2) ℝ) (d : Fin 2) : (fun p => pick ((ev2 (q 0) p, ev2 (q 1) p) : ℝ × ℝ) d) = ev2 (q d) := by
  fin_cases d <;> rfl

include hs in
/-- Integrals against a component of a vector polynomial. -/
theorem intU_poly (hu : ∀ d : Nat, IntegrableOn (fun p => pick ((ev2 (q 0) p, ev2 (q 1) p) : ℝ × ℝ) d) (unionOf poly.tris)) (d : Fin 2) {z : MvPolynomial (Fin 2) ℝ}
    (hz : (z * q d).totalDegree ≤ 2 * k) : intU poly.tris (hu d) z = quadLin s.internal.points s.internal.weights (z * q d) := by
  rw [hs.rules.integral _ hz]
  show (∫ p in unionOf poly.tris, ev2 z p * pick ((ev2 (q 0) p, ev2 (q 1) p) : ℝ × ℝ) d) = _
  have e := pick_poly q d
  refine integral_congr_ae (Filter.Eventually.of_forall fun p => ?_)
  have := congrFun e p
  dsimp only at this ⊢
  rw [this]
  simp only [ev2, map_mul]

theorem quadU_poly (points : List (ℝ × ℝ)) (wn : List ℝ) (d : Fin 2) (z : MvPolynomial (Fin 2) ℝ) :
    quadU points wn (fun p => pick ((ev2 (q 0) p, ev2 (q 1) p) : ℝ × ℝ) d) z = quadLin points wn (z * q d) := by
  rw [pick_poly q d]
  show quadSum _ _ _ = quadSum _ _ _
  congr 1
  funext p
  simp [ev2]

theorem der_degree {z : MvPolynomial (Fin 2) ℝ} {N : Nat} (hz : z.totalDegree ≤ N) (d : Fin 2) : (pderiv d z).totalDegree ≤ N - 1 :=
  (totalDegree_pderiv _ _).trans (by omega)

include hE hT hs hq in
/-- The energy projection maps the DOFs of a vector polynomial to its coefficients. -/
theorem nabla_poly {v : Nat → ℝ} {P : MvPolynomial (Fin 2) ℝ} {hu : ∀ d : Nat, IntegrableOn (fun p => pick ((ev2 (q 0) p, ev2 (q 1) p) : ℝ × ℝ) d) (unionOf poly.tris)}
    (hv : VelOk k m n V poly.centroid poly.diameter poly.tris s.internal s.boundary s.dofs (fun p => (ev2 (q 0) p, ev2 (q 1) p)) hu P v) (d : Fin 2) :
    combo k poly.centroid poly.diameter (tri (k + 1)) (act (pick s.piNabla d) (pick s.piNabla d).cols v) = q d := by
  have hk := hT.two
  set Z := combo k poly.centroid poly.diameter (tri (k + 1)) (act (pick s.piNabla d) (pick s.piNabla d).cols v) with hZ
  have hZd : Z.totalDegree ≤ k := combo_degree _ le_rfl
  have hdd : (Z - q d).totalDegree ≤ k := (totalDegree_sub _ _).trans (max_le hZd (hq d))
  obtain ⟨x, hx⟩ := basisPoly_span k poly.centroid poly.diameter hE.diameter le_rfl (Z - q d) hdd
  have hx' : Z - q d = combo k poly.centroid poly.diameter (tri (k + 1)) x := hx
  have h1 := (hs.nabla d).energy _ hu P v hv x
  rw [← hx', ← hZ, energyRhs_apply] at h1
  have q0 : (pderiv 0 (Z - q d)).totalDegree ≤ k - 1 := der_degree hdd 0
  have q1 : (pderiv 1 (Z - q d)).totalDegree ≤ k - 1 := der_degree hdd 1
  have q00 : (pderiv 0 (pderiv 0 (Z - q d))).totalDegree ≤ k - 1 - 1 := der_degree q0 0
  have q11 : (pderiv 1 (pderiv 1 (Z - q d))).totalDegree ≤ k - 1 - 1 := der_degree q1 1
  have hqd := hq d
  rw [quadU_poly, quadU_poly, intU_poly hs hu d ((totalDegree_mul _ _).trans (by omega)), intU_poly hs hu d ((totalDegree_mul _ _).trans (by omega)),
    hs.discrete.gaussX _ ((totalDegree_mul _ _).trans (by omega)), hs.discrete.gaussY _ ((totalDegree_mul _ _).trans (by omega))] at h1
  simp only [Derivation.leibniz, smul_eq_mul, map_add] at h1
  have h2 : quadLin s.internal.points s.internal.weights (pderiv 0 (Z - q d) * pderiv 0 (Z - q d))
      + quadLin s.internal.points s.internal.weights (pderiv 1 (Z - q d) * pderiv 1 (Z - q d)) = 0 := by
    have e : ∀ i : Fin 2, pderiv i (Z - q d) * pderiv i (Z - q d) = pderiv i (Z - q d) * pderiv i Z - pderiv i (Z - q d) * pderiv i (q d) := by
      intro i
      rw [← mul_sub, ← map_sub]
    rw [e 0, e 1, LinearMap.map_sub, LinearMap.map_sub]
    rw [mul_comm (q d), mul_comm (q d)] at h1
    linarith
  have p0 := hs.discrete.nonneg (pderiv 0 (Z - q d)) (by omega)
  have p1 := hs.discrete.nonneg (pderiv 1 (Z - q d)) (by omega)
  have z0 := hs.discrete.definite (pderiv 0 (Z - q d)) (by omega) (by linarith)
  have z1 := hs.discrete.definite (pderiv 1 (Z - q d)) (by omega) (by linarith)
  obtain ⟨a, ha⟩ := const_of_grad _ z0 z1
  have hmean := (hs.nabla d).mean _ hu P v hv
  rw [← hZ, intU_poly hs hu d ((totalDegree_mul _ _).trans (by rw [totalDegree_one]; omega)), one_mul, ← sub_eq_zero, ← map_sub, ha] at hmean
  have hone : quadLin s.internal.points s.internal.weights (C (σ := Fin 2) a * C a) = 0 := by
    rw [quadLin_C_mul, hmean, mul_zero]
  have := hs.discrete.definite (C a) (by rw [totalDegree_C]; omega) hone
  rw [this] at ha
  exact sub_eq_zero.1 ha

theorem gPoly_degree {c : ℝ × ℝ} {h : ℝ} (hk : 1 ≤ k) {l : Nat} (hl : l < tri k) (d : Nat) : (gPoly k c h d l).totalDegree ≤ k := by
  have h1 := basisPoly_degree k c h (j := l) (m := k - 1) (by rw [num2_eq, tri_succ]; omega) (by rwa [show k - 1 + 1 = k by omega])
  have h2 := basisPoly_degree 1 c h (j := 1) (m := 1) (by rw [num2_eq]; decide) (by decide)
  have h3 := basisPoly_degree 1 c h (j := 2) (m := 1) (by rw [num2_eq]; decide) (by decide)
  unfold gPoly
  split_ifs
  · exact (totalDegree_mul _ _).trans (by omega)
  · rw [totalDegree_neg]
    exact (totalDegree_mul _ _).trans (by omega)

/-- A combination with the moments of a polynomial of the same degree is that polynomial. -/
theorem eq_of_moments (hd : Discrete k s.internal s.dofs) (hh : poly.diameter ≠ 0) {a : Nat} (hak : a ≤ k) {x : Nat → ℝ} {r : MvPolynomial (Fin 2) ℝ} (hr : r.totalDegree ≤ a)
    (hx : ∀ i < tri (a + 1), quadLin s.internal.points s.internal.weights (basisPoly k poly.centroid poly.diameter i * combo k poly.centroid poly.diameter (tri (a + 1)) x)
      = quadLin s.internal.points s.internal.weights (basisPoly k poly.centroid poly.diameter i * r)) : combo k poly.centroid poly.diameter (tri (a + 1)) x = r :=
  combo_eq_of_moments hd hh hak x hr hx

include hE hT hs in
/-- The moments of the L2 projection of degree `k` of an enhanced velocity. -/
theorem full_moments {u : ℝ × ℝ → ℝ × ℝ} {hu : ∀ d : Nat, IntegrableOn (fun p => pick (u p) d) (unionOf poly.tris)} {P : MvPolynomial (Fin 2) ℝ} {v : Nat → ℝ}
    (hv : VelOk k m n V poly.centroid poly.diameter poly.tris s.internal s.boundary s.dofs u hu P v)
    (henh : ∀ l, tri (k - 2) ≤ l → l < tri k →
      quadLin s.internal.points s.internal.weights (gPoly k poly.centroid poly.diameter 0 l * combo k poly.centroid poly.diameter (tri (k + 1)) (act s.piNabla.1 s.piNabla.1.cols v))
        + quadLin s.internal.points s.internal.weights (gPoly k poly.centroid poly.diameter 1 l * combo k poly.centroid poly.diameter (tri (k + 1)) (act s.piNabla.2 s.piNabla.2.cols v))
      = intU poly.tris (hu 0) (gPoly k poly.centroid poly.diameter 0 l) + intU poly.tris (hu 1) (gPoly k poly.centroid poly.diameter 1 l)) (d : Fin 2) {i : Nat} (hi : i < tri (k + 1)) :
    quadLin s.internal.points s.internal.weights (basisPoly k poly.centroid poly.diameter i *
      combo k poly.centroid poly.diameter (tri (k + 1)) (act (pick s.pi0k d) (pick s.pi0k d).cols v)) = intU poly.tris (hu d) (basisPoly k poly.centroid poly.diameter i) := by
  have hk := hT.two
  obtain ⟨F, hF, hFe⟩ := hs.full d
  rw [hFe v i hi]
  obtain ⟨a, b, hab, rfl⟩ := exists_position hi
  by_cases hlow : a + b + 2 ≤ k
  · refine hF.low u hu P v hv _ ?_
    have := (position_lt (k := k - 2) (a := a) (b := b)).2 (by omega)
    rwa [show k - 2 + 1 = k - 1 by omega] at this
  · have hr : rank2 [a, b] = position a b := by rw [position, tri_div', rank2_eq]
    rw [← hr, hF.high u hu P v hv a b hab (by omega)]
    have hid := c_identity (c := poly.centroid) hE.diameter hab d.2 (fun d => intU poly.tris (hu d))
    rw [← hid]
    congr 1
    by_cases hz : decCoef d a b = 0
    · rw [hz, zero_mul, zero_mul]
    · obtain ⟨h0, h1, h2⟩ := decCoef_ne d.2 hz
      rw [henh _ ((tri_le (by omega)).trans h1) (lt_of_lt_of_le h2 (tri_le (by omega)))]

include hE hT hs hq in
/-- The L2 projection of degree `k` maps the DOFs of a vector polynomial to its coefficients. -/
theorem full_poly {v : Nat → ℝ} {P : MvPolynomial (Fin 2) ℝ} {hu : ∀ d : Nat, IntegrableOn (fun p => pick ((ev2 (q 0) p, ev2 (q 1) p) : ℝ × ℝ) d) (unionOf poly.tris)}
    (hv : VelOk k m n V poly.centroid poly.diameter poly.tris s.internal s.boundary s.dofs (fun p => (ev2 (q 0) p, ev2 (q 1) p)) hu P v) (d : Fin 2) :
    combo k poly.centroid poly.diameter (tri (k + 1)) (act (pick s.pi0k d) (pick s.pi0k d).cols v) = q d := by
  have hk := hT.two
  have n0 : combo k poly.centroid poly.diameter (tri (k + 1)) (act s.piNabla.1 s.piNabla.1.cols v) = q 0 := nabla_poly hE hT hs hq hv 0
  have n1 : combo k poly.centroid poly.diameter (tri (k + 1)) (act s.piNabla.2 s.piNabla.2.cols v) = q 1 := nabla_poly hE hT hs hq hv 1
  refine eq_of_moments hs.discrete hE.diameter le_rfl (hq d) fun i hi => ?_
  rw [full_moments hE hT hs hv ?_ d hi, intU_poly hs hu d]
  · have := basisPoly_degree k poly.centroid poly.diameter (j := i) (m := k) (by rw [num2_eq]; exact hi) hi
    have := hq d
    exact (totalDegree_mul _ _).trans (by omega)
  · intro l _ hl
    have hgd : ∀ d : Nat, (gPoly k poly.centroid poly.diameter d l).totalDegree ≤ k := gPoly_degree (by omega) hl
    have e0 := intU_poly hs hu 0 (z := gPoly k poly.centroid poly.diameter 0 l) ((totalDegree_mul _ _).trans (by have := hgd 0; have := hq 0; omega))
    have e1 := intU_poly hs hu 1 (z := gPoly k poly.centroid poly.diameter 1 l) ((totalDegree_mul _ _).trans (by have := hgd 1; have := hq 1; omega))
    rw [n0, n1]
    exact (congrArg₂ (· + ·) e0 e1).symm

include hE hT hs hq in
/-- The projections of the derivatives map the DOFs of a vector polynomial to the coefficients of its derivatives. -/
theorem der_poly {v : Nat → ℝ} {P : MvPolynomial (Fin 2) ℝ} {hu : ∀ d : Nat, IntegrableOn (fun p => pick ((ev2 (q 0) p, ev2 (q 1) p) : ℝ × ℝ) d) (unionOf poly.tris)}
    (hv : VelOk k m n V poly.centroid poly.diameter poly.tris s.internal s.boundary s.dofs (fun p => (ev2 (q 0) p, ev2 (q 1) p)) hu P v) (d1 d2 : Fin 2) :
    combo k poly.centroid poly.diameter (tri k) (act (pick (pick s.der d1) d2) (pick (pick s.der d1) d2).cols v) = pderiv d2 (q d1) := by
  have hk := hT.two
  have hkk : k - 1 + 1 = k := by omega
  obtain ⟨E, hE1, hE2⟩ := hs.der d1 d2
  have hqd := hq d1
  have := eq_of_moments (poly := poly) hs.discrete hE.diameter (show k - 1 ≤ k by omega) (x := act (pick (pick s.der d1) d2) (pick (pick s.der d1) d2).cols v)
    (r := pderiv d2 (q d1)) (der_degree hqd d2) (by
    rw [hkk]
    intro i hi
    have hb := basisPoly_degree k poly.centroid poly.diameter (j := i) (m := k - 1) (by rw [num2_eq, tri_succ]; omega) (by rwa [hkk])
    have hbd := der_degree hb d2
    rw [hE2 v i hi, hE1.act _ hu P v hv i hi, quadU_poly, intU_poly hs hu d1 ((totalDegree_mul _ _).trans (by omega))]
    have hg : quadLin s.dofs.points (if (d2 : Nat) = 0 then s.dofs.nx else s.dofs.ny) (basisPoly k poly.centroid poly.diameter i * q d1)
        = quadLin s.internal.points s.internal.weights (pderiv d2 (basisPoly k poly.centroid poly.diameter i * q d1)) := by
      have hdeg : (basisPoly k poly.centroid poly.diameter i * q d1).totalDegree ≤ 2 * k - 1 := (totalDegree_mul _ _).trans (by omega)
      fin_cases d2
      · exact hs.discrete.gaussX _ hdeg
      · exact hs.discrete.gaussY _ hdeg
    rw [hg, Derivation.leibniz, map_add]
    simp only [smul_eq_mul]
    rw [mul_comm (q d1)]
    ring)
  rwa [hkk] at this

end PolyDiM
