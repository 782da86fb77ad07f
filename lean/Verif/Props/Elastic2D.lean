import Verif.Lemmas.ElasticCell

/-!
# C151: the cell matrix and the cell vector of the elasticity example
-/

namespace PolyDiM

open Spec MvPolynomial Finset MeasureTheory

section
variable {k n : Nat} {V : Nat → ℝ × ℝ} {len : Nat → ℝ} {dir : Nat → Bool} {nrm : Nat → ℝ × ℝ} {triangle : Nat → Rule (ℝ × ℝ) ℝ} {edge : Nat → Rule ℝ ℝ} {ts ws : List ℝ} {w : ℝ}
  {lu llt : Solver ℝ} {poly : VemPolygon ℝ}

/-- C151, the forms: on every element, for all data, the matrix and the vector of the cell exist, the matrix is symmetric, it is the quadrature of the elastic energy of the
projected gradients plus the stabilization of each component, scaled with the greatest `|μ|`; the vector is the quadrature of the force times the projected functions. -/
theorem C151_forms (hE : IsElement poly n V len dir nrm) (hT : IsTables k triangle edge ts ws w) (hlu : SolvesRegular lu) (hllt : SolvesPosDef llt) (hpos : 0 < poly.measure)
    (test : ElasticTest ℝ) :
    ∃ ref s S A b μmax N, vemRef2D triangle edge k = .ok ref ∧ vemCreate2D lu llt ref poly = .ok s ∧ vemDofiDofi poly s .piNabla = .ok S ∧
      N = n + n * (k - 1) + k * (k - 1) / 2 ∧ elasticLocal (vemCell2D ref poly s) test = .ok (A, b) ∧ A.rows = 2 * N ∧ A.cols = 2 * N ∧ b.rows = 2 * N ∧ b.cols = 1 ∧
      (∀ i j, A.ent i j = A.ent j i) ∧ IsGreatest {y | ∃ p ∈ s.internal.points, y = |test.lame p 0|} μmax ∧
      (∀ v u : Nat → ℝ, ∑ i ∈ range (2 * N), v i * apply A u i
        = quadSum s.internal.points s.internal.weights (fun p => elasticDensity (test.lame p 0) (test.lame p 1) (projGrad k poly s (compOf N u) p)
            (projGrad k poly s (compOf N v) p))
          + μmax * ∑ h ∈ range 2, ∑ i ∈ range N, compOf N v h i * apply S (compOf N u h) i) ∧
      ∀ v : Nat → ℝ, ∑ i ∈ range (2 * N), v i * b.ent i 0 = quadSum s.internal.points s.internal.weights fun p =>
        ∑ h ∈ range 2, test.source p h * polyOf k poly.centroid poly.diameter (apply s.pi0k (compOf N v h)) p := by
  obtain ⟨ref, s, hr, hc, -, hall⟩ := elastic_local hE hT hlu hllt hpos
  obtain ⟨S, A, b, μmax, h⟩ := hall test
  refine ⟨ref, s, S, A, b, μmax, _, hr, hc, h.stab, rfl, h.run, h.rows, h.cols, h.rowsB, h.colsB, h.symm, h.greatest, fun v u => ?_, h.load⟩
  rw [h.form, h.sizeS]

/-- C151, exactness: for polynomial displacements the matrix of the cell is the integral of the elastic energy and the vector the work of the force. -/
theorem C151_exact (hE : IsElement poly n V len dir nrm) (hT : IsTables k triangle edge ts ws w) (hlu : SolvesRegular lu) (hllt : SolvesPosDef llt) (hpos : 0 < poly.measure)
    (μ l : MvPolynomial (Fin 2) ℝ) (hμ : μ.totalDegree ≤ 2) (hl : l.totalDegree ≤ 2) (f : Nat → MvPolynomial (Fin 2) ℝ) (hf : ∀ h, (f h).totalDegree ≤ k)
    (test : ElasticTest ℝ) (h0 : ∀ p, test.lame p 0 = eval ![p.1, p.2] μ) (h1 : ∀ p, test.lame p 1 = eval ![p.1, p.2] l)
    (hs : ∀ p h, test.source p h = eval ![p.1, p.2] (f h)) :
    ∃ ref s A b N, vemRef2D triangle edge k = .ok ref ∧ vemCreate2D lu llt ref poly = .ok s ∧ N = n + n * (k - 1) + k * (k - 1) / 2 ∧
      elasticLocal (vemCell2D ref poly s) test = .ok (A, b) ∧
      ∀ (q r : Nat → MvPolynomial (Fin 2) ℝ) (y v : Nat → ℝ), (∀ h < 2, (q h).totalDegree ≤ k ∧ IsDofVector k poly n V dir ts (fun p => eval ![p.1, p.2] (q h)) (compOf N y h)) →
        (∀ h < 2, (r h).totalDegree ≤ k ∧ IsDofVector k poly n V dir ts (fun p => eval ![p.1, p.2] (r h)) (compOf N v h)) →
        ∑ i ∈ range (2 * N), v i * apply A y i
          = (∫ p in unionOf poly.tris, elasticDensity (eval ![p.1, p.2] μ) (eval ![p.1, p.2] l) (polyGrad q p) (polyGrad r p)) ∧
        ∑ i ∈ range (2 * N), v i * b.ent i 0 = ∫ p in unionOf poly.tris, (eval ![p.1, p.2] (f 0) * eval ![p.1, p.2] (r 0) + eval ![p.1, p.2] (f 1) * eval ![p.1, p.2] (r 1)) := by
  obtain ⟨ref, s, hr, hc, hsp, hall⟩ := elastic_local hE hT hlu hllt hpos
  obtain ⟨S, A, b, μmax, h⟩ := hall test
  obtain ⟨r3, s3, hr3, hc3, -, -, -, -, hexact⟩ := C71_derivatives hE hT hlu hllt
  obtain ⟨r4, s4, hr4, hc4, -, -, hval⟩ := C52_pi0k hE hT hlu hllt
  obtain rfl : r3 = ref := Except.ok.inj (hr3.symm.trans hr)
  obtain rfl : s3 = s := Except.ok.inj (hc3.symm.trans hc)
  obtain rfl : r4 = r3 := Except.ok.inj (hr4.symm.trans hr)
  obtain rfl : s4 = s3 := Except.ok.inj (hc4.symm.trans hc)
  refine ⟨r4, s4, A, b, _, hr, hc, rfl, h.run, fun q r y v hy hv => ?_⟩
  have hk := hT.low
  have hg : ∀ (q : Nat → MvPolynomial (Fin 2) ℝ) (y : Nat → ℝ), (∀ h < 2, (q h).totalDegree ≤ k ∧
      IsDofVector k poly n V dir ts (fun p => eval ![p.1, p.2] (q h)) (compOf (n + n * (k - 1) + k * (k - 1) / 2) y h)) → ∀ p, ∀ d1 < 2, ∀ d2 < 2,
      projGrad k poly s4 (compOf (n + n * (k - 1) + k * (k - 1) / 2) y) p d1 d2 = polyGrad q p d1 d2 := by
    intro q y hy p d1 h1 d2 h2
    have := hexact (q d1) (hy d1 h1).1 _ (hy d1 h1).2 p
    obtain rfl | rfl : d2 = 0 ∨ d2 = 1 := by omega
    · exact this.1
    · exact this.2
  have r2 : ∀ f : Nat → ℝ, ∑ d ∈ range 2, f d = f 0 + f 1 := fun f => by simp only [sum_range_succ, sum_range_zero, zero_add]
  constructor
  · rw [h.form, r2, stab_null hE hT hlu hllt hpos hr hc h.stab (hy 0 (by norm_num)).1 (hy 0 (by norm_num)).2 _,
      stab_null hE hT hlu hllt hpos hr hc h.stab (hy 1 (by norm_num)).1 (hy 1 (by norm_num)).2 _, add_zero, mul_zero, add_zero]
    have hd : ∀ (a : MvPolynomial (Fin 2) ℝ) (i j : Fin 2) (c d : Nat), a.totalDegree ≤ 2 → c < 2 → d < 2 → (a * pderiv i (q c) * pderiv j (r d)).totalDegree ≤ 2 * k := by
      intro a i j c d ha hc hd
      have e1 := totalDegree_pderiv i (q c)
      have e2 := totalDegree_pderiv j (r d)
      have e3 := (hy c hc).1
      have e4 := (hv d hd).1
      refine (totalDegree_mul _ _).trans ((add_le_add_left (totalDegree_mul _ _) _).trans ?_)
      omega
    have hdeg : (C 2 * (μ * pderiv 0 (q 0) * pderiv 0 (r 0)) + (μ * pderiv 1 (q 0) * pderiv 1 (r 0) + μ * pderiv 1 (q 0) * pderiv 0 (r 1) + μ * pderiv 0 (q 1) * pderiv 1 (r 0)
          + μ * pderiv 0 (q 1) * pderiv 0 (r 1)) + C 2 * (μ * pderiv 1 (q 1) * pderiv 1 (r 1)) + (l * pderiv 0 (q 0) * pderiv 0 (r 0) + l * pderiv 0 (q 0) * pderiv 1 (r 1)
          + l * pderiv 1 (q 1) * pderiv 0 (r 0) + l * pderiv 1 (q 1) * pderiv 1 (r 1))).totalDegree ≤ 2 * k := by
      have h2 : ∀ p : MvPolynomial (Fin 2) ℝ, p.totalDegree ≤ 2 * k → (C 2 * p).totalDegree ≤ 2 * k := fun p hp =>
        (totalDegree_mul _ _).trans (by rw [totalDegree_C, zero_add]; exact hp)
      have ha : ∀ p p' : MvPolynomial (Fin 2) ℝ, p.totalDegree ≤ 2 * k → p'.totalDegree ≤ 2 * k → (p + p').totalDegree ≤ 2 * k := fun p p' hp hp' =>
        (totalDegree_add _ _).trans (max_le hp hp')
      refine ha _ _ (ha _ _ (ha _ _ (h2 _ ?_) (ha _ _ (ha _ _ (ha _ _ ?_ ?_) ?_) ?_)) (h2 _ ?_)) (ha _ _ (ha _ _ (ha _ _ ?_ ?_) ?_) ?_) <;>
        exact hd _ _ _ _ _ (by assumption) (by norm_num) (by norm_num)
    refine Eq.trans ?_ ((hsp.rules.integral _ hdeg).trans ?_)
    · show _ = quadSum _ _ (ev2 _)
      congr 1
      funext p
      rw [h0, h1]
      simp only [elasticDensity, stress, strain, r2, if_true, zero_ne_one, one_ne_zero, if_false, hg q y hy p 0 (by norm_num) 0 (by norm_num), hg q y hy p 0 (by norm_num) 1 (by norm_num),
        hg q y hy p 1 (by norm_num) 0 (by norm_num), hg q y hy p 1 (by norm_num) 1 (by norm_num), hg r v hv p 0 (by norm_num) 0 (by norm_num),
        hg r v hv p 0 (by norm_num) 1 (by norm_num), hg r v hv p 1 (by norm_num) 0 (by norm_num), hg r v hv p 1 (by norm_num) 1 (by norm_num), polyGrad, ev2, map_add, map_mul, eval_C]
      ring
    · congr 1
      funext p
      simp only [elasticDensity, stress, strain, r2, if_true, zero_ne_one, one_ne_zero, if_false, polyGrad, ev2, map_add, map_mul, eval_C]
      ring
  · rw [h.load]
    have hdeg : (f 0 * r 0 + f 1 * r 1).totalDegree ≤ 2 * k := by
      refine (totalDegree_add _ _).trans (max_le ?_ ?_)
      · refine (totalDegree_mul _ _).trans ?_
        have := hf 0
        have := (hv 0 (by norm_num)).1
        omega
      · refine (totalDegree_mul _ _).trans ?_
        have := hf 1
        have := (hv 1 (by norm_num)).1
        omega
    refine Eq.trans ?_ ((hsp.rules.integral _ hdeg).trans ?_)
    · show _ = quadSum _ _ (ev2 _)
      congr 1
      funext p
      rw [r2, hval _ (hv 0 (by norm_num)).1 _ (hv 0 (by norm_num)).2 p, hval _ (hv 1 (by norm_num)).1 _ (hv 1 (by norm_num)).2 p, hs, hs]
      simp only [ev2, map_add, map_mul]
    · congr 1
      funext p
      simp only [ev2, map_add, map_mul]

theorem five_zero {a b c d e : ℝ} (ha : 0 ≤ a) (hb : 0 ≤ b) (hc : 0 ≤ c) (hd : 0 ≤ d) (he : 0 ≤ e) (h : a + b + c + (d + e) = 0) : a = 0 ∧ b = 0 ∧ c = 0 ∧ d = 0 ∧ e = 0 := by
  refine ⟨?_, ?_, ?_, ?_, ?_⟩ <;> linarith

/-- The energy of a cell with constant coefficients. -/
theorem elastic_energy (hE : IsElement poly n V len dir nrm) (hT : IsTables k triangle edge ts ws w) (hlu : SolvesRegular lu) (hllt : SolvesPosDef llt) (hpos : 0 < poly.measure)
    {μ l : ℝ} (hμ : 0 < μ) (hl : 0 < μ + l) {test : ElasticTest ℝ} (h0 : ∀ p, test.lame p 0 = μ) (h1 : ∀ p, test.lame p 1 = l) {ref : VemRef2D ℝ} {s : VemSpace2D ℝ}
    (hr : vemRef2D triangle edge k = .ok ref) (hc : vemCreate2D lu llt ref poly = .ok s) (hsp : SpaceOk k n V len dir ts ws w poly s) {S A b : DMat ℝ} {μmax : ℝ}
    (h : ElasticVem k n ref poly s test S A b μmax) (x : Nat → ℝ) :
    0 ≤ ∑ i ∈ range (2 * (n + n * (k - 1) + k * (k - 1) / 2)), x i * apply A x i ∧
      (∑ i ∈ range (2 * (n + n * (k - 1) + k * (k - 1) / 2)), x i * apply A x i = 0 ↔
        ∃ a b c : ℝ, ∀ h < 2, IsDofVector k poly n V dir ts (rigid a b c h) (compOf (n + n * (k - 1) + k * (k - 1) / 2) x h)) := by
  obtain ⟨r3, s3, hr3, hc3, -, -, -, -, hexact⟩ := C71_derivatives hE hT hlu hllt
  obtain ⟨r4, s4, hr4, hc4, hst, -⟩ := C77_stabilization hE hT hlu hllt hpos
  obtain rfl : r3 = ref := Except.ok.inj (hr3.symm.trans hr)
  obtain rfl : s3 = s := Except.ok.inj (hc3.symm.trans hc)
  obtain rfl : r4 = r3 := Except.ok.inj (hr4.symm.trans hr)
  obtain rfl : s4 = s3 := Except.ok.inj (hc4.symm.trans hc)
  obtain ⟨Z, hZ, hZr, hZc, hsym, hpsd⟩ := hst .piNabla (Or.inl rfl)
  obtain rfl : Z = S := Except.ok.inj (hZ.symm.trans h.stab)
  have hk := hT.low
  have hkk : k - 1 + 1 = k := by omega
  have r2 : ∀ f : Nat → ℝ, ∑ d ∈ range 2, f d = f 0 + f 1 := fun f => by simp only [sum_range_succ, sum_range_zero, zero_add]
  have hmax : 0 < μmax := by
    obtain ⟨p, hp, e⟩ := h.greatest.1
    rw [e, h0]
    exact abs_pos.2 hμ.ne'
  rw [h.form, r2]
  generalize compOf (n + n * (k - 1) + k * (k - 1) / 2) x = y
  have hP : ∀ d1 d2, ∃ P : MvPolynomial (Fin 2) ℝ, P.totalDegree ≤ k ∧ ∀ p, projGrad k poly s4 y p d1 d2 = ev2 P p := by
    intro d1 d2
    refine ⟨combo k poly.centroid poly.diameter (tri k) (apply (if d2 = 0 then s4.derX else s4.derY) (y d1)), ?_, fun p => ?_⟩
    · have := combo_degree (c := poly.centroid) (h := poly.diameter) (apply (if d2 = 0 then s4.derX else s4.derY) (y d1)) (show k - 1 ≤ k by omega)
      rw [hkk] at this
      omega
    · rw [projGrad, ← ev2_combo k _ _ (show k - 1 ≤ k by omega), hkk]
  obtain ⟨P00, d00, e00⟩ := hP 0 0
  obtain ⟨P01, d01, e01⟩ := hP 0 1
  obtain ⟨P10, d10, e10⟩ := hP 1 0
  obtain ⟨P11, d11, e11⟩ := hP 1 1
  have key : quadSum s4.internal.points s4.internal.weights (fun p => elasticDensity (test.lame p 0) (test.lame p 1) (projGrad k poly s4 y p) (projGrad k poly s4 y p))
      = μ * quadLin s4.internal.points s4.internal.weights ((P00 - P11) * (P00 - P11)) + (μ + l) * quadLin s4.internal.points s4.internal.weights ((P00 + P11) * (P00 + P11))
        + μ * quadLin s4.internal.points s4.internal.weights ((P01 + P10) * (P01 + P10)) := by
    rw [← quadLin_C_mul, ← quadLin_C_mul, ← quadLin_C_mul, ← map_add, ← map_add]
    show _ = quadSum _ _ (ev2 _)
    congr 1
    funext p
    rw [density_split, e00, e01, e10, e11, h0, h1]
    simp only [ev2, map_add, map_mul, map_sub, eval_C]
  have g1 : (P00 - P11).totalDegree ≤ k := (totalDegree_sub _ _).trans (max_le d00 d11)
  have g2 : (P00 + P11).totalDegree ≤ k := (totalDegree_add _ _).trans (max_le d00 d11)
  have g3 : (P01 + P10).totalDegree ≤ k := (totalDegree_add _ _).trans (max_le d01 d10)
  have n1 := mul_nonneg hμ.le (hsp.discrete.nonneg _ g1)
  have n2 := mul_nonneg hl.le (hsp.discrete.nonneg _ g2)
  have n3 := mul_nonneg hμ.le (hsp.discrete.nonneg _ g3)
  have t0 := (hpsd (y 0)).1
  have t1 := (hpsd (y 1)).1
  rw [key]
  refine ⟨by positivity, fun hz => ?_, ?_⟩
  · have m0 := mul_nonneg hmax.le t0
    have m1 := mul_nonneg hmax.le t1
    rw [mul_add μmax] at hz
    obtain ⟨s1, s2, s3, s4, s5⟩ := five_zero n1 n2 n3 m0 m1 hz
    have z1 := hsp.discrete.definite _ g1 ((mul_eq_zero.1 s1).resolve_left hμ.ne')
    have z2 := hsp.discrete.definite _ g2 ((mul_eq_zero.1 s2).resolve_left hl.ne')
    have z3 := hsp.discrete.definite _ g3 ((mul_eq_zero.1 s3).resolve_left hμ.ne')
    obtain ⟨q0, hq0, hx0⟩ := (hpsd (y 0)).2.1 ((mul_eq_zero.1 s4).resolve_left hmax.ne')
    obtain ⟨q1, hq1, hx1⟩ := (hpsd (y 1)).2.1 ((mul_eq_zero.1 s5).resolve_left hmax.ne')
    have a00 : P00 = pderiv 0 q0 := ev2_ext fun p => (e00 p).symm.trans (hexact q0 hq0 _ hx0 p).1
    have a01 : P01 = pderiv 1 q0 := ev2_ext fun p => (e01 p).symm.trans (hexact q0 hq0 _ hx0 p).2
    have a10 : P10 = pderiv 0 q1 := ev2_ext fun p => (e10 p).symm.trans (hexact q1 hq1 _ hx1 p).1
    have a11 : P11 = pderiv 1 q1 := ev2_ext fun p => (e11 p).symm.trans (hexact q1 hq1 _ hx1 p).2
    have b0 : P00 = 0 := by
      have : (2 : ℝ) • P00 = 0 := by
        rw [two_smul]
        linear_combination z1 + z2
      exact (smul_eq_zero.1 this).resolve_left two_ne_zero
    have b1 : P11 = 0 := by rw [b0, zero_add] at z2; exact z2
    obtain ⟨a, b, c, hk0, hk1⟩ := killing (fun h => if h = 0 then q0 else q1) (by simp only [if_true]; rw [← a00, b0]) (by simp only [one_ne_zero, if_false]; rw [← a11, b1])
      (by simp only [if_true, one_ne_zero, if_false]; rw [← a01, ← a10, z3])
    simp only [if_true, one_ne_zero, if_false] at hk0 hk1
    refine ⟨a, b, c, fun h hh => ?_⟩
    obtain rfl | rfl : h = 0 ∨ h = 1 := by omega
    · rw [hk0] at hx0
      have : rigid a b c 0 = fun p => eval ![p.1, p.2] (C a - C c * X 1 : MvPolynomial (Fin 2) ℝ) := by funext p; simp [rigid]
      rw [this]
      exact hx0
    · rw [hk1] at hx1
      have : rigid a b c 1 = fun p => eval ![p.1, p.2] (C b + C c * X 0 : MvPolynomial (Fin 2) ℝ) := by funext p; simp [rigid]
      rw [this]
      exact hx1
  · rintro ⟨a, b, c, hx⟩
    have hx0 := hx 0 (by norm_num)
    have hx1 := hx 1 (by norm_num)
    have r0 : rigid a b c 0 = fun p => eval ![p.1, p.2] (C a - C c * X 1 : MvPolynomial (Fin 2) ℝ) := by funext p; simp [rigid]
    have r1 : rigid a b c 1 = fun p => eval ![p.1, p.2] (C b + C c * X 0 : MvPolynomial (Fin 2) ℝ) := by funext p; simp [rigid]
    rw [r0] at hx0
    rw [r1] at hx1
    have q0 : (C a - C c * X 1 : MvPolynomial (Fin 2) ℝ).totalDegree ≤ k :=
      (totalDegree_sub _ _).trans (max_le (by simp) ((totalDegree_mul _ _).trans (by rw [totalDegree_C, totalDegree_X]; omega)))
    have q1 : (C b + C c * X 0 : MvPolynomial (Fin 2) ℝ).totalDegree ≤ k :=
      (totalDegree_add _ _).trans (max_le (by simp) ((totalDegree_mul _ _).trans (by rw [totalDegree_C, totalDegree_X]; omega)))
    rw [← key, stab_null hE hT hlu hllt hpos hr hc h.stab q0 hx0 _, stab_null hE hT hlu hllt hpos hr hc h.stab q1 hx1 _, add_zero, mul_zero, add_zero]
    have hz : (fun p => elasticDensity (test.lame p 0) (test.lame p 1) (projGrad k poly s4 y p) (projGrad k poly s4 y p)) = fun _ => 0 := by
      funext p
      have a00 : projGrad k poly s4 y p 0 0 = 0 := ((hexact _ q0 _ hx0 p).1).trans (by simp [pderiv_C_mul, pderiv_X])
      have a01 : projGrad k poly s4 y p 0 1 = -c := ((hexact _ q0 _ hx0 p).2).trans (by simp [pderiv_C_mul, pderiv_X])
      have a10 : projGrad k poly s4 y p 1 0 = c := ((hexact _ q1 _ hx1 p).1).trans (by simp [pderiv_C_mul, pderiv_X])
      have a11 : projGrad k poly s4 y p 1 1 = 0 := ((hexact _ q1 _ hx1 p).2).trans (by simp [pderiv_C_mul, pderiv_X])
      rw [density_split, a00, a01, a10, a11]
      ring
    rw [hz, ← sum_quadSum _ _ hsp.rules.wlen (fun _ => 0) _ fun i p hp => rfl]
    simp

/-- C151, the kernel: for constant coefficients with `μ > 0` and `μ + λ > 0` the matrix of the cell is positive semidefinite, and the energy is zero exactly for the degrees
of freedom of the rigid motions. -/
theorem C151_kernel (hE : IsElement poly n V len dir nrm) (hT : IsTables k triangle edge ts ws w) (hlu : SolvesRegular lu) (hllt : SolvesPosDef llt) (hpos : 0 < poly.measure)
    {μ l : ℝ} (hμ : 0 < μ) (hl : 0 < μ + l) (test : ElasticTest ℝ) (h0 : ∀ p, test.lame p 0 = μ) (h1 : ∀ p, test.lame p 1 = l) :
    ∃ ref s A b N, vemRef2D triangle edge k = .ok ref ∧ vemCreate2D lu llt ref poly = .ok s ∧ N = n + n * (k - 1) + k * (k - 1) / 2 ∧
      elasticLocal (vemCell2D ref poly s) test = .ok (A, b) ∧
      ∀ x : Nat → ℝ, 0 ≤ ∑ i ∈ range (2 * N), x i * apply A x i ∧
        (∑ i ∈ range (2 * N), x i * apply A x i = 0 ↔ ∃ a b c : ℝ, ∀ h < 2, IsDofVector k poly n V dir ts (rigid a b c h) (compOf N x h)) := by
  obtain ⟨ref, s, hr, hc, hsp, hall⟩ := elastic_local hE hT hlu hllt hpos
  obtain ⟨S, A, b, μmax, h⟩ := hall test
  exact ⟨ref, s, A, b, _, hr, hc, rfl, h.run, fun x => elastic_energy hE hT hlu hllt hpos hμ hl h0 h1 hr hc hsp h x⟩

end

-- C151: the unit square with order 2, `μ = 1.5`, `λ = 3`, a force of degree 1, and a displacement of degree 2
example : ∃ lu llt : Solver ℝ, SolvesRegular lu ∧ SolvesPosDef llt ∧ IsElement squarePoly 4 squareV (fun _ => 1) (fun i => i % 2 = 0) squareN ∧
    IsTables 2 (fun _ => ⟨nc4Points, nc4Weights⟩) (fun _ => ⟨[0, 1 / 2, 1], [1 / 6, 2 / 3, 1 / 6]⟩) [1 / 2] [2 / 3] (1 / 6) ∧ 0 < squarePoly.measure ∧ (0 : ℝ) < 3 / 2 ∧
    (0 : ℝ) < 3 / 2 + 3 ∧ (C (3 / 2) : MvPolynomial (Fin 2) ℝ).totalDegree ≤ 2 ∧ (∀ h : Nat, (if h = 0 then X 1 else C 5 : MvPolynomial (Fin 2) ℝ).totalDegree ≤ 2) ∧
    ∃ y : Nat → ℝ, ∀ h < 2, (X 0 * X 1 : MvPolynomial (Fin 2) ℝ).totalDegree ≤ 2 ∧
      IsDofVector 2 squarePoly 4 squareV (fun i => i % 2 = 0) [1 / 2] (fun p => eval ![p.1, p.2] (X 0 * X 1 : MvPolynomial (Fin 2) ℝ)) (compOf 9 y h) := by
  obtain ⟨lu, h1, h2⟩ := exists_solvers
  obtain ⟨y, hy⟩ := exists_dofs 2 squarePoly 4 squareV (fun i => i % 2 = 0) [1 / 2] rfl (fun p => eval ![p.1, p.2] (X 0 * X 1 : MvPolynomial (Fin 2) ℝ))
  refine ⟨lu, lu, h1, h2, square_element, square_tables, by norm_num [squarePoly], by norm_num, by norm_num, by simp, fun h => by split_ifs <;> simp [totalDegree_X],
    fun i => y (i % 9), fun h hh => ⟨(totalDegree_mul _ _).trans (by simp [totalDegree_X]), ?_⟩⟩
  have hc : ∀ i < 9, compOf 9 (fun i => y (i % 9)) h i = y i := fun i hi => by
    show y ((h * 9 + i) % 9) = y i
    rw [show (h * 9 + i) % 9 = i by omega]
  refine ⟨fun e he => ?_, fun e he i t ht => ?_, fun a b hab => ?_⟩
  · rw [hc _ (by omega)]
    exact hy.vertex e he
  · have : i < 1 := (List.getElem?_eq_some_iff.1 ht).1
    rw [hc _ (by omega)]
    exact hy.node e he i t ht
  · obtain ⟨rfl, rfl⟩ : a = 0 ∧ b = 0 := by omega
    rw [hc _ (by decide)]
    exact hy.moment 0 0 hab

end PolyDiM
