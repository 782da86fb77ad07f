import Verif.Lemmas.VemDfProj
import Verif.Props.Quadrature
import Verif.Lemmas.VemMccProj

/-!
# Lemmas: the local space of the divergence-free virtual element
-/

namespace PolyDiM

open Spec MvPolynomial MeasureTheory

variable {k m n : Nat} {V : Nat → ℝ × ℝ} {len : Nat → ℝ} {dir : Nat → Bool} {nrm : Nat → ℝ × ℝ} {poly : VemPolygon ℝ}
  {triangle : Nat → Rule (ℝ × ℝ) ℝ} {edge : Nat → Rule ℝ ℝ} {ts ws ss vs : List ℝ} {w v₀ : ℝ} {sqrt : ℝ → ℝ} {red : Bool} {lu llt : Solver ℝ}

/-! ## Velocities of the specification -/

theorem velocity_integrable {P : MvPolynomial (Fin 2) ℝ} {u : ℝ × ℝ → ℝ × ℝ} (hu : IsVelocity k m poly n V len nrm u P) (d : Nat) :
    IntegrableOn (fun p => pick (u p) d) (unionOf poly.tris) := by
  unfold pick
  by_cases hd : d = 0
  · simp only [if_pos hd]
    exact hu.first
  · simp only [if_neg hd]
    exact hu.second

theorem velocity_trace {P : MvPolynomial (Fin 2) ℝ} {u : ℝ × ℝ → ℝ × ℝ} (hu : IsVelocity k m poly n V len nrm u P) (d : Nat) : EdgePolynomial k n V fun p => pick (u p) d := by
  unfold pick
  by_cases hd : d = 0
  · simp only [if_pos hd]
    exact hu.traceFirst
  · simp only [if_neg hd]
    exact hu.traceSecond

theorem trace_integrable {u : ℝ × ℝ → ℝ} (hu : EdgePolynomial k n V u) (z : MvPolynomial (Fin 2) ℝ) {e : Nat} (he : e < n) :
    IntervalIntegrable (fun t => ev2 z (segPoint (V e) (V ((e + 1) % n)) t) * u (segPoint (V e) (V ((e + 1) % n)) t)) volume 0 1 := by
  obtain ⟨r, -, hr⟩ := hu e he
  have hc : Continuous fun t : ℝ => ev2 z (segPoint (V e) (V ((e + 1) % n)) t) * r.eval t := by
    refine ((poly2_continuous z).comp ?_).mul r.continuous
    unfold segPoint
    fun_prop
  refine ContinuousOn.intervalIntegrable (hc.continuousOn.congr ?_)
  intro t ht
  rw [Set.uIcc_of_le zero_le_one] at ht
  dsimp only
  rw [hr t ht.1 ht.2]

/-- The flow through the boundary, by a rule on the edges. -/
theorem outflow_quad (hE : IsElement poly n V len dir nrm) {D : Nat} {bnd : EdgesRule ℝ} (hex : ExactOnSegment D (0 :: ts ++ [1]) (w :: ws ++ [w])) (hts : ∀ t ∈ ts, 0 ≤ t ∧ t ≤ 1)
    (hX : ∀ f : ℝ × ℝ → ℝ, quadSum bnd.points bnd.nx f = ∑ e ∈ Finset.range n, (V ((e + 1) % n) - V e).2 *
      quadSum (0 :: ts ++ [1]) (w :: ws ++ [w]) fun t => f (segPoint (polyEdge n V (dir e) e).1 (polyEdge n V (dir e) e).2 t))
    (hY : ∀ f : ℝ × ℝ → ℝ, quadSum bnd.points bnd.ny f = ∑ e ∈ Finset.range n, -(V ((e + 1) % n) - V e).1 *
      quadSum (0 :: ts ++ [1]) (w :: ws ++ [w]) fun t => f (segPoint (polyEdge n V (dir e) e).1 (polyEdge n V (dir e) e).2 t))
    {P : MvPolynomial (Fin 2) ℝ} {u : ℝ × ℝ → ℝ × ℝ} (hu : IsVelocity k m poly n V len nrm u P) {z : MvPolynomial (Fin 2) ℝ} (hz : z.totalDegree + k ≤ D) :
    quadU bnd.points bnd.nx (fun p => pick (u p) 0) z + quadU bnd.points bnd.ny (fun p => pick (u p) 1) z = outflow n V len nrm u (ev2 z) := by
  show quadSum _ _ _ + quadSum _ _ _ = _
  rw [hX, hY, ← Finset.sum_add_distrib]
  refine Finset.sum_congr rfl fun e he => ?_
  have he := Finset.mem_range.1 he
  obtain ⟨n1, n2⟩ := normal_parts hE he
  rw [edge_exact' hex hts (velocity_trace hu 0) hz he (dir e), edge_exact' hex hts (velocity_trace hu 1) hz he (dir e), ← n1, ← n2]
  have hi0 := trace_integrable (velocity_trace hu 0) z he
  have hi1 := trace_integrable (velocity_trace hu 1) z he
  have e1 : (fun t => ev2 z (segPoint (V e) (V ((e + 1) % n)) t) * dot2 (u (segPoint (V e) (V ((e + 1) % n)) t)) (nrm e))
      = fun t => (nrm e).1 * (ev2 z (segPoint (V e) (V ((e + 1) % n)) t) * pick (u (segPoint (V e) (V ((e + 1) % n)) t)) 0)
        + (nrm e).2 * (ev2 z (segPoint (V e) (V ((e + 1) % n)) t) * pick (u (segPoint (V e) (V ((e + 1) % n)) t)) 1) := by
    funext t
    simp only [pick, dot2, if_true, one_ne_zero, if_false]
    ring
  rw [e1, intervalIntegral.integral_add (hi0.const_mul _) (hi1.const_mul _), intervalIntegral.integral_const_mul, intervalIntegral.integral_const_mul]
  unfold segInt
  ring

theorem velocity_ok (hE : IsElement poly n V len dir nrm) (hT : IsDfTables k triangle edge ts ws w ss vs v₀) (hm : m + 1 ≤ k) {internal : Rule (ℝ × ℝ) ℝ} {bnd dofs : EdgesRule ℝ}
    (hR : RulesOk k n V len dir ts ws w poly.tris internal dofs) (hS : SegOk k n V dir ss vs v₀ bnd) {P : MvPolynomial (Fin 2) ℝ} {u : ℝ × ℝ → ℝ × ℝ}
    (hu : IsVelocity k m poly n V len nrm u P) {v : Nat → ℝ} (hv : IsVelocityDofs k m poly n V dir ts u P v) :
    VelOk k m n V poly.centroid poly.diameter poly.tris internal bnd dofs u (velocity_integrable hu) P v := by
  set c := poly.centroid
  set h := poly.diameter
  have hpts : dofs.points = dfPoints n V dir ts := hR.points
  have hlen : dofs.points.length = n + n * (k - 1) := by rw [hpts, dfPoints_length, hT.nodes]
  have hi0 := ev2_mul_integrable poly.tris hu.first
  have hi1 := ev2_mul_integrable poly.tris hu.second
  have hdeg := hu.degree
  have hint : ∀ a b, a + b ≤ k + 1 → quadLin internal.points internal.weights (basisPoly (k + 1) c h (position a b) * P)
      = ∫ p in unionOf poly.tris, scaledMonomial c h a b p * eval ![p.1, p.2] P := by
    intro a b hab
    rw [hR.integral]
    · refine integral_congr_ae (Filter.Eventually.of_forall fun p => ?_)
      dsimp only
      rw [← ev2_basis_position (k + 1) c h hab]
      simp only [ev2, map_mul]
    · have := basisPoly_degree (k + 1) c h (j := position a b) (m := k + 1) (by rw [num2_eq, position_lt]; exact hab) (by rw [position_lt]; exact hab)
      have := totalDegree_mul (basisPoly (k + 1) c h (position a b)) P
      omega
  refine ⟨hu.degree, velocity_trace hu, ?_, ?_, ?_, ?_, ?_⟩
  · intro d hd b p hb
    rw [hpts] at hb
    rw [hlen]
    rcases dfPoints_cases n V dir ts hb with ⟨hbn, rfl⟩ | ⟨e, he, i, t, hi, rfl, rfl⟩
    · rcases (by omega : d = 0 ∨ d = 1) with rfl | rfl
      · rw [zero_mul, zero_add]
        exact hv.vertexFirst b hbn
      · rw [one_mul]
        exact hv.vertexSecond b hbn
    · rw [hT.nodes]
      rcases (by omega : d = 0 ∨ d = 1) with rfl | rfl
      · rw [zero_mul, zero_add]
        exact hv.nodeFirst e he i t hi
      · rw [one_mul]
        exact hv.nodeSecond e he i t hi
  · intro l hl
    rw [hlen]
    have hk3 : 3 ≤ k := by
      by_contra hc
      have := hT.two
      rw [show k - 2 = 0 by omega] at hl
      exact absurd hl (by simp [tri])
    rw [show k - 2 = k - 3 + 1 by omega] at hl
    obtain ⟨a, b, hab, rfl⟩ := exists_position hl
    rw [hv.swirl a b (by omega)]
    show _ = (∫ p in unionOf poly.tris, ev2 _ p * pick (u p) 0) + ∫ p in unionOf poly.tris, ev2 _ p * pick (u p) 1
    have j0 : IntegrableOn (fun p => ev2 (gPoly k c h 0 (position a b)) p * pick (u p) 0) (unionOf poly.tris) := hi0 _
    have j1 : IntegrableOn (fun p => ev2 (gPoly k c h 1 (position a b)) p * pick (u p) 1) (unionOf poly.tris) := hi1 _
    refine Eq.trans ?_ (integral_add j0 j1)
    refine integral_congr_ae (Filter.Eventually.of_forall fun p => ?_)
    have b2 := ev2_basis_position 1 c h (show 0 + 1 ≤ 1 by omega) p
    have b1 := ev2_basis_position 1 c h (show 1 + 0 ≤ 1 by omega) p
    have b0 := ev2_basis_position k c h (show a + b ≤ k by omega) p
    rw [show position 0 1 = 2 from rfl] at b2
    rw [show position 1 0 = 1 from rfl] at b1
    have g0 : ev2 (gPoly k c h 0 (position a b)) p = scaledMonomial c h a b p * scaledMonomial c h 0 1 p := by
      rw [gPoly, if_pos rfl, ← b0, ← b2]
      simp only [ev2, map_mul]
    have g1 : ev2 (gPoly k c h 1 (position a b)) p = -(scaledMonomial c h a b p * scaledMonomial c h 1 0 p) := by
      rw [gPoly, if_neg one_ne_zero, ← b0, ← b1]
      simp only [ev2, map_mul, map_neg]
    dsimp only
    rw [g0, g1]
    simp only [pick, dot2, swirl, scaledMonomial, if_true, one_ne_zero, if_false, pow_zero, pow_one, one_mul, mul_one]
    ring
  · intro i h0 hi
    obtain ⟨a, b, hab, rfl⟩ := exists_position hi
    have hpos : 0 < a + b := by
      rcases Nat.eq_zero_or_pos (a + b) with h1 | h1
      · obtain rfl : a = 0 := by omega
        obtain rfl : b = 0 := by omega
        exact absurd h0 (by simp [position])
      · exact h1
    have := hv.divergence a b hpos hab
    rw [show (k - 2) * (k - 1) / 2 = tri (k - 2) by rw [← tri_div']; congr 3; have := hT.two; omega, ← hlen] at this
    rw [this, ← hint a b (by omega), basis_mono (Nat.le_succ k) c h]
    rw [position_lt]
    omega
  · have hq := outflow_quad hE hT.edgeExact hT.inside hR.anyX hR.anyY hu (z := 1) (by have := hT.two; rw [totalDegree_one]; omega)
    rw [hq]
    have h1 := hu.divergence 0 0 (by omega)
    have h2 := hint 0 0 (by omega)
    have e0 : position 0 0 = 0 := rfl
    rw [e0, basisPoly_zero, one_mul] at h2
    rw [h2, h1]
    have e1 : scaledMonomial c h 0 0 = ev2 1 := by
      funext p
      simp [scaledMonomial, ev2]
    have e2 : ∀ p, dot2 (gradMonomial c h 0 0 p) (u p) = 0 := by
      intro p
      simp [gradMonomial, dot2]
    rw [e1, integral_congr_ae (Filter.Eventually.of_forall e2), integral_zero, sub_zero]
  · intro j hj
    obtain ⟨a, b, hab, rfl⟩ := exists_position hj
    have hd := basisPoly_degree (k + 1) c h (j := position a b) (m := k + 1) (by rw [num2_eq, position_lt]; exact hab) (by rw [position_lt]; exact hab)
    rw [outflow_quad hE hT.segmentExact hT.segmentInside hS.anyX hS.anyY hu (by omega), hint a b hab, hu.divergence a b hab,
      show ev2 (basisPoly (k + 1) c h (position a b)) = scaledMonomial c h a b from funext fun p => ev2_basis_position (k + 1) c h hab p, sub_sub_cancel]
    show _ = (∫ p in unionOf poly.tris, ev2 _ p * pick (u p) 0) + ∫ p in unionOf poly.tris, ev2 _ p * pick (u p) 1
    have j0 : IntegrableOn (fun p => ev2 (pderiv 0 (basisPoly (k + 1) c h (position a b))) p * pick (u p) 0) (unionOf poly.tris) := hi0 _
    have j1 : IntegrableOn (fun p => ev2 (pderiv 1 (basisPoly (k + 1) c h (position a b))) p * pick (u p) 1) (unionOf poly.tris) := hi1 _
    refine Eq.trans ?_ (integral_add j0 j1)
    refine integral_congr_ae (Filter.Eventually.of_forall fun p => ?_)
    dsimp only
    rw [grad_ev2 (k + 1) c h hab]
    simp only [pick, dot2, if_true, one_ne_zero, if_false]

/-! ## The local space -/

/-- What `dfCreate2D` produces. -/
structure DfSpaceOk (k m n : Nat) (V : Nat → ℝ × ℝ) (len : Nat → ℝ) (dir : Nat → Bool) (ts ws : List ℝ) (w : ℝ) (ss vs : List ℝ) (v₀ : ℝ) (poly : VemPolygon ℝ) (s : DfSpace2D ℝ) :
    Prop where
  init : DfInitOk k m n V poly.centroid poly.diameter s.internal s.boundary.points s.dofs.points s.init
  rules : RulesOk k n V len dir ts ws w poly.tris s.internal s.dofs
  seg : SegOk k n V dir ss vs v₀ s.boundary
  discrete : Discrete k s.internal s.dofs
  wpos : ∀ x ∈ s.internal.weights, 0 ≤ x
  measure : s.measure = poly.measure
  w : WOk k m s.dofs.points.length s.dofs s.W
  v : VOk k m s.dofs.points.length poly.centroid poly.diameter s.internal s.W s.V
  nabla : ∀ d : Fin 2, NOk k m n V poly.centroid poly.diameter poly.tris s.internal s.boundary s.dofs d (pick s.piNabla d)
  dofs : ∀ d : Fin 2, DfDofsOk k m poly.centroid poly.diameter s.internal s.dofs.points d (pick s.D d)
  lowRows : ∀ d : Fin 2, (pick s.pi0km2 d).rows = tri (k - 1)
  lowCols : ∀ d : Fin 2, (pick s.pi0km2 d).cols = 2 * s.dofs.points.length + (tri (k - 2) + (tri (m + 1) - 1))
  low : ∀ d : Fin 2, ∀ u hu P v, VelOk k m n V poly.centroid poly.diameter poly.tris s.internal s.boundary s.dofs u hu P v → ∀ i < tri (k - 1),
    quadLin s.internal.points s.internal.weights (basisPoly k poly.centroid poly.diameter i *
      combo k poly.centroid poly.diameter (tri (k - 1)) (act (pick s.pi0km2 d) (pick s.pi0km2 d).cols v)) = intU poly.tris (hu d) (basisPoly k poly.centroid poly.diameter i)
  fullRows : ∀ d : Fin 2, (pick s.pi0k d).rows = tri (k + 1)
  fullCols : ∀ d : Fin 2, (pick s.pi0k d).cols = 2 * s.dofs.points.length + (tri (k - 2) + (tri (m + 1) - 1))
  full : ∀ d : Fin 2, ∃ F, FullOk k m n V poly.centroid poly.diameter poly.tris s.internal s.boundary s.dofs s.piNabla.1 s.piNabla.2 d F ∧ ∀ v : Nat → ℝ, ∀ i < tri (k + 1),
    quadLin s.internal.points s.internal.weights (basisPoly k poly.centroid poly.diameter i *
      combo k poly.centroid poly.diameter (tri (k + 1)) (act (pick s.pi0k d) (pick s.pi0k d).cols v)) = act F F.cols v i
  derRows : ∀ d1 d2 : Fin 2, (pick (pick s.der d1) d2).rows = tri k
  derCols : ∀ d1 d2 : Fin 2, (pick (pick s.der d1) d2).cols = 2 * s.dofs.points.length + (tri (k - 2) + (tri (m + 1) - 1))
  der : ∀ d1 d2 : Fin 2, ∃ E, DerivOk k m n V poly.centroid poly.diameter poly.tris s.internal s.boundary s.dofs d1 d2 E ∧ ∀ v : Nat → ℝ, ∀ i < tri k,
    quadLin s.internal.points s.internal.weights (basisPoly k poly.centroid poly.diameter i *
      combo k poly.centroid poly.diameter (tri k) (act (pick (pick s.der d1) d2) (pick (pick s.der d1) d2).cols v)) = act E E.cols v i

theorem divDegree_le (red : Bool) (hk : 2 ≤ k) : divDegree red k + 1 ≤ k := by
  unfold divDegree
  split_ifs <;> omega

theorem dfCreate_ok (red : Bool) (hE : IsElement poly n V len dir nrm) (hT : IsDfTables k triangle edge ts ws w ss vs v₀) (hsq : ∀ x, 0 ≤ x → sqrt x * sqrt x = x)
    (hlu : SolvesRegular lu) (hllt : SolvesPosDef llt) (harea : red = true → poly.measure = ∫ _p in unionOf poly.tris, (1 : ℝ)) :
    ∃ ref s, dfRef2D red triangle edge k = .ok ref ∧ dfCreate2D sqrt lu llt ref poly = .ok s ∧
      DfSpaceOk k (divDegree red k) n V len dir ts ws w ss vs v₀ poly s := by
  set m := divDegree red k with hm
  have hk := hT.two
  have hmk : m + 1 ≤ k := divDegree_le red hk
  have hh := hE.diameter
  have hle2 : tri (k - 1) ≤ tri (k + 1) := tri_le (by omega)
  have hle1 : tri k ≤ tri (k + 1) := tri_le (by omega)
  obtain ⟨g, hg, href⟩ := dfRef_ok red hT
  obtain ⟨internal, dofs, hq1, hq2, hR⟩ := rules_ok hE hT.toIsTables
  obtain ⟨bnd, hq3, hS⟩ := seg_ok (k := k) (v₀ := v₀) hE hT.segmentLength
  have hD : Discrete k internal dofs := discrete_ok hE hT.low hR
  have hpos : ∀ x ∈ internal.weights, 0 ≤ x := by
    obtain ⟨r, hr, hr'⟩ := C47_weights_nonneg (triangle (2 * k)) hT.triangleLength poly.tris hT.triangleWeights
    rw [hq1] at hr
    rw [Except.ok.inj hr]
    exact hr'
  obtain ⟨s, hs, hI⟩ := dfInit_ok (red := red) hE hk hT.nodes hT.segmentNodes hT.distinct hT.inside hT.segmentInside hsq hg internal hR.wlen hpos (triangle (2 * k)) (vs, (v₀, v₀))
    (ws, (w, w))
  rw [← hS.points, show dfPoints n V dir ts = dofs.points from hR.points.symm] at hs hI
  rw [← hm] at hI
  obtain ⟨D0, hd0, hD0⟩ := dfDofs_ok (red := red) hI hR.wlen 0
  obtain ⟨D1, hd1, hD1⟩ := dfDofs_ok (red := red) hI hR.wlen 1
  obtain ⟨W, X, hWX, hW, hX⟩ : ∃ W X, (if red then dfDivergenceReduced poly.measure s dofs else dfDivergence llt s dofs) = .ok (W, X) ∧ WOk k m dofs.points.length dofs W ∧
      VOk k m dofs.points.length poly.centroid poly.diameter internal W X := by
    by_cases hr : red = true
    · have hm0 : m = 0 := by rw [hm, hr]; rfl
      rw [hm0] at hI ⊢
      rw [if_pos hr]
      refine dfDivergenceReduced_ok hI hD hE.measure ?_
      rw [hR.integral 1 (by rw [totalDegree_one]; omega), harea hr]
      simp [ev2]
    · rw [if_neg hr]
      refine dfDivergence_ok hI hD hh hllt ?_
      rw [hm, divDegree, if_neg hr]
      omega
  have hx : bnd.nx.length = bnd.points.length := hS.xlen
  have hy : bnd.ny.length = bnd.points.length := hS.ylen
  obtain ⟨C0, hc0, hC0⟩ := dfC_ok (tris := poly.tris) hI hD hh (by omega) hg hx hy hW hX (d := 0) (by omega)
  obtain ⟨C1, hc1, hC1⟩ := dfC_ok (tris := poly.tris) hI hD hh (by omega) hg hx hy hW hX (d := 1) (by omega)
  obtain ⟨K0, k1, k2, k3, k4⟩ := block_spec (A := C0) (r := 0) (c := 0) (m := s.nkm2) (n := C0.cols) (by rw [hI.nkm2, hC0.rows]; omega) (by omega)
  obtain ⟨K1, l1, l2, l3, l4⟩ := block_spec (A := C1) (r := 0) (c := 0) (m := s.nkm2) (n := C1.cols) (by rw [hI.nkm2, hC1.rows]; omega) (by omega)
  rw [hI.nkm2] at k2 l2
  have k4' : ∀ i j, K0.ent i j = C0.ent i j := fun i j => by rw [k4, zero_add, zero_add]
  have l4' : ∀ i j, K1.ent i j = C1.ent i j := fun i j => by rw [l4, zero_add, zero_add]
  obtain ⟨G, hg', hG⟩ := dfG_ok (μ := poly.measure) hI hR.wlen
  obtain ⟨B0, hb0, hB0⟩ := dfB_ok (μ := poly.measure) hI hD hh hk (by omega) hC0 k2 k3 k4'
  obtain ⟨B1, hb1, hB1⟩ := dfB_ok (μ := poly.measure) hI hD hh hk (by omega) hC1 l2 l3 l4'
  have hN0 := nabla_ok hD hT.low hh hE.measure hlu hG hB0
  have hN1 := nabla_ok hD hT.low hh hE.measure hlu hG hB1
  obtain ⟨E, he, hEn⟩ := dfEnhanced_ok hI hR.wlen hN0 hN1
  obtain ⟨F0, hf0, hF0⟩ := dfCFull_ok hI hh hk hg hEn (by omega) hC0
  obtain ⟨F1, hf1, hF1⟩ := dfCFull_ok hI hh hk hg hEn (by omega) hC1
  obtain ⟨H2, hh1, hh2, hh3, hh4⟩ := block_spec (A := s.H) (r := 0) (c := 0) (m := s.nkm2) (n := s.nkm2) (by rw [hI.nkm2, hI.hRows]; omega) (by rw [hI.nkm2, hI.hCols]; omega)
  obtain ⟨H1, hi1, hi2, hi3, hi4⟩ := block_spec (A := s.H) (r := 0) (c := 0) (m := s.nkm1) (n := s.nkm1) (by rw [hI.nkm1, hI.hRows]; omega) (by rw [hI.nkm1, hI.hCols]; omega)
  obtain ⟨E00, e00, hE00⟩ := dfE_ok hI hD hh hk 0 0 hC0 k2 k3 k4'
  obtain ⟨E01, e01, hE01⟩ := dfE_ok hI hD hh hk 0 1 hC0 k2 k3 k4'
  obtain ⟨E10, e10, hE10⟩ := dfE_ok hI hD hh hk 1 0 hC1 l2 l3 l4'
  obtain ⟨E11, e11, hE11⟩ := dfE_ok hI hD hh hk 1 1 hC1 l2 l3 l4'
  rw [hI.nkm2] at hh2 hh3
  rw [hI.nkm1] at hi2 hi3
  have t2 : k - 2 + 1 = k - 1 := by omega
  have t1 : k - 1 + 1 = k := by omega
  -- the three Gram systems
  have gram2 : ∀ R : DMat ℝ, R.rows = tri (k - 1) → (llt H2 R).rows = tri (k - 1) ∧ (llt H2 R).cols = R.cols ∧ ∀ v : Nat → ℝ, ∀ i < tri (k - 1),
      quadLin internal.points internal.weights (basisPoly k poly.centroid poly.diameter i * combo k poly.centroid poly.diameter (tri (k - 1)) (act (llt H2 R) (llt H2 R).cols v))
        = act R R.cols v i := by
    intro R hr
    have := gram_solve' (c := poly.centroid) hD hh hllt (show k - 2 ≤ k by omega) H2 R (by rw [t2]; exact hh2) (by rw [t2]; exact hh3) (by
      rw [t2]
      intro i hi j hj
      rw [hh4, zero_add, zero_add, hI.hEnt i (by omega) j (by omega)]) (by rw [t2]; exact hr)
    rw [t2] at this
    exact ⟨this.1, this.2.1, by rw [this.2.1]; exact this.2.2⟩
  have gram1 : ∀ R : DMat ℝ, R.rows = tri k → (llt H1 R).rows = tri k ∧ (llt H1 R).cols = R.cols ∧ ∀ v : Nat → ℝ, ∀ i < tri k,
      quadLin internal.points internal.weights (basisPoly k poly.centroid poly.diameter i * combo k poly.centroid poly.diameter (tri k) (act (llt H1 R) (llt H1 R).cols v))
        = act R R.cols v i := by
    intro R hr
    have := gram_solve' (c := poly.centroid) hD hh hllt (show k - 1 ≤ k by omega) H1 R (by rw [t1]; exact hi2) (by rw [t1]; exact hi3) (by
      rw [t1]
      intro i hi j hj
      rw [hi4, zero_add, zero_add, hI.hEnt i (by omega) j (by omega)]) (by rw [t1]; exact hr)
    rw [t1] at this
    exact ⟨this.1, this.2.1, by rw [this.2.1]; exact this.2.2⟩
  have gram0 : ∀ R : DMat ℝ, R.rows = tri (k + 1) → (llt s.H R).rows = tri (k + 1) ∧ (llt s.H R).cols = R.cols ∧ ∀ v : Nat → ℝ, ∀ i < tri (k + 1),
      quadLin internal.points internal.weights (basisPoly k poly.centroid poly.diameter i * combo k poly.centroid poly.diameter (tri (k + 1)) (act (llt s.H R) (llt s.H R).cols v))
        = act R R.cols v i := by
    intro R hr
    have := gram_solve' (c := poly.centroid) hD hh hllt le_rfl s.H R hI.hRows hI.hCols hI.hEnt hr
    exact ⟨this.1, this.2.1, by rw [this.2.1]; exact this.2.2⟩
  have actK0 : ∀ v i, act K0 K0.cols v i = act C0 C0.cols v i := by
    intro v i
    unfold act
    rw [k3]
    exact Finset.sum_congr rfl fun b _ => by rw [k4']
  have actK1 : ∀ v i, act K1 K1.cols v i = act C1 C1.cols v i := by
    intro v i
    unfold act
    rw [l3]
    exact Finset.sum_congr rfl fun b _ => by rw [l4']
  refine ⟨_, ⟨s, internal, bnd, dofs, W, X, (D0, D1), (K0, K1), (F0, F1), G, (B0, B1), (lu G B0, lu G B1), (llt s.H F0, llt s.H F1),
    (llt H2 K0, llt H2 K1), ((llt H1 E00, llt H1 E01), (llt H1 E10, llt H1 E11)), poly.measure⟩, href, ?_, ?_⟩
  · unfold dfCreate2D
    dsimp only
    rw [hq1, except_ok_bind, hq3, except_ok_bind, hq2, except_ok_bind, hs, except_ok_bind]
    rw [show dfDofs red s internal.weights 0 = .ok D0 from hd0, except_ok_bind, show dfDofs red s internal.weights 1 = .ok D1 from hd1, except_ok_bind, hWX, except_ok_bind]
    dsimp only
    rw [hc0, except_ok_bind, hc1, except_ok_bind, k1, except_ok_bind, l1, except_ok_bind, hg', except_ok_bind, hb0, except_ok_bind, hb1, except_ok_bind, he, except_ok_bind, hf0,
      except_ok_bind, hf1, except_ok_bind, hh1, except_ok_bind]
    rw [show dfE (compute mono2 k) poly.diameter s dofs K0 0 0 = .ok E00 from e00, except_ok_bind, show dfE (compute mono2 k) poly.diameter s dofs K0 0 1 = .ok E01 from e01, except_ok_bind,
      show dfE (compute mono2 k) poly.diameter s dofs K1 1 0 = .ok E10 from e10, except_ok_bind, show dfE (compute mono2 k) poly.diameter s dofs K1 1 1 = .ok E11 from e11, except_ok_bind,
      hi1, except_ok_bind]
  · refine ⟨hI, hR, hS, hD, hpos, rfl, hW, hX, ?_, ?_, ?_, ?_, ?_, ?_, ?_, ?_, ?_, ?_, ?_⟩
    · exact Fin.forall_fin_two.2 ⟨hN0, hN1⟩
    · exact Fin.forall_fin_two.2 ⟨hD0, hD1⟩
    · exact Fin.forall_fin_two.2 ⟨(gram2 K0 k2).1, (gram2 K1 l2).1⟩
    · exact Fin.forall_fin_two.2 ⟨(gram2 K0 k2).2.1.trans (k3.trans hC0.cols), (gram2 K1 l2).2.1.trans (l3.trans hC1.cols)⟩
    · refine Fin.forall_fin_two.2 ⟨fun u hu P v hv i hi => ?_, fun u hu P v hv i hi => ?_⟩
      · exact ((gram2 K0 k2).2.2 v i hi).trans ((actK0 v i).trans (c_low hh hk (by omega) hC0 hv hi))
      · exact ((gram2 K1 l2).2.2 v i hi).trans ((actK1 v i).trans (c_low hh hk (by omega) hC1 hv hi))
    · exact Fin.forall_fin_two.2 ⟨(gram0 F0 hF0.rows).1, (gram0 F1 hF1.rows).1⟩
    · exact Fin.forall_fin_two.2 ⟨(gram0 F0 hF0.rows).2.1.trans hF0.cols, (gram0 F1 hF1.rows).2.1.trans hF1.cols⟩
    · exact Fin.forall_fin_two.2 ⟨⟨F0, hF0, (gram0 F0 hF0.rows).2.2⟩, ⟨F1, hF1, (gram0 F1 hF1.rows).2.2⟩⟩
    · exact Fin.forall_fin_two.2 ⟨Fin.forall_fin_two.2 ⟨(gram1 E00 hE00.rows).1, (gram1 E01 hE01.rows).1⟩, Fin.forall_fin_two.2 ⟨(gram1 E10 hE10.rows).1, (gram1 E11 hE11.rows).1⟩⟩
    · exact Fin.forall_fin_two.2 ⟨Fin.forall_fin_two.2 ⟨(gram1 E00 hE00.rows).2.1.trans hE00.cols, (gram1 E01 hE01.rows).2.1.trans hE01.cols⟩,
        Fin.forall_fin_two.2 ⟨(gram1 E10 hE10.rows).2.1.trans hE10.cols, (gram1 E11 hE11.rows).2.1.trans hE11.cols⟩⟩
    · exact Fin.forall_fin_two.2 ⟨Fin.forall_fin_two.2 ⟨⟨E00, hE00, (gram1 E00 hE00.rows).2.2⟩, ⟨E01, hE01, (gram1 E01 hE01.rows).2.2⟩⟩,
        Fin.forall_fin_two.2 ⟨⟨E10, hE10, (gram1 E10 hE10.rows).2.2⟩, ⟨E11, hE11, (gram1 E11 hE11.rows).2.2⟩⟩⟩

end PolyDiM
