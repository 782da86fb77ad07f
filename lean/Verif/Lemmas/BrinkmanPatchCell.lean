import Verif.Lemmas.BrinkmanFlow
import Verif.Lemmas.MixedPatch
import Verif.Props.VemDfEval
import Verif.Props.VemDfUnisolvence

/-!
# The terms of one cell, tested with a velocity
-/

namespace PolyDiM

open Spec MvPolynomial MeasureTheory

variable {k m n : Nat} {V : Nat → ℝ × ℝ} {len : Nat → ℝ} {dir : Nat → Bool} {nrm : Nat → ℝ × ℝ} {poly : VemPolygon ℝ}
  {triangle : Nat → Rule (ℝ × ℝ) ℝ} {edge : Nat → Rule ℝ ℝ} {ts ws ss vs : List ℝ} {w v₀ : ℝ} {sqrt : ℝ → ℝ} {lu llt : Solver ℝ} {s : DfSpace2D ℝ} {ref : DfRef2D ℝ}

/-- Component `d` of the elliptic projection. -/
noncomputable def nablaPoly (k : Nat) (poly : VemPolygon ℝ) (s : DfSpace2D ℝ) (v : Nat → ℝ) (d : Nat) : MvPolynomial (Fin 2) ℝ :=
  combo k poly.centroid poly.diameter (tri (k + 1)) (act (pick s.piNabla d) (pick s.piNabla d).cols v)

/-- Component `d` of the projection of degree `k`. -/
noncomputable def fullPoly (k : Nat) (poly : VemPolygon ℝ) (s : DfSpace2D ℝ) (v : Nat → ℝ) (d : Nat) : MvPolynomial (Fin 2) ℝ :=
  combo k poly.centroid poly.diameter (tri (k + 1)) (act (pick s.pi0k d) (pick s.pi0k d).cols v)

/-- The integral along the edges of the flux with components `F` times a function. -/
noncomputable def edgeFlux (n : Nat) (V : Nat → ℝ × ℝ) (F : MvPolynomial (Fin 2) ℝ × MvPolynomial (Fin 2) ℝ) (f : ℝ × ℝ → ℝ) : ℝ :=
  ∑ e ∈ Finset.range n, ((clockwise (V ((e + 1) % n) - V e)).1 * segInt (fun p => ev2 F.1 p * f p) (V e) (V ((e + 1) % n))
    + (clockwise (V ((e + 1) % n) - V e)).2 * segInt (fun p => ev2 F.2 p * f p) (V e) (V ((e + 1) % n)))

theorem seg_edgesX (hT : IsDfTables k triangle edge ts ws w ss vs v₀) (hs : DfSpaceOk k m n V len dir ts ws w ss vs v₀ poly s) {u : ℝ × ℝ → ℝ} (hu : EdgePolynomial k n V u)
    {z : MvPolynomial (Fin 2) ℝ} (hz : z.totalDegree ≤ k + 1) :
    quadU s.boundary.points s.boundary.nx u z = ∑ e ∈ Finset.range n, (clockwise (V ((e + 1) % n) - V e)).1 * segInt (fun p => ev2 z p * u p) (V e) (V ((e + 1) % n)) := by
  refine (hs.seg.anyX _).trans (Finset.sum_congr rfl fun e he => ?_)
  rw [edge_exact' hT.segmentExact hT.segmentInside hu (by omega) (Finset.mem_range.1 he)]
  rfl

theorem seg_edgesY (hT : IsDfTables k triangle edge ts ws w ss vs v₀) (hs : DfSpaceOk k m n V len dir ts ws w ss vs v₀ poly s) {u : ℝ × ℝ → ℝ} (hu : EdgePolynomial k n V u)
    {z : MvPolynomial (Fin 2) ℝ} (hz : z.totalDegree ≤ k + 1) :
    quadU s.boundary.points s.boundary.ny u z = ∑ e ∈ Finset.range n, (clockwise (V ((e + 1) % n) - V e)).2 * segInt (fun p => ev2 z p * u p) (V e) (V ((e + 1) % n)) := by
  refine (hs.seg.anyY _).trans (Finset.sum_congr rfl fun e he => ?_)
  rw [edge_exact' hT.segmentExact hT.segmentInside hu (by omega) (Finset.mem_range.1 he)]
  rfl

/-- A velocity with the degrees of freedom `v`, and what the projections know about it. -/
structure FlowReal (k m n : Nat) (V : Nat → ℝ × ℝ) (len : Nat → ℝ) (dir : Nat → Bool) (nrm : Nat → ℝ × ℝ) (ts : List ℝ) (poly : VemPolygon ℝ) (s : DfSpace2D ℝ) (v : Nat → ℝ)
    (u : ℝ × ℝ → ℝ × ℝ) (P : MvPolynomial (Fin 2) ℝ) : Prop where
  velocity : IsVelocity k m poly n V len nrm u P
  dofs : IsVelocityDofs k m poly n V dir ts u P v
  div : ∀ p, polyOf m poly.centroid poly.diameter (apply s.V v) p = ev2 P p
  energy : ∀ (d : Fin 2) (z : MvPolynomial (Fin 2) ℝ), z.totalDegree ≤ k →
    quadLin s.internal.points s.internal.weights (pderiv 0 z * pderiv 0 (nablaPoly k poly s v d)) + quadLin s.internal.points s.internal.weights (pderiv 1 z * pderiv 1 (nablaPoly k poly s v d))
      = edgeFlux n V (pderiv 0 z, pderiv 1 z) (fun p => pick (u p) d)
        - quadLin s.internal.points s.internal.weights ((pderiv 0 (pderiv 0 z) + pderiv 1 (pderiv 1 z)) * fullPoly k poly s v d)
  green : ∀ z : MvPolynomial (Fin 2) ℝ, z.totalDegree ≤ k + 1 → quadLin s.internal.points s.internal.weights (z * P)
      = edgeFlux n V (z, 0) (fun p => pick (u p) 0) + edgeFlux n V (0, z) (fun p => pick (u p) 1)
        - quadLin s.internal.points s.internal.weights (pderiv 0 z * fullPoly k poly s v 0) - quadLin s.internal.points s.internal.weights (pderiv 1 z * fullPoly k poly s v 1)

theorem ev2_zero_fun (f : ℝ × ℝ → ℝ) (A B : ℝ × ℝ) : segInt (fun p => ev2 0 p * f p) A B = 0 := by
  simp [segInt, ev2]

/-- Every vector holds the degrees of freedom of such a velocity. -/
theorem exists_real (red : Bool) (hE : IsElement poly n V len dir nrm) (hS : SimplePolygon n V) (hT : IsDfTables k triangle edge ts ws w ss vs v₀)
    (hsq : ∀ x, 0 ≤ x → sqrt x * sqrt x = x) (hlu : SolvesRegular lu) (hllt : SolvesPosDef llt)
    (harea : red = true → poly.measure = ∫ _p in unionOf poly.tris, (1 : ℝ)) (href : dfRef2D red triangle edge k = .ok ref) (hcr : dfCreate2D sqrt lu llt ref poly = .ok s)
    (hs : DfSpaceOk k (divDegree red k) n V len dir ts ws w ss vs v₀ poly s) (v : Nat → ℝ) :
    ∃ u P, FlowReal k (divDegree red k) n V len dir nrm ts poly s v u P := by
  have hk := hT.two
  obtain ⟨r1, s1, hr1, hc1, h1⟩ := C117_realized (sqrt := sqrt) red hE hS hT hsq hlu hllt harea
  obtain rfl : r1 = ref := Except.ok.inj (hr1.symm.trans href)
  obtain rfl : s1 = s := Except.ok.inj (hc1.symm.trans hcr)
  obtain ⟨u, P, hu, hv, henh⟩ := h1 v
  obtain ⟨r2, s2, hr2, hc2, h2⟩ := C109_divergence (sqrt := sqrt) red hE hT hsq hlu hllt harea
  obtain rfl : r2 = r1 := Except.ok.inj (hr2.symm.trans href)
  obtain rfl : s2 = s1 := Except.ok.inj (hc2.symm.trans hcr)
  obtain ⟨r3, s3, hr3, hc3, h3⟩ := C112_moments (sqrt := sqrt) red hE hT hsq hlu hllt harea
  obtain rfl : r3 = r2 := Except.ok.inj (hr3.symm.trans href)
  obtain rfl : s3 = s2 := Except.ok.inj (hc3.symm.trans hcr)
  have hV := velocity_ok hE hT (divDegree_le red hk) hs.rules hs.seg hu hv
  -- the moments
  have hmom : ∀ (d : Fin 2) (z : MvPolynomial (Fin 2) ℝ), z.totalDegree ≤ k → quadLin s3.internal.points s3.internal.weights (z * fullPoly k poly s3 v d)
      = intU poly.tris (velocity_integrable hu d) z := by
    intro d z hz
    have hb : ∀ i < tri (k + 1), quadLin s3.internal.points s3.internal.weights (basisPoly k poly.centroid poly.diameter i * fullPoly k poly s3 v d)
        = intU poly.tris (velocity_integrable hu d) (basisPoly k poly.centroid poly.diameter i) := by
      intro i hi
      obtain ⟨a, b, hab, rfl⟩ := exists_position hi
      have := h3 u P v hu hv a b hab (Or.inr henh)
      rw [fullPoly, df_moment hs hab le_rfl, df_intU _ hab]
      fin_cases d
      · exact this.1
      · exact this.2
    obtain ⟨x, rfl⟩ := basisPoly_span k poly.centroid poly.diameter hE.diameter le_rfl z hz
    rw [Finset.sum_mul, map_sum, map_sum]
    refine Finset.sum_congr rfl fun i hi => ?_
    rw [← smul_eq_C_mul, smul_mul_assoc, map_smul, map_smul, hb i (Finset.mem_range.1 hi)]
  refine ⟨u, P, hu, hv, h2 u P v hu hv, fun d z hz => ?_, fun z hz => ?_⟩
  · obtain ⟨x, hx⟩ := basisPoly_span k poly.centroid poly.diameter hE.diameter le_rfl z hz
    have hx' : z = combo k poly.centroid poly.diameter (tri (k + 1)) x := hx
    have h1 := (hs.nabla d).energy u _ P v hV x
    rw [← hx', energyRhs_apply, df_edgesX hT hs (velocity_trace hu d) (der_degree hz 0), df_edgesY hT hs (velocity_trace hu d) (der_degree hz 1), sub_sub] at h1
    have hd : (pderiv 0 (pderiv 0 z) + pderiv 1 (pderiv 1 z)).totalDegree ≤ k :=
      (totalDegree_add _ _).trans (max_le ((der_degree (der_degree hz 0) 0).trans (by omega)) ((der_degree (der_degree hz 1) 1).trans (by omega)))
    rw [hmom d _ hd, edgeFlux, Finset.sum_add_distrib, map_add (intU _ _)]
    exact h1
  · obtain ⟨x, rfl⟩ := basisPoly_span (k + 1) poly.centroid poly.diameter hE.diameter le_rfl z hz
    set z := ∑ j ∈ Finset.range (tri (k + 1 + 1)), C (x j) * basisPoly (k + 1) poly.centroid poly.diameter j with hzd
    have hg : quadU s3.boundary.points s3.boundary.nx (fun p => pick (u p) 0) z + quadU s3.boundary.points s3.boundary.ny (fun p => pick (u p) 1) z
        - quadLin s3.internal.points s3.internal.weights (z * P)
        = intU poly.tris (velocity_integrable hu 0) (pderiv 0 z) + intU poly.tris (velocity_integrable hu 1) (pderiv 1 z) := by
      rw [hzd, Finset.sum_mul]
      simp only [map_sum]
      rw [← Finset.sum_add_distrib, ← Finset.sum_sub_distrib, ← Finset.sum_add_distrib]
      refine Finset.sum_congr rfl fun j hj => ?_
      have := hV.green j (Finset.mem_range.1 hj)
      rw [← smul_eq_C_mul, smul_mul_assoc]
      simp only [map_smul, Derivation.map_smul, smul_eq_mul]
      rw [← mul_add, ← mul_sub, this, mul_add]
    rw [seg_edgesX hT hs (velocity_trace hu 0) hz, seg_edgesY hT hs (velocity_trace hu 1) hz, ← hmom 0 _ (der_degree hz 0), ← hmom 1 _ (der_degree hz 1)] at hg
    have e0 : edgeFlux n V (z, 0) (fun p => pick (u p) 0)
        = ∑ e ∈ Finset.range n, (clockwise (V ((e + 1) % n) - V e)).1 * segInt (fun p => ev2 z p * pick (u p) 0) (V e) (V ((e + 1) % n)) := by
      refine Finset.sum_congr rfl fun e _ => ?_
      rw [ev2_zero_fun, mul_zero, add_zero]
    have e1 : edgeFlux n V (0, z) (fun p => pick (u p) 1)
        = ∑ e ∈ Finset.range n, (clockwise (V ((e + 1) % n) - V e)).2 * segInt (fun p => ev2 z p * pick (u p) 1) (V e) (V ((e + 1) % n)) := by
      refine Finset.sum_congr rfl fun e _ => ?_
      rw [ev2_zero_fun, mul_zero, zero_add]
    rw [e0, e1]
    simp only [Fin.isValue, Fin.val_zero, Fin.val_one] at hg
    linarith

/-- The projections of the degrees of freedom of a vector polynomial. -/
theorem poly_real (red : Bool) (hE : IsElement poly n V len dir nrm) (hT : IsDfTables k triangle edge ts ws w ss vs v₀)
    (hs : DfSpaceOk k (divDegree red k) n V len dir ts ws w ss vs v₀ poly s) {q : MvPolynomial (Fin 2) ℝ × MvPolynomial (Fin 2) ℝ} (hq1 : q.1.totalDegree ≤ k)
    (hq2 : q.2.totalDegree ≤ k) (hred : red = true → (divPoly q).totalDegree = 0) {z : Nat → ℝ}
    (hz : IsVelocityDofs k (divDegree red k) poly n V dir ts (vectorPoly q) (divPoly q) z) :
    (∀ d : Fin 2, nablaPoly k poly s z d = pick q d) ∧ (∀ d : Fin 2, fullPoly k poly s z d = pick q d) ∧
      ∀ p, polyOf (divDegree red k) poly.centroid poly.diameter (apply s.V z) p = ev2 (divPoly q) p := by
  have hk := hT.two
  have hm := divDegree_le red hk
  set Q : Fin 2 → MvPolynomial (Fin 2) ℝ := fun d => pick q d with hQ
  have hQd : ∀ d, (Q d).totalDegree ≤ k := by
    intro d
    fin_cases d
    · exact hq1
    · exact hq2
  have hdiv : (pderiv 0 (Q 0) + pderiv 1 (Q 1)).totalDegree ≤ divDegree red k := by
    cases red with
    | true => exact (hred rfl).le.trans (Nat.zero_le _)
    | false => exact (totalDegree_add _ _).trans (max_le (der_degree (hQd 0) 0) (der_degree (hQd 1) 1))
  have hu := poly_velocity hE hs.rules hQd hdiv
  have hV := velocity_ok hE hT hm hs.rules hs.seg hu hz
  refine ⟨fun d => nabla_poly hE hT hs hQd hV d, fun d => full_poly hE hT hs hQd hV d, fun p => ?_⟩
  have h := div_exact hs.discrete hE.diameter (by omega) hV hs.w hs.v
  rw [df_polyOf (k := k) (by omega) rfl]
  exact congrArg (fun P => ev2 P p) h

/-- The flux `μ ∇q - p` of component `d`. -/
noncomputable def stressPoly (μ : ℝ) (q : MvPolynomial (Fin 2) ℝ × MvPolynomial (Fin 2) ℝ) (pr : MvPolynomial (Fin 2) ℝ) (d : Nat) : MvPolynomial (Fin 2) ℝ × MvPolynomial (Fin 2) ℝ :=
  if d = 0 then (C μ * pderiv 0 q.1 - pr, C μ * pderiv 1 q.1) else (C μ * pderiv 0 q.2, C μ * pderiv 1 q.2 - pr)

theorem trace_seg {u : ℝ × ℝ → ℝ} (hu : EdgePolynomial k n V u) (a b : ℝ) (z y : MvPolynomial (Fin 2) ℝ) {e : Nat} (he : e < n) :
    segInt (fun p => ev2 (C a * z + C b * y) p * u p) (V e) (V ((e + 1) % n))
      = a * segInt (fun p => ev2 z p * u p) (V e) (V ((e + 1) % n)) + b * segInt (fun p => ev2 y p * u p) (V e) (V ((e + 1) % n)) := by
  unfold segInt
  rw [← intervalIntegral.integral_const_mul, ← intervalIntegral.integral_const_mul,
    ← intervalIntegral.integral_add ((trace_integrable hu z he).const_mul a) ((trace_integrable hu y he).const_mul b)]
  refine intervalIntegral.integral_congr fun t _ => ?_
  simp only [ev2, map_add, map_mul, eval_C]
  ring

theorem edgeFlux_combine {u : ℝ × ℝ → ℝ} (hu : EdgePolynomial k n V u) (a b : ℝ) (F G : MvPolynomial (Fin 2) ℝ × MvPolynomial (Fin 2) ℝ) :
    edgeFlux n V (C a * F.1 + C b * G.1, C a * F.2 + C b * G.2) u = a * edgeFlux n V F u + b * edgeFlux n V G u := by
  simp only [edgeFlux]
  rw [Finset.mul_sum, Finset.mul_sum, ← Finset.sum_add_distrib]
  refine Finset.sum_congr rfl fun e he => ?_
  rw [trace_seg hu a b _ _ (Finset.mem_range.1 he), trace_seg hu a b _ _ (Finset.mem_range.1 he)]
  ring

/-- The residual of a polynomial solution on one cell is the flux through the boundary. -/
theorem flow_residual (red : Bool) (hE : IsElement poly n V len dir nrm) (hT : IsDfTables k triangle edge ts ws w ss vs v₀)
    (hs : DfSpaceOk k (divDegree red k) n V len dir ts ws w ss vs v₀ poly s) {q : MvPolynomial (Fin 2) ℝ × MvPolynomial (Fin 2) ℝ} (hq1 : q.1.totalDegree ≤ k)
    (hq2 : q.2.totalDegree ≤ k) (hred : red = true → (divPoly q).totalDegree = 0) {z : Nat → ℝ}
    (hz : IsVelocityDofs k (divDegree red k) poly n V dir ts (vectorPoly q) (divPoly q) z) {pr : MvPolynomial (Fin 2) ℝ} (hpr : pr.totalDegree ≤ k + 1) {p : Nat → ℝ}
    (hp : ∀ i < tri (divDegree red k + 1), quadLin s.internal.points s.internal.weights (basisPoly k poly.centroid poly.diameter i *
      (pr - combo k poly.centroid poly.diameter (tri (divDegree red k + 1)) p)) = 0)
    {test : DfTest ℝ} {μ : ℝ} (hμ : ∀ x, test.viscosity x = μ)
    (hsrc : ∀ x, ∀ a : Fin 2, test.source x a = -(μ * ev2 (pderiv 0 (pderiv 0 (pick q a)) + pderiv 1 (pderiv 1 (pick q a))) x)
      + (∑ b ∈ Finset.range 2, test.inverseDiffusion x (a.val + 3 * b) * component (vectorPoly q x) b) + ev2 (pderiv a pr) x)
    (hdiv : ∀ x, test.divergence x = ev2 (divPoly q) x) {v : Nat → ℝ} {u : ℝ × ℝ → ℝ × ℝ} {P : MvPolynomial (Fin 2) ℝ}
    (hv : FlowReal k (divDegree red k) n V len dir nrm ts poly s v u P) (r : Nat → ℝ) :
    flowForm k (divDegree red k) test poly s z v p r
      - (quadSum s.internal.points s.internal.weights fun x => test.source x 0 * polyOf k poly.centroid poly.diameter (apply s.pi0k.1 v) x
          + test.source x 1 * polyOf k poly.centroid poly.diameter (apply s.pi0k.2 v) x + test.divergence x * polyOf (divDegree red k) poly.centroid poly.diameter r x)
      = edgeFlux n V (stressPoly μ q pr 0) (fun p => pick (u p) 0) + edgeFlux n V (stressPoly μ q pr 1) (fun p => pick (u p) 1) := by
  have hk := hT.two
  have hm := divDegree_le red hk
  obtain ⟨z1, z2, z3⟩ := poly_real red hE hT hs hq1 hq2 hred hz
  set N := nablaPoly k poly s v with hN
  set Z := fullPoly k poly s v with hZ
  set ph := combo k poly.centroid poly.diameter (tri (divDegree red k + 1)) p with hph
  have gz0 : ∀ x, gradOf k poly.centroid poly.diameter (apply s.piNabla.1 z) x = (ev2 (pderiv 0 q.1) x, ev2 (pderiv 1 q.1) x) := by
    intro x
    rw [grad_combo]
    have : combo k poly.centroid poly.diameter (tri (k + 1)) (apply s.piNabla.1 z) = q.1 := z1 0
    rw [this]
  have gz1 : ∀ x, gradOf k poly.centroid poly.diameter (apply s.piNabla.2 z) x = (ev2 (pderiv 0 q.2) x, ev2 (pderiv 1 q.2) x) := by
    intro x
    rw [grad_combo]
    have : combo k poly.centroid poly.diameter (tri (k + 1)) (apply s.piNabla.2 z) = q.2 := z1 1
    rw [this]
  have gv0 : ∀ x, gradOf k poly.centroid poly.diameter (apply s.piNabla.1 v) x = (ev2 (pderiv 0 (N 0)) x, ev2 (pderiv 1 (N 0)) x) := fun x => grad_combo k _ _ _ x
  have gv1 : ∀ x, gradOf k poly.centroid poly.diameter (apply s.piNabla.2 v) x = (ev2 (pderiv 0 (N 1)) x, ev2 (pderiv 1 (N 1)) x) := fun x => grad_combo k _ _ _ x
  have pz0 : ∀ x, polyOf k poly.centroid poly.diameter (apply s.pi0k.1 z) x = ev2 q.1 x := by
    intro x
    rw [df_polyOf (k := k) le_rfl rfl]
    exact congrArg (fun P => ev2 P x) (z2 0)
  have pz1 : ∀ x, polyOf k poly.centroid poly.diameter (apply s.pi0k.2 z) x = ev2 q.2 x := by
    intro x
    rw [df_polyOf (k := k) le_rfl rfl]
    exact congrArg (fun P => ev2 P x) (z2 1)
  have pv0 : ∀ x, polyOf k poly.centroid poly.diameter (apply s.pi0k.1 v) x = ev2 (Z 0) x := fun x => df_polyOf (k := k) le_rfl rfl _ x
  have pv1 : ∀ x, polyOf k poly.centroid poly.diameter (apply s.pi0k.2 v) x = ev2 (Z 1) x := fun x => df_polyOf (k := k) le_rfl rfl _ x
  have pp : ∀ x, polyOf (divDegree red k) poly.centroid poly.diameter p x = ev2 ph x := fun x => df_polyOf (k := k) (by omega) rfl _ x
  set R : MvPolynomial (Fin 2) ℝ := C μ * (pderiv 0 q.1 * pderiv 0 (N 0) + pderiv 1 q.1 * pderiv 1 (N 0)) + C μ * (pderiv 0 q.2 * pderiv 0 (N 1) + pderiv 1 q.2 * pderiv 1 (N 1))
    - ph * P + C μ * ((pderiv 0 (pderiv 0 q.1) + pderiv 1 (pderiv 1 q.1)) * Z 0) + C μ * ((pderiv 0 (pderiv 0 q.2) + pderiv 1 (pderiv 1 q.2)) * Z 1)
    - pderiv 0 pr * Z 0 - pderiv 1 pr * Z 1 with hR
  have hpoint : flowForm k (divDegree red k) test poly s z v p r = (quadSum s.internal.points s.internal.weights fun x => (test.source x 0 * polyOf k poly.centroid poly.diameter (apply s.pi0k.1 v) x
          + test.source x 1 * polyOf k poly.centroid poly.diameter (apply s.pi0k.2 v) x + test.divergence x * polyOf (divDegree red k) poly.centroid poly.diameter r x) + ev2 R x) := by
    refine quadSum_congr _ _ fun x _ => ?_
    have s0 := hsrc x 0
    have s1 := hsrc x 1
    simp only [Fin.isValue, Fin.val_zero, Fin.val_one] at s0 s1
    rw [gz0, gz1, gv0, gv1, pz0, pz1, pv0, pv1, pp, z3, hv.div, s0, s1, hdiv]
    simp only [brinkmanIntegrand, hμ, dot2, Finset.sum_range_succ, Finset.sum_range_zero, component, vectorPoly, hR, ev2, map_add, map_sub, map_mul, eval_C, pick]
    simp only [if_true, one_ne_zero, if_false]
    ring
  rw [hpoint, quadSum_add, add_sub_cancel_left]
  show quadLin s.internal.points s.internal.weights R = _
  have hq : ∀ (a : ℝ) (y : MvPolynomial (Fin 2) ℝ), quadLin s.internal.points s.internal.weights (C a * y) = a * quadLin s.internal.points s.internal.weights y := by
    intro a y
    rw [← smul_eq_C_mul, map_smul, smul_eq_mul]
  have hprP : quadLin s.internal.points s.internal.weights (ph * P) = quadLin s.internal.points s.internal.weights (pr * P) := by
    obtain ⟨x, hx⟩ := basisPoly_span k poly.centroid poly.diameter hE.diameter (m := divDegree red k) (by omega) P hv.velocity.degree
    rw [eq_comm, ← sub_eq_zero, ← map_sub, ← sub_mul, hx, Finset.mul_sum, map_sum]
    refine Finset.sum_eq_zero fun i hi => ?_
    rw [mul_left_comm, hq, mul_comm _ (basisPoly _ _ _ i), hp i (Finset.mem_range.1 hi), mul_zero]
  have e0 := hv.energy 0 q.1 hq1
  have e1 := hv.energy 1 q.2 hq2
  have gr := hv.green pr hpr
  simp only [Fin.isValue, Fin.val_zero, Fin.val_one, ← hN, ← hZ] at e0 e1 gr
  have t0 := velocity_trace hv.velocity 0
  have t1 := velocity_trace hv.velocity 1
  have f0 := edgeFlux_combine t0 μ (-1) (pderiv 0 q.1, pderiv 1 q.1) (pr, 0)
  have f1 := edgeFlux_combine t1 μ (-1) (pderiv 0 q.2, pderiv 1 q.2) (0, pr)
  have c0 : stressPoly μ q pr 0 = (C μ * pderiv 0 q.1 + C (-1) * pr, C μ * pderiv 1 q.1 + C (-1) * 0) := by
    simp only [stressPoly, if_true, map_neg, map_one, neg_mul, one_mul, mul_zero, add_zero, sub_eq_add_neg]
  have c1 : stressPoly μ q pr 1 = (C μ * pderiv 0 q.2 + C (-1) * 0, C μ * pderiv 1 q.2 + C (-1) * pr) := by
    simp only [stressPoly, one_ne_zero, if_false, map_neg, map_one, neg_mul, one_mul, mul_zero, add_zero, sub_eq_add_neg]
  rw [c0, c1, f0, f1, hR]
  simp only [map_add, map_sub, hq]
  rw [hprP]
  linear_combination μ * e0 + μ * e1 - gr

end PolyDiM
