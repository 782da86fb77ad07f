import Verif.Lemmas.VemDfPoly
import Verif.Lemmas.VemDfExample
import Verif.Props.Vem

/-!
# C108-C113: the divergence-free virtual element
-/

namespace PolyDiM

open Spec MvPolynomial MeasureTheory

section
variable {k n : Nat} {V : Nat → ℝ × ℝ} {len : Nat → ℝ} {dir : Nat → Bool} {nrm : Nat → ℝ × ℝ} {poly : VemPolygon ℝ}
  {triangle : Nat → Rule (ℝ × ℝ) ℝ} {edge : Nat → Rule ℝ ℝ} {ts ws ss vs : List ℝ} {w v₀ : ℝ} {sqrt : ℝ → ℝ} {lu llt : Solver ℝ} {s : DfSpace2D ℝ} {m : Nat}

/-! ## Between sums and integrals -/

theorem df_length (hT : IsDfTables k triangle edge ts ws w ss vs v₀) (hs : DfSpaceOk k m n V len dir ts ws w ss vs v₀ poly s) : s.dofs.points.length = n + n * (k - 1) := by
  rw [hs.rules.points]
  exact (dfPoints_length n V dir ts).trans (by rw [hT.nodes])

theorem df_cols (hT : IsDfTables k triangle edge ts ws w ss vs v₀) (hs : DfSpaceOk k m n V len dir ts ws w ss vs v₀ poly s) :
    2 * s.dofs.points.length + (tri (k - 2) + (tri (m + 1) - 1)) = numVelocityDofs k m n := by
  have h1 : (k - 2) * (k - 1) / 2 = tri (k - 2) := by
    rw [← tri_div']
    congr 3
    have := hT.two
    omega
  have h2 : (m + 1) * (m + 2) / 2 = tri (m + 1) := tri_div m
  rw [df_length hT hs, numVelocityDofs, h1, h2, add_assoc]

theorem df_moment (hs : DfSpaceOk k m n V len dir ts ws w ss vs v₀ poly s) {a b j : Nat} (hab : a + b ≤ k) (hj : j ≤ k) (x : Nat → ℝ) :
    quadLin s.internal.points s.internal.weights (basisPoly k poly.centroid poly.diameter (position a b) * combo k poly.centroid poly.diameter (tri (j + 1)) x)
      = ∫ p in unionOf poly.tris, scaledMonomial poly.centroid poly.diameter a b p * polyOf j poly.centroid poly.diameter x p := by
  have h1 := basisPoly_degree k poly.centroid poly.diameter (j := position a b) (m := k) (by rw [num2_eq]; exact position_lt.2 hab) (position_lt.2 hab)
  have h2 := combo_degree (c := poly.centroid) (h := poly.diameter) x hj
  rw [hs.rules.integral _ ((totalDegree_mul _ _).trans (by omega))]
  congr 1
  funext p
  rw [← ev2_combo k _ _ hj, ← ev2_basis_position k _ _ hab]
  simp only [ev2, map_mul]

theorem df_intU {u : ℝ × ℝ → ℝ} (hu : IntegrableOn u (unionOf poly.tris)) {a b : Nat} (hab : a + b ≤ k) :
    intU poly.tris hu (basisPoly k poly.centroid poly.diameter (position a b)) = ∫ p in unionOf poly.tris, scaledMonomial poly.centroid poly.diameter a b p * u p := by
  show (∫ p in unionOf poly.tris, _) = _
  congr 1
  funext p
  rw [ev2_basis_position k _ _ hab]

theorem df_polyOf {j N : Nat} (hj : j ≤ k) (hN : j + 1 = N) (x : Nat → ℝ) (p : ℝ × ℝ) :
    polyOf j poly.centroid poly.diameter x p = ev2 (combo k poly.centroid poly.diameter (tri N) x) p := by
  rw [← hN, ev2_combo k _ _ hj]

/-- The components of the moment against a vector polynomial in terms of its trace. -/
theorem df_edgesX (hT : IsDfTables k triangle edge ts ws w ss vs v₀) (hs : DfSpaceOk k m n V len dir ts ws w ss vs v₀ poly s) {u : ℝ × ℝ → ℝ} (hu : EdgePolynomial k n V u)
    {z : MvPolynomial (Fin 2) ℝ} (hz : z.totalDegree ≤ k - 1) :
    quadU s.dofs.points s.dofs.nx u z = ∑ e ∈ Finset.range n, (clockwise (V ((e + 1) % n) - V e)).1 * segInt (fun p => ev2 z p * u p) (V e) (V ((e + 1) % n)) := by
  refine (hs.rules.anyX _).trans (Finset.sum_congr rfl fun e he => ?_)
  rw [edge_exact hT.toIsTables hT.inside hu hz (Finset.mem_range.1 he)]
  rfl

theorem df_edgesY (hT : IsDfTables k triangle edge ts ws w ss vs v₀) (hs : DfSpaceOk k m n V len dir ts ws w ss vs v₀ poly s) {u : ℝ × ℝ → ℝ} (hu : EdgePolynomial k n V u)
    {z : MvPolynomial (Fin 2) ℝ} (hz : z.totalDegree ≤ k - 1) :
    quadU s.dofs.points s.dofs.ny u z = ∑ e ∈ Finset.range n, (clockwise (V ((e + 1) % n) - V e)).2 * segInt (fun p => ev2 z p * u p) (V e) (V ((e + 1) % n)) := by
  refine (hs.rules.anyY _).trans (Finset.sum_congr rfl fun e he => ?_)
  rw [edge_exact hT.toIsTables hT.inside hu hz (Finset.mem_range.1 he)]
  rfl

/-! ## The properties -/

/-- C108: for every order from 2 the reference element and the local space are created without a fault, the numbers of DOFs of the reference element add
up to the number of basis functions, and every matrix has the size of its meaning. -/
theorem C108_create (red : Bool) (hE : IsElement poly n V len dir nrm) (hT : IsDfTables k triangle edge ts ws w ss vs v₀) (hsq : ∀ x, 0 ≤ x → sqrt x * sqrt x = x)
    (hlu : SolvesRegular lu) (hllt : SolvesPosDef llt) (harea : red = true → poly.measure = ∫ _p in unionOf poly.tris, (1 : ℝ)) :
    ∃ ref s, dfRef2D red triangle edge k = .ok ref ∧ dfCreate2D sqrt lu llt ref poly = .ok s ∧
      2 * (n * (1 + ref.dofs1D)) + ref.dofsBig + ref.dofsDiv = numVelocityDofs k (divDegree red k) n ∧ s.init.numBasis = numVelocityDofs k (divDegree red k) n ∧
      (s.V.rows = (divDegree red k + 1) * (divDegree red k + 2) / 2 ∧ s.V.cols = numVelocityDofs k (divDegree red k) n) ∧
      (∀ X, X = s.piNabla.1 ∨ X = s.piNabla.2 ∨ X = s.pi0k.1 ∨ X = s.pi0k.2 → X.rows = (k + 1) * (k + 2) / 2 ∧ X.cols = numVelocityDofs k (divDegree red k) n) ∧
      (∀ X, X = s.pi0km2.1 ∨ X = s.pi0km2.2 → X.rows = (k - 1) * k / 2 ∧ X.cols = numVelocityDofs k (divDegree red k) n) ∧
      (∀ X, X = s.der.1.1 ∨ X = s.der.1.2 ∨ X = s.der.2.1 ∨ X = s.der.2.2 → X.rows = k * (k + 1) / 2 ∧ X.cols = numVelocityDofs k (divDegree red k) n) ∧
      (∀ X, X = s.D.1 ∨ X = s.D.2 → X.rows = numVelocityDofs k (divDegree red k) n ∧ X.cols = (k + 1) * (k + 2) / 2) := by
  obtain ⟨ref, s, hr, hc, hs⟩ := dfCreate_ok (sqrt := sqrt) red hE hT hsq hlu hllt harea
  have hk := hT.two
  have hcols := df_cols hT hs
  refine ⟨ref, s, hr, hc, ?_, ?_, ?_, ?_, ?_, ?_, ?_⟩
  · obtain ⟨g, _, hg⟩ := dfRef_ok red hT
    rw [hr] at hg
    rw [Except.ok.inj hg, ← hcols, df_length hT hs]
    dsimp only
    rw [mul_add, mul_one]
    omega
  · rw [← hcols, hs.init.numBasis]
  · exact ⟨by rw [hs.v.rows, tri_div], by rw [hs.v.cols, hcols]⟩
  · rintro X (rfl | rfl | rfl | rfl)
    · exact ⟨by rw [tri_div]; exact (hs.nabla 0).rows, by rw [← hcols]; exact (hs.nabla 0).cols⟩
    · exact ⟨by rw [tri_div]; exact (hs.nabla 1).rows, by rw [← hcols]; exact (hs.nabla 1).cols⟩
    · exact ⟨by rw [tri_div]; exact hs.fullRows 0, by rw [← hcols]; exact hs.fullCols 0⟩
    · exact ⟨by rw [tri_div]; exact hs.fullRows 1, by rw [← hcols]; exact hs.fullCols 1⟩
  · have h1 : (k - 1) * k / 2 = tri (k - 1) := by rw [mul_comm, half_tri]
    rintro X (rfl | rfl)
    · exact ⟨by rw [h1]; exact hs.lowRows 0, by rw [← hcols]; exact hs.lowCols 0⟩
    · exact ⟨by rw [h1]; exact hs.lowRows 1, by rw [← hcols]; exact hs.lowCols 1⟩
  · rintro X (rfl | rfl | rfl | rfl)
    · exact ⟨by rw [tri_div']; exact hs.derRows 0 0, by rw [← hcols]; exact hs.derCols 0 0⟩
    · exact ⟨by rw [tri_div']; exact hs.derRows 0 1, by rw [← hcols]; exact hs.derCols 0 1⟩
    · exact ⟨by rw [tri_div']; exact hs.derRows 1 0, by rw [← hcols]; exact hs.derCols 1 0⟩
    · exact ⟨by rw [tri_div']; exact hs.derRows 1 1, by rw [← hcols]; exact hs.derCols 1 1⟩
  · rintro X (rfl | rfl)
    · exact ⟨by rw [← hcols]; exact (hs.dofs 0).rows, by rw [tri_div]; exact (hs.dofs 0).cols⟩
    · exact ⟨by rw [← hcols]; exact (hs.dofs 1).rows, by rw [tri_div]; exact (hs.dofs 1).cols⟩

/-- The unit square at order 2: 18 basis functions in the full space, 16 in the reduced one. -/
example (red : Bool) : ∃ lu llt : Solver ℝ, ∃ ref s,
    dfRef2D red (fun _ => ⟨boolePoints, booleWeights⟩) dfEdgeRules 2 = .ok ref ∧ dfCreate2D Real.sqrt lu llt ref squarePoly = .ok s ∧
    s.init.numBasis = (if red then 16 else 18) := by
  obtain ⟨lu, h1, h2⟩ := exists_solvers
  obtain ⟨ref, s, hr, hs, _, h, _⟩ := C108_create red square_element df_tables real_sqrt h1 h2 fun _ => square_area
  refine ⟨lu, lu, ref, s, hr, hs, h.trans ?_⟩
  cases red <;> rfl

/-- C109: applied to the DOFs of a velocity, `Vmatrix` gives the coefficients of its divergence. -/
theorem C109_divergence (red : Bool) (hE : IsElement poly n V len dir nrm) (hT : IsDfTables k triangle edge ts ws w ss vs v₀) (hsq : ∀ x, 0 ≤ x → sqrt x * sqrt x = x)
    (hlu : SolvesRegular lu) (hllt : SolvesPosDef llt) (harea : red = true → poly.measure = ∫ _p in unionOf poly.tris, (1 : ℝ)) :
    ∃ ref s, dfRef2D red triangle edge k = .ok ref ∧ dfCreate2D sqrt lu llt ref poly = .ok s ∧
      ∀ u P v, IsVelocity k (divDegree red k) poly n V len nrm u P → IsVelocityDofs k (divDegree red k) poly n V dir ts u P v →
        ∀ p : ℝ × ℝ, polyOf (divDegree red k) poly.centroid poly.diameter (apply s.V v) p = eval ![p.1, p.2] P := by
  obtain ⟨ref, s, hr, hc, hs⟩ := dfCreate_ok (sqrt := sqrt) red hE hT hsq hlu hllt harea
  have hm := divDegree_le red hT.two
  refine ⟨ref, s, hr, hc, fun u P v hu hv p => ?_⟩
  have hV := velocity_ok hE hT hm hs.rules hs.seg hu hv
  rw [df_polyOf (k := k) (by omega) rfl]
  have := div_exact hs.discrete hE.diameter (by omega) hV hs.w hs.v
  exact congrArg (fun r => ev2 r p) this

/-- The field `(x², -2xy)` on the unit square: its computed divergence is zero. -/
example (red : Bool) : ∃ lu llt : Solver ℝ, ∃ ref s v,
    dfRef2D red (fun _ => ⟨boolePoints, booleWeights⟩) dfEdgeRules 2 = .ok ref ∧ dfCreate2D Real.sqrt lu llt ref squarePoly = .ok s ∧
    IsVelocity 2 (divDegree red 2) squarePoly 4 squareV (fun _ => 1) squareN (vectorPoly squareQ) (divPoly squareQ) ∧
    IsVelocityDofs 2 (divDegree red 2) squarePoly 4 squareV (fun i => i % 2 = 0) [1 / 2] (vectorPoly squareQ) (divPoly squareQ) v ∧
    ∀ p : ℝ × ℝ, polyOf (divDegree red 2) squarePoly.centroid squarePoly.diameter (apply s.V v) p = 0 := by
  obtain ⟨lu, h1, h2⟩ := exists_solvers
  obtain ⟨ref, s, hr, hs, h⟩ := C109_divergence red square_element df_tables real_sqrt h1 h2 fun _ => square_area
  obtain ⟨v, hu, hv⟩ := square_velocity red
  refine ⟨lu, lu, ref, s, v, hr, hs, hu, hv, fun p => (h _ _ _ hu hv p).trans ?_⟩
  rw [squareQ_div, map_zero]

/-- C110: the projection `Pi0km2` of a velocity has its moments up to degree `k - 2`. -/
theorem C110_moments (red : Bool) (hE : IsElement poly n V len dir nrm) (hT : IsDfTables k triangle edge ts ws w ss vs v₀) (hsq : ∀ x, 0 ≤ x → sqrt x * sqrt x = x)
    (hlu : SolvesRegular lu) (hllt : SolvesPosDef llt) (harea : red = true → poly.measure = ∫ _p in unionOf poly.tris, (1 : ℝ)) :
    ∃ ref s, dfRef2D red triangle edge k = .ok ref ∧ dfCreate2D sqrt lu llt ref poly = .ok s ∧
      ∀ u P v, IsVelocity k (divDegree red k) poly n V len nrm u P → IsVelocityDofs k (divDegree red k) poly n V dir ts u P v → ∀ a b, a + b + 2 ≤ k →
        ∫ p in unionOf poly.tris, scaledMonomial poly.centroid poly.diameter a b p * polyOf (k - 2) poly.centroid poly.diameter (apply s.pi0km2.1 v) p
          = ∫ p in unionOf poly.tris, scaledMonomial poly.centroid poly.diameter a b p * (u p).1 ∧
        ∫ p in unionOf poly.tris, scaledMonomial poly.centroid poly.diameter a b p * polyOf (k - 2) poly.centroid poly.diameter (apply s.pi0km2.2 v) p
          = ∫ p in unionOf poly.tris, scaledMonomial poly.centroid poly.diameter a b p * (u p).2 := by
  obtain ⟨ref, s, hr, hc, hs⟩ := dfCreate_ok (sqrt := sqrt) red hE hT hsq hlu hllt harea
  have hk := hT.two
  refine ⟨ref, s, hr, hc, fun u P v hu hv a b hab => ?_⟩
  have hV := velocity_ok hE hT (divDegree_le red hk) hs.rules hs.seg hu hv
  have key : ∀ d : Fin 2, ∫ p in unionOf poly.tris, scaledMonomial poly.centroid poly.diameter a b p * polyOf (k - 2) poly.centroid poly.diameter (apply (pick s.pi0km2 d) v) p
      = ∫ p in unionOf poly.tris, scaledMonomial poly.centroid poly.diameter a b p * pick (u p) d := by
    intro d
    have hl : position a b < tri (k - 2 + 1) := position_lt.2 (by omega)
    rw [← df_moment hs (by omega) (by omega), ← df_intU (k := k) (velocity_integrable hu d) (by omega), show k - 2 + 1 = k - 1 by omega]
    exact hs.low d u _ P v hV _ (by rwa [show k - 2 + 1 = k - 1 by omega] at hl)
  exact ⟨key 0, key 1⟩

/-- The mean of the field `(x², -2xy)` on the unit square. -/
example (red : Bool) : ∃ lu llt : Solver ℝ, ∃ ref s v,
    dfRef2D red (fun _ => ⟨boolePoints, booleWeights⟩) dfEdgeRules 2 = .ok ref ∧ dfCreate2D Real.sqrt lu llt ref squarePoly = .ok s ∧
    IsVelocity 2 (divDegree red 2) squarePoly 4 squareV (fun _ => 1) squareN (vectorPoly squareQ) (divPoly squareQ) ∧
    IsVelocityDofs 2 (divDegree red 2) squarePoly 4 squareV (fun i => i % 2 = 0) [1 / 2] (vectorPoly squareQ) (divPoly squareQ) v ∧
    ∫ p in unionOf squarePoly.tris, scaledMonomial squarePoly.centroid squarePoly.diameter 0 0 p * polyOf 0 squarePoly.centroid squarePoly.diameter (apply s.pi0km2.1 v) p
      = ∫ p in unionOf squarePoly.tris, scaledMonomial squarePoly.centroid squarePoly.diameter 0 0 p * (vectorPoly squareQ p).1 := by
  obtain ⟨lu, h1, h2⟩ := exists_solvers
  obtain ⟨ref, s, hr, hs, h⟩ := C110_moments red square_element df_tables real_sqrt h1 h2 fun _ => square_area
  obtain ⟨v, hu, hv⟩ := square_velocity red
  exact ⟨lu, lu, ref, s, v, hr, hs, hu, hv, (h _ _ _ hu hv 0 0 le_rfl).1⟩

/-- C111: each component of the energy projection of a velocity is the polynomial `Q` that satisfies the equations of the energy projection: its energy
product with every polynomial `z` of degree at most `k` is the one of the velocity after integration by parts, and its mean is the one of the velocity. -/
theorem C111_energy (red : Bool) (hE : IsElement poly n V len dir nrm) (hT : IsDfTables k triangle edge ts ws w ss vs v₀) (hsq : ∀ x, 0 ≤ x → sqrt x * sqrt x = x)
    (hlu : SolvesRegular lu) (hllt : SolvesPosDef llt) (harea : red = true → poly.measure = ∫ _p in unionOf poly.tris, (1 : ℝ)) :
    ∃ ref s, dfRef2D red triangle edge k = .ok ref ∧ dfCreate2D sqrt lu llt ref poly = .ok s ∧
      ∀ u P v, IsVelocity k (divDegree red k) poly n V len nrm u P → IsVelocityDofs k (divDegree red k) poly n V dir ts u P v →
        ∀ (X : DMat ℝ) (f : ℝ × ℝ → ℝ), (X = s.piNabla.1 ∧ f = fun p => (u p).1) ∨ (X = s.piNabla.2 ∧ f = fun p => (u p).2) →
          ∃ Q : MvPolynomial (Fin 2) ℝ, Q.totalDegree ≤ k ∧ (∀ p : ℝ × ℝ, polyOf k poly.centroid poly.diameter (apply X v) p = eval ![p.1, p.2] Q) ∧
            (∀ z : MvPolynomial (Fin 2) ℝ, z.totalDegree ≤ k →
              ∫ p in unionOf poly.tris, (eval ![p.1, p.2] (pderiv 0 z) * eval ![p.1, p.2] (pderiv 0 Q) + eval ![p.1, p.2] (pderiv 1 z) * eval ![p.1, p.2] (pderiv 1 Q))
                = (∑ e ∈ Finset.range n, ((clockwise (V ((e + 1) % n) - V e)).1 * segInt (fun p => eval ![p.1, p.2] (pderiv 0 z) * f p) (V e) (V ((e + 1) % n))
                    + (clockwise (V ((e + 1) % n) - V e)).2 * segInt (fun p => eval ![p.1, p.2] (pderiv 1 z) * f p) (V e) (V ((e + 1) % n))))
                  - ∫ p in unionOf poly.tris, eval ![p.1, p.2] (pderiv 0 (pderiv 0 z) + pderiv 1 (pderiv 1 z)) * f p) ∧
            ∫ p in unionOf poly.tris, eval ![p.1, p.2] Q = ∫ p in unionOf poly.tris, f p := by
  obtain ⟨ref, s, hr, hc, hs⟩ := dfCreate_ok (sqrt := sqrt) red hE hT hsq hlu hllt harea
  have hk := hT.two
  refine ⟨ref, s, hr, hc, fun u P v hu hv => ?_⟩
  have hV := velocity_ok hE hT (divDegree_le red hk) hs.rules hs.seg hu hv
  have key : ∀ d : Fin 2, ∃ Q : MvPolynomial (Fin 2) ℝ, Q.totalDegree ≤ k ∧ (∀ p : ℝ × ℝ, polyOf k poly.centroid poly.diameter (apply (pick s.piNabla d) v) p = eval ![p.1, p.2] Q) ∧
      (∀ z : MvPolynomial (Fin 2) ℝ, z.totalDegree ≤ k →
        ∫ p in unionOf poly.tris, (eval ![p.1, p.2] (pderiv 0 z) * eval ![p.1, p.2] (pderiv 0 Q) + eval ![p.1, p.2] (pderiv 1 z) * eval ![p.1, p.2] (pderiv 1 Q))
          = (∑ e ∈ Finset.range n, ((clockwise (V ((e + 1) % n) - V e)).1 * segInt (fun p => eval ![p.1, p.2] (pderiv 0 z) * pick (u p) d) (V e) (V ((e + 1) % n))
              + (clockwise (V ((e + 1) % n) - V e)).2 * segInt (fun p => eval ![p.1, p.2] (pderiv 1 z) * pick (u p) d) (V e) (V ((e + 1) % n))))
            - ∫ p in unionOf poly.tris, eval ![p.1, p.2] (pderiv 0 (pderiv 0 z) + pderiv 1 (pderiv 1 z)) * pick (u p) d) ∧
      ∫ p in unionOf poly.tris, eval ![p.1, p.2] Q = ∫ p in unionOf poly.tris, pick (u p) d := by
    intro d
    set Q := combo k poly.centroid poly.diameter (tri (k + 1)) (act (pick s.piNabla d) (pick s.piNabla d).cols v) with hQ
    have hQd : Q.totalDegree ≤ k := combo_degree _ le_rfl
    have hud := velocity_integrable hu d
    have hue := velocity_trace hu d
    refine ⟨Q, hQd, fun p => df_polyOf le_rfl rfl _ p, fun z hz => ?_, ?_⟩
    · obtain ⟨x, hx⟩ := basisPoly_span k poly.centroid poly.diameter hE.diameter le_rfl z hz
      have hx' : z = combo k poly.centroid poly.diameter (tri (k + 1)) x := hx
      have h1 := (hs.nabla d).energy u _ P v hV x
      rw [← hx', ← hQ, energyRhs_apply, ← map_add] at h1
      have z0 := der_degree hz 0
      have z1 := der_degree hz 1
      have q0 := der_degree hQd 0
      have q1 := der_degree hQd 1
      have hdeg : (pderiv 0 z * pderiv 0 Q + pderiv 1 z * pderiv 1 Q).totalDegree ≤ 2 * k := by
        refine (totalDegree_add _ _).trans (max_le ?_ ?_) <;> refine (totalDegree_mul _ _).trans ?_ <;> omega
      rw [hs.rules.integral _ hdeg] at h1
      have e3 : intU poly.tris hud (pderiv 0 (pderiv 0 z)) + intU poly.tris hud (pderiv 1 (pderiv 1 z))
          = ∫ p in unionOf poly.tris, ev2 (pderiv 0 (pderiv 0 z) + pderiv 1 (pderiv 1 z)) p * pick (u p) d := by
        rw [← map_add]
        rfl
      refine Eq.trans ?_ (h1.trans ?_)
      · congr 1
        funext p
        simp only [ev2, map_add, map_mul]
      · rw [df_edgesX hT hs hue z0, df_edgesY hT hs hue z1, sub_sub, e3, Finset.sum_add_distrib]
    · have hm := (hs.nabla d).mean u _ P v hV
      rw [← hQ, hs.rules.integral Q (by omega)] at hm
      refine hm.trans ?_
      show (∫ p in unionOf poly.tris, ev2 1 p * pick (u p) d) = _
      congr 1
      funext p
      simp [ev2]
  rintro X f (⟨rfl, rfl⟩ | ⟨rfl, rfl⟩)
  · exact key 0
  · exact key 1

/-- The energy projection of the field `(x², -2xy)` on the unit square has its mean. -/
example (red : Bool) : ∃ lu llt : Solver ℝ, ∃ ref s v, ∃ Q : MvPolynomial (Fin 2) ℝ,
    dfRef2D red (fun _ => ⟨boolePoints, booleWeights⟩) dfEdgeRules 2 = .ok ref ∧ dfCreate2D Real.sqrt lu llt ref squarePoly = .ok s ∧
    IsVelocity 2 (divDegree red 2) squarePoly 4 squareV (fun _ => 1) squareN (vectorPoly squareQ) (divPoly squareQ) ∧
    IsVelocityDofs 2 (divDegree red 2) squarePoly 4 squareV (fun i => i % 2 = 0) [1 / 2] (vectorPoly squareQ) (divPoly squareQ) v ∧
    (∀ p : ℝ × ℝ, polyOf 2 squarePoly.centroid squarePoly.diameter (apply s.piNabla.2 v) p = eval ![p.1, p.2] Q) ∧
    ∫ p in unionOf squarePoly.tris, eval ![p.1, p.2] Q = ∫ p in unionOf squarePoly.tris, (vectorPoly squareQ p).2 := by
  obtain ⟨lu, h1, h2⟩ := exists_solvers
  obtain ⟨ref, s, hr, hs, h⟩ := C111_energy red square_element df_tables real_sqrt h1 h2 fun _ => square_area
  obtain ⟨v, hu, hv⟩ := square_velocity red
  obtain ⟨Q, _, h3, _, h4⟩ := h _ _ _ hu hv _ _ (Or.inr ⟨rfl, rfl⟩)
  exact ⟨lu, lu, ref, s, v, Q, hr, hs, hu, hv, h3, h4⟩

/-- C111, C112: the energy projection and the L2 projection of degree `k` map the DOFs of a vector polynomial of degree at most `k` to its coefficients; in
the reduced space this needs a constant divergence. -/
theorem C111_exact (red : Bool) (hE : IsElement poly n V len dir nrm) (hT : IsDfTables k triangle edge ts ws w ss vs v₀) (hsq : ∀ x, 0 ≤ x → sqrt x * sqrt x = x)
    (hlu : SolvesRegular lu) (hllt : SolvesPosDef llt) (harea : red = true → poly.measure = ∫ _p in unionOf poly.tris, (1 : ℝ)) :
    ∃ ref s, dfRef2D red triangle edge k = .ok ref ∧ dfCreate2D sqrt lu llt ref poly = .ok s ∧
      ∀ q v, q.1.totalDegree ≤ k → q.2.totalDegree ≤ k → (red = true → (divPoly q).totalDegree = 0) →
        IsVelocityDofs k (divDegree red k) poly n V dir ts (vectorPoly q) (divPoly q) v → ∀ p : ℝ × ℝ,
          polyOf k poly.centroid poly.diameter (apply s.piNabla.1 v) p = eval ![p.1, p.2] q.1 ∧
          polyOf k poly.centroid poly.diameter (apply s.piNabla.2 v) p = eval ![p.1, p.2] q.2 ∧
          polyOf k poly.centroid poly.diameter (apply s.pi0k.1 v) p = eval ![p.1, p.2] q.1 ∧
          polyOf k poly.centroid poly.diameter (apply s.pi0k.2 v) p = eval ![p.1, p.2] q.2 := by
  obtain ⟨ref, s, hr, hc, hs⟩ := dfCreate_ok (sqrt := sqrt) red hE hT hsq hlu hllt harea
  have hk := hT.two
  refine ⟨ref, s, hr, hc, fun q v h1 h2 hd hv p => ?_⟩
  have hq : ∀ d : Fin 2, ((![q.1, q.2] : Fin 2 → MvPolynomial (Fin 2) ℝ) d).totalDegree ≤ k := Fin.forall_fin_two.2 ⟨h1, h2⟩
  have hm : (divPoly q).totalDegree ≤ divDegree red k := by
    cases red with
    | true => rw [hd rfl]; exact Nat.zero_le _
    | false =>
      refine (totalDegree_add _ _).trans (max_le ?_ ?_)
      · exact der_degree h1 0
      · exact der_degree h2 1
  have hu : IsVelocity k (divDegree red k) poly n V len nrm (vectorPoly q) (divPoly q) := poly_velocity hE hs.rules hq hm
  have hV := velocity_ok hE hT (divDegree_le red hk) hs.rules hs.seg hu hv
  have n0 := nabla_poly hE hT hs hq (q := ![q.1, q.2]) (P := divPoly q) hV 0
  have n1 := nabla_poly hE hT hs hq (q := ![q.1, q.2]) (P := divPoly q) hV 1
  have f0 := full_poly hE hT hs hq (q := ![q.1, q.2]) (P := divPoly q) hV 0
  have f1 := full_poly hE hT hs hq (q := ![q.1, q.2]) (P := divPoly q) hV 1
  refine ⟨?_, ?_, ?_, ?_⟩
  · rw [df_polyOf (k := k) le_rfl rfl]
    exact congrArg (fun r => ev2 r p) n0
  · rw [df_polyOf (k := k) le_rfl rfl]
    exact congrArg (fun r => ev2 r p) n1
  · rw [df_polyOf (k := k) le_rfl rfl]
    exact congrArg (fun r => ev2 r p) f0
  · rw [df_polyOf (k := k) le_rfl rfl]
    exact congrArg (fun r => ev2 r p) f1

/-- The projections of the field `(x², -2xy)` on the unit square. -/
example (red : Bool) : ∃ lu llt : Solver ℝ, ∃ ref s v,
    dfRef2D red (fun _ => ⟨boolePoints, booleWeights⟩) dfEdgeRules 2 = .ok ref ∧ dfCreate2D Real.sqrt lu llt ref squarePoly = .ok s ∧
    IsVelocity 2 (divDegree red 2) squarePoly 4 squareV (fun _ => 1) squareN (vectorPoly squareQ) (divPoly squareQ) ∧
    IsVelocityDofs 2 (divDegree red 2) squarePoly 4 squareV (fun i => i % 2 = 0) [1 / 2] (vectorPoly squareQ) (divPoly squareQ) v ∧
    ∀ p : ℝ × ℝ, polyOf 2 squarePoly.centroid squarePoly.diameter (apply s.piNabla.1 v) p = p.1 * p.1 ∧
      polyOf 2 squarePoly.centroid squarePoly.diameter (apply s.pi0k.2 v) p = -2 * p.1 * p.2 := by
  obtain ⟨lu, h1, h2⟩ := exists_solvers
  obtain ⟨ref, s, hr, hs, h⟩ := C111_exact red square_element df_tables real_sqrt h1 h2 fun _ => square_area
  obtain ⟨v, hu, hv⟩ := square_velocity red
  refine ⟨lu, lu, ref, s, v, hr, hs, hu, hv, fun p => ?_⟩
  obtain ⟨h3, _, _, h4⟩ := h _ v squareQ_degree.1 squareQ_degree.2 (fun _ => by rw [squareQ_div, totalDegree_zero]) hv p
  exact ⟨h3.trans (by simp [squareQ]), h4.trans (by simp [squareQ])⟩

/-- C112: the projection `Pi0k` of a velocity has its moments up to degree `k - 2`; it has those up to degree `k` if the velocity is enhanced, that is, if its
moments against the orthogonal fields of degree `k - 1` and `k` are those of its energy projection. -/
theorem C112_moments (red : Bool) (hE : IsElement poly n V len dir nrm) (hT : IsDfTables k triangle edge ts ws w ss vs v₀) (hsq : ∀ x, 0 ≤ x → sqrt x * sqrt x = x)
    (hlu : SolvesRegular lu) (hllt : SolvesPosDef llt) (harea : red = true → poly.measure = ∫ _p in unionOf poly.tris, (1 : ℝ)) :
    ∃ ref s, dfRef2D red triangle edge k = .ok ref ∧ dfCreate2D sqrt lu llt ref poly = .ok s ∧
      ∀ u P v, IsVelocity k (divDegree red k) poly n V len nrm u P → IsVelocityDofs k (divDegree red k) poly n V dir ts u P v → ∀ a b, a + b ≤ k →
        (a + b + 2 ≤ k ∨ ∀ a b, k ≤ a + b + 2 → a + b + 1 ≤ k → swirlMoment poly u a b
          = swirlMoment poly (fun p => (polyOf k poly.centroid poly.diameter (apply s.piNabla.1 v) p, polyOf k poly.centroid poly.diameter (apply s.piNabla.2 v) p)) a b) →
        ∫ p in unionOf poly.tris, scaledMonomial poly.centroid poly.diameter a b p * polyOf k poly.centroid poly.diameter (apply s.pi0k.1 v) p
          = ∫ p in unionOf poly.tris, scaledMonomial poly.centroid poly.diameter a b p * (u p).1 ∧
        ∫ p in unionOf poly.tris, scaledMonomial poly.centroid poly.diameter a b p * polyOf k poly.centroid poly.diameter (apply s.pi0k.2 v) p
          = ∫ p in unionOf poly.tris, scaledMonomial poly.centroid poly.diameter a b p * (u p).2 := by
  obtain ⟨ref, s, hr, hc, hs⟩ := dfCreate_ok (sqrt := sqrt) red hE hT hsq hlu hllt harea
  have hk := hT.two
  refine ⟨ref, s, hr, hc, fun u P v hu hv a b hab hor => ?_⟩
  have hV := velocity_ok hE hT (divDegree_le red hk) hs.rules hs.seg hu hv
  have key : ∀ d : Fin 2, ∫ p in unionOf poly.tris, scaledMonomial poly.centroid poly.diameter a b p * polyOf k poly.centroid poly.diameter (apply (pick s.pi0k d) v) p
      = ∫ p in unionOf poly.tris, scaledMonomial poly.centroid poly.diameter a b p * pick (u p) d := by
    intro d
    rw [← df_moment hs hab le_rfl, ← df_intU (k := k) (velocity_integrable hu d) hab]
    rcases hor with hlow | henh
    · obtain ⟨F, hF, hFe⟩ := hs.full d
      refine (hFe v _ (position_lt.2 hab)).trans (hF.low u _ P v hV _ ?_)
      have := (position_lt (k := k - 2) (a := a) (b := b)).2 (by omega)
      rwa [show k - 2 + 1 = k - 1 by omega] at this
    · refine full_moments hE hT hs hV ?_ d (position_lt.2 hab)
      intro l hl0 hl
      obtain ⟨a', b', hab', rfl⟩ := exists_position (m := k - 1) (l := l) (by rwa [show k - 1 + 1 = k by omega])
      have hge : k ≤ a' + b' + 2 := by
        by_contra hlt
        have := (position_lt (k := k - 3) (a := a') (b := b')).2 (by omega)
        rw [show k - 3 + 1 = k - 2 by omega] at this
        omega
      set N : Fin 2 → MvPolynomial (Fin 2) ℝ := fun d => combo k poly.centroid poly.diameter (tri (k + 1)) (act (pick s.piNabla d) (pick s.piNabla d).cols v) with hN
      have hNd : ∀ d, (N d).totalDegree ≤ k := fun d => combo_degree _ le_rfl
      have hNi : ∀ d : Nat, IntegrableOn (fun p => pick ((ev2 (N 0) p, ev2 (N 1) p) : ℝ × ℝ) d) (unionOf poly.tris) := by
        intro d
        unfold pick
        split_ifs
        · exact ev2_integrable _ _
        · exact ev2_integrable _ _
      have h1 := henh a' b' hge (by omega)
      have e : (fun p => (polyOf k poly.centroid poly.diameter (apply s.piNabla.1 v) p, polyOf k poly.centroid poly.diameter (apply s.piNabla.2 v) p))
          = fun p => (ev2 (N 0) p, ev2 (N 1) p) := by
        funext p
        rw [df_polyOf (k := k) le_rfl rfl, df_polyOf (k := k) le_rfl rfl]
        rfl
      rw [e, swirl_intU (k := k) (velocity_integrable hu) (by omega), swirl_intU (k := k) hNi (by omega)] at h1
      rw [h1]
      have hgd : ∀ d : Nat, (gPoly k poly.centroid poly.diameter d (position a' b')).totalDegree ≤ k := by
        intro d
        have hp : position a' b' < tri k := by
          have := (position_lt (k := k - 1) (a := a') (b := b')).2 hab'
          rwa [show k - 1 + 1 = k by omega] at this
        exact gPoly_degree (by omega) hp d
      have i0 := intU_poly hs hNi 0 (z := gPoly k poly.centroid poly.diameter 0 (position a' b')) ((totalDegree_mul _ _).trans (by have := hgd 0; have := hNd 0; omega))
      have i1 := intU_poly hs hNi 1 (z := gPoly k poly.centroid poly.diameter 1 (position a' b')) ((totalDegree_mul _ _).trans (by have := hgd 1; have := hNd 1; omega))
      exact (congrArg₂ (· + ·) i0 i1).symm
  exact ⟨key 0, key 1⟩

/-- The field `(x², -2xy)` on the unit square is enhanced: its second moments are those of its projection. -/
example (red : Bool) : ∃ lu llt : Solver ℝ, ∃ ref s v,
    dfRef2D red (fun _ => ⟨boolePoints, booleWeights⟩) dfEdgeRules 2 = .ok ref ∧ dfCreate2D Real.sqrt lu llt ref squarePoly = .ok s ∧
    IsVelocity 2 (divDegree red 2) squarePoly 4 squareV (fun _ => 1) squareN (vectorPoly squareQ) (divPoly squareQ) ∧
    IsVelocityDofs 2 (divDegree red 2) squarePoly 4 squareV (fun i => i % 2 = 0) [1 / 2] (vectorPoly squareQ) (divPoly squareQ) v ∧
    ∫ p in unionOf squarePoly.tris, scaledMonomial squarePoly.centroid squarePoly.diameter 1 1 p * polyOf 2 squarePoly.centroid squarePoly.diameter (apply s.pi0k.1 v) p
      = ∫ p in unionOf squarePoly.tris, scaledMonomial squarePoly.centroid squarePoly.diameter 1 1 p * (vectorPoly squareQ p).1 := by
  obtain ⟨lu, h1, h2⟩ := exists_solvers
  obtain ⟨ref, s, hr, hs, h⟩ := C112_moments red square_element df_tables real_sqrt h1 h2 fun _ => square_area
  obtain ⟨ref', s', hr', hs', h'⟩ := C111_exact red square_element df_tables real_sqrt h1 h2 fun _ => square_area
  obtain rfl : ref' = ref := Except.ok.inj (hr'.symm.trans hr)
  obtain rfl : s' = s := Except.ok.inj (hs'.symm.trans hs)
  obtain ⟨v, hu, hv⟩ := square_velocity red
  refine ⟨lu, lu, ref', s', v, hr, hs, hu, hv, (h _ _ _ hu hv 1 1 le_rfl (Or.inr fun a b _ _ => ?_)).1⟩
  congr 1
  funext p
  obtain ⟨h3, h4, _⟩ := h' _ v squareQ_degree.1 squareQ_degree.2 (fun _ => by rw [squareQ_div, totalDegree_zero]) hv p
  exact Prod.ext h3.symm h4.symm

/-- C113: the projections `Pi0km1Der` of a velocity are the L2 projections of its partial derivatives after integration by parts. -/
theorem C113_derivatives (red : Bool) (hE : IsElement poly n V len dir nrm) (hT : IsDfTables k triangle edge ts ws w ss vs v₀) (hsq : ∀ x, 0 ≤ x → sqrt x * sqrt x = x)
    (hlu : SolvesRegular lu) (hllt : SolvesPosDef llt) (harea : red = true → poly.measure = ∫ _p in unionOf poly.tris, (1 : ℝ)) :
    ∃ ref s, dfRef2D red triangle edge k = .ok ref ∧ dfCreate2D sqrt lu llt ref poly = .ok s ∧
      ∀ u P v, IsVelocity k (divDegree red k) poly n V len nrm u P → IsVelocityDofs k (divDegree red k) poly n V dir ts u P v →
        ∀ (X Y : DMat ℝ) (f : ℝ × ℝ → ℝ), (X = s.der.1.1 ∧ Y = s.der.1.2 ∧ f = fun p => (u p).1) ∨ (X = s.der.2.1 ∧ Y = s.der.2.2 ∧ f = fun p => (u p).2) →
          ∀ z : MvPolynomial (Fin 2) ℝ, z.totalDegree ≤ k - 1 →
            (∫ p in unionOf poly.tris, eval ![p.1, p.2] z * polyOf (k - 1) poly.centroid poly.diameter (apply X v) p
              = (∑ e ∈ Finset.range n, (clockwise (V ((e + 1) % n) - V e)).1 * segInt (fun p => eval ![p.1, p.2] z * f p) (V e) (V ((e + 1) % n)))
                - ∫ p in unionOf poly.tris, eval ![p.1, p.2] (pderiv 0 z) * f p) ∧
            (∫ p in unionOf poly.tris, eval ![p.1, p.2] z * polyOf (k - 1) poly.centroid poly.diameter (apply Y v) p
              = (∑ e ∈ Finset.range n, (clockwise (V ((e + 1) % n) - V e)).2 * segInt (fun p => eval ![p.1, p.2] z * f p) (V e) (V ((e + 1) % n)))
                - ∫ p in unionOf poly.tris, eval ![p.1, p.2] (pderiv 1 z) * f p) := by
  obtain ⟨ref, s, hr, hc, hs⟩ := dfCreate_ok (sqrt := sqrt) red hE hT hsq hlu hllt harea
  have hk := hT.two
  have hkk : k - 1 + 1 = k := by omega
  refine ⟨ref, s, hr, hc, fun u P v hu hv => ?_⟩
  have hV := velocity_ok hE hT (divDegree_le red hk) hs.rules hs.seg hu hv
  have key : ∀ (d1 d2 : Fin 2) (z : MvPolynomial (Fin 2) ℝ), z.totalDegree ≤ k - 1 →
      ∫ p in unionOf poly.tris, ev2 z p * polyOf (k - 1) poly.centroid poly.diameter (apply (pick (pick s.der d1) d2) v) p
        = quadU s.dofs.points (if (d2 : Nat) = 0 then s.dofs.nx else s.dofs.ny) (fun p => pick (u p) d1) z
          - ∫ p in unionOf poly.tris, ev2 (pderiv d2 z) p * pick (u p) d1 := by
    intro d1 d2 z hz
    obtain ⟨x, hx⟩ := basisPoly_span k poly.centroid poly.diameter hE.diameter (show k - 1 ≤ k by omega) z hz
    rw [hkk] at hx
    obtain ⟨E, hE1, hE2⟩ := hs.der d1 d2
    set Z := combo k poly.centroid poly.diameter (tri k) (act (pick (pick s.der d1) d2) (pick (pick s.der d1) d2).cols v) with hZ
    have hZd : Z.totalDegree ≤ k - 1 := by
      have := combo_degree (k := k) (c := poly.centroid) (h := poly.diameter) (act (pick (pick s.der d1) d2) (pick (pick s.der d1) d2).cols v) (show k - 1 ≤ k by omega)
      rwa [hkk] at this
    have e1 : (∫ p in unionOf poly.tris, ev2 z p * polyOf (k - 1) poly.centroid poly.diameter (apply (pick (pick s.der d1) d2) v) p)
        = quadLin s.internal.points s.internal.weights (z * Z) := by
      rw [hs.rules.integral _ ((totalDegree_mul _ _).trans (by omega))]
      congr 1
      funext p
      rw [df_polyOf (k := k) (by omega) hkk]
      simp only [ev2, map_mul]
      rfl
    rw [e1]
    show _ = _ - intU poly.tris (velocity_integrable hu d1) (pderiv d2 z)
    rw [hx, Finset.sum_mul, map_sum, map_sum, map_sum, map_sum, ← Finset.sum_sub_distrib]
    refine Finset.sum_congr rfl fun i hi => ?_
    rw [mul_assoc, quadLin_C_mul, hE2 v i (Finset.mem_range.1 hi), hE1.act u _ P v hV i (Finset.mem_range.1 hi), Derivation.leibniz, pderiv_C, smul_zero, add_zero]
    simp only [smul_eq_mul, C_mul', map_smul]
    ring
  have key' : ∀ (d1 : Fin 2) (z : MvPolynomial (Fin 2) ℝ), z.totalDegree ≤ k - 1 →
      (∫ p in unionOf poly.tris, ev2 z p * polyOf (k - 1) poly.centroid poly.diameter (apply (pick (pick s.der d1) 0) v) p
        = (∑ e ∈ Finset.range n, (clockwise (V ((e + 1) % n) - V e)).1 * segInt (fun p => ev2 z p * pick (u p) d1) (V e) (V ((e + 1) % n)))
          - ∫ p in unionOf poly.tris, ev2 (pderiv 0 z) p * pick (u p) d1) ∧
      (∫ p in unionOf poly.tris, ev2 z p * polyOf (k - 1) poly.centroid poly.diameter (apply (pick (pick s.der d1) 1) v) p
        = (∑ e ∈ Finset.range n, (clockwise (V ((e + 1) % n) - V e)).2 * segInt (fun p => ev2 z p * pick (u p) d1) (V e) (V ((e + 1) % n)))
          - ∫ p in unionOf poly.tris, ev2 (pderiv 1 z) p * pick (u p) d1) := by
    intro d1 z hz
    rw [← df_edgesX hT hs (velocity_trace hu d1) hz, ← df_edgesY hT hs (velocity_trace hu d1) hz]
    exact ⟨key d1 0 z hz, key d1 1 z hz⟩
  rintro X Y f (⟨rfl, rfl, rfl⟩ | ⟨rfl, rfl, rfl⟩)
  · exact key' 0
  · exact key' 1

/-- The field `(x², -2xy)` on the unit square: the mean of the derivative of the second component. -/
example (red : Bool) : ∃ lu llt : Solver ℝ, ∃ ref s v,
    dfRef2D red (fun _ => ⟨boolePoints, booleWeights⟩) dfEdgeRules 2 = .ok ref ∧ dfCreate2D Real.sqrt lu llt ref squarePoly = .ok s ∧
    IsVelocity 2 (divDegree red 2) squarePoly 4 squareV (fun _ => 1) squareN (vectorPoly squareQ) (divPoly squareQ) ∧
    IsVelocityDofs 2 (divDegree red 2) squarePoly 4 squareV (fun i => i % 2 = 0) [1 / 2] (vectorPoly squareQ) (divPoly squareQ) v ∧
    ∫ p in unionOf squarePoly.tris, eval ![p.1, p.2] (1 : MvPolynomial (Fin 2) ℝ) * polyOf 1 squarePoly.centroid squarePoly.diameter (apply s.der.2.1 v) p
      = (∑ e ∈ Finset.range 4, (clockwise (squareV ((e + 1) % 4) - squareV e)).1 *
          segInt (fun p => eval ![p.1, p.2] (1 : MvPolynomial (Fin 2) ℝ) * (vectorPoly squareQ p).2) (squareV e) (squareV ((e + 1) % 4)))
        - ∫ p in unionOf squarePoly.tris, eval ![p.1, p.2] (pderiv 0 (1 : MvPolynomial (Fin 2) ℝ)) * (vectorPoly squareQ p).2 := by
  obtain ⟨lu, h1, h2⟩ := exists_solvers
  obtain ⟨ref, s, hr, hs, h⟩ := C113_derivatives red square_element df_tables real_sqrt h1 h2 fun _ => square_area
  obtain ⟨v, hu, hv⟩ := square_velocity red
  exact ⟨lu, lu, ref, s, v, hr, hs, hu, hv, (h _ _ _ hu hv _ _ _ (Or.inr ⟨rfl, rfl, rfl⟩) 1 (by rw [totalDegree_one]; norm_num)).1⟩

/-- C113: the projections of the derivatives map the DOFs of a vector polynomial of degree at most `k` to the coefficients of its partial derivatives. -/
theorem C113_exact (red : Bool) (hE : IsElement poly n V len dir nrm) (hT : IsDfTables k triangle edge ts ws w ss vs v₀) (hsq : ∀ x, 0 ≤ x → sqrt x * sqrt x = x)
    (hlu : SolvesRegular lu) (hllt : SolvesPosDef llt) (harea : red = true → poly.measure = ∫ _p in unionOf poly.tris, (1 : ℝ)) :
    ∃ ref s, dfRef2D red triangle edge k = .ok ref ∧ dfCreate2D sqrt lu llt ref poly = .ok s ∧
      ∀ q v, q.1.totalDegree ≤ k → q.2.totalDegree ≤ k → (red = true → (divPoly q).totalDegree = 0) →
        IsVelocityDofs k (divDegree red k) poly n V dir ts (vectorPoly q) (divPoly q) v → ∀ p : ℝ × ℝ,
          polyOf (k - 1) poly.centroid poly.diameter (apply s.der.1.1 v) p = eval ![p.1, p.2] (pderiv 0 q.1) ∧
          polyOf (k - 1) poly.centroid poly.diameter (apply s.der.1.2 v) p = eval ![p.1, p.2] (pderiv 1 q.1) ∧
          polyOf (k - 1) poly.centroid poly.diameter (apply s.der.2.1 v) p = eval ![p.1, p.2] (pderiv 0 q.2) ∧
          polyOf (k - 1) poly.centroid poly.diameter (apply s.der.2.2 v) p = eval ![p.1, p.2] (pderiv 1 q.2) := by
  obtain ⟨ref, s, hr, hc, hs⟩ := dfCreate_ok (sqrt := sqrt) red hE hT hsq hlu hllt harea
  have hk := hT.two
  have hkk : k - 1 + 1 = k := by omega
  refine ⟨ref, s, hr, hc, fun q v h1 h2 hd hv p => ?_⟩
  have hq : ∀ d : Fin 2, ((![q.1, q.2] : Fin 2 → MvPolynomial (Fin 2) ℝ) d).totalDegree ≤ k := Fin.forall_fin_two.2 ⟨h1, h2⟩
  have hm : (divPoly q).totalDegree ≤ divDegree red k := by
    cases red with
    | true => rw [hd rfl]; exact Nat.zero_le _
    | false =>
      refine (totalDegree_add _ _).trans (max_le ?_ ?_)
      · exact der_degree h1 0
      · exact der_degree h2 1
  have hu : IsVelocity k (divDegree red k) poly n V len nrm (vectorPoly q) (divPoly q) := poly_velocity hE hs.rules hq hm
  have hV := velocity_ok hE hT (divDegree_le red hk) hs.rules hs.seg hu hv
  have key : ∀ (d1 d2 : Fin 2) (r : MvPolynomial (Fin 2) ℝ), pderiv d2 ((![q.1, q.2] : Fin 2 → MvPolynomial (Fin 2) ℝ) d1) = r →
      polyOf (k - 1) poly.centroid poly.diameter (apply (pick (pick s.der d1) d2) v) p = ev2 r p := by
    intro d1 d2 r hr
    have := der_poly hE hT hs hq (q := ![q.1, q.2]) (P := divPoly q) hV d1 d2
    rw [df_polyOf (k := k) (by omega) hkk, ← hr, ← this]
    rfl
  exact ⟨key 0 0 _ rfl, key 0 1 _ rfl, key 1 0 _ rfl, key 1 1 _ rfl⟩

/-- The derivatives of the field `(x², -2xy)` on the unit square. -/
example (red : Bool) : ∃ lu llt : Solver ℝ, ∃ ref s v,
    dfRef2D red (fun _ => ⟨boolePoints, booleWeights⟩) dfEdgeRules 2 = .ok ref ∧ dfCreate2D Real.sqrt lu llt ref squarePoly = .ok s ∧
    IsVelocity 2 (divDegree red 2) squarePoly 4 squareV (fun _ => 1) squareN (vectorPoly squareQ) (divPoly squareQ) ∧
    IsVelocityDofs 2 (divDegree red 2) squarePoly 4 squareV (fun i => i % 2 = 0) [1 / 2] (vectorPoly squareQ) (divPoly squareQ) v ∧
    ∀ p : ℝ × ℝ, polyOf 1 squarePoly.centroid squarePoly.diameter (apply s.der.2.2 v) p = -2 * p.1 := by
  obtain ⟨lu, h1, h2⟩ := exists_solvers
  obtain ⟨ref, s, hr, hs, h⟩ := C113_exact red square_element df_tables real_sqrt h1 h2 fun _ => square_area
  obtain ⟨v, hu, hv⟩ := square_velocity red
  refine ⟨lu, lu, ref, s, v, hr, hs, hu, hv, fun p => ?_⟩
  obtain ⟨_, _, _, h4⟩ := h _ v squareQ_degree.1 squareQ_degree.2 (fun _ => by rw [squareQ_div, totalDegree_zero]) hv p
  exact h4.trans (by simp [squareQ, pderiv_X])

end

end PolyDiM
