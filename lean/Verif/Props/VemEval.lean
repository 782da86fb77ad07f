import Verif.Props.Vem
import Verif.Props.Lagrange
import Verif.Props.VemStab
import Verif.Lemmas.VemEval
import Verif.Spec.TetMesh

/-!
# Values of the VEM basis functions and stabilization of the VEM local space (C72, C74-C77)
-/

namespace PolyDiM

open Spec MvPolynomial MeasureTheory

section
variable {k n : Nat} {V : Nat → ℝ × ℝ} {len : Nat → ℝ} {dir : Nat → Bool} {nrm : Nat → ℝ × ℝ} {poly : VemPolygon ℝ}
  {triangle : Nat → Rule (ℝ × ℝ) ℝ} {edge : Nat → Rule ℝ ℝ} {ts ws : List ℝ} {w : ℝ} {lu llt : Solver ℝ}

/-- C74: at any points the values of the L2 projections of the basis functions are computed: row `i` applied to the DOFs of a function is the
value of its projection at the `i`-th point. Any other type of projection is refused. -/
theorem C74_values (hE : IsElement poly n V len dir nrm) (hT : IsTables k triangle edge ts ws w) (hlu : SolvesRegular lu) (hllt : SolvesPosDef llt) :
    ∃ ref s, vemRef2D triangle edge k = .ok ref ∧ vemCreate2D lu llt ref poly = .ok s ∧ ∀ points : List (ℝ × ℝ),
      (∃ A, vemValuesAt ref poly s .pi0k points = .ok A ∧ A.rows = points.length ∧ A.cols = n + n * (k - 1) + k * (k - 1) / 2 ∧
        ∀ (v : Nat → ℝ) (i : Nat) (p : ℝ × ℝ), points[i]? = some p → apply A v i = polyOf k poly.centroid poly.diameter (apply s.pi0k v) p) ∧
      (∃ A, vemValuesAt ref poly s .pi0km1 points = .ok A ∧ A.rows = points.length ∧ A.cols = n + n * (k - 1) + k * (k - 1) / 2 ∧
        ∀ (v : Nat → ℝ) (i : Nat) (p : ℝ × ℝ), points[i]? = some p → apply A v i = polyOf (k - 1) poly.centroid poly.diameter (apply s.pi0km1 v) p) ∧
      ∀ type, type ≠ .pi0k → type ≠ .pi0km1 → vemValuesAt ref poly s type points = .error .runtimeError := by
  obtain ⟨ref, s, hr, hc, hs⟩ := vemCreate_ok hE hT hlu hllt
  have hk := hT.low
  have hm : ref.mono = compute mono2 k := by
    rw [vemRef_ok hT] at hr
    rw [← Except.ok.inj hr]
  refine ⟨ref, s, hr, hc, fun points => ?_⟩
  obtain ⟨W, _, _, hW, _, _, _, hW1, _, _⟩ := polyDer_ok hm poly points
  refine ⟨?_, ?_, ?_⟩
  · obtain ⟨M, hM, h1, h2, h3⟩ := values_mul hW1 s.pi0k hs.l2.zRows
    refine ⟨M, ?_, h1, by rw [h2, hs.l2.zCols, ← hs.length, half_tri], fun v i p hp => ?_⟩
    · unfold vemValuesAt vemBasisValues
      rw [hW, except_ok_bind, hM]
    · rw [h3 v i p hp, ← ev2_combo k _ _ le_rfl]
      rfl
  · obtain ⟨W', hW', hW1'⟩ := values_left hW1 (N' := tri k) (by rw [tri_succ]; omega)
    obtain ⟨M, hM, h1, h2, h3⟩ := values_mul hW1' s.pi0km1 hs.l2.yRows
    refine ⟨M, ?_, h1, by rw [h2, hs.l2.yCols, ← hs.length, half_tri], fun v i p hp => ?_⟩
    · unfold vemValuesAt vemBasisValues
      rw [hW, except_ok_bind, hs.init.nkm1]
      dsimp only
      rw [hW', except_ok_bind, hM]
    · rw [h3 v i p hp, ← ev2_combo k _ _ (by omega), show k - 1 + 1 = k by omega]
      rfl
  · intro type h1 h2
    unfold vemValuesAt vemBasisValues
    rw [hW, except_ok_bind]
    cases type <;> first | rfl | contradiction

/-- The unit square at order 2: the values at one point are a row with nine entries. -/
example : ∃ lu llt : Solver ℝ, ∃ ref s A, vemRef2D (fun _ => ⟨nc4Points, nc4Weights⟩) (fun _ => ⟨[0, 1 / 2, 1], [1 / 6, 2 / 3, 1 / 6]⟩) 2 = .ok ref ∧
    vemCreate2D lu llt ref squarePoly = .ok s ∧ vemValuesAt ref squarePoly s .pi0k [(1 / 4, 1 / 3)] = .ok A ∧ A.rows = 1 ∧ A.cols = 9 := by
  obtain ⟨lu, h1, h2⟩ := exists_solvers
  obtain ⟨ref, s, hr, hs, h⟩ := C74_values square_element square_tables h1 h2
  obtain ⟨⟨A, hA, h3, h4, _⟩, _⟩ := h [(1 / 4, 1 / 3)]
  exact ⟨lu, lu, ref, s, A, hr, hs, hA, h3, h4⟩

/-- C74: at any points the derivatives of the energy projections of the basis functions (type `PiNabla`) and the projections of their derivatives
(type `Pi0km1Der`) are computed; any other type of projection is refused. -/
theorem C74_derivatives (hE : IsElement poly n V len dir nrm) (hT : IsTables k triangle edge ts ws w) (hlu : SolvesRegular lu) (hllt : SolvesPosDef llt) :
    ∃ ref s, vemRef2D triangle edge k = .ok ref ∧ vemCreate2D lu llt ref poly = .ok s ∧ ∀ points : List (ℝ × ℝ),
      (∃ A B, vemDerivativesAt ref poly s .piNabla points = .ok [A, B] ∧ A.rows = points.length ∧ B.rows = points.length ∧
        A.cols = n + n * (k - 1) + k * (k - 1) / 2 ∧ B.cols = n + n * (k - 1) + k * (k - 1) / 2 ∧
        ∀ v : Nat → ℝ, ∃ P : MvPolynomial (Fin 2) ℝ, (∀ p : ℝ × ℝ, eval ![p.1, p.2] P = polyOf k poly.centroid poly.diameter (apply s.piNabla v) p) ∧
          ∀ (i : Nat) (p : ℝ × ℝ), points[i]? = some p → apply A v i = eval ![p.1, p.2] (pderiv 0 P) ∧ apply B v i = eval ![p.1, p.2] (pderiv 1 P)) ∧
      (∃ A B, vemDerivativesAt ref poly s .pi0km1Der points = .ok [A, B] ∧ A.rows = points.length ∧ B.rows = points.length ∧
        A.cols = n + n * (k - 1) + k * (k - 1) / 2 ∧ B.cols = n + n * (k - 1) + k * (k - 1) / 2 ∧
        ∀ (v : Nat → ℝ) (i : Nat) (p : ℝ × ℝ), points[i]? = some p → apply A v i = polyOf (k - 1) poly.centroid poly.diameter (apply s.derX v) p ∧
          apply B v i = polyOf (k - 1) poly.centroid poly.diameter (apply s.derY v) p) ∧
      ∀ type, type ≠ .piNabla → type ≠ .pi0km1Der → vemDerivativesAt ref poly s type points = .error .runtimeError := by
  obtain ⟨ref, s, hr, hc, hs⟩ := vemCreate_ok hE hT hlu hllt
  have hk := hT.low
  have hkk : k - 1 + 1 = k := by omega
  have hm : ref.mono = compute mono2 k := by
    rw [vemRef_ok hT] at hr
    rw [← Except.ok.inj hr]
  obtain ⟨EX, hX⟩ := hs.derX
  obtain ⟨EY, hY⟩ := hs.derY
  have hpr : s.piNabla.rows = tri (k + 1) := hs.solves.1.trans hs.nabla.gCols
  have hpc : s.piNabla.cols = s.boundary.points.length + tri (k - 1) := hs.solves.2.1.trans hs.nabla.bCols
  refine ⟨ref, s, hr, hc, fun points => ?_⟩
  obtain ⟨W, WX, WY, hW, _, _, hD, hW1, hWX, hWY⟩ := polyDer_ok hm poly points
  have hu : ∀ type, vemDerivativesAt ref poly s type points = vemBasisDerivatives 2 type s.init.nkm1 W [WX, WY] s.piNabla [s.derX, s.derY] := by
    intro type
    unfold vemDerivativesAt
    rw [hW, except_ok_bind, hD, except_ok_bind]
  refine ⟨?_, ?_, ?_⟩
  · obtain ⟨A, hA, hA1, hA2, hA3⟩ := values_mul hWX s.piNabla hpr
    obtain ⟨B, hB, hB1, hB2, hB3⟩ := values_mul hWY s.piNabla hpr
    refine ⟨A, B, ?_, hA1, hB1, by rw [hA2, hpc, ← hs.length, half_tri], by rw [hB2, hpc, ← hs.length, half_tri], fun v =>
      ⟨combo k poly.centroid poly.diameter (tri (k + 1)) (apply s.piNabla v), fun p => ev2_combo k _ _ le_rfl _ _, fun i p hp => ?_⟩⟩
    · rw [hu]
      unfold vemBasisDerivatives
      exact mapM_range_two _ (hA ▸ rfl) (hB ▸ rfl)
    · rw [hA3 v i p hp, hB3 v i p hp, pderiv_combo, pderiv_combo]
      exact ⟨rfl, rfl⟩
  · obtain ⟨W', hW', hW1'⟩ := values_left hW1 (N' := tri k) (by rw [tri_succ]; omega)
    obtain ⟨A, hA, hA1, hA2, hA3⟩ := values_mul hW1' s.derX hX.yRows
    obtain ⟨B, hB, hB1, hB2, hB3⟩ := values_mul hW1' s.derY hY.yRows
    refine ⟨A, B, ?_, hA1, hB1, by rw [hA2, hX.yCols, ← hs.length, half_tri], by rw [hB2, hY.yCols, ← hs.length, half_tri], fun v i p hp => ?_⟩
    · rw [hu]
      unfold vemBasisDerivatives
      dsimp only
      refine mapM_range_two _ ?_ ?_
      · rw [hs.init.nkm1, hW', except_ok_bind]
        exact hA
      · rw [hs.init.nkm1, hW', except_ok_bind]
        exact hB
    · rw [hA3 v i p hp, hB3 v i p hp, ← ev2_combo k _ _ (show k - 1 ≤ k by omega), ← ev2_combo k _ _ (show k - 1 ≤ k by omega), hkk]
      exact ⟨rfl, rfl⟩
  · intro type h1 h2
    rw [hu]
    unfold vemBasisDerivatives
    cases type <;> first | rfl | contradiction

/-- The unit square at order 2: the derivatives at two points are two matrices with two rows and nine columns. -/
example : ∃ lu llt : Solver ℝ, ∃ ref s A B, vemRef2D (fun _ => ⟨nc4Points, nc4Weights⟩) (fun _ => ⟨[0, 1 / 2, 1], [1 / 6, 2 / 3, 1 / 6]⟩) 2 = .ok ref ∧
    vemCreate2D lu llt ref squarePoly = .ok s ∧ vemDerivativesAt ref squarePoly s .piNabla [(1 / 4, 1 / 3), (1, 1)] = .ok [A, B] ∧ A.rows = 2 ∧ A.cols = 9 := by
  obtain ⟨lu, h1, h2⟩ := exists_solvers
  obtain ⟨ref, s, hr, hs, h⟩ := C74_derivatives square_element square_tables h1 h2
  obtain ⟨⟨A, B, hA, h3, _, h4, _⟩, _⟩ := h [(1 / 4, 1 / 3), (1, 1)]
  exact ⟨lu, lu, ref, s, A, B, hr, hs, hA, h3, h4⟩

/-- C74: on polynomials the evaluation is exact. From the DOFs of a polynomial of degree at most `k` the values give its values and both types of
derivatives give its partial derivatives. -/
theorem C74_exact (hE : IsElement poly n V len dir nrm) (hT : IsTables k triangle edge ts ws w) (hlu : SolvesRegular lu) (hllt : SolvesPosDef llt) :
    ∃ ref s, vemRef2D triangle edge k = .ok ref ∧ vemCreate2D lu llt ref poly = .ok s ∧ ∀ points : List (ℝ × ℝ),
      ∃ A A' X X' Y Y', vemValuesAt ref poly s .pi0k points = .ok A ∧ vemValuesAt ref poly s .pi0km1 points = .ok A' ∧
        vemDerivativesAt ref poly s .piNabla points = .ok [X, Y] ∧ vemDerivativesAt ref poly s .pi0km1Der points = .ok [X', Y'] ∧
        ∀ q : MvPolynomial (Fin 2) ℝ, q.totalDegree ≤ k → ∀ v : Nat → ℝ, IsDofVector k poly n V dir ts (fun p => eval ![p.1, p.2] q) v →
          ∀ (i : Nat) (p : ℝ × ℝ), points[i]? = some p → apply A v i = eval ![p.1, p.2] q ∧ (q.totalDegree ≤ k - 1 → apply A' v i = eval ![p.1, p.2] q) ∧
            apply X v i = eval ![p.1, p.2] (pderiv 0 q) ∧ apply Y v i = eval ![p.1, p.2] (pderiv 1 q) ∧
            apply X' v i = eval ![p.1, p.2] (pderiv 0 q) ∧ apply Y' v i = eval ![p.1, p.2] (pderiv 1 q) := by
  obtain ⟨ref, s, hr, hc, hv⟩ := C74_values hE hT hlu hllt
  obtain ⟨ref', s', hr', hc', hd⟩ := C74_derivatives hE hT hlu hllt
  obtain ⟨r1, s1, hr1, hc1, _, _, e1⟩ := C51_exact hE hT hlu hllt
  obtain ⟨r2, s2, hr2, hc2, _, _, e2⟩ := C52_pi0k hE hT hlu hllt
  obtain ⟨r3, s3, hr3, hc3, _, _, e3⟩ := C52_pi0km1 hE hT hlu hllt
  obtain ⟨r4, s4, hr4, hc4, _, _, _, _, e4⟩ := C71_derivatives hE hT hlu hllt
  obtain rfl : ref' = ref := Except.ok.inj (hr'.symm.trans hr)
  obtain rfl : r1 = ref' := Except.ok.inj (hr1.symm.trans hr)
  obtain rfl : r2 = r1 := Except.ok.inj (hr2.symm.trans hr)
  obtain rfl : r3 = r2 := Except.ok.inj (hr3.symm.trans hr)
  obtain rfl : r4 = r3 := Except.ok.inj (hr4.symm.trans hr)
  obtain rfl : s' = s := Except.ok.inj (hc'.symm.trans hc)
  obtain rfl : s1 = s' := Except.ok.inj (hc1.symm.trans hc)
  obtain rfl : s2 = s1 := Except.ok.inj (hc2.symm.trans hc)
  obtain rfl : s3 = s2 := Except.ok.inj (hc3.symm.trans hc)
  obtain rfl : s4 = s3 := Except.ok.inj (hc4.symm.trans hc)
  refine ⟨r4, s4, hr, hc, fun points => ?_⟩
  obtain ⟨⟨A, hA, _, _, hA1⟩, ⟨A', hA', _, _, hA1'⟩, _⟩ := hv points
  obtain ⟨⟨X, Y, hX, _, _, _, _, hX1⟩, ⟨X', Y', hX', _, _, _, _, hX1'⟩, _⟩ := hd points
  refine ⟨A, A', X, X', Y, Y', hA, hA', hX, hX', fun q hq v hv i p hp => ⟨?_, fun hq1 => ?_, ?_⟩⟩
  · rw [hA1 v i p hp]
    exact e2 q hq v hv p
  · rw [hA1' v i p hp]
    exact (e3 q hq v hv).2 hq1 p
  · obtain ⟨P, hP, h1⟩ := hX1 v
    have hPq : P = q := ev2_ext fun p => (hP p).trans (e1 q hq v hv p)
    rw [hPq] at h1
    refine ⟨(h1 i p hp).1, (h1 i p hp).2, ?_, ?_⟩
    · rw [(hX1' v i p hp).1]
      exact (e4 q hq v hv p).1
    · rw [(hX1' v i p hp).2]
      exact (e4 q hq v hv p).2

/-- The unit square at order 2: the derivatives of `x y` at a point, from its DOFs. -/
example : ∃ lu llt : Solver ℝ, ∃ ref s A B v, vemRef2D (fun _ => ⟨nc4Points, nc4Weights⟩) (fun _ => ⟨[0, 1 / 2, 1], [1 / 6, 2 / 3, 1 / 6]⟩) 2 = .ok ref ∧
    vemCreate2D lu llt ref squarePoly = .ok s ∧ vemDerivativesAt ref squarePoly s .piNabla [(1 / 4, 1 / 3)] = .ok [A, B] ∧
    IsDofVector 2 squarePoly 4 squareV (fun i => i % 2 = 0) [1 / 2] (fun p => p.1 * p.2) v ∧ apply A v 0 = 1 / 3 ∧ apply B v 0 = 1 / 4 := by
  obtain ⟨lu, h1, h2⟩ := exists_solvers
  obtain ⟨ref, s, hr, hs, h⟩ := C74_exact square_element square_tables h1 h2
  obtain ⟨_, _, A, _, B, _, _, _, hA, _, he⟩ := h [(1 / 4, 1 / 3)]
  obtain ⟨v, hv⟩ := exists_dofs 2 squarePoly 4 squareV (fun i => i % 2 = 0) [1 / 2] rfl fun p => p.1 * p.2
  have := he (X 0 * X 1) ((totalDegree_mul _ _).trans (by rw [totalDegree_X, totalDegree_X])) v (by simpa using hv) 0 (1 / 4, 1 / 3) rfl
  refine ⟨lu, lu, ref, s, A, B, v, hr, hs, hA, hv, ?_, ?_⟩
  · simpa [pderiv_X] using this.2.2.1
  · simpa [pderiv_X] using this.2.2.2.1

/-- C74: the evaluation at the quadrature points uses the stored matrices and gives the same as the evaluation at given points. -/
theorem C74_internal (hE : IsElement poly n V len dir nrm) (hT : IsTables k triangle edge ts ws w) (hlu : SolvesRegular lu) (hllt : SolvesPosDef llt) :
    ∃ ref s, vemRef2D triangle edge k = .ok ref ∧ vemCreate2D lu llt ref poly = .ok s ∧
      (∀ type, type ≠ .pi0klm1 → vemValuesInt s type = vemValuesAt ref poly s type s.internal.points) ∧
      ∀ type, vemDerivativesInt s type = vemDerivativesAt ref poly s type s.internal.points := by
  obtain ⟨ref, s, hr, hc, hs⟩ := vemCreate_ok hE hT hlu hllt
  have hm : ref.mono = compute mono2 k := by
    rw [vemRef_ok hT] at hr
    rw [← Except.ok.inj hr]
  refine ⟨ref, s, hr, hc, fun type ht => ?_, fun type => ?_⟩
  · unfold vemValuesInt vemValuesAt
    rw [if_neg ht, hm, hs.init.eqInt, except_ok_bind]
  · unfold vemDerivativesInt vemDerivativesAt vemPolyDerivatives
    rw [hm, hs.init.eqInt, except_ok_bind, except_ok_bind, hs.init.eqIntX, except_ok_bind, hs.init.eqIntY, except_ok_bind, except_ok_bind]

/-- The unit square at order 2: the values at the quadrature points exist. -/
example : ∃ lu llt : Solver ℝ, ∃ ref s A, vemRef2D (fun _ => ⟨nc4Points, nc4Weights⟩) (fun _ => ⟨[0, 1 / 2, 1], [1 / 6, 2 / 3, 1 / 6]⟩) 2 = .ok ref ∧
    vemCreate2D lu llt ref squarePoly = .ok s ∧ vemValuesInt s .pi0k = .ok A ∧ A.cols = 9 := by
  obtain ⟨lu, h1, h2⟩ := exists_solvers
  obtain ⟨ref, s, hr, hs, h, _⟩ := C74_internal square_element square_tables h1 h2
  obtain ⟨ref', s', hr', hs', h'⟩ := C74_values square_element square_tables h1 h2
  obtain rfl : ref' = ref := Except.ok.inj (hr'.symm.trans hr)
  obtain rfl : s' = s := Except.ok.inj (hs'.symm.trans hs)
  obtain ⟨⟨A, hA, _, h4, _⟩, _⟩ := h' s'.internal.points
  exact ⟨lu, lu, ref', s', A, hr, hs, (h .pi0k (by decide)).trans hA, h4⟩

/-- C72, for the quadrature points: row `i` of the Laplacian values applied to the DOFs of a function is the divergence of its projected gradient at the
`i`-th quadrature point. On the DOFs of a polynomial of degree at most `k` this is its Laplacian. Missing from C72: the Laplacian at given points, for
which it does not hold (`C72_points_false`). -/
theorem C72_laplacian_partial (hE : IsElement poly n V len dir nrm) (hT : IsTables k triangle edge ts ws w) (hlu : SolvesRegular lu) (hllt : SolvesPosDef llt) :
    ∃ ref s, vemRef2D triangle edge k = .ok ref ∧ vemCreate2D lu llt ref poly = .ok s ∧
      (∃ A, vemLaplacianInt s .pi0km1Der = .ok A ∧ A.rows = s.internal.points.length ∧ A.cols = n + n * (k - 1) + k * (k - 1) / 2 ∧
        (∀ v : Nat → ℝ, ∃ P Q : MvPolynomial (Fin 2) ℝ, (∀ p : ℝ × ℝ, eval ![p.1, p.2] P = polyOf (k - 1) poly.centroid poly.diameter (apply s.derX v) p) ∧
          (∀ p : ℝ × ℝ, eval ![p.1, p.2] Q = polyOf (k - 1) poly.centroid poly.diameter (apply s.derY v) p) ∧
          ∀ (i : Nat) (p : ℝ × ℝ), s.internal.points[i]? = some p → apply A v i = eval ![p.1, p.2] (pderiv 0 P + pderiv 1 Q)) ∧
        ∀ q : MvPolynomial (Fin 2) ℝ, q.totalDegree ≤ k → ∀ v : Nat → ℝ, IsDofVector k poly n V dir ts (fun p => eval ![p.1, p.2] q) v →
          ∀ (i : Nat) (p : ℝ × ℝ), s.internal.points[i]? = some p →
            apply A v i = eval ![p.1, p.2] (pderiv 0 (pderiv 0 q) + pderiv 1 (pderiv 1 q))) ∧
      ∀ type, type ≠ .pi0km1Der → vemLaplacianInt s type = .error .runtimeError := by
  obtain ⟨ref, s, hr, hc, hs⟩ := vemCreate_ok hE hT hlu hllt
  have hk := hT.low
  have hkk : k - 1 + 1 = k := by omega
  obtain ⟨EX, hX⟩ := hs.derX
  obtain ⟨EY, hY⟩ := hs.derY
  obtain ⟨WX, hWX, hWX1⟩ := values_left hs.init.vanderIntX (N' := tri k) (by rw [tri_succ]; omega)
  obtain ⟨WY, hWY, hWY1⟩ := values_left hs.init.vanderIntY (N' := tri k) (by rw [tri_succ]; omega)
  obtain ⟨A, hA, hA1, hA2, hA3⟩ := values_mul hWX1 s.derX hX.yRows
  obtain ⟨B, hB, hB1, hB2, hB3⟩ := values_mul hWY1 s.derY hY.yRows
  have key : ∀ v : Nat → ℝ, ∃ P Q : MvPolynomial (Fin 2) ℝ, (∀ p : ℝ × ℝ, eval ![p.1, p.2] P = polyOf (k - 1) poly.centroid poly.diameter (apply s.derX v) p) ∧
      (∀ p : ℝ × ℝ, eval ![p.1, p.2] Q = polyOf (k - 1) poly.centroid poly.diameter (apply s.derY v) p) ∧
      ∀ (i : Nat) (p : ℝ × ℝ), s.internal.points[i]? = some p →
        apply (⟨A.rows, A.cols, fun i j => A.ent i j + B.ent i j⟩ : DMat ℝ) v i = eval ![p.1, p.2] (pderiv 0 P + pderiv 1 Q) := by
    intro v
    refine ⟨combo k poly.centroid poly.diameter (tri k) (apply s.derX v), combo k poly.centroid poly.diameter (tri k) (apply s.derY v),
      fun p => ?_, fun p => ?_, fun i p hp => ?_⟩
    · rw [← ev2_combo k _ _ (show k - 1 ≤ k by omega), hkk]
    · rw [← ev2_combo k _ _ (show k - 1 ≤ k by omega), hkk]
    · have e : apply (⟨A.rows, A.cols, fun i j => A.ent i j + B.ent i j⟩ : DMat ℝ) v i = apply A v i + apply B v i := by
        unfold apply
        dsimp only
        rw [hB2, hA2, hX.yCols, hY.yCols, ← Finset.sum_add_distrib]
        exact Finset.sum_congr rfl fun j _ => by ring
      rw [e, hA3 v i p hp, hB3 v i p hp, pderiv_combo, pderiv_combo, map_add]
  refine ⟨ref, s, hr, hc, ⟨⟨A.rows, A.cols, fun i j => A.ent i j + B.ent i j⟩, ?_, hA1, by show A.cols = _; rw [hA2, hX.yCols, ← hs.length, half_tri], key, ?_⟩, ?_⟩
  · unfold vemLaplacianInt vemBasisLaplacian vemLaplacianTerm
    dsimp only
    have e0 : unchecked [s.init.vanderIntX, s.init.vanderIntY] 0 = .ok s.init.vanderIntX := rfl
    have e1 : unchecked [s.init.vanderIntX, s.init.vanderIntY] 1 = .ok s.init.vanderIntY := rfl
    have e2 : unchecked [s.derX, s.derY] 0 = .ok s.derX := rfl
    have e3 : unchecked [s.derX, s.derY] 1 = .ok s.derY := rfl
    rw [e0, e1, e2, e3]
    simp only [except_ok_bind]
    rw [hs.init.nkm1, hWX, except_ok_bind, hWY, except_ok_bind, hA, except_ok_bind, hB, except_ok_bind,
      DMat.add_ok _ _ (hA1.trans hB1.symm) (by rw [hA2, hB2, hX.yCols, hY.yCols])]
  · intro q hq v hv i p hp
    obtain ⟨r4, s4, hr4, hc4, _, _, _, _, e4⟩ := C71_derivatives hE hT hlu hllt
    obtain rfl : r4 = ref := Except.ok.inj (hr4.symm.trans hr)
    obtain rfl : s4 = s := Except.ok.inj (hc4.symm.trans hc)
    obtain ⟨P, Q, hP, hQ, h⟩ := key v
    have h1 : P = pderiv 0 q := ev2_ext fun p => (hP p).trans (e4 q hq v hv p).1
    have h2 : Q = pderiv 1 q := ev2_ext fun p => (hQ p).trans (e4 q hq v hv p).2
    rw [h i p hp, h1, h2]
  · intro type h1
    unfold vemLaplacianInt vemBasisLaplacian
    cases type <;> first | rfl | contradiction

/-- The unit square at order 2: the Laplacian of `x ^ 2 + 3 y ^ 2` is 8 at the quadrature points. -/
example : ∃ lu llt : Solver ℝ, ∃ ref s A v, vemRef2D (fun _ => ⟨nc4Points, nc4Weights⟩) (fun _ => ⟨[0, 1 / 2, 1], [1 / 6, 2 / 3, 1 / 6]⟩) 2 = .ok ref ∧
    vemCreate2D lu llt ref squarePoly = .ok s ∧ vemLaplacianInt s .pi0km1Der = .ok A ∧
    IsDofVector 2 squarePoly 4 squareV (fun i => i % 2 = 0) [1 / 2] (fun p => p.1 * p.1 + 3 * (p.2 * p.2)) v ∧
    ∀ (i : Nat) (p : ℝ × ℝ), s.internal.points[i]? = some p → apply A v i = 8 := by
  obtain ⟨lu, h1, h2⟩ := exists_solvers
  obtain ⟨ref, s, hr, hs, ⟨A, hA, _, _, _, he⟩, _⟩ := C72_laplacian_partial square_element square_tables h1 h2
  obtain ⟨v, hv⟩ := exists_dofs 2 squarePoly 4 squareV (fun i => i % 2 = 0) [1 / 2] rfl fun p => p.1 * p.1 + 3 * (p.2 * p.2)
  have hd : (X 0 * X 0 + C 3 * (X 1 * X 1) : MvPolynomial (Fin 2) ℝ).totalDegree ≤ 2 := by
    refine (totalDegree_add _ _).trans (max_le ?_ ?_)
    · exact (totalDegree_mul _ _).trans (by rw [totalDegree_X])
    · refine (totalDegree_mul _ _).trans ?_
      rw [totalDegree_C, zero_add]
      exact (totalDegree_mul _ _).trans (by rw [totalDegree_X])
  refine ⟨lu, lu, ref, s, A, v, hr, hs, hA, hv, fun i p hp => ?_⟩
  have := he (X 0 * X 0 + C 3 * (X 1 * X 1)) hd v (by simpa using hv) i p hp
  rw [this]
  simp [pderiv_X]
  norm_num

/-- C72 fails for given points: `ComputeBasisFunctionsLaplacianValues` passes its two lists of matrices in the wrong order. It is undefined unless the
number of points happens to be `k (k + 1) / 2`, and then the result has `k (k + 1) / 2` rows and one column per monomial instead of one per DOF. -/
theorem C72_points_false (hE : IsElement poly n V len dir nrm) (hT : IsTables k triangle edge ts ws w) (hlu : SolvesRegular lu) (hllt : SolvesPosDef llt)
    (hn : 3 ≤ n) :
    ∃ ref s, vemRef2D triangle edge k = .ok ref ∧ vemCreate2D lu llt ref poly = .ok s ∧ ∀ points : List (ℝ × ℝ),
      (points.length ≠ k * (k + 1) / 2 → vemLaplacianAt ref poly s .pi0km1Der points = .error .undefinedBehaviour) ∧
      (points.length = k * (k + 1) / 2 → ∃ A, vemLaplacianAt ref poly s .pi0km1Der points = .ok A ∧ A.rows = k * (k + 1) / 2 ∧ A.cols = (k + 1) * (k + 2) / 2) := by
  obtain ⟨ref, s, hr, hc, hs⟩ := vemCreate_ok hE hT hlu hllt
  have hk := hT.low
  have hm : ref.mono = compute mono2 k := by
    rw [vemRef_ok hT] at hr
    rw [← Except.ok.inj hr]
  obtain ⟨EX, hX⟩ := hs.derX
  obtain ⟨EY, hY⟩ := hs.derY
  have hcol : tri k ≤ s.boundary.points.length + tri (k - 1) := by
    obtain ⟨k, rfl⟩ : ∃ j, k = j + 1 := ⟨k - 1, by omega⟩
    rw [← hs.length, tri_succ, Nat.add_sub_cancel]
    have : 1 * k ≤ n * k := Nat.mul_le_mul_right _ (by omega)
    omega
  refine ⟨ref, s, hr, hc, fun points => ?_⟩
  obtain ⟨_, WX, WY, _, _, _, hD, _, hWX, hWY⟩ := polyDer_ok hm poly points
  have e0 : unchecked [s.derX, s.derY] 0 = .ok s.derX := rfl
  have e1 : unchecked [s.derX, s.derY] 1 = .ok s.derY := rfl
  have e2 : unchecked [WX, WY] 0 = .ok WX := rfl
  have e3 : unchecked [WX, WY] 1 = .ok WY := rfl
  have b0 := DMat.block_ok s.derX 0 0 s.derX.rows (tri k) (by omega) (by rw [hX.yCols]; omega)
  have b1 := DMat.block_ok s.derY 0 0 s.derY.rows (tri k) (by omega) (by rw [hY.yCols]; omega)
  unfold vemLaplacianAt vemBasisLaplacian vemLaplacianTerm
  rw [hD, except_ok_bind]
  dsimp only
  rw [e0, e1, e2, e3, tri_div, tri_div']
  simp only [except_ok_bind]
  rw [hs.init.nkm1, b0, except_ok_bind, b1, except_ok_bind]
  constructor
  · intro hne
    have : DMat.mul ⟨s.derX.rows, tri k, fun i j => s.derX.ent (0 + i) (0 + j)⟩ WX = .error .undefinedBehaviour :=
      if_neg (by rw [hWX.rows]; exact Ne.symm hne)
    rw [this]
    rfl
  · intro he
    rw [DMat.mul_ok _ _ (show tri k = WX.rows by rw [hWX.rows, he]), except_ok_bind, DMat.mul_ok _ _ (show tri k = WY.rows by rw [hWY.rows, he]), except_ok_bind]
    refine ⟨_, DMat.add_ok _ _ ?_ ?_, hX.yRows, hWX.cols⟩
    · exact hX.yRows.trans hY.yRows.symm
    · exact hWX.cols.trans hWY.cols.symm

/-- The unit square at order 2: one point is undefined behaviour, three points give six columns although there are nine DOFs. -/
example : ∃ lu llt : Solver ℝ, ∃ ref s A, vemRef2D (fun _ => ⟨nc4Points, nc4Weights⟩) (fun _ => ⟨[0, 1 / 2, 1], [1 / 6, 2 / 3, 1 / 6]⟩) 2 = .ok ref ∧
    vemCreate2D lu llt ref squarePoly = .ok s ∧ vemLaplacianAt ref squarePoly s .pi0km1Der [(1 / 4, 1 / 3)] = .error .undefinedBehaviour ∧
    vemLaplacianAt ref squarePoly s .pi0km1Der [(1 / 4, 1 / 3), (0, 0), (1, 1)] = .ok A ∧ A.cols = 6 := by
  obtain ⟨lu, h1, h2⟩ := exists_solvers
  obtain ⟨ref, s, hr, hs, h⟩ := C72_points_false square_element square_tables h1 h2 (by norm_num)
  obtain ⟨A, hA, _, hc⟩ := (h [(1 / 4, 1 / 3), (0, 0), (1, 1)]).2 rfl
  exact ⟨lu, lu, ref, s, A, hr, hs, (h [(1 / 4, 1 / 3)]).1 (by simp), hA, hc⟩

/-- C75: `ComputeValuesOnEdge` returns the values on an edge from the DOFs of its ends and of its internal nodes: for every function that is a polynomial
of degree at most `k` on the edges, every edge and every parameter. -/
theorem C75_trace (hT : IsTables k triangle edge ts ws w) (hd : (0 :: 1 :: ts).Nodup) (hts : ∀ t ∈ ts, 0 ≤ t ∧ t ≤ 1) :
    ∃ ref, vemRef2D triangle edge k = .ok ref ∧ ∀ points : List ℝ, ∃ A, vemValuesOnEdge ref points = .ok A ∧ A.rows = points.length ∧ A.cols = k + 1 ∧
      ∀ (u : ℝ × ℝ → ℝ) (v : Nat → ℝ), EdgePolynomial k n V u → IsDofVector k poly n V dir ts u v → ∀ e < n, ∀ (i : Nat) (t : ℝ), points[i]? = some t →
        0 ≤ t → t ≤ 1 →
        A.ent i 0 * v (if dir e then e else (e + 1) % n) + A.ent i 1 * v (if dir e then (e + 1) % n else e)
          + ∑ r ∈ Finset.range (k - 1), A.ent i (2 + r) * v (n + e * (k - 1) + r)
          = u (segPoint (polyEdge n V (dir e) e).1 (polyEdge n V (dir e) e).2 t) := by
  have hk := hT.low
  have hl : (0 :: 1 :: ts).length = k + 1 := by
    rw [List.length_cons, List.length_cons, hT.nodes]
    omega
  choose ℓ hℓ _ hrep using fun x : ℝ => C30_reproduction (0 :: 1 :: ts) hd x
  refine ⟨_, vemRef_ok hT, fun points => ?_⟩
  have hx : edgeNodes k ts = .ok (0 :: 1 :: ts) := if_pos (by rw [hT.nodes]; omega)
  have hrows : (points.mapM fun p => (List.range (0 :: 1 :: ts).length).mapM (lagValue (0 :: 1 :: ts) (lagCoefficients (0 :: 1 :: ts)) p))
      = .ok (points.map fun p => (List.range (0 :: 1 :: ts).length).map (ℓ p)) :=
    mapM_ok _ _ _ fun p _ => mapM_ok _ _ _ fun j hj => hℓ p j (List.mem_range.1 hj)
  refine ⟨⟨points.length, (0 :: 1 :: ts).length, fun i j => ((points.map fun p => (List.range (0 :: 1 :: ts).length).map (ℓ p)).getD i []).getD j 0⟩,
    ?_, rfl, hl, ?_⟩
  · unfold vemValuesOnEdge edgeBasisCoefficients
    dsimp only
    rw [hx, except_ok_bind, except_ok_bind, except_ok_bind, hrows, except_ok_bind]
  · intro u v hu hv e he i t hi h0 h1
    have hent : ∀ j < k + 1, ((points.map fun p => (List.range (0 :: 1 :: ts).length).map (ℓ p)).getD i []).getD j 0 = ℓ t j := by
      intro j hj
      rw [← hl] at hj
      exact rows_getD points ℓ hi hj
    have hn : (e + 1) % n < n := Nat.mod_lt _ (by omega)
    obtain ⟨q, hq, hqe⟩ : ∃ q : Polynomial ℝ, q.natDegree ≤ k ∧ ∀ t, 0 ≤ t → t ≤ 1 →
        u (segPoint (polyEdge n V (dir e) e).1 (polyEdge n V (dir e) e).2 t) = q.eval t := by
      obtain ⟨q, hq, hqe⟩ := hu e he
      cases hde : dir e with
      | true => exact ⟨q, hq, hqe⟩
      | false =>
        refine ⟨q.comp (1 - Polynomial.X), ?_, fun t h0 h1 => ?_⟩
        · refine (Polynomial.natDegree_comp_le).trans ?_
          have : (1 - Polynomial.X : Polynomial ℝ).natDegree ≤ 1 := by compute_degree
          calc q.natDegree * (1 - Polynomial.X : Polynomial ℝ).natDegree ≤ k * 1 := Nat.mul_le_mul hq this
            _ = k := Nat.mul_one k
        · have := hqe (1 - t) (by linarith) (by linarith)
          rw [Polynomial.eval_comp]
          simp only [Polynomial.eval_sub, Polynomial.eval_one, Polynomial.eval_X]
          rw [← this]
          congr 1
          simp only [polyEdge, segPoint, Bool.false_eq_true, if_false]
          ext <;> dsimp only <;> ring
    have hv0 : v (if dir e then e else (e + 1) % n) = q.eval 0 := by
      have h := hqe 0 le_rfl zero_le_one
      rw [← h]
      cases hde : dir e
      · rw [if_neg (by simp), hv.vertex _ hn]
        simp [polyEdge, segPoint]
      · rw [if_pos rfl, hv.vertex _ he]
        simp [polyEdge, segPoint]
    have hv1 : v (if dir e then (e + 1) % n else e) = q.eval 1 := by
      have h := hqe 1 zero_le_one le_rfl
      rw [← h]
      cases hde : dir e
      · rw [if_neg (by simp), hv.vertex _ he]
        simp [polyEdge, segPoint]
      · rw [if_pos rfl, hv.vertex _ hn]
        simp [polyEdge, segPoint]
    have hvr : ∀ r < k - 1, v (n + e * (k - 1) + r) = q.eval (ts.getD r 0) := by
      intro r hr
      rw [← hT.nodes] at hr
      have hg : ts[r]? = some ts[r] := List.getElem?_eq_getElem hr
      rw [hv.node e he r _ hg, List.getD_eq_getElem?_getD, hg, Option.getD_some]
      have := hts _ (List.getElem_mem hr)
      exact hqe _ this.1 this.2
    have := hrep t q (by
      rw [hl]
      exact lt_of_le_of_lt Polynomial.degree_le_natDegree (by exact_mod_cast Nat.lt_succ_of_le hq))
    have hsum : ∑ j ∈ Finset.range (0 :: 1 :: ts).length, q.eval ((0 :: 1 :: ts).getD j 0) * ℓ t j
        = q.eval 0 * ℓ t 0 + q.eval 1 * ℓ t 1 + ∑ r ∈ Finset.range (k - 1), q.eval ((0 :: 1 :: ts).getD (2 + r) 0) * ℓ t (2 + r) := by
      rw [hl, show k + 1 = 2 + (k - 1) by omega, Finset.sum_range_add, Finset.sum_range_succ, Finset.sum_range_one]
      rfl
    rw [hqe t h0 h1, ← this, hsum]
    dsimp only
    rw [hent 0 (by omega), hent 1 (by omega), hv0, hv1]
    have e2 : ∀ r ∈ Finset.range (k - 1), ((points.map fun p => (List.range (0 :: 1 :: ts).length).map (ℓ p)).getD i []).getD (2 + r) 0 * v (n + e * (k - 1) + r)
        = q.eval ((0 :: 1 :: ts).getD (2 + r) 0) * ℓ t (2 + r) := by
      intro r hr
      have hr := Finset.mem_range.1 hr
      rw [hent _ (by omega), hvr r hr, Nat.add_comm 2 r]
      simp only [List.getD_cons_succ]
      ring
    rw [Finset.sum_congr rfl e2]
    ring

/-- The unit square at order 2, with the function `|x - y|`, which is a polynomial on the edges but not inside. -/
example : (0 :: 1 :: [1 / 2] : List ℝ).Nodup ∧ (∀ t ∈ [(1 / 2 : ℝ)], 0 ≤ t ∧ t ≤ 1) ∧ EdgePolynomial 2 4 squareV (fun p => |p.1 - p.2|) ∧
    (∃ v, IsDofVector 2 squarePoly 4 squareV (fun i => i % 2 = 0) [1 / 2] (fun p => |p.1 - p.2|) v) ∧
    ∃ ref A, vemRef2D (fun _ => ⟨nc4Points, nc4Weights⟩) (fun _ => ⟨[0, 1 / 2, 1], [1 / 6, 2 / 3, 1 / 6]⟩) 2 = .ok ref ∧
      vemValuesOnEdge ref [1 / 4, 1 / 3] = .ok A ∧ A.rows = 2 ∧ A.cols = 3 := by
  have hd : (0 :: 1 :: [1 / 2] : List ℝ).Nodup := by norm_num
  have ht : ∀ t ∈ [(1 / 2 : ℝ)], 0 ≤ t ∧ t ≤ 1 := by
    intro t ht
    rw [List.mem_singleton.1 ht]
    norm_num
  obtain ⟨ref, hr, h⟩ := C75_trace (n := 4) (V := squareV) (dir := fun i => i % 2 = 0) (poly := squarePoly) square_tables hd ht
  obtain ⟨A, hA, h1, h2, _⟩ := h [1 / 4, 1 / 3]
  exact ⟨hd, ht, square_edges, exists_dofs 2 _ _ _ _ _ rfl _, ref, A, hr, hA, h1, h2⟩

/-- C75: the edge functions are nodal: at the start of the edge, its end and its internal nodes the values are the rows of the identity matrix. -/
theorem C75_nodal (hT : IsTables k triangle edge ts ws w) (hd : (0 :: 1 :: ts).Nodup) :
    ∃ ref A, vemRef2D triangle edge k = .ok ref ∧ vemValuesOnEdge ref (0 :: 1 :: ts) = .ok A ∧ A.rows = k + 1 ∧ A.cols = k + 1 ∧
      ∀ i < k + 1, ∀ j < k + 1, A.ent i j = if i = j then 1 else 0 := by
  have hk := hT.low
  have hl : (0 :: 1 :: ts).length = k + 1 := by
    rw [List.length_cons, List.length_cons, hT.nodes]
    omega
  choose ℓ hℓ _ _ using fun x : ℝ => C30_reproduction (0 :: 1 :: ts) hd x
  have hx : edgeNodes k ts = .ok (0 :: 1 :: ts) := if_pos (by rw [hT.nodes]; omega)
  have hrows : ((0 :: 1 :: ts).mapM fun p => (List.range (0 :: 1 :: ts).length).mapM (lagValue (0 :: 1 :: ts) (lagCoefficients (0 :: 1 :: ts)) p))
      = .ok ((0 :: 1 :: ts).map fun p => (List.range (0 :: 1 :: ts).length).map (ℓ p)) :=
    mapM_ok _ _ _ fun p _ => mapM_ok _ _ _ fun j hj => hℓ p j (List.mem_range.1 hj)
  refine ⟨_, ⟨(0 :: 1 :: ts).length, (0 :: 1 :: ts).length, fun i j => (((0 :: 1 :: ts).map fun p => (List.range (0 :: 1 :: ts).length).map (ℓ p)).getD i []).getD j 0⟩,
    vemRef_ok hT, ?_, hl, hl, ?_⟩
  · unfold vemValuesOnEdge edgeBasisCoefficients
    dsimp only
    rw [hx, except_ok_bind, except_ok_bind, except_ok_bind, hrows, except_ok_bind]
  · intro i hi j hj
    rw [← hl] at hi hj
    have hg : (0 :: 1 :: ts)[i]? = some (0 :: 1 :: ts)[i] := List.getElem?_eq_getElem hi
    have h1 := C29_nodal (0 :: 1 :: ts) hd j i hj _ hg
    rw [hℓ _ j hj] at h1
    have h2 := Except.ok.inj h1
    have h3 : (((0 :: 1 :: ts).map fun p => (List.range (0 :: 1 :: ts).length).map (ℓ p)).getD i []).getD j 0 = ℓ (0 :: 1 :: ts)[i] j :=
      rows_getD _ ℓ hg hj
    show (((0 :: 1 :: ts).map fun p => (List.range (0 :: 1 :: ts).length).map (ℓ p)).getD i []).getD j 0 = _
    rw [h3, h2]
    by_cases hij : i = j
    · rw [if_pos hij, if_pos hij.symm]
    · rw [if_neg hij, if_neg (Ne.symm hij)]

/-- Order 2 with Simpson's nodes meets the hypotheses of `C75_nodal`. -/
example : ∃ ref A, vemRef2D (fun _ => ⟨nc4Points, nc4Weights⟩) (fun _ => ⟨[0, 1 / 2, 1], [1 / 6, 2 / 3, 1 / 6]⟩) 2 = .ok ref ∧
    vemValuesOnEdge ref [0, 1, 1 / 2] = .ok A ∧ A.ent 2 2 = 1 ∧ A.ent 2 0 = 0 := by
  obtain ⟨ref, A, hr, hA, _, _, h⟩ := C75_nodal square_tables (by norm_num)
  exact ⟨ref, A, hr, hA, h 2 (by norm_num) 2 (by norm_num), h 2 (by norm_num) 0 (by norm_num)⟩

/-- DOF vectors agree where they are used. -/
theorem dofVector_unique {u : ℝ × ℝ → ℝ} {v v' : Nat → ℝ} (hts : ts.length = k - 1) (h : IsDofVector k poly n V dir ts u v) (h' : IsDofVector k poly n V dir ts u v') :
    ∀ r < n + n * (k - 1) + tri (k - 1), v r = v' r := by
  intro r hr
  by_cases h1 : r < n
  · rw [h.vertex r h1, h'.vertex r h1]
  · by_cases h2 : r < n + n * (k - 1)
    · have hk : 0 < k - 1 := by
        rcases Nat.eq_zero_or_pos (k - 1) with h0 | h0
        · rw [h0] at h2
          omega
        · exact h0
      have he : (r - n) / (k - 1) < n := by
        rw [Nat.div_lt_iff_lt_mul hk]
        omega
      have hm : (r - n) % (k - 1) < ts.length := by
        rw [hts]
        exact Nat.mod_lt _ hk
      have e : r = n + (r - n) / (k - 1) * (k - 1) + (r - n) % (k - 1) := by
        have := Nat.div_add_mod (r - n) (k - 1)
        rw [mul_comm] at this
        omega
      have a := h.node _ he _ _ (List.getElem?_eq_getElem hm)
      have b := h'.node _ he _ _ (List.getElem?_eq_getElem hm)
      rw [← e] at a b
      rw [a, b]
    · have hk : 2 ≤ k := by
        by_contra hk
        rw [show k - 1 = 0 by omega, show tri 0 = 0 from rfl] at hr
        rw [show k - 1 = 0 by omega] at h2
        omega
      obtain ⟨a, b, hab, hp⟩ := exists_position (m := k - 2) (l := r - (n + n * (k - 1))) (by
        rw [show k - 2 + 1 = k - 1 by omega]
        omega)
      have e : r = n + n * (k - 1) + position a b := by omega
      rw [e, h.moment a b (by omega), h'.moment a b (by omega)]

theorem dofVector_congr {u : ℝ × ℝ → ℝ} {v v' : Nat → ℝ} (hts : ts.length = k - 1) (h : IsDofVector k poly n V dir ts u v)
    (hv : ∀ r < n + n * (k - 1) + tri (k - 1), v r = v' r) : IsDofVector k poly n V dir ts u v' := by
  refine ⟨fun e he => ?_, fun e he i t ht => ?_, fun a b hab => ?_⟩
  · rw [← hv e (by omega), h.vertex e he]
  · rw [← hv _ ?_, h.node e he i t ht]
    have hi : i < k - 1 := by
      rw [← hts]
      exact (List.getElem?_eq_some_iff.1 ht).1
    have := Nat.mul_le_mul_right (k - 1) (show e + 1 ≤ n by omega)
    rw [Nat.add_mul, Nat.one_mul] at this
    omega
  · rw [← hv _ ?_, h.moment a b hab]
    have := (position_lt (k := k - 2) (a := a) (b := b)).2 (by omega)
    rw [show k - 2 + 1 = k - 1 by omega] at this
    omega

/-- The DOFs of a combination of polynomials. -/
theorem dofVector_combo {N : Nat} (a : Nat → ℝ) (P : Nat → MvPolynomial (Fin 2) ℝ) (w : Nat → Nat → ℝ)
    (h : ∀ l < N, IsDofVector k poly n V dir ts (ev2 (P l)) (w l)) :
    IsDofVector k poly n V dir ts (ev2 (∑ l ∈ Finset.range N, C (a l) * P l)) fun r => ∑ l ∈ Finset.range N, a l * w l r := by
  have hev : ∀ p, ev2 (∑ l ∈ Finset.range N, C (a l) * P l) p = ∑ l ∈ Finset.range N, a l * ev2 (P l) p := by
    intro p
    simp [ev2]
  refine ⟨fun e he => ?_, fun e he i t ht => ?_, fun a' b' hab => ?_⟩
  · rw [hev]
    exact Finset.sum_congr rfl fun l hl => by rw [(h l (Finset.mem_range.1 hl)).vertex e he]
  · rw [hev]
    exact Finset.sum_congr rfl fun l hl => by rw [(h l (Finset.mem_range.1 hl)).node e he i t ht]
  · simp only [hev, Finset.mul_sum]
    rw [integral_finsetSum]
    · rw [Finset.mul_sum]
      refine Finset.sum_congr rfl fun l hl => ?_
      rw [(h l (Finset.mem_range.1 hl)).moment a' b' hab]
      have : ∀ p, scaledMonomial poly.centroid poly.diameter a' b' p * (a l * ev2 (P l) p) = a l * (scaledMonomial poly.centroid poly.diameter a' b' p * ev2 (P l) p) := fun p => by ring
      simp only [this]
      rw [integral_const_mul]
      ring
    · intro l _
      have := ev2_mul_integrable poly.tris (u := fun _ => 1) (integrableOn_const (unionOf_compact poly.tris).measure_lt_top.ne (by simp))
        (basisPoly k poly.centroid poly.diameter (position a' b') * (C (a l) * P l))
      refine this.congr (ae_of_all _ fun p => ?_)
      dsimp only
      rw [← ev2_basis_position k _ _ (show a' + b' ≤ k by omega)]
      simp [ev2]

/-- C77: the stabilization of the local space exists for the energy and for the L2 projection, is symmetric and positive semidefinite, and its quadratic form
vanishes on the DOF vectors of the polynomials of degree at most `k` and on no others. Any other type of projection is refused. -/
theorem C77_stabilization (hE : IsElement poly n V len dir nrm) (hT : IsTables k triangle edge ts ws w) (hlu : SolvesRegular lu) (hllt : SolvesPosDef llt)
    (hpos : 0 < poly.measure) :
    ∃ ref s, vemRef2D triangle edge k = .ok ref ∧ vemCreate2D lu llt ref poly = .ok s ∧
      (∀ type, type = .piNabla ∨ type = .pi0k → ∃ S, vemDofiDofi poly s type = .ok S ∧ S.rows = n + n * (k - 1) + k * (k - 1) / 2 ∧ S.cols = S.rows ∧
        (∀ i j, S.ent i j = S.ent j i) ∧ ∀ x : Nat → ℝ, 0 ≤ ∑ i ∈ Finset.range S.rows, x i * apply S x i ∧
          (∑ i ∈ Finset.range S.rows, x i * apply S x i = 0 ↔
            ∃ q : MvPolynomial (Fin 2) ℝ, q.totalDegree ≤ k ∧ IsDofVector k poly n V dir ts (fun p => eval ![p.1, p.2] q) x)) ∧
      ∀ type, type ≠ .piNabla → type ≠ .pi0k → vemDofiDofi poly s type = .error .runtimeError := by
  obtain ⟨ref, s, hr, hc, hs⟩ := vemCreate_ok hE hT hlu hllt
  obtain ⟨r1, s1, hr1, hc1, _, _, e1⟩ := C51_exact hE hT hlu hllt
  obtain ⟨r2, s2, hr2, hc2, _, _, e2⟩ := C52_pi0k hE hT hlu hllt
  obtain ⟨r3, s3, hr3, hc3, _, _, e3⟩ := C51_dofs hE hT hlu hllt
  obtain rfl : r1 = ref := Except.ok.inj (hr1.symm.trans hr)
  obtain rfl : r2 = r1 := Except.ok.inj (hr2.symm.trans hr)
  obtain rfl : r3 = r2 := Except.ok.inj (hr3.symm.trans hr)
  obtain rfl : s1 = s := Except.ok.inj (hc1.symm.trans hc)
  obtain rfl : s2 = s1 := Except.ok.inj (hc2.symm.trans hc)
  obtain rfl : s3 = s2 := Except.ok.inj (hc3.symm.trans hc)
  have hm : n + n * (k - 1) + tri (k - 1) = s3.boundary.points.length + tri (k - 1) := by rw [hs.length]
  set m := n + n * (k - 1) + tri (k - 1) with hmdef
  have hD : ∀ l < tri (k + 1), IsDofVector k poly n V dir ts (ev2 (basisPoly k poly.centroid poly.diameter l)) (fun r => s3.D.ent r l) := by
    intro l hl
    obtain ⟨a, b, hab, rfl⟩ := exists_position hl
    have := e3 a b hab
    have e : ev2 (basisPoly k poly.centroid poly.diameter (position a b)) = scaledMonomial poly.centroid poly.diameter a b := by
      funext p
      exact ev2_basis_position k _ _ hab p
    rw [e]
    exact this
  have hcombo : ∀ a : Nat → ℝ, IsDofVector k poly n V dir ts (ev2 (combo k poly.centroid poly.diameter (tri (k + 1)) a)) fun r =>
      ∑ l ∈ Finset.range (tri (k + 1)), s3.D.ent r l * a l := by
    intro a
    refine dofVector_congr hT.nodes (dofVector_combo a _ _ hD) fun r _ => ?_
    exact Finset.sum_congr rfl fun l _ => mul_comm _ _
  have key : ∀ (c : ℝ) (Q : DMat ℝ), 0 < c → Q.rows = tri (k + 1) → Q.cols = m →
      (∀ q : MvPolynomial (Fin 2) ℝ, q.totalDegree ≤ k → ∀ v : Nat → ℝ, IsDofVector k poly n V dir ts (fun p => eval ![p.1, p.2] q) v →
        ∀ p : ℝ × ℝ, polyOf k poly.centroid poly.diameter (apply Q v) p = eval ![p.1, p.2] q) →
      ∃ S, dofiDofi Q c s3.D = .ok S ∧ S.rows = n + n * (k - 1) + k * (k - 1) / 2 ∧ S.cols = S.rows ∧
        (∀ i j, S.ent i j = S.ent j i) ∧ ∀ x : Nat → ℝ, 0 ≤ ∑ i ∈ Finset.range S.rows, x i * apply S x i ∧
          (∑ i ∈ Finset.range S.rows, x i * apply S x i = 0 ↔
            ∃ q : MvPolynomial (Fin 2) ℝ, q.totalDegree ≤ k ∧ IsDofVector k poly n V dir ts (fun p => eval ![p.1, p.2] q) x) := by
    intro c Q hc hQr hQc hex
    obtain ⟨S, hS, hSr, hSc, hsym, _⟩ := C50_dofi_form (tri (k + 1)) m Q.ent s3.D.ent c
    obtain ⟨S1, hS1, hpsd⟩ := C50_dofi_psd (tri (k + 1)) m Q.ent s3.D.ent c hc.le
    obtain ⟨S2, hS2, hker⟩ := C50_dofi_kernel (tri (k + 1)) m Q.ent s3.D.ent c hc
    obtain rfl : S1 = S := Except.ok.inj (hS1.symm.trans hS)
    obtain rfl : S2 = S1 := Except.ok.inj (hS2.symm.trans hS)
    have hQ : (⟨tri (k + 1), m, Q.ent⟩ : DMat ℝ) = Q := by rw [← hQr, ← hQc]
    have hD' : (⟨m, tri (k + 1), s3.D.ent⟩ : DMat ℝ) = s3.D := by rw [hm, ← hs.dofs.rows, ← hs.dofs.cols]
    rw [hQ, hD'] at hS
    have hap : ∀ x : Nat → ℝ, apply Q x = fun l => ∑ j ∈ Finset.range m, Q.ent l j * x j := apply_eq hQc
    have hform : ∀ x : Nat → ℝ, ∑ i ∈ Finset.range S2.rows, x i * apply S2 x i = ∑ i ∈ Finset.range m, x i * ∑ j ∈ Finset.range m, S2.ent i j * x j := by
      intro x
      rw [apply_eq hSc, hSr]
    refine ⟨S2, hS, by rw [hSr, half_tri], by rw [hSc, hSr], hsym, fun x => ⟨by rw [hform]; exact hpsd x, ?_⟩⟩
    rw [hform, (hker x).2]
    constructor
    · intro h
      refine ⟨combo k poly.centroid poly.diameter (tri (k + 1)) (apply Q x), combo_degree (k := k) _ le_rfl, dofVector_congr hT.nodes (hcombo _) fun r hr => ?_⟩
      rw [hap]
      exact h r hr
    · rintro ⟨q, hq, hv⟩ r hr
      have h1 : combo k poly.centroid poly.diameter (tri (k + 1)) (apply Q x) = q := ev2_ext fun p => by
        rw [ev2_combo k _ _ le_rfl]
        exact hex q hq x hv p
      have h2 := hcombo (apply Q x)
      rw [h1] at h2
      have := dofVector_unique hT.nodes h2 hv r hr
      rw [hap] at this
      exact this
  refine ⟨r3, s3, hr, hc, fun type ht => ?_, fun type h1 h2 => ?_⟩
  · rcases ht with rfl | rfl
    · exact key 1 s3.piNabla one_pos (hs.solves.1.trans hs.nabla.gCols) (by rw [hm]; exact hs.solves.2.1.trans hs.nabla.bCols) e1
    · exact key poly.measure s3.pi0k hpos hs.l2.zRows (by rw [hm]; exact hs.l2.zCols) e2
  · unfold vemDofiDofi
    cases type <;> first | rfl | contradiction

/-- The unit square at order 2: the stabilization is a 9 by 9 matrix. -/
example : ∃ lu llt : Solver ℝ, ∃ ref s S, vemRef2D (fun _ => ⟨nc4Points, nc4Weights⟩) (fun _ => ⟨[0, 1 / 2, 1], [1 / 6, 2 / 3, 1 / 6]⟩) 2 = .ok ref ∧
    vemCreate2D lu llt ref squarePoly = .ok s ∧ vemDofiDofi squarePoly s .piNabla = .ok S ∧ S.rows = 9 ∧ S.cols = 9 := by
  obtain ⟨lu, h1, h2⟩ := exists_solvers
  obtain ⟨ref, s, hr, hs, h, _⟩ := C77_stabilization square_element square_tables h1 h2 (by norm_num [squarePoly])
  obtain ⟨S, hS, h3, h4, _⟩ := h .piNabla (Or.inl rfl)
  exact ⟨lu, lu, ref, s, S, hr, hs, hS, h3, h4.trans h3⟩

end

section
variable {K : Type} [Field K] [LinearOrder K]

omit [LinearOrder K] in
/-- C76: `EdgeDOFsCoordinates` returns the internal nodes of the edge, measured from its first vertex if the edge is stored with its direction in the cell
and from the second one otherwise. -/
theorem C76_coordinates (ts : List K) (V : List (Vec3 K)) (edges : List (Nat × Nat)) (dirs : List Bool) (tangents : List (Vec3 K)) (e a b : Nat) (A B : Vec3 K)
    (dir : Bool) (he : edges[e]? = some (a, b)) (ha : V[a]? = some A) (hb : V[b]? = some B) (hd : dirs[e]? = some dir) (ht : tangents[e]? = some (B - A)) :
    edgeDofsCoordinates ts V edges dirs tangents e = .ok (ts.map fun t => if dir then segPoint3 A B t else segPoint3 B A t) := by
  unfold edgeDofsCoordinates
  by_cases h0 : ts.length = 0
  · rw [if_pos h0, List.length_eq_zero_iff.1 h0]
    rfl
  · rw [if_neg h0]
    have h1 : atIdx dirs e = .ok dir := by unfold atIdx; rw [hd]
    have h2 : unchecked edges e = .ok (a, b) := (unchecked_ok_iff _ _ _).2 he
    have h3 : unchecked tangents e = .ok (B - A) := (unchecked_ok_iff _ _ _).2 ht
    rw [h1, except_ok_bind, h2, except_ok_bind, h3]
    cases dir
    · rw [if_neg (by simp), (unchecked_ok_iff _ _ _).2 hb, except_ok_bind, except_ok_bind]
      simp only [Bool.false_eq_true, if_false, segPoint3]
      congr 1
      refine List.map_congr_left fun t _ => ?_
      module
    · rw [if_pos rfl, (unchecked_ok_iff _ _ _).2 ha, except_ok_bind, except_ok_bind]
      simp only [if_true, segPoint3]
      congr 1
      refine List.map_congr_left fun t _ => ?_
      module

omit [LinearOrder K] in
/-- C76: two cells that share an edge, stored in either orientation with the matching direction flags, get the same nodes in the same order. -/
theorem C76_neighbours (ts : List K) (V V' : List (Vec3 K)) (edges edges' : List (Nat × Nat)) (dirs dirs' : List Bool) (tangents tangents' : List (Vec3 K))
    (e a b e' a' b' : Nat) (A B A' B' : Vec3 K) (dir dir' : Bool)
    (he : edges[e]? = some (a, b)) (ha : V[a]? = some A) (hb : V[b]? = some B) (hd : dirs[e]? = some dir) (ht : tangents[e]? = some (B - A))
    (he' : edges'[e']? = some (a', b')) (ha' : V'[a']? = some A') (hb' : V'[b']? = some B') (hd' : dirs'[e']? = some dir') (ht' : tangents'[e']? = some (B' - A'))
    (hs : (dir = dir' ∧ A = A' ∧ B = B') ∨ (dir ≠ dir' ∧ A = B' ∧ B = A')) :
    edgeDofsCoordinates ts V edges dirs tangents e = edgeDofsCoordinates ts V' edges' dirs' tangents' e' := by
  rw [C76_coordinates ts V edges dirs tangents e a b A B dir he ha hb hd ht, C76_coordinates ts V' edges' dirs' tangents' e' a' b' A' B' dir' he' ha' hb' hd' ht']
  rcases hs with ⟨rfl, rfl, rfl⟩ | ⟨h, rfl, rfl⟩
  · rfl
  · cases dir <;> cases dir' <;> simp_all

/-- The edge between `(4, 0, 0)` and `(0, 8, 0)`, seen from two cells that store it in opposite directions. -/
example : edgeDofsCoordinates (K := ℚ) [1 / 4, 1 / 2] [(0, 0, 0), (4, 0, 0), (0, 8, 0)] [(0, 1), (1, 2)] [true, true] [(4, 0, 0), (-4, 8, 0)] 1
      = .ok [(3, 2, 0), (2, 4, 0)] ∧
    edgeDofsCoordinates (K := ℚ) [1 / 4, 1 / 2] [(0, 8, 0), (4, 0, 0)] [(0, 1)] [false] [(4, -8, 0)] 0 = .ok [(3, 2, 0), (2, 4, 0)] := by
  have h1 := C76_coordinates (K := ℚ) [1 / 4, 1 / 2] [(0, 0, 0), (4, 0, 0), (0, 8, 0)] [(0, 1), (1, 2)] [true, true] [(4, 0, 0), (-4, 8, 0)] 1 1 2
    (4, 0, 0) (0, 8, 0) true rfl rfl rfl rfl (by norm_num)
  have h2 := C76_neighbours (K := ℚ) [1 / 4, 1 / 2] [(0, 0, 0), (4, 0, 0), (0, 8, 0)] [(0, 8, 0), (4, 0, 0)] [(0, 1), (1, 2)] [(0, 1)] [true, true] [false]
    [(4, 0, 0), (-4, 8, 0)] [(4, -8, 0)] 1 1 2 0 0 1 (4, 0, 0) (0, 8, 0) (0, 8, 0) (4, 0, 0) true false rfl rfl rfl rfl (by norm_num) rfl rfl rfl rfl (by norm_num)
    (Or.inr ⟨by decide, rfl, rfl⟩)
  have h3 : edgeDofsCoordinates (K := ℚ) [1 / 4, 1 / 2] [(0, 0, 0), (4, 0, 0), (0, 8, 0)] [(0, 1), (1, 2)] [true, true] [(4, 0, 0), (-4, 8, 0)] 1
      = .ok [(3, 2, 0), (2, 4, 0)] := by
    rw [h1]
    norm_num [segPoint3]
  exact ⟨h3, h2 ▸ h3⟩

end

end PolyDiM
