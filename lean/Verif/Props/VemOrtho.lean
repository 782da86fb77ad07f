import Verif.Lemmas.OrthoExample
import Verif.Lemmas.VemEval
import Verif.Props.VemStab

/-!
# The VEM local space with an orthonormal polynomial basis (C134-C136)
-/

namespace PolyDiM

open Spec MvPolynomial MeasureTheory

section
variable {k n : Nat} {V : Nat → ℝ × ℝ} {len : Nat → ℝ} {dir : Nat → Bool} {nrm : Nat → ℝ × ℝ} {poly : VemPolygon ℝ}
  {triangle : Nat → Rule (ℝ × ℝ) ℝ} {edge : Nat → Rule ℝ ℝ} {ts ws : List ℝ} {w : ℝ} {lu llt : Solver ℝ} {lib : OrthoLib ℝ} {s : VemSpace2D ℝ} {t : OrthoSpace2D ℝ}

/-- C134: on every element the local space is computed, and its polynomial basis is orthonormal on the element. The first `(a + 1) (a + 2) / 2` polynomials
of the basis span the polynomials of degree at most `a`, and `QmatrixInv` is the inverse of `Qmatrix`. -/
theorem C134_orthonormal (hE : IsElement poly n V len dir nrm) (hT : IsTables k triangle edge ts ws w) (hpos : ∀ x ∈ (triangle (2 * k)).weights, 0 ≤ x)
    (hlu : SolvesRegular lu) (hllt : SolvesPosDef llt) (hl : IsOrthoLib lib) :
    ∃ ref t, vemRef2D triangle edge k = .ok ref ∧ orthoCreate2D lib lu llt ref poly = .ok t ∧
      (∀ i < (k + 1) * (k + 2) / 2, ∀ j < (k + 1) * (k + 2) / 2,
        ∫ p in unionOf poly.tris, polyOf k poly.centroid poly.diameter (fun l => t.base.q.ent i l) p * polyOf k poly.centroid poly.diameter (fun l => t.base.q.ent j l) p
          = if i = j then 1 else 0) ∧
      (∀ a ≤ k, ∀ x : Nat → ℝ, ∃ P : MvPolynomial (Fin 2) ℝ, P.totalDegree ≤ a ∧
        ∀ p : ℝ × ℝ, eval ![p.1, p.2] P = orthoOf k poly.centroid poly.diameter t.base.q ((a + 1) * (a + 2) / 2) x p) ∧
      (∀ a ≤ k, ∀ P : MvPolynomial (Fin 2) ℝ, P.totalDegree ≤ a → ∃ x : Nat → ℝ,
        ∀ p : ℝ × ℝ, orthoOf k poly.centroid poly.diameter t.base.q ((a + 1) * (a + 2) / 2) x p = eval ![p.1, p.2] P) ∧
      t.base.q.rows = (k + 1) * (k + 2) / 2 ∧ t.base.q.cols = (k + 1) * (k + 2) / 2 ∧
      t.base.qInv.rows = (k + 1) * (k + 2) / 2 ∧ t.base.qInv.cols = (k + 1) * (k + 2) / 2 ∧
      ∀ i < (k + 1) * (k + 2) / 2, ∀ j < (k + 1) * (k + 2) / 2,
        ∑ l ∈ Finset.range ((k + 1) * (k + 2) / 2), t.base.q.ent i l * t.base.qInv.ent l j = if i = j then 1 else 0 := by
  obtain ⟨ref, s, t, hr, _, ht, hs, ho⟩ := orthoCreate_ok hE hT hpos hlu hllt hl.mgs hl.inverse hl.sqrt
  have hB := ho.basis
  refine ⟨ref, t, hr, ht, ?_, fun a ha x => ?_, fun a ha P hP => ?_, ?_, ?_, ?_, ?_, ?_⟩
  · rw [tri_div]
    intro i hi j hj
    rw [← oPoly_gram hB hi hj, hs.rules.integral]
    · congr 1
      funext p
      rw [← ev2_oPoly, ← ev2_oPoly]
      simp [ev2]
    · refine (totalDegree_mul _ _).trans ?_
      have h1 := oPoly_degree hB le_rfl hi
      have h2 := oPoly_degree hB le_rfl hj
      omega
  · rw [tri_div]
    exact ⟨_, oCombo_degree hB ha x, fun p => ev2_oCombo _ _ _ _ _ _ _⟩
  · rw [tri_div]
    refine ⟨fun i => quadLin s.internal.points s.internal.weights (oPoly k poly.centroid poly.diameter t.base.q i * P), fun p => ?_⟩
    conv_rhs => rw [oCombo_span hB hE.diameter ha hP]
    exact (ev2_oCombo _ _ _ _ _ _ _).symm
  · rw [tri_div, hB.qRows]
  · rw [tri_div, hB.qCols]
  · rw [tri_div, hB.iRows]
  · rw [tri_div, hB.iCols]
  · rw [tri_div]
    exact hB.left

/-- The unit square at order 2 with a rule of positive weights: the basis has six polynomials of integral square 1. -/
example : ∃ (lib : OrthoLib ℝ) (lu llt : Solver ℝ), ∃ ref t, vemRef2D (fun _ => ⟨conicalPoints, conicalWeights⟩) (fun _ => ⟨[0, 1 / 2, 1], [1 / 6, 2 / 3, 1 / 6]⟩) 2 = .ok ref ∧
    orthoCreate2D lib lu llt ref squarePoly = .ok t ∧ t.base.q.rows = 6 ∧
    ∀ i < 6, ∫ p in unionOf squarePoly.tris, polyOf 2 squarePoly.centroid squarePoly.diameter (fun l => t.base.q.ent i l) p *
      polyOf 2 squarePoly.centroid squarePoly.diameter (fun l => t.base.q.ent i l) p = 1 := by
  obtain ⟨lib, hl⟩ := exists_ortho_lib
  obtain ⟨lu, h1, h2⟩ := exists_solvers
  obtain ⟨ref, t, hr, ht, hg, _, _, hq, _⟩ := C134_orthonormal square_element conical_tables conical_pos h1 h2 hl
  exact ⟨lib, lu, lu, ref, t, hr, ht, hq, fun i hi => (hg i hi i hi).trans (if_pos rfl)⟩

theorem sqrtArray_negative {sqrt : ℝ → ℝ} : ∀ {w : List ℝ}, (∃ x ∈ w, x < 0) → sqrtArray sqrt w = .error .notANumber
  | [], h => absurd h (by simp)
  | a :: l, h => by
    unfold sqrtArray
    rw [List.mapM_cons]
    by_cases ha : a < 0
    · rw [if_pos ha]
      rfl
    · rw [if_neg ha, except_ok_bind]
      have hl : ∃ x ∈ l, x < 0 := by
        obtain ⟨x, hx, h0⟩ := h
        rcases List.mem_cons.1 hx with rfl | hx
        · exact absurd h0 ha
        · exact ⟨x, hx, h0⟩
      have := sqrtArray_negative (sqrt := sqrt) hl
      unfold sqrtArray at this
      rw [this]
      rfl

/-- C134 needs the sign of the weights: with a rule on the triangle that is exact but has a negative weight, the space over monomials is computed and the
space with an orthonormal basis is not, because the code takes the square root of the weights. -/
theorem C134_negative (hE : IsElement poly n V len dir nrm) (hT : IsTables k triangle edge ts ws w) (hneg : ∃ x ∈ (triangle (2 * k)).weights, x < 0)
    (hlu : SolvesRegular lu) (hllt : SolvesPosDef llt) (lib : OrthoLib ℝ) :
    ∃ ref s, vemRef2D triangle edge k = .ok ref ∧ vemCreate2D lu llt ref poly = .ok s ∧ orthoCreate2D lib lu llt ref poly = .error .notANumber := by
  obtain ⟨ref, s, hr, hc, hs⟩ := vemCreate_ok hE hT hlu hllt
  refine ⟨ref, s, hr, hc, ?_⟩
  obtain ⟨internal, bnd, hi, hb, _⟩ := rules_ok hE hT
  have hw : ∃ x ∈ internal.weights, x < 0 := by
    have := polygonQuad_eq (triangle (2 * k)) poly.tris hT.triangleLength
    rw [hi] at this
    rw [Except.ok.inj this]
    obtain ⟨x, hx, h0⟩ := hneg
    obtain ⟨v, hv, hp⟩ := hE.tris.pos
    refine ⟨x * |tri2Det v|, List.mem_flatMap.2 ⟨v, hv, List.mem_map.2 ⟨x, hx, rfl⟩⟩, mul_neg_of_neg_of_pos h0 (abs_pos.2 ?_)⟩
    have e : tri2Det v = shoelace v.1 v.2.1 v.2.2 := by
      simp only [tri2Det, shoelace]
      ring
    rw [e]
    exact hp.ne'
  rw [vemRef_ok hT] at hr
  obtain rfl := Except.ok.inj hr
  unfold orthoCreate2D
  dsimp only
  rw [hi, except_ok_bind, hb, except_ok_bind]
  obtain ⟨V1, X1, Y1, e1, e2, e3, _⟩ := polyDer_ok (ref := (⟨k, k - 1, tri (k - 1), compute mono2 k, triangle (2 * k), ts, ws, (w, w)⟩ : VemRef2D ℝ)) rfl poly internal.points
  obtain ⟨V2, X2, Y2, f1, f2, f3, _⟩ := polyDer_ok (ref := (⟨k, k - 1, tri (k - 1), compute mono2 k, triangle (2 * k), ts, ws, (w, w)⟩ : VemRef2D ℝ)) rfl poly bnd.points
  unfold orthoInit2D mgsOrthonormalize
  dsimp only at e1 e2 e3 f1 f2 f3 ⊢
  rw [e1, except_ok_bind, e2, except_ok_bind, e3, except_ok_bind, f1, except_ok_bind, f2, except_ok_bind, f3, except_ok_bind, sqrtArray_negative hw]
  rfl

/-- The unit square at order 2 with a rule of degree 4 that has negative weights. -/
example : ∃ lu llt : Solver ℝ, ∀ lib, ∃ ref s, vemRef2D (fun _ => ⟨nc4Points, nc4Weights⟩) (fun _ => ⟨[0, 1 / 2, 1], [1 / 6, 2 / 3, 1 / 6]⟩) 2 = .ok ref ∧
    vemCreate2D lu llt ref squarePoly = .ok s ∧ orthoCreate2D lib lu llt ref squarePoly = .error .notANumber := by
  obtain ⟨lu, h1, h2⟩ := exists_solvers
  exact ⟨lu, lu, fun lib => C134_negative square_element square_tables ⟨-1 / 90, by simp [nc4Weights], by norm_num⟩ h1 h2 lib⟩

/-- C135: for every function the energy projection and the projections of its derivatives are those of the space over monomials. -/
theorem C135_monomials (hE : IsElement poly n V len dir nrm) (hT : IsTables k triangle edge ts ws w) (hpos : ∀ x ∈ (triangle (2 * k)).weights, 0 ≤ x)
    (hlu : SolvesRegular lu) (hllt : SolvesPosDef llt) (hl : IsOrthoLib lib) :
    ∃ ref s t, vemRef2D triangle edge k = .ok ref ∧ vemCreate2D lu llt ref poly = .ok s ∧ orthoCreate2D lib lu llt ref poly = .ok t ∧
      ∀ (u : ℝ × ℝ → ℝ) (v v' : Nat → ℝ), IntegrableOn u (unionOf poly.tris) → IsDofVector k poly n V dir ts u v →
        IsOrthoDofs k poly t.base.q n V dir ts u v' → ∀ p : ℝ × ℝ,
          orthoOf k poly.centroid poly.diameter t.base.q ((k + 1) * (k + 2) / 2) (apply t.piNabla v') p = polyOf k poly.centroid poly.diameter (apply s.piNabla v) p ∧
          orthoOf k poly.centroid poly.diameter t.base.q (k * (k + 1) / 2) (apply t.derX v') p = polyOf (k - 1) poly.centroid poly.diameter (apply s.derX v) p ∧
          orthoOf k poly.centroid poly.diameter t.base.q (k * (k + 1) / 2) (apply t.derY v') p = polyOf (k - 1) poly.centroid poly.diameter (apply s.derY v) p := by
  obtain ⟨ref, s, t, hr, hc, ht, hs, ho⟩ := orthoCreate_ok hE hT hpos hlu hllt hl.mgs hl.inverse hl.sqrt
  have hk := hT.low
  have hkk : k - 1 + 1 = k := by omega
  refine ⟨ref, s, t, hr, hc, ht, fun u v v' hu hv hv' p => ?_⟩
  have huniq := dofsU_unique hE (dofsU_ok hE hT hs (dofs_back hE hT hs ho.basis hu hv')) (dofsU_ok hE hT hs hv)
  obtain ⟨W, hN⟩ := ho.nabla
  obtain ⟨WX, hX'⟩ := ho.derX
  obtain ⟨WY, hY'⟩ := ho.derY
  obtain ⟨EX, hX⟩ := hs.derX
  obtain ⟨EY, hY⟩ := hs.derY
  have hc1 : s.piNabla.cols = s.boundary.points.length + tri (k - 1) := hs.solves.2.1.trans hs.nabla.bCols
  have hc2 : t.piNabla.cols = s.boundary.points.length + tri (k - 1) := ho.solves.2.1.trans hN.bCols
  have hsame : ∀ A : DMat ℝ, (fun j => ∑ b ∈ Finset.range (s.boundary.points.length + tri (k - 1)), A.ent j b *
      monoDofs s.boundary.points.length (tri (k - 1)) t.base.qInv v' b) = fun j => ∑ b ∈ Finset.range (s.boundary.points.length + tri (k - 1)), A.ent j b * v b := by
    intro A
    funext j
    exact Finset.sum_congr rfl fun b hb => by rw [huniq b (Finset.mem_range.1 hb)]
  rw [tri_div, tri_div', ← ev2_oCombo, ← ev2_oCombo, ← ev2_oCombo, ← ev2_combo k _ _ le_rfl, ← ev2_combo k _ _ (show k - 1 ≤ k by omega),
    ← ev2_combo k _ _ (show k - 1 ≤ k by omega), hkk, apply_eq hc1, apply_eq hc2, apply_eq hX.yCols, apply_eq hY.yCols, apply_eq hX'.yCols, apply_eq hY'.yCols,
    oNabla_eq hs.discrete hk hE.diameter ho.basis hs.nabla hs.solves hN ho.solves, oDer_eq hk hE.diameter ho.basis hX hX', oDer_eq hk hE.diameter ho.basis hY hY',
    hsame, hsame, hsame]
  exact ⟨rfl, rfl, rfl⟩

/-- The unit square at order 2 and the function `|x - y|`, which is no polynomial. -/
example : ∃ (lib : OrthoLib ℝ) (lu llt : Solver ℝ), ∃ ref s t v v', vemRef2D (fun _ => ⟨conicalPoints, conicalWeights⟩) (fun _ => ⟨[0, 1 / 2, 1], [1 / 6, 2 / 3, 1 / 6]⟩) 2 = .ok ref ∧
    vemCreate2D lu llt ref squarePoly = .ok s ∧ orthoCreate2D lib lu llt ref squarePoly = .ok t ∧
    IsDofVector 2 squarePoly 4 squareV (fun i => i % 2 = 0) [1 / 2] (fun p => |p.1 - p.2|) v ∧
    IsOrthoDofs 2 squarePoly t.base.q 4 squareV (fun i => i % 2 = 0) [1 / 2] (fun p => |p.1 - p.2|) v' ∧
    ∀ p, orthoOf 2 squarePoly.centroid squarePoly.diameter t.base.q 6 (apply t.piNabla v') p = polyOf 2 squarePoly.centroid squarePoly.diameter (apply s.piNabla v) p := by
  obtain ⟨lib, hl⟩ := exists_ortho_lib
  obtain ⟨lu, h1, h2⟩ := exists_solvers
  obtain ⟨ref, s, t, hr, hs, ht, h⟩ := C135_monomials square_element conical_tables conical_pos h1 h2 hl
  obtain ⟨v, hv⟩ := exists_dofs 2 squarePoly 4 squareV (fun i => i % 2 = 0) [1 / 2] rfl fun p => |p.1 - p.2|
  obtain ⟨v', hv'⟩ := exists_ortho_dofs 2 squarePoly t.base.q 4 squareV (fun i => i % 2 = 0) [1 / 2] rfl fun p => |p.1 - p.2|
  exact ⟨lib, lu, lu, ref, s, t, v, v', hr, hs, ht, hv, hv', fun p => (h _ v v' (square_integrable (by fun_prop)) hv hv' p).1⟩

theorem lin_mul_oCombo (F : MvPolynomial (Fin 2) ℝ →ₗ[ℝ] ℝ) (c : ℝ × ℝ) (h : ℝ) (Q : DMat ℝ) (z : MvPolynomial (Fin 2) ℝ) (M : Nat) (x : Nat → ℝ) :
    F (z * oCombo k c h Q M x) = ∑ i ∈ Finset.range M, x i * F (oPoly k c h Q i * z) := by
  unfold oCombo
  rw [Finset.mul_sum, map_sum]
  refine Finset.sum_congr rfl fun i _ => ?_
  rw [show z * (C (x i) * oPoly k c h Q i) = x i • (oPoly k c h Q i * z) by rw [smul_eq_C_mul]; ring, map_smul, smul_eq_mul]

/-- The coefficients of the L2 projections. -/
theorem ol2_apply (ho : OSpaceOk k poly s t) (v : Nat → ℝ) :
    (∀ i < tri (k - 1), apply t.pi0k v i = poly.measure * v (s.boundary.points.length + i)) ∧
    (∀ i < tri (k + 1), tri (k - 1) ≤ i → apply t.pi0k v i = apply t.piNabla v i) ∧ ∀ i < tri k, apply t.pi0km1 v i = apply t.pi0k v i := by
  have htri := tri_sub_le k
  obtain ⟨W, hN⟩ := ho.nabla
  have hc2 : t.piNabla.cols = s.boundary.points.length + tri (k - 1) := ho.solves.2.1.trans hN.bCols
  refine ⟨fun i hi => ?_, fun i hi hi' => ?_, fun i hi => ?_⟩
  · rw [apply_eq ho.l2.zCols]
    beta_reduce
    rw [Finset.sum_eq_single_of_mem (s.boundary.points.length + i) (Finset.mem_range.2 (by omega)) fun b hb hne => ?_]
    · rw [ho.l2.zEnt i (by omega) _ (by omega), ho.l2.cLow i hi _ (by omega), if_pos rfl]
    · rw [ho.l2.zEnt i (by omega) _ (Finset.mem_range.1 hb), ho.l2.cLow i hi _ (Finset.mem_range.1 hb), if_neg hne, zero_mul]
  · rw [apply_eq ho.l2.zCols, apply_eq hc2]
    exact Finset.sum_congr rfl fun b hb => by rw [ho.l2.zEnt i hi _ (Finset.mem_range.1 hb), ho.l2.cHigh i hi hi' _ (Finset.mem_range.1 hb)]
  · have : tri k ≤ tri (k + 1) := by rw [tri_succ]; omega
    rw [apply_eq ho.l2.zCols, apply_eq ho.l2.yCols]
    exact Finset.sum_congr rfl fun b hb => by rw [ho.l2.zEnt i (by omega) _ (Finset.mem_range.1 hb), ho.l2.yEnt i hi _ (Finset.mem_range.1 hb)]

/-- The integral of a polynomial times a combination of the basis. -/
theorem oCombo_integral (hs : SpaceOk k n V len dir ts ws w poly s) (ho : OSpaceOk k poly s t) {a : Nat} (ha : a ≤ k) (x : Nat → ℝ) {z : MvPolynomial (Fin 2) ℝ} (hz : z.totalDegree ≤ k) :
    ∫ p in unionOf poly.tris, eval ![p.1, p.2] z * orthoOf k poly.centroid poly.diameter t.base.q (tri (a + 1)) x p
      = ∑ i ∈ Finset.range (tri (a + 1)), x i * quadLin s.internal.points s.internal.weights (oPoly k poly.centroid poly.diameter t.base.q i * z) := by
  rw [← lin_mul_oCombo, hs.rules.integral]
  · congr 1
    funext p
    rw [← ev2_oCombo]
    simp [ev2]
  · refine (totalDegree_mul _ _).trans ?_
    have := oCombo_degree ho.basis ha x
    omega

/-- C135: the L2 projection onto degree `k` has the moments of the function against polynomials of degree at most `k - 2`, and those of the energy projection
against the polynomials of degree at most `k` that are orthogonal to them. The projection onto degree `k - 1` has the moments of the projection onto degree
`k` against polynomials of degree at most `k - 1`. -/
theorem C135_l2 (hE : IsElement poly n V len dir nrm) (hT : IsTables k triangle edge ts ws w) (hpos : ∀ x ∈ (triangle (2 * k)).weights, 0 ≤ x)
    (hlu : SolvesRegular lu) (hllt : SolvesPosDef llt) (hl : IsOrthoLib lib) :
    ∃ ref t, vemRef2D triangle edge k = .ok ref ∧ orthoCreate2D lib lu llt ref poly = .ok t ∧
      ∀ (u : ℝ × ℝ → ℝ) (v : Nat → ℝ), IntegrableOn u (unionOf poly.tris) → IsOrthoDofs k poly t.base.q n V dir ts u v →
        (∀ z : MvPolynomial (Fin 2) ℝ, z.totalDegree + 2 ≤ k →
          ∫ p in unionOf poly.tris, eval ![p.1, p.2] z * orthoOf k poly.centroid poly.diameter t.base.q ((k + 1) * (k + 2) / 2) (apply t.pi0k v) p
            = ∫ p in unionOf poly.tris, eval ![p.1, p.2] z * u p) ∧
        (∀ z : MvPolynomial (Fin 2) ℝ, z.totalDegree ≤ k →
          (∀ y : MvPolynomial (Fin 2) ℝ, y.totalDegree + 2 ≤ k → ∫ p in unionOf poly.tris, eval ![p.1, p.2] y * eval ![p.1, p.2] z = 0) →
          ∫ p in unionOf poly.tris, eval ![p.1, p.2] z * orthoOf k poly.centroid poly.diameter t.base.q ((k + 1) * (k + 2) / 2) (apply t.pi0k v) p
            = ∫ p in unionOf poly.tris, eval ![p.1, p.2] z * orthoOf k poly.centroid poly.diameter t.base.q ((k + 1) * (k + 2) / 2) (apply t.piNabla v) p) ∧
        ∀ z : MvPolynomial (Fin 2) ℝ, z.totalDegree + 1 ≤ k →
          ∫ p in unionOf poly.tris, eval ![p.1, p.2] z * orthoOf k poly.centroid poly.diameter t.base.q (k * (k + 1) / 2) (apply t.pi0km1 v) p
            = ∫ p in unionOf poly.tris, eval ![p.1, p.2] z * orthoOf k poly.centroid poly.diameter t.base.q ((k + 1) * (k + 2) / 2) (apply t.pi0k v) p := by
  obtain ⟨ref, s, t, hr, _, ht, hs, ho⟩ := orthoCreate_ok hE hT hpos hlu hllt hl.mgs hl.inverse hl.sqrt
  have hk := hT.low
  have hkk : k - 1 + 1 = k := by omega
  have htri := tri_sub_le k
  have hB := ho.basis
  refine ⟨ref, t, hr, ht, fun u v hu hv => ?_⟩
  obtain ⟨hlow, hhigh, hprev⟩ := ol2_apply ho v
  rw [tri_div, tri_div']
  -- a polynomial of degree at most `a` is orthogonal to the later polynomials of the basis
  have hzero : ∀ (a : Nat) (z : MvPolynomial (Fin 2) ℝ), a ≤ k → z.totalDegree ≤ a → ∀ i < tri (k + 1), tri (a + 1) ≤ i →
      quadLin s.internal.points s.internal.weights (oPoly k poly.centroid poly.diameter t.base.q i * z) = 0 := by
    intro a z ha hz i hi hi'
    rw [oCombo_span hB hE.diameter ha hz, oPoly_oCombo hB (tri_le (by omega)) hi, if_neg (by omega)]
  refine ⟨fun z hz => ?_, fun z hz hzo => ?_, fun z hz => ?_⟩
  · rw [oCombo_integral hs ho le_rfl _ (by omega)]
    have hz' : z.totalDegree ≤ k - 2 := by omega
    have h2 : k - 2 + 1 = k - 1 := by omega
    have hsub : Finset.range (tri (k - 1)) ⊆ Finset.range (tri (k + 1)) := Finset.range_subset_range.2 htri
    rw [← Finset.sum_subset hsub fun i hi hi' => by
      rw [hzero (k - 2) z (by omega) hz' i (Finset.mem_range.1 hi) (by rw [h2]; simpa using hi'), mul_zero]]
    have hint : ∀ r : MvPolynomial (Fin 2) ℝ, ∫ p in unionOf poly.tris, eval ![p.1, p.2] r * u p = intU _ hu r := fun r => rfl
    rw [hint]
    conv_rhs => rw [oCombo_span hB hE.diameter (show k - 2 ≤ k by omega) hz', h2]
    unfold oCombo
    rw [map_sum]
    refine Finset.sum_congr rfl fun i hi => ?_
    rw [hlow i (Finset.mem_range.1 hi), ortho_moment hE hs hv (Finset.mem_range.1 hi), ← smul_eq_C_mul, map_smul, smul_eq_mul, mul_comm]
    rfl
  · rw [oCombo_integral hs ho le_rfl _ hz, oCombo_integral hs ho le_rfl _ hz]
    refine Finset.sum_congr rfl fun i hi => ?_
    rcases lt_or_ge i (tri (k - 1)) with h | h
    · have h3 : 2 ≤ k := by
        by_contra hcon
        have : k - 1 = 0 := by omega
        rw [this] at h
        simp [tri] at h
      have hd := oPoly_degree hB (show k - 2 ≤ k by omega) (i := i) (by rwa [show k - 2 + 1 = k - 1 by omega])
      have := hzo (oPoly k poly.centroid poly.diameter t.base.q i) (by omega)
      have e : quadLin s.internal.points s.internal.weights (oPoly k poly.centroid poly.diameter t.base.q i * z) = 0 := by
        rw [hs.rules.integral _ ((totalDegree_mul _ _).trans (by omega)), ← this]
        congr 1
        funext p
        simp [ev2]
      rw [e, mul_zero, mul_zero]
    · rw [hhigh i (Finset.mem_range.1 hi) h]
  · have e := oCombo_integral hs ho (show k - 1 ≤ k by omega) (apply t.pi0km1 v) (show z.totalDegree ≤ k by omega)
    rw [hkk] at e
    rw [e, oCombo_integral hs ho le_rfl _ (by omega)]
    have hsub : Finset.range (tri k) ⊆ Finset.range (tri (k + 1)) := Finset.range_subset_range.2 (by rw [tri_succ]; omega)
    rw [← Finset.sum_subset hsub fun i hi hi' => by
      rw [hzero (k - 1) z (by omega) (by omega) i (Finset.mem_range.1 hi) (by rw [hkk]; simpa using hi'), mul_zero]]
    exact Finset.sum_congr rfl fun i hi => by rw [hprev i (Finset.mem_range.1 hi)]

/-- The unit square at order 2 and the function `|x - y|`: its L2 projection has its mean value. -/
example : ∃ (lib : OrthoLib ℝ) (lu llt : Solver ℝ), ∃ ref t v, vemRef2D (fun _ => ⟨conicalPoints, conicalWeights⟩) (fun _ => ⟨[0, 1 / 2, 1], [1 / 6, 2 / 3, 1 / 6]⟩) 2 = .ok ref ∧
    orthoCreate2D lib lu llt ref squarePoly = .ok t ∧ IsOrthoDofs 2 squarePoly t.base.q 4 squareV (fun i => i % 2 = 0) [1 / 2] (fun p => |p.1 - p.2|) v ∧
    ∫ p in unionOf squarePoly.tris, orthoOf 2 squarePoly.centroid squarePoly.diameter t.base.q 6 (apply t.pi0k v) p = ∫ p in unionOf squarePoly.tris, |p.1 - p.2| := by
  obtain ⟨lib, hl⟩ := exists_ortho_lib
  obtain ⟨lu, h1, h2⟩ := exists_solvers
  obtain ⟨ref, t, hr, ht, h⟩ := C135_l2 square_element conical_tables conical_pos h1 h2 hl
  obtain ⟨v, hv⟩ := exists_ortho_dofs 2 squarePoly t.base.q 4 squareV (fun i => i % 2 = 0) [1 / 2] rfl fun p => |p.1 - p.2|
  have := (h _ v (square_integrable (by fun_prop)) hv).1 1 (by rw [totalDegree_one])
  simp only [map_one, one_mul] at this
  exact ⟨lib, lu, lu, ref, t, v, hr, ht, hv, this⟩

/-- The coefficients of the projections of a polynomial. -/
theorem ortho_exact (hE : IsElement poly n V len dir nrm) (hT : IsTables k triangle edge ts ws w) (hlu : SolvesRegular lu) (hllt : SolvesPosDef llt)
    {ref : VemRef2D ℝ} (hr : vemRef2D triangle edge k = .ok ref) (hc : vemCreate2D lu llt ref poly = .ok s) (hs : SpaceOk k n V len dir ts ws w poly s)
    (ho : OSpaceOk k poly s t) {q : MvPolynomial (Fin 2) ℝ} (hq : q.totalDegree ≤ k) {v : Nat → ℝ}
    (hv : IsOrthoDofs k poly t.base.q n V dir ts (fun p => eval ![p.1, p.2] q) v) :
    oCombo k poly.centroid poly.diameter t.base.q (tri (k + 1)) (apply t.piNabla v) = q ∧
    oCombo k poly.centroid poly.diameter t.base.q (tri (k + 1)) (apply t.pi0k v) = q ∧
    oCombo k poly.centroid poly.diameter t.base.q (tri k) (apply t.derX v) = pderiv 0 q ∧
    oCombo k poly.centroid poly.diameter t.base.q (tri k) (apply t.derY v) = pderiv 1 q ∧
    ∀ i < tri (k + 1), apply t.pi0k v i = quadLin s.internal.points s.internal.weights (oPoly k poly.centroid poly.diameter t.base.q i * q) ∧
      apply t.piNabla v i = quadLin s.internal.points s.internal.weights (oPoly k poly.centroid poly.diameter t.base.q i * q) := by
  have hk := hT.low
  have hkk : k - 1 + 1 = k := by omega
  have htri := tri_sub_le k
  have hB := ho.basis
  obtain ⟨W, hN⟩ := ho.nabla
  obtain ⟨WX, hX'⟩ := ho.derX
  obtain ⟨WY, hY'⟩ := ho.derY
  obtain ⟨EX, hX⟩ := hs.derX
  obtain ⟨EY, hY⟩ := hs.derY
  have hc1 : s.piNabla.cols = s.boundary.points.length + tri (k - 1) := hs.solves.2.1.trans hs.nabla.bCols
  have hc2 : t.piNabla.cols = s.boundary.points.length + tri (k - 1) := ho.solves.2.1.trans hN.bCols
  have hcont : IntegrableOn (fun p : ℝ × ℝ => eval ![p.1, p.2] q) (unionOf poly.tris) := (poly2_continuous q).continuousOn.integrableOn_compact (unionOf_compact _)
  have hm := dofs_back hE hT hs hB hcont hv
  obtain ⟨r1, s1, hr1, hs1, _, _, e1⟩ := C51_exact hE hT hlu hllt
  obtain ⟨r4, s4, hr4, hs4, _, _, _, _, e4⟩ := C71_derivatives hE hT hlu hllt
  obtain rfl : r1 = ref := Except.ok.inj (hr1.symm.trans hr)
  obtain rfl : s1 = s := Except.ok.inj (hs1.symm.trans hc)
  obtain rfl : r4 = r1 := Except.ok.inj (hr4.symm.trans hr)
  obtain rfl : s4 = s1 := Except.ok.inj (hs4.symm.trans hc)
  have hnabla : oCombo k poly.centroid poly.diameter t.base.q (tri (k + 1)) (apply t.piNabla v) = q := by
    rw [apply_eq hc2, oNabla_eq hs.discrete hk hE.diameter hB hs.nabla hs.solves hN ho.solves, ← apply_eq hc1]
    exact ev2_ext fun p => (ev2_combo k _ _ le_rfl _ _).trans (e1 q hq _ hm p)
  have hcoef : ∀ i < tri (k + 1), apply t.piNabla v i = quadLin s4.internal.points s4.internal.weights (oPoly k poly.centroid poly.diameter t.base.q i * q) := by
    intro i hi
    have := oPoly_oCombo hB le_rfl hi (apply t.piNabla v)
    rw [hnabla, if_pos hi] at this
    exact this.symm
  obtain ⟨hlow, hhigh, _⟩ := ol2_apply ho v
  have hl2 : ∀ i < tri (k + 1), apply t.pi0k v i = quadLin s4.internal.points s4.internal.weights (oPoly k poly.centroid poly.diameter t.base.q i * q) := by
    intro i hi
    rcases lt_or_ge i (tri (k - 1)) with h | h
    · rw [hlow i h, ortho_moment hE hs hv h, hs.rules.integral]
      · congr 1
        funext p
        simp [ev2]
      · refine (totalDegree_mul _ _).trans ?_
        have := oPoly_degree hB le_rfl hi
        omega
    · rw [hhigh i hi h, hcoef i hi]
  refine ⟨hnabla, ?_, ?_, ?_, fun i hi => ⟨hl2 i hi, hcoef i hi⟩⟩
  · conv_rhs => rw [oCombo_span hB hE.diameter le_rfl hq]
    unfold oCombo
    exact Finset.sum_congr rfl fun i hi => by rw [hl2 i (Finset.mem_range.1 hi)]
  · rw [apply_eq hX'.yCols, oDer_eq hk hE.diameter hB hX hX', ← apply_eq hX.yCols]
    refine ev2_ext fun p => ?_
    have := ev2_combo k poly.centroid poly.diameter (show k - 1 ≤ k by omega) (apply s4.derX (monoDofs s4.boundary.points.length (tri (k - 1)) t.base.qInv v)) p
    rw [hkk] at this
    exact this.trans (e4 q hq _ hm p).1
  · rw [apply_eq hY'.yCols, oDer_eq hk hE.diameter hB hY hY', ← apply_eq hY.yCols]
    refine ev2_ext fun p => ?_
    have := ev2_combo k poly.centroid poly.diameter (show k - 1 ≤ k by omega) (apply s4.derY (monoDofs s4.boundary.points.length (tri (k - 1)) t.base.qInv v)) p
    rw [hkk] at this
    exact this.trans (e4 q hq _ hm p).2

/-- C135: the projections reproduce polynomials: from the DOFs of a polynomial of degree at most `k` the energy projection and the L2 projection onto degree
`k` give the polynomial, the projections of the derivatives give its derivatives, and the L2 projection onto degree `k - 1` gives it if its degree allows. -/
theorem C135_exact (hE : IsElement poly n V len dir nrm) (hT : IsTables k triangle edge ts ws w) (hpos : ∀ x ∈ (triangle (2 * k)).weights, 0 ≤ x)
    (hlu : SolvesRegular lu) (hllt : SolvesPosDef llt) (hl : IsOrthoLib lib) :
    ∃ ref t, vemRef2D triangle edge k = .ok ref ∧ orthoCreate2D lib lu llt ref poly = .ok t ∧
      ∀ q : MvPolynomial (Fin 2) ℝ, q.totalDegree ≤ k → ∀ v : Nat → ℝ, IsOrthoDofs k poly t.base.q n V dir ts (fun p => eval ![p.1, p.2] q) v → ∀ p : ℝ × ℝ,
        orthoOf k poly.centroid poly.diameter t.base.q ((k + 1) * (k + 2) / 2) (apply t.piNabla v) p = eval ![p.1, p.2] q ∧
        orthoOf k poly.centroid poly.diameter t.base.q ((k + 1) * (k + 2) / 2) (apply t.pi0k v) p = eval ![p.1, p.2] q ∧
        orthoOf k poly.centroid poly.diameter t.base.q (k * (k + 1) / 2) (apply t.derX v) p = eval ![p.1, p.2] (pderiv 0 q) ∧
        orthoOf k poly.centroid poly.diameter t.base.q (k * (k + 1) / 2) (apply t.derY v) p = eval ![p.1, p.2] (pderiv 1 q) ∧
        (q.totalDegree ≤ k - 1 → orthoOf k poly.centroid poly.diameter t.base.q (k * (k + 1) / 2) (apply t.pi0km1 v) p = eval ![p.1, p.2] q) := by
  obtain ⟨ref, s, t, hr, hc, ht, hs, ho⟩ := orthoCreate_ok hE hT hpos hlu hllt hl.mgs hl.inverse hl.sqrt
  have hk := hT.low
  have hkk : k - 1 + 1 = k := by omega
  refine ⟨ref, t, hr, ht, fun q hq v hv p => ?_⟩
  obtain ⟨h1, h2, h3, h4, h5⟩ := ortho_exact hE hT hlu hllt hr hc hs ho hq hv
  rw [tri_div, tri_div']
  refine ⟨?_, ?_, ?_, ?_, fun hq' => ?_⟩
  · rw [← ev2_oCombo, h1]
  · rw [← ev2_oCombo, h2]
  · rw [← ev2_oCombo, h3]
  · rw [← ev2_oCombo, h4]
  · have e := oCombo_span ho.basis hE.diameter (show k - 1 ≤ k by omega) hq'
    rw [hkk] at e
    conv_rhs => rw [e]
    rw [← ev2_oCombo]
    have : oCombo k poly.centroid poly.diameter t.base.q (tri k) (apply t.pi0km1 v) = oCombo k poly.centroid poly.diameter t.base.q (tri k)
        fun i => quadLin s.internal.points s.internal.weights (oPoly k poly.centroid poly.diameter t.base.q i * q) := by
      unfold oCombo
      refine Finset.sum_congr rfl fun i hi => ?_
      have hi' := Finset.mem_range.1 hi
      rw [(ol2_apply ho v).2.2 i hi', (h5 i (by rw [tri_succ]; omega)).1]
    rw [this]

/-- The unit square at order 2 and the polynomial `x y`. -/
example : ∃ (lib : OrthoLib ℝ) (lu llt : Solver ℝ), ∃ ref t v, vemRef2D (fun _ => ⟨conicalPoints, conicalWeights⟩) (fun _ => ⟨[0, 1 / 2, 1], [1 / 6, 2 / 3, 1 / 6]⟩) 2 = .ok ref ∧
    orthoCreate2D lib lu llt ref squarePoly = .ok t ∧ IsOrthoDofs 2 squarePoly t.base.q 4 squareV (fun i => i % 2 = 0) [1 / 2] (fun p => p.1 * p.2) v ∧
    ∀ p, orthoOf 2 squarePoly.centroid squarePoly.diameter t.base.q 6 (apply t.piNabla v) p = p.1 * p.2 := by
  obtain ⟨lib, hl⟩ := exists_ortho_lib
  obtain ⟨lu, h1, h2⟩ := exists_solvers
  obtain ⟨ref, t, hr, ht, h⟩ := C135_exact square_element conical_tables conical_pos h1 h2 hl
  obtain ⟨v, hv⟩ := exists_ortho_dofs 2 squarePoly t.base.q 4 squareV (fun i => i % 2 = 0) [1 / 2] rfl fun p => p.1 * p.2
  refine ⟨lib, lu, lu, ref, t, v, hr, ht, hv, fun p => ?_⟩
  have := (h (X 0 * X 1) ((totalDegree_mul _ _).trans (by rw [totalDegree_X, totalDegree_X])) v (by simpa using hv) p).1
  simpa using this

end

end PolyDiM
