import Verif.Lemmas.Exactness
import Verif.Props.Quadrature

/-!
# Property C68: exactness for polynomials
-/

namespace PolyDiM

open Spec MeasureTheory

/-- C68: if the reference rule integrates the polynomials of total degree at most `k` exactly over the reference triangle, then the rule of
`PolygonInternalQuadrature` integrates them exactly over the union of the triangles, as long as these overlap in null sets only. Triangles
without area are allowed. -/
theorem C68_polygon (k : Nat) (data : Rule (ℝ × ℝ) ℝ) (h : data.points.length = data.weights.length)
    (he : ∀ q : MvPolynomial (Fin 2) ℝ, q.totalDegree ≤ k → quadSum data.points data.weights (fun p => MvPolynomial.eval ![p.1, p.2] q)
      = ∫ p in {p : ℝ × ℝ | InTriangle (0, 0) (1, 0) (0, 1) p}, MvPolynomial.eval ![p.1, p.2] q)
    (tris : List (Tri2 ℝ))
    (hd : tris.Pairwise fun v v' => volume ({p : ℝ × ℝ | InTriangle v.1 v.2.1 v.2.2 p} ∩ {p | InTriangle v'.1 v'.2.1 v'.2.2 p}) = 0) :
    ∃ r, polygonQuad data tris = .ok r ∧ ∀ q : MvPolynomial (Fin 2) ℝ, q.totalDegree ≤ k →
      quadSum r.points r.weights (fun p => MvPolynomial.eval ![p.1, p.2] q)
        = ∫ p in {p : ℝ × ℝ | ∃ v ∈ tris, InTriangle v.1 v.2.1 v.2.2 p}, MvPolynomial.eval ![p.1, p.2] q := by
  obtain ⟨r, hr, _, _, hs⟩ := C47_sum data h tris
  refine ⟨r, hr, ?_⟩
  intro q hq
  have hu := (integral_list_union volume (fun v : Tri2 ℝ => {p : ℝ × ℝ | InTriangle v.1 v.2.1 v.2.2 p})
    (fun p => MvPolynomial.eval ![p.1, p.2] q) tris (fun v _ => (triangle_compact v).measurableSet)
    (fun v _ => (poly2_continuous q).continuousOn.integrableOn_compact (triangle_compact v)) hd).2.2
  rw [hs]
  refine Eq.trans ?_ hu.symm
  congr 1
  apply List.map_congr_left
  intro v _
  obtain ⟨q', hq', hpull⟩ := poly2_pullback v q
  rw [triangle_image, affine_integral volume v.1 (tri2L v) _ refTriangle_compact.measurableSet, tri2L_det]
  congr 1
  simp only [← hpull]
  rw [← he q' (hq'.trans hq)]
  congr 1
  funext p
  rw [hpull]
  have : bary3 v.1 v.2.1 v.2.2 (1 - p.1 - p.2) p.1 p.2 = v.1 + tri2L v p := by
    simp only [tri2L, bary3, LinearMap.coe_mk, AddHom.coe_mk]
    module
  rw [this]

/-- C68: the same for `PolyhedronInternalQuadrature` and tetrahedra. -/
theorem C68_polyhedron (k : Nat) (data : Rule (Vec3 ℝ) ℝ) (h : data.points.length = data.weights.length)
    (he : ∀ q : MvPolynomial (Fin 3) ℝ, q.totalDegree ≤ k → quadSum data.points data.weights (fun p => MvPolynomial.eval ![p.1, p.2.1, p.2.2] q)
      = ∫ p in {p : ℝ × ℝ × ℝ | InTetrahedron (0, 0, 0) (1, 0, 0) (0, 1, 0) (0, 0, 1) p}, MvPolynomial.eval ![p.1, p.2.1, p.2.2] q)
    (tets : List (Tet3 ℝ))
    (hd : tets.Pairwise fun v v' => volume ({p : ℝ × ℝ × ℝ | InTetrahedron v.1 v.2.1 v.2.2.1 v.2.2.2 p} ∩
      {p | InTetrahedron v'.1 v'.2.1 v'.2.2.1 v'.2.2.2 p}) = 0) :
    ∃ r, polyhedronQuad data tets = .ok r ∧ ∀ q : MvPolynomial (Fin 3) ℝ, q.totalDegree ≤ k →
      quadSum r.points r.weights (fun p => MvPolynomial.eval ![p.1, p.2.1, p.2.2] q)
        = ∫ p in {p : ℝ × ℝ × ℝ | ∃ v ∈ tets, InTetrahedron v.1 v.2.1 v.2.2.1 v.2.2.2 p}, MvPolynomial.eval ![p.1, p.2.1, p.2.2] q := by
  obtain ⟨r, hr, _, _, hs⟩ := C65_sum data h tets
  refine ⟨r, hr, ?_⟩
  intro q hq
  have hu := (integral_list_union volume (fun v : Tet3 ℝ => {p : ℝ × ℝ × ℝ | InTetrahedron v.1 v.2.1 v.2.2.1 v.2.2.2 p})
    (fun p => MvPolynomial.eval ![p.1, p.2.1, p.2.2] q) tets (fun v _ => (tetrahedron_compact v).measurableSet)
    (fun v _ => (poly3_continuous q).continuousOn.integrableOn_compact (tetrahedron_compact v)) hd).2.2
  rw [hs]
  refine Eq.trans ?_ hu.symm
  congr 1
  apply List.map_congr_left
  intro v _
  obtain ⟨q', hq', hpull⟩ := poly3_pullback v q
  rw [tetrahedron_image, affine_integral volume v.1 (tet3L v) _ refTetrahedron_compact.measurableSet, tet3L_det]
  congr 1
  simp only [← hpull]
  rw [← he q' (hq'.trans hq)]
  congr 1
  funext p
  rw [hpull]
  have : (1 - p.1 - p.2.1 - p.2.2) • v.1 + p.1 • v.2.1 + p.2.1 • v.2.2.1 + p.2.2 • v.2.2.2 = v.1 + tet3L v p := by
    simp only [tet3L, LinearMap.coe_mk, AddHom.coe_mk]
    module
  rw [this]

/-- C68: if the reference rule with its end points integrates the polynomials of degree at most `k` exactly over `[0, 1]`, the boundary rule of a
polygon integrates the polynomials of total degree at most `k` exactly along the edges, against the length and against the two components of the
normal. -/
theorem C68_boundary (k : Nat) {g : PolyEdges ℝ} {n : Nat} {V : Nat → ℝ × ℝ} {len : Nat → ℝ} {dir : Nat → Bool} {nrm : Nat → ℝ × ℝ}
    (hg : IsPoly g n V len dir nrm) (ts ws : List ℝ) (w : ℝ) (hl : ts.length = ws.length)
    (he : ∀ q : Polynomial ℝ, q.natDegree ≤ k → quadSum (0 :: ts ++ [1]) (w :: ws ++ [w]) (fun t => q.eval t) = ∫ t in (0 : ℝ)..1, q.eval t) :
    ∃ r, lobattoQuad g ts ws (w, w) = .ok r ∧ ∀ q : MvPolynomial (Fin 2) ℝ, q.totalDegree ≤ k →
      quadSum r.points r.weights (fun p => MvPolynomial.eval ![p.1, p.2] q) = ∑ e ∈ Finset.range n, |len e| *
        ∫ t in (0 : ℝ)..1, MvPolynomial.eval ![(segPoint (V e) (V ((e + 1) % n)) t).1, (segPoint (V e) (V ((e + 1) % n)) t).2] q ∧
      quadSum r.points r.nx (fun p => MvPolynomial.eval ![p.1, p.2] q) = ∑ e ∈ Finset.range n, (nrm e).1 * |len e| *
        ∫ t in (0 : ℝ)..1, MvPolynomial.eval ![(segPoint (V e) (V ((e + 1) % n)) t).1, (segPoint (V e) (V ((e + 1) % n)) t).2] q ∧
      quadSum r.points r.ny (fun p => MvPolynomial.eval ![p.1, p.2] q) = ∑ e ∈ Finset.range n, (nrm e).2 * |len e| *
        ∫ t in (0 : ℝ)..1, MvPolynomial.eval ![(segPoint (V e) (V ((e + 1) % n)) t).1, (segPoint (V e) (V ((e + 1) % n)) t).2] q := by
  obtain ⟨r, hr, h1, h2, h3⟩ := C48_rule hg ts ws w hl
  refine ⟨r, hr, ?_⟩
  intro q hq
  have hedge : ∀ e, quadSum (0 :: ts ++ [1]) (w :: ws ++ [w]) (fun t => MvPolynomial.eval
      ![(segPoint (polyEdge n V (dir e) e).1 (polyEdge n V (dir e) e).2 t).1, (segPoint (polyEdge n V (dir e) e).1 (polyEdge n V (dir e) e).2 t).2] q)
      = ∫ t in (0 : ℝ)..1, MvPolynomial.eval ![(segPoint (V e) (V ((e + 1) % n)) t).1, (segPoint (V e) (V ((e + 1) % n)) t).2] q := by
    intro e
    obtain ⟨q', hq', hpull⟩ := poly1_pullback (polyEdge n V (dir e) e).1 (polyEdge n V (dir e) e).2 q
    simp only [← hpull]
    rw [he q' (hq'.trans hq)]
    simp only [hpull]
    unfold polyEdge
    split_ifs
    · rfl
    · have := intervalIntegral.integral_comp_sub_left (a := 0) (b := 1) (fun t : ℝ => MvPolynomial.eval
        ![(segPoint (V e) (V ((e + 1) % n)) t).1, (segPoint (V e) (V ((e + 1) % n)) t).2] q) 1
      rw [sub_self, sub_zero] at this
      rw [← this]
      congr 1
      funext t
      dsimp only
      have hrev : segPoint (V ((e + 1) % n)) (V e) t = segPoint (V e) (V ((e + 1) % n)) (1 - t) := by
        simp only [segPoint, Prod.mk.injEq]
        constructor <;> ring
      rw [hrev]
  refine ⟨?_, ?_, ?_⟩
  · rw [h1]
    exact Finset.sum_congr rfl fun e _ => by rw [hedge]
  · rw [h2]
    exact Finset.sum_congr rfl fun e _ => by rw [hedge]
  · rw [h3]
    exact Finset.sum_congr rfl fun e _ => by rw [hedge]

/-- The hypotheses of C68 are met by the one-point rule, degree one and a triangle: the integral of `x` over the triangle with vertices
`(0, 0)`, `(2, 0)`, `(0, 3)` is 2. -/
example : ∫ p in {p : ℝ × ℝ | InTriangle (0, 0) (2, 0) (0, 3) p}, p.1 = 2 := by
  obtain ⟨r, hr, h⟩ := C68_polygon 1 ⟨[(1 / 3, 1 / 3)], [1 / 2]⟩ rfl centroid_exact [((0, 0), (2, 0), (0, 3))] (by simp)
  have h1 := h (MvPolynomial.X 0) (by rw [MvPolynomial.totalDegree_X])
  obtain ⟨r', hr', _, _, hs⟩ := C47_sum (K := ℝ) ⟨[(1 / 3, 1 / 3)], [1 / 2]⟩ rfl [((0, 0), (2, 0), (0, 3))]
  rw [hr] at hr'
  injection hr' with hr'
  rw [hr', hs] at h1
  simp [quadSum, shoelace, bary3] at h1
  rw [← h1]
  norm_num

/-- The hypotheses of C68 for the boundary are met by the trapezoidal rule and degree one. -/
example (q : Polynomial ℝ) (hq : q.natDegree ≤ 1) :
    quadSum (0 :: [] ++ [1]) ((1 / 2) :: [] ++ [1 / 2]) (fun t => q.eval t) = ∫ t in (0 : ℝ)..1, q.eval t := by
  obtain ⟨a, b, rfl⟩ := Polynomial.exists_eq_X_add_C_of_natDegree_le_one hq
  simp only [Polynomial.eval_add, Polynomial.eval_mul, Polynomial.eval_C, Polynomial.eval_X]
  rw [intervalIntegral.integral_add, intervalIntegral.integral_const, intervalIntegral.integral_const_mul, integral_id]
  · simp [quadSum]
    ring
  all_goals exact Continuous.intervalIntegrable (by fun_prop) _ _

end PolyDiM
