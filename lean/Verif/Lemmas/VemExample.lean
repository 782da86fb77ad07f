import Verif.Lemmas.VemDof
import Mathlib.LinearAlgebra.FiniteDimensional.Basic
import Mathlib.LinearAlgebra.Matrix.ToLin
import Mathlib.MeasureTheory.Measure.Lebesgue.EqHaar
import Mathlib.Analysis.SpecialFunctions.Integrals.Basic
import Mathlib.Tactic.IntervalCases
import Mathlib.Tactic.ComputeDegree

/-!
# A concrete element of the virtual element method: the unit square, cut into two triangles, at order 2
-/

namespace PolyDiM

open Spec MvPolynomial MeasureTheory

/-- A square matrix with trivial kernel has a solution for every right-hand side. -/
theorem exists_solves (A B : DMat ℝ) (hA : A.rows = A.cols)
    (hk : ∀ x : Nat → ℝ, (∀ i < A.rows, ∑ k ∈ Finset.range A.cols, A.ent i k * x k = 0) → ∀ k < A.cols, x k = 0) : ∃ X, Solves A B X := by
  classical
  let M : (Fin A.cols → ℝ) →ₗ[ℝ] (Fin A.cols → ℝ) := Matrix.toLin' (Matrix.of fun i k : Fin A.cols => A.ent i k)
  have hM : ∀ x i, M x i = ∑ k : Fin A.cols, A.ent i k * x k := fun x i => by
    simp [M, Matrix.mulVec, dotProduct]
  have hinj : Function.Injective M := by
    rw [injective_iff_map_eq_zero]
    intro x hx
    funext i
    have h1 := hk (fun k => if h : k < A.cols then x ⟨k, h⟩ else 0) (by
      intro i hi
      rw [Finset.sum_range]
      have h2 := congrFun hx ⟨i, hA ▸ hi⟩
      rw [hM] at h2
      simpa using h2) i i.2
    simpa using h1
  have hsur := LinearMap.injective_iff_surjective.1 hinj
  choose X hX using fun j : Nat => hsur fun i => B.ent i j
  refine ⟨⟨A.cols, B.cols, fun i j => if h : i < A.cols then X j ⟨i, h⟩ else 0⟩, rfl, rfl, fun i hi j _ => ?_⟩
  have h2 := congrFun (hX j) ⟨i, hA ▸ hi⟩
  rw [hM] at h2
  rw [Finset.sum_range]
  simpa using h2

/-- There are solvers for regular and for positive definite matrices. -/
theorem exists_solvers : ∃ lu : Solver ℝ, SolvesRegular lu ∧ SolvesPosDef lu := by
  classical
  have h : ∀ A B : DMat ℝ, ∃ X, (∃ Y, Solves A B Y) → Solves A B X := fun A B => by
    by_cases hs : ∃ Y, Solves A B Y
    · exact ⟨hs.choose, fun _ => hs.choose_spec⟩
    · exact ⟨B, fun h => absurd h hs⟩
  choose lu hlu using h
  refine ⟨lu, fun A B hA _ hk => hlu A B (exists_solves A B hA hk), fun A B hA _ _ hp => hlu A B (exists_solves A B hA fun x hx k hkk => ?_)⟩
  by_contra hne
  have := hp x ⟨k, hA ▸ hkk, hne⟩
  rw [Finset.sum_eq_zero fun i hi => by rw [hx i (Finset.mem_range.1 hi), mul_zero]] at this
  exact lt_irrefl _ this

/-- A rule on the reference triangle that is exact for the monomials is exact for the polynomials. -/
theorem triangle_exact_of_monomials (k : Nat) (points : List (ℝ × ℝ)) (weights : List ℝ)
    (h : ∀ a b, a + b ≤ k → quadSum points weights (fun p => p.1 ^ a * p.2 ^ b) = ∫ x in (0 : ℝ)..1, ∫ y in (0 : ℝ)..(1 - x), x ^ a * y ^ b) :
    ExactOnTriangle k points weights := by
  intro q hq
  obtain ⟨x, hx⟩ := basisPoly_span k (0, 0) 1 one_ne_zero le_rfl q hq
  have hu : IntegrableOn (fun _ : ℝ × ℝ => (1 : ℝ)) (unionOf [((0, 0), (1, 0), (0, 1))]) := by
    have : unionOf [((0, 0), (1, 0), (0, 1))] = {p : ℝ × ℝ | InTriangle (0, 0) (1, 0) (0, 1) p} := by
      ext p
      simp [unionOf]
    rw [this]
    exact continuous_const.continuousOn.integrableOn_compact refTriangle_compact
  have hset : unionOf [((0, 0), (1, 0), (0, 1))] = {p : ℝ × ℝ | InTriangle (0, 0) (1, 0) (0, 1) p} := by
    ext p
    simp [unionOf]
  have hint : ∀ r : MvPolynomial (Fin 2) ℝ, ∫ p in {p : ℝ × ℝ | InTriangle (0, 0) (1, 0) (0, 1) p}, eval ![p.1, p.2] r = intU _ hu r := by
    intro r
    rw [← hset]
    show _ = ∫ p in _, _
    simp only [ev2, mul_one]
  rw [hint]
  show quadLin points weights q = _
  rw [hx, map_sum, map_sum]
  refine Finset.sum_congr rfl fun j hj => ?_
  obtain ⟨a, b, hab, rfl⟩ := exists_position (Finset.mem_range.1 hj)
  rw [← smul_eq_C_mul, map_smul, map_smul, ← hint]
  congr 1
  have e1 := h a b hab
  have e2 : ∀ p : ℝ × ℝ, eval ![p.1, p.2] (basisPoly k ((0, 0) : ℝ × ℝ) 1 (position a b)) = p.1 ^ a * p.2 ^ b := by
    intro p
    have := ev2_basis_position k ((0, 0) : ℝ × ℝ) 1 hab p
    simpa [scaledMonomial] using this
  rw [refTriangle_integral _ (poly2_continuous _)]
  have e3 : (∫ x in (0 : ℝ)..1, ∫ y in (0 : ℝ)..(1 - x), eval ![x, y] (basisPoly k ((0, 0) : ℝ × ℝ) 1 (position a b)))
      = ∫ x in (0 : ℝ)..1, ∫ y in (0 : ℝ)..(1 - x), x ^ a * y ^ b := by
    congr 1
    funext x
    congr 1
    funext y
    exact e2 (x, y)
  refine Eq.trans ?_ (e1.trans e3.symm)
  exact quadSum_congr _ _ fun p _ => e2 p

/-- The points of the closed Newton-Cotes rule of degree 4 on the reference triangle. -/
noncomputable def nc4Points : List (ℝ × ℝ) :=
  [(1 / 4, 0), (3 / 4, 0), (3 / 4, 1 / 4), (1 / 4, 3 / 4), (0, 3 / 4), (0, 1 / 4), (1 / 2, 0), (1 / 2, 1 / 2), (0, 1 / 2), (1 / 2, 1 / 4), (1 / 4, 1 / 2), (1 / 4, 1 / 4)]

/-- The weights of the closed Newton-Cotes rule of degree 4 on the reference triangle. -/
noncomputable def nc4Weights : List ℝ :=
  [2 / 45, 2 / 45, 2 / 45, 2 / 45, 2 / 45, 2 / 45, -1 / 90, -1 / 90, -1 / 90, 4 / 45, 4 / 45, 4 / 45]

theorem nc4_exact : ExactOnTriangle 4 nc4Points nc4Weights := by
  refine triangle_exact_of_monomials 4 _ _ fun a b hab => ?_
  have e1 : ∀ x : ℝ, ∫ y in (0 : ℝ)..(1 - x), x ^ a * y ^ b = x ^ a * ((1 - x) ^ (b + 1) / (b + 1)) := by
    intro x
    rw [intervalIntegral.integral_const_mul, integral_pow]
    simp
  simp only [e1]
  have hb : b ≤ 4 := by omega
  have ha : a ≤ 4 := by omega
  have key : ∀ c0 c1 c2 c3 c4 c5 : ℝ, ∫ x in (0 : ℝ)..1, (c0 + c1 * x + c2 * x ^ 2 + c3 * x ^ 3 + c4 * x ^ 4 + c5 * x ^ 5)
      = c0 + c1 / 2 + c2 / 3 + c3 / 4 + c4 / 5 + c5 / 6 := by
    intro c0 c1 c2 c3 c4 c5
    rw [intervalIntegral.integral_add, intervalIntegral.integral_add, intervalIntegral.integral_add, intervalIntegral.integral_add,
      intervalIntegral.integral_add, intervalIntegral.integral_const_mul, intervalIntegral.integral_const_mul, intervalIntegral.integral_const_mul,
      intervalIntegral.integral_const_mul, intervalIntegral.integral_const_mul, integral_pow, integral_pow, integral_pow, integral_pow, integral_id,
      intervalIntegral.integral_const]
    · norm_num
      ring
    all_goals exact Continuous.intervalIntegrable (by fun_prop) _ _
  have fin : ∀ (f : ℝ → ℝ) (c0 c1 c2 c3 c4 c5 s : ℝ), (∀ x, f x = c0 + c1 * x + c2 * x ^ 2 + c3 * x ^ 3 + c4 * x ^ 4 + c5 * x ^ 5) →
      s = c0 + c1 / 2 + c2 / 3 + c3 / 4 + c4 / 5 + c5 / 6 → s = ∫ x in (0 : ℝ)..1, f x := by
    intro f c0 c1 c2 c3 c4 c5 s hf hs
    rw [hs, ← key]
    congr 1
    funext x
    exact (hf x).symm
  interval_cases b <;> interval_cases a <;> first | omega | skip
  · exact fin _ (1) (-1) (0) (0) (0) (0) _ (fun x => by norm_num; try ring) (by norm_num [quadSum, nc4Points, nc4Weights])
  · exact fin _ (0) (1) (-1) (0) (0) (0) _ (fun x => by norm_num; try ring) (by norm_num [quadSum, nc4Points, nc4Weights])
  · exact fin _ (0) (0) (1) (-1) (0) (0) _ (fun x => by norm_num; try ring) (by norm_num [quadSum, nc4Points, nc4Weights])
  · exact fin _ (0) (0) (0) (1) (-1) (0) _ (fun x => by norm_num; try ring) (by norm_num [quadSum, nc4Points, nc4Weights])
  · exact fin _ (0) (0) (0) (0) (1) (-1) _ (fun x => by norm_num; try ring) (by norm_num [quadSum, nc4Points, nc4Weights])
  · exact fin _ (1 / 2) (-1) (1 / 2) (0) (0) (0) _ (fun x => by norm_num; try ring) (by norm_num [quadSum, nc4Points, nc4Weights])
  · exact fin _ (0) (1 / 2) (-1) (1 / 2) (0) (0) _ (fun x => by norm_num; try ring) (by norm_num [quadSum, nc4Points, nc4Weights])
  · exact fin _ (0) (0) (1 / 2) (-1) (1 / 2) (0) _ (fun x => by norm_num; try ring) (by norm_num [quadSum, nc4Points, nc4Weights])
  · exact fin _ (0) (0) (0) (1 / 2) (-1) (1 / 2) _ (fun x => by norm_num; try ring) (by norm_num [quadSum, nc4Points, nc4Weights])
  · exact fin _ (1 / 3) (-1) (1) (-1 / 3) (0) (0) _ (fun x => by norm_num; try ring) (by norm_num [quadSum, nc4Points, nc4Weights])
  · exact fin _ (0) (1 / 3) (-1) (1) (-1 / 3) (0) _ (fun x => by norm_num; try ring) (by norm_num [quadSum, nc4Points, nc4Weights])
  · exact fin _ (0) (0) (1 / 3) (-1) (1) (-1 / 3) _ (fun x => by norm_num; try ring) (by norm_num [quadSum, nc4Points, nc4Weights])
  · exact fin _ (1 / 4) (-1) (3 / 2) (-1) (1 / 4) (0) _ (fun x => by norm_num; try ring) (by norm_num [quadSum, nc4Points, nc4Weights])
  · exact fin _ (0) (1 / 4) (-1) (3 / 2) (-1) (1 / 4) _ (fun x => by norm_num; try ring) (by norm_num [quadSum, nc4Points, nc4Weights])
  · exact fin _ (1 / 5) (-1) (2) (-2) (1) (-1 / 5) _ (fun x => by norm_num; try ring) (by norm_num [quadSum, nc4Points, nc4Weights])

/-- Simpson's rule on the unit interval. -/
theorem simpson_exact : ExactOnSegment 3 [0, 1 / 2, 1] [1 / 6, 2 / 3, 1 / 6] := by
  intro q hq
  have hq' : ∀ t, q.eval t = q.coeff 0 + q.coeff 1 * t + q.coeff 2 * t ^ 2 + q.coeff 3 * t ^ 3 := by
    intro t
    rw [Polynomial.eval_eq_sum_range' (n := 4) (by omega)]
    simp [Finset.sum_range_succ]
  simp only [hq']
  rw [intervalIntegral.integral_add, intervalIntegral.integral_add, intervalIntegral.integral_add, intervalIntegral.integral_const_mul,
    intervalIntegral.integral_const_mul, intervalIntegral.integral_const_mul, integral_pow, integral_pow, integral_id, intervalIntegral.integral_const]
  · norm_num [quadSum]
    ring
  all_goals exact Continuous.intervalIntegrable (by fun_prop) _ _

/-- The corners of the unit square. -/
def squareV : Nat → ℝ × ℝ
  | 0 => (0, 0)
  | 1 => (1, 0)
  | 2 => (1, 1)
  | _ => (0, 1)

/-- The outward normals of the unit square. -/
def squareN : Nat → ℝ × ℝ
  | 0 => (0, -1)
  | 1 => (1, 0)
  | 2 => (0, 1)
  | _ => (-1, 0)

/-- The unit square, two edges in the direction of the mesh edge and two against it, cut along the diagonal. -/
noncomputable def squarePoly : VemPolygon ℝ where
  edges := ⟨[(0, 0), (1, 0), (1, 1), (0, 1)], [1, 1, 1, 1], [true, false, true, false], [(1, 0), (0, 1), (-1, 0), (0, -1)], [(0, -1), (1, 0), (0, 1), (-1, 0)]⟩
  centroid := (1 / 2, 1 / 2)
  measure := 1
  diameter := Real.sqrt 2
  tris := [((0, 0), (1, 0), (1, 1)), ((0, 0), (1, 1), (0, 1))]

theorem diagonal_null : volume {p : ℝ × ℝ | p.1 = p.2} = 0 := by
  let S : Submodule ℝ (ℝ × ℝ) :=
    { carrier := {p | p.1 = p.2}
      add_mem' := by
        rintro a b h1 h2
        simp only [Set.mem_ofPred_eq, Prod.fst_add, Prod.snd_add] at *
        rw [h1, h2]
      zero_mem' := rfl
      smul_mem' := by
        rintro c a h1
        simp only [Set.mem_ofPred_eq, Prod.smul_fst, Prod.smul_snd] at *
        rw [h1] }
  have : S ≠ ⊤ := by
    intro h
    have h1 : ((1, 0) : ℝ × ℝ) ∈ S := h ▸ Submodule.mem_top
    exact one_ne_zero (show (1 : ℝ) = 0 from h1)
  exact Measure.addHaar_submodule volume S this

theorem square_tris : IsTriangulation squarePoly.tris 4 squareV where
  ccw := by
    intro v hv
    simp only [squarePoly, List.mem_cons, List.not_mem_nil, or_false] at hv
    rcases hv with rfl | rfl <;> norm_num [shoelace]
  pos := ⟨((0, 0), (1, 0), (1, 1)), by simp [squarePoly], by norm_num [shoelace]⟩
  disjoint := by
    simp only [squarePoly, List.pairwise_cons, List.mem_singleton, List.not_mem_nil, false_imp_iff, implies_true, List.Pairwise.nil, and_true]
    rintro v rfl
    refine measure_mono_null ?_ diagonal_null
    rintro p ⟨⟨a, b, c, ha, hb, hc, _, rfl⟩, ⟨a', b', c', ha', hb', hc', _, hp⟩⟩
    simp only [bary3, Prod.smul_mk, Prod.mk_add_mk, Prod.mk.injEq, smul_eq_mul, mul_zero, mul_one, zero_add, add_zero, Set.mem_ofPred_eq] at hp ⊢
    linarith
  boundary := by
    intro Φ hΦ
    have := hΦ (1, 1) (0, 0)
    simp [squarePoly, Finset.sum_range_succ, squareV]
    linarith

theorem square_element : IsElement squarePoly 4 squareV (fun _ => 1) (fun i => i % 2 = 0) squareN where
  edges := by
    refine ⟨rfl, rfl, rfl, ?_, rfl⟩
    simp [squarePoly, List.range_succ, squareV]
  tris := square_tris
  normals := by
    intro e he
    interval_cases e <;> simp [squareN, squareV, clockwise]
  measure := one_ne_zero
  diameter := by
    simp [squarePoly]

/-- The tables of order 2. -/
theorem square_tables : IsTables 2 (fun _ => ⟨nc4Points, nc4Weights⟩) (fun _ => ⟨[0, 1 / 2, 1], [1 / 6, 2 / 3, 1 / 6]⟩) [1 / 2] [2 / 3] (1 / 6) where
  low := by norm_num
  high := by norm_num
  triangleLength := rfl
  triangleExact := nc4_exact
  edgeRule := rfl
  nodes := rfl
  edgeLength := rfl
  edgeExact := simpson_exact

/-- Every function has a vector of DOFs. -/
theorem exists_dofs (k : Nat) (poly : VemPolygon ℝ) (n : Nat) (V : Nat → ℝ × ℝ) (dir : Nat → Bool) (ts : List ℝ) (hts : ts.length = k - 1) (u : ℝ × ℝ → ℝ) :
    ∃ v, IsDofVector k poly n V dir ts u v := by
  classical
  refine ⟨fun r => if r < n then u (V r) else if r < n + n * (k - 1) then
      u (segPoint (polyEdge n V (dir ((r - n) / (k - 1))) ((r - n) / (k - 1))).1 (polyEdge n V (dir ((r - n) / (k - 1))) ((r - n) / (k - 1))).2 (ts.getD ((r - n) % (k - 1)) 0))
    else if h : ∃ ab : Nat × Nat, ab.1 + ab.2 + 2 ≤ k ∧ position ab.1 ab.2 = r - (n + n * (k - 1)) then
      1 / poly.measure * ∫ p in unionOf poly.tris, scaledMonomial poly.centroid poly.diameter h.choose.1 h.choose.2 p * u p else 0, ?_, ?_, ?_⟩
  · intro e he
    rw [if_pos he]
  · intro e he i t hi
    have hlt : i < k - 1 := by
      have := (List.getElem?_eq_some_iff.1 hi).1
      omega
    have h1 : e * (k - 1) + i < n * (k - 1) := by
      have : (e + 1) * (k - 1) ≤ n * (k - 1) := Nat.mul_le_mul_right _ he
      rw [Nat.add_mul, one_mul] at this
      omega
    have hdiv : (e * (k - 1) + i) / (k - 1) = e := by
      rw [mul_comm, Nat.mul_add_div (by omega), Nat.div_eq_of_lt hlt, add_zero]
    have hmod : (e * (k - 1) + i) % (k - 1) = i := by
      rw [mul_comm, Nat.mul_add_mod, Nat.mod_eq_of_lt hlt]
    rw [if_neg (by omega), if_pos (by omega), show n + e * (k - 1) + i - n = e * (k - 1) + i by omega, hdiv, hmod, List.getD_eq_getElem?_getD, hi]
    rfl
  · intro a b hab
    have h : ∃ ab : Nat × Nat, ab.1 + ab.2 + 2 ≤ k ∧ position ab.1 ab.2 = n + n * (k - 1) + position a b - (n + n * (k - 1)) := ⟨(a, b), hab, by dsimp only; omega⟩
    rw [if_neg (by omega), if_neg (by omega), dif_pos h]
    have hs := h.choose_spec
    have hp : position h.choose.1 h.choose.2 = position a b := by omega
    have hi := congrArg (fun r => ev2 (basisPoly k poly.centroid poly.diameter r)) hp
    congr 1
    congr 1
    funext p
    congr 1
    have := congrFun hi p
    rwa [ev2_basis_position k _ _ (by omega), ev2_basis_position k _ _ (by omega)] at this

/-- A function that is no polynomial on the square but is one on every edge. -/
theorem square_edges : EdgePolynomial 2 4 squareV fun p => |p.1 - p.2| := by
  intro e he
  interval_cases e
  · refine ⟨Polynomial.X, by rw [Polynomial.natDegree_X]; norm_num, fun t h0 _ => ?_⟩
    simp [squareV, segPoint, abs_of_nonneg h0]
  · refine ⟨1 - Polynomial.X, by compute_degree; norm_num, fun t _ h1 => ?_⟩
    have : 0 ≤ 1 - t := by linarith
    simp [squareV, segPoint, abs_of_nonneg this]
  · refine ⟨Polynomial.X, by rw [Polynomial.natDegree_X]; norm_num, fun t h0 _ => ?_⟩
    simp [squareV, segPoint, abs_of_nonneg h0]
  · refine ⟨1 - Polynomial.X, by compute_degree; norm_num, fun t _ h1 => ?_⟩
    have : 0 ≤ 1 - t := by linarith
    simp [squareV, segPoint]
    rw [abs_sub_comm, abs_of_nonneg this]

theorem square_integrable {u : ℝ × ℝ → ℝ} (hu : Continuous u) : IntegrableOn u (unionOf squarePoly.tris) :=
  hu.continuousOn.integrableOn_compact (unionOf_compact _)

end PolyDiM
