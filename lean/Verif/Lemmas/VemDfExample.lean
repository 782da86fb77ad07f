import Verif.Lemmas.VemDfPoly
import Verif.Lemmas.VemExample
import Mathlib.Analysis.SpecialFunctions.Sqrt

/-!
# Lemmas: quadrature rules and fields for the examples of the divergence-free virtual element
-/

namespace PolyDiM

open Spec MvPolynomial MeasureTheory

/-- The points of the conical product of Boole's rule on the reference triangle. -/
noncomputable def boolePoints : List (ℝ × ℝ) :=
  [(0, 0), (0, 1 / 4), (0, 1 / 2), (0, 3 / 4), (0, 1), (1 / 4, 0), (1 / 4, 3 / 16), (1 / 4, 3 / 8), (1 / 4, 9 / 16), (1 / 4, 3 / 4),
   (1 / 2, 0), (1 / 2, 1 / 8), (1 / 2, 1 / 4), (1 / 2, 3 / 8), (1 / 2, 1 / 2), (3 / 4, 0), (3 / 4, 1 / 16), (3 / 4, 1 / 8),
   (3 / 4, 3 / 16), (3 / 4, 1 / 4)]

/-- The weights of the conical product of Boole's rule on the reference triangle. -/
noncomputable def booleWeights : List ℝ :=
  [49 / 8100, 56 / 2025, 7 / 675, 56 / 2025, 49 / 8100, 14 / 675, 64 / 675, 8 / 225, 64 / 675, 14 / 675, 7 / 1350, 16 / 675,
   2 / 225, 16 / 675, 7 / 1350, 14 / 2025, 64 / 2025, 8 / 675, 64 / 2025, 14 / 2025]

theorem dfBoole_exact : ExactOnTriangle 4 boolePoints booleWeights := by
  refine triangle_exact_of_monomials 4 _ _ fun a b hab => ?_
  have e1 : ∀ x : ℝ, ∫ y in (0 : ℝ)..(1 - x), x ^ a * y ^ b = x ^ a * ((1 - x) ^ (b + 1) / (b + 1)) := by
    intro x
    rw [intervalIntegral.integral_const_mul, integral_pow]
    simp
  simp only [e1]
  have hb : b ≤ 4 := by omega
  have ha : a ≤ 4 := by omega
  have key : ∀ c0 c1 c2 c3 c4 c5 : ℝ, ∫ x in (0 : ℝ)..1, (c0 + c1 * x + c2 * x ^ 2 + c3 * x ^ 3 + c4 * x ^ 4 + c5 * x ^ 5)
      = c0 + c1 / 2 + c2 / 3 + c3 / 4 + c4 / 5 + c5 / 6 := by
    intro c0 c1 c2 c3 c4 c5
    rw [intervalIntegral.integral_add, intervalIntegral.integral_add, intervalIntegral.integral_add, intervalIntegral.integral_add,
      intervalIntegral.integral_add, intervalIntegral.integral_const_mul, intervalIntegral.integral_const_mul, intervalIntegral.integral_const_mul,
      intervalIntegral.integral_const_mul, intervalIntegral.integral_const_mul, integral_pow, integral_pow, integral_pow, integral_pow, integral_id,
      intervalIntegral.integral_const]
    · norm_num
      ring
    all_goals exact Continuous.intervalIntegrable (by fun_prop) _ _
  have fin : ∀ (f : ℝ → ℝ) (c0 c1 c2 c3 c4 c5 s : ℝ), (∀ x, f x = c0 + c1 * x + c2 * x ^ 2 + c3 * x ^ 3 + c4 * x ^ 4 + c5 * x ^ 5) →
      s = c0 + c1 / 2 + c2 / 3 + c3 / 4 + c4 / 5 + c5 / 6 → s = ∫ x in (0 : ℝ)..1, f x := by
    intro f c0 c1 c2 c3 c4 c5 s hf hs
    rw [hs, ← key]
    congr 1
    funext x
    exact (hf x).symm
  interval_cases b <;> interval_cases a <;> first | omega | skip
  · exact fin _ (1) (-1) (0) (0) (0) (0) _ (fun x => by norm_num; try ring) (by norm_num [quadSum, boolePoints, booleWeights])
  · exact fin _ (0) (1) (-1) (0) (0) (0) _ (fun x => by norm_num; try ring) (by norm_num [quadSum, boolePoints, booleWeights])
  · exact fin _ (0) (0) (1) (-1) (0) (0) _ (fun x => by norm_num; try ring) (by norm_num [quadSum, boolePoints, booleWeights])
  · exact fin _ (0) (0) (0) (1) (-1) (0) _ (fun x => by norm_num; try ring) (by norm_num [quadSum, boolePoints, booleWeights])
  · exact fin _ (0) (0) (0) (0) (1) (-1) _ (fun x => by norm_num; try ring) (by norm_num [quadSum, boolePoints, booleWeights])
  · exact fin _ (1 / 2) (-1) (1 / 2) (0) (0) (0) _ (fun x => by norm_num; try ring) (by norm_num [quadSum, boolePoints, booleWeights])
  · exact fin _ (0) (1 / 2) (-1) (1 / 2) (0) (0) _ (fun x => by norm_num; try ring) (by norm_num [quadSum, boolePoints, booleWeights])
  · exact fin _ (0) (0) (1 / 2) (-1) (1 / 2) (0) _ (fun x => by norm_num; try ring) (by norm_num [quadSum, boolePoints, booleWeights])
  · exact fin _ (0) (0) (0) (1 / 2) (-1) (1 / 2) _ (fun x => by norm_num; try ring) (by norm_num [quadSum, boolePoints, booleWeights])
  · exact fin _ (1 / 3) (-1) (1) (-1 / 3) (0) (0) _ (fun x => by norm_num; try ring) (by norm_num [quadSum, boolePoints, booleWeights])
  · exact fin _ (0) (1 / 3) (-1) (1) (-1 / 3) (0) _ (fun x => by norm_num; try ring) (by norm_num [quadSum, boolePoints, booleWeights])
  · exact fin _ (0) (0) (1 / 3) (-1) (1) (-1 / 3) _ (fun x => by norm_num; try ring) (by norm_num [quadSum, boolePoints, booleWeights])
  · exact fin _ (1 / 4) (-1) (3 / 2) (-1) (1 / 4) (0) _ (fun x => by norm_num; try ring) (by norm_num [quadSum, boolePoints, booleWeights])
  · exact fin _ (0) (1 / 4) (-1) (3 / 2) (-1) (1 / 4) _ (fun x => by norm_num; try ring) (by norm_num [quadSum, boolePoints, booleWeights])
  · exact fin _ (1 / 5) (-1) (2) (-2) (1) (-1 / 5) _ (fun x => by norm_num; try ring) (by norm_num [quadSum, boolePoints, booleWeights])

/-- The inner nodes of the Lobatto rule with four nodes on the unit interval. -/
noncomputable def lobNode (s : ℝ) : ℝ := (5 + s * Real.sqrt 5) / 10

theorem lob_square (s : ℝ) (hs : s * s = 1) : lobNode s ^ 2 = lobNode s - 1 / 5 := by
  have h5 : Real.sqrt 5 * Real.sqrt 5 = 5 := Real.mul_self_sqrt (by norm_num)
  unfold lobNode
  linear_combination (Real.sqrt 5 * Real.sqrt 5 / 100) * hs + 1 / 100 * h5

theorem lobatto_exact : ExactOnSegment 5 [0, lobNode (-1), lobNode 1, 1] [1 / 12, 5 / 12, 5 / 12, 1 / 12] := by
  intro q hq
  have hq' : ∀ t, q.eval t = q.coeff 0 + q.coeff 1 * t + q.coeff 2 * t ^ 2 + q.coeff 3 * t ^ 3 + q.coeff 4 * t ^ 4 + q.coeff 5 * t ^ 5 := by
    intro t
    rw [Polynomial.eval_eq_sum_range' (n := 6) (by omega)]
    simp [Finset.sum_range_succ]
  simp only [hq']
  have h1 := lob_square (-1) (by norm_num)
  have h2 := lob_square 1 (by norm_num)
  have h3 : lobNode (-1) + lobNode 1 = 1 := by
    unfold lobNode
    ring
  set a := lobNode (-1)
  set b := lobNode 1
  have a3 : a ^ 3 = 4 / 5 * a - 1 / 5 := by linear_combination (a + 1) * h1
  have a4 : a ^ 4 = 3 / 5 * a - 4 / 25 := by linear_combination a * a3 + 4 / 5 * h1
  have a5 : a ^ 5 = 11 / 25 * a - 3 / 25 := by linear_combination a * a4 + 3 / 5 * h1
  have b3 : b ^ 3 = 4 / 5 * b - 1 / 5 := by linear_combination (b + 1) * h2
  have b4 : b ^ 4 = 3 / 5 * b - 4 / 25 := by linear_combination b * b3 + 4 / 5 * h2
  have b5 : b ^ 5 = 11 / 25 * b - 3 / 25 := by linear_combination b * b4 + 3 / 5 * h2
  rw [intervalIntegral.integral_add, intervalIntegral.integral_add, intervalIntegral.integral_add, intervalIntegral.integral_add, intervalIntegral.integral_add,
    intervalIntegral.integral_const_mul, intervalIntegral.integral_const_mul, intervalIntegral.integral_const_mul, intervalIntegral.integral_const_mul,
    intervalIntegral.integral_const_mul, integral_pow, integral_pow, integral_pow, integral_pow, integral_id, intervalIntegral.integral_const]
  · norm_num [quadSum]
    linear_combination (5 / 12 * (q.coeff 1 + q.coeff 2 + 4 / 5 * q.coeff 3 + 3 / 5 * q.coeff 4 + 11 / 25 * q.coeff 5)) * h3
      + 5 / 12 * (q.coeff 2 * h1 + q.coeff 3 * a3 + q.coeff 4 * a4 + q.coeff 5 * a5 + q.coeff 2 * h2 + q.coeff 3 * b3 + q.coeff 4 * b4 + q.coeff 5 * b5)
  all_goals exact Continuous.intervalIntegrable (by fun_prop) _ _

/-- The rules on the edge of order 2: Simpson's rule for the DOFs, the rule with four nodes for the integration by parts. -/
noncomputable def dfEdgeRules (d : Nat) : Rule ℝ ℝ :=
  if d = 3 then ⟨[0, 1 / 2, 1], [1 / 6, 2 / 3, 1 / 6]⟩ else ⟨[0, lobNode (-1), lobNode 1, 1], [1 / 12, 5 / 12, 5 / 12, 1 / 12]⟩

theorem df_tables : IsDfTables 2 (fun _ => ⟨boolePoints, booleWeights⟩) dfEdgeRules [1 / 2] [2 / 3] (1 / 6) [lobNode (-1), lobNode 1] [5 / 12, 5 / 12] (1 / 12) where
  low := by norm_num
  high := by norm_num
  triangleLength := rfl
  triangleExact := dfBoole_exact
  edgeRule := rfl
  nodes := rfl
  edgeLength := rfl
  edgeExact := simpson_exact
  two := le_rfl
  below := by norm_num
  triangleWeights := by
    intro x hx
    simp only [booleWeights, List.mem_cons, List.not_mem_nil, or_false] at hx
    rcases hx with h | h | h | h | h | h | h | h | h | h | h | h | h | h | h | h | h | h | h | h <;> rw [h] <;> norm_num
  inside := by
    intro t ht
    simp only [List.mem_cons, List.not_mem_nil, or_false] at ht
    rw [ht]
    norm_num
  distinct := by norm_num
  segmentRule := rfl
  segmentNodes := rfl
  segmentLength := rfl
  segmentExact := lobatto_exact
  segmentInside := by
    intro t ht
    have h1 : Real.sqrt 5 ≤ 3 := by
      rw [Real.sqrt_le_left (by norm_num)]
      norm_num
    have h0 : 0 ≤ Real.sqrt 5 := Real.sqrt_nonneg 5
    simp only [List.mem_cons, List.not_mem_nil, or_false] at ht
    rcases ht with rfl | rfl <;> unfold lobNode <;> constructor <;> linarith

theorem real_sqrt (x : ℝ) (hx : 0 ≤ x) : Real.sqrt x * Real.sqrt x = x := Real.mul_self_sqrt hx

/-- Every field and polynomial have a vector of DOFs. -/
theorem exists_velocity_dofs (k m : Nat) (hk : 2 ≤ k) (poly : VemPolygon ℝ) (n : Nat) (V : Nat → ℝ × ℝ) (dir : Nat → Bool) (ts : List ℝ) (hts : ts.length = k - 1) (u : ℝ × ℝ → ℝ × ℝ)
    (P : MvPolynomial (Fin 2) ℝ) : ∃ v, IsVelocityDofs k m poly n V dir ts u P v := by
  classical
  obtain ⟨v1, h1⟩ := exists_dofs k poly n V dir ts hts fun p => (u p).1
  obtain ⟨v2, h2⟩ := exists_dofs k poly n V dir ts hts fun p => (u p).2
  set L := n + n * (k - 1) with hL
  have inj : ∀ a b a' b' : Nat, position a b = position a' b' → a = a' ∧ b = b' := by
    intro a b a' b' h
    have e : ∀ a b, position a b = rank2 [a, b] := fun a b => by rw [position, tri_div', rank2_eq]
    have hlt : ∀ a b a' b' : Nat, position a b = position a' b' → a + b ≤ a' + b' := by
      intro a b a' b' h
      have := (position_lt (k := a' + b') (a := a') (b := b')).2 le_rfl
      rw [← h, position_lt] at this
      exact this
    have h3 := hlt _ _ _ _ h
    have h4 := hlt _ _ _ _ h.symm
    have h5 : a + b = a' + b' := by omega
    unfold position at h
    rw [h5] at h
    omega
  let S := (k - 2) * (k - 1) / 2
  have hS : S = tri (k - 2) := by
    show (k - 2) * (k - 1) / 2 = _
    rw [← tri_div']
    congr 3
    omega
  refine ⟨fun r => if r < L then v1 r else if r < L + L then v2 (r - L) else if r < 2 * L + S then
      (if h : ∃ ab : Nat × Nat, position ab.1 ab.2 = r - 2 * L then swirlMoment poly u h.choose.1 h.choose.2 else 0)
    else if h : ∃ ab : Nat × Nat, 0 < ab.1 + ab.2 ∧ position ab.1 ab.2 - 1 = r - (2 * L + S) then
      ∫ p in unionOf poly.tris, scaledMonomial poly.centroid poly.diameter h.choose.1 h.choose.2 p * MvPolynomial.eval ![p.1, p.2] P else 0, ?_, ?_, ?_, ?_, ?_, ?_⟩
  · intro e he
    rw [if_pos (by omega)]
    exact h1.vertex e he
  · intro e he i t hi
    have hlt : n + e * (k - 1) + i < L := by
      have hi' : i < k - 1 := by
        have := (List.getElem?_eq_some_iff.1 hi).1
        omega
      have : (e + 1) * (k - 1) ≤ n * (k - 1) := Nat.mul_le_mul_right _ he
      rw [Nat.succ_mul] at this
      omega
    rw [if_pos hlt]
    exact h1.node e he i t hi
  · intro e he
    rw [if_neg (by omega), if_pos (by omega), show L + e - L = e by omega]
    exact h2.vertex e he
  · intro e he i t hi
    have hlt : n + e * (k - 1) + i < L := by
      have hi' : i < k - 1 := by
        have := (List.getElem?_eq_some_iff.1 hi).1
        omega
      have : (e + 1) * (k - 1) ≤ n * (k - 1) := Nat.mul_le_mul_right _ he
      rw [Nat.succ_mul] at this
      omega
    rw [if_neg (by omega), if_pos (by omega), show L + (n + e * (k - 1) + i) - L = n + e * (k - 1) + i by omega]
    exact h2.node e he i t hi
  · intro a b hab
    have hp : position a b < S := by
      rw [hS, show k - 2 = k - 3 + 1 by omega]
      exact position_lt.2 (by omega)
    have hex : ∃ ab : Nat × Nat, position ab.1 ab.2 = 2 * L + position a b - 2 * L := ⟨(a, b), by show position a b = _; omega⟩
    rw [if_neg (by omega), if_neg (by omega), if_pos (by omega), dif_pos hex]
    obtain ⟨e1, e2⟩ := inj _ _ a b (hex.choose_spec.trans (by omega))
    rw [e1, e2]
  · intro a b h0 hab
    have hp : 0 < position a b := by
      unfold position
      rcases Nat.eq_zero_or_pos b with hb | hb
      · subst hb
        have : 2 ≤ (a + 0) * (a + 0 + 1) := by nlinarith
        omega
      · omega
    have hex : ∃ ab : Nat × Nat, 0 < ab.1 + ab.2 ∧ position ab.1 ab.2 - 1 = 2 * L + S + (position a b - 1) - (2 * L + S) := ⟨(a, b), h0, by show position a b - 1 = _; omega⟩
    have hpos : ∀ a b, 0 < a + b → 0 < position a b := by
      intro a b h0
      unfold position
      rcases Nat.eq_zero_or_pos b with hb | hb
      · subst hb
        have : 2 ≤ (a + 0) * (a + 0 + 1) := by nlinarith
        omega
      · omega
    show (if 2 * L + S + (position a b - 1) < L then _ else _) = _
    rw [if_neg (by omega), if_neg (by omega), if_neg (by omega), dif_pos hex]
    have h3 := hex.choose_spec.2
    have h4 := hpos _ _ hex.choose_spec.1
    obtain ⟨e1, e2⟩ := inj _ _ a b (show position hex.choose.1 hex.choose.2 = position a b by omega)
    rw [e1, e2]

/-! ## The unit square -/

theorem square_area : squarePoly.measure = ∫ _p in unionOf squarePoly.tris, (1 : ℝ) := by
  obtain ⟨internal, bnd, _, _, hR⟩ := rules_ok square_element square_tables
  have hD := discrete_ok square_element (by norm_num) hR
  have h1 := hR.integral 1 (by rw [totalDegree_one]; norm_num)
  have h2 := hD.gaussX (X 0) (by rw [totalDegree_X]; norm_num)
  rw [pderiv_X_self, h1] at h2
  have h3 := hR.anyX (ev2 (X 0))
  rw [show quadLin bnd.points bnd.nx (X 0) = quadSum bnd.points bnd.nx (ev2 (X 0)) from rfl, h3] at h2
  have e : ∀ p, ev2 (1 : MvPolynomial (Fin 2) ℝ) p = 1 := fun p => by simp [ev2]
  simp only [e] at h2
  rw [← h2]
  simp [Finset.sum_range_succ, squareV, squarePoly, quadSum, polyEdge, segPoint, ev2]
  norm_num

/-- The field `(x², -2xy)`, which is free of divergence. -/
noncomputable def squareQ : MvPolynomial (Fin 2) ℝ × MvPolynomial (Fin 2) ℝ := (X 0 * X 0, C (-2) * X 0 * X 1)

theorem squareQ_div : divPoly squareQ = 0 := by
  have h01 : pderiv (1 : Fin 2) (X 0 : MvPolynomial (Fin 2) ℝ) = 0 := pderiv_X_of_ne (by decide)
  simp only [divPoly, squareQ, Derivation.leibniz, pderiv_X_self, h01, pderiv_C, smul_eq_mul]
  simp only [map_neg, map_ofNat]
  ring

theorem squareQ_degree : squareQ.1.totalDegree ≤ 2 ∧ squareQ.2.totalDegree ≤ 2 := by
  constructor
  · refine (totalDegree_mul _ _).trans ?_
    rw [totalDegree_X]
  · refine (totalDegree_mul _ _).trans ?_
    have := totalDegree_mul (C (-2) : MvPolynomial (Fin 2) ℝ) (X 0)
    rw [totalDegree_C, totalDegree_X] at this
    rw [totalDegree_X]
    omega

theorem square_velocity (red : Bool) : ∃ v, IsVelocity 2 (divDegree red 2) squarePoly 4 squareV (fun _ => 1) squareN (vectorPoly squareQ) (divPoly squareQ) ∧
    IsVelocityDofs 2 (divDegree red 2) squarePoly 4 squareV (fun i => i % 2 = 0) [1 / 2] (vectorPoly squareQ) (divPoly squareQ) v := by
  obtain ⟨internal, bnd, _, _, hR⟩ := rules_ok square_element df_tables.toIsTables
  obtain ⟨v, hv⟩ := exists_velocity_dofs 2 (divDegree red 2) le_rfl squarePoly 4 squareV (fun i => i % 2 = 0) [1 / 2] rfl (vectorPoly squareQ) (divPoly squareQ)
  refine ⟨v, ?_, hv⟩
  exact poly_velocity (q := ![squareQ.1, squareQ.2]) square_element hR (Fin.forall_fin_two.2 squareQ_degree) (by
    show (divPoly squareQ).totalDegree ≤ _
    rw [squareQ_div, totalDegree_zero]
    exact Nat.zero_le _)

end PolyDiM
