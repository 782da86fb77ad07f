import Verif.Lemmas.ElasticLocal
import Verif.Spec.Elastic

/-!
# Lemmas: the elasticity assembler on one cell of the VEM space
-/

namespace PolyDiM

open Spec MvPolynomial Finset

theorem density_split (μ l : ℝ) (g : Nat → Nat → ℝ) :
    elasticDensity μ l g g = μ * ((g 0 0 - g 1 1) * (g 0 0 - g 1 1)) + (μ + l) * ((g 0 0 + g 1 1) * (g 0 0 + g 1 1)) + μ * ((g 0 1 + g 1 0) * (g 0 1 + g 1 0)) := by
  simp only [elasticDensity, stress, strain, sum_range_succ, sum_range_zero, zero_add, if_true, zero_ne_one, one_ne_zero, if_false]
  ring

theorem density_symm (μ l : ℝ) (g g' : Nat → Nat → ℝ) : elasticDensity μ l g g' = elasticDensity μ l g' g := by
  simp only [elasticDensity, stress, strain, sum_range_succ, sum_range_zero, zero_add, if_true, zero_ne_one, one_ne_zero, if_false]
  ring

section element
variable {k n : Nat} {V : Nat → ℝ × ℝ} {len : Nat → ℝ} {dir : Nat → Bool} {nrm : Nat → ℝ × ℝ} {triangle : Nat → Rule (ℝ × ℝ) ℝ} {edge : Nat → Rule ℝ ℝ} {ts ws : List ℝ} {w : ℝ}
  {lu llt : Solver ℝ} {poly : VemPolygon ℝ}

/-- What a cell of the example holds. -/
structure ElasticVem (k n : Nat) (ref : VemRef2D ℝ) (poly : VemPolygon ℝ) (s : VemSpace2D ℝ) (test : ElasticTest ℝ) (S A b : DMat ℝ) (μmax : ℝ) : Prop where
  run : elasticLocal (vemCell2D ref poly s) test = .ok (A, b)
  rows : A.rows = 2 * (n + n * (k - 1) + k * (k - 1) / 2)
  cols : A.cols = 2 * (n + n * (k - 1) + k * (k - 1) / 2)
  rowsB : b.rows = 2 * (n + n * (k - 1) + k * (k - 1) / 2)
  colsB : b.cols = 1
  symm : ∀ i j, A.ent i j = A.ent j i
  stab : vemDofiDofi poly s .piNabla = .ok S
  sizeS : S.rows = n + n * (k - 1) + k * (k - 1) / 2
  greatest : IsGreatest {y | ∃ p ∈ s.internal.points, y = |test.lame p 0|} μmax
  form : ∀ v u : Nat → ℝ, ∑ i ∈ range (2 * (n + n * (k - 1) + k * (k - 1) / 2)), v i * apply A u i
    = quadSum s.internal.points s.internal.weights (fun p => elasticDensity (test.lame p 0) (test.lame p 1)
        (projGrad k poly s (compOf (n + n * (k - 1) + k * (k - 1) / 2) u) p) (projGrad k poly s (compOf (n + n * (k - 1) + k * (k - 1) / 2) v) p))
      + μmax * ∑ h ∈ range 2, ∑ i ∈ range S.rows, compOf (n + n * (k - 1) + k * (k - 1) / 2) v h i * apply S (compOf (n + n * (k - 1) + k * (k - 1) / 2) u h) i
  load : ∀ v : Nat → ℝ, ∑ i ∈ range (2 * (n + n * (k - 1) + k * (k - 1) / 2)), v i * b.ent i 0
    = quadSum s.internal.points s.internal.weights fun p => ∑ h ∈ range 2,
        test.source p h * polyOf k poly.centroid poly.diameter (apply s.pi0k (compOf (n + n * (k - 1) + k * (k - 1) / 2) v h)) p

theorem elastic_local (hE : IsElement poly n V len dir nrm) (hT : IsTables k triangle edge ts ws w) (hlu : SolvesRegular lu) (hllt : SolvesPosDef llt) (hpos : 0 < poly.measure) :
    ∃ ref s, vemRef2D triangle edge k = .ok ref ∧ vemCreate2D lu llt ref poly = .ok s ∧ SpaceOk k n V len dir ts ws w poly s ∧
      ∀ test : ElasticTest ℝ, ∃ S A b μmax, ElasticVem k n ref poly s test S A b μmax := by
  obtain ⟨ref, s, Φ, X, Y, S, L, hr, hc, hs, hne, hcell, -, -, -, htab, -⟩ := vem_tables hE hT hlu hllt hpos
  obtain ⟨r5, s5, hr5, hc5, hst, -⟩ := C77_stabilization hE hT hlu hllt hpos
  obtain ⟨r1, s1, hr1, hc1, hv⟩ := C74_values hE hT hlu hllt
  obtain ⟨r3, s3, hr3, hc3, hi, -⟩ := C74_internal hE hT hlu hllt
  obtain rfl : r5 = ref := Except.ok.inj (hr5.symm.trans hr)
  obtain rfl : s5 = s := Except.ok.inj (hc5.symm.trans hc)
  obtain rfl : r1 = r5 := Except.ok.inj (hr1.symm.trans hr)
  obtain rfl : s1 = s5 := Except.ok.inj (hc1.symm.trans hc)
  obtain rfl : r3 = r1 := Except.ok.inj (hr3.symm.trans hr)
  obtain rfl : s3 = s1 := Except.ok.inj (hc3.symm.trans hc)
  obtain ⟨⟨P, hP, hPr, hPc, hPe⟩, -⟩ := hv s3.internal.points
  obtain ⟨S', hS1, hSr, hSc, hSs, -⟩ := hst .piNabla (Or.inl rfl)
  obtain rfl : S' = S := Except.ok.inj (hS1.symm.trans hcell.stab)
  refine ⟨r3, s3, hr, hc, hs, fun test => ?_⟩
  set N := n + n * (k - 1) + k * (k - 1) / 2 with hN
  have hEt := cell_entries hcell
  obtain ⟨-, -, -, hXc, -, hYc, -, -⟩ := hcell.sizes
  have hval : (vemCell2D r3 poly s3).valuesInt .pi0k = .ok ⟨s3.internal.points.length, N, P.ent⟩ := by
    rw [← dmat_eta hPr hPc]
    exact (hi .pi0k (by decide)).trans hP
  obtain ⟨μmax, A, b, hmax, hrun, hF⟩ := elasticLocal_ok (space := vemCell2D r3 poly s3) (der := fun d => if d = 0 then X.ent else Y.ent) hval hEt.derivatives hEt.stab hEt.points hEt.weights hne test
  have hget : ∀ q < s3.internal.points.length, s3.internal.points[q]? = some (rulePoint s3.internal q) := fun q hq => by
    simp [rulePoint, List.getD_eq_getElem?_getD, hq]
  have hap : ∀ (B : DMat ℝ) (v : Nat → ℝ) (q : Nat), B.cols = N → ∑ i ∈ range N, v i * B.ent q i = apply B v q := fun B v q hB => by
    rw [apply_eq hB]
    exact sum_congr rfl fun i _ => mul_comm _ _
  have hap' : ∀ (B : DMat ℝ) (v : Nat → ℝ) (q : Nat), B.cols = N → ∑ i ∈ range N, B.ent q i * v i = apply B v q := fun B v q hB => by rw [apply_eq hB]
  refine ⟨S', A, b, μmax, hrun, hF.rows, hF.cols, hF.rowsB, hF.colsB, hF.symm hSs, hS1, hSr, ?_, fun v u => ?_, fun v => ?_⟩
  · constructor
    · obtain ⟨q, hq, e⟩ := hmax.1
      exact ⟨_, List.mem_of_getElem? (hget q hq), e⟩
    · rintro y ⟨p, hp, rfl⟩
      obtain ⟨q, hq⟩ := List.mem_iff_getElem?.1 hp
      have hlt := (List.getElem?_eq_some_iff.1 hq).1
      have : rulePoint s3.internal q = p := Option.some.inj ((hget q hlt).symm.trans hq)
      exact hmax.2 ⟨q, hlt, by rw [← this]; rfl⟩
  · rw [hF.form]
    have r2 : ∀ f : Nat → ℝ, ∑ d ∈ range 2, f d = f 0 + f 1 := fun f => by simp only [sum_range_succ, sum_range_zero, zero_add]
    congr 1
    · refine sum_quadSum _ _ hs.rules.wlen _ _ fun q p hp => ?_
      have hq := (List.getElem?_eq_some_iff.1 hp).1
      have hx : rulePoint (vemEllipticCell r3 poly s3).internal q = p := Option.some.inj ((hget q hq).symm.trans hp)
      have hX : ∀ (y : Nat → ℝ) (d : Nat), ∑ i ∈ range N, y (d * N + i) * X.ent q i = projGrad k poly s3 (compOf N y) p d 0 := fun y d => by
        rw [projGrad, if_pos rfl]
        exact (hap X (compOf N y d) q hXc).trans (htab _ q p hp).2.1
      have hY : ∀ (y : Nat → ℝ) (d : Nat), ∑ i ∈ range N, y (d * N + i) * Y.ent q i = projGrad k poly s3 (compOf N y) p d 1 := fun y d => by
        rw [projGrad, if_neg one_ne_zero]
        exact (hap Y (compOf N y d) q hYc).trans (htab _ q p hp).2.2
      have X0 := fun y => hX y 0
      have X1 := fun y => hX y 1
      have Y0 := fun y => hY y 0
      have Y1 := fun y => hY y 1
      simp only [zero_mul, zero_add] at X0 Y0
      simp only [one_mul] at X1 Y1
      rw [hx]
      simp only [r2, zero_mul, zero_add, one_mul, if_true, one_ne_zero, if_false, X1 u, X1 v, Y1 u, Y1 v, X0 u, X0 v, Y0 u, Y0 v]
      rw [← hN]
      simp only [elasticDensity, stress, strain, r2, if_true, zero_ne_one, one_ne_zero, if_false]
      ring
    · congr 1
      rw [hSr, r2]
      congr 1
      · refine sum_congr rfl fun i _ => ?_
        rw [← hap' S' _ i (hSc.trans hSr)]
        simp only [compOf, zero_mul, zero_add]
      · refine sum_congr rfl fun i _ => ?_
        rw [← hap' S' _ i (hSc.trans hSr)]
        simp only [compOf, one_mul, ← hN]
  · rw [hF.load]
    refine sum_quadSum _ _ hs.rules.wlen _ _ fun q p hp => ?_
    have hq := (List.getElem?_eq_some_iff.1 hp).1
    have hx : rulePoint (vemEllipticCell r3 poly s3).internal q = p := Option.some.inj ((hget q hq).symm.trans hp)
    have e : ∀ h, ∑ i ∈ range N, v (h * N + i) * P.ent q i = polyOf k poly.centroid poly.diameter (apply s3.pi0k (compOf N v h)) p :=
      fun h => (hap P (compOf N v h) q hPc).trans (hPe _ q p hp)
    simp only [sum_range_succ, sum_range_zero, zero_add]
    have e0 := e 0
    have e1 := e 1
    rw [zero_mul] at e0
    rw [one_mul] at e1
    simp only [zero_add] at e0
    rw [hx, e0, e1]

end element

/-- A polynomial displacement without strain is a rigid motion. -/
theorem killing (q : Nat → MvPolynomial (Fin 2) ℝ) (h0 : pderiv 0 (q 0) = 0) (h1 : pderiv 1 (q 1) = 0) (h2 : pderiv 1 (q 0) + pderiv 0 (q 1) = 0) :
    ∃ a b c : ℝ, q 0 = C a - C c * X 1 ∧ q 1 = C b + C c * X 0 := by
  have hcomm : ∀ p : MvPolynomial (Fin 2) ℝ, pderiv 0 (pderiv 1 p) = pderiv 1 (pderiv 0 p) := fun p => by
    induction p using MvPolynomial.induction_on with
    | C a => simp
    | add p q hp hq => simp only [map_add, hp, hq]
    | mul_X p i hp =>
      simp only [Derivation.leibniz, pderiv_X, smul_eq_mul, map_add, hp]
      fin_cases i <;> simp [Pi.single_apply, add_comm]
  have e : pderiv 0 (q 1) = - pderiv 1 (q 0) := by
    rw [eq_neg_iff_add_eq_zero, add_comm]
    exact h2
  obtain ⟨c, hc⟩ := const_of_grad (pderiv 0 (q 1)) (by rw [e, map_neg, hcomm, h0, map_zero, neg_zero]) (by rw [← hcomm, h1, map_zero])
  have hc' : pderiv 1 (q 0) = - C c := by rw [← hc, e, neg_neg]
  obtain ⟨a, ha⟩ := const_of_grad (q 0 + C c * X 1) (by simp [h0, pderiv_C_mul, pderiv_X]) (by simp [hc', pderiv_C_mul, pderiv_X])
  obtain ⟨b, hb⟩ := const_of_grad (q 1 - C c * X 0) (by simp [hc, pderiv_C_mul, pderiv_X]) (by simp [h1, pderiv_C_mul, pderiv_X])
  refine ⟨a, b, c, ?_, ?_⟩
  · rw [← ha]; ring
  · rw [← hb]; ring

end PolyDiM
