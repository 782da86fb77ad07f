import Verif.Lemmas.BrinkmanLocal
import Verif.Lemmas.MixedCell
import Verif.Props.VemDfUnisolvence
import Verif.Spec.DfMesh

/-!
# Lemmas: the Brinkman assembler on one divergence-free element
-/

namespace PolyDiM

open Spec MvPolynomial MeasureTheory

theorem grad_combo (k : Nat) (c : ℝ × ℝ) (h : ℝ) (x : Nat → ℝ) (p : ℝ × ℝ) :
    gradOf k c h x p = (ev2 (pderiv 0 (combo k c h (tri (k + 1)) x)) p, ev2 (pderiv 1 (combo k c h (tri (k + 1)) x)) p) := by
  have key : ∀ a ≤ k, ∑ d ∈ Finset.range (a + 1), ∑ b ∈ Finset.range (d + 1), x (position (d - b) b) • gradMonomial c h (d - b) b p
      = (ev2 (pderiv 0 (combo k c h (tri (a + 1)) x)) p, ev2 (pderiv 1 (combo k c h (tri (a + 1)) x)) p) := by
    have hd : ∀ d ≤ k, ∀ b < d + 1, x (position (d - b) b) • gradMonomial c h (d - b) b p
        = (ev2 (pderiv 0 (C (x (tri d + b)) * basisPoly k c h (tri d + b))) p, ev2 (pderiv 1 (C (x (tri d + b)) * basisPoly k c h (tri d + b))) p) := by
      intro d hd b hb
      have hp : position (d - b) b = tri d + b := by
        rw [position, show d - b + b = d by omega, tri_div']
      rw [grad_ev2 k c h (show d - b + b ≤ k by omega), hp]
      ext <;> simp [ev2]
    intro a ha
    unfold combo
    induction a with
    | zero =>
      have := hd 0 (by omega) 0 (by omega)
      simp only [show tri 0 = 0 from rfl, Nat.zero_add] at this
      simpa [show tri 1 = 1 from rfl] using this
    | succ a ih =>
      rw [Finset.sum_range_succ _ (a + 1), ih (by omega), tri_succ (a + 1), Finset.sum_congr rfl fun b hb => hd (a + 1) (by omega) b (Finset.mem_range.1 hb),
        Finset.sum_range_add (fun j => C (x j) * basisPoly k c h j)]
      simp only [ev2, map_add, map_sum]
      ext <;> simp [Prod.fst_sum, Prod.snd_sum]
  exact key k le_rfl

/-- The coefficients determine the gradient. -/
theorem grad_unique (k : Nat) (c : ℝ × ℝ) (h : ℝ) (x : Nat → ℝ) {P : MvPolynomial (Fin 2) ℝ} (hP : ∀ p : ℝ × ℝ, eval ![p.1, p.2] P = polyOf k c h x p) (p : ℝ × ℝ) :
    gradOf k c h x p = (eval ![p.1, p.2] (pderiv 0 P), eval ![p.1, p.2] (pderiv 1 P)) := by
  have : P = combo k c h (tri (k + 1)) x := by
    refine MvPolynomial.funext fun t => ?_
    have := hP (t 0, t 1)
    have e : ![t 0, t 1] = t := by
      funext i
      fin_cases i <;> rfl
    simp only [e] at this
    rw [this, ← ev2_combo k c h le_rfl, ev2, e]
  rw [grad_combo, this]

theorem list_vecOf {α : Type} (l : List α) (d : α) {m : Nat} (hm : l.length = m) : l = vecOf m fun q => l.getD q d := by
  refine List.ext_getElem? fun i => ?_
  rw [vecOf, List.getElem?_map]
  by_cases hi : i < m
  · rw [List.getElem?_range hi, Option.map_some, List.getD_eq_getElem?_getD, List.getElem?_eq_getElem (by omega), Option.getD_some]
  · rw [List.getElem?_eq_none (by omega), List.getElem?_eq_none (by simpa using hi)]
    rfl

section
variable {k n : Nat} {V : Nat → ℝ × ℝ} {len : Nat → ℝ} {dir : Nat → Bool} {nrm : Nat → ℝ × ℝ} {poly : VemPolygon ℝ}
  {triangle : Nat → Rule (ℝ × ℝ) ℝ} {edge : Nat → Rule ℝ ℝ} {ts ws ss vs : List ℝ} {w v₀ : ℝ} {s : DfSpace2D ℝ} {sqrt : ℝ → ℝ} {lu llt : Solver ℝ}

theorem bind_inv {α β : Type} {x : Except Fault α} {f : α → Except Fault β} {b : β} (h : (x >>= f) = .ok b) : ∃ a, x = .ok a ∧ f a = .ok b := by
  cases x with
  | error e => cases h
  | ok a => exact ⟨a, rfl, h⟩

theorem pressure_internal {red : Bool} {k : Nat} {r : Rule (ℝ × ℝ) ℝ} (hr : polygonQuad (triangle (u32 (2 * k))) poly.tris = .ok r) {P : DfPressure2D ℝ}
    (hP : dfPressure2D sqrt red triangle k poly = .ok P) : P.internal = r := by
  unfold dfPressure2D at hP
  obtain ⟨i, h1, hP⟩ := bind_inv hP
  obtain rfl : r = i := Except.ok.inj (hr.symm.trans h1)
  obtain ⟨_, -, hP⟩ := bind_inv hP
  obtain ⟨_, -, hP⟩ := bind_inv hP
  obtain ⟨_, -, hP⟩ := bind_inv hP
  obtain ⟨_, -, hP⟩ := bind_inv hP
  rw [← Except.ok.inj hP]

theorem dfCreate_internal {ref : DfRef2D ℝ} {s : DfSpace2D ℝ} (h : dfCreate2D sqrt lu llt ref poly = .ok s) : polygonQuad ref.triangle poly.tris = .ok s.internal := by
  unfold dfCreate2D at h
  obtain ⟨i, h1, h⟩ := bind_inv h
  obtain ⟨_, -, h⟩ := bind_inv h
  obtain ⟨_, -, h⟩ := bind_inv h
  obtain ⟨_, -, h⟩ := bind_inv h
  obtain ⟨_, -, h⟩ := bind_inv h
  obtain ⟨_, -, h⟩ := bind_inv h
  obtain ⟨_, -, h⟩ := bind_inv h
  obtain ⟨_, -, h⟩ := bind_inv h
  obtain ⟨_, -, h⟩ := bind_inv h
  obtain ⟨_, -, h⟩ := bind_inv h
  obtain ⟨_, -, h⟩ := bind_inv h
  obtain ⟨_, -, h⟩ := bind_inv h
  obtain ⟨_, -, h⟩ := bind_inv h
  dsimp only at h
  obtain ⟨_, -, h⟩ := bind_inv h
  obtain ⟨_, -, h⟩ := bind_inv h
  obtain ⟨_, -, h⟩ := bind_inv h
  obtain ⟨_, -, h⟩ := bind_inv h
  obtain ⟨_, -, h⟩ := bind_inv h
  obtain ⟨_, -, h⟩ := bind_inv h
  obtain ⟨_, -, h⟩ := bind_inv h
  obtain ⟨_, -, h⟩ := bind_inv h
  obtain ⟨_, -, h⟩ := bind_inv h
  obtain ⟨_, -, h⟩ := bind_inv h
  rw [← Except.ok.inj h]
  exact h1

/-- The local matrix and right-hand side of an element. -/
structure BCell (k m n : Nat) (ref : DfRef2D ℝ) (poly : VemPolygon ℝ) (test : DfTest ℝ) (s : DfSpace2D ℝ) (p : DfPressure2D ℝ) (S S0 A : DMat ℝ) (b mean : List ℝ)
    (μ κ : ℝ) : Prop where
  stab : dfStabilization s .piNabla = .ok S
  stab0 : dfStabilization s .pi0k = .ok S0
  stabCols : S.cols = numVelocityDofs k m n
  stab0Cols : S0.cols = numVelocityDofs k m n
  computed : ∃ l, brinkmanLocal (dfCell2D ref poly s p) test = .ok l ∧
    brinkmanMatrix (numVelocityDofs k m n + (m + 1) * (m + 2) / 2) ((m + 1) * (m + 2) / 2) l = .ok A ∧
    brinkmanRhs (numVelocityDofs k m n + (m + 1) * (m + 2) / 2) l = .ok b
  rows : A.rows = numVelocityDofs k m n + (m + 1) * (m + 2) / 2
  cols : A.cols = numVelocityDofs k m n + (m + 1) * (m + 2) / 2
  size : b.length = numVelocityDofs k m n + (m + 1) * (m + 2) / 2
  greatMu : IsGreatest {y | ∃ x ∈ s.internal.points, y = |test.viscosity x|} μ
  greatK : IsGreatest {y | ∃ x ∈ s.internal.points, ∃ d < 9, y = |test.inverseDiffusion x d|} κ
  form : ∀ z v : Nat → ℝ, ∑ j ∈ Finset.range (numVelocityDofs k m n + (m + 1) * (m + 2) / 2), v j * apply A z j
    = quadSum s.internal.points s.internal.weights (fun x => brinkmanIntegrand test x
        (gradOf k poly.centroid poly.diameter (apply s.piNabla.1 z) x, gradOf k poly.centroid poly.diameter (apply s.piNabla.2 z) x)
        (gradOf k poly.centroid poly.diameter (apply s.piNabla.1 v) x, gradOf k poly.centroid poly.diameter (apply s.piNabla.2 v) x)
        (polyOf k poly.centroid poly.diameter (apply s.pi0k.1 z) x, polyOf k poly.centroid poly.diameter (apply s.pi0k.2 z) x)
        (polyOf k poly.centroid poly.diameter (apply s.pi0k.1 v) x, polyOf k poly.centroid poly.diameter (apply s.pi0k.2 v) x)
        (polyOf m poly.centroid poly.diameter (apply s.V z) x) (polyOf m poly.centroid poly.diameter (apply s.V v) x)
        (polyOf m poly.centroid poly.diameter (fun j => z (numVelocityDofs k m n + j)) x) (polyOf m poly.centroid poly.diameter (fun j => v (numVelocityDofs k m n + j)) x))
      + μ * (∑ i ∈ Finset.range (numVelocityDofs k m n), v i * apply S z i) + κ * ∑ i ∈ Finset.range (numVelocityDofs k m n), v i * apply S0 z i
  rhs : ∀ v : Nat → ℝ, ∑ j ∈ Finset.range (numVelocityDofs k m n + (m + 1) * (m + 2) / 2), v j * b.getD j 0
    = quadSum s.internal.points s.internal.weights fun x =>
        test.source x 0 * polyOf k poly.centroid poly.diameter (apply s.pi0k.1 v) x + test.source x 1 * polyOf k poly.centroid poly.diameter (apply s.pi0k.2 v) x
        + test.divergence x * polyOf m poly.centroid poly.diameter (fun j => v (numVelocityDofs k m n + j)) x
  meanOk : ∃ X, (dfCell2D ref poly s p).pressure.tr.mul (.col s.internal.weights) = .ok X ∧ X.toList = mean
  meanLength : mean.length = (m + 1) * (m + 2) / 2
  meanValue : ∀ r : Nat → ℝ, ∑ j ∈ Finset.range ((m + 1) * (m + 2) / 2), r j * mean.getD j 0
    = quadSum s.internal.points s.internal.weights (polyOf m poly.centroid poly.diameter r)

theorem dfquad_pos {m : Nat} (hs : DfSpaceOk k m n V len dir ts ws w ss vs v₀ poly s) : 0 < s.internal.points.length := by
  rcases Nat.eq_zero_or_pos s.internal.points.length with h | h
  · have := hs.discrete.definite 1 (by simp) (by
      rw [List.eq_nil_of_length_eq_zero h]
      simp [quadLin, quadSum])
    exact absurd this one_ne_zero
  · exact h

theorem df_cell (red : Bool) (hE : IsElement poly n V len dir nrm) (hT : IsDfTables k triangle edge ts ws w ss vs v₀) (hsq : ∀ x, 0 ≤ x → sqrt x * sqrt x = x)
    (hlu : SolvesRegular lu) (hllt : SolvesPosDef llt) (harea : red = true → poly.measure = ∫ _p in unionOf poly.tris, (1 : ℝ)) (hpos : 0 < poly.measure)
    {ref : DfRef2D ℝ} (href : dfRef2D red triangle edge k = .ok ref) (test : DfTest ℝ) :
    ∃ s p S S0 A b mean μ κ, dfPressure2D sqrt red triangle k poly = .ok p ∧ dfCreate2D sqrt lu llt ref poly = .ok s ∧
      DfSpaceOk k (divDegree red k) n V len dir ts ws w ss vs v₀ poly s ∧ BCell k (divDegree red k) n ref poly test s p S S0 A b mean μ κ := by
  obtain ⟨r1, s, hr1, hc, hs⟩ := dfCreate_ok (sqrt := sqrt) red hE hT hsq hlu hllt harea
  obtain rfl : r1 = ref := Except.ok.inj (hr1.symm.trans href)
  obtain ⟨r2, s2, hr2, hc2, hval⟩ := C115_values (sqrt := sqrt) red hE hT hsq hlu hllt harea
  obtain rfl : r2 = r1 := Except.ok.inj (hr2.symm.trans href)
  obtain rfl : s2 = s := Except.ok.inj (hc2.symm.trans hc)
  obtain ⟨⟨X, Y, hXY, ⟨hXr, hYr, hXc, hYc⟩, hXYv⟩, -, -⟩ := hval _ _ (Or.inr ⟨rfl, rfl⟩)
  obtain ⟨r3, s3, hr3, hc3, hder⟩ := C115_derivatives (sqrt := sqrt) red hE hT hsq hlu hllt harea
  obtain rfl : r3 = r2 := Except.ok.inj (hr3.symm.trans href)
  obtain rfl : s3 = s2 := Except.ok.inj (hc3.symm.trans hc)
  obtain ⟨⟨D, hD, ⟨d1, d2, d3, d4⟩, hDc, hDv⟩, -, -⟩ := hder _ _ (Or.inr ⟨rfl, rfl⟩)
  obtain ⟨r4, s4, hr4, hc4, hst, -⟩ := C114_stabilization (sqrt := sqrt) red hE hT hsq hlu hllt harea hpos
  obtain rfl : r4 = r3 := Except.ok.inj (hr4.symm.trans href)
  obtain rfl : s4 = s3 := Except.ok.inj (hc4.symm.trans hc)
  obtain ⟨S, hS, hSr, hSc, -⟩ := hst .piNabla _ _ (Or.inl ⟨rfl, rfl, rfl⟩)
  obtain ⟨S0, hS0, hS0r, hS0c, -⟩ := hst .pi0k _ _ (Or.inr ⟨rfl, rfl, rfl⟩)
  obtain ⟨p, hp, hpn, ⟨hPr, hPc, -, -⟩, hPv, -, -⟩ := C116_pressure (sqrt := sqrt) red hE hT hsq
  have hmk := divDegree_le red hT.two
  obtain ⟨W, hW, hWv⟩ := values_left hs.init.vInt (N' := tri (divDegree red k + 1)) (tri_le (by omega))
  obtain ⟨B, hB, hBr, hBc, hBv⟩ := values_mul hWv s4.V hs.v.rows
  have hBd : dfDivergenceValues s4 = .ok B := by
    unfold dfDivergenceValues
    rw [hs.init.nDiv, hW, except_ok_bind, hB]
  have hBc' := hBc.trans (hs.v.cols.trans (df_cols hT hs))
  have hint : p.internal = s4.internal := by
    obtain ⟨g, -, hg⟩ := dfRef_ok red hT
    have hg' := Except.ok.inj (hg.symm.trans href)
    have h2 := hT.below
    obtain ⟨internal, dofs, hq1, -, -⟩ := rules_ok hE hT.toIsTables
    have e1 : p.internal = internal := pressure_internal (by rw [show u32 (2 * k) = 2 * k by unfold u32; omega]; exact hq1) hp
    have e2 := dfCreate_internal hc
    rw [← hg'] at e2
    rw [e1, Except.ok.inj (hq1.symm.trans e2)]
  set m := divDegree red k with hm
  rw [hint] at hPr hPv
  have hQ := dfquad_pos hs
  set pts := s4.internal.points with hpts
  set wts := s4.internal.weights with hwts
  have hTab : BTables (dfCell2D r4 poly s4 p) pts.length (numVelocityDofs k m n) ((m + 1) * (m + 2) / 2) (fun q => pts.getD q 0)
      (fun q => wts.getD q 0) (fun d => if d = 0 then X.ent else Y.ent) (fun d => if d = 0 then D.1.1.ent else if d = 1 then D.1.2.ent else if d = 2 then D.2.1.ent else D.2.2.ent)
      B.ent (dfPressureValues p).ent S.ent S0.ent := by
    refine ⟨hXY.trans ?_, hD.trans ?_, hBd.trans ?_, ?_, hS.trans ?_, hS0.trans ?_, list_vecOf _ _ rfl, list_vecOf _ _ hs.rules.wlen⟩
    · have e1 : X = ⟨pts.length, numVelocityDofs k m n, X.ent⟩ := by rw [← hXr, ← hXc]
      have e2 : Y = ⟨pts.length, numVelocityDofs k m n, Y.ent⟩ := by rw [← hYr, ← hYc]
      rw [e1, e2]
      rfl
    · have e1 : D.1.1 = ⟨pts.length, numVelocityDofs k m n, D.1.1.ent⟩ := by rw [← d1, ← hDc D.1.1 (by simp)]
      have e2 : D.1.2 = ⟨pts.length, numVelocityDofs k m n, D.1.2.ent⟩ := by rw [← d2, ← hDc D.1.2 (by simp)]
      have e3 : D.2.1 = ⟨pts.length, numVelocityDofs k m n, D.2.1.ent⟩ := by rw [← d3, ← hDc D.2.1 (by simp)]
      have e4 : D.2.2 = ⟨pts.length, numVelocityDofs k m n, D.2.2.ent⟩ := by rw [← d4, ← hDc D.2.2 (by simp)]
      have : D = ((D.1.1, D.1.2), (D.2.1, D.2.2)) := rfl
      rw [this, e1, e2, e3, e4]
      rfl
    · rw [← hBc', ← show B.rows = pts.length from hBr]
    · show dfPressureValues p = _
      rw [← hPr, ← hpn, ← hPc]
    · exact congrArg Except.ok (show S = ⟨numVelocityDofs k m n, numVelocityDofs k m n, S.ent⟩ by
        have e : S = ⟨S.rows, S.cols, S.ent⟩ := rfl
        rw [hSc, hSr] at e
        exact e)
    · exact congrArg Except.ok (show S0 = ⟨numVelocityDofs k m n, numVelocityDofs k m n, S0.ent⟩ by
        have e : S0 = ⟨S0.rows, S0.cols, S0.ent⟩ := rfl
        rw [hS0c, hS0r] at e
        exact e)
  obtain ⟨μ, κ, l, A, b, hμ, hk, hl, hA, hb, hA1, hA2, hb1, hform, hrhs⟩ := brinkmanMatrix_ok hTab hQ test
  have hcomb : ∀ {N : Nat} {M : DMat ℝ} (hM : M.cols = N) (v : Nat → ℝ) (q : Nat), comb N M.ent v q = apply M v q := by
    intro m M hM v q
    rw [comb, apply, hM]
    exact Finset.sum_congr rfl fun j _ => mul_comm _ _
  have hpr : ∀ (r : Nat → ℝ) (q : Nat) x, pts[q]? = some x → comb ((m + 1) * (m + 2) / 2) (dfPressureValues p).ent r q = polyOf m poly.centroid poly.diameter r x := by
    intro r q x hx
    rw [comb, ← ev2_combo m poly.centroid poly.diameter le_rfl, combo, ev2, map_sum, tri_div]
    refine Finset.sum_congr rfl fun j hj => ?_
    obtain ⟨a, c, hac, rfl⟩ := exists_position (Finset.mem_range.1 hj)
    rw [hPv q x hx a c hac, map_mul, eval_C, ← ev2_basis_position m poly.centroid poly.diameter hac]
  have hvel : ∀ (v : Nat → ℝ) (q : Nat) x, pts[q]? = some x → ∀ d < 2, comb (numVelocityDofs k m n) ((fun d => if d = 0 then X.ent else Y.ent) d) v q
      = component (polyOf k poly.centroid poly.diameter (apply s4.pi0k.1 v) x, polyOf k poly.centroid poly.diameter (apply s4.pi0k.2 v) x) d := by
    intro v q x hx d hd
    have := hXYv v q x hx
    unfold component
    rcases (show d = 0 ∨ d = 1 by omega) with rfl | rfl
    · exact (hcomb hXc v q).trans this.1
    · exact (hcomb hYc v q).trans this.2
  have hgrad : ∀ (v : Nat → ℝ) (q : Nat) x, pts[q]? = some x →
      gradOf k poly.centroid poly.diameter (apply s4.piNabla.1 v) x = (apply D.1.1 v q, apply D.1.2 v q) ∧
      gradOf k poly.centroid poly.diameter (apply s4.piNabla.2 v) x = (apply D.2.1 v q, apply D.2.2 v q) := by
    intro v q x hx
    obtain ⟨P, Q, hP, hQ, h⟩ := hDv v
    obtain ⟨h1, h2, h3, h4⟩ := h q x hx
    rw [grad_unique k _ _ _ hP, grad_unique k _ _ _ hQ, h1, h2, h3, h4]
    exact ⟨rfl, rfl⟩
  have hdiv : ∀ (v : Nat → ℝ) (q : Nat) x, pts[q]? = some x → comb (numVelocityDofs k m n) B.ent v q = polyOf m poly.centroid poly.diameter (apply s4.V v) x := by
    intro v q x hx
    rw [hcomb hBc', hBv v q x hx, ← ev2_combo k _ _ (show m ≤ k by omega)]
    rfl
  have hget : ∀ q x, pts[q]? = some x → pts.getD q 0 = x := fun q x hx => by rw [List.getD_eq_getElem?_getD, hx, Option.getD_some]
  have hmul : (dfPressureValues p).tr.mul (.col wts) = .ok ⟨(m + 1) * (m + 2) / 2, 1, fun i _ => ∑ q ∈ Finset.range pts.length, wts.getD q 0 * (dfPressureValues p).ent q i⟩ := by
    rw [DMat.mul_ok _ _ (by rw [DMat.tr]; exact hPr.trans hs.rules.wlen.symm)]
    dsimp only [DMat.tr, DMat.col]
    rw [hPc, hpn, hPr]
    congr 2
    funext i j
    exact Finset.sum_congr rfl fun q _ => mul_comm _ _
  refine ⟨s4, p, S, S0, A, b, vecOf ((m + 1) * (m + 2) / 2) fun i => ∑ q ∈ Finset.range pts.length, wts.getD q 0 * (dfPressureValues p).ent q i, μ, κ, hp, hc, hs,
    hS, hS0, hSc.trans hSr, hS0c.trans hS0r, ⟨l, hl, hA, hb⟩, hA1, hA2, hb1, ?_, ?_, fun z v => ?_, fun v => ?_, ⟨_, hmul, rfl⟩, vecOf_length _ _, fun r => ?_⟩
  · convert hμ using 1
    ext y
    constructor
    · rintro ⟨x, hx, rfl⟩
      obtain ⟨q, hq, rfl⟩ := List.getElem_of_mem hx
      exact ⟨q, hq, by rw [hget q _ (List.getElem?_eq_getElem hq)]⟩
    · rintro ⟨q, hq, rfl⟩
      exact ⟨pts[q], List.getElem_mem _, by rw [hget q _ (List.getElem?_eq_getElem hq)]⟩
  · convert hk using 1
    ext y
    constructor
    · rintro ⟨x, hx, d, hd, rfl⟩
      obtain ⟨q, hq, rfl⟩ := List.getElem_of_mem hx
      exact ⟨q, hq, d, hd, by rw [hget q _ (List.getElem?_eq_getElem hq)]⟩
    · rintro ⟨q, hq, d, hd, rfl⟩
      exact ⟨pts[q], List.getElem_mem _, d, hd, by rw [hget q _ (List.getElem?_eq_getElem hq)]⟩
  · rw [hform z v]
    have eS : ∀ {M : DMat ℝ}, M.rows = numVelocityDofs k m n → M.cols = M.rows → ∀ i, ∑ j ∈ Finset.range (numVelocityDofs k m n), M.ent i j * z j = apply M z i := by
      intro M h1 h2 i
      rw [apply, h2, h1]
    simp only [eS hSr hSc, eS hS0r hS0c]
    congr 2
    refine sum_quadSum pts wts hs.rules.wlen _ _ fun q x hx => ?_
    have e0 := hvel z q x hx 0 (by norm_num)
    have e1 := hvel z q x hx 1 (by norm_num)
    have f0 := hvel v q x hx 0 (by norm_num)
    have f1 := hvel v q x hx 1 (by norm_num)
    obtain ⟨g0, g1⟩ := hgrad z q x hx
    obtain ⟨g2, g3⟩ := hgrad v q x hx
    simp only [Finset.sum_range_succ, Finset.sum_range_zero, zero_add] at *
    rw [e0, e1, f0, f1, hget q x hx, hdiv z q x hx, hdiv v q x hx, hpr _ q x hx, hpr _ q x hx, brinkmanIntegrand, g0, g1, g2, g3]
    simp only [Finset.sum_range_succ, Finset.sum_range_zero, zero_add, dot2, if_true, one_ne_zero, if_false, OfNat.ofNat_ne_zero, OfNat.ofNat_ne_one, Nat.succ_ne_self]
    rw [hcomb (hDc D.1.1 (by simp)), hcomb (hDc D.1.1 (by simp)), hcomb (hDc D.1.2 (by simp)), hcomb (hDc D.1.2 (by simp)), hcomb (hDc D.2.1 (by simp)), hcomb (hDc D.2.1 (by simp))]
    norm_num
    rw [hcomb (hDc D.2.2 (by simp)), hcomb (hDc D.2.2 (by simp))]
    ring
  · rw [hrhs v]
    refine sum_quadSum pts wts hs.rules.wlen _ _ fun q x hx => ?_
    have f0 := hvel v q x hx 0 (by norm_num)
    have f1 := hvel v q x hx 1 (by norm_num)
    simp only [Finset.sum_range_succ, Finset.sum_range_zero, zero_add] at *
    rw [hget q x hx, f0, f1, hpr _ q x hx]
    simp [component]
  · rw [← sum_quadSum pts wts hs.rules.wlen _ _ fun q x hx => hpr r q x hx]
    simp only [comb, Finset.mul_sum]
    rw [Finset.sum_comm]
    refine Finset.sum_congr rfl fun j hj => ?_
    rw [vecOf_getD _ (Finset.mem_range.1 hj), Finset.mul_sum]
    exact Finset.sum_congr rfl fun q _ => by ring

end

end PolyDiM
