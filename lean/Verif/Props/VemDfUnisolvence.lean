import Verif.Props.VemDfEval
import Verif.Lemmas.VemDfRealize

/-!
# Property C117: the DOFs of the divergence-free virtual element

Every vector of numbers of the right length is the vector of DOFs of an enhanced velocity, and the DOFs determine what the method sees of the velocity.
-/

namespace PolyDiM

open Spec MvPolynomial MeasureTheory

variable {k n : Nat} {V : Nat → ℝ × ℝ} {len : Nat → ℝ} {dir : Nat → Bool} {nrm : Nat → ℝ × ℝ} {poly : VemPolygon ℝ}
  {triangle : Nat → Rule (ℝ × ℝ) ℝ} {edge : Nat → Rule ℝ ℝ} {ts ws ss vs : List ℝ} {w v₀ : ℝ} {sqrt : ℝ → ℝ} {lu llt : Solver ℝ}

/-- C117: on a polygon whose boundary does not meet itself, every vector of numbers is the vector of DOFs of a velocity whose moments against the orthogonal
fields of degree `k - 1` and `k` are those of its energy projection. -/
theorem C117_realized (red : Bool) (hE : IsElement poly n V len dir nrm) (hS : SimplePolygon n V) (hT : IsDfTables k triangle edge ts ws w ss vs v₀)
    (hsq : ∀ x, 0 ≤ x → sqrt x * sqrt x = x) (hlu : SolvesRegular lu) (hllt : SolvesPosDef llt)
    (harea : red = true → poly.measure = ∫ _p in unionOf poly.tris, (1 : ℝ)) :
    ∃ ref s, dfRef2D red triangle edge k = .ok ref ∧ dfCreate2D sqrt lu llt ref poly = .ok s ∧
      ∀ v : Nat → ℝ, ∃ u P, IsVelocity k (divDegree red k) poly n V len nrm u P ∧ IsVelocityDofs k (divDegree red k) poly n V dir ts u P v ∧
        ∀ a b, k ≤ a + b + 2 → a + b + 1 ≤ k → swirlMoment poly u a b
          = swirlMoment poly (fun p => (polyOf k poly.centroid poly.diameter (apply s.piNabla.1 v) p, polyOf k poly.centroid poly.diameter (apply s.piNabla.2 v) p)) a b := by
  obtain ⟨ref, s, hr, hc, _⟩ := dfCreate_ok (sqrt := sqrt) red hE hT hsq hlu hllt harea
  refine ⟨ref, s, hr, hc, fun v => ?_⟩
  have hm := divDegree_le red hT.two
  obtain ⟨u, P, hu, hv, h⟩ := exists_velocity hE hS hT (m := divDegree red k) (by omega) v
    (fun a b => if a + b + 3 ≤ k then v (2 * (n + n * (k - 1)) + position a b) else
      swirlMoment poly (fun p => (polyOf k poly.centroid poly.diameter (apply s.piNabla.1 v) p, polyOf k poly.centroid poly.diameter (apply s.piNabla.2 v) p)) a b)
    fun a b hab => (if_pos hab).symm
  exact ⟨u, P, hu, hv, fun a b h1 h2 => (h a b h2).trans (if_neg (by omega))⟩

/-- C117: two enhanced velocities with the same DOFs have the same divergence, the same values on the boundary and the same moments up to degree `k`. -/
theorem C117_determined (red : Bool) (hE : IsElement poly n V len dir nrm) (hT : IsDfTables k triangle edge ts ws w ss vs v₀)
    (hsq : ∀ x, 0 ≤ x → sqrt x * sqrt x = x) (hlu : SolvesRegular lu) (hllt : SolvesPosDef llt)
    (harea : red = true → poly.measure = ∫ _p in unionOf poly.tris, (1 : ℝ)) :
    ∃ ref s, dfRef2D red triangle edge k = .ok ref ∧ dfCreate2D sqrt lu llt ref poly = .ok s ∧
      ∀ u P u' P' v, IsVelocity k (divDegree red k) poly n V len nrm u P → IsVelocityDofs k (divDegree red k) poly n V dir ts u P v →
        IsVelocity k (divDegree red k) poly n V len nrm u' P' → IsVelocityDofs k (divDegree red k) poly n V dir ts u' P' v →
        P = P' ∧ (∀ e < n, ∀ t : ℝ, 0 ≤ t → t ≤ 1 → u (segPoint (V e) (V ((e + 1) % n)) t) = u' (segPoint (V e) (V ((e + 1) % n)) t)) ∧
        ((∀ f, f = u ∨ f = u' → ∀ a b, k ≤ a + b + 2 → a + b + 1 ≤ k → swirlMoment poly f a b
          = swirlMoment poly (fun p => (polyOf k poly.centroid poly.diameter (apply s.piNabla.1 v) p, polyOf k poly.centroid poly.diameter (apply s.piNabla.2 v) p)) a b) →
          ∀ a b, a + b ≤ k →
            ∫ p in unionOf poly.tris, scaledMonomial poly.centroid poly.diameter a b p * (u p).1 = ∫ p in unionOf poly.tris, scaledMonomial poly.centroid poly.diameter a b p * (u' p).1 ∧
            ∫ p in unionOf poly.tris, scaledMonomial poly.centroid poly.diameter a b p * (u p).2 = ∫ p in unionOf poly.tris, scaledMonomial poly.centroid poly.diameter a b p * (u' p).2) := by
  obtain ⟨ref, s, hr, hc, hV⟩ := C109_divergence (sqrt := sqrt) red hE hT hsq hlu hllt harea
  obtain ⟨ref', s', hr', hc', hM⟩ := C112_moments (sqrt := sqrt) red hE hT hsq hlu hllt harea
  obtain rfl : ref = ref' := Except.ok.inj (hr.symm.trans hr')
  obtain rfl : s = s' := Except.ok.inj (hc.symm.trans hc')
  refine ⟨ref, s, hr, hc, fun u P u' P' v hu hv hu' hv' => ⟨?_, fun e he t h0 h1 => ?_, fun hf a b hab => ?_⟩⟩
  · refine MvPolynomial.funext fun x => ?_
    have e : x = ![x 0, x 1] := by
      funext i
      fin_cases i <;> rfl
    rw [e]
    exact (hV _ _ _ hu hv (x 0, x 1)).symm.trans (hV _ _ _ hu' hv' (x 0, x 1))
  · refine Prod.ext ?_ ?_
    · exact trace_unique hT hu.traceFirst hu'.traceFirst (fun e he => (hv.vertexFirst e he).symm.trans (hv'.vertexFirst e he))
        (fun e he i t hi => (hv.nodeFirst e he i t hi).symm.trans (hv'.nodeFirst e he i t hi)) e he t h0 h1
    · exact trace_unique hT hu.traceSecond hu'.traceSecond (fun e he => (hv.vertexSecond e he).symm.trans (hv'.vertexSecond e he))
        (fun e he i t hi => (hv.nodeSecond e he i t hi).symm.trans (hv'.nodeSecond e he i t hi)) e he t h0 h1
  · obtain ⟨h1, h2⟩ := hM _ _ _ hu hv a b hab (Or.inr (hf u (Or.inl rfl)))
    obtain ⟨h3, h4⟩ := hM _ _ _ hu' hv' a b hab (Or.inr (hf u' (Or.inr rfl)))
    exact ⟨h1.symm.trans h3, h2.symm.trans h4⟩

/-- The boundary of the unit square does not meet itself. -/
theorem square_simple : SimplePolygon 4 squareV := by
  intro e he e' he' t t' h0 h1 h0' h1' h
  have h1 : _ = _ := congrArg Prod.fst h
  have h2 : _ = _ := congrArg Prod.snd h
  interval_cases e <;> interval_cases e' <;> simp [segPoint, squareV] at h1 h2 ⊢ <;> linarith

/-- On the unit square the vector with a single 1 is the vector of DOFs of a velocity. -/
example (red : Bool) : ∃ lu llt : Solver ℝ, ∃ ref s u P,
    dfRef2D red (fun _ => ⟨boolePoints, booleWeights⟩) dfEdgeRules 2 = .ok ref ∧ dfCreate2D Real.sqrt lu llt ref squarePoly = .ok s ∧
    IsVelocity 2 (divDegree red 2) squarePoly 4 squareV (fun _ => 1) squareN u P ∧
    IsVelocityDofs 2 (divDegree red 2) squarePoly 4 squareV (fun i => i % 2 = 0) [1 / 2] u P (fun i => if i = 4 then 1 else 0) := by
  obtain ⟨lu, h1, h2⟩ := exists_solvers
  obtain ⟨ref, s, hr, hs, h⟩ := C117_realized red square_element square_simple df_tables real_sqrt h1 h2 fun _ => square_area
  obtain ⟨u, P, hu, hv, _⟩ := h fun i => if i = 4 then 1 else 0
  exact ⟨lu, lu, ref, s, u, P, hr, hs, hu, hv⟩

/-- Two velocities with the DOFs of `(x², -2xy)` on the unit square. -/
example (red : Bool) (u : ℝ × ℝ → ℝ × ℝ) (P : MvPolynomial (Fin 2) ℝ) (v : Nat → ℝ) (hu : IsVelocity 2 (divDegree red 2) squarePoly 4 squareV (fun _ => 1) squareN u P)
    (hv : IsVelocityDofs 2 (divDegree red 2) squarePoly 4 squareV (fun i => i % 2 = 0) [1 / 2] u P v)
    (hq : IsVelocityDofs 2 (divDegree red 2) squarePoly 4 squareV (fun i => i % 2 = 0) [1 / 2] (vectorPoly squareQ) (divPoly squareQ) v) : P = 0 ∧ u (1 / 3, 0) = (1 / 9, 0) := by
  obtain ⟨lu, h1, h2⟩ := exists_solvers
  obtain ⟨ref, s, _, _, h⟩ := C117_determined red square_element df_tables real_sqrt h1 h2 fun _ => square_area
  obtain ⟨v', hu', _⟩ := square_velocity red
  obtain ⟨h3, h4, _⟩ := h _ _ _ _ _ hu hv hu' hq
  refine ⟨h3.trans squareQ_div, ?_⟩
  have := h4 0 (by norm_num) (1 / 3) (by norm_num) (by norm_num)
  rw [show segPoint (squareV 0) (squareV ((0 + 1) % 4)) (1 / 3) = (1 / 3, 0) by simp [segPoint, squareV]] at this
  rw [this]
  simp [vectorPoly, squareQ]
  norm_num

end PolyDiM
