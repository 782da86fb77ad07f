import Verif.Lemmas.RTSpace
import Verif.Lemmas.VemExample
import Verif.Props.QuadratureExact
import Mathlib.Analysis.Calculus.Deriv.Inv
import Mathlib.Analysis.SpecialFunctions.Pow.Deriv

/-!
# Properties: the Raviart-Thomas element on triangles
-/

namespace PolyDiM

open Spec MvPolynomial MeasureTheory

/-! ## The tables of order 1, for the examples -/

/-- The points of the Gauss rule with two points on the unit interval. -/
noncomputable def gauss2Points : List ℝ := [1 / 2 - Real.sqrt 3 / 6, 1 / 2 + Real.sqrt 3 / 6]

theorem gauss2_exact : ExactOnSegment 3 gauss2Points [1 / 2, 1 / 2] := by
  intro q hq
  have hq' : ∀ t, q.eval t = q.coeff 0 + q.coeff 1 * t + q.coeff 2 * t ^ 2 + q.coeff 3 * t ^ 3 := by
    intro t
    rw [Polynomial.eval_eq_sum_range' (n := 4) (by omega)]
    simp [Finset.sum_range_succ]
  simp only [hq']
  rw [intervalIntegral.integral_add, intervalIntegral.integral_add, intervalIntegral.integral_add, intervalIntegral.integral_const_mul,
    intervalIntegral.integral_const_mul, intervalIntegral.integral_const_mul, integral_pow, integral_pow, integral_id, intervalIntegral.integral_const]
  · have h : Real.sqrt 3 ^ 2 = 3 := Real.sq_sqrt (by norm_num)
    norm_num [quadSum, gauss2Points]
    linear_combination (q.coeff 2 / 36 + q.coeff 3 / 24) * h
  all_goals exact Continuous.intervalIntegrable (by fun_prop) _ _

theorem rt_tables : IsRTTables 1 (fun _ => ⟨nc4Points, nc4Weights⟩) (fun _ => ⟨gauss2Points, [1 / 2, 1 / 2]⟩) gauss2Points [1 / 2, 1 / 2] where
  triangleLength := rfl
  triangleExact := nc4_exact
  segment := rfl
  nodes := rfl
  weights := rfl
  segmentExact := gauss2_exact

/-- A triangle that runs clockwise. -/
def exTriangle : Nat → ℝ × ℝ
  | 0 => (1, 1)
  | 1 => (2, 5)
  | _ => (4, 2)

theorem exTriangle_det : shoelace (exTriangle 0) (exTriangle 1) (exTriangle 2) = -11 := by norm_num [shoelace, exTriangle]

/-- The neighbour of `exTriangle` across the edge from `(2, 5)` to `(4, 2)`. -/
def exNeighbour : Nat → ℝ × ℝ
  | 0 => (6, 6)
  | 1 => (2, 5)
  | _ => (4, 2)

/-! ## C56: the map of the velocities -/

theorem hasDivergence_unique {v : ℝ × ℝ → ℝ × ℝ} {p : ℝ × ℝ} {d d' : ℝ} (h : HasDivergence v p d) (h' : HasDivergence v p d') : d = d' := by
  obtain ⟨a, b, ha, hb, rfl⟩ := h
  obtain ⟨a', b', ha', hb', rfl⟩ := h'
  rw [ha.unique ha', hb.unique hb']

/-- The divergence from the derivative. -/
theorem hasDivergence_of_fderiv {w : ℝ × ℝ → ℝ × ℝ} {p : ℝ × ℝ} {a b : ℝ × ℝ →L[ℝ] ℝ} (ha : HasFDerivAt (fun p => (w p).1) a p)
    (hb : HasFDerivAt (fun p => (w p).2) b p) : HasDivergence w p (a (1, 0) + b (0, 1)) := by
  refine ⟨a (1, 0), b (0, 1), ?_, ?_, rfl⟩
  · exact HasFDerivAt.comp_hasDerivAt p.1 (f := fun s => (s, p.2)) (l := fun p => (w p).1) ha ((hasDerivAt_id p.1).prodMk (hasDerivAt_const p.1 p.2))
  · exact HasFDerivAt.comp_hasDerivAt p.2 (f := fun s => (p.1, s)) (l := fun p => (w p).2) hb ((hasDerivAt_const p.2 p.1).prodMk (hasDerivAt_id p.2))

/-- C56: on a triangle that does not degenerate `MapVelocityValues` and `MapVelocityDivergenceValues` carry the values of fields on the reference triangle to
values of fields on the triangle such that fluxes through the images of segments are preserved, the mapped divergence is the divergence of the mapped field and
the integral of the divergence against a function is preserved up to the orientation. -/
theorem C56_piola (A B C : ℝ × ℝ) (hd : shoelace A B C ≠ 0) (w : Nat → ℝ × ℝ → ℝ × ℝ) :
    ∃ W : Nat → ℝ × ℝ → ℝ × ℝ,
      (∀ (points : List (ℝ × ℝ)) (m : Nat) (X Y : DMat ℝ), X.rows = points.length → X.cols = m → Y.rows = points.length → Y.cols = m →
        (∀ (i : Nat) (p : ℝ × ℝ), points[i]? = some p → ∀ j < m, (X.ent i j, Y.ent i j) = w j p) →
        ∃ X' Y', rtMapVelocity (A, B, C) (X, Y) = .ok (X', Y') ∧ X'.rows = points.length ∧ X'.cols = m ∧ Y'.rows = points.length ∧ Y'.cols = m ∧
          ∀ (i : Nat) (p : ℝ × ℝ), points[i]? = some p → ∀ j < m, (X'.ent i j, Y'.ent i j) = W j (bary3 A B C (1 - p.1 - p.2) p.1 p.2)) ∧
      (∀ j P Q i, fluxMoment (W j) (bary3 A B C (1 - P.1 - P.2) P.1 P.2) (bary3 A B C (1 - Q.1 - Q.2) Q.1 Q.2) i = fluxMoment (w j) P Q i) ∧
      (∀ j, Differentiable ℝ (w j) → ∀ (p : ℝ × ℝ) (D : DMat ℝ) (i : Nat), HasDivergence (w j) p (D.ent i j) →
        HasDivergence (W j) (bary3 A B C (1 - p.1 - p.2) p.1 p.2) ((rtMapDivergence (A, B, C) D).ent i j)) ∧
      ∀ j, Differentiable ℝ (w j) → ∀ δ Δ q : ℝ × ℝ → ℝ, (∀ p, HasDivergence (w j) p (δ p)) → (∀ x, HasDivergence (W j) x (Δ x)) →
        ∫ x in {x | InTriangle A B C x}, Δ x * q x = SignType.sign (shoelace A B C) * ∫ p in refTri, δ p * q (bary3 A B C (1 - p.1 - p.2) p.1 p.2) := by
  have hd' : tri2Det (A, B, C) ≠ 0 := by rw [tri2Det_eq]; exact hd
  have hF : ∀ p : ℝ × ℝ, bary3 A B C (1 - p.1 - p.2) p.1 p.2 = tri2F (A, B, C) p := fun p => (tri2F_bary (A, B, C) p).symm
  have hdiv : ∀ j, Differentiable ℝ (w j) → ∀ (x : ℝ × ℝ) (δ : ℝ), HasDivergence (w j) (tri2FInv (A, B, C) x) δ →
      HasDivergence (piola (A, B, C) (w j)) x (1 / tri2Det (A, B, C) * δ) := by
    intro j hw x δ hδ
    have h := (hw (tri2FInv (A, B, C) x)).hasFDerivAt
    have ha := h.fst
    have hb := h.snd
    rw [hasDivergence_unique hδ (hasDivergence_of_fderiv ha hb)]
    exact piola_divergence hd' ha hb
  refine ⟨fun j => piola (A, B, C) (w j), ?_, ?_, ?_, ?_⟩
  · intro points m X Y x1 x2 y1 y2 h
    obtain ⟨X', Y', hX', x1', x2', y1', y2', he⟩ := rtMapVelocity_ok (A, B, C) (x1.trans y1.symm) (x2.trans y2.symm)
    refine ⟨X', Y', hX', x1'.trans x1, x2'.trans x2, y1'.trans x1, y2'.trans x2, fun i p hp j hj => ?_⟩
    rw [hF]
    refine he (w j) _ i j ?_
    rw [tri2FInv_tri2F hd']
    exact h i p hp j hj
  · intro j P Q i
    rw [hF, hF]
    exact piola_flux hd' (w j) P Q i
  · intro j hw p D i h
    rw [hF]
    refine hdiv j hw _ _ ?_
    rw [tri2FInv_tri2F hd']
    exact h
  · intro j hw δ Δ q h1 h2
    have h3 : ∀ x, Δ x = 1 / tri2Det (A, B, C) * δ (tri2FInv (A, B, C) x) := fun x => hasDivergence_unique (h2 x) (hdiv j hw x _ (h1 _))
    simp only [h3, hF]
    rw [← tri2Det_eq (A, B, C)]
    exact piola_integral hd' δ q

/-- A clockwise triangle and fields that are no polynomials. -/
example : shoelace (exTriangle 0) (exTriangle 1) (exTriangle 2) ≠ 0 ∧ ∀ j : Nat, Differentiable ℝ (fun p : ℝ × ℝ => ((1 + p.1 ^ 2)⁻¹ * (j : ℝ), p.1 * p.2)) ∧
    ∀ p : ℝ × ℝ, ∃ d, HasDivergence (fun p : ℝ × ℝ => ((1 + p.1 ^ 2)⁻¹ * (j : ℝ), p.1 * p.2)) p d := by
  have hp : ∀ x : ℝ, 1 + x ^ 2 ≠ 0 := fun x => by positivity
  have hw : ∀ j : Nat, Differentiable ℝ (fun p : ℝ × ℝ => ((1 + p.1 ^ 2)⁻¹ * (j : ℝ), p.1 * p.2)) := fun j => by
    have h1 : Differentiable ℝ fun p : ℝ × ℝ => 1 + p.1 ^ 2 := by fun_prop
    have h2 : Differentiable ℝ fun p : ℝ × ℝ => p.1 * p.2 := by fun_prop
    exact ((h1.inv fun p => hp p.1).mul_const _).prodMk h2
  refine ⟨by rw [exTriangle_det]; norm_num, fun j => ⟨hw j, fun p => ?_⟩⟩
  have h := (hw j p).hasFDerivAt
  exact ⟨_, hasDivergence_of_fderiv h.fst h.snd⟩

/-! ## C80: the reference element -/

section
variable {k : Nat} {triangle : Nat → Rule (ℝ × ℝ) ℝ} {gauss : Nat → Rule ℝ ℝ} {ts ws : List ℝ} {lu : Solver ℝ} {r2 : ℝ}

/-- The basis functions on the reference triangle. -/
theorem rtOk_of (hT : IsRTTables k triangle gauss ts ws) (hlu : SolvesRegular lu) (hr2 : 0 < r2) :
    ∃ ref l, rtCreate lu r2 triangle gauss k = .ok (ref, l) ∧ RtOk k triangle ts ws ref l := by
  obtain ⟨ref, l, h, h1, h2⟩ := rtCreate_ok hlu hr2 hT
  exact ⟨ref, l, h, h1, h2⟩

/-- C80: for every order and all eight triples of edge directions the reference element is built, and its basis functions are the basis of the Raviart-Thomas
space dual to the flux moments of the edges, taken in the directions of the mesh, and the internal moments: every field of the space is reproduced from its
degrees of freedom. -/
theorem C80_unisolvent (hT : IsRTTables k triangle gauss ts ws) (hlu : SolvesRegular lu) (hr2 : 0 < r2) (dir : Nat → Bool) :
    ∃ ref l b, rtCreate lu r2 triangle gauss k = .ok (ref, l) ∧ rtAt l (dir 0, dir 1, dir 2) = .ok b ∧ ref.numBasis = (k + 1) * (k + 3) ∧
      ∃ φ : Nat → ℝ × ℝ → ℝ × ℝ, (∀ j < (k + 1) * (k + 3), IsRT k (φ j)) ∧
        (∀ j < (k + 1) * (k + 3), IsRTDofs k dir (φ j) fun i => if i = j then 1 else 0) ∧
        (∀ v c, IsRT k v → IsRTDofs k dir v c → ∀ p, v p = ∑ j ∈ Finset.range ((k + 1) * (k + 3)), c j • φ j p) ∧
        ∀ points, ∃ X Y, rtVelocity ref b.coefficients points = .ok (X, Y) ∧ X.rows = points.length ∧ X.cols = (k + 1) * (k + 3) ∧
          Y.rows = points.length ∧ Y.cols = (k + 1) * (k + 3) ∧
          ∀ (i : Nat) (p : ℝ × ℝ), points[i]? = some p → ∀ j < (k + 1) * (k + 3), (X.ent i j, Y.ent i j) = φ j p := by
  obtain ⟨ref, l, h, hO⟩ := rtOk_of hT hlu hr2
  obtain ⟨b, hb, hb1, -⟩ := hO.basis (dir 0, dir 1, dir 2)
  simp only [← rtNum_val]
  refine ⟨ref, l, b, h, hb, hO.data.numBasis, fun j => rtFun k fun l => b.coefficients.ent l j, fun j _ => rtFun_isRT _, ?_, ?_, ?_⟩
  · intro j hj
    exact isRTDofs_dirs (fun e he => dirOf_eta dir he) (hb1.dual j hj)
  · intro v c hv hc p
    obtain ⟨x, rfl⟩ := rtFun_span hv
    have := hb1.repro x c (isRTDofs_dirs (fun e he => (dirOf_eta dir he).symm) hc)
    rw [rtFun_congr this, rtFun_sum]
  · intro points
    obtain ⟨X, Y, hX, h1, h2, h3, h4, h5⟩ := rtVelocity_ok hO.data hb1.rows points
    rw [hb1.cols] at h2 h4 h5
    exact ⟨X, Y, hX, h1, h2, h3, h4, h5⟩

/-- The tables of order 1; the position vector is a field of the space. -/
example : ∃ (lu : Solver ℝ) (triangle : Nat → Rule (ℝ × ℝ) ℝ) (gauss : Nat → Rule ℝ ℝ) (ts ws : List ℝ), SolvesRegular lu ∧ (0 : ℝ) < Real.sqrt 2 ∧
    IsRTTables 1 triangle gauss ts ws ∧ IsRT 1 (fun p => (p.1 * p.2, p.2 ^ 2)) ∧ ∃ c, IsRTDofs 1 (fun e => e = 1) (fun p => (p.1 * p.2, p.2 ^ 2)) c := by
  obtain ⟨lu, h1, -⟩ := exists_solvers
  refine ⟨lu, _, _, _, _, h1, by positivity, rt_tables, ⟨0, 0, X 1, by simp, by simp, isHomogeneous_X ℝ 1, fun p => ?_⟩, exists_rtDofs _ _⟩
  simp
  ring

/-! ## C81: the local space and conformity -/

/-- C81: on every triangle that does not degenerate the local space is built; its basis functions belong to the Raviart-Thomas space of the triangle and their
flux moments through the edges, in the directions of the mesh, are those of the dual basis. -/
theorem C81_space (hT : IsRTTables k triangle gauss ts ws) (hlu : SolvesRegular lu) (hr2 : 0 < r2) (V : Nat → ℝ × ℝ) (dir : Nat → Bool) (len : Nat → ℝ)
    (hd : shoelace (V 0) (V 1) (V 2) ≠ 0) :
    ∃ ref l s, rtCreate lu r2 triangle gauss k = .ok (ref, l) ∧ rtSpace ref l [V 0, V 1, V 2] [dir 0, dir 1, dir 2] [len 0, len 1, len 2] = .ok s ∧
      s.numVelocity = (k + 1) * (k + 3) ∧ s.numPressure = (k + 1) * (k + 2) / 2 ∧
      ∃ Φ : Nat → ℝ × ℝ → ℝ × ℝ, (∀ j < (k + 1) * (k + 3), IsRT k (Φ j)) ∧
        (∀ j < (k + 1) * (k + 3), ∀ e < 3, ∀ i ≤ k, fluxMoment (Φ j) (polyEdge 3 V (dir e) e).1 (polyEdge 3 V (dir e) e).2 i = if e * (k + 1) + i = j then 1 else 0) ∧
        (∀ w, IsRT k w → ∃ c : Nat → ℝ, ∀ x, w x = ∑ j ∈ Finset.range ((k + 1) * (k + 3)), c j • Φ j x) ∧
        ∀ points, ∃ X Y, rtVelocityAt ref l s points = .ok (X, Y) ∧ X.rows = points.length ∧ X.cols = (k + 1) * (k + 3) ∧
          Y.rows = points.length ∧ Y.cols = (k + 1) * (k + 3) ∧
          ∀ (i : Nat) (x : ℝ × ℝ), points[i]? = some x → ∀ j < (k + 1) * (k + 3), (X.ent i j, Y.ent i j) = Φ j x := by
  obtain ⟨ref, l, h, hO⟩ := rtOk_of hT hlu hr2
  obtain ⟨b, hb, hb1, -⟩ := hO.basis (dir 0, dir 1, dir 2)
  obtain ⟨s, hs, hs1⟩ := rtSpace_ok hT hO V dir len
  have hd' : tri2Det (V 0, V 1, V 2) ≠ 0 := by rw [tri2Det_eq]; exact hd
  simp only [← rtNum_val]
  refine ⟨ref, l, s, h, hs, hs1.numVelocity, by rw [hs1.numPressure, tri_div], fun j => piola (V 0, V 1, V 2) (rtFun k fun l => b.coefficients.ent l j),
    fun j _ => piola_isRT hd' (rtFun_isRT _), ?_, ?_, fun points => (rtSpace_values hO hs1 hb hb1 points).1⟩
  · intro j hj e he i hi
    have h1 := (isRTDofs_dirs (fun e he => dirOf_eta dir he) (hb1.dual j hj)).edge e he i hi
    have h2 := tri2F_ends V dir he
    rw [← h2.1, ← h2.2, piola_flux hd']
    exact h1.symm
  · intro w hw
    obtain ⟨w', hw', hpi⟩ := piola_surjective hd' hw
    obtain ⟨x, rfl⟩ := rtFun_span hw'
    obtain ⟨c, hc⟩ := exists_rtDofs (k := k) dir (rtFun k x)
    have hrep := hb1.repro x c (isRTDofs_dirs (fun e he => (dirOf_eta dir he).symm) hc)
    refine ⟨c, fun y => ?_⟩
    rw [hpi y, rtFun_congr hrep]
    have : (rtFun k fun l => ∑ j ∈ Finset.range (rtNum k), b.coefficients.ent l j * c j)
        = fun p => ∑ j ∈ Finset.range (rtNum k), c j • rtFun k (fun l => b.coefficients.ent l j) p := funext fun p => rtFun_sum _ _ _ _
    rw [this, piola_sum]

/-- Order 1 on a clockwise triangle. -/
example : ∃ (lu : Solver ℝ) (triangle : Nat → Rule (ℝ × ℝ) ℝ) (gauss : Nat → Rule ℝ ℝ) (ts ws : List ℝ), SolvesRegular lu ∧ (0 : ℝ) < Real.sqrt 2 ∧
    IsRTTables 1 triangle gauss ts ws ∧ shoelace (exTriangle 0) (exTriangle 1) (exTriangle 2) ≠ 0 := by
  obtain ⟨lu, h1, -⟩ := exists_solvers
  exact ⟨lu, _, _, _, _, h1, by positivity, rt_tables, by rw [exTriangle_det]; norm_num⟩

/-- C81: the global field has a continuous normal component. If two triangles share an edge, both run through it in the direction of the mesh and the coefficients
of the degrees of freedom of that edge agree, then the normal components of the two local fields agree in every point of the edge. -/
theorem C81_conforming (hT : IsRTTables k triangle gauss ts ws) (hlu : SolvesRegular lu) (hr2 : 0 < r2) (V V' : Nat → ℝ × ℝ) (dir dir' : Nat → Bool)
    (len len' : Nat → ℝ) (hd : shoelace (V 0) (V 1) (V 2) ≠ 0) (hd' : shoelace (V' 0) (V' 1) (V' 2) ≠ 0) {e e' : Nat} (he : e < 3) (he' : e' < 3)
    {P Q : ℝ × ℝ} (hP : polyEdge 3 V (dir e) e = (P, Q)) (hP' : polyEdge 3 V' (dir' e') e' = (P, Q)) (c c' : Nat → ℝ)
    (hc : ∀ i ≤ k, c (e * (k + 1) + i) = c' (e' * (k + 1) + i)) :
    ∃ ref l s s', rtCreate lu r2 triangle gauss k = .ok (ref, l) ∧ rtSpace ref l [V 0, V 1, V 2] [dir 0, dir 1, dir 2] [len 0, len 1, len 2] = .ok s ∧
      rtSpace ref l [V' 0, V' 1, V' 2] [dir' 0, dir' 1, dir' 2] [len' 0, len' 1, len' 2] = .ok s' ∧
      ∀ t, ∃ X Y X' Y', rtVelocityAt ref l s [segPoint P Q t] = .ok (X, Y) ∧ rtVelocityAt ref l s' [segPoint P Q t] = .ok (X', Y') ∧
        dot2 (∑ j ∈ Finset.range ((k + 1) * (k + 3)), c j * X.ent 0 j, ∑ j ∈ Finset.range ((k + 1) * (k + 3)), c j * Y.ent 0 j) (clockwise (Q - P))
          = dot2 (∑ j ∈ Finset.range ((k + 1) * (k + 3)), c' j * X'.ent 0 j, ∑ j ∈ Finset.range ((k + 1) * (k + 3)), c' j * Y'.ent 0 j) (clockwise (Q - P)) := by
  obtain ⟨ref, l, s, h, hs, -, -, Φ, hR, hΦ, -, hv⟩ := C81_space hT hlu hr2 V dir len hd
  obtain ⟨ref', l', s', h', hs', -, -, Φ', hR', hΦ', -, hv'⟩ := C81_space hT hlu hr2 V' dir' len' hd'
  obtain ⟨rfl, rfl⟩ : ref = ref' ∧ l = l' := by
    rw [h] at h'
    injection h' with h'
    exact ⟨congrArg Prod.fst h', congrArg Prod.snd h'⟩
  set N := (k + 1) * (k + 3) with hN
  choose! r hr er using fun j (hj : j < N) => rt_trace (hR j hj) P Q
  choose! r' hr' er' using fun j (hj : j < N) => rt_trace (hR' j hj) P Q
  have hdeg : ∀ (q : Nat → Polynomial ℝ) (c : Nat → ℝ), (∀ j < N, (q j).natDegree ≤ k) → (∑ j ∈ Finset.range N, Polynomial.C (c j) * q j).natDegree ≤ k := by
    intro q c hq
    refine Polynomial.natDegree_sum_le_of_forall_le _ _ fun j hj => ?_
    exact (Polynomial.natDegree_C_mul_le _ _).trans (hq j (Finset.mem_range.1 hj))
  have hmom : ∀ (q : Nat → Polynomial ℝ) (c : Nat → ℝ) (Φ : Nat → ℝ × ℝ → ℝ × ℝ) (e : Nat), e < 3 →
      (∀ j < N, ∀ t, (q j).eval t = dot2 (Φ j (segPoint P Q t)) (clockwise (Q - P))) →
      (∀ j < N, ∀ i ≤ k, fluxMoment (Φ j) P Q i = if e * (k + 1) + i = j then 1 else 0) → ∀ i ≤ k,
      ∫ t in (0 : ℝ)..1, (∑ j ∈ Finset.range N, Polynomial.C (c j) * q j).eval t * (t - 1 / 2) ^ i = c (e * (k + 1) + i) := by
    intro q c Φ e he hq hΦ i hi
    have e1 : ∀ t : ℝ, (∑ j ∈ Finset.range N, Polynomial.C (c j) * q j).eval t * (t - 1 / 2) ^ i = ∑ j ∈ Finset.range N, c j * ((q j).eval t * (t - 1 / 2) ^ i) := by
      intro t
      rw [Polynomial.eval_finsetSum, Finset.sum_mul]
      refine Finset.sum_congr rfl fun j _ => ?_
      rw [Polynomial.eval_mul, Polynomial.eval_C, mul_assoc]
    simp only [e1]
    rw [intervalIntegral.integral_finsetSum]
    · have e2 : ∀ j ∈ Finset.range N, ∫ t in (0 : ℝ)..1, c j * ((q j).eval t * (t - 1 / 2) ^ i) = if e * (k + 1) + i = j then c j else 0 := by
        intro j hj
        rw [Finset.mem_range] at hj
        rw [intervalIntegral.integral_const_mul]
        have := hΦ j hj i hi
        unfold fluxMoment at this
        simp only [← hq j hj] at this
        rw [this]
        split_ifs <;> simp
      rw [Finset.sum_congr rfl e2, Finset.sum_ite_eq, if_pos]
      rw [Finset.mem_range, hN, show (k + 1) * (k + 3) = k * (k + 1) + 3 * (k + 1) by ring]
      have : 0 ≤ k * (k + 1) := Nat.zero_le _
      rcases (show e = 0 ∨ e = 1 ∨ e = 2 by omega) with rfl | rfl | rfl <;> omega
    · intro j _
      exact Continuous.intervalIntegrable (by fun_prop) _ _
  have hA := hmom r c Φ e he er (fun j hj i hi => by have := hΦ j hj e he i hi; rwa [hP] at this)
  have hB := hmom r' c' Φ' e' he' er' (fun j hj i hi => by have := hΦ' j hj e' he' i hi; rwa [hP'] at this)
  have heq : (∑ j ∈ Finset.range N, Polynomial.C (c j) * r j) - ∑ j ∈ Finset.range N, Polynomial.C (c' j) * r' j = 0 := by
    refine poly1_zero_of_moments k _ ((Polynomial.natDegree_sub_le _ _).trans (max_le (hdeg r c hr) (hdeg r' c' hr'))) fun i hi => ?_
    simp only [Polynomial.eval_sub, sub_mul]
    rw [intervalIntegral.integral_sub, hA i hi, hB i hi, hc i hi, sub_self]
    · exact Continuous.intervalIntegrable (by fun_prop) _ _
    · exact Continuous.intervalIntegrable (by fun_prop) _ _
  refine ⟨ref, l, s, s', h, hs, hs', fun t => ?_⟩
  obtain ⟨X, Y, hX, -, -, -, -, eX⟩ := hv [segPoint P Q t]
  obtain ⟨X', Y', hX', -, -, -, -, eX'⟩ := hv' [segPoint P Q t]
  refine ⟨X, Y, X', Y', hX, hX', ?_⟩
  have key : ∀ (X Y : DMat ℝ) (Φ : Nat → ℝ × ℝ → ℝ × ℝ) (r : Nat → Polynomial ℝ) (c : Nat → ℝ),
      (∀ (i : Nat) (x : ℝ × ℝ), [segPoint P Q t][i]? = some x → ∀ j < N, (X.ent i j, Y.ent i j) = Φ j x) →
      (∀ j < N, ∀ t, (r j).eval t = dot2 (Φ j (segPoint P Q t)) (clockwise (Q - P))) →
      dot2 (∑ j ∈ Finset.range N, c j * X.ent 0 j, ∑ j ∈ Finset.range N, c j * Y.ent 0 j) (clockwise (Q - P)) = (∑ j ∈ Finset.range N, Polynomial.C (c j) * r j).eval t := by
    intro X Y Φ r c hX hr
    rw [Polynomial.eval_finsetSum]
    simp only [dot2]
    rw [Finset.sum_mul, Finset.sum_mul, ← Finset.sum_add_distrib]
    refine Finset.sum_congr rfl fun j hj => ?_
    rw [Finset.mem_range] at hj
    rw [Polynomial.eval_mul, Polynomial.eval_C, hr j hj t, ← hX 0 _ rfl j hj, dot2]
    ring
  rw [key X Y Φ r c eX er, key X' Y' Φ' r' c' eX' er', sub_eq_zero.1 heq]

/-- Two triangles of different orientation with a common edge. -/
example : shoelace (exTriangle 0) (exTriangle 1) (exTriangle 2) ≠ 0 ∧ shoelace (exNeighbour 0) (exNeighbour 1) (exNeighbour 2) ≠ 0 ∧
    polyEdge 3 exTriangle true 1 = ((2, 5), (4, 2)) ∧ polyEdge 3 exNeighbour true 1 = ((2, 5), (4, 2)) := by
  refine ⟨by rw [exTriangle_det]; norm_num, by norm_num [shoelace, exNeighbour], ?_, ?_⟩
  · simp [polyEdge, exTriangle]
  · simp [polyEdge, exNeighbour]

/-! ## C82: the divergence -/

/-- C82: on every triangle that does not degenerate the reported divergences are the divergences of the basis functions; they are polynomials of degree at most
`k`; their integrals are the fluxes through the boundary (local conservation); every polynomial of degree at most `k` is a combination of them, as stability of
the mixed method needs. -/
theorem C82_divergence (hT : IsRTTables k triangle gauss ts ws) (hlu : SolvesRegular lu) (hr2 : 0 < r2) (V : Nat → ℝ × ℝ) (dir : Nat → Bool) (len : Nat → ℝ)
    (hd : shoelace (V 0) (V 1) (V 2) ≠ 0) :
    ∃ ref l s, rtCreate lu r2 triangle gauss k = .ok (ref, l) ∧ rtSpace ref l [V 0, V 1, V 2] [dir 0, dir 1, dir 2] [len 0, len 1, len 2] = .ok s ∧
      ∃ (Φ : Nat → ℝ × ℝ → ℝ × ℝ) (δ : Nat → MvPolynomial (Fin 2) ℝ),
        (∀ points, ∃ X Y D, rtVelocityAt ref l s points = .ok (X, Y) ∧ rtDivergenceAt ref l s points = .ok D ∧
          D.rows = points.length ∧ D.cols = (k + 1) * (k + 3) ∧
          ∀ (i : Nat) (x : ℝ × ℝ), points[i]? = some x → ∀ j < (k + 1) * (k + 3), (X.ent i j, Y.ent i j) = Φ j x ∧ D.ent i j = eval ![x.1, x.2] (δ j)) ∧
        (∀ j x, HasDivergence (Φ j) x (eval ![x.1, x.2] (δ j))) ∧
        (∀ j, (δ j).totalDegree ≤ k) ∧
        (∀ j < (k + 1) * (k + 3), ∫ x in {x | InTriangle (V 0) (V 1) (V 2) x}, eval ![x.1, x.2] (δ j)
          = SignType.sign (shoelace (V 0) (V 1) (V 2)) * ∑ e ∈ Finset.range 3, (if dir e then 1 else -1) * if e * (k + 1) = j then 1 else 0) ∧
        ∀ q : MvPolynomial (Fin 2) ℝ, q.totalDegree ≤ k → ∃ c : Nat → ℝ, ∀ x : ℝ × ℝ,
          eval ![x.1, x.2] q = ∑ j ∈ Finset.range ((k + 1) * (k + 3)), c j * eval ![x.1, x.2] (δ j) := by
  obtain ⟨ref, l, h, hO⟩ := rtOk_of hT hlu hr2
  obtain ⟨b, hb, hb1, -⟩ := hO.basis (dir 0, dir 1, dir 2)
  obtain ⟨s, hs, hs1⟩ := rtSpace_ok hT hO V dir len
  have hd' : tri2Det (V 0, V 1, V 2) ≠ 0 := by rw [tri2Det_eq]; exact hd
  simp only [← rtNum_val]
  have hpull := fun q => poly2_pullback (invTri (V 0, V 1, V 2)) q
  simp only [← tri2F_tri2L, tri2F_invTri] at hpull
  choose g hg1 hg2 using hpull
  set D := tri2Det (V 0, V 1, V 2) with hD
  have hev : ∀ j (x : ℝ × ℝ), eval ![x.1, x.2] (C (1 / D) * g (rtDivPoly k fun l => b.coefficients.ent l j))
      = 1 / D * ev2 (rtDivPoly k fun l => b.coefficients.ent l j) (tri2FInv (V 0, V 1, V 2) x) := by
    intro j x
    rw [map_mul, eval_C, hg2]
  refine ⟨ref, l, s, h, hs, fun j => piola (V 0, V 1, V 2) (rtFun k fun l => b.coefficients.ent l j),
    fun j => C (1 / D) * g (rtDivPoly k fun l => b.coefficients.ent l j), ?_, ?_, ?_, ?_, ?_⟩
  · intro points
    obtain ⟨⟨X, Y, hX, -, -, -, -, eX⟩, M, hM, m1, m2, eM⟩ := rtSpace_values hO hs1 hb hb1 points
    refine ⟨X, Y, M, hX, hM, m1, m2, fun i x hx j hj => ⟨eX i x hx j hj, ?_⟩⟩
    rw [eM i x hx j hj, hev]
  · intro j x
    rw [hev]
    have ha := ev2_hasFDerivAt (rtField k fun l => b.coefficients.ent l j).1 (tri2FInv (V 0, V 1, V 2) x)
    have hb := ev2_hasFDerivAt (rtField k fun l => b.coefficients.ent l j).2 (tri2FInv (V 0, V 1, V 2) x)
    have := piola_divergence (w := rtFun k fun l => b.coefficients.ent l j) hd' ha hb
    convert this using 2
    simp [rtDivPoly, ev2]
  · intro j
    refine (totalDegree_mul _ _).trans ?_
    rw [totalDegree_C, zero_add]
    exact (hg1 _).trans (rtDivPoly_degree _)
  · intro j hj
    have h1 := piola_integral hd' (ev2 (rtDivPoly k fun l => b.coefficients.ent l j)) (fun _ => 1)
    simp only [mul_one] at h1
    simp only [hev]
    rw [← tri2Det_eq (V 0, V 1, V 2)]
    refine h1.trans ?_
    rw [rtDivPoly_integral dir]
    congr 1
    refine Finset.sum_congr rfl fun e he => ?_
    rw [Finset.mem_range] at he
    have h2 := (isRTDofs_dirs (fun e he => dirOf_eta dir he) (hb1.dual j hj)).edge e he 0 (Nat.zero_le _)
    rw [rtEdgeEnds, ← h2]
    rfl
  · intro q hq
    obtain ⟨q', hq1, hq2⟩ := poly2_pullback (V 0, V 1, V 2) q
    have hl : ∀ p, V 0 + tri2L (V 0, V 1, V 2) p = tri2F (V 0, V 1, V 2) p := fun p => (tri2F_tri2L (V 0, V 1, V 2) p).symm
    simp only [hl] at hq2
    obtain ⟨x, hx⟩ := rtDivPoly_onto (k := k) (C D * q') ((totalDegree_mul _ _).trans (by rw [totalDegree_C, zero_add]; exact hq1.trans hq))
    obtain ⟨c, hc⟩ := exists_rtDofs (k := k) dir (rtFun k x)
    have hrep := hb1.repro x c (isRTDofs_dirs (fun e he => (dirOf_eta dir he).symm) hc)
    rw [rtDivPoly_congr hrep, rtDivPoly_sum] at hx
    refine ⟨c, fun y => ?_⟩
    have h1 := congrArg (fun p => ev2 p (tri2FInv (V 0, V 1, V 2) y)) hx
    simp only [ev2, map_mul, map_sum, eval_C, hq2, tri2F_tri2FInv hd'] at h1
    have h2 : ∑ j ∈ Finset.range (rtNum k), c j * eval ![y.1, y.2] (C (1 / D) * g (rtDivPoly k fun l => b.coefficients.ent l j)) = 1 / D * (D * eval ![y.1, y.2] q) := by
      rw [← h1, Finset.mul_sum]
      refine Finset.sum_congr rfl fun j _ => ?_
      rw [hev]
      ring
    rw [h2, ← mul_assoc, one_div, inv_mul_cancel₀ hd', one_mul]

/-- Order 1 on a clockwise triangle. -/
example : ∃ (lu : Solver ℝ) (triangle : Nat → Rule (ℝ × ℝ) ℝ) (gauss : Nat → Rule ℝ ℝ) (ts ws : List ℝ), SolvesRegular lu ∧ (0 : ℝ) < Real.sqrt 2 ∧
    IsRTTables 1 triangle gauss ts ws ∧ shoelace (exTriangle 0) (exTriangle 1) (exTriangle 2) ≠ 0 := by
  obtain ⟨lu, h1, -⟩ := exists_solvers
  exact ⟨lu, _, _, _, _, h1, by positivity, rt_tables, by rw [exTriangle_det]; norm_num⟩

/-! ## C83: quadratures and pressures -/

/-- C83: the internal quadrature of the local space is exact on the triangle up to degree `2 (k + 1)`; the tables of values at the quadrature points are the
values computed at these points; the quadrature of edge `e` is exact in the arc-length parameter of the edge run through in the direction of the mesh, with the given length. -/
theorem C83_quadrature (hT : IsRTTables k triangle gauss ts ws) (hlu : SolvesRegular lu) (hr2 : 0 < r2) (V : Nat → ℝ × ℝ) (dir : Nat → Bool) (len : Nat → ℝ)
    (hd : shoelace (V 0) (V 1) (V 2) ≠ 0) :
    ∃ ref l s, rtCreate lu r2 triangle gauss k = .ok (ref, l) ∧ rtSpace ref l [V 0, V 1, V 2] [dir 0, dir 1, dir 2] [len 0, len 1, len 2] = .ok s ∧
      (∀ q : MvPolynomial (Fin 2) ℝ, q.totalDegree ≤ 2 * (k + 1) → quadSum s.internal.points s.internal.weights (fun x => eval ![x.1, x.2] q)
        = ∫ x in {x | InTriangle (V 0) (V 1) (V 2) x}, eval ![x.1, x.2] q) ∧
      rtVelocityInt l s = rtVelocityAt ref l s s.internal.points ∧
      rtDivergenceInt l s = rtDivergenceAt ref l s s.internal.points ∧
      .ok (rtPressureInt ref s) = rtPressureAt ref s s.internal.points ∧
      s.boundary.length = 3 ∧
      ∀ (e : Nat) (r : Rule (ℝ × ℝ) ℝ), s.boundary[e]? = some r → r.points.length = k + 1 ∧
        ∀ q : MvPolynomial (Fin 2) ℝ, q.totalDegree ≤ 2 * k + 1 → quadSum r.points r.weights (fun x => eval ![x.1, x.2] q)
          = |len e| * segInt (fun x => eval ![x.1, x.2] q) (polyEdge 3 V (dir e) e).1 (polyEdge 3 V (dir e) e).2 := by
  obtain ⟨ref, l, h, hO⟩ := rtOk_of hT hlu hr2
  obtain ⟨b, hb, hb1, hb2, hb3⟩ := hO.basis (dir 0, dir 1, dir 2)
  obtain ⟨s, hs, hs1⟩ := rtSpace_ok hT hO V dir len
  have hd' : tri2Det (V 0, V 1, V 2) ≠ 0 := by rw [tri2Det_eq]; exact hd
  have hpts : s.internal.points.map (tri2FInv s.map) = (triangle (2 * (k + 1))).points := by
    rw [hs1.internal, hs1.map, List.map_map]
    conv_rhs => rw [← List.map_id (triangle (2 * (k + 1))).points]
    exact List.map_congr_left fun p _ => tri2FInv_tri2F hd' p
  refine ⟨ref, l, s, h, hs, ?_, ?_, ?_, ?_, ?_, ?_⟩
  · intro q hq
    obtain ⟨r, hr, hr1⟩ := C68_polygon (2 * (k + 1)) _ hT.triangleLength hT.triangleExact [(V 0, V 1, V 2)] (List.pairwise_singleton _ _)
    have hr2 : r = s.internal := by
      rw [polygonQuad_eq _ _ hT.triangleLength] at hr
      injection hr with hr
      rw [hs1.internal, ← hr]
      simp
    rw [← hr2, hr1 q hq]
    simp
  · unfold rtVelocityInt rtVelocityAt
    rw [hs1.dirs, hb, except_ok_bind, except_ok_bind, hpts, hb2, except_ok_bind]
  · unfold rtDivergenceInt rtDivergenceAt
    rw [hs1.dirs, hb, except_ok_bind, except_ok_bind, hpts, hb3, except_ok_bind]
  · unfold rtPressureInt rtPressureAt rtPressure
    rw [hpts, hO.data.mono2D, hO.data.pressureEq, except_ok_bind]
  · rw [hs1.boundary]
    rfl
  · intro e r hr
    rw [hs1.boundary, List.getElem?_map] at hr
    have he : e < 3 := by
      by_contra hn
      rw [List.getElem?_eq_none (by simpa using hn)] at hr
      cases hr
    rw [List.getElem?_range he] at hr
    injection hr with hr
    subst hr
    refine ⟨by simp [hT.nodes], fun q hq => ?_⟩
    obtain ⟨r, hr, er⟩ := poly1_pullback (polyEdge 3 V (dir e) e).1 (polyEdge 3 V (dir e) e).2 q
    have h1 := hT.segmentExact r (hr.trans hq)
    dsimp only
    rw [quadSum_smul, quadSum_map]
    congr 1
    refine Eq.trans ?_ (h1.trans ?_)
    · exact quadSum_congr _ _ fun t _ => (er t).symm
    · unfold segInt
      simp only [er]

/-- Order 1 on a clockwise triangle. -/
example : ∃ (lu : Solver ℝ) (triangle : Nat → Rule (ℝ × ℝ) ℝ) (gauss : Nat → Rule ℝ ℝ) (ts ws : List ℝ), SolvesRegular lu ∧ (0 : ℝ) < Real.sqrt 2 ∧
    IsRTTables 1 triangle gauss ts ws ∧ shoelace (exTriangle 0) (exTriangle 1) (exTriangle 2) ≠ 0 := by
  obtain ⟨lu, h1, -⟩ := exists_solvers
  exact ⟨lu, _, _, _, _, h1, by positivity, rt_tables, by rw [exTriangle_det]; norm_num⟩

/-- C83: the pressure basis functions are polynomials of degree at most `k`, as many as the dimension, and every such polynomial is a combination of them. -/
theorem C83_pressure (hT : IsRTTables k triangle gauss ts ws) (hlu : SolvesRegular lu) (hr2 : 0 < r2) (V : Nat → ℝ × ℝ) (dir : Nat → Bool) (len : Nat → ℝ)
    (hd : shoelace (V 0) (V 1) (V 2) ≠ 0) :
    ∃ ref l s, rtCreate lu r2 triangle gauss k = .ok (ref, l) ∧ rtSpace ref l [V 0, V 1, V 2] [dir 0, dir 1, dir 2] [len 0, len 1, len 2] = .ok s ∧
      ∃ π : Nat → MvPolynomial (Fin 2) ℝ,
        (∀ points, ∃ M, rtPressureAt ref s points = .ok M ∧ M.rows = points.length ∧ M.cols = (k + 1) * (k + 2) / 2 ∧
          ∀ (i : Nat) (x : ℝ × ℝ), points[i]? = some x → ∀ j < (k + 1) * (k + 2) / 2, M.ent i j = eval ![x.1, x.2] (π j)) ∧
        (∀ j < (k + 1) * (k + 2) / 2, (π j).totalDegree ≤ k) ∧
        ∀ q : MvPolynomial (Fin 2) ℝ, q.totalDegree ≤ k → ∃ c : Nat → ℝ, ∀ x : ℝ × ℝ,
          eval ![x.1, x.2] q = ∑ j ∈ Finset.range ((k + 1) * (k + 2) / 2), c j * eval ![x.1, x.2] (π j) := by
  obtain ⟨ref, l, h, hO⟩ := rtOk_of hT hlu hr2
  obtain ⟨s, hs, hs1⟩ := rtSpace_ok hT hO V dir len
  have hd' : tri2Det (V 0, V 1, V 2) ≠ 0 := by rw [tri2Det_eq]; exact hd
  simp only [tri_div]
  have hpull := fun q => poly2_pullback (invTri (V 0, V 1, V 2)) q
  simp only [← tri2F_tri2L, tri2F_invTri] at hpull
  choose g hg1 hg2 using hpull
  refine ⟨ref, l, s, h, hs, fun j => g (rtPoly k j), ?_, ?_, ?_⟩
  · intro points
    obtain ⟨M, hM, hM1, -⟩ := vanderMat_ok k rtCenter rtScale (points.map (tri2FInv (V 0, V 1, V 2)))
    rw [num2_eq] at hM1
    refine ⟨M, ?_, hM1.rows.trans (List.length_map _), hM1.cols, fun i x hx j hj => ?_⟩
    · unfold rtPressureAt rtPressure rtMapPressure
      rw [hO.data.mono2D, hs1.map, hM, except_ok_bind]
    · rw [hM1.ent i (tri2FInv (V 0, V 1, V 2) x) (by rw [List.getElem?_map, hx]; rfl) j hj, hg2]
  · intro j hj
    exact (hg1 _).trans (basisPoly_degree k rtCenter rtScale (by rw [num2_eq]; exact hj) hj)
  · intro q hq
    obtain ⟨q', hq1, hq2⟩ := poly2_pullback (V 0, V 1, V 2) q
    have hl : ∀ p, V 0 + tri2L (V 0, V 1, V 2) p = tri2F (V 0, V 1, V 2) p := fun p => (tri2F_tri2L (V 0, V 1, V 2) p).symm
    simp only [hl] at hq2
    obtain ⟨c, hc⟩ := basisPoly_span k rtCenter rtScale one_ne le_rfl q' (hq1.trans hq)
    refine ⟨c, fun x => ?_⟩
    have h1 := hq2 (tri2FInv (V 0, V 1, V 2) x)
    rw [tri2F_tri2FInv hd', hc] at h1
    rw [← h1]
    simp only [map_sum, map_mul, eval_C, hg2]

/-- Order 1 on a clockwise triangle. -/
example : ∃ (lu : Solver ℝ) (triangle : Nat → Rule (ℝ × ℝ) ℝ) (gauss : Nat → Rule ℝ ℝ) (ts ws : List ℝ), SolvesRegular lu ∧ (0 : ℝ) < Real.sqrt 2 ∧
    IsRTTables 1 triangle gauss ts ws ∧ shoelace (exTriangle 0) (exTriangle 1) (exTriangle 2) ≠ 0 := by
  obtain ⟨lu, h1, -⟩ := exists_solvers
  exact ⟨lu, _, _, _, _, h1, by positivity, rt_tables, by rw [exTriangle_det]; norm_num⟩

end

end PolyDiM
