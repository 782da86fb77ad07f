import Verif.Model.NonlinearPcc2D
import Verif.Spec.NonlinearPcc2D
import Verif.Props.AssemblerPcc2D
import Verif.Lemmas.BrinkmanLocal
import Mathlib.Analysis.Calculus.FDeriv.Prod
import Mathlib.Analysis.Calculus.FDeriv.Comp
import Mathlib.Analysis.Calculus.Deriv.Comp
import Mathlib.Analysis.Calculus.Deriv.Prod
import Mathlib.Analysis.Calculus.Deriv.Add
import Mathlib.Analysis.Calculus.Deriv.Mul

/-!
# Operators whose coefficients depend on a discrete function (C167)
-/

namespace PolyDiM

open Finset Spec

section
variable {K : Type} [Field K] [LinearOrder K]
  {trial test : Space2D K} {Q n m : Nat} {x : Nat → K × K} {w : Nat → K} {S T : Nat → Nat → K} {SD TD : Nat → Nat → Nat → K}

omit [LinearOrder K] in
theorem timesDofs_ok (B : Nat → Nat → K) (u : Nat → K) : timesDofs ⟨Q, m, B⟩ (vecOf m u) = .ok (vecOf Q (discrete m B u)) := by
  unfold timesDofs
  rw [DMat.mul_ok _ _ (by rw [show (DMat.col (vecOf m u)).rows = m from vecOf_length m u]), except_ok_bind]
  congr 1
  unfold vecOf
  refine List.map_congr_left fun q _ => ?_
  unfold discrete
  dsimp only
  refine sum_congr rfl fun j hj => ?_
  show B q j * (vecOf m u).getD j 0 = u j * B q j
  rw [vecOf_getD _ (mem_range.1 hj), mul_comm]

omit [LinearOrder K] in
theorem solutionOnQuadrature_ok (u : Nat → K) :
    solutionOnQuadrature ⟨Q, m, S⟩ [⟨Q, m, SD 0⟩, ⟨Q, m, SD 1⟩] (vecOf m u)
      = .ok (vecOf Q (discrete m S u), vecOf Q (discrete m (SD 0) u), vecOf Q (discrete m (SD 1) u)) := by
  unfold solutionOnQuadrature
  rw [timesDofs_ok, except_ok_bind, show atIdx [(⟨Q, m, SD 0⟩ : DMat K), ⟨Q, m, SD 1⟩] 0 = .ok ⟨Q, m, SD 0⟩ from rfl, except_ok_bind, timesDofs_ok, except_ok_bind,
    show atIdx [(⟨Q, m, SD 0⟩ : DMat K), ⟨Q, m, SD 1⟩] 1 = .ok ⟨Q, m, SD 1⟩ from rfl, except_ok_bind, timesDofs_ok, except_ok_bind]

omit [LinearOrder K] in
theorem planeGradient_eq (u : Nat → K) (q : Nat) : planeGradient (discrete m (SD 0) u q) (discrete m (SD 1) u q) = discreteGradient m SD u q := by
  funext d
  unfold planeGradient discreteGradient
  rcases d with - | - | d
  · rfl
  · rfl
  · rw [if_neg (by omega), if_neg (by omega), if_neg (by omega)]

omit [LinearOrder K] in
theorem callOfSolution_ok {α : Type} (u : Nat → K) (f : OfSolution K α) {q : Nat} (hq : q < Q) :
    callOfSolution (vecOf Q x) (vecOf Q (discrete m S u), vecOf Q (discrete m (SD 0) u), vecOf Q (discrete m (SD 1) u)) f q
      = .ok (f (x q) (discrete m S u q) (discreteGradient m SD u q)) := by
  unfold callOfSolution
  simp only [unchecked_vecOf _ hq, except_ok_bind, planeGradient_eq]

omit [LinearOrder K] in
theorem evalOfSolution_ok (u : Nat → K) (f : OfSolution K K) :
    evalOfSolution (vecOf Q x) (vecOf Q (discrete m S u), vecOf Q (discrete m (SD 0) u), vecOf Q (discrete m (SD 1) u)) f
      = .ok (vecOf Q fun q => f (x q) (discrete m S u q) (discreteGradient m SD u q)) := by
  unfold evalOfSolution
  rw [vecOf_length]
  exact mapM_ok _ _ _ fun q hq => callOfSolution_ok u f (List.mem_range.1 hq)

omit [LinearOrder K] in
theorem evalComponentsOfSolution_ok (u : Nat → K) (f : OfSolution K (Nat → K)) :
    evalComponentsOfSolution (vecOf Q x) (vecOf Q (discrete m S u), vecOf Q (discrete m (SD 0) u), vecOf Q (discrete m (SD 1) u)) f
      = .ok (vecOf 3 fun d => vecOf Q fun q => f (x q) (discrete m S u q) (discreteGradient m SD u q) d) := by
  unfold evalComponentsOfSolution
  rw [vecOf_length]
  have h := mapM_ok (callOfSolution (vecOf Q x) (vecOf Q (discrete m S u), vecOf Q (discrete m (SD 0) u), vecOf Q (discrete m (SD 1) u)) f)
    (fun q => f (x q) (discrete m S u q) (discreteGradient m SD u q)) (List.range Q) fun q hq => callOfSolution_ok u f (List.mem_range.1 hq)
  rw [h, except_ok_bind]
  congr 1
  unfold vecOf
  simp only [List.map_map, Function.comp_def]

omit [LinearOrder K] in
/-- C167, the source: the entries are the quadrature of the source, called with the value and the gradient of the discrete function, times the test function. -/
theorem C167_source (hD : Tabulated trial test Q n m x w S T SD TD) (u : Nat → K) (f : OfSolution K K) :
    ∃ b, localSourceOfSolution trial test ((List.range m).map u) f = .ok b ∧ b.rows = n ∧ b.cols = 1 ∧
      ∀ i, b.ent i 0 = ∑ q ∈ range Q, w q * (f (x q) (discrete m S u q) (discreteGradient m SD u q) * T q i) := by
  obtain ⟨b, hb, hr, hc, he, -⟩ := C53_forcing Q n w (fun q => f (x q) (discrete m S u q) (discreteGradient m SD u q)) T
  refine ⟨b, ?_, hr, hc, he⟩
  unfold localSourceOfSolution
  have hs := solutionOnQuadrature_ok (Q := Q) (S := S) (SD := SD) (m := m) u
  have hv := evalOfSolution_ok (Q := Q) (S := S) (SD := SD) (m := m) (x := x) u f
  unfold vecOf at hs hv
  rw [hD.trialValues, except_ok_bind, hD.trialDers, except_ok_bind, hD.testValues, except_ok_bind, hs, except_ok_bind, hD.points, hv, except_ok_bind, hD.weights]
  exact hb

omit [LinearOrder K] in
/-- C167, the source tested with gradients: the first two components of the vector are multiplied with the derivatives of the test function. -/
theorem C167_gradients (hD : Tabulated trial test Q n m x w S T SD TD) (u : Nat → K) (f : OfSolution K (Nat → K)) :
    ∃ b, localGradientSource trial test ((List.range m).map u) f = .ok b ∧ b.rows = n ∧ b.cols = 1 ∧
      ∀ i, b.ent i 0 = ∑ q ∈ range Q, w q * ∑ d ∈ range 2, f (x q) (discrete m S u q) (discreteGradient m SD u q) d * TD d q i := by
  obtain ⟨b, hb, hr, hc, he, -⟩ := C53_forcing_vector Q n 2 (by decide) (by decide) w (fun d q => f (x q) (discrete m S u q) (discreteGradient m SD u q) d) TD
  refine ⟨b, ?_, hr, hc, he⟩
  unfold localGradientSource
  have hs := solutionOnQuadrature_ok (Q := Q) (S := S) (SD := SD) (m := m) u
  have hv := evalComponentsOfSolution_ok (Q := Q) (S := S) (SD := SD) (m := m) (x := x) u f
  unfold vecOf at hs hv
  rw [hD.trialValues, except_ok_bind, hD.trialDers, except_ok_bind, hD.testDers, except_ok_bind, hs, except_ok_bind, hD.points, hv, except_ok_bind, hD.weights,
    pair_vecOf fun d => (⟨Q, n, TD d⟩ : DMat K)]
  exact hb

theorem localDiffusionOfSolution_ok [IsStrictOrderedRing K] (hD : Tabulated trial test Q n m x w S T SD TD) (hQ : 0 < Q) (σ : Nat → Nat → K)
    (hσ : n = m → test.stab .piNabla = .ok ⟨n, n, σ⟩) (κ : Nat → K) (A : Nat → Nat → K) :
    ∃ k, IsGreatest {y | ∃ q < Q, y = |κ q|} k ∧
      localDiffusionOfSolution trial test [⟨Q, m, SD 0⟩, ⟨Q, m, SD 1⟩] [⟨Q, n, TD 0⟩, ⟨Q, n, TD 1⟩] (vecOf Q κ) ⟨n, m, A⟩
        = .ok ⟨n, m, fun i j => A i j + (∑ q ∈ range Q, w q * (κ q * ∑ d ∈ range 2, TD d q i * SD d q j)) + if n = m then k * σ i j else 0⟩ := by
  obtain ⟨k, hk, h1, y, hy, h2⟩ := maxAbs_ok (v := vecOf Q κ) (by rw [Ne, ← List.length_eq_zero_iff, vecOf_length]; omega)
  refine ⟨k, ⟨?_, ?_⟩, ?_⟩
  · obtain ⟨q, hq, rfl⟩ := List.mem_map.1 hy
    exact ⟨q, List.mem_range.1 hq, h2⟩
  · rintro y ⟨q, hq, rfl⟩
    exact h1 _ (List.mem_map.2 ⟨q, List.mem_range.2 hq, rfl⟩)
  obtain ⟨B, hB, hr, hc, he, -⟩ := C53_diffusion Q n m 2 (by decide) w κ TD SD
  obtain ⟨r, c, B⟩ := B
  obtain rfl : r = n := hr
  obtain rfl : c = m := hc
  have he' : ∀ i j, B i j = ∑ q ∈ range Q, w q * (κ q * ∑ d ∈ range 2, TD d q i * SD d q j) := he
  unfold localDiffusionOfSolution
  rw [hD.weights, pair_vecOf fun d => (⟨Q, c, SD d⟩ : DMat K), pair_vecOf fun d => (⟨Q, r, TD d⟩ : DMat K)]
  unfold vecOf at hk ⊢
  rw [hB, except_ok_bind, DMat.add_ok _ _ (by rfl) (by rfl), except_ok_bind, hD.testSize, hD.trialSize]
  by_cases h : r = c
  · rw [if_pos h, hk, except_ok_bind, hσ h, except_ok_bind, DMat.add_ok _ _ (by rfl) (by exact h.symm)]
    simp only [h, if_true, DMat.smul, he']
  · rw [if_neg h]
    simp only [h, if_false, he', add_zero]

/-- C167, the matrix: diffusion, advection and reaction with the coefficients called with the value and the gradient of the discrete function; for spaces of one
size and a given diffusion the stabilization of the test space, times the largest absolute value of the diffusion at a quadrature point. -/
theorem C167_operator [IsStrictOrderedRing K] (hD : Tabulated trial test Q n m x w S T SD TD) (σ : Nat → Nat → K) (u : Nat → K) (κ : Option (OfSolution K K))
    (β : Option (OfSolution K (Nat → K))) (γ : Option (OfSolution K K)) (hQ : κ ≠ none → 0 < Q) (hσ : κ ≠ none → n = m → test.stab .piNabla = .ok ⟨n, n, σ⟩) :
    ∃ A k, localEllipticOfSolution trial test ((List.range m).map u) κ β γ = .ok A ∧ A.rows = n ∧ A.cols = m ∧
      (∀ f, κ = some f → IsGreatest {y | ∃ q < Q, y = |f (x q) (discrete m S u q) (discreteGradient m SD u q)|} k) ∧
      ∀ i j, A.ent i j
        = (κ.elim 0 fun f => ∑ q ∈ range Q, w q * (f (x q) (discrete m S u q) (discreteGradient m SD u q) * ∑ d ∈ range 2, TD d q i * SD d q j))
          + (κ.elim 0 fun _ => if n = m then k * σ i j else 0)
          + (β.elim 0 fun f => ∑ q ∈ range Q, w q * ∑ d ∈ range 2, f (x q) (discrete m S u q) (discreteGradient m SD u q) d * (T q i * SD d q j))
          + γ.elim 0 fun f => ∑ q ∈ range Q, w q * (f (x q) (discrete m S u q) (discreteGradient m SD u q) * (T q i * S q j)) := by
  have hs := solutionOnQuadrature_ok (Q := Q) (S := S) (SD := SD) (m := m) u
  have hp : trial.internal.points = vecOf Q x := hD.points
  have start : localEllipticOfSolution trial test (vecOf m u) κ β γ = (do
      let A ← onTerm κ (fun f A => localDiffusionOfSolution trial test [⟨Q, m, SD 0⟩, ⟨Q, m, SD 1⟩] [⟨Q, n, TD 0⟩, ⟨Q, n, TD 1⟩]
        (vecOf Q fun q => f (x q) (discrete m S u q) (discreteGradient m SD u q)) A) (.zero n m)
      let A ← onTerm β (fun f A => localAdvection trial ⟨Q, n, T⟩ [⟨Q, m, SD 0⟩, ⟨Q, m, SD 1⟩]
        (vecOf 3 fun d => vecOf Q fun q => f (x q) (discrete m S u q) (discreteGradient m SD u q) d) A) A
      onTerm γ (fun f A => localReaction trial ⟨Q, n, T⟩ ⟨Q, m, S⟩ (vecOf Q fun q => f (x q) (discrete m S u q) (discreteGradient m SD u q)) A) A) := by
    unfold localEllipticOfSolution
    rw [hD.trialValues, except_ok_bind, hD.trialDers, except_ok_bind, hD.testValues, except_ok_bind, hD.testDers, except_ok_bind, hs, except_ok_bind, hD.testSize, hD.trialSize]
    simp only [hp, evalOfSolution_ok, evalComponentsOfSolution_ok, except_ok_bind]
  have h1 : ∃ k, (∀ f, κ = some f → IsGreatest {y | ∃ q < Q, y = |f (x q) (discrete m S u q) (discreteGradient m SD u q)|} k) ∧
      onTerm κ (fun f A => localDiffusionOfSolution trial test [⟨Q, m, SD 0⟩, ⟨Q, m, SD 1⟩] [⟨Q, n, TD 0⟩, ⟨Q, n, TD 1⟩]
        (vecOf Q fun q => f (x q) (discrete m S u q) (discreteGradient m SD u q)) A) (.zero n m)
        = .ok ⟨n, m, fun i j => (κ.elim 0 fun f => ∑ q ∈ range Q, w q * (f (x q) (discrete m S u q) (discreteGradient m SD u q) * ∑ d ∈ range 2, TD d q i * SD d q j))
          + κ.elim 0 fun _ => if n = m then k * σ i j else 0⟩ := by
    cases κ with
    | none =>
      refine ⟨0, by simp, ?_⟩
      simp only [onTerm, Option.elim, add_zero, DMat.zero]
    | some f =>
      obtain ⟨k, hk, e⟩ := localDiffusionOfSolution_ok hD (hQ (by simp)) σ (hσ (by simp)) (fun q => f (x q) (discrete m S u q) (discreteGradient m SD u q)) fun _ _ => 0
      refine ⟨k, fun g hg => by rw [← Option.some.inj hg]; exact hk, ?_⟩
      simp only [onTerm, Option.elim, DMat.zero, e, zero_add]
  obtain ⟨k, hk, h1⟩ := h1
  have h2 : ∀ A : Nat → Nat → K, onTerm β (fun f A => localAdvection trial ⟨Q, n, T⟩ [⟨Q, m, SD 0⟩, ⟨Q, m, SD 1⟩]
        (vecOf 3 fun d => vecOf Q fun q => f (x q) (discrete m S u q) (discreteGradient m SD u q) d) A) ⟨n, m, A⟩
      = .ok ⟨n, m, fun i j => A i j + β.elim 0 fun f => ∑ q ∈ range Q, w q * ∑ d ∈ range 2, f (x q) (discrete m S u q) (discreteGradient m SD u q) d * (T q i * SD d q j)⟩ := by
    intro A
    cases β with
    | none => simp only [onTerm, Option.elim, add_zero]
    | some f =>
      obtain ⟨B, hB, hr, hc, he, -⟩ := C53_advection Q n m 2 (by decide) (by decide) w (fun d q => f (x q) (discrete m S u q) (discreteGradient m SD u q) d) T SD
      obtain ⟨r, c, B⟩ := B
      obtain rfl : r = n := hr
      obtain rfl : c = m := hc
      simp only [onTerm, Option.elim]
      unfold localAdvection
      rw [hD.weights, pair_vecOf fun d => (⟨Q, c, SD d⟩ : DMat K)]
      unfold vecOf
      rw [hB, except_ok_bind, DMat.add_ok _ _ (by rfl) (by rfl)]
      congr 2
      funext i j
      exact congrArg _ (he i j)
  have h3 : ∀ A : Nat → Nat → K, onTerm γ (fun f A => localReaction trial ⟨Q, n, T⟩ ⟨Q, m, S⟩ (vecOf Q fun q => f (x q) (discrete m S u q) (discreteGradient m SD u q)) A) ⟨n, m, A⟩
      = .ok ⟨n, m, fun i j => A i j + γ.elim 0 fun f => ∑ q ∈ range Q, w q * (f (x q) (discrete m S u q) (discreteGradient m SD u q) * (T q i * S q j))⟩ := by
    intro A
    cases γ with
    | none => simp only [onTerm, Option.elim, add_zero]
    | some f =>
      obtain ⟨B, hB, hr, hc, he, -⟩ := C53_reaction Q n m w (fun q => f (x q) (discrete m S u q) (discreteGradient m SD u q)) T S
      obtain ⟨r, c, B⟩ := B
      obtain rfl : r = n := hr
      obtain rfl : c = m := hc
      simp only [onTerm, Option.elim]
      unfold localReaction
      rw [hD.weights]
      unfold vecOf
      rw [hB, except_ok_bind, DMat.add_ok _ _ (by rfl) (by rfl)]
      congr 2
      funext i j
      exact congrArg _ (he i j)
  have start' : localEllipticOfSolution trial test ((List.range m).map u) κ β γ = _ := start
  exact ⟨_, k, by rw [start', h1, except_ok_bind, h2, except_ok_bind, h3], rfl, rfl, hk, fun i j => rfl⟩

/-- C167, the matrix applied to the discrete function itself: it is the source `κ ∇u` tested with gradients plus the source `β · ∇u + γ u`, plus the
stabilization of the discrete function. -/
theorem C167_apply [IsStrictOrderedRing K] (hD : Tabulated trial test Q n m x w S T SD TD) (hQ : 0 < Q) (σ : Nat → Nat → K)
    (hσ : n = m → test.stab .piNabla = .ok ⟨n, n, σ⟩) (u : Nat → K) (κ γ : OfSolution K K) (β : OfSolution K (Nat → K)) :
    ∃ A g b k, localEllipticOfSolution trial test ((List.range m).map u) (some κ) (some β) (some γ) = .ok A ∧
      localGradientSource trial test ((List.range m).map u) (fun p a v d => κ p a v * v d) = .ok g ∧
      localSourceOfSolution trial test ((List.range m).map u) (fun p a v => β p a v 0 * v 0 + β p a v 1 * v 1 + γ p a v * a) = .ok b ∧
      IsGreatest {y | ∃ q < Q, y = |κ (x q) (discrete m S u q) (discreteGradient m SD u q)|} k ∧
      ∀ i, ∑ j ∈ range m, A.ent i j * u j = g.ent i 0 + b.ent i 0 + if n = m then k * ∑ j ∈ range m, σ i j * u j else 0 := by
  obtain ⟨A, k, hA, -, -, hk, he⟩ := C167_operator hD σ u (some κ) (some β) (some γ) (fun _ => hQ) (fun _ => hσ)
  obtain ⟨g, hg, -, -, hge⟩ := C167_gradients hD u (fun p a v d => κ p a v * v d)
  obtain ⟨b, hb, -, -, hbe⟩ := C167_source hD u (fun p a v => β p a v 0 * v 0 + β p a v 1 * v 1 + γ p a v * a)
  refine ⟨A, g, b, k, hA, hg, hb, hk _ rfl, fun i => ?_⟩
  rw [hge, hbe]
  simp only [he, Option.elim, add_mul, sum_add_distrib]
  have push : ∀ F : Nat → Nat → K, ∑ j ∈ range m, (∑ q ∈ range Q, F q j) * u j = ∑ q ∈ range Q, ∑ j ∈ range m, F q j * u j := by
    intro F
    simp only [sum_mul]
    exact sum_comm
  have e1 : ∑ j ∈ range m, (∑ q ∈ range Q, w q * (κ (x q) (discrete m S u q) (discreteGradient m SD u q) * ∑ d ∈ range 2, TD d q i * SD d q j)) * u j
      = ∑ q ∈ range Q, w q * ∑ d ∈ range 2, κ (x q) (discrete m S u q) (discreteGradient m SD u q) * discreteGradient m SD u q d * TD d q i := by
    rw [push]
    refine sum_congr rfl fun q _ => ?_
    generalize κ (x q) (discrete m S u q) (discreteGradient m SD u q) = c
    have hd : ∀ d ∈ range 2, c * discreteGradient m SD u q d * TD d q i = ∑ j ∈ range m, c * (TD d q i * SD d q j) * u j := by
      intro d hd
      rw [discreteGradient, if_pos (mem_range.1 hd), discrete, mul_sum, sum_mul]
      exact sum_congr rfl fun j _ => by ring
    rw [sum_congr rfl hd, sum_comm, mul_sum]
    exact sum_congr rfl fun j _ => by rw [mul_sum, mul_assoc, sum_mul]
  have e2 : ∑ j ∈ range m, (∑ q ∈ range Q, w q * ∑ d ∈ range 2, β (x q) (discrete m S u q) (discreteGradient m SD u q) d * (T q i * SD d q j)) * u j
      = ∑ q ∈ range Q, w q * ((β (x q) (discrete m S u q) (discreteGradient m SD u q) 0 * discreteGradient m SD u q 0
        + β (x q) (discrete m S u q) (discreteGradient m SD u q) 1 * discreteGradient m SD u q 1) * T q i) := by
    rw [push]
    refine sum_congr rfl fun q _ => ?_
    generalize β (x q) (discrete m S u q) (discreteGradient m SD u q) = c
    simp only [discreteGradient, show (0 : Nat) < 2 by decide, show (1 : Nat) < 2 by decide, if_true, discrete, sum_range_succ, sum_range_zero, zero_add]
    rw [mul_sum, mul_sum, ← sum_add_distrib, sum_mul, mul_sum]
    exact sum_congr rfl fun j _ => by ring
  have e3 : ∑ j ∈ range m, (∑ q ∈ range Q, w q * (γ (x q) (discrete m S u q) (discreteGradient m SD u q) * (T q i * S q j))) * u j
      = ∑ q ∈ range Q, w q * (γ (x q) (discrete m S u q) (discreteGradient m SD u q) * discrete m S u q * T q i) := by
    rw [push]
    refine sum_congr rfl fun q _ => ?_
    generalize γ (x q) (discrete m S u q) (discreteGradient m SD u q) = c
    rw [discrete, mul_sum, sum_mul, mul_sum]
    exact sum_congr rfl fun j _ => by ring
  have e4 : ∑ j ∈ range m, (if n = m then k * σ i j else 0) * u j = if n = m then k * ∑ j ∈ range m, σ i j * u j else 0 := by
    split_ifs
    · rw [mul_sum]
      exact sum_congr rfl fun j _ => by ring
    · simp
  rw [e1, e2, e3, e4]
  have e5 : ∑ q ∈ range Q, w q * ((β (x q) (discrete m S u q) (discreteGradient m SD u q) 0 * discreteGradient m SD u q 0
        + β (x q) (discrete m S u q) (discreteGradient m SD u q) 1 * discreteGradient m SD u q 1) * T q i)
      + ∑ q ∈ range Q, w q * (γ (x q) (discrete m S u q) (discreteGradient m SD u q) * discrete m S u q * T q i)
      = ∑ q ∈ range Q, w q * (β (x q) (discrete m S u q) (discreteGradient m SD u q) 0 * discreteGradient m SD u q 0 * T q i
        + β (x q) (discrete m S u q) (discreteGradient m SD u q) 1 * discreteGradient m SD u q 1 * T q i
        + γ (x q) (discrete m S u q) (discreteGradient m SD u q) * discrete m S u q * T q i) := by
    rw [← sum_add_distrib]
    exact sum_congr rfl fun q _ => by ring
  rw [← e5]
  ring
end

section
variable {trial test : Space2D ℝ} {Q n m : Nat} {x : Nat → ℝ × ℝ} {w : Nat → ℝ} {S T : Nat → Nat → ℝ} {SD TD : Nat → Nat → Nat → ℝ}

theorem discrete_line (B : Nat → Nat → ℝ) (u v : Nat → ℝ) (t : ℝ) (q : Nat) : discrete m B (fun j => u j + t * v j) q = discrete m B u q + t * discrete m B v q := by
  simp only [discrete, mul_sum, ← sum_add_distrib]
  exact sum_congr rfl fun j _ => by ring

/-- C167, the matrix of Newton's method: if the source is differentiable in the value and the two components of the gradient, the derivative of the right-hand side
in direction `v` is the matrix with the partial derivatives as reaction and advection, applied to `v`. -/
theorem C167_newton (hD : Tabulated trial test Q n m x w S T SD TD) (u v : Nat → ℝ) (F : ℝ × ℝ → ℝ × ℝ × ℝ → ℝ) (F' : ℝ × ℝ → ℝ × ℝ × ℝ → ℝ × ℝ × ℝ →L[ℝ] ℝ)
    (hF : ∀ p z, HasFDerivAt (F p) (F' p z) z) :
    ∃ A, localEllipticOfSolution trial test ((List.range m).map u) none (some fun p a g d => F' p (a, g 0, g 1) (0, if d = 0 then 1 else 0, if d = 1 then 1 else 0))
        (some fun p a g => F' p (a, g 0, g 1) (1, 0, 0)) = .ok A ∧
      ∃ b : ℝ → DMat ℝ, (∀ t, localSourceOfSolution trial test ((List.range m).map fun j => u j + t * v j) (fun p a g => F p (a, g 0, g 1)) = .ok (b t)) ∧
        ∀ i, HasDerivAt (fun t => (b t).ent i 0) (∑ j ∈ range m, A.ent i j * v j) 0 := by
  obtain ⟨A, k, hA, -, -, -, he⟩ := C167_operator hD (fun _ _ => 0) u none
    (some fun p a g d => F' p (a, g 0, g 1) (0, if d = 0 then 1 else 0, if d = 1 then 1 else 0)) (some fun p a g => F' p (a, g 0, g 1) (1, 0, 0))
    (fun h => absurd rfl h) (fun h => absurd rfl h)
  choose b hb _ _ hbe using fun t : ℝ => C167_source hD (fun j => u j + t * v j) (fun p a g => F p (a, g 0, g 1))
  refine ⟨A, hA, b, hb, fun i => ?_⟩
  have hz : ∀ q, HasDerivAt (fun t : ℝ => (discrete m S u q + t * discrete m S v q, discrete m (SD 0) u q + t * discrete m (SD 0) v q,
      discrete m (SD 1) u q + t * discrete m (SD 1) v q)) (discrete m S v q, discrete m (SD 0) v q, discrete m (SD 1) v q) 0 := by
    have one : ∀ a c : ℝ, HasDerivAt (fun t : ℝ => a + t * c) c 0 := fun a c => by simpa using ((hasDerivAt_id (0 : ℝ)).mul_const c).const_add a
    exact fun q => (one _ _).prodMk ((one _ _).prodMk (one _ _))
  have hq : ∀ q, HasDerivAt (fun t : ℝ => w q * (F (x q) (discrete m S u q + t * discrete m S v q, discrete m (SD 0) u q + t * discrete m (SD 0) v q,
      discrete m (SD 1) u q + t * discrete m (SD 1) v q) * T q i))
      (w q * (F' (x q) (discrete m S u q, discrete m (SD 0) u q, discrete m (SD 1) u q) (discrete m S v q, discrete m (SD 0) v q, discrete m (SD 1) v q) * T q i)) 0 := by
    intro q
    refine HasDerivAt.const_mul _ (HasDerivAt.mul_const ?_ _)
    have h := hF (x q) (discrete m S u q, discrete m (SD 0) u q, discrete m (SD 1) u q)
    refine HasFDerivAt.comp_hasDerivAt (0 : ℝ) ?_ (hz q)
    simpa using h
  have hs := HasDerivAt.fun_sum (u := range Q) fun q _ => hq q
  have hfun : (fun t => (b t).ent i 0) = fun t : ℝ => ∑ q ∈ range Q, w q * (F (x q) (discrete m S u q + t * discrete m S v q,
      discrete m (SD 0) u q + t * discrete m (SD 0) v q, discrete m (SD 1) u q + t * discrete m (SD 1) v q) * T q i) := by
    funext t
    rw [hbe]
    simp only [discrete_line, discreteGradient, show (0 : Nat) < 2 by decide, show (1 : Nat) < 2 by decide, if_true]
  rw [hfun]
  have hval : ∑ j ∈ range m, A.ent i j * v j = ∑ q ∈ range Q, w q * (F' (x q) (discrete m S u q, discrete m (SD 0) u q, discrete m (SD 1) u q)
      (discrete m S v q, discrete m (SD 0) v q, discrete m (SD 1) v q) * T q i) := by
    simp only [he, Option.elim, add_zero, zero_add, add_mul, sum_add_distrib]
    have push : ∀ G : Nat → Nat → ℝ, ∑ j ∈ range m, (∑ q ∈ range Q, G q j) * v j = ∑ q ∈ range Q, ∑ j ∈ range m, G q j * v j := by
      intro G
      simp only [sum_mul]
      exact sum_comm
    rw [push, push, ← sum_add_distrib]
    refine sum_congr rfl fun q _ => ?_
    simp only [discreteGradient, show (0 : Nat) < 2 by decide, show (1 : Nat) < 2 by decide, if_true, sum_range_succ, sum_range_zero, zero_add, one_ne_zero, if_false,
      show (0 : Nat) ≠ 1 by decide]
    generalize F' (x q) (discrete m S u q, discrete m (SD 0) u q, discrete m (SD 1) u q) = L
    have hL : ∀ a c e : ℝ, L (a, c, e) = a * L (1, 0, 0) + c * L (0, 1, 0) + e * L (0, 0, 1) := by
      intro a c e
      rw [← smul_eq_mul, ← smul_eq_mul, ← smul_eq_mul, ← map_smul, ← map_smul, ← map_smul, ← map_add, ← map_add]
      simp
    rw [hL (discrete m S v q)]
    simp only [discrete, add_mul, mul_add, sum_mul, mul_sum, ← sum_add_distrib]
    exact sum_congr rfl fun j _ => by ring
  rw [hval]
  exact hs
end

section
variable {K : Type} [Field K] [LinearOrder K]

omit [LinearOrder K] in
theorem cellOnQuadrature_ok {c : Sampled K} (hc : c.Ok) (exact : K × K → K) (gradient : K × K → Nat → K) :
    cellOnQuadrature c.space (vecOf c.m c.u) (some exact) (some gradient) = .ok ⟨vecOf c.Q c.x, vecOf c.Q c.w, vecOf c.Q (discrete c.m c.V c.u), vecOf c.Q fun q => exact (c.x q),
      vecOf 3 fun d => vecOf c.Q fun q => discreteGradient c.m c.D c.u q d, vecOf 3 fun d => vecOf c.Q fun q => gradient (c.x q) d⟩ := by
  have hp : c.space.internal.points = vecOf c.Q c.x := hc.points
  have hw : c.space.internal.weights = vecOf c.Q c.w := hc.weights
  unfold cellOnQuadrature
  rw [hc.values, except_ok_bind, hc.ders, except_ok_bind, timesDofs_ok, except_ok_bind,
    show atIdx [(⟨c.Q, c.m, c.D 0⟩ : DMat K), ⟨c.Q, c.m, c.D 1⟩] 0 = .ok ⟨c.Q, c.m, c.D 0⟩ from rfl, except_ok_bind, timesDofs_ok, except_ok_bind,
    show atIdx [(⟨c.Q, c.m, c.D 0⟩ : DMat K), ⟨c.Q, c.m, c.D 1⟩] 1 = .ok ⟨c.Q, c.m, c.D 1⟩ from rfl, except_ok_bind, timesDofs_ok, except_ok_bind]
  simp only [exactScalar, exactComponents, hp, hw, eval_vecOf, evalScalar_vecOf, vecOf_length]
  congr 2
  show _ = [_, _, _]
  simp only [discreteGradient, show (0 : Nat) < 2 by decide, show (1 : Nat) < 2 by decide, if_true, show ¬(2 : Nat) < 2 by decide, if_false]
  congr 3
  unfold vecOf
  rw [List.map_const', List.length_range]

omit [Field K] [LinearOrder K] in
theorem segments_ok {Q : Nat} (f : Nat → Nat → K) : ((List.range 3).mapM fun d => do
      let l ← atIdx (vecOf 3 fun d => vecOf Q (f d)) d
      writeSegment Q l) = .ok [vecOf Q (f 0), vecOf Q (f 1), vecOf Q (f 2)] := by
  refine mapM_ok _ (fun d => vecOf Q (f d)) _ fun d hd => ?_
  rw [atIdx_vecOf _ (List.mem_range.1 hd), except_ok_bind]
  exact if_pos (vecOf_length _ _)

omit [LinearOrder K] in
theorem join_ok (cells : List (Sampled K)) (a b : Sampled K → Nat → K) (g h : Nat → Sampled K → Nat → K) :
    joinOnQuadrature (cells.map fun c => ⟨vecOf c.Q c.x, vecOf c.Q c.w, vecOf c.Q (a c), vecOf c.Q (b c), vecOf 3 fun d => vecOf c.Q (g d c), vecOf 3 fun d => vecOf c.Q (h d c)⟩)
      = .ok ⟨cellByCell cells Sampled.x, cellByCell cells Sampled.w, cellByCell cells a, cellByCell cells b, [cellByCell cells (g 0), cellByCell cells (g 1), cellByCell cells (g 2)],
        [cellByCell cells (h 0), cellByCell cells (h 1), cellByCell cells (h 2)]⟩ := by
  induction cells with
  | nil => rfl
  | cons c cells ih =>
    rw [List.map_cons]
    unfold joinOnQuadrature
    have hw : ∀ f : Nat → K, writeSegment (vecOf c.Q c.x).length (vecOf c.Q f) = .ok (vecOf c.Q f) := fun f => if_pos (by rw [vecOf_length, vecOf_length])
    have hg := segments_ok (Q := c.Q) fun d => g d c
    have hh := segments_ok (Q := c.Q) fun d => h d c
    have hlen : (vecOf c.Q c.x).length = c.Q := vecOf_length _ _
    simp only [hw, except_ok_bind]
    rw [hlen, hg, except_ok_bind, hh, except_ok_bind, ih, except_ok_bind]
    rfl

omit [LinearOrder K] in
/-- C168: all ten vectors list the quadrature points of the active cells in the same order, cell after cell: points, weights, values of the discrete function and of the
given one, and the gradients of the two, that of the discrete function with third component zero. -/
theorem C168_values (cells : List (Option (Sampled K))) (hc : ∀ c, some c ∈ cells → c.Ok) (exact : K × K → K) (gradient : K × K → Nat → K) :
    ∃ r, evaluateOnQuadrature (cells.map (Option.map fun c => (c.space, (List.range c.m).map c.u))) (some exact) (some gradient) = .ok r ∧
      r.points = cellByCell (cells.filterMap id) Sampled.x ∧ r.weights = cellByCell (cells.filterMap id) Sampled.w ∧
      r.numeric = cellByCell (cells.filterMap id) (fun c => discrete c.m c.V c.u) ∧ r.exact = cellByCell (cells.filterMap id) (fun c q => exact (c.x q)) ∧
      (∀ d < 3, r.numericGradient[d]? = some (cellByCell (cells.filterMap id) fun c q => discreteGradient c.m c.D c.u q d)) ∧
      ∀ d < 3, r.exactGradient[d]? = some (cellByCell (cells.filterMap id) fun c q => gradient (c.x q) d) := by
  have e : (cells.map (Option.map fun c => (c.space, (List.range c.m).map c.u))).filterMap id = (cells.filterMap id).map fun c => (c.space, (List.range c.m).map c.u) := by
    rw [List.filterMap_map, List.map_filterMap]
    rfl
  unfold evaluateOnQuadrature
  rw [e, List.mapM_map]
  have h := mapM_ok (fun c : Sampled K => cellOnQuadrature c.space (vecOf c.m c.u) (some exact) (some gradient)) _ (cells.filterMap id)
    fun c hcm => cellOnQuadrature_ok (hc c (by simpa using hcm)) exact gradient
  have h' : (cells.filterMap id).mapM ((fun c => cellOnQuadrature c.1 c.2 (some exact) (some gradient)) ∘ fun c : Sampled K => (c.space, (List.range c.m).map c.u)) = _ := h
  rw [h', except_ok_bind]
  refine ⟨_, join_ok (cells.filterMap id) (fun c => discrete c.m c.V c.u) (fun c q => exact (c.x q)) (fun d c q => discreteGradient c.m c.D c.u q d)
    (fun d c q => gradient (c.x q) d), rfl, rfl, rfl, rfl, ?_, ?_⟩
  · intro d hd
    rcases d with - | - | - | d
    · rfl
    · rfl
    · rfl
    · omega
  · intro d hd
    rcases d with - | - | - | d
    · rfl
    · rfl
    · rfl
    · omega

omit [Field K] [LinearOrder K] in
theorem zip_cellByCell (cells : List (Sampled K)) (f : K → K → K) (a b : Sampled K → Nat → K) :
    List.zipWith f (cellByCell cells a) (cellByCell cells b) = cellByCell cells fun c q => f (a c q) (b c q) := by
  induction cells with
  | nil => rfl
  | cons c cells ih =>
    unfold cellByCell at ih ⊢
    rw [List.flatMap_cons, List.flatMap_cons, List.flatMap_cons, List.zipWith_append (by simp), ih, List.zipWith_map, List.zipWith_self]

omit [LinearOrder K] in
theorem sum_cellByCell (cells : List (Sampled K)) (f : Sampled K → Nat → K) : (cellByCell cells f).sum = (cells.map fun c => ∑ q ∈ range c.Q, f c q).sum := by
  induction cells with
  | nil => rfl
  | cons c cells ih =>
    unfold cellByCell at ih ⊢
    rw [List.flatMap_cons, List.sum_append, ih, List.map_cons, List.sum_cons, range_sum]

omit [LinearOrder K] in
/-- C168, the error: the weighted sum of the squared differences of the two vectors of values is the sum of the squared errors that `compute_error_L2` computes on the active
cells. -/
theorem C168_error (cells : List (Option (Sampled K))) (hc : ∀ c, some c ∈ cells → c.Ok) (exact : K × K → K) (gradient : K × K → Nat → K) :
    ∃ r, evaluateOnQuadrature (cells.map (Option.map fun c => (c.space, (List.range c.m).map c.u))) (some exact) (some gradient) = .ok r ∧
      ∃ errors : List (K × K × K), (cells.filterMap id).mapM (fun c => localErrorL2 c.space ((List.range c.m).map c.u) (some exact)) = .ok errors ∧
        (List.zipWith (· * ·) r.weights (List.zipWith (fun a b => (a - b) ^ 2) r.numeric r.exact)).sum = (errors.map fun e => e.1).sum := by
  obtain ⟨r, hr, -, hw, hn, he, -, -⟩ := C168_values cells hc exact gradient
  have hloc : ∀ c ∈ cells.filterMap id, localErrorL2 c.space ((List.range c.m).map c.u) (some exact)
      = .ok (∑ q ∈ range c.Q, c.w q * (discrete c.m c.V c.u q - exact (c.x q)) ^ 2, ∑ q ∈ range c.Q, c.w q * (discrete c.m c.V c.u q) ^ 2,
        ∑ q ∈ range c.Q, c.w q * (exact (c.x q)) ^ 2) := by
    intro c hcm
    have hk := hc c (by simpa using hcm)
    have hp : c.space.internal.points = vecOf c.Q c.x := hk.points
    have hw : c.space.internal.weights = vecOf c.Q c.w := hk.weights
    have hx : ∀ q, ∑ k ∈ range c.m, c.V q k * (DMat.col (vecOf c.m c.u)).ent k 0 = discrete c.m c.V c.u q := by
      intro q
      refine sum_congr rfl fun j hj => ?_
      show c.V q j * (vecOf c.m c.u).getD j 0 = c.u j * c.V q j
      rw [vecOf_getD _ (mem_range.1 hj), mul_comm]
    show localErrorL2 c.space (vecOf c.m c.u) (some exact) = _
    unfold localErrorL2
    rw [hk.values, except_ok_bind]
    simp only [exactScalar, hp, hw, evalScalar_vecOf]
    rw [DMat.mul_ok _ _ (by rw [show (DMat.col (vecOf c.m c.u)).rows = c.m from vecOf_length _ _]), except_ok_bind]
    dsimp only
    rw [if_pos (by simp only [vecOf_length, and_self])]
    simp only [hx]
    congr 1
    refine Prod.ext ?_ (Prod.ext ?_ ?_)
    · dsimp only
      refine sum_congr rfl fun q hq => ?_
      rw [vecOf_getD _ (mem_range.1 hq), vecOf_getD _ (mem_range.1 hq)]
    · dsimp only
      refine sum_congr rfl fun q hq => ?_
      rw [vecOf_getD _ (mem_range.1 hq)]
    · dsimp only
      refine sum_congr rfl fun q hq => ?_
      rw [vecOf_getD _ (mem_range.1 hq), vecOf_getD _ (mem_range.1 hq)]
  refine ⟨r, hr, _, mapM_ok _ _ _ hloc, ?_⟩
  rw [hw, hn, he, zip_cellByCell, zip_cellByCell, sum_cellByCell, List.map_map]
  rfl
end

/-- The linear functions on the reference triangle with the source `u² + u_x`, and the function with the values 1, 2, 4 at the corners. -/
example : ∃ b, localSourceOfSolution sampleSpace sampleSpace [1, 2, 4] (fun _ a g => a ^ 2 + g 0 + g 2) = .ok b ∧ b.ent 0 0 = 7 / 8 := by
  obtain ⟨b, hb, -, -, he⟩ := C167_source sample_tabulated (fun j => [1, 2, 4].getD j 0) (fun _ a g => a ^ 2 + g 0 + g 2)
  refine ⟨b, hb, ?_⟩
  rw [he]
  simp [sum_range_succ, discrete, discreteGradient, sampleS, sampleD, sampleX, samplePoints, Fin.ofNat]
  norm_num

/-- The flux `u ∇u` tested with gradients. -/
example : ∃ b, localGradientSource sampleSpace sampleSpace [1, 2, 4] (fun _ a g d => a * g d) = .ok b ∧ b.ent 1 0 = 7 / 6 := by
  obtain ⟨b, hb, -, -, he⟩ := C167_gradients sample_tabulated (fun j => [1, 2, 4].getD j 0) (fun _ a g d => a * g d)
  refine ⟨b, hb, ?_⟩
  rw [he]
  simp [sum_range_succ, discrete, discreteGradient, sampleS, sampleD, sampleX, samplePoints, Fin.ofNat]
  norm_num

/-- The operator with diffusion `1 + u²`, advection `(u, u_x)` and reaction `u_y`, applied to the function. -/
example : ∃ A g b k, localEllipticOfSolution sampleSpace sampleSpace [1, 2, 4] (some fun _ a _ => 1 + a ^ 2) (some fun _ a g d => if d = 0 then a else g 0) (some fun _ _ g => g 1) = .ok A ∧
    localGradientSource sampleSpace sampleSpace [1, 2, 4] (fun _ a g d => (1 + a ^ 2) * g d) = .ok g ∧
    localSourceOfSolution sampleSpace sampleSpace [1, 2, 4] (fun _ a g => a * g 0 + g 0 * g 1 + g 1 * a) = .ok b ∧
    IsGreatest {y | ∃ q < 3, y = |1 + discrete 3 sampleS (fun j => [1, 2, 4].getD j 0) q ^ 2|} k ∧
    ∀ i, ∑ j ∈ range 3, A.ent i j * [1, 2, 4].getD j 0 = g.ent i 0 + b.ent i 0 + k * ∑ j ∈ range 3, (if i = j then 1 else 0) * [1, 2, 4].getD j 0 :=
  C167_apply sample_tabulated (by decide) (fun i j => if i = j then 1 else 0) (fun _ => rfl) (fun j => [1, 2, 4].getD j 0) (fun _ a _ => 1 + a ^ 2) (fun _ _ g => g 1)
    (fun _ a g d => if d = 0 then a else g 0)

/-- A space with the one function `x` and one quadrature point, (1/2, 1/2). -/
noncomputable def singleSpace : Space2D ℝ where
  size := 1
  internal := ⟨[(1 / 2, 1 / 2)], [1]⟩
  valuesInt := fun _ => .ok ⟨1, 1, fun _ _ => 1 / 2⟩
  valuesAt := fun _ _ => .ok ⟨1, 1, fun _ _ => 1 / 2⟩
  dersInt := fun _ => .ok [⟨1, 1, fun _ _ => 1⟩, ⟨1, 1, fun _ _ => 0⟩]
  dersAt := fun _ _ => .ok [⟨1, 1, fun _ _ => 1⟩, ⟨1, 1, fun _ _ => 0⟩]
  stab := fun _ => .ok (.zero 1 1)

/-- Newton's matrix for the source `u² u_x`. -/
example (u v : ℝ) : ∃ A, ∃ b : ℝ → DMat ℝ, localEllipticOfSolution singleSpace singleSpace [u] none
      (some fun _ a g d => fderiv ℝ (fun z : ℝ × ℝ × ℝ => z.1 ^ 2 * z.2.1) (a, g 0, g 1) (0, if d = 0 then 1 else 0, if d = 1 then 1 else 0))
      (some fun _ a g => fderiv ℝ (fun z : ℝ × ℝ × ℝ => z.1 ^ 2 * z.2.1) (a, g 0, g 1) (1, 0, 0)) = .ok A ∧
    (∀ t, localSourceOfSolution singleSpace singleSpace [u + t * v] (fun _ a g => a ^ 2 * g 0) = .ok (b t)) ∧ HasDerivAt (fun t => (b t).ent 0 0) (A.ent 0 0 * v) 0 := by
  have h : Tabulated singleSpace singleSpace 1 1 1 (fun _ => (1 / 2, 1 / 2)) (fun _ => 1) (fun _ _ => 1 / 2) (fun _ _ => 1 / 2) (fun d _ _ => if d = 0 then 1 else 0)
      (fun d _ _ => if d = 0 then 1 else 0) := by
    constructor <;> simp [singleSpace, List.range_succ]
  obtain ⟨A, hA, b, hb, hd⟩ := C167_newton h (fun _ => u) (fun _ => v) (fun _ z => z.1 ^ 2 * z.2.1) (fun _ z => fderiv ℝ (fun z : ℝ × ℝ × ℝ => z.1 ^ 2 * z.2.1) z)
    (fun _ z => DifferentiableAt.hasFDerivAt (by fun_prop))
  refine ⟨A, b, hA, hb, ?_⟩
  simpa using hd 0

/-- Two active cells with an inactive one between them. -/
example : ∃ r, evaluateOnQuadrature [some (sampleSpace, [1, 2, 4]), none, some (sampleSpace, [0, 1, 0])] (some fun p => p.1) (some fun _ d => if d = 0 then 1 else 0) = .ok r ∧
    r.numeric = [3 / 2, 3, 5 / 2, 1 / 2, 1 / 2, 0] ∧ r.exact = [1 / 2, 1 / 2, 0, 1 / 2, 1 / 2, 0] ∧ r.numericGradient[1]? = some [3, 3, 3, 0, 0, 0] := by
  have h : ∀ c, some c ∈ [some ⟨sampleSpace, 3, 3, sampleX, fun _ => 1 / 6, sampleS, sampleD, fun j => [1, 2, 4].getD j 0⟩, none,
      some (⟨sampleSpace, 3, 3, sampleX, fun _ => 1 / 6, sampleS, sampleD, fun j => [0, 1, 0].getD j 0⟩ : Sampled ℚ)] → c.Ok := by
    intro c hc
    simp only [List.mem_cons, Option.some.injEq, reduceCtorEq, List.not_mem_nil, or_false, false_or] at hc
    rcases hc with rfl | rfl
    · exact ⟨rfl, rfl, sample_tabulated.trialValues, sample_tabulated.trialDers⟩
    · exact ⟨rfl, rfl, sample_tabulated.trialValues, sample_tabulated.trialDers⟩
  obtain ⟨r, hr, -, -, hn, he, hg, -⟩ := C168_values _ h (fun p => p.1) (fun _ d => if d = 0 then 1 else 0)
  refine ⟨r, hr, ?_, ?_, ?_⟩
  · rw [hn]
    simp [cellByCell, List.range_succ, sum_range_succ, discrete, sampleS, sampleX, samplePoints, Fin.ofNat]
    norm_num
  · rw [he]
    simp [cellByCell, List.range_succ, sampleX, samplePoints]
  · rw [hg 1 (by decide)]
    simp [cellByCell, List.range_succ, sum_range_succ, discrete, discreteGradient, sampleD, Fin.ofNat]
    norm_num

end PolyDiM
