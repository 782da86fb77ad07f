import Verif.Lemmas.TestData
import Verif.Model.TestDataPlane

/-!
# C154, C155, C156: the data of the elliptic, heat and mixed tests in the plane
-/

namespace PolyDiM

open Spec
open Real (sin cos exp)

/-- The data belong to the solution `u` of `-div(D grad u) + b . grad u = f` on the unit square, with gradient `g`. -/
structure SolvesElliptic (D : EllipticData) (u : ℝ × ℝ → ℝ) : Prop where
  value : D.value = u
  partials : HasPartials u (fun p => D.gradient p 0) (fun p => D.gradient p 1)
  balance : DivergenceIs (fun p => D.diffusion p * D.gradient p 0) (fun p => D.diffusion p * D.gradient p 1)
    (fun p => D.advection p 0 * D.gradient p 0 + D.advection p 1 * D.gradient p 1 - D.source p)
  boundary : BoundaryAgrees (boundaryTable D.info) D.strong D.weak (fun _ p => u p)
    (fun i p => D.diffusion p * (D.gradient p 0 * (outward i).1 + D.gradient p 1 * (outward i).2))

theorem strong_agrees {strong weak : Nat → ℝ × ℝ → Except Fault ℝ} {u : ℝ × ℝ → ℝ} (natural : Nat → ℝ × ℝ → ℝ) (h : ∀ p, strong 1 p = .ok (u p)) :
    BoundaryAgrees (boundaryTable strongTable) strong weak (fun _ p => u p) natural := by
  refine ⟨⟨0, rfl⟩, ?_, ?_⟩
  · intro i hi p _
    refine Or.inl ⟨1, ?_, h p⟩
    interval_cases i <;> rfl
  · intro i hi
    refine Or.inl ⟨1, ?_, h _, Or.inl ⟨1, ?_⟩⟩ <;> interval_cases i <;> rfl

theorem weak_agrees {strong weak : Nat → ℝ × ℝ → Except Fault ℝ} {u : ℝ × ℝ → ℝ} {natural : Nat → ℝ × ℝ → ℝ} (h : ∀ p, strong 1 p = .ok (u p))
    (h1 : ∀ p, OnSide 1 p → weak 2 p = .ok (natural 1 p)) (h2 : ∀ p, OnSide 2 p → weak 4 p = .ok (natural 2 p)) :
    BoundaryAgrees (boundaryTable weakTable) strong weak (fun _ p => u p) natural := by
  refine ⟨⟨0, rfl⟩, ?_, ?_⟩
  · intro i hi p hp
    interval_cases i
    · exact Or.inl ⟨1, rfl, h p⟩
    · exact Or.inr ⟨2, rfl, h1 p hp⟩
    · exact Or.inr ⟨4, rfl, h2 p hp⟩
    · exact Or.inl ⟨1, rfl, h p⟩
  · intro i hi
    interval_cases i
    · exact Or.inl ⟨1, rfl, h _, Or.inl ⟨1, rfl⟩⟩
    · exact Or.inl ⟨1, rfl, h _, Or.inr ⟨1, rfl⟩⟩
    · refine Or.inr ⟨⟨0, rfl⟩, ?_, ?_⟩ <;> rintro ⟨m, hm⟩ <;> simp [boundaryTable, weakTable] at hm
    · exact Or.inl ⟨1, rfl, h _, Or.inl ⟨1, rfl⟩⟩

/-- `Patch_Test`: the solution is `(x + y + 1/2)^k`, for every order. -/
theorem C154_patch (k : Nat) : SolvesElliptic (ellipticPatchData k) (fun p => (p.1 + p.2 + 1 / 2) ^ k) where
  value := by
    funext p
    simp [ellipticPatchData, powerLoop_eq]
  partials := by
    refine has_partials (fun x y => ?_) (fun x y => ?_) <;> simp only [ellipticPatchData, components, powerLoop_eq, ↓reduceIte, one_ne_zero]
    all_goals
      apply HasDerivAt.congr_deriv
      · derive
      · simp
  balance x y := by
    have e : k - 1 - 1 = k - 2 := by omega
    simp only [ellipticPatchData, components, powerLoop_eq, ↓reduceIte, one_ne_zero]
    apply divergence_intro
    · derive
    · derive
    · simp [e]
      ring
  boundary := by
    refine weak_agrees (fun p => ?_) (fun p hp => ?_) (fun p hp => ?_) <;> simp [ellipticPatchData, powerLoop_eq, outward, components]

/-- `Elliptic_Polynomial_Problem`: the solution is `16 x (1-x) y (1-y) + 1.1`. -/
theorem C154_polynomial : SolvesElliptic ellipticPolynomialData (fun p => 16 * (p.1 * (1 - p.1) * (p.2 * (1 - p.2))) + 11 / 10) ∧
    ∀ i m, (i = 1 ∧ m = 2) ∨ (i = 3 ∧ m = 4) → ∀ p, ellipticPolynomialData.weak m p =
      .ok (ellipticPolynomialData.gradient p 0 * (outward i).1 + ellipticPolynomialData.gradient p 1 * (outward i).2) := by
  refine ⟨⟨?_, ?_, ?_, ?_⟩, ?_⟩
  · funext p
    simp only [ellipticPolynomialData]
    ring
  · refine has_partials (fun x y => ?_) (fun x y => ?_) <;> simp only [ellipticPolynomialData, components, ↓reduceIte, one_ne_zero]
    all_goals
      apply HasDerivAt.congr_deriv
      · derive
      · simp
        ring
  · intro x y
    simp only [ellipticPolynomialData, components, ↓reduceIte, one_ne_zero]
    apply divergence_intro
    · derive
    · derive
    · simp
      ring
  · refine strong_agrees _ fun p => ?_
    simp only [ellipticPolynomialData, ne_eq, not_true_eq_false, ↓reduceIte]
    congr 1
    ring
  · rintro i m (⟨rfl, rfl⟩ | ⟨rfl, rfl⟩) p <;> simp [ellipticPolynomialData, components, outward]

/-- `Elliptic_Problem`: the solution is `sin(2 pi x) sin(2 pi y)`. -/
theorem C154_sine : SolvesElliptic ellipticSineData (fun p => sin (2 * Real.pi * p.1) * sin (2 * Real.pi * p.2)) where
  value := rfl
  partials := by
    refine has_partials (fun x y => ?_) (fun x y => ?_) <;> simp only [ellipticSineData, components, ↓reduceIte, one_ne_zero]
    all_goals
      apply HasDerivAt.congr_deriv
      · derive
      · ring
  balance x y := by
    simp only [ellipticSineData, components, ↓reduceIte, one_ne_zero]
    apply divergence_intro
    · derive
    · derive
    · simp
      ring
  boundary := strong_agrees _ fun p => by simp [ellipticSineData, ellipticSine]

/-- `SUPG_AdvDiff_Problem`: the solution is `(65536/729) x^3 (1-x) y^3 (1-y)`. -/
theorem C154_advection : SolvesElliptic ellipticAdvectionData (fun p => 65536 / 729 * (p.1 ^ 3 * (1 - p.1) * (p.2 ^ 3 * (1 - p.2)))) where
  value := by
    funext p
    simp only [ellipticAdvectionData]
    ring
  partials := by
    refine has_partials (fun x y => ?_) (fun x y => ?_) <;> simp only [ellipticAdvectionData, components, ↓reduceIte, one_ne_zero]
    all_goals
      apply HasDerivAt.congr_deriv
      · derive
      · simp
        ring
  balance x y := by
    simp only [ellipticAdvectionData, components, ↓reduceIte, one_ne_zero]
    apply divergence_intro
    · derive
    · derive
    · simp
      ring
  boundary := strong_agrees _ fun p => by
    simp only [ellipticAdvectionData, ne_eq, not_true_eq_false, ↓reduceIte]
    congr 1
    ring

-- C154: for order 3 the source at (1/4, 1/4) is not zero, and neither is the flux on the right side
example : (ellipticPatchData 3).source (1 / 4, 1 / 4) = -12 ∧ (ellipticPatchData 3).weak 2 (1, 1 / 2) = .ok 12 := by
  constructor
  · norm_num [ellipticPatchData, powerLoop_eq]
  · simp [ellipticPatchData, powerLoop_eq]
    norm_num

/-- The data belong to the solution `u` of `du/dt - div(D grad u) = f` on the unit square. -/
structure SolvesHeat (D : HeatData) (u : ℝ → ℝ × ℝ → ℝ) : Prop where
  value : D.value = u
  initial : D.initial = u 0
  partials : ∀ t, HasPartials (u t) (fun p => D.gradient t p 0) (fun p => D.gradient t p 1)
  balance : ∃ ut : ℝ → ℝ × ℝ → ℝ, (∀ t p, HasDerivAt (fun s => u s p) (ut t p) t) ∧
    ∀ t, DivergenceIs (fun p => D.diffusion p * D.gradient t p 0) (fun p => D.diffusion p * D.gradient t p 1) (fun p => ut t p - D.source t p)
  boundary : ∀ t, BoundaryAgrees (boundaryTable D.info) (D.strong t) (D.weak t) (fun _ p => u t p)
    (fun i p => D.diffusion p * (D.gradient t p 0 * (outward i).1 + D.gradient t p 1 * (outward i).2))

/-- `Patch_Test` of the heat equation: the solution is `(x + y + 1/2)^k + t^m`, for all orders. -/
theorem C155_patch (k m : Nat) : SolvesHeat (heatPatchData k m) (fun t p => (p.1 + p.2 + 1 / 2) ^ k + t ^ m) where
  value := by
    funext t p
    simp [heatPatchData, heatPatchValue, powerLoop_eq]
  initial := by
    funext p
    simp [heatPatchData, heatPatchValue, powerLoop_eq]
  partials t := by
    refine has_partials (fun x y => ?_) (fun x y => ?_) <;> simp only [heatPatchData, components, powerLoop_eq, ↓reduceIte, one_ne_zero]
    all_goals
      apply HasDerivAt.congr_deriv
      · derive
      · simp
  balance := by
    refine ⟨fun t _ => m * t ^ (m - 1), fun t p => ?_, fun t x y => ?_⟩
    · apply HasDerivAt.congr_deriv
      · derive
      · simp
    · have e : k - 1 - 1 = k - 2 := by omega
      simp only [heatPatchData, components, powerLoop_eq, ↓reduceIte, one_ne_zero]
      apply divergence_intro
      · derive
      · derive
      · simp [e]
        ring
  boundary t := by
    refine weak_agrees (fun p => ?_) (fun p hp => ?_) (fun p hp => ?_) <;> simp [heatPatchData, heatPatchValue, powerLoop_eq, outward, components]

/-- `Parabolic_Problem`: the solution is `sin(pi x) sin(pi y) e^t`. -/
theorem C155_sine : SolvesHeat heatSineData (fun t p => sin (Real.pi * p.1) * sin (Real.pi * p.2) * exp t) where
  value := rfl
  initial := rfl
  partials t := by
    refine has_partials (fun x y => ?_) (fun x y => ?_) <;> simp only [heatSineData, components, ↓reduceIte, one_ne_zero]
    all_goals
      apply HasDerivAt.congr_deriv
      · derive
      · ring
  balance := by
    refine ⟨fun t p => sin (Real.pi * p.1) * sin (Real.pi * p.2) * exp t, fun t p => ?_, fun t x y => ?_⟩
    · apply HasDerivAt.congr_deriv
      · derive
      · simp
    · simp only [heatSineData, components, ↓reduceIte, one_ne_zero]
      apply divergence_intro
      · derive
      · derive
      · simp
        ring
  boundary t := strong_agrees _ fun p => by simp [heatSineData, heatSine]

-- C155: orders 3 and 2 at the time 1/2
example : (heatPatchData 3 2).source (1 / 2) (1 / 4, 1 / 4) = -11 ∧ (heatPatchData 3 2).initial (1 / 4, 1 / 4) = 1 := by
  constructor <;> norm_num [heatPatchData, heatPatchValue, powerLoop_eq]

/-- The data belong to the pressure `q` and the velocity `v = -D grad q + b q` with `div v + c q = f` on the unit square; the stored inverse of `D` is its inverse, the mixed advection is
`D⁻¹ b`. The normal velocity is the essential datum, the pressure the natural one. -/
structure SolvesMixed (D : MixedData) (q : ℝ × ℝ → ℝ) (v : ℝ × ℝ → Nat → ℝ) : Prop where
  pressure : D.pressure = q
  velocity : ∀ p, ∀ d < 2, D.velocity p d = v p d
  inverse : ∀ p, ∀ i < 2, ∀ j < 2, D.diffusion p i 0 * D.inverseDiffusion p 0 j + D.diffusion p i 1 * D.inverseDiffusion p 1 j = if i = j then 1 else 0
  mixed : ∀ p, ∀ i < 2, D.mixedAdvection p i = D.inverseDiffusion p i 0 * D.advection p 0 + D.inverseDiffusion p i 1 * D.advection p 1
  darcy : ∃ gx gy : ℝ × ℝ → ℝ, HasPartials q gx gy ∧ ∀ p, ∀ i < 2, v p i = -(D.diffusion p i 0 * gx p + D.diffusion p i 1 * gy p) + D.advection p i * q p
  balance : DivergenceIs (fun p => v p 0) (fun p => v p 1) (fun p => D.source p - D.reaction p * q p)
  boundary : SidesAgree (boundaryTable D.info) D.strong D.weak (fun i p => v p 0 * (outward i).1 + v p 1 * (outward i).2) (fun _ p => q p)

theorem mixedLoop_eq (k : Nat) (x : ℝ) : mixedLoop k x = (k * x ^ (k - 1), x ^ k) := by
  rcases k with _ | k
  · simp [mixedLoop]
  · simp [mixedLoop, powerLoop_eq, pow_succ]
    ring

theorem mixedSecond_eq (k : Nat) (x : ℝ) : mixedSecond k x = (k * (k - 1 : Nat) * x ^ (k - 2), x ^ k) := by
  rcases k with _ | _ | k
  · simp [mixedSecond]
  · simp [mixedSecond]
  · simp [mixedSecond, powerLoop_eq, pow_succ]
    ring

/-- `Patch_Test` of the mixed example: the pressure is `(x + y + 1/2)^k`, for every order; the strong data for the markers 1 to 4 are the normal velocities of the four sides. -/
theorem C156_patch (k : Nat) : (∃ v, SolvesMixed (mixedPatchData k) (fun p => (p.1 + p.2 + 1 / 2) ^ k) v) ∧
    ∀ i < 4, ∀ p, (mixedPatchData k).strong (1 + i) p = .ok ((mixedPatchData k).velocity p 0 * (outward i).1 + (mixedPatchData k).velocity p 1 * (outward i).2) := by
  have hv : ∀ p, (mixedPatchData k).velocity p = components (-(k * (p.1 + p.2 + 1 / 2) ^ (k - 1)) + (p.1 + p.2 + 1 / 2) ^ k) (-2 * (k * (p.1 + p.2 + 1 / 2) ^ (k - 1)) - (p.1 + p.2 + 1 / 2) ^ k) := by
    intro p
    simp [mixedPatchData, mixedLoop_eq]
  have hstrong : ∀ i < 4, ∀ p, (mixedPatchData k).strong (1 + i) p =
      .ok ((mixedPatchData k).velocity p 0 * (outward i).1 + (mixedPatchData k).velocity p 1 * (outward i).2) := by
    intro i hi p
    rw [hv]
    interval_cases i <;> simp [mixedPatchData, mixedLoop_eq, outward, components] <;> ring
  refine ⟨⟨(mixedPatchData k).velocity, ?_, fun _ _ _ => rfl, ?_, ?_, ?_, ?_, ?_⟩, hstrong⟩
  · funext p
    simp [mixedPatchData, powerLoop_eq]
  · intro p i hi j hj
    interval_cases i <;> interval_cases j <;> simp [mixedPatchData, derivatives, components] <;> norm_num
  · intro p i hi
    interval_cases i <;> simp [mixedPatchData, derivatives, components] <;> norm_num
  · refine ⟨fun p => k * (p.1 + p.2 + 1 / 2) ^ (k - 1), fun p => k * (p.1 + p.2 + 1 / 2) ^ (k - 1), has_partials (fun x y => ?_) (fun x y => ?_), ?_⟩
    · apply HasDerivAt.congr_deriv
      · derive
      · simp
    · apply HasDerivAt.congr_deriv
      · derive
      · simp
    · intro p i hi
      rw [hv]
      interval_cases i <;> simp [mixedPatchData, derivatives, components] <;> ring
  · intro x y
    have e : k - 1 - 1 = k - 2 := by omega
    simp only [hv]
    simp only [mixedPatchData, components, mixedSecond_eq, ↓reduceIte, one_ne_zero]
    apply divergence_intro
    · derive
    · derive
    · simp [e]
      ring
  · refine ⟨⟨0, rfl⟩, ?_, ?_⟩
    · intro i hi p _
      interval_cases i
      · exact Or.inl ⟨1, rfl, hstrong 0 (by norm_num) p⟩
      all_goals
        refine Or.inr ⟨2, rfl, ?_⟩
        simp [mixedPatchData, powerLoop_eq]
    · intro i hi
      refine ⟨0, ?_⟩
      interval_cases i <;> rfl

/-- `Poisson_Problem` of the mixed example: the pressure is `sin(pi x) sin(pi y)`. -/
theorem C156_sine : ∃ v, SolvesMixed mixedSineData (fun p => sin (Real.pi * p.1) * sin (Real.pi * p.2)) v := by
  refine ⟨mixedSineData.velocity, rfl, fun _ _ _ => rfl, ?_, ?_, ?_, ?_, ?_⟩
  · intro p i hi j hj
    interval_cases i <;> interval_cases j <;> simp [mixedSineData, derivatives, components]
  · intro p i hi
    interval_cases i <;> simp [mixedSineData, derivatives, components]
  · refine ⟨fun p => Real.pi * cos (Real.pi * p.1) * sin (Real.pi * p.2), fun p => Real.pi * sin (Real.pi * p.1) * cos (Real.pi * p.2), has_partials (fun x y => ?_) (fun x y => ?_), ?_⟩
    · apply HasDerivAt.congr_deriv
      · derive
      · ring
    · apply HasDerivAt.congr_deriv
      · derive
      · simp
        ring
    · intro p i hi
      interval_cases i <;> simp [mixedSineData, derivatives, components]
  · intro x y
    simp only [mixedSineData, components, ↓reduceIte, one_ne_zero]
    apply divergence_intro
    · derive
    · derive
    · simp
      ring
  · refine ⟨⟨0, rfl⟩, ?_, ?_⟩
    · intro i hi p _
      refine Or.inr ⟨2, ?_, by simp [mixedSineData]⟩
      interval_cases i <;> rfl
    · intro i hi
      refine ⟨0, ?_⟩
      interval_cases i <;> rfl

-- C156: order 2 at (1/2, 0)
example : (mixedPatchData 2).strong 1 (1 / 2, 0) = .ok 5 ∧ (mixedPatchData 2).source (1 / 2, 1) = -4 := by
  constructor
  · simp [mixedPatchData, mixedLoop_eq]
    norm_num
  · simp [mixedPatchData, mixedSecond_eq]
    norm_num

end PolyDiM
