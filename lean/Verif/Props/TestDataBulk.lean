import Verif.Lemmas.TestData
import Verif.Model.TestDataBulk
import Verif.Spec.TestDataBulk
import Mathlib.Tactic.LinearCombination

/-!
# C169: the data of the example with a bulk and a surface equation
-/

namespace PolyDiM

open Spec
open Real (sin cos exp)

/-- The data of the test at all points, read as the coefficients, sources and solutions `u` (bulk) and `v` (surface) of a coupled problem. Other dimensions throw, no condition is imposed on the
boundary by degrees of freedom. -/
structure BulkDataIs (D : BulkData) (bulk surface : Exchange) (fu fv u v : ℝ → ℝ × ℝ → ℝ) : Prop where
  bulkCoefficients : ∀ p, D.diffusion 2 p = .ok bulk.diffusion ∧ D.reaction 2 p = .ok bulk.reaction ∧ D.alpha 2 p = .ok bulk.alpha ∧ D.beta 2 p = .ok bulk.beta
  surfaceCoefficients : ∀ p, D.diffusion 1 p = .ok surface.diffusion ∧ D.reaction 1 p = .ok surface.reaction ∧ D.alpha 1 p = .ok surface.alpha ∧ D.beta 1 p = .ok surface.beta
  sources : ∀ t p, D.source 2 t p = .ok (fu t p) ∧ D.source 1 t p = .ok (fv t p)
  values : ∀ t p, D.value 2 t p = .ok (u t p) ∧ D.value 1 t p = .ok (v t p)
  initials : ∀ p, D.initial 2 p = .ok (u 0 p) ∧ D.initial 1 p = .ok (v 0 p)
  gradients : ∀ t, ∃ g h : ℝ × ℝ → Nat → ℝ, (∀ p, D.gradient 2 t p = .ok (g p) ∧ D.gradient 1 t p = .ok (h p)) ∧
    HasPartials (u t) (fun p => g p 0) (fun p => g p 1) ∧ HasPartials (v t) (fun p => h p 0) (fun p => h p 1) ∧ ∀ p, g p 2 = 0 ∧ h p 2 = 0
  others : ∀ d, d ≠ 1 → d ≠ 2 → ∀ t p, D.diffusion d p = .error .runtimeError ∧ D.reaction d p = .error .runtimeError ∧ D.source d t p = .error .runtimeError ∧
    D.value d t p = .error .runtimeError ∧ D.initial d p = .error .runtimeError ∧ D.gradient d t p = .error .runtimeError ∧ D.alpha d p = .error .runtimeError ∧ D.beta d p = .error .runtimeError
  unused : ∀ d t m p, D.weak d t m p = .error .runtimeError
  free : ∀ m < 2, boundaryTable D.infoBulk m = some ⟨.none, 0⟩ ∧ boundaryTable D.infoSurface m = some ⟨.none, 0⟩

/-- Along the circle the product of the coordinates is multiplied by `-4` by two derivatives. -/
theorem product_on_circle (c : ℝ) : ∃ d : ℝ → ℝ, (∀ s, HasDerivAt (fun s => c * ((circlePoint s).1 * (circlePoint s).2)) (d s) s) ∧
    ∀ s, HasDerivAt d (-4 * (c * ((circlePoint s).1 * (circlePoint s).2))) s := by
  refine ⟨fun s => c * (cos s * cos s - sin s * sin s), fun s => ?_, fun s => ?_⟩ <;> simp only [circlePoint]
  all_goals
    apply HasDerivAt.congr_deriv
    · derive
    · ring

/-- `Elliptic_Problem`: the data are those of the stationary problem with the solutions `xy` in the disk and `3/2 xy` on the circle. -/
theorem C169_elliptic : ∃ (bulk surface : Exchange) (fu fv : ℝ → ℝ × ℝ → ℝ), 0 < bulk.diffusion ∧ 0 < surface.diffusion ∧
    BulkDataIs bulkEllipticData bulk surface fu fv (fun _ p => p.1 * p.2) (fun _ p => 3 / 2 * (p.1 * p.2)) ∧
    ∀ t, SolvesBulkSurface bulk surface (fu t) (fv t) (fun _ => 0) (fun _ => 0) (fun p => p.1 * p.2) (fun p => 3 / 2 * (p.1 * p.2)) := by
  have hu : HasPartials (fun p => p.1 * p.2) (fun p => p.2) (fun p => p.1) := by
    refine has_partials (fun x y => ?_) (fun x y => ?_)
    all_goals
      apply HasDerivAt.congr_deriv
      · derive
      · ring
  refine ⟨⟨1, 1, 1, 2⟩, ⟨1, 1, 1, 2⟩, fun _ p => p.1 * p.2, fun _ p => 19 / 2 * (p.1 * p.2), one_pos, one_pos, ?_, fun t => ?_⟩
  · refine ⟨fun p => ⟨rfl, rfl, rfl, rfl⟩, fun p => ⟨rfl, rfl, rfl, rfl⟩, fun t p => ⟨?_, ?_⟩, fun t p => ⟨rfl, ?_⟩, fun p => ⟨rfl, ?_⟩, fun t => ?_, ?_, fun _ _ _ _ => rfl, ?_⟩
    · simp [bulkEllipticData, bulkEllipticValue, byDimension, bind, Except.bind]
    · simp only [bulkEllipticData, OfNat.one_ne_ofNat, ↓reduceIte]
      congr 1
      ring
    · simp [bulkEllipticData, bulkEllipticValue, byDimension, mul_assoc]
    · simp [bulkEllipticData, bulkEllipticValue, byDimension, mul_assoc]
    · refine ⟨fun p => components p.2 p.1, fun p => components (3 / 2 * p.2) (3 / 2 * p.1), fun p => ⟨rfl, rfl⟩, ?_, ?_, fun p => by simp [components]⟩
      · simpa [components] using hu
      · refine has_partials (fun x y => ?_) (fun x y => ?_) <;> simp only [components, ↓reduceIte, one_ne_zero]
        all_goals
          apply HasDerivAt.congr_deriv
          · derive
          · ring
    · intro d h1 h2 t p
      simp [bulkEllipticData, bulkEllipticValue, byDimension, h1, h2]
    · intro m hm
      interval_cases m <;> exact ⟨rfl, rfl⟩
  · obtain ⟨d, hd, hdd⟩ := product_on_circle (3 / 2)
    refine ⟨⟨_, _, hu, fun x y => ?_⟩, ⟨_, _, hu, fun s => by ring⟩, d, _, hd, hdd, fun s => by ring⟩
    apply divergence_intro
    · derive
    · derive
    · ring

/-- `Parabolic_Problem`: the data are those of the problem in time with the solutions `xy e^-t` in the disk and `3/2 xy e^-t` on the circle, which start from the initial data. -/
theorem C169_parabolic : ∃ (bulk surface : Exchange) (fu fv : ℝ → ℝ × ℝ → ℝ) (ut vt : ℝ → ℝ × ℝ → ℝ), 0 < bulk.diffusion ∧ 0 < surface.diffusion ∧
    BulkDataIs bulkParabolicData bulk surface fu fv (fun t p => p.1 * p.2 * exp (-t)) (fun t p => 3 / 2 * (p.1 * p.2) * exp (-t)) ∧
    (∀ t p, HasDerivAt (fun t => p.1 * p.2 * exp (-t)) (ut t p) t ∧ HasDerivAt (fun t => 3 / 2 * (p.1 * p.2) * exp (-t)) (vt t p) t) ∧
    ∀ t, SolvesBulkSurface bulk surface (fu t) (fv t) (ut t) (vt t) (fun p => p.1 * p.2 * exp (-t)) (fun p => 3 / 2 * (p.1 * p.2) * exp (-t)) := by
  have hu : ∀ t, HasPartials (fun p => p.1 * p.2 * exp (-t)) (fun p => p.2 * exp (-t)) (fun p => p.1 * exp (-t)) := by
    intro t
    refine has_partials (fun x y => ?_) (fun x y => ?_)
    all_goals
      apply HasDerivAt.congr_deriv
      · derive
      · ring
  refine ⟨⟨1, 1, 0, 4 / 3⟩, ⟨1 / 4, 0, 2, 4 / 3⟩, fun _ _ => 0, fun _ _ => 0, fun t p => -(p.1 * p.2 * exp (-t)), fun t p => -(3 / 2 * (p.1 * p.2) * exp (-t)), one_pos, by norm_num, ?_, fun t p => ?_,
    fun t => ?_⟩
  · refine ⟨fun p => ⟨rfl, rfl, rfl, rfl⟩, fun p => ⟨rfl, rfl, rfl, rfl⟩, fun t p => ⟨rfl, rfl⟩, fun t p => ⟨rfl, ?_⟩, fun p => ⟨rfl, ?_⟩, fun t => ?_, ?_, fun _ _ _ _ => rfl, ?_⟩
    · simp [bulkParabolicData, bulkParabolicValue, byDimension, mul_assoc]
    · simp [bulkParabolicData, bulkParabolicValue, byDimension, mul_assoc]
    · refine ⟨fun p => components (p.2 * exp (-t)) (p.1 * exp (-t)), fun p => components (3 / 2 * p.2 * exp (-t)) (3 / 2 * p.1 * exp (-t)), fun p => ⟨rfl, rfl⟩, ?_, ?_,
        fun p => by simp [components]⟩
      · simpa [components] using hu t
      · refine has_partials (fun x y => ?_) (fun x y => ?_) <;> simp only [components, ↓reduceIte, one_ne_zero]
        all_goals
          apply HasDerivAt.congr_deriv
          · derive
          · ring
    · intro d h1 h2 t p
      simp [bulkParabolicData, bulkParabolicValue, byDimension, h1, h2]
    · intro m hm
      interval_cases m <;> exact ⟨rfl, rfl⟩
  · constructor
    all_goals
      apply HasDerivAt.congr_deriv
      · derive
      · ring
  · obtain ⟨d, hd, hdd⟩ := product_on_circle (3 / 2 * exp (-t))
    refine ⟨⟨_, _, hu t, fun x y => ?_⟩, ⟨_, _, hu t, fun s => by ring⟩, d, _, fun s => ?_, hdd, fun s => by ring⟩
    · apply divergence_intro
      · derive
      · derive
      · ring
    · have e : (fun s => 3 / 2 * ((circlePoint s).1 * (circlePoint s).2) * exp (-t)) = fun s => 3 / 2 * exp (-t) * ((circlePoint s).1 * (circlePoint s).2) := by
        funext s
        ring
      rw [e]
      exact hd s

-- C169: the initial surface datum at (1, 1), the source on the circle at (3/5, 4/5), and a dimension that does not exist
example : bulkParabolicData.initial 1 (1, 1) = .ok (3 / 2) ∧ bulkEllipticData.source 1 0 (3 / 5, 4 / 5) = .ok (114 / 25) ∧ bulkEllipticData.alpha 3 (0, 0) = .error .runtimeError := by
  refine ⟨?_, ?_, rfl⟩ <;> (simp [bulkParabolicData, bulkParabolicValue, bulkEllipticData, byDimension]; try norm_num)

end PolyDiM
