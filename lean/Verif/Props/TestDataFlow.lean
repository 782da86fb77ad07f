import Verif.Props.TestDataPlane
import Verif.Model.TestDataFlow
import Mathlib.MeasureTheory.Integral.IntervalIntegral.FundThmCalculus

/-!
# C157, C158: the data of the Brinkman and Navier-Stokes tests
-/

namespace PolyDiM

open Spec
open Real (sin cos)

/-- The data belong to a velocity and a pressure with `-div(ν grad u) + c (u . grad) u + s grad p + K⁻¹ u = f` and the given divergence of `u`. -/
structure SolvesFlow (D : FlowData) (c s : ℝ) : Prop where
  partials : ∀ h < 2, HasPartials (fun p => D.velocity p h) (fun p => D.gradient p h 0) (fun p => D.gradient p h 1)
  balance : ∃ gx gy, HasPartials D.pressure gx gy ∧ ∀ h < 2, DivergenceIs (fun p => D.viscosity p * D.gradient p h 0) (fun p => D.viscosity p * D.gradient p h 1)
    (fun p => c * (D.velocity p 0 * D.gradient p h 0 + D.velocity p 1 * D.gradient p h 1) + s * (if h = 0 then gx p else gy p) +
      (D.inverse p h 0 * D.velocity p 0 + D.inverse p h 1 * D.velocity p 1) - D.source p h)
  divergence : ∀ p, D.gradient p 0 0 + D.gradient p 1 1 = D.divergence p

/-- The conditions on the unit square are those of the velocity, or minus the normal stress, as the assemblers expect; the pressure has mean value zero. -/
structure SquareFlow (D : FlowData) (c s : ℝ) : Prop extends SolvesFlow D c s where
  boundary : ∀ h < 2, BoundaryAgrees (boundaryTable D.info) (fun m p => D.strong m p h) (fun m p => D.weak m p h) (fun _ p => D.velocity p h)
    (fun i p => -(D.viscosity p * (D.gradient p h 0 * (outward i).1 + D.gradient p h 1 * (outward i).2) - s * D.pressure p * (if h = 0 then (outward i).1 else (outward i).2)))
  mean : ∫ x in (0 : ℝ)..1, ∫ y in (0 : ℝ)..1, D.pressure (x, y) = 0

theorem mean_of_primitive {q : ℝ × ℝ → ℝ} (F : ℝ → ℝ → ℝ) (H : ℝ → ℝ) (h1 : ∀ x y, HasDerivAt (F x) (q (x, y)) y) (c1 : Continuous q) (h2 : ∀ x, HasDerivAt H (F x 1 - F x 0) x)
    (c2 : Continuous fun x => F x 1 - F x 0) (h : H 1 = H 0) : ∫ x in (0 : ℝ)..1, ∫ y in (0 : ℝ)..1, q (x, y) = 0 := by
  have e : ∀ x : ℝ, ∫ y in (0 : ℝ)..1, q (x, y) = F x 1 - F x 0 := fun x =>
    intervalIntegral.integral_eq_sub_of_hasDerivAt (fun y _ => h1 x y) ((c1.comp (by fun_prop)).intervalIntegrable _ _)
  simp only [e]
  rw [intervalIntegral.integral_eq_sub_of_hasDerivAt (fun x _ => h2 x) (c2.intervalIntegrable _ _), h, sub_self]

theorem bottom_agrees {strong weak : Nat → ℝ × ℝ → Except Fault ℝ} {u : ℝ × ℝ → ℝ} {natural : Nat → ℝ × ℝ → ℝ} (h : ∀ p, strong 1 p = .ok (u p))
    (h0 : ∀ p, OnSide 0 p → weak 2 p = .ok (natural 0 p)) : BoundaryAgrees (boundaryTable bottomTable) strong weak (fun _ p => u p) natural := by
  refine ⟨⟨0, rfl⟩, ?_, ?_⟩
  · intro i hi p hp
    interval_cases i
    · exact Or.inr ⟨2, rfl, h0 p hp⟩
    all_goals exact Or.inl ⟨1, rfl, h p⟩
  · intro i hi
    interval_cases i
    · exact Or.inl ⟨1, rfl, h _, Or.inr ⟨1, rfl⟩⟩
    all_goals exact Or.inl ⟨1, rfl, h _, Or.inl ⟨1, rfl⟩⟩

/-- The loop computes the mean value of `(x + y)^n`. -/
theorem meanLoop_eq (n : Nat) : meanLoop (n + 1) = (2 ^ (n + 2) - 2) / ((n + 1) * (n + 2)) := by
  have hf : ∀ (l : List Nat) (a : ℝ) (f : Nat → ℝ), l.foldl (fun (m : ℝ) (i : Nat) => m + f i) a = a + (l.map f).sum := by
    intro l
    induction l with
    | nil => simp
    | cons b l ih =>
      intro a f
      rw [List.foldl_cons, ih]
      simp
      ring
  have hs : ∀ (m : Nat) (f : Nat → ℝ), ((List.range m).map f).sum = ∑ i ∈ Finset.range m, f i := by
    intro m f
    induction m with
    | zero => simp
    | succ m ih => simp [List.range_succ, Finset.sum_range_succ, ih]
  have ht : ∀ i ∈ Finset.range (n + 1), (Nat.choose n i : ℝ) / ((i + 1) * (((n + 1 : Nat) : ℝ) - i)) = Nat.choose (n + 2) (i + 1) / ((n + 1) * (n + 2)) := by
    intro i hi
    have hi' : i ≤ n := by
      have := Finset.mem_range.1 hi
      omega
    have e1 := Nat.choose_mul_succ_eq n i
    have e2 := Nat.add_one_mul_choose_eq (n + 1) i
    have e1' : (Nat.choose n i : ℝ) * (n + 1) = Nat.choose (n + 1) i * ((n + 1 : Nat) - i) := by
      have : ((n + 1 - i : Nat) : ℝ) = ((n + 1 : Nat) : ℝ) - i := by
        rw [Nat.cast_sub (by omega)]
      rw [← this]
      exact_mod_cast e1
    have e2' : ((n : ℝ) + 2) * Nat.choose (n + 1) i = Nat.choose (n + 2) (i + 1) * (i + 1) := by
      have := congrArg (Nat.cast (R := ℝ)) e2
      push_cast at this
      linarith
    have p1 : (0 : ℝ) < ((n + 1 : Nat) : ℝ) - i := by
      have : (i : ℝ) ≤ n := by exact_mod_cast hi'
      push_cast
      linarith
    have p2 : (0 : ℝ) < (i : ℝ) + 1 := by positivity
    rw [div_eq_div_iff (by positivity) (by positivity)]
    linear_combination ((n : ℝ) + 2) * e1' + (((n + 1 : Nat) : ℝ) - i) * e2'
  have hl : meanLoop (n + 1) = ∑ i ∈ Finset.range (n + 1), (Nat.choose n i : ℝ) / ((i + 1) * (((n + 1 : Nat) : ℝ) - i)) := by
    rw [Finset.sum_range_succ, meanLoop, hf, hs]
    simp
  rw [hl, Finset.sum_congr rfl ht, ← Finset.sum_div]
  congr 1
  have h2 := Nat.sum_range_choose (n + 2)
  rw [Finset.sum_range_succ', Finset.sum_range_succ] at h2
  have := congrArg (Nat.cast (R := ℝ)) h2
  push_cast at this
  simp at this
  linarith

theorem mean_patch (n : Nat) : ∫ x in (0 : ℝ)..1, ∫ y in (0 : ℝ)..1, ((x + y) ^ n - meanLoop (n + 1)) = 0 := by
  have p1 : (n : ℝ) + 1 ≠ 0 := by positivity
  have p2 : (n : ℝ) + 2 ≠ 0 := by positivity
  refine mean_of_primitive (q := fun p => (p.1 + p.2) ^ n - meanLoop (n + 1)) (fun x y => (x + y) ^ (n + 1) / (n + 1) - meanLoop (n + 1) * y)
    (fun x => ((x + 1) ^ (n + 2) - x ^ (n + 2)) / ((n + 1) * (n + 2)) - meanLoop (n + 1) * x) (fun x y => ?_) (by fun_prop) (fun x => ?_) (by fun_prop) ?_
  · apply HasDerivAt.congr_deriv
    · derive
    · simp
      field_simp
  · apply HasDerivAt.congr_deriv
    · derive
    · simp
      field_simp
      ring
  · simp only [meanLoop_eq]
    field_simp
    norm_num

/-- `Patch_Test` of the Brinkman example, for every order of the space (at least 2): the velocity is `((x+y)^k, (x+y)^k)`. -/
theorem C157_patch (k : Nat) (hk : 2 ≤ k) : SquareFlow (brinkmanPatchData k) 0 1 ∧ ∀ p, ∀ h < 2, (brinkmanPatchData k).velocity p h = (p.1 + p.2) ^ k := by
  obtain ⟨n, rfl⟩ : ∃ n, k = n + 2 := ⟨k - 2, by omega⟩
  have hv : ∀ p, ∀ h < 2, (brinkmanPatchData (n + 2)).velocity p h = (p.1 + p.2) ^ (n + 2) := by
    intro p h hh
    interval_cases h <;> simp [brinkmanPatchData, components, powerLoop_eq]
  refine ⟨⟨⟨?_, ?_, ?_⟩, ?_, ?_⟩, hv⟩
  · intro h hh
    refine has_partials (fun x y => ?_) (fun x y => ?_) <;> simp only [hv _ _ hh] <;> interval_cases h <;>
      simp only [brinkmanPatchData, components, derivatives, powerLoop_eq, ↓reduceIte, one_ne_zero]
    all_goals
      apply HasDerivAt.congr_deriv
      · derive
      · simp
        ring
  · refine ⟨fun p => (n + 1) * (p.1 + p.2) ^ n, fun p => (n + 1) * (p.1 + p.2) ^ n, has_partials (fun x y => ?_) (fun x y => ?_), ?_⟩
    · simp only [brinkmanPatchData, powerLoop_eq]
      apply HasDerivAt.congr_deriv
      · derive
      · simp
    · simp only [brinkmanPatchData, powerLoop_eq]
      apply HasDerivAt.congr_deriv
      · derive
      · simp
    · intro h hh x y
      interval_cases h
      all_goals
        simp only [brinkmanPatchData, components, derivatives, powerLoop_eq, ↓reduceIte, one_ne_zero]
        apply divergence_intro
        · derive
        · derive
        · simp
          ring
  · intro p
    simp [brinkmanPatchData, components, derivatives, powerLoop_eq]
    ring
  · intro h hh
    refine bottom_agrees (fun p => ?_) (fun p hp => ?_)
    · interval_cases h <;> simp [brinkmanPatchData, components, powerLoop_eq]
    · interval_cases h <;> simp [brinkmanPatchData, components, derivatives, powerLoop_eq, outward] <;> ring
  · have := mean_patch (n + 1)
    simpa [brinkmanPatchData, powerLoop_eq] using this

theorem sine_partials (h : Nat) (hh : h < 2) : HasPartials (fun p => sineVelocity p h) (fun p => sineGradient p h 0) (fun p => sineGradient p h 1) := by
  refine has_partials (fun x y => ?_) (fun x y => ?_) <;> interval_cases h <;> simp only [sineVelocity, sineGradient, components, derivatives, ↓reduceIte, one_ne_zero]
  all_goals
    apply HasDerivAt.congr_deriv
    · derive
    · ring

theorem sine_laplace (h : Nat) (hh : h < 2) : DivergenceIs (fun p => 1 * sineGradient p h 0) (fun p => 1 * sineGradient p h 1) (fun p => sineLaplacian p h) := by
  intro x y
  interval_cases h
  all_goals
    simp only [sineLaplacian, sineGradient, components, derivatives, ↓reduceIte, one_ne_zero]
    apply divergence_intro
    · derive
    · derive
    · ring

theorem sine_pressure : HasPartials (fun p => sin p.1 - sin p.2) (fun p => cos p.1) (fun p => -cos p.2) := by
  refine has_partials (fun x y => ?_) (fun x y => ?_) <;> dsimp only
  all_goals
    apply HasDerivAt.congr_deriv
    · derive
    · ring

theorem sine_mean : ∫ x in (0 : ℝ)..1, ∫ y in (0 : ℝ)..1, (sin x - sin y) = 0 := by
  refine mean_of_primitive (q := fun p => sin p.1 - sin p.2) (fun x y => sin x * y + cos y) (fun x => -cos x + (cos 1 - 1) * x) (fun x y => ?_) (by fun_prop) (fun x => ?_) (by fun_prop) ?_
  · apply HasDerivAt.congr_deriv
    · derive
    · ring
  · apply HasDerivAt.congr_deriv
    · derive
    · simp
      ring
  · simp only [mul_one, mul_zero, Real.cos_zero]
    ring

theorem divergence_congr {a b c d : ℝ × ℝ → ℝ} (h : DivergenceIs a b c) (e : ∀ p, d p = c p) : DivergenceIs a b d := by
  intro x y
  obtain ⟨a', b', ha, hb, hc⟩ := h x y
  exact ⟨a', b', ha, hb, by rw [e, hc]⟩

/-- `StokesSinSin` of the Brinkman example. -/
theorem C157_sine : SquareFlow brinkmanSineData 0 1 where
  partials := sine_partials
  balance := by
    refine ⟨_, _, sine_pressure, fun h hh => divergence_congr (sine_laplace h hh) fun p => ?_⟩
    interval_cases h <;> simp [brinkmanSineData, components, derivatives]
  divergence p := by
    simp [brinkmanSineData, sineGradient, components, derivatives]
    ring
  boundary h hh := by
    refine bottom_agrees (fun p => rfl) (fun p hp => ?_)
    have h0 := side0 hp
    interval_cases h <;> simp [brinkmanSineData, sineGradient, components, derivatives, outward, h0]
  mean := sine_mean

/-- `Stokes_ZeroVelocity_1` and `Stokes_ZeroVelocity_2`. -/
theorem C157_zero : SquareFlow zeroVelocityData1 0 1 ∧ SquareFlow zeroVelocityData2 0 1 := by
  constructor
  · refine ⟨⟨?_, ?_, ?_⟩, ?_, ?_⟩
    · intro h hh
      refine has_partials (fun x y => ?_) (fun x y => ?_) <;> interval_cases h <;> simpa [zeroVelocityData1, components, derivatives] using real_const 0 _
    · refine ⟨fun p => 3 * p.1 * p.1, fun p => -3 * p.2 * p.2, has_partials (fun x y => ?_) (fun x y => ?_), ?_⟩
      · simp only [zeroVelocityData1]
        apply HasDerivAt.congr_deriv
        · derive
        · ring
      · simp only [zeroVelocityData1]
        apply HasDerivAt.congr_deriv
        · derive
        · ring
      · intro h hh x y
        refine ⟨0, 0, ?_, ?_, ?_⟩ <;> interval_cases h <;> simp [zeroVelocityData1, components, derivatives, hasDerivAt_const]
    · intro p
      simp [zeroVelocityData1, components, derivatives]
    · intro h hh
      refine strong_agrees _ fun p => ?_
      interval_cases h <;> simp [zeroVelocityData1]
    · refine mean_of_primitive (q := zeroVelocityData1.pressure) (fun x y => x * x * x * y - y * y * y * y / 4) (fun x => x * x * x * x / 4 - x / 4) (fun x y => ?_)
        (by unfold zeroVelocityData1; fun_prop) (fun x => ?_) (by fun_prop) (by norm_num)
      · simp only [zeroVelocityData1]
        apply HasDerivAt.congr_deriv
        · derive
        · ring
      · apply HasDerivAt.congr_deriv
        · derive
        · ring
  · refine ⟨⟨?_, ?_, ?_⟩, ?_, ?_⟩
    · intro h hh
      refine has_partials (fun x y => ?_) (fun x y => ?_) <;> interval_cases h <;> simpa [zeroVelocityData2, components, derivatives] using real_const 0 _
    · refine ⟨fun p => 2 * Real.pi * cos (2 * Real.pi * p.1) * sin (2 * Real.pi * p.2), fun p => 2 * Real.pi * sin (2 * Real.pi * p.1) * cos (2 * Real.pi * p.2),
        has_partials (fun x y => ?_) (fun x y => ?_), ?_⟩
      · simp only [zeroVelocityData2]
        apply HasDerivAt.congr_deriv
        · derive
        · ring
      · simp only [zeroVelocityData2]
        apply HasDerivAt.congr_deriv
        · derive
        · ring
      · intro h hh x y
        refine ⟨0, 0, ?_, ?_, ?_⟩ <;> interval_cases h <;> simp [zeroVelocityData2, components, derivatives, hasDerivAt_const]
    · intro p
      simp [zeroVelocityData2, components, derivatives]
    · intro h hh
      refine strong_agrees _ fun p => ?_
      interval_cases h <;> simp [zeroVelocityData2]
    · have hp : Real.pi ≠ 0 := Real.pi_ne_zero
      refine mean_of_primitive (q := zeroVelocityData2.pressure) (fun x y => -(sin (2 * Real.pi * x) * cos (2 * Real.pi * y)) / (2 * Real.pi)) (fun x => 0) (fun x y => ?_)
        (by unfold zeroVelocityData2; fun_prop) (fun x => ?_) (by fun_prop) rfl
      · simp only [zeroVelocityData2]
        apply HasDerivAt.congr_deriv
        · derive
        · field_simp
          ring
      · simpa using real_const 0 x

/-- `Darcy`: without viscosity. -/
theorem C157_darcy : SquareFlow darcyData 0 1 := by
  refine ⟨⟨?_, ?_, ?_⟩, ?_, ?_⟩
  · intro h hh
    refine has_partials (fun x y => ?_) (fun x y => ?_) <;> interval_cases h <;> simp only [darcyData, components, derivatives, ↓reduceIte, one_ne_zero]
    all_goals
      apply HasDerivAt.congr_deriv
      · derive
      · ring
  · refine ⟨fun p => -Real.pi * sin (Real.pi * p.1) * cos (Real.pi * p.2), fun p => -Real.pi * cos (Real.pi * p.1) * sin (Real.pi * p.2), has_partials (fun x y => ?_) (fun x y => ?_), ?_⟩
    · simp only [darcyData]
      apply HasDerivAt.congr_deriv
      · derive
      · ring
    · simp only [darcyData]
      apply HasDerivAt.congr_deriv
      · derive
      · ring
    · intro h hh x y
      refine ⟨0, 0, ?_, ?_, ?_⟩ <;> interval_cases h <;> simp [darcyData, components, derivatives, hasDerivAt_const]
  · intro p
    simp [darcyData, components, derivatives]
    ring
  · intro h hh
    refine ⟨⟨0, rfl⟩, ?_, ?_⟩
    · intro i hi p _
      refine Or.inr ⟨2 + 2 * i, ?_, ?_⟩
      · interval_cases i <;> rfl
      · interval_cases i <;> interval_cases h <;> simp [darcyData, components, outward]
    · intro i hi
      refine Or.inr ⟨⟨0, ?_⟩, ?_, ?_⟩
      · interval_cases i <;> rfl
      all_goals
        rintro ⟨m, hm⟩
        interval_cases i <;> simp [boundaryTable, darcyData] at hm
  · have hp : Real.pi ≠ 0 := Real.pi_ne_zero
    refine mean_of_primitive (q := darcyData.pressure) (fun x y => cos (Real.pi * x) * sin (Real.pi * y) / Real.pi) (fun x => 0) (fun x y => ?_)
      (by unfold darcyData; fun_prop) (fun x => ?_) (by fun_prop) rfl
    · simp only [darcyData]
      apply HasDerivAt.congr_deriv
      · derive
      · field_simp
        ring
    · simpa using real_const 0 x

/-- `Brinkman`: viscosity and resistance one. -/
theorem C157_brinkman : SquareFlow brinkmanData 0 1 := by
  refine ⟨⟨?_, ?_, ?_⟩, ?_, ?_⟩
  · intro h hh
    refine has_partials (fun x y => ?_) (fun x y => ?_) <;> interval_cases h <;> simp only [brinkmanData, components, derivatives, ↓reduceIte, one_ne_zero]
    all_goals
      apply HasDerivAt.congr_deriv
      · derive
      · ring
  · refine ⟨fun p => 2 * p.1 * p.2 * p.2, fun p => 2 * p.2 * p.1 * p.1, has_partials (fun x y => ?_) (fun x y => ?_), ?_⟩
    · simp only [brinkmanData]
      apply HasDerivAt.congr_deriv
      · derive
      · ring
    · simp only [brinkmanData]
      apply HasDerivAt.congr_deriv
      · derive
      · ring
    · intro h hh x y
      interval_cases h
      all_goals
        simp only [brinkmanData, components, derivatives, ↓reduceIte, one_ne_zero]
        apply divergence_intro
        · derive
        · derive
        · ring
  · intro p
    simp [brinkmanData, components, derivatives]
  · intro h hh
    exact strong_agrees _ fun p => rfl
  · refine mean_of_primitive (q := brinkmanData.pressure) (fun x y => x * x * y * y * y / 3 - y / 9) (fun x => x * x * x / 9 - x / 9) (fun x y => ?_)
      (by unfold brinkmanData; fun_prop) (fun x => ?_) (by fun_prop) (by norm_num)
    · simp only [brinkmanData]
      apply HasDerivAt.congr_deriv
      · derive
      · ring
    · apply HasDerivAt.congr_deriv
      · derive
      · ring

-- C157: order 2 at (1/2, 0); the mean of `x + y` is one
example : SquareFlow (brinkmanPatchData 2) 0 1 ∧ (brinkmanPatchData 2).weak 2 (1 / 2, 0) 1 = .ok (5 / 2) := by
  refine ⟨(C157_patch 2 le_rfl).1, ?_⟩
  have := meanLoop_eq 1
  norm_num at this
  simp [brinkmanPatchData, components, powerLoop_eq, this]
  norm_num

/-- `Patch_Test` of the Navier-Stokes example, for every order of the space: the convective term of the velocity `((x+y)^k, -(x+y)^k)` is zero, so that the data fit with and without it. -/
theorem C158_patch (k : Nat) (hk : 2 ≤ k) (c : ℝ) : SquareFlow (navierPatchData k) c (-1) ∧
    ∀ p, (navierPatchData k).weak 2 p 0 = .ok (2 * (navierPatchData k).gradient p 0 1) ∧ (navierPatchData k).weak 2 p 1 = .ok (2 * (navierPatchData k).gradient p 1 1 + (navierPatchData k).pressure p) := by
  obtain ⟨n, rfl⟩ : ∃ n, k = n + 2 := ⟨k - 2, by omega⟩
  refine ⟨⟨⟨?_, ?_, ?_⟩, ?_, ?_⟩, ?_⟩
  · intro h hh
    refine has_partials (fun x y => ?_) (fun x y => ?_) <;> interval_cases h <;> simp only [navierPatchData, components, derivatives, powerLoop_eq, ↓reduceIte, one_ne_zero]
    all_goals
      apply HasDerivAt.congr_deriv
      · derive
      · simp
        ring
  · refine ⟨fun p => (n + 1) * (p.1 + p.2) ^ n, fun p => (n + 1) * (p.1 + p.2) ^ n, has_partials (fun x y => ?_) (fun x y => ?_), ?_⟩
    · simp only [navierPatchData, powerLoop_eq]
      apply HasDerivAt.congr_deriv
      · derive
      · simp
    · simp only [navierPatchData, powerLoop_eq]
      apply HasDerivAt.congr_deriv
      · derive
      · simp
    · intro h hh x y
      interval_cases h
      all_goals
        simp only [navierPatchData, components, derivatives, powerLoop_eq, ↓reduceIte, one_ne_zero]
        apply divergence_intro
        · derive
        · derive
        · simp
          ring
  · intro p
    simp [navierPatchData, components, derivatives, powerLoop_eq]
  · intro h hh
    exact strong_agrees _ fun p => rfl
  · have := mean_patch (n + 1)
    simpa [navierPatchData, powerLoop_eq] using this
  · intro p
    constructor <;> simp [navierPatchData, components, derivatives, powerLoop_eq] <;> ring

/-- `StokesSinSin` of the Navier-Stokes example belongs to the problem without the convective term (the option `None`), and not to the one with it (the default option). -/
theorem C158_sine : SquareFlow navierSineData 0 (-1) ∧ ¬SolvesFlow navierSineData 1 (-1) := by
  refine ⟨⟨⟨sine_partials, ?_, ?_⟩, ?_, sine_mean⟩, ?_⟩
  · refine ⟨_, _, sine_pressure, fun h hh => divergence_congr (sine_laplace h hh) fun p => ?_⟩
    interval_cases h <;> simp [navierSineData, components, derivatives]
    ring
  · intro p
    simp [navierSineData, sineGradient, components, derivatives]
    ring
  · intro h hh
    refine bottom_agrees (fun p => rfl) (fun p hp => ?_)
    have h0 := side0 hp
    interval_cases h <;> simp [navierSineData, sineGradient, components, derivatives, outward, h0]
  · intro hs
    obtain ⟨gx, gy, hp, hb⟩ := hs.balance
    have e1 : gx (1 / 2, 0) = cos (1 / 2) := (hp (1 / 2) 0).1.unique (sine_pressure (1 / 2) 0).1
    obtain ⟨a, b, ha, hb', hc⟩ := hb 0 (by norm_num) (1 / 2) 0
    obtain ⟨a', b', ha', hb'', hc'⟩ := sine_laplace 0 (by norm_num) (1 / 2) 0
    have ea := ha.unique ha'
    have eb := hb'.unique hb''
    have p1 : 0 < sin (1 / 2) := Real.sin_pos_of_pos_of_lt_pi (by norm_num) (by linarith [Real.two_le_pi])
    have p2 : 0 < cos (1 / 2) := Real.cos_pos_of_mem_Ioo ⟨by linarith [Real.two_le_pi], by linarith [Real.two_le_pi]⟩
    rw [ea, eb, ← hc'] at hc
    simp only [navierSineData, sineVelocity, sineGradient, components, derivatives, ↓reduceIte, one_ne_zero, e1, Real.sin_zero, Real.cos_zero] at hc
    have : 0 < cos (1 / 2) * cos (1 / 2) * (cos (1 / 2) * sin (1 / 2)) := by positivity
    nlinarith

theorem sin_four (t : ℝ) : sin (4 * Real.pi * t) = 2 * sin (2 * Real.pi * t) * cos (2 * Real.pi * t) := by
  rw [show 4 * Real.pi * t = 2 * (2 * Real.pi * t) by ring, Real.sin_two_mul]

theorem cos_four (t : ℝ) : cos (4 * Real.pi * t) = cos (2 * Real.pi * t) ^ 2 - sin (2 * Real.pi * t) ^ 2 := by
  rw [show 4 * Real.pi * t = 2 * (2 * Real.pi * t) by ring, Real.cos_two_mul, Real.sin_sq]
  ring

/-- `NavierStokes`: with the convective term. -/
theorem C158_navier : SquareFlow navierData 1 (-1) := by
  have trig : ∀ t : ℝ, sin (2 * Real.pi * t) ^ 2 = 1 - cos (2 * Real.pi * t) ^ 2 := fun t => Real.sin_sq _
  refine ⟨⟨?_, ?_, ?_⟩, ?_, ?_⟩
  · intro h hh
    refine has_partials (fun x y => ?_) (fun x y => ?_) <;> interval_cases h <;> simp only [navierData, navierVelocity, components, derivatives, ↓reduceIte, one_ne_zero, cos_four]
    all_goals
      apply HasDerivAt.congr_deriv
      · derive
      · ring
  · refine ⟨fun p => 2 * Real.pi * Real.pi * Real.pi * cos (2 * Real.pi * p.1) * cos (2 * Real.pi * p.2), fun p => -2 * Real.pi * Real.pi * Real.pi * sin (2 * Real.pi * p.1) * sin (2 * Real.pi * p.2),
      has_partials (fun x y => ?_) (fun x y => ?_), ?_⟩
    · simp only [navierData]
      apply HasDerivAt.congr_deriv
      · derive
      · ring
    · simp only [navierData]
      apply HasDerivAt.congr_deriv
      · derive
      · ring
    · intro h hh x y
      have tx := trig x
      have ty := trig y
      interval_cases h
      · simp only [navierData, navierVelocity, components, derivatives, ↓reduceIte, one_ne_zero, cos_four, sin_four]
        apply divergence_intro
        · derive
        · derive
        · linear_combination 1 / 2 * Real.pi * sin (2 * Real.pi * x) ^ 3 * sin (2 * Real.pi * y) ^ 2 * cos (2 * Real.pi * x) * ty +
            2 / 5 * Real.pi ^ 2 * sin (2 * Real.pi * y) * cos (2 * Real.pi * y) * tx
      · simp only [navierData, navierVelocity, components, derivatives, ↓reduceIte, one_ne_zero, cos_four, sin_four]
        apply divergence_intro
        · derive
        · derive
        · linear_combination 1 / 2 * Real.pi * sin (2 * Real.pi * x) ^ 2 * sin (2 * Real.pi * y) ^ 3 * cos (2 * Real.pi * y) * tx -
            2 / 5 * Real.pi ^ 2 * sin (2 * Real.pi * x) * cos (2 * Real.pi * x) * ty
  · intro p
    simp [navierData, components, derivatives]
  · intro h hh
    refine bottom_agrees (fun p => rfl) (fun p hp => ?_)
    interval_cases h <;> simp [navierData, components, derivatives, outward] <;> ring
  · have hp : Real.pi ≠ 0 := Real.pi_ne_zero
    refine mean_of_primitive (q := navierData.pressure) (fun x y => Real.pi * sin (2 * Real.pi * x) * sin (2 * Real.pi * y) / 2) (fun x => 0) (fun x y => ?_)
      (by unfold navierData; fun_prop) (fun x => ?_) (by fun_prop) rfl
    · simp only [navierData]
      apply HasDerivAt.congr_deriv
      · derive
      · ring
    · simpa using real_const 0 x

/-- `NavierStokes_VanishingExternalLoad`: the source is zero, and every boundary point has the velocity as strong datum. -/
theorem C158_disk : SolvesFlow navierDiskData 1 (-1) ∧ (∀ p, ∀ h < 2, navierDiskData.source p h = 0) ∧ (∀ p, ∀ h < 2, navierDiskData.strong 1 p h = .ok (navierDiskData.velocity p h)) ∧
    boundaryTable navierDiskData.info 1 = some ⟨.strong, 1⟩ := by
  refine ⟨⟨?_, ?_, ?_⟩, ?_, fun p h _ => rfl, rfl⟩
  · intro h hh
    refine has_partials (fun x y => ?_) (fun x y => ?_) <;> interval_cases h <;> simp only [navierDiskData, components, derivatives, ↓reduceIte, one_ne_zero]
    all_goals
      apply HasDerivAt.congr_deriv
      · derive
      · ring
  · refine ⟨fun p => 18 * p.1 * (p.1 * p.1 + p.2 * p.2), fun p => 18 * p.2 * (p.1 * p.1 + p.2 * p.2), has_partials (fun x y => ?_) (fun x y => ?_), ?_⟩
    · simp only [navierDiskData]
      apply HasDerivAt.congr_deriv
      · derive
      · ring
    · simp only [navierDiskData]
      apply HasDerivAt.congr_deriv
      · derive
      · ring
    · intro h hh x y
      interval_cases h
      all_goals
        simp only [navierDiskData, components, derivatives, ↓reduceIte, one_ne_zero]
        apply divergence_intro
        · derive
        · derive
        · ring
  · intro p
    simp [navierDiskData, components, derivatives]
  · intro p h hh
    interval_cases h <;> simp [navierDiskData, components]

-- C158: order 3 at (1/4, 1/4)
example : SquareFlow (navierPatchData 3) 1 (-1) ∧ (navierPatchData 3).source (1 / 4, 1 / 4) 0 = -13 := by
  refine ⟨(C158_patch 3 (by norm_num) 1).1, ?_⟩
  norm_num [navierPatchData, components, powerLoop_eq]

end PolyDiM
