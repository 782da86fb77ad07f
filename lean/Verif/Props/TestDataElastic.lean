import Verif.Lemmas.TestData

/-!
# C152, C153: the data of the elasticity tests
-/

namespace PolyDiM

open Spec

/-- The data belong to the displacement `u` with gradient `g`: the derivatives of `u` are `g`, the divergence of the stress is minus the source, and the conditions at the boundary of the
unit square are those of `u`, with the normal stress as natural datum. -/
structure SolvesElastic (D : ElasticData) (u : ℝ × ℝ → Nat → ℝ) (g : ℝ × ℝ → Nat → Nat → ℝ) : Prop where
  value : ∀ p, ∀ h < 2, D.value p h = .ok (u p h)
  gradient : ∀ p, ∀ d1 < 2, ∀ d2 < 2, D.gradient p d1 d2 = .ok (g p d1 d2)
  partials : ∀ h < 2, HasPartials (fun p => u p h) (fun p => g p h 0) (fun p => g p h 1)
  balance : ∀ h < 2, DivergenceIs (fun p => stress (D.lame p 0) (D.lame p 1) (g p) h 0) (fun p => stress (D.lame p 0) (D.lame p 1) (g p) h 1) (fun p => -D.source p h)
  boundary : ∀ h < 2, BoundaryAgrees (boundaryTable D.info) (fun m p => D.strong m p h) (fun m p => D.weak m p h) (fun _ p => u p h)
    (fun i p => stress (D.lame p 0) (D.lame p 1) (g p) h 0 * (outward i).1 + stress (D.lame p 0) (D.lame p 1) (g p) h 1 * (outward i).2)

/-- The data of `Patch_Test` belong to the displacement `((x+y)^k, (x+y)^k)`, for every order. -/
theorem C152_patch (k : Nat) : SolvesElastic (elasticPatchData k) (fun p _ => (p.1 + p.2) ^ k) (fun p _ _ => k * (p.1 + p.2) ^ (k - 1)) where
  value p h hh := by
    interval_cases h <;> simp [elasticPatchData, components, powerLoop_eq]
  gradient p d1 h1 d2 h2 := by
    interval_cases d1 <;> interval_cases d2 <;> simp [elasticPatchData, components, derivatives, powerLoop_eq, mul_comm]
  partials h hh := by
    refine has_partials (fun x y => ?_) (fun x y => ?_) <;> dsimp only
    · apply HasDerivAt.congr_deriv
      · derive
      · simp
    · apply HasDerivAt.congr_deriv
      · derive
      · simp
  balance h hh x y := by
    have hs : ∀ p, (elasticPatchData k).source p h = -6 * k * (k - 1 : Nat) * (p.1 + p.2) ^ (k - 2) := by
      intro p
      rcases Nat.lt_or_ge k 2 with h2 | h2
      · have : k = 0 ∨ k = 1 := by omega
        rcases this with rfl | rfl <;> interval_cases h <;> simp [elasticPatchData, components]
      · interval_cases h <;> simp [elasticPatchData, components, powerLoop_eq, Nat.not_lt.2 h2]
    simp only [hs]
    simp only [stress, strain, elasticPatchData]
    have e : k - 1 - 1 = k - 2 := by omega
    interval_cases h
    all_goals
      simp only [↓reduceIte, zero_ne_one, one_ne_zero]
      apply divergence_intro
      · derive
      · derive
      · simp [e]
        ring
  boundary h hh := by
    refine ⟨⟨0, rfl⟩, ?_, ?_⟩
    · intro i hi p hp
      interval_cases i
      · refine Or.inr ⟨2, rfl, ?_⟩
        interval_cases h <;> simp [elasticPatchData, components, powerLoop_eq, stress, strain, outward] <;> ring
      · refine Or.inl ⟨1, rfl, ?_⟩
        interval_cases h <;> simp [elasticPatchData, components, powerLoop_eq]
      · refine Or.inl ⟨1, rfl, ?_⟩
        interval_cases h <;> simp [elasticPatchData, components, powerLoop_eq]
      · refine Or.inr ⟨4, rfl, ?_⟩
        interval_cases h <;> simp [elasticPatchData, components, powerLoop_eq, stress, strain, outward] <;> ring
    · intro i hi
      interval_cases i
      · refine Or.inr ⟨⟨0, rfl⟩, ?_, ?_⟩ <;> rintro ⟨m, hm⟩ <;> simp [boundaryTable, elasticPatchData] at hm
      all_goals
        refine Or.inl ⟨1, rfl, ?_, ?_⟩
        · interval_cases h <;> simp [elasticPatchData, components, powerLoop_eq]
        · first
          | exact Or.inl ⟨1, rfl⟩
          | exact Or.inr ⟨1, rfl⟩

/-- The data of `LinearElasticity` belong to the displacement `(g, 5 g)`, `g = 16 x (1-x) y (1-y) + 1.1`. -/
theorem C152_plate : SolvesElastic elasticPlateData (fun p h => (if h = 0 then 1 else 5) * (16 * p.1 * (1 - p.1) * p.2 * (1 - p.2) + 11 / 10))
    (fun p h d => (if h = 0 then 1 else 5) * (if d = 0 then 16 * (1 - 2 * p.1) * p.2 * (1 - p.2) else 16 * (1 - 2 * p.2) * p.1 * (1 - p.1))) where
  value p h hh := by
    interval_cases h <;> simp [elasticPlateData, components]
  gradient p d1 h1 d2 h2 := by
    interval_cases d1 <;> interval_cases d2 <;> simp [elasticPlateData, components, derivatives] <;> ring
  partials h hh := by
    refine has_partials (fun x y => ?_) (fun x y => ?_) <;> dsimp only
    · apply HasDerivAt.congr_deriv
      · derive
      · simp
        ring_nf
    · apply HasDerivAt.congr_deriv
      · derive
      · simp
        ring_nf
  balance h hh x y := by
    interval_cases h
    all_goals
      simp only [stress, strain, elasticPlateData, components, ↓reduceIte, zero_ne_one, one_ne_zero]
      apply divergence_intro
      · derive
      · derive
      · simp
        ring
  boundary h hh := by
    refine ⟨⟨0, rfl⟩, ?_, ?_⟩
    · intro i hi p hp
      interval_cases i
      · refine Or.inl ⟨1, rfl, ?_⟩
        interval_cases h <;> simp [elasticPlateData, components]
      · refine Or.inr ⟨4, rfl, ?_⟩
        have := side1 hp
        interval_cases h <;> simp [elasticPlateData, components, stress, strain, outward, this] <;> ring
      · refine Or.inr ⟨2, rfl, ?_⟩
        have := side2 hp
        interval_cases h <;> simp [elasticPlateData, components, stress, strain, outward, this] <;> ring
      · refine Or.inl ⟨1, rfl, ?_⟩
        interval_cases h <;> simp [elasticPlateData, components]
    · intro i hi
      have h2 : i = 2 ∨ i ≠ 2 := em _
      rcases h2 with rfl | h2
      · refine Or.inr ⟨⟨0, rfl⟩, ?_, ?_⟩ <;> rintro ⟨m, hm⟩ <;> simp [boundaryTable, elasticPlateData] at hm
      refine Or.inl ⟨1, ?_, ?_, ?_⟩
      · interval_cases i <;> first | rfl | exact absurd rfl h2
      · interval_cases h <;> simp [elasticPlateData, components]
      · interval_cases i
        · exact Or.inl ⟨1, rfl⟩
        · exact Or.inr ⟨1, rfl⟩
        · exact absurd rfl h2
        · exact Or.inl ⟨1, rfl⟩

/-- The shear modulus of a material with Young modulus `E` and Poisson ratio `ν`. -/
theorem lame_shear {E ν μ l : ℝ} (h : IsLame E ν μ l) : μ = E / (2 * (1 + ν)) := by
  have := h.1 1
  simp [stress, strain] at this
  linarith

/-- Both coefficients: the usual formulas satisfy the specification. -/
theorem lame_exists {E ν : ℝ} (h0 : 0 ≤ ν) (h1 : ν < 1 / 2) : IsLame E ν (E / (2 * (1 + ν))) (E * ν / ((1 + ν) * (1 - 2 * ν))) := by
  have e1 : (1 + ν) ≠ 0 := by linarith
  have e2 : (1 - ν) ≠ 0 := by linarith
  have e3 : (1 - 2 * ν) ≠ 0 := by linarith
  have e4 : (1 - ν ^ 2) ≠ 0 := by
    have : (1 - ν ^ 2) = (1 - ν) * (1 + ν) := by ring
    rw [this]
    exact mul_ne_zero e2 e1
  refine ⟨fun γ => ?_, fun e => ⟨?_, ?_⟩⟩
  · simp [stress, strain]
    field_simp
  · simp [stress, strain]
    field_simp
    ring
  · simp [stress, strain]
    field_simp
    ring

/-- **The first Lamé coefficient of the beam and of Cook's membrane is the right one, the shear modulus is not**: it is `4 (1 + ν)^2` times too large, for all constants `E ≠ 0` and `ν ≥ 0`. -/
theorem C153_lame_wrong {E ν : ℝ} (hE : E ≠ 0) (h0 : 0 ≤ ν) (h1 : ν < 1 / 2) :
    IsLame E ν (E / (2 * (1 + ν))) (lameOf E ν 1) ∧ (∀ l, ¬IsLame E ν (lameOf E ν 0) l) ∧ ∀ μ l, IsLame E ν μ l → lameOf E ν 0 = 4 * (1 + ν) ^ 2 * μ := by
  refine ⟨lame_exists h0 h1, fun l h => ?_, fun μ l h => ?_⟩
  · have := lame_shear h
    simp [lameOf] at this
    have e1 : (1 + ν) ≠ 0 := by linarith
    field_simp at this
    nlinarith
  · rw [lame_shear h]
    simp [lameOf]
    have e1 : (1 + ν) ≠ 0 := by linarith
    field_simp
    ring

-- C152: for order 3 the force at (1/4, 1/4) and the traction at the bottom are not zero
example : (elasticPatchData 3).source (1 / 4, 1 / 4) 0 = -18 ∧ (elasticPatchData 3).weak 2 (1 / 2, 0) 1 = .ok (-3) := by
  constructor
  · norm_num [elasticPatchData, components, powerLoop_eq]
  · simp [elasticPatchData, components, powerLoop_eq]
    norm_num

-- C153: the constants of Cook's membrane
example : lameOf 70 (1 / 3) 0 = 4 * (1 + 1 / 3) ^ 2 * (70 / (2 * (1 + 1 / 3))) ∧ elasticCookData.lame (0, 0) 0 = 560 / 3 := by
  refine ⟨(C153_lame_wrong (by norm_num) (by norm_num) (by norm_num)).2.2 _ _ (lame_exists (by norm_num) (by norm_num)), ?_⟩
  norm_num [elasticCookData, lameOf]

/-- Twice the area enclosed by a polygon (the shoelace formula). -/
def doubleArea (L : List (ℝ × ℝ)) : ℝ := ((List.range L.length).map fun i => (L.getD i 0).1 * (L.getD ((i + 1) % L.length) 0).2 - (L.getD ((i + 1) % L.length) 0).1 * (L.getD i 0).2).sum

/-- The area stored in the domain is that of the polygon for all tests but Cook's membrane, and their domains, declared parallelograms, are parallelograms. -/
theorem C153_area_partial (k : Nat) : doubleArea (elasticPatchData k).vertices = 2 * (elasticPatchData k).area ∧ doubleArea elasticPlateData.vertices = 2 * elasticPlateData.area ∧
    doubleArea elasticBeamData.vertices = 2 * elasticBeamData.area ∧
    ∀ D ∈ [elasticPatchData k, elasticPlateData, elasticBeamData], D.shape = .parallelogram ∧ D.vertices.getD 0 0 + D.vertices.getD 2 0 = D.vertices.getD 1 0 + D.vertices.getD 3 0 := by
  refine ⟨?_, ?_, ?_, ?_⟩
  rotate_left 3
  · simp [elasticPatchData, elasticPlateData, elasticBeamData, unitCorners]
  all_goals simp [doubleArea, elasticPatchData, elasticPlateData, elasticBeamData, unitCorners, List.range_succ] <;> norm_num

/-- The polygon of Cook's membrane has the area 1440, the stored area is 1408; the domain is declared a parallelogram, which it is not: the mesh generators for parallelograms use the first,
second and last vertex only, and cover a domain with the corner `(48, 88)` instead of `(48, 60)`. -/
theorem C153_area_wrong : doubleArea elasticCookData.vertices = 2 * 1440 ∧ elasticCookData.area = 1408 ∧ elasticCookData.shape = .parallelogram ∧
    elasticCookData.vertices.getD 2 0 = (48, 60) ∧ elasticCookData.vertices.getD 1 0 + elasticCookData.vertices.getD 3 0 - elasticCookData.vertices.getD 0 0 = (48, 88) := by
  refine ⟨?_, rfl, rfl, by simp [elasticCookData], by simp [elasticCookData]; norm_num⟩
  simp [doubleArea, elasticCookData, List.range_succ]
  norm_num

end PolyDiM
