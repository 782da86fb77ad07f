import Verif.Props.TestDataFlow
import Verif.Spec.TestDataSpace
import Verif.Model.TestDataSpace
import Mathlib.Data.Nat.Choose.Cast

/-!
# C159 to C162: the data of the tests on the unit cube
-/

namespace PolyDiM

open Spec
open Real (sin cos)

theorem has_partials3 {u gx gy gz : ℝ × ℝ × ℝ → ℝ} (hx : ∀ x y z, HasDerivAt (fun t => u (t, y, z)) (gx (x, y, z)) x) (hy : ∀ x y z, HasDerivAt (fun t => u (x, t, z)) (gy (x, y, z)) y)
    (hz : ∀ x y z, HasDerivAt (fun t => u (x, y, t)) (gz (x, y, z)) z) : HasPartials3 u gx gy gz := fun x y z => ⟨hx x y z, hy x y z, hz x y z⟩

theorem divergence_intro3 {f g h : ℝ → ℝ} {x y z a b c d : ℝ} (ha : HasDerivAt f a x) (hb : HasDerivAt g b y) (hc : HasDerivAt h c z) (hd : d = a + b + c) :
    ∃ a' b' c', HasDerivAt f a' x ∧ HasDerivAt g b' y ∧ HasDerivAt h c' z ∧ d = a' + b' + c' := ⟨a, b, c, ha, hb, hc, hd⟩

theorem cube_strong {strong weak : Nat → ℝ × ℝ × ℝ → Except Fault ℝ} {u : ℝ × ℝ × ℝ → ℝ} {natural : Nat → ℝ × ℝ × ℝ → ℝ} (h : ∀ p, strong 1 p = .ok (u p)) :
    CubeAgrees (boundaryTable cubeStrongTable) strong weak u natural := by
  have hb : ∀ j, j < 26 → boundaryTable cubeStrongTable (1 + j) = some ⟨.strong, 1⟩ := by
    intro j hj
    interval_cases j <;> rfl
  refine ⟨⟨0, rfl⟩, ?_, ?_, ?_⟩
  · intro j hj p _
    refine Or.inl ⟨1, ?_, h p⟩
    have := hb (20 + j) (by omega)
    rwa [← Nat.add_assoc] at this
  · intro i hi
    have hf : ∃ j < 6, CornerOn (cubeEdge i).1 j ∧ CornerOn (cubeEdge i).2 j := by
      interval_cases i <;> decide
    obtain ⟨j, hj, h1, h2⟩ := hf
    have e1 := hb (8 + i) (by omega)
    have e2 := hb (20 + j) (by omega)
    rw [← Nat.add_assoc] at e1 e2
    exact Or.inl ⟨1, e1, fun p _ => h p, j, hj, h1, h2, 1, e2⟩
  · intro i hi
    have hf : ∃ j < 6, CornerOn i j := by
      interval_cases i <;> decide
    obtain ⟨j, hj, h1⟩ := hf
    have e2 := hb (20 + j) (by omega)
    rw [← Nat.add_assoc] at e2
    exact Or.inl ⟨1, hb i (by omega), fun p _ => h p, j, hj, h1, 1, e2⟩

/-- The tables of the domain describe the unit cube: corners and edges are those of the specification, every face has four different corners, those of one side of the cube, and edge
`n` of the face joins corners `n` and `n + 1`. -/
theorem C159_cube : cubeDomain.volume = 1 ∧ (∀ d < 3, cubeDomain.vertices[d]? = some ((List.range 8).map fun i => cubeBit i d)) ∧
    cubeDomain.edges = (List.range 12).map cubeEdge ∧ cubeDomain.faces.length = 6 ∧
    ∀ j < 6, ∃ V E, cubeDomain.faces[j]? = some (V, E) ∧ V.length = 4 ∧ E.length = 4 ∧ V.Nodup ∧ (∀ v, v ∈ V ↔ v < 8 ∧ CornerOn v j) ∧
      ∀ n < 4, ∃ e a b, E[n]? = some e ∧ V[n]? = some a ∧ V[(n + 1) % 4]? = some b ∧ (cubeDomain.edges[e]? = some (a, b) ∨ cubeDomain.edges[e]? = some (b, a)) := by
  refine ⟨rfl, ?_, rfl, rfl, ?_⟩
  · intro d hd
    interval_cases d <;> rfl
  · intro j hj
    have key : ∀ j < 6, ∀ v < 8, v ∈ (cubeDomain.faces[j]?.getD ([], [])).1 ↔ CornerOn v j := by decide
    have bound : ∀ j < 6, ∀ v ∈ (cubeDomain.faces[j]?.getD ([], [])).1, v < 8 := by decide
    have k := key j hj
    have b := bound j hj
    interval_cases j
    all_goals
      refine ⟨_, _, rfl, rfl, rfl, by decide, fun v => ⟨fun hv => ⟨b v hv, (k v (b v hv)).1 hv⟩, fun hv => (k v hv.1).2 hv.2⟩, fun n hn => ?_⟩
      interval_cases n <;> refine ⟨_, _, _, rfl, rfl, rfl, ?_⟩ <;> decide

/-- The data belong to one function `u` with `-div(D grad u) = f` in the unit cube. -/
structure SolvesSpace (D : EllipticSpaceData) : Prop where
  partials : HasPartials3 D.exact (fun p => D.gradient p 0) (fun p => D.gradient p 1) (fun p => D.gradient p 2)
  balance : DivergenceIs3 (fun p => D.diffusion p * D.gradient p 0) (fun p => D.diffusion p * D.gradient p 1) (fun p => D.diffusion p * D.gradient p 2) (fun p => -D.source p)
  boundary : CubeAgrees (boundaryTable D.info) D.strong D.weak D.exact
    (fun j p => D.diffusion p * (D.gradient p 0 * cubeNormal j 0 + D.gradient p 1 * cubeNormal j 1 + D.gradient p 2 * cubeNormal j 2))

/-- `Patch_Test` of Elliptic_PCC_3D, for every order. -/
theorem C160_patch (k : Nat) : SolvesSpace (spacePatchData k) ∧ ∀ p, (spacePatchData k).exact p = (p.1 + p.2.1 + p.2.2 + 1 / 2) ^ k := by
  have hv : ∀ p, (spacePatchData k).exact p = (p.1 + p.2.1 + p.2.2 + 1 / 2) ^ k := fun p => by simp [spacePatchData, powerLoop_eq]
  refine ⟨⟨?_, ?_, ?_⟩, hv⟩
  · refine has_partials3 (fun x y z => ?_) (fun x y z => ?_) (fun x y z => ?_) <;> simp only [hv] <;> simp only [spacePatchData, triple, powerLoop_eq, ↓reduceIte, one_ne_zero, OfNat.ofNat_ne_zero, OfNat.ofNat_ne_one]
    all_goals
      apply HasDerivAt.congr_deriv
      · derive
      · simp
  · intro x y z
    simp only [spacePatchData, triple, powerLoop_eq, ↓reduceIte, one_ne_zero, OfNat.ofNat_ne_zero, OfNat.ofNat_ne_one]
    apply divergence_intro3
    · derive
    · derive
    · derive
    · rw [show k - 1 - 1 = k - 2 by omega]
      simp
      ring
  · have st : ∀ j ∈ [1, 2, 3, 4, 5, 6, 7, 8, 9, 10, 12, 13, 14, 15, 16, 17, 18, 19, 20, 22, 23, 24, 25], boundaryTable (spacePatchData k).info j = some ⟨.strong, 1⟩ := by
      simp only [List.mem_cons, List.not_mem_nil, or_false]
      rintro j (rfl | rfl | rfl | rfl | rfl | rfl | rfl | rfl | rfl | rfl | rfl | rfl | rfl | rfl | rfl | rfl | rfl | rfl | rfl | rfl | rfl | rfl | rfl) <;> rfl
    have hs : ∀ p, (spacePatchData k).strong 1 p = .ok ((spacePatchData k).exact p) := fun p => rfl
    refine ⟨⟨0, rfl⟩, ?_, ?_, ?_⟩
    · intro j hj p _
      interval_cases j
      · refine Or.inr ⟨2, rfl, ?_⟩
        simp [spacePatchData, triple, powerLoop_eq, cubeNormal, faceAxis, faceSide]
        ring
      · exact Or.inl ⟨1, st 22 (by simp), hs p⟩
      · exact Or.inl ⟨1, st 23 (by simp), hs p⟩
      · exact Or.inl ⟨1, st 24 (by simp), hs p⟩
      · exact Or.inl ⟨1, st 25 (by simp), hs p⟩
      · refine Or.inr ⟨4, rfl, ?_⟩
        simp [spacePatchData, triple, powerLoop_eq, cubeNormal, faceAxis, faceSide]
        ring
    · intro i hi
      by_cases h2 : i = 2
      · subst h2
        refine Or.inr ⟨⟨0, rfl⟩, fun j hj h1 h2 => ?_⟩
        rintro ⟨m, hm⟩
        interval_cases j
        · simp [boundaryTable, spacePatchData] at hm
        all_goals first
          | exact absurd h1 (by decide)
          | exact absurd h2 (by decide)
          | simp [boundaryTable, spacePatchData] at hm
      · have hf : ∃ j < 4, CornerOn (cubeEdge i).1 (1 + j) ∧ CornerOn (cubeEdge i).2 (1 + j) := by
          interval_cases i <;> first
            | exact absurd rfl h2
            | decide
        obtain ⟨j, hj, e1, e2⟩ := hf
        refine Or.inl ⟨1, ?_, fun p _ => hs p, 1 + j, by omega, e1, e2, 1, ?_⟩
        · apply st
          simp only [List.mem_cons, List.not_mem_nil, or_false]
          omega
        · apply st
          simp only [List.mem_cons, List.not_mem_nil, or_false]
          omega
    · intro i hi
      have hf : ∃ j < 4, CornerOn i (1 + j) := by
        interval_cases i <;> decide
      obtain ⟨j, hj, e1⟩ := hf
      refine Or.inl ⟨1, ?_, fun p _ => hs p, 1 + j, by omega, e1, 1, ?_⟩
      · apply st
        simp only [List.mem_cons, List.not_mem_nil, or_false]
        omega
      · apply st
        simp only [List.mem_cons, List.not_mem_nil, or_false]
        omega

theorem bubble_partials : HasPartials3 bubble (fun p => 64 * (1 - 2 * p.1) * p.2.1 * (1 - p.2.1) * p.2.2 * (1 - p.2.2)) (fun p => 64 * (1 - 2 * p.2.1) * p.1 * (1 - p.1) * p.2.2 * (1 - p.2.2))
    (fun p => 64 * (1 - 2 * p.2.2) * p.1 * (1 - p.1) * p.2.1 * (1 - p.2.1)) := by
  refine has_partials3 (fun x y z => ?_) (fun x y z => ?_) (fun x y z => ?_) <;> simp only [bubble]
  all_goals
    apply HasDerivAt.congr_deriv
    · derive
    · ring

/-- `Poisson_Polynomial_Problem` of Elliptic_PCC_3D. -/
theorem C160_polynomial : SolvesSpace spaceBubbleData where
  partials := bubble_partials
  balance := by
    intro x y z
    simp only [spaceBubbleData, bubbleSource, triple, ↓reduceIte, one_ne_zero, OfNat.ofNat_ne_zero, OfNat.ofNat_ne_one]
    apply divergence_intro3
    · derive
    · derive
    · derive
    · ring
  boundary := cube_strong fun p => rfl

theorem sine_partials3 : HasPartials3 sineProduct (fun p => 2 * Real.pi * cos (2 * Real.pi * p.1) * sin (2 * Real.pi * p.2.1) * sin (2 * Real.pi * p.2.2))
    (fun p => 2 * Real.pi * sin (2 * Real.pi * p.1) * cos (2 * Real.pi * p.2.1) * sin (2 * Real.pi * p.2.2))
    (fun p => 2 * Real.pi * sin (2 * Real.pi * p.1) * sin (2 * Real.pi * p.2.1) * cos (2 * Real.pi * p.2.2)) := by
  refine has_partials3 (fun x y z => ?_) (fun x y z => ?_) (fun x y z => ?_) <;> simp only [sineProduct]
  all_goals
    apply HasDerivAt.congr_deriv
    · derive
    · ring

/-- `Poisson_Problem` of Elliptic_PCC_3D. -/
theorem C160_sine : SolvesSpace spaceSineData where
  partials := sine_partials3
  balance := by
    intro x y z
    simp only [spaceSineData, triple, ↓reduceIte, one_ne_zero, OfNat.ofNat_ne_zero, OfNat.ofNat_ne_one]
    apply divergence_intro3
    · derive
    · derive
    · derive
    · ring
  boundary := cube_strong fun p => rfl

-- C160: order 2 at the centre
example : SolvesSpace (spacePatchData 2) ∧ (spacePatchData 2).exact (1 / 2, 1 / 2, 1 / 2) = 4 := by
  refine ⟨(C160_patch 2).1, ?_⟩
  rw [(C160_patch 2).2]
  norm_num

/-- The data belong to a pressure `p` and the velocity `v = -D grad p + b p` with `div v + r p = f`; strong data are normal velocities, weak data pressures. -/
structure SolvesMixedSpace (D : MixedSpaceData) : Prop where
  inverse : ∀ p, ∀ i < 3, ∀ j < 3, D.inverse p i 0 * D.diffusion p 0 j + D.inverse p i 1 * D.diffusion p 1 j + D.inverse p i 2 * D.diffusion p 2 j = if i = j then 1 else 0
  mixed : ∀ p, ∀ i < 3, D.mixedAdvection p i = D.inverse p i 0 * D.advection p 0 + D.inverse p i 1 * D.advection p 1 + D.inverse p i 2 * D.advection p 2
  darcy : ∃ gx gy gz, HasPartials3 D.pressure gx gy gz ∧ ∀ p, ∀ i < 3, D.velocity p i = -(D.diffusion p i 0 * gx p + D.diffusion p i 1 * gy p + D.diffusion p i 2 * gz p) + D.advection p i * D.pressure p
  balance : DivergenceIs3 (fun p => D.velocity p 0) (fun p => D.velocity p 1) (fun p => D.velocity p 2) (fun p => D.source p - D.reaction p * D.pressure p)
  boundary : FacesAgree (boundaryTable D.info) D.strong D.weak (fun j p => D.velocity p 0 * cubeNormal j 0 + D.velocity p 1 * cubeNormal j 1 + D.velocity p 2 * cubeNormal j 2) D.pressure

/-- `Patch_Test` of Elliptic_MCC_3D, for every order. -/
theorem C161_patch (k : Nat) : SolvesMixedSpace (mixedSpacePatchData k) ∧ ∀ p, (mixedSpacePatchData k).pressure p = (p.1 + p.2.1 + p.2.2 + 1 / 2) ^ k := by
  have hv : ∀ p, (mixedSpacePatchData k).pressure p = (p.1 + p.2.1 + p.2.2 + 1 / 2) ^ k := fun p => by simp [mixedSpacePatchData, powerLoop_eq]
  refine ⟨⟨?_, ?_, ?_, ?_, ?_⟩, hv⟩
  · intro p i hi j hj
    interval_cases i <;> interval_cases j <;> norm_num [mixedSpacePatchData, nine, triple]
  · intro p i hi
    interval_cases i <;> norm_num [mixedSpacePatchData, nine, triple]
  · refine ⟨fun p => k * (p.1 + p.2.1 + p.2.2 + 1 / 2) ^ (k - 1), fun p => k * (p.1 + p.2.1 + p.2.2 + 1 / 2) ^ (k - 1), fun p => k * (p.1 + p.2.1 + p.2.2 + 1 / 2) ^ (k - 1),
      has_partials3 (fun x y z => ?_) (fun x y z => ?_) (fun x y z => ?_), ?_⟩
    iterate 3
      · simp only [hv]
        apply HasDerivAt.congr_deriv
        · derive
        · simp
    · intro p i hi
      rw [hv]
      interval_cases i <;> simp [mixedSpacePatchData, nine, triple, mixedLoop_eq] <;> ring
  · intro x y z
    simp only [hv]
    simp only [mixedSpacePatchData, triple, mixedLoop_eq, mixedSecond_eq, ↓reduceIte, one_ne_zero, OfNat.ofNat_ne_zero, OfNat.ofNat_ne_one]
    apply divergence_intro3
    · derive
    · derive
    · derive
    · rw [show k - 1 - 1 = k - 2 by omega]
      simp
      ring
  · refine ⟨⟨0, rfl⟩, ?_, ?_⟩
    · intro j hj p _
      interval_cases j
      · refine Or.inl ⟨1, rfl, ?_⟩
        simp [mixedSpacePatchData, triple, mixedLoop_eq, cubeNormal, faceAxis, faceSide]
        ring
      all_goals exact Or.inr ⟨2, rfl, rfl⟩
    · intro i hi
      refine ⟨0, ?_⟩
      interval_cases i <;> rfl

/-- `Poisson_Polynomial_Problem` of Elliptic_MCC_3D. -/
theorem C161_polynomial : SolvesMixedSpace mixedSpaceBubbleData := by
  refine ⟨?_, ?_, ?_, ?_, ?_⟩
  · intro p i hi j hj
    interval_cases i <;> interval_cases j <;> norm_num [mixedSpaceBubbleData, nine, triple]
  · intro p i hi
    interval_cases i <;> norm_num [mixedSpaceBubbleData, nine, triple]
  · refine ⟨_, _, _, bubble_partials, fun p i hi => ?_⟩
    interval_cases i <;> simp [mixedSpaceBubbleData, nine, triple]
  · intro x y z
    simp only [mixedSpaceBubbleData, bubbleSource, triple, ↓reduceIte, one_ne_zero, OfNat.ofNat_ne_zero, OfNat.ofNat_ne_one]
    apply divergence_intro3
    · derive
    · derive
    · derive
    · ring
  · refine ⟨⟨0, rfl⟩, ?_, ?_⟩
    · intro j hj p _
      interval_cases j <;> exact Or.inr ⟨2, rfl, rfl⟩
    · intro i hi
      refine ⟨0, ?_⟩
      interval_cases i <;> rfl

-- C161: order 1 at the origin
example : SolvesMixedSpace (mixedSpacePatchData 1) ∧ (mixedSpacePatchData 1).strong 1 (0, 0, 0) = .ok 5 := by
  refine ⟨(C161_patch 1).1, ?_⟩
  norm_num [mixedSpacePatchData, mixedLoop_eq]

/-- The data belong to a velocity and a pressure with `-div(ν grad u) - grad p = f`, `div u = 0` in the unit cube, the velocity at the boundary, and mean pressure zero. -/
structure SolvesStokesSpace (D : FlowSpaceData) : Prop where
  partials : ∀ h < 3, HasPartials3 (fun p => D.velocity p h) (fun p => D.gradient p h 0) (fun p => D.gradient p h 1) (fun p => D.gradient p h 2)
  balance : ∃ gx gy gz, HasPartials3 D.pressure gx gy gz ∧ ∀ h < 3,
    DivergenceIs3 (fun p => D.viscosity p * D.gradient p h 0) (fun p => D.viscosity p * D.gradient p h 1) (fun p => D.viscosity p * D.gradient p h 2)
      (fun p => -(if h = 0 then gx p else if h = 1 then gy p else gz p) - D.source p h)
  divergence : ∀ p, D.gradient p 0 0 + D.gradient p 1 1 + D.gradient p 2 2 = 0
  boundary : ∀ h < 3, CubeAgrees (boundaryTable D.info) (fun m p => D.strong m p h) (fun _ _ => .error .runtimeError) (fun p => D.velocity p h) (fun _ _ => 0)
  mean : ∫ x in (0 : ℝ)..1, ∫ y in (0 : ℝ)..1, ∫ z in (0 : ℝ)..1, D.pressure (x, y, z) = 0

theorem mean_of_primitive3 {q : ℝ × ℝ × ℝ → ℝ} (F : ℝ → ℝ → ℝ → ℝ) (G : ℝ → ℝ → ℝ) (H : ℝ → ℝ) (h1 : ∀ x y z, HasDerivAt (F x y) (q (x, y, z)) z) (c1 : Continuous q)
    (h2 : ∀ x y, HasDerivAt (G x) (F x y 1 - F x y 0) y) (c2 : Continuous fun p : ℝ × ℝ => F p.1 p.2 1 - F p.1 p.2 0) (h3 : ∀ x, HasDerivAt H (G x 1 - G x 0) x)
    (c3 : Continuous fun x => G x 1 - G x 0) (h : H 1 = H 0) : ∫ x in (0 : ℝ)..1, ∫ y in (0 : ℝ)..1, ∫ z in (0 : ℝ)..1, q (x, y, z) = 0 := by
  have e : ∀ x y : ℝ, ∫ z in (0 : ℝ)..1, q (x, y, z) = F x y 1 - F x y 0 := fun x y =>
    intervalIntegral.integral_eq_sub_of_hasDerivAt (fun z _ => h1 x y z) ((c1.comp (by fun_prop)).intervalIntegrable _ _)
  simp only [e]
  exact mean_of_primitive (q := fun p => F p.1 p.2 1 - F p.1 p.2 0) G H h2 c2 h3 c3 h

theorem foldl_range_sum (f : Nat → ℝ) (m : Nat) (a : ℝ) : (List.range m).foldl (fun (s : ℝ) (i : Nat) => s + f i) a = a + ∑ i ∈ Finset.range m, f i := by
  induction m with
  | zero => simp
  | succ m ih => rw [List.range_succ, List.foldl_append, ih, Finset.sum_range_succ]; simp; ring

theorem inner_mean (m : Nat) : ∑ j ∈ Finset.range (m + 1), (1 : ℝ) / ((j + 1).factorial * (m - j + 1).factorial) = (2 ^ (m + 2) - 2) / (m + 2).factorial := by
  have ht : ∀ j ∈ Finset.range (m + 1), (1 : ℝ) / ((j + 1).factorial * (m - j + 1).factorial) = (Nat.choose (m + 2) (j + 1) : ℝ) / (m + 2).factorial := by
    intro j hj
    have hj' := Finset.mem_range.1 hj
    rw [Nat.cast_choose ℝ (by omega : j + 1 ≤ m + 2), show m + 2 - (j + 1) = m - j + 1 by omega]
    have := Nat.cast_ne_zero (R := ℝ).2 (Nat.factorial_ne_zero (m + 2))
    field_simp
  rw [Finset.sum_congr rfl ht, ← Finset.sum_div]
  congr 1
  have h2 := Nat.sum_range_choose (m + 2)
  rw [Finset.sum_range_succ', Finset.sum_range_succ] at h2
  have := congrArg (Nat.cast (R := ℝ)) h2
  push_cast at this
  simp at this
  linarith

/-- The loop computes the mean value of `(x + y + z)^n`. -/
theorem meanLoop3_eq (n : Nat) : meanLoop3 (n + 1) = (3 ^ (n + 3) - 3 * 2 ^ (n + 3) + 3) / ((n + 1) * (n + 2) * (n + 3)) := by
  have hl : meanLoop3 (n + 1) = ∑ i ∈ Finset.range (n + 1), (n.factorial : ℝ) / (i + 1).factorial * ((2 ^ (n - i + 2) - 2) / (n - i + 2).factorial) := by
    have e : ∀ i ∈ Finset.range n, ∑ j ∈ Finset.range (n + 1 - i), ((n + 1 - 1).factorial : ℝ) / (i.factorial * j.factorial * (n + 1 - i - j - 1).factorial * (i + 1) * (j + 1) * ((n + 1 - i - j : Nat) : ℝ)) =
        (n.factorial : ℝ) / (i + 1).factorial * ((2 ^ (n - i + 2) - 2) / (n - i + 2).factorial) := by
      intro i hi
      have hi' := Finset.mem_range.1 hi
      rw [← inner_mean, Finset.mul_sum, show n + 1 - i = n - i + 1 by omega]
      refine Finset.sum_congr rfl fun j hj => ?_
      have hj' := Finset.mem_range.1 hj
      rw [show n - i + 1 - j - 1 = n - i - j by omega, show n - i + 1 - j = n - i - j + 1 by omega, Nat.factorial_succ i, Nat.factorial_succ j, Nat.factorial_succ (n - i - j), Nat.add_sub_cancel]
      push_cast
      rw [div_mul_div_comm, mul_one]
      congr 1
      ring
    rw [meanLoop3, Finset.sum_range_succ]
    simp only [foldl_range_sum]
    rw [Nat.add_sub_cancel] at *
    rw [Finset.sum_congr rfl e]
    have hn := Nat.cast_ne_zero (R := ℝ).2 (Nat.factorial_ne_zero n)
    have : (1 : ℝ) / ((n + 1 : Nat) : ℝ) = (n.factorial : ℝ) / (n + 1).factorial * ((2 ^ (n - n + 2) - 2) / (n - n + 2).factorial) := by
      rw [Nat.sub_self, Nat.factorial_succ]
      push_cast
      have : (n : ℝ) + 1 ≠ 0 := by positivity
      norm_num
      field_simp
    rw [this]
    simp
  have ht : ∀ i ∈ Finset.range (n + 1), (n.factorial : ℝ) / (i + 1).factorial * ((2 ^ (n - i + 2) - 2) / (n - i + 2).factorial) =
      (Nat.choose (n + 3) (i + 1) * 2 ^ (n + 3 - (i + 1)) - 2 * Nat.choose (n + 3) (i + 1)) / ((n + 1) * (n + 2) * (n + 3)) := by
    intro i hi
    have hi' := Finset.mem_range.1 hi
    rw [Nat.cast_choose ℝ (by omega : i + 1 ≤ n + 3), show n + 3 - (i + 1) = n - i + 2 by omega, Nat.factorial_succ (n + 2), Nat.factorial_succ (n + 1), Nat.factorial_succ n]
    push_cast
    have h1 := Nat.cast_ne_zero (R := ℝ).2 (Nat.factorial_ne_zero (i + 1))
    have h2 := Nat.cast_ne_zero (R := ℝ).2 (Nat.factorial_ne_zero (n - i + 2))
    have p1 : (n : ℝ) + 1 ≠ 0 := by positivity
    have p2 : (n : ℝ) + 2 ≠ 0 := by positivity
    have p3 : (n : ℝ) + 3 ≠ 0 := by positivity
    field_simp
    ring
  rw [hl, Finset.sum_congr rfl ht, ← Finset.sum_div]
  congr 1
  rw [Finset.sum_sub_distrib, ← Finset.mul_sum]
  have h2 := congrArg (Nat.cast (R := ℝ)) (Nat.sum_range_choose (n + 3))
  rw [Finset.sum_range_succ', Finset.sum_range_succ, Finset.sum_range_succ] at h2
  have h3 := add_pow (1 : ℝ) 2 (n + 3)
  rw [Finset.sum_range_succ', Finset.sum_range_succ, Finset.sum_range_succ] at h3
  have c1 : Nat.choose (n + 3) (n + 1 + 1) = n + 3 := by
    rw [show n + 3 = (n + 2) + 1 by rfl, Nat.choose_succ_self_right]
  have c2 : Nat.choose (n + 3) (n + 2 + 1) = 1 := Nat.choose_self _
  rw [c1, c2] at h2 h3
  push_cast at h2
  simp only [one_pow, one_mul, Nat.choose_zero_right, Nat.cast_one, mul_one, Nat.sub_zero, show n + 3 - (n + 1 + 1) = 1 by omega, show n + 3 - (n + 2 + 1) = 0 by omega, pow_one, pow_zero] at h3
  have e : ∑ i ∈ Finset.range (n + 1), (Nat.choose (n + 3) (i + 1) : ℝ) * 2 ^ (n + 3 - (i + 1)) = ∑ i ∈ Finset.range (n + 1), (2 : ℝ) ^ (n + 3 - (i + 1)) * Nat.choose (n + 3) (i + 1) :=
    Finset.sum_congr rfl fun i _ => mul_comm _ _
  rw [e]
  simp at h2
  norm_num at h3
  linarith

theorem mean_patch3 (n : Nat) : ∫ x in (0 : ℝ)..1, ∫ y in (0 : ℝ)..1, ∫ z in (0 : ℝ)..1, ((x + y + z) ^ n - meanLoop3 (n + 1)) = 0 := by
  have p1 : (n : ℝ) + 1 ≠ 0 := by positivity
  have p2 : (n : ℝ) + 2 ≠ 0 := by positivity
  have p3 : (n : ℝ) + 3 ≠ 0 := by positivity
  refine mean_of_primitive3 (q := fun p => (p.1 + p.2.1 + p.2.2) ^ n - meanLoop3 (n + 1)) (fun x y z => (x + y + z) ^ (n + 1) / (n + 1) - meanLoop3 (n + 1) * z)
    (fun x y => ((x + y + 1) ^ (n + 2) - (x + y) ^ (n + 2)) / ((n + 1) * (n + 2)) - meanLoop3 (n + 1) * y)
    (fun x => ((x + 2) ^ (n + 3) - 2 * (x + 1) ^ (n + 3) + x ^ (n + 3)) / ((n + 1) * (n + 2) * (n + 3)) - meanLoop3 (n + 1) * x)
    (fun x y z => ?_) (by fun_prop) (fun x y => ?_) (by fun_prop) (fun x => ?_) (by fun_prop) ?_
  · apply HasDerivAt.congr_deriv
    · derive
    · simp
      field_simp
  · apply HasDerivAt.congr_deriv
    · derive
    · simp
      field_simp
      ring
  · apply HasDerivAt.congr_deriv
    · derive
    · simp
      rw [show x + 1 + 1 = x + 2 by ring]
      field_simp
      ring
  · simp only [meanLoop3_eq]
    field_simp
    norm_num
    ring

/-- `Patch_Test` of Stokes_DF_PCC_3D, for every order from 2. -/
theorem C162_patch (k : Nat) (hk : 2 ≤ k) : SolvesStokesSpace (stokesPatchData k) := by
  obtain ⟨n, rfl⟩ : ∃ n, k = n + 2 := ⟨k - 2, by omega⟩
  refine ⟨?_, ?_, ?_, ?_, ?_⟩
  · intro h hh
    refine has_partials3 (fun x y z => ?_) (fun x y z => ?_) (fun x y z => ?_) <;> interval_cases h <;> simp only [stokesPatchData, nine, triple, powerLoop_eq, ↓reduceIte, one_ne_zero, OfNat.ofNat_ne_zero, OfNat.ofNat_ne_one]
    all_goals
      apply HasDerivAt.congr_deriv
      · derive
      · simp
        ring
  · refine ⟨fun p => (n + 1) * (p.1 + p.2.1 + p.2.2) ^ n, fun p => (n + 1) * (p.1 + p.2.1 + p.2.2) ^ n, fun p => (n + 1) * (p.1 + p.2.1 + p.2.2) ^ n,
      has_partials3 (fun x y z => ?_) (fun x y z => ?_) (fun x y z => ?_), ?_⟩
    iterate 3
      · simp only [stokesPatchData, powerLoop_eq]
        apply HasDerivAt.congr_deriv
        · derive
        · simp
    · intro h hh x y z
      interval_cases h
      all_goals
        simp only [stokesPatchData, nine, triple, powerLoop_eq, ↓reduceIte, one_ne_zero, OfNat.ofNat_ne_zero, OfNat.ofNat_ne_one]
        apply divergence_intro3
        · derive
        · derive
        · derive
        · simp
          ring
  · intro p
    simp [stokesPatchData, nine, triple, powerLoop_eq]
    ring
  · intro h hh
    exact cube_strong fun p => rfl
  · have := mean_patch3 (n + 1)
    simpa [stokesPatchData, powerLoop_eq] using this

/-- `Stokes` of Stokes_DF_PCC_3D. -/
theorem C162_stokes : SolvesStokesSpace stokesData := by
  refine ⟨?_, ?_, ?_, ?_, ?_⟩
  · intro h hh
    refine has_partials3 (fun x y z => ?_) (fun x y z => ?_) (fun x y z => ?_) <;> interval_cases h <;> simp only [stokesData, stokesVelocity, nine, triple, ↓reduceIte, one_ne_zero, OfNat.ofNat_ne_zero, OfNat.ofNat_ne_one]
    all_goals
      apply HasDerivAt.congr_deriv
      · derive
      · ring
  · refine ⟨fun p => Real.pi * Real.pi * (sin (Real.pi * p.1) * cos (Real.pi * p.2.1) * cos (Real.pi * p.2.2)), fun p => Real.pi * Real.pi * (cos (Real.pi * p.1) * sin (Real.pi * p.2.1) * cos (Real.pi * p.2.2)),
      fun p => Real.pi * Real.pi * (cos (Real.pi * p.1) * cos (Real.pi * p.2.1) * sin (Real.pi * p.2.2)), has_partials3 (fun x y z => ?_) (fun x y z => ?_) (fun x y z => ?_), ?_⟩
    iterate 3
      · simp only [stokesData]
        apply HasDerivAt.congr_deriv
        · derive
        · ring
    · intro h hh x y z
      interval_cases h
      all_goals
        simp only [stokesData, nine, triple, ↓reduceIte, one_ne_zero, OfNat.ofNat_ne_zero, OfNat.ofNat_ne_one]
        apply divergence_intro3
        · derive
        · derive
        · derive
        · ring
  · intro p
    simp [stokesData, nine, triple]
    ring
  · intro h hh
    exact cube_strong fun p => rfl
  · refine mean_of_primitive3 (q := stokesData.pressure) (fun x y z => -cos (Real.pi * x) * cos (Real.pi * y) * sin (Real.pi * z)) (fun x y => 0) (fun x => 0) (fun x y z => ?_)
      (by unfold stokesData; fun_prop) (fun x y => ?_) (by fun_prop) (fun x => ?_) (by fun_prop) rfl
    · simp only [stokesData]
      apply HasDerivAt.congr_deriv
      · derive
      · ring
    · simpa using real_const 0 y
    · simpa using real_const 0 x

theorem benchmark_partials (n h : Nat) (hh : h < 3) : HasPartials3 (fun p => benchmarkVelocity (n + 2) p h) (fun p => benchmarkGradient (n + 2) p h 0) (fun p => benchmarkGradient (n + 2) p h 1)
    (fun p => benchmarkGradient (n + 2) p h 2) := by
  refine has_partials3 (fun x y z => ?_) (fun x y z => ?_) (fun x y z => ?_) <;> interval_cases h <;> simp only [benchmarkVelocity, benchmarkGradient, nine, triple, powerLoop_eq, ↓reduceIte, one_ne_zero, OfNat.ofNat_ne_zero, OfNat.ofNat_ne_one]
  all_goals
    apply HasDerivAt.congr_deriv
    · derive
    · simp
      try ring

theorem benchmark_laplace (n h : Nat) (hh : h < 3) : DivergenceIs3 (fun p => 1 * benchmarkGradient (n + 2) p h 0) (fun p => 1 * benchmarkGradient (n + 2) p h 1) (fun p => 1 * benchmarkGradient (n + 2) p h 2)
    (fun p => benchmarkLaplacian (n + 2) p h) := by
  intro x y z
  rcases n with _ | n
  · interval_cases h
    all_goals
      simp only [benchmarkLaplacian, benchmarkGradient, nine, triple, powerLoop_eq, ↓reduceIte, one_ne_zero, OfNat.ofNat_ne_zero, OfNat.ofNat_ne_one]
      apply divergence_intro3
      · derive
      · derive
      · derive
      · simp
        try norm_num
  · have hn : n + 1 + 2 ≠ 2 := by omega
    interval_cases h
    all_goals
      simp only [benchmarkLaplacian, benchmarkGradient, nine, triple, powerLoop_eq, hn, ↓reduceIte, one_ne_zero, OfNat.ofNat_ne_zero, OfNat.ofNat_ne_one]
      apply divergence_intro3
      · derive
      · derive
      · derive
      · simp
        try ring

theorem benchmark_divergence (n : Nat) (p : ℝ × ℝ × ℝ) : benchmarkGradient (n + 2) p 0 0 + benchmarkGradient (n + 2) p 1 1 + benchmarkGradient (n + 2) p 2 2 = 0 := by
  simp [benchmarkGradient, nine, triple]
  ring

theorem divergence_congr3 {a b c d e : ℝ × ℝ × ℝ → ℝ} (h : DivergenceIs3 a b c d) (he : ∀ p, e p = d p) : DivergenceIs3 a b c e := by
  intro x y z
  obtain ⟨a', b', c', ha, hb, hc, hd⟩ := h x y z
  exact ⟨a', b', c', ha, hb, hc, by rw [he, hd]⟩

theorem benchmark_pressure (n h : Nat) (p : ℝ × ℝ × ℝ) : benchmarkPressureGradient (n + 2) p h = triple ((n + 2) * p.1 ^ (n + 1) * p.2.1 + p.2.2 ^ (n + 2)) ((n + 2) * p.2.1 ^ (n + 1) * p.2.2 + p.1 ^ (n + 2))
    ((n + 2) * p.2.2 ^ (n + 1) * p.1 + p.2.1 ^ (n + 2)) h := by
  rcases n with _ | n
  · simp only [benchmarkPressureGradient, ↓reduceIte, triple]
    split_ifs <;> push_cast <;> ring
  · have hn : n + 1 + 2 ≠ 2 := by omega
    simp only [benchmarkPressureGradient, hn, ↓reduceIte, triple, powerLoop_eq, show n + 1 + 2 - 3 = n by omega]
    split_ifs <;> push_cast <;> ring

/-- `Stokes_Benchmark_1`, for every order from 2. -/
theorem C162_benchmark1 (k : Nat) (hk : 2 ≤ k) : SolvesStokesSpace (benchmarkData1 k) := by
  obtain ⟨n, rfl⟩ : ∃ n, k = n + 2 := ⟨k - 2, by omega⟩
  refine ⟨fun h hh => benchmark_partials n h hh, ?_, benchmark_divergence n, fun h hh => cube_strong fun p => rfl, ?_⟩
  · refine ⟨fun p => benchmarkPressureGradient (n + 2) p 0, fun p => benchmarkPressureGradient (n + 2) p 1, fun p => benchmarkPressureGradient (n + 2) p 2,
      has_partials3 (fun x y z => ?_) (fun x y z => ?_) (fun x y z => ?_), fun h hh => divergence_congr3 (benchmark_laplace n h hh) fun p => ?_⟩
    iterate 3
      · simp only [benchmark_pressure]
        simp only [benchmarkData1, triple, powerLoop_eq, ↓reduceIte, one_ne_zero, OfNat.ofNat_ne_zero, OfNat.ofNat_ne_one]
        apply HasDerivAt.congr_deriv
        · derive
        · simp
          try ring
    · interval_cases h <;> simp [benchmarkData1] <;> ring
  · have p1 : (n : ℝ) + 3 ≠ 0 := by positivity
    have p2 : (n : ℝ) + 2 + 1 ≠ 0 := by positivity
    refine mean_of_primitive3 (q := (benchmarkData1 (n + 2)).pressure)
      (fun x y z => x ^ (n + 2) * y * z + y ^ (n + 2) * z * z / 2 + z ^ (n + 3) * x / (n + 3) - 3 / (2 * (n + 3)) * z)
      (fun x y => x ^ (n + 2) * y * y / 2 + y ^ (n + 3) / (2 * (n + 3)) + x * y / (n + 3) - 3 / (2 * (n + 3)) * y)
      (fun x => x ^ (n + 3) / (2 * (n + 3)) + x / (2 * (n + 3)) + x * x / (2 * (n + 3)) - 3 / (2 * (n + 3)) * x) (fun x y z => ?_)
      (by unfold benchmarkData1; simp only [powerLoop_eq]; fun_prop) (fun x y => ?_) (by fun_prop) (fun x => ?_) (by fun_prop) ?_
    · simp only [benchmarkData1, powerLoop_eq]
      apply HasDerivAt.congr_deriv
      · derive
      · simp
        field_simp
        ring
    · apply HasDerivAt.congr_deriv
      · derive
      · simp
        field_simp
    · apply HasDerivAt.congr_deriv
      · derive
      · simp
        field_simp
        ring
    · simp
      field_simp
      ring

/-- `Stokes_Benchmark_2`, for every order from 2. -/
theorem C162_benchmark2 (k : Nat) (hk : 2 ≤ k) : SolvesStokesSpace (benchmarkData2 k) := by
  obtain ⟨n, rfl⟩ : ∃ n, k = n + 2 := ⟨k - 2, by omega⟩
  refine ⟨fun h hh => benchmark_partials n h hh, ?_, benchmark_divergence n, fun h hh => cube_strong fun p => rfl, ?_⟩
  · refine ⟨_, _, _, sine_partials3, fun h hh => divergence_congr3 (benchmark_laplace n h hh) fun p => ?_⟩
    interval_cases h <;> simp [benchmarkData2, triple] <;> ring
  · have hp : Real.pi ≠ 0 := Real.pi_ne_zero
    refine mean_of_primitive3 (q := sineProduct) (fun x y z => -(sin (2 * Real.pi * x) * sin (2 * Real.pi * y) * cos (2 * Real.pi * z)) / (2 * Real.pi)) (fun x y => 0) (fun x => 0) (fun x y z => ?_)
      (by unfold sineProduct; fun_prop) (fun x y => ?_) (by fun_prop) (fun x => ?_) (by fun_prop) rfl
    · simp only [sineProduct]
      apply HasDerivAt.congr_deriv
      · derive
      · field_simp
        ring
    · simpa using real_const 0 y
    · simpa using real_const 0 x

-- C162: order 3; the mean of `(x + y + z)^2` is 5/2
example : SolvesStokesSpace (stokesPatchData 3) ∧ (stokesPatchData 3).pressure (0, 0, 0) = -(5 / 2) ∧ SolvesStokesSpace (benchmarkData1 3) := by
  refine ⟨C162_patch 3 (by norm_num), ?_, C162_benchmark1 3 (by norm_num)⟩
  have := meanLoop3_eq 2
  norm_num at this
  simp [stokesPatchData, powerLoop_eq, this]

end PolyDiM
