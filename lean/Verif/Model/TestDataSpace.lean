import Verif.Model.TestDataFlow

/-!
# Model: the data of the tests on the unit cube

PolyDiM/examples/Elliptic_PCC_3D/src/test_definition.hpp, PolyDiM/examples/Elliptic_MCC_3D/src/test_definition.hpp, PolyDiM/examples/Stokes_DF_PCC_3D/src/test_definition.hpp. As in
TestDataElastic.lean the functions of many points are modelled at one point, floating-point numbers as real numbers, and a throw as a fault.
-/

namespace PolyDiM

open Real (sin cos)

/-- `domain()`, the same in all nine tests: Elliptic_PCC_3D/src/test_definition.hpp:51-100, 210-259, 348-397, Elliptic_MCC_3D/src/test_definition.hpp:56-105, 277-326,
Stokes_DF_PCC_3D/src/test_definition.hpp:57-106, 225-274, 400-449, 628-677. Rows of the vertices, columns of the edges, and for each face the rows of vertices and edges. -/
structure CubeDomain where
  volume : Nat
  vertices : List (List Nat)
  edges : List (Nat × Nat)
  faces : List (List Nat × List Nat)

/-- The values of `domain()`, at the same lines. -/
def cubeDomain : CubeDomain where
  volume := 1
  vertices := [[0, 1, 1, 0, 0, 1, 1, 0], [0, 0, 1, 1, 0, 0, 1, 1], [0, 0, 0, 0, 1, 1, 1, 1]]
  edges := [(0, 1), (1, 2), (2, 3), (3, 0), (4, 5), (5, 6), (6, 7), (7, 4), (0, 4), (1, 5), (2, 6), (3, 7)]
  faces := [([0, 1, 2, 3], [0, 1, 2, 3]), ([4, 5, 6, 7], [4, 5, 6, 7]), ([0, 3, 7, 4], [3, 11, 7, 8]), ([1, 2, 6, 5], [1, 10, 5, 9]), ([0, 1, 5, 4], [0, 9, 4, 8]),
    ([3, 2, 6, 7], [2, 10, 6, 11])]

/-- `boundary_info` with strong conditions everywhere: Elliptic_PCC_3D/src/test_definition.hpp:261-290, 399-428, Stokes_DF_PCC_3D/src/test_definition.hpp:108-137, 276-305, 451-480,
679-708. -/
def cubeStrongTable : List (BType × Nat) := (.none, 0) :: List.replicate 26 (.strong, 1)

/-- The functions of `I_Test` of Elliptic_PCC_3D, test_definition.hpp:34-45. -/
structure EllipticSpaceData where
  info : List (BType × Nat)
  diffusion : ℝ × ℝ × ℝ → ℝ
  source : ℝ × ℝ × ℝ → ℝ
  strong : Nat → ℝ × ℝ × ℝ → Except Fault ℝ
  weak : Nat → ℝ × ℝ × ℝ → Except Fault ℝ
  exact : ℝ × ℝ × ℝ → ℝ
  gradient : ℝ × ℝ × ℝ → Nat → ℝ

/-- A C++ array of three values, e.g. Elliptic_PCC_3D/src/test_definition.hpp:204. -/
def triple (a b c : ℝ) (d : Nat) : ℝ := if d = 0 then a else if d = 1 then b else c

/-- A C++ array of nine values, e.g. Stokes_DF_PCC_3D/src/test_definition.hpp:219, read at `3 d1 + d2`. -/
def nine (a b c : Nat → ℝ) (d1 d2 : Nat) : ℝ := if d1 = 0 then a d2 else if d1 = 1 then b d2 else c d2

/-- `Patch_Test` of Elliptic_PCC_3D, test_definition.hpp:102-206. -/
noncomputable def spacePatchData (order : Nat) : EllipticSpaceData where
  info := (.none, 0) :: List.replicate 10 (.strong, 1) ++ (.none, 0) :: List.replicate 9 (.strong, 1) ++
    [(.weak, 2), (.strong, 1), (.strong, 1), (.strong, 1), (.strong, 1), (.weak, 4)]
  diffusion _ := 2
  source p := -powerLoop (6 * (order : ℝ) * (order - 1 : Nat)) (p.1 + p.2.1 + p.2.2 + 1 / 2) (order - 2)
  strong marker p := if marker ≠ 1 then .error .runtimeError else .ok (powerLoop 1 (p.1 + p.2.1 + p.2.2 + 1 / 2) order)
  weak marker p :=
    let derivatives := powerLoop (2 * (order : ℝ)) (p.1 + p.2.1 + p.2.2 + 1 / 2) (order - 1)
    if marker = 2 then .ok (-derivatives) else if marker = 4 then .ok derivatives else .error .runtimeError
  exact p := powerLoop 1 (p.1 + p.2.1 + p.2.2 + 1 / 2) order
  gradient p :=
    let derivatives := powerLoop (order : ℝ) (p.1 + p.2.1 + p.2.2 + 1 / 2) (order - 1)
    triple derivatives derivatives derivatives

/-- `exact_solution` of `Poisson_Polynomial_Problem` of Elliptic_PCC_3D, test_definition.hpp:328-333, and `exact_pressure` of Elliptic_MCC_3D, test_definition.hpp:427-432. -/
noncomputable def bubble (p : ℝ × ℝ × ℝ) : ℝ := 64 * p.2.2 * (1 - p.2.2) * p.2.1 * (1 - p.2.1) * p.1 * (1 - p.1) + 17 / 10

/-- `source_term` of `Poisson_Polynomial_Problem` of Elliptic_PCC_3D, test_definition.hpp:298-304, and of Elliptic_MCC_3D, test_definition.hpp:400-406. -/
noncomputable def bubbleSource (p : ℝ × ℝ × ℝ) : ℝ :=
  128 * (p.2.1 * (1 - p.2.1) * p.2.2 * (1 - p.2.2) + p.1 * (1 - p.1) * p.2.2 * (1 - p.2.2) + p.1 * (1 - p.1) * p.2.1 * (1 - p.2.1))

/-- `Poisson_Polynomial_Problem` of Elliptic_PCC_3D, test_definition.hpp:261-343. -/
noncomputable def spaceBubbleData : EllipticSpaceData where
  info := cubeStrongTable
  diffusion _ := 1
  source := bubbleSource
  strong marker p := if marker ≠ 1 then .error .runtimeError else .ok (64 * p.2.2 * (1 - p.2.2) * p.2.1 * (1 - p.2.1) * p.1 * (1 - p.1) + 17 / 10)
  weak marker p := if marker = 2 then .ok (-64 * (1 - 2 * p.2.2) * p.1 * (1 - p.1) * p.2.1 * (1 - p.2.1)) else .error .runtimeError
  exact := bubble
  gradient p := triple (64 * (1 - 2 * p.1) * p.2.1 * (1 - p.2.1) * p.2.2 * (1 - p.2.2)) (64 * (1 - 2 * p.2.1) * p.1 * (1 - p.1) * p.2.2 * (1 - p.2.2))
    (64 * (1 - 2 * p.2.2) * p.1 * (1 - p.1) * p.2.1 * (1 - p.2.1))

/-- `exact_solution` of `Poisson_Problem` of Elliptic_PCC_3D, test_definition.hpp:459-463, and `exact_pressure` of `Stokes_Benchmark_2` of Stokes_DF_PCC_3D,
test_definition.hpp:784-791. -/
noncomputable def sineProduct (p : ℝ × ℝ × ℝ) : ℝ := sin (2 * Real.pi * p.1) * sin (2 * Real.pi * p.2.1) * sin (2 * Real.pi * p.2.2)

/-- `Poisson_Problem` of Elliptic_PCC_3D, test_definition.hpp:399-474. -/
noncomputable def spaceSineData : EllipticSpaceData where
  info := cubeStrongTable
  diffusion _ := 2
  source p := 24 * Real.pi * Real.pi * sin (2 * Real.pi * p.1) * sin (2 * Real.pi * p.2.1) * sin (2 * Real.pi * p.2.2)
  strong marker p := if marker ≠ 1 then .error .runtimeError else .ok (sineProduct p)
  weak _ _ := .error .runtimeError
  exact := sineProduct
  gradient p := triple (2 * Real.pi * cos (2 * Real.pi * p.1) * sin (2 * Real.pi * p.2.1) * sin (2 * Real.pi * p.2.2))
    (2 * Real.pi * sin (2 * Real.pi * p.1) * cos (2 * Real.pi * p.2.1) * sin (2 * Real.pi * p.2.2))
    (2 * Real.pi * sin (2 * Real.pi * p.1) * sin (2 * Real.pi * p.2.1) * cos (2 * Real.pi * p.2.2))

/-- The functions of `I_Test` of Elliptic_MCC_3D, test_definition.hpp:36-50. -/
structure MixedSpaceData where
  info : List (BType × Nat)
  advection : ℝ × ℝ × ℝ → Nat → ℝ
  mixedAdvection : ℝ × ℝ × ℝ → Nat → ℝ
  reaction : ℝ × ℝ × ℝ → ℝ
  diffusion : ℝ × ℝ × ℝ → Nat → Nat → ℝ
  inverse : ℝ × ℝ × ℝ → Nat → Nat → ℝ
  source : ℝ × ℝ × ℝ → ℝ
  weak : Nat → ℝ × ℝ × ℝ → Except Fault ℝ
  strong : Nat → ℝ × ℝ × ℝ → Except Fault ℝ
  pressure : ℝ × ℝ × ℝ → ℝ
  velocity : ℝ × ℝ × ℝ → Nat → ℝ

/-- `Patch_Test` of Elliptic_MCC_3D, test_definition.hpp:107-272; the loops of lines 185-200, 221-234, 257-270 are those of Elliptic_MCC_2D (`mixedSecond`, `mixedLoop`). -/
noncomputable def mixedSpacePatchData (order : Nat) : MixedSpaceData where
  info := List.replicate 21 (.none, 0) ++ (.strong, 1) :: List.replicate 5 (.weak, 2)
  advection _ := triple 1 1 (-2)
  mixedAdvection _ := triple (16 / 3) 3 (4 / 3)
  reaction p := p.1 * p.2.1 * p.2.2
  diffusion _ := nine (triple 1 (-1) (-1)) (triple (-1) 3 (-2)) (triple (-1) (-2) 7)
  inverse _ := nine (triple (17 / 3) 3 (5 / 3)) (triple 3 2 1) (triple (5 / 3) 1 (2 / 3))
  source p :=
    let r := mixedSecond order (p.1 + p.2.1 + p.2.2 + 1 / 2);
    -3 * r.1 + p.2.1 * p.1 * p.2.2 * r.2
  weak marker p := if marker ≠ 2 then .error .runtimeError else .ok (powerLoop 1 (p.1 + p.2.1 + p.2.2 + 1 / 2) order)
  strong marker p :=
    let r := mixedLoop order (p.1 + p.2.1 + p.2.2 + 1 / 2)
    if marker = 1 then .ok (4 * r.1 + 2 * r.2) else .error .runtimeError
  pressure p := powerLoop 1 (p.1 + p.2.1 + p.2.2 + 1 / 2) order
  velocity p :=
    let r := mixedLoop order (p.1 + p.2.1 + p.2.2 + 1 / 2)
    triple (r.1 + r.2) r.2 (-4 * r.1 - 2 * r.2)

/-- `Poisson_Polynomial_Problem` of Elliptic_MCC_3D, test_definition.hpp:328-443. -/
noncomputable def mixedSpaceBubbleData : MixedSpaceData where
  info := List.replicate 21 (.none, 0) ++ List.replicate 6 (.weak, 2)
  advection _ := triple 0 0 0
  mixedAdvection _ := triple 0 0 0
  reaction _ := 0
  diffusion _ := nine (triple 1 0 0) (triple 0 1 0) (triple 0 0 1)
  inverse _ := nine (triple 1 0 0) (triple 0 1 0) (triple 0 0 1)
  source := bubbleSource
  weak marker p := if marker ≠ 2 then .error .runtimeError else .ok (64 * p.2.2 * (1 - p.2.2) * p.2.1 * (1 - p.2.1) * p.1 * (1 - p.1) + 17 / 10)
  strong _ _ := .error .runtimeError
  pressure := bubble
  velocity p := triple (-64 * (1 - 2 * p.1) * p.2.1 * (1 - p.2.1) * p.2.2 * (1 - p.2.2)) (-64 * (1 - 2 * p.2.1) * p.1 * (1 - p.1) * p.2.2 * (1 - p.2.2))
    (-64 * (1 - 2 * p.2.2) * p.1 * (1 - p.1) * p.2.1 * (1 - p.2.1))

/-- The functions of `I_Test` of Stokes_DF_PCC_3D, test_definition.hpp:38-51; `weak_boundary_condition` throws in all tests (lines 171-174, 353-356, 555-558, 779-782). -/
structure FlowSpaceData where
  info : List (BType × Nat)
  viscosity : ℝ × ℝ × ℝ → ℝ
  source : ℝ × ℝ × ℝ → Nat → ℝ
  strong : Nat → ℝ × ℝ × ℝ → Nat → Except Fault ℝ
  pressure : ℝ × ℝ × ℝ → ℝ
  velocity : ℝ × ℝ × ℝ → Nat → ℝ
  gradient : ℝ × ℝ × ℝ → Nat → Nat → ℝ

/-- The loop for `mean` in `exact_pressure` of `Patch_Test` of Stokes_DF_PCC_3D, test_definition.hpp:179-191; `tgamma(n + 1)` is the factorial. -/
noncomputable def meanLoop3 (order : Nat) : ℝ :=
  (List.range (order - 1)).foldl (fun (m : ℝ) (i : Nat) => (List.range (order - i)).foldl (fun (m : ℝ) (j : Nat) =>
    m + (order - 1).factorial / (i.factorial * j.factorial * (order - i - j - 1).factorial * (i + 1) * (j + 1) * ((order - i - j : Nat) : ℝ))) m) 0 + 1 / order

/-- `Patch_Test` of Stokes_DF_PCC_3D, test_definition.hpp:108-221. -/
noncomputable def stokesPatchData (order : Nat) : FlowSpaceData where
  info := cubeStrongTable
  viscosity _ := 1
  source p :=
    let result := powerLoop 1 (p.1 + p.2.1 + p.2.2) (order - 2)
    let first := -3 * order * (order - 1 : Nat) * result - (order - 1 : Nat) * result
    triple first first (6 * order * (order - 1 : Nat) * result - (order - 1 : Nat) * result)
  strong marker p h := if marker ≠ 1 then .error .runtimeError else
    let result := powerLoop 1 (p.1 + p.2.1 + p.2.2) order
    .ok (triple result result (-2 * result) h)
  pressure p := powerLoop 1 (p.1 + p.2.1 + p.2.2) (order - 1) - meanLoop3 order
  velocity p :=
    let result := powerLoop 1 (p.1 + p.2.1 + p.2.2) order
    triple result result (-2 * result)
  gradient p :=
    let result := powerLoop 1 (p.1 + p.2.1 + p.2.2) (order - 1) * order
    nine (triple result result result) (triple result result result) (triple (-2 * result) (-2 * result) (-2 * result))

/-- `exact_velocity` of `Stokes` of Stokes_DF_PCC_3D, test_definition.hpp:367-376, repeated in lines 339-351. -/
noncomputable def stokesVelocity (p : ℝ × ℝ × ℝ) : Nat → ℝ :=
  triple (sin (Real.pi * p.1) * cos (Real.pi * p.2.1) * cos (Real.pi * p.2.2)) (cos (Real.pi * p.1) * sin (Real.pi * p.2.1) * cos (Real.pi * p.2.2))
    (-2 * cos (Real.pi * p.1) * cos (Real.pi * p.2.1) * sin (Real.pi * p.2.2))

/-- `Stokes` of Stokes_DF_PCC_3D, test_definition.hpp:276-394. -/
noncomputable def stokesData : FlowSpaceData where
  info := cubeStrongTable
  viscosity _ := 1
  source p :=
    let a := sin (Real.pi * p.1) * cos (Real.pi * p.2.1) * cos (Real.pi * p.2.2)
    let b := cos (Real.pi * p.1) * sin (Real.pi * p.2.1) * cos (Real.pi * p.2.2)
    let c := cos (Real.pi * p.1) * cos (Real.pi * p.2.1) * sin (Real.pi * p.2.2)
    triple (-(-3 * Real.pi * Real.pi * a) - Real.pi * Real.pi * a) (-(-3 * Real.pi * Real.pi * b) - Real.pi * Real.pi * b) (-(6 * Real.pi * Real.pi * c) - Real.pi * Real.pi * c)
  strong marker p h := if marker ≠ 1 then .error .runtimeError else .ok (stokesVelocity p h)
  pressure p := -Real.pi * cos (Real.pi * p.1) * cos (Real.pi * p.2.1) * cos (Real.pi * p.2.2)
  velocity := stokesVelocity
  gradient p :=
    let ccc := cos (Real.pi * p.1) * cos (Real.pi * p.2.1) * cos (Real.pi * p.2.2)
    let ssc := sin (Real.pi * p.1) * sin (Real.pi * p.2.1) * cos (Real.pi * p.2.2)
    let scs := sin (Real.pi * p.1) * cos (Real.pi * p.2.1) * sin (Real.pi * p.2.2)
    let css := cos (Real.pi * p.1) * sin (Real.pi * p.2.1) * sin (Real.pi * p.2.2)
    nine (triple (Real.pi * ccc) (-Real.pi * ssc) (-Real.pi * scs)) (triple (-Real.pi * ssc) (Real.pi * ccc) (-Real.pi * css))
      (triple (2 * Real.pi * scs) (2 * Real.pi * css) (-2 * Real.pi * ccc))

/-- `exact_velocity` of `Stokes_Benchmark_1` and `Stokes_Benchmark_2` of Stokes_DF_PCC_3D, test_definition.hpp:578-594, 793-809, repeated in lines 534-553, 758-777. -/
noncomputable def benchmarkVelocity (order : Nat) (p : ℝ × ℝ × ℝ) : Nat → ℝ :=
  let zkm1 := powerLoop 1 p.2.2 (order - 1)
  let xkm1 := powerLoop 1 p.1 (order - 1)
  let ykm1 := powerLoop 1 p.2.1 (order - 1)
  triple (order * p.1 * zkm1) (order * p.2.1 * zkm1) ((2 - order) * xkm1 * p.1 + (2 - order) * ykm1 * p.2.1 - 2 * zkm1 * p.2.2)

/-- `exact_derivatives_velocity` of the two benchmarks, test_definition.hpp:596-621, 811-836. -/
noncomputable def benchmarkGradient (order : Nat) (p : ℝ × ℝ × ℝ) : Nat → Nat → ℝ :=
  let zkm2 := powerLoop 1 p.2.2 (order - 2)
  let xkm2 := powerLoop 1 p.1 (order - 2)
  let ykm2 := powerLoop 1 p.2.1 (order - 2)
  nine (triple (order * zkm2 * p.2.2) 0 (order * (order - 1 : Nat) * p.1 * zkm2)) (triple 0 (order * zkm2 * p.2.2) (order * (order - 1 : Nat) * p.2.1 * zkm2))
    (triple ((2 - order) * order * xkm2 * p.1) ((2 - order) * order * ykm2 * p.2.1) (-2 * order * zkm2 * p.2.2))

/-- `laplacianVelocityTermValues` of the two benchmarks, test_definition.hpp:495-497, 503-528, 730-749; for the order 2 and above. -/
noncomputable def benchmarkLaplacian (order : Nat) (p : ℝ × ℝ × ℝ) : Nat → ℝ :=
  if order = 2 then triple 0 0 (-2 * order * (order - 1))
  else
    let zkm3 := powerLoop 1 p.2.2 (order - 3)
    let xkm3 := powerLoop 1 p.1 (order - 3)
    let ykm3 := powerLoop 1 p.2.1 (order - 3)
    triple (order * (order - 1) * (order - 2 : Nat) * p.1 * zkm3) (order * (order - 1) * (order - 2 : Nat) * p.2.1 * zkm3)
      ((2 - order) * order * (order - 1) * (p.1 * xkm3 + p.2.1 * ykm3) - 2 * order * (order - 1) * zkm3 * p.2.2)

/-- `derivativesPressureValues` of `Stokes_Benchmark_1`, test_definition.hpp:499-501, 514-520; for the order 2 and above. -/
noncomputable def benchmarkPressureGradient (order : Nat) (p : ℝ × ℝ × ℝ) : Nat → ℝ :=
  if order = 2 then triple (order * p.1 * p.2.1 + p.2.2 * p.2.2) (order * p.2.1 * p.2.2 + p.1 * p.1) (order * p.2.2 * p.1 + p.2.1 * p.2.1)
  else
    let zkm1 := powerLoop 1 p.2.2 (order - 3) * p.2.2 * p.2.2
    let xkm1 := powerLoop 1 p.1 (order - 3) * p.1 * p.1
    let ykm1 := powerLoop 1 p.2.1 (order - 3) * p.2.1 * p.2.1
    triple (order * xkm1 * p.2.1 + zkm1 * p.2.2) (order * ykm1 * p.2.2 + xkm1 * p.1) (order * zkm1 * p.1 + ykm1 * p.2.1)

/-- `Stokes_Benchmark_1` of Stokes_DF_PCC_3D, test_definition.hpp:451-622. -/
noncomputable def benchmarkData1 (order : Nat) : FlowSpaceData where
  info := cubeStrongTable
  viscosity _ := 1
  source p h := -benchmarkLaplacian order p h - benchmarkPressureGradient order p h
  strong marker p h := if marker ≠ 1 then .error .runtimeError else .ok (benchmarkVelocity order p h)
  pressure p := powerLoop 1 p.1 order * p.2.1 + powerLoop 1 p.2.1 order * p.2.2 + powerLoop 1 p.2.2 order * p.1 - 3 / (2 * (order + 1))
  velocity := benchmarkVelocity order
  gradient := benchmarkGradient order

/-- `Stokes_Benchmark_2` of Stokes_DF_PCC_3D, test_definition.hpp:679-837. -/
noncomputable def benchmarkData2 (order : Nat) : FlowSpaceData where
  info := cubeStrongTable
  viscosity _ := 1
  source p h := -benchmarkLaplacian order p h - triple (2 * Real.pi * cos (2 * Real.pi * p.1) * sin (2 * Real.pi * p.2.1) * sin (2 * Real.pi * p.2.2))
    (2 * Real.pi * sin (2 * Real.pi * p.1) * cos (2 * Real.pi * p.2.1) * sin (2 * Real.pi * p.2.2))
    (2 * Real.pi * sin (2 * Real.pi * p.1) * sin (2 * Real.pi * p.2.1) * cos (2 * Real.pi * p.2.2)) h
  strong marker p h := if marker ≠ 1 then .error .runtimeError else .ok (benchmarkVelocity order p h)
  pressure := sineProduct
  velocity := benchmarkVelocity order
  gradient := benchmarkGradient order

end PolyDiM
