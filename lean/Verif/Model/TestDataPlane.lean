import Verif.Model.TestDataElastic
import Mathlib.Analysis.SpecialFunctions.Trigonometric.Basic

/-!
# Model: the tests of the elliptic, heat and mixed examples in the plane

PolyDiM/examples/{Elliptic_PCC_2D,Parabolic_PCC_2D,Elliptic_MCC_2D}/src/test_definition.hpp. The functions are given point by point (the C++ evaluates them on the columns of a matrix).
Decimal constants are the exact numbers they denote. The orders are `unsigned int`; the bounds of the loops are stored in an `int` and are negative for small orders, which means no
step, like truncated subtraction. Products of two orders do not wrap (orders below 65536).
-/

namespace PolyDiM

open Real (sin cos exp)

/-- A table of the boundary of the unit square with strong conditions on all corners and sides: Elliptic_PCC_2D lines 187-198, 274-285, 355-366; Parabolic_PCC_2D lines 197-208. -/
def strongTable : List (BType × Nat) := [(.none, 0), (.strong, 1), (.strong, 1), (.strong, 1), (.strong, 1), (.strong, 1), (.strong, 1), (.strong, 1), (.strong, 1)]

/-- The table with weak conditions on the right and on the top side: Elliptic_PCC_2D lines 70-81; Parabolic_PCC_2D lines 76-87. -/
def weakTable : List (BType × Nat) := [(.none, 0), (.strong, 1), (.strong, 1), (.none, 0), (.strong, 1), (.strong, 1), (.weak, 2), (.weak, 4), (.strong, 1)]

/-- `I_Test` of Elliptic_PCC_2D, lines 38-49, without the domain. -/
structure EllipticData where
  info : List (BType × Nat)
  diffusion : ℝ × ℝ → ℝ
  advection : ℝ × ℝ → Nat → ℝ
  source : ℝ × ℝ → ℝ
  strong : Nat → ℝ × ℝ → Except Fault ℝ
  weak : Nat → ℝ × ℝ → Except Fault ℝ
  value : ℝ × ℝ → ℝ
  gradient : ℝ × ℝ → Nat → ℝ

/-- `Patch_Test` of Elliptic_PCC_2D, lines 51-168. -/
noncomputable def ellipticPatchData (order : Nat) : EllipticData where
  info := weakTable
  diffusion _ := 1
  advection _ := components 0 0
  source p := -powerLoop (2 * (order : ℝ) * (order - 1 : Nat)) (p.1 + p.2 + 1 / 2) (order - 2)
  strong marker p := if marker ≠ 1 then .error .runtimeError else .ok (powerLoop 1 (p.1 + p.2 + 1 / 2) order)
  weak marker p :=
    let derivatives := powerLoop 1 (p.1 + p.2 + 1 / 2) (order - 1)
    if marker = 2 then .ok (order * derivatives) else if marker = 4 then .ok (order * derivatives) else .error .runtimeError
  value p := powerLoop 1 (p.1 + p.2 + 1 / 2) order
  gradient p :=
    let derivatives := powerLoop (order : ℝ) (p.1 + p.2 + 1 / 2) (order - 1)
    components derivatives derivatives

/-- `Elliptic_Polynomial_Problem` of Elliptic_PCC_2D, lines 170-255. -/
noncomputable def ellipticPolynomialData : EllipticData where
  info := strongTable
  diffusion _ := 1
  advection _ := components 0 0
  source p := 32 * (p.2 * (1 - p.2) + p.1 * (1 - p.1))
  strong marker p := if marker ≠ 1 then .error .runtimeError else .ok (16 * (p.2 * (1 - p.2) * p.1 * (1 - p.1)) + 11 / 10)
  weak marker p := if marker = 2 then .ok (16 * (1 - 2 * p.1) * p.2 * (1 - p.2)) else if marker = 4 then .ok (-16 * (1 - 2 * p.1) * p.2 * (1 - p.2)) else .error .runtimeError
  value p := 16 * (p.2 * (1 - p.2) * p.1 * (1 - p.1)) + 11 / 10
  gradient p := components (16 * (1 - 2 * p.1) * p.2 * (1 - p.2)) (16 * (1 - 2 * p.2) * p.1 * (1 - p.1))

/-- `exact_solution` of `Elliptic_Problem` of Elliptic_PCC_2D, lines 323-326. -/
noncomputable def ellipticSine (p : ℝ × ℝ) : ℝ := sin (2 * Real.pi * p.1) * sin (2 * Real.pi * p.2)

/-- `Elliptic_Problem` of Elliptic_PCC_2D, lines 257-336. -/
noncomputable def ellipticSineData : EllipticData where
  info := strongTable
  diffusion _ := 2
  advection _ := components 0 0
  source p := 16 * Real.pi * Real.pi * sin (2 * Real.pi * p.1) * sin (2 * Real.pi * p.2)
  strong marker p := if marker ≠ 1 then .error .runtimeError else .ok (ellipticSine p)
  weak _ _ := .error .runtimeError
  value := ellipticSine
  gradient p := components (2 * Real.pi * cos (2 * Real.pi * p.1) * sin (2 * Real.pi * p.2)) (2 * Real.pi * sin (2 * Real.pi * p.1) * cos (2 * Real.pi * p.2))

/-- `SUPG_AdvDiff_Problem` of Elliptic_PCC_2D, lines 338-428. -/
noncomputable def ellipticAdvectionData : EllipticData where
  info := strongTable
  diffusion _ := 1 / 1000000
  advection _ := components (1 / 2) (-1 / 3)
  source p := -65536 / 729 * (1 / 1000000) * ((6 - 12 * p.1) * p.1 * p.2 * p.2 * p.2 * (1 - p.2) + (6 - 12 * p.2) * p.2 * p.1 * p.1 * p.1 * (1 - p.1)) +
    1 / 2 * 65536 / 729 * (3 - 4 * p.1) * p.1 * p.1 * p.2 * p.2 * p.2 * (1 - p.2) - 1 / 3 * 65536 / 729 * (3 - 4 * p.2) * p.2 * p.2 * p.1 * p.1 * p.1 * (1 - p.1)
  strong marker p := if marker ≠ 1 then .error .runtimeError else .ok (65536 / 729 * p.2 * p.2 * p.2 * (1 - p.2) * p.1 * p.1 * p.1 * (1 - p.1))
  weak _ _ := .error .runtimeError
  value p := 65536 / 729 * p.2 * p.2 * p.2 * (1 - p.2) * p.1 * p.1 * p.1 * (1 - p.1)
  gradient p := components (65536 / 729 * (3 - 4 * p.1) * p.1 * p.1 * p.2 * p.2 * p.2 * (1 - p.2)) (65536 / 729 * (3 - 4 * p.2) * p.2 * p.2 * p.1 * p.1 * p.1 * (1 - p.1))

/-- `I_Test` of Parabolic_PCC_2D, lines 36-52, without the domain. The first argument of the functions of time is the time. -/
structure HeatData where
  info : List (BType × Nat)
  diffusion : ℝ × ℝ → ℝ
  source : ℝ → ℝ × ℝ → ℝ
  initial : ℝ × ℝ → ℝ
  strong : ℝ → Nat → ℝ × ℝ → Except Fault ℝ
  weak : ℝ → Nat → ℝ × ℝ → Except Fault ℝ
  value : ℝ → ℝ × ℝ → ℝ
  gradient : ℝ → ℝ × ℝ → Nat → ℝ

/-- `exact_solution` of `Patch_Test` of Parabolic_PCC_2D, lines 150-163. -/
noncomputable def heatPatchValue (space_order time_order : Nat) (t : ℝ) (p : ℝ × ℝ) : ℝ := powerLoop 1 (p.1 + p.2 + 1 / 2) space_order + powerLoop 1 t time_order

/-- `Patch_Test` of Parabolic_PCC_2D, lines 54-176. -/
noncomputable def heatPatchData (space_order time_order : Nat) : HeatData where
  info := weakTable
  diffusion _ := 1
  source t p := powerLoop (time_order : ℝ) t (time_order - 1) - powerLoop (2 * (space_order : ℝ) * (space_order - 1 : Nat)) (p.1 + p.2 + 1 / 2) (space_order - 2)
  initial p := heatPatchValue space_order time_order 0 p
  strong t marker p := if marker ≠ 1 then .error .runtimeError else .ok (heatPatchValue space_order time_order t p)
  weak _ marker p :=
    let derivatives := powerLoop 1 (p.1 + p.2 + 1 / 2) (space_order - 1)
    if marker = 2 then .ok (space_order * derivatives) else if marker = 4 then .ok (space_order * derivatives) else .error .runtimeError
  value := heatPatchValue space_order time_order
  gradient _ p :=
    let derivatives := powerLoop (space_order : ℝ) (p.1 + p.2 + 1 / 2) (space_order - 1)
    components derivatives derivatives

/-- `exact_solution` of `Parabolic_Problem` of Parabolic_PCC_2D, lines 244-247. -/
noncomputable def heatSine (t : ℝ) (p : ℝ × ℝ) : ℝ := sin (Real.pi * p.1) * sin (Real.pi * p.2) * exp t

/-- `Parabolic_Problem` of Parabolic_PCC_2D, lines 178-257. -/
noncomputable def heatSineData : HeatData where
  info := strongTable
  diffusion _ := 1
  source t p := (1 + 2 * Real.pi * Real.pi) * sin (Real.pi * p.1) * sin (Real.pi * p.2) * exp t
  initial p := heatSine 0 p
  strong t marker p := if marker ≠ 1 then .error .runtimeError else .ok (heatSine t p)
  weak _ _ _ := .error .runtimeError
  value := heatSine
  gradient t p := components (Real.pi * cos (Real.pi * p.1) * sin (Real.pi * p.2) * exp t) (Real.pi * sin (Real.pi * p.1) * cos (Real.pi * p.2) * exp t)

/-- `I_Test` of Elliptic_MCC_2D, lines 37-51, without the domain. -/
structure MixedData where
  info : List (BType × Nat)
  advection : ℝ × ℝ → Nat → ℝ
  mixedAdvection : ℝ × ℝ → Nat → ℝ
  reaction : ℝ × ℝ → ℝ
  diffusion : ℝ × ℝ → Nat → Nat → ℝ
  inverseDiffusion : ℝ × ℝ → Nat → Nat → ℝ
  source : ℝ × ℝ → ℝ
  strong : Nat → ℝ × ℝ → Except Fault ℝ
  weak : Nat → ℝ × ℝ → Except Fault ℝ
  pressure : ℝ × ℝ → ℝ
  velocity : ℝ × ℝ → Nat → ℝ

/-- The loop shared by `strong_boundary_condition` and `exact_velocity` of `Patch_Test` of Elliptic_MCC_2D, lines 168-182, 210-222: derivatives and solution. -/
noncomputable def mixedLoop (order : Nat) (x : ℝ) : ℝ × ℝ :=
  if order > 0 then
    let derivatives := powerLoop 1 x (order - 1)
    (derivatives * order, derivatives * x)
  else (0, 1)

/-- The loop of `source_term` of `Patch_Test` of Elliptic_MCC_2D, lines 133-148: second derivatives and solution. -/
noncomputable def mixedSecond (order : Nat) (x : ℝ) : ℝ × ℝ :=
  if order > 1 then
    let second := powerLoop 1 x (order - 2)
    (second * ((order : ℝ) * (order - 1 : Nat)), second * x * x)
  else if order = 1 then (0, x) else (0, 1)

/-- `Patch_Test` of Elliptic_MCC_2D, lines 53-226. -/
noncomputable def mixedPatchData (order : Nat) : MixedData where
  info := [(.none, 0), (.none, 0), (.none, 0), (.none, 0), (.none, 0), (.strong, 1), (.weak, 2), (.weak, 2), (.weak, 2)]
  advection _ := components 1 (-1)
  mixedAdvection _ := components (4 / 10) (-2 / 10)
  reaction p := p.2 * p.1
  diffusion _ := derivatives 2 (-1) (-1) 3
  inverseDiffusion _ := derivatives (6 / 10) (2 / 10) (2 / 10) (4 / 10)
  source p :=
    let r := mixedSecond order (p.1 + p.2 + 1 / 2);
    -3 * r.1 + p.2 * p.1 * r.2
  weak marker p := if marker ≠ 2 then .error .runtimeError else .ok (powerLoop 1 (p.1 + p.2 + 1 / 2) order)
  strong marker p :=
    let r := mixedLoop order (p.1 + p.2 + 1 / 2)
    if marker = 1 then .ok (2 * r.1 + r.2) else if marker = 2 then .ok (-1 * r.1 + r.2) else if marker = 3 then .ok (-2 * r.1 - r.2)
    else if marker = 4 then .ok (1 * r.1 - r.2) else .error .runtimeError
  pressure p := powerLoop 1 (p.1 + p.2 + 1 / 2) order
  velocity p :=
    let r := mixedLoop order (p.1 + p.2 + 1 / 2)
    components (-r.1 + r.2) (-2 * r.1 - r.2)

/-- `Poisson_Problem` of Elliptic_MCC_2D, lines 228-333. -/
noncomputable def mixedSineData : MixedData where
  info := [(.none, 0), (.none, 0), (.none, 0), (.none, 0), (.none, 0), (.weak, 2), (.weak, 2), (.weak, 2), (.weak, 2)]
  advection _ := components 0 0
  mixedAdvection _ := components 0 0
  reaction _ := 0
  diffusion _ := derivatives 1 0 0 1
  inverseDiffusion _ := derivatives 1 0 0 1
  source p := 2 * Real.pi * Real.pi * sin (Real.pi * p.1) * sin (Real.pi * p.2)
  strong _ _ := .error .runtimeError
  weak marker p := if marker ≠ 2 then .error .runtimeError else .ok (sin (Real.pi * p.1) * sin (Real.pi * p.2))
  pressure p := sin (Real.pi * p.1) * sin (Real.pi * p.2)
  velocity p := components (-Real.pi * cos (Real.pi * p.1) * sin (Real.pi * p.2)) (-Real.pi * sin (Real.pi * p.1) * cos (Real.pi * p.2))

end PolyDiM
