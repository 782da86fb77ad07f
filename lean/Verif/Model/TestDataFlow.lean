import Verif.Model.TestDataPlane

/-!
# Model: the tests of the Brinkman and Navier-Stokes examples on the unit square

PolyDiM/examples/{Brinkman_DF_PCC_2D,NavierStokes_DF_PCC_2D}/src/test_definition.hpp. The functions are given point by point (the C++ evaluates them on the columns of a matrix).
Decimal constants are the exact numbers they denote. The boundary tables of the two components agree. In the patch tests the order is an `unsigned int` and `order - 2` is compared with
the counter as it is, so that the order must be at least 2, as in the space. Gedim's `BinomialCoefficient` is the binomial coefficient.
-/

namespace PolyDiM

open Real (sin cos)

/-- The table with a weak condition at the bottom: Brinkman_DF_PCC_2D lines 80-94, 245-259; NavierStokes_DF_PCC_2D lines 219-233, 338-352. -/
def bottomTable : List (BType × Nat) := [(.none, 0), (.strong, 1), (.strong, 1), (.strong, 1), (.strong, 1), (.weak, 2), (.strong, 1), (.strong, 1), (.strong, 1)]

/-- `I_Test` of Brinkman_DF_PCC_2D, lines 44-59, and of NavierStokes_DF_PCC_2D, lines 42-55 (which has neither `inverse` nor `divergence`: both zero), without the domain. -/
structure FlowData where
  info : List (BType × Nat)
  viscosity : ℝ × ℝ → ℝ
  inverse : ℝ × ℝ → Nat → Nat → ℝ
  source : ℝ × ℝ → Nat → ℝ
  divergence : ℝ × ℝ → ℝ
  strong : Nat → ℝ × ℝ → Nat → Except Fault ℝ
  weak : Nat → ℝ × ℝ → Nat → Except Fault ℝ
  pressure : ℝ × ℝ → ℝ
  velocity : ℝ × ℝ → Nat → ℝ
  gradient : ℝ × ℝ → Nat → Nat → ℝ

/-- The loop of `weak_boundary_condition` and `exact_pressure` that sums the mean value, Brinkman_DF_PCC_2D lines 156-165, 179-188; NavierStokes_DF_PCC_2D lines 127-136, 153-162. -/
noncomputable def meanLoop (order : Nat) : ℝ :=
  (List.range (order - 1)).foldl (fun (mean : ℝ) (i : Nat) => mean + (Nat.choose (order - 1) i : ℝ) / ((i + 1) * (order - i))) 0 + 1 / order

/-- `Patch_Test` of Brinkman_DF_PCC_2D, lines 61-226. -/
noncomputable def brinkmanPatchData (order : Nat) : FlowData where
  info := bottomTable
  viscosity _ := 2
  inverse _ := derivatives (6 / 10) (2 / 10) (2 / 10) (4 / 10)
  source p :=
    let polynomial := p.1 + p.2
    let result := powerLoop 1 polynomial (order - 2)
    components (-4 * order * (order - 1) * result + (order - 1) * result + 8 / 10 * result * polynomial * polynomial)
      (-4 * order * (order - 1) * result + (order - 1) * result + 6 / 10 * result * polynomial * polynomial)
  divergence p := 2 * order * powerLoop 1 (p.1 + p.2) (order - 1)
  strong marker p h := if marker ≠ 1 then .error .runtimeError else
    let result := powerLoop 1 (p.1 + p.2) order
    .ok (components result result h)
  weak marker p h :=
    let result := powerLoop 1 (p.1 + p.2) (order - 1)
    if marker = 2 then .ok (components (2 * order * result) (2 * order * result - (result - meanLoop order)) h) else .error .runtimeError
  pressure p := powerLoop 1 (p.1 + p.2) (order - 1) - meanLoop order
  velocity p :=
    let result := powerLoop 1 (p.1 + p.2) order
    components result result
  gradient p :=
    let result := powerLoop 1 (p.1 + p.2) (order - 1) * order
    derivatives result result result result

/-- `exact_velocity` of `StokesSinSin`: Brinkman_DF_PCC_2D lines 337-344; NavierStokes_DF_PCC_2D lines 293-300. -/
noncomputable def sineVelocity (p : ℝ × ℝ) (h : Nat) : ℝ :=
  components (-(1 / 2) * cos p.1 * cos p.1 * cos p.2 * sin p.2) (1 / 2 * cos p.2 * cos p.2 * cos p.1 * sin p.1) h

/-- `exact_derivatives_velocity` of `StokesSinSin`: Brinkman_DF_PCC_2D lines 346-362; NavierStokes_DF_PCC_2D lines 302-318. -/
noncomputable def sineGradient (p : ℝ × ℝ) (d1 d2 : Nat) : ℝ :=
  derivatives (cos p.1 * sin p.1 * cos p.2 * sin p.2) (-(1 / 2) * cos p.1 * cos p.1 * (-sin p.2 * sin p.2 + cos p.2 * cos p.2))
    (1 / 2 * cos p.2 * cos p.2 * (-sin p.1 * sin p.1 + cos p.1 * cos p.1)) (-cos p.2 * sin p.2 * cos p.1 * sin p.1) d1 d2

/-- `laplacian` in `source_term` of `StokesSinSin`: Brinkman_DF_PCC_2D lines 281-288; NavierStokes_DF_PCC_2D lines 242-249. -/
noncomputable def sineLaplacian (p : ℝ × ℝ) (h : Nat) : ℝ :=
  components (cos p.2 * sin p.2 * (-sin p.1 * sin p.1 + 3 * cos p.1 * cos p.1)) (-cos p.1 * sin p.1 * (-sin p.2 * sin p.2 + 3 * cos p.2 * cos p.2)) h

/-- `StokesSinSin` of Brinkman_DF_PCC_2D, lines 228-363. -/
noncomputable def brinkmanSineData : FlowData where
  info := bottomTable
  viscosity _ := 1
  inverse _ := derivatives 0 0 0 0
  source p := components (-sineLaplacian p 0 + cos p.1) (-sineLaplacian p 1 + -cos p.2)
  divergence _ := 0
  strong marker p h := if marker ≠ 1 then .error .runtimeError else .ok (sineVelocity p h)
  weak marker p h := if marker = 2 then .ok (components (-(1 / 2) * cos p.1 * cos p.1 * (-sin p.2 * sin p.2 + cos p.2 * cos p.2))
      (-cos p.2 * sin p.2 * cos p.1 * sin p.1 - sin p.1 - sin p.2) h) else .error .runtimeError
  pressure p := sin p.1 - sin p.2
  velocity := sineVelocity
  gradient := sineGradient

/-- `Stokes_ZeroVelocity_1` of Brinkman_DF_PCC_2D, lines 365-467. The array of derivatives has eight initializers; the ninth, empty, is not used in the plane. -/
noncomputable def zeroVelocityData1 : FlowData where
  info := strongTable
  viscosity _ := 1
  inverse _ := derivatives 0 0 0 0
  source p := components (3 * p.1 * p.1) (-3 * p.2 * p.2)
  divergence _ := 0
  strong marker _ h := if marker ≠ 1 then .error .runtimeError else .ok (components 0 0 h)
  weak _ _ _ := .error .runtimeError
  pressure p := p.1 * p.1 * p.1 - p.2 * p.2 * p.2
  velocity _ := components 0 0
  gradient _ := derivatives 0 0 0 0

/-- `Stokes_ZeroVelocity_2` of Brinkman_DF_PCC_2D, lines 469-572. -/
noncomputable def zeroVelocityData2 : FlowData where
  info := strongTable
  viscosity _ := 1
  inverse _ := derivatives 0 0 0 0
  source p := components (2 * Real.pi * cos (2 * Real.pi * p.1) * sin (2 * Real.pi * p.2)) (2 * Real.pi * sin (2 * Real.pi * p.1) * cos (2 * Real.pi * p.2))
  divergence _ := 0
  strong marker _ h := if marker ≠ 1 then .error .runtimeError else .ok (components 0 0 h)
  weak _ _ _ := .error .runtimeError
  pressure p := sin (2 * Real.pi * p.1) * sin (2 * Real.pi * p.2)
  velocity _ := components 0 0
  gradient _ := derivatives 0 0 0 0

/-- `Darcy` of Brinkman_DF_PCC_2D, lines 574-688. -/
noncomputable def darcyData : FlowData where
  info := [(.none, 0), (.none, 0), (.none, 0), (.none, 0), (.none, 0), (.weak, 2), (.weak, 4), (.weak, 6), (.weak, 8)]
  viscosity _ := 0
  inverse _ := derivatives 1 0 0 1
  source _ := components 0 0
  divergence p := 2 * Real.pi * Real.pi * cos (Real.pi * p.1) * cos (Real.pi * p.2)
  strong _ _ _ := .error .runtimeError
  weak marker p h :=
    let pressure := cos (Real.pi * p.1) * cos (Real.pi * p.2)
    if marker = 2 then .ok (components 0 (-pressure) h) else if marker = 4 then .ok (components pressure 0 h)
    else if marker = 6 then .ok (components 0 pressure h) else if marker = 8 then .ok (components (-pressure) 0 h) else .error .runtimeError
  pressure p := cos (Real.pi * p.1) * cos (Real.pi * p.2)
  velocity p := components (Real.pi * sin (Real.pi * p.1) * cos (Real.pi * p.2)) (Real.pi * cos (Real.pi * p.1) * sin (Real.pi * p.2))
  gradient p := derivatives (Real.pi * Real.pi * cos (Real.pi * p.1) * cos (Real.pi * p.2)) (-Real.pi * Real.pi * sin (Real.pi * p.1) * sin (Real.pi * p.2))
    (-Real.pi * Real.pi * sin (Real.pi * p.1) * sin (Real.pi * p.2)) (Real.pi * Real.pi * cos (Real.pi * p.1) * cos (Real.pi * p.2))

/-- `Brinkman` of Brinkman_DF_PCC_2D, lines 690-802. -/
noncomputable def brinkmanData : FlowData where
  info := strongTable
  viscosity _ := 1
  inverse _ := derivatives 1 0 0 1
  source p := components ((2 * Real.pi * Real.pi + 1) * sin (Real.pi * p.1) * cos (Real.pi * p.2) + 2 * p.1 * p.2 * p.2)
    ((-2 * Real.pi * Real.pi - 1) * cos (Real.pi * p.1) * sin (Real.pi * p.2) + 2 * p.2 * p.1 * p.1)
  divergence _ := 0
  strong marker p h := if marker ≠ 1 then .error .runtimeError else .ok (components (sin (Real.pi * p.1) * cos (Real.pi * p.2)) (-cos (Real.pi * p.1) * sin (Real.pi * p.2)) h)
  weak _ _ _ := .error .runtimeError
  pressure p := p.1 * p.1 * p.2 * p.2 - 1 / 9
  velocity p := components (sin (Real.pi * p.1) * cos (Real.pi * p.2)) (-cos (Real.pi * p.1) * sin (Real.pi * p.2))
  gradient p := derivatives (Real.pi * cos (Real.pi * p.1) * cos (Real.pi * p.2)) (-Real.pi * sin (Real.pi * p.1) * sin (Real.pi * p.2))
    (Real.pi * sin (Real.pi * p.1) * sin (Real.pi * p.2)) (-Real.pi * cos (Real.pi * p.1) * cos (Real.pi * p.2))

/-- `Patch_Test` of NavierStokes_DF_PCC_2D, lines 57-200. -/
noncomputable def navierPatchData (order : Nat) : FlowData where
  info := strongTable
  viscosity _ := 2
  inverse _ := derivatives 0 0 0 0
  source p :=
    let result := powerLoop 1 (p.1 + p.2) (order - 2)
    components (-4 * order * (order - 1) * result - (order - 1) * result) (4 * order * (order - 1) * result - (order - 1) * result)
  divergence _ := 0
  strong marker p h := if marker ≠ 1 then .error .runtimeError else
    let result := powerLoop 1 (p.1 + p.2) order
    .ok (components result (-result) h)
  weak marker p h :=
    let result := powerLoop 1 (p.1 + p.2) (order - 1)
    if marker = 2 then .ok (components (2 * order * result) (-2 * order * result + (result - meanLoop order)) h) else .error .runtimeError
  pressure p := powerLoop 1 (p.1 + p.2) (order - 1) - meanLoop order
  velocity p :=
    let result := powerLoop 1 (p.1 + p.2) order
    components result (-result)
  gradient p :=
    let result := powerLoop 1 (p.1 + p.2) (order - 1) * order
    derivatives result result (-result) (-result)

/-- `StokesSinSin` of NavierStokes_DF_PCC_2D, lines 202-319. -/
noncomputable def navierSineData : FlowData where
  info := bottomTable
  viscosity _ := 1
  inverse _ := derivatives 0 0 0 0
  source p := components (-sineLaplacian p 0 - cos p.1) (-sineLaplacian p 1 - -cos p.2)
  divergence _ := 0
  strong marker p h := if marker ≠ 1 then .error .runtimeError else .ok (sineVelocity p h)
  weak marker p h := if marker = 2 then .ok (components (-(1 / 2) * cos p.1 * cos p.1 * (-sin p.2 * sin p.2 + cos p.2 * cos p.2))
      (-cos p.2 * sin p.2 * cos p.1 * sin p.1 + sin p.1 - sin p.2) h) else .error .runtimeError
  pressure p := sin p.1 - sin p.2
  velocity := sineVelocity
  gradient := sineGradient

/-- `exact_velocity` of `NavierStokes` of NavierStokes_DF_PCC_2D, lines 430-437. -/
noncomputable def navierVelocity (p : ℝ × ℝ) (h : Nat) : ℝ :=
  components (1 / 2 * sin (2 * Real.pi * p.1) * sin (2 * Real.pi * p.1) * sin (2 * Real.pi * p.2) * cos (2 * Real.pi * p.2))
    (-(1 / 2) * sin (2 * Real.pi * p.2) * sin (2 * Real.pi * p.2) * sin (2 * Real.pi * p.1) * cos (2 * Real.pi * p.1)) h

/-- `NavierStokes` of NavierStokes_DF_PCC_2D, lines 321-458. -/
noncomputable def navierData : FlowData where
  info := bottomTable
  viscosity _ := 1 / 10
  inverse _ := derivatives 0 0 0 0
  source p :=
    let laplacian := components (2 * Real.pi * Real.pi * sin (4 * Real.pi * p.2) * (2 * cos (4 * Real.pi * p.1) - 1))
      (-2 * Real.pi * Real.pi * sin (4 * Real.pi * p.1) * (2 * cos (4 * Real.pi * p.2) - 1))
    let convectiveTerm := components
      (Real.pi * cos (2 * Real.pi * p.1) * sin (2 * Real.pi * p.1) * sin (2 * Real.pi * p.1) * sin (2 * Real.pi * p.1) * sin (2 * Real.pi * p.2) * sin (2 * Real.pi * p.2) * (1 / 2))
      (Real.pi * cos (2 * Real.pi * p.2) * sin (2 * Real.pi * p.1) * sin (2 * Real.pi * p.1) * sin (2 * Real.pi * p.2) * sin (2 * Real.pi * p.2) * sin (2 * Real.pi * p.2) * (1 / 2))
    let pressureDerivatives := components (2 * Real.pi * Real.pi * Real.pi * cos (2 * Real.pi * p.1) * cos (2 * Real.pi * p.2))
      (-2 * Real.pi * Real.pi * Real.pi * sin (2 * Real.pi * p.1) * sin (2 * Real.pi * p.2))
    components (-(1 / 10) * laplacian 0 + convectiveTerm 0 - pressureDerivatives 0) (-(1 / 10) * laplacian 1 + convectiveTerm 1 - pressureDerivatives 1)
  divergence _ := 0
  strong marker p h := if marker ≠ 1 then .error .runtimeError else .ok (navierVelocity p h)
  weak marker p h := if marker = 2 then .ok (components (1 / 10 * Real.pi * cos (4 * Real.pi * p.2) * sin (2 * Real.pi * p.1) * sin (2 * Real.pi * p.1))
      (-(1 / 10) * 2 * Real.pi * cos (2 * Real.pi * p.1) * cos (2 * Real.pi * p.2) * sin (2 * Real.pi * p.1) * sin (2 * Real.pi * p.2) +
        Real.pi * Real.pi * sin (2 * Real.pi * p.1) * cos (2 * Real.pi * p.2)) h) else .error .runtimeError
  pressure p := Real.pi * Real.pi * sin (2 * Real.pi * p.1) * cos (2 * Real.pi * p.2)
  velocity := navierVelocity
  gradient p := derivatives (2 * Real.pi * cos (2 * Real.pi * p.1) * cos (2 * Real.pi * p.2) * sin (2 * Real.pi * p.1) * sin (2 * Real.pi * p.2))
    (Real.pi * cos (4 * Real.pi * p.2) * sin (2 * Real.pi * p.1) * sin (2 * Real.pi * p.1)) (-Real.pi * cos (4 * Real.pi * p.1) * sin (2 * Real.pi * p.2) * sin (2 * Real.pi * p.2))
    (-2 * Real.pi * cos (2 * Real.pi * p.1) * cos (2 * Real.pi * p.2) * sin (2 * Real.pi * p.1) * sin (2 * Real.pi * p.2))

/-- `NavierStokes_VanishingExternalLoad` of NavierStokes_DF_PCC_2D, lines 460-546; the domain comes from an imported mesh of the unit disk with the boundary marker 1. -/
noncomputable def navierDiskData : FlowData where
  info := [(.none, 0), (.strong, 1)]
  viscosity _ := 1
  inverse _ := derivatives 0 0 0 0
  source p := components (18 * p.1 * (p.1 * p.1 + p.2 * p.2) - 18 * p.1 * (p.1 * p.1 + p.2 * p.2)) (18 * p.2 * (p.1 * p.1 + p.2 * p.2) - 18 * p.2 * (p.1 * p.1 + p.2 * p.2))
  divergence _ := 0
  strong marker p h := if marker ≠ 1 then .error .runtimeError else .ok (components (3 * (p.1 * p.1 - p.2 * p.2)) (-6 * p.1 * p.2) h)
  weak _ _ _ := .error .runtimeError
  pressure p := 9 / 2 * (p.1 * p.1 + p.2 * p.2) * (p.1 * p.1 + p.2 * p.2) - 3 / 2
  velocity p := components (3 * (p.1 * p.1 - p.2 * p.2)) (-6 * p.1 * p.2)
  gradient p := derivatives (6 * p.1) (-6 * p.2) (-6 * p.2) (-6 * p.1)

end PolyDiM
