import Verif.Model.AssemblerElliptic1D
import Mathlib.Data.Real.Basic

/-!
# Model: the tests of the elasticity example

PolyDiM/examples/Elastic_PCC_2D/src/test_definition.hpp. The functions are given point by point (the C++ evaluates them on the columns of a matrix). Decimal constants are the
exact numbers they denote. The tables of the boundary are maps with the consecutive keys `0, 1, ...`, given here as lists.
-/

namespace PolyDiM

/-- `boundary_info`: the value of the map at a key. -/
def boundaryTable (L : List (BType × Nat)) (j : Nat) : Option BInfo := (L[j]?).map fun e => ⟨e.1, e.2⟩

/-- `Domain_Shape_Types`, PolyDiM/src/PDETools/Mesh/PDE_Mesh_Utilities.hpp:37-43. -/
inductive DomainShape where
  | parallelogram
  | polygon
  | ellipse
  | unknown
  deriving DecidableEq

/-- `I_Test`, lines 36-48. The methods that throw for unknown markers or are not implemented return a fault. -/
structure ElasticData where
  vertices : List (ℝ × ℝ)
  area : ℝ
  shape : DomainShape
  info : List (BType × Nat)
  source : ℝ × ℝ → Nat → ℝ
  strong : Nat → ℝ × ℝ → Nat → Except Fault ℝ
  weak : Nat → ℝ × ℝ → Nat → Except Fault ℝ
  lame : ℝ × ℝ → Nat → ℝ
  value : ℝ × ℝ → Nat → Except Fault ℝ
  gradient : ℝ × ℝ → Nat → Nat → Except Fault ℝ

/-- The vector of three components `{a, b, 0}`. -/
def components (a b : ℝ) (h : Nat) : ℝ := if h = 0 then a else if h = 1 then b else 0

/-- The nine derivatives `{a, b, 0, c, d, 0, 0, 0, 0}`; entry `3 * d1 + d2` is the derivative of component `d1` in direction `d2`. -/
def derivatives (a b c d : ℝ) (d1 d2 : Nat) : ℝ := if d1 = 0 then components a b d2 else if d1 = 1 then components c d d2 else 0

/-- The corners of the unit square, lines 60-62, 187-189. -/
def unitCorners : List (ℝ × ℝ) := [(0, 0), (1, 0), (1, 1), (0, 1)]

/-- `Patch_Test`, lines 50-176; `order` is an `int`, so that the loops do nothing for negative bounds. -/
noncomputable def elasticPatchData (order : Nat) : ElasticData where
  vertices := unitCorners
  area := 1
  shape := .parallelogram
  info := [(.none, 0), (.none, 0), (.strong, 1), (.strong, 1), (.strong, 1), (.weak, 2), (.strong, 1), (.strong, 1), (.weak, 4)]
  source p := if order < 2 then components 0 0 else
    let result := powerLoop 1 (p.1 + p.2) (order - 2)
    components (-6 * order * (order - 1 : Nat) * result) (-6 * order * (order - 1 : Nat) * result)
  strong marker p h := if marker ≠ 1 then .error .runtimeError else
    let result := powerLoop 1 (p.1 + p.2) order
    .ok (components result result h)
  weak marker p h :=
    let result := powerLoop 1 (p.1 + p.2) (order - 1)
    let mu := 1
    let lambda := 1
    let u1x := order * result
    let u1y := order * result
    let u2x := order * result
    let u2y := order * result
    if marker = 2 then .ok (components (-mu * (u1y + u2x)) (-((lambda + 2 * mu) * u2y + lambda * u1x)) h)
    else if marker = 4 then .ok (components (-((lambda + 2 * mu) * u1x + lambda * u1y)) (-mu * (u1y + u2x)) h)
    else .error .runtimeError
  lame _ i := if i = 0 then 1 else 1
  value p h :=
    let result := powerLoop 1 (p.1 + p.2) order
    .ok (components result result h)
  gradient p d1 d2 :=
    let result := powerLoop 1 (p.1 + p.2) (order - 1) * order
    .ok (derivatives result result result result d1 d2)

/-- `LinearElasticity`, lines 179-290. -/
noncomputable def elasticPlateData : ElasticData where
  vertices := unitCorners
  area := 1
  shape := .parallelogram
  info := [(.none, 0), (.strong, 1), (.strong, 1), (.none, 0), (.strong, 1), (.strong, 1), (.weak, 4), (.weak, 2), (.strong, 1)]
  source p :=
    let mu := 3 / 2
    let lambda := 3
    let u1xx := -32 * p.2 * (1 - p.2)
    let u1xy := 16 * (1 - 2 * p.2) * (1 - 2 * p.1)
    let u1yy := -32 * p.1 * (1 - p.1)
    let u2xx := 5 * u1xx
    let u2xy := 5 * u1xy
    let u2yy := 5 * u1yy
    components (-(2 * mu * (u1xx + 1 / 2 * (u1yy + u2xy)) + lambda * (u1xx + u2xy))) (-(2 * mu * (1 / 2 * (u1xy + u2xx) + u2yy) + lambda * (u1xy + u2yy)))
  strong marker p h := if marker ≠ 1 then .error .runtimeError else
    let g := 16 * p.1 * (1 - p.1) * p.2 * (1 - p.2) + 11 / 10
    .ok (components g (5 * g) h)
  weak marker p h :=
    let mu := 3 / 2
    let lambda := 3
    let u1x := 16 * (1 - 2 * p.1) * p.2 * (1 - p.2)
    let u1y := 16 * (1 - 2 * p.2) * p.1 * (1 - p.1)
    let u2x := 5 * 16 * (1 - 2 * p.1) * p.2 * (1 - p.2)
    let u2y := 5 * 16 * (1 - 2 * p.2) * p.1 * (1 - p.1)
    if marker = 2 then .ok (components (mu * (u1y + u2x)) ((lambda + 2 * mu) * u2y + lambda * u1x) h)
    else if marker = 4 then .ok (components ((lambda + 2 * mu) * u1x + lambda * u1y) (mu * (u1y + u2x)) h)
    else .error .runtimeError
  lame _ i := if i = 0 then 3 / 2 else 3
  value p h :=
    let g := 16 * p.1 * (1 - p.1) * p.2 * (1 - p.2) + 11 / 10
    .ok (components g (5 * g) h)
  gradient p d1 d2 := .ok (derivatives (16 * (1 - 2 * p.1) * p.2 * (1 - p.2)) (16 * (1 - 2 * p.2) * p.1 * (1 - p.1)) (5 * 16 * (1 - 2 * p.1) * p.2 * (1 - p.2))
    (5 * 16 * (1 - 2 * p.2) * p.1 * (1 - p.1)) d1 d2)

/-- `lame_coefficients` of `LinearElasticity_Beam` and of `LinearElasticity_CooksMembrane`, lines 360-367, 447-454, for the two constants `E` and `nu`. -/
noncomputable def lameOf (E nu : ℝ) (i : Nat) : ℝ := if i = 0 then E * (2 * (1 + nu)) else E * nu / ((1 + nu) * (1 - 2 * nu))

/-- `LinearElasticity_Beam`, lines 293-378. -/
noncomputable def elasticBeamData : ElasticData where
  vertices := [(0, 0), (25, 0), (25, 1), (0, 1)]
  area := 25
  shape := .parallelogram
  info := [(.none, 0), (.strong, 1), (.none, 0), (.none, 0), (.strong, 1), (.weak, 2), (.weak, 4), (.weak, 6), (.strong, 1)]
  source _ := components 0 (-1)
  strong marker _ h := if marker ≠ 1 then .error .runtimeError else .ok (components 0 0 h)
  weak marker _ h := if marker = 2 then .ok (components 0 0 h) else if marker = 4 then .ok (components 0 0 h) else if marker = 6 then .ok (components 0 0 h) else .error .runtimeError
  lame _ := lameOf 100000 (3 / 10)
  value _ _ := .error .runtimeError
  gradient _ _ _ := .error .runtimeError

/-- `LinearElasticity_CooksMembrane`, lines 380-465. -/
noncomputable def elasticCookData : ElasticData where
  vertices := [(0, 0), (48, 44), (48, 60), (0, 44)]
  area := 1408
  shape := .parallelogram
  info := [(.none, 0), (.strong, 1), (.none, 0), (.none, 0), (.strong, 1), (.weak, 2), (.weak, 4), (.weak, 6), (.strong, 1)]
  source _ := components 0 0
  strong marker _ h := if marker ≠ 1 then .error .runtimeError else .ok (components 0 0 h)
  weak marker _ h := if marker = 2 then .ok (components 0 0 h) else if marker = 4 then .ok (components 0 (25 / 4) h) else if marker = 6 then .ok (components 0 0 h) else .error .runtimeError
  lame _ := lameOf 70 (1 / 3)
  value _ _ := .error .runtimeError
  gradient _ _ _ := .error .runtimeError

end PolyDiM
