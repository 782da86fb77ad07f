import Verif.Model.TestDataPlane

/-!
# Model: the tests of the example with a bulk and a surface equation

PolyDiM/examples/Parabolic_PCC_BulkFace_2D/src/test_definition.hpp. The functions are given point by point (the C++ evaluates them on the columns of a matrix). The argument `id_domain`
is not used by any of them and is left out.
-/

namespace PolyDiM

open Real (exp)

/-- The `switch (dimension)` of all the functions, e.g. lines 102-112: 2 is the bulk, 1 the surface, anything else throws. -/
def byDimension (dimension : Nat) (bulk surface : α) : Except Fault α :=
  if dimension = 2 then .ok bulk else if dimension = 1 then .ok surface else .error .runtimeError

/-- `I_Test`, lines 34-75. `time` is the time domain (`domain()` sets nothing else). -/
structure BulkData where
  time : List ℝ
  infoBulk : List (BType × Nat)
  infoSurface : List (BType × Nat)
  diffusion : Nat → ℝ × ℝ → Except Fault ℝ
  reaction : Nat → ℝ × ℝ → Except Fault ℝ
  source : Nat → ℝ → ℝ × ℝ → Except Fault ℝ
  initial : Nat → ℝ × ℝ → Except Fault ℝ
  value : Nat → ℝ → ℝ × ℝ → Except Fault ℝ
  weak : Nat → ℝ → Nat → ℝ × ℝ → Except Fault ℝ
  gradient : Nat → ℝ → ℝ × ℝ → Except Fault (Nat → ℝ)
  alpha : Nat → ℝ × ℝ → Except Fault ℝ
  beta : Nat → ℝ × ℝ → Except Fault ℝ

/-- `exact_solution` of `Elliptic_Problem`, lines 156-172. -/
noncomputable def bulkEllipticValue (dimension : Nat) (_t : ℝ) (p : ℝ × ℝ) : Except Fault ℝ := byDimension dimension (p.1 * p.2) (3 / 2 * p.1 * p.2)

/-- `Elliptic_Problem`, lines 77-230. -/
noncomputable def bulkEllipticData : BulkData where
  time := []
  infoBulk := [(.none, 0), (.none, 0)]
  infoSurface := [(.none, 0), (.none, 0)]
  diffusion dimension _ := byDimension dimension 1 1
  reaction dimension _ := byDimension dimension 1 1
  source dimension t p :=
    if dimension = 2 then do
      let u ← bulkEllipticValue dimension t p
      .ok (0 + u)
    else if dimension = 1 then .ok (6 * p.1 * p.2 + 7 / 2 * p.1 * p.2)
    else .error .runtimeError
  initial dimension p := bulkEllipticValue dimension 0 p
  value := bulkEllipticValue
  weak _ _ _ _ := .error .runtimeError
  gradient dimension _ p := byDimension dimension (components p.2 p.1) (components (3 / 2 * p.2) (3 / 2 * p.1))
  alpha dimension _ := byDimension dimension 1 1
  beta dimension _ := byDimension dimension 2 2

/-- `exact_solution` of `Parabolic_Problem`, lines 310-326. -/
noncomputable def bulkParabolicValue (dimension : Nat) (t : ℝ) (p : ℝ × ℝ) : Except Fault ℝ :=
  byDimension dimension (p.1 * p.2 * exp (-t)) (3 / 2 * p.1 * p.2 * exp (-t))

/-- `Parabolic_Problem`, lines 232-388. -/
noncomputable def bulkParabolicData : BulkData where
  time := [0, 1]
  infoBulk := [(.none, 0), (.none, 0)]
  infoSurface := [(.none, 0), (.none, 0)]
  diffusion dimension _ := byDimension dimension 1 (1 / 4)
  reaction dimension _ := byDimension dimension 1 0
  source dimension _ _ := byDimension dimension 0 0
  initial dimension p := bulkParabolicValue dimension 0 p
  value := bulkParabolicValue
  weak _ _ _ _ := .error .runtimeError
  gradient dimension t p := byDimension dimension (components (p.2 * exp (-t)) (p.1 * exp (-t))) (components (3 / 2 * p.2 * exp (-t)) (3 / 2 * p.1 * exp (-t)))
  alpha dimension _ := byDimension dimension 0 2
  beta dimension _ := byDimension dimension (4 / 3) (4 / 3)

end PolyDiM
