import Verif.Spec.TestData
import Mathlib.Analysis.SpecialFunctions.Trigonometric.Basic

/-!
# Specification: a bulk equation in the unit disk, coupled with an equation on the unit circle

In the disk `du/dt - div(k grad u) + r u = f`, with the flux `k du/dn = b v - a u` through the circle. On the circle `dv/dt - k' v'' + r' v = f' + a' u - b' v`, where `v''` is the second derivative with
respect to the arc length.
-/

namespace PolyDiM.Spec

/-- The point of the unit circle at the arc length `s`; it is its own outward normal. -/
noncomputable def circlePoint (s : ℝ) : ℝ × ℝ := (Real.cos s, Real.sin s)

/-- Constant coefficients of one of the two equations: diffusion, reaction, and the two coefficients of the exchange. -/
structure Exchange where
  diffusion : ℝ
  reaction : ℝ
  alpha : ℝ
  beta : ℝ

/-- `u` and `v` solve the coupled problem. `ut` and `vt` are the time derivatives, `fu` and `fv` the sources. -/
structure SolvesBulkSurface (bulk surface : Exchange) (fu fv ut vt u v : ℝ × ℝ → ℝ) : Prop where
  /-- The equation in the disk. -/
  disk : ∃ gx gy, HasPartials u gx gy ∧ DivergenceIs (fun p => bulk.diffusion * gx p) (fun p => bulk.diffusion * gy p) (fun p => ut p + bulk.reaction * u p - fu p)
  /-- The exchange through the circle. -/
  exchange : ∃ gx gy, HasPartials u gx gy ∧ ∀ s, bulk.diffusion * (gx (circlePoint s) * (circlePoint s).1 + gy (circlePoint s) * (circlePoint s).2) =
    bulk.beta * v (circlePoint s) - bulk.alpha * u (circlePoint s)
  /-- The equation on the circle. -/
  circle : ∃ d dd : ℝ → ℝ, (∀ s, HasDerivAt (fun s => v (circlePoint s)) (d s) s) ∧ (∀ s, HasDerivAt d (dd s) s) ∧
    ∀ s, vt (circlePoint s) - surface.diffusion * dd s + surface.reaction * v (circlePoint s) =
      fv (circlePoint s) + surface.alpha * u (circlePoint s) - surface.beta * v (circlePoint s)

end PolyDiM.Spec
