import Mathlib.Algebra.BigOperators.Ring.Finset
import Mathlib.Algebra.Field.Basic

/-!
# Spec: the convective form of the Navier-Stokes equations under quadrature
-/

namespace PolyDiM.Spec

/-- A vector field at quadrature points: `value a q` is component `a`, `grad a b q` its derivative in direction `b`. -/
structure PointField (K : Type) where
  value : Nat → Nat → K
  grad : Nat → Nat → Nat → K

variable {K : Type} [Field K]

/-- The quadrature of `((α · ∇) u) · v`. -/
def convectiveForm (Q : Nat) (w : Nat → K) (α u v : PointField K) : K :=
  ∑ q ∈ Finset.range Q, w q * ((α.value 0 q * u.grad 0 0 q + α.value 1 q * u.grad 0 1 q) * v.value 0 q + (α.value 0 q * u.grad 1 0 q + α.value 1 q * u.grad 1 1 q) * v.value 1 q)

/-- Half of the difference of `((α · ∇) u) · v` and `((α · ∇) v) · u`. -/
def skewForm (Q : Nat) (w : Nat → K) (α u v : PointField K) : K := (convectiveForm Q w α u v - convectiveForm Q w α v u) / 2

/-- The field with the coefficients `d` in `M` basis fields. -/
def combined (M : Nat) (φ : Nat → PointField K) (d : Nat → K) : PointField K where
  value a q := ∑ J ∈ Finset.range M, (φ J).value a q * d J
  grad a b q := ∑ J ∈ Finset.range M, (φ J).grad a b q * d J

end PolyDiM.Spec
