import Verif.Spec.Parabolic

/-!
# Spec: implicit Euler for a system of equations, and the largest error in time
-/

namespace PolyDiM.Spec

/-- The product of a matrix given by triplets and a vector with `N` entries, at row `i`. -/
def rowTimes (A : List (Nat × Nat × ℝ)) (N : Nat) (x : Nat → ℝ) (i : Nat) : ℝ := ∑ j ∈ Finset.range N, entry A i j * x j

/-- `u` follows implicit Euler for `M u' + A u = F`, with the step `dt`, over the times `t 1, ..., t n`. -/
def ImplicitEuler (A M : List (Nat × Nat × ℝ)) (F : ℝ → Nat → ℝ) (N : Nat) (dt : ℝ) (t : Nat → ℝ) (n : Nat) (u : Nat → Nat → ℝ) : Prop :=
  ∀ m < n, ∀ i < N, rowTimes M N (fun j => (u (m + 1) j - u m j) / dt) i + rowTimes A N (u (m + 1)) i = F (t (m + 1)) i

/-- `e` is the largest of the numbers of a list. -/
def IsLargest (l : List ℝ) (e : ℝ) : Prop := e ∈ l ∧ ∀ x ∈ l, x ≤ e

end PolyDiM.Spec
