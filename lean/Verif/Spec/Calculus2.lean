import Mathlib.Analysis.Calculus.Deriv.Basic
import Mathlib.Data.Real.Basic

/-!
# Specification vocabulary: derivatives of functions of two real variables
-/

namespace PolyDiM.Spec

/-- `fx`, `fy` are the partial derivatives of `f` everywhere. -/
def HasPartials2 (f fx fy : ℝ → ℝ → ℝ) : Prop :=
  ∀ x y, HasDerivAt (fun s => f s y) (fx x y) x ∧ HasDerivAt (fun s => f x s) (fy x y) y

/-- `fxx, fxy, fyx, fyy` are the second partial derivatives of `f` at `(x, y)` (`fxy` is the `y`-derivative of the
`x`-derivative). -/
def HasSecond2 (f : ℝ → ℝ → ℝ) (x y fxx fxy fyx fyy : ℝ) : Prop :=
  ∃ fx fy, HasPartials2 f fx fy ∧ HasDerivAt (fun s => fx s y) fxx x ∧ HasDerivAt (fun s => fx x s) fxy y ∧
    HasDerivAt (fun s => fy s y) fyx x ∧ HasDerivAt (fun s => fy x s) fyy y

/-- `v` is the Laplacian of `f` at `(x, y)`. -/
def HasLaplacian2 (f : ℝ → ℝ → ℝ) (x y v : ℝ) : Prop := ∃ a b c d, HasSecond2 f x y a b c d ∧ v = a + d

end PolyDiM.Spec
