import Verif.Spec.Vem
import Verif.Spec.VemElement
import Verif.Spec.Geometry
import Mathlib.RingTheory.MvPolynomial.Homogeneous
import Mathlib.Analysis.Calculus.Deriv.Basic

/-!
# Specification vocabulary: the Raviart-Thomas space
-/

namespace PolyDiM.Spec

open MeasureTheory

/-- The field belongs to the Raviart-Thomas space of order `k`: two polynomials of degree at most `k` plus the position vector times a homogeneous
polynomial of degree `k`. -/
def IsRT (k : Nat) (v : ℝ × ℝ → ℝ × ℝ) : Prop :=
  ∃ a b h : MvPolynomial (Fin 2) ℝ, a.totalDegree ≤ k ∧ b.totalDegree ≤ k ∧ h.IsHomogeneous k ∧ ∀ p : ℝ × ℝ,
    v p = (MvPolynomial.eval ![p.1, p.2] a + p.1 * MvPolynomial.eval ![p.1, p.2] h,
      MvPolynomial.eval ![p.1, p.2] b + p.2 * MvPolynomial.eval ![p.1, p.2] h)

/-- The scalar product of the plane. -/
def dot2 {K : Type} [Field K] (a b : K × K) : K := a.1 * b.1 + a.2 * b.2

/-- The flux of the field through the segment from `P` to `Q`, to the right, weighted with a power of the parameter centred in the middle. -/
noncomputable def fluxMoment (v : ℝ × ℝ → ℝ × ℝ) (P Q : ℝ × ℝ) (i : Nat) : ℝ :=
  ∫ t in (0 : ℝ)..1, dot2 (v (segPoint P Q t)) (clockwise (Q - P)) * (t - 1 / 2) ^ i

/-- The field has divergence `d` at `p`. -/
def HasDivergence (v : ℝ × ℝ → ℝ × ℝ) (p : ℝ × ℝ) (d : ℝ) : Prop :=
  ∃ a b, HasDerivAt (fun s => (v (s, p.2)).1) a p.1 ∧ HasDerivAt (fun s => (v (p.1, s)).2) b p.2 ∧ d = a + b

/-- The vertices of the reference triangle. -/
noncomputable def rtVertex (e : Nat) : ℝ × ℝ := if e = 0 then (0, 0) else if e = 1 then (1, 0) else (0, 1)

/-- The reference triangle. -/
def refTri : Set (ℝ × ℝ) := {p | InTriangle (0, 0) (1, 0) (0, 1) p}

/-- `c j`, `j < (k + 1) (k + 3)`, are the degrees of freedom of the field on the reference triangle whose edges the mesh runs through in the
directions `dir`: flux moments of the edges up to degree `k`, then the moments of the two components up to degree `k - 1`. -/
structure IsRTDofs (k : Nat) (dir : Nat → Bool) (v : ℝ × ℝ → ℝ × ℝ) (c : Nat → ℝ) : Prop where
  edge : ∀ e < 3, ∀ i ≤ k, c (e * (k + 1) + i) = fluxMoment v (polyEdge 3 rtVertex (dir e) e).1 (polyEdge 3 rtVertex (dir e) e).2 i
  inner1 : ∀ a b, a + b + 1 ≤ k → c (3 * (k + 1) + position a b) = ∫ p in refTri, scaledMonomial (1 / 3, 1 / 3) 1 a b p * (v p).1
  inner2 : ∀ a b, a + b + 1 ≤ k → c (3 * (k + 1) + k * (k + 1) / 2 + position a b) = ∫ p in refTri, scaledMonomial (1 / 3, 1 / 3) 1 a b p * (v p).2

/-- The tables of quadrature rules used by the reference element of order `k`: exact to the requested degree, with `k + 1` points on the segment. -/
structure IsRTTables (k : Nat) (triangle : Nat → Rule (ℝ × ℝ) ℝ) (gauss : Nat → Rule ℝ ℝ) (ts ws : List ℝ) : Prop where
  triangleLength : (triangle (2 * (k + 1))).points.length = (triangle (2 * (k + 1))).weights.length
  triangleExact : ExactOnTriangle (2 * (k + 1)) (triangle (2 * (k + 1))).points (triangle (2 * (k + 1))).weights
  segment : gauss (2 * k + 1) = ⟨ts, ws⟩
  nodes : ts.length = k + 1
  weights : ws.length = k + 1
  segmentExact : ExactOnSegment (2 * k + 1) ts ws

end PolyDiM.Spec
