import Verif.Spec.LineMesh
import Verif.Model.AssemblerBulk2D

/-!
# Specification: traces of the bulk unknowns on the segments of the surface

The global unknowns are numbered by natural numbers. On a segment a global vector gives two polynomials in the parameter of the segment, the trace of the bulk function and the surface function; they are determined
by their values at the nodes of the segment.
-/

namespace PolyDiM.Spec

open Polynomial

/-- The numbers of the unknowns on the segments: `bulkNo c j` and `surfaceNo c j` are the global numbers of the bulk and the surface unknown at node `j` of segment `c`. -/
structure IsTraceMesh (k n : Nat) (bulk surface : DOFsData) (offset : Nat) (newToOld : List Nat) (bulkNo surfaceNo : Nat → Nat → Nat) : Prop where
  surface : ∀ c < n, ∃ s, (surface.dims 1).globals[c]? = some s ∧ s.gdofs.length = k + 1 ∧
    ∀ j < k + 1, ∃ r x, s.gdofs[j]? = some r ∧ lookup surface r = some x ∧ x.globalIndex + offset = surfaceNo c j ∧ surfaceNo c j < 2 ^ 32
  bulk : ∀ c < n, ∃ e b, newToOld[c]? = some e ∧ (bulk.dims 1).globals[e]? = some b ∧
    ∀ j < k + 1, ∃ r x, b.gdofs[j]? = some r ∧ lookup bulk r = some x ∧ x.globalIndex = bulkNo c j

/-- `p` is the polynomial of degree at most `k` on segment `c` with the values of the global vector `x` at the nodes, where `no` gives the numbers of the unknowns. -/
def IsSegmentTrace (k : Nat) (nodes : List ℝ) (no : Nat → Nat → Nat) (x : Nat → ℝ) (c : Nat) (p : ℝ[X]) : Prop :=
  p.natDegree ≤ k ∧ ∀ j < k + 1, p.eval (nodes.getD j 0) = x (no c j)

/-- The bilinear form of a matrix given by triplets (entries at one position are added). -/
def exchangeForm (T : List (Nat × Nat × ℝ)) (y x : Nat → ℝ) : ℝ := (T.map fun t => y t.1 * t.2.2 * x t.2.1).sum

end PolyDiM.Spec
