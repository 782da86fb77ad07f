import Verif.Model.SparseData
import Verif.Spec.Assembler

/-!
# Spec: the entries of a sparse matrix
-/

namespace PolyDiM.Spec

variable {K : Type} [Field K]

/-- The entry `(i, j)` of a compressed matrix. -/
def coefficient (M : Compressed K) (i j : Nat) : K := ((M.outer.getD j []).map fun e => if e.1 = i then e.2 else 0).sum

/-- The stored entries of each column are in the order of the rows, one for each row at most, and inside of the matrix. -/
def IsCompressed (M : Compressed K) : Prop := ∀ c ∈ M.outer, (c.map Prod.fst).Pairwise (· < ·) ∧ ∀ e ∈ c, e.1 < M.rows

/-- The entries different from zero of a matrix, column by column. -/
def nonzeros [DecidableEq K] (r c : Nat) (a : Nat → Nat → K) : List (Nat × Nat × K) :=
  (List.range c).flatMap fun j => (List.range r).filterMap fun i => if a i j ≠ 0 then some (i, j, a i j) else none

end PolyDiM.Spec
