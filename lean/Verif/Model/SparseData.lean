import Verif.Model.Assembler
import Mathlib.Algebra.Field.Defs

/-!
# Model: the conversions of sparse matrices

PolyDiM/src/PDETools/Assembler/assembler_PCC_2D_functions_utilities.cpp. Lines without a file refer to it.
-/

namespace PolyDiM

variable {K : Type} [Field K] [DecidableEq K]

/-- `Eigen::SparseMatrix<double>`, column by column: the stored entries of column `j` are the pairs (row, value) of `outer[j]` (used in lines 23-37). -/
structure Compressed (K : Type) where
  rows : Nat
  outer : List (List (Nat × K))

/-- `Sparse_Matrix_Data`, PolyDiM/src/PDETools/Assembler/assembler_PCC_2D_functions_data.hpp:33-39. -/
structure SparseData (K : Type) where
  size0 : Nat
  size1 : Nat
  rows : List Nat
  cols : List Nat
  values : List K

/-- `to_triplets`, lines 23-37: the outer loop over the columns, the inner iterator over the stored entries of the column, zeros left out. -/
def toTriplets (M : Compressed K) : List (Nat × Nat × K) :=
  M.outer.zipIdx.flatMap fun c => (c.1.filter fun e => e.2 ≠ 0).map fun e => (e.1, c.2, e.2)

/-- `to_Sparse_Matrix_Data`, lines 51-74; the indices are converted from `int` to `unsigned int`. -/
def toSparseData (M : Compressed K) : SparseData K :=
  ⟨u32 M.rows, u32 M.outer.length, (toTriplets M).map fun t => u32 t.1, (toTriplets M).map fun t => u32 t.2.1, (toTriplets M).map fun t => t.2.2⟩

/-- `Create()` of `Gedim::Eigen_SparseArray` (lines 46, 96), a call into a library: `setFromTriplets` of Eigen, that stores one entry for each position that occurs and adds the values of
a position. A position outside of the matrix is undefined behaviour. -/
def compressTriplets (r c : Nat) (T : List (Nat × Nat × K)) : Except Fault (Compressed K) :=
  if ∀ t ∈ T, t.1 < r ∧ t.2.1 < c then
    .ok ⟨r, (List.range c).map fun j => (List.range r).filterMap fun i =>
      if T.any fun t => t.1 = i ∧ t.2.1 = j then some (i, ((T.filter fun t => t.1 = i ∧ t.2.1 = j).map fun t => t.2.2).sum) else none⟩
  else .error .undefinedBehaviour

/-- `Triplets(rows, cols, values)` of `Gedim::Eigen_SparseArray` (lines 44, 92, 94), a call into a library: entry `t` of the three vectors is one triplet. -/
def zipTriplets (rows cols : List Nat) (values : List K) : Except Fault (List (Nat × Nat × K)) :=
  if rows.length = cols.length ∧ rows.length = values.length then .ok (rows.zip (cols.zip values)) else .error .undefinedBehaviour

/-- `to_Eigen_SparseArray(A)`, lines 39-49. -/
def toArray (A : SparseData K) : Except Fault (Compressed K) := do
  let T ← zipTriplets A.rows A.cols A.values
  compressTriplets A.size0 A.size1 T

/-- `to_Eigen_SparseArray(A, new_size, shifts, transpose)`, lines 76-99. Line 88 is an access with `at` to `A.cols` at an index of `A.rows`; the rest of `shifted_cols` stays zero. The sums
are of type `unsigned int`. -/
def toArrayShifted (A : SparseData K) (size0 size1 shift0 shift1 : Nat) (transpose : Bool) : Except Fault (Compressed K) := do
  let rows := A.rows.map fun i => u32 (i + shift0)
  if A.cols.length < A.rows.length then .error .outOfRange
  else
    let cols := (A.cols.take A.rows.length).map (fun j => u32 (j + shift1)) ++ List.replicate (A.cols.length - A.rows.length) 0
    let T ← if transpose then zipTriplets cols rows A.values else zipTriplets rows cols A.values
    compressTriplets size0 size1 T

end PolyDiM
