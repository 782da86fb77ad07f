import Verif.Model.DOFs

/-!
# Model of `Assembler_Utilities`

PolyDiM/src/PDETools/Assembler/Assembler_Utilities.hpp, function by function, over an arbitrary type `R` of numbers
(the code uses `double`; the arithmetic of the model is exact).
-/

namespace PolyDiM

/-- `count_dofs_data`, Assembler_Utilities.hpp:32-39. -/
structure CountData where
  totalBoundary : Nat
  totalDOFs : Nat
  totalStrong : Nat
  offsetsDOFs : List Nat
  offsetsStrongs : List Nat
  deriving DecidableEq, Repr

/-- The loop of `count_dofs`, Assembler_Utilities.hpp:60-68; `prev` is the handler `i-1`. The vectors are sized
beforehand and entry `i` is written in iteration `i`; here it is appended. -/
def countLoop : CountData → Counters → List Counters → CountData
  | d, _, [] => d
  | d, prev, k :: ks =>
    countLoop
      { totalDOFs := u32 (d.totalDOFs + k.dofs)
        totalStrong := u32 (d.totalStrong + k.strongs)
        totalBoundary := u32 (d.totalBoundary + k.boundary)
        offsetsDOFs := d.offsetsDOFs ++ [d.offsetsDOFs.getLastD 0 + prev.dofs]
        offsetsStrongs := d.offsetsStrongs ++ [d.offsetsStrongs.getLastD 0 + prev.strongs] } k ks

/-- `count_dofs`, Assembler_Utilities.hpp:47-71; only the counters of the handlers are read. On an empty vector
`dofs_data[0]` is undefined behaviour. -/
def countDofs : List Counters → Except Fault CountData
  | [] => .error .undefinedBehaviour
  | k :: ks => .ok (countLoop ⟨k.boundary, k.dofs, k.strongs, [0], [0]⟩ k ks)

/-- `local_count_dofs_data`, Assembler_Utilities.hpp:41-45. -/
structure LocalCount where
  total : Nat
  offsets : List Nat
  deriving DecidableEq, Repr

/-- `dofs_data[i].get().CellsGlobalDOFs[dimension].at(cell_index).size()`, Assembler_Utilities.hpp:79, 87-89. -/
def localSize (dim cell : Nat) (data : DOFsData) : Except Fault Nat := do
  let g ← atIdx (data.dims dim).globals cell
  .ok g.gdofs.length

/-- The loop of `local_count_dofs`, Assembler_Utilities.hpp:85-90; `prev` is the field `i-1`. -/
def localCountLoop (dim cell : Nat) : LocalCount → DOFsData → List DOFsData → Except Fault LocalCount
  | d, _, [] => .ok d
  | d, prev, k :: ks => do
    let n ← localSize dim cell k
    let p ← localSize dim cell prev
    localCountLoop dim cell { total := u32 (d.total + n), offsets := d.offsets ++ [d.offsets.getLastD 0 + p] } k ks

/-- `local_count_dofs<dimension>`, Assembler_Utilities.hpp:73-93 (the overloads 95-116 only wrap the argument). -/
def localCountDofs (dim cell : Nat) : List DOFsData → Except Fault LocalCount
  | [] => .error .undefinedBehaviour
  | k :: ks => do
    let n ← localSize dim cell k
    localCountLoop dim cell ⟨n, [0]⟩ k ks

/-- `v[i] = x` on a sized vector: out of bounds is undefined behaviour (Assembler_Utilities.hpp:144-151). -/
def writeAt {R : Type _} (v : List R) (i : Nat) (x : R) : Except Fault (List R) :=
  if i < v.length then .ok (v.set i x) else .error .undefinedBehaviour

/-- The loop over the local DOFs of `global_solution_to_local_solution`, Assembler_Utilities.hpp:134-155, from position
`loc` on; `GetValue` on a position outside the vector is undefined behaviour. -/
def extractLoop {R : Type _} (dims : Nat → DimData) (h : Nat) (locOffs offD offS : List Nat) (solD solS : List R) :
    Nat → List GDOF → List R → Except Fault (List R)
  | _, [], v => .ok v
  | loc, r :: rs, v => do
    let x ← resolve dims r
    match x.type with
    | .unknwon => .error .unknownDOFType
    | .strong => do
      let o ← unchecked locOffs h
      let g ← unchecked offS h
      let y ← unchecked solS (x.globalIndex + g)
      let v ← writeAt v (loc + o) y
      extractLoop dims h locOffs offD offS solD solS (loc + 1) rs v
    | .dof => do
      let o ← unchecked locOffs h
      let g ← unchecked offD h
      let y ← unchecked solD (x.globalIndex + g)
      let v ← writeAt v (loc + o) y
      extractLoop dims h locOffs offD offS solD solS (loc + 1) rs v

/-- The loop over the fields of `global_solution_to_local_solution`, Assembler_Utilities.hpp:130-156, from field `h` on. -/
def extractFields {R : Type _} (dim cell : Nat) (locOffs offD offS : List Nat) (solD solS : List R) :
    Nat → List DOFsData → List R → Except Fault (List R)
  | _, [], v => .ok v
  | h, d :: ds, v => do
    let g ← atIdx (d.dims dim).globals cell
    let v ← extractLoop d.dims h locOffs offD offS solD solS 0 g.gdofs v
    extractFields dim cell locOffs offD offS solD solS (h + 1) ds v

/-- `global_solution_to_local_solution<dimension>`, Assembler_Utilities.hpp:118-159 (the overloads 161-208 only wrap the
argument). -/
def globalToLocal {R : Type _} [Zero R] (dim cell : Nat) (fields : List DOFsData) (numLocal : Nat)
    (locOffs offD offS : List Nat) (solD solS : List R) : Except Fault (List R) :=
  extractFields dim cell locOffs offD offS solD solS 0 fields (List.replicate numLocal 0)

/-- `local_matrix_to_global_matrix_dofs_data`, Assembler_Utilities.hpp:24-30. -/
structure Fields where
  dofs : List DOFsData
  localOffsets : List Nat
  globalOffsetsDOFs : List Nat
  globalOffsetsStrongs : List Nat

/-- A local dense matrix (`local_lhs_type`, in practice `Eigen::MatrixXd`; Assembler_Utilities.hpp:214). -/
structure LMat (R : Type _) where
  rows : Nat
  cols : Nat
  entry : Nat → Nat → R

/-- `local_lhs(i, j)`, Assembler_Utilities.hpp:261: out of bounds is undefined behaviour. -/
def LMat.get {R : Type _} (A : LMat R) (i j : Nat) : Except Fault R :=
  if i < A.rows ∧ j < A.cols then .ok (A.entry i j) else .error .undefinedBehaviour

/-- What assembly writes, in order: the triplets handed to `global_lhs_DOFs.Triplet`, to `global_lhs_Strongs.Triplet`
(Assembler_Utilities.hpp:266,269) and the additions handed to `global_rhs.AddValue` (line 245). The code never reads the
global objects, so the log determines them: an entry is the sum of what was added to it (triplet semantics of the
sparse matrix). -/
structure Sys (R : Type _) where
  lhsDOFs : List (Nat × Nat × R)
  lhsStrongs : List (Nat × Nat × R)
  rhs : List (Nat × R)

/-- Two consecutive pieces of the log (sequencing of the loop bodies, Assembler_Utilities.hpp:220-278). -/
def Sys.app {R : Type _} (a b : Sys R) : Sys R :=
  ⟨a.lhsDOFs ++ b.lhsDOFs, a.lhsStrongs ++ b.lhsStrongs, a.rhs ++ b.rhs⟩

/-- Nothing written yet (Assembler_Utilities.hpp:220). -/
def Sys.empty {R : Type _} : Sys R := ⟨[], [], []⟩

/-- The `switch` on the type of the trial DOF, Assembler_Utilities.hpp:263-274. -/
def trialWrite {R : Type _} (offD offS row : Nat) (a : R) (x : DOF) : Except Fault (Sys R) :=
  match x.type with
  | .unknwon => .error .unknownDOFType
  | .strong => .ok ⟨[], [(row, x.globalIndex + offS, a)], []⟩
  | .dof => .ok ⟨[(row, x.globalIndex + offD, a)], [], []⟩

/-- The innermost loop, over the trial DOFs of one field, Assembler_Utilities.hpp:255-275. -/
def trialDofs {R : Type _} (dims : Nat → DimData) (offD offS locOff row locRow : Nat) (A : LMat R) :
    Nat → List GDOF → Except Fault (Sys R)
  | _, [] => .ok .empty
  | locJ, r :: rs => do
    let x ← resolve dims r
    let a ← A.get locRow (locJ + locOff)
    let w ← trialWrite offD offS row a x
    let rest ← trialDofs dims offD offS locOff row locRow A (locJ + 1) rs
    .ok (w.app rest)

/-- The loop over the trial fields, Assembler_Utilities.hpp:247-276, from field `f` on. -/
def trialFields {R : Type _} (dim cell : Nat) (T : Fields) (row locRow : Nat) (A : LMat R) :
    Nat → List DOFsData → Except Fault (Sys R)
  | _, [] => .ok .empty
  | f, d :: ds => do
    let g ← atIdx (d.dims dim).globals cell
    let offD ← unchecked T.globalOffsetsDOFs f
    let locOff ← unchecked T.localOffsets f
    let offS ← unchecked T.globalOffsetsStrongs f
    let w ← trialDofs d.dims offD offS locOff row locRow A 0 g.gdofs
    let rest ← trialFields dim cell T row locRow A (f + 1) ds
    .ok (w.app rest)

/-- `global_rhs.AddValue(global_index_i, local_rhs[test_loc_i + test_local_offset])`, Assembler_Utilities.hpp:245 and
377; absent in the matrix-only overload 281-346. -/
def addRhs {R : Type _} (rhs : Option (List R)) (row pos : Nat) : Except Fault (Sys R) :=
  match rhs with
  | none => .ok .empty
  | some v => do
    let y ← unchecked v pos
    .ok ⟨[], [], [(row, y)]⟩

/-- The two inner loops of one test row, Assembler_Utilities.hpp:247-276 (312-343); absent in the vector-only overload
348-382. -/
def addLhs {R : Type _} (dim cell : Nat) (lhs : Option (Fields × LMat R)) (row locRow : Nat) : Except Fault (Sys R) :=
  match lhs with
  | none => .ok .empty
  | some (T, A) => trialFields dim cell T row locRow A 0 T.dofs

/-- The loop over the test DOFs of one field, Assembler_Utilities.hpp:227-277: Strong rows are skipped (`continue`),
`global_index_i` is an `unsigned int`. -/
def testDofs {R : Type _} (dim cell : Nat) (dims : Nat → DimData) (offD locOff : Nat)
    (lhs : Option (Fields × LMat R)) (rhs : Option (List R)) : Nat → List GDOF → Except Fault (Sys R)
  | _, [] => .ok .empty
  | locI, r :: rs => do
    let x ← resolve dims r
    match x.type with
    | .unknwon => .error .unknownDOFType
    | .strong => testDofs dim cell dims offD locOff lhs rhs (locI + 1) rs
    | .dof => do
      let row := u32 (x.globalIndex + offD)
      let b ← addRhs rhs row (locI + locOff)
      let w ← addLhs dim cell lhs row (locI + locOff)
      let rest ← testDofs dim cell dims offD locOff lhs rhs (locI + 1) rs
      .ok ((b.app w).app rest)

/-- The loop over the test fields, Assembler_Utilities.hpp:220-278, from field `f` on. -/
def testFields {R : Type _} (dim cell : Nat) (F : Fields) (lhs : Option (Fields × LMat R)) (rhs : Option (List R)) :
    Nat → List DOFsData → Except Fault (Sys R)
  | _, [] => .ok .empty
  | f, d :: ds => do
    let g ← atIdx (d.dims dim).globals cell
    let offD ← unchecked F.globalOffsetsDOFs f
    let locOff ← unchecked F.localOffsets f
    let w ← testDofs dim cell d.dims offD locOff lhs rhs 0 g.gdofs
    let rest ← testFields dim cell F lhs rhs (f + 1) ds
    .ok (w.app rest)

/-- `assemble_local_matrix_to_global_matrix<dimension>`: matrix and vector (Assembler_Utilities.hpp:210-279), matrix only
(281-346, `rhs = none`), vector only (348-382, `lhs = none`). Simplification: the three overloads, which repeat the same
loops, are one function with optional parts. -/
def assembleCell {R : Type _} (dim cell : Nat) (test : Fields) (lhs : Option (Fields × LMat R))
    (rhs : Option (List R)) : Except Fault (Sys R) :=
  testFields dim cell test lhs rhs 0 test.dofs

/-- One call of the assembler: a cell with its fields and local contributions (arguments of
Assembler_Utilities.hpp:211-218). -/
structure Call (R : Type _) where
  cell : Nat
  test : Fields
  lhs : Option (Fields × LMat R)
  rhs : Option (List R)

/-- A sequence of assembler calls on the same global objects, starting from what they already contain (the loop over the
cells in the user code, e.g. PolyDiM/examples/Elliptic_PCC_2D/src/assembler.cpp:337). -/
def assembleAll {R : Type _} (dim : Nat) : Sys R → List (Call R) → Except Fault (Sys R)
  | s, [] => .ok s
  | s, q :: qs => do
    let w ← assembleCell dim q.cell q.test q.lhs q.rhs
    assembleAll dim (s.app w) qs

end PolyDiM
