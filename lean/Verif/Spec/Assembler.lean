import Verif.Model.Assembler
import Verif.Spec.DOFs
import Mathlib.Algebra.BigOperators.Group.List.Basic
import Mathlib.Algebra.BigOperators.Group.Finset.Basic
import Mathlib.Algebra.Ring.Defs
import Mathlib.Order.Defs.LinearOrder

/-!
# Specification vocabulary for the assembler

A *slot* is one local unknown of a cell: its position in the local vector, its type and its global index (with the
offset of its field). What the assembler must do is said in terms of slots only; none of the loops of the model are
used here.
-/

namespace PolyDiM.Spec

/-- One local unknown of a cell (Assembler_Utilities.hpp:134-151): position in the local vector, type, global index
including the field offset. -/
structure Slot where
  pos : Nat
  type : DType
  idx : Nat
  deriving DecidableEq, Repr

/-- The slot of reference `r` of a field with the given offsets (Assembler_Utilities.hpp:144-151). -/
def slot (data : DOFsData) (offD offS pos : Nat) (r : GDOF) : Slot :=
  match lookup data r with
  | some ⟨.strong, i⟩ => ⟨pos, .strong, i + offS⟩
  | some ⟨.dof, i⟩ => ⟨pos, .dof, i + offD⟩
  | _ => ⟨pos, .unknwon, 0⟩

/-- The DOF list of a cell in one field (empty when the cell does not exist; `CellsGlobalDOFs[dim][c]`,
DOFsManager.hpp:123). -/
def cellList (data : DOFsData) (dim c : Nat) : List GDOF := ((globalsAt data dim c).map CellGlobal.gdofs).getD []

/-- Slots of one field, the first at local position `locOff`. -/
def fieldSlots (data : DOFsData) (dim c offD offS locOff : Nat) : List Slot :=
  (cellList data dim c).zipIdx.map fun rk => slot data offD offS (locOff + rk.2) rk.1

/-- All slots of a cell: field after field, with the offsets stored in `F` (Assembler_Utilities.hpp:24-30). -/
def slots (F : Fields) (dim c : Nat) : List Slot :=
  F.dofs.zipIdx.flatMap fun dh =>
    fieldSlots dh.1 dim c (F.globalOffsetsDOFs.getD dh.2 0) (F.globalOffsetsStrongs.getD dh.2 0)
      (F.localOffsets.getD dh.2 0)

/-- The entry `(i, j)` of a matrix given by its triplets (duplicates are summed). -/
def entry {R : Type _} [AddCommMonoid R] (l : List (Nat × Nat × R)) (i j : Nat) : R :=
  (l.map fun t => if t.1 = i ∧ t.2.1 = j then t.2.2 else 0).sum

/-- The entry `i` of a vector given by its additions. -/
def ventry {R : Type _} [AddCommMonoid R] (l : List (Nat × R)) (i : Nat) : R :=
  (l.map fun t => if t.1 = i then t.2 else 0).sum

/-- The contribution of one call to the entry `(i, j)` of the free rows against trial unknowns of type `t`: sum over the
pairs of local unknowns mapped to that entry. -/
def lhsContribution {R : Type _} [AddCommMonoid R] (dim : Nat) (q : Call R) (t : DType) (i j : Nat) : R :=
  match q.lhs with
  | none => 0
  | some (T, A) =>
    ((slots q.test dim q.cell).map fun a =>
      ((slots T dim q.cell).map fun b =>
        if a.type = .dof ∧ b.type = t ∧ a.idx = i ∧ b.idx = j then A.entry a.pos b.pos else 0).sum).sum

/-- The contribution of one call to the entry `i` of the right-hand side. -/
def rhsContribution {R : Type _} [AddCommMonoid R] (dim : Nat) (q : Call R) (i : Nat) : R :=
  match q.rhs with
  | none => 0
  | some v =>
    ((slots q.test dim q.cell).map fun a => if a.type = .dof ∧ a.idx = i then v.getD a.pos 0 else 0).sum

/-- A handler produced by `CreateDOFs_xD` (DOFsManager.hpp:597-682) from inputs small enough for `unsigned int`. -/
def Created (data : DOFsData) : Prop :=
  ∃ (D : Fin 4) (info : MeshInfo) (mesh : Mesh), createDOFs D info mesh = .ok data ∧ totalRequested info D < 2 ^ 32

/-- The `N` by `N` matrix `M` is positive semidefinite (as a quadratic form). -/
def PSD {R : Type _} [CommRing R] [LinearOrder R] (N : Nat) (M : Nat → Nat → R) : Prop :=
  ∀ x : Nat → R, 0 ≤ ∑ i ∈ Finset.range N, ∑ j ∈ Finset.range N, x i * M i j * x j

/-- Row `i` of the local matrices applied to the local vector `v`: sum over the free local test unknowns numbered `i`. -/
def localResidual {R : Type _} [Semiring R] (dim : Nat) (q : Call R) (v : List R) (i : Nat) : R :=
  match q.lhs with
  | none => 0
  | some (_, A) =>
    ((slots q.test dim q.cell).map fun a =>
      if a.type = .dof ∧ a.idx = i then ∑ r ∈ Finset.range v.length, A.entry a.pos r * v.getD r 0 else 0).sum

end PolyDiM.Spec
