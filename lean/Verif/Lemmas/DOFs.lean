import Verif.Spec.DOFs
import Mathlib.Data.List.Basic
import Mathlib.Data.List.Nodup
import Mathlib.Data.List.Range
import Mathlib.Algebra.BigOperators.Group.List.Basic
import Mathlib.Algebra.Order.BigOperators.Group.List

/-! Helper lemmas about the DOF manager model (cell numbering). -/

namespace PolyDiM

/-- Free index of a DOF (helper for the proofs). -/
def freeIdx (x : DOF) : Option Nat := if x.type = .dof then some x.globalIndex else none
/-- Strong index of a DOF (helper for the proofs). -/
def strongIdx (x : DOF) : Option Nat := if x.type = .strong then some x.globalIndex else none

/-- Number of DOFs requested on cells of boundary type satisfying `p` (helper for the proofs). -/
def countOn (p : BType → Bool) (ns : List Nat) (bs : List BInfo) : Nat :=
  ((ns.zip bs).map fun nb => if p nb.2.type then nb.1 else 0).sum

def isFreeB : BType → Bool := fun t => t == .none || t == .weak || t == .robin
def isStrongB : BType → Bool := fun t => t == .strong
def isNoneB : BType → Bool := fun t => t == .none
def isWeakB : BType → Bool := fun t => t == .weak || t == .robin

theorem countOn_le (p : BType → Bool) (ns : List Nat) (bs : List BInfo) : countOn p ns bs ≤ ns.sum := by
  induction ns generalizing bs with
  | nil => simp [countOn]
  | cons n ns ih =>
    cases bs with
    | nil => simp [countOn]
    | cons b bs =>
      have := ih bs
      simp only [countOn, List.zip_cons_cons, List.map_cons, List.sum_cons] at *
      split <;> omega

theorem u32_of_lt {n : Nat} (h : n < 4294967296) : u32 n = n := Nat.mod_eq_of_lt h

/-- What one successful cell looks like. -/
structure CellOK (n : Nat) (t : BType) (x : CellDOFs) : Prop where
  len : x.dofs.length = n
  types : ∀ y ∈ x.dofs, y.type = Spec.typeFor t
  known : t ≠ .unknwon
  nD : x.numDOFs = if isFreeB t then n else 0
  nS : x.numStrongs = if isStrongB t then n else 0
  hI : x.hasInternal = isNoneB t
  hB : x.hasBoundary = isWeakB t

theorem createOneCell_spec {k k' : Counters} {n : Nat} {t : BType} {x : CellDOFs}
    (h : createOneCell k n t = .ok (k', x)) (hd : k.dofs + n < 4294967296) (hs : k.strongs + n < 4294967296)
    (hi : k.internal + n < 4294967296) (hb : k.boundary + n < 4294967296) :
    CellOK n t x ∧
    k'.dofs = k.dofs + (if isFreeB t then n else 0) ∧
    k'.strongs = k.strongs + (if isStrongB t then n else 0) ∧
    k'.internal = k.internal + (if isNoneB t then n else 0) ∧
    k'.boundary = k.boundary + (if isWeakB t then n else 0) ∧
    x.dofs.filterMap freeIdx = List.range' k.dofs (if isFreeB t then n else 0) ∧
    x.dofs.filterMap strongIdx = List.range' k.strongs (if isStrongB t then n else 0) := by
  have hmap : ∀ (a : Nat), a + n < 4294967296 →
      (List.range n).map (fun d => u32 (a + d)) = List.range' a n := by
    intro a ha
    rw [List.range'_eq_map_range]
    apply List.map_congr_left
    intro d hd
    rw [List.mem_range] at hd
    exact u32_of_lt (by omega)
  cases t <;> simp only [createOneCell, Except.ok.injEq, Prod.mk.injEq, reduceCtorEq] at h
  all_goals
    obtain ⟨rfl, rfl⟩ := h
    refine ⟨⟨by simp, by simp [Spec.typeFor], by simp, by simp [isFreeB], by simp [isStrongB],
      by simp [isNoneB], by simp [isWeakB]⟩, ?_⟩
    simp [isFreeB, isStrongB, isNoneB, isWeakB, u32_of_lt hd, u32_of_lt hs, u32_of_lt hi, u32_of_lt hb,
      List.filterMap_map, Function.comp_def, freeIdx, strongIdx, List.filterMap_eq_map', hmap _ hd, hmap _ hs]

theorem createCellsLoop_spec {ns : List Nat} {bs : List BInfo} {k k' : Counters} {cs : List CellDOFs}
    (h : createCellsLoop k ns bs = .ok (k', cs)) (hd : k.dofs + ns.sum < 4294967296)
    (hs : k.strongs + ns.sum < 4294967296)
    (hi : k.internal + ns.sum < 4294967296) (hb : k.boundary + ns.sum < 4294967296) :
    cs.length = ns.length ∧
    (∀ (c : Nat) (x : CellDOFs), cs[c]? = some x → ∃ (n : Nat) (b : BInfo), ns[c]? = some n ∧ bs[c]? = some b ∧ CellOK n b.type x) ∧
    k'.dofs = k.dofs + countOn isFreeB ns bs ∧
    k'.strongs = k.strongs + countOn isStrongB ns bs ∧
    k'.internal = k.internal + countOn isNoneB ns bs ∧
    k'.boundary = k.boundary + countOn isWeakB ns bs ∧
    (cs.flatMap CellDOFs.dofs).filterMap freeIdx = List.range' k.dofs (countOn isFreeB ns bs) ∧
    (cs.flatMap CellDOFs.dofs).filterMap strongIdx = List.range' k.strongs (countOn isStrongB ns bs) := by
  induction ns generalizing bs k k' cs with
  | nil =>
    simp only [createCellsLoop, Except.ok.injEq, Prod.mk.injEq] at h
    obtain ⟨rfl, rfl⟩ := h
    simp [countOn]
  | cons n ns ih =>
    cases bs with
    | nil => simp [createCellsLoop] at h
    | cons b bs =>
      rw [createCellsLoop] at h
      simp only [List.sum_cons] at hd hs hi hb
      cases h1 : createOneCell k n b.type with
      | error e => simp [h1] at h
      | ok r =>
        obtain ⟨k1, x⟩ := r
        simp only [h1] at h
        cases h2 : createCellsLoop k1 ns bs with
        | error e => simp [h2] at h
        | ok r2 =>
          obtain ⟨k2, xs⟩ := r2
          simp only [h2, Except.ok.injEq, Prod.mk.injEq] at h
          obtain ⟨rfl, rfl⟩ := h
          obtain ⟨hok, e1, e2, e3, e4, e5, e6⟩ :=
            createOneCell_spec h1 (by omega) (by omega) (by omega) (by omega)
          have l1 : ∀ q : Bool, (if q then n else 0) ≤ n := by intro q; split <;> omega
          have := l1 (isFreeB b.type)
          have := l1 (isStrongB b.type)
          have := l1 (isNoneB b.type)
          have := l1 (isWeakB b.type)
          obtain ⟨f0, f1, f2, f3, f4, f5, f6, f7⟩ := ih h2 (by omega) (by omega) (by omega) (by omega)
          have cc : ∀ p, countOn p (n :: ns) (b :: bs) = (if p b.type then n else 0) + countOn p ns bs := by
            intro p; simp [countOn]
          refine ⟨by simp [f0], ?_, ?_, ?_, ?_, ?_, ?_, ?_⟩
          · intro c y hc
            cases c with
            | zero =>
              simp only [List.getElem?_cons_zero, Option.some.injEq] at hc
              subst hc
              exact ⟨n, b, rfl, rfl, hok⟩
            | succ c => simpa using f1 c y (by simpa using hc)
          · rw [f2, e1, cc]; omega
          · rw [f3, e2, cc]; omega
          · rw [f4, e3, cc]; omega
          · rw [f5, e4, cc]; omega
          · rw [List.flatMap_cons, List.filterMap_append, e5, f6, e1, cc, List.range'_append_1]
          · rw [List.flatMap_cons, List.filterMap_append, e6, f7, e2, cc, List.range'_append_1]

theorem createOneCell_ok_iff (k : Counters) (n : Nat) (t : BType) :
    (∃ r, createOneCell k n t = .ok r) ↔ t ≠ .unknwon := by
  cases t <;> simp [createOneCell]

theorem createCellsLoop_ok_iff (k : Counters) (ns : List Nat) (bs : List BInfo) :
    (∃ r, createCellsLoop k ns bs = .ok r) ↔
      ∀ c, c < ns.length → ∃ b, bs[c]? = some b ∧ b.type ≠ .unknwon := by
  induction ns generalizing bs k with
  | nil => simp [createCellsLoop]
  | cons n ns ih =>
    cases bs with
    | nil =>
      simp only [createCellsLoop, reduceCtorEq, exists_false, List.length_cons, List.getElem?_nil, false_and,
        imp_false, not_lt, false_iff]
      intro h
      have := h 0
      omega
    | cons b bs =>
      rw [createCellsLoop]
      cases h1 : createOneCell k n b.type with
      | error e =>
        have hu : b.type = .unknwon := by
          by_contra hne
          obtain ⟨r, hr⟩ := (createOneCell_ok_iff k n b.type).2 hne
          rw [h1] at hr; cases hr
        simp only [reduceCtorEq, exists_false, false_iff]
        intro hall
        obtain ⟨b', hb', hne⟩ := hall 0 (by simp)
        simp only [List.getElem?_cons_zero, Option.some.injEq] at hb'
        subst hb'
        exact hne hu
      | ok r =>
        obtain ⟨k1, x⟩ := r
        have hne : b.type ≠ .unknwon := (createOneCell_ok_iff k n b.type).1 ⟨_, h1⟩
        have ih' := ih k1 bs
        simp only
        trans ∃ r, createCellsLoop k1 ns bs = .ok r
        · cases createCellsLoop k1 ns bs with
          | error e => simp
          | ok r => simp
        rw [ih']
        constructor
        · intro h c hc
          cases c with
          | zero => exact ⟨b, rfl, hne⟩
          | succ c => simpa using h c (by simpa using hc)
        · intro h c hc
          simpa using h (c + 1) (by simpa using hc)

/-- The faults of the numbering loop are exceptions, never undefined behaviour. -/
theorem createCellsLoop_error {k : Counters} {ns : List Nat} {bs : List BInfo} {e : Fault}
    (h : createCellsLoop k ns bs = .error e) : e = .outOfRange ∨ e = .unknownBoundaryType := by
  induction ns generalizing bs k with
  | nil => simp [createCellsLoop] at h
  | cons n ns ih =>
    cases bs with
    | nil => simp [createCellsLoop] at h; exact .inl h.symm
    | cons b bs =>
      rw [createCellsLoop] at h
      cases h1 : createOneCell k n b.type with
      | error e' =>
        simp only [h1, Except.error.injEq] at h
        subst h
        cases ht : b.type <;> simp [ht, createOneCell] at h1
        exact .inr h1.symm
      | ok r =>
        obtain ⟨k1, x⟩ := r
        simp only [h1] at h
        cases h2 : createCellsLoop k1 ns bs with
        | error e' =>
          simp only [h2, Except.error.injEq] at h
          subst h
          exact ih h2
        | ok r2 => simp [h2] at h

end PolyDiM
