import Verif.Spec.Assembler
import Verif.Lemmas.DOFsFinal

/-! Helper lemmas about the assembler model. -/

namespace PolyDiM

variable {R : Type _}

theorem bind_ok_iff {α β : Type _} (x : Except Fault α) (f : α → Except Fault β) (y : β) :
    (x >>= f) = .ok y ↔ ∃ a, x = .ok a ∧ f a = .ok y := by
  cases x <;> simp [bind, Except.bind]

theorem pure_ok_iff {α : Type _} (x y : α) : (pure x : Except Fault α) = .ok y ↔ x = y := by
  simp [pure, Except.pure]

theorem unchecked_ok_iff {α : Type _} (l : List α) (i : Nat) (x : α) : unchecked l i = .ok x ↔ l[i]? = some x := by
  unfold unchecked; split <;> simp_all

theorem atIdx_ok_iff {α : Type _} (l : List α) (i : Nat) (x : α) : atIdx l i = .ok x ↔ l[i]? = some x := by
  unfold atIdx; split <;> simp_all

theorem LMat.get_ok_iff (A : LMat R) (i j : Nat) (x : R) :
    A.get i j = .ok x ↔ (i < A.rows ∧ j < A.cols) ∧ A.entry i j = x := by
  unfold LMat.get; split <;> simp_all

/-- The slot of a known DOF. -/
def slotOf (offD offS pos : Nat) (x : DOF) : Spec.Slot :=
  match x with
  | ⟨.strong, i⟩ => ⟨pos, .strong, i + offS⟩
  | ⟨.dof, i⟩ => ⟨pos, .dof, i + offD⟩
  | ⟨.unknwon, _⟩ => ⟨pos, .unknwon, 0⟩

theorem slot_of_lookup {data : DOFsData} {offD offS pos : Nat} {r : GDOF} {x : DOF}
    (h : Spec.lookup data r = some x) : Spec.slot data offD offS pos r = slotOf offD offS pos x := by
  unfold Spec.slot slotOf
  rw [h]
  obtain ⟨t, i⟩ := x
  cases t <;> rfl

theorem slot_pos (data : DOFsData) (offD offS pos : Nat) (r : GDOF) : (Spec.slot data offD offS pos r).pos = pos := by
  unfold Spec.slot; split <;> rfl

/-- The slots of part of a DOF list. -/
def partSlots (data : DOFsData) (offD offS locOff : Nat) (k : Nat) (gs : List GDOF) : List Spec.Slot :=
  (gs.zipIdx k).map fun rk => Spec.slot data offD offS (locOff + rk.2) rk.1

/-- The DOF triplet of a trial slot. -/
def dofT (row locRow : Nat) (A : LMat R) (t : Spec.Slot) : Option (Nat × Nat × R) :=
  if t.type = .dof then some (row, t.idx, A.entry locRow t.pos) else none
/-- The strong triplet of a trial slot. -/
def strongT (row locRow : Nat) (A : LMat R) (t : Spec.Slot) : Option (Nat × Nat × R) :=
  if t.type = .strong then some (row, t.idx, A.entry locRow t.pos) else none

theorem trialDofs_ok_iff (data : DOFsData) (offD offS locOff row locRow : Nat) (A : LMat R) (gs : List GDOF) :
    ∀ (k : Nat) (s : Sys R), trialDofs data.dims offD offS locOff row locRow A k gs = .ok s ↔
      (∀ t ∈ partSlots data offD offS locOff k gs, t.type ≠ .unknwon ∧ locRow < A.rows ∧ t.pos < A.cols) ∧
      s = ⟨(partSlots data offD offS locOff k gs).filterMap (dofT row locRow A),
           (partSlots data offD offS locOff k gs).filterMap (strongT row locRow A), []⟩ := by
  induction gs with
  | nil =>
    intro k s
    simp [trialDofs, partSlots, Sys.empty, eq_comm]
  | cons r gs ih =>
    intro k s
    have hp : partSlots data offD offS locOff k (r :: gs) =
        Spec.slot data offD offS (locOff + k) r :: partSlots data offD offS locOff (k + 1) gs := by
      simp [partSlots, List.zipIdx_cons]
    rw [hp]
    simp only [trialDofs, bind_ok_iff, Except.ok.injEq, resolve_iff, LMat.get_ok_iff, ih]
    simp only [List.forall_mem_cons]
    constructor
    · rintro ⟨x, hx, a, ⟨⟨h1, h2⟩, rfl⟩, w, hw, rest, ⟨hall, rfl⟩, rfl⟩
      rw [slot_of_lookup hx]
      obtain ⟨t, i⟩ := x
      rw [Nat.add_comm] at h2
      cases t with
      | unknwon => simp [trialWrite] at hw
      | strong =>
        simp only [trialWrite, Except.ok.injEq] at hw
        subst hw
        refine ⟨⟨⟨by simp [slotOf], h1, by simpa [slotOf] using h2⟩, hall⟩, ?_⟩
        simp [slotOf, Sys.app, dofT, strongT, Nat.add_comm]
      | dof =>
        simp only [trialWrite, Except.ok.injEq] at hw
        subst hw
        refine ⟨⟨⟨by simp [slotOf], h1, by simpa [slotOf] using h2⟩, hall⟩, ?_⟩
        simp [slotOf, Sys.app, dofT, strongT, Nat.add_comm]
    · rintro ⟨⟨⟨hne, h1, h2⟩, hall⟩, rfl⟩
      cases hx : Spec.lookup data r with
      | none => simp [Spec.slot, hx] at hne
      | some x =>
        rw [slot_pos] at h2
        rw [slot_of_lookup hx] at hne ⊢
        rw [Nat.add_comm] at h2
        refine ⟨x, rfl, _, ⟨⟨h1, h2⟩, rfl⟩, ?_⟩
        obtain ⟨t, i⟩ := x
        cases t with
        | unknwon => simp [slotOf] at hne
        | strong =>
          refine ⟨_, rfl, _, ⟨hall, rfl⟩, ?_⟩
          simp [slotOf, Sys.app, dofT, strongT, Nat.add_comm]
        | dof =>
          refine ⟨_, rfl, _, ⟨hall, rfl⟩, ?_⟩
          simp [slotOf, Sys.app, dofT, strongT, Nat.add_comm]

/-- Slots of the fields from `h` on. -/
def slotsFrom (F : Fields) (dim c h : Nat) (ds : List DOFsData) : List Spec.Slot :=
  (ds.zipIdx h).flatMap fun dh =>
    Spec.fieldSlots dh.1 dim c (F.globalOffsetsDOFs.getD dh.2 0) (F.globalOffsetsStrongs.getD dh.2 0)
      (F.localOffsets.getD dh.2 0)

theorem slotsFrom_cons (F : Fields) (dim c h : Nat) (d : DOFsData) (ds : List DOFsData) :
    slotsFrom F dim c h (d :: ds) =
      Spec.fieldSlots d dim c (F.globalOffsetsDOFs.getD h 0) (F.globalOffsetsStrongs.getD h 0)
        (F.localOffsets.getD h 0) ++ slotsFrom F dim c (h + 1) ds := by
  simp [slotsFrom, List.zipIdx_cons]

theorem fieldSlots_eq {d : DOFsData} {dim c : Nat} {g : CellGlobal} (hg : (d.dims dim).globals[c]? = some g)
    (offD offS locOff : Nat) :
    Spec.fieldSlots d dim c offD offS locOff = partSlots d offD offS locOff 0 g.gdofs := by
  simp [Spec.fieldSlots, Spec.cellList, Spec.globalsAt, hg, partSlots]

theorem getD_of_get? {l : List Nat} {h x : Nat} (hx : l[h]? = some x) : l.getD h 0 = x := by
  simp [List.getD, hx]

theorem trialFields_ok_iff (dim cell : Nat) (T : Fields) (row locRow : Nat) (A : LMat R) (ds : List DOFsData) :
    ∀ (h : Nat) (s : Sys R), trialFields dim cell T row locRow A h ds = .ok s ↔
      ((∀ d ∈ ds, (Spec.globalsAt d dim cell).isSome) ∧
        (ds ≠ [] → h + ds.length ≤ T.globalOffsetsDOFs.length ∧ h + ds.length ≤ T.localOffsets.length ∧
          h + ds.length ≤ T.globalOffsetsStrongs.length)) ∧
      (∀ t ∈ slotsFrom T dim cell h ds, t.type ≠ .unknwon ∧ locRow < A.rows ∧ t.pos < A.cols) ∧
      s = ⟨(slotsFrom T dim cell h ds).filterMap (dofT row locRow A),
           (slotsFrom T dim cell h ds).filterMap (strongT row locRow A), []⟩ := by
  induction ds with
  | nil =>
    intro h s
    simp only [trialFields, slotsFrom, Sys.empty, Except.ok.injEq]
    constructor
    · rintro rfl; simp
    · rintro ⟨-, -, rfl⟩; simp
  | cons d ds ih =>
    intro h s
    rw [slotsFrom_cons]
    rw [trialFields]
    simp only [bind_ok_iff, Except.ok.injEq, atIdx_ok_iff, unchecked_ok_iff, trialDofs_ok_iff, ih]
    constructor
    · rintro ⟨g, hg, oD, hoD, oL, hoL, oS, hoS, w, ⟨hw, rfl⟩, rest, ⟨⟨hr1, hr2⟩, hr3, rfl⟩, rfl⟩
      rw [getD_of_get? hoD, getD_of_get? hoL, getD_of_get? hoS, fieldSlots_eq hg]
      have b1 := (List.getElem?_eq_some_iff.1 hoD).1
      have b2 := (List.getElem?_eq_some_iff.1 hoL).1
      have b3 := (List.getElem?_eq_some_iff.1 hoS).1
      refine ⟨⟨?_, ?_⟩, ?_, ?_⟩
      · rw [List.forall_mem_cons]
        exact ⟨by simp [Spec.globalsAt, hg], hr1⟩
      · intro _
        simp only [List.length_cons]
        by_cases hds : ds = []
        · subst hds; simp; omega
        · have := hr2 hds; omega
      · intro t ht
        rcases List.mem_append.1 ht with ht | ht
        · exact hw t ht
        · exact hr3 t ht
      · simp [Sys.app]
    · rintro ⟨⟨h1, h2⟩, h3, rfl⟩
      rw [List.forall_mem_cons] at h1
      obtain ⟨g, hg⟩ := Option.isSome_iff_exists.1 h1.1
      have hg' : (d.dims dim).globals[cell]? = some g := hg
      obtain ⟨l1, l2, l3⟩ := h2 (by simp)
      simp only [List.length_cons] at l1 l2 l3
      have e1 : T.globalOffsetsDOFs[h]? = some T.globalOffsetsDOFs[h] := List.getElem?_eq_getElem (by omega)
      have e2 : T.localOffsets[h]? = some T.localOffsets[h] := List.getElem?_eq_getElem (by omega)
      have e3 : T.globalOffsetsStrongs[h]? = some T.globalOffsetsStrongs[h] := List.getElem?_eq_getElem (by omega)
      rw [getD_of_get? e1, getD_of_get? e2, getD_of_get? e3, fieldSlots_eq hg'] at h3 ⊢
      refine ⟨g, hg', _, e1, _, e2, _, e3, _, ⟨fun t ht => h3 t (List.mem_append_left _ ht), rfl⟩, _,
        ⟨⟨h1.2, fun _ => by omega⟩, fun t ht => h3 t (List.mem_append_right _ ht), rfl⟩, ?_⟩
      simp [Sys.app]

/-- Readability of all fields for the trial loops. -/
def TrialValid (dim cell : Nat) (T : Fields) : Prop :=
  (∀ d ∈ T.dofs, (Spec.globalsAt d dim cell).isSome) ∧
  T.dofs.length ≤ T.globalOffsetsDOFs.length ∧ T.dofs.length ≤ T.localOffsets.length ∧
  T.dofs.length ≤ T.globalOffsetsStrongs.length

/-- What one test slot of type DOF needs. -/
def RowOK (dim cell : Nat) (lhs : Option (Fields × LMat R)) (rhs : Option (List R)) (a : Spec.Slot) : Prop :=
  (∀ v, rhs = some v → a.pos < v.length) ∧
  (∀ T A, lhs = some (T, A) → TrialValid dim cell T ∧
    ∀ t ∈ Spec.slots T dim cell, t.type ≠ .unknwon ∧ a.pos < A.rows ∧ t.pos < A.cols)

/-- Triplets of one test slot against free trial slots. -/
def rowD (dim cell : Nat) (lhs : Option (Fields × LMat R)) (a : Spec.Slot) : List (Nat × Nat × R) :=
  match lhs with | none => [] | some (T, A) => (Spec.slots T dim cell).filterMap (dofT (u32 a.idx) a.pos A)
/-- Triplets of one test slot against strong trial slots. -/
def rowS (dim cell : Nat) (lhs : Option (Fields × LMat R)) (a : Spec.Slot) : List (Nat × Nat × R) :=
  match lhs with | none => [] | some (T, A) => (Spec.slots T dim cell).filterMap (strongT (u32 a.idx) a.pos A)
/-- Additions of one test slot to the right-hand side. -/
def rowR [Zero R] (rhs : Option (List R)) (a : Spec.Slot) : List (Nat × R) :=
  match rhs with | none => [] | some v => [(u32 a.idx, v.getD a.pos 0)]

/-- What one test slot writes. -/
def rowSys [Zero R] (dim cell : Nat) (lhs : Option (Fields × LMat R)) (rhs : Option (List R)) (a : Spec.Slot) : Sys R :=
  if a.type = .dof then
    ⟨rowD dim cell lhs a,
     rowS dim cell lhs a,
     rowR rhs a⟩
  else .empty

/-- Concatenation of the logs of a list of slots. -/
def rowsSys [Zero R] (dim cell : Nat) (lhs : Option (Fields × LMat R)) (rhs : Option (List R)) (l : List Spec.Slot) : Sys R :=
  ⟨l.flatMap fun a => (rowSys dim cell lhs rhs a).lhsDOFs, l.flatMap fun a => (rowSys dim cell lhs rhs a).lhsStrongs,
    l.flatMap fun a => (rowSys dim cell lhs rhs a).rhs⟩

theorem rowsSys_append [Zero R] (dim cell : Nat) (lhs : Option (Fields × LMat R)) (rhs : Option (List R))
    (l m : List Spec.Slot) :
    rowsSys dim cell lhs rhs (l ++ m) = (rowsSys dim cell lhs rhs l).app (rowsSys dim cell lhs rhs m) := by
  simp [rowsSys, Sys.app]

theorem rowsSys_cons [Zero R] (dim cell : Nat) (lhs : Option (Fields × LMat R)) (rhs : Option (List R))
    (a : Spec.Slot) (l : List Spec.Slot) :
    rowsSys dim cell lhs rhs (a :: l) = (rowSys dim cell lhs rhs a).app (rowsSys dim cell lhs rhs l) := by
  simp [rowsSys, Sys.app]

theorem slotsFrom_zero (F : Fields) (dim c : Nat) : slotsFrom F dim c 0 F.dofs = Spec.slots F dim c := rfl

theorem row_ok_iff [Zero R] (dim cell : Nat) (lhs : Option (Fields × LMat R)) (rhs : Option (List R)) (a : Spec.Slot)
    (ha : a.type = .dof) (row pos : Nat) (hrow : row = u32 a.idx) (hpos : pos = a.pos) (s : Sys R) :
    (∃ b w, addRhs rhs row pos = .ok b ∧ addLhs dim cell lhs row pos = .ok w ∧ b.app w = s) ↔
      RowOK dim cell lhs rhs a ∧ s = rowSys dim cell lhs rhs a := by
  subst hrow; subst hpos
  have hr : ∀ b, addRhs rhs (u32 a.idx) a.pos = .ok b ↔ (∀ v, rhs = some v → a.pos < v.length) ∧
      b = ⟨[], [], rowR rhs a⟩ := by
    intro b
    cases rhs with
    | none => simp [addRhs, Sys.empty, rowR, eq_comm]
    | some v =>
      simp only [addRhs, bind_ok_iff, Except.ok.injEq, unchecked_ok_iff, Option.some.injEq, forall_eq']
      constructor
      · rintro ⟨y, hy, rfl⟩
        refine ⟨(List.getElem?_eq_some_iff.1 hy).1, ?_⟩
        simp [rowR, List.getD, hy]
      · rintro ⟨h, rfl⟩
        exact ⟨v[a.pos], List.getElem?_eq_getElem h, by simp [rowR, h]⟩
  have hl : ∀ w, addLhs dim cell lhs (u32 a.idx) a.pos = .ok w ↔
      (∀ T A, lhs = some (T, A) → TrialValid dim cell T ∧
        ∀ t ∈ Spec.slots T dim cell, t.type ≠ .unknwon ∧ a.pos < A.rows ∧ t.pos < A.cols) ∧
      w = ⟨rowD dim cell lhs a,
        rowS dim cell lhs a,
        []⟩ := by
    intro w
    cases lhs with
    | none => simp [addLhs, Sys.empty, rowD, rowS, eq_comm]
    | some TA =>
      obtain ⟨T, A⟩ := TA
      simp only [addLhs, trialFields_ok_iff, slotsFrom_zero, TrialValid, Nat.zero_add]
      have hu : ∀ P : Fields → LMat R → Prop, (∀ T' A', some (T, A) = some (T', A') → P T' A') ↔ P T A := by
        intro P
        constructor
        · intro h; exact h T A rfl
        · rintro h T' A' he
          simp only [Option.some.injEq, Prod.mk.injEq] at he
          obtain ⟨rfl, rfl⟩ := he
          exact h
      rw [hu]
      constructor
      · rintro ⟨⟨h1, h2⟩, h3, rfl⟩
        refine ⟨⟨⟨h1, ?_⟩, h3⟩, rfl⟩
        by_cases hds : T.dofs = []
        · simp [hds]
        · exact h2 hds
      · rintro ⟨⟨⟨h1, h2⟩, h3⟩, rfl⟩
        exact ⟨⟨h1, fun _ => h2⟩, h3, rfl⟩
  simp only [hr, hl, RowOK]
  constructor
  · rintro ⟨b, w, ⟨h1, rfl⟩, ⟨h2, rfl⟩, rfl⟩
    refine ⟨⟨h1, h2⟩, ?_⟩
    simp [Sys.app, rowSys, ha]
  · rintro ⟨⟨h1, h2⟩, rfl⟩
    refine ⟨_, _, ⟨h1, rfl⟩, ⟨h2, rfl⟩, ?_⟩
    simp [Sys.app, rowSys, ha]

theorem testDofs_ok_iff [Zero R] (dim cell : Nat) (data : DOFsData) (offD offS locOff : Nat)
    (lhs : Option (Fields × LMat R)) (rhs : Option (List R)) (gs : List GDOF) :
    ∀ (k : Nat) (s : Sys R), testDofs dim cell data.dims offD locOff lhs rhs k gs = .ok s ↔
      (∀ a ∈ partSlots data offD offS locOff k gs, a.type ≠ .unknwon ∧ (a.type = .dof → RowOK dim cell lhs rhs a)) ∧
      s = rowsSys dim cell lhs rhs (partSlots data offD offS locOff k gs) := by
  induction gs with
  | nil =>
    intro k s
    simp [testDofs, partSlots, Sys.empty, rowsSys, eq_comm]
  | cons r gs ih =>
    intro k s
    have hp : partSlots data offD offS locOff k (r :: gs) =
        Spec.slot data offD offS (locOff + k) r :: partSlots data offD offS locOff (k + 1) gs := by
      simp [partSlots, List.zipIdx_cons]
    rw [hp, rowsSys_cons]
    simp only [testDofs, bind_ok_iff, resolve_iff, List.forall_mem_cons]
    constructor
    · rintro ⟨x, hx, h⟩
      rw [slot_of_lookup hx]
      obtain ⟨t, i⟩ := x
      cases t with
      | unknwon => simp at h
      | strong =>
        simp only [ih] at h
        obtain ⟨h1, rfl⟩ := h
        refine ⟨⟨⟨by simp [slotOf], by simp [slotOf]⟩, h1⟩, ?_⟩
        simp [slotOf, rowSys, Sys.app, Sys.empty]
      | dof =>
        simp only [bind_ok_iff, Except.ok.injEq, ih] at h
        obtain ⟨b, hb, w, hw, rest, ⟨h1, rfl⟩, rfl⟩ := h
        have := (row_ok_iff dim cell lhs rhs ⟨locOff + k, .dof, i + offD⟩ rfl (u32 (i + offD)) (k + locOff) rfl
          (Nat.add_comm _ _) (b.app w)).1 ⟨b, w, hb, hw, rfl⟩
        refine ⟨⟨⟨by simp [slotOf], fun _ => this.1⟩, h1⟩, ?_⟩
        rw [this.2]; rfl
    · rintro ⟨⟨⟨hne, hrow⟩, hall⟩, rfl⟩
      cases hx : Spec.lookup data r with
      | none => simp [Spec.slot, hx] at hne
      | some x =>
        rw [slot_of_lookup hx] at hne hrow ⊢
        refine ⟨x, rfl, ?_⟩
        obtain ⟨t, i⟩ := x
        cases t with
        | unknwon => simp [slotOf] at hne
        | strong =>
          simp only [ih]
          refine ⟨hall, ?_⟩
          simp [slotOf, rowSys, Sys.app, Sys.empty]
        | dof =>
          simp only [bind_ok_iff, Except.ok.injEq, ih]
          obtain ⟨b, w, hb, hw, e⟩ := (row_ok_iff dim cell lhs rhs ⟨locOff + k, .dof, i + offD⟩ rfl (u32 (i + offD))
            (k + locOff) rfl (Nat.add_comm _ _) _).2 ⟨hrow rfl, rfl⟩
          exact ⟨b, hb, w, hw, _, ⟨hall, rfl⟩, by rw [e]; rfl⟩

/-- Readability of all fields for the test loops. -/
def TestValid (dim cell : Nat) (F : Fields) : Prop :=
  (∀ d ∈ F.dofs, (Spec.globalsAt d dim cell).isSome) ∧
  F.dofs.length ≤ F.globalOffsetsDOFs.length ∧ F.dofs.length ≤ F.localOffsets.length

theorem testFields_ok_iff [Zero R] (dim cell : Nat) (F : Fields) (lhs : Option (Fields × LMat R)) (rhs : Option (List R))
    (ds : List DOFsData) : ∀ (h : Nat) (s : Sys R), testFields dim cell F lhs rhs h ds = .ok s ↔
      ((∀ d ∈ ds, (Spec.globalsAt d dim cell).isSome) ∧
        (ds ≠ [] → h + ds.length ≤ F.globalOffsetsDOFs.length ∧ h + ds.length ≤ F.localOffsets.length)) ∧
      (∀ a ∈ slotsFrom F dim cell h ds, a.type ≠ .unknwon ∧ (a.type = .dof → RowOK dim cell lhs rhs a)) ∧
      s = rowsSys dim cell lhs rhs (slotsFrom F dim cell h ds) := by
  induction ds with
  | nil =>
    intro h s
    simp only [testFields, slotsFrom, Sys.empty, rowsSys, Except.ok.injEq]
    constructor
    · rintro rfl; simp
    · rintro ⟨-, -, rfl⟩; simp
  | cons d ds ih =>
    intro h s
    rw [slotsFrom_cons, rowsSys_append]
    simp only [testFields, bind_ok_iff, Except.ok.injEq, atIdx_ok_iff, unchecked_ok_iff,
      testDofs_ok_iff dim cell d _ (F.globalOffsetsStrongs.getD h 0), ih]
    constructor
    · rintro ⟨g, hg, oD, hoD, oL, hoL, w, ⟨hw, rfl⟩, rest, ⟨⟨hr1, hr2⟩, hr3, rfl⟩, rfl⟩
      rw [getD_of_get? hoD, getD_of_get? hoL, fieldSlots_eq hg]
      have b1 := (List.getElem?_eq_some_iff.1 hoD).1
      have b2 := (List.getElem?_eq_some_iff.1 hoL).1
      refine ⟨⟨?_, ?_⟩, ?_, rfl⟩
      · rw [List.forall_mem_cons]
        exact ⟨by simp [Spec.globalsAt, hg], hr1⟩
      · intro _
        simp only [List.length_cons]
        by_cases hds : ds = []
        · subst hds; simp; omega
        · have := hr2 hds; omega
      · intro t ht
        rcases List.mem_append.1 ht with ht | ht
        · exact hw t ht
        · exact hr3 t ht
    · rintro ⟨⟨h1, h2⟩, h3, rfl⟩
      rw [List.forall_mem_cons] at h1
      obtain ⟨g, hg⟩ := Option.isSome_iff_exists.1 h1.1
      have hg' : (d.dims dim).globals[cell]? = some g := hg
      obtain ⟨l1, l2⟩ := h2 (by simp)
      simp only [List.length_cons] at l1 l2
      have e1 : F.globalOffsetsDOFs[h]? = some F.globalOffsetsDOFs[h] := List.getElem?_eq_getElem (by omega)
      have e2 : F.localOffsets[h]? = some F.localOffsets[h] := List.getElem?_eq_getElem (by omega)
      rw [getD_of_get? e1, getD_of_get? e2, fieldSlots_eq hg'] at h3 ⊢
      exact ⟨g, hg', _, e1, _, e2, _, ⟨fun t ht => h3 t (List.mem_append_left _ ht), rfl⟩, _,
        ⟨⟨h1.2, fun _ => by omega⟩, fun t ht => h3 t (List.mem_append_right _ ht), rfl⟩, rfl⟩

theorem assembleCell_ok_iff [Zero R] (dim cell : Nat) (F : Fields) (lhs : Option (Fields × LMat R))
    (rhs : Option (List R)) (s : Sys R) : assembleCell dim cell F lhs rhs = .ok s ↔
      TestValid dim cell F ∧
      (∀ a ∈ Spec.slots F dim cell, a.type ≠ .unknwon ∧ (a.type = .dof → RowOK dim cell lhs rhs a)) ∧
      s = rowsSys dim cell lhs rhs (Spec.slots F dim cell) := by
  rw [assembleCell, testFields_ok_iff, slotsFrom_zero]
  simp only [TestValid, Nat.zero_add]
  constructor
  · rintro ⟨⟨h1, h2⟩, h3⟩
    refine ⟨⟨h1, ?_⟩, h3⟩
    by_cases hds : F.dofs = []
    · simp [hds]
    · exact h2 hds
  · rintro ⟨⟨h1, h2⟩, h3⟩
    exact ⟨⟨h1, fun _ => h2⟩, h3⟩

theorem assembleAll_ok_iff (dim : Nat) (qs : List (Call R)) : ∀ (s s' : Sys R),
    assembleAll dim s qs = .ok s' ↔ ∃ ws : List (Sys R),
      List.Forall₂ (fun q w => assembleCell dim q.cell q.test q.lhs q.rhs = .ok w) qs ws ∧
      s' = ws.foldl Sys.app s := by
  induction qs with
  | nil =>
    intro s s'
    simp [assembleAll, eq_comm]
  | cons q qs ih =>
    intro s s'
    simp only [assembleAll, bind_ok_iff, ih]
    constructor
    · rintro ⟨w, hw, ws, hf, rfl⟩
      exact ⟨w :: ws, .cons hw hf, rfl⟩
    · rintro ⟨ws, hf, rfl⟩
      cases hf with
      | cons hw hf => exact ⟨_, hw, _, hf, rfl⟩

end PolyDiM
