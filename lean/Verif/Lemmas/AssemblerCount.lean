import Verif.Lemmas.Assembler

/-! Helper lemmas: offsets are prefix sums, blocks are disjoint and cover. -/

namespace PolyDiM

theorem prefix_bij (ns : List Nat) :
    (∀ p, p < ns.sum → ∃! hk : Nat × Nat, (∃ n, ns[hk.1]? = some n ∧ hk.2 < n) ∧ (ns.take hk.1).sum + hk.2 = p) ∧
    (∀ (h k : Nat) (n : Nat), ns[h]? = some n → k < n → (ns.take h).sum + k < ns.sum) := by
  induction ns with
  | nil => simp
  | cons a ns ih =>
    obtain ⟨i1, i2⟩ := ih
    refine ⟨?_, ?_⟩
    · intro p hp
      by_cases hpa : p < a
      · refine ⟨(0, p), ⟨⟨a, by simp, hpa⟩, by simp⟩, ?_⟩
        rintro ⟨h, k⟩ ⟨⟨n, hn, hk⟩, e⟩
        cases h with
        | zero =>
          simp only [List.take_zero, List.sum_nil, Nat.zero_add] at e
          simp [e]
        | succ h =>
          simp only [List.take_succ_cons, List.sum_cons] at e
          omega
      · simp only [List.sum_cons] at hp
        obtain ⟨⟨h, k⟩, ⟨⟨n, hn, hk⟩, e⟩, huniq⟩ := i1 (p - a) (by omega)
        refine ⟨(h + 1, k), ⟨⟨n, by simpa using hn, hk⟩, ?_⟩, ?_⟩
        · simp only [List.take_succ_cons, List.sum_cons]
          simp only at e
          omega
        · rintro ⟨h', k'⟩ ⟨⟨n', hn', hk'⟩, e'⟩
          cases h' with
          | zero =>
            simp only [List.getElem?_cons_zero, Option.some.injEq] at hn'
            simp only [List.take_zero, List.sum_nil, Nat.zero_add] at e'
            omega
          | succ h' =>
            simp only [List.take_succ_cons, List.sum_cons] at e'
            have := huniq (h', k') ⟨⟨n', by simpa using hn', hk'⟩, by simp only; omega⟩
            simp only [Prod.mk.injEq] at this ⊢
            omega
    · intro h k n hn hk
      cases h with
      | zero =>
        simp only [List.getElem?_cons_zero, Option.some.injEq] at hn
        simp only [List.take_zero, List.sum_nil, List.sum_cons]
        omega
      | succ h =>
        have := i2 h k n (by simpa using hn) hk
        simp only [List.take_succ_cons, List.sum_cons]
        omega

/-- Prefix sums of a list, one entry per element. -/
def prefixSums (ns : List Nat) : List Nat := (List.range ns.length).map fun h => (ns.take h).sum

theorem prefixSums_length (ns : List Nat) : (prefixSums ns).length = ns.length := by simp [prefixSums]

theorem prefixSums_get {ns : List Nat} {h : Nat} (hh : h < ns.length) : (prefixSums ns)[h]? = some (ns.take h).sum := by
  simp [prefixSums, List.getElem?_range hh]

/-- Offsets starting at `o` (helper). -/
def offsFrom (o prev : Nat) : List Nat → List Nat
  | [] => []
  | n :: ns => (o + prev) :: offsFrom (o + prev) n ns

theorem offsFrom_eq (ns : List Nat) : ∀ (o prev : Nat),
    offsFrom o prev ns = (List.range ns.length).map fun h => o + prev + (ns.take h).sum := by
  induction ns with
  | nil => simp [offsFrom]
  | cons n ns ih =>
    intro o prev
    rw [offsFrom, ih, List.length_cons, List.range_succ_eq_map]
    simp [Function.comp_def, Nat.add_assoc]

theorem countLoop_eq (ks : List Counters) : ∀ (d : CountData) (prev : Counters), d.offsetsDOFs ≠ [] → d.offsetsStrongs ≠ [] →
    d.totalDOFs + (ks.map Counters.dofs).sum < 4294967296 → d.totalStrong + (ks.map Counters.strongs).sum < 4294967296 →
    d.totalBoundary + (ks.map Counters.boundary).sum < 4294967296 →
    countLoop d prev ks = ⟨d.totalBoundary + (ks.map Counters.boundary).sum, d.totalDOFs + (ks.map Counters.dofs).sum,
      d.totalStrong + (ks.map Counters.strongs).sum,
      d.offsetsDOFs ++ offsFrom (d.offsetsDOFs.getLastD 0) prev.dofs (ks.map Counters.dofs),
      d.offsetsStrongs ++ offsFrom (d.offsetsStrongs.getLastD 0) prev.strongs (ks.map Counters.strongs)⟩ := by
  induction ks with
  | nil => intro d prev _ _ _ _ _; simp [countLoop, offsFrom]
  | cons k ks ih =>
    intro d prev h1 h2 h3 h4 h5
    simp only [List.map_cons, List.sum_cons] at h3 h4 h5
    rw [countLoop, u32_of_lt (by omega), u32_of_lt (by omega), u32_of_lt (by omega),
      ih _ _ (by simp) (by simp) (by simp only; omega) (by simp only; omega) (by simp only; omega)]
    simp [offsFrom, Nat.add_assoc]

theorem countDofs_eq (ks : List Counters) (hne : ks ≠ []) (h3 : (ks.map Counters.dofs).sum < 4294967296)
    (h4 : (ks.map Counters.strongs).sum < 4294967296) (h5 : (ks.map Counters.boundary).sum < 4294967296) :
    countDofs ks = .ok ⟨(ks.map Counters.boundary).sum, (ks.map Counters.dofs).sum, (ks.map Counters.strongs).sum,
      prefixSums (ks.map Counters.dofs), prefixSums (ks.map Counters.strongs)⟩ := by
  cases ks with
  | nil => simp at hne
  | cons k ks =>
    simp only [List.map_cons, List.sum_cons] at h3 h4 h5
    rw [countDofs, countLoop_eq ks _ _ (by simp) (by simp) (by simpa using h3) (by simpa using h4) (by simpa using h5)]
    congr 2
    · simp [prefixSums, offsFrom_eq, List.range_succ_eq_map, Function.comp_def]
    · simp [prefixSums, offsFrom_eq, List.range_succ_eq_map, Function.comp_def]

/-- Number of local DOFs of a cell in a field. -/
def lsize (dim cell : Nat) (d : DOFsData) : Nat := (Spec.cellList d dim cell).length

theorem localSize_ok_iff (dim cell : Nat) (d : DOFsData) (n : Nat) :
    localSize dim cell d = .ok n ↔ (Spec.globalsAt d dim cell).isSome ∧ n = lsize dim cell d := by
  simp only [localSize, bind_ok_iff, atIdx_ok_iff, Except.ok.injEq, lsize, Spec.cellList, Spec.globalsAt]
  cases h : (d.dims dim).globals[cell]? <;> simp [eq_comm]

theorem localSize_error {dim cell : Nat} {d : DOFsData} {e : Fault} (h : localSize dim cell d = .error e) :
    e = .outOfRange := by
  simp only [localSize, bind, Except.bind, atIdx] at h
  split at h
  · rename_i h1
    split at h1
    · simp at h1
    · simp only [Except.error.injEq] at h h1
      rw [← h, ← h1]
  · simp at h

theorem localCountLoop_ok_iff (dim cell : Nat) (ks : List DOFsData) : ∀ (d : LocalCount) (prev : DOFsData) (lc : LocalCount),
    (Spec.globalsAt prev dim cell).isSome → d.offsets ≠ [] → d.total + (ks.map (lsize dim cell)).sum < 4294967296 →
    (localCountLoop dim cell d prev ks = .ok lc ↔ (∀ k ∈ ks, (Spec.globalsAt k dim cell).isSome) ∧
      lc = ⟨d.total + (ks.map (lsize dim cell)).sum,
        d.offsets ++ offsFrom (d.offsets.getLastD 0) (lsize dim cell prev) (ks.map (lsize dim cell))⟩) := by
  induction ks with
  | nil =>
    intro d prev lc _ _ _
    simp only [localCountLoop, offsFrom, List.map_nil, List.sum_nil, Nat.add_zero, List.append_nil, Except.ok.injEq,
      List.not_mem_nil, false_implies, implies_true, true_and]
    constructor <;> exact fun h => h.symm
  | cons k ks ih =>
    intro d prev lc hp hne hov
    simp only [List.map_cons, List.sum_cons] at hov
    simp only [localCountLoop, bind_ok_iff, localSize_ok_iff]
    constructor
    · rintro ⟨n, ⟨hk, rfl⟩, p, ⟨_, rfl⟩, h⟩
      rw [u32_of_lt (by omega), ih _ _ _ hk (by simp) (by simp only; omega)] at h
      obtain ⟨h1, rfl⟩ := h
      refine ⟨by rw [List.forall_mem_cons]; exact ⟨hk, h1⟩, ?_⟩
      simp [offsFrom, Nat.add_assoc]
    · rintro ⟨h1, rfl⟩
      rw [List.forall_mem_cons] at h1
      refine ⟨_, ⟨h1.1, rfl⟩, _, ⟨hp, rfl⟩, ?_⟩
      rw [u32_of_lt (by omega), ih _ _ _ h1.1 (by simp) (by simp only; omega)]
      refine ⟨h1.2, ?_⟩
      simp [offsFrom, Nat.add_assoc]

theorem localCountDofs_ok_iff (dim cell : Nat) (ks : List DOFsData)
    (hov : (ks.map (lsize dim cell)).sum < 4294967296) (lc : LocalCount) :
    localCountDofs dim cell ks = .ok lc ↔ ks ≠ [] ∧ (∀ k ∈ ks, (Spec.globalsAt k dim cell).isSome) ∧
      lc = ⟨(ks.map (lsize dim cell)).sum, prefixSums (ks.map (lsize dim cell))⟩ := by
  cases ks with
  | nil => simp [localCountDofs]
  | cons k ks =>
    simp only [List.map_cons, List.sum_cons] at hov
    simp only [localCountDofs, bind_ok_iff, localSize_ok_iff, List.forall_mem_cons]
    have e : ∀ x : LocalCount, x = ⟨lsize dim cell k + (ks.map (lsize dim cell)).sum,
        [0] ++ offsFrom ([0].getLastD 0) (lsize dim cell k) (ks.map (lsize dim cell))⟩ ↔
        x = ⟨((k :: ks).map (lsize dim cell)).sum, prefixSums ((k :: ks).map (lsize dim cell))⟩ := by
      intro x
      have : (⟨lsize dim cell k + (ks.map (lsize dim cell)).sum,
        [0] ++ offsFrom ([0].getLastD 0) (lsize dim cell k) (ks.map (lsize dim cell))⟩ : LocalCount) =
        ⟨((k :: ks).map (lsize dim cell)).sum, prefixSums ((k :: ks).map (lsize dim cell))⟩ := by
        simp [prefixSums, offsFrom_eq, List.range_succ_eq_map, Function.comp_def]
      rw [this]
    constructor
    · rintro ⟨n, ⟨hk, rfl⟩, h⟩
      rw [localCountLoop_ok_iff dim cell ks _ _ _ hk (by simp) (by simpa using hov)] at h
      exact ⟨by simp, ⟨hk, h.1⟩, (e lc).1 h.2⟩
    · rintro ⟨-, ⟨hk, h1⟩, h2⟩
      refine ⟨_, ⟨hk, rfl⟩, ?_⟩
      rw [localCountLoop_ok_iff dim cell ks _ _ _ hk (by simp) (by simpa using hov)]
      exact ⟨h1, (e lc).2 h2⟩

theorem localCountLoop_error (dim cell : Nat) (ks : List DOFsData) : ∀ (d : LocalCount) (prev : DOFsData) (e : Fault),
    localCountLoop dim cell d prev ks = .error e → e = .outOfRange := by
  induction ks with
  | nil => intro d prev e h; simp [localCountLoop] at h
  | cons k ks ih =>
    intro d prev e h
    simp only [localCountLoop, bind, Except.bind] at h
    cases h1 : localSize dim cell k with
    | error e' => simp only [h1, Except.error.injEq] at h; subst h; exact localSize_error h1
    | ok n =>
      simp only [h1] at h
      cases h2 : localSize dim cell prev with
      | error e' => simp only [h2, Except.error.injEq] at h; subst h; exact localSize_error h2
      | ok p =>
        simp only [h2] at h
        exact ih _ _ _ h

theorem localCountDofs_error {dim cell : Nat} {ks : List DOFsData} {e : Fault} (hne : ks ≠ [])
    (h : localCountDofs dim cell ks = .error e) : e = .outOfRange := by
  cases ks with
  | nil => simp at hne
  | cons k ks =>
    simp only [localCountDofs, bind, Except.bind] at h
    cases h1 : localSize dim cell k with
    | error e' => simp only [h1, Except.error.injEq] at h; subst h; exact localSize_error h1
    | ok n =>
      simp only [h1] at h
      exact localCountLoop_error _ _ _ _ _ _ h

/-- The positions of the slots of a field. -/
theorem fieldSlots_pos (d : DOFsData) (dim c offD offS locOff : Nat) :
    (Spec.fieldSlots d dim c offD offS locOff).map Spec.Slot.pos = List.range' locOff (lsize dim c d) := by
  have : ∀ (l : List GDOF) (k : Nat),
      ((l.zipIdx k).map fun rk => Spec.slot d offD offS (locOff + rk.2) rk.1).map Spec.Slot.pos =
        List.range' (locOff + k) l.length := by
    intro l
    induction l with
    | nil => simp
    | cons r l ih =>
      intro k
      rw [List.zipIdx_cons, List.map_cons, List.map_cons, ih, slot_pos, List.length_cons, List.range'_succ]
      simp [Nat.add_assoc]
  exact this _ 0

theorem slotsFrom_pos (F : Fields) (dim c : Nat) (ds : List DOFsData) : ∀ (h o : Nat),
    (∀ i, i < ds.length → F.localOffsets.getD (h + i) 0 = o + ((ds.take i).map (lsize dim c)).sum) →
    (slotsFrom F dim c h ds).map Spec.Slot.pos = List.range' o (ds.map (lsize dim c)).sum := by
  induction ds with
  | nil => simp [slotsFrom]
  | cons d ds ih =>
    intro h o hoff
    rw [slotsFrom_cons, List.map_append, fieldSlots_pos, ih (h + 1) (o + lsize dim c d)]
    · have h0 := hoff 0 (by simp)
      simp only [Nat.add_zero, List.take_zero, List.map_nil, List.sum_nil] at h0
      rw [h0, List.range'_append_1]
      simp
    · intro i hi
      have := hoff (i + 1) (by simpa using hi)
      simp only [List.take_succ_cons, List.map_cons, List.sum_cons] at this
      rw [Nat.add_assoc, Nat.add_comm 1 i, this]
      omega

theorem slots_pos {F : Fields} {dim c : Nat} {lc : LocalCount}
    (hov : (F.dofs.map (lsize dim c)).sum < 4294967296)
    (h : localCountDofs dim c F.dofs = .ok lc) (hF : F.localOffsets = lc.offsets) :
    (Spec.slots F dim c).map Spec.Slot.pos = List.range lc.total := by
  obtain ⟨-, -, rfl⟩ := (localCountDofs_ok_iff dim c F.dofs hov lc).1 h
  rw [← slotsFrom_zero, slotsFrom_pos F dim c F.dofs 0 0, List.range_eq_range']
  intro i hi
  rw [hF, Nat.zero_add, Nat.zero_add]
  apply getD_of_get?
  rw [prefixSums_get (by simpa using hi), List.map_take]

end PolyDiM
