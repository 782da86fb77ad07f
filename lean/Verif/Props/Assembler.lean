import Verif.Lemmas.AssemblerFinal

/-!
# C11-C18: the assembler

The theorems are about `countDofs`, `localCountDofs`, `globalToLocal`, `assembleCell`, `assembleAll` of
`Verif/Model/Assembler.lean`; the vocabulary is in `Verif/Spec/Assembler.lean`.
-/

namespace PolyDiM

/-! ## C11, C12: offsets -/

/-- **C11.** For a non-empty list of handlers whose totals fit `unsigned int`, `count_dofs` returns the sums, one offset
per handler, and `(h, i) ↦ offset h + i` is a bijection onto `0..total-1`, for free and for strong DOFs. -/
theorem C11_count_dofs (ks : List Counters) (hne : ks ≠ []) (h1 : (ks.map Counters.dofs).sum < 2 ^ 32)
    (h2 : (ks.map Counters.strongs).sum < 2 ^ 32) (h3 : (ks.map Counters.boundary).sum < 2 ^ 32) :
    ∃ cd, countDofs ks = .ok cd ∧ cd.totalDOFs = (ks.map Counters.dofs).sum ∧
      cd.totalStrong = (ks.map Counters.strongs).sum ∧ cd.totalBoundary = (ks.map Counters.boundary).sum ∧
      cd.offsetsDOFs.length = ks.length ∧ cd.offsetsStrongs.length = ks.length ∧
      (∀ p, p < cd.totalDOFs → ∃! hi : Nat × Nat,
        ∃ k o, ks[hi.1]? = some k ∧ hi.2 < k.dofs ∧ cd.offsetsDOFs[hi.1]? = some o ∧ o + hi.2 = p) ∧
      (∀ (h i : Nat) k o, ks[h]? = some k → i < k.dofs → cd.offsetsDOFs[h]? = some o → o + i < cd.totalDOFs) ∧
      (∀ p, p < cd.totalStrong → ∃! hi : Nat × Nat,
        ∃ k o, ks[hi.1]? = some k ∧ hi.2 < k.strongs ∧ cd.offsetsStrongs[hi.1]? = some o ∧ o + hi.2 = p) ∧
      (∀ (h i : Nat) k o, ks[h]? = some k → i < k.strongs → cd.offsetsStrongs[h]? = some o →
        o + i < cd.totalStrong) := by
  refine ⟨_, countDofs_eq ks hne h1 h2 h3, rfl, rfl, rfl, by simp [prefixSums_length], by simp [prefixSums_length], ?_⟩
  have key : ∀ f : Counters → Nat,
      (∀ p, p < (ks.map f).sum → ∃! hi : Nat × Nat,
        ∃ k o, ks[hi.1]? = some k ∧ hi.2 < f k ∧ (prefixSums (ks.map f))[hi.1]? = some o ∧ o + hi.2 = p) ∧
      (∀ (h i : Nat) k o, ks[h]? = some k → i < f k → (prefixSums (ks.map f))[h]? = some o → o + i < (ks.map f).sum) := by
    intro f
    obtain ⟨b1, b2⟩ := prefix_bij (ks.map f)
    have hoff : ∀ (h : Nat) k, ks[h]? = some k → (prefixSums (ks.map f))[h]? = some ((ks.map f).take h).sum := by
      intro h k hk
      exact prefixSums_get (by simpa using (List.getElem?_eq_some_iff.1 hk).1)
    refine ⟨fun p hp => ?_, fun h i k o hk hi ho => ?_⟩
    · obtain ⟨⟨h, i⟩, ⟨⟨n, hn, hi⟩, e⟩, hu⟩ := b1 p hp
      rw [List.getElem?_map, Option.map_eq_some_iff] at hn
      obtain ⟨k, hk, rfl⟩ := hn
      refine ⟨(h, i), ⟨k, _, hk, hi, hoff h k hk, e⟩, ?_⟩
      rintro ⟨h', i'⟩ ⟨k', o', hk', hi', ho', e'⟩
      rw [hoff h' k' hk', Option.some.injEq] at ho'
      subst ho'
      exact hu (h', i') ⟨⟨f k', by simp [hk'], hi'⟩, e'⟩
    · rw [hoff h k hk, Option.some.injEq] at ho
      subst ho
      exact b2 h i (f k) (by simp [hk]) hi
  obtain ⟨k1, k2⟩ := key Counters.dofs
  obtain ⟨k3, k4⟩ := key Counters.strongs
  exact ⟨k1, k2, k3, k4⟩

/-- **C11, empty list.** `count_dofs` on an empty list is undefined behaviour. -/
theorem C11_count_dofs_empty : countDofs [] = .error .undefinedBehaviour := rfl

example : ∃ data, createDOFs 2 exInfo exMesh = .ok data ∧
    countDofs [data.counters, data.counters] = .ok ⟨8, 26, 6, [0, 13], [0, 3]⟩ := ⟨_, rfl, rfl⟩

/-- **C12.** `local_count_dofs` succeeds exactly when there is a field and the cell exists in every field (otherwise
`at` throws); the result is the sum of the local numbers of DOFs, one offset per field, and
`(h, k) ↦ offset h + k` is a bijection onto `0..total-1`. -/
theorem C12_local_count_dofs (dim cell : Nat) (fields : List DOFsData)
    (hov : (fields.map fun d => (Spec.cellList d dim cell).length).sum < 2 ^ 32) :
    ((∃ lc, localCountDofs dim cell fields = .ok lc) ↔
      fields ≠ [] ∧ ∀ d ∈ fields, (Spec.globalsAt d dim cell).isSome) ∧
    (fields ≠ [] → ∀ e, localCountDofs dim cell fields = .error e → e = .outOfRange) ∧
    ∀ lc, localCountDofs dim cell fields = .ok lc →
      lc.total = (fields.map fun d => (Spec.cellList d dim cell).length).sum ∧ lc.offsets.length = fields.length ∧
      (∀ p, p < lc.total → ∃! hk : Nat × Nat, ∃ d o, fields[hk.1]? = some d ∧
        hk.2 < (Spec.cellList d dim cell).length ∧ lc.offsets[hk.1]? = some o ∧ o + hk.2 = p) ∧
      (∀ (h k : Nat) d o, fields[h]? = some d → k < (Spec.cellList d dim cell).length → lc.offsets[h]? = some o →
        o + k < lc.total) := by
  have key := localCountDofs_ok_iff dim cell fields hov
  refine ⟨⟨?_, ?_⟩, fun hne e he => localCountDofs_error hne he, ?_⟩
  · rintro ⟨lc, h⟩
    have := (key lc).1 h
    exact ⟨this.1, this.2.1⟩
  · rintro ⟨h1, h2⟩
    exact ⟨_, (key _).2 ⟨h1, h2, rfl⟩⟩
  · intro lc h
    obtain ⟨-, -, rfl⟩ := (key lc).1 h
    obtain ⟨b1, b2⟩ := prefix_bij (fields.map (lsize dim cell))
    have hoff : ∀ (h : Nat) d, fields[h]? = some d →
        (prefixSums (fields.map (lsize dim cell)))[h]? = some ((fields.map (lsize dim cell)).take h).sum := by
      intro h k hk
      exact prefixSums_get (by simpa using (List.getElem?_eq_some_iff.1 hk).1)
    refine ⟨rfl, by simp [prefixSums_length], fun p hp => ?_, fun h k d o hd hk ho => ?_⟩
    · obtain ⟨⟨h, i⟩, ⟨⟨n, hn, hi⟩, e⟩, hu⟩ := b1 p hp
      rw [List.getElem?_map, Option.map_eq_some_iff] at hn
      obtain ⟨k, hk, rfl⟩ := hn
      refine ⟨(h, i), ⟨k, _, hk, hi, hoff h k hk, e⟩, ?_⟩
      rintro ⟨h', i'⟩ ⟨k', o', hk', hi', ho', e'⟩
      rw [hoff h' k' hk', Option.some.injEq] at ho'
      subst ho'
      exact hu (h', i') ⟨⟨lsize dim cell k', by simp [hk'], hi'⟩, e'⟩
    · rw [hoff h d hd, Option.some.injEq] at ho
      subst ho
      exact b2 h k (lsize dim cell d) (by simp [hd]) hk

example : ∃ data, createDOFs 2 exInfo exMesh = .ok data ∧ localCountDofs 2 1 [data, data] = .ok ⟨20, [0, 10]⟩ ∧
    localCountDofs 2 2 [data, data] = .error .outOfRange := ⟨_, rfl, rfl, rfl⟩

/-! ## C13: extraction -/

/-- **C13.** For fields created by the DOF manager, offsets of `count_dofs`/`local_count_dofs` and global vectors of the
right sizes, `global_solution_to_local_solution` succeeds (nothing is read or written out of range) and returns a vector
of the local size whose entry at offset + position is the value of that unknown: read from the strong vector if it is
Strong, from the DOF vector if it is free. By C12 this determines every entry. -/
theorem C13_extract {R : Type} [Zero R] (dim cell : Nat) (fields : List DOFsData) (hc : ∀ d ∈ fields, Spec.Created d)
    (h1 : (fields.map fun d => d.counters.dofs).sum < 2 ^ 32) (h2 : (fields.map fun d => d.counters.strongs).sum < 2 ^ 32)
    (hloc : (fields.map fun d => (Spec.cellList d dim cell).length).sum < 2 ^ 32)
    (cd : CountData) (hcd : countDofs (fields.map DOFsData.counters) = .ok cd)
    (lc : LocalCount) (hlc : localCountDofs dim cell fields = .ok lc) (solD solS : List R)
    (hD : solD.length = cd.totalDOFs) (hS : solS.length = cd.totalStrong) :
    ∃ v, globalToLocal dim cell fields lc.total lc.offsets cd.offsetsDOFs cd.offsetsStrongs solD solS = .ok v ∧
      v.length = lc.total ∧
      ∀ (h k : Nat) d r x, fields[h]? = some d → (Spec.cellList d dim cell)[k]? = some r → Spec.lookup d r = some x →
        ∃ oL oD oS, lc.offsets[h]? = some oL ∧ cd.offsetsDOFs[h]? = some oD ∧ cd.offsetsStrongs[h]? = some oS ∧
          ∃ y, v[oL + k]? = some y ∧ (x.type = .strong → solS[x.globalIndex + oS]? = some y) ∧
            (x.type = .dof → solD[x.globalIndex + oD]? = some y) := by
  have hne : fields ≠ [] := ((localCountDofs_ok_iff dim cell fields hloc lc).1 hlc).1
  let F : Fields := ⟨fields, lc.offsets, cd.offsetsDOFs, cd.offsetsStrongs⟩
  obtain ⟨⟨hex, l2, l1, l3⟩, hb⟩ := slots_bounds F dim cell hne hc h1 h2 hloc hcd hlc rfl rfl rfl
  have hp := slots_pos (F := F) hloc hlc rfl
  have hok := (globalToLocal_ok_iff F dim cell lc.total solD solS _ l1 l2 l3).2 ⟨hex, fun a ha => by
    obtain ⟨b1, b2, b3, b4⟩ := hb a ha
    exact ⟨b1, by rw [hD]; exact b3, by rw [hS]; exact b4, b2⟩, rfl⟩
  refine ⟨_, hok, ?_⟩
  obtain ⟨w1, w2⟩ := globalToLocal_values F dim cell lc.total solD solS _ l1 l2 l3 hp hok
  refine ⟨w1, ?_⟩
  intro h k d r x hd hr hx
  have hh : h < fields.length := (List.getElem?_eq_some_iff.1 hd).1
  obtain ⟨oL, e1⟩ : ∃ o, lc.offsets[h]? = some o := ⟨_, List.getElem?_eq_getElem (Nat.lt_of_lt_of_le hh l1)⟩
  obtain ⟨oD, e2⟩ : ∃ o, cd.offsetsDOFs[h]? = some o := ⟨_, List.getElem?_eq_getElem (Nat.lt_of_lt_of_le hh l2)⟩
  obtain ⟨oS, e3⟩ : ∃ o, cd.offsetsStrongs[h]? = some o := ⟨_, List.getElem?_eq_getElem (Nat.lt_of_lt_of_le hh l3)⟩
  refine ⟨_, _, _, e1, e2, e3, ?_⟩
  have hmem : slotOf oD oS (oL + k) x ∈ Spec.slots F dim cell := by
    rw [mem_slots_iff]
    refine ⟨h, d, k, r, hd, hr, ?_⟩
    rw [slot_of_lookup hx, getD_of_get? e1, getD_of_get? e2, getD_of_get? e3]
  obtain ⟨⟨r1, r2, r3, r4⟩, hv⟩ := w2 _ hmem
  obtain ⟨t, i⟩ := x
  cases t with
  | unknwon => simp [slotOf] at r1
  | strong =>
    refine ⟨_, hv, fun _ => ?_, by simp⟩
    have hi := r3 rfl
    simp only [slotOf] at hi
    simp [slotVal, slotOf, hi]
  | dof =>
    refine ⟨_, hv, by simp, fun _ => ?_⟩
    have hi := r2 rfl
    simp only [slotOf] at hi
    simp [slotVal, slotOf, hi]

/-- Two copies of the example field, cell 1: positions 0-9 belong to the first field, 10-19 to the second; the strong
values (vertex 0) are 100 and 103. -/
example : ∃ data cd lc, createDOFs 2 exInfo exMesh = .ok data ∧ Spec.totalRequested exInfo 2 < 2 ^ 32 ∧
    countDofs ([data, data].map DOFsData.counters) = .ok cd ∧ localCountDofs 2 1 [data, data] = .ok lc ∧
    (List.range 26).length = cd.totalDOFs ∧ [100, 101, 102, 103, 104, 105].length = cd.totalStrong ∧
    globalToLocal 2 1 [data, data] lc.total lc.offsets cd.offsetsDOFs cd.offsetsStrongs (List.range 26)
      [100, 101, 102, 103, 104, 105] =
      .ok [100, 1, 2, 9, 10, 5, 6, 7, 8, 12, 103, 14, 15, 22, 23, 18, 19, 20, 21, 25] :=
  ⟨_, _, _, rfl, by decide, rfl, rfl, rfl, rfl, rfl⟩

/-! ## C14, C15: assembly -/

/-- **C14.** Whenever a sequence of assembler calls goes through, every entry of the three global objects is its previous
value plus the sum over the calls and over the pairs of local unknowns (free test, trial of the right type) mapped to that
entry; Strong test unknowns contribute nothing. -/
theorem C14_assembly {R : Type} [AddCommMonoid R] (dim : Nat) (qs : List (Call R)) (s s' : Sys R)
    (h : assembleAll dim s qs = .ok s')
    (hrow : ∀ q ∈ qs, ∀ a ∈ Spec.slots q.test dim q.cell, a.type = .dof → a.idx < 2 ^ 32) :
    (∀ i j, Spec.entry s'.lhsDOFs i j =
      Spec.entry s.lhsDOFs i j + (qs.map fun q => Spec.lhsContribution dim q .dof i j).sum) ∧
    (∀ i j, Spec.entry s'.lhsStrongs i j =
      Spec.entry s.lhsStrongs i j + (qs.map fun q => Spec.lhsContribution dim q .strong i j).sum) ∧
    (∀ i, Spec.ventry s'.rhs i = Spec.ventry s.rhs i + (qs.map fun q => Spec.rhsContribution dim q i).sum) := by
  obtain ⟨-, rfl⟩ := (assembleAll_iff dim qs s s').1 h
  refine ⟨fun i j => ?_, fun i j => ?_, fun i => ?_⟩
  · rw [foldl_app_lhsDOFs, List.map_map]
    congr 2
    exact List.map_congr_left fun q hq => cellSys_lhsDOFs dim q (hrow q hq) i j
  · rw [foldl_app_lhsStrongs, List.map_map]
    congr 2
    exact List.map_congr_left fun q hq => cellSys_lhsStrongs dim q (hrow q hq) i j
  · rw [foldl_app_rhs, List.map_map]
    congr 2
    exact List.map_congr_left fun q hq => cellSys_rhs dim q (hrow q hq) i

/-- The example field as test and trial space of the cell `c` (offsets of the single-field case). -/
def exFields (data : DOFsData) : Fields := ⟨[data], [0], [0], [0]⟩

/-- A call on the cell `c` of the example with local matrix `A(i, j) = 1 + i + j` and vector `0, 1, …, 9`. -/
def exCall (data : DOFsData) (c : Nat) : Call Nat :=
  ⟨c, exFields data, some (exFields data, ⟨10, 10, fun i j => 1 + i + j⟩), some (List.range 10)⟩

set_option maxRecDepth 8000 in
/-- Both cells of the example assembled: entry (1, 1) of the free matrix collects a contribution of each cell
(the shared vertex 2 is free DOF 1). -/
example : ∃ data s', createDOFs 2 exInfo exMesh = .ok data ∧
    assembleAll 2 Sys.empty [exCall data 0, exCall data 1] = .ok s' ∧
    (∀ q ∈ [exCall data 0, exCall data 1], ∀ a ∈ Spec.slots q.test 2 q.cell, a.type = .dof → a.idx < 2 ^ 32) ∧
    Spec.entry s'.lhsDOFs 1 1 = 8 ∧ Spec.entry s'.lhsStrongs 1 0 = 5 ∧ Spec.ventry s'.rhs 1 = 3 :=
  ⟨_, _, rfl, rfl, by decide, by decide, by decide, by decide⟩

/-- **C15, order.** A permutation of the calls goes through as well and yields the same three objects. -/
theorem C15_order_irrelevant {R : Type} [AddCommMonoid R] (dim : Nat) (qs qs' : List (Call R)) (hp : qs.Perm qs')
    (s s1 : Sys R) (h : assembleAll dim s qs = .ok s1) :
    ∃ s2, assembleAll dim s qs' = .ok s2 ∧ (∀ i j, Spec.entry s2.lhsDOFs i j = Spec.entry s1.lhsDOFs i j) ∧
      (∀ i j, Spec.entry s2.lhsStrongs i j = Spec.entry s1.lhsStrongs i j) ∧
      (∀ i, Spec.ventry s2.rhs i = Spec.ventry s1.rhs i) := by
  obtain ⟨hok, rfl⟩ := (assembleAll_iff dim qs s s1).1 h
  refine ⟨_, (assembleAll_iff dim qs' s _).2 ⟨fun q hq => hok q (hp.mem_iff.2 hq), rfl⟩, fun i j => ?_, fun i j => ?_,
    fun i => ?_⟩
  · rw [foldl_app_lhsDOFs, foldl_app_lhsDOFs]
    congr 1
    exact (((hp.map _).map _).sum_eq).symm
  · rw [foldl_app_lhsStrongs, foldl_app_lhsStrongs]
    congr 1
    exact (((hp.map _).map _).sum_eq).symm
  · rw [foldl_app_rhs, foldl_app_rhs]
    congr 1
    exact (((hp.map _).map _).sum_eq).symm

/-- **C15, batches.** Assembling in two batches is assembling at once. -/
theorem C15_batches {R : Type} (dim : Nat) (qs qs' : List (Call R)) (s : Sys R) :
    assembleAll dim s (qs ++ qs') = (assembleAll dim s qs) >>= fun s1 => assembleAll dim s1 qs' := by
  induction qs generalizing s with
  | nil => rfl
  | cons q qs ih =>
    simp only [List.cons_append, assembleAll]
    cases assembleCell dim q.cell q.test q.lhs q.rhs with
    | error e => rfl
    | ok w => exact ih (s.app w)

example : ∃ data s', createDOFs 2 exInfo exMesh = .ok data ∧
    assembleAll 2 Sys.empty [exCall data 0, exCall data 1] = .ok s' ∧
    [exCall data 0, exCall data 1].Perm [exCall data 1, exCall data 0] :=
  ⟨_, _, rfl, rfl, List.Perm.swap _ _ _⟩

/-! ## C16: symmetry and positive semidefiniteness -/

/-- **C16, symmetry.** -/
theorem C16_symmetric {R : Type} [AddCommMonoid R] (dim : Nat) (qs : List (Call R)) (s s' : Sys R)
    (h : assembleAll dim s qs = .ok s')
    (hrow : ∀ q ∈ qs, ∀ a ∈ Spec.slots q.test dim q.cell, a.type = .dof → a.idx < 2 ^ 32)
    (hs : ∀ i j, Spec.entry s.lhsDOFs i j = Spec.entry s.lhsDOFs j i)
    (hsym : ∀ q ∈ qs, ∀ T A, q.lhs = some (T, A) → T = q.test ∧ ∀ i j, A.entry i j = A.entry j i) :
    ∀ i j, Spec.entry s'.lhsDOFs i j = Spec.entry s'.lhsDOFs j i := by
  intro i j
  have hC := (C14_assembly dim qs s s' h hrow).1
  rw [hC i j, hC j i, hs i j]
  congr 2
  apply List.map_congr_left
  intro q hq
  unfold Spec.lhsContribution
  cases hl : q.lhs with
  | none => rfl
  | some TA =>
    obtain ⟨T, A⟩ := TA
    obtain ⟨rfl, hA⟩ := hsym q hq T A hl
    simp only
    rw [list_sum_comm]
    congr 1
    apply List.map_congr_left
    intro a _
    congr 1
    apply List.map_congr_left
    intro b _
    rw [hA b.pos a.pos]
    have : (b.type = .dof ∧ a.type = .dof ∧ b.idx = i ∧ a.idx = j) ↔
        (a.type = .dof ∧ b.type = .dof ∧ a.idx = j ∧ b.idx = i) := by tauto
    simp only [this]

/-- **C16, positive semidefiniteness.** -/
theorem C16_psd {R : Type} [CommRing R] [LinearOrder R] [IsStrictOrderedRing R] (dim N : Nat) (qs : List (Call R))
    (s s' : Sys R) (h : assembleAll dim s qs = .ok s')
    (hrow : ∀ q ∈ qs, ∀ a ∈ Spec.slots q.test dim q.cell, a.type = .dof → a.idx < 2 ^ 32)
    (hs : Spec.PSD N (Spec.entry s.lhsDOFs))
    (hpsd : ∀ q ∈ qs, ∀ T A, q.lhs = some (T, A) → T = q.test ∧ A.rows = A.cols ∧ Spec.PSD A.rows A.entry) :
    Spec.PSD N (Spec.entry s'.lhsDOFs) := by
  intro x
  have hC := (C14_assembly dim qs s s' h hrow).1
  have hok := ((assembleAll_iff dim qs s s').1 h).1
  have split : ∑ i ∈ Finset.range N, ∑ j ∈ Finset.range N, x i * Spec.entry s'.lhsDOFs i j * x j =
      ∑ i ∈ Finset.range N, ∑ j ∈ Finset.range N, x i * Spec.entry s.lhsDOFs i j * x j +
      (qs.map fun q => ∑ i ∈ Finset.range N, ∑ j ∈ Finset.range N, x i * Spec.lhsContribution dim q .dof i j * x j).sum := by
    simp only [list_sum_finset_comm, ← Finset.sum_add_distrib]
    apply Finset.sum_congr rfl; intro i _
    apply Finset.sum_congr rfl; intro j _
    rw [hC i j, List.sum_map_mul_right, List.sum_map_mul_left]
    ring
  rw [split]
  refine add_nonneg (hs x) (List.sum_nonneg ?_)
  intro y hy
  obtain ⟨q, hq, rfl⟩ := List.mem_map.1 hy
  cases hl : q.lhs with
  | none => simp [Spec.lhsContribution, hl]
  | some TA =>
    obtain ⟨T, A⟩ := TA
    obtain ⟨rfl, hsq, hA⟩ := hpsd q hq T A hl
    set l := Spec.slots q.test dim q.cell with hldef
    let z : Spec.Slot → R := fun a => if a.type = .dof ∧ a.idx < N then x a.idx else 0
    have e1 : ∑ i ∈ Finset.range N, ∑ j ∈ Finset.range N, x i * Spec.lhsContribution dim q .dof i j * x j =
        (l.map fun a => (l.map fun b => z a * A.entry a.pos b.pos * z b).sum).sum := by
      have : ∀ i j, x i * Spec.lhsContribution dim q .dof i j * x j =
          (l.map fun a => (l.map fun b => if a.type = .dof ∧ b.type = .dof ∧ a.idx = i ∧ b.idx = j then
            x a.idx * A.entry a.pos b.pos * x b.idx else 0).sum).sum := by
        intro i j
        simp only [Spec.lhsContribution, hl]
        rw [← List.sum_map_mul_left, ← List.sum_map_mul_right]
        congr 1
        apply List.map_congr_left
        intro a _
        rw [← List.sum_map_mul_left, ← List.sum_map_mul_right]
        congr 1
        apply List.map_congr_left
        intro b _
        split
        · rename_i hh
          rw [hh.2.2.1, hh.2.2.2]
        · simp
      simp only [this, ← list_sum_finset_comm]
      congr 1
      apply List.map_congr_left
      intro a _
      congr 1
      apply List.map_congr_left
      intro b _
      by_cases ha : a.type = .dof <;> by_cases hb : b.type = .dof
      · simp only [ha, hb, true_and, ite_and, z]
        by_cases h1 : a.idx < N <;> by_cases h2 : b.idx < N <;> simp [h1, h2]
      all_goals simp [ha, hb, z]
    rw [e1]
    obtain ⟨-, hok2⟩ := hok q hq
    have hz : ∀ a ∈ l, (a.pos < A.rows ∧ a.pos < A.rows) ∨ z a = 0 := by
      intro a ha
      by_cases hd : a.type = .dof
      · left
        have hr := ((hok2 a ha).2 hd).2 _ _ hl
        have := (hr.2 a ha).2.1
        exact ⟨this, this⟩
      · right; simp [z, hd]
    have := hA (fun p => (l.map fun a => if a.pos = p then z a else 0).sum)
    rwa [gather_quad l A.rows A.rows Spec.Slot.pos z A.entry hz] at this

set_option maxRecDepth 8000 in
/-- Symmetric and positive semidefinite local matrices: the matrix of ones. -/
example : ∃ data s', createDOFs 2 exInfo exMesh = .ok data ∧
    assembleAll 2 Sys.empty ([0, 1].map fun c => (⟨c, exFields data, some (exFields data, ⟨10, 10, fun _ _ => 1⟩), none⟩ :
      Call Int)) = .ok s' ∧ Spec.PSD 10 (fun _ _ => (1 : Int)) ∧ Spec.entry s'.lhsDOFs 1 1 = 2 := by
  refine ⟨_, _, rfl, rfl, ?_, by decide⟩
  intro x
  have : ∑ i ∈ Finset.range 10, ∑ j ∈ Finset.range 10, x i * 1 * x j = (∑ i ∈ Finset.range 10, x i) ^ 2 := by
    rw [pow_two, Finset.sum_mul_sum]
    simp
  rw [this]
  positivity

/-! ## C17: adjointness -/

/-- **C17, rows.** Row `i` of `A_DOF u + A_Strong g` is the sum over the calls of the local matrix applied to the local
vector extracted from `(u, g)`, restricted to the free test unknowns with number `i`. `loc q` is the vector returned by the
extraction for the trial fields of the call. -/
theorem C17_residual {R : Type} [CommRing R] (dim : Nat) (qs : List (Call R)) (s' : Sys R)
    (h : assembleAll dim Sys.empty qs = .ok s')
    (hrow : ∀ q ∈ qs, ∀ a ∈ Spec.slots q.test dim q.cell, a.type = .dof → a.idx < 2 ^ 32)
    (u g : List R) (loc : Call R → List R)
    (hloc : ∀ q ∈ qs, ∀ T A, q.lhs = some (T, A) → ∃ lc, localCountDofs dim q.cell T.dofs = .ok lc ∧
      (T.dofs.map fun d => (Spec.cellList d dim q.cell).length).sum < 2 ^ 32 ∧ T.localOffsets = lc.offsets ∧
      T.dofs.length ≤ T.globalOffsetsDOFs.length ∧ T.dofs.length ≤ T.globalOffsetsStrongs.length ∧
      globalToLocal dim q.cell T.dofs lc.total T.localOffsets T.globalOffsetsDOFs T.globalOffsetsStrongs u g =
        .ok (loc q)) (i : Nat) :
    ∑ j ∈ Finset.range u.length, Spec.entry s'.lhsDOFs i j * u.getD j 0 +
      ∑ j ∈ Finset.range g.length, Spec.entry s'.lhsStrongs i j * g.getD j 0 =
    (qs.map fun q => Spec.localResidual dim q (loc q) i).sum := by
  obtain ⟨hD, hS, -⟩ := C14_assembly dim qs Sys.empty s' h hrow
  have h0 : ∀ i j, Spec.entry (Sys.empty : Sys R).lhsDOFs i j = 0 := fun _ _ => rfl
  have h0' : ∀ i j, Spec.entry (Sys.empty : Sys R).lhsStrongs i j = 0 := fun _ _ => rfl
  simp only [hD, hS, h0, h0', zero_add]
  simp only [← List.sum_map_mul_right, ← list_sum_finset_comm]
  rw [← list_sum_add]
  congr 1
  apply List.map_congr_left
  intro q hq
  cases hl : q.lhs with
  | none => simp [Spec.lhsContribution, Spec.localResidual, hl]
  | some TA =>
    obtain ⟨T, A⟩ := TA
    obtain ⟨lc, hlc, hov, f1, f2, f3, hg⟩ := hloc q hq T A hl
    have l1 : T.dofs.length ≤ T.localOffsets.length := by
      obtain ⟨-, -, e⟩ := (localCountDofs_ok_iff dim q.cell T.dofs hov lc).1 hlc
      rw [f1, e]; simp [prefixSums_length]
    have hp := slots_pos hov hlc f1
    obtain ⟨w1, w2⟩ := globalToLocal_values T dim q.cell lc.total u g (loc q) l1 f2 f3 hp hg
    simp only [Spec.lhsContribution, Spec.localResidual, hl, w1]
    simp only [← List.sum_map_mul_right, ← list_sum_finset_comm]
    rw [← list_sum_add]
    congr 1
    apply List.map_congr_left
    intro a _
    rw [← list_sum_add]
    by_cases ha : a.type = .dof ∧ a.idx = i
    · rw [if_pos ha, ← sum_slots_pos hp (fun r => A.entry a.pos r * (loc q).getD r 0)]
      congr 1
      apply List.map_congr_left
      intro b hb
      obtain ⟨⟨r1, r2, r3, r4⟩, hv⟩ := w2 b hb
      have hv' : (loc q).getD b.pos 0 = slotVal u g b := by simp [List.getD, hv]
      rw [hv']
      obtain ⟨ha1, ha2⟩ := ha
      cases hb : b.type with
      | unknwon => exact absurd hb r1
      | strong =>
        have hi := r3 hb
        simp [ha1, ha2, slotVal, hb, hi]
      | dof =>
        have hi := r2 hb
        simp [ha1, ha2, slotVal, hb, hi]
    · rw [if_neg ha]
      apply list_sum_zero
      intro b _
      have : ∀ (t : DType) j, ¬(a.type = .dof ∧ b.type = t ∧ a.idx = i ∧ b.idx = j) := by
        intro t j hh; exact ha ⟨hh.1, hh.2.2.1⟩
      simp [this]

/-- **C17, bilinear form.** `wᵀ A_DOF u` is the sum over the calls of the local bilinear forms on the local vectors
extracted from `(w, 0)` on the test fields and from `(u, 0)` on the trial fields. -/
theorem C17_bilinear {R : Type} [CommRing R] (dim : Nat) (qs : List (Call R)) (s' : Sys R)
    (h : assembleAll dim Sys.empty qs = .ok s')
    (hrow : ∀ q ∈ qs, ∀ a ∈ Spec.slots q.test dim q.cell, a.type = .dof → a.idx < 2 ^ 32)
    (u w : List R) (m n : Nat) (locu locw : Call R → List R)
    (hu : ∀ q ∈ qs, ∀ T A, q.lhs = some (T, A) → ∃ lc, localCountDofs dim q.cell T.dofs = .ok lc ∧
      (T.dofs.map fun d => (Spec.cellList d dim q.cell).length).sum < 2 ^ 32 ∧ T.localOffsets = lc.offsets ∧
      T.dofs.length ≤ T.globalOffsetsDOFs.length ∧ T.dofs.length ≤ T.globalOffsetsStrongs.length ∧
      globalToLocal dim q.cell T.dofs lc.total T.localOffsets T.globalOffsetsDOFs T.globalOffsetsStrongs u
        (List.replicate m 0) = .ok (locu q))
    (hw : ∀ q ∈ qs, ∃ lc, localCountDofs dim q.cell q.test.dofs = .ok lc ∧
      (q.test.dofs.map fun d => (Spec.cellList d dim q.cell).length).sum < 2 ^ 32 ∧ q.test.localOffsets = lc.offsets ∧
      q.test.dofs.length ≤ q.test.globalOffsetsDOFs.length ∧ q.test.dofs.length ≤ q.test.globalOffsetsStrongs.length ∧
      globalToLocal dim q.cell q.test.dofs lc.total q.test.localOffsets q.test.globalOffsetsDOFs
        q.test.globalOffsetsStrongs w (List.replicate n 0) = .ok (locw q)) :
    ∑ i ∈ Finset.range w.length, ∑ j ∈ Finset.range u.length, w.getD i 0 * Spec.entry s'.lhsDOFs i j * u.getD j 0 =
    (qs.map fun q => match q.lhs with
      | none => 0
      | some (_, A) => ∑ p ∈ Finset.range (locw q).length, ∑ r ∈ Finset.range (locu q).length,
          (locw q).getD p 0 * A.entry p r * (locu q).getD r 0).sum := by
  have hR := C17_residual dim qs s' h hrow u (List.replicate m 0) locu hu
  have hz : ∀ j, (List.replicate m (0 : R)).getD j 0 = 0 := by
    intro j; simp only [List.getD, List.getElem?_replicate]; split <;> rfl
  simp only [hz, mul_zero, Finset.sum_const_zero, add_zero] at hR
  simp only [mul_assoc, ← Finset.mul_sum, hR]
  simp only [← List.sum_map_mul_left, ← list_sum_finset_comm]
  congr 1
  apply List.map_congr_left
  intro q hq
  cases hl : q.lhs with
  | none => simp [Spec.localResidual, hl]
  | some TA =>
    obtain ⟨T, A⟩ := TA
    obtain ⟨lc, hlc, hov, f1, f2, f3, hg⟩ := hw q hq
    have l1 : q.test.dofs.length ≤ q.test.localOffsets.length := by
      obtain ⟨-, -, e⟩ := (localCountDofs_ok_iff dim q.cell q.test.dofs hov lc).1 hlc
      rw [f1, e]; simp [prefixSums_length]
    have hp := slots_pos hov hlc f1
    obtain ⟨w1, w2⟩ := globalToLocal_values q.test dim q.cell lc.total w _ (locw q) l1 f2 f3 hp hg
    simp only [Spec.localResidual, hl, w1]
    simp only [← List.sum_map_mul_left, ← list_sum_finset_comm]
    rw [← sum_slots_pos hp (fun p => (locw q).getD p 0 *
      ∑ r ∈ Finset.range (locu q).length, A.entry p r * (locu q).getD r 0)]
    congr 1
    apply List.map_congr_left
    intro a ha
    obtain ⟨⟨r1, r2, r3, r4⟩, hv⟩ := w2 a ha
    have hv' : (locw q).getD a.pos 0 = slotVal w (List.replicate n 0) a := by simp [List.getD, hv]
    rw [hv']
    cases hb : a.type with
    | unknwon => exact absurd hb r1
    | strong =>
      have hz' : slotVal w (List.replicate n 0) a = 0 := by
        simp only [slotVal, hb, if_true, List.getD, List.getElem?_replicate]; split <;> rfl
      rw [hz']; simp
    | dof =>
      have hi := r2 hb
      simp [slotVal, hb, hi]

/-- Example: both cells, `u = (0, 1, …, 8)`-like vector on the 13 free unknowns, strong values `5, 6, 7`. -/
example : ∃ data s' lc v0 v1, createDOFs 2 exInfo exMesh = .ok data ∧
    assembleAll 2 Sys.empty ([0, 1].map fun c => (⟨c, exFields data, some (exFields data, ⟨10, 10, fun i j => (i : Int) - j⟩),
      none⟩ : Call Int)) = .ok s' ∧
    localCountDofs 2 0 [data] = .ok lc ∧ localCountDofs 2 1 [data] = .ok lc ∧ [0] = lc.offsets ∧
    globalToLocal 2 0 [data] lc.total [0] [0] [0] ((List.range 13).map Int.ofNat) [5, 6, 7] = .ok v0 ∧
    globalToLocal 2 1 [data] lc.total [0] [0] [0] ((List.range 13).map Int.ofNat) [5, 6, 7] = .ok v1 ∧
    v0 = [5, 0, 1, 6, 7, 3, 4, 9, 10, 11] ∧ v1 = [5, 1, 2, 9, 10, 5, 6, 7, 8, 12] :=
  ⟨_, _, _, _, _, rfl, rfl, rfl, rfl, rfl, rfl, rfl, rfl, rfl⟩

/-! ## C18: bounds -/

/-- **C18.** With fields created by the DOF manager, offsets from `count_dofs`/`local_count_dofs`, and local matrix and
vector of the local sizes, the assembler call goes through (no exception, no undefined behaviour) and every row and column
handed to the global objects is in range. Test and trial fields may differ. -/
theorem C18_bounds {R : Type} [AddCommMonoid R] (dim cell : Nat) (F T : Fields) (A : LMat R) (b : List R)
    (cdF cdT : CountData) (lcF lcT : LocalCount)
    (hcF : ∀ d ∈ F.dofs, Spec.Created d) (hcT : ∀ d ∈ T.dofs, Spec.Created d)
    (oF1 : (F.dofs.map fun d => d.counters.dofs).sum < 2 ^ 32) (oF2 : (F.dofs.map fun d => d.counters.strongs).sum < 2 ^ 32)
    (oT1 : (T.dofs.map fun d => d.counters.dofs).sum < 2 ^ 32) (oT2 : (T.dofs.map fun d => d.counters.strongs).sum < 2 ^ 32)
    (oF3 : (F.dofs.map fun d => (Spec.cellList d dim cell).length).sum < 2 ^ 32)
    (oT3 : (T.dofs.map fun d => (Spec.cellList d dim cell).length).sum < 2 ^ 32)
    (hcdF : countDofs (F.dofs.map DOFsData.counters) = .ok cdF) (hcdT : countDofs (T.dofs.map DOFsData.counters) = .ok cdT)
    (hlcF : localCountDofs dim cell F.dofs = .ok lcF) (hlcT : localCountDofs dim cell T.dofs = .ok lcT)
    (f1 : F.localOffsets = lcF.offsets) (f2 : F.globalOffsetsDOFs = cdF.offsetsDOFs)
    (f3 : F.globalOffsetsStrongs = cdF.offsetsStrongs)
    (t1 : T.localOffsets = lcT.offsets) (t2 : T.globalOffsetsDOFs = cdT.offsetsDOFs)
    (t3 : T.globalOffsetsStrongs = cdT.offsetsStrongs)
    (hA : A.rows = lcF.total ∧ A.cols = lcT.total) (hb : b.length = lcF.total) :
    ∃ s, assembleCell dim cell F (some (T, A)) (some b) = .ok s ∧
      (∀ t ∈ s.lhsDOFs, t.1 < cdF.totalDOFs ∧ t.2.1 < cdT.totalDOFs) ∧
      (∀ t ∈ s.lhsStrongs, t.1 < cdF.totalDOFs ∧ t.2.1 < cdT.totalStrong) ∧
      (∀ t ∈ s.rhs, t.1 < cdF.totalDOFs) := by
  have neF := ((localCountDofs_ok_iff dim cell F.dofs oF3 lcF).1 hlcF).1
  have neT := ((localCountDofs_ok_iff dim cell T.dofs oT3 lcT).1 hlcT).1
  obtain ⟨⟨vF, vF1, vF2, -⟩, bF⟩ := slots_bounds F dim cell neF hcF oF1 oF2 oF3 hcdF hlcF f1 f2 f3
  obtain ⟨vT, bT⟩ := slots_bounds T dim cell neT hcT oT1 oT2 oT3 hcdT hlcT t1 t2 t3
  refine ⟨_, (assembleCell_ok_iff dim cell F _ _ _).2 ⟨⟨vF, vF1, vF2⟩, ?_, rfl⟩, ?_⟩
  · intro a ha
    obtain ⟨b1, b2, -⟩ := bF a ha
    refine ⟨b1, fun _ => ⟨?_, ?_⟩⟩
    · intro v hv
      rw [Option.some.injEq] at hv
      subst hv
      rw [hb]; exact b2
    · intro T' A' he
      rw [Option.some.injEq, Prod.mk.injEq] at he
      obtain ⟨rfl, rfl⟩ := he
      refine ⟨vT, fun t ht => ?_⟩
      obtain ⟨c1, c2, -⟩ := bT t ht
      exact ⟨c1, by rw [hA.1]; exact b2, by rw [hA.2]; exact c2⟩
  · have hu : ∀ a ∈ Spec.slots F dim cell, a.type = .dof → u32 a.idx < cdF.totalDOFs := by
      intro a ha hd
      exact Nat.lt_of_le_of_lt (Nat.mod_le _ _) ((bF a ha).2.2.1 hd)
    refine ⟨?_, ?_, ?_⟩
    · intro t ht
      simp only [rowsSys, List.mem_flatMap] at ht
      obtain ⟨a, ha, hta⟩ := ht
      by_cases hd : a.type = .dof
      · simp only [rowSys, hd, if_true, rowD, List.mem_filterMap] at hta
        obtain ⟨y, hy, hty⟩ := hta
        by_cases hyd : y.type = .dof
        · simp only [dofT, hyd, if_true, Option.some.injEq] at hty
          subst hty
          exact ⟨hu a ha hd, (bT y hy).2.2.1 hyd⟩
        · simp [dofT, hyd] at hty
      · simp [rowSys, hd, Sys.empty] at hta
    · intro t ht
      simp only [rowsSys, List.mem_flatMap] at ht
      obtain ⟨a, ha, hta⟩ := ht
      by_cases hd : a.type = .dof
      · simp only [rowSys, hd, if_true, rowS, List.mem_filterMap] at hta
        obtain ⟨y, hy, hty⟩ := hta
        by_cases hyd : y.type = .strong
        · simp only [strongT, hyd, if_true, Option.some.injEq] at hty
          subst hty
          exact ⟨hu a ha hd, (bT y hy).2.2.2 hyd⟩
        · simp [strongT, hyd] at hty
      · simp [rowSys, hd, Sys.empty] at hta
    · intro t ht
      simp only [rowsSys, List.mem_flatMap] at ht
      obtain ⟨a, ha, hta⟩ := ht
      by_cases hd : a.type = .dof
      · simp only [rowSys, hd, if_true, rowR, List.mem_singleton] at hta
        subst hta
        exact hu a ha hd
      · simp [rowSys, hd, Sys.empty] at hta

example : ∃ data cd lc, createDOFs 2 exInfo exMesh = .ok data ∧ Spec.totalRequested exInfo 2 < 2 ^ 32 ∧
    countDofs ([data, data].map DOFsData.counters) = .ok cd ∧ localCountDofs 2 1 [data, data] = .ok lc ∧
    cd = ⟨8, 26, 6, [0, 13], [0, 3]⟩ ∧ lc = ⟨20, [0, 10]⟩ ∧
    (assembleCell 2 1 ⟨[data, data], lc.offsets, cd.offsetsDOFs, cd.offsetsStrongs⟩
      (some (⟨[data, data], lc.offsets, cd.offsetsDOFs, cd.offsetsStrongs⟩, ⟨20, 20, fun i j => i * j⟩))
      (some (List.range 20))).toOption.isSome = true :=
  ⟨_, _, _, rfl, by decide, rfl, rfl, rfl, rfl, by decide⟩

end PolyDiM
