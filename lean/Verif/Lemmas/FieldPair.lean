import Verif.Lemmas.FieldDofs

/-!
# Lemmas: assembly of a system with two fields
-/

namespace PolyDiM

open Spec

variable {num0 num1 : Nat → Nat} {mesh : Mesh} {info0 info1 : MeshInfo} {d0 d1 : DOFsData}

/-- The fields of the assembly, for a cell with `n0` DOFs of the first field. -/
def pairFields (d0 d1 : DOFsData) (n0 : Nat) : Fields := ⟨[d0, d1], [0, n0], [0, d0.counters.dofs], [0, d0.counters.strongs]⟩

/-- The handlers of two fields, with totals that fit. -/
structure Pair (num0 num1 : Nat → Nat) (mesh : Mesh) (info0 info1 : MeshInfo) (d0 d1 : DOFsData) : Prop where
  first : FHandler num0 mesh info0 d0
  second : FHandler num1 mesh info1 d1
  dofs : d0.counters.dofs + d1.counters.dofs < 2 ^ 32
  strongs : d0.counters.strongs + d1.counters.strongs < 2 ^ 32

/-- The test function of row `i` of the system on a field whose free DOFs are numbered from `off` on. -/
noncomputable def rowShift (data : DOFsData) (off i : Nat) (r : GDOF) : ℝ := if off ≤ i ∧ lookup data r = some ⟨.dof, i - off⟩ then 1 else 0

/-- The slot of a reference, explicitly. -/
theorem slot_at {data : DOFsData} {r : GDOF} {x : DOF} (hx : lookup data r = some x) (ht : x.type ≠ .unknwon) (oD oS p : Nat) :
    slot data oD oS p r = ⟨p, x.type, x.globalIndex + if x.type = .dof then oD else oS⟩ := by
  rw [slot_of_lookup hx]
  obtain ⟨t, i⟩ := x
  cases t <;> simp_all [slotOf]

namespace Pair

theorem slots_eq (H : Pair num0 num1 mesh info0 info1 d0 d1) {c : Nat} (hc : c < (mesh.markers 2).length) (n0 : Nat) :
    slots (pairFields d0 d1 n0) 2 c = ((fieldList num0 mesh c).zipIdx.map fun rk => slot d0 0 0 rk.2 rk.1) ++
      (fieldList num1 mesh c).zipIdx.map fun rk => slot d1 d0.counters.dofs d0.counters.strongs (n0 + rk.2) rk.1 := by
  simp [slots, pairFields, fieldSlots, H.first.list c hc, H.second.list c hc]

theorem slots_pos (H : Pair num0 num1 mesh info0 info1 d0 d1) {c : Nat} (hc : c < (mesh.markers 2).length) :
    (slots (pairFields d0 d1 (fieldList num0 mesh c).length) 2 c).map Slot.pos = List.range ((fieldList num0 mesh c).length + (fieldList num1 mesh c).length) := by
  rw [H.slots_eq hc, List.map_append, List.map_map, List.map_map]
  have e1 : (Slot.pos ∘ fun rk : GDOF × Nat => slot d0 0 0 rk.2 rk.1) = Prod.snd := funext fun rk => slot_pos _ _ _ _ _
  have e2 : (Slot.pos ∘ fun rk : GDOF × Nat => slot d1 d0.counters.dofs d0.counters.strongs ((fieldList num0 mesh c).length + rk.2) rk.1)
      = (fun j => (fieldList num0 mesh c).length + j) ∘ Prod.snd := funext fun rk => slot_pos _ _ _ _ _
  rw [e1, e2, ← List.map_map, List.zipIdx_map_snd, List.zipIdx_map_snd, ← List.range_eq_range', ← List.range_eq_range', ← List.range_add]

/-- A slot belongs to the first or the second field. -/
theorem mem_slots (H : Pair num0 num1 mesh info0 info1 d0 d1) {c : Nat} (hc : c < (mesh.markers 2).length) {a : Slot}
    (ha : a ∈ slots (pairFields d0 d1 (fieldList num0 mesh c).length) 2 c) :
    (∃ r x, (fieldList num0 mesh c)[a.pos]? = Option.some r ∧ lookup d0 r = some x ∧ x.type ≠ .unknwon ∧ a.type = x.type ∧ a.idx = x.globalIndex) ∨
    ∃ p r x, a.pos = (fieldList num0 mesh c).length + p ∧ (fieldList num1 mesh c)[p]? = Option.some r ∧ lookup d1 r = some x ∧ x.type ≠ .unknwon ∧
      a.type = x.type ∧ a.idx = x.globalIndex + if x.type = .dof then d0.counters.dofs else d0.counters.strongs := by
  rw [H.slots_eq hc, List.mem_append] at ha
  rcases ha with ha | ha
  · left
    obtain ⟨⟨r, j⟩, hr, rfl⟩ := List.mem_map.1 ha
    rw [List.mem_zipIdx_iff_getElem?] at hr
    obtain ⟨x, hx, ht⟩ := H.first.lookup_list hc (List.mem_of_getElem? hr)
    rw [slot_at hx ht]
    exact ⟨r, x, hr, hx, ht, rfl, by simp⟩
  · right
    obtain ⟨⟨r, j⟩, hr, rfl⟩ := List.mem_map.1 ha
    rw [List.mem_zipIdx_iff_getElem?] at hr
    obtain ⟨x, hx, ht⟩ := H.second.lookup_list hc (List.mem_of_getElem? hr)
    rw [slot_at hx ht]
    exact ⟨j, r, x, rfl, hr, hx, ht, rfl, rfl⟩

theorem pos_lt (H : Pair num0 num1 mesh info0 info1 d0 d1) {c : Nat} (hc : c < (mesh.markers 2).length) {a : Slot}
    (ha : a ∈ slots (pairFields d0 d1 (fieldList num0 mesh c).length) 2 c) : a.pos < (fieldList num0 mesh c).length + (fieldList num1 mesh c).length := by
  rw [← List.mem_range, ← H.slots_pos hc]
  exact List.mem_map.2 ⟨a, ha, rfl⟩

theorem known (H : Pair num0 num1 mesh info0 info1 d0 d1) {c : Nat} (hc : c < (mesh.markers 2).length) {a : Slot}
    (ha : a ∈ slots (pairFields d0 d1 (fieldList num0 mesh c).length) 2 c) : a.type ≠ .unknwon := by
  rcases H.mem_slots hc ha with ⟨r, x, -, -, ht, he, -⟩ | ⟨p, r, x, -, -, -, ht, he, -⟩ <;> rw [he] <;> exact ht

theorem idx_free (H : Pair num0 num1 mesh info0 info1 d0 d1) {c : Nat} (hc : c < (mesh.markers 2).length) {a : Slot}
    (ha : a ∈ slots (pairFields d0 d1 (fieldList num0 mesh c).length) 2 c) (hd : a.type = .dof) : a.idx < d0.counters.dofs + d1.counters.dofs := by
  rcases H.mem_slots hc ha with ⟨r, x, -, hx, ht, he, hi⟩ | ⟨p, r, x, -, -, hx, ht, he, hi⟩
  · have := H.first.free r x.globalIndex (by rw [hx, ← hd, he])
    omega
  · have := H.second.free r x.globalIndex (by rw [hx, ← hd, he])
    rw [hi, if_pos (by rw [← he, hd])]
    omega

theorem idx_strong (H : Pair num0 num1 mesh info0 info1 d0 d1) {c : Nat} (hc : c < (mesh.markers 2).length) {a : Slot}
    (ha : a ∈ slots (pairFields d0 d1 (fieldList num0 mesh c).length) 2 c) (hd : a.type = .strong) :
    a.idx < d0.counters.strongs + d1.counters.strongs := by
  rcases H.mem_slots hc ha with ⟨r, x, -, hx, ht, he, hi⟩ | ⟨p, r, x, -, -, hx, ht, he, hi⟩
  · have := H.first.strong r x.globalIndex (by rw [hx, ← hd, he])
    omega
  · have := H.second.strong r x.globalIndex (by rw [hx, ← hd, he])
    rw [hi, if_neg (by rw [← he, hd]; simp)]
    omega

theorem size_first (H : Pair num0 num1 mesh info0 info1 d0 d1) {c : Nat} (hc : c < (mesh.markers 2).length) :
    localSize 2 c d0 = .ok (fieldList num0 mesh c).length := by
  obtain ⟨g, hg⟩ := Option.isSome_iff_exists.1 (H.first.exist c hc)
  have hl : g.gdofs = fieldList num0 mesh c := by rw [← H.first.list c hc, cellList, hg]; rfl
  have h1 : atIdx (d0.dims 2).globals c = .ok g := by
    have : (d0.dims 2).globals[c]? = Option.some g := hg
    simp [atIdx, this]
  rw [localSize, h1, except_ok_bind, hl]

theorem size_second (H : Pair num0 num1 mesh info0 info1 d0 d1) {c : Nat} (hc : c < (mesh.markers 2).length) :
    localSize 2 c d1 = .ok (fieldList num1 mesh c).length := by
  obtain ⟨g, hg⟩ := Option.isSome_iff_exists.1 (H.second.exist c hc)
  have hl : g.gdofs = fieldList num1 mesh c := by rw [← H.second.list c hc, cellList, hg]; rfl
  have h1 : atIdx (d1.dims 2).globals c = .ok g := by
    have : (d1.dims 2).globals[c]? = Option.some g := hg
    simp [atIdx, this]
  rw [localSize, h1, except_ok_bind, hl]

theorem local_count (H : Pair num0 num1 mesh info0 info1 d0 d1) {c : Nat} (hc : c < (mesh.markers 2).length)
    (hs : (fieldList num0 mesh c).length + (fieldList num1 mesh c).length < 2 ^ 32) :
    localCountDofs 2 c [d0, d1] = .ok ⟨(fieldList num0 mesh c).length + (fieldList num1 mesh c).length, [0, (fieldList num0 mesh c).length]⟩ := by
  show (do let n ← localSize 2 c d0; localCountLoop 2 c ⟨n, [0]⟩ d0 [d1]) = _
  rw [H.size_first hc, except_ok_bind]
  unfold localCountLoop
  rw [H.size_second hc, except_ok_bind, H.size_first hc, except_ok_bind]
  unfold localCountLoop
  simp only [u32]
  rw [Nat.mod_eq_of_lt (by omega)]
  simp

theorem count (H : Pair num0 num1 mesh info0 info1 d0 d1) :
    ∃ b, countDofs [d0.counters, d1.counters] = .ok ⟨b, d0.counters.dofs + d1.counters.dofs, d0.counters.strongs + d1.counters.strongs, [0, d0.counters.dofs],
      [0, d0.counters.strongs]⟩ := by
  have h1 := H.dofs
  have h2 := H.strongs
  refine ⟨u32 (d0.counters.boundary + d1.counters.boundary), ?_⟩
  simp only [countDofs, countLoop, u32]
  rw [Nat.mod_eq_of_lt (by omega : d0.counters.dofs + d1.counters.dofs < 4294967296), Nat.mod_eq_of_lt (by omega : d0.counters.strongs + d1.counters.strongs < 4294967296)]
  simp

/-- The local vector of a cell. -/
theorem local_values (H : Pair num0 num1 mesh info0 info1 d0 d1) {c : Nat} (hc : c < (mesh.markers 2).length) {free strong : List ℝ}
    (hf : free.length = d0.counters.dofs + d1.counters.dofs) (hs : strong.length = d0.counters.strongs + d1.counters.strongs) :
    ∃ y, globalToLocal 2 c [d0, d1] ((fieldList num0 mesh c).length + (fieldList num1 mesh c).length) [0, (fieldList num0 mesh c).length] [0, d0.counters.dofs]
        [0, d0.counters.strongs] free strong = .ok y ∧ y.length = (fieldList num0 mesh c).length + (fieldList num1 mesh c).length ∧
      (∀ j r, (fieldList num0 mesh c)[j]? = Option.some r → y.getD j 0 = valueOf d0 free strong r) ∧
      ∀ j r, (fieldList num1 mesh c)[j]? = Option.some r → y.getD ((fieldList num0 mesh c).length + j) 0
        = valueOf d1 (free.drop d0.counters.dofs) (strong.drop d0.counters.strongs) r := by
  have hp := H.slots_pos hc
  have hread : ∀ a ∈ slots (pairFields d0 d1 (fieldList num0 mesh c).length) 2 c, ReadOK free strong ((fieldList num0 mesh c).length + (fieldList num1 mesh c).length) a :=
    fun a ha => ⟨H.known hc ha, fun h => by rw [hf]; exact H.idx_free hc ha h, fun h => by rw [hs]; exact H.idx_strong hc ha h, H.pos_lt hc ha⟩
  have hok := (globalToLocal_ok_iff (pairFields d0 d1 (fieldList num0 mesh c).length) 2 c _ free strong _ le_rfl le_rfl le_rfl).2
    ⟨by simpa [pairFields] using ⟨H.first.exist c hc, H.second.exist c hc⟩, hread, rfl⟩
  obtain ⟨hl, hv⟩ := globalToLocal_values (pairFields d0 d1 (fieldList num0 mesh c).length) 2 c _ free strong _ le_rfl le_rfl le_rfl hp hok
  refine ⟨_, hok, hl, fun j r hr => ?_, fun j r hr => ?_⟩
  · have hmem : slot d0 0 0 j r ∈ slots (pairFields d0 d1 (fieldList num0 mesh c).length) 2 c := by
      rw [H.slots_eq hc]
      exact List.mem_append_left _ (List.mem_map.2 ⟨(r, j), List.mem_zipIdx_iff_getElem?.2 hr, rfl⟩)
    obtain ⟨-, h2⟩ := hv _ hmem
    rw [slot_pos] at h2
    rw [List.getD_eq_getElem?_getD, h2, Option.getD_some]
    obtain ⟨x, hx, ht⟩ := H.first.lookup_list hc (List.mem_of_getElem? hr)
    rw [slot_at hx ht, valueOf, hx]
    obtain ⟨t, i⟩ := x
    cases t <;> simp_all [slotVal]
  · have hmem : slot d1 d0.counters.dofs d0.counters.strongs ((fieldList num0 mesh c).length + j) r ∈ slots (pairFields d0 d1 (fieldList num0 mesh c).length) 2 c := by
      rw [H.slots_eq hc]
      exact List.mem_append_right _ (List.mem_map.2 ⟨(r, j), List.mem_zipIdx_iff_getElem?.2 hr, rfl⟩)
    obtain ⟨-, h2⟩ := hv _ hmem
    rw [slot_pos] at h2
    rw [List.getD_eq_getElem?_getD, h2, Option.getD_some]
    obtain ⟨x, hx, ht⟩ := H.second.lookup_list hc (List.mem_of_getElem? hr)
    rw [slot_at hx ht, valueOf, hx]
    obtain ⟨t, i⟩ := x
    cases t <;> simp_all [slotVal, add_comm]

theorem slots_sum (H : Pair num0 num1 mesh info0 info1 d0 d1) {c : Nat} (hc : c < (mesh.markers 2).length) (i : Nat) (f : Nat → ℝ) :
    ((slots (pairFields d0 d1 (fieldList num0 mesh c).length) 2 c).map fun a => if a.type = .dof ∧ a.idx = i then f a.pos else 0).sum
      = ∑ j ∈ Finset.range (fieldList num0 mesh c).length, onList (fieldList num0 mesh c) (rowShift d0 0 i) j * f j
        + ∑ j ∈ Finset.range (fieldList num1 mesh c).length, onList (fieldList num1 mesh c) (rowShift d1 d0.counters.dofs i) j * f ((fieldList num0 mesh c).length + j) := by
  rw [H.slots_eq hc, List.map_append, List.sum_append, List.map_map, List.map_map]
  have key : ∀ (l : List GDOF) (F : Nat → GDOF → ℝ), ((l.zipIdx.map fun rk : GDOF × Nat => F rk.2 rk.1)).sum
      = ∑ j ∈ Finset.range l.length, (l[j]?).elim 0 (F j) := by
    intro l F
    rw [Finset.sum_range, ← List.sum_ofFn]
    congr 1
    apply List.ext_getElem
    · simp
    · intro j h1 h2
      have hj : j < l.length := by simpa using h1
      simp
  have e1 := key (fieldList num0 mesh c) fun j r => if (slot d0 0 0 j r).type = .dof ∧ (slot d0 0 0 j r).idx = i then f j else 0
  have e2 := key (fieldList num1 mesh c) fun j r => if (slot d1 d0.counters.dofs d0.counters.strongs ((fieldList num0 mesh c).length + j) r).type = .dof ∧
    (slot d1 d0.counters.dofs d0.counters.strongs ((fieldList num0 mesh c).length + j) r).idx = i then f ((fieldList num0 mesh c).length + j) else 0
  refine congrArg₂ (· + ·) ?_ ?_
  · refine Eq.trans ?_ (e1.trans (Finset.sum_congr rfl fun j hj => ?_))
    · congr 1
      refine List.map_congr_left fun rk _ => ?_
      simp only [Function.comp, slot_pos]
    · have hr := List.getElem?_eq_getElem (Finset.mem_range.1 hj)
      rw [onList, hr, Option.elim_some, Option.elim_some]
      obtain ⟨x, hx, ht⟩ := H.first.lookup_list hc (List.mem_of_getElem? hr)
      rw [slot_at hx ht, rowShift, hx]
      obtain ⟨t, g⟩ := x
      simp only [Option.some.injEq, DOF.mk.injEq, Nat.zero_le, true_and, Nat.sub_zero, ite_self, Nat.add_zero]
      split_ifs <;> simp
  · refine Eq.trans ?_ (e2.trans (Finset.sum_congr rfl fun j hj => ?_))
    · congr 1
      refine List.map_congr_left fun rk _ => ?_
      simp only [Function.comp, slot_pos]
    · have hr := List.getElem?_eq_getElem (Finset.mem_range.1 hj)
      rw [onList, hr, Option.elim_some, Option.elim_some]
      obtain ⟨x, hx, ht⟩ := H.second.lookup_list hc (List.mem_of_getElem? hr)
      rw [slot_at hx ht, rowShift, hx]
      obtain ⟨t, g⟩ := x
      simp only [Option.some.injEq, DOF.mk.injEq]
      have : (t = DType.dof ∧ (g + if t = .dof then d0.counters.dofs else d0.counters.strongs) = i) ↔ (d0.counters.dofs ≤ i ∧ t = .dof ∧ g = i - d0.counters.dofs) := by
        constructor
        · rintro ⟨rfl, h⟩
          rw [if_pos rfl] at h
          exact ⟨by omega, rfl, by omega⟩
        · rintro ⟨h1, rfl, h2⟩
          rw [if_pos rfl]
          exact ⟨rfl, by omega⟩
      simp only [this]
      split_ifs <;> simp

/-- The local vector of a cell: the DOFs of the first field, then those of the second. -/
noncomputable def pairValues (num0 num1 : Nat → Nat) (mesh : Mesh) (d0 d1 : DOFsData) (free strong : List ℝ) (c j : Nat) : ℝ :=
  if j < (fieldList num0 mesh c).length then onList (fieldList num0 mesh c) (valueOf d0 free strong) j
  else onList (fieldList num1 mesh c) (valueOf d1 (free.drop d0.counters.dofs) (strong.drop d0.counters.strongs)) (j - (fieldList num0 mesh c).length)

/-- The matrices and vectors of the cells assembled. -/
theorem assemble (H : Pair num0 num1 mesh info0 info1 d0 d1) (cells : List Nat) (hcells : ∀ c ∈ cells, c < (mesh.markers 2).length)
    (hsmall : ∀ c ∈ cells, (fieldList num0 mesh c).length + (fieldList num1 mesh c).length < 2 ^ 32) (A : Nat → DMat ℝ) (b : Nat → List ℝ)
    (hA : ∀ c ∈ cells, (A c).rows = (fieldList num0 mesh c).length + (fieldList num1 mesh c).length ∧
      (A c).cols = (fieldList num0 mesh c).length + (fieldList num1 mesh c).length)
    (hb : ∀ c ∈ cells, (b c).length = (fieldList num0 mesh c).length + (fieldList num1 mesh c).length) :
    ∃ S, assembleAll 2 .empty (cells.map fun c => (⟨c, pairFields d0 d1 (fieldList num0 mesh c).length,
        some (pairFields d0 d1 (fieldList num0 mesh c).length, (A c).toLMat), some (b c)⟩ : Call ℝ)) = .ok S ∧
      (∀ free strong : List ℝ, free.length = d0.counters.dofs + d1.counters.dofs → strong.length = d0.counters.strongs + d1.counters.strongs → ∀ i,
        ∑ j ∈ Finset.range free.length, entry S.lhsDOFs i j * free.getD j 0 + ∑ j ∈ Finset.range strong.length, entry S.lhsStrongs i j * strong.getD j 0
          = (cells.map fun c => ∑ j ∈ Finset.range (fieldList num0 mesh c).length,
                onList (fieldList num0 mesh c) (rowShift d0 0 i) j * apply (A c) (pairValues num0 num1 mesh d0 d1 free strong c) j
              + ∑ j ∈ Finset.range (fieldList num1 mesh c).length, onList (fieldList num1 mesh c) (rowShift d1 d0.counters.dofs i) j *
                apply (A c) (pairValues num0 num1 mesh d0 d1 free strong c) ((fieldList num0 mesh c).length + j)).sum) ∧
      ∀ i, ventry S.rhs i = (cells.map fun c => ∑ j ∈ Finset.range (fieldList num0 mesh c).length,
                onList (fieldList num0 mesh c) (rowShift d0 0 i) j * (b c).getD j 0
              + ∑ j ∈ Finset.range (fieldList num1 mesh c).length, onList (fieldList num1 mesh c) (rowShift d1 d0.counters.dofs i) j *
                (b c).getD ((fieldList num0 mesh c).length + j) 0).sum := by
  have hvalid : ∀ c ∈ cells, (∀ d ∈ [d0, d1], (globalsAt d 2 c).isSome) := fun c hc => by
    simpa using ⟨H.first.exist c (hcells c hc), H.second.exist c (hcells c hc)⟩
  obtain ⟨S, hok⟩ : ∃ S, assembleAll 2 .empty (cells.map fun c => (⟨c, pairFields d0 d1 (fieldList num0 mesh c).length,
      some (pairFields d0 d1 (fieldList num0 mesh c).length, (A c).toLMat), some (b c)⟩ : Call ℝ)) = .ok S := by
    refine ⟨_, (assembleAll_iff 2 _ _ _).2 ⟨?_, rfl⟩⟩
    intro q hq
    obtain ⟨c, hc, rfl⟩ := List.mem_map.1 hq
    refine ⟨⟨hvalid c hc, le_rfl, le_rfl⟩, fun a ha => ?_⟩
    refine ⟨H.known (hcells c hc) ha, fun _ => ⟨fun v hv => ?_, fun T B hTB => ?_⟩⟩
    · simp only [Option.some.injEq] at hv
      rw [← hv, hb c hc]
      exact H.pos_lt (hcells c hc) ha
    · simp only [Option.some.injEq, Prod.mk.injEq] at hTB
      obtain ⟨rfl, rfl⟩ := hTB
      refine ⟨⟨hvalid c hc, le_rfl, le_rfl, le_rfl⟩, fun t ht' => ⟨H.known (hcells c hc) ht', ?_, ?_⟩⟩
      · show a.pos < (A c).rows
        rw [(hA c hc).1]; exact H.pos_lt (hcells c hc) ha
      · show t.pos < (A c).cols
        rw [(hA c hc).2]; exact H.pos_lt (hcells c hc) ht'
  have hrow : ∀ q ∈ (cells.map fun c => (⟨c, pairFields d0 d1 (fieldList num0 mesh c).length,
      some (pairFields d0 d1 (fieldList num0 mesh c).length, (A c).toLMat), some (b c)⟩ : Call ℝ)),
      ∀ a ∈ Spec.slots q.test 2 q.cell, a.type = .dof → a.idx < 2 ^ 32 := by
    intro q hq a ha hdof
    obtain ⟨c, hc, rfl⟩ := List.mem_map.1 hq
    exact (H.idx_free (hcells c hc) ha hdof).trans H.dofs
  refine ⟨S, hok, fun free strong hf hs i => ?_, fun i => ?_⟩
  · choose! y hy hyl hy0 hy1 using fun (c : Nat) (hc : c ∈ cells) => H.local_values (hcells c hc) hf hs
    rw [C17_residual 2 _ _ hok hrow free strong (fun q => y q.cell) ?_ i]
    · rw [List.map_map]
      congr 1
      refine List.map_congr_left fun c hc => ?_
      simp only [Function.comp, localResidual]
      rw [H.slots_sum (hcells c hc) i fun p => ∑ r ∈ Finset.range (y c).length, (A c).toLMat.entry p r * (y c).getD r 0]
      have e : ∀ p, ∑ r ∈ Finset.range (y c).length, (A c).toLMat.entry p r * (y c).getD r 0 = apply (A c) (pairValues num0 num1 mesh d0 d1 free strong c) p := by
        intro p
        rw [apply, (hA c hc).2, hyl c hc]
        refine Finset.sum_congr rfl fun r hr => ?_
        have hr := Finset.mem_range.1 hr
        congr 1
        unfold pairValues
        split_ifs with h
        · have hr' := List.getElem?_eq_getElem h
          rw [onList, hr', Option.elim_some, hy0 c hc r _ hr']
        · have hr' := List.getElem?_eq_getElem (show r - (fieldList num0 mesh c).length < (fieldList num1 mesh c).length by omega)
          rw [onList, hr', Option.elim_some, ← hy1 c hc _ _ hr', Nat.add_sub_cancel' (by omega)]
      simp only [e]
    · intro q hq T B hTB
      obtain ⟨c, hc, rfl⟩ := List.mem_map.1 hq
      simp only [Option.some.injEq, Prod.mk.injEq] at hTB
      obtain ⟨rfl, rfl⟩ := hTB
      refine ⟨_, H.local_count (hcells c hc) (hsmall c hc), ?_, rfl, le_rfl, le_rfl, hy c hc⟩
      simpa [pairFields, H.first.list c (hcells c hc), H.second.list c (hcells c hc)] using hsmall c hc
  · rw [(C14_assembly 2 _ _ _ hok hrow).2.2 i, List.map_map, show ventry (Sys.empty : Sys ℝ).rhs i = 0 from rfl, zero_add]
    congr 1
    refine List.map_congr_left fun c hc => ?_
    simp only [Function.comp, rhsContribution]
    rw [H.slots_sum (hcells c hc) i fun p => (b c).getD p 0]

end Pair

end PolyDiM
