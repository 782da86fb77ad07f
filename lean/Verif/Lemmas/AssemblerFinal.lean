import Verif.Lemmas.AssemblerSum
import Verif.Props.DOFs
import Mathlib.Tactic.Ring
import Mathlib.Tactic.Linarith

/-! Helper lemmas for the assembler theorems. -/

namespace PolyDiM

variable {R : Type}

/-- Local weights gathered on positions, summed against a function of the position. -/
theorem gather_sum [Semiring R] {α : Type} (l : List α) (n : Nat) (pos : α → Nat) (z : α → R) (G : Nat → R)
    (h : ∀ a ∈ l, pos a < n ∨ z a = 0) :
    ∑ p ∈ Finset.range n, (l.map fun a => if pos a = p then z a else 0).sum * G p =
      (l.map fun a => z a * G (pos a)).sum := by
  induction l with
  | nil => simp
  | cons a l ih =>
    rw [List.forall_mem_cons] at h
    simp only [List.map_cons, List.sum_cons, add_mul, Finset.sum_add_distrib, ih h.2]
    congr 1
    simp only [ite_mul, zero_mul]
    rw [Finset.sum_ite_eq]
    rcases h.1 with h1 | h1
    · simp [h1]
    · simp [h1]

theorem gather_sum' [Semiring R] {α : Type} (l : List α) (n : Nat) (pos : α → Nat) (z : α → R) (G : Nat → R)
    (h : ∀ a ∈ l, pos a < n ∨ z a = 0) :
    ∑ p ∈ Finset.range n, G p * (l.map fun a => if pos a = p then z a else 0).sum =
      (l.map fun a => G (pos a) * z a).sum := by
  induction l with
  | nil => simp
  | cons a l ih =>
    rw [List.forall_mem_cons] at h
    simp only [List.map_cons, List.sum_cons, mul_add, Finset.sum_add_distrib, ih h.2]
    congr 1
    simp only [mul_ite, mul_zero]
    rw [Finset.sum_ite_eq]
    rcases h.1 with h1 | h1
    · simp [h1]
    · simp [h1]

/-- The quadratic form of a gathered vector. -/
theorem gather_quad [CommRing R] {α : Type} (l : List α) (n m : Nat) (pos : α → Nat) (z : α → R) (M : Nat → Nat → R)
    (h : ∀ a ∈ l, (pos a < n ∧ pos a < m) ∨ z a = 0) :
    ∑ p ∈ Finset.range n, ∑ r ∈ Finset.range m, (l.map fun a => if pos a = p then z a else 0).sum * M p r *
        (l.map fun a => if pos a = r then z a else 0).sum =
      (l.map fun a => (l.map fun b => z a * M (pos a) (pos b) * z b).sum).sum := by
  have h1 : ∀ a ∈ l, pos a < n ∨ z a = 0 := fun a ha => (h a ha).imp And.left id
  have h2 : ∀ a ∈ l, pos a < m ∨ z a = 0 := fun a ha => (h a ha).imp And.right id
  have : ∀ p, ∑ r ∈ Finset.range m, (l.map fun a => if pos a = p then z a else 0).sum * M p r *
      (l.map fun a => if pos a = r then z a else 0).sum =
      (l.map fun a => if pos a = p then z a else 0).sum * (l.map fun b => M p (pos b) * z b).sum := by
    intro p
    rw [← gather_sum' l m pos z (M p) h2, Finset.mul_sum]
    simp only [mul_assoc]
  simp only [this]
  rw [gather_sum l n pos z (fun p => (l.map fun b => M p (pos b) * z b).sum) h1]
  congr 1
  apply List.map_congr_left
  intro a _
  rw [← List.sum_map_mul_left]
  simp only [mul_assoc]

theorem sum_slots_pos [AddCommMonoid R] {l : List Spec.Slot} {n : Nat} (hl : l.map Spec.Slot.pos = List.range n)
    (f : Nat → R) : (l.map fun a => f a.pos).sum = ∑ p ∈ Finset.range n, f p := by
  rw [← list_sum_range, ← hl, List.map_map]
  rfl

theorem globalToLocal_values [Zero R] (F : Fields) (dim cell n : Nat) (solD solS w : List R)
    (l1 : F.dofs.length ≤ F.localOffsets.length) (l2 : F.dofs.length ≤ F.globalOffsetsDOFs.length)
    (l3 : F.dofs.length ≤ F.globalOffsetsStrongs.length)
    (hp : (Spec.slots F dim cell).map Spec.Slot.pos = List.range n)
    (h : globalToLocal dim cell F.dofs n F.localOffsets F.globalOffsetsDOFs F.globalOffsetsStrongs solD solS = .ok w) :
    w.length = n ∧ (∀ a ∈ Spec.slots F dim cell, ReadOK solD solS n a ∧ w[a.pos]? = some (slotVal solD solS a)) := by
  obtain ⟨h1, h2, rfl⟩ := (globalToLocal_ok_iff F dim cell n solD solS w l1 l2 l3).1 h
  refine ⟨by rw [foldl_set_length, List.length_replicate], fun a ha => ⟨h2 a ha, ?_⟩⟩
  refine (foldl_set_get (slotVal solD solS) _ _ ?_ ?_).1 a ha
  · rw [hp]; exact List.nodup_range
  · intro b hb
    rw [List.length_replicate]
    exact (h2 b hb).2.2.2

/-- Slots in terms of field, position and reference. -/
theorem mem_slots_iff (F : Fields) (dim c : Nat) (a : Spec.Slot) :
    a ∈ Spec.slots F dim c ↔ ∃ (h : Nat) (d : DOFsData) (k : Nat) (r : GDOF), F.dofs[h]? = some d ∧
      (Spec.cellList d dim c)[k]? = some r ∧
      a = Spec.slot d (F.globalOffsetsDOFs.getD h 0) (F.globalOffsetsStrongs.getD h 0) (F.localOffsets.getD h 0 + k) r := by
  simp only [Spec.slots, List.mem_flatMap, Prod.exists, Spec.fieldSlots, List.mem_map, List.mem_zipIdx_iff_getElem?]
  constructor
  · rintro ⟨d, h, hd, r, k, hr, rfl⟩
    exact ⟨h, d, k, r, hd, hr, rfl⟩
  · rintro ⟨h, d, k, r, hd, hr, rfl⟩
    exact ⟨d, h, hd, r, k, hr, rfl⟩

theorem created_lookup {d : DOFsData} (hc : Spec.Created d) {dim c k : Nat} {r : GDOF}
    (hr : (Spec.cellList d dim c)[k]? = some r) : ∃ x, Spec.lookup d r = some x ∧ x.type ≠ .unknwon ∧
      (x.type = .dof → x.globalIndex < d.counters.dofs) ∧ (x.type = .strong → x.globalIndex < d.counters.strongs) := by
  obtain ⟨D, info, mesh, hd, hov⟩ := hc
  unfold Spec.cellList at hr
  cases hg : Spec.globalsAt d dim c with
  | none => simp [hg] at hr
  | some g =>
    rw [hg] at hr
    simp only [Option.map_some, Option.getD_some] at hr
    obtain ⟨x, hx, hne⟩ := ((C06_cell_list D info mesh d hd dim c).2 g hg).2.1 r (List.mem_of_getElem? hr)
    refine ⟨x, hx, hne, fun ht => ?_, fun ht => ?_⟩
    · refine ((C01_free_numbering D info mesh d hd hov).2 r.dim r.cell r.dof x.globalIndex ?_).2
      rw [← ht]; exact hx
    · refine ((C02_strong_numbering D info mesh d hd hov).2 r.dim r.cell r.dof x.globalIndex ?_).2
      rw [← ht]; exact hx

theorem created_boundary {d : DOFsData} (hc : Spec.Created d) : d.counters.boundary ≤ d.counters.dofs := by
  obtain ⟨D, info, mesh, hd, hov⟩ := hc
  have := (C03_counters D info mesh d hd hov).2.2.2.1
  omega

theorem sum_map_le_sum_map {α : Type} (l : List α) (f g : α → Nat) (h : ∀ a ∈ l, f a ≤ g a) :
    (l.map f).sum ≤ (l.map g).sum := by
  induction l with
  | nil => simp
  | cons a l ih =>
    rw [List.forall_mem_cons] at h
    have := ih h.2
    simp only [List.map_cons, List.sum_cons]
    have := h.1
    omega

theorem countDofs_created (fields : List DOFsData) (hne : fields ≠ []) (hc : ∀ d ∈ fields, Spec.Created d)
    (h1 : (fields.map fun d => d.counters.dofs).sum < 2 ^ 32) (h2 : (fields.map fun d => d.counters.strongs).sum < 2 ^ 32)
    {cd : CountData} (h : countDofs (fields.map DOFsData.counters) = .ok cd) :
    cd.totalDOFs = (fields.map fun d => d.counters.dofs).sum ∧
    cd.totalStrong = (fields.map fun d => d.counters.strongs).sum ∧
    cd.offsetsDOFs = prefixSums (fields.map fun d => d.counters.dofs) ∧
    cd.offsetsStrongs = prefixSums (fields.map fun d => d.counters.strongs) := by
  have hb := sum_map_le_sum_map fields (fun d => d.counters.boundary) (fun d => d.counters.dofs)
    fun d hd => created_boundary (hc d hd)
  have e1 : (fields.map DOFsData.counters).map Counters.dofs = fields.map fun d => d.counters.dofs := by simp
  have e2 : (fields.map DOFsData.counters).map Counters.strongs = fields.map fun d => d.counters.strongs := by simp
  have e3 : (fields.map DOFsData.counters).map Counters.boundary = fields.map fun d => d.counters.boundary := by simp
  rw [countDofs_eq _ (by simpa using hne) (by rw [e1]; exact h1) (by rw [e2]; exact h2) (by rw [e3]; omega),
    Except.ok.injEq, e1, e2] at h
  subst h
  exact ⟨rfl, rfl, rfl, rfl⟩

/-- Everything the assembler needs, from created fields and computed offsets. -/
theorem slots_bounds (F : Fields) (dim cell : Nat) (hne : F.dofs ≠ []) (hc : ∀ d ∈ F.dofs, Spec.Created d)
    (h1 : (F.dofs.map fun d => d.counters.dofs).sum < 2 ^ 32) (h2 : (F.dofs.map fun d => d.counters.strongs).sum < 2 ^ 32)
    (hloc : (F.dofs.map fun d => (Spec.cellList d dim cell).length).sum < 2 ^ 32)
    {cd : CountData} (hcd : countDofs (F.dofs.map DOFsData.counters) = .ok cd)
    {lc : LocalCount} (hlc : localCountDofs dim cell F.dofs = .ok lc)
    (f1 : F.localOffsets = lc.offsets) (f2 : F.globalOffsetsDOFs = cd.offsetsDOFs)
    (f3 : F.globalOffsetsStrongs = cd.offsetsStrongs) :
    TrialValid dim cell F ∧ ∀ a ∈ Spec.slots F dim cell, a.type ≠ .unknwon ∧ a.pos < lc.total ∧
      (a.type = .dof → a.idx < cd.totalDOFs) ∧ (a.type = .strong → a.idx < cd.totalStrong) := by
  obtain ⟨t1, t2, o1, o2⟩ := countDofs_created F.dofs hne hc h1 h2 hcd
  obtain ⟨-, hex, hlc'⟩ := (localCountDofs_ok_iff dim cell F.dofs hloc lc).1 hlc
  have hpos := slots_pos hloc hlc f1
  refine ⟨⟨hex, ?_, ?_, ?_⟩, ?_⟩
  · rw [f2, o1, prefixSums_length]; simp
  · rw [f1, hlc']; simp [prefixSums_length]
  · rw [f3, o2, prefixSums_length]; simp
  intro a ha
  have hp : a.pos ∈ List.range lc.total := by rw [← hpos]; exact List.mem_map_of_mem ha
  rw [mem_slots_iff] at ha
  obtain ⟨h, d, k, r, hd, hr, rfl⟩ := ha
  obtain ⟨x, hx, hne', hb1, hb2⟩ := created_lookup (hc d (List.mem_of_getElem? hd)) hr
  have hh : h < F.dofs.length := (List.getElem?_eq_some_iff.1 hd).1
  have p1 : F.globalOffsetsDOFs.getD h 0 = ((F.dofs.map fun d => d.counters.dofs).take h).sum := by
    rw [f2, o1]; exact getD_of_get? (prefixSums_get (by simpa using hh))
  have p2 : F.globalOffsetsStrongs.getD h 0 = ((F.dofs.map fun d => d.counters.strongs).take h).sum := by
    rw [f3, o2]; exact getD_of_get? (prefixSums_get (by simpa using hh))
  refine ⟨?_, List.mem_range.1 hp, ?_⟩
  · rw [slot_of_lookup hx]
    obtain ⟨t, i⟩ := x
    cases t <;> simp_all [slotOf]
  · rw [slot_of_lookup hx, p1, p2, t1, t2]
    obtain ⟨t, i⟩ := x
    cases t with
    | unknwon => simp at hne'
    | strong =>
      refine ⟨by simp [slotOf], fun _ => ?_⟩
      have := (prefix_bij (F.dofs.map fun d => d.counters.strongs)).2 h i d.counters.strongs (by simp [hd]) (hb2 rfl)
      simp only [slotOf]; omega
    | dof =>
      refine ⟨fun _ => ?_, by simp [slotOf]⟩
      have := (prefix_bij (F.dofs.map fun d => d.counters.dofs)).2 h i d.counters.dofs (by simp [hd]) (hb1 rfl)
      simp only [slotOf]; omega

end PolyDiM
