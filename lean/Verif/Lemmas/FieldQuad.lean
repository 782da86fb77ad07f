import Verif.Lemmas.MixedGlobal
import Verif.Spec.DfMesh

/-!
# Lemmas: assembly of a system with four fields
-/

namespace PolyDiM

open Spec

variable {num : Nat → Nat → Nat} {mesh : Mesh} {info : Nat → MeshInfo} {D : Nat → DOFsData}

/-- The local position of the first DOF of field `h`. -/
def localOffset (num : Nat → Nat → Nat) (mesh : Mesh) (c h : Nat) : Nat := ∑ i ∈ Finset.range h, (fieldList (num i) mesh c).length

/-- The DOFs of a cell, field after field. -/
def quadList (num : Nat → Nat → Nat) (mesh : Mesh) (c : Nat) : List (Nat × GDOF) := (List.range 4).flatMap fun h => (fieldList (num h) mesh c).map fun r => (h, r)

/-- The fields of the assembly on cell `c`. -/
def quadFields (num : Nat → Nat → Nat) (mesh : Mesh) (D : Nat → DOFsData) (c : Nat) : Fields :=
  ⟨(List.range 4).map D, (List.range 4).map (localOffset num mesh c), (List.range 4).map (fieldOffset D), (List.range 4).map (strongOffset D)⟩

/-- The handlers of four fields, with totals that fit. -/
structure Quad (num : Nat → Nat → Nat) (mesh : Mesh) (info : Nat → MeshInfo) (D : Nat → DOFsData) : Prop where
  field : ∀ h < 4, FHandler (num h) mesh (info h) (D h)
  dofs : fieldOffset D 4 + 1 < 2 ^ 32
  strongs : strongOffset D 4 < 2 ^ 32

/-- A function of references on the list of a cell. -/
noncomputable def onRefs (l : List (Nat × GDOF)) (f : Nat × GDOF → ℝ) (j : Nat) : ℝ := (l[j]?).elim 0 f

/-- The test function of a row. -/
noncomputable def rowOf (D : Nat → DOFsData) (i : Nat) (x : Nat × GDOF) : ℝ := rowShift (D x.1) (fieldOffset D x.1) i x.2

/-- The value of a test function for a reference. -/
noncomputable def fieldTest (D : Nat → DOFsData) (φ : Nat → ℝ) (x : Nat × GDOF) : ℝ := testValue (D x.1) (fun i => φ (fieldOffset D x.1 + i)) x.2

theorem offset_le (D : Nat → DOFsData) {h : Nat} (hh : h < 4) : fieldOffset D h + (D h).counters.dofs ≤ fieldOffset D 4 ∧
    strongOffset D h + (D h).counters.strongs ≤ strongOffset D 4 := by
  unfold fieldOffset strongOffset
  rw [← Finset.sum_range_succ, ← Finset.sum_range_succ]
  constructor <;> exact Finset.sum_le_sum_of_subset (by simpa using (show h + 1 ≤ 4 by omega))

theorem quadList_length (num : Nat → Nat → Nat) (mesh : Mesh) (c : Nat) : (quadList num mesh c).length = localOffset num mesh c 4 := by
  simp [quadList, localOffset, List.range_succ, Finset.sum_range_succ, Nat.add_assoc]

namespace Quad

theorem slots_eq (H : Quad num mesh info D) {c : Nat} (hc : c < (mesh.markers 2).length) :
    slots (quadFields num mesh D c) 2 c
      = (quadList num mesh c).zipIdx.map fun xk => slot (D xk.1.1) (fieldOffset D xk.1.1) (strongOffset D xk.1.1) xk.2 xk.1.2 := by
  have e : ∀ (h a : Nat), (((fieldList (num h) mesh c).map fun r => (h, r)).zipIdx a).map
        (fun xk => slot (D xk.1.1) (fieldOffset D xk.1.1) (strongOffset D xk.1.1) xk.2 xk.1.2)
      = (fieldList (num h) mesh c).zipIdx.map fun rk => slot (D h) (fieldOffset D h) (strongOffset D h) (a + rk.2) rk.1 := by
    intro h a
    rw [List.zipIdx_eq_map_add, List.map_map, List.zipIdx_map, List.map_map]
    refine List.map_congr_left fun rk _ => ?_
    simp [Prod.map]
  have hl : ∀ h < 4, cellList (D h) 2 c = fieldList (num h) mesh c := fun h hh => (H.field h hh).list c hc
  unfold quadList slots quadFields
  have r4 : List.range 4 = [0, 1, 2, 3] := rfl
  rw [r4]
  simp only [List.map_cons, List.map_nil, List.zipIdx_cons, List.zipIdx_nil, List.flatMap_cons, List.flatMap_nil, List.append_nil, List.zipIdx_append, List.map_append, e]
  unfold fieldSlots
  rw [hl 0 (by norm_num), hl 1 (by norm_num), hl 2 (by norm_num), hl 3 (by norm_num)]
  simp [localOffset, Finset.sum_range_succ, Nat.add_assoc]

theorem slots_pos (H : Quad num mesh info D) {c : Nat} (hc : c < (mesh.markers 2).length) :
    (slots (quadFields num mesh D c) 2 c).map Slot.pos = List.range (quadList num mesh c).length := by
  rw [H.slots_eq hc, List.map_map]
  have e1 : (Slot.pos ∘ fun xk : (Nat × GDOF) × Nat => slot (D xk.1.1) (fieldOffset D xk.1.1) (strongOffset D xk.1.1) xk.2 xk.1.2) = Prod.snd :=
    funext fun rk => slot_pos _ _ _ _ _
  rw [e1, List.zipIdx_map_snd, ← List.range_eq_range']

/-- A reference in the list of a cell. -/
theorem mem_quad (_H : Quad num mesh info D) {c : Nat} {x : Nat × GDOF} (hx : x ∈ quadList num mesh c) : x.1 < 4 ∧ x.2 ∈ fieldList (num x.1) mesh c := by
  unfold quadList at hx
  obtain ⟨h, hh, hx⟩ := List.mem_flatMap.1 hx
  obtain ⟨r, hr, rfl⟩ := List.mem_map.1 hx
  exact ⟨List.mem_range.1 hh, hr⟩

theorem lookup_quad (H : Quad num mesh info D) {c : Nat} (hc : c < (mesh.markers 2).length) {x : Nat × GDOF} (hx : x ∈ quadList num mesh c) :
    ∃ y, lookup (D x.1) x.2 = some y ∧ y.type ≠ .unknwon :=
  (H.field x.1 (H.mem_quad hx).1).lookup_list hc (H.mem_quad hx).2

theorem mem_slots (H : Quad num mesh info D) {c : Nat} (hc : c < (mesh.markers 2).length) {a : Slot} (ha : a ∈ slots (quadFields num mesh D c) 2 c) :
    ∃ x y, (quadList num mesh c)[a.pos]? = Option.some x ∧ x.1 < 4 ∧ lookup (D x.1) x.2 = some y ∧ y.type ≠ .unknwon ∧ a.type = y.type ∧
      a.idx = y.globalIndex + if y.type = .dof then fieldOffset D x.1 else strongOffset D x.1 := by
  rw [H.slots_eq hc] at ha
  obtain ⟨⟨x, j⟩, hr, rfl⟩ := List.mem_map.1 ha
  rw [List.mem_zipIdx_iff_getElem?] at hr
  obtain ⟨y, hy, ht⟩ := H.lookup_quad hc (List.mem_of_getElem? hr)
  dsimp only at hy ⊢
  rw [slot_at hy ht]
  exact ⟨x, y, hr, (H.mem_quad (List.mem_of_getElem? hr)).1, hy, ht, rfl, rfl⟩

theorem pos_lt (H : Quad num mesh info D) {c : Nat} (hc : c < (mesh.markers 2).length) {a : Slot} (ha : a ∈ slots (quadFields num mesh D c) 2 c) :
    a.pos < (quadList num mesh c).length := by
  rw [← List.mem_range, ← H.slots_pos hc]
  exact List.mem_map.2 ⟨a, ha, rfl⟩

theorem known (H : Quad num mesh info D) {c : Nat} (hc : c < (mesh.markers 2).length) {a : Slot} (ha : a ∈ slots (quadFields num mesh D c) 2 c) : a.type ≠ .unknwon := by
  obtain ⟨x, y, -, -, -, ht, he, -⟩ := H.mem_slots hc ha
  rw [he]
  exact ht

theorem idx_free (H : Quad num mesh info D) {c : Nat} (hc : c < (mesh.markers 2).length) {a : Slot} (ha : a ∈ slots (quadFields num mesh D c) 2 c) (hd : a.type = .dof) :
    a.idx < fieldOffset D 4 := by
  obtain ⟨x, y, -, hx, hy, -, he, hi⟩ := H.mem_slots hc ha
  have := (H.field x.1 hx).free x.2 y.globalIndex (by rw [hy, ← hd, he])
  have := (offset_le D hx).1
  rw [hi, if_pos (by rw [← he, hd])]
  omega

theorem idx_strong (H : Quad num mesh info D) {c : Nat} (hc : c < (mesh.markers 2).length) {a : Slot} (ha : a ∈ slots (quadFields num mesh D c) 2 c)
    (hd : a.type = .strong) : a.idx < strongOffset D 4 := by
  obtain ⟨x, y, -, hx, hy, -, he, hi⟩ := H.mem_slots hc ha
  have := (H.field x.1 hx).strong x.2 y.globalIndex (by rw [hy, ← hd, he])
  have := (offset_le D hx).2
  rw [hi, if_neg (by rw [← he, hd]; simp)]
  omega

theorem size (H : Quad num mesh info D) {c : Nat} (hc : c < (mesh.markers 2).length) {h : Nat} (hh : h < 4) :
    localSize 2 c (D h) = .ok (fieldList (num h) mesh c).length := by
  obtain ⟨g, hg⟩ := Option.isSome_iff_exists.1 ((H.field h hh).exist c hc)
  have hl : g.gdofs = fieldList (num h) mesh c := by rw [← (H.field h hh).list c hc, cellList, hg]; rfl
  have h1 : atIdx ((D h).dims 2).globals c = .ok g := by
    have : ((D h).dims 2).globals[c]? = Option.some g := hg
    simp [atIdx, this]
  rw [localSize, h1, except_ok_bind, hl]

theorem local_count (H : Quad num mesh info D) {c : Nat} (hc : c < (mesh.markers 2).length) (hs : (quadList num mesh c).length < 2 ^ 32) :
    localCountDofs 2 c ((List.range 4).map D) = .ok ⟨(quadList num mesh c).length, (List.range 4).map (localOffset num mesh c)⟩ := by
  rw [quadList_length] at hs ⊢
  have h0 := H.size hc (h := 0) (by norm_num)
  have h1 := H.size hc (h := 1) (by norm_num)
  have h2 := H.size hc (h := 2) (by norm_num)
  have h3 := H.size hc (h := 3) (by norm_num)
  have r4 : List.range 4 = [0, 1, 2, 3] := rfl
  rw [r4]
  simp only [localOffset, Finset.sum_range_succ, Finset.sum_range_zero, zero_add] at hs
  show (do let n ← localSize 2 c (D 0); localCountLoop 2 c ⟨n, [0]⟩ (D 0) [D 1, D 2, D 3]) = _
  rw [h0, except_ok_bind]
  unfold localCountLoop
  rw [h1, except_ok_bind, h0, except_ok_bind]
  unfold localCountLoop
  rw [h2, except_ok_bind, h1, except_ok_bind]
  unfold localCountLoop
  rw [h3, except_ok_bind, h2, except_ok_bind]
  unfold localCountLoop
  simp only [u32]
  rw [Nat.mod_eq_of_lt (a := (fieldList (num 0) mesh c).length + (fieldList (num 1) mesh c).length) (by omega),
    Nat.mod_eq_of_lt (a := (fieldList (num 0) mesh c).length + (fieldList (num 1) mesh c).length + (fieldList (num 2) mesh c).length) (by omega),
    Nat.mod_eq_of_lt (by omega)]
  simp [localOffset, Finset.sum_range_succ]

theorem count (H : Quad num mesh info D) :
    ∃ b, countDofs ((List.range 4).map fun h => (D h).counters) = .ok ⟨b, fieldOffset D 4, strongOffset D 4, (List.range 4).map (fieldOffset D), (List.range 4).map (strongOffset D)⟩ ∧
      b = (∑ h ∈ Finset.range 4, (D h).counters.boundary) % 2 ^ 32 := by
  have h1 := H.dofs
  have h2 := H.strongs
  simp only [fieldOffset, strongOffset, Finset.sum_range_succ, Finset.sum_range_zero, zero_add] at h1 h2
  have r4 : List.range 4 = [0, 1, 2, 3] := rfl
  rw [r4]
  refine ⟨_, ?_, rfl⟩
  simp only [List.map_cons, List.map_nil, countDofs, countLoop, u32]
  congr 2
  · simp [Finset.sum_range_succ]
  · rw [Nat.mod_eq_of_lt (a := (D 0).counters.dofs + (D 1).counters.dofs) (by omega),
      Nat.mod_eq_of_lt (a := (D 0).counters.dofs + (D 1).counters.dofs + (D 2).counters.dofs) (by omega), Nat.mod_eq_of_lt (by omega)]
    simp [fieldOffset, Finset.sum_range_succ]
  · rw [Nat.mod_eq_of_lt (a := (D 0).counters.strongs + (D 1).counters.strongs) (by omega),
      Nat.mod_eq_of_lt (a := (D 0).counters.strongs + (D 1).counters.strongs + (D 2).counters.strongs) (by omega), Nat.mod_eq_of_lt (by omega)]
    simp [strongOffset, Finset.sum_range_succ]
  · simp [fieldOffset, Finset.sum_range_succ]
  · simp [strongOffset, Finset.sum_range_succ]

/-- The local vector of a cell. -/
theorem local_values (H : Quad num mesh info D) {c : Nat} (hc : c < (mesh.markers 2).length) {free strong : List ℝ}
    (hf : fieldOffset D 4 ≤ free.length) (hs : strong.length = strongOffset D 4) :
    ∃ y, globalToLocal 2 c ((List.range 4).map D) (quadList num mesh c).length ((List.range 4).map (localOffset num mesh c)) ((List.range 4).map (fieldOffset D))
        ((List.range 4).map (strongOffset D)) free strong = .ok y ∧ y.length = (quadList num mesh c).length ∧
      ∀ j, y.getD j 0 = onRefs (quadList num mesh c) (fieldValue D free strong) j := by
  have hp := H.slots_pos hc
  have hread : ∀ a ∈ slots (quadFields num mesh D c) 2 c, ReadOK free strong (quadList num mesh c).length a :=
    fun a ha => ⟨H.known hc ha, fun h => (H.idx_free hc ha h).trans_le hf, fun h => by rw [hs]; exact H.idx_strong hc ha h, H.pos_lt hc ha⟩
  have l1 : (quadFields num mesh D c).dofs.length ≤ (quadFields num mesh D c).localOffsets.length := by simp [quadFields]
  have l2 : (quadFields num mesh D c).dofs.length ≤ (quadFields num mesh D c).globalOffsetsDOFs.length := by simp [quadFields]
  have l3 : (quadFields num mesh D c).dofs.length ≤ (quadFields num mesh D c).globalOffsetsStrongs.length := by simp [quadFields]
  have hok := (globalToLocal_ok_iff (quadFields num mesh D c) 2 c _ free strong _ l1 l2 l3).2 ⟨by
    intro d hd
    obtain ⟨h, hh, rfl⟩ := List.mem_map.1 hd
    exact (H.field h (List.mem_range.1 hh)).exist c hc, hread, rfl⟩
  obtain ⟨hl, hv⟩ := globalToLocal_values (quadFields num mesh D c) 2 c _ free strong _ l1 l2 l3 hp hok
  refine ⟨_, hok, hl, fun j => ?_⟩
  by_cases hj : j < (quadList num mesh c).length
  · have hr := List.getElem?_eq_getElem hj
    set x := (quadList num mesh c)[j] with hx
    have hmem : slot (D x.1) (fieldOffset D x.1) (strongOffset D x.1) j x.2 ∈ slots (quadFields num mesh D c) 2 c := by
      rw [H.slots_eq hc]
      exact List.mem_map.2 ⟨(x, j), List.mem_zipIdx_iff_getElem?.2 hr, rfl⟩
    obtain ⟨-, h2⟩ := hv _ hmem
    rw [slot_pos] at h2
    rw [List.getD_eq_getElem?_getD, h2, Option.getD_some, onRefs, hr, Option.elim_some]
    obtain ⟨y, hy, ht⟩ := H.lookup_quad hc (List.mem_of_getElem? hr)
    rw [slot_at hy ht, fieldValue, valueOf, hy]
    obtain ⟨t, i⟩ := y
    cases t <;> simp_all [slotVal, add_comm]
  · rw [List.getD_eq_getElem?_getD, List.getElem?_eq_none (by rw [hl]; omega), onRefs, List.getElem?_eq_none (by omega)]
    rfl

theorem slots_sum (H : Quad num mesh info D) {c : Nat} (hc : c < (mesh.markers 2).length) (i : Nat) (f : Nat → ℝ) :
    ((slots (quadFields num mesh D c) 2 c).map fun a => if a.type = .dof ∧ a.idx = i then f a.pos else 0).sum
      = ∑ j ∈ Finset.range (quadList num mesh c).length, onRefs (quadList num mesh c) (rowOf D i) j * f j := by
  rw [H.slots_eq hc, List.map_map, Finset.sum_range, ← List.sum_ofFn]
  congr 1
  apply List.ext_getElem
  · simp
  · intro j h1 h2
    have hj : j < (quadList num mesh c).length := by simpa using h1
    have hr := List.getElem?_eq_getElem hj
    obtain ⟨y, hy, ht⟩ := H.lookup_quad hc (List.mem_of_getElem? hr)
    simp only [List.getElem_map, List.getElem_zipIdx, Function.comp, List.getElem_ofFn, zero_add]
    rw [onRefs, hr, Option.elim_some, slot_at hy ht, rowOf, rowShift, hy]
    obtain ⟨t, g⟩ := y
    simp only [Option.some.injEq, DOF.mk.injEq]
    set x := (quadList num mesh c)[j]
    have : (t = DType.dof ∧ (g + if t = .dof then fieldOffset D x.1 else strongOffset D x.1) = i) ↔ (fieldOffset D x.1 ≤ i ∧ t = .dof ∧ g = i - fieldOffset D x.1) := by
      constructor
      · rintro ⟨rfl, h⟩
        rw [if_pos rfl] at h
        exact ⟨by omega, rfl, by omega⟩
      · rintro ⟨h1, rfl, h2⟩
        rw [if_pos rfl]
        exact ⟨rfl, by omega⟩
    simp only [this]
    split_ifs <;> simp

/-- The local vector of a cell. -/
noncomputable def values (num : Nat → Nat → Nat) (mesh : Mesh) (D : Nat → DOFsData) (free strong : List ℝ) (c : Nat) : Nat → ℝ :=
  onRefs (quadList num mesh c) (fieldValue D free strong)

/-- The matrices and vectors of the cells assembled. -/
theorem assemble (H : Quad num mesh info D) (cells : List Nat) (hcells : ∀ c ∈ cells, c < (mesh.markers 2).length)
    (hsmall : ∀ c ∈ cells, (quadList num mesh c).length < 2 ^ 32) (A : Nat → DMat ℝ) (b : Nat → List ℝ)
    (hA : ∀ c ∈ cells, (A c).rows = (quadList num mesh c).length ∧ (A c).cols = (quadList num mesh c).length)
    (hb : ∀ c ∈ cells, (b c).length = (quadList num mesh c).length) :
    ∃ S, assembleAll 2 .empty (cells.map fun c => (⟨c, quadFields num mesh D c, some (quadFields num mesh D c, (A c).toLMat), some (b c)⟩ : Call ℝ)) = .ok S ∧
      (∀ free strong : List ℝ, fieldOffset D 4 ≤ free.length → strong.length = strongOffset D 4 → ∀ i,
        ∑ j ∈ Finset.range free.length, entry S.lhsDOFs i j * free.getD j 0 + ∑ j ∈ Finset.range strong.length, entry S.lhsStrongs i j * strong.getD j 0
          = (cells.map fun c => ∑ j ∈ Finset.range (quadList num mesh c).length,
                onRefs (quadList num mesh c) (rowOf D i) j * apply (A c) (values num mesh D free strong c) j).sum) ∧
      ∀ i, ventry S.rhs i = (cells.map fun c => ∑ j ∈ Finset.range (quadList num mesh c).length, onRefs (quadList num mesh c) (rowOf D i) j * (b c).getD j 0).sum := by
  have hvalid : ∀ c ∈ cells, (∀ d ∈ (List.range 4).map D, (globalsAt d 2 c).isSome) := fun c hc d hd => by
    obtain ⟨h, hh, rfl⟩ := List.mem_map.1 hd
    exact (H.field h (List.mem_range.1 hh)).exist c (hcells c hc)
  have l1 : ∀ c, (quadFields num mesh D c).dofs.length ≤ (quadFields num mesh D c).localOffsets.length := fun c => by simp [quadFields]
  have l2 : ∀ c, (quadFields num mesh D c).dofs.length ≤ (quadFields num mesh D c).globalOffsetsDOFs.length := fun c => by simp [quadFields]
  have l3 : ∀ c, (quadFields num mesh D c).dofs.length ≤ (quadFields num mesh D c).globalOffsetsStrongs.length := fun c => by simp [quadFields]
  obtain ⟨S, hok⟩ : ∃ S, assembleAll 2 .empty (cells.map fun c => (⟨c, quadFields num mesh D c, some (quadFields num mesh D c, (A c).toLMat), some (b c)⟩ : Call ℝ)) = .ok S := by
    refine ⟨_, (assembleAll_iff 2 _ _ _).2 ⟨?_, rfl⟩⟩
    intro q hq
    obtain ⟨c, hc, rfl⟩ := List.mem_map.1 hq
    refine ⟨⟨hvalid c hc, l1 c, l2 c⟩, fun a ha => ?_⟩
    refine ⟨H.known (hcells c hc) ha, fun _ => ⟨fun v hv => ?_, fun T B hTB => ?_⟩⟩
    · simp only [Option.some.injEq] at hv
      rw [← hv, hb c hc]
      exact H.pos_lt (hcells c hc) ha
    · simp only [Option.some.injEq, Prod.mk.injEq] at hTB
      obtain ⟨rfl, rfl⟩ := hTB
      refine ⟨⟨hvalid c hc, l1 c, l2 c, l3 c⟩, fun t ht' => ⟨H.known (hcells c hc) ht', ?_, ?_⟩⟩
      · show a.pos < (A c).rows
        rw [(hA c hc).1]; exact H.pos_lt (hcells c hc) ha
      · show t.pos < (A c).cols
        rw [(hA c hc).2]; exact H.pos_lt (hcells c hc) ht'
  have hrow : ∀ q ∈ (cells.map fun c => (⟨c, quadFields num mesh D c, some (quadFields num mesh D c, (A c).toLMat), some (b c)⟩ : Call ℝ)),
      ∀ a ∈ Spec.slots q.test 2 q.cell, a.type = .dof → a.idx < 2 ^ 32 := by
    intro q hq a ha hdof
    obtain ⟨c, hc, rfl⟩ := List.mem_map.1 hq
    have := H.dofs
    have := H.idx_free (hcells c hc) ha hdof
    omega
  refine ⟨S, hok, fun free strong hf hs i => ?_, fun i => ?_⟩
  · choose! y hy hyl hyv using fun (c : Nat) (hc : c ∈ cells) => H.local_values (hcells c hc) hf hs
    rw [C17_residual 2 _ _ hok hrow free strong (fun q => y q.cell) ?_ i]
    · rw [List.map_map]
      congr 1
      refine List.map_congr_left fun c hc => ?_
      simp only [Function.comp, localResidual]
      rw [H.slots_sum (hcells c hc) i fun p => ∑ r ∈ Finset.range (y c).length, (A c).toLMat.entry p r * (y c).getD r 0]
      have e : ∀ p, ∑ r ∈ Finset.range (y c).length, (A c).toLMat.entry p r * (y c).getD r 0 = apply (A c) (values num mesh D free strong c) p := by
        intro p
        rw [apply, (hA c hc).2, hyl c hc]
        refine Finset.sum_congr rfl fun r hr => ?_
        rw [hyv c hc r]
        rfl
      simp only [e]
    · intro q hq T B hTB
      obtain ⟨c, hc, rfl⟩ := List.mem_map.1 hq
      simp only [Option.some.injEq, Prod.mk.injEq] at hTB
      obtain ⟨rfl, rfl⟩ := hTB
      refine ⟨_, H.local_count (hcells c hc) (hsmall c hc), ?_, rfl, l2 c, l3 c, hy c hc⟩
      have := hsmall c hc
      rw [quadList_length, localOffset] at this
      refine lt_of_eq_of_lt ?_ this
      have hl : ∀ h < 4, cellList (D h) 2 c = fieldList (num h) mesh c := fun h hh => (H.field h hh).list c (hcells c hc)
      have r4 : List.range 4 = [0, 1, 2, 3] := rfl
      show (((List.range 4).map D).map fun d => (cellList d 2 c).length).sum = _
      rw [r4]
      simp only [List.map_cons, List.map_nil, List.sum_cons, List.sum_nil]
      rw [hl 0 (by norm_num), hl 1 (by norm_num), hl 2 (by norm_num), hl 3 (by norm_num)]
      simp [Finset.sum_range_succ, Nat.add_assoc]
  · rw [(C14_assembly 2 _ _ _ hok hrow).2.2 i, List.map_map, show ventry (Sys.empty : Sys ℝ).rhs i = 0 from rfl, zero_add]
    congr 1
    refine List.map_congr_left fun c hc => ?_
    simp only [Function.comp, rhsContribution]
    rw [H.slots_sum (hcells c hc) i fun p => (b c).getD p 0]

theorem row_tested (H : Quad num mesh info D) (φ : Nat → ℝ) {N : Nat} (hN : fieldOffset D 4 ≤ N) {c : Nat} (j : Nat) :
    ∑ i ∈ Finset.range N, φ i * onRefs (quadList num mesh c) (rowOf D i) j = onRefs (quadList num mesh c) (fieldTest D φ) j := by
  unfold onRefs
  cases hx : (quadList num mesh c)[j]? with
  | none => simp
  | some x =>
    have hx4 := (H.mem_quad (List.mem_of_getElem? hx)).1
    exact shift_tested (H.field x.1 hx4) φ (fieldOffset D x.1) N ((offset_le D hx4).1.trans hN) x.2

/-- The rows tested with a function. -/
theorem tested_rows (H : Quad num mesh info D) (φ : Nat → ℝ) {N : Nat} (hN : fieldOffset D 4 ≤ N) (cells : List Nat) (f : Nat → Nat → ℝ) :
    ∑ i ∈ Finset.range N, φ i * (cells.map fun c => ∑ j ∈ Finset.range (quadList num mesh c).length, onRefs (quadList num mesh c) (rowOf D i) j * f c j).sum
      = (cells.map fun c => ∑ j ∈ Finset.range (quadList num mesh c).length, onRefs (quadList num mesh c) (fieldTest D φ) j * f c j).sum := by
  induction cells with
  | nil => simp
  | cons c cells ih =>
    simp only [List.map_cons, List.sum_cons, mul_add _ _ (List.sum _), Finset.sum_add_distrib]
    rw [ih]
    congr 1
    simp only [Finset.mul_sum]
    rw [Finset.sum_comm]
    refine Finset.sum_congr rfl fun j _ => ?_
    simp only [← mul_assoc]
    rw [← Finset.sum_mul, H.row_tested φ hN]

end Quad

end PolyDiM
