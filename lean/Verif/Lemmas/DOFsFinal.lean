import Verif.Lemmas.DOFsMisc

/-! Helper lemmas: consequences of the invariants used by the property theorems C01-C10. -/

namespace PolyDiM

theorem inv0_of {D : Fin 4} {info : MeshInfo} {mesh : Mesh} {data : DOFsData}
    (h : createDOFs D info mesh = .ok data) : Inv0 info mesh (D.val + 1) data := by
  rw [createDOFs_eq] at h
  exact createUpTo_inv0 info mesh _ (by omega) h

theorem inv1_of {D : Fin 4} {info : MeshInfo} {mesh : Mesh} {data : DOFsData}
    (h : createDOFs D info mesh = .ok data) (hov : Spec.totalRequested info D < 2 ^ 32) :
    Inv1 info (D.val + 1) data := by
  rw [createDOFs_eq] at h
  exact createUpTo_inv1 info mesh _ (by omega) h (by simpa [Spec.totalRequested, sumUpTo] using hov)

/-- An existing entity, with everything known about it. -/
structure EntityOK (info : MeshInfo) (data : DOFsData) (e : Nat × Nat) (x : CellDOFs) (b : BInfo) : Prop where
  cell : (data.dims e.1).cells[e.2]? = some x
  cellAt_eq : cellAt data.dims e = x
  bt : Spec.bTypeOf info e = some b.type
  ok : CellOK (Spec.requested info e) b.type x

theorem entityOK {info : MeshInfo} {mesh : Mesh} {data : DOFsData} {n : Nat} (I : Inv0 info mesh n data)
    {e : Nat × Nat} (he : e.1 < n) (hx : Exists' data.dims e) : ∃ x b, EntityOK info data e x b := by
  have hx' : (data.dims e.1).cells[e.2]? = some (data.dims e.1).cells[e.2] := List.getElem?_eq_getElem hx
  obtain ⟨m, b, hm, hb, hok⟩ := I.cells e.1 he e.2 _ hx'
  refine ⟨_, b, hx', by simp [cellAt, hx'], by simp [Spec.bTypeOf, hb], ?_⟩
  have : Spec.requested info e = m := by simp [Spec.requested, hm]
  rw [this]; exact hok

theorem block_eq {info : MeshInfo} {data : DOFsData} {e : Nat × Nat} {x : CellDOFs} {b : BInfo}
    (h : EntityOK info data e x b) :
    block data.dims e = (List.range (Spec.requested info e)).map fun k => ⟨e.1, e.2, k⟩ := by
  rw [block, h.cellAt_eq, h.ok.len]

theorem lookup_block {info : MeshInfo} {data : DOFsData} {e : Nat × Nat} {x : CellDOFs} {b : BInfo}
    (h : EntityOK info data e x b) {r : GDOF} (hr : r ∈ block data.dims e) :
    ∃ y, Spec.lookup data r = some y ∧ y.type = Spec.typeFor b.type := by
  rw [block_eq h] at hr
  obtain ⟨k, hk, rfl⟩ := List.mem_map.1 hr
  rw [List.mem_range] at hk
  have hk' : k < x.dofs.length := by rw [h.ok.len]; exact hk
  refine ⟨x.dofs[k], ?_, h.ok.types _ (List.getElem_mem hk')⟩
  simp [Spec.lookup, Spec.dofAt, h.cell, List.getElem?_eq_getElem hk']

/-- Number of references resolving to a DOF of the given type. -/
theorem block_count {info : MeshInfo} {data : DOFsData} {e : Nat × Nat} {x : CellDOFs} {b : BInfo}
    (h : EntityOK info data e x b) :
    (block data.dims e).countP (fun r => (Spec.lookup data r).map DOF.type == some .dof) = x.numDOFs ∧
    (block data.dims e).countP (fun r => (Spec.lookup data r).map DOF.type == some .strong) = x.numStrongs := by
  have hl : (block data.dims e).length = Spec.requested info e := by simp [block_eq h]
  have hc : ∀ t : DType, (block data.dims e).countP (fun r => (Spec.lookup data r).map DOF.type == some t) =
      if Spec.typeFor b.type = t then Spec.requested info e else 0 := by
    intro t
    split
    · rename_i ht
      rw [← hl, List.countP_eq_length]
      intro r hr
      obtain ⟨y, hy, hty⟩ := lookup_block h hr
      simp [hy, hty, ht]
    · rename_i ht
      rw [List.countP_eq_zero]
      intro r hr
      obtain ⟨y, hy, hty⟩ := lookup_block h hr
      simp [hy, hty, ht]
  rw [hc, hc, h.ok.nD, h.ok.nS]
  cases b.type <;> simp [Spec.typeFor, isFreeB, isStrongB]

theorem globals_get {info : MeshInfo} {mesh : Mesh} {data : DOFsData} {n d c : Nat} (I : Inv0 info mesh n data)
    (hd : d < n) (hc : c < (info.numDOFs d).length) :
    Spec.globalsAt data d c = some (globalOf data.dims d (Spec.closure mesh d c)) := by
  rw [Spec.globalsAt, I.globals d hd, List.getElem?_map, List.getElem?_range hc]
  rfl

theorem globals_lt {info : MeshInfo} {mesh : Mesh} {data : DOFsData} {n d c : Nat} (I : Inv0 info mesh n data)
    {g : CellGlobal} (hg : Spec.globalsAt data d c = some g) : d < n ∧ c < (info.numDOFs d).length := by
  have hd : d < n := by
    by_contra hd
    rw [Spec.globalsAt, I.later d (by omega)] at hg
    simp at hg
  refine ⟨hd, ?_⟩
  rw [Spec.globalsAt] at hg
  have := (List.getElem?_eq_some_iff.1 hg).1
  rw [I.globals d hd] at this
  simpa using this

theorem closure_ok {info : MeshInfo} {mesh : Mesh} {data : DOFsData} {n d c : Nat} (I : Inv0 info mesh n data)
    (hd : d < n) (hc : c < (info.numDOFs d).length) :
    ∀ e ∈ Spec.closure mesh d c, ∃ x b, EntityOK info data e x b := by
  intro e he
  exact entityOK I (by have := closure_dim_le mesh d c e he; omega) (I.ex d hd c hc e he)

theorem gdofs_eq {info : MeshInfo} {data : DOFsData} {d : Nat} {es : List (Nat × Nat)}
    (h : ∀ e ∈ es, ∃ x b, EntityOK info data e x b) :
    (globalOf data.dims d es).gdofs = Spec.expectedList info es := by
  simp only [globalOf, Spec.expectedList]
  rw [List.flatMap_def, List.flatMap_def]
  congr 1
  apply List.map_congr_left
  intro e he
  obtain ⟨x, b, hx⟩ := h e he
  exact block_eq hx

theorem global_counts {info : MeshInfo} {data : DOFsData} {d : Nat} {es : List (Nat × Nat)}
    (h : ∀ e ∈ es, ∃ x b, EntityOK info data e x b) :
    (globalOf data.dims d es).numDOFs =
      (globalOf data.dims d es).gdofs.countP (fun r => (Spec.lookup data r).map DOF.type == some .dof) ∧
    (globalOf data.dims d es).numStrongs =
      (globalOf data.dims d es).gdofs.countP (fun r => (Spec.lookup data r).map DOF.type == some .strong) := by
  simp only [globalOf]
  induction es with
  | nil => simp
  | cons e es ih =>
    obtain ⟨x, b, hx⟩ := h e (by simp)
    obtain ⟨c1, c2⟩ := block_count hx
    obtain ⟨i1, i2⟩ := ih (fun e' he' => h e' (by simp [he']))
    simp only [List.map_cons, List.sum_cons, List.flatMap_cons, List.countP_append, c1, c2, hx.cellAt_eq,
      ← i1, ← i2, and_self]

theorem gdofs_lookup {info : MeshInfo} {data : DOFsData} {d : Nat} {es : List (Nat × Nat)}
    (h : ∀ e ∈ es, ∃ x b, EntityOK info data e x b) :
    ∀ r ∈ (globalOf data.dims d es).gdofs, ∃ y, Spec.lookup data r = some y ∧ y.type ≠ .unknwon := by
  intro r hr
  simp only [globalOf, List.mem_flatMap] at hr
  obtain ⟨e, he, hre⟩ := hr
  obtain ⟨x, b, hx⟩ := h e he
  obtain ⟨y, hy, hty⟩ := lookup_block hx hre
  refine ⟨y, hy, ?_⟩
  rw [hty]
  have := hx.ok.known
  cases hb : b.type <;> simp_all [Spec.typeFor]

theorem expected_get (info : MeshInfo) (es : List (Nat × Nat)) (i : Nat) (e : Nat × Nat) (hi : es[i]? = some e)
    (k : Nat) (hk : k < Spec.requested info e) :
    (Spec.expectedList info es)[Spec.offset info es i + k]? = some ⟨e.1, e.2, k⟩ := by
  induction es generalizing i with
  | nil => simp at hi
  | cons e' es ih =>
    cases i with
    | zero =>
      simp only [List.getElem?_cons_zero, Option.some.injEq] at hi
      subst hi
      simp only [Spec.expectedList, Spec.offset, List.take_zero, List.map_nil, List.sum_nil, Nat.zero_add,
        List.flatMap_cons]
      rw [List.getElem?_append_left (by simpa using hk)]
      simp [List.getElem?_range hk]
    | succ i =>
      have := ih i (by simpa using hi)
      simp only [Spec.expectedList, Spec.offset, List.take_succ_cons, List.map_cons, List.sum_cons,
        List.flatMap_cons] at this ⊢
      rw [List.getElem?_append_right (by simp; omega)]
      rw [← this]
      congr 1
      simp
      omega

end PolyDiM
