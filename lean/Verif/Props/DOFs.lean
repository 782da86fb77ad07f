import Verif.Lemmas.DOFsFinal

/-!
# C01-C10: the DOF manager

Each theorem is stated with the vocabulary of `Verif/Spec/DOFs.lean` (input data and stored output) about the
model functions `createDOFs`, `computeCellsDOFsIndices`, `createConstantInfo` of `Verif/Model/DOFs.lean`.
-/

namespace PolyDiM

/-! ## A concrete mesh used to show that the hypotheses are met

The unit square cut into two triangles: 4 vertices, 5 edges, 2 cells; 1 DOF per vertex, 2 per edge, 1 per cell;
vertex 0 and edge 0 Strong, edge 1 Weak, edge 2 Robin, the rest None. -/

/-- Example connectivity (input of DOFsManager.hpp:636). -/
def exMesh : Mesh where
  cell1DVertices := fun c => [(0, 1), (1, 2), (2, 3), (3, 0), (0, 2)].getD c (0, 0)
  cell2DVertices := fun c => [[0, 1, 2], [0, 2, 3]].getD c []
  cell2DEdges := fun c => [[0, 1, 4], [4, 2, 3]].getD c []
  cell3DVertices := fun _ => []
  cell3DEdges := fun _ => []
  cell3DFaces := fun _ => []
  markers := fun d => [[1, 0, 0, 0], [1, 2, 4, 0, 0], [0, 0]].getD d []

/-- Example DOF info (input of DOFsManager.hpp:636). -/
def exInfo : MeshInfo where
  numDOFs := fun d => [[1, 1, 1, 1], [2, 2, 2, 2, 2], [1, 1]].getD d []
  bInfo := fun d => ([[.strong, .none, .none, .none], [.strong, .weak, .robin, .none, .none],
    [.none, .none]].getD d []).map fun t => ⟨t, 0⟩

/-- The example is accepted, is small, and has free, strong, internal and boundary DOFs. -/
theorem exInfo_ok : ∃ data, createDOFs 2 exInfo exMesh = .ok data ∧ Spec.totalRequested exInfo 2 < 2 ^ 32 ∧
    data.counters = ⟨13, 9, 4, 3⟩ := ⟨_, rfl, by decide, rfl⟩

/-! ## C01, C02: dense numbering without collision -/

/-- **C01.** After `CreateDOFs_xD` the indices of the free DOFs are exactly `0..NumberDOFs-1`, each used by
exactly one stored DOF (dimension, cell, position). -/
theorem C01_free_numbering (D : Fin 4) (info : MeshInfo) (mesh : Mesh) (data : DOFsData)
    (h : createDOFs D info mesh = .ok data) (hov : Spec.totalRequested info D < 2 ^ 32) :
    (∀ i, i < data.counters.dofs → ∃! p : Nat × Nat × Nat, Spec.dofAt data p.1 p.2.1 p.2.2 = some ⟨.dof, i⟩) ∧
    (∀ d c k i, Spec.dofAt data d c k = some ⟨.dof, i⟩ → d ≤ D ∧ i < data.counters.dofs) := by
  have I1 := inv1_of h hov
  obtain ⟨a, b⟩ := existsUnique_of_range data _ freeIdx .dof _ freeIdx_iff I1.free (inv0_of h).later
  refine ⟨a, fun d c k i hx => ?_⟩
  obtain ⟨b1, b2⟩ := b d c k i hx
  exact ⟨by omega, b2⟩

example : ∃ data, createDOFs 2 exInfo exMesh = .ok data ∧ Spec.totalRequested exInfo 2 < 2 ^ 32 ∧
    0 < data.counters.dofs ∧ Spec.dofAt data 1 2 0 = some ⟨.dof, 5⟩ := ⟨_, rfl, by decide, by decide, rfl⟩

/-- **C02.** The same for the Strong DOFs and `NumberStrongs`. -/
theorem C02_strong_numbering (D : Fin 4) (info : MeshInfo) (mesh : Mesh) (data : DOFsData)
    (h : createDOFs D info mesh = .ok data) (hov : Spec.totalRequested info D < 2 ^ 32) :
    (∀ i, i < data.counters.strongs →
      ∃! p : Nat × Nat × Nat, Spec.dofAt data p.1 p.2.1 p.2.2 = some ⟨.strong, i⟩) ∧
    (∀ d c k i, Spec.dofAt data d c k = some ⟨.strong, i⟩ → d ≤ D ∧ i < data.counters.strongs) := by
  have I1 := inv1_of h hov
  obtain ⟨a, b⟩ := existsUnique_of_range data _ strongIdx .strong _ strongIdx_iff I1.strong (inv0_of h).later
  refine ⟨a, fun d c k i hx => ?_⟩
  obtain ⟨b1, b2⟩ := b d c k i hx
  exact ⟨by omega, b2⟩

example : ∃ data, createDOFs 2 exInfo exMesh = .ok data ∧ Spec.totalRequested exInfo 2 < 2 ^ 32 ∧
    data.counters.strongs = 3 ∧ Spec.dofAt data 1 0 1 = some ⟨.strong, 2⟩ := ⟨_, rfl, by decide, rfl, rfl⟩

/-! ## C03: counters -/

/-- **C03.** The four global counters are the numbers of requested DOFs on the cells of the respective boundary
types; free = internal + boundary, and free + strong = everything requested. -/
theorem C03_counters (D : Fin 4) (info : MeshInfo) (mesh : Mesh) (data : DOFsData)
    (h : createDOFs D info mesh = .ok data) (hov : Spec.totalRequested info D < 2 ^ 32) :
    data.counters.internal = Spec.requestedOn info D (fun t => t = .none) ∧
    data.counters.boundary = Spec.requestedOn info D (fun t => t = .weak ∨ t = .robin) ∧
    data.counters.strongs = Spec.requestedOn info D (fun t => t = .strong) ∧
    data.counters.dofs = data.counters.internal + data.counters.boundary ∧
    data.counters.dofs + data.counters.strongs = Spec.totalRequested info D := by
  have I1 := inv1_of h hov
  have hwf : ∀ d, d < D.val + 1 → ∀ c, c < (info.numDOFs d).length →
      ∃ b, (info.bInfo d)[c]? = some b ∧ b.type ≠ .unknwon := by
    intro d hd c hc
    rw [createDOFs_eq] at h
    exact ((createUpTo_ok_iff info mesh (D.val + 1) (by omega)).1 ⟨data, h⟩ d hd c hc).1
  obtain ⟨s1, s2⟩ := countUpTo_split info (D.val + 1) hwf
  have hp : ∀ (p : BType → Bool) (q : BType → Prop) [DecidablePred q], (∀ t, p t = decide (q t)) →
      countUpTo p info (D.val + 1) = Spec.requestedOn info D (fun t => q t) := by
    intro p q _ hpq
    have : p = fun t => decide (q t) := funext hpq
    subst this
    rfl
  refine ⟨?_, ?_, ?_, ?_, ?_⟩
  · rw [I1.cinternal]; exact hp isNoneB _ (by intro t; cases t <;> simp [isNoneB])
  · rw [I1.cboundary]; exact hp isWeakB _ (by intro t; cases t <;> simp [isWeakB])
  · rw [I1.cstrongs]; exact hp isStrongB _ (by intro t; cases t <;> simp [isStrongB])
  · rw [I1.cdofs, I1.cinternal, I1.cboundary, s2]
  · rw [I1.cdofs, I1.cstrongs, s1]; rfl

example : ∃ data, createDOFs 2 exInfo exMesh = .ok data ∧ Spec.totalRequested exInfo 2 < 2 ^ 32 ∧
    data.counters = ⟨13, 9, 4, 3⟩ ∧ Spec.totalRequested exInfo 2 = 16 := ⟨_, rfl, by decide, rfl, rfl⟩

/-! ## C04: each cell by itself -/

/-- **C04.** A cell asking for `n` DOFs with boundary type `b` owns exactly the DOFs `0..n-1`, all of the type
prescribed by `b`, and its own counters report `n` free or `n` strong DOFs. -/
theorem C04_cell_dofs (D : Fin 4) (info : MeshInfo) (mesh : Mesh) (data : DOFsData)
    (h : createDOFs D info mesh = .ok data) (d c n : Nat) (b : BInfo) (hd : d ≤ D)
    (hn : (info.numDOFs d)[c]? = some n) (hb : (info.bInfo d)[c]? = some b) :
    (∀ k, (Spec.dofAt data d c k).isSome ↔ k < n) ∧
    (∀ k x, Spec.dofAt data d c k = some x → x.type = Spec.typeFor b.type) ∧
    ∃ cell, (data.dims d).cells[c]? = some cell ∧
      cell.numDOFs = (if b.type = .strong then 0 else n) ∧ cell.numStrongs = (if b.type = .strong then n else 0) := by
  have I := inv0_of h
  have hc : c < (info.numDOFs d).length := (List.getElem?_eq_some_iff.1 hn).1
  have hc' : c < (data.dims d).cells.length := by rw [I.len d (by omega)]; exact hc
  have hx : (data.dims d).cells[c]? = some (data.dims d).cells[c] := List.getElem?_eq_getElem hc'
  obtain ⟨m, b', hm, hb', ok⟩ := I.cells d (by omega) c _ hx
  rw [hn] at hm; rw [hb] at hb'
  simp only [Option.some.injEq] at hm hb'
  subst hm; subst hb'
  refine ⟨?_, ?_, _, hx, ?_, ?_⟩
  · intro k
    simp only [Spec.dofAt, hx, Option.bind_some]
    rw [← ok.len]
    simp
  · intro k x hk
    simp only [Spec.dofAt, hx, Option.bind_some] at hk
    exact ok.types x (List.mem_of_getElem? hk)
  · rw [ok.nD]
    have := ok.known
    cases ht : b.type <;> simp_all [isFreeB]
  · rw [ok.nS]
    cases ht : b.type <;> simp [isStrongB]

/-- **C04, markers.** Only the boundary types matter: changing the markers stored in the boundary descriptions
changes nothing. -/
theorem C04_markers_irrelevant (D : Fin 4) (info info' : MeshInfo) (mesh : Mesh)
    (hn : ∀ d, info.numDOFs d = info'.numDOFs d)
    (ht : ∀ d, (info.bInfo d).map BInfo.type = (info'.bInfo d).map BInfo.type) :
    createDOFs D info mesh = createDOFs D info' mesh := by
  rw [createDOFs_eq, createDOFs_eq]
  exact createUpTo_congr info info' mesh _ (funext hn) ht

example : ∃ data, createDOFs 2 exInfo exMesh = .ok data ∧ 1 ≤ (2 : Fin 4).val ∧
    (exInfo.numDOFs 1)[1]? = some 2 ∧ (exInfo.bInfo 1)[1]? = some ⟨.weak, 0⟩ := ⟨_, rfl, by decide, rfl, rfl⟩

/-- Same types as `exInfo`, other markers. -/
def exInfo' : MeshInfo := { exInfo with bInfo := fun d => (exInfo.bInfo d).map fun b => ⟨b.type, 7⟩ }

example : (∀ d, exInfo.numDOFs d = exInfo'.numDOFs d) ∧
    (∀ d, (exInfo.bInfo d).map BInfo.type = (exInfo'.bInfo d).map BInfo.type) ∧
    exInfo.bInfo 0 ≠ exInfo'.bInfo 0 :=
  ⟨fun _ => rfl, fun d => by simp [exInfo', Function.comp_def], by decide⟩

/-! ## C05: success exactly on well-formed input -/

/-- **C05.** `CreateDOFs_xD` returns exactly on well-formed input; otherwise it throws (`std::out_of_range` or the
unknown-boundary-type error), and it never runs into undefined behaviour. -/
theorem C05_total (D : Fin 4) (info : MeshInfo) (mesh : Mesh) :
    ((∃ data, createDOFs D info mesh = .ok data) ↔ Spec.WellFormed D info mesh) ∧
    (∀ e, createDOFs D info mesh = .error e → e = .outOfRange ∨ e = .unknownBoundaryType) := by
  rw [createDOFs_eq]
  refine ⟨?_, fun e he => createUpTo_error info mesh _ (by omega) he⟩
  rw [createUpTo_ok_iff info mesh _ (by omega)]
  constructor
  · intro h d hd; exact h d (by omega)
  · intro h d hd; exact h d (by omega)

example : Spec.WellFormed 2 exInfo exMesh := (C05_total 2 exInfo exMesh).1.1 ⟨_, rfl⟩

/-- An unknown boundary type on one edge makes the creation throw. -/
example : createDOFs 2 { exInfo with bInfo := fun d => if d = 1 then [⟨.none, 0⟩, ⟨.unknwon, 0⟩] else exInfo.bInfo d } exMesh =
    .error .unknownBoundaryType := rfl

/-! ## C06: the DOF list of a cell -/

/-- **C06.** Every cell (and nothing else) has a DOF list; it is the closure in the documented order, each entity
contributing its DOFs `0,1,2,…`; every entry refers to an existing DOF, and the two counters are the numbers of
entries of that type. -/
theorem C06_cell_list (D : Fin 4) (info : MeshInfo) (mesh : Mesh) (data : DOFsData)
    (h : createDOFs D info mesh = .ok data) (d c : Nat) :
    ((Spec.globalsAt data d c).isSome ↔ d ≤ D ∧ c < (info.numDOFs d).length) ∧
    ∀ g, Spec.globalsAt data d c = some g →
      g.gdofs = Spec.expectedList info (Spec.closure mesh d c) ∧
      (∀ r ∈ g.gdofs, ∃ x, Spec.lookup data r = some x ∧ x.type ≠ .unknwon) ∧
      g.numDOFs = g.gdofs.countP (fun r => (Spec.lookup data r).map DOF.type == some .dof) ∧
      g.numStrongs = g.gdofs.countP (fun r => (Spec.lookup data r).map DOF.type == some .strong) := by
  have I := inv0_of h
  constructor
  · constructor
    · intro hs
      obtain ⟨g, hg⟩ := Option.isSome_iff_exists.1 hs
      obtain ⟨a, b⟩ := globals_lt I hg
      exact ⟨by omega, b⟩
    · rintro ⟨hd, hc⟩
      rw [globals_get I (by omega) hc]; rfl
  · intro g hg
    obtain ⟨hd, hc⟩ := globals_lt I hg
    have hcl := closure_ok I hd hc
    rw [globals_get I hd hc, Option.some.injEq] at hg
    subst hg
    exact ⟨gdofs_eq hcl, gdofs_lookup hcl, (global_counts hcl).1, (global_counts hcl).2⟩

example : ∃ data g, createDOFs 2 exInfo exMesh = .ok data ∧ Spec.globalsAt data 2 1 = some g ∧
    g.gdofs.length = 10 ∧ g.numDOFs = 9 ∧ g.numStrongs = 1 := ⟨_, _, rfl, rfl, rfl, rfl, rfl⟩

/-! ## C07: conformity -/

/-- **C07.** If the `i`-th closure entity of one cell is the `j`-th closure entity of another, the two blocks of
their DOF lists resolve entry by entry to the same existing DOF (same type, same global index). -/
theorem C07_shared_entity (D : Fin 4) (info : MeshInfo) (mesh : Mesh) (data : DOFsData)
    (h : createDOFs D info mesh = .ok data) (d₁ c₁ d₂ c₂ : Nat) (g₁ g₂ : CellGlobal)
    (h₁ : Spec.globalsAt data d₁ c₁ = some g₁) (h₂ : Spec.globalsAt data d₂ c₂ = some g₂)
    (i j : Nat) (e : Nat × Nat)
    (hi : (Spec.closure mesh d₁ c₁)[i]? = some e) (hj : (Spec.closure mesh d₂ c₂)[j]? = some e)
    (k : Nat) (hk : k < Spec.requested info e) :
    ∃ r₁ r₂ x, g₁.gdofs[Spec.offset info (Spec.closure mesh d₁ c₁) i + k]? = some r₁ ∧
      g₂.gdofs[Spec.offset info (Spec.closure mesh d₂ c₂) j + k]? = some r₂ ∧
      Spec.lookup data r₁ = some x ∧ Spec.lookup data r₂ = some x ∧ x.type ≠ .unknwon := by
  obtain ⟨a₁, a₂, -, -⟩ := (C06_cell_list D info mesh data h d₁ c₁).2 g₁ h₁
  obtain ⟨b₁, -, -, -⟩ := (C06_cell_list D info mesh data h d₂ c₂).2 g₂ h₂
  have p₁ := expected_get info _ i e hi k hk
  have p₂ := expected_get info _ j e hj k hk
  rw [← a₁] at p₁
  rw [← b₁] at p₂
  obtain ⟨x, hx, hne⟩ := a₂ _ (List.mem_of_getElem? p₁)
  exact ⟨_, _, x, p₁, p₂, hx, hx, hne⟩

/-- **C07, converse.** If an entry `r₁` of the DOF list of a cell and any other reference `r₂` (for example an entry of
another cell) resolve to the same type and global index, they are the same DOF of the same entity. -/
theorem C07_converse (D : Fin 4) (info : MeshInfo) (mesh : Mesh) (data : DOFsData)
    (h : createDOFs D info mesh = .ok data) (hov : Spec.totalRequested info D < 2 ^ 32)
    (d₁ c₁ : Nat) (g₁ : CellGlobal) (h₁ : Spec.globalsAt data d₁ c₁ = some g₁)
    (r₁ r₂ : GDOF) (hr₁ : r₁ ∈ g₁.gdofs) (x : DOF)
    (hx₁ : Spec.lookup data r₁ = some x) (hx₂ : Spec.lookup data r₂ = some x) : r₁ = r₂ := by
  obtain ⟨-, a₂, -, -⟩ := (C06_cell_list D info mesh data h d₁ c₁).2 g₁ h₁
  obtain ⟨y, hy, hne⟩ := a₂ r₁ hr₁
  rw [hx₁, Option.some.injEq] at hy
  subst hy
  have key : ∀ t, x.type = t → (∀ i, Spec.dofAt data r₁.dim r₁.cell r₁.dof = some ⟨t, i⟩ →
      ∃! p : Nat × Nat × Nat, Spec.dofAt data p.1 p.2.1 p.2.2 = some ⟨t, i⟩) → r₁ = r₂ := by
    intro t ht hu
    obtain ⟨xt, xi⟩ := x
    simp only at ht
    subst ht
    obtain ⟨p, -, hp⟩ := hu xi hx₁
    have e₁ := hp (r₁.dim, r₁.cell, r₁.dof) hx₁
    have e₂ := hp (r₂.dim, r₂.cell, r₂.dof) hx₂
    have e := e₁.trans e₂.symm
    obtain ⟨_, _, _⟩ := r₁
    obtain ⟨_, _, _⟩ := r₂
    simp only [Prod.mk.injEq] at e
    obtain ⟨rfl, rfl, rfl⟩ := e
    rfl
  cases ht : x.type with
  | unknwon => exact absurd ht hne
  | dof =>
    obtain ⟨u, b⟩ := C01_free_numbering D info mesh data h hov
    exact key _ ht (fun i hi => u i (b _ _ _ _ hi).2)
  | strong =>
    obtain ⟨u, b⟩ := C02_strong_numbering D info mesh data h hov
    exact key _ ht (fun i hi => u i (b _ _ _ _ hi).2)

/-- Edge 4 is shared by the two triangles: third edge of the first, first edge of the second. -/
example : ∃ data g₁ g₂, createDOFs 2 exInfo exMesh = .ok data ∧ Spec.globalsAt data 2 0 = some g₁ ∧
    Spec.globalsAt data 2 1 = some g₂ ∧ (Spec.closure exMesh 2 0)[5]? = some (1, 4) ∧
    (Spec.closure exMesh 2 1)[3]? = some (1, 4) ∧ 1 < Spec.requested exInfo (1, 4) :=
  ⟨_, _, _, rfl, rfl, rfl, rfl, rfl, by decide⟩

/-! ## C08: has-internal / has-boundary flags -/

/-- **C08 is false for the code**: there is a valid mesh (one edge with an own free DOF, Strong end points) whose
closure carries a DOF of boundary type None while the flag says there is none. -/
theorem C08_false : ∃ (info : MeshInfo) (mesh : Mesh) (data : DOFsData) (g : CellGlobal),
    createDOFs 1 info mesh = .ok data ∧ Spec.globalsAt data 1 0 = some g ∧ ¬ Spec.FlagsExact info g := by
  refine ⟨⟨fun d => [[1, 1], [1]].getD d [], fun d => [[⟨.strong, 1⟩, ⟨.strong, 1⟩], [⟨.none, 0⟩]].getD d []⟩,
    { exMesh with cell1DVertices := fun _ => (0, 1) }, _, _, rfl, rfl, ?_⟩
  intro hf
  exact absurd (hf.1.2 ⟨⟨1, 0, 0⟩, by decide, rfl⟩) (by decide)

/-- **C08, partial.** What the flags do report: whether the closure contains an entity of codimension one with
boundary type None (Weak or Robin), with or without DOFs. Missing from the full claim `Spec.FlagsExact`: entities
of other dimensions, the cell itself, and the requirement that the entity carries a DOF. -/
theorem C08_flags_partial (D : Fin 4) (info : MeshInfo) (mesh : Mesh) (data : DOFsData)
    (h : createDOFs D info mesh = .ok data) (d c : Nat) (g : CellGlobal)
    (hg : Spec.globalsAt data d c = some g) :
    (g.hasInternal = true ↔ ∃ e ∈ Spec.closure mesh d c, e.1 + 1 = d ∧ Spec.bTypeOf info e = some .none) ∧
    (g.hasBoundary = true ↔ ∃ e ∈ Spec.closure mesh d c, e.1 + 1 = d ∧
      (Spec.bTypeOf info e = some .weak ∨ Spec.bTypeOf info e = some .robin)) := by
  have I := inv0_of h
  obtain ⟨hd, hc⟩ := globals_lt I hg
  have hcl := closure_ok I hd hc
  rw [globals_get I hd hc, Option.some.injEq] at hg
  subst hg
  simp only [globalOf, List.any_eq_true, Bool.and_eq_true, beq_iff_eq]
  constructor <;> constructor <;> rintro ⟨e, he, hed, hx⟩ <;> refine ⟨e, he, hed, ?_⟩ <;>
    obtain ⟨x, b, ok⟩ := hcl e he
  · rw [ok.cellAt_eq, ok.ok.hI] at hx
    rw [ok.bt]; cases ht : b.type <;> simp_all [isNoneB]
  · rw [ok.cellAt_eq, ok.ok.hI]
    rw [ok.bt] at hx; cases ht : b.type <;> simp_all [isNoneB]
  · rw [ok.cellAt_eq, ok.ok.hB] at hx
    rw [ok.bt]; cases ht : b.type <;> simp_all [isWeakB]
  · rw [ok.cellAt_eq, ok.ok.hB]
    rw [ok.bt] at hx; cases ht : b.type <;> simp_all [isWeakB]

/-- **C08 on the meshes where it does hold**: if the codimension-one entities carry DOFs and every other entity of the
closure is Strong or carries none, the flags are exact. -/
theorem C08_flags_exact_of_codim_one (D : Fin 4) (info : MeshInfo) (mesh : Mesh) (data : DOFsData)
    (h : createDOFs D info mesh = .ok data) (d c : Nat) (g : CellGlobal)
    (hg : Spec.globalsAt data d c = some g)
    (h1 : ∀ e ∈ Spec.closure mesh d c, e.1 + 1 = d → 0 < Spec.requested info e)
    (h2 : ∀ e ∈ Spec.closure mesh d c, e.1 + 1 ≠ d →
      Spec.bTypeOf info e = some .strong ∨ Spec.requested info e = 0) :
    Spec.FlagsExact info g := by
  obtain ⟨a, b⟩ := C08_flags_partial D info mesh data h d c g hg
  obtain ⟨l, -⟩ := (C06_cell_list D info mesh data h d c).2 g hg
  have mem : ∀ P : Nat × Nat → Prop, (∀ e, P e → Spec.bTypeOf info e ≠ some .strong) →
      ((∃ e ∈ Spec.closure mesh d c, e.1 + 1 = d ∧ P e) ↔ ∃ r ∈ g.gdofs, P (r.dim, r.cell)) := by
    intro P hP
    rw [l]
    simp only [Spec.expectedList, List.mem_flatMap, List.mem_map, List.mem_range]
    constructor
    · rintro ⟨e, he, hed, hp⟩
      exact ⟨⟨e.1, e.2, 0⟩, ⟨e, he, 0, h1 e he hed, rfl⟩, hp⟩
    · rintro ⟨r, ⟨e, he, k, hk, rfl⟩, hp⟩
      refine ⟨e, he, ?_, hp⟩
      by_contra hed
      rcases h2 e he hed with hs | hz
      · exact hP _ hp hs
      · omega
  constructor
  · rw [a]; exact mem (fun e => Spec.bTypeOf info e = some .none) (by intro e he; simp [he])
  · rw [b]
    exact mem (fun e => Spec.bTypeOf info e = some .weak ∨ Spec.bTypeOf info e = some .robin)
      (by rintro e (he | he) <;> simp [he])

example : ∃ data g, createDOFs 2 exInfo exMesh = .ok data ∧ Spec.globalsAt data 2 0 = some g ∧
    g.hasInternal = true ∧ g.hasBoundary = true := ⟨_, _, rfl, rfl, rfl, rfl⟩

/-- One edge with free end points and no own DOF meets the hypotheses of `C08_flags_exact_of_codim_one`. -/
example : ∃ (info : MeshInfo) (mesh : Mesh) (data : DOFsData) (g : CellGlobal),
    createDOFs 1 info mesh = .ok data ∧ Spec.globalsAt data 1 0 = some g ∧
    (∀ e ∈ Spec.closure mesh 1 0, e.1 + 1 = 1 → 0 < Spec.requested info e) ∧
    (∀ e ∈ Spec.closure mesh 1 0, e.1 + 1 ≠ 1 →
      Spec.bTypeOf info e = some .strong ∨ Spec.requested info e = 0) ∧ g.hasInternal = true := by
  refine ⟨⟨fun d => [[1, 1], [0]].getD d [], fun d => [[⟨.strong, 1⟩, ⟨.none, 1⟩], [⟨.none, 0⟩]].getD d []⟩,
    { exMesh with cell1DVertices := fun _ => (0, 1) }, _, _, rfl, rfl, ?_, ?_, rfl⟩ <;> decide

/-! ## C09: splitting into free and strong -/

/-- **C09.** `ComputeCellsDOFsIndices` succeeds on every created numbering and returns one entry per cell; in it the
free (strong) local positions are strictly increasing, and a pair (position, index) appears in the free (strong)
lists exactly when the DOF at that position is free (strong) with that global index. Hence every local position is
in exactly one of the two lists. -/
theorem C09_indices (D : Fin 4) (info : MeshInfo) (mesh : Mesh) (data : DOFsData)
    (h : createDOFs D info mesh = .ok data) (d : Nat) :
    ∃ res, computeCellsDOFsIndices data d = .ok res ∧ res.length = (data.dims d).globals.length ∧
      ∀ (c : Nat) (g : CellGlobal) (ci : CellIndices), Spec.globalsAt data d c = some g → res[c]? = some ci →
        ci.dofsLocal.length = ci.dofsGlobal.length ∧ ci.strongsLocal.length = ci.strongsGlobal.length ∧
        ci.dofsLocal.Pairwise (· < ·) ∧ ci.strongsLocal.Pairwise (· < ·) ∧
        (∀ p i, (p, i) ∈ ci.dofsLocal.zip ci.dofsGlobal ↔
          ∃ r, g.gdofs[p]? = some r ∧ Spec.lookup data r = some ⟨.dof, i⟩) ∧
        (∀ p i, (p, i) ∈ ci.strongsLocal.zip ci.strongsGlobal ↔
          ∃ r, g.gdofs[p]? = some r ∧ Spec.lookup data r = some ⟨.strong, i⟩) ∧
        (∀ p, p < g.gdofs.length ↔ (p ∈ ci.dofsLocal ∨ p ∈ ci.strongsLocal)) ∧
        (∀ p, ¬ (p ∈ ci.dofsLocal ∧ p ∈ ci.strongsLocal)) := by
  have I := inv0_of h
  have hall : ∀ g ∈ (data.dims d).globals, ∀ r ∈ g.gdofs, ∃ x, Spec.lookup data r = some x ∧ x.type ≠ .unknwon := by
    intro g hg
    obtain ⟨c, hc, hcg⟩ := List.getElem_of_mem hg
    have : Spec.globalsAt data d c = some g := by rw [Spec.globalsAt, List.getElem?_eq_getElem hc, hcg]
    exact ((C06_cell_list D info mesh data h d c).2 g this).2.1
  obtain ⟨res, h1, h2, h3⟩ := indicesLoop_spec data _ hall
  refine ⟨res, h1, h2, ?_⟩
  intro c g ci hg hci
  obtain ⟨s, t⟩ := h3 c g ci hg hci
  have ms : ∀ p i, (p, i) ∈ ci.dofsLocal.zip ci.dofsGlobal ↔
      ∃ r, g.gdofs[p]? = some r ∧ Spec.lookup data r = some ⟨.dof, i⟩ := by
    intro p i
    rw [s.mem]
    constructor
    · rintro ⟨j, r, rfl, hj, hr⟩; exact ⟨r, by simpa using hj, hr⟩
    · rintro ⟨r, hr, hl⟩; exact ⟨p, r, by omega, hr, hl⟩
  have mt : ∀ p i, (p, i) ∈ ci.strongsLocal.zip ci.strongsGlobal ↔
      ∃ r, g.gdofs[p]? = some r ∧ Spec.lookup data r = some ⟨.strong, i⟩ := by
    intro p i
    rw [t.mem]
    constructor
    · rintro ⟨j, r, rfl, hj, hr⟩; exact ⟨r, by simpa using hj, hr⟩
    · rintro ⟨r, hr, hl⟩; exact ⟨p, r, by omega, hr, hl⟩
  have fst : ∀ (l m : List Nat), l.length = m.length → ∀ p, p ∈ l ↔ ∃ i, (p, i) ∈ l.zip m := by
    intro l m hl p
    constructor
    · intro hp
      obtain ⟨n, hn, rfl⟩ := List.getElem_of_mem hp
      refine ⟨m[n]'(by omega), ?_⟩
      rw [List.mem_iff_getElem]
      exact ⟨n, by simp; omega, by simp⟩
    · rintro ⟨i, hi⟩; exact (List.of_mem_zip hi).1
  refine ⟨s.len, t.len, s.sorted, t.sorted, ms, mt, ?_, ?_⟩
  · intro p
    rw [fst _ _ s.len, fst _ _ t.len]
    constructor
    · intro hp
      have hp' : g.gdofs[p]? = some g.gdofs[p] := List.getElem?_eq_getElem hp
      obtain ⟨x, hx, hne⟩ := ((C06_cell_list D info mesh data h d c).2 g hg).2.1 _ (List.mem_of_getElem? hp')
      obtain ⟨xt, xi⟩ := x
      cases xt with
      | unknwon => simp at hne
      | dof => exact .inl ⟨xi, (ms p xi).2 ⟨_, hp', hx⟩⟩
      | strong => exact .inr ⟨xi, (mt p xi).2 ⟨_, hp', hx⟩⟩
    · rintro (⟨i, hi⟩ | ⟨i, hi⟩)
      · obtain ⟨r, hr, _⟩ := (ms p i).1 hi
        exact (List.getElem?_eq_some_iff.1 hr).1
      · obtain ⟨r, hr, _⟩ := (mt p i).1 hi
        exact (List.getElem?_eq_some_iff.1 hr).1
  · rintro p ⟨h4, h5⟩
    rw [fst _ _ s.len] at h4
    rw [fst _ _ t.len] at h5
    obtain ⟨i, hi⟩ := h4
    obtain ⟨j, hj⟩ := h5
    obtain ⟨r, hr, hx⟩ := (ms p i).1 hi
    obtain ⟨r', hr', hx'⟩ := (mt p j).1 hj
    rw [hr] at hr'
    simp only [Option.some.injEq] at hr'
    subst hr'
    rw [hx] at hx'
    simp at hx'

example : ∃ data res ci, createDOFs 2 exInfo exMesh = .ok data ∧ computeCellsDOFsIndices data 2 = .ok res ∧
    res[0]? = some ci ∧ ci.strongsLocal = [0, 3, 4] ∧ ci.dofsLocal = [1, 2, 5, 6, 7, 8, 9] ∧
    ci.dofsGlobal = [0, 1, 3, 4, 9, 10, 11] := ⟨_, _, _, rfl, rfl, rfl, rfl, rfl, rfl⟩

/-! ## C10: constant DOF info -/

/-- **C10.** `Create_Constant_DOFsInfo_xD` throws (`std::out_of_range`) exactly when some cell of dimension `0..x` has a
marker missing from the map; otherwise cell `c` of dimension `d` gets the constant number of DOFs and the description
registered for its marker, and dimensions above `x` stay empty. -/
theorem C10_constant_info (D : Fin 4) (mesh : Mesh) (ci : ConstantInfo) :
    ((∃ info, createConstantInfo D mesh ci = .ok info) ↔
      ∀ d : Nat, d ≤ D.val → ∀ m ∈ mesh.markers d, (ci.boundary m).isSome) ∧
    (∀ e, createConstantInfo D mesh ci = .error e → e = .outOfRange) ∧
    (∀ info, createConstantInfo D mesh ci = .ok info →
      (∀ d : Nat, d ≤ D.val → (info.numDOFs d).length = (mesh.markers d).length ∧
        (info.bInfo d).length = (mesh.markers d).length ∧
        ∀ (c : Nat) (m : Nat), (mesh.markers d)[c]? = some m →
          (info.numDOFs d)[c]? = some (ci.numDOFs d) ∧ (info.bInfo d)[c]? = ci.boundary m) ∧
      (∀ d : Nat, D.val < d → info.numDOFs d = [] ∧ info.bInfo d = [])) := by
  rw [createConstantInfo_eq]
  obtain ⟨a, b, c⟩ := constantUpTo_spec mesh ci (D.val + 1)
  refine ⟨?_, c, ?_⟩
  · rw [b]
    constructor
    · intro h d hd; exact h d (by omega)
    · intro h d hd; exact h d (by omega)
  · intro info hinfo
    obtain ⟨a1, a2⟩ := a info hinfo
    have hsome := b.1 ⟨info, hinfo⟩
    refine ⟨?_, fun d hd => a2 d (by omega)⟩
    intro d hd
    obtain ⟨e1, e2⟩ := a1 d (by omega)
    refine ⟨by simp [e1], ?_, ?_⟩
    · have key : ∀ c : Nat, c < (info.bInfo d).length ↔ c < (mesh.markers d).length := by
        intro c
        have h0 := e2 c
        constructor
        · intro hc
          rw [List.getElem?_eq_getElem hc] at h0
          by_contra hm
          rw [List.getElem?_eq_none (by omega)] at h0
          simp at h0
        · intro hc
          rw [List.getElem?_eq_getElem hc, Option.bind_some] at h0
          have := hsome d (by omega) _ (List.getElem_mem hc)
          rw [← h0] at this
          by_contra hm
          rw [List.getElem?_eq_none (by omega)] at this
          simp at this
      have k1 := key (info.bInfo d).length
      have k2 := key (mesh.markers d).length
      omega
    · intro c m hm
      have hc := (List.getElem?_eq_some_iff.1 hm).1
      refine ⟨by simp [e1, hc], by rw [e2 c, hm]; rfl⟩

/-- Example map: markers 0, 1, 2, 4 are known. -/
def exConstant : ConstantInfo where
  numDOFs := fun d => [1, 2, 1, 0].getD d 0
  boundary := fun m => match m with
    | 0 => some ⟨.none, 0⟩ | 1 => some ⟨.strong, 1⟩ | 2 => some ⟨.weak, 2⟩ | 4 => some ⟨.robin, 4⟩ | _ => none

example : (∃ info, createConstantInfo 2 exMesh exConstant = .ok info ∧ info.numDOFs 1 = [2, 2, 2, 2, 2] ∧
    info.bInfo 0 = [⟨.strong, 1⟩, ⟨.none, 0⟩, ⟨.none, 0⟩, ⟨.none, 0⟩]) ∧
    createConstantInfo 2 { exMesh with markers := fun _ => [0, 3] } exConstant = .error .outOfRange :=
  ⟨⟨_, rfl, rfl, rfl⟩, rfl⟩

end PolyDiM
