import Verif.Lemmas.DOFsClosure

/-! Helper lemmas: the whole numbering, dimension by dimension. -/

namespace PolyDiM

/-- Process the dimensions `0..n-1` (helper for the proofs). -/
def createUpTo (info : MeshInfo) (mesh : Mesh) : Nat → Except Fault DOFsData
  | 0 => .ok emptyData
  | n + 1 =>
    match createUpTo info mesh n with
    | .error e => .error e
    | .ok d => createDim n (bodyOf mesh n) info d

theorem createDOFs_eq (D : Fin 4) (info : MeshInfo) (mesh : Mesh) :
    createDOFs D info mesh = createUpTo info mesh (D.val + 1) := by
  have bind_match : ∀ (x : Except Fault DOFsData) (f : DOFsData → Except Fault DOFsData),
      (x >>= f) = match x with | .error e => .error e | .ok d => f d := by
    intro x f; cases x <;> rfl
  match D with
  | 0 => rfl
  | 1 =>
    simp only [createDOFs, createDOFs_1D, bind_match]
    rfl
  | 2 =>
    simp only [createDOFs, createDOFs_2D, bind_match]
    show _ = (match (match createCell0DDOFs info emptyData with
      | .error e => .error e
      | .ok d => createCell1DDOFs mesh info d : Except Fault DOFsData) with
      | .error e => .error e
      | .ok d => createCell2DDOFs mesh info d : Except Fault DOFsData)
    cases createCell0DDOFs info emptyData <;> rfl
  | 3 =>
    simp only [createDOFs, createDOFs_3D, bind_match]
    show _ = (match (match (match createCell0DDOFs info emptyData with
      | .error e => .error e
      | .ok d => createCell1DDOFs mesh info d : Except Fault DOFsData) with
      | .error e => .error e
      | .ok d => createCell2DDOFs mesh info d : Except Fault DOFsData) with
      | .error e => .error e
      | .ok d => createCell3DDOFs mesh info d : Except Fault DOFsData)
    cases createCell0DDOFs info emptyData with
    | error e => rfl
    | ok d => 
      simp only
      cases createCell1DDOFs mesh info d <;> rfl

theorem cellsLoop_eq (body : Nat → Except Fault CellGlobal) (P : Nat → Prop) [DecidablePred P]
    (g : Nat → CellGlobal) (hb : ∀ c, body c = if P c then .ok (g c) else .error .outOfRange) (cs : List Nat) :
    cellsLoop body cs = if ∀ c ∈ cs, P c then .ok (cs.map g) else .error .outOfRange := by
  induction cs with
  | nil => simp [cellsLoop]
  | cons c cs ih =>
    rw [cellsLoop, hb c, ih]
    by_cases h : P c
    · by_cases h' : ∀ c ∈ cs, P c
      · rw [if_pos h, if_pos h', if_pos (by simpa [h] using h')]; rfl
      · rw [if_pos h, if_neg h', if_neg (by simpa [h] using h')]
    · rw [if_neg h]
      simp [h]

theorem closure_dim_le (mesh : Mesh) (d c : Nat) : ∀ e ∈ Spec.closure mesh d c, e.1 ≤ d := by
  intro e he
  match d with
  | 0 => simp [Spec.closure] at he; simp [he]
  | 1 => simp [Spec.closure] at he; rcases he with rfl | rfl | rfl <;> simp
  | 2 =>
    simp [Spec.closure] at he
    rcases he with ⟨a, _, rfl⟩ | ⟨a, _, rfl⟩ | rfl <;> simp
  | 3 =>
    simp [Spec.closure] at he
    rcases he with ⟨a, _, rfl⟩ | ⟨a, _, rfl⟩ | ⟨a, _, rfl⟩ | rfl <;> simp
  | n + 4 => simp [Spec.closure] at he

/-- The state right after `CreateCellDOFs` of dimension `n`. -/
def dims1 (data : DOFsData) (n : Nat) (cs : List CellDOFs) : Nat → DimData :=
  setDim data.dims n { data.dims n with cells := cs }

theorem createDim_eq (n : Nat) (hn : n < 4) (mesh : Mesh) (info : MeshInfo) (data : DOFsData) :
    createDim n (bodyOf mesh n) info data =
      match createCellsLoop data.counters (info.numDOFs n) (info.bInfo n) with
      | .error e => .error e
      | .ok (k, cs) =>
        if ∀ c ∈ List.range (info.numDOFs n).length, ∀ e ∈ Spec.closure mesh n c, Exists' (dims1 data n cs) e then
          .ok { counters := k
                dims := setDim data.dims n ⟨cs, (List.range (info.numDOFs n).length).map fun c =>
                  globalOf (dims1 data n cs) n (Spec.closure mesh n c)⟩ }
        else .error .outOfRange := by
  rw [createDim, createCellDOFs]
  cases createCellsLoop data.counters (info.numDOFs n) (info.bInfo n) with
  | error e => rfl
  | ok r =>
    obtain ⟨k, cs⟩ := r
    simp only [bind, Except.bind]
    have hl := cellsLoop_eq (bodyOf mesh n (dims1 data n cs)) _ _ (fun c => bodyOf_eq mesh n hn (dims1 data n cs) c)
      (List.range (info.numDOFs n).length)
    by_cases hx : ∀ c ∈ List.range (info.numDOFs n).length, ∀ e ∈ Spec.closure mesh n c,
        Exists' (dims1 data n cs) e
    · rw [if_pos hx] at hl ⊢
      simp only [dims1] at hl ⊢
      rw [hl]
      simp only [pure, Except.pure]
      congr 2
      funext i
      by_cases hi : i = n <;> simp [setDim, hi]
    · rw [if_neg hx] at hl ⊢
      simp only [dims1] at hl ⊢
      rw [hl]

theorem createCellsLoop_length {ns : List Nat} {bs : List BInfo} {k k' : Counters} {cs : List CellDOFs}
    (h : createCellsLoop k ns bs = .ok (k', cs)) : cs.length = ns.length := by
  induction ns generalizing bs k k' cs with
  | nil =>
    simp only [createCellsLoop, Except.ok.injEq, Prod.mk.injEq] at h
    obtain ⟨rfl, rfl⟩ := h
    simp
  | cons n ns ih =>
    cases bs with
    | nil => simp [createCellsLoop] at h
    | cons b bs =>
      rw [createCellsLoop] at h
      cases h1 : createOneCell k n b.type with
      | error e => simp [h1] at h
      | ok r =>
        obtain ⟨k1, x⟩ := r
        simp only [h1] at h
        cases h2 : createCellsLoop k1 ns bs with
        | error e => simp [h2] at h
        | ok r2 =>
          obtain ⟨k2, xs⟩ := r2
          simp only [h2, Except.ok.injEq, Prod.mk.injEq] at h
          obtain ⟨rfl, rfl⟩ := h
          simp [ih h2]

theorem createOneCell_cellOK {k k' : Counters} {n : Nat} {t : BType} {x : CellDOFs}
    (h : createOneCell k n t = .ok (k', x)) : CellOK n t x := by
  cases t <;> simp only [createOneCell, Except.ok.injEq, Prod.mk.injEq, reduceCtorEq] at h
  all_goals
    obtain ⟨rfl, rfl⟩ := h
    exact ⟨by simp, by simp [Spec.typeFor], by simp, by simp [isFreeB], by simp [isStrongB],
      by simp [isNoneB], by simp [isWeakB]⟩

theorem createCellsLoop_cells {ns : List Nat} {bs : List BInfo} {k k' : Counters} {cs : List CellDOFs}
    (h : createCellsLoop k ns bs = .ok (k', cs)) :
    ∀ (c : Nat) (x : CellDOFs), cs[c]? = some x →
      ∃ (n : Nat) (b : BInfo), ns[c]? = some n ∧ bs[c]? = some b ∧ CellOK n b.type x := by
  induction ns generalizing bs k k' cs with
  | nil =>
    simp only [createCellsLoop, Except.ok.injEq, Prod.mk.injEq] at h
    obtain ⟨rfl, rfl⟩ := h
    simp
  | cons n ns ih =>
    cases bs with
    | nil => simp [createCellsLoop] at h
    | cons b bs =>
      rw [createCellsLoop] at h
      cases h1 : createOneCell k n b.type with
      | error e => simp [h1] at h
      | ok r =>
        obtain ⟨k1, x⟩ := r
        simp only [h1] at h
        cases h2 : createCellsLoop k1 ns bs with
        | error e => simp [h2] at h
        | ok r2 =>
          obtain ⟨k2, xs⟩ := r2
          simp only [h2, Except.ok.injEq, Prod.mk.injEq] at h
          obtain ⟨rfl, rfl⟩ := h
          intro c y hc
          cases c with
          | zero =>
            simp only [List.getElem?_cons_zero, Option.some.injEq] at hc
            subst hc
            exact ⟨n, b, rfl, rfl, createOneCell_cellOK h1⟩
          | succ c => simpa using ih h2 c y (by simpa using hc)

theorem globalOf_congr {dims dims' : Nat → DimData} {d : Nat} {es : List (Nat × Nat)}
    (h : ∀ e ∈ es, (dims e.1).cells = (dims' e.1).cells) : globalOf dims d es = globalOf dims' d es := by
  have hc : ∀ e ∈ es, cellAt dims e = cellAt dims' e := by
    intro e he; simp [cellAt, h e he]
  have hb : ∀ e ∈ es, block dims e = block dims' e := by
    intro e he; simp [block, hc e he]
  have e1 : es.flatMap (block dims) = es.flatMap (block dims') := by
    rw [List.flatMap_def, List.flatMap_def, List.map_congr_left hb]
  have e2 : (es.map fun e => (cellAt dims e).numDOFs) = es.map fun e => (cellAt dims' e).numDOFs :=
    List.map_congr_left (fun e he => by rw [hc e he])
  have e3 : (es.map fun e => (cellAt dims e).numStrongs) = es.map fun e => (cellAt dims' e).numStrongs :=
    List.map_congr_left (fun e he => by rw [hc e he])
  have e4 : (es.any fun e => (e.1 + 1 == d) && (cellAt dims e).hasInternal) =
      es.any fun e => (e.1 + 1 == d) && (cellAt dims' e).hasInternal := by
    rw [Bool.eq_iff_iff, List.any_eq_true, List.any_eq_true]
    constructor <;> rintro ⟨e, he, h'⟩ <;> refine ⟨e, he, ?_⟩
    · rwa [← hc e he]
    · rwa [hc e he]
  have e5 : (es.any fun e => (e.1 + 1 == d) && (cellAt dims e).hasBoundary) =
      es.any fun e => (e.1 + 1 == d) && (cellAt dims' e).hasBoundary := by
    rw [Bool.eq_iff_iff, List.any_eq_true, List.any_eq_true]
    constructor <;> rintro ⟨e, he, h'⟩ <;> refine ⟨e, he, ?_⟩
    · rwa [← hc e he]
    · rwa [hc e he]
  unfold globalOf
  rw [e1, e2, e3, e4, e5]

/-- Structure of a successful result, independent of overflow. -/
structure Inv0 (info : MeshInfo) (mesh : Mesh) (n : Nat) (data : DOFsData) : Prop where
  len : ∀ d, d < n → (data.dims d).cells.length = (info.numDOFs d).length
  later : ∀ d, n ≤ d → data.dims d = ⟨[], []⟩
  globals : ∀ d, d < n → (data.dims d).globals =
    (List.range (info.numDOFs d).length).map fun c => globalOf data.dims d (Spec.closure mesh d c)
  ex : ∀ d, d < n → ∀ c, c < (info.numDOFs d).length → ∀ e ∈ Spec.closure mesh d c, Exists' data.dims e
  cells : ∀ d, d < n → ∀ (c : Nat) (x : CellDOFs), (data.dims d).cells[c]? = some x →
    ∃ (m : Nat) (b : BInfo), (info.numDOFs d)[c]? = some m ∧ (info.bInfo d)[c]? = some b ∧ CellOK m b.type x

theorem createUpTo_inv0 (info : MeshInfo) (mesh : Mesh) (n : Nat) (hn : n ≤ 4) {data : DOFsData}
    (h : createUpTo info mesh n = .ok data) : Inv0 info mesh n data := by
  induction n generalizing data with
  | zero =>
    simp only [createUpTo, Except.ok.injEq] at h
    subst h
    exact ⟨by simp, by simp [emptyData], by simp, by simp, by simp⟩
  | succ n ih =>
    rw [createUpTo] at h
    cases h1 : createUpTo info mesh n with
    | error e => simp [h1] at h
    | ok d0 =>
      have I := ih (by omega) h1
      simp only [h1, createDim_eq n (by omega)] at h
      cases h2 : createCellsLoop d0.counters (info.numDOFs n) (info.bInfo n) with
      | error e => simp [h2] at h
      | ok r =>
        obtain ⟨k, cs⟩ := r
        simp only [h2] at h
        split at h
        · rename_i hex
          simp only [Except.ok.injEq] at h
          subst h
          have hlen := createCellsLoop_length h2
          have key : ∀ (e : Nat × Nat) (gs : List CellGlobal),
              (setDim d0.dims n ⟨cs, gs⟩ e.1).cells = (dims1 d0 n cs e.1).cells := by
            intro e gs
            by_cases hi : e.1 = n <;> simp [setDim, dims1, hi]
          have key2 : ∀ (e : Nat × Nat) (gs : List CellGlobal), e.1 < n →
              (setDim d0.dims n ⟨cs, gs⟩ e.1).cells = (d0.dims e.1).cells := by
            intro e gs hi
            have : e.1 ≠ n := by omega
            simp [setDim, this]
          refine ⟨?_, ?_, ?_, ?_, ?_⟩
          · intro d hd
            by_cases hi : d = n
            · subst hi; simpa [setDim] using hlen
            · simpa [setDim, hi] using I.len d (by omega)
          · intro d hd
            have hi : d ≠ n := by omega
            simpa [setDim, hi] using I.later d (by omega)
          · intro d hd
            by_cases hi : d = n
            · subst hi
              simp only [setDim, if_true]
              apply List.map_congr_left
              intro c _
              apply globalOf_congr
              intro e he
              exact (key e _).symm
            · have hd' : d < n := by omega
              have hs : ∀ x, setDim d0.dims n x d = d0.dims d := by intro x; simp [setDim, hi]
              simp only [hs]
              rw [I.globals d hd']
              apply List.map_congr_left
              intro c _
              apply globalOf_congr
              intro e he
              exact (key2 e _ (by have := closure_dim_le mesh d c e he; omega)).symm
          · intro d hd c hc e he
            by_cases hi : d = n
            · subst hi
              have := hex c (by simpa using hc) e he
              unfold Exists' at *
              rwa [key e]
            · have hd' : d < n := by omega
              have := I.ex d hd' c hc e he
              unfold Exists' at *
              rwa [key2 e _ (by have := closure_dim_le mesh d c e he; omega)]
          · intro d hd c x hx
            by_cases hi : d = n
            · subst hi
              simp only [setDim, if_true] at hx
              exact createCellsLoop_cells h2 c x hx
            · simp only [setDim, hi, if_false] at hx
              exact I.cells d (by omega) c x hx
        · simp at h

theorem createUpTo_ok_iff (info : MeshInfo) (mesh : Mesh) (n : Nat) (hn : n ≤ 4) :
    (∃ data, createUpTo info mesh n = .ok data) ↔
      ∀ d, d < n → ∀ c, c < (info.numDOFs d).length →
        (∃ b, (info.bInfo d)[c]? = some b ∧ b.type ≠ .unknwon) ∧
        ∀ e ∈ Spec.closure mesh d c, e.2 < (info.numDOFs e.1).length := by
  induction n with
  | zero => simp [createUpTo]
  | succ n ih =>
    have ih := ih (by omega)
    cases h1 : createUpTo info mesh n with
    | error e =>
      simp only [createUpTo, h1, reduceCtorEq, exists_false, false_iff] at ih ⊢
      intro hall
      exact ih (fun d hd => hall d (by omega))
    | ok d0 =>
      have I := createUpTo_inv0 info mesh n (by omega) h1
      have hall := ih.1 ⟨d0, h1⟩
      simp only [createUpTo, h1, createDim_eq n (show n < 4 by omega)]
      have hok := createCellsLoop_ok_iff d0.counters (info.numDOFs n) (info.bInfo n)
      cases h2 : createCellsLoop d0.counters (info.numDOFs n) (info.bInfo n) with
      | error e =>
        rw [h2] at hok
        simp only [reduceCtorEq, exists_false, false_iff] at hok ⊢
        intro hh
        exact hok (fun c hc => (hh n (by omega) c hc).1)
      | ok r =>
        obtain ⟨k, cs⟩ := r
        have hb := hok.1 ⟨_, h2⟩
        have hlen := createCellsLoop_length h2
        have hex : ∀ c e, e ∈ Spec.closure mesh n c →
            (Exists' (dims1 d0 n cs) e ↔ e.2 < (info.numDOFs e.1).length) := by
          intro c e he
          have := closure_dim_le mesh n c e he
          unfold Exists' dims1 setDim
          by_cases hi : e.1 = n
          · simp [hi, hlen]
          · simp only [hi, if_false]
            rw [I.len e.1 (by omega)]
        simp only
        constructor
        · rintro ⟨data, hdata⟩ d hd c hc
          by_cases hi : d = n
          · subst hi
            refine ⟨hb c hc, ?_⟩
            split at hdata
            · rename_i hx
              intro e he
              exact (hex c e he).1 (hx c (by simpa using hc) e he)
            · simp at hdata
          · exact hall d (by omega) c hc
        · intro hh
          rw [if_pos (fun c hc e he => (hex c e he).2 ((hh n (by omega) c (by simpa using hc)).2 e he))]
          exact ⟨_, rfl⟩

theorem createUpTo_error (info : MeshInfo) (mesh : Mesh) (n : Nat) (hn : n ≤ 4) {e : Fault}
    (h : createUpTo info mesh n = .error e) : e = .outOfRange ∨ e = .unknownBoundaryType := by
  induction n with
  | zero => simp [createUpTo] at h
  | succ n ih =>
    rw [createUpTo] at h
    cases h1 : createUpTo info mesh n with
    | error e' =>
      simp only [h1, Except.error.injEq] at h
      subst h
      exact ih (by omega) h1
    | ok d0 =>
      simp only [h1, createDim_eq n (show n < 4 by omega)] at h
      cases h2 : createCellsLoop d0.counters (info.numDOFs n) (info.bInfo n) with
      | error e' =>
        simp only [h2, Except.error.injEq] at h
        subst h
        exact createCellsLoop_error h2
      | ok r =>
        obtain ⟨k, cs⟩ := r
        simp only [h2] at h
        split at h
        · simp at h
        · simp only [Except.error.injEq] at h
          exact .inl h.symm

/-- Sum of `countOn` over the dimensions below `n`. -/
def countUpTo (p : BType → Bool) (info : MeshInfo) (n : Nat) : Nat :=
  ((List.range n).map fun d => countOn p (info.numDOFs d) (info.bInfo d)).sum

def sumUpTo (info : MeshInfo) (n : Nat) : Nat := ((List.range n).map fun d => (info.numDOFs d).sum).sum

theorem countUpTo_le (p : BType → Bool) (info : MeshInfo) (n : Nat) : countUpTo p info n ≤ sumUpTo info n := by
  induction n with
  | zero => simp [countUpTo, sumUpTo]
  | succ n ih =>
    have := countOn_le p (info.numDOFs n) (info.bInfo n)
    simp only [countUpTo, sumUpTo, List.range_succ, List.map_append, List.map_cons, List.map_nil,
      List.sum_append, List.sum_cons, List.sum_nil] at *
    omega

theorem countUpTo_succ (p : BType → Bool) (info : MeshInfo) (n : Nat) :
    countUpTo p info (n + 1) = countUpTo p info n + countOn p (info.numDOFs n) (info.bInfo n) := by
  simp [countUpTo, List.range_succ]

theorem sumUpTo_succ (info : MeshInfo) (n : Nat) :
    sumUpTo info (n + 1) = sumUpTo info n + (info.numDOFs n).sum := by
  simp [sumUpTo, List.range_succ]

/-- All DOFs of the dimensions below `n`, in storage order. -/
def allDOFs (data : DOFsData) (n : Nat) : List DOF :=
  (List.range n).flatMap fun d => (data.dims d).cells.flatMap CellDOFs.dofs

/-- Numbering part of a successful result, without overflow. -/
structure Inv1 (info : MeshInfo) (n : Nat) (data : DOFsData) : Prop where
  cdofs : data.counters.dofs = countUpTo isFreeB info n
  cstrongs : data.counters.strongs = countUpTo isStrongB info n
  cinternal : data.counters.internal = countUpTo isNoneB info n
  cboundary : data.counters.boundary = countUpTo isWeakB info n
  free : (allDOFs data n).filterMap freeIdx = List.range data.counters.dofs
  strong : (allDOFs data n).filterMap strongIdx = List.range data.counters.strongs

theorem createUpTo_inv1 (info : MeshInfo) (mesh : Mesh) (n : Nat) (hn : n ≤ 4) {data : DOFsData}
    (h : createUpTo info mesh n = .ok data) (hov : sumUpTo info n < 4294967296) : Inv1 info n data := by
  induction n generalizing data with
  | zero =>
    simp only [createUpTo, Except.ok.injEq] at h
    subst h
    constructor <;> simp [emptyData, countUpTo, allDOFs]
  | succ n ih =>
    rw [sumUpTo_succ] at hov
    rw [createUpTo] at h
    cases h1 : createUpTo info mesh n with
    | error e => simp [h1] at h
    | ok d0 =>
      have I := ih (by omega) h1 (by omega)
      simp only [h1, createDim_eq n (show n < 4 by omega)] at h
      cases h2 : createCellsLoop d0.counters (info.numDOFs n) (info.bInfo n) with
      | error e => simp [h2] at h
      | ok r =>
        obtain ⟨k, cs⟩ := r
        simp only [h2] at h
        split at h
        · simp only [Except.ok.injEq] at h
          have l1 := countUpTo_le isFreeB info n
          have l2 := countUpTo_le isStrongB info n
          have l3 := countUpTo_le isNoneB info n
          have l4 := countUpTo_le isWeakB info n
          obtain ⟨_, g1, g2, g3, g4, g5, g6, g7⟩ := createCellsLoop_spec h2
            (by rw [I.cdofs]; omega) (by rw [I.cstrongs]; omega) (by rw [I.cinternal]; omega)
            (by rw [I.cboundary]; omega)
          have hall : allDOFs data (n + 1) = allDOFs d0 n ++ cs.flatMap CellDOFs.dofs := by
            subst h
            simp only [allDOFs, List.range_succ, List.flatMap_append, List.flatMap_cons, List.flatMap_nil,
              List.append_nil, setDim, if_true]
            congr 1
            rw [List.flatMap_def, List.flatMap_def]
            congr 1
            apply List.map_congr_left
            intro d hd
            rw [List.mem_range] at hd
            have : d ≠ n := by omega
            simp [this]
          have hk : data.counters = k := by subst h; rfl
          constructor
          · rw [hk, g2, I.cdofs, countUpTo_succ]
          · rw [hk, g3, I.cstrongs, countUpTo_succ]
          · rw [hk, g4, I.cinternal, countUpTo_succ]
          · rw [hk, g5, I.cboundary, countUpTo_succ]
          · rw [hall, List.filterMap_append, I.free, g6, hk, g2, List.range_eq_range', List.range_eq_range']
            exact (by simpa using List.range'_append_1 (s := 0) (m := d0.counters.dofs) (n := countOn isFreeB (info.numDOFs n) (info.bInfo n)))
          · rw [hall, List.filterMap_append, I.strong, g7, hk, g3, List.range_eq_range', List.range_eq_range']
            exact (by simpa using List.range'_append_1 (s := 0) (m := d0.counters.strongs) (n := countOn isStrongB (info.numDOFs n) (info.bInfo n)))
        · simp at h

end PolyDiM
