import Verif.Lemmas.DOFsUnique

/-! Helper lemmas: counts, index splitting, constant DOF info. -/

namespace PolyDiM

theorem countOn_split (ns : List Nat) (bs : List BInfo)
    (h : ∀ c, c < ns.length → ∃ b, bs[c]? = some b ∧ b.type ≠ .unknwon) :
    countOn isFreeB ns bs + countOn isStrongB ns bs = ns.sum ∧
    countOn isFreeB ns bs = countOn isNoneB ns bs + countOn isWeakB ns bs := by
  induction ns generalizing bs with
  | nil => simp [countOn]
  | cons n ns ih =>
    cases bs with
    | nil => obtain ⟨b, hb, _⟩ := h 0 (by simp); simp at hb
    | cons b bs =>
      have hb : b.type ≠ .unknwon := by
        obtain ⟨b', hb', hne⟩ := h 0 (by simp)
        simp only [List.getElem?_cons_zero, Option.some.injEq] at hb'
        subst hb'; exact hne
      obtain ⟨i1, i2⟩ := ih bs (fun c hc => by simpa using h (c + 1) (by simpa using hc))
      have cc : ∀ p, countOn p (n :: ns) (b :: bs) = (if p b.type then n else 0) + countOn p ns bs := by
        intro p; simp [countOn]
      rw [cc, cc, cc, cc, List.sum_cons]
      cases ht : b.type <;> simp_all [isFreeB, isStrongB, isNoneB, isWeakB] <;> omega

theorem countUpTo_split (info : MeshInfo) (n : Nat)
    (h : ∀ d, d < n → ∀ c, c < (info.numDOFs d).length → ∃ b, (info.bInfo d)[c]? = some b ∧ b.type ≠ .unknwon) :
    countUpTo isFreeB info n + countUpTo isStrongB info n = sumUpTo info n ∧
    countUpTo isFreeB info n = countUpTo isNoneB info n + countUpTo isWeakB info n := by
  induction n with
  | zero => simp [countUpTo, sumUpTo]
  | succ n ih =>
    obtain ⟨a, b⟩ := ih (fun d hd => h d (by omega))
    obtain ⟨a', b'⟩ := countOn_split (info.numDOFs n) (info.bInfo n) (h n (by omega))
    simp only [countUpTo_succ, sumUpTo_succ]
    omega

theorem createCellsLoop_congr (k : Counters) (ns : List Nat) (bs bs' : List BInfo)
    (h : bs.map BInfo.type = bs'.map BInfo.type) : createCellsLoop k ns bs = createCellsLoop k ns bs' := by
  induction ns generalizing k bs bs' with
  | nil => simp [createCellsLoop]
  | cons n ns ih =>
    cases bs with
    | nil =>
      cases bs' with
      | nil => rfl
      | cons b' bs' => simp at h
    | cons b bs =>
      cases bs' with
      | nil => simp at h
      | cons b' bs' =>
        simp only [List.map_cons, List.cons.injEq] at h
        simp only [createCellsLoop, h.1]
        cases createOneCell k n b'.type with
        | error e => rfl
        | ok r => simp only [ih r.1 bs bs' h.2]

theorem createUpTo_congr (info info' : MeshInfo) (mesh : Mesh) (n : Nat)
    (hn : info.numDOFs = info'.numDOFs)
    (ht : ∀ d, (info.bInfo d).map BInfo.type = (info'.bInfo d).map BInfo.type) :
    createUpTo info mesh n = createUpTo info' mesh n := by
  induction n with
  | zero => rfl
  | succ n ih =>
    simp only [createUpTo, ih]
    cases createUpTo info' mesh n with
    | error e => rfl
    | ok d =>
      simp only [createDim, createCellDOFs, hn,
        createCellsLoop_congr d.counters _ (info.bInfo n) (info'.bInfo n) (ht n)]

theorem resolve_iff (data : DOFsData) (g : GDOF) (x : DOF) :
    resolve data.dims g = .ok x ↔ Spec.lookup data g = some x := by
  unfold resolve Spec.lookup Spec.dofAt atIdx
  cases h : (data.dims g.dim).cells[g.cell]? with
  | none => simp
  | some y =>
    simp only [Option.bind_some]
    cases h2 : y.dofs[g.dof]? <;> simp

/-- Zipped local/global lists produced for one cell. -/
structure SplitOK (data : DOFsData) (pos : Nat) (gs : List GDOF) (t : DType) (l g : List Nat) : Prop where
  len : l.length = g.length
  sorted : l.Pairwise (· < ·)
  ge : ∀ p ∈ l, pos ≤ p
  mem : ∀ p i, (p, i) ∈ l.zip g ↔ ∃ j r, p = pos + j ∧ gs[j]? = some r ∧ Spec.lookup data r = some ⟨t, i⟩

theorem SplitOK.skip {data : DOFsData} {pos : Nat} {g0 : GDOF} {gs : List GDOF} {t : DType} {l g : List Nat} {x : DOF}
    (h : SplitOK data (pos + 1) gs t l g) (hx : Spec.lookup data g0 = some x) (ht : x.type ≠ t) :
    SplitOK data pos (g0 :: gs) t l g := by
  refine ⟨h.len, h.sorted, fun p hp => by have := h.ge p hp; omega, ?_⟩
  intro p i
  rw [h.mem]
  constructor
  · rintro ⟨j, r, rfl, hj, hr⟩
    exact ⟨j + 1, r, by omega, by simpa using hj, hr⟩
  · rintro ⟨j, r, rfl, hj, hr⟩
    cases j with
    | zero =>
      simp only [List.getElem?_cons_zero, Option.some.injEq] at hj
      subst hj
      rw [hx] at hr
      simp only [Option.some.injEq] at hr
      subst hr
      simp at ht
    | succ j => exact ⟨j, r, by omega, by simpa using hj, hr⟩

theorem SplitOK.take {data : DOFsData} {pos : Nat} {g0 : GDOF} {gs : List GDOF} {t : DType} {l g : List Nat} {i0 : Nat}
    (h : SplitOK data (pos + 1) gs t l g) (hx : Spec.lookup data g0 = some ⟨t, i0⟩) :
    SplitOK data pos (g0 :: gs) t (pos :: l) (i0 :: g) := by
  refine ⟨by simp [h.len], ?_, ?_, ?_⟩
  · rw [List.pairwise_cons]
    exact ⟨fun p hp => h.ge p hp, h.sorted⟩
  · intro p hp
    rcases List.mem_cons.1 hp with rfl | hp
    · exact le_refl _
    · have := h.ge p hp; omega
  · intro p i
    rw [List.zip_cons_cons, List.mem_cons, h.mem]
    constructor
    · rintro (h0 | ⟨j, r, rfl, hj, hr⟩)
      · simp only [Prod.mk.injEq] at h0
        obtain ⟨rfl, rfl⟩ := h0
        exact ⟨0, g0, by omega, by simp, hx⟩
      · exact ⟨j + 1, r, by omega, by simpa using hj, hr⟩
    · rintro ⟨j, r, rfl, hj, hr⟩
      cases j with
      | zero =>
        simp only [List.getElem?_cons_zero, Option.some.injEq] at hj
        subst hj
        rw [hx] at hr
        simp only [Option.some.injEq, DOF.mk.injEq, true_and] at hr
        subst hr
        simp
      | succ j => exact .inr ⟨j, r, by omega, by simpa using hj, hr⟩

theorem cellIndicesLoop_spec (data : DOFsData) (gs : List GDOF) : ∀ (pos : Nat),
    (∀ r ∈ gs, ∃ x, Spec.lookup data r = some x ∧ x.type ≠ .unknwon) →
    ∃ ci, cellIndicesLoop data.dims pos gs = .ok ci ∧
      SplitOK data pos gs .dof ci.dofsLocal ci.dofsGlobal ∧
      SplitOK data pos gs .strong ci.strongsLocal ci.strongsGlobal := by
  induction gs with
  | nil =>
    intro pos _
    refine ⟨_, rfl, ?_, ?_⟩ <;> exact ⟨rfl, by simp, by simp, by simp⟩
  | cons g gs ih =>
    intro pos h
    obtain ⟨x, hx, hne⟩ := h g (by simp)
    obtain ⟨ci, hci, s1, s2⟩ := ih (pos + 1) (fun r hr => h r (by simp [hr]))
    rw [cellIndicesLoop, (resolve_iff data g x).2 hx]
    obtain ⟨t, i⟩ := x
    cases t with
    | unknwon => simp at hne
    | strong =>
      simp only [hci]
      exact ⟨_, rfl, s1.skip hx (by simp), s2.take hx⟩
    | dof =>
      simp only [hci]
      exact ⟨_, rfl, s1.take hx, s2.skip hx (by simp)⟩

theorem indicesLoop_spec (data : DOFsData) (cs : List CellGlobal)
    (h : ∀ g ∈ cs, ∀ r ∈ g.gdofs, ∃ x, Spec.lookup data r = some x ∧ x.type ≠ .unknwon) :
    ∃ res, indicesLoop data.dims cs = .ok res ∧ res.length = cs.length ∧
      ∀ (c : Nat) (g : CellGlobal) (ci : CellIndices), cs[c]? = some g → res[c]? = some ci →
        SplitOK data 0 g.gdofs .dof ci.dofsLocal ci.dofsGlobal ∧
        SplitOK data 0 g.gdofs .strong ci.strongsLocal ci.strongsGlobal := by
  induction cs with
  | nil => exact ⟨[], rfl, rfl, by simp⟩
  | cons g cs ih =>
    obtain ⟨res, h1, h2, h3⟩ := ih (fun g' hg' => h g' (by simp [hg']))
    obtain ⟨ci, c1, c2⟩ := cellIndicesLoop_spec data g.gdofs 0 (h g (by simp))
    refine ⟨ci :: res, ?_, by simp [h2], ?_⟩
    · simp only [indicesLoop, c1, h1]
    · intro c g' ci' hg hci
      cases c with
      | zero =>
        simp only [List.getElem?_cons_zero, Option.some.injEq] at hg hci
        subst hg; subst hci
        exact c2
      | succ c => exact h3 c g' ci' (by simpa using hg) (by simpa using hci)

theorem constantLoop_spec (ci : ConstantInfo) (ms : List Nat) :
    (∀ bs, constantLoop ci ms = .ok bs → bs.length = ms.length ∧ ∀ c : Nat, bs[c]? = (ms[c]?).bind ci.boundary) ∧
    ((∃ bs, constantLoop ci ms = .ok bs) ↔ ∀ m ∈ ms, (ci.boundary m).isSome) ∧
    (∀ e, constantLoop ci ms = .error e → e = .outOfRange) := by
  induction ms with
  | nil => simp [constantLoop]
  | cons m ms ih =>
    obtain ⟨i1, i2, i3⟩ := ih
    simp only [constantLoop]
    cases hm : ci.boundary m with
    | none => simp [hm]
    | some b =>
      cases hl : constantLoop ci ms with
      | error e =>
        rw [hl] at i2
        simp only [reduceCtorEq, exists_false, false_iff] at i2
        refine ⟨by simp, ?_, ?_⟩
        · simp only [reduceCtorEq, exists_false, false_iff]
          intro h
          exact i2 (fun m' hm' => h m' (by simp [hm']))
        · intro e' he'
          simp only [Except.error.injEq] at he'
          exact i3 e' (he' ▸ hl)
      | ok bs =>
        obtain ⟨l, g⟩ := i1 bs hl
        refine ⟨?_, ?_, by simp⟩
        · intro bs' hb
          simp only [Except.ok.injEq] at hb
          subst hb
          refine ⟨by simp [l], ?_⟩
          intro c
          cases c with
          | zero => simp [hm]
          | succ c => simpa using g c
        · simp only [Except.ok.injEq, exists_eq', true_iff]
          intro m' hm'
          rcases List.mem_cons.1 hm' with rfl | hm'
          · simp [hm]
          · exact i2.1 ⟨bs, hl⟩ m' hm'

/-- Dimensions `0..n-1` in order (helper). -/
def constantUpTo (mesh : Mesh) (ci : ConstantInfo) : Nat → Except Fault MeshInfo
  | 0 => .ok ⟨fun _ => [], fun _ => []⟩
  | n + 1 =>
    match constantUpTo mesh ci n with
    | .error e => .error e
    | .ok info => createConstantDim mesh ci n info

theorem createConstantInfo_eq (D : Fin 4) (mesh : Mesh) (ci : ConstantInfo) :
    createConstantInfo D mesh ci = constantUpTo mesh ci (D.val + 1) := by
  have key : ∀ (n : Nat) , (do createConstantDim mesh ci n (← constantUpTo mesh ci n)) = constantUpTo mesh ci (n + 1) := by
    intro n
    rw [constantUpTo]
    cases constantUpTo mesh ci n <;> rfl
  match D with
  | 0 => rfl
  | 1 => exact key 1
  | 2 =>
    show _ = constantUpTo mesh ci (2 + 1)
    rw [← key 2, ← key 1]
    simp only [createConstantInfo, bind, Except.bind, constantUpTo]
    cases createConstantDim mesh ci 0 ⟨fun _ => [], fun _ => []⟩ <;> rfl
  | 3 =>
    show _ = constantUpTo mesh ci (3 + 1)
    rw [← key 3, ← key 2, ← key 1]
    simp only [createConstantInfo, bind, Except.bind, constantUpTo]
    cases createConstantDim mesh ci 0 ⟨fun _ => [], fun _ => []⟩ with
    | error e => rfl
    | ok a => 
      simp only
      cases createConstantDim mesh ci 1 a <;> rfl

theorem constantUpTo_spec (mesh : Mesh) (ci : ConstantInfo) (n : Nat) :
    (∀ info, constantUpTo mesh ci n = .ok info →
      (∀ d, d < n → info.numDOFs d = List.replicate (mesh.markers d).length (ci.numDOFs d) ∧
        ∀ c : Nat, (info.bInfo d)[c]? = ((mesh.markers d)[c]?).bind ci.boundary) ∧
      (∀ d, n ≤ d → info.numDOFs d = [] ∧ info.bInfo d = [])) ∧
    ((∃ info, constantUpTo mesh ci n = .ok info) ↔ ∀ d, d < n → ∀ m ∈ mesh.markers d, (ci.boundary m).isSome) ∧
    (∀ e, constantUpTo mesh ci n = .error e → e = .outOfRange) := by
  induction n with
  | zero =>
    refine ⟨?_, by simp [constantUpTo], by simp [constantUpTo]⟩
    intro info h
    simp only [constantUpTo, Except.ok.injEq] at h
    subst h
    simp
  | succ n ih =>
    obtain ⟨i1, i2, i3⟩ := ih
    simp only [constantUpTo]
    cases h0 : constantUpTo mesh ci n with
    | error e =>
      rw [h0] at i2
      simp only [reduceCtorEq, exists_false, false_iff] at i2
      refine ⟨by simp, ?_, ?_⟩
      · simp only [reduceCtorEq, exists_false, false_iff]
        intro h
        exact i2 (fun d hd => h d (by omega))
      · intro e' he'
        simp only [Except.error.injEq] at he'
        exact i3 e' (he' ▸ h0)
    | ok info0 =>
      obtain ⟨j1, j2⟩ := i1 info0 h0
      obtain ⟨l1, l2, l3⟩ := constantLoop_spec ci (mesh.markers n)
      simp only [createConstantDim]
      cases hl : constantLoop ci (mesh.markers n) with
      | error e =>
        rw [hl] at l2
        simp only [reduceCtorEq, exists_false, false_iff] at l2
        refine ⟨by simp, ?_, ?_⟩
        · simp only [reduceCtorEq, exists_false, false_iff]
          intro h
          exact l2 (h n (by omega))
        · intro e' he'
          simp only [Except.error.injEq] at he'
          exact l3 e' (he' ▸ hl)
      | ok bs =>
        obtain ⟨_, m2⟩ := l1 bs hl
        refine ⟨?_, ?_, by simp⟩
        · intro info hinfo
          simp only [Except.ok.injEq] at hinfo
          subst hinfo
          constructor
          · intro d hd
            by_cases hi : d = n
            · subst hi; simp [m2]
            · simp only [hi, if_false]; exact j1 d (by omega)
          · intro d hd
            have hi : d ≠ n := by omega
            simp only [hi, if_false]
            exact j2 d (by omega)
        · simp only [Except.ok.injEq, exists_eq', true_iff]
          intro d hd
          by_cases hi : d = n
          · subst hi; exact l2.1 ⟨bs, hl⟩
          · exact i2.1 ⟨info0, h0⟩ d (by omega)

end PolyDiM
