import Verif.Lemmas.LineLocal
import Verif.Lemmas.MixedGlobal

/-!
# Lemmas: the system assembled by the one-dimensional example
-/

namespace PolyDiM

open Spec Polynomial

/-- Matrix and right-hand side assembled in the same calls, any dimension. -/
theorem assembleAll_both {D : Nat} {data : DOFsData} (cells : List Nat) (A b : Nat → DMat ℝ) {S R : Sys ℝ}
    (hS : assembleAll D .empty (cells.map fun c => (⟨c, oneField data, some (oneField data, (A c).toLMat), none⟩ : Call ℝ)) = .ok S)
    (hR : assembleAll D .empty (cells.map fun c => (⟨c, oneField data, none, some (b c).toList⟩ : Call ℝ)) = .ok R) :
    assembleAll D .empty (cells.map fun c => (⟨c, oneField data, some (oneField data, (A c).toLMat), some (b c).toList⟩ : Call ℝ)) = .ok ⟨S.lhsDOFs, S.lhsStrongs, R.rhs⟩ := by
  rw [assembleAll_iff] at hS hR ⊢
  obtain ⟨h1, rfl⟩ := hS
  obtain ⟨h2, rfl⟩ := hR
  refine ⟨?_, ?_⟩
  · intro q hq
    obtain ⟨c, hc, rfl⟩ := List.mem_map.1 hq
    obtain ⟨t1, r1⟩ := h1 _ (List.mem_map.2 ⟨c, hc, rfl⟩)
    obtain ⟨-, r2⟩ := h2 _ (List.mem_map.2 ⟨c, hc, rfl⟩)
    exact ⟨t1, fun a ha => ⟨(r1 a ha).1, fun hd => ⟨((r2 a ha).2 hd).1, ((r1 a ha).2 hd).2⟩⟩⟩
  · have key : ∀ (l : List Nat) (a c : Sys ℝ),
        (⟨((l.map fun c => (⟨c, oneField data, some (oneField data, (A c).toLMat), none⟩ : Call ℝ)).map (cellSys D)).foldl Sys.app a |>.lhsDOFs,
          ((l.map fun c => (⟨c, oneField data, some (oneField data, (A c).toLMat), none⟩ : Call ℝ)).map (cellSys D)).foldl Sys.app a |>.lhsStrongs,
          ((l.map fun c => (⟨c, oneField data, none, some (b c).toList⟩ : Call ℝ)).map (cellSys D)).foldl Sys.app c |>.rhs⟩ : Sys ℝ)
        = ((l.map fun c => (⟨c, oneField data, some (oneField data, (A c).toLMat), some (b c).toList⟩ : Call ℝ)).map (cellSys D)).foldl Sys.app ⟨a.lhsDOFs, a.lhsStrongs, c.rhs⟩ := by
      intro l
      induction l with
      | nil => intro a c; rfl
      | cons d l ih =>
        intro a c
        simp only [List.map_cons, List.foldl_cons]
        rw [ih]
        congr 1
        simp only [Sys.app, Sys.mk.injEq, List.append_cancel_left_eq]
        unfold cellSys rowsSys
        refine ⟨List.flatMap_congr fun x _ => ?_, List.flatMap_congr fun x _ => ?_, List.flatMap_congr fun x _ => ?_⟩ <;>
        · unfold rowSys
          split_ifs <;> rfl
    exact key cells .empty .empty

/-- A sequence of writes whose values only depend on the position. -/
theorem fold_writeAt {val : Nat → ℝ} (log : List (Nat × ℝ)) : ∀ v : List ℝ, (∀ p ∈ log, p.1 < v.length ∧ p.2 = val p.1) →
    ∃ v', log.foldlM (fun v w => writeAt v w.1 w.2) v = .ok v' ∧ v'.length = v.length ∧ (∀ p ∈ log, v'.getD p.1 0 = val p.1) ∧
      ∀ i, (∀ p ∈ log, p.1 ≠ i) → v'.getD i 0 = v.getD i 0 := by
  induction log with
  | nil => exact fun v _ => ⟨v, rfl, rfl, by simp, by simp⟩
  | cons w log ih =>
    intro v h
    obtain ⟨hw, hwv⟩ := h w List.mem_cons_self
    obtain ⟨v', h1, h2, h3, h4⟩ := ih (v.set w.1 w.2) fun p hp => by rw [List.length_set]; exact h p (List.mem_cons_of_mem _ hp)
    refine ⟨v', ?_, by rw [h2, List.length_set], ?_, ?_⟩
    · rw [List.foldlM_cons, writeAt, if_pos hw, except_ok_bind, h1]
    · intro p hp
      rcases List.mem_cons.1 hp with rfl | hp
      · by_cases hin : ∃ q ∈ log, q.1 = p.1
        · obtain ⟨q, hq, he⟩ := hin
          rw [← he]
          exact h3 q hq
        · push Not at hin
          rw [h4 p.1 hin, ← hwv, List.getD_eq_getElem?_getD, List.getElem?_set_self hw, Option.getD_some]
      · exact h3 p hp
    · intro i hi
      rw [h4 i fun p hp => hi p (List.mem_cons_of_mem _ hp), List.getD_eq_getElem?_getD, List.getD_eq_getElem?_getD, List.getElem?_set_ne (hi w List.mem_cons_self)]

/-- The number of DOFs per entity. -/
def lineNum (k e : Nat) : Nat := if e = 0 then 1 else if e = 1 then k - 1 else 0

section

variable {k : Nat} {d : Fem1Data ℝ} {mid : List ℝ} {mesh : LineMesh ℝ} {info : MeshInfo} {data : DOFsData}

theorem LineRef.info_eq (R : LineRef k d mid) (topo : Mesh) (boundary : Nat → Option BInfo) : lineMeshInfo d topo boundary = createConstantInfo 1 topo ⟨lineNum k, boundary⟩ := by
  unfold lineMeshInfo
  rw [R.num0D, R.num1D]
  rfl

theorem lineList_eq (k : Nat) (topo : Mesh) (c : Nat) : entityList (lineNum k) topo 1 c
    = ⟨0, (topo.cell1DVertices c).1, 0⟩ :: ⟨0, (topo.cell1DVertices c).2, 0⟩ :: (List.range (k - 1)).map fun j => ⟨1, c, j⟩ := by
  simp [entityList, Spec.closure, lineNum]

theorem lineList_length {k : Nat} (hk : 1 ≤ k) (topo : Mesh) (c : Nat) : (entityList (lineNum k) topo 1 c).length = k + 1 := by
  rw [lineList_eq]
  simp
  omega

theorem DofHandler.ends (H : DofHandler (lineNum k) 1 mesh.topo info data) {c : Nat} (hc : c < mesh.num1D) :
    (mesh.topo.cell1DVertices c).1 < mesh.num0D ∧ (mesh.topo.cell1DVertices c).2 < mesh.num0D :=
  ⟨(H.closed 1 le_rfl c hc (0, _) (by simp [Spec.closure])).2, (H.closed 1 le_rfl c hc (0, _) (by simp [Spec.closure])).2⟩

/-- One vertex: its DOF. -/
theorem DofHandler.vertex (H : DofHandler (lineNum k) 1 mesh.topo info data) {v : Nat} (hv : v < mesh.num0D) :
    ∃ x b, lookup data ⟨0, v, 0⟩ = some x ∧ (∃ z, (data.dims 0).cells[v]? = some z ∧ z.dofs = [x]) ∧ (info.bInfo 0)[v]? = some b ∧ b.type ≠ .unknwon ∧ x.type = typeFor b.type := by
  obtain ⟨x, b, hx, hb, hbt, hl, ht⟩ := H.cell 0 (by omega) v hv
  obtain ⟨y, hy⟩ := List.length_eq_one_iff.1 (show x.dofs.length = 1 from hl)
  refine ⟨y, b, ?_, ⟨x, hx, hy⟩, hb, hbt, ht y (by rw [hy]; simp)⟩
  show ((data.dims 0).cells[v]?).bind (fun x => x.dofs[0]?) = _
  rw [hx, Option.bind_some, hy]
  rfl

theorem strong_of_typeFor {t : BType} (h : typeFor t = .strong) : t = .strong := by
  cases t <;> simp_all [typeFor]

/-- The additions of the weak term at one end. -/
theorem DofHandler.weakEnd (H : DofHandler (lineNum k) 1 mesh.topo info data) (test : LineTest ℝ) (dir : ℝ) {v : Nat} (hv : v < mesh.num0D) :
    ∃ b l, (info.bInfo 0)[v]? = some b ∧ lineWeakEnd info data mesh test dir v = .ok l ∧
      ∀ i, ventry l i = rowTest data i ⟨0, v, 0⟩ * (if b.type = .weak then dir * test.weak b.marker (mesh.coords v) else 0) := by
  obtain ⟨x, b, hx, ⟨z, hc, hz⟩, hb, hbt, ht⟩ := H.vertex hv
  refine ⟨b, ?_⟩
  unfold lineWeakEnd
  rw [atIdx, hb]
  simp only [except_ok_bind]
  by_cases hw : b.type = .weak
  · have hxt : x.type = .dof := by rw [ht, hw]; rfl
    obtain ⟨ty, j⟩ := x
    obtain rfl : ty = .dof := hxt
    refine ⟨[(j, dir * test.weak b.marker (mesh.coords v))], trivial, ?_, fun i => ?_⟩
    · rw [if_neg (by simp [hw]), atIdx, hc]
      simp only [except_ok_bind]
      rw [hz]
      rfl
    · rw [if_pos hw, rowTest, hx]
      simp only [ventry, List.map_cons, List.map_nil, List.sum_cons, List.sum_nil, add_zero, Option.some.injEq, DOF.mk.injEq, true_and]
      split_ifs <;> simp
  · refine ⟨[], trivial, by rw [if_pos hw], fun i => ?_⟩
    rw [if_neg hw, mul_zero]
    rfl

/-- The writes of the strong term at one vertex. -/
theorem DofHandler.strongVertex (H : DofHandler (lineNum k) 1 mesh.topo info data) (test : LineTest ℝ) {v : Nat} (hv : v < mesh.num0D) :
    ∃ b l, (info.bInfo 0)[v]? = some b ∧ lineStrongVertex info data mesh test v = .ok l ∧
      (∀ p ∈ l, lookup data ⟨0, v, 0⟩ = some ⟨.strong, p.1⟩ ∧ b.type = .strong ∧ p.2 = test.strong b.marker (mesh.coords v)) ∧
      ∀ i, lookup data ⟨0, v, 0⟩ = some ⟨.strong, i⟩ → ∃ y, (i, y) ∈ l := by
  obtain ⟨x, b, hx, ⟨z, hc, hz⟩, hb, hbt, ht⟩ := H.vertex hv
  refine ⟨b, ?_⟩
  unfold lineStrongVertex
  rw [atIdx, hb]
  simp only [except_ok_bind]
  by_cases hw : b.type = .strong
  · have hxt : x.type = .strong := by rw [ht, hw]; rfl
    obtain ⟨ty, j⟩ := x
    obtain rfl : ty = .strong := hxt
    refine ⟨[(j, test.strong b.marker (mesh.coords v))], trivial, ?_, ?_, fun i hi => ?_⟩
    · rw [if_neg (by simp [hw]), atIdx, hc]
      simp only [except_ok_bind]
      rw [hz]
      rfl
    · intro p hp
      rw [List.mem_singleton] at hp
      subst hp
      exact ⟨hx, hw, rfl⟩
    · rw [hx] at hi
      simp only [Option.some.injEq, DOF.mk.injEq, true_and] at hi
      exact ⟨_, by rw [← hi]; exact List.mem_singleton.2 rfl⟩
  · refine ⟨[], trivial, by rw [if_pos hw], by simp, fun i hi => ?_⟩
    rw [hx] at hi
    have : x.type = .strong := by rw [Option.some.inj hi]
    exact absurd (strong_of_typeFor (ht.symm.trans this)) hw

/-- The value of the weak term at one end: zero unless the vertex is of weak type. -/
noncomputable def weakValue (info : MeshInfo) (mesh : LineMesh ℝ) (test : LineTest ℝ) (v : Nat) : ℝ :=
  match (info.bInfo 0)[v]? with
  | some b => if b.type = .weak then test.weak b.marker (mesh.coords v) else 0
  | none => 0

/-- The assembled system: the strong values, and the residual of every row as a sum over the segments. -/
theorem line_assemble (hk : 1 ≤ k) (hsmall : k + 1 < 2 ^ 32) (H : DofHandler (lineNum k) 1 mesh.topo info data) (hno : ∀ c < mesh.num1D, ∀ b, (info.bInfo 1)[c]? = some b → b.type ≠ .strong)
    {rule : Rule ℝ ℝ} {g : LineGeometry ℝ} (test : LineTest ℝ) {s : Nat → LineSpace ℝ} {A b : Nat → DMat ℝ}
    (hs : ∀ c < mesh.num1D, lineSpace d rule g c = .ok (s c)) (hl : ∀ c < mesh.num1D, lineLocal (s c) test = .ok (A c, b c))
    (hA : ∀ c < mesh.num1D, (A c).rows = k + 1 ∧ (A c).cols = k + 1 ∧ (b c).rows = k + 1) :
    ∃ P, assembleLine info data d rule g mesh test = .ok P ∧ P.dirichlet.length = data.counters.strongs ∧
      (∀ r i, lookup data r = some ⟨.strong, i⟩ → r.dim = 0 ∧ r.dof = 0 ∧ r.cell < mesh.num0D ∧ ∃ m, (info.bInfo 0)[r.cell]? = some ⟨.strong, m⟩ ∧
        P.dirichlet.getD i 0 = test.strong m (mesh.coords r.cell)) ∧
      (∀ strong : List ℝ, strong.length = data.counters.strongs → ∀ free : List ℝ, free.length = data.counters.dofs → ∀ i,
        ∑ j ∈ Finset.range free.length, entry P.globalMatrix i j * free.getD j 0 + ∑ j ∈ Finset.range strong.length, entry P.dirichletMatrix i j * strong.getD j 0
          = ((List.range mesh.num1D).map fun c => ∑ j ∈ Finset.range (k + 1), onList (entityList (lineNum k) mesh.topo 1 c) (rowTest data i) j *
              apply (A c) (onList (entityList (lineNum k) mesh.topo 1 c) (valueOf data free strong)) j).sum) ∧
      ∀ i, ventry P.rightHandSide i + ∑ j ∈ Finset.range P.dirichlet.length, entry P.dirichletMatrix i j * P.dirichlet.getD j 0
          = ((List.range mesh.num1D).map fun c => ∑ j ∈ Finset.range (k + 1), onList (entityList (lineNum k) mesh.topo 1 c) (rowTest data i) j * (b c).ent j 0
              + (rowTest data i ⟨0, (mesh.topo.cell1DVertices c).2, 0⟩ * weakValue info mesh test (mesh.topo.cell1DVertices c).2
                - rowTest data i ⟨0, (mesh.topo.cell1DVertices c).1, 0⟩ * weakValue info mesh test (mesh.topo.cell1DVertices c).1)).sum := by
  have hcell : ∀ c ∈ List.range mesh.num1D, c < (mesh.topo.markers 1).length := fun c hc => List.mem_range.1 hc
  obtain ⟨S, hS, hSe⟩ := H.assemble_matrix (List.range mesh.num1D) hcell (fun c _ => by rw [lineList_length hk]; exact hsmall) A
    fun c hc => by rw [lineList_length hk]; exact ⟨(hA c (hcell c hc)).1, (hA c (hcell c hc)).2.1⟩
  obtain ⟨T, hT, hTe⟩ := H.assemble_vector (List.range mesh.num1D) hcell b fun c hc => by rw [lineList_length hk]; exact (hA c (hcell c hc)).2.2
  have hboth := assembleAll_both _ A b hS hT
  -- the weak terms
  have hweak : ∀ c < mesh.num1D, ∃ l, lineWeak info data mesh test c = .ok l ∧ ∀ i, ventry l i
      = rowTest data i ⟨0, (mesh.topo.cell1DVertices c).2, 0⟩ * weakValue info mesh test (mesh.topo.cell1DVertices c).2
        - rowTest data i ⟨0, (mesh.topo.cell1DVertices c).1, 0⟩ * weakValue info mesh test (mesh.topo.cell1DVertices c).1 := by
    intro c hc
    obtain ⟨e1, e2⟩ := H.ends hc
    obtain ⟨b0, l0, hb0, hl0, hv0⟩ := H.weakEnd test (-1) e1
    obtain ⟨b1, l1, hb1, hl1, hv1⟩ := H.weakEnd test 1 e2
    refine ⟨l0 ++ l1, by rw [lineWeak, hl0, except_ok_bind, hl1, except_ok_bind], fun i => ?_⟩
    rw [ventry_append, hv0, hv1, weakValue, weakValue, hb0, hb1]
    dsimp only
    split_ifs <;> ring
  choose! W hW hWe using hweak
  -- the strong terms
  have hstr : ∀ v < mesh.num0D, ∃ l, lineStrongVertex info data mesh test v = .ok l ∧ ∃ m, (info.bInfo 0)[v]? = some m ∧
      (∀ p ∈ l, lookup data ⟨0, v, 0⟩ = some ⟨.strong, p.1⟩ ∧ m.type = .strong ∧ p.2 = test.strong m.marker (mesh.coords v)) ∧
      ∀ i, lookup data ⟨0, v, 0⟩ = some ⟨.strong, i⟩ → ∃ y, (i, y) ∈ l := by
    intro v hv
    obtain ⟨m, l, h1, h2, h3⟩ := H.strongVertex test hv
    exact ⟨l, h2, m, h1, h3⟩
  have : Nonempty BInfo := ⟨⟨.none, 0⟩⟩
  choose! L hL M hM hLs hLc using hstr
  have hcells : (List.range mesh.num1D).mapM (lineCell info data d rule g mesh test)
      = .ok ((List.range mesh.num1D).map fun c => ⟨⟨c, oneField data, some (oneField data, (A c).toLMat), some (b c).toList⟩, W c⟩) := by
    refine mapM_ok _ _ _ fun c hc => ?_
    have hc' : c < mesh.num1D := List.mem_range.1 hc
    rw [lineCell, hs c hc', except_ok_bind, hl c hc', except_ok_bind, hW c hc', except_ok_bind]
  have hstrong : (List.range mesh.num0D).mapM (lineStrongVertex info data mesh test) = .ok ((List.range mesh.num0D).map L) :=
    mapM_ok _ _ _ fun v hv => hL v (List.mem_range.1 hv)
  -- every strong DOF belongs to a vertex
  have hdim : ∀ r i, lookup data r = some ⟨.strong, i⟩ → r.dim = 0 ∧ r.dof = 0 ∧ r.cell < mesh.num0D := by
    intro r i hr
    obtain ⟨h1, h2, h3⟩ := H.range r _ hr
    obtain ⟨e, c, j⟩ := r
    rcases Nat.lt_or_ge e 1 with he | he
    · obtain rfl : e = 0 := by omega
      refine ⟨rfl, ?_, h2⟩
      have h3 : j < 1 := h3
      show j = 0
      omega
    · exfalso
      obtain rfl : e = 1 := le_antisymm h1 he
      obtain ⟨x, b, hx, hb, ht, -⟩ := H.lookup_some (d := 1) le_rfl h2 h3
      rw [hr] at hx
      obtain rfl := Option.some.inj hx
      exact hno c h2 b hb (strong_of_typeFor ht.symm)
  let val : Nat → ℝ := fun i => if h : ∃ v, v < mesh.num0D ∧ lookup data ⟨0, v, 0⟩ = some ⟨.strong, i⟩ then
    test.strong (M h.choose).marker (mesh.coords h.choose) else 0
  have hval : ∀ v i, v < mesh.num0D → lookup data ⟨0, v, 0⟩ = some ⟨.strong, i⟩ → val i = test.strong (M v).marker (mesh.coords v) := by
    intro v i hv hlk
    have hex : ∃ v, v < mesh.num0D ∧ lookup data ⟨0, v, 0⟩ = some ⟨.strong, i⟩ := ⟨v, hv, hlk⟩
    have heq : hex.choose = v := by
      have := H.inj _ _ _ hex.choose_spec.2 hlk (by simp)
      simpa using this
    simp only [val, dif_pos hex, heq]
  obtain ⟨D, hD, hDl, hDv, -⟩ := fold_writeAt (val := val) ((List.range mesh.num0D).map L).flatten (List.replicate data.counters.strongs 0) (by
    intro p hp
    obtain ⟨l, hl, hp⟩ := List.mem_flatten.1 hp
    obtain ⟨v, hv, rfl⟩ := List.mem_map.1 hl
    have hv' := List.mem_range.1 hv
    obtain ⟨h1, h2, h3⟩ := hLs v hv' p hp
    exact ⟨by rw [List.length_replicate]; exact H.strong _ _ h1, by rw [h3, hval v p.1 hv' h1]⟩)
  rw [List.length_replicate] at hDl
  refine ⟨⟨S.lhsDOFs, S.lhsStrongs, (T.rhs ++ ((List.range mesh.num1D).map W).flatten) ++ (if 0 < data.counters.strongs then subtractProduct S.lhsStrongs D else []), D⟩, ?_, hDl,
    ?_, ?_, ?_⟩
  · unfold assembleLine
    rw [hcells, except_ok_bind]
    simp only [List.map_map]
    have e1 : (LineCellOut.call ∘ fun c => (⟨⟨c, oneField data, some (oneField data, (A c).toLMat), some (b c).toList⟩, W c⟩ : LineCellOut ℝ))
        = fun c => (⟨c, oneField data, some (oneField data, (A c).toLMat), some (b c).toList⟩ : Call ℝ) := rfl
    have e2 : (LineCellOut.weak ∘ fun c => (⟨⟨c, oneField data, some (oneField data, (A c).toLMat), some (b c).toList⟩, W c⟩ : LineCellOut ℝ)) = W := rfl
    rw [e1, e2, hboth, except_ok_bind, hstrong, except_ok_bind, hD, except_ok_bind]
  · intro r i hr
    obtain ⟨h1, h2, h3⟩ := hdim r i hr
    obtain ⟨e, v, j⟩ := r
    obtain rfl : e = 0 := h1
    obtain rfl : j = 0 := h2
    obtain ⟨y, hy⟩ := hLc v h3 i hr
    obtain ⟨-, hst, -⟩ := hLs v h3 _ hy
    refine ⟨rfl, rfl, h3, (M v).marker, ?_, ?_⟩
    · rw [hM v h3, ← hst]
    · have := hDv _ (List.mem_flatten.2 ⟨L v, List.mem_map.2 ⟨v, List.mem_range.2 h3, rfl⟩, hy⟩)
      dsimp only at this ⊢
      rw [this, hval v i h3 hr]
  · intro strong hst free hf i
    have := hSe free strong hf hst i
    simpa only [lineList_length hk] using this
  · intro i
    have hlast : ventry (if 0 < data.counters.strongs then subtractProduct S.lhsStrongs D else []) i = -∑ j ∈ Finset.range D.length, entry S.lhsStrongs i j * D.getD j 0 := by
      split_ifs with h0
      · exact ventry_subtract _ _ _
      · rw [hDl, show data.counters.strongs = 0 by omega]
        simp [ventry]
    dsimp only
    rw [ventry_append, ventry_append, hlast, hTe, ← List.flatMap_def, ventry_flatMap]
    simp only [lineList_length hk]
    rw [neg_add_cancel_right, ← List.sum_map_add]
    congr 1
    refine List.map_congr_left fun c hc => ?_
    rw [hWe c (List.mem_range.1 hc)]

end

end PolyDiM
