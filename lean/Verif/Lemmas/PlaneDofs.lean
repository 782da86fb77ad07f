import Verif.Spec.PlaneMesh
import Verif.Props.DOFs
import Verif.Props.Assembler
import Verif.Props.AssemblerVem2D

/-!
# Lemmas: the handler of the degrees of freedom of a mesh of polygons
-/

namespace PolyDiM

open Spec

/-- The number of DOFs of an entity of dimension `d` for order `k`. -/
def numOf (k d : Nat) : Nat := if d = 0 then 1 else if d = 1 then k - 1 else k * (k - 1) / 2

/-- The DOFs of a cell, in order. -/
def vemList (k : Nat) (mesh : Mesh) (c : Nat) : List GDOF :=
  (mesh.cell2DVertices c).map (fun v => ⟨0, v, 0⟩) ++ (mesh.cell2DEdges c).flatMap (fun e => (List.range (k - 1)).map fun j => ⟨1, e, j⟩)
    ++ (List.range (k * (k - 1) / 2)).map fun j => ⟨2, c, j⟩

/-- What is known about the handler of a mesh. -/
structure Handler (k : Nat) (mesh : Mesh) (info : MeshInfo) (data : DOFsData) : Prop where
  cell : ∀ d ≤ 2, ∀ c < (mesh.markers d).length, ∃ x b, (data.dims d).cells[c]? = some x ∧ (info.bInfo d)[c]? = some b ∧ b.type ≠ .unknwon ∧
    x.dofs.length = numOf k d ∧ ∀ y ∈ x.dofs, y.type = typeFor b.type
  verts : ∀ c < (mesh.markers 2).length, ∀ v ∈ mesh.cell2DVertices c, v < (mesh.markers 0).length
  edges : ∀ c < (mesh.markers 2).length, ∀ e ∈ mesh.cell2DEdges c, e < (mesh.markers 1).length
  ends : ∀ e < (mesh.markers 1).length, (mesh.cell1DVertices e).1 < (mesh.markers 0).length ∧ (mesh.cell1DVertices e).2 < (mesh.markers 0).length
  exist : ∀ c < (mesh.markers 2).length, (globalsAt data 2 c).isSome
  list : ∀ c < (mesh.markers 2).length, cellList data 2 c = vemList k mesh c
  inj : ∀ r r' x, lookup data r = .some x → lookup data r' = .some x → x.type ≠ .unknwon → r = r'
  free : ∀ r i, lookup data r = .some ⟨.dof, i⟩ → i < data.counters.dofs
  strong : ∀ r i, lookup data r = .some ⟨.strong, i⟩ → i < data.counters.strongs
  dofsSmall : data.counters.dofs < 2 ^ 32
  strongsSmall : data.counters.strongs < 2 ^ 32
  known : ∀ r x, lookup data r = .some x → x.type ≠ .unknwon
  range : ∀ r x, lookup data r = .some x → r.dim ≤ 2 ∧ r.cell < (mesh.markers r.dim).length ∧ r.dof < numOf k r.dim
  ontoFree : ∀ i < data.counters.dofs, ∃ r, lookup data r = .some ⟨.dof, i⟩
  ontoStrong : ∀ i < data.counters.strongs, ∃ r, lookup data r = .some ⟨.strong, i⟩

theorem handler_of {k : Nat} {mesh : Mesh} {boundary : Nat → Option BInfo} {info : MeshInfo} {data : DOFsData}
    (hi : createConstantInfo 2 mesh ⟨numOf k, boundary⟩ = .ok info) (hdata : createDOFs 2 info mesh = .ok data) (hov : totalRequested info 2 < 2 ^ 32) :
    Handler k mesh info data := by
  obtain ⟨-, -, hinfo⟩ := C10_constant_info 2 mesh ⟨numOf k, boundary⟩
  obtain ⟨hinfo, -⟩ := hinfo info hi
  have hwf := (C05_total 2 info mesh).1.1 ⟨data, hdata⟩
  have hlen : ∀ d ≤ 2, (info.numDOFs d).length = (mesh.markers d).length := fun d hd => (hinfo d hd).1
  have hnum : ∀ d ≤ 2, ∀ c < (mesh.markers d).length, (info.numDOFs d)[c]? = some (numOf k d) := by
    intro d hd c hc
    exact ((hinfo d hd).2.2 c _ (List.getElem?_eq_getElem hc)).1
  have hreq : ∀ d ≤ 2, ∀ c < (mesh.markers d).length, requested info (d, c) = numOf k d := by
    intro d hd c hc
    rw [requested, hnum d hd c hc]
    rfl
  have hcl : ∀ d ≤ 2, ∀ c < (mesh.markers d).length, ∀ e ∈ Spec.closure mesh d c, e.2 < (info.numDOFs e.1).length := by
    intro d hd c hc
    exact (hwf d hd c (by rw [hlen d hd]; exact hc)).2
  have hverts : ∀ c < (mesh.markers 2).length, ∀ v ∈ mesh.cell2DVertices c, v < (mesh.markers 0).length := by
    intro c hc v hv
    have := hcl 2 le_rfl c hc (0, v) (by simp [Spec.closure, hv])
    rwa [hlen 0 (by omega)] at this
  have hedges : ∀ c < (mesh.markers 2).length, ∀ e ∈ mesh.cell2DEdges c, e < (mesh.markers 1).length := by
    intro c hc v hv
    have := hcl 2 le_rfl c hc (1, v) (by simp [Spec.closure, hv])
    rwa [hlen 1 (by omega)] at this
  obtain ⟨u1, f1⟩ := C01_free_numbering 2 info mesh data hdata hov
  obtain ⟨u2, f2⟩ := C02_strong_numbering 2 info mesh data hdata hov
  have hcell : ∀ d ≤ 2, ∀ c < (mesh.markers d).length, ∃ x b, (data.dims d).cells[c]? = some x ∧ (info.bInfo d)[c]? = some b ∧ b.type ≠ .unknwon ∧
      x.dofs.length = numOf k d ∧ ∀ y ∈ x.dofs, y.type = typeFor b.type := by
    intro d hd c hc
    obtain ⟨⟨b, hb, hbt⟩, -⟩ := hwf d hd c (by rw [hlen d hd]; exact hc)
    obtain ⟨a1, a2, x, hx, -, -⟩ := C04_cell_dofs 2 info mesh data hdata d c _ b hd (hnum d hd c hc) hb
    have hat : ∀ j, dofAt data d c j = x.dofs[j]? := fun j => by rw [dofAt, hx]; rfl
    refine ⟨x, b, hx, hb, hbt, ?_, ?_⟩
    · refine le_antisymm ?_ ?_
      · by_contra hlt
        have := (a1 (numOf k d)).1 (by rw [hat, List.getElem?_eq_getElem (by omega)]; rfl)
        omega
      · by_contra hlt
        have := (a1 x.dofs.length).2 (by omega)
        rw [hat, List.getElem?_eq_none le_rfl] at this
        exact absurd this (by simp)
    · intro y hy
      obtain ⟨j, hj, rfl⟩ := List.getElem_of_mem hy
      exact a2 j _ (by rw [hat, List.getElem?_eq_getElem hj])
  obtain ⟨-, -, -, s1, s2⟩ := C03_counters 2 info mesh data hdata hov
  have s2 : data.counters.dofs + data.counters.strongs = totalRequested info 2 := s2
  have hrange : ∀ r x, lookup data r = some x → r.dim ≤ 2 ∧ r.cell < (mesh.markers r.dim).length := by
    intro r x hr
    obtain ⟨d, c, j⟩ := r
    have I := inv0_of hdata
    have hr : ((data.dims d).cells[c]?).bind (fun x => x.dofs[j]?) = some x := hr
    have hd : d ≤ 2 := by
      by_contra hd
      rw [I.later d (by show 2 + 1 ≤ d; omega)] at hr
      exact absurd hr (by simp)
    cases hc : (data.dims d).cells[c]? with
    | none => rw [hc] at hr; exact absurd hr (by simp)
    | some y =>
      refine ⟨hd, ?_⟩
      show c < (mesh.markers d).length
      rw [← hlen d hd, ← I.len d (by show d < 2 + 1; omega)]
      exact (List.getElem?_eq_some_iff.1 hc).1
  refine ⟨hcell, hverts, hedges, ?_, ?_, ?_, ?_, ?_, ?_, ?_, ?_, ?_, ?_, ?_, ?_⟩
  · intro e he
    have h1 := hcl 1 (by omega) e he (0, _) (by simp [Spec.closure]; left; rfl)
    have h2 := hcl 1 (by omega) e he (0, _) (by simp [Spec.closure]; right; rfl)
    rw [hlen 0 (by omega)] at h1 h2
    exact ⟨h1, h2⟩
  · intro c hc
    exact (C06_cell_list 2 info mesh data hdata 2 c).1.2 ⟨le_rfl, by rw [hlen 2 le_rfl]; exact hc⟩
  · intro c hc
    obtain ⟨g, hg⟩ := Option.isSome_iff_exists.1 ((C06_cell_list 2 info mesh data hdata 2 c).1.2 ⟨le_rfl, by rw [hlen 2 le_rfl]; exact hc⟩)
    obtain ⟨hl, -⟩ := (C06_cell_list 2 info mesh data hdata 2 c).2 g hg
    rw [cellList, hg, Option.map_some, Option.getD_some, hl, expectedList, Spec.closure, vemList, List.flatMap_append, List.flatMap_append]
    congr 1
    · congr 1
      · rw [List.flatMap_map]
        have : ∀ l : List Nat, (∀ v ∈ l, v < (mesh.markers 0).length) →
            (l.flatMap fun v => (List.range (requested info (0, v))).map fun j => (⟨0, v, j⟩ : GDOF)) = l.map fun v => ⟨0, v, 0⟩ := by
          intro l
          induction l with
          | nil => intro _; rfl
          | cons v l ih =>
            intro h
            rw [List.flatMap_cons, ih fun v hv => h v (List.mem_cons_of_mem _ hv), hreq 0 (by omega) v (h v List.mem_cons_self)]
            rfl
        exact this _ (hverts c hc)
      · rw [List.flatMap_map]
        refine List.flatMap_congr fun e he => ?_
        rw [hreq 1 (by omega) e (hedges c hc e he)]
        rfl
    · rw [List.flatMap_cons, hreq 2 le_rfl c hc, List.flatMap_nil, List.append_nil]
      rfl
  · intro r r' x hr hr' ht
    obtain ⟨ty, i⟩ := x
    obtain ⟨d, c, j⟩ := r
    obtain ⟨d', c', j'⟩ := r'
    cases ty with
    | unknwon => exact absurd rfl ht
    | dof =>
      have := (u1 i (f1 d c j i hr).2).unique (y₁ := (d, c, j)) (y₂ := (d', c', j')) hr hr'
      simp only [Prod.mk.injEq] at this
      obtain ⟨rfl, rfl, rfl⟩ := this
      rfl
    | strong =>
      have := (u2 i (f2 d c j i hr).2).unique (y₁ := (d, c, j)) (y₂ := (d', c', j')) hr hr'
      simp only [Prod.mk.injEq] at this
      obtain ⟨rfl, rfl, rfl⟩ := this
      rfl
  · exact fun r i h => (f1 _ _ _ i h).2
  · exact fun r i h => (f2 _ _ _ i h).2
  · omega
  · omega
  · intro r x hr
    obtain ⟨hd, hlt⟩ := hrange r x hr
    obtain ⟨d, c, j⟩ := r
    obtain ⟨z, b, hz, -, hb, -, ht⟩ := hcell d hd c hlt
    have hr : ((data.dims d).cells[c]?).bind (fun x => x.dofs[j]?) = some x := hr
    rw [hz, Option.bind_some] at hr
    rw [ht x (List.mem_of_getElem? hr)]
    cases h : b.type <;> simp_all [typeFor]
  · intro r x hr
    obtain ⟨hd, hlt⟩ := hrange r x hr
    obtain ⟨d, c, j⟩ := r
    obtain ⟨z, b, hz, -, -, hl, -⟩ := hcell d hd c hlt
    have hr : ((data.dims d).cells[c]?).bind (fun x => x.dofs[j]?) = some x := hr
    rw [hz, Option.bind_some] at hr
    refine ⟨hd, hlt, ?_⟩
    show j < numOf k d
    rw [← hl]
    exact (List.getElem?_eq_some_iff.1 hr).1
  · intro i hi
    obtain ⟨p, hp, -⟩ := u1 i hi
    exact ⟨⟨p.1, p.2.1, p.2.2⟩, hp⟩
  · intro i hi
    obtain ⟨p, hp, -⟩ := u2 i hi
    exact ⟨⟨p.1, p.2.1, p.2.2⟩, hp⟩

theorem numOf_ref {k : Nat} {triangle : Nat → Rule (ℝ × ℝ) ℝ} {edge : Nat → Rule ℝ ℝ} {ts ws : List ℝ} {w : ℝ} {ref : VemRef2D ℝ}
    (hT : IsTables k triangle edge ts ws w) (hr : vemRef2D triangle edge k = .ok ref) (mesh : Mesh) (boundary : Nat → Option BInfo) :
    vemMeshInfo ref mesh boundary = createConstantInfo 2 mesh ⟨numOf k, boundary⟩ := by
  rw [vemRef_ok hT] at hr
  cases hr
  unfold vemMeshInfo
  congr 2
  funext d
  rw [numOf, half_tri]

variable {k : Nat} {mesh : Mesh} {info : MeshInfo} {data : DOFsData}

theorem vemList_length (k : Nat) (mesh : Mesh) (c n : Nat) (h0 : (mesh.cell2DVertices c).length = n) (h1 : (mesh.cell2DEdges c).length = n) :
    (vemList k mesh c).length = n + n * (k - 1) + k * (k - 1) / 2 := by
  simp [vemList, h0, h1]
  omega

theorem vemList_vertex {c n : Nat} (h0 : (mesh.cell2DVertices c).length = n) {e : Nat} (he : e < n) :
    (vemList k mesh c)[e]? = some ⟨0, (mesh.cell2DVertices c).getD e 0, 0⟩ := by
  rw [vemList, List.append_assoc, List.getElem?_append_left (by simpa [h0] using he), List.getElem?_map, List.getElem?_eq_getElem (by omega)]
  simp [List.getD_eq_getElem?_getD, List.getElem?_eq_getElem (show e < (mesh.cell2DVertices c).length by omega)]

theorem vemList_node {c n : Nat} (h0 : (mesh.cell2DVertices c).length = n) (h1 : (mesh.cell2DEdges c).length = n) {e r : Nat} (he : e < n) (hr : r < k - 1) :
    (vemList k mesh c)[n + e * (k - 1) + r]? = some ⟨1, (mesh.cell2DEdges c).getD e 0, r⟩ := by
  have hlt : e * (k - 1) + r < n * (k - 1) := by
    calc e * (k - 1) + r < e * (k - 1) + (k - 1) := by omega
      _ = (e + 1) * (k - 1) := by ring
      _ ≤ n * (k - 1) := Nat.mul_le_mul_right _ he
  rw [vemList, List.getElem?_append_left (by simp [h0, h1]; omega), List.getElem?_append_right (by simp [h0]; omega)]
  simp only [List.length_map, h0]
  have he' : e < (mesh.cell2DEdges c).length := by omega
  rw [show n + e * (k - 1) + r - n = e * (k - 1) + r by omega, flatMap_get _ _ (k - 1) _ _ _ (by simp) (List.getElem?_eq_getElem he') hr]
  simp [List.getD_eq_getElem?_getD, List.getElem?_eq_getElem he', hr]

theorem vemList_internal {c n : Nat} (h0 : (mesh.cell2DVertices c).length = n) (h1 : (mesh.cell2DEdges c).length = n) {j : Nat} (hj : j < k * (k - 1) / 2) :
    (vemList k mesh c)[n + n * (k - 1) + j]? = some ⟨2, c, j⟩ := by
  rw [vemList, List.getElem?_append_right (by simp [h0, h1]), List.getElem?_map]
  simp [h0, h1, hj]

namespace Handler

/-- Every reference to an existing DOF. -/
theorem lookup_some (H : Handler k mesh info data) {d c j : Nat} (hd : d ≤ 2) (hc : c < (mesh.markers d).length) (hj : j < numOf k d) :
    ∃ x b, lookup data ⟨d, c, j⟩ = some x ∧ (info.bInfo d)[c]? = Option.some b ∧ x.type = typeFor b.type ∧ x.type ≠ .unknwon := by
  obtain ⟨x, b, hx, hb, -, hl, ht⟩ := H.cell d hd c hc
  have hj' : j < x.dofs.length := by omega
  have hlk : lookup data ⟨d, c, j⟩ = some x.dofs[j] := by
    show ((data.dims d).cells[c]?).bind (fun x => x.dofs[j]?) = _
    rw [hx, Option.bind_some, List.getElem?_eq_getElem hj']
  exact ⟨x.dofs[j], b, hlk, hb, ht _ (List.getElem_mem hj'), H.known _ _ hlk⟩

theorem mem_list (H : Handler k mesh info data) {c : Nat} (hc : c < (mesh.markers 2).length) {r : GDOF} (hr : r ∈ vemList k mesh c) :
    r.dim ≤ 2 ∧ r.cell < (mesh.markers r.dim).length ∧ r.dof < numOf k r.dim := by
  simp only [vemList, List.mem_append, List.mem_map, List.mem_flatMap, List.mem_range] at hr
  rcases hr with (⟨v, hv, rfl⟩ | ⟨e, he, j, hj, rfl⟩) | ⟨j, hj, rfl⟩
  · exact ⟨by simp, H.verts c hc v hv, by simp [numOf]⟩
  · exact ⟨by simp, H.edges c hc e he, by simpa [numOf] using hj⟩
  · exact ⟨by simp, hc, by simpa [numOf] using hj⟩

theorem lookup_list (H : Handler k mesh info data) {c : Nat} (hc : c < (mesh.markers 2).length) {r : GDOF} (hr : r ∈ vemList k mesh c) :
    ∃ x, lookup data r = some x ∧ x.type ≠ .unknwon := by
  obtain ⟨h1, h2, h3⟩ := H.mem_list hc hr
  obtain ⟨x, b, hx, -, -, ht⟩ := H.lookup_some h1 h2 h3
  exact ⟨x, hx, ht⟩

theorem slots_eq (H : Handler k mesh info data) {c : Nat} (hc : c < (mesh.markers 2).length) :
    slots (oneField data) 2 c = (vemList k mesh c).zipIdx.map fun rk => slot data 0 0 rk.2 rk.1 := by
  simp [slots, oneField, fieldSlots, H.list c hc]

theorem local_count (H : Handler k mesh info data) {c : Nat} (hc : c < (mesh.markers 2).length) :
    localCountDofs 2 c [data] = .ok ⟨(vemList k mesh c).length, [0]⟩ := by
  obtain ⟨g, hg⟩ := Option.isSome_iff_exists.1 (H.exist c hc)
  have hl : g.gdofs = vemList k mesh c := by rw [← H.list c hc, cellList, hg]; rfl
  have h1 : atIdx (data.dims 2).globals c = .ok g := by
    have : (data.dims 2).globals[c]? = Option.some g := hg
    simp [atIdx, this]
  show (do let n ← localSize 2 c data; localCountLoop 2 c ⟨n, [0]⟩ data []) = _
  unfold localSize
  rw [h1, except_ok_bind, except_ok_bind, hl]
  rfl

theorem slots_pos' (H : Handler k mesh info data) {c : Nat} (hc : c < (mesh.markers 2).length) :
    (slots (oneField data) 2 c).map Slot.pos = List.range (vemList k mesh c).length := by
  rw [H.slots_eq hc, List.map_map]
  have : (Slot.pos ∘ fun rk : GDOF × Nat => slot data 0 0 rk.2 rk.1) = Prod.snd := funext fun rk => slot_pos _ _ _ _ _
  rw [this]
  simp [List.zipIdx_map_snd, List.range_eq_range']

theorem mem_slots (H : Handler k mesh info data) {c : Nat} (hc : c < (mesh.markers 2).length) {a : Slot} (ha : a ∈ slots (oneField data) 2 c) :
    ∃ r x, (vemList k mesh c)[a.pos]? = Option.some r ∧ lookup data r = some x ∧ x.type ≠ .unknwon ∧ a = ⟨a.pos, x.type, x.globalIndex⟩ := by
  rw [H.slots_eq hc] at ha
  obtain ⟨⟨r, j⟩, hr, rfl⟩ := List.mem_map.1 ha
  rw [List.mem_zipIdx_iff_getElem?] at hr
  obtain ⟨x, hx, ht⟩ := H.lookup_list hc (List.mem_of_getElem? hr)
  refine ⟨r, x, ?_, hx, ht, ?_⟩
  · rw [slot_pos]; exact hr
  · dsimp only
    rw [slot_of_lookup hx]
    obtain ⟨t, i⟩ := x
    cases t <;> simp_all [slotOf]

/-- The local vector of a cell. -/
theorem local_values (H : Handler k mesh info data) {c : Nat} (hc : c < (mesh.markers 2).length) {free strong : List ℝ}
    (hf : free.length = data.counters.dofs) (hs : strong.length = data.counters.strongs) :
    ∃ y, globalToLocal 2 c [data] (vemList k mesh c).length [0] [0] [0] free strong = .ok y ∧ y.length = (vemList k mesh c).length ∧
      ∀ j r, (vemList k mesh c)[j]? = Option.some r → y.getD j 0 = valueOf data free strong r := by
  have hp := H.slots_pos' hc
  have hread : ∀ a ∈ slots (oneField data) 2 c, ReadOK free strong (vemList k mesh c).length a := by
    intro a ha
    obtain ⟨r, x, hr, hx, ht, he⟩ := H.mem_slots hc ha
    rw [he]
    refine ⟨ht, fun h => ?_, fun h => ?_, ?_⟩
    · rw [hf]
      dsimp only at h ⊢
      exact H.free r _ (by rw [hx, ← h])
    · rw [hs]
      dsimp only at h ⊢
      exact H.strong r _ (by rw [hx, ← h])
    · exact (List.getElem?_eq_some_iff.1 hr).1
  have hok := (globalToLocal_ok_iff (oneField data) 2 c (vemList k mesh c).length free strong _ le_rfl le_rfl le_rfl).2
    ⟨by simpa [oneField] using H.exist c hc, hread, rfl⟩
  obtain ⟨hl, hv⟩ := globalToLocal_values (oneField data) 2 c _ free strong _ le_rfl le_rfl le_rfl hp hok
  refine ⟨_, hok, hl, fun j r hr => ?_⟩
  have hmem : slot data 0 0 j r ∈ slots (oneField data) 2 c := by
    rw [H.slots_eq hc]
    exact List.mem_map.2 ⟨(r, j), List.mem_zipIdx_iff_getElem?.2 hr, rfl⟩
  obtain ⟨-, h2⟩ := hv _ hmem
  rw [slot_pos] at h2
  rw [List.getD_eq_getElem?_getD, h2, Option.getD_some]
  obtain ⟨x, hx, ht⟩ := H.lookup_list hc (List.mem_of_getElem? hr)
  rw [slot_of_lookup hx, valueOf, hx]
  obtain ⟨t, i⟩ := x
  cases t <;> simp_all [slotOf, slotVal]

end Handler

/-- The test function of row `i`: one on the DOF with that number. -/
noncomputable def rowTest (data : DOFsData) (i : Nat) (r : GDOF) : ℝ := if lookup data r = some ⟨.dof, i⟩ then 1 else 0

/-- The values of a function of the DOFs on the list of a cell. -/
noncomputable def onList (l : List GDOF) (χ : GDOF → ℝ) (j : Nat) : ℝ := (l[j]?).elim 0 χ

namespace Handler

theorem slots_sum (H : Handler k mesh info data) {c : Nat} (hc : c < (mesh.markers 2).length) (i : Nat) (f : Nat → ℝ) :
    ((slots (oneField data) 2 c).map fun a => if a.type = .dof ∧ a.idx = i then f a.pos else 0).sum
      = ∑ j ∈ Finset.range (vemList k mesh c).length, onList (vemList k mesh c) (rowTest data i) j * f j := by
  rw [← sum_slots_pos (H.slots_pos' hc) fun j => onList (vemList k mesh c) (rowTest data i) j * f j]
  congr 1
  refine List.map_congr_left fun a ha => ?_
  obtain ⟨r, x, hr, hx, ht, he⟩ := H.mem_slots hc ha
  rw [onList, hr, Option.elim_some, rowTest, hx]
  have h1 : a.type = x.type := congrArg Slot.type he
  have h2 : a.idx = x.globalIndex := congrArg Slot.idx he
  obtain ⟨t, j⟩ := x
  simp only [h1, h2, Option.some.injEq, DOF.mk.injEq]
  split_ifs <;> simp

/-- The matrices of the cells assembled and applied to a pair of global vectors. -/
theorem assemble_matrix (H : Handler k mesh info data) (cells : List Nat) (hcells : ∀ c ∈ cells, c < (mesh.markers 2).length)
    (hsmall : ∀ c ∈ cells, (vemList k mesh c).length < 2 ^ 32) (A : Nat → DMat ℝ)
    (hA : ∀ c ∈ cells, (A c).rows = (vemList k mesh c).length ∧ (A c).cols = (vemList k mesh c).length) :
    ∃ S, assembleAll 2 .empty (cells.map fun c => (⟨c, oneField data, some (oneField data, (A c).toLMat), none⟩ : Call ℝ)) = .ok S ∧
      ∀ free strong : List ℝ, free.length = data.counters.dofs → strong.length = data.counters.strongs → ∀ i,
        ∑ j ∈ Finset.range free.length, entry S.lhsDOFs i j * free.getD j 0 + ∑ j ∈ Finset.range strong.length, entry S.lhsStrongs i j * strong.getD j 0
          = (cells.map fun c => ∑ j ∈ Finset.range (vemList k mesh c).length,
              onList (vemList k mesh c) (rowTest data i) j * apply (A c) (onList (vemList k mesh c) (valueOf data free strong)) j).sum := by
  have hvalid : ∀ c ∈ cells, (∀ d ∈ [data], (globalsAt d 2 c).isSome) := fun c hc => by simpa using H.exist c (hcells c hc)
  obtain ⟨S, hok⟩ : ∃ S, assembleAll 2 .empty (cells.map fun c => (⟨c, oneField data, some (oneField data, (A c).toLMat), none⟩ : Call ℝ)) = .ok S := by
    refine ⟨_, (assembleAll_iff 2 _ _ _).2 ⟨?_, rfl⟩⟩
    intro q hq
    obtain ⟨c, hc, rfl⟩ := List.mem_map.1 hq
    refine ⟨⟨hvalid c hc, le_rfl, le_rfl⟩, fun a ha => ?_⟩
    obtain ⟨r, x, hr, hx, ht, he⟩ := H.mem_slots (hcells c hc) ha
    refine ⟨by rw [he]; exact ht, fun _ => ⟨fun v hv => absurd hv (by simp), fun T B hTB => ?_⟩⟩
    simp only [Option.some.injEq, Prod.mk.injEq] at hTB
    obtain ⟨rfl, rfl⟩ := hTB
    refine ⟨⟨hvalid c hc, le_rfl, le_rfl, le_rfl⟩, fun t ht' => ?_⟩
    obtain ⟨r', x', hr', hx', ht'', he'⟩ := H.mem_slots (hcells c hc) ht'
    refine ⟨by rw [he']; exact ht'', ?_, ?_⟩
    · show a.pos < (A c).rows
      rw [(hA c hc).1]; exact (List.getElem?_eq_some_iff.1 hr).1
    · show t.pos < (A c).cols
      rw [(hA c hc).2]; exact (List.getElem?_eq_some_iff.1 hr').1
  refine ⟨S, hok, fun free strong hf hs i => ?_⟩
  choose! y hy hyl hyv using fun (c : Nat) (hc : c ∈ cells) => H.local_values (hcells c hc) hf hs
  rw [C17_residual 2 _ _ hok ?_ free strong (fun q => y q.cell) ?_ i]
  · rw [List.map_map]
    congr 1
    refine List.map_congr_left fun c hc => ?_
    simp only [Function.comp, localResidual]
    rw [H.slots_sum (hcells c hc) i fun p => ∑ r ∈ Finset.range (y c).length, (A c).toLMat.entry p r * (y c).getD r 0]
    refine Finset.sum_congr rfl fun j _ => ?_
    congr 1
    rw [apply, (hA c hc).2, hyl c hc]
    refine Finset.sum_congr rfl fun r hr => ?_
    have hr' := List.getElem?_eq_getElem (Finset.mem_range.1 hr)
    rw [onList, hr', Option.elim_some, hyv c hc r _ hr']
    rfl
  · intro q hq a ha hdof
    obtain ⟨c, hc, rfl⟩ := List.mem_map.1 hq
    obtain ⟨r, x, hr, hx, ht, he⟩ := H.mem_slots (hcells c hc) ha
    have h1 : a.type = x.type := congrArg Slot.type he
    have h2 : a.idx = x.globalIndex := congrArg Slot.idx he
    rw [h2]
    exact (H.free r x.globalIndex (by rw [hx, ← hdof, h1])).trans H.dofsSmall
  · intro q hq T B hTB
    obtain ⟨c, hc, rfl⟩ := List.mem_map.1 hq
    simp only [Option.some.injEq, Prod.mk.injEq] at hTB
    obtain ⟨rfl, rfl⟩ := hTB
    refine ⟨_, H.local_count (hcells c hc), ?_, rfl, le_rfl, le_rfl, hy c hc⟩
    simpa [oneField, H.list c (hcells c hc)] using hsmall c hc

/-- The vectors of the cells assembled. -/
theorem assemble_vector (H : Handler k mesh info data) (cells : List Nat) (hcells : ∀ c ∈ cells, c < (mesh.markers 2).length) (b : Nat → DMat ℝ)
    (hb : ∀ c ∈ cells, (b c).rows = (vemList k mesh c).length) :
    ∃ S, assembleAll 2 .empty (cells.map fun c => (⟨c, oneField data, none, some (b c).toList⟩ : Call ℝ)) = .ok S ∧
      ∀ i, ventry S.rhs i = (cells.map fun c => ∑ j ∈ Finset.range (vemList k mesh c).length,
        onList (vemList k mesh c) (rowTest data i) j * (b c).ent j 0).sum := by
  have hvalid : ∀ c ∈ cells, (∀ d ∈ [data], (globalsAt d 2 c).isSome) := fun c hc => by simpa using H.exist c (hcells c hc)
  obtain ⟨S, hok⟩ : ∃ S, assembleAll 2 .empty (cells.map fun c => (⟨c, oneField data, none, some (b c).toList⟩ : Call ℝ)) = .ok S := by
    refine ⟨_, (assembleAll_iff 2 _ _ _).2 ⟨?_, rfl⟩⟩
    intro q hq
    obtain ⟨c, hc, rfl⟩ := List.mem_map.1 hq
    refine ⟨⟨hvalid c hc, le_rfl, le_rfl⟩, fun a ha => ?_⟩
    obtain ⟨r, x, hr, hx, ht, he⟩ := H.mem_slots (hcells c hc) ha
    refine ⟨by rw [he]; exact ht, fun _ => ⟨fun v hv => ?_, fun T B hTB => absurd hTB (by simp)⟩⟩
    simp only [Option.some.injEq] at hv
    rw [← hv, DMat.toList, List.length_map, List.length_range, hb c hc]
    exact (List.getElem?_eq_some_iff.1 hr).1
  refine ⟨S, hok, fun i => ?_⟩
  rw [(C14_assembly 2 _ _ _ hok ?_).2.2 i]
  · rw [List.map_map, show ventry (Sys.empty : Sys ℝ).rhs i = 0 from rfl, zero_add]
    congr 1
    refine List.map_congr_left fun c hc => ?_
    simp only [Function.comp, rhsContribution]
    rw [H.slots_sum (hcells c hc) i fun p => (b c).toList.getD p 0]
    refine Finset.sum_congr rfl fun j hj => ?_
    rw [DMat.toList]
    simp [List.getD_eq_getElem?_getD, hb c hc, Finset.mem_range.1 hj]
  · intro q hq a ha hdof
    obtain ⟨c, hc, rfl⟩ := List.mem_map.1 hq
    obtain ⟨r, x, hr, hx, ht, he⟩ := H.mem_slots (hcells c hc) ha
    have h1 : a.type = x.type := congrArg Slot.type he
    have h2 : a.idx = x.globalIndex := congrArg Slot.idx he
    rw [h2]
    exact (H.free r x.globalIndex (by rw [hx, ← hdof, h1])).trans H.dofsSmall

end Handler

end PolyDiM
