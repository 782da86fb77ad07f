import Verif.Spec.PlaneMesh
import Verif.Props.DOFs
import Verif.Props.Assembler
import Verif.Lemmas.PlaneDofs

/-!
# Lemmas: the handlers of two fields on a mesh of polygons
-/

namespace PolyDiM

open Spec

/-- The references to the DOFs of an entity with `m` DOFs. -/
def entityRefs (d m e : Nat) : List GDOF := (List.range m).map fun j => ⟨d, e, j⟩

/-- The DOFs of a cell, in order. -/
def fieldList (num : Nat → Nat) (mesh : Mesh) (c : Nat) : List GDOF :=
  (mesh.cell2DVertices c).flatMap (entityRefs 0 (num 0)) ++ (mesh.cell2DEdges c).flatMap (entityRefs 1 (num 1)) ++ entityRefs 2 (num 2) c

/-- What is known about the handler of one field of a mesh. -/
structure FHandler (num : Nat → Nat) (mesh : Mesh) (info : MeshInfo) (data : DOFsData) : Prop where
  cell : ∀ d ≤ 2, ∀ c < (mesh.markers d).length, ∃ x b, (data.dims d).cells[c]? = some x ∧ (info.bInfo d)[c]? = some b ∧ b.type ≠ .unknwon ∧
    x.dofs.length = num d ∧ ∀ y ∈ x.dofs, y.type = typeFor b.type
  verts : ∀ c < (mesh.markers 2).length, ∀ v ∈ mesh.cell2DVertices c, v < (mesh.markers 0).length
  edges : ∀ c < (mesh.markers 2).length, ∀ e ∈ mesh.cell2DEdges c, e < (mesh.markers 1).length
  ends : ∀ e < (mesh.markers 1).length, (mesh.cell1DVertices e).1 < (mesh.markers 0).length ∧ (mesh.cell1DVertices e).2 < (mesh.markers 0).length
  exist : ∀ c < (mesh.markers 2).length, (globalsAt data 2 c).isSome
  list : ∀ c < (mesh.markers 2).length, cellList data 2 c = fieldList num mesh c
  inj : ∀ r r' x, lookup data r = .some x → lookup data r' = .some x → x.type ≠ .unknwon → r = r'
  free : ∀ r i, lookup data r = .some ⟨.dof, i⟩ → i < data.counters.dofs
  strong : ∀ r i, lookup data r = .some ⟨.strong, i⟩ → i < data.counters.strongs
  dofsSmall : data.counters.dofs < 2 ^ 32
  strongsSmall : data.counters.strongs < 2 ^ 32
  known : ∀ r x, lookup data r = .some x → x.type ≠ .unknwon
  range : ∀ r x, lookup data r = .some x → r.dim ≤ 2 ∧ r.cell < (mesh.markers r.dim).length ∧ r.dof < num r.dim
  ontoFree : ∀ i < data.counters.dofs, ∃ r, lookup data r = .some ⟨.dof, i⟩
  ontoStrong : ∀ i < data.counters.strongs, ∃ r, lookup data r = .some ⟨.strong, i⟩

theorem field_handler {num : Nat → Nat} {mesh : Mesh} {boundary : Nat → Option BInfo} {info : MeshInfo} {data : DOFsData}
    (hi : createConstantInfo 2 mesh ⟨num, boundary⟩ = .ok info) (hdata : createDOFs 2 info mesh = .ok data) (hov : totalRequested info 2 < 2 ^ 32) :
    FHandler num mesh info data := by
  obtain ⟨-, -, hinfo⟩ := C10_constant_info 2 mesh ⟨num, boundary⟩
  obtain ⟨hinfo, -⟩ := hinfo info hi
  have hwf := (C05_total 2 info mesh).1.1 ⟨data, hdata⟩
  have hlen : ∀ d ≤ 2, (info.numDOFs d).length = (mesh.markers d).length := fun d hd => (hinfo d hd).1
  have hnum : ∀ d ≤ 2, ∀ c < (mesh.markers d).length, (info.numDOFs d)[c]? = some (num d) := by
    intro d hd c hc
    exact ((hinfo d hd).2.2 c _ (List.getElem?_eq_getElem hc)).1
  have hreq : ∀ d ≤ 2, ∀ c < (mesh.markers d).length, requested info (d, c) = num d := by
    intro d hd c hc
    rw [requested, hnum d hd c hc]
    rfl
  have hcl : ∀ d ≤ 2, ∀ c < (mesh.markers d).length, ∀ e ∈ Spec.closure mesh d c, e.2 < (info.numDOFs e.1).length := by
    intro d hd c hc
    exact (hwf d hd c (by rw [hlen d hd]; exact hc)).2
  have hverts : ∀ c < (mesh.markers 2).length, ∀ v ∈ mesh.cell2DVertices c, v < (mesh.markers 0).length := by
    intro c hc v hv
    have := hcl 2 le_rfl c hc (0, v) (by simp [Spec.closure, hv])
    rwa [hlen 0 (by omega)] at this
  have hedges : ∀ c < (mesh.markers 2).length, ∀ e ∈ mesh.cell2DEdges c, e < (mesh.markers 1).length := by
    intro c hc v hv
    have := hcl 2 le_rfl c hc (1, v) (by simp [Spec.closure, hv])
    rwa [hlen 1 (by omega)] at this
  obtain ⟨u1, f1⟩ := C01_free_numbering 2 info mesh data hdata hov
  obtain ⟨u2, f2⟩ := C02_strong_numbering 2 info mesh data hdata hov
  have hcell : ∀ d ≤ 2, ∀ c < (mesh.markers d).length, ∃ x b, (data.dims d).cells[c]? = some x ∧ (info.bInfo d)[c]? = some b ∧ b.type ≠ .unknwon ∧
      x.dofs.length = num d ∧ ∀ y ∈ x.dofs, y.type = typeFor b.type := by
    intro d hd c hc
    obtain ⟨⟨b, hb, hbt⟩, -⟩ := hwf d hd c (by rw [hlen d hd]; exact hc)
    obtain ⟨a1, a2, x, hx, -, -⟩ := C04_cell_dofs 2 info mesh data hdata d c _ b hd (hnum d hd c hc) hb
    have hat : ∀ j, dofAt data d c j = x.dofs[j]? := fun j => by rw [dofAt, hx]; rfl
    refine ⟨x, b, hx, hb, hbt, ?_, ?_⟩
    · refine le_antisymm ?_ ?_
      · by_contra hlt
        have := (a1 (num d)).1 (by rw [hat, List.getElem?_eq_getElem (by omega)]; rfl)
        omega
      · by_contra hlt
        have := (a1 x.dofs.length).2 (by omega)
        rw [hat, List.getElem?_eq_none le_rfl] at this
        exact absurd this (by simp)
    · intro y hy
      obtain ⟨j, hj, rfl⟩ := List.getElem_of_mem hy
      exact a2 j _ (by rw [hat, List.getElem?_eq_getElem hj])
  obtain ⟨-, -, -, s1, s2⟩ := C03_counters 2 info mesh data hdata hov
  have s2 : data.counters.dofs + data.counters.strongs = totalRequested info 2 := s2
  have hrange : ∀ r x, lookup data r = some x → r.dim ≤ 2 ∧ r.cell < (mesh.markers r.dim).length := by
    intro r x hr
    obtain ⟨d, c, j⟩ := r
    have I := inv0_of hdata
    have hr : ((data.dims d).cells[c]?).bind (fun x => x.dofs[j]?) = some x := hr
    have hd : d ≤ 2 := by
      by_contra hd
      rw [I.later d (by show 2 + 1 ≤ d; omega)] at hr
      exact absurd hr (by simp)
    cases hc : (data.dims d).cells[c]? with
    | none => rw [hc] at hr; exact absurd hr (by simp)
    | some y =>
      refine ⟨hd, ?_⟩
      show c < (mesh.markers d).length
      rw [← hlen d hd, ← I.len d (by show d < 2 + 1; omega)]
      exact (List.getElem?_eq_some_iff.1 hc).1
  refine ⟨hcell, hverts, hedges, ?_, ?_, ?_, ?_, ?_, ?_, ?_, ?_, ?_, ?_, ?_, ?_⟩
  · intro e he
    have h1 := hcl 1 (by omega) e he (0, _) (by simp [Spec.closure]; left; rfl)
    have h2 := hcl 1 (by omega) e he (0, _) (by simp [Spec.closure]; right; rfl)
    rw [hlen 0 (by omega)] at h1 h2
    exact ⟨h1, h2⟩
  · intro c hc
    exact (C06_cell_list 2 info mesh data hdata 2 c).1.2 ⟨le_rfl, by rw [hlen 2 le_rfl]; exact hc⟩
  · intro c hc
    obtain ⟨g, hg⟩ := Option.isSome_iff_exists.1 ((C06_cell_list 2 info mesh data hdata 2 c).1.2 ⟨le_rfl, by rw [hlen 2 le_rfl]; exact hc⟩)
    obtain ⟨hl, -⟩ := (C06_cell_list 2 info mesh data hdata 2 c).2 g hg
    rw [cellList, hg, Option.map_some, Option.getD_some, hl, expectedList, Spec.closure, fieldList, List.flatMap_append, List.flatMap_append]
    congr 1
    · congr 1
      · rw [List.flatMap_map]
        refine List.flatMap_congr fun e he => ?_
        rw [hreq 0 (by omega) e (hverts c hc e he)]
        rfl
      · rw [List.flatMap_map]
        refine List.flatMap_congr fun e he => ?_
        rw [hreq 1 (by omega) e (hedges c hc e he)]
        rfl
    · rw [List.flatMap_cons, hreq 2 le_rfl c hc, List.flatMap_nil, List.append_nil]
      rfl
  · intro r r' x hr hr' ht
    obtain ⟨ty, i⟩ := x
    obtain ⟨d, c, j⟩ := r
    obtain ⟨d', c', j'⟩ := r'
    cases ty with
    | unknwon => exact absurd rfl ht
    | dof =>
      have := (u1 i (f1 d c j i hr).2).unique (y₁ := (d, c, j)) (y₂ := (d', c', j')) hr hr'
      simp only [Prod.mk.injEq] at this
      obtain ⟨rfl, rfl, rfl⟩ := this
      rfl
    | strong =>
      have := (u2 i (f2 d c j i hr).2).unique (y₁ := (d, c, j)) (y₂ := (d', c', j')) hr hr'
      simp only [Prod.mk.injEq] at this
      obtain ⟨rfl, rfl, rfl⟩ := this
      rfl
  · exact fun r i h => (f1 _ _ _ i h).2
  · exact fun r i h => (f2 _ _ _ i h).2
  · omega
  · omega
  · intro r x hr
    obtain ⟨hd, hlt⟩ := hrange r x hr
    obtain ⟨d, c, j⟩ := r
    obtain ⟨z, b, hz, -, hb, -, ht⟩ := hcell d hd c hlt
    have hr : ((data.dims d).cells[c]?).bind (fun x => x.dofs[j]?) = some x := hr
    rw [hz, Option.bind_some] at hr
    rw [ht x (List.mem_of_getElem? hr)]
    cases h : b.type <;> simp_all [typeFor]
  · intro r x hr
    obtain ⟨hd, hlt⟩ := hrange r x hr
    obtain ⟨d, c, j⟩ := r
    obtain ⟨z, b, hz, -, -, hl, -⟩ := hcell d hd c hlt
    have hr : ((data.dims d).cells[c]?).bind (fun x => x.dofs[j]?) = some x := hr
    rw [hz, Option.bind_some] at hr
    refine ⟨hd, hlt, ?_⟩
    show j < num d
    rw [← hl]
    exact (List.getElem?_eq_some_iff.1 hr).1
  · intro i hi
    obtain ⟨p, hp, -⟩ := u1 i hi
    exact ⟨⟨p.1, p.2.1, p.2.2⟩, hp⟩
  · intro i hi
    obtain ⟨p, hp, -⟩ := u2 i hi
    exact ⟨⟨p.1, p.2.1, p.2.2⟩, hp⟩


variable {num : Nat → Nat} {mesh : Mesh} {info : MeshInfo} {data : DOFsData}

namespace FHandler

/-- Every reference to an existing DOF. -/
theorem lookup_some (H : FHandler num mesh info data) {d c j : Nat} (hd : d ≤ 2) (hc : c < (mesh.markers d).length) (hj : j < num d) :
    ∃ x b, lookup data ⟨d, c, j⟩ = some x ∧ (info.bInfo d)[c]? = Option.some b ∧ x.type = typeFor b.type ∧ x.type ≠ .unknwon := by
  obtain ⟨x, b, hx, hb, -, hl, ht⟩ := H.cell d hd c hc
  have hj' : j < x.dofs.length := by omega
  have hlk : lookup data ⟨d, c, j⟩ = some x.dofs[j] := by
    show ((data.dims d).cells[c]?).bind (fun x => x.dofs[j]?) = _
    rw [hx, Option.bind_some, List.getElem?_eq_getElem hj']
  exact ⟨x.dofs[j], b, hlk, hb, ht _ (List.getElem_mem hj'), H.known _ _ hlk⟩

theorem mem_list (H : FHandler num mesh info data) {c : Nat} (hc : c < (mesh.markers 2).length) {r : GDOF} (hr : r ∈ fieldList num mesh c) :
    r.dim ≤ 2 ∧ r.cell < (mesh.markers r.dim).length ∧ r.dof < num r.dim := by
  simp only [fieldList, entityRefs, List.mem_append, List.mem_map, List.mem_flatMap, List.mem_range] at hr
  rcases hr with (⟨e, he, j, hj, rfl⟩ | ⟨e, he, j, hj, rfl⟩) | ⟨j, hj, rfl⟩
  · exact ⟨by simp, H.verts c hc e he, hj⟩
  · exact ⟨by simp, H.edges c hc e he, hj⟩
  · exact ⟨by simp, hc, hj⟩

theorem lookup_list (H : FHandler num mesh info data) {c : Nat} (hc : c < (mesh.markers 2).length) {r : GDOF} (hr : r ∈ fieldList num mesh c) :
    ∃ x, lookup data r = some x ∧ x.type ≠ .unknwon := by
  obtain ⟨h1, h2, h3⟩ := H.mem_list hc hr
  obtain ⟨x, b, hx, -, -, ht⟩ := H.lookup_some h1 h2 h3
  exact ⟨x, hx, ht⟩

end FHandler

end PolyDiM
