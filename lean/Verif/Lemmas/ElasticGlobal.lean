import Verif.Lemmas.ElasticPatch
import Verif.Lemmas.FieldPair
import Verif.Lemmas.EllipticGlobal

/-!
# Lemmas: the global system of the elasticity example
-/

namespace PolyDiM

open Spec MvPolynomial

/-- The writes `L` are the writes `l` to the first part and the writes `m` to the second part of a vector whose first part has `off` entries. -/
structure Merges (off : Nat) (L l m : List (Nat × ℝ)) : Prop where
  fold : ∀ v w a b : List ℝ, v.length = off → l.foldlM (fun v w => writeAt v w.1 w.2) v = .ok a → m.foldlM (fun v w => writeAt v w.1 w.2) w = .ok b →
    L.foldlM (fun v w => writeAt v w.1 w.2) (v ++ w) = .ok (a ++ b)
  add : ∀ i, ventry L i = ventry l i + if off ≤ i then ventry m (i - off) else 0

theorem fold_length (l : List (Nat × ℝ)) : ∀ v a : List ℝ, l.foldlM (fun v w => writeAt v w.1 w.2) v = .ok a → a.length = v.length := by
  induction l with
  | nil => intro v a h; rw [List.foldlM_nil] at h; rw [Except.ok.inj h]
  | cons p l ih =>
    intro v a h
    rw [List.foldlM_cons] at h
    obtain ⟨x, hx, h⟩ := (bind_ok_iff _ _ _).1 h
    rw [ih x a h]
    unfold writeAt at hx
    split_ifs at hx
    rw [← Except.ok.inj hx, List.length_set]

theorem fold_first (w : List ℝ) (l : List (Nat × ℝ)) : ∀ v a : List ℝ, l.foldlM (fun v w => writeAt v w.1 w.2) v = .ok a →
    (shiftWrites 0 l).foldlM (fun v w => writeAt v w.1 w.2) (v ++ w) = .ok (a ++ w) := by
  induction l with
  | nil => intro v a h; rw [List.foldlM_nil] at h; rw [← Except.ok.inj h]; rfl
  | cons p l ih =>
    intro v a h
    rw [List.foldlM_cons] at h
    obtain ⟨x, hx, h⟩ := (bind_ok_iff _ _ _).1 h
    unfold writeAt at hx
    split_ifs at hx with hp
    have hx := Except.ok.inj hx
    show ((p.1 + 0, p.2) :: shiftWrites 0 l).foldlM (fun v w => writeAt v w.1 w.2) (v ++ w) = _
    rw [List.foldlM_cons]
    dsimp only
    rw [writeAt, if_pos (by rw [List.length_append]; omega), except_ok_bind, Nat.add_zero, List.set_append_left _ _ hp, hx]
    exact ih x a h

theorem fold_second (v : List ℝ) (m : List (Nat × ℝ)) : ∀ w b : List ℝ, m.foldlM (fun v w => writeAt v w.1 w.2) w = .ok b →
    (shiftWrites v.length m).foldlM (fun v w => writeAt v w.1 w.2) (v ++ w) = .ok (v ++ b) := by
  induction m with
  | nil => intro w b h; rw [List.foldlM_nil] at h; rw [← Except.ok.inj h]; rfl
  | cons p m ih =>
    intro w b h
    rw [List.foldlM_cons] at h
    obtain ⟨x, hx, h⟩ := (bind_ok_iff _ _ _).1 h
    unfold writeAt at hx
    split_ifs at hx with hp
    have hx := Except.ok.inj hx
    show ((p.1 + v.length, p.2) :: shiftWrites v.length m).foldlM (fun v w => writeAt v w.1 w.2) (v ++ w) = _
    rw [List.foldlM_cons]
    dsimp only
    rw [writeAt, if_pos (by rw [List.length_append]; omega), except_ok_bind, List.set_append_right _ _ (by omega), Nat.add_sub_cancel, hx]
    exact ih x b h

theorem ventry_shift (off : Nat) (l : List (Nat × ℝ)) (i : Nat) : ventry (shiftWrites off l) i = if off ≤ i then ventry l (i - off) else 0 := by
  unfold ventry shiftWrites
  rw [List.map_map]
  split_ifs with h
  · congr 1
    refine List.map_congr_left fun p _ => ?_
    simp only [Function.comp]
    congr 1
    exact propext ⟨fun h => by omega, fun h => by omega⟩
  · refine List.sum_eq_zero fun x hx => ?_
    obtain ⟨p, -, rfl⟩ := List.mem_map.1 hx
    simp only [Function.comp]
    rw [if_neg (by omega)]

namespace Merges

theorem nil (off : Nat) : Merges off [] [] [] :=
  ⟨fun v w a b _ h1 h2 => by rw [List.foldlM_nil] at h1 h2; rw [← Except.ok.inj h1, ← Except.ok.inj h2]; rfl, fun i => by simp [ventry]⟩

theorem append {off : Nat} {L l m L' l' m' : List (Nat × ℝ)} (h : Merges off L l m) (h' : Merges off L' l' m') : Merges off (L ++ L') (l ++ l') (m ++ m') := by
  refine ⟨fun v w a b hv h1 h2 => ?_, fun i => ?_⟩
  · rw [List.foldlM_append] at h1 h2 ⊢
    obtain ⟨a', ha', h1⟩ := (bind_ok_iff _ _ _).1 h1
    obtain ⟨b', hb', h2⟩ := (bind_ok_iff _ _ _).1 h2
    rw [h.fold v w a' b' hv ha' hb', except_ok_bind]
    exact h'.fold a' b' a b (by rw [fold_length _ _ _ ha', hv]) h1 h2
  · rw [ventry_append, ventry_append, h.add, h'.add]
    split_ifs
    · rw [ventry_append]
      ring
    · ring

theorem base (off : Nat) (l m : List (Nat × ℝ)) : Merges off (shiftWrites 0 l ++ shiftWrites off m) l m := by
  refine ⟨fun v w a b hv h1 h2 => ?_, fun i => ?_⟩
  · rw [List.foldlM_append, fold_first w l v a h1, except_ok_bind, ← hv, ← fold_length _ _ _ h1]
    exact fold_second a m w b h2
  · rw [ventry_append, ventry_shift, ventry_shift, if_pos (Nat.zero_le _), Nat.sub_zero]

theorem flatten {α : Type} {off : Nat} (xs : List α) (g l m : α → List (Nat × ℝ)) (h : ∀ a ∈ xs, Merges off (g a) (l a) (m a)) :
    Merges off (xs.map g).flatten (xs.map l).flatten (xs.map m).flatten := by
  induction xs with
  | nil => exact nil off
  | cons a xs ih =>
    simp only [List.map_cons, List.flatten_cons]
    exact (h a (by simp)).append (ih fun b hb => h b (by simp [hb]))

end Merges

/-- The loop over the two components. -/
theorem two_fields (off : Nat) (f : Nat → Except Fault (List (Nat × ℝ))) {l m : List (Nat × ℝ)} (h0 : f 0 = .ok l) (h1 : f 1 = .ok m) :
    (do let ws ← (List.range 2).mapM fun h => do
          let o ← unchecked [0, off] h
          let w ← f h
          Except.ok (shiftWrites o w)
        Except.ok ws.flatten) = Except.ok (ε := Fault) (shiftWrites 0 l ++ shiftWrites off m) := by
  have e : ((List.range 2).mapM fun h => do
          let o ← unchecked [0, off] h
          let w ← f h
          Except.ok (shiftWrites o w)) = Except.ok (ε := Fault) ((List.range 2).map fun h => if h = 0 then shiftWrites 0 l else shiftWrites off m) := by
    refine mapM_ok _ _ _ fun h hh => ?_
    have hh := List.mem_range.1 hh
    obtain rfl | rfl : h = 0 ∨ h = 1 := by omega
    · rw [show unchecked [0, off] 0 = .ok 0 from rfl, except_ok_bind, h0, except_ok_bind, if_pos rfl]
    · rw [show unchecked [0, off] 1 = .ok off from rfl, except_ok_bind, h1, except_ok_bind, if_neg one_ne_zero]
  rw [e, except_ok_bind]
  simp [List.range_succ]

theorem fieldList_vem (k : Nat) (mesh : Mesh) (c : Nat) : fieldList (numOf k) mesh c = vemList k mesh c := by
  unfold fieldList vemList
  congr 2
  rw [show entityRefs 0 (numOf k 0) = fun v => [(⟨0, v, 0⟩ : GDOF)] from rfl, ← List.map_eq_flatMap]

section

variable {k : Nat} {mesh : PlaneMesh ℝ} {poly : Nat → VemPolygon ℝ} {n : Nat → Nat} {len : Nat → Nat → ℝ} {dir : Nat → Nat → Bool} {nrm : Nat → Nat → ℝ × ℝ}
  {triangle : Nat → Rule (ℝ × ℝ) ℝ} {edge : Nat → Rule ℝ ℝ} {ts ws : List ℝ} {w : ℝ} {lu llt : Solver ℝ}
  {ref : VemRef2D ℝ} {boundary : Nat → Option BInfo} {info : MeshInfo} {data : DOFsData} {gauss : Nat → Rule ℝ ℝ}

/-- The writes of the strong term of a cell, by vertex and by edge. -/
theorem strongCell_parts (H : Handler k mesh.topo info data) {f : Nat → ℝ × ℝ → ℝ} {c : Nat} (hc : c < mesh.num2D) {s : VemSpace2D ℝ}
    (hs : vemCreate2D lu llt ref (poly c) = .ok s) {l : List (Nat × ℝ)} (hl : strongCell info data k (vemSpaces lu llt ref poly) mesh f c = .ok l) :
    ∃ (gv : Nat → List (Nat × ℝ)) (ge : Nat × Nat → List (Nat × ℝ)), (∀ v ∈ mesh.topo.cell2DVertices c, strongVertex info data mesh f v = .ok (gv v)) ∧
      (∀ e ∈ (mesh.topo.cell2DEdges c).zipIdx, strongEdge info data (vemCell2D ref (poly c) s) f e = .ok (ge e)) ∧
      l = ((mesh.topo.cell2DVertices c).map gv).flatten ++ ((mesh.topo.cell2DEdges c).zipIdx.map ge).flatten := by
  have hsp : vemSpaces lu llt ref poly c = .ok (vemCell2D ref (poly c) s) := by rw [vemSpaces, hs, except_ok_bind]
  obtain ⟨vs, hvs, hl⟩ := (bind_ok_iff _ _ _).1 hl
  obtain ⟨gv, hgv, rfl⟩ := mapM_inv hvs
  split_ifs at hl with hk
  · rw [hsp, except_ok_bind] at hl
    obtain ⟨es, hes, hl⟩ := (bind_ok_iff _ _ _).1 hl
    obtain ⟨ge, hge, rfl⟩ := mapM_inv hes
    exact ⟨gv, ge, hgv, hge, (Except.ok.inj hl).symm⟩
  · refine ⟨gv, fun _ => [], hgv, fun e he => ?_, ?_⟩
    · obtain ⟨x, b, hx, hb, -, hlen, -⟩ := H.cell 1 (by norm_num) e.1 (H.edges c hc _ (List.fst_mem_of_mem_zipIdx he))
      rw [strongEdge, atIdx, hb]
      simp only [except_ok_bind]
      rw [atIdx, hx]
      simp only [except_ok_bind]
      rw [if_pos (Or.inr (by rw [hlen]; simp only [numOf, one_ne_zero, if_false, if_true]; omega))]
    · rw [flatten_nil _ _ fun _ _ => rfl, List.append_nil]
      exact (Except.ok.inj hl).symm

/-- The strong term of one cell writes the strong terms of the components. -/
theorem elasticStrong_ok (H : Handler k mesh.topo info data) {test : ElasticTest ℝ} {c off : Nat} (hc : c < mesh.num2D) {s : VemSpace2D ℝ}
    (hs : vemCreate2D lu llt ref (poly c) = .ok s) {l m : List (Nat × ℝ)} (hl : strongCell info data k (vemSpaces lu llt ref poly) mesh (fun i p => test.strong i p 0) c = .ok l)
    (hm : strongCell info data k (vemSpaces lu llt ref poly) mesh (fun i p => test.strong i p 1) c = .ok m) :
    ∃ L, elasticStrong info data [0, off] (vemCell2D ref (poly c) s) mesh test c = .ok L ∧ Merges off L l m := by
  obtain ⟨gv, ge, hgv, hge, rfl⟩ := strongCell_parts H hc hs hl
  obtain ⟨gv', ge', hgv', hge', rfl⟩ := strongCell_parts H hc hs hm
  refine ⟨_, ?_, (Merges.flatten _ (fun v => shiftWrites 0 (gv v) ++ shiftWrites off (gv' v)) _ _ fun v _ => Merges.base off _ _).append
    (Merges.flatten _ (fun e => shiftWrites 0 (ge e) ++ shiftWrites off (ge' e)) _ _ fun v _ => Merges.base off _ _)⟩
  have h1 := mapM_ok (elasticStrongVertex info data [0, off] mesh test) (fun v => shiftWrites 0 (gv v) ++ shiftWrites off (gv' v)) (mesh.topo.cell2DVertices c)
    fun v hv => two_fields off (fun h => strongVertex info data mesh (fun i p => test.strong i p h) v) (hgv v hv) (hgv' v hv)
  have h2 := mapM_ok (elasticStrongEdge info data [0, off] (vemCell2D ref (poly c) s) test) (fun e => shiftWrites 0 (ge e) ++ shiftWrites off (ge' e))
    (mesh.topo.cell2DEdges c).zipIdx
    fun e he => two_fields off (fun h => strongEdge info data (vemCell2D ref (poly c) s) (fun i p => test.strong i p h) e) (hge e he) (hge' e he)
  unfold elasticStrong
  rw [h1, except_ok_bind, h2, except_ok_bind]

/-- The weak term of one cell writes the weak terms of the components. -/
theorem elasticWeak_ok {gauss : Nat → Rule ℝ ℝ} {g : PolyEdges ℝ} {test : ElasticTest ℝ} {c off : Nat} {space : CellSpace2D ℝ} {es fs : List (List (Nat × ℝ))}
    (hes : (List.range g.vertices.length).mapM (weakEdge info data (gauss (u32 (2 * k))) g space mesh (fun i p => test.weak i p 0) c) = .ok es)
    (hfs : (List.range g.vertices.length).mapM (weakEdge info data (gauss (u32 (2 * k))) g space mesh (fun i p => test.weak i p 1) c) = .ok fs) :
    ∃ L, elasticWeak info data [0, off] k gauss g space mesh test c = .ok L ∧ Merges off L es.flatten fs.flatten := by
  obtain ⟨ge, hge, rfl⟩ := mapM_inv hes
  obtain ⟨ge', hge', rfl⟩ := mapM_inv hfs
  refine ⟨_, ?_, Merges.flatten _ (fun e => shiftWrites 0 (ge e) ++ shiftWrites off (ge' e)) _ _ fun v _ => Merges.base off _ _⟩
  have h1 := mapM_ok (elasticWeakEdge info data [0, off] (gauss (u32 (2 * k))) g space mesh test c) (fun e => shiftWrites 0 (ge e) ++ shiftWrites off (ge' e))
    (List.range g.vertices.length)
    fun e he => two_fields off (fun h => weakEdge info data (gauss (u32 (2 * k))) g space mesh (fun i p => test.weak i p h) c e) (hge e he) (hge' e he)
  unfold elasticWeak
  rw [h1, except_ok_bind]

end

end PolyDiM
