import Verif.Props.FemHexa
import Verif.Spec.HexMesh
import Verif.Lemmas.FemTetFaces

/-! Helper lemmas: the local space of the hexahedron. -/

namespace PolyDiM
open Spec

/-! ## Tables -/

/-- The number of the reference edge that joins two vertices. -/
def hexEdgeNo (a b : Nat) : Nat := ((hexEdges.find? fun p => p.1 = (a, b)).map fun p => p.2.1).getD 12

/-- Whether the reference edge starts at `a`. -/
def hexEdgeFwd (a b : Nat) : Bool := ((hexEdges.find? fun p => p.1 = (a, b)).map fun p => p.2.2).getD false

set_option maxRecDepth 8000 in
theorem hexEdge_table' : ∀ a b : Fin 8, CubeAdj a b → hexEdges.find? (fun p => p.1 = ((a : Nat), (b : Nat))) = some (((a : Nat), (b : Nat)), (hexEdgeNo a b, hexEdgeFwd a b)) ∧
    hexEdgeNo a b < 12 ∧ hexEdgeNo b a = hexEdgeNo a b ∧ cubeEdges[hexEdgeNo a b]? = some (if hexEdgeFwd a b then ((a : Nat), (b : Nat)) else ((b : Nat), (a : Nat))) := by
  decide

theorem hexEdge_table {a b : Nat} (h : CubeAdj a b) : mapAt hexEdges (a, b) = .ok (hexEdgeNo a b, hexEdgeFwd a b) ∧ hexEdgeNo a b < 12 ∧
    hexEdgeNo b a = hexEdgeNo a b ∧ cubeEdges[hexEdgeNo a b]? = some (if hexEdgeFwd a b then (a, b) else (b, a)) := by
  obtain ⟨h1, h2⟩ := hexEdge_table' ⟨a, h.1⟩ ⟨b, h.2.1⟩ h
  refine ⟨?_, h2⟩
  unfold mapAt
  simp only at h1
  rw [h1]

theorem cubeAdj_symm {a b : Nat} (h : CubeAdj a b) : CubeAdj b a := by
  obtain ⟨h1, h2, h3⟩ := h
  refine ⟨h2, h1, ?_⟩
  rcases h3 with h | h | h
  · exact Or.inl ⟨h.1.symm, h.2.1.symm, h.2.2.symm⟩
  · exact Or.inr (Or.inl ⟨h.1.symm, h.2.1.symm, h.2.2.symm⟩)
  · exact Or.inr (Or.inr ⟨h.1.symm, h.2.1.symm, h.2.2.symm⟩)

theorem hexEdgeNo_inj {a b a' b' : Nat} (h : CubeAdj a b) (h' : CubeAdj a' b') (he : hexEdgeNo a b = hexEdgeNo a' b') :
    (a', b') = (a, b) ∨ (a', b') = (b, a) := by
  have h1 := (hexEdge_table h).2.2.2
  have h2 := (hexEdge_table h').2.2.2
  rw [he, h2] at h1
  injection h1 with h1
  by_cases e1 : hexEdgeFwd a b = true <;> by_cases e2 : hexEdgeFwd a' b' = true
  · rw [if_pos e1, if_pos e2] at h1; exact Or.inl h1
  · rw [if_pos e1, if_neg e2] at h1; injection h1 with h1 h2; subst h1; subst h2; exact Or.inr rfl
  · rw [if_neg e1, if_pos e2] at h1; exact Or.inr h1
  · rw [if_neg e1, if_neg e2] at h1; injection h1 with h1 h2; subst h1; subst h2; exact Or.inl rfl

/-- The reference face with given corners. -/
def hexFaceNo (c : Corners) : Nat :=
  ((hexFaces.find? fun p => p.1 = (hexEdgeNo c.1 c.2.1, hexEdgeNo c.2.2.1 c.2.2.2)).map fun p => p.2).getD 6

/-- The vertices of the reference faces. -/
def cubeFaceVertices : List (List Nat) := [[0, 1, 2, 3], [4, 5, 6, 7], [0, 1, 4, 5], [2, 3, 6, 7], [0, 3, 4, 7], [1, 2, 5, 6]]

/-- A cycle of four edges. -/
def Cycle4 (a b c d : Nat) : Prop := (CubeAdj a b ∧ CubeAdj b c) ∧ (CubeAdj c d ∧ CubeAdj d a) ∧ a ≠ c ∧ b ≠ d

instance (a b c d : Nat) : Decidable (Cycle4 a b c d) := by unfold Cycle4; infer_instance

set_option maxRecDepth 20000 in
set_option maxHeartbeats 2000000 in
theorem hexFace_table' : ∀ a b : Fin 8, CubeAdj a b → ∀ c : Fin 8, CubeAdj b c → ∀ d : Fin 8, CubeAdj c d → CubeAdj d a → (a : Nat) ≠ c → (b : Nat) ≠ d →
    hexFaces.find? (fun p => p.1 = (hexEdgeNo a b, hexEdgeNo c d)) = some ((hexEdgeNo a b, hexEdgeNo c d), hexFaceNo (a, b, c, d)) ∧
      hexFaceNo (a, b, c, d) < 6 ∧ ∀ v : Fin 8, (v : Nat) ∈ cornerList (a, b, c, d) ↔ (v : Nat) ∈ cubeFaceVertices.getD (hexFaceNo (a, b, c, d)) [] := by
  decide

theorem hexFace_table {c : Corners} (h : CubeAdj c.1 c.2.1 ∧ CubeAdj c.2.1 c.2.2.1 ∧ CubeAdj c.2.2.1 c.2.2.2 ∧ CubeAdj c.2.2.2 c.1)
    (hd : c.1 ≠ c.2.2.1 ∧ c.2.1 ≠ c.2.2.2) :
    mapAt hexFaces (hexEdgeNo c.1 c.2.1, hexEdgeNo c.2.2.1 c.2.2.2) = .ok (hexFaceNo c) ∧ hexFaceNo c < 6 ∧
      ∀ v, v < 8 → (v ∈ cornerList c ↔ v ∈ cubeFaceVertices.getD (hexFaceNo c) []) := by
  obtain ⟨a, b, c, d⟩ := c
  obtain ⟨h1, h2, h3, h4⟩ := h
  obtain ⟨h5, h6, h7⟩ := hexFace_table' ⟨a, h1.1⟩ ⟨b, h1.2.1⟩ h1 ⟨c, h2.2.1⟩ h2 ⟨d, h3.2.1⟩ h3 h4 hd.1 hd.2
  refine ⟨?_, h6, fun v hv => h7 ⟨v, hv⟩⟩
  unfold mapAt
  simp only at h5
  rw [h5]

/-! ## Edges -/

/-- What is stored for an edge. -/
def hexEdgeRef (edges : List (Nat × Nat)) (e : Nat) : Nat × Bool :=
  (hexEdgeNo (edges.getD e (0, 0)).1 (edges.getD e (0, 0)).2, hexEdgeFwd (edges.getD e (0, 0)).1 (edges.getD e (0, 0)).2)

theorem hexEdges_getD {edges : List (Nat × Nat)} (h : HexEdgesOk edges) {e : Nat} (he : e < 12) :
    edges[e]? = some (edges.getD e (0, 0)) ∧ CubeAdj (edges.getD e (0, 0)).1 (edges.getD e (0, 0)).2 := by
  have h1 : edges[e]? = some (edges.getD e (0, 0)) := by
    simp [show e < edges.length by rw [h.1]; exact he]
  exact ⟨h1, h.2.1 _ (List.mem_of_getElem? h1)⟩

variable {K : Type} [Field K]

theorem hexEdgeRefs_ok (k : Nat) {edges : List (Nat × Nat)} (h : HexEdgesOk edges) :
    hexEdgeRefs (hexRef K k) edges = .ok ((List.range 12).map (hexEdgeRef edges)) := by
  unfold hexEdgeRefs
  apply mapM_ok
  intro e he
  obtain ⟨h1, h2⟩ := hexEdges_getD h (List.mem_range.1 he)
  rw [(unchecked_ok_iff _ _ _).2 h1, except_ok_bind]
  exact (hexEdge_table h2).1

theorem hexEdgeRef_perm {edges : List (Nat × Nat)} (h : HexEdgesOk edges) :
    ((List.range 12).map fun e => (hexEdgeRef edges e).1).Perm (List.range 12) := by
  apply perm_range_of_nodup
  · rw [List.nodup_map_iff_inj_on List.nodup_range]
    intro e he e' he' heq
    rw [List.mem_range] at he he'
    obtain ⟨h1, h2⟩ := hexEdges_getD h he
    obtain ⟨h1', h2'⟩ := hexEdges_getD h he'
    by_contra hne
    have hp := List.pairwise_iff_getElem.1 h.2.2
    have hi := hexEdgeNo_inj h2 h2' heq
    obtain ⟨g1, g2⟩ := List.getElem?_eq_some_iff.1 h1
    obtain ⟨g1', g2'⟩ := List.getElem?_eq_some_iff.1 h1'
    rcases Nat.lt_or_gt_of_ne hne with hlt | hlt
    · have := hp e e' g1 g1' hlt
      rw [g2, g2'] at this
      rcases hi with hi | hi
      · exact this.1 hi
      · exact this.2 hi
    · have := hp e' e g1' g1 hlt
      rw [g2, g2'] at this
      rcases hi with hi | hi
      · exact this.1 hi.symm
      · apply this.2
        rw [show (edges.getD e' (0, 0)).swap = ((edges.getD e' (0, 0)).2, (edges.getD e' (0, 0)).1) from rfl]
        injection hi with hi1 hi2
        rw [hi1, hi2]
  · intro a ha
    rw [List.mem_map] at ha
    obtain ⟨e, he, rfl⟩ := ha
    exact (hexEdge_table (hexEdges_getD h (List.mem_range.1 he)).2).2.1
  · simp

/-- The writes of an edge. -/
def hexEWrites (k : Nat) (edges : List (Nat × Nat)) (dirs : List Bool) (e : Nat) : List (Nat × Nat) :=
  (List.range' (8 + k * (hexEdgeRef edges e).1) k).zip (if dirs.getD e true = (hexEdgeRef edges e).2 then List.range' (8 + e * k) k
    else (List.range' (8 + e * k) k).reverse)

theorem hexEdgeWrites_ok (k : Nat) (edges : List (Nat × Nat)) (dirs : List Bool) (hd : dirs.length = 12) (e : Nat) (he : e < 12) :
    hexEdgeWrites (hexRef K k) dirs ((List.range 12).map (hexEdgeRef edges)) e = .ok (hexEWrites k edges dirs e) := by
  unfold hexEdgeWrites
  have h1 : ((List.range 12).map (hexEdgeRef edges))[e]? = some (hexEdgeRef edges e) := by simp [he]
  have h2 : atIdx dirs e = .ok (dirs.getD e true) := by
    unfold atIdx
    rw [List.getElem?_eq_getElem (by omega)]
    simp [show e < dirs.length by omega]
  rw [(unchecked_ok_iff _ _ _).2 h1, except_ok_bind, h2, except_ok_bind]
  simp only [hexRef, Nat.mul_one, Nat.one_mul]
  rfl

theorem hexEWrites_fst (k : Nat) (edges : List (Nat × Nat)) (dirs : List Bool) (e : Nat) :
    (hexEWrites k edges dirs e).map Prod.fst = List.range' (8 + k * (hexEdgeRef edges e).1) k := by
  unfold hexEWrites
  apply List.map_fst_zip
  split_ifs <;> simp

theorem hexEWrites_snd (k : Nat) (edges : List (Nat × Nat)) (dirs : List Bool) (e : Nat) :
    ((hexEWrites k edges dirs e).map Prod.snd).Perm (List.range' (8 + e * k) k) := by
  unfold hexEWrites
  rw [List.map_snd_zip (by split_ifs <;> simp)]
  split_ifs
  · exact List.Perm.refl _
  · exact List.reverse_perm _

theorem hexEWrites_mem (k : Nat) (edges : List (Nat × Nat)) (dirs : List Bool) (e j : Nat) (hj : j < k) :
    ((8 + (hexEdgeRef edges e).1 * k + (if dirs.getD e true = (hexEdgeRef edges e).2 then j else k - 1 - j), 8 + e * k + j) : Nat × Nat) ∈
      hexEWrites k edges dirs e := by
  unfold hexEWrites
  by_cases h : dirs.getD e true = (hexEdgeRef edges e).2
  · rw [if_pos h, if_pos h]
    apply List.mem_of_getElem? (i := j)
    rw [List.getElem?_zip_eq_some]
    simp [hj, Nat.mul_comm]
  · rw [if_neg h, if_neg h]
    apply List.mem_of_getElem? (i := k - 1 - j)
    rw [List.getElem?_zip_eq_some, List.getElem?_reverse (by simp; omega), List.length_range', List.getElem?_range' (by omega),
      List.getElem?_range' (by omega)]
    constructor
    · congr 1; rw [Nat.mul_comm]; omega
    · congr 1; omega

/-! ## Faces -/

theorem hexFaceRef_ok (k : Nat) {edges : List (Nat × Nat)} (he : HexEdgesOk edges) {face : HexFace K} {c : Corners} (h : HexFaceOk edges face c) :
    hexFaceRef (hexRef K k) ((List.range 12).map (hexEdgeRef edges)) face.edges = .ok (hexFaceNo c) := by
  obtain ⟨e0, e1, e2, e3, hfe, h0, -, h2, -⟩ := h.edges
  have key : ∀ e x y : Nat, CubeAdj x y → Joins edges e x y → ∃ dir, ((List.range 12).map (hexEdgeRef edges))[e]? = some (hexEdgeNo x y, dir) := by
    intro e x y hxy hj
    have he6 : e < 12 := by
      rw [← he.1]
      rcases hj with hj | hj <;> exact (List.getElem?_eq_some_iff.1 hj).1
    refine ⟨(hexEdgeRef edges e).2, ?_⟩
    rw [List.getElem?_map, List.getElem?_range he6, Option.map_some]
    congr 1
    refine Prod.ext ?_ rfl
    unfold hexEdgeRef
    rcases hj with hj | hj
    · simp [hj]
    · simp [hj, (hexEdge_table hxy).2.2.1]
  obtain ⟨d0, g0⟩ := key e0 _ _ h.cycle.1 h0
  obtain ⟨d2, g2⟩ := key e2 _ _ h.cycle.2.2.1 h2
  unfold hexFaceRef
  rw [hfe, (unchecked_ok_iff _ _ _).2 (show [e0, e1, e2, e3][0]? = some e0 from rfl), except_ok_bind, (unchecked_ok_iff _ _ _).2 g0, except_ok_bind,
    (unchecked_ok_iff _ _ _).2 (show [e0, e1, e2, e3][2]? = some e2 from rfl), except_ok_bind, (unchecked_ok_iff _ _ _).2 g2, except_ok_bind]
  exact (hexFace_table h.cycle h.different).1

instance : Inhabited (HexFace K) := ⟨⟨[], 0, fun _ => 0, []⟩⟩

/-- The local space of a face. -/
def hexFaceSpace (K : Type) [Field K] (k : Nat) (isZero : K → Bool) (f : HexFace K) : QuadSpace K :=
  ⟨quadRef K k, quadKind isZero f.plane, f.plane,
    meshRuns 4 k [f.dirs.getD 0 true, f.dirs.getD 1 true, !f.dirs.getD 2 true, !f.dirs.getD 3 true] (k * k)⟩

theorem hexMixed_zero {V : Nat → K × K × K} (h : Parallelepiped V) : ∀ v ∈ hexMixed V, v = 0 := by
  obtain ⟨h1, h2, h3, h4⟩ := h
  intro v hv
  simp only [hexMixed, List.mem_cons, List.not_mem_nil, or_false] at hv
  rw [h1, h2, h3, h4] at hv
  rcases hv with rfl | rfl | rfl | rfl <;> abel

theorem hexMixed_zero_iff {V : Nat → K × K × K} : (∀ v ∈ hexMixed V, v = 0) ↔ Parallelepiped V := by
  refine ⟨fun h => ?_, hexMixed_zero⟩
  have h1 := h _ (List.mem_cons_self)
  have h2 := h _ (List.mem_cons_of_mem _ List.mem_cons_self)
  have h3 := h _ (List.mem_cons_of_mem _ (List.mem_cons_of_mem _ List.mem_cons_self))
  have h4 := h _ (List.mem_cons_of_mem _ (List.mem_cons_of_mem _ (List.mem_cons_of_mem _ List.mem_cons_self)))
  have e2 : V 2 = V 1 + V 3 - V 0 := by rw [← sub_eq_zero, ← h1]; abel
  have e5 : V 5 = V 1 + V 4 - V 0 := by rw [← sub_eq_zero, ← h2]; abel
  have e7 : V 7 = V 3 + V 4 - V 0 := by rw [← sub_eq_zero, ← h3]; abel
  refine ⟨e2, e5, e7, ?_⟩
  rw [e2, e5, e7] at h4
  rw [← sub_eq_zero, ← h4]
  abel

theorem hexTypes_count (k : Nat) : 8 + 12 * k + 6 * (k * k) + k * k * k = (k + 2) * (k + 2) * (k + 2) := by ring

theorem zip_self_mem (s n j : Nat) (hj : j < n) (t : Nat) : ((s + j, t + j) : Nat × Nat) ∈ (List.range' s n).zip (List.range' t n) := by
  apply List.mem_of_getElem? (i := j)
  rw [List.getElem?_zip_eq_some]
  simp [hj]

/-- Everything about the order of the DOFs, before the call of the quadrature. -/
theorem hexSpace_run (k : Nat) (normZero : List (Vec3 K) → Bool) (isZero : K → Bool) {g : HexGeom K} {corners : Nat → Corners}
    (hedges : HexEdgesOk g.edges) (hdirs : g.dirs.length = 12) (hfaces : ∀ f, f < 6 → ∃ face, g.faces[f]? = some face ∧ HexFaceOk g.edges face (corners f))
    (hdiff : ∀ f f', f < 6 → f' < 6 → f ≠ f' → ∃ v, v ∈ cornerList (corners f) ∧ v ∉ cornerList (corners f')) :
    ∃ L faces, hexSpace (hexRef K k) normZero isZero g = (hexQuadratureCheck (hexKind normZero g.vertices)).bind (fun _ =>
        .ok ⟨hexRef K k, hexKind normZero g.vertices, hexMap g, faces, L⟩) ∧ L.Perm (List.range ((k + 2) * (k + 2) * (k + 2))) ∧
      (∀ (f : Nat) face, f < 6 → g.faces[f]? = some face → faces[f]? = some (hexFaceSpace K k isZero face)) ∧
      (∀ v : Nat, v < 8 → L[v]? = some v) ∧
      (∀ e j : Nat, e < 12 → j < k → L[8 + (hexEdgeRef g.edges e).1 * k + (if g.dirs.getD e true = (hexEdgeRef g.edges e).2 then j else k - 1 - j)]? =
        some (8 + e * k + j)) ∧
      (∀ f j : Nat, f < 6 → j < k * k → L[8 + 12 * k + k * k * hexFaceNo (corners f) + j]? = some (8 + 12 * k + f * (k * k) + j)) ∧
      ∀ j : Nat, j < k * k * k → L[8 + 12 * k + 6 * (k * k) + j]? = some (8 + 12 * k + 6 * (k * k) + j) := by
  choose! face hface hok using hfaces
  have htab := fun f hf => hexFace_table (hok f hf).cycle (hok f hf).different
  have hspaces : hexFaceSpaces (hexRef K k) isZero g.faces = .ok ((List.range 6).map fun f => hexFaceSpace K k isZero (face f)) := by
    unfold hexFaceSpaces
    apply mapM_ok
    intro f hf
    rw [List.mem_range] at hf
    rw [(unchecked_ok_iff _ _ _).2 (hface f hf), except_ok_bind, (hok f hf).number]
    exact quadSpace_ok k isZero _ _ (by rw [(hok f hf).dirs])
  have hfrefs : hexFaceRefs (hexRef K k) ((List.range 12).map (hexEdgeRef g.edges)) g.faces = .ok ((List.range 6).map fun f => hexFaceNo (corners f)) := by
    unfold hexFaceRefs
    apply mapM_ok
    intro f hf
    rw [List.mem_range] at hf
    rw [(unchecked_ok_iff _ _ _).2 (hface f hf), except_ok_bind]
    exact hexFaceRef_ok k hedges (hok f hf)
  have hew : (List.range 12).mapM (hexEdgeWrites (hexRef K k) g.dirs ((List.range 12).map (hexEdgeRef g.edges))) =
      .ok ((List.range 12).map (hexEWrites k g.edges g.dirs)) := by
    apply mapM_ok
    intro e he
    exact hexEdgeWrites_ok k _ _ hdirs e (List.mem_range.1 he)
  have hfw : (List.range 6).mapM (hexFaceWrites (hexRef K k) ((List.range 6).map fun f => hexFaceNo (corners f))) =
      .ok ((List.range 6).map fun f => (List.range' (8 + 12 * k + k * k * hexFaceNo (corners f)) (k * k)).zip (List.range' (8 + 12 * k + f * (k * k)) (k * k))) := by
    apply mapM_ok
    intro f hf
    rw [List.mem_range] at hf
    unfold hexFaceWrites
    rw [(unchecked_ok_iff _ _ _).2 (show ((List.range 6).map fun f => hexFaceNo (corners f))[f]? = some (hexFaceNo (corners f)) by simp [hf]), except_ok_bind]
    dsimp only [hexRef]
    rw [show 1 * 8 + k * 12 = 8 + 12 * k by ring, show 8 * 1 + 12 * k = 8 + 12 * k by ring]
  have hv : hexVertexWrites (hexRef K k) = [(0, 0), (1, 1), (2, 2), (3, 3), (4, 4), (5, 5), (6, 6), (7, 7)] := rfl
  have hi : hexInnerWrites (hexRef K k) = (List.range' (8 + 12 * k + 6 * (k * k)) (k * k * k)).zip (List.range' (8 + 12 * k + 6 * (k * k)) (k * k * k)) := by
    unfold hexInnerWrites
    dsimp only [hexRef]
    rw [show 1 * 8 + k * 12 + k * k * 6 = 8 + 12 * k + 6 * (k * k) by ring, show 8 * 1 + 12 * k + 6 * (k * k) = 8 + 12 * k + 6 * (k * k) by ring]
  have hNperm : ([0, 1, 2, 3, 4, 5, 6, 7] ++ List.range' 8 (12 * k) ++ List.range' (8 + 12 * k) (6 * (k * k)) ++
      List.range' (8 + 12 * k + 6 * (k * k)) (k * k * k)) = List.range ((k + 2) * (k + 2) * (k + 2)) := by
    rw [← hexTypes_count, show [0, 1, 2, 3, 4, 5, 6, 7] = List.range' 0 8 from rfl, List.range_eq_range']
    have e1 := @List.range'_append_1 0 8 (12 * k)
    have e2 := @List.range'_append_1 0 (8 + 12 * k) (6 * (k * k))
    have e3 := @List.range'_append_1 0 (8 + 12 * k + 6 * (k * k)) (k * k * k)
    rw [Nat.zero_add] at e1 e2 e3
    rw [e1, e2, e3]
  have hrange : ∀ f, f < 6 → ∀ v ∈ cornerList (corners f), v < 8 := by
    intro f hf v hv
    obtain ⟨c1, c2, c3, -⟩ := (hok f hf).cycle
    simp only [cornerList, List.mem_cons, List.not_mem_nil, or_false] at hv
    rcases hv with rfl | rfl | rfl | rfl
    · exact c1.1
    · exact c1.2.1
    · exact c2.2.1
    · exact c3.2.1
  have hfno : ((List.range 6).map fun f => hexFaceNo (corners f)).Perm (List.range 6) := by
    apply perm_range_of_nodup
    · rw [List.nodup_map_iff_inj_on List.nodup_range]
      intro f hf f' hf' he
      rw [List.mem_range] at hf hf'
      by_contra hne
      obtain ⟨v, hv1, hv2⟩ := hdiff f f' hf hf' hne
      have hv8 := hrange f hf v hv1
      apply hv2
      rw [(htab f' hf').2.2 v hv8, ← he, ← (htab f hf).2.2 v hv8]
      exact hv1
    · intro x hx
      rw [List.mem_map] at hx
      obtain ⟨f, hf, rfl⟩ := hx
      exact (htab f (List.mem_range.1 hf)).2.1
    · simp
  obtain ⟨L, hL, hperm, hmem⟩ := writeCols_bij ((k + 2) * (k + 2) * (k + 2)) ([(0, 0), (1, 1), (2, 2), (3, 3), (4, 4), (5, 5), (6, 6), (7, 7)] ++
      ((List.range 12).map (hexEWrites k g.edges g.dirs)).flatten ++
      ((List.range 6).map fun f => (List.range' (8 + 12 * k + k * k * hexFaceNo (corners f)) (k * k)).zip (List.range' (8 + 12 * k + f * (k * k)) (k * k))).flatten ++
      (List.range' (8 + 12 * k + 6 * (k * k)) (k * k * k)).zip (List.range' (8 + 12 * k + 6 * (k * k)) (k * k * k)))
    (by
      rw [← hNperm]
      simp only [List.map_append]
      refine List.Perm.append (List.Perm.append (List.Perm.append (List.Perm.of_eq rfl) ?_) ?_) ?_
      · rw [List.map_flatten, List.map_map, ← List.flatMap_def, ← range_flatMap_range' 8 k 12]
        simp only [Function.comp_def, hexEWrites_fst]
        have := (hexEdgeRef_perm hedges).flatMap_right (fun r => List.range' (8 + k * r) k)
        rw [List.flatMap_map] at this
        exact this
      · rw [List.map_flatten, List.map_map, ← List.flatMap_def, ← range_flatMap_range' (8 + 12 * k) (k * k) 6]
        have h1 : (List.flatMap (List.map Prod.fst ∘ fun f => (List.range' (8 + 12 * k + k * k * hexFaceNo (corners f)) (k * k)).zip
            (List.range' (8 + 12 * k + f * (k * k)) (k * k))) (List.range 6)).Perm
            ((List.range 6).flatMap fun f => List.range' (8 + 12 * k + k * k * hexFaceNo (corners f)) (k * k)) := by
          apply List.Perm.flatMap_left
          intro f hf
          exact List.Perm.of_eq (List.map_fst_zip (by simp))
        have := hfno.flatMap_right (fun r => List.range' (8 + 12 * k + k * k * r) (k * k))
        rw [List.flatMap_map] at this
        exact h1.trans this
      · rw [List.map_fst_zip (by simp)])
    (by
      rw [← hNperm]
      simp only [List.map_append]
      refine List.Perm.append (List.Perm.append (List.Perm.append (List.Perm.of_eq rfl) ?_) ?_) ?_
      · rw [List.map_flatten, List.map_map, ← List.flatMap_def, ← range_flatMap_range' 8 k 12]
        apply List.Perm.flatMap_left
        intro e he
        rw [Nat.mul_comm k e]
        exact hexEWrites_snd k _ _ e
      · rw [List.map_flatten, List.map_map, ← List.flatMap_def, ← range_flatMap_range' (8 + 12 * k) (k * k) 6]
        apply List.Perm.flatMap_left
        intro f hf
        rw [Nat.mul_comm (k * k) f]
        exact List.Perm.of_eq (List.map_snd_zip (by simp))
      · rw [List.map_snd_zip (by simp)])
  refine ⟨L, (List.range 6).map fun f => hexFaceSpace K k isZero (face f), ?_, hperm, ?_, ?_, ?_, ?_, ?_⟩
  · unfold hexSpace
    rw [hexEdgeRefs_ok k hedges, except_ok_bind, hfrefs, except_ok_bind, hew, except_ok_bind, hfw, except_ok_bind, hv, hi]
    rw [show (hexRef K k).numBasis = (k + 2) * (k + 2) * (k + 2) from rfl, hL, except_ok_bind, hspaces, except_ok_bind]
    rfl
  · intro f face' hf6 hf'
    rw [hface f hf6] at hf'
    injection hf' with hf'
    subst hf'
    simp [hf6]
  · intro v hv
    apply hmem
    simp only [List.append_assoc]
    apply List.mem_append_left
    interval_cases v <;> simp
  · intro e j he hj
    apply hmem
    apply List.mem_append_left
    apply List.mem_append_left
    apply List.mem_append_right
    rw [List.mem_flatten]
    exact ⟨_, List.mem_map_of_mem (List.mem_range.2 he), hexEWrites_mem k _ _ e j hj⟩
  · intro f j hf hj
    apply hmem
    apply List.mem_append_left
    apply List.mem_append_right
    rw [List.mem_flatten]
    exact ⟨_, List.mem_map_of_mem (List.mem_range.2 hf), zip_self_mem _ _ _ hj _⟩
  · intro j hj
    apply hmem
    apply List.mem_append_right
    exact zip_self_mem _ _ _ hj _

/-- Everything about the creation of the local space of a parallelepiped. -/
theorem hexSpace_ok (k : Nat) {normZero : List (Vec3 K) → Bool} (hn : ExactNorm normZero) (isZero : K → Bool) {g : HexGeom K} {corners : Nat → Corners}
    (hg : HexMeshOk g corners) :
    ∃ s, hexSpace (hexRef K k) normZero isZero g = .ok s ∧ s.ref = hexRef K k ∧ s.kind = .parallelepiped ∧ s.map = hexMap g ∧
      s.order.Perm (List.range ((k + 2) * (k + 2) * (k + 2))) ∧
      (∀ (f : Nat) face, f < 6 → g.faces[f]? = some face → s.faces[f]? = some (hexFaceSpace K k isZero face)) ∧
      (∀ v : Nat, v < 8 → s.order[v]? = some v) ∧
      (∀ e j : Nat, e < 12 → j < k → s.order[8 + (hexEdgeRef g.edges e).1 * k + (if g.dirs.getD e true = (hexEdgeRef g.edges e).2 then j else k - 1 - j)]? =
        some (8 + e * k + j)) ∧
      (∀ f j : Nat, f < 6 → j < k * k → s.order[8 + 12 * k + k * k * hexFaceNo (corners f) + j]? = some (8 + 12 * k + f * (k * k) + j)) ∧
      ∀ j : Nat, j < k * k * k → s.order[8 + 12 * k + 6 * (k * k) + j]? = some (8 + 12 * k + 6 * (k * k) + j) := by
  obtain ⟨L, faces, h1, h2, h3, h4, h5, h6, h7⟩ := hexSpace_run k normZero isZero hg.edges hg.dirs hg.faces hg.different
  have hkind : hexKind normZero g.vertices = .parallelepiped := if_pos ((hn _).2 (hexMixed_zero hg.shape))
  rw [hkind] at h1
  exact ⟨_, h1, rfl, rfl, rfl, h2, h3, h4, h5, h6, h7⟩

omit [Field K] in
theorem hexSource_ok {s : HexSpace K} {N i c : Nat} (h : s.order.Perm (List.range N)) (hi : s.order[i]? = some c) : hexSource s c = .ok i := by
  unfold hexSource
  rw [scatterCol_eq s.order (fun i => i) i c (h.nodup_iff.2 List.nodup_range) hi]

/-- A DOF at the image of its reference point. -/
theorem hexDof_ok [CharZero K] {k : Nat} {s : HexSpace K} (hr : s.ref = hexRef K k) {i c N : Nat} (h : s.order.Perm (List.range N)) (hi : s.order[i]? = some c)
    {t : HexType} (ht : (hexTypes k)[i]? = some t) :
    hexDof s c = .ok (tetF s.map (latticeCoord K (k + 1) t.1, latticeCoord K (k + 1) t.2.1, latticeCoord K (k + 1) t.2.2)) := by
  unfold hexDof
  rw [hexSource_ok h hi, except_ok_bind, hr, (unchecked_ok_iff _ _ _).2 (hexPos_get k i t ht), except_ok_bind]

end PolyDiM
