import Verif.Model.FemHexa
import Verif.Lemmas.FemQuad

/-! Helper lemmas: the hexahedral reference element. -/

namespace PolyDiM
open Finset

/-- The types of the vertices. -/
def hexVerts : List HexType := [(0, 0, 0), (1, 0, 0), (1, 1, 0), (0, 1, 0), (0, 0, 1), (1, 0, 1), (1, 1, 1), (0, 1, 1)]

/-- The types along the twelve edges. -/
def hexEdgeFns : List (Nat → HexType) :=
  [fun j => (j, 0, 0), fun j => (1, j, 0), fun j => (j, 1, 0), fun j => (0, j, 0), fun j => (j, 0, 1), fun j => (1, j, 1),
   fun j => (j, 1, 1), fun j => (0, j, 1), fun j => (0, 0, j), fun j => (1, 0, j), fun j => (0, 1, j), fun j => (1, 1, j)]

/-- The types on the six faces. -/
def hexFaceFns : List (Nat → Nat → HexType) :=
  [fun a b => (a, b, 0), fun a b => (a, b, 1), fun a b => (a, 0, b), fun a b => (a, 1, b), fun a b => (0, a, b), fun a b => (1, a, b)]

/-- One edge. -/
def hexRow (k : Nat) (f : Nat → HexType) : List HexType := (List.range k).map fun j => f (j + 2)

/-- One face. -/
def hexSheet (k : Nat) (f : Nat → Nat → HexType) : List HexType := (List.range k).flatMap fun a => (List.range k).map fun b => f (a + 2) (b + 2)

/-- The DOF types of order `k + 1`. -/
def hexTypes (k : Nat) : List HexType :=
  hexVerts ++ hexEdgeFns.flatMap (hexRow k) ++ hexFaceFns.flatMap (hexSheet k) ++
    (List.range k).flatMap fun c => hexSheet k fun a b => (c + 2, a, b)

theorem hexRow_length (k : Nat) (f : Nat → HexType) : (hexRow k f).length = k := by simp [hexRow]

theorem hexSheet_length (k : Nat) (f : Nat → Nat → HexType) : (hexSheet k f).length = k * k := by
  unfold hexSheet
  rw [flatMap_const_length _ _ k (by simp), List.length_range]

theorem hexEdges_length (k : Nat) : (hexEdgeFns.flatMap (hexRow k)).length = 12 * k :=
  flatMap_const_length _ _ k fun f _ => hexRow_length k f

theorem hexFaces_length (k : Nat) : (hexFaceFns.flatMap (hexSheet k)).length = 6 * (k * k) :=
  flatMap_const_length _ _ (k * k) fun f _ => hexSheet_length k f

theorem hexTypes_length (k : Nat) : (hexTypes k).length = (k + 2) * (k + 2) * (k + 2) := by
  unfold hexTypes
  rw [List.length_append, List.length_append, List.length_append, hexEdges_length, hexFaces_length,
    flatMap_const_length _ _ (k * k) fun c _ => hexSheet_length k _, List.length_range]
  show 8 + _ + _ + _ = _
  ring

theorem mem_hexRow (k : Nat) (f : Nat → HexType) (t : HexType) : t ∈ hexRow k f ↔ ∃ j, j < k ∧ f (j + 2) = t := by simp [hexRow]

theorem mem_hexSheet (k : Nat) (f : Nat → Nat → HexType) (t : HexType) : t ∈ hexSheet k f ↔ ∃ a, a < k ∧ ∃ b, b < k ∧ f (a + 2) (b + 2) = t := by
  simp [hexSheet]

theorem mem_hexTypes (k : Nat) (t : HexType) : t ∈ hexTypes k ↔ t.1 < k + 2 ∧ t.2.1 < k + 2 ∧ t.2.2 < k + 2 := by
  obtain ⟨a, b, c⟩ := t
  unfold hexTypes
  simp only [List.mem_append, List.mem_flatMap, mem_hexRow, mem_hexSheet, List.mem_range]
  simp only [hexVerts, hexEdgeFns, hexFaceFns, List.mem_cons, List.not_mem_nil, or_false, Prod.mk.injEq, exists_eq_or_imp, exists_eq_left]
  constructor
  · rintro (((h | h) | h) | ⟨x, hx, y, hy, z, hz, h⟩)
    · omega
    · rcases h with h | h | h | h | h | h | h | h | h | h | h | h <;> obtain ⟨j, hj, h⟩ := h <;> omega
    · rcases h with h | h | h | h | h | h <;> obtain ⟨j, hj, l, hl, h⟩ := h <;> omega
    · omega
  · rintro ⟨ha, hb, hc⟩
    rcases a with _ | _ | a <;> rcases b with _ | _ | b <;> rcases c with _ | _ | c <;> simp <;> omega

theorem hexTypes_nodup (k : Nat) : (hexTypes k).Nodup := by
  apply nodup_of_card _ (range (k + 2) ×ˢ range (k + 2) ×ˢ range (k + 2))
  · intro t
    rw [mem_hexTypes, mem_product, mem_product, mem_range, mem_range, mem_range]
  · rw [hexTypes_length, card_product, card_product, card_range, Nat.mul_assoc]

/-- Entry of a concatenation of lists of the same length. -/
theorem flatMap_get {α β : Type} (l : List α) (f : α → List β) (n e j : Nat) (a : α) (h : ∀ a ∈ l, (f a).length = n) (he : l[e]? = some a)
    (hj : j < n) : (l.flatMap f)[e * n + j]? = (f a)[j]? := by
  induction l generalizing e with
  | nil => simp at he
  | cons b l ih =>
    rw [List.flatMap_cons]
    have hb := h b (by simp)
    cases e with
    | zero =>
      simp only [List.getElem?_cons_zero, Option.some.injEq] at he
      subst he
      rw [List.getElem?_append_left (by omega)]
      simp
    | succ e =>
      rw [List.getElem?_append_right (by rw [hb, Nat.add_mul]; omega), hb, show (e + 1) * n + j - n = e * n + j by rw [Nat.add_mul]; omega]
      exact ih e (fun a ha => h a (by simp [ha])) (by simpa using he)

theorem hexTypes_vertex (k v : Nat) (hv : v < 8) : (hexTypes k)[v]? = hexVerts[v]? := by
  unfold hexTypes
  have : hexVerts.length = 8 := rfl
  rw [List.append_assoc, List.append_assoc, List.getElem?_append_left (by omega)]

theorem hexTypes_edge (k e j : Nat) (f : Nat → HexType) (he : hexEdgeFns[e]? = some f) (hj : j < k) :
    (hexTypes k)[8 + e * k + j]? = some (f (j + 2)) := by
  have h12 : e < 12 := (List.getElem?_eq_some_iff.1 he).1
  have := mul_add_lt h12 hj
  have h8 : hexVerts.length = 8 := rfl
  unfold hexTypes
  rw [List.append_assoc, List.append_assoc, List.getElem?_append_right (by omega), h8, List.getElem?_append_left (by rw [hexEdges_length]; omega),
    show 8 + e * k + j - 8 = e * k + j by omega, flatMap_get _ _ k e j f (fun f _ => hexRow_length k f) he hj]
  simp [hexRow, hj]

theorem hexSheet_get (k a b : Nat) (f : Nat → Nat → HexType) (ha : a < k) (hb : b < k) : (hexSheet k f)[a * k + b]? = some (f (a + 2) (b + 2)) := by
  unfold hexSheet
  rw [flatMap_get _ _ k a b a (by simp) (by simp [ha]) hb]
  simp [hb]

theorem hexTypes_face (k r a b : Nat) (f : Nat → Nat → HexType) (hr : hexFaceFns[r]? = some f) (ha : a < k) (hb : b < k) :
    (hexTypes k)[8 + 12 * k + r * (k * k) + (a * k + b)]? = some (f (a + 2) (b + 2)) := by
  have h6 : r < 6 := (List.getElem?_eq_some_iff.1 hr).1
  have h1 := mul_add_lt ha hb
  have h2 := mul_add_lt h6 h1
  have h8 : hexVerts.length = 8 := rfl
  unfold hexTypes
  rw [List.getElem?_append_left (by simp only [List.length_append, hexEdges_length, hexFaces_length]; omega),
    List.getElem?_append_right (by simp only [List.length_append, hexEdges_length]; omega), List.length_append, hexEdges_length, h8,
    show 8 + 12 * k + r * (k * k) + (a * k + b) - (8 + 12 * k) = r * (k * k) + (a * k + b) by omega,
    flatMap_get _ _ (k * k) r _ f (fun f _ => hexSheet_length k f) hr h1]
  exact hexSheet_get k a b f ha hb

theorem hexTypes_inner (k i : Nat) (t : HexType) (hi : 8 + 12 * k + 6 * (k * k) ≤ i) (h : (hexTypes k)[i]? = some t) :
    2 ≤ t.1 ∧ 2 ≤ t.2.1 ∧ 2 ≤ t.2.2 := by
  have h8 : hexVerts.length = 8 := rfl
  unfold hexTypes at h
  rw [List.getElem?_append_right (by simp only [List.length_append, hexEdges_length, hexFaces_length]; omega)] at h
  have := List.mem_of_getElem? h
  simp only [List.mem_flatMap, mem_hexSheet] at this
  obtain ⟨x, -, y, -, z, -, rfl⟩ := this
  simp

/-! ## The writes -/

theorem range'_two_map {α : Type} (k : Nat) (f : Nat → α) : (List.range' 2 (k + 2 - 2)).map f = (List.range k).map fun j => f (j + 2) := by
  rw [Nat.add_sub_cancel, List.range'_eq_map_range, List.map_map]
  apply List.map_congr_left
  intro a _
  simp [Nat.add_comm]

theorem range'_two_flatMap {α : Type} (k : Nat) (f : Nat → List α) :
    (List.range' 2 (k + 2 - 2)).flatMap f = (List.range k).flatMap fun j => f (j + 2) := by
  rw [Nat.add_sub_cancel, List.range'_eq_map_range, List.flatMap_map]
  apply List.flatMap_congr
  intro a _
  simp [Nat.add_comm]

theorem hexLoop2_eq (k : Nat) (f : Nat → Nat → HexType) : hexLoop2 (k + 2) f = hexSheet k f := by
  unfold hexLoop2 hexSheet
  rw [range'_two_flatMap]
  simp only [range'_two_map]

theorem hexCounted_eq (k : Nat) : hexCounted (k + 2) = hexFaceFns.flatMap (hexSheet k) ++ (List.range k).flatMap fun c => hexSheet k fun a b => (c + 2, a, b) := by
  unfold hexCounted hexFaceFns
  rw [range'_two_flatMap]
  simp only [hexLoop2_eq, List.flatMap_cons, List.flatMap_nil, List.append_nil, List.append_assoc]

/-- The writes of one edge. -/
def hexRowOps (k s : Nat) (f : Nat → HexType) : List HexOp := (List.range k).map fun j => ⟨s + j, f (j + 2), f (j + 2)⟩

theorem hexRowOps_map (k s : Nat) (f : Nat → HexType) : (hexRowOps k s f).map (fun o => (o.idx, o.type)) = ((hexRow k f).zipIdx s).map Prod.swap := by
  unfold hexRowOps hexRow
  rw [row_zipIdx, List.map_map, List.map_map]
  rfl

theorem hexEdgeOps_eq (k : Nat) :
    hexEdgeOpsX 1 k (k + 2) = hexRowOps k 8 (fun j => (j, 0, 0)) ++ (hexRowOps k (8 + 2 * k) (fun j => (j, 1, 0)) ++
      (hexRowOps k (8 + 4 * k) (fun j => (j, 0, 1)) ++ hexRowOps k (8 + 6 * k) (fun j => (j, 1, 1)))) ∧
    hexEdgeOpsY 1 k (k + 2) = hexRowOps k (8 + k) (fun j => (1, j, 0)) ++ (hexRowOps k (8 + 3 * k) (fun j => (0, j, 0)) ++
      (hexRowOps k (8 + 5 * k) (fun j => (1, j, 1)) ++ hexRowOps k (8 + 7 * k) (fun j => (0, j, 1)))) ∧
    hexEdgeOpsZ 1 k (k + 2) = hexRowOps k (8 + 8 * k) (fun j => (0, 0, j)) ++ (hexRowOps k (8 + 9 * k) (fun j => (1, 0, j)) ++
      (hexRowOps k (8 + 10 * k) (fun j => (0, 1, j)) ++ hexRowOps k (8 + 11 * k) (fun j => (1, 1, j)))) := by
  unfold hexEdgeOpsX hexEdgeOpsY hexEdgeOpsZ hexRowOps
  simp only [List.flatMap_cons, List.flatMap_nil, List.append_nil, List.append_assoc, range'_two_map]
  refine ⟨?_, ?_, ?_⟩ <;> refine congrArg₂ _ ?_ (congrArg₂ _ ?_ (congrArg₂ _ ?_ ?_)) <;>
    (apply List.map_congr_left; intro a _; simp; try omega)

theorem hexOps_eq (k : Nat) : hexOps (k + 1) 1 k (k + 2) = hexVertexOps ++ (hexEdgeOpsX 1 k (k + 2) ++ hexEdgeOpsY 1 k (k + 2) ++
    hexEdgeOpsZ 1 k (k + 2) ++ hexCountedOps 1 k (k + 2)) := by
  unfold hexOps
  split
  · rfl
  · have : k = 0 := by omega
    subst this
    rfl

theorem hexOps_perm (k : Nat) :
    ((hexOps (k + 1) 1 k (k + 2)).map fun o => (o.idx, o.type)).Perm ((hexTypes k).zipIdx.map Prod.swap) := by
  have hT : hexTypes k = hexVerts ++ (hexEdgeFns.flatMap (hexRow k) ++ hexCounted (k + 2)) := by
    unfold hexTypes
    rw [hexCounted_eq, List.append_assoc, List.append_assoc]
  have hE : ((hexEdgeOpsX 1 k (k + 2) ++ hexEdgeOpsY 1 k (k + 2) ++ hexEdgeOpsZ 1 k (k + 2)).map fun o => (o.idx, o.type)).Perm
      (((hexEdgeFns.flatMap (hexRow k)).zipIdx 8).map Prod.swap) := by
    obtain ⟨h1, h2, h3⟩ := hexEdgeOps_eq k
    rw [h1, h2, h3]
    simp only [List.map_append, hexRowOps_map]
    simp only [hexEdgeFns, List.flatMap_cons, List.flatMap_nil, List.append_nil, List.zipIdx_append, List.map_append, hexRow_length]
    rw [show 8 + k + k = 8 + 2 * k by omega, show 8 + 2 * k + k = 8 + 3 * k by omega,
      show 8 + 3 * k + k = 8 + 4 * k by omega, show 8 + 4 * k + k = 8 + 5 * k by omega, show 8 + 5 * k + k = 8 + 6 * k by omega,
      show 8 + 6 * k + k = 8 + 7 * k by omega, show 8 + 7 * k + k = 8 + 8 * k by omega, show 8 + 8 * k + k = 8 + 9 * k by omega,
      show 8 + 9 * k + k = 8 + 10 * k by omega, show 8 + 10 * k + k = 8 + 11 * k by omega]
    rw [← Multiset.coe_eq_coe]
    simp only [← Multiset.coe_add]
    abel
  have hC : (hexCountedOps 1 k (k + 2)).map (fun o => (o.idx, o.type)) = ((hexCounted (k + 2)).zipIdx (8 + 12 * k)).map Prod.swap := by
    unfold hexCountedOps
    rw [List.map_map]
    rfl
  have hR : (hexTypes k).zipIdx.map Prod.swap = hexVerts.zipIdx.map Prod.swap ++ (((hexEdgeFns.flatMap (hexRow k)).zipIdx 8).map Prod.swap ++
      ((hexCounted (k + 2)).zipIdx (8 + 12 * k)).map Prod.swap) := by
    rw [hT, List.zipIdx_append, List.zipIdx_append, List.map_append, List.map_append, hexEdges_length]
    rfl
  rw [hexOps_eq, hR, List.map_append, List.map_append (l₂ := hexCountedOps 1 k (k + 2)), hC]
  exact List.Perm.append (List.Perm.of_eq rfl) (List.Perm.append hE (List.Perm.refl _))

theorem hexOps_pos (k : Nat) : ∀ o ∈ hexOps (k + 1) 1 k (k + 2), o.pos = o.type := by
  obtain ⟨h1, h2, h3⟩ := hexEdgeOps_eq k
  have hr : ∀ (s : Nat) (f : Nat → HexType), ∀ o ∈ hexRowOps k s f, o.pos = o.type := by
    intro s f o ho
    obtain ⟨j, -, rfl⟩ := List.mem_map.1 ho
    rfl
  rw [hexOps_eq, h1, h2, h3]
  intro o ho
  simp only [List.mem_append] at ho
  rcases ho with ho | (((ho | ho | ho | ho) | ho | ho | ho | ho) | ho | ho | ho | ho) | ho
  · revert o
    decide
  all_goals first
    | exact hr _ _ o ho
    | (obtain ⟨j, -, rfl⟩ := List.mem_map.1 ho; rfl)

variable {K : Type} [Field K]

/-- The point of a DOF type. -/
def hexPos (K : Type) [Field K] (k : Nat) (t : HexType) : Vec3 K := ((equi K k).getD t.1 0, (equi K k).getD t.2.1 0, (equi K k).getD t.2.2 0)

/-- The reference data of order `k + 1`. -/
def hexRef (K : Type) [Field K] (k : Nat) : HexData K :=
  ⟨k + 1, 1, k, k * k, k * k * k, (k + 2) * (k + 2) * (k + 2), hexEdges, hexFaces, (hexTypes k).map (hexPos K k), hexTypes k, bndRef K k, quadRef K k⟩

theorem hexCreate_ok (k : Nat) : hexCreate K (k + 1) = .ok (hexRef K k) := by
  have hp := hexOps_perm k
  have ht := hexOps_pos k
  have hmemT : ∀ o ∈ hexOps (k + 1) 1 k (k + 2), o.type ∈ hexTypes k := by
    intro o ho
    have : (o.idx, o.type) ∈ (hexTypes k).zipIdx.map Prod.swap := hp.mem_iff.1 (List.mem_map.2 ⟨o, ho, rfl⟩)
    obtain ⟨⟨t, i⟩, h1, h2⟩ := List.mem_map.1 this
    simp only [Prod.swap, Prod.mk.injEq] at h2
    rw [← h2.2]
    exact List.mem_of_getElem? (List.mem_zipIdx_iff_getElem?.1 h1)
  unfold hexCreate
  rw [if_neg (by omega)]
  simp only [Nat.add_sub_cancel]
  rw [bndRef_ok, except_ok_bind]
  have hr : (hexOps (k + 1) 1 k (bndRef K k).numBasis).mapM (hexRead (bndRef K k).positions) =
      .ok ((hexOps (k + 1) 1 k (k + 2)).map fun o => (o.idx, hexPos K k o.type)) := by
    apply mapM_ok
    intro o ho
    have ho' : o ∈ hexOps (k + 1) 1 k (k + 2) := ho
    obtain ⟨h1, h2, h3⟩ := (mem_hexTypes k _).1 (hmemT o ho')
    have hl := equi_length (K := K) k
    have hu : ∀ a, a < k + 2 → unchecked (bndRef K k).positions a = .ok ((equi K k).getD a 0) := by
      intro a ha
      rw [unchecked_ok_iff]
      show (equi K k)[a]? = _
      simp [hl, ha]
    unfold hexRead
    rw [ht o ho', hu _ h1, except_ok_bind, hu _ h2, except_ok_bind, hu _ h3, except_ok_bind]
    rfl
  rw [hr, except_ok_bind]
  have hw1 : writeCols ((k + 1 + 1) * (k + 1 + 1) * (k + 1 + 1)) ((0, 0, 0) : Vec3 K) ((hexOps (k + 1) 1 k (k + 2)).map fun o =>
      (o.idx, hexPos K k o.type)) = .ok ((hexTypes k).map (hexPos K k)) := by
    have := writeCols_ok ((0, 0, 0) : Vec3 K) ((hexTypes k).map (hexPos K k))
      ((hexOps (k + 1) 1 k (k + 2)).map fun o => (o.idx, hexPos K k o.type)) ?_
    · rw [List.length_map, hexTypes_length] at this
      exact this
    · have h := hp.map fun w : Nat × HexType => (w.1, hexPos K k w.2)
      rw [List.map_map, List.map_map] at h
      rw [zipIdx_map, List.map_map]
      exact h
  have hw2 : writeCols ((k + 1 + 1) * (k + 1 + 1) * (k + 1 + 1)) ((0, 0, 0) : HexType) ((hexOps (k + 1) 1 k (bndRef K k).numBasis).map fun o =>
      (o.idx, o.type)) = .ok (hexTypes k) := by
    have := writeCols_ok ((0, 0, 0) : HexType) (hexTypes k) _ hp
    rw [hexTypes_length] at this
    exact this
  rw [hw1, except_ok_bind, hw2, except_ok_bind, quadCreate_ok, except_ok_bind]
  rfl

end PolyDiM
