import Verif.Lemmas.FemHexaTrace

/-!
# C46, C62-C64: mesh ordering, chain rule and face traces of the hexahedral element

About `hexSpace`, `hexDof`, `hexPhysValue`, `hexPhysDerivative`, `hexOnFace` of `Verif/Model/FemHexa.lean`; the vocabulary is in
`Verif/Spec/Cube.lean` and `Verif/Spec/HexMesh.lean`.
-/

namespace PolyDiM
open Spec

/-! ## Two concrete cells -/

/-- The edges of both cells, numbered and directed around the bottom, around the top, then upwards. -/
def hexExEdges : List (Nat × Nat) := [(0, 1), (1, 2), (2, 3), (3, 0), (4, 5), (5, 6), (6, 7), (7, 4), (0, 4), (1, 5), (2, 6), (3, 7)]

/-- A face with the unit square as plane quadrilateral. -/
def hexExFace {K : Type} [Field K] (edges : List Nat) : HexFace K := ⟨edges, 4, squareVertex, [true, true, true, true]⟩

/-- The unit cube. -/
def hexLower {K : Type} [Field K] : HexGeom K where
  vertices := cubeVertex K
  inv0 := (1, 0, 0)
  inv1 := (0, 1, 0)
  inv2 := (0, 0, 1)
  edges := hexExEdges
  dirs := [true, true, true, true, true, true, false, true, true, true, true, true]
  faces := [hexExFace [0, 1, 2, 3], hexExFace [4, 5, 6, 7], hexExFace [3, 11, 7, 8], hexExFace [1, 10, 5, 9], hexExFace [0, 9, 4, 8],
    hexExFace [2, 10, 6, 11]]

/-- The corners of its faces. -/
def hexLowerCorners (f : Nat) : Corners := [(0, 1, 2, 3), (4, 5, 6, 7), (0, 3, 7, 4), (1, 2, 6, 5), (0, 1, 5, 4), (3, 2, 6, 7)].getD f (0, 0, 0, 0)

/-- The cube above it, turned by a quarter about the vertical axis: its vertex 0 is the point `(1, 0, 1)`. -/
def hexUpper {K : Type} [Field K] : HexGeom K where
  vertices := fun v => [(1, 0, 1), (1, 1, 1), (0, 1, 1), (0, 0, 1), (1, 0, 2), (1, 1, 2), (0, 1, 2), (0, 0, 2)].getD v 0
  inv0 := (0, 1, 0)
  inv1 := (-1, 0, 0)
  inv2 := (0, 0, 1)
  edges := hexExEdges
  dirs := [true, false, true, true, true, true, true, true, true, true, true, true]
  faces := [hexExFace [3, 0, 1, 2], hexExFace [4, 5, 6, 7], hexExFace [3, 11, 7, 8], hexExFace [1, 10, 5, 9], hexExFace [0, 9, 4, 8],
    hexExFace [2, 10, 6, 11]]

/-- The corners of its faces. -/
def hexUpperCorners (f : Nat) : Corners := [(3, 0, 1, 2), (4, 5, 6, 7), (0, 3, 7, 4), (1, 2, 6, 5), (0, 1, 5, 4), (3, 2, 6, 7)].getD f (0, 0, 0, 0)

theorem hexExEdges_ok : HexEdgesOk hexExEdges := by
  refine ⟨rfl, by decide, by decide⟩

theorem hexLower_ok {K : Type} [Field K] : HexMeshOk (hexLower (K := K)) hexLowerCorners where
  shape := by simp [Parallelepiped, hexLower, cubeVertex, cubeBits]
  inverse := by simp [IsInverse3, inner3, hexLower, cubeVertex, cubeBits]
  edges := hexExEdges_ok
  dirs := rfl
  number := rfl
  faces := by
    intro f hf
    interval_cases f <;> refine ⟨_, rfl, by decide, by decide, ⟨_, _, _, _, rfl, ?_, ?_, ?_, ?_⟩, rfl, rfl⟩ <;>
      simp [Joins, hexLower, hexExEdges, hexLowerCorners]
  different := by
    intro f f' hf hf' h
    interval_cases f <;> interval_cases f' <;> first
      | exact absurd rfl h
      | exact ⟨0, by decide, by decide⟩
      | exact ⟨1, by decide, by decide⟩
      | exact ⟨2, by decide, by decide⟩
      | exact ⟨3, by decide, by decide⟩
      | exact ⟨4, by decide, by decide⟩
      | exact ⟨5, by decide, by decide⟩
      | exact ⟨6, by decide, by decide⟩

theorem hexUpper_ok {K : Type} [Field K] [CharZero K] : HexMeshOk (hexUpper (K := K)) hexUpperCorners where
  shape := by norm_num [Parallelepiped, hexUpper]
  inverse := by norm_num [IsInverse3, inner3, hexUpper]
  edges := hexExEdges_ok
  dirs := rfl
  number := rfl
  faces := by
    intro f hf
    interval_cases f <;> refine ⟨_, rfl, by decide, by decide, ⟨_, _, _, _, rfl, ?_, ?_, ?_, ?_⟩, rfl, rfl⟩ <;>
      simp [Joins, hexUpper, hexExEdges, hexUpperCorners]
  different := by
    intro f f' hf hf' h
    interval_cases f <;> interval_cases f' <;> first
      | exact absurd rfl h
      | exact ⟨0, by decide, by decide⟩
      | exact ⟨1, by decide, by decide⟩
      | exact ⟨2, by decide, by decide⟩
      | exact ⟨3, by decide, by decide⟩
      | exact ⟨4, by decide, by decide⟩
      | exact ⟨5, by decide, by decide⟩
      | exact ⟨6, by decide, by decide⟩

/-- An exact test of the norm exists. -/
def exactNormTest {K : Type} [Field K] [DecidableEq K] (l : List (K × K × K)) : Bool := decide (∀ v ∈ l, v = 0)

theorem exactNormTest_ok {K : Type} [Field K] [DecidableEq K] : ExactNorm (exactNormTest (K := K)) := by
  intro l
  simp [exactNormTest]

section
variable {K : Type} [Field K]

/-! ## C62 -/

/-- **C62, creation.** For a nondegenerate parallelepiped, with edges and faces numbered and directed in any way, the local space exists and the
DOF order is a permutation of all the local DOFs, which fixes the vertices and the interior DOFs. -/
theorem C62_permutation (k : Nat) (hk : 1 ≤ k) (d : HexData K) (hd : hexCreate K k = .ok d) (normZero : List (K × K × K) → Bool) (hn : ExactNorm normZero)
    (isZero : K → Bool) (g : HexGeom K) (corners : Nat → Corners) (hg : HexMeshOk g corners) :
    ∃ s, hexSpace d normZero isZero g = .ok s ∧ s.ref = d ∧ s.kind = .parallelepiped ∧ s.order.Perm (List.range d.numBasis) ∧
      (∀ v : Nat, v < 8 → s.order[v]? = some v) ∧
      ∀ c : Nat, 8 + 12 * d.num1D + 6 * d.num2D ≤ c → c < d.numBasis → s.order[c]? = some c := by
  obtain ⟨k, rfl⟩ : ∃ m, k = m + 1 := ⟨k - 1, by omega⟩
  rw [hexCreate_ok] at hd
  injection hd with hd
  subst hd
  obtain ⟨s, hs, hr, hkind, -, hp, -, hv, -, -, hi⟩ := hexSpace_ok k hn isZero hg
  refine ⟨s, hs, hr, hkind, hp, hv, fun c h1 h2 => ?_⟩
  have h1 : 8 + 12 * k + 6 * (k * k) ≤ c := h1
  have h2 : c < (k + 2) * (k + 2) * (k + 2) := h2
  obtain ⟨j, rfl⟩ := Nat.exists_eq_add_of_le h1
  apply hi j
  rw [← hexTypes_count] at h2
  omega

example : ∃ d s, hexCreate ℚ 3 = .ok d ∧ hexSpace d exactNormTest (· = 0) hexUpper = .ok s ∧ s.order.Perm (List.range 64) := by
  obtain ⟨s, hs, -, -, hp, -⟩ := C62_permutation (K := ℚ) 3 (by norm_num) _ (hexCreate_ok 2) exactNormTest exactNormTest_ok (· = 0) hexUpper _ hexUpper_ok
  exact ⟨_, s, hexCreate_ok 2, hs, hp⟩

/-- **C62, other hexahedra.** A hexahedron which is not a parallelepiped is always rejected: the quadrature throws. -/
theorem C62_generic_rejected (k : Nat) (hk : 1 ≤ k) (d : HexData K) (hd : hexCreate K k = .ok d) (normZero : List (K × K × K) → Bool) (hn : ExactNorm normZero)
    (isZero : K → Bool) (g : HexGeom K) (corners : Nat → Corners) (hshape : ¬ Parallelepiped g.vertices) (hedges : HexEdgesOk g.edges)
    (hdirs : g.dirs.length = 12) (hfaces : ∀ f, f < 6 → ∃ face, g.faces[f]? = some face ∧ HexFaceOk g.edges face (corners f))
    (hdiff : ∀ f f', f < 6 → f' < 6 → f ≠ f' → ∃ v, v ∈ cornerList (corners f) ∧ v ∉ cornerList (corners f')) :
    hexSpace d normZero isZero g = .error .runtimeError := by
  obtain ⟨k, rfl⟩ : ∃ m, k = m + 1 := ⟨k - 1, by omega⟩
  rw [hexCreate_ok] at hd
  injection hd with hd
  subst hd
  obtain ⟨L, faces, h1, -⟩ := hexSpace_run k normZero isZero hedges hdirs hfaces hdiff
  have hkind : hexKind normZero g.vertices = .generic := by
    unfold hexKind
    rw [if_neg]
    intro h
    exact hshape (hexMixed_zero_iff.1 ((hn _).1 h))
  rw [h1, hkind]
  rfl

/-- A cube with one vertex moved is not a parallelepiped. -/
example : ¬ Parallelepiped (fun v => if v = 6 then ((2, 2, 2) : ℚ × ℚ × ℚ) else cubeVertex ℚ v) := by
  simp [Parallelepiped, cubeVertex, cubeBits]

variable [CharZero K]

/-- **C62, vertices.** DOF `v < 8` is vertex `v`. -/
theorem C62_vertices (k : Nat) (hk : 1 ≤ k) (d : HexData K) (hd : hexCreate K k = .ok d) (normZero : List (K × K × K) → Bool) (hn : ExactNorm normZero)
    (isZero : K → Bool) (g : HexGeom K) (corners : Nat → Corners) (hg : HexMeshOk g corners) (s : HexSpace K) (hs : hexSpace d normZero isZero g = .ok s)
    (v : Nat) (hv : v < 8) : hexDof s v = .ok (g.vertices v) := by
  obtain ⟨k, rfl⟩ : ∃ m, k = m + 1 := ⟨k - 1, by omega⟩
  obtain ⟨d', hd', -, -, -, -, -, -, -, -, -, -, -, hver, -⟩ := C45_layout (K := K) (k + 1) hk
  rw [hexCreate_ok] at hd hd'
  injection hd with hd
  subst hd
  injection hd' with hd'
  subst hd'
  obtain ⟨s', hs', hr, -, hm, hp, -, hvx, -⟩ := hexSpace_ok k hn isZero hg
  rw [hs] at hs'
  injection hs' with hs'
  subst hs'
  rw [hexDof_pos hr hp (hvx v hv) (hver v hv), hm, hexF_vertex hg.shape hv]

/-- **C62, edges.** The `j`-th DOF of edge `e` is at parameter `(j + 1) / k` of the edge in the direction stored by the mesh. -/
theorem C62_edge_points (k : Nat) (hk : 1 ≤ k) (d : HexData K) (hd : hexCreate K k = .ok d) (normZero : List (K × K × K) → Bool) (hn : ExactNorm normZero)
    (isZero : K → Bool) (g : HexGeom K) (corners : Nat → Corners) (hg : HexMeshOk g corners) (s : HexSpace K) (hs : hexSpace d normZero isZero g = .ok s)
    (e j : Nat) (edge : Nat × Nat) (dir : Bool) (he : g.edges[e]? = some edge) (hdir : g.dirs[e]? = some dir) (hj : j < k - 1) :
    hexDof s (8 + e * (k - 1) + j) =
      .ok (segPoint3 (hexMeshEdge g.vertices edge dir).1 (hexMeshEdge g.vertices edge dir).2 (((j + 1 : Nat) : K) / (k : K))) := by
  obtain ⟨k, rfl⟩ : ∃ m, k = m + 1 := ⟨k - 1, by omega⟩
  obtain ⟨d', hd', -, -, -, -, -, -, -, -, -, -, -, -, hedg, -⟩ := C45_layout (K := K) (k + 1) hk
  rw [hexCreate_ok] at hd hd'
  injection hd with hd
  subst hd
  injection hd' with hd'
  subst hd'
  obtain ⟨s', hs', hr, -, hm, hp, -, -, hed, -⟩ := hexSpace_ok k hn isZero hg
  rw [hs] at hs'
  injection hs' with hs'
  subst hs'
  rw [Nat.add_sub_cancel] at hj hedg ⊢
  have he12 : e < 12 := by
    rw [← hg.edges.1]
    exact (List.getElem?_eq_some_iff.1 he).1
  have hk0 : ((k + 1 : Nat) : K) ≠ 0 := Nat.cast_ne_zero.2 (by omega)
  have hdir' : g.dirs.getD e true = dir := by simp [hdir]
  have hedge : hexEdgeRef g.edges e = (hexEdgeNo edge.1 edge.2, hexEdgeFwd edge.1 edge.2) := by simp [hexEdgeRef, he]
  have hadj := (hexEdges_getD hg.edges he12).2
  rw [show g.edges.getD e (0, 0) = edge by simp [he]] at hadj
  have hcol := hed e j he12 hj
  rw [hdir', hedge] at hcol
  obtain ⟨a, b⟩ := edge
  dsimp only at hcol hadj
  obtain ⟨-, -, -, htab⟩ := hexEdge_table hadj
  have hlt : (if dir = hexEdgeFwd a b then j else k - 1 - j) < k := by split_ifs <;> omega
  have hpos := hedg (hexEdgeNo a b) (if hexEdgeFwd a b then a else b) (if hexEdgeFwd a b then b else a) _ (by rw [htab]; split_ifs <;> rfl) hlt
  rw [hexDof_pos hr hp hcol hpos, hm, tetF_seg]
  congr 1
  unfold hexMeshEdge
  have hc : ((k - 1 - j + 1 : Nat) : K) = ((k + 1 : Nat) : K) - ((j + 1 : Nat) : K) := by
    rw [show k - 1 - j + 1 = k + 1 - (j + 1) by omega, Nat.cast_sub (by omega)]
  have hrev : ∀ P Q : K × K × K, segPoint3 P Q (((k - 1 - j + 1 : Nat) : K) / ((k + 1 : Nat) : K)) = segPoint3 Q P (((j + 1 : Nat) : K) / ((k + 1 : Nat) : K)) := by
    intro P Q
    unfold segPoint3
    rw [hc, sub_div, div_self hk0]
    module
  have hA := hexF_vertex hg.shape hadj.1
  have hB := hexF_vertex hg.shape hadj.2.1
  cases dir <;> cases hexEdgeFwd a b <;> simp only [reduceIte, Bool.false_eq_true, Bool.true_eq_false, hA, hB, hrev]

/-- Edge 1 of the example is stored from vertex 1 to vertex 2 with a false flag, so its first DOF is near vertex 2, the point `(0, 1, 1)`. -/
example : ∃ d s, hexCreate ℚ 4 = .ok d ∧ hexSpace d exactNormTest (· = 0) hexUpper = .ok s ∧
    hexDof s (8 + 1 * 3 + 0) = .ok (segPoint3 (0, 1, 1) (1, 1, 1) (1 / 4)) := by
  obtain ⟨s, hs, -⟩ := C62_permutation (K := ℚ) 4 (by norm_num) _ (hexCreate_ok 3) exactNormTest exactNormTest_ok (· = 0) hexUpper _ hexUpper_ok
  refine ⟨_, s, hexCreate_ok 3, hs, ?_⟩
  have := C62_edge_points 4 (by norm_num) _ (hexCreate_ok 3) exactNormTest exactNormTest_ok _ hexUpper _ hexUpper_ok s hs 1 0 (1, 2) false rfl rfl (by norm_num)
  rw [show 8 + 1 * (4 - 1) + 0 = 8 + 1 * 3 + 0 from rfl] at this
  rw [this]
  norm_num [hexMeshEdge, hexUpper]

/-- **C62, neighbours.** Two parallelepipeds that see the same mesh edge place its `j`-th DOF at the same point. -/
theorem C62_neighbours (k : Nat) (hk : 1 ≤ k) (d : HexData K) (hd : hexCreate K k = .ok d) (normZero : List (K × K × K) → Bool) (hn : ExactNorm normZero)
    (isZero : K → Bool) (g g' : HexGeom K) (corners corners' : Nat → Corners) (hg : HexMeshOk g corners) (hg' : HexMeshOk g' corners')
    (s s' : HexSpace K) (hs : hexSpace d normZero isZero g = .ok s) (hs' : hexSpace d normZero isZero g' = .ok s') (e e' j : Nat) (edge edge' : Nat × Nat)
    (dir dir' : Bool) (he : g.edges[e]? = some edge) (hdir : g.dirs[e]? = some dir) (he' : g'.edges[e']? = some edge') (hdir' : g'.dirs[e']? = some dir')
    (hshared : hexMeshEdge g.vertices edge dir = hexMeshEdge g'.vertices edge' dir') (hj : j < k - 1) :
    ∃ P, hexDof s (8 + e * (k - 1) + j) = .ok P ∧ hexDof s' (8 + e' * (k - 1) + j) = .ok P := by
  refine ⟨_, C62_edge_points k hk d hd normZero hn isZero g corners hg s hs e j edge dir he hdir hj, ?_⟩
  rw [C62_edge_points k hk d hd normZero hn isZero g' corners' hg' s' hs' e' j edge' dir' he' hdir' hj, hshared]

/-- Edge 6 of the lower cell is edge 1 of the upper cell. -/
example : hexMeshEdge (hexLower (K := ℚ)).vertices (6, 7) false = hexMeshEdge (hexUpper (K := ℚ)).vertices (1, 2) false := by
  simp [hexMeshEdge, hexLower, hexUpper, cubeVertex, cubeBits]

omit [Field K] [CharZero K] in
theorem hexOrder_get {s : HexSpace K} {N c : Nat} (hp : s.order.Perm (List.range N)) (hc : c < N) : ∃ i : Nat, s.order[i]? = some c ∧ i < N := by
  have : c ∈ s.order := hp.mem_iff.2 (List.mem_range.2 hc)
  obtain ⟨i, hi⟩ := List.mem_iff_getElem?.1 this
  refine ⟨i, hi, ?_⟩
  have := (List.getElem?_eq_some_iff.1 hi).1
  rw [hp.length_eq, List.length_range] at this
  exact this

theorem edgeFn_node {n m i : Nat} (hn : 1 ≤ n) (hm : m ≤ n) (hi : i ≤ n) : edgeFn (K := K) n m ((i : K) / (n : K)) = if m = i then 1 else 0 := by
  have hn0 : (n : K) ≠ 0 := Nat.cast_ne_zero.2 (by omega)
  have e1 : (n : K) * ((i : K) / (n : K)) = (i : K) := by field_simp
  have e2 : (n : K) * (1 - (i : K) / (n : K)) = ((n - i : Nat) : K) := by rw [mul_sub, e1, Nat.cast_sub hi, mul_one]
  unfold edgeFn
  rw [e1, e2]
  by_cases h : m = i
  · subst h
    rw [bq_self, bq_self, if_pos rfl, one_mul]
  · rw [if_neg h]
    rcases Nat.lt_or_gt_of_ne h with h | h
    · rw [bq_lt (n - i) (n - m) (by omega), zero_mul]
    · rw [bq_lt i m h, mul_zero]

/-- **C62, values.** The mapped basis function `i` is `1` at DOF point `i` and `0` at the others. -/
theorem C62_values_order (k : Nat) (hk : 1 ≤ k) (d : HexData K) (hd : hexCreate K k = .ok d) (normZero : List (K × K × K) → Bool) (hn : ExactNorm normZero)
    (isZero : K → Bool) (g : HexGeom K) (corners : Nat → Corners) (hg : HexMeshOk g corners) (s : HexSpace K) (hs : hexSpace d normZero isZero g = .ok s)
    (i j : Nat) (hi : i < d.numBasis) (hj : j < d.numBasis) : ∃ P, hexDof s j = .ok P ∧ hexPhysValue s P i = .ok (if i = j then 1 else 0) := by
  obtain ⟨k, rfl⟩ : ∃ m, k = m + 1 := ⟨k - 1, by omega⟩
  rw [hexCreate_ok] at hd
  injection hd with hd
  subst hd
  obtain ⟨s', hs', hr, hkind, hm, hp, -⟩ := hexSpace_ok k hn isZero hg
  rw [hs] at hs'
  injection hs' with hs'
  subst hs'
  have hi : i < (k + 2) * (k + 2) * (k + 2) := hi
  have hj : j < (k + 2) * (k + 2) * (k + 2) := hj
  obtain ⟨i', hi', li⟩ := hexOrder_get hp hi
  obtain ⟨j', hj', lj⟩ := hexOrder_get hp hj
  obtain ⟨n0, n1, n2, a0, a1, a2, ht, -, hval⟩ := hexSpace_col hr hkind hp hi' li
  obtain ⟨m0, m1, m2, b0, b1, b2, ht', hdof, -⟩ := hexSpace_col hr hkind hp hj' lj
  refine ⟨_, hdof, ?_⟩
  rw [hval, hm, tetFInv_tetF (m := hexMap g) hg.inverse]
  simp only
  rw [edgeFn_node hk a0 b0, edgeFn_node hk a1 b1, edgeFn_node hk a2 b2]
  congr 1
  have hnd : s.order.Nodup := hp.nodup_iff.2 List.nodup_range
  have key : i = j ↔ n0 = m0 ∧ n1 = m1 ∧ n2 = m2 := by
    constructor
    · rintro rfl
      obtain ⟨h1, h2⟩ := List.getElem?_eq_some_iff.1 hi'
      obtain ⟨h3, h4⟩ := List.getElem?_eq_some_iff.1 hj'
      obtain rfl := (List.Nodup.getElem_inj_iff hnd).1 (h2.trans h4.symm)
      rw [ht] at ht'
      injection ht' with ht'
      injection ht' with e0 e1
      injection e1 with e1 e2
      have inv : ∀ {a b : Nat}, a ≤ k + 1 → b ≤ k + 1 → latIdx (k + 1) a = latIdx (k + 1) b → a = b := by
        intro a b ha hb h
        rw [← latNum_latIdx (k := k) (m := a) (by omega), h, latNum_latIdx (by omega)]
      exact ⟨inv a0 b0 e0, inv a1 b1 e1, inv a2 b2 e2⟩
    · rintro ⟨rfl, rfl, rfl⟩
      obtain rfl := hexTypes_get_inj ht ht'
      rw [hi'] at hj'
      exact Option.some.inj hj'
  rw [if_congr key rfl rfl]
  by_cases h1 : n0 = m0 <;> by_cases h2 : n1 = m1 <;> by_cases h3 : n2 = m2 <;> simp [h1, h2, h3]

end

/-! ## C46 -/

namespace Spec

/-- The frame of a face in which the cell orders its DOFs: the corner `o` of the reference element and its neighbours `a`, `b` on the face. It is
determined by the local vertex numbers of the cell. -/
def HexFrame (c : Corners) (o a b : Nat) : Prop := (o, a, b) ∈ cubeFaces ∧ o ∈ cornerList c ∧ a ∈ cornerList c ∧ b ∈ cornerList c

end Spec

/-- The frame stored for the reference face. -/
def hexFrameOf (c : Corners) : Nat × Nat × Nat := cubeFaces.getD (hexFaceNo c) (0, 0, 0)

/-- The fourth corner of the face. -/
def hexFourth (c : Corners) : Nat := [2, 6, 5, 6, 7, 6].getD (hexFaceNo c) 0

set_option maxRecDepth 20000 in
set_option maxHeartbeats 2000000 in
theorem hexFrame_table' : ∀ a b : Fin 8, CubeAdj a b → ∀ c : Fin 8, CubeAdj b c → ∀ d : Fin 8, CubeAdj c d → CubeAdj d a → (a : Nat) ≠ c → (b : Nat) ≠ d →
    cubeFaces[hexFaceNo (a, b, c, d)]? = some (hexFrameOf (a, b, c, d)) ∧
      (cornerList (a, b, c, d)).Perm [(hexFrameOf (a, b, c, d)).1, (hexFrameOf (a, b, c, d)).2.1, (hexFrameOf (a, b, c, d)).2.2, hexFourth (a, b, c, d)] := by
  decide

set_option maxRecDepth 20000 in
set_option maxHeartbeats 2000000 in
theorem hexFrame_unique' : ∀ a b : Fin 8, CubeAdj a b → ∀ c : Fin 8, CubeAdj b c → ∀ d : Fin 8, CubeAdj c d → CubeAdj d a → (a : Nat) ≠ c → (b : Nat) ≠ d →
    ∀ t ∈ cubeFaces, t.1 ∈ cornerList (a, b, c, d) → t.2.1 ∈ cornerList (a, b, c, d) → t.2.2 ∈ cornerList (a, b, c, d) → hexFrameOf (a, b, c, d) = t := by
  decide

theorem hexFrame_table {c : Corners} (h : CubeAdj c.1 c.2.1 ∧ CubeAdj c.2.1 c.2.2.1 ∧ CubeAdj c.2.2.1 c.2.2.2 ∧ CubeAdj c.2.2.2 c.1)
    (hd : c.1 ≠ c.2.2.1 ∧ c.2.1 ≠ c.2.2.2) :
    cubeFaces[hexFaceNo c]? = some (hexFrameOf c) ∧ (cornerList c).Perm [(hexFrameOf c).1, (hexFrameOf c).2.1, (hexFrameOf c).2.2, hexFourth c] ∧
      ∀ o a b, HexFrame c o a b ↔ (o, a, b) = hexFrameOf c := by
  obtain ⟨a, b, c, d⟩ := c
  obtain ⟨h1, h2, h3, h4⟩ := h
  obtain ⟨h5, h6⟩ := hexFrame_table' ⟨a, h1.1⟩ ⟨b, h1.2.1⟩ h1 ⟨c, h2.2.1⟩ h2 ⟨d, h3.2.1⟩ h3 h4 hd.1 hd.2
  have h7 := hexFrame_unique' ⟨a, h1.1⟩ ⟨b, h1.2.1⟩ h1 ⟨c, h2.2.1⟩ h2 ⟨d, h3.2.1⟩ h3 h4 hd.1 hd.2
  refine ⟨h5, h6, fun o x y => ⟨fun h => (h7 _ h.1 h.2.1 h.2.2.1 h.2.2.2).symm, fun h => ?_⟩⟩
  have e1 := List.mem_of_getElem? h5
  rw [← h] at e1
  have h6 := fun v => h6.mem_iff (a := v)
  simp only at h6
  refine ⟨e1, ?_, ?_, ?_⟩ <;> rw [h6, ← h] <;> simp

section
variable {K : Type} [Field K]

theorem hexFourth_vertex {V : Nat → K × K × K} (h : Parallelepiped V) (c : Corners) (hc : hexFaceNo c < 6) :
    V (hexFourth c) = V (hexFrameOf c).2.1 + V (hexFrameOf c).2.2 - V (hexFrameOf c).1 := by
  obtain ⟨h1, h2, h3, h4⟩ := h
  unfold hexFourth hexFrameOf
  generalize hexFaceNo c = r at hc
  interval_cases r <;> simp only [cubeFaces, List.getD_cons_zero, List.getD_cons_succ, h1, h2, h3, h4] <;> abel

variable [CharZero K]

/-- **C46, where the face DOFs are.** In every cell every face has exactly one frame, given by the vertex numbering of the cell, and DOF
`i (k - 1) + j` of the face is at the point with coordinates `(i + 1) / k`, `(j + 1) / k` in this frame. -/
theorem C46_face_points (k : Nat) (hk : 1 ≤ k) (d : HexData K) (hd : hexCreate K k = .ok d) (normZero : List (K × K × K) → Bool) (hn : ExactNorm normZero)
    (isZero : K → Bool) (g : HexGeom K) (corners : Nat → Corners) (hg : HexMeshOk g corners) (s : HexSpace K) (hs : hexSpace d normZero isZero g = .ok s)
    (f : Nat) (hf : f < 6) :
    (∃ o a b, HexFrame (corners f) o a b) ∧ ∀ o a b i j : Nat, HexFrame (corners f) o a b → i < k - 1 → j < k - 1 →
      hexDof s (8 + 12 * (k - 1) + f * ((k - 1) * (k - 1)) + (i * (k - 1) + j)) =
        .ok (framePoint (g.vertices o) (g.vertices a) (g.vertices b) (((i + 1 : Nat) : K) / (k : K)) (((j + 1 : Nat) : K) / (k : K))) := by
  obtain ⟨face, -, hok⟩ := hg.faces f hf
  obtain ⟨t1, t2, t3⟩ := hexFrame_table hok.cycle hok.different
  refine ⟨⟨_, _, _, (t3 _ _ _).2 rfl⟩, fun o a b i j hfr hi hj => ?_⟩
  obtain ⟨k, rfl⟩ : ∃ m, k = m + 1 := ⟨k - 1, by omega⟩
  obtain ⟨d', hd', -, -, -, -, -, -, -, -, -, -, -, -, -, hfac, -⟩ := C45_layout (K := K) (k + 1) hk
  rw [hexCreate_ok] at hd hd'
  injection hd with hd
  subst hd
  injection hd' with hd'
  subst hd'
  obtain ⟨s', hs', hr, -, hm, hp, -, -, -, hfa, -⟩ := hexSpace_ok k hn isZero hg
  rw [hs] at hs'
  injection hs' with hs'
  subst hs'
  rw [Nat.add_sub_cancel] at *
  rw [← (t3 _ _ _).1 hfr] at t1
  have hpos := hfac _ o a b i j t1 hi hj
  have hlt : i * k + j < k * k := mul_add_lt hi hj
  have hcol := hfa f (i * k + j) hf hlt
  rw [Nat.mul_comm (k * k) (hexFaceNo _)] at hcol
  rw [hexDof_pos hr hp hcol hpos, hm, tetF_frame]
  have hmem : ∀ v ∈ cornerList (corners f), v < 8 := by
    intro v hv
    obtain ⟨c1, c2, c3, -⟩ := hok.cycle
    simp only [cornerList, List.mem_cons, List.not_mem_nil, or_false] at hv
    rcases hv with rfl | rfl | rfl | rfl
    · exact c1.1
    · exact c1.2.1
    · exact c2.2.1
    · exact c3.2.1
  rw [hexF_vertex hg.shape (hmem o hfr.2.1), hexF_vertex hg.shape (hmem a hfr.2.2.1), hexF_vertex hg.shape (hmem b hfr.2.2.2)]

/-- The bottom face of the lower cell, order 4: DOF 5 (row 1, column 2) is at `(1/2, 3/4, 0)`. -/
example : ∃ d s, hexCreate ℚ 4 = .ok d ∧ hexSpace d exactNormTest (· = 0) hexLower = .ok s ∧ HexFrame (hexLowerCorners 0) 0 1 3 ∧
    hexDof s (8 + 12 * 3 + 0 * (3 * 3) + (1 * 3 + 2)) = .ok (1 / 2, 3 / 4, 0) := by
  obtain ⟨s, hs, -⟩ := C62_permutation (K := ℚ) 4 (by norm_num) _ (hexCreate_ok 3) exactNormTest exactNormTest_ok (· = 0) hexLower _ hexLower_ok
  have hfr : HexFrame (hexLowerCorners 0) 0 1 3 := by unfold HexFrame; decide
  refine ⟨_, s, hexCreate_ok 3, hs, hfr, ?_⟩
  have := (C46_face_points 4 (by norm_num) _ (hexCreate_ok 3) exactNormTest exactNormTest_ok _ hexLower _ hexLower_ok s hs 0 (by norm_num)).2 0 1 3 1 2 hfr
    (by norm_num) (by norm_num)
  rw [show 4 - 1 = 3 from rfl] at this
  rw [this]
  norm_num [framePoint, hexLower, cubeVertex, cubeBits]

/-- **C46, when neighbours agree.** For order at least 3, two cells place the DOFs of a shared face at the same points if and only if the
frames of the face in the two cells have the same corner and the same neighbours, in the same order. -/
theorem C46_neighbours_iff (k : Nat) (hk : 3 ≤ k) (d : HexData K) (hd : hexCreate K k = .ok d) (normZero : List (K × K × K) → Bool) (hn : ExactNorm normZero)
    (isZero : K → Bool) (g g' : HexGeom K) (corners corners' : Nat → Corners) (hg : HexMeshOk g corners) (hg' : HexMeshOk g' corners')
    (s s' : HexSpace K) (hs : hexSpace d normZero isZero g = .ok s) (hs' : hexSpace d normZero isZero g' = .ok s') (f f' : Nat) (hf : f < 6) (hf' : f' < 6)
    (o a b o' a' b' : Nat) (hfr : HexFrame (corners f) o a b) (hfr' : HexFrame (corners' f') o' a' b') :
    (∀ n, n < (k - 1) * (k - 1) → ∃ P, hexDof s (8 + 12 * (k - 1) + f * ((k - 1) * (k - 1)) + n) = .ok P ∧
        hexDof s' (8 + 12 * (k - 1) + f' * ((k - 1) * (k - 1)) + n) = .ok P) ↔
      g.vertices o = g'.vertices o' ∧ g.vertices a = g'.vertices a' ∧ g.vertices b = g'.vertices b' := by
  have h1 := (C46_face_points k (by omega) d hd normZero hn isZero g corners hg s hs f hf).2 o a b
  have h2 := (C46_face_points k (by omega) d hd normZero hn isZero g' corners' hg' s' hs' f' hf').2 o' a' b'
  constructor
  · intro h
    have key : ∀ i j : Nat, i < k - 1 → j < k - 1 →
        framePoint (g.vertices o) (g.vertices a) (g.vertices b) (((i + 1 : Nat) : K) / (k : K)) (((j + 1 : Nat) : K) / (k : K)) =
          framePoint (g'.vertices o') (g'.vertices a') (g'.vertices b') (((i + 1 : Nat) : K) / (k : K)) (((j + 1 : Nat) : K) / (k : K)) := by
      intro i j hi hj
      obtain ⟨P, hP, hP'⟩ := h (i * (k - 1) + j) (mul_add_lt hi hj)
      rw [h1 i j hfr hi hj] at hP
      rw [h2 i j hfr' hi hj] at hP'
      injection hP with hP
      injection hP' with hP'
      rw [hP, hP']
    have e00 := key 0 0 (by omega) (by omega)
    have e10 := key 1 0 (by omega) (by omega)
    have e01 := key 0 1 (by omega) (by omega)
    have hk0 : (k : K) ≠ 0 := Nat.cast_ne_zero.2 (by omega)
    have one : ((0 + 1 : Nat) : K) / (k : K) = (k : K)⁻¹ := by simp
    have two : ((1 + 1 : Nat) : K) / (k : K) = 2 * (k : K)⁻¹ := by push_cast; norm_num [div_eq_mul_inv]
    rw [one] at e00 e10 e01
    rw [two] at e10 e01
    have hinv : (k : K) * (k : K)⁻¹ = 1 := mul_inv_cancel₀ hk0
    generalize (k : K)⁻¹ = τ at *
    generalize g.vertices o = O at *
    generalize g.vertices a = A at *
    generalize g.vertices b = B at *
    generalize g'.vertices o' = O' at *
    generalize g'.vertices a' = A' at *
    generalize g'.vertices b' = B' at *
    have coord : ∀ O A B O' A' B' : K, O + τ * (A - O) + τ * (B - O) = O' + τ * (A' - O') + τ * (B' - O') →
        O + 2 * τ * (A - O) + τ * (B - O) = O' + 2 * τ * (A' - O') + τ * (B' - O') →
        O + τ * (A - O) + 2 * τ * (B - O) = O' + τ * (A' - O') + 2 * τ * (B' - O') → O = O' ∧ A = A' ∧ B = B' := by
      intro O A B O' A' B' e1 e2 e3
      refine ⟨?_, ?_, ?_⟩
      · linear_combination 3 * e1 - e2 - e3
      · linear_combination 3 * e1 - e2 - e3 + (k : K) * (e2 - e1) + ((A' - O') - (A - O)) * hinv
      · linear_combination 3 * e1 - e2 - e3 + (k : K) * (e3 - e1) + ((B' - O') - (B - O)) * hinv
    have c1 := coord O.1 A.1 B.1 O'.1 A'.1 B'.1 (congrArg (fun x => x.1) e00) (congrArg (fun x => x.1) e10) (congrArg (fun x => x.1) e01)
    have c2 := coord O.2.1 A.2.1 B.2.1 O'.2.1 A'.2.1 B'.2.1 (congrArg (fun x => x.2.1) e00) (congrArg (fun x => x.2.1) e10) (congrArg (fun x => x.2.1) e01)
    have c3 := coord O.2.2 A.2.2 B.2.2 O'.2.2 A'.2.2 B'.2.2 (congrArg (fun x => x.2.2) e00) (congrArg (fun x => x.2.2) e10) (congrArg (fun x => x.2.2) e01)
    exact ⟨Prod.ext c1.1 (Prod.ext c2.1 c3.1), Prod.ext c1.2.1 (Prod.ext c2.2.1 c3.2.1), Prod.ext c1.2.2 (Prod.ext c2.2.2 c3.2.2)⟩
  · rintro ⟨e1, e2, e3⟩ n hn'
    have hpos : 0 < k - 1 := by omega
    have hi : n / (k - 1) < k - 1 := Nat.div_lt_of_lt_mul hn'
    have hj : n % (k - 1) < k - 1 := Nat.mod_lt _ hpos
    have hsplit : n / (k - 1) * (k - 1) + n % (k - 1) = n := Nat.div_add_mod' n (k - 1)
    have := h1 (n / (k - 1)) (n % (k - 1)) hfr hi hj
    have h' := h2 (n / (k - 1)) (n % (k - 1)) hfr' hi hj
    rw [hsplit] at this h'
    exact ⟨_, this, by rw [h', e1, e2, e3]⟩

/-- **C46 for orders up to 2.** Two cells that share a face, whatever their vertex numberings, place its DOF at the same point, the mean
of its corners. Full statement: for every order; it is false from order 3 on, see `C46_false`. -/
theorem C46_neighbours_partial (k : Nat) (hk : 1 ≤ k) (hk2 : k ≤ 2) (d : HexData K) (hd : hexCreate K k = .ok d) (normZero : List (K × K × K) → Bool)
    (hn : ExactNorm normZero) (isZero : K → Bool) (g g' : HexGeom K) (corners corners' : Nat → Corners) (hg : HexMeshOk g corners)
    (hg' : HexMeshOk g' corners') (s s' : HexSpace K) (hs : hexSpace d normZero isZero g = .ok s) (hs' : hexSpace d normZero isZero g' = .ok s')
    (f f' : Nat) (hf : f < 6) (hf' : f' < 6) (hshared : ((cornerList (corners f)).map g.vertices).Perm ((cornerList (corners' f')).map g'.vertices))
    (n : Nat) (hn' : n < d.num2D) : ∃ P, hexDof s (8 + 12 * d.num1D + f * d.num2D + n) = .ok P ∧ hexDof s' (8 + 12 * d.num1D + f' * d.num2D + n) = .ok P ∧
      P = (1 / 4 : K) • ((cornerList (corners f)).map g.vertices).sum := by
  have hkk : k = 2 := by
    by_contra h
    have : k = 1 := by omega
    subst this
    rw [hexCreate_ok 0] at hd
    injection hd with hd
    subst hd
    exact absurd hn' (by simp [hexRef])
  subst hkk
  have hd' := hd
  rw [hexCreate_ok 1] at hd'
  injection hd' with hd'
  have n1 : d.num1D = 1 := by rw [← hd']; rfl
  have n2 : d.num2D = 1 := by rw [← hd']; rfl
  have key : ∀ (g : HexGeom K) (corners : Nat → Corners) (s : HexSpace K) (f : Nat), HexMeshOk g corners → hexSpace d normZero isZero g = .ok s → f < 6 →
      hexDof s (8 + 12 * d.num1D + f * d.num2D + n) = .ok ((1 / 4 : K) • ((cornerList (corners f)).map g.vertices).sum) := by
    intro g corners s f hg hs hf
    obtain ⟨face, -, hok⟩ := hg.faces f hf
    obtain ⟨-, t2, t3⟩ := hexFrame_table hok.cycle hok.different
    have := (C46_face_points 2 (by norm_num) d hd normZero hn isZero g corners hg s hs f hf).2 (hexFrameOf (corners f)).1
      (hexFrameOf (corners f)).2.1 (hexFrameOf (corners f)).2.2 0 0 ((t3 _ _ _).2 rfl) (by norm_num) (by norm_num)
    rw [n1, n2, show n = 0 by omega]
    rw [show 8 + 12 * (2 - 1) + f * ((2 - 1) * (2 - 1)) + (0 * (2 - 1) + 0) = 8 + 12 * 1 + f * 1 + 0 by omega] at this
    rw [this, (t2.map g.vertices).sum_eq]
    simp only [List.map_cons, List.map_nil, List.sum_cons, List.sum_nil]
    rw [hexFourth_vertex hg.shape _ (hexFace_table hok.cycle hok.different).2.1]
    congr 1
    generalize g.vertices (hexFrameOf (corners f)).1 = O
    generalize g.vertices (hexFrameOf (corners f)).2.1 = A
    generalize g.vertices (hexFrameOf (corners f)).2.2 = B
    have coord : ∀ O A B : K, O + ((0 + 1 : Nat) : K) / ((2 : Nat) : K) * (A - O) + ((0 + 1 : Nat) : K) / ((2 : Nat) : K) * (B - O) =
        1 / 4 * (O + (A + (B + (A + B - O + 0)))) := by
      intro O A B
      push_cast
      ring
    exact Prod.ext (coord O.1 A.1 B.1) (Prod.ext (coord O.2.1 A.2.1 B.2.1) (coord O.2.2 A.2.2 B.2.2))
  refine ⟨_, key g corners s f hg hs hf, ?_, rfl⟩
  rw [key g' corners' s' f' hg' hs' hf', hshared.sum_eq]

/-- The two concrete cells share a face: top of the lower one, bottom of the upper one, listed in the same order. -/
theorem hexExample_shared : (cornerList (hexLowerCorners 1)).map (hexLower (K := K)).vertices = (cornerList (hexUpperCorners 0)).map (hexUpper (K := K)).vertices := by
  simp [cornerList, hexLowerCorners, hexUpperCorners, hexLower, hexUpper, cubeVertex, cubeBits]

example : ∃ d s s', hexCreate ℚ 2 = .ok d ∧ hexSpace d exactNormTest (· = 0) hexLower = .ok s ∧ hexSpace d exactNormTest (· = 0) hexUpper = .ok s' ∧ 0 < d.num2D := by
  obtain ⟨s, hs, -⟩ := C62_permutation (K := ℚ) 2 (by norm_num) _ (hexCreate_ok 1) exactNormTest exactNormTest_ok (· = 0) hexLower _ hexLower_ok
  obtain ⟨s', hs', -⟩ := C62_permutation (K := ℚ) 2 (by norm_num) _ (hexCreate_ok 1) exactNormTest exactNormTest_ok (· = 0) hexUpper _ hexUpper_ok
  exact ⟨_, s, s', hexCreate_ok 1, hs, hs', by decide⟩

/-- **C46 is false from order 3 on.** Two unit cubes on top of each other, the upper one numbered after a quarter turn, share a face whose corners
both list in the same order, and place its first DOF at different points. -/
theorem C46_false (k : Nat) (hk : 3 ≤ k) (d : HexData K) (hd : hexCreate K k = .ok d) (normZero : List (K × K × K) → Bool) (hn : ExactNorm normZero)
    (isZero : K → Bool) :
    ∃ (g g' : HexGeom K) (corners corners' : Nat → Corners) (s s' : HexSpace K) (f f' : Nat) (P P' : K × K × K), HexMeshOk g corners ∧ HexMeshOk g' corners' ∧
      f < 6 ∧ f' < 6 ∧ (cornerList (corners f)).map g.vertices = (cornerList (corners' f')).map g'.vertices ∧ hexSpace d normZero isZero g = .ok s ∧
      hexSpace d normZero isZero g' = .ok s' ∧ hexDof s (8 + 12 * d.num1D + f * d.num2D) = .ok P ∧ hexDof s' (8 + 12 * d.num1D + f' * d.num2D) = .ok P' ∧ P ≠ P' := by
  obtain ⟨s, hs, -⟩ := C62_permutation k (by omega) d hd normZero hn isZero hexLower _ hexLower_ok
  obtain ⟨s', hs', -⟩ := C62_permutation k (by omega) d hd normZero hn isZero hexUpper _ hexUpper_ok
  obtain ⟨d', hd', -, -, n1, n2, -⟩ := C45_layout (K := K) k (by omega)
  rw [hd] at hd'
  injection hd' with hd'
  subst hd'
  have h1 := (C46_face_points k (by omega) d hd normZero hn isZero hexLower _ hexLower_ok s hs 1 (by norm_num)).2 4 5 7 0 0
    (by unfold HexFrame; decide) (by omega) (by omega)
  have h2 := (C46_face_points k (by omega) d hd normZero hn isZero hexUpper _ hexUpper_ok s' hs' 0 (by norm_num)).2 0 1 3 0 0
    (by unfold HexFrame; decide) (by omega) (by omega)
  rw [show 0 * (k - 1) + 0 = 0 from by omega, Nat.add_zero] at h1 h2
  refine ⟨hexLower, hexUpper, _, _, s, s', 1, 0, _, _, hexLower_ok, hexUpper_ok, by norm_num, by norm_num, hexExample_shared, hs, hs', by rw [n1, n2]; exact h1,
    by rw [n1, n2]; exact h2, ?_⟩
  · intro h
    have hk0 : (k : K) ≠ 0 := Nat.cast_ne_zero.2 (by omega)
    have h0 := congrArg (fun x => x.1) h
    simp [framePoint, hexLower, hexUpper, cubeVertex, cubeBits] at h0
    field_simp at h0
    have : ((k : Nat) : K) = ((2 : Nat) : K) := by push_cast; linear_combination -h0
    have := Nat.cast_injective (R := K) this
    omega

end

end PolyDiM
