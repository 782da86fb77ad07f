import Verif.Lemmas.FemTetTrace

/-!
# C44, C59-C61: mesh ordering, face traces and chain rule of the tetrahedral element

About `tetSpace`, `tetDof`, `tetPhysValue`, `tetPhysDerivative`, `tetOnFace` of `Verif/Model/FemTetSpace.lean`; the vocabulary of meshes is
in `Verif/Spec/TetMesh.lean`.
-/

namespace PolyDiM
open Spec

/-! ## Small specification -/

namespace Spec

/-- First and last point of edge `e` in the direction in which the mesh stores it. -/
def tetMeshEdge {K : Type} (m : TetMap K) (edge : Nat × Nat) (dir : Bool) : (K × K × K) × (K × K × K) :=
  if dir then (tetVertex m edge.1, tetVertex m edge.2) else (tetVertex m edge.2, tetVertex m edge.1)

/-- The affine combination of three points. -/
def facePoint {K : Type} [Field K] (A B C : K × K × K) (q : K × K) : K × K × K := (1 - q.1 - q.2) • A + q.1 • B + q.2 • C

end Spec

/-- A concrete tetrahedron: vertices `(1,0,0)`, `(3,0,0)`, `(1,4,0)`, `(1,0,1)`; edges numbered and directed differently from the reference
element, mixed directions, faces listed with different starting vertices. The plane triangles are the reference triangle, the faces
are given by affine parametrisations. -/
def tetExample {K : Type} [Field K] : TetGeom K where
  map := ⟨(1, 0, 0), (3, 0, 0), (1, 4, 0), (1, 0, 1), (1 / 2, 0, 0), (0, 1 / 4, 0), (0, 0, 1)⟩
  edges := [(1, 0), (2, 1), (2, 0), (3, 0), (3, 1), (3, 2)]
  dirs := [true, false, true, true, false, false]
  faces := [⟨[2, 1, 0], [1, 0, 2], 3, [true, false, true], ⟨1, 0, 0, 1, 1, 0, 0, 1, 0, 0⟩, (2, -4, 0), (0, -4, 0), (1, 4, 0)⟩,
            ⟨[3, 0, 1], [3, 0, 4], 3, [true, false, true], ⟨1, 0, 0, 1, 1, 0, 0, 1, 0, 0⟩, (0, 0, -1), (2, 0, -1), (1, 0, 1)⟩,
            ⟨[1, 2, 3], [1, 5, 4], 3, [false, false, true], ⟨1, 0, 0, 1, 1, 0, 0, 1, 0, 0⟩, (-2, 4, 0), (-2, 0, 1), (3, 0, 0)⟩,
            ⟨[0, 3, 2], [3, 5, 2], 3, [true, true, true], ⟨1, 0, 0, 1, 1, 0, 0, 1, 0, 0⟩, (0, 0, 1), (0, 4, 0), (1, 0, 0)⟩]

theorem tetExample_face {K : Type} [Field K] {g : TetGeom K} {f : TetFace K} {a b c e0 e1 e2 : Nat} (hf : f.vertices = [a, b, c]) (ha : a < 4 ∧ b < 4 ∧ c < 4) (hd : a ≠ b ∧ b ≠ c ∧ a ≠ c)
    (he : f.edges = [e0, e1, e2]) (h0 : Joins g.edges e0 a b) (h1 : Joins g.edges e1 b c) (h2 : Joins g.edges e2 c a)
    (hm : f.map = ⟨1, 0, 0, 1, 1, 0, 0, 1, 0, 0⟩) (hn : f.nv = 3) (hdir : f.dirs.length = 3)
    (hA : f.shift = tetVertex g.map a) (hB : f.r0 = tetVertex g.map b - tetVertex g.map a)
    (hC : f.r1 = tetVertex g.map c - tetVertex g.map a) : TetFaceOk g.map g.edges f a b c where
  vertices := hf
  range := ha
  different := hd
  edges := ⟨e0, e1, e2, he, h0, h1, h2⟩
  number := hn
  dirs := hdir
  plane0 := by rw [hm, hA]; simp [triVertex, refVertex]
  plane1 := by rw [hm, hA, hB]; simp [triVertex, refVertex]
  plane2 := by rw [hm, hA, hC]; simp [triVertex, refVertex]

theorem tetExample_ok {K : Type} [Field K] [CharZero K] : TetMeshOk (tetExample (K := K)) where
  inverse := by norm_num [IsInverse3, inner3, tetExample]
  edges := by simp [TetEdgesOk, tetExample]
  dirs := rfl
  number := rfl
  faces := by
    intro f hf
    simp only [tetExample, List.mem_cons, List.not_mem_nil, or_false] at hf
    rcases hf with rfl | rfl | rfl | rfl
    · exact ⟨2, 1, 0, tetExample_face rfl (by decide) (by decide) rfl (by simp [Joins, tetExample]) (by simp [Joins, tetExample])
        (by simp [Joins, tetExample]) rfl rfl rfl rfl (by norm_num [tetVertex, tetExample]) (by norm_num [tetVertex, tetExample])⟩
    · exact ⟨3, 0, 1, tetExample_face rfl (by decide) (by decide) rfl (by simp [Joins, tetExample]) (by simp [Joins, tetExample])
        (by simp [Joins, tetExample]) rfl rfl rfl rfl (by norm_num [tetVertex, tetExample]) (by norm_num [tetVertex, tetExample])⟩
    · exact ⟨1, 2, 3, tetExample_face rfl (by decide) (by decide) rfl (by simp [Joins, tetExample]) (by simp [Joins, tetExample])
        (by simp [Joins, tetExample]) rfl rfl rfl rfl (by norm_num [tetVertex, tetExample]) (by norm_num [tetVertex, tetExample])⟩
    · exact ⟨0, 3, 2, tetExample_face rfl (by decide) (by decide) rfl (by simp [Joins, tetExample]) (by simp [Joins, tetExample])
        (by simp [Joins, tetExample]) rfl rfl rfl rfl (by norm_num [tetVertex, tetExample]) (by norm_num [tetVertex, tetExample])⟩
  different := by simp [tetExample]

section
variable {K : Type} [Field K] [CharZero K] [DecidableEq K]

/-! ## C44 -/

/-- **C44, creation.** For a nondegenerate tetrahedron, with edges and faces numbered and directed in any way, the local space exists and
the DOF order is a permutation of all the local DOFs, which fixes the vertices and the interior DOFs. -/
theorem C44_permutation (k : Nat) (hk : 1 ≤ k) (d : TetData K) (hd : tetCreate K k = .ok d) (g : TetGeom K) (hg : TetMeshOk g) :
    ∃ s, tetSpace d g = .ok s ∧ s.ref = d ∧ s.map = g.map ∧ s.order.Perm (List.range d.numBasis) ∧ (∀ v : Nat, v < 4 → s.order[v]? = some v) ∧
      ∀ c : Nat, 4 + 6 * d.num1D + 4 * d.num2D ≤ c → c < d.numBasis → s.order[c]? = some c := by
  obtain ⟨k, rfl⟩ : ∃ m, k = m + 1 := ⟨k - 1, by omega⟩
  rw [tetCreate_ok] at hd
  injection hd with hd
  subst hd
  obtain ⟨s, hs, hr, hm, hp, -, hv, -, -, hi⟩ := tetSpace_ok k hg
  refine ⟨s, hs, hr, hm, hp, hv, fun c h1 h2 => ?_⟩
  obtain ⟨j, rfl⟩ := Nat.exists_eq_add_of_le h1
  apply hi j
  have h2 : 4 + 6 * k + 4 * tri (k - 1) + j < tet (k + 2) := h2
  rw [← tet_count] at h2
  omega

example : ∃ d s, tetCreate ℚ 5 = .ok d ∧ tetSpace d tetExample = .ok s ∧ s.order.Perm (List.range 56) := by
  obtain ⟨s, hs, -, -, hp, -⟩ := C44_permutation (K := ℚ) 5 (by norm_num) _ (tetCreate_ok 4) tetExample tetExample_ok
  exact ⟨_, s, tetCreate_ok 4, hs, hp⟩

/-- **C44, vertices.** DOF `v < 4` is vertex `v`. -/
theorem C44_vertices (k : Nat) (hk : 1 ≤ k) (d : TetData K) (hd : tetCreate K k = .ok d) (g : TetGeom K) (hg : TetMeshOk g) (s : TetSpace K)
    (hs : tetSpace d g = .ok s) (v : Nat) (hv : v < 4) : tetDof s v = .ok (tetVertex g.map v) := by
  obtain ⟨k, rfl⟩ : ∃ m, k = m + 1 := ⟨k - 1, by omega⟩
  rw [tetCreate_ok] at hd
  injection hd with hd
  subst hd
  obtain ⟨s', hs', hr, hm, hp, -, hvx, -⟩ := tetSpace_ok k hg
  rw [hs] at hs'
  injection hs' with hs'
  subst hs'
  obtain ⟨t, ht, hdof, -⟩ := tetSpace_dof hr hm hp (hvx v hv)
  rw [hdof, tetF_pos _ (tetTypes_sum ht)]
  have hk0 : ((k + 1 : Nat) : K) ≠ 0 := Nat.cast_ne_zero.2 (by omega)
  congr 1
  have : t = (if v = 0 then (k + 1, 0, 0, 0) else if v = 1 then (0, k + 1, 0, 0) else if v = 2 then (0, 0, k + 1, 0) else (0, 0, 0, k + 1)) := by
    interval_cases v <;> exact (Option.some.inj ht).symm
  subst this
  interval_cases v <;> simp only [combV, tetVertex] <;> simp only [Nat.cast_zero, zero_div, zero_smul, zero_add, add_zero, if_true, if_false,
    OfNat.ofNat_ne_zero, OfNat.ofNat_ne_one, one_ne_zero, div_self hk0, one_smul, reduceIte, reduceCtorEq, Nat.reduceEqDiff]

/-- **C44, edges.** The `j`-th DOF of edge `e` is at parameter `(j + 1) / k` of the edge in the direction stored by the mesh, whatever
vertex pair and direction flag the cell uses for the edge. -/
theorem C44_edge_points (k : Nat) (hk : 1 ≤ k) (d : TetData K) (hd : tetCreate K k = .ok d) (g : TetGeom K) (hg : TetMeshOk g) (s : TetSpace K)
    (hs : tetSpace d g = .ok s) (e j : Nat) (edge : Nat × Nat) (dir : Bool) (he : g.edges[e]? = some edge) (hdir : g.dirs[e]? = some dir)
    (hj : j < k - 1) :
    tetDof s (4 + e * (k - 1) + j) = .ok (segPoint3 (tetMeshEdge g.map edge dir).1 (tetMeshEdge g.map edge dir).2 (((j + 1 : Nat) : K) / (k : K))) := by
  obtain ⟨k, rfl⟩ : ∃ m, k = m + 1 := ⟨k - 1, by omega⟩
  rw [tetCreate_ok] at hd
  injection hd with hd
  subst hd
  obtain ⟨s', hs', hr, hm, hp, -, -, hed, -⟩ := tetSpace_ok k hg
  rw [hs] at hs'
  injection hs' with hs'
  subst hs'
  rw [Nat.add_sub_cancel] at hj ⊢
  have he6 : e < 6 := by
    rw [← hg.edges.1]
    exact (List.getElem?_eq_some_iff.1 he).1
  have hk0 : ((k + 1 : Nat) : K) ≠ 0 := Nat.cast_ne_zero.2 (by omega)
  obtain ⟨t, ht, hdof, -⟩ := tetSpace_dof hr hm hp (hed e j he6 hj)
  rw [hdof, tetF_pos _ (tetTypes_sum ht)]
  congr 1
  have hdir' : g.dirs.getD e true = dir := by simp [hdir]
  have hedge : edgeRef g.edges e = (edgeNo edge.1 edge.2, edgeFwd edge.1 edge.2) := by simp [edgeRef, he]
  obtain ⟨-, h1, h2, h3⟩ := edges_getD hg.edges he6
  rw [show g.edges.getD e (0, 0) = edge by simp [he]] at h1 h2 h3
  rw [hdir', hedge] at ht
  dsimp only at ht
  obtain ⟨d', hd', -, -, -, -, -, -, -, -, -, -, -, -, -, hedg, -⟩ := C41_layout (K := K) (k + 1) hk
  rw [tetCreate_ok] at hd'
  injection hd' with hd'
  subst hd'
  have hends := edge_ends h1 h2 h3
  obtain ⟨a, b⟩ := edge
  dsimp only at h1 h2 h3 ht hends
  have hlt : (if dir = edgeFwd a b then j else k - 1 - j) < (tetRef K k).num1D := by
    show _ < k
    split_ifs <;> omega
  obtain ⟨t', ht', hw1, hw2⟩ := hedg (edgeNo a b) _ (if edgeFwd a b then a else b) (if edgeFwd a b then b else a) (by rw [hends]; split_ifs <;> rfl) hlt
  rw [show (tetRef K k).num1D = k from rfl, show (tetRef K k).types = tetTypes k from rfl, ht] at ht'
  injection ht' with ht'
  subst ht'
  have hsum := tetTypes_sum ht
  have hw : tetWeight t (if dir then a else b) = k + 1 - (j + 1) ∧ tetWeight t (if dir then b else a) = j + 1 := by
    clear hdof hsum hdir hdir'
    generalize edgeFwd a b = fwd at hw1 hw2
    cases dir <;> cases fwd <;> simp at hw1 hw2 ⊢ <;> rw [hw1, hw2] <;> omega
  clear hw1 hw2 ht hends hlt
  have hc : ((k + 1 - (j + 1) : Nat) : K) = ((k + 1 : Nat) : K) - ((j + 1 : Nat) : K) := by
    rw [Nat.cast_sub (by omega)]
  obtain ⟨t0, t1, t2, t3⟩ := t
  have key : ∀ x y : Nat, x < 4 → y < 4 → x ≠ y → tetWeight (t0, t1, t2, t3) x = k + 1 - (j + 1) → tetWeight (t0, t1, t2, t3) y = j + 1 →
      combV g.map ((t0 : K) / ((k + 1 : Nat) : K)) ((t1 : K) / ((k + 1 : Nat) : K)) ((t2 : K) / ((k + 1 : Nat) : K)) ((t3 : K) / ((k + 1 : Nat) : K)) =
        segPoint3 (tetVertex g.map x) (tetVertex g.map y) (((j + 1 : Nat) : K) / ((k + 1 : Nat) : K)) := by
    intro x y hx hy hxy e1 e2
    have hone : 1 - ((j + 1 : Nat) : K) / ((k + 1 : Nat) : K) = ((k + 1 - (j + 1) : Nat) : K) / ((k + 1 : Nat) : K) := by
      rw [hc, sub_div, div_self hk0]
    unfold segPoint3
    rw [hone, ← e1, ← e2]
    unfold tetWeight at e1 e2 ⊢
    unfold combV tetVertex
    dsimp only at hsum e1 e2 ⊢
    interval_cases x <;> interval_cases y <;> first
      | exact absurd rfl hxy
      | (simp only [reduceIte, reduceCtorEq, OfNat.ofNat_ne_zero, OfNat.ofNat_ne_one, one_ne_zero, zero_ne_one, OfNat.zero_ne_ofNat,
          OfNat.one_ne_ofNat, Nat.reduceEqDiff] at e1 e2 ⊢
         first
          | rw [show t2 = 0 by omega, show t3 = 0 by omega, Nat.cast_zero, zero_div]; module
          | rw [show t1 = 0 by omega, show t3 = 0 by omega, Nat.cast_zero, zero_div]; module
          | rw [show t1 = 0 by omega, show t2 = 0 by omega, Nat.cast_zero, zero_div]; module
          | rw [show t0 = 0 by omega, show t3 = 0 by omega, Nat.cast_zero, zero_div]; module
          | rw [show t0 = 0 by omega, show t2 = 0 by omega, Nat.cast_zero, zero_div]; module
          | rw [show t0 = 0 by omega, show t1 = 0 by omega, Nat.cast_zero, zero_div]; module)
  unfold tetMeshEdge
  cases dir
  · exact key b a h2 h1 h3.symm hw.1 hw.2
  · exact key a b h1 h2 h3 hw.1 hw.2

/-- Edge 4 of the example is stored from vertex 3 to vertex 1 with a false flag, so its first DOF is near vertex 1. -/
example : ∃ d s, tetCreate ℚ 4 = .ok d ∧ tetSpace d tetExample = .ok s ∧ tetDof s (4 + 4 * 3 + 0) = .ok (segPoint3 (3, 0, 0) (1, 0, 1) (1 / 4)) := by
  obtain ⟨s, hs, -⟩ := C44_permutation (K := ℚ) 4 (by norm_num) _ (tetCreate_ok 3) tetExample tetExample_ok
  refine ⟨_, s, tetCreate_ok 3, hs, ?_⟩
  have := C44_edge_points 4 (by norm_num) _ (tetCreate_ok 3) tetExample tetExample_ok s hs 4 0 (3, 1) false rfl rfl (by norm_num)
  rw [show 4 + 4 * (4 - 1) + 0 = 4 + 4 * 3 + 0 from rfl] at this
  rw [this]
  norm_num [tetMeshEdge, tetVertex, tetExample]

/-- **C44, neighbours.** Two tetrahedra that see the same mesh edge place its `j`-th DOF at the same point. -/
theorem C44_neighbours (k : Nat) (hk : 1 ≤ k) (d : TetData K) (hd : tetCreate K k = .ok d) (g g' : TetGeom K) (hg : TetMeshOk g) (hg' : TetMeshOk g')
    (s s' : TetSpace K) (hs : tetSpace d g = .ok s) (hs' : tetSpace d g' = .ok s') (e e' j : Nat) (edge edge' : Nat × Nat) (dir dir' : Bool)
    (he : g.edges[e]? = some edge) (hdir : g.dirs[e]? = some dir) (he' : g'.edges[e']? = some edge') (hdir' : g'.dirs[e']? = some dir')
    (hshared : tetMeshEdge g.map edge dir = tetMeshEdge g'.map edge' dir') (hj : j < k - 1) :
    ∃ P, tetDof s (4 + e * (k - 1) + j) = .ok P ∧ tetDof s' (4 + e' * (k - 1) + j) = .ok P := by
  refine ⟨_, C44_edge_points k hk d hd g hg s hs e j edge dir he hdir hj, ?_⟩
  rw [C44_edge_points k hk d hd g' hg' s' hs' e' j edge' dir' he' hdir' hj, hshared]

/-- **C44, values.** The mapped basis function `i` is `1` at DOF point `i` and `0` at the others. -/
theorem C44_values_order (k : Nat) (hk : 1 ≤ k) (d : TetData K) (hd : tetCreate K k = .ok d) (g : TetGeom K) (hg : TetMeshOk g) (s : TetSpace K)
    (hs : tetSpace d g = .ok s) (i j : Nat) (hi : i < d.numBasis) (hj : j < d.numBasis) :
    ∃ P, tetDof s j = .ok P ∧ tetPhysValue s P i = .ok (if i = j then 1 else 0) := by
  obtain ⟨k, rfl⟩ : ∃ m, k = m + 1 := ⟨k - 1, by omega⟩
  rw [tetCreate_ok] at hd
  injection hd with hd
  subst hd
  obtain ⟨s', hs', hr, hm, hp, -⟩ := tetSpace_ok k hg
  rw [hs] at hs'
  injection hs' with hs'
  subst hs'
  obtain ⟨i', hi'⟩ := order_get hp hi
  obtain ⟨j', hj'⟩ := order_get hp hj
  obtain ⟨t, ht, -, hval⟩ := tetSpace_dof hr hm hp hi'
  obtain ⟨t', ht', hdof, -⟩ := tetSpace_dof hr hm hp hj'
  refine ⟨_, hdof, ?_⟩
  rw [hval, tetFInv_tetF hg.inverse, tetPhi_nodal k t t' (tetTypes_sum ht) (tetTypes_sum ht')]
  congr 1
  have hn : s.order.Nodup := hp.nodup_iff.2 List.nodup_range
  have key : t = t' ↔ i = j := by
    constructor
    · rintro rfl
      obtain ⟨h1, h2⟩ := List.getElem?_eq_some_iff.1 ht
      obtain ⟨h3, h4⟩ := List.getElem?_eq_some_iff.1 ht'
      obtain rfl := (List.Nodup.getElem_inj_iff (tetTypes_nodup k)).1 (h2.trans h4.symm)
      rw [hi'] at hj'
      exact Option.some.inj hj'
    · rintro rfl
      obtain ⟨h1, h2⟩ := List.getElem?_eq_some_iff.1 hi'
      obtain ⟨h3, h4⟩ := List.getElem?_eq_some_iff.1 hj'
      obtain rfl := (List.Nodup.getElem_inj_iff hn).1 (h2.trans h4.symm)
      rw [ht] at ht'
      exact Option.some.inj ht'
  simp [key]

/-! ## C59 -/

/-- **C59, face points.** The `j`-th DOF of face `f` in the cell is the point where the two-dimensional element of that face has its `j`-th
interior DOF; it is the affine combination of the face's vertices with positive lattice weights that depend on `k` and `j` only, not on the cell. -/
theorem C59_face_points (k : Nat) (hk : 1 ≤ k) (d : TetData K) (hd : tetCreate K k = .ok d) (b : TriData K) (hb : triCreate K k = .ok b)
    (j : Nat) (hj : j < d.num2D) :
    ∃ w : Nat × Nat × Nat, (w.1 + w.2.1 + w.2.2 = k ∧ 0 < w.1 ∧ 0 < w.2.1 ∧ 0 < w.2.2) ∧
      ∀ (g : TetGeom K) (s : TetSpace K) (f : Nat) (face : TetFace K) (a a' a'' : Nat), TetMeshOk g → tetSpace d g = .ok s →
        g.faces[f]? = some face → TetFaceOk g.map g.edges face a a' a'' →
        ∃ fs P, triSpace b 3 face.dirs face.map = .ok fs ∧ triDof fs (3 + 3 * (k - 1) + j) = .ok P ∧
          tetDof s (4 + 6 * (k - 1) + f * d.num2D + j) = .ok (liftPoint face P) ∧
          liftPoint face P = facePoint (tetVertex g.map a) (tetVertex g.map a') (tetVertex g.map a'') ((w.2.1 : K) / (k : K), (w.2.2 : K) / (k : K)) := by
  obtain ⟨k, rfl⟩ : ∃ m, k = m + 1 := ⟨k - 1, by omega⟩
  rw [tetCreate_ok] at hd
  injection hd with hd
  subst hd
  rw [triCreate_ok] at hb
  injection hb with hb
  change triRef K k = b at hb
  subst hb
  have hj : j < tri (k - 1) := hj
  obtain ⟨w, hw, hsum, h0, h1, h2⟩ := triTypes_inner hj
  refine ⟨w, ⟨hsum, h0, h1, h2⟩, fun g s f face a a' a'' hg hs hf hok => ?_⟩
  obtain ⟨s', hs', hr, hm, hp, -, -, -, hfa, -⟩ := tetSpace_ok k hg
  rw [hs] at hs'
  injection hs' with hs'
  subst hs'
  have h3 : Three a a' a'' := ⟨hok.range, hok.different⟩
  obtain ⟨t, ht, hdof, -⟩ := tetSpace_dof hr hm hp (hfa f face a a' a'' j hf hok hj)
  obtain ⟨w', hw', -, hg'⟩ := faceIdx_get (k := k) h3 hj
  rw [hw] at hw'
  injection hw' with hw'
  subst hw'
  have h4 : faceNo a a' a'' < 4 := (face_tables h3.1.1 h3.1.2.1 h3.1.2.2 h3.2.1 h3.2.2.1 h3.2.2.2).2.2.1
  have h5 := faceTypes_get h4 hg'
  rw [show 4 + 6 * k + faceNo a a' a'' * tri (k - 1) + faceIdx k a a' a'' (3 + 3 * k + j) =
    4 + k * 6 + tri (k - 1) * faceNo a a' a'' + faceIdx k a a' a'' (3 + 3 * k + j) by ring, ht] at h5
  injection h5 with h5
  subst h5
  refine ⟨_, _, triSpace_ok k _ (by rw [hok.dirs]) _, faceSpace_inner face hj hw, ?_, ?_⟩
  · rw [show (tetRef K k).num2D = tri (k - 1) from rfl, show k + 1 - 1 = k from rfl, hdof]
    congr 1
    exact (face_point hok hsum).symm
  · exact (lift_affine hok _).trans (by unfold facePoint; simp only [mul_one_div])

example : ∃ d b s, tetCreate ℚ 4 = .ok d ∧ triCreate ℚ 4 = .ok b ∧ 2 < d.num2D ∧ tetSpace d tetExample = .ok s := by
  obtain ⟨s, hs, -⟩ := C44_permutation (K := ℚ) 4 (by norm_num) _ (tetCreate_ok 3) tetExample tetExample_ok
  exact ⟨_, _, s, tetCreate_ok 3, triCreate_ok ℚ 3, by decide, hs⟩

/-- **C59, neighbours.** Two tetrahedra that share a face and list its vertices in the same order place its `j`-th DOF at the same point,
whatever their local face numbers and plane coordinates. -/
theorem C59_neighbours (k : Nat) (hk : 1 ≤ k) (d : TetData K) (hd : tetCreate K k = .ok d) (g g' : TetGeom K) (hg : TetMeshOk g) (hg' : TetMeshOk g')
    (s s' : TetSpace K) (hs : tetSpace d g = .ok s) (hs' : tetSpace d g' = .ok s') (f f' j : Nat) (face face' : TetFace K) (a b c a' b' c' : Nat)
    (hf : g.faces[f]? = some face) (hf' : g'.faces[f']? = some face') (hok : TetFaceOk g.map g.edges face a b c)
    (hok' : TetFaceOk g'.map g'.edges face' a' b' c') (ha : tetVertex g.map a = tetVertex g'.map a') (hb : tetVertex g.map b = tetVertex g'.map b')
    (hc : tetVertex g.map c = tetVertex g'.map c') (hj : j < d.num2D) :
    ∃ P, tetDof s (4 + 6 * (k - 1) + f * d.num2D + j) = .ok P ∧ tetDof s' (4 + 6 * (k - 1) + f' * d.num2D + j) = .ok P := by
  obtain ⟨bd, hbd⟩ : ∃ b, triCreate K k = .ok b := by
    obtain ⟨m, rfl⟩ : ∃ m, k = m + 1 := ⟨k - 1, by omega⟩
    exact ⟨_, triCreate_ok K m⟩
  obtain ⟨w, -, hall⟩ := C59_face_points k hk d hd bd hbd j hj
  obtain ⟨-, P, -, -, h1, h2⟩ := hall g s f face a b c hg hs hf hok
  obtain ⟨-, P', -, -, h1', h2'⟩ := hall g' s' f' face' a' b' c' hg' hs' hf' hok'
  refine ⟨_, h1, ?_⟩
  rw [h1', h2, h2', ha, hb, hc]

/-- The tetrahedron on the other side of face 1 (vertices 3, 0, 1) of the example: its local vertices are numbered differently. -/
def tetExample' : TetGeom ℚ where
  map := ⟨(1, 0, 0), (1, 0, 1), (3, 0, 0), (1, -2, 0), (0, 0, 1), (1 / 2, 0, 0), (0, -1 / 2, 0)⟩
  edges := [(0, 1), (1, 2), (2, 0), (0, 3), (3, 1), (3, 2)]
  dirs := [true, true, true, true, true, true]
  faces := [⟨[1, 0, 2], [0, 2, 1], 3, [true, false, true], ⟨1, 0, 0, 1, 1, 0, 0, 1, 0, 0⟩, (0, 0, -1), (2, 0, -1), (1, 0, 1)⟩,
            ⟨[0, 1, 3], [0, 4, 3], 3, [true, false, true], ⟨1, 0, 0, 1, 1, 0, 0, 1, 0, 0⟩, (0, 0, 1), (0, -2, 0), (1, 0, 0)⟩,
            ⟨[0, 2, 3], [2, 5, 3], 3, [false, false, true], ⟨1, 0, 0, 1, 1, 0, 0, 1, 0, 0⟩, (2, 0, 0), (0, -2, 0), (1, 0, 0)⟩,
            ⟨[1, 2, 3], [1, 5, 4], 3, [true, true, true], ⟨1, 0, 0, 1, 1, 0, 0, 1, 0, 0⟩, (2, 0, -1), (0, -2, -1), (1, 0, 1)⟩]

theorem tetExample'_ok : TetMeshOk tetExample' where
  inverse := by norm_num [IsInverse3, inner3, tetExample']
  edges := by simp [TetEdgesOk, tetExample']
  dirs := rfl
  number := rfl
  faces := by
    intro f hf
    simp only [tetExample', List.mem_cons, List.not_mem_nil, or_false] at hf
    rcases hf with rfl | rfl | rfl | rfl
    · exact ⟨1, 0, 2, tetExample_face rfl (by decide) (by decide) rfl (by simp [Joins, tetExample']) (by simp [Joins, tetExample'])
        (by simp [Joins, tetExample']) rfl rfl rfl rfl (by norm_num [tetVertex, tetExample']) (by norm_num [tetVertex, tetExample'])⟩
    · exact ⟨0, 1, 3, tetExample_face rfl (by decide) (by decide) rfl (by simp [Joins, tetExample']) (by simp [Joins, tetExample'])
        (by simp [Joins, tetExample']) rfl rfl rfl rfl (by norm_num [tetVertex, tetExample']) (by norm_num [tetVertex, tetExample'])⟩
    · exact ⟨0, 2, 3, tetExample_face rfl (by decide) (by decide) rfl (by simp [Joins, tetExample']) (by simp [Joins, tetExample'])
        (by simp [Joins, tetExample']) rfl rfl rfl rfl (by norm_num [tetVertex, tetExample']) (by norm_num [tetVertex, tetExample'])⟩
    · exact ⟨1, 2, 3, tetExample_face rfl (by decide) (by decide) rfl (by simp [Joins, tetExample']) (by simp [Joins, tetExample'])
        (by simp [Joins, tetExample']) rfl rfl rfl rfl (by norm_num [tetVertex, tetExample']) (by norm_num [tetVertex, tetExample'])⟩
  different := by simp [tetExample']

example : tetVertex (tetExample (K := ℚ)).map 3 = tetVertex tetExample'.map 1 ∧ tetVertex (tetExample (K := ℚ)).map 0 = tetVertex tetExample'.map 0 ∧
    tetVertex (tetExample (K := ℚ)).map 1 = tetVertex tetExample'.map 2 := by
  norm_num [tetVertex, tetExample, tetExample']

/-! ## C60 -/

/-- **C60, traces.** Let `face` be a face of the cell with nondegenerate plane triangle. At every point of the face the values of the 3D
basis functions whose DOF lies on the face are those of the two-dimensional element of the face for the DOF at the same point,
which is what the routine for values on faces returns. -/
theorem C60_trace (k : Nat) (hk : 1 ≤ k) (d : TetData K) (hd : tetCreate K k = .ok d) (g : TetGeom K) (hg : TetMeshOk g)
    (s : TetSpace K) (hs : tetSpace d g = .ok s) (f : Nat) (face : TetFace K) (hf : g.faces[f]? = some face) (hinv : IsInverse face.map)
    (fs : TriSpace K) (hfs : triSpace d.boundary 3 face.dirs face.map = .ok fs) (c c' : Nat) (hc : c < d.numBasis) (P : K × K)
    (hP : triDof fs c' = .ok P) (hcP : tetDof s c = .ok (liftPoint face P)) (p : K × K) :
    ∃ v, tetPhysValue s (liftPoint face p) c = .ok v ∧ triPhysValue fs p c' = .ok v ∧ tetOnFace s f p c' = .ok v := by
  obtain ⟨k, rfl⟩ : ∃ m, k = m + 1 := ⟨k - 1, by omega⟩
  rw [tetCreate_ok] at hd
  injection hd with hd
  subst hd
  obtain ⟨s', hs', hr, hm, hp, hfaces, -⟩ := tetSpace_ok k hg
  rw [hs] at hs'
  injection hs' with hs'
  subst hs'
  obtain ⟨a, b, e, hok⟩ := hg.faces face (List.mem_of_getElem? hf)
  have h3 : Three a b e := ⟨hok.range, hok.different⟩
  obtain ⟨o, ho⟩ := h3.opp
  have hfs : triSpace (triRef K k) 3 face.dirs face.map = .ok fs := hfs
  rw [triSpace_ok k _ (by rw [hok.dirs])] at hfs
  injection hfs with hfs
  change faceSpace K k face = fs at hfs
  subst hfs
  unfold triDof at hP
  obtain ⟨i', hi', hP⟩ := (bind_ok_iff _ _ _).1 hP
  obtain ⟨pos, hpos, hP⟩ := (bind_ok_iff _ _ _).1 hP
  injection hP with hP
  have hpos := (unchecked_ok_iff _ _ _).1 hpos
  have hl : i' < (triTypes k).length := by
    have := (List.getElem?_eq_some_iff.1 hpos).1
    have h2 : (faceSpace K k face).ref.positions.length = (triTypes k).length := List.length_map _
    omega
  obtain ⟨w, hw⟩ : ∃ w, (triTypes k)[i']? = some w := ⟨_, List.getElem?_eq_getElem hl⟩
  have hws := triTypes_sum hw
  rw [show (faceSpace K k face).ref.positions = (triRef K k).positions from rfl, triPos_get hw] at hpos
  injection hpos with hpos
  subst hpos
  subst hP
  obtain ⟨i, hi⟩ := order_get hp hc
  obtain ⟨t, ht, hdof, hval⟩ := tetSpace_dof hr hm hp hi
  rw [hcP] at hdof
  injection hdof with hdof
  have hlift : t = liftType a b e w := by
    have h1 : liftPoint face _ = _ := face_point hok hws
    have h2 := tetF_inj hg.inverse (hdof.symm.trans h1)
    exact tetPos_inj (tetTypes_sum ht) ((liftType_sum h3.1.1 h3.1.2.1 h3.1.2.2 h3.2.1 h3.2.2.1 h3.2.2.2 w).trans hws) h2
  obtain ⟨w1, w2, w3, w4⟩ := liftType_three h3 w
  have e1 : tetPhysValue s (liftPoint face p) c = .ok (triPhi ((k + 1 : Nat) : K) w (triFInv face.map p).1 (triFInv face.map p).2) := by
    rw [hval]
    congr 1
    have h4 : liftPoint face p = _ := (congrArg (faceLift face) (triF_FInv hinv p)).symm.trans (lift_affine hok _)
    rw [h4, tetPhi_face hg.inverse h3 ho, hlift, w4 o ho.1 ho.2.1 ho.2.2.1 ho.2.2.2, if_pos rfl, w1, w2, w3]
  have e2 : triPhysValue (faceSpace K k face) p c' = .ok (triPhi ((k + 1 : Nat) : K) w (triFInv face.map p).1 (triFInv face.map p).2) := by
    unfold triPhysValue
    rw [hi', except_ok_bind]
    exact triValue_ok hw _ _
  refine ⟨_, e1, e2, ?_⟩
  unfold tetOnFace
  rw [(unchecked_ok_iff _ _ _).2 (hfaces f face hf), except_ok_bind, e2]

/-- **C60, zero traces.** A basis function whose DOF is not a point of the face vanishes on the face. -/
theorem C60_zero (k : Nat) (hk : 1 ≤ k) (d : TetData K) (hd : tetCreate K k = .ok d) (g : TetGeom K) (hg : TetMeshOk g)
    (s : TetSpace K) (hs : tetSpace d g = .ok s) (f : Nat) (face : TetFace K) (hf : g.faces[f]? = some face) (hinv : IsInverse face.map)
    (c : Nat) (hc : c < d.numBasis) (hcP : ∀ P, tetDof s c ≠ .ok (liftPoint face P)) (p : K × K) : tetPhysValue s (liftPoint face p) c = .ok 0 := by
  obtain ⟨k, rfl⟩ : ∃ m, k = m + 1 := ⟨k - 1, by omega⟩
  rw [tetCreate_ok] at hd
  injection hd with hd
  subst hd
  obtain ⟨s', hs', hr, hm, hp, hfaces, -⟩ := tetSpace_ok k hg
  rw [hs] at hs'
  injection hs' with hs'
  subst hs'
  obtain ⟨a, b, e, hok⟩ := hg.faces face (List.mem_of_getElem? hf)
  have h3 : Three a b e := ⟨hok.range, hok.different⟩
  obtain ⟨o, ho⟩ := h3.opp
  obtain ⟨i, hi⟩ := order_get hp hc
  obtain ⟨t, ht, hdof, hval⟩ := tetSpace_dof hr hm hp hi
  have h4 : liftPoint face p = _ := (congrArg (faceLift face) (triF_FInv hinv p)).symm.trans (lift_affine hok _)
  rw [hval, h4, tetPhi_face hg.inverse h3 ho, if_neg]
  intro h0
  have hl := liftType_of_zero h3 ho t h0
  have hsum := tetTypes_sum ht
  rw [hl, liftType_sum h3.1.1 h3.1.2.1 h3.1.2.2 h3.2.1 h3.2.2.1 h3.2.2.2] at hsum
  apply hcP (triF face.map ((tetWeight t b : K) * (1 / ((k + 1 : Nat) : K)), (tetWeight t e : K) * (1 / ((k + 1 : Nat) : K))))
  rw [hdof]
  congr 1
  have := face_point hok hsum
  rw [← hl] at this
  exact this.symm

/-- **C60, neighbours.** Two tetrahedra that share a face, listing its vertices in the same order: basis functions whose DOFs are the same
point of the face agree at every point of the face, so functions with equal DOFs on the face are continuous across it. -/
theorem C60_neighbours (k : Nat) (hk : 1 ≤ k) (d : TetData K) (hd : tetCreate K k = .ok d) (g g' : TetGeom K) (hg : TetMeshOk g) (hg' : TetMeshOk g')
    (s s' : TetSpace K) (hs : tetSpace d g = .ok s) (hs' : tetSpace d g' = .ok s') (A B C : K × K × K) (a b e a' b' e' : Nat)
    (h : a < 4 ∧ b < 4 ∧ e < 4) (hne : a ≠ b ∧ b ≠ e ∧ a ≠ e) (h' : a' < 4 ∧ b' < 4 ∧ e' < 4) (hne' : a' ≠ b' ∧ b' ≠ e' ∧ a' ≠ e')
    (hA : tetVertex g.map a = A) (hB : tetVertex g.map b = B) (hC : tetVertex g.map e = C) (hA' : tetVertex g'.map a' = A)
    (hB' : tetVertex g'.map b' = B) (hC' : tetVertex g'.map e' = C) (c c' : Nat) (hc : c < d.numBasis) (hc' : c' < d.numBasis) (Q : K × K)
    (hQ : tetDof s c = .ok (facePoint A B C Q)) (hQ' : tetDof s' c' = .ok (facePoint A B C Q)) (q : K × K) :
    ∃ v, tetPhysValue s (facePoint A B C q) c = .ok v ∧ tetPhysValue s' (facePoint A B C q) c' = .ok v := by
  obtain ⟨k, rfl⟩ : ∃ m, k = m + 1 := ⟨k - 1, by omega⟩
  rw [tetCreate_ok] at hd
  injection hd with hd
  subst hd
  have key : ∀ (g : TetGeom K) (s : TetSpace K) (a b e c : Nat), TetMeshOk g → tetSpace (tetRef K k) g = .ok s → (a < 4 ∧ b < 4 ∧ e < 4) →
      (a ≠ b ∧ b ≠ e ∧ a ≠ e) → tetVertex g.map a = A → tetVertex g.map b = B → tetVertex g.map e = C → c < tet (k + 2) →
      tetDof s c = .ok (facePoint A B C Q) →
      ∃ w : TriType, (w.2.1 : K) / ((k + 1 : Nat) : K) = Q.1 ∧ (w.2.2 : K) / ((k + 1 : Nat) : K) = Q.2 ∧ w.1 + w.2.1 + w.2.2 = k + 1 ∧
        tetPhysValue s (facePoint A B C q) c = .ok (triPhi ((k + 1 : Nat) : K) w q.1 q.2) := by
    intro g s a b e c hg hs h hne hA hB hC hc hQ
    obtain ⟨s', hs', hr, hm, hp, -⟩ := tetSpace_ok k hg
    rw [hs] at hs'
    injection hs' with hs'
    subst hs'
    have h3 : Three a b e := ⟨h, hne⟩
    obtain ⟨o, ho⟩ := h3.opp
    obtain ⟨i, hi⟩ := order_get hp hc
    obtain ⟨t, ht, hdof, hval⟩ := tetSpace_dof hr hm hp hi
    have hsum := tetTypes_sum ht
    have hk0 : ((k + 1 : Nat) : K) ≠ 0 := Nat.cast_ne_zero.2 (by omega)
    rw [hQ] at hdof
    injection hdof with hdof
    obtain ⟨y, hy, hw⟩ := face_bary hg.inverse h3 Q
    have hy' : y = tetPos K (k + 1) t := by
      rw [← hy, hA, hB, hC]
      have : (1 - Q.1 - Q.2) • A + Q.1 • B + Q.2 • C = facePoint A B C Q := rfl
      rw [this, hdof, tetFInv_tetF hg.inverse]
    have hb : ∀ v, v < 4 → baryCoord (tetPos K (k + 1) t) v = (tetWeight t v : K) / ((k + 1 : Nat) : K) := by
      intro v hv
      interval_cases v
      · exact tet_bary hsum
      · rfl
      · rfl
      · rfl
    rw [hy'] at hw
    have ew : ∀ v, v < 4 → (tetWeight t v : K) / ((k + 1 : Nat) : K) = faceWeight a b e (1 - Q.1 - Q.2, Q.1, Q.2) v := fun v hv =>
      (hb v hv).symm.trans (hw v hv)
    have h0 : tetWeight t o = 0 := by
      have := ew o ho.1
      rw [show faceWeight a b e (1 - Q.1 - Q.2, Q.1, Q.2) o = 0 by simp [faceWeight, ho.2.1, ho.2.2.1, ho.2.2.2]] at this
      have := (div_eq_zero_iff.1 this).resolve_right hk0
      exact_mod_cast this
    refine ⟨(tetWeight t a, tetWeight t b, tetWeight t e), ?_, ?_, ?_, ?_⟩
    · rw [ew b h.2.1]; simp [faceWeight, hne.1.symm]
    · rw [ew e h.2.2]; simp [faceWeight, hne.2.1.symm, hne.2.2.symm]
    · have hl := liftType_of_zero h3 ho t h0
      rw [hl, liftType_sum h3.1.1 h3.1.2.1 h3.1.2.2 h3.2.1 h3.2.2.1 h3.2.2.2] at hsum
      exact hsum
    · rw [hval]
      congr 1
      have := tetPhi_face hg.inverse h3 ho ((k + 1 : Nat) : K) t q
      rw [if_pos h0, hA, hB, hC] at this
      exact this
  obtain ⟨w, e1, e2, e3, e4⟩ := key g s a b e c hg hs h hne hA hB hC hc hQ
  obtain ⟨w', e1', e2', e3', e4'⟩ := key g' s' a' b' e' c' hg' hs' h' hne' hA' hB' hC' hc' hQ'
  have hk0 : ((k + 1 : Nat) : K) ≠ 0 := Nat.cast_ne_zero.2 (by omega)
  have h1 : w.2.1 = w'.2.1 := by
    have := (div_left_inj' hk0).1 (e1.trans e1'.symm)
    exact_mod_cast this
  have h2 : w.2.2 = w'.2.2 := by
    have := (div_left_inj' hk0).1 (e2.trans e2'.symm)
    exact_mod_cast this
  have : w = w' := Prod.ext (by omega) (Prod.ext h1 h2)
  subst this
  exact ⟨_, e4, e4'⟩

end

/-- The plane triangles of the example are nondegenerate, and a DOF of face 2 (vertices 1, 2, 3) is on the face. -/
example : ∃ d s face, tetCreate ℚ 3 = .ok d ∧ tetSpace d tetExample = .ok s ∧ (tetExample (K := ℚ)).faces[2]? = some face ∧ IsInverse face.map ∧
    ∃ fs P, triSpace d.boundary 3 face.dirs face.map = .ok fs ∧ triDof fs 9 = .ok P ∧ tetDof s 18 = .ok (liftPoint face P) := by
  obtain ⟨s, hs, -⟩ := C44_permutation (K := ℚ) 3 (by norm_num) _ (tetCreate_ok 2) tetExample tetExample_ok
  obtain ⟨a, b, c, hok⟩ := (tetExample_ok (K := ℚ)).faces _ (List.mem_of_getElem? (show (tetExample (K := ℚ)).faces[2]? = _ from rfl))
  obtain ⟨w, -, hall⟩ := C59_face_points 3 (by norm_num) _ (tetCreate_ok (K := ℚ) 2) _ (triCreate_ok ℚ 2) 0 (by decide)
  obtain ⟨fs, P, h1, h2, h3, -⟩ := hall tetExample s 2 _ a b c tetExample_ok hs rfl hok
  exact ⟨_, s, _, tetCreate_ok 2, hs, rfl, by simp [IsInverse], fs, P, h1, h2, h3⟩

/-- Vertex 0 of the example is not a point of face 2. -/
example : ∃ d s face, tetCreate ℚ 3 = .ok d ∧ tetSpace d tetExample = .ok s ∧ (tetExample (K := ℚ)).faces[2]? = some face ∧ IsInverse face.map ∧
    ∀ P, tetDof s 0 ≠ .ok (liftPoint face P) := by
  obtain ⟨s, hs, -⟩ := C44_permutation (K := ℚ) 3 (by norm_num) _ (tetCreate_ok 2) tetExample tetExample_ok
  refine ⟨_, s, _, tetCreate_ok 2, hs, rfl, by simp [IsInverse], fun P => ?_⟩
  rw [C44_vertices 3 (by norm_num) _ (tetCreate_ok 2) tetExample tetExample_ok s hs 0 (by norm_num)]
  intro h
  injection h with h
  have h0 := congrArg Prod.fst h
  have h1 := congrArg (fun x => x.2.1) h
  have h2 := congrArg (fun x => x.2.2) h
  simp [tetVertex, tetExample, liftPoint] at h0 h1 h2
  rw [h1, ← h2] at h0
  norm_num at h0

/-! ## C61 -/

/-- **C61 off the lattice planes.** Column `c` of the mapped derivatives contains the partial derivatives, in physical coordinates, of
column `c` of the mapped values, at the points where the reference derivatives exist (every point for order 1). Full statement: at every
point; it is false from order 2 on, see `C61_not_a_number`. -/
theorem C61_chain_rule_partial (k : Nat) (hk : 1 ≤ k) (d : TetData ℝ) (hd : tetCreate ℝ k = .ok d) (g : TetGeom ℝ) (hg : TetMeshOk g)
    (s : TetSpace ℝ) (hs : tetSpace d g = .ok s) (c : Nat) (hc : c < d.numBasis) (x : Vec3 ℝ) :
    ∃ (P : Vec3 ℝ) (t : Nat × Nat × Nat × Nat), tetDof s c = .ok P ∧ (∀ v, v < 4 → baryCoord (tetFInv g.map P) v = (tetWeight t v : ℝ) / (k : ℝ)) ∧
      ((k = 1 ∨ ∀ v p : Nat, p < tetWeight t v → baryCoord (tetFInv g.map x) v ≠ (p : ℝ) / (k : ℝ)) →
        ∃ (f : ℝ → ℝ → ℝ → ℝ) (g0 g1 g2 : ℝ), (∀ X Y Z, tetPhysValue s (X, Y, Z) c = .ok (f X Y Z)) ∧ tetPhysDerivative s x c 0 = .ok g0 ∧
          tetPhysDerivative s x c 1 = .ok g1 ∧ tetPhysDerivative s x c 2 = .ok g2 ∧ HasPartials3At f x g0 g1 g2) := by
  obtain ⟨k, rfl⟩ : ∃ m, k = m + 1 := ⟨k - 1, by omega⟩
  rw [tetCreate_ok] at hd
  injection hd with hd
  subst hd
  obtain ⟨s', hs', hr, hm, hp, -⟩ := tetSpace_ok k hg
  rw [hs] at hs'
  injection hs' with hs'
  subst hs'
  obtain ⟨i, hi⟩ := order_get hp hc
  obtain ⟨t, ht, hdof, hval⟩ := tetSpace_dof hr hm hp hi
  refine ⟨_, t, hdof, fun v hv => ?_, fun hx => ?_⟩
  · rw [tetFInv_tetF hg.inverse]
    interval_cases v
    · exact tet_bary (tetTypes_sum ht)
    · rfl
    · rfl
    · rfl
  · have hx' : k = 0 ∨ ∀ a ∈ tetFactors t, tetFac (k + 1) (tetFInv g.map x) a ≠ 0 := by
      rcases hx with hx | hx
      · left; omega
      · right; exact (forall_factors (k + 1) _ t).2 hx
    obtain ⟨r0, r1, r2, e0, e1, e2, hpath⟩ := tetDerivative_path ht (tetFInv g.map x) hx'
    have hder : ∀ dir, tetPhysDerivative s x c dir = .ok (if dir = 0 then g.map.inv0.1 * r0 + g.map.inv1.1 * r1 + g.map.inv2.1 * r2
        else if dir = 1 then g.map.inv1.2.1 * r1 + g.map.inv0.2.1 * r0 + g.map.inv2.2.1 * r2
        else g.map.inv2.2.2 * r2 + g.map.inv0.2.2 * r0 + g.map.inv1.2.2 * r1) := by
      intro dir
      unfold tetPhysDerivative
      rw [tetSource_ok hp hi, except_ok_bind, hr, hm, e0, except_ok_bind, e1, except_ok_bind, e2, except_ok_bind]
    refine ⟨fun X Y Z => tetPhi ((k + 1 : Nat) : ℝ) t (tetFInv g.map (X, Y, Z)), _, _, _, fun X Y Z => hval _, hder 0, hder 1, hder 2, ?_, ?_, ?_⟩
    · have hlin : ∀ r : Vec3 ℝ, HasDerivAt (fun σ : ℝ => dot3 r ((σ, x.2.1, x.2.2) - g.map.v0)) r.1 x.1 := by
        intro r
        have := ((((hasDerivAt_id x.1).sub_const g.map.v0.1).const_mul r.1).add_const (r.2.1 * (x.2.1 - g.map.v0.2.1))).add_const
          (r.2.2 * (x.2.2 - g.map.v0.2.2))
        simpa [dot3] using this
      refine (hpath (fun σ => tetFInv g.map (σ, x.2.1, x.2.2)) (g.map.inv0.1, g.map.inv1.1, g.map.inv2.1) x.1 rfl (hlin _) (hlin _) (hlin _)).congr_deriv ?_
      simp
    · have hlin : ∀ r : Vec3 ℝ, HasDerivAt (fun σ : ℝ => dot3 r ((x.1, σ, x.2.2) - g.map.v0)) r.2.1 x.2.1 := by
        intro r
        have := ((((hasDerivAt_id x.2.1).sub_const g.map.v0.2.1).const_mul r.2.1).const_add (r.1 * (x.1 - g.map.v0.1))).add_const
          (r.2.2 * (x.2.2 - g.map.v0.2.2))
        simpa [dot3] using this
      refine (hpath (fun σ => tetFInv g.map (x.1, σ, x.2.2)) (g.map.inv0.2.1, g.map.inv1.2.1, g.map.inv2.2.1) x.2.1 rfl (hlin _) (hlin _) (hlin _)).congr_deriv ?_
      simp
      ring
    · have hlin : ∀ r : Vec3 ℝ, HasDerivAt (fun σ : ℝ => dot3 r ((x.1, x.2.1, σ) - g.map.v0)) r.2.2 x.2.2 := by
        intro r
        have := (((hasDerivAt_id x.2.2).sub_const g.map.v0.2.2).const_mul r.2.2).const_add (r.1 * (x.1 - g.map.v0.1) + r.2.1 * (x.2.1 - g.map.v0.2.1))
        simpa [dot3] using this
      refine (hpath (fun σ => tetFInv g.map (x.1, x.2.1, σ)) (g.map.inv0.2.2, g.map.inv1.2.2, g.map.inv2.2.2) x.2.2 rfl (hlin _) (hlin _) (hlin _)).congr_deriv ?_
      simp
      ring

/-- At `(5/3, 3/5, 1/7)` no barycentric coordinate is `0` or `1/2`, so no basis function of order 2 is excluded there. -/
example : ∃ d s, tetCreate ℝ 2 = .ok d ∧ tetSpace d tetExample = .ok s ∧ ∀ t : Nat × Nat × Nat × Nat, (∀ v, tetWeight t v ≤ 2) →
    ∀ v p : Nat, p < tetWeight t v → baryCoord (tetFInv (tetExample (K := ℝ)).map (5 / 3, 3 / 5, 1 / 7)) v ≠ (p : ℝ) / ((2 : Nat) : ℝ) := by
  obtain ⟨s, hs, -⟩ := C44_permutation 2 (by norm_num) _ (tetCreate_ok (K := ℝ) 1) tetExample tetExample_ok
  refine ⟨_, s, tetCreate_ok 1, hs, fun t ht v p hp => ?_⟩
  have hp2 : p < 2 := lt_of_lt_of_le hp (ht v)
  have hv : v < 4 := by
    by_contra h
    rw [show tetWeight t v = 0 by unfold tetWeight; rw [if_neg (by omega), if_neg (by omega), if_neg (by omega), if_neg (by omega)]] at hp
    omega
  clear hp ht hs
  interval_cases v <;> interval_cases p <;> norm_num [baryCoord, tetFInv, dot3, tetExample]

/-- **C61 fails at the DOFs.** From order 2 on the mapped derivatives of a basis function are not a number at every other DOF point of the
cell, for instance at its vertices. -/
theorem C61_not_a_number {K : Type} [Field K] [CharZero K] [DecidableEq K] (k : Nat) (hk : 2 ≤ k) (d : TetData K) (hd : tetCreate K k = .ok d)
    (g : TetGeom K) (hg : TetMeshOk g) (s : TetSpace K) (hs : tetSpace d g = .ok s) (c c' dir : Nat) (hc : c < d.numBasis)
    (hc' : c' < d.numBasis) (hne : c ≠ c') (P : Vec3 K) (hP : tetDof s c' = .ok P) : tetPhysDerivative s P c dir = .error .notANumber := by
  obtain ⟨s', hs', hr, hm, hp, -⟩ := C44_permutation k (by omega) d hd g hg
  rw [hs] at hs'
  injection hs' with hs'
  subst hs'
  obtain ⟨i, hi⟩ := order_get hp hc
  unfold tetDof at hP
  obtain ⟨i', hi', hP⟩ := (bind_ok_iff _ _ _).1 hP
  obtain ⟨p, hpos, hP⟩ := (bind_ok_iff _ _ _).1 hP
  injection hP with hP
  subst hP
  have hpos := (unchecked_ok_iff _ _ _).1 hpos
  have hin : i < d.numBasis := by
    have := (List.getElem?_eq_some_iff.1 hi).1
    rw [hp.length_eq, List.length_range] at this
    exact this
  have hii : i ≠ i' := by
    rintro rfl
    obtain ⟨l, hl⟩ := order_get hp hc'
    rw [tetSource_ok hp hl] at hi'
    injection hi' with hi'
    subst hi'
    rw [hi] at hl
    exact hne (Option.some.inj hl)
  unfold tetPhysDerivative
  rw [tetSource_ok hp hi, except_ok_bind, hr, hm, tetFInv_tetF hg.inverse]
  rw [hr] at hpos
  rw [C43_nan_at_dofs k hk d hd i i' 0 hin hii p hpos]
  rfl

/-- For order 2 the derivatives at a vertex are not numbers. -/
example : ∃ d s, tetCreate ℚ 2 = .ok d ∧ tetSpace d tetExample = .ok s ∧ tetPhysDerivative s (1, 0, 0) 5 1 = .error .notANumber := by
  obtain ⟨s, hs, -⟩ := C44_permutation (K := ℚ) 2 (by norm_num) _ (tetCreate_ok 1) tetExample tetExample_ok
  refine ⟨_, s, tetCreate_ok 1, hs, ?_⟩
  have h := C44_vertices 2 (by norm_num) _ (tetCreate_ok 1) tetExample tetExample_ok s hs 0 (by norm_num)
  exact C61_not_a_number 2 le_rfl _ (tetCreate_ok 1) tetExample tetExample_ok s hs 5 0 1 (by decide) (by decide) (by norm_num) _ h

end PolyDiM
