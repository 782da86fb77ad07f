import Verif.Lemmas.FemHexaFace

/-!
# C63, C64: chain rule and face traces of the hexahedral element

About `hexPhysValue`, `hexPhysDerivative`, `hexOnFace` of `Verif/Model/FemHexa.lean`; the vocabulary is in `Verif/Spec/Cube.lean` and
`Verif/Spec/HexMesh.lean`, the two concrete cells in `Verif/Props/FemHexaSpace.lean`.
-/

namespace PolyDiM
open Spec

/-! ## C63 -/

/-- **C63.** On every parallelepiped column `c` of the mapped derivatives contains the partial derivatives, in physical coordinates, of column
`c` of the mapped values, at every point. -/
theorem C63_chain_rule (k : Nat) (hk : 1 ≤ k) (d : HexData ℝ) (hd : hexCreate ℝ k = .ok d) (normZero : List (ℝ × ℝ × ℝ) → Bool) (hn : ExactNorm normZero)
    (isZero : ℝ → Bool) (g : HexGeom ℝ) (corners : Nat → Corners) (hg : HexMeshOk g corners) (s : HexSpace ℝ) (hs : hexSpace d normZero isZero g = .ok s)
    (c : Nat) (hc : c < d.numBasis) :
    ∃ f : ℝ → ℝ → ℝ → ℝ, (∀ X Y Z, hexPhysValue s (X, Y, Z) c = .ok (f X Y Z)) ∧
      ∀ x, ∃ g0 g1 g2, hexPhysDerivative s x c 0 = .ok g0 ∧ hexPhysDerivative s x c 1 = .ok g1 ∧ hexPhysDerivative s x c 2 = .ok g2 ∧
        HasPartials3At f x g0 g1 g2 := by
  obtain ⟨k, rfl⟩ : ∃ m, k = m + 1 := ⟨k - 1, by omega⟩
  rw [hexCreate_ok] at hd
  injection hd with hd
  subst hd
  obtain ⟨s', hs', hr, hkind, hm, hp, -⟩ := hexSpace_ok k hn isZero hg
  rw [hs] at hs'
  injection hs' with hs'
  subst hs'
  have hc : c < (k + 2) * (k + 2) * (k + 2) := hc
  obtain ⟨i, hi, li⟩ := hexOrder_get hp hc
  obtain ⟨⟨a, b, e⟩, ht⟩ : ∃ t, (hexTypes k)[i]? = some t := ⟨_, List.getElem?_eq_getElem (by rw [hexTypes_length]; exact li)⟩
  have hmem := (mem_hexTypes k _).1 (List.mem_of_getElem? ht)
  obtain ⟨f, f', hv, hder, -⟩ := hex_basis k
  set m := s.map with hmdef
  refine ⟨fun X Y Z => f a (tetFInv m (X, Y, Z)).1 * f b (tetFInv m (X, Y, Z)).2.1 * f e (tetFInv m (X, Y, Z)).2.2, fun X Y Z => ?_, fun x => ?_⟩
  · unfold hexPhysValue
    rw [hkind]
    simp only
    rw [hexSource_ok hp hi, except_ok_bind, hr, (hv i a b e _ ht).1]
  · obtain ⟨-, e0, e1, e2⟩ := hv i a b e (tetFInv m x) ht
    have hphys : ∀ dir, hexPhysDerivative s x c dir = .ok (if dir = 0 then m.inv0.1 * (f' a (tetFInv m x).1 * f b (tetFInv m x).2.1 * f e (tetFInv m x).2.2) +
          m.inv1.1 * (f a (tetFInv m x).1 * f' b (tetFInv m x).2.1 * f e (tetFInv m x).2.2) +
          m.inv2.1 * (f a (tetFInv m x).1 * f b (tetFInv m x).2.1 * f' e (tetFInv m x).2.2)
        else if dir = 1 then m.inv1.2.1 * (f a (tetFInv m x).1 * f' b (tetFInv m x).2.1 * f e (tetFInv m x).2.2) +
          m.inv0.2.1 * (f' a (tetFInv m x).1 * f b (tetFInv m x).2.1 * f e (tetFInv m x).2.2) +
          m.inv2.2.1 * (f a (tetFInv m x).1 * f b (tetFInv m x).2.1 * f' e (tetFInv m x).2.2)
        else m.inv2.2.2 * (f a (tetFInv m x).1 * f b (tetFInv m x).2.1 * f' e (tetFInv m x).2.2) +
          m.inv0.2.2 * (f' a (tetFInv m x).1 * f b (tetFInv m x).2.1 * f e (tetFInv m x).2.2) +
          m.inv1.2.2 * (f a (tetFInv m x).1 * f' b (tetFInv m x).2.1 * f e (tetFInv m x).2.2)) := by
      intro dir
      unfold hexPhysDerivative
      rw [hkind]
      simp only
      rw [hexSource_ok hp hi, except_ok_bind, hr, e0, except_ok_bind, e1, except_ok_bind, e2, except_ok_bind]
    refine ⟨_, _, _, hphys 0, hphys 1, hphys 2, ?_⟩
    have hpath : ∀ (p : ℝ → ℝ × ℝ × ℝ) (w : ℝ × ℝ × ℝ) (τ : ℝ), p τ = tetFInv m x → HasDerivAt (fun σ => (p σ).1) w.1 τ →
        HasDerivAt (fun σ => (p σ).2.1) w.2.1 τ → HasDerivAt (fun σ => (p σ).2.2) w.2.2 τ →
        HasDerivAt (fun σ => f a (p σ).1 * f b (p σ).2.1 * f e (p σ).2.2)
          (w.1 * (f' a (tetFInv m x).1 * f b (tetFInv m x).2.1 * f e (tetFInv m x).2.2) +
            w.2.1 * (f a (tetFInv m x).1 * f' b (tetFInv m x).2.1 * f e (tetFInv m x).2.2) +
            w.2.2 * (f a (tetFInv m x).1 * f b (tetFInv m x).2.1 * f' e (tetFInv m x).2.2)) τ := by
      intro p w τ hp0 h1 h2 h3
      have d1 : HasDerivAt (fun σ => f a (p σ).1) (f' a (p τ).1 * w.1) τ := (hder a (p τ).1 hmem.1).comp τ h1
      have d2 : HasDerivAt (fun σ => f b (p σ).2.1) (f' b (p τ).2.1 * w.2.1) τ := (hder b (p τ).2.1 hmem.2.1).comp τ h2
      have d3 : HasDerivAt (fun σ => f e (p σ).2.2) (f' e (p τ).2.2 * w.2.2) τ := (hder e (p τ).2.2 hmem.2.2).comp τ h3
      refine ((d1.mul d2).mul d3).congr_deriv ?_
      rw [hp0]
      simp only [Pi.mul_apply, hp0]
      ring
    refine ⟨?_, ?_, ?_⟩
    · have hlin : ∀ r : Vec3 ℝ, HasDerivAt (fun σ : ℝ => dot3 r ((σ, x.2.1, x.2.2) - m.v0)) r.1 x.1 := by
        intro r
        have := ((((hasDerivAt_id x.1).sub_const m.v0.1).const_mul r.1).add_const (r.2.1 * (x.2.1 - m.v0.2.1))).add_const (r.2.2 * (x.2.2 - m.v0.2.2))
        simpa [dot3] using this
      refine (hpath (fun σ => tetFInv m (σ, x.2.1, x.2.2)) (m.inv0.1, m.inv1.1, m.inv2.1) x.1 rfl (hlin _) (hlin _) (hlin _)).congr_deriv ?_
      simp
    · have hlin : ∀ r : Vec3 ℝ, HasDerivAt (fun σ : ℝ => dot3 r ((x.1, σ, x.2.2) - m.v0)) r.2.1 x.2.1 := by
        intro r
        have := ((((hasDerivAt_id x.2.1).sub_const m.v0.2.1).const_mul r.2.1).const_add (r.1 * (x.1 - m.v0.1))).add_const (r.2.2 * (x.2.2 - m.v0.2.2))
        simpa [dot3] using this
      refine (hpath (fun σ => tetFInv m (x.1, σ, x.2.2)) (m.inv0.2.1, m.inv1.2.1, m.inv2.2.1) x.2.1 rfl (hlin _) (hlin _) (hlin _)).congr_deriv ?_
      simp
      ring
    · have hlin : ∀ r : Vec3 ℝ, HasDerivAt (fun σ : ℝ => dot3 r ((x.1, x.2.1, σ) - m.v0)) r.2.2 x.2.2 := by
        intro r
        have := (((hasDerivAt_id x.2.2).sub_const m.v0.2.2).const_mul r.2.2).const_add (r.1 * (x.1 - m.v0.1) + r.2.1 * (x.2.1 - m.v0.2.1))
        simpa [dot3] using this
      refine (hpath (fun σ => tetFInv m (x.1, x.2.1, σ)) (m.inv0.2.2, m.inv1.2.2, m.inv2.2.2) x.2.2 rfl (hlin _) (hlin _) (hlin _)).congr_deriv ?_
      simp
      ring

example : ∃ d s, hexCreate ℝ 3 = .ok d ∧ hexSpace d (fun l => @decide (∀ v ∈ l, v = (0 : ℝ × ℝ × ℝ)) (Classical.dec _)) (fun _ => false) hexUpper = .ok s ∧
    HexMeshOk (hexUpper (K := ℝ)) hexUpperCorners := by
  obtain ⟨s, hs, -⟩ := C62_permutation (K := ℝ) 3 (by norm_num) _ (hexCreate_ok 2) (fun l => @decide (∀ v ∈ l, v = (0 : ℝ × ℝ × ℝ)) (Classical.dec _))
    (fun l => by simp) (fun _ => false) hexUpper _ hexUpper_ok
  exact ⟨_, s, hexCreate_ok 2, hs, hexUpper_ok⟩

/-! ## C64 -/

namespace Spec

/-- The point of a face with coordinates `q` in the frame of its first corner, the second corner first. -/
def hexFacePoint {K : Type} [Field K] (V : Nat → K × K × K) (c : Corners) (q : K × K) : K × K × K := framePoint (V c.1) (V c.2.1) (V c.2.2.2) q.1 q.2

end Spec

section
variable {K : Type} [Field K] [CharZero K]

/-- **C64, traces.** Let the DOF of basis function `c` be the point with coordinates `Q` of face `f`. Exactly one of the face functions is `1`
at `Q`, and its values on the face are those of basis function `c`. -/
theorem C64_trace (k : Nat) (hk : 1 ≤ k) (d : HexData K) (hd : hexCreate K k = .ok d) (normZero : List (K × K × K) → Bool) (hn : ExactNorm normZero)
    (isZero : K → Bool) (g : HexGeom K) (corners : Nat → Corners) (hg : HexMeshOk g corners) (s : HexSpace K) (hs : hexSpace d normZero isZero g = .ok s)
    (f : Nat) (hf : f < 6) (c : Nat) (hc : c < d.numBasis) (Q : K × K) (hQ : hexDof s c = .ok (hexFacePoint g.vertices (corners f) Q)) :
    ∃ c', c' < (k + 1) * (k + 1) ∧ hexOnFace s f Q c' = .ok 1 ∧ (∀ c'', c'' < (k + 1) * (k + 1) → hexOnFace s f Q c'' = .ok 1 → c'' = c') ∧
      ∀ q, ∃ v, hexPhysValue s (hexFacePoint g.vertices (corners f) q) c = .ok v ∧ hexOnFace s f q c' = .ok v := by
  obtain ⟨k, rfl⟩ : ∃ m, k = m + 1 := ⟨k - 1, by omega⟩
  rw [hexCreate_ok] at hd
  injection hd with hd
  subst hd
  obtain ⟨s', hs', hr, hkind, hm, hp, hfaces, -⟩ := hexSpace_ok k hn isZero hg
  rw [hs] at hs'
  injection hs' with hs'
  subst hs'
  obtain ⟨face, hface, hok⟩ := hg.faces f hf
  obtain ⟨hinj, hcases⟩ := hex_face_trace hg.shape (g := g) hg.inverse hr hkind hm hp hok.cycle.1 (cubeAdj_symm hok.cycle.2.2.2) hok.different.2 hc
  obtain ⟨-, ex, uniq⟩ := hex_on_face (hfaces f face hf hface)
  rcases hcases with ⟨i, j, hi, hj, e1, e2⟩ | ⟨e1, -⟩
  · rw [e1] at hQ
    injection hQ with hQ
    have hQ := hinj _ _ hQ
    obtain ⟨c', hc', hval⟩ := ex i j hi hj
    have hone : hexOnFace s f Q c' = .ok 1 := by
      rw [hval, ← hQ]
      simp only
      rw [edgeFn_node (by omega) hi hi, edgeFn_node (by omega) hj hj, if_pos rfl, if_pos rfl, mul_one]
    refine ⟨c', hc', hone, fun c'' hc'' h => ?_, fun q => ⟨_, e2 q, hval q⟩⟩
    rw [← hQ] at h hone
    exact uniq c'' c' i j hc'' hc' hi hj h hone
  · exact absurd hQ (e1 Q)

/-- Order 3, top face of the lower cell: the DOF `8 + 24 + 4 + 1` is the point `(1/3, 2/3)` of the face. -/
example : ∃ d s, hexCreate ℚ 3 = .ok d ∧ hexSpace d exactNormTest (· = 0) hexLower = .ok s ∧ 8 + 12 * 2 + 1 * (2 * 2) + (0 * 2 + 1) < d.numBasis ∧
    hexDof s (8 + 12 * 2 + 1 * (2 * 2) + (0 * 2 + 1)) = .ok (hexFacePoint (hexLower (K := ℚ)).vertices (hexLowerCorners 1) (1 / 3, 2 / 3)) := by
  obtain ⟨s, hs, -⟩ := C62_permutation (K := ℚ) 3 (by norm_num) _ (hexCreate_ok 2) exactNormTest exactNormTest_ok (· = 0) hexLower _ hexLower_ok
  refine ⟨_, s, hexCreate_ok 2, hs, by decide, ?_⟩
  have := (C46_face_points 3 (by norm_num) _ (hexCreate_ok 2) exactNormTest exactNormTest_ok _ hexLower _ hexLower_ok s hs 1 (by norm_num)).2 4 5 7 0 1
    (by unfold HexFrame; decide) (by norm_num) (by norm_num)
  rw [show 3 - 1 = 2 from rfl] at this
  rw [this]
  norm_num [hexFacePoint, hexLowerCorners]

/-- **C64, zero traces.** A basis function whose DOF is not a point of the face vanishes on the face. -/
theorem C64_zero (k : Nat) (hk : 1 ≤ k) (d : HexData K) (hd : hexCreate K k = .ok d) (normZero : List (K × K × K) → Bool) (hn : ExactNorm normZero)
    (isZero : K → Bool) (g : HexGeom K) (corners : Nat → Corners) (hg : HexMeshOk g corners) (s : HexSpace K) (hs : hexSpace d normZero isZero g = .ok s)
    (f : Nat) (hf : f < 6) (c : Nat) (hc : c < d.numBasis) (hQ : ∀ Q, hexDof s c ≠ .ok (hexFacePoint g.vertices (corners f) Q)) (q : K × K) :
    hexPhysValue s (hexFacePoint g.vertices (corners f) q) c = .ok 0 := by
  obtain ⟨k, rfl⟩ : ∃ m, k = m + 1 := ⟨k - 1, by omega⟩
  rw [hexCreate_ok] at hd
  injection hd with hd
  subst hd
  obtain ⟨s', hs', hr, hkind, hm, hp, hfaces, -⟩ := hexSpace_ok k hn isZero hg
  rw [hs] at hs'
  injection hs' with hs'
  subst hs'
  obtain ⟨face, hface, hok⟩ := hg.faces f hf
  obtain ⟨-, hcases⟩ := hex_face_trace hg.shape (g := g) hg.inverse hr hkind hm hp hok.cycle.1 (cubeAdj_symm hok.cycle.2.2.2) hok.different.2 hc
  rcases hcases with ⟨i, j, -, -, e1, -⟩ | ⟨-, e2⟩
  · exact absurd e1 (hQ _)
  · exact e2 q

/-- Vertex 6 is not a point of the bottom face. -/
example : ∃ d s, hexCreate ℚ 3 = .ok d ∧ hexSpace d exactNormTest (· = 0) hexLower = .ok s ∧
    ∀ Q, hexDof s 6 ≠ .ok (hexFacePoint (hexLower (K := ℚ)).vertices (hexLowerCorners 0) Q) := by
  obtain ⟨s, hs, -⟩ := C62_permutation (K := ℚ) 3 (by norm_num) _ (hexCreate_ok 2) exactNormTest exactNormTest_ok (· = 0) hexLower _ hexLower_ok
  refine ⟨_, s, hexCreate_ok 2, hs, fun Q h => ?_⟩
  rw [C62_vertices 3 (by norm_num) _ (hexCreate_ok 2) exactNormTest exactNormTest_ok _ hexLower _ hexLower_ok s hs 6 (by norm_num)] at h
  injection h with h
  have h2 := congrArg (fun x => x.2.2) h
  simp [hexFacePoint, framePoint, hexLower, hexLowerCorners, cubeVertex, cubeBits] at h2

/-- **C64, neighbours.** In two cells that share a face the basis functions with the same DOF point on the face have the same values there, so a
function that is glued at equal DOF points is continuous across the face. -/
theorem C64_neighbours (k : Nat) (hk : 1 ≤ k) (d : HexData K) (hd : hexCreate K k = .ok d) (normZero : List (K × K × K) → Bool) (hn : ExactNorm normZero)
    (isZero : K → Bool) (g g' : HexGeom K) (corners corners' : Nat → Corners) (hg : HexMeshOk g corners) (hg' : HexMeshOk g' corners')
    (s s' : HexSpace K) (hs : hexSpace d normZero isZero g = .ok s) (hs' : hexSpace d normZero isZero g' = .ok s') (f f' : Nat) (hf : f < 6) (hf' : f' < 6)
    (hshared : (cornerList (corners f)).map g.vertices = (cornerList (corners' f')).map g'.vertices) (c c' : Nat) (hc : c < d.numBasis)
    (hc' : c' < d.numBasis) (Q : K × K) (hQ : hexDof s c = .ok (hexFacePoint g.vertices (corners f) Q)) (hQ' : hexDof s' c' = hexDof s c) (q : K × K) :
    hexPhysValue s (hexFacePoint g.vertices (corners f) q) c = hexPhysValue s' (hexFacePoint g.vertices (corners f) q) c' := by
  have hX : ∀ q, hexFacePoint g.vertices (corners f) q = hexFacePoint g'.vertices (corners' f') q := by
    intro q
    simp only [cornerList, List.map_cons, List.map_nil, List.cons.injEq] at hshared
    unfold hexFacePoint
    rw [hshared.1, hshared.2.1, hshared.2.2.2.1]
  obtain ⟨k, rfl⟩ : ∃ m, k = m + 1 := ⟨k - 1, by omega⟩
  rw [hexCreate_ok] at hd
  injection hd with hd
  subst hd
  obtain ⟨t, ht, hr, hkind, hm, hp, -⟩ := hexSpace_ok k hn isZero hg
  rw [hs] at ht
  injection ht with ht
  subst ht
  obtain ⟨t', ht', hr', hkind', hm', hp', -⟩ := hexSpace_ok k hn isZero hg'
  rw [hs'] at ht'
  injection ht' with ht'
  subst ht'
  obtain ⟨face, -, hok⟩ := hg.faces f hf
  obtain ⟨face', -, hok'⟩ := hg'.faces f' hf'
  obtain ⟨hinj, h1⟩ := hex_face_trace hg.shape (g := g) hg.inverse hr hkind hm hp hok.cycle.1 (cubeAdj_symm hok.cycle.2.2.2) hok.different.2 hc
  obtain ⟨hinj', h2⟩ := hex_face_trace hg'.shape (g := g') hg'.inverse hr' hkind' hm' hp' hok'.cycle.1 (cubeAdj_symm hok'.cycle.2.2.2) hok'.different.2 hc'
  rw [hQ] at hQ'
  rcases h1 with ⟨i, j, hi, hj, e1, e2⟩ | ⟨e1, -⟩
  · rcases h2 with ⟨i', j', hi', hj', e1', e2'⟩ | ⟨e1', -⟩
    · rw [hQ] at e1
      injection e1 with e1
      have e1 := hinj _ _ e1
      rw [hQ', hX] at e1'
      injection e1' with e1'
      have e1' := hinj' _ _ e1'
      have e3 := e1.symm.trans e1'
      have hk0 : ((k + 1 : Nat) : K) ≠ 0 := Nat.cast_ne_zero.2 (by omega)
      injection e3 with e3 e4
      rw [div_left_inj' hk0] at e3 e4
      obtain rfl := Nat.cast_injective e3
      obtain rfl := Nat.cast_injective e4
      have a1 := e2 q
      have a2 := e2' q
      rw [show hexPhysValue s (hexFacePoint g.vertices (corners f) q) c = _ from a1, hX]
      exact a2.symm
    · rw [hX] at hQ'
      exact absurd hQ' (e1' Q)
  · exact absurd hQ (e1 Q)

/-- Order 2: the DOF of the shared face, number 21 in the lower cell and 20 in the upper cell, is its point `(1/2, 1/2)` in both. -/
example : ∃ d s s', hexCreate ℚ 2 = .ok d ∧ hexSpace d exactNormTest (· = 0) hexLower = .ok s ∧ hexSpace d exactNormTest (· = 0) hexUpper = .ok s' ∧
    21 < d.numBasis ∧ hexDof s 21 = .ok (hexFacePoint (hexLower (K := ℚ)).vertices (hexLowerCorners 1) (1 / 2, 1 / 2)) ∧ hexDof s' 20 = hexDof s 21 := by
  obtain ⟨s, hs, -⟩ := C62_permutation (K := ℚ) 2 (by norm_num) _ (hexCreate_ok 1) exactNormTest exactNormTest_ok (· = 0) hexLower _ hexLower_ok
  obtain ⟨s', hs', -⟩ := C62_permutation (K := ℚ) 2 (by norm_num) _ (hexCreate_ok 1) exactNormTest exactNormTest_ok (· = 0) hexUpper _ hexUpper_ok
  have h1 := (C46_face_points 2 (by norm_num) _ (hexCreate_ok 1) exactNormTest exactNormTest_ok _ hexLower _ hexLower_ok s hs 1 (by norm_num)).2 4 5 7 0 0
    (by unfold HexFrame; decide) (by norm_num) (by norm_num)
  have h2 := (C46_face_points 2 (by norm_num) _ (hexCreate_ok 1) exactNormTest exactNormTest_ok _ hexUpper _ hexUpper_ok s' hs' 0 (by norm_num)).2 0 1 3 0 0
    (by unfold HexFrame; decide) (by norm_num) (by norm_num)
  refine ⟨_, s, s', hexCreate_ok 1, hs, hs', by decide, h1.trans ?_, h2.trans (Eq.trans ?_ h1.symm)⟩
  · norm_num [hexFacePoint, hexLowerCorners]
  · norm_num [framePoint, hexLower, hexUpper, cubeVertex, cubeBits]

/-- **C64, the orders differ.** From order 3 on the `n`-th DOF of a face and the `n`-th inner function of the face space are in general not at the
same point, so the columns of the face values are not the traces of the basis functions with the corresponding indices. -/
theorem C64_mismatch (k : Nat) (hk : 3 ≤ k) (d : HexData K) (hd : hexCreate K k = .ok d) (normZero : List (K × K × K) → Bool) (hn : ExactNorm normZero)
    (isZero : K → Bool) :
    ∃ (g : HexGeom K) (corners : Nat → Corners) (s : HexSpace K) (f n : Nat) (Q : K × K), HexMeshOk g corners ∧ hexSpace d normZero isZero g = .ok s ∧
      f < 6 ∧ n < d.num2D ∧ hexPhysValue s (hexFacePoint g.vertices (corners f) Q) (8 + 12 * d.num1D + f * d.num2D + n) = .ok 1 ∧
      hexOnFace s f Q (4 + 4 * d.num1D + n) = .ok 0 := by
  obtain ⟨k, rfl⟩ : ∃ m, k = m + 1 := ⟨k - 1, by omega⟩
  have hd' := hd
  rw [hexCreate_ok] at hd'
  injection hd' with hd'
  obtain ⟨s, hs, hr, hkind, hm, hp, hfaces, -⟩ := hexSpace_ok k hn isZero (hexLower_ok (K := K))
  have hs2 : hexSpace d normZero isZero hexLower = .ok s := by rw [← hd']; exact hs
  have n1 : d.num1D = k := by rw [← hd']; rfl
  have n2 : d.num2D = k * k := by rw [← hd']; rfl
  have nb : d.numBasis = (k + 2) * (k + 2) * (k + 2) := by rw [← hd']; rfl
  have hfp := (C46_face_points (k + 1) (by omega) d hd normZero hn isZero hexLower _ hexLower_ok s hs2 0 (by norm_num)).2 0 1 3 0 1
    (by unfold HexFrame; decide) (by omega) (by omega)
  rw [Nat.add_sub_cancel, Nat.zero_mul, Nat.zero_mul, Nat.zero_add] at hfp
  have hk1 : 1 < k * k := by nlinarith
  have hlt : 8 + 12 * k + 0 + 1 < d.numBasis := by
    rw [nb]
    have : 8 + 12 * k + 6 * (k * k) ≤ (k + 2) * (k + 2) * (k + 2) := by
      have : (k + 2) * (k + 2) * (k + 2) = k * k * k + 6 * (k * k) + 12 * k + 8 := by ring
      omega
    omega
  refine ⟨hexLower, _, s, 0, 1, (((0 + 1 : Nat) : K) / ((k + 1 : Nat) : K), ((1 + 1 : Nat) : K) / ((k + 1 : Nat) : K)), hexLower_ok, hs2, by norm_num,
    by rw [n2]; exact hk1, ?_, ?_⟩
  · obtain ⟨P, hP, hv⟩ := C62_values_order (k + 1) (by omega) d hd normZero hn isZero hexLower _ hexLower_ok s hs2 _ _ hlt hlt
    rw [n1, Nat.zero_mul]
    rw [hfp] at hP
    injection hP with hP
    rw [if_pos rfl, ← hP] at hv
    exact hv
  · obtain ⟨face, hface, -⟩ := (hexLower_ok (K := K)).faces 0 (by norm_num)
    have hf := hfaces 0 face (by norm_num) hface
    unfold hexOnFace
    rw [(unchecked_ok_iff _ _ _).2 hf, except_ok_bind]
    unfold quadPhysValue
    have hidx : (hexFaceSpace K k isZero face).order[4 + 4 * k + 1]? = some (4 + 4 * k + (0 * k + 1)) := by
      have := meshRuns_inner 4 k [face.dirs.getD 0 true, face.dirs.getD 1 true, !face.dirs.getD 2 true, !face.dirs.getD 3 true] (k * k) 1 hk1
      rw [Nat.zero_mul, Nat.zero_add]
      exact this
    rw [n1, (unchecked_ok_iff _ _ _).2 hidx, except_ok_bind]
    show quadValue (quadRef K k) _ _ _ = _
    rw [quad_value_lat k _ _ (quadTypes_inner k 0 1 (by omega) (by omega))]
    simp only
    rw [show latNum (k + 1) (1 + 2) = 2 from rfl, show latNum (k + 1) (0 + 2) = 1 from rfl, edgeFn_node (by omega) (by omega) (by omega),
      edgeFn_node (by omega) (by omega) (by omega), if_neg (by omega), zero_mul]

/-- **C64, when the orders agree.** If the frame of the face in the cell is its first corner with the last corner first, DOF `n` of the face
and inner function `n` of the face space belong together. Full statement: for every face; it is false, see `C64_mismatch`. -/
theorem C64_face_order_partial (k : Nat) (hk : 1 ≤ k) (d : HexData K) (hd : hexCreate K k = .ok d) (normZero : List (K × K × K) → Bool) (hn : ExactNorm normZero)
    (isZero : K → Bool) (g : HexGeom K) (corners : Nat → Corners) (hg : HexMeshOk g corners) (s : HexSpace K) (hs : hexSpace d normZero isZero g = .ok s)
    (f : Nat) (hf : f < 6) (hframe : HexFrame (corners f) (corners f).1 (corners f).2.2.2 (corners f).2.1) (n : Nat) (hn' : n < d.num2D) (q : K × K) :
    ∃ v, hexPhysValue s (hexFacePoint g.vertices (corners f) q) (8 + 12 * d.num1D + f * d.num2D + n) = .ok v ∧
      hexOnFace s f q (4 + 4 * d.num1D + n) = .ok v := by
  obtain ⟨k, rfl⟩ : ∃ m, k = m + 1 := ⟨k - 1, by omega⟩
  have hd' := hd
  rw [hexCreate_ok] at hd'
  injection hd' with hd'
  obtain ⟨s', hs', hr, hkind, hm, hp, hfaces, -⟩ := hexSpace_ok k hn isZero hg
  rw [hd', hs] at hs'
  injection hs' with hs'
  subst hs'
  have n1 : d.num1D = k := by rw [← hd']; rfl
  have n2 : d.num2D = k * k := by rw [← hd']; rfl
  rw [n2] at hn'
  have hpos : 0 < k := by
    rcases Nat.eq_zero_or_pos k with h | h
    · subst h; omega
    · exact h
  have hi : n / k < k := Nat.div_lt_of_lt_mul hn'
  have hj : n % k < k := Nat.mod_lt _ hpos
  have hsplit : n / k * k + n % k = n := Nat.div_add_mod' n k
  have hfp := (C46_face_points (k + 1) (by omega) d hd normZero hn isZero g corners hg s hs f hf).2 _ _ _ (n / k) (n % k) hframe
    (by rw [Nat.add_sub_cancel]; exact hi) (by rw [Nat.add_sub_cancel]; exact hj)
  rw [Nat.add_sub_cancel, hsplit] at hfp
  obtain ⟨face, hface, hok⟩ := hg.faces f hf
  have hc : 8 + 12 * k + f * (k * k) + n < (k + 2) * (k + 2) * (k + 2) := by
    have h1 : (k + 2) * (k + 2) * (k + 2) = k * k * k + 6 * (k * k) + 12 * k + 8 := by ring
    have h2 := mul_add_lt hf hn'
    omega
  obtain ⟨hinj, hcases⟩ := hex_face_trace hg.shape (g := g) hg.inverse hr hkind hm hp hok.cycle.1 (cubeAdj_symm hok.cycle.2.2.2) hok.different.2 hc
  have hsw : framePoint (g.vertices (corners f).1) (g.vertices (corners f).2.2.2) (g.vertices (corners f).2.1) (((n / k + 1 : Nat) : K) / ((k + 1 : Nat) : K))
      (((n % k + 1 : Nat) : K) / ((k + 1 : Nat) : K)) = hexFacePoint g.vertices (corners f) (((n % k + 1 : Nat) : K) / ((k + 1 : Nat) : K),
        ((n / k + 1 : Nat) : K) / ((k + 1 : Nat) : K)) := by
    unfold hexFacePoint framePoint
    abel
  rw [hsw] at hfp
  rcases hcases with ⟨i, j, hi', hj', e1, e2⟩ | ⟨e1, -⟩
  · rw [hfp] at e1
    injection e1 with e1
    have e1 := hinj _ _ e1
    have hk0 : ((k + 1 : Nat) : K) ≠ 0 := Nat.cast_ne_zero.2 (by omega)
    injection e1 with e3 e4
    rw [div_left_inj' hk0] at e3 e4
    obtain rfl := Nat.cast_injective e3
    obtain rfl := Nat.cast_injective e4
    rw [n1, n2]
    refine ⟨_, e2 q, ?_⟩
    unfold hexOnFace
    rw [(unchecked_ok_iff _ _ _).2 (hfaces f face hf hface), except_ok_bind]
    unfold quadPhysValue
    have hidx : (hexFaceSpace K k isZero face).order[4 + 4 * k + n]? = some (4 + 4 * k + (n / k * k + n % k)) := by
      rw [hsplit]
      exact meshRuns_inner 4 k [face.dirs.getD 0 true, face.dirs.getD 1 true, !face.dirs.getD 2 true, !face.dirs.getD 3 true] (k * k) n hn'
    rw [(unchecked_ok_iff _ _ _).2 hidx, except_ok_bind]
    show quadValue (quadRef K k) _ _ _ = _
    rw [quad_value_lat k _ _ (quadTypes_inner k (n / k) (n % k) hi hj)]
    rfl
  · exact absurd hfp (e1 _)

end

/-- The unit cube with its bottom face listed the other way round. -/
def hexTurned {K : Type} [Field K] : HexGeom K := { hexLower with faces := hexExFace [3, 2, 1, 0] :: (hexLower (K := K)).faces.tail }

/-- The corners of its faces. -/
def hexTurnedCorners (f : Nat) : Corners := if f = 0 then (0, 3, 2, 1) else hexLowerCorners f

theorem hexTurned_ok {K : Type} [Field K] : HexMeshOk (hexTurned (K := K)) hexTurnedCorners where
  shape := (hexLower_ok (K := K)).shape
  inverse := (hexLower_ok (K := K)).inverse
  edges := hexExEdges_ok
  dirs := rfl
  number := rfl
  faces := by
    intro f hf
    interval_cases f <;> refine ⟨_, rfl, by decide, by decide, ⟨_, _, _, _, rfl, ?_, ?_, ?_, ?_⟩, rfl, rfl⟩ <;>
      simp [Joins, hexTurned, hexLower, hexExEdges, hexTurnedCorners, hexLowerCorners]
  different := by
    intro f f' hf hf' h
    interval_cases f <;> interval_cases f' <;> first
      | exact absurd rfl h
      | exact ⟨0, by decide, by decide⟩
      | exact ⟨1, by decide, by decide⟩
      | exact ⟨2, by decide, by decide⟩
      | exact ⟨3, by decide, by decide⟩
      | exact ⟨4, by decide, by decide⟩
      | exact ⟨5, by decide, by decide⟩
      | exact ⟨6, by decide, by decide⟩

/-- Its bottom face meets the condition. -/
example : HexFrame (hexTurnedCorners 0) (hexTurnedCorners 0).1 (hexTurnedCorners 0).2.2.2 (hexTurnedCorners 0).2.1 := by
  unfold HexFrame
  decide

end PolyDiM
