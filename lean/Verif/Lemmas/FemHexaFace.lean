import Verif.Lemmas.FemHexaTrace
import Verif.Props.FemHexaSpace

/-! Helper lemmas: the faces of the hexahedral element. -/

namespace PolyDiM
open Spec

variable {K : Type} [Field K] [CharZero K]

theorem frame_inj {o a b : Nat} (ha : CubeAdj o a) (hb : CubeAdj o b) (hab : a ≠ b) {q q' : K × K}
    (h : framePoint (cubeVertex K o) (cubeVertex K a) (cubeVertex K b) q.1 q.2 = framePoint (cubeVertex K o) (cubeVertex K a) (cubeVertex K b) q'.1 q'.2) :
    q = q' := by
  obtain ⟨ho, ha8, ha⟩ := ha
  obtain ⟨-, hb8, hb⟩ := hb
  have hne : cubeBits a ≠ cubeBits b := fun h => hab (cubeBits_inj ha8 hb8 h)
  have lo := cubeBits_le ho
  have la := cubeBits_le ha8
  have lb := cubeBits_le hb8
  rw [framePoint_cube, framePoint_cube] at h
  generalize cubeBits o = vo at *
  generalize cubeBits a = va at *
  generalize cubeBits b = vb at *
  obtain ⟨o0, o1, o2⟩ := vo
  obtain ⟨a0, a1, a2⟩ := va
  obtain ⟨b0, b1, b2⟩ := vb
  simp only at *
  have can : ∀ (s s' : K) (x y : Nat), x ≠ y → (x : K) + s * ((y : K) - (x : K)) = (x : K) + s' * ((y : K) - (x : K)) → s = s' := by
    intro s s' x y hxy he
    have h0 : ((y : K) - (x : K)) ≠ 0 := sub_ne_zero.2 (fun h => hxy (Nat.cast_injective h).symm)
    exact mul_right_cancel₀ h0 (add_left_cancel he)
  injection h with h0 h
  injection h with h1 h2
  rcases ha with ⟨x1, x2, x3⟩ | ⟨x1, x2, x3⟩ | ⟨x1, x2, x3⟩ <;> rcases hb with ⟨y1, y2, y3⟩ | ⟨y1, y2, y3⟩ | ⟨y1, y2, y3⟩
  · exact absurd (by rw [show a0 = b0 by omega, ← x2, ← x3, y2, y3]) hne
  · subst x2 x3 y1 y3
    simp only [sub_self, mul_zero, add_zero] at h0 h1
    exact Prod.ext (can _ _ _ _ x1 h0) (can _ _ _ _ y2 h1)
  · subst x2 x3 y1 y2
    simp only [sub_self, mul_zero, add_zero] at h0 h2
    exact Prod.ext (can _ _ _ _ x1 h0) (can _ _ _ _ y3 h2)
  · subst x1 x3 y2 y3
    simp only [sub_self, mul_zero, add_zero] at h0 h1
    exact Prod.ext (can _ _ _ _ x2 h1) (can _ _ _ _ y1 h0)
  · exact absurd (by rw [show a1 = b1 by omega, ← x1, ← x3, y1, y3]) hne
  · subst x1 x3 y1 y2
    simp only [sub_self, mul_zero, add_zero] at h1 h2
    exact Prod.ext (can _ _ _ _ x2 h1) (can _ _ _ _ y3 h2)
  · subst x1 x2 y2 y3
    simp only [sub_self, mul_zero, add_zero] at h0 h2
    exact Prod.ext (can _ _ _ _ x3 h2) (can _ _ _ _ y1 h0)
  · subst x1 x2 y1 y3
    simp only [sub_self, mul_zero, add_zero] at h1 h2
    exact Prod.ext (can _ _ _ _ x3 h2) (can _ _ _ _ y2 h1)
  · exact absurd (by rw [show a2 = b2 by omega, ← x1, ← x2, y1, y2]) hne

/-- The trace on a face of one mapped function. -/
theorem hex_face_trace {k : Nat} {g : HexGeom K} (hshape : Parallelepiped g.vertices) (hinv : IsInverse3 (hexMap g)) {s : HexSpace K}
    (hr : s.ref = hexRef K k) (hkind : s.kind = .parallelepiped) (hm : s.map = hexMap g) (hp : s.order.Perm (List.range ((k + 2) * (k + 2) * (k + 2))))
    {o a b : Nat} (ha : CubeAdj o a) (hb : CubeAdj o b) (hab : a ≠ b) {c : Nat} (hc : c < (k + 2) * (k + 2) * (k + 2)) :
    let X := fun q : K × K => framePoint (g.vertices o) (g.vertices a) (g.vertices b) q.1 q.2
    (∀ q q', X q = X q' → q = q') ∧
    ((∃ i j : Nat, i ≤ k + 1 ∧ j ≤ k + 1 ∧ hexDof s c = .ok (X ((i : K) / ((k + 1 : Nat) : K), (j : K) / ((k + 1 : Nat) : K))) ∧
      ∀ q, hexPhysValue s (X q) c = .ok (edgeFn (k + 1) i q.1 * edgeFn (k + 1) j q.2)) ∨
    ((∀ Q, hexDof s c ≠ .ok (X Q)) ∧ ∀ q, hexPhysValue s (X q) c = .ok 0)) := by
  intro X
  have hX : ∀ q, X q = tetF (hexMap g) (framePoint (cubeVertex K o) (cubeVertex K a) (cubeVertex K b) q.1 q.2) := by
    intro q
    rw [tetF_frame, hexF_vertex hshape ha.1, hexF_vertex hshape ha.2.1, hexF_vertex hshape hb.2.1]
  refine ⟨fun q q' h => ?_, ?_⟩
  · rw [hX, hX] at h
    exact frame_inj ha hb hab (tetF_inj hinv h)
  · obtain ⟨i', hi', li⟩ := hexOrder_get hp hc
    obtain ⟨n0, n1, n2, a0, a1, a2, ht, hdof, hval⟩ := hexSpace_col hr hkind hp hi' li
    rcases cube_trace (K := K) (m := k + 1) (by omega) a0 a1 a2 ha hb hab with ⟨i, j, hi, hj, e1, e2⟩ | ⟨e1, e2⟩
    · left
      refine ⟨i, j, hi, hj, ?_, fun q => ?_⟩
      · rw [hdof, hX, hm]
        congr 2
      · rw [hval, hX, hm, tetFInv_tetF hinv]
        congr 1
        exact e2 q _ rfl
    · right
      refine ⟨fun Q h => ?_, fun q => ?_⟩
      · rw [hdof, hX, hm] at h
        injection h with h
        exact e1 Q (tetF_inj hinv h)
      · rw [hval, hX, hm, tetFInv_tetF hinv]
        congr 1
        exact e2 q _ rfl

/-- The two-dimensional functions of a face. -/
theorem hex_on_face {k : Nat} {isZero : K → Bool} {s : HexSpace K} {f : Nat} {face : HexFace K} (hf : s.faces[f]? = some (hexFaceSpace K k isZero face)) :
    (∀ c, c < (k + 2) * (k + 2) → ∃ i j : Nat, i ≤ k + 1 ∧ j ≤ k + 1 ∧ ∀ q, hexOnFace s f q c = .ok (edgeFn (k + 1) i q.1 * edgeFn (k + 1) j q.2)) ∧
    (∀ i j : Nat, i ≤ k + 1 → j ≤ k + 1 → ∃ c, c < (k + 2) * (k + 2) ∧ ∀ q, hexOnFace s f q c = .ok (edgeFn (k + 1) i q.1 * edgeFn (k + 1) j q.2)) ∧
    ∀ c c' i j, c < (k + 2) * (k + 2) → c' < (k + 2) * (k + 2) → i ≤ k + 1 → j ≤ k + 1 →
      hexOnFace s f ((i : K) / ((k + 1 : Nat) : K), (j : K) / ((k + 1 : Nat) : K)) c = .ok 1 →
      hexOnFace s f ((i : K) / ((k + 1 : Nat) : K), (j : K) / ((k + 1 : Nat) : K)) c' = .ok 1 → c = c' := by
  set L := (hexFaceSpace K k isZero face).order with hL
  have hperm : L.Perm (List.range ((k + 2) * (k + 2))) := by
    have := meshRuns_perm 4 k [face.dirs.getD 0 true, face.dirs.getD 1 true, !face.dirs.getD 2 true, !face.dirs.getD 3 true] (k * k)
    rw [show (k + 2) * (k + 2) = 4 + [face.dirs.getD 0 true, face.dirs.getD 1 true, !face.dirs.getD 2 true, !face.dirs.getD 3 true].length * k + k * k by
      simp only [List.length_cons, List.length_nil]; ring]
    exact this
  have hlen : L.length = (k + 2) * (k + 2) := by rw [hperm.length_eq, List.length_range]
  have heval : ∀ c i t, L[c]? = some i → (quadTypes k)[i]? = some t → ∀ q : K × K,
      hexOnFace s f q c = .ok (edgeFn (k + 1) (latNum (k + 1) t.1) q.1 * edgeFn (k + 1) (latNum (k + 1) t.2) q.2) := by
    intro c i t hc ht q
    unfold hexOnFace
    rw [(unchecked_ok_iff _ _ _).2 hf, except_ok_bind]
    unfold quadPhysValue
    rw [(unchecked_ok_iff _ _ _).2 hc, except_ok_bind]
    exact quad_value_lat k i t ht q.1 q.2
  have hsrc : ∀ c, c < (k + 2) * (k + 2) → ∃ i t, L[c]? = some i ∧ (quadTypes k)[i]? = some t ∧ t.1 < k + 2 ∧ t.2 < k + 2 := by
    intro c hc
    have h1 : L[c]? = some (L[c]'(by omega)) := List.getElem?_eq_getElem _
    have h2 : L[c]'(by omega) < (k + 2) * (k + 2) := List.mem_range.1 (hperm.mem_iff.1 (List.getElem_mem _))
    have h3 : (quadTypes k)[L[c]'(by omega)]? = some _ := List.getElem?_eq_getElem (by rw [quadTypes_length]; exact h2)
    have h4 := (mem_quadTypes k _).1 (List.mem_of_getElem? h3)
    exact ⟨_, _, h1, h3, h4⟩
  refine ⟨fun c hc => ?_, fun i j hi hj => ?_, fun c c' i j hc hc' hi hj h1 h2 => ?_⟩
  · obtain ⟨i, t, h1, h2, h3, h4⟩ := hsrc c hc
    exact ⟨_, _, Nat.lt_succ_iff.1 (latNum_lt h3), Nat.lt_succ_iff.1 (latNum_lt h4), heval c i t h1 h2⟩
  · have hmem : (latIdx (k + 1) i, latIdx (k + 1) j) ∈ quadTypes k :=
      (mem_quadTypes k _).2 ⟨latIdx_lt (Nat.lt_succ_of_le hi), latIdx_lt (Nat.lt_succ_of_le hj)⟩
    obtain ⟨r, hr⟩ := List.mem_iff_getElem?.1 hmem
    have hrl := (List.getElem?_eq_some_iff.1 hr).1
    rw [quadTypes_length] at hrl
    obtain ⟨c, hc⟩ := List.mem_iff_getElem?.1 (hperm.mem_iff.2 (List.mem_range.2 hrl))
    have hcl := (List.getElem?_eq_some_iff.1 hc).1
    refine ⟨c, by omega, fun q => ?_⟩
    rw [heval c r _ hc hr]
    simp only
    rw [latNum_latIdx (Nat.lt_succ_of_le hi), latNum_latIdx (Nat.lt_succ_of_le hj)]
  · have key : ∀ c r t, L[c]? = some r → (quadTypes k)[r]? = some t → t.1 < k + 2 → t.2 < k + 2 →
        hexOnFace s f ((i : K) / ((k + 1 : Nat) : K), (j : K) / ((k + 1 : Nat) : K)) c = .ok 1 → t = (latIdx (k + 1) i, latIdx (k + 1) j) := by
      intro c r t hc ht l1 l2 h
      rw [heval c r t hc ht] at h
      injection h with h
      simp only at h
      have d1 : latNum (k + 1) t.1 ≤ k + 1 := Nat.lt_succ_iff.1 (latNum_lt l1)
      have d2 : latNum (k + 1) t.2 ≤ k + 1 := Nat.lt_succ_iff.1 (latNum_lt l2)
      rw [edgeFn_node (by omega) d1 hi, edgeFn_node (by omega) d2 hj] at h
      have e1 : latNum (k + 1) t.1 = i := by
        by_contra hne
        rw [if_neg hne, zero_mul] at h
        exact zero_ne_one h
      have e2 : latNum (k + 1) t.2 = j := by
        by_contra hne
        rw [if_neg hne, mul_zero] at h
        exact zero_ne_one h
      refine Prod.ext (latNum_inj l1 (latIdx_lt (Nat.lt_succ_of_le hi)) ?_) (latNum_inj l2 (latIdx_lt (Nat.lt_succ_of_le hj)) ?_)
      · simp only
        rw [latNum_latIdx (Nat.lt_succ_of_le hi), e1]
      · simp only
        rw [latNum_latIdx (Nat.lt_succ_of_le hj), e2]
    obtain ⟨r, t, a1, a2, a3, a4⟩ := hsrc c hc
    obtain ⟨r', t', b1, b2, b3, b4⟩ := hsrc c' hc'
    have e1 := key c r t a1 a2 a3 a4 h1
    have e2 := key c' r' t' b1 b2 b3 b4 h2
    have hr : r = r' := by
      obtain ⟨x1, x2⟩ := List.getElem?_eq_some_iff.1 a2
      obtain ⟨y1, y2⟩ := List.getElem?_eq_some_iff.1 b2
      exact (List.Nodup.getElem_inj_iff (quadTypes_nodup k)).1 (x2.trans ((e1.trans e2.symm).trans y2.symm))
    subst hr
    obtain ⟨x1, x2⟩ := List.getElem?_eq_some_iff.1 a1
    obtain ⟨y1, y2⟩ := List.getElem?_eq_some_iff.1 b1
    exact (List.Nodup.getElem_inj_iff (hperm.nodup_iff.2 List.nodup_range)).1 (x2.trans y2.symm)

theorem quadTypes_inner (k d1 d2 : Nat) (h1 : d1 < k) (h2 : d2 < k) : (quadTypes k)[4 + 4 * k + (d1 * k + d2)]? = some (d2 + 2, d1 + 2) := by
  unfold quadTypes
  rw [List.getElem?_append_right (by simp; omega)]
  simp only [List.length_append, List.length_map, List.length_range, List.length_cons, List.length_nil]
  rw [show 4 + 4 * k + (d1 * k + d2) - (0 + 1 + 1 + 1 + 1 + (k + k + k + k)) = d1 * k + d2 by omega]
  rw [flatMap_get _ _ k d1 d2 d1 (by simp) (List.getElem?_range h1) h2, List.getElem?_map, List.getElem?_range h2, Option.map_some]

end PolyDiM
