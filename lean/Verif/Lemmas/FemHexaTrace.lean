import Verif.Lemmas.FemHexaSpace
import Verif.Lemmas.Trace
import Verif.Lemmas.FemTetTrace
import Verif.Props.Trace

/-! Helper lemmas: points and traces of the hexahedral element. -/

namespace PolyDiM
open Spec

variable {K : Type} [Field K]

theorem tetF_frame (m : TetMap K) (O A B : Vec3 K) (s t : K) : tetF m (framePoint O A B s t) = framePoint (tetF m O) (tetF m A) (tetF m B) s t := by
  refine Prod.ext ?_ (Prod.ext ?_ ?_) <;> simp [tetF, framePoint] <;> ring

theorem tetF_seg (m : TetMap K) (P Q : Vec3 K) (t : K) : tetF m (segPoint3 P Q t) = segPoint3 (tetF m P) (tetF m Q) t := by
  refine Prod.ext ?_ (Prod.ext ?_ ?_) <;> simp [tetF, segPoint3] <;> ring

theorem hexF_vertex {g : HexGeom K} (h : Parallelepiped g.vertices) {v : Nat} (hv : v < 8) : tetF (hexMap g) (cubeVertex K v) = g.vertices v := by
  obtain ⟨h1, h2, h3, h4⟩ := h
  interval_cases v
  all_goals
    try simp only [h1, h2, h3, h4]
    refine Prod.ext ?_ (Prod.ext ?_ ?_) <;> simp [tetF, cubeVertex, cubeBits, hexMap] <;> ring

/-- A DOF at the image of its reference point. -/
theorem hexDof_pos {k : Nat} {s : HexSpace K} (hr : s.ref = hexRef K k) {i c N : Nat} (h : s.order.Perm (List.range N)) (hi : s.order[i]? = some c)
    {p : Vec3 K} (hp : (hexRef K k).positions[i]? = some p) : hexDof s c = .ok (tetF s.map p) := by
  unfold hexDof
  rw [hexSource_ok h hi, except_ok_bind, hr, (unchecked_ok_iff _ _ _).2 hp, except_ok_bind]

/-- The values in closed form. -/
theorem hex_value_lat [CharZero K] (k i : Nat) (t : HexType) (h : (hexTypes k)[i]? = some t) (x : Vec3 K) : hexValue (hexRef K k) x i =
    .ok (edgeFn (k + 1) (latNum (k + 1) t.1) x.1 * edgeFn (k + 1) (latNum (k + 1) t.2.1) x.2.1 * edgeFn (k + 1) (latNum (k + 1) t.2.2) x.2.2) := by
  have hm := (mem_hexTypes k _).1 (List.mem_of_getElem? h)
  unfold hexValue
  rw [(unchecked_ok_iff _ _ _).2 (show (hexRef K k).types[i]? = some t from h), except_ok_bind,
    show (hexRef K k).edge = bndRef K k from rfl, fem1Value_lat k _ hm.1, except_ok_bind, fem1Value_lat k _ hm.2.1, except_ok_bind,
    fem1Value_lat k _ hm.2.2, except_ok_bind]

/-- Everything about one column: the lattice numbers of its DOF, its point and its values. -/
theorem hexSpace_col [CharZero K] {k : Nat} {s : HexSpace K} (hr : s.ref = hexRef K k) (hkind : s.kind = .parallelepiped) {i c N : Nat}
    (h : s.order.Perm (List.range N)) (hi : s.order[i]? = some c) (hl : i < (k + 2) * (k + 2) * (k + 2)) :
    ∃ n0 n1 n2 : Nat, n0 ≤ k + 1 ∧ n1 ≤ k + 1 ∧ n2 ≤ k + 1 ∧
      (hexTypes k)[i]? = some (latIdx (k + 1) n0, latIdx (k + 1) n1, latIdx (k + 1) n2) ∧
      hexDof s c = .ok (tetF s.map ((n0 : K) / ((k + 1 : Nat) : K), (n1 : K) / ((k + 1 : Nat) : K), (n2 : K) / ((k + 1 : Nat) : K))) ∧
      ∀ x, hexPhysValue s x c = .ok (edgeFn (k + 1) n0 (tetFInv s.map x).1 * edgeFn (k + 1) n1 (tetFInv s.map x).2.1 *
        edgeFn (k + 1) n2 (tetFInv s.map x).2.2) := by
  obtain ⟨t, ht⟩ : ∃ t, (hexTypes k)[i]? = some t := ⟨_, List.getElem?_eq_getElem (by rw [hexTypes_length]; exact hl)⟩
  have hm := (mem_hexTypes k _).1 (List.mem_of_getElem? ht)
  have hinv : ∀ a, a < k + 2 → latIdx (k + 1) (latNum (k + 1) a) = a := fun a ha => latNum_inj (latIdx_lt (latNum_lt ha)) ha (latNum_latIdx (latNum_lt ha))
  refine ⟨latNum (k + 1) t.1, latNum (k + 1) t.2.1, latNum (k + 1) t.2.2, Nat.lt_succ_iff.1 (latNum_lt hm.1), Nat.lt_succ_iff.1 (latNum_lt hm.2.1),
    Nat.lt_succ_iff.1 (latNum_lt hm.2.2), ?_, ?_, fun x => ?_⟩
  · rw [hinv _ hm.1, hinv _ hm.2.1, hinv _ hm.2.2, ht]
  · apply hexDof_pos hr h hi
    show ((hexTypes k).map (hexPos K k))[i]? = _
    rw [List.getElem?_map, ht, Option.map_some, ← equi_lat k _ hm.1, ← equi_lat k _ hm.2.1, ← equi_lat k _ hm.2.2]
    rfl
  · unfold hexPhysValue
    rw [hkind]
    simp only
    rw [hexSource_ok h hi, except_ok_bind, hr]
    exact hex_value_lat k i t ht _

/-! ## Faces -/

section
variable [CharZero K]

theorem axis_moving {n m i : Nat} (hn : n ≤ m) (hi : i ≤ m) (hm : 1 ≤ m) {b0 b1 : Nat} (h0 : b0 ≤ 1) (h1 : b1 ≤ 1) (hne : b0 ≠ b1)
    (h : (n : K) / (m : K) = (b0 : K) + (i : K) / (m : K) * ((b1 : K) - (b0 : K))) (s : K) :
    edgeFn m n ((b0 : K) + s * ((b1 : K) - (b0 : K))) = edgeFn (K := K) m i s := by
  have hm0 : (m : K) ≠ 0 := Nat.cast_ne_zero.2 (by omega)
  have hb : (b0 = 0 ∧ b1 = 1) ∨ (b0 = 1 ∧ b1 = 0) := by omega
  rcases hb with ⟨rfl, rfl⟩ | ⟨rfl, rfl⟩
  · have : n = i := by
      rw [Nat.cast_zero, Nat.cast_one, zero_add, sub_zero, mul_one, div_left_inj' hm0] at h
      exact_mod_cast h
    subst this
    simp
  · have : n = m - i := by
      have h2 : (n : K) = ((m - i : Nat) : K) := by
        rw [Nat.cast_sub hi]
        field_simp at h
        simp at h
        linear_combination h
      exact_mod_cast h2
    subst this
    rw [← edgeFn_symm m i hi s]
    congr 1
    simp
    ring

theorem axis_fixed_one {n m : Nat} (hm : 1 ≤ m) (hn : n ≤ m) {b : Nat} (h0 : b ≤ 1) (h : (n : K) / (m : K) = (b : K)) : edgeFn (K := K) m n (b : K) = 1 := by
  have hm0 : (m : K) ≠ 0 := Nat.cast_ne_zero.2 (by omega)
  have hb : b = 0 ∨ b = 1 := by omega
  rcases hb with rfl | rfl
  · rw [Nat.cast_zero, edgeFn_zero, if_pos]
    rw [Nat.cast_zero, div_eq_zero_iff] at h
    exact_mod_cast h.resolve_right hm0
  · rw [Nat.cast_one, edgeFn_one _ _ hn, if_pos]
    rw [Nat.cast_one, div_eq_one_iff_eq hm0] at h
    exact_mod_cast h

theorem axis_fixed_zero {n m : Nat} (hm : 1 ≤ m) (hn : n ≤ m) {b : Nat} (h0 : b ≤ 1) (h : (n : K) / (m : K) ≠ (b : K)) : edgeFn (K := K) m n (b : K) = 0 := by
  have hm0 : (m : K) ≠ 0 := Nat.cast_ne_zero.2 (by omega)
  have hb : b = 0 ∨ b = 1 := by omega
  rcases hb with rfl | rfl
  · rw [Nat.cast_zero, edgeFn_zero, if_neg]
    rintro rfl
    simp at h
  · rw [Nat.cast_one, edgeFn_one _ _ hn, if_neg]
    rintro rfl
    simp [hm0] at h

theorem axis_lattice {n m : Nat} (hn : n ≤ m) (hm : 1 ≤ m) {b0 b1 : Nat} (h0 : b0 ≤ 1) (h1 : b1 ≤ 1) (hne : b0 ≠ b1) :
    ∃ i, i ≤ m ∧ (n : K) / (m : K) = (b0 : K) + (i : K) / (m : K) * ((b1 : K) - (b0 : K)) := by
  have hm0 : (m : K) ≠ 0 := Nat.cast_ne_zero.2 (by omega)
  have hb : (b0 = 0 ∧ b1 = 1) ∨ (b0 = 1 ∧ b1 = 0) := by omega
  rcases hb with ⟨rfl, rfl⟩ | ⟨rfl, rfl⟩
  · exact ⟨n, hn, by simp⟩
  · refine ⟨m - n, by omega, ?_⟩
    rw [Nat.cast_sub hn]
    field_simp
    push_cast
    ring

theorem cubeBits_le {v : Nat} (hv : v < 8) : (cubeBits v).1 ≤ 1 ∧ (cubeBits v).2.1 ≤ 1 ∧ (cubeBits v).2.2 ≤ 1 := by
  interval_cases v <;> decide

theorem cubeBits_inj {v w : Nat} (hv : v < 8) (hw : w < 8) (h : cubeBits v = cubeBits w) : v = w := by
  interval_cases v <;> interval_cases w <;> first | rfl | exact absurd h (by decide)

omit [CharZero K] in
theorem framePoint_cube (o a b : Nat) (q : K × K) : framePoint (cubeVertex K o) (cubeVertex K a) (cubeVertex K b) q.1 q.2 =
    (((cubeBits o).1 : K) + q.1 * (((cubeBits a).1 : K) - ((cubeBits o).1 : K)) + q.2 * (((cubeBits b).1 : K) - ((cubeBits o).1 : K)),
      ((cubeBits o).2.1 : K) + q.1 * (((cubeBits a).2.1 : K) - ((cubeBits o).2.1 : K)) + q.2 * (((cubeBits b).2.1 : K) - ((cubeBits o).2.1 : K)),
      ((cubeBits o).2.2 : K) + q.1 * (((cubeBits a).2.2 : K) - ((cubeBits o).2.2 : K)) + q.2 * (((cubeBits b).2.2 : K) - ((cubeBits o).2.2 : K))) := by
  simp [framePoint, cubeVertex]

/-- The trace on a face of the cube of a product of 1D functions: either its lattice point is on the face and the trace is the product of
the corresponding 1D functions in the frame, or it is zero. -/
theorem cube_trace {m : Nat} (hm : 1 ≤ m) {n0 n1 n2 : Nat} (h0 : n0 ≤ m) (h1 : n1 ≤ m) (h2 : n2 ≤ m) {o a b : Nat} (ha : CubeAdj o a) (hb : CubeAdj o b)
    (hab : a ≠ b) :
    (∃ i j : Nat, i ≤ m ∧ j ≤ m ∧
      ((n0 : K) / (m : K), (n1 : K) / (m : K), (n2 : K) / (m : K)) =
        framePoint (cubeVertex K o) (cubeVertex K a) (cubeVertex K b) ((i : K) / (m : K)) ((j : K) / (m : K)) ∧
      ∀ q : K × K, ∀ x, x = framePoint (cubeVertex K o) (cubeVertex K a) (cubeVertex K b) q.1 q.2 →
        edgeFn m n0 x.1 * edgeFn m n1 x.2.1 * edgeFn m n2 x.2.2 = edgeFn m i q.1 * edgeFn m j q.2) ∨
    ((∀ q : K × K, ((n0 : K) / (m : K), (n1 : K) / (m : K), (n2 : K) / (m : K)) ≠ framePoint (cubeVertex K o) (cubeVertex K a) (cubeVertex K b) q.1 q.2) ∧
      ∀ q : K × K, ∀ x, x = framePoint (cubeVertex K o) (cubeVertex K a) (cubeVertex K b) q.1 q.2 →
        edgeFn m n0 x.1 * edgeFn m n1 x.2.1 * edgeFn m n2 x.2.2 = 0) := by
  obtain ⟨ho, ha8, ha⟩ := ha
  obtain ⟨-, hb8, hb⟩ := hb
  have lo := cubeBits_le ho
  have la := cubeBits_le ha8
  have lb := cubeBits_le hb8
  have hne : cubeBits a ≠ cubeBits b := fun h => hab (cubeBits_inj ha8 hb8 h)
  have hfp := fun q : K × K => framePoint_cube (K := K) o a b q
  generalize cubeVertex K o = O at *
  generalize cubeVertex K a = A at *
  generalize cubeVertex K b = B at *
  generalize cubeBits o = vo at *
  generalize cubeBits a = va at *
  generalize cubeBits b = vb at *
  obtain ⟨o0, o1, o2⟩ := vo
  obtain ⟨a0, a1, a2⟩ := va
  obtain ⟨b0, b1, b2⟩ := vb
  simp only at *
  rcases ha with ⟨x1, x2, x3⟩ | ⟨x1, x2, x3⟩ | ⟨x1, x2, x3⟩ <;> rcases hb with ⟨y1, y2, y3⟩ | ⟨y1, y2, y3⟩ | ⟨y1, y2, y3⟩
  · exact absurd (by rw [show a0 = b0 by omega, ← x2, ← x3, y2, y3]) hne
  · subst x2 x3 y1 y3
    simp only [sub_self, mul_zero, add_zero] at hfp
    by_cases hc : (n2 : K) / (m : K) = (o2 : K)
    · left
      obtain ⟨i, hi, ei⟩ := axis_lattice (K := K) h0 hm lo.1 la.1 x1
      obtain ⟨j, hj, ej⟩ := axis_lattice (K := K) h1 hm lo.2.1 lb.2.1 y2
      refine ⟨i, j, hi, hj, ?_, ?_⟩
      · rw [hfp ((i : K) / (m : K), (j : K) / (m : K)), hc, ei, ej]
      · rintro q x rfl
        rw [hfp q]
        simp only
        rw [axis_fixed_one hm h2 lo.2.2 hc, axis_moving h0 hi hm lo.1 la.1 x1 ei, axis_moving h1 hj hm lo.2.1 lb.2.1 y2 ej]
        ring
    · right
      refine ⟨fun q h => hc ?_, ?_⟩
      · rw [hfp q] at h
        exact congrArg (fun x => x.2.2) h
      · rintro q x rfl
        rw [hfp q]
        simp only
        rw [axis_fixed_zero hm h2 lo.2.2 hc]
        ring
  · subst x2 x3 y1 y2
    simp only [sub_self, mul_zero, add_zero] at hfp
    by_cases hc : (n1 : K) / (m : K) = (o1 : K)
    · left
      obtain ⟨i, hi, ei⟩ := axis_lattice (K := K) h0 hm lo.1 la.1 x1
      obtain ⟨j, hj, ej⟩ := axis_lattice (K := K) h2 hm lo.2.2 lb.2.2 y3
      refine ⟨i, j, hi, hj, ?_, ?_⟩
      · rw [hfp ((i : K) / (m : K), (j : K) / (m : K)), hc, ei, ej]
      · rintro q x rfl
        rw [hfp q]
        simp only
        rw [axis_fixed_one hm h1 lo.2.1 hc, axis_moving h0 hi hm lo.1 la.1 x1 ei, axis_moving h2 hj hm lo.2.2 lb.2.2 y3 ej]
        ring
    · right
      refine ⟨fun q h => hc ?_, ?_⟩
      · rw [hfp q] at h
        exact congrArg (fun x => x.2.1) h
      · rintro q x rfl
        rw [hfp q]
        simp only
        rw [axis_fixed_zero hm h1 lo.2.1 hc]
        ring
  · subst x1 x3 y2 y3
    simp only [sub_self, mul_zero, add_zero] at hfp
    by_cases hc : (n2 : K) / (m : K) = (o2 : K)
    · left
      obtain ⟨i, hi, ei⟩ := axis_lattice (K := K) h1 hm lo.2.1 la.2.1 x2
      obtain ⟨j, hj, ej⟩ := axis_lattice (K := K) h0 hm lo.1 lb.1 y1
      refine ⟨i, j, hi, hj, ?_, ?_⟩
      · rw [hfp ((i : K) / (m : K), (j : K) / (m : K)), hc, ei, ej]
      · rintro q x rfl
        rw [hfp q]
        simp only
        rw [axis_fixed_one hm h2 lo.2.2 hc, axis_moving h1 hi hm lo.2.1 la.2.1 x2 ei, axis_moving h0 hj hm lo.1 lb.1 y1 ej]
        ring
    · right
      refine ⟨fun q h => hc ?_, ?_⟩
      · rw [hfp q] at h
        exact congrArg (fun x => x.2.2) h
      · rintro q x rfl
        rw [hfp q]
        simp only
        rw [axis_fixed_zero hm h2 lo.2.2 hc]
        ring
  · exact absurd (by rw [show a1 = b1 by omega, ← x1, ← x3, y1, y3]) hne
  · subst x1 x3 y1 y2
    simp only [sub_self, mul_zero, add_zero] at hfp
    by_cases hc : (n0 : K) / (m : K) = (o0 : K)
    · left
      obtain ⟨i, hi, ei⟩ := axis_lattice (K := K) h1 hm lo.2.1 la.2.1 x2
      obtain ⟨j, hj, ej⟩ := axis_lattice (K := K) h2 hm lo.2.2 lb.2.2 y3
      refine ⟨i, j, hi, hj, ?_, ?_⟩
      · rw [hfp ((i : K) / (m : K), (j : K) / (m : K)), hc, ei, ej]
      · rintro q x rfl
        rw [hfp q]
        simp only
        rw [axis_fixed_one hm h0 lo.1 hc, axis_moving h1 hi hm lo.2.1 la.2.1 x2 ei, axis_moving h2 hj hm lo.2.2 lb.2.2 y3 ej]
        ring
    · right
      refine ⟨fun q h => hc ?_, ?_⟩
      · rw [hfp q] at h
        exact congrArg (fun x => x.1) h
      · rintro q x rfl
        rw [hfp q]
        simp only
        rw [axis_fixed_zero hm h0 lo.1 hc]
        ring
  · subst x1 x2 y2 y3
    simp only [sub_self, mul_zero, add_zero] at hfp
    by_cases hc : (n1 : K) / (m : K) = (o1 : K)
    · left
      obtain ⟨i, hi, ei⟩ := axis_lattice (K := K) h2 hm lo.2.2 la.2.2 x3
      obtain ⟨j, hj, ej⟩ := axis_lattice (K := K) h0 hm lo.1 lb.1 y1
      refine ⟨i, j, hi, hj, ?_, ?_⟩
      · rw [hfp ((i : K) / (m : K), (j : K) / (m : K)), hc, ei, ej]
      · rintro q x rfl
        rw [hfp q]
        simp only
        rw [axis_fixed_one hm h1 lo.2.1 hc, axis_moving h2 hi hm lo.2.2 la.2.2 x3 ei, axis_moving h0 hj hm lo.1 lb.1 y1 ej]
        ring
    · right
      refine ⟨fun q h => hc ?_, ?_⟩
      · rw [hfp q] at h
        exact congrArg (fun x => x.2.1) h
      · rintro q x rfl
        rw [hfp q]
        simp only
        rw [axis_fixed_zero hm h1 lo.2.1 hc]
        ring
  · subst x1 x2 y1 y3
    simp only [sub_self, mul_zero, add_zero] at hfp
    by_cases hc : (n0 : K) / (m : K) = (o0 : K)
    · left
      obtain ⟨i, hi, ei⟩ := axis_lattice (K := K) h2 hm lo.2.2 la.2.2 x3
      obtain ⟨j, hj, ej⟩ := axis_lattice (K := K) h1 hm lo.2.1 lb.2.1 y2
      refine ⟨i, j, hi, hj, ?_, ?_⟩
      · rw [hfp ((i : K) / (m : K), (j : K) / (m : K)), hc, ei, ej]
      · rintro q x rfl
        rw [hfp q]
        simp only
        rw [axis_fixed_one hm h0 lo.1 hc, axis_moving h2 hi hm lo.2.2 la.2.2 x3 ei, axis_moving h1 hj hm lo.2.1 lb.2.1 y2 ej]
        ring
    · right
      refine ⟨fun q h => hc ?_, ?_⟩
      · rw [hfp q] at h
        exact congrArg (fun x => x.1) h
      · rintro q x rfl
        rw [hfp q]
        simp only
        rw [axis_fixed_zero hm h0 lo.1 hc]
        ring
  · exact absurd (by rw [show a2 = b2 by omega, ← x1, ← x2, y1, y2]) hne

end

end PolyDiM
