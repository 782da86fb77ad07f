import Verif.Lemmas.Trace
import Verif.Props.FemQuad
import Verif.Props.FemTriangleSpace

/-!
# C57: traces of the two-dimensional Lagrange elements on their edges

About `triPhysValue`, `triOnEdge` of `Verif/Model/FemTriangle.lean` and `quadPhysValue`, `quadOnEdge` of `Verif/Model/FemQuad.lean`.
-/

namespace PolyDiM
open Finset Spec

/-- The local DOF of a polygon with `n` vertices that corresponds to DOF `a` (first end, last end, interior) of its edge `e`, in the direction
in which the mesh stores the edge, for order `k`. -/
def Spec.edgeDof (n k : Nat) (dir : Bool) (e a : Nat) : Nat :=
  if a = 0 then (if dir then e else (e + 1) % n) else if a = 1 then (if dir then (e + 1) % n else e) else n + e * (k - 1) + (a - 2)

section
variable {K : Type} [Field K] [CharZero K]

theorem tri_edge_value (k e : Nat) (he : e < 3) (i : Nat) (t : TriType) (ht : (triTypes k)[i]? = some t) (τ : K) :
    let p := segPoint (refVertex (K := K) e) (refVertex (e + 1)) τ
    let comp := fun j => if j % 3 = 0 then t.1 else if j % 3 = 1 then t.2.1 else t.2.2
    triValue (triRef K k) p.1 p.2 i = .ok (if comp (e + 2) = 0 then edgeFn (k + 1) (comp (e + 1)) τ else 0) := by
  intro p comp
  rw [triValue_ok ht]
  congr 1
  have hs := triTypes_sum ht
  obtain ⟨a, b, c⟩ := t
  simp only at hs
  unfold triPhi edgeFn
  simp only [p, comp, segPoint, refVertex]
  clear p comp
  interval_cases e
  · norm_num
    rw [bq_zero_left]
    split_ifs with h
    · subst h
      rw [show k + 1 - b = a by omega, mul_one]
    · simp
  · norm_num
    rw [bq_zero_left]
    split_ifs with h
    · subst h
      rw [show k + 1 - c = b by omega, one_mul]
    · simp
  · norm_num
    rw [bq_zero_left]
    split_ifs with h
    · subst h
      rw [show k + 1 - a = c by omega, mul_one, mul_comm]
    · simp

/-- **C57 for triangles.** On every edge, in the direction in which the mesh stores it, the basis functions of the two ends and of the
edge DOFs are the boundary functions returned by `ComputeBasisFunctionsValuesOnEdge`, in its order, and every other basis function
vanishes. -/
theorem C57_triangle (k : Nat) (hk : 1 ≤ k) (d : TriData K) (hd : triCreate K k = .ok d) (dirs : List Bool) (hn : dirs.length = 3)
    (m : TriMap K) (hm : IsInverse m) (s : TriSpace K) (hs : triSpace d 3 dirs m = .ok s) (e : Nat) (dir : Bool) (he : dirs[e]? = some dir)
    (t : K) :
    let P := segPoint (meshEdge m dir e).1 (meshEdge m dir e).2 t
    (∀ a, a ≤ k → ∃ v, triOnEdge d t a = .ok v ∧ triPhysValue s P (edgeDof 3 k dir e a) = .ok v) ∧
      ∀ c, c < d.numBasis → (∀ a, a ≤ k → edgeDof 3 k dir e a ≠ c) → triPhysValue s P c = .ok 0 := by
  intro P
  have he3 : e < 3 := by
    have := (List.getElem?_eq_some_iff.1 he).1
    omega
  obtain ⟨d', hd', -, -, -, -, hnb, -, -, hnod, hmem, -, h0, h1, h2, hedge, -⟩ := C32_layout (K := K) k hk
  rw [hd] at hd'
  injection hd' with hd'
  subst hd'
  obtain ⟨k, rfl⟩ : ∃ m, k = m + 1 := ⟨k - 1, by omega⟩
  obtain ⟨⟨s', hs', href, hmap, hperm⟩, -⟩ := C37_permutation (k + 1) hk d hd dirs hn m
  rw [hs] at hs'
  injection hs' with hs'
  subst hs'
  have hord : s.order = meshOrder k (triN2 k) (fun e => dirs.getD e true) := by
    rw [triCreate_ok] at hd
    injection hd with hd
    change triRef K k = d at hd
    subst hd
    rw [triSpace_ok k dirs (by omega) m] at hs
    injection hs with hs
    rw [← hs]
  rw [triCreate_ok] at hd
  injection hd with hd
  change triRef K k = d at hd
  subst hd
  have hnd : s.order.Nodup := hperm.nodup_iff.2 List.nodup_range
  have hlen : s.order.length = (triRef K k).numBasis := by rw [hperm.length_eq, List.length_range]
  have hdir : dirs.getD e true = dir := by simp [he]
  rw [show (triRef K k).types = triTypes k from rfl] at hnod hedge
  -- the reference point
  let τ : K := if dir then t else 1 - t
  have hF : triFInv m P = segPoint (refVertex (K := K) e) (refVertex (e + 1)) τ := by
    have : P = triF m (segPoint (refVertex (K := K) e) (refVertex (e + 1)) τ) := by
      unfold P triF segPoint meshEdge triVertex τ
      cases dir <;> ext <;> simp only [if_true, if_false, Bool.false_eq_true] <;> ring
    rw [this, triFInv_F hm]
  let comp : TriType → Nat → Nat := fun t j => if j % 3 = 0 then t.1 else if j % 3 = 1 then t.2.1 else t.2.2
  have hval : ∀ (c i : Nat) (ty : TriType), s.order[c]? = some i → (triTypes k)[i]? = some ty →
      triPhysValue s P c = .ok (if comp ty (e + 2) = 0 then edgeFn (k + 1) (comp ty (e + 1)) τ else 0) := by
    intro c i ty hc hi
    unfold triPhysValue
    rw [(unchecked_ok_iff _ _ _).2 hc, except_ok_bind, href, hmap, hF]
    exact tri_edge_value k e he3 i ty hi τ
  -- the types on the edge
  let M : Nat → Nat := fun a => if dir then latNum (k + 1) a else k + 1 - latNum (k + 1) a
  have hA : ∀ a, a < k + 2 → ∃ i ty, s.order[edgeDof 3 (k + 1) dir e a]? = some i ∧ (triTypes k)[i]? = some ty ∧ comp ty (e + 2) = 0 ∧
      comp ty (e + 1) = M a := by
    intro a ha
    change (triTypes k)[0]? = _ at h0
    change (triTypes k)[1]? = _ at h1
    change (triTypes k)[2]? = _ at h2
    have hv : ∀ v, v < 3 → ∃ ty, (triTypes k)[v]? = some ty ∧ comp ty v = k + 1 ∧ comp ty (v + 1) = 0 ∧ comp ty (v + 2) = 0 := by
      intro v hv
      interval_cases v
      · exact ⟨_, h0, rfl, rfl, rfl⟩
      · exact ⟨_, h1, rfl, rfl, rfl⟩
      · exact ⟨_, h2, rfl, rfl, rfl⟩
    have hmod : ∀ ty a b, a % 3 = b % 3 → comp ty a = comp ty b := by
      intro ty a b h
      simp only [comp, h]
    have hvert : ∀ v, v < 3 → s.order[v]? = some v := fun v hv => by rw [hord]; exact meshOrder_vertex _ _ _ v hv
    have hfirst : ∃ i ty, s.order[e]? = some i ∧ (triTypes k)[i]? = some ty ∧ comp ty (e + 2) = 0 ∧ comp ty (e + 1) = 0 := by
      obtain ⟨ty, h, -, h1, h2⟩ := hv e he3
      exact ⟨e, ty, hvert e he3, h, h2, h1⟩
    have hlast : ∃ i ty, s.order[(e + 1) % 3]? = some i ∧ (triTypes k)[i]? = some ty ∧ comp ty (e + 2) = 0 ∧ comp ty (e + 1) = k + 1 := by
      obtain ⟨ty, h, h0, h1, h2⟩ := hv ((e + 1) % 3) (Nat.mod_lt _ (by omega))
      refine ⟨_, ty, hvert _ (Nat.mod_lt _ (by omega)), h, ?_, ?_⟩
      · rw [← h1]; exact hmod _ _ _ (by omega)
      · rw [← h0]; exact hmod _ _ _ (by omega)
    rcases a with _ | _ | a
    · cases dir
      · exact hlast
      · exact hfirst
    · cases dir
      · simp only [edgeDof, M, latNum]
        simpa using hfirst
      · exact hlast
    · have hak : a < k := by omega
      have ho := meshOrder_edge k (triN2 k) (fun e => dirs.getD e true) e a he3 hak
      rw [← hord] at ho
      have hed : edgeDof 3 (k + 1) dir e (a + 1 + 1) = 3 + e * k + a := by simp [edgeDof]
      have htypes : ∀ j, j < k → ∃ ty, (triTypes k)[3 + e * k + j]? = some ty ∧ comp ty (e + 2) = 0 ∧ comp ty (e + 1) = j + 1 := by
        intro j hj
        obtain ⟨g0, g1, g2⟩ := hedge j hj
        interval_cases e
        · exact ⟨_, by simpa using g0, rfl, rfl⟩
        · exact ⟨_, by simpa using g1, rfl, rfl⟩
        · exact ⟨_, by simpa using g2, rfl, rfl⟩
      rw [hed]
      simp only [hdir] at ho
      have hM : M (a + 1 + 1) = if dir then a + 1 else k - 1 - a + 1 := by
        cases dir
        · simp [M, latNum]; omega
        · simp [M, latNum]
      cases dir
      · obtain ⟨ty, g1, g2, g3⟩ := htypes (k - 1 - a) (by omega)
        exact ⟨_, ty, ho, g1, g2, by rw [g3, hM]; rfl⟩
      · obtain ⟨ty, g1, g2, g3⟩ := htypes a hak
        exact ⟨_, ty, ho, g1, g2, by rw [g3, hM]; rfl⟩
  have hMn : ∀ a, a < k + 2 → edgeFn (K := K) (k + 1) (M a) τ = edgeFn (k + 1) (latNum (k + 1) a) t := by
    intro a ha
    have := latNum_lt ha
    cases dir
    · exact edgeFn_symm _ _ (by omega) t
    · rfl
  constructor
  · intro a ha
    refine ⟨edgeFn (k + 1) (latNum (k + 1) a) t, ?_, ?_⟩
    · unfold triOnEdge
      rw [show (triRef K k).order = k + 1 from rfl, bndRef_ok, except_ok_bind]
      exact fem1Value_lat k a (by omega) t
    · obtain ⟨i, ty, g1, g2, g3, g4⟩ := hA a (by omega)
      rw [hval _ i ty g1 g2, if_pos g3, g4, hMn a (by omega)]
  · intro c hc hne
    obtain ⟨i, hi⟩ : ∃ b, s.order[c]? = some b := ⟨_, List.getElem?_eq_getElem (by omega)⟩
    have hil : i < (triRef K k).numBasis := List.mem_range.1 (hperm.mem_iff.1 (List.mem_of_getElem? hi))
    have hl := triTypes_length k
    have hil : i < (triTypes k).length := by rw [hl]; exact hil
    obtain ⟨ty, hty⟩ : ∃ b, (triTypes k)[i]? = some b := ⟨_, List.getElem?_eq_getElem hil⟩
    rw [hval c i ty hi hty]
    split_ifs with h
    · exfalso
      have hsum := triTypes_sum hty
      have hle : comp ty (e + 1) ≤ k + 1 := by simp only [comp]; split_ifs <;> omega
      let a := latIdx (k + 1) (if dir then comp ty (e + 1) else k + 1 - comp ty (e + 1))
      have ha : a < k + 2 := latIdx_lt (by split_ifs <;> omega)
      have hMa : M a = comp ty (e + 1) := by
        simp only [M, a]
        cases dir
        · simp only [Bool.false_eq_true, if_false]
          rw [latNum_latIdx (by omega)]
          omega
        · simp only [if_true]
          exact latNum_latIdx (by omega)
      obtain ⟨i', ty', g1, g2, g3, g4⟩ := hA a ha
      have hsum' := triTypes_sum g2
      have hee : ty' = ty := by
        rw [hMa] at g4
        obtain ⟨x, y, z⟩ := ty
        obtain ⟨x', y', z'⟩ := ty'
        interval_cases e <;> simp [comp] at g3 g4 h hsum hsum' ⊢ <;> omega
      subst hee
      obtain ⟨q1, q2⟩ := List.getElem?_eq_some_iff.1 hty
      obtain ⟨q3, q4⟩ := List.getElem?_eq_some_iff.1 g2
      have hii : i = i' := (List.Nodup.getElem_inj_iff hnod).1 (q2.trans q4.symm)
      subst hii
      obtain ⟨q1, q2⟩ := List.getElem?_eq_some_iff.1 hi
      obtain ⟨q3, q4⟩ := List.getElem?_eq_some_iff.1 g1
      exact hne a (by omega) ((List.Nodup.getElem_inj_iff hnd).1 (q4.trans q2.symm))
    · rfl

/-- The vertices of the reference square. -/
def Spec.squareVertex (e : Nat) : K × K := [(0, 0), (1, 0), (1, 1), (0, 1)].getD e (0, 0)

theorem quad_value_lat (k i : Nat) (ty : Nat × Nat) (h : (quadTypes k)[i]? = some ty) (x y : K) : quadValue (quadRef K k) x y i =
    .ok (edgeFn (k + 1) (latNum (k + 1) ty.1) x * edgeFn (k + 1) (latNum (k + 1) ty.2) y) := by
  have hm := (mem_quadTypes k _).1 (List.mem_of_getElem? h)
  unfold quadValue
  rw [(unchecked_ok_iff _ _ _).2 (show (quadRef K k).types[i]? = some ty from h), except_ok_bind,
    show (quadRef K k).bnd = bndRef K k from rfl, fem1Value_lat k _ hm.1, except_ok_bind, fem1Value_lat k _ hm.2, except_ok_bind]

/-- **C57 for quadrilaterals.** The same statement; `q` is the point of the reference square that corresponds to the point of the edge. -/
theorem C57_quadrilateral (k : Nat) (hk : 1 ≤ k) (d : QuadData K) (hd : quadCreate K k = .ok d) (isZero : K → Bool)
    (hz : ∀ a, isZero a = true → a = 0) (V : Nat → K × K) (dirs : List Bool) (hn : dirs.length = 4) (s : QuadSpace K)
    (hs : quadSpace d isZero 4 V dirs = .ok s) (e : Nat) (dir : Bool) (he : dirs[e]? = some dir) (t : K) :
    let q := segPoint (polyEdge 4 (squareVertex (K := K)) dir e).1 (polyEdge 4 squareVertex dir e).2 t
    quadF s.kind s.vertices q = segPoint (polyEdge 4 V dir e).1 (polyEdge 4 V dir e).2 t ∧
      (∀ a, a ≤ k → ∃ v, quadOnEdge d t a = .ok v ∧ quadPhysValue s q (edgeDof 4 k dir e a) = .ok v) ∧
      ∀ c, c < d.numBasis → (∀ a, a ≤ k → edgeDof 4 k dir e a ≠ c) → quadPhysValue s q c = .ok 0 := by
  intro q
  have he4 : e < 4 := by
    have := (List.getElem?_eq_some_iff.1 he).1
    omega
  obtain ⟨d', hd', -, -, -, -, hnb, -, -, hnod, hmem, -, -, hedge, -⟩ := C39_layout (K := K) k hk
  rw [hd] at hd'
  injection hd' with hd'
  subst hd'
  obtain ⟨k, rfl⟩ : ∃ m, k = m + 1 := ⟨k - 1, by omega⟩
  obtain ⟨⟨s', hs', href, hV, hkind, hperm, -⟩, -⟩ := C40_involution (k + 1) hk d hd isZero V dirs hn
  rw [hs] at hs'
  injection hs' with hs'
  subst hs'
  have hord : s.order = meshRuns 4 k [dirs.getD 0 true, dirs.getD 1 true, !dirs.getD 2 true, !dirs.getD 3 true] (k * k) := by
    rw [quadCreate_ok] at hd
    injection hd with hd
    subst hd
    rw [quadSpace_ok k isZero V dirs (by omega)] at hs
    injection hs with hs
    rw [← hs]
  rw [quadCreate_ok] at hd
  injection hd with hd
  subst hd
  rw [show (quadRef K k).types = quadTypes k from rfl] at hnod hedge
  have hnd : s.order.Nodup := hperm.nodup_iff.2 List.nodup_range
  have hlen : s.order.length = (quadRef K k).numBasis := by rw [hperm.length_eq, List.length_range]
  have hdir : dirs.getD e true = dir := by simp [he]
  refine ⟨?_, ?_⟩
  · rw [hV, hkind]
    unfold quadKind
    split_ifs with h
    · rw [Bool.and_eq_true] at h
      have h1 := hz _ h.1
      have h2 := hz _ h.2
      unfold quadF
      have e1 : (V 2).1 = (V 1).1 + (V 3).1 - (V 0).1 := by linear_combination h1
      have e2 : (V 2).2 = (V 1).2 + (V 3).2 - (V 0).2 := by linear_combination h2
      simp only [q]
      clear q
      interval_cases e <;> cases dir <;> simp [segPoint, polyEdge, squareVertex, e1, e2] <;> constructor <;> ring
    · unfold quadF
      simp only [q]
      clear q
      interval_cases e <;> cases dir <;> simp [segPoint, polyEdge, squareVertex]
      all_goals try (constructor <;> ring)
  -- the free and the fixed coordinate of edge `e`
  let free : Nat × Nat → Nat := fun ty => if e % 2 = 0 then ty.1 else ty.2
  let fixed : Nat × Nat → Nat := fun ty => if e % 2 = 0 then ty.2 else ty.1
  let side : Nat := if e = 0 ∨ e = 3 then 0 else 1
  let same : Bool := dir == decide (e < 2)
  have hfree : ∀ ty ∈ quadTypes k, free ty < k + 2 ∧ fixed ty < k + 2 := by
    intro ty h
    have := (mem_quadTypes k ty).1 h
    simp only [free, fixed]
    split_ifs <;> omega
  have hval : ∀ (c i : Nat) (ty : Nat × Nat), s.order[c]? = some i → (quadTypes k)[i]? = some ty →
      quadPhysValue s q c = .ok (if fixed ty = side then
        edgeFn (k + 1) (if same then latNum (k + 1) (free ty) else k + 1 - latNum (k + 1) (free ty)) t else 0) := by
    intro c i ty hc hi
    have hm := (mem_quadTypes k ty).1 (List.mem_of_getElem? hi)
    have l1 := latNum_lt hm.1
    have l2 := latNum_lt hm.2
    have hf0 : ∀ a, a < k + 2 → (latNum (k + 1) a = 0 ↔ a = 0) := by
      intro a ha
      rcases a with _ | _ | a <;> simp [latNum]
    have hf1 : ∀ a, a < k + 2 → (latNum (k + 1) a = k + 1 ↔ a = 1) := by
      intro a ha
      rcases a with _ | _ | a
      · simp [latNum]
      · simp [latNum]
      · simp [latNum]; omega
    unfold quadPhysValue
    rw [(unchecked_ok_iff _ _ _).2 hc, except_ok_bind, href, quad_value_lat k i ty hi]
    congr 1
    have hs1 := edgeFn_symm (K := K) (k + 1) (latNum (k + 1) ty.1) (by omega) (1 - t)
    have hs2 := edgeFn_symm (K := K) (k + 1) (latNum (k + 1) ty.2) (by omega) (1 - t)
    rw [sub_sub_cancel] at hs1 hs2
    have z1 := edgeFn_zero (K := K) (k + 1) (latNum (k + 1) ty.1)
    have z2 := edgeFn_zero (K := K) (k + 1) (latNum (k + 1) ty.2)
    have o1 := edgeFn_one (K := K) (k + 1) (latNum (k + 1) ty.1) (by omega)
    have o2 := edgeFn_one (K := K) (k + 1) (latNum (k + 1) ty.2) (by omega)
    simp only [hf0 _ hm.1, hf0 _ hm.2, hf1 _ hm.1, hf1 _ hm.2] at z1 z2 o1 o2
    simp only [q, free, fixed, side, same]
    clear q free fixed side same hfree
    interval_cases e <;> cases dir <;>
      simp [segPoint, polyEdge, squareVertex, z1, z2, o1, o2, hs1, hs2]
  let M : Nat → Nat := fun a => if same then latNum (k + 1) a else k + 1 - latNum (k + 1) a
  have hMM : ∀ a, a < k + 2 → (if same then M a else k + 1 - M a) = latNum (k + 1) a := by
    intro a ha
    have := latNum_lt ha
    simp only [M]
    cases same
    · simp only [Bool.false_eq_true, if_false]; omega
    · rfl
  have hA : ∀ a, a < k + 2 → ∃ i ty, s.order[edgeDof 4 (k + 1) dir e a]? = some i ∧ (quadTypes k)[i]? = some ty ∧ fixed ty = side ∧
      latNum (k + 1) (free ty) = M a := by
    intro a ha
    have hvert : ∀ v, v < 4 → s.order[v]? = some v := fun v hv => by rw [hord]; exact meshRuns_vertex _ _ _ _ v hv
    have hvt : ∀ v, v < 4 → (quadTypes k)[v]? = [(0, 0), (1, 0), (1, 1), (0, 1)][v]? := by
      intro v hv
      unfold quadTypes
      rw [List.append_assoc, List.getElem?_append_left (by simpa using hv)]
    rcases a with _ | _ | a
    · refine ⟨_, _, hvert _ (by simp only [edgeDof, if_true]; split_ifs <;> omega), hvt _ ?_ |>.trans (List.getElem?_eq_getElem ?_), ?_, ?_⟩
      · simp only [edgeDof, if_true]; split_ifs <;> omega
      · simp only [edgeDof, if_true]; simp; split_ifs <;> omega
      · simp only [fixed, side, edgeDof]
        clear * - he4
        interval_cases e <;> cases dir <;> rfl
      · simp only [M, same, free, edgeDof, latNum]
        clear * - he4
        interval_cases e <;> cases dir <;> simp
    · refine ⟨_, _, hvert _ (by simp [edgeDof]; split_ifs <;> omega), hvt _ ?_ |>.trans (List.getElem?_eq_getElem ?_), ?_, ?_⟩
      · simp [edgeDof]; split_ifs <;> omega
      · simp [edgeDof]; split_ifs <;> omega
      · simp only [fixed, side, edgeDof]
        clear * - he4
        interval_cases e <;> cases dir <;> rfl
      · simp only [M, same, free, edgeDof, latNum]
        clear * - he4
        interval_cases e <;> cases dir <;> simp
    · have hak : a < k := by omega
      have ho := meshRuns_edge 4 k [dirs.getD 0 true, dirs.getD 1 true, !dirs.getD 2 true, !dirs.getD 3 true] (k * k) e a same
        (by simp only [same]; clear * - he4 hdir; interval_cases e <;> cases dir <;> simp at hdir <;> simp [hdir]) hak
      rw [← hord] at ho
      have hed : edgeDof 4 (k + 1) dir e (a + 1 + 1) = 4 + e * k + a := by simp [edgeDof]
      have htypes : ∀ j, j < k → ∃ ty, (quadTypes k)[4 + e * k + j]? = some ty ∧ fixed ty = side ∧ free ty = j + 2 := by
        intro j hj
        obtain ⟨g0, g1, g2, g3⟩ := hedge j hj
        simp only [fixed, side, free]
        clear * - he4 g0 g1 g2 g3
        interval_cases e
        · exact ⟨_, by simpa using g0, rfl, rfl⟩
        · exact ⟨_, by simpa using g1, rfl, rfl⟩
        · exact ⟨_, by simpa using g2, rfl, rfl⟩
        · exact ⟨_, by simpa using g3, rfl, rfl⟩
      rw [hed]
      simp only [M]
      by_cases hb : same = true
      · rw [if_pos hb] at ho ⊢
        obtain ⟨ty, g1, g2, g3⟩ := htypes a hak
        exact ⟨_, ty, ho, g1, g2, by rw [g3]⟩
      · rw [if_neg hb] at ho ⊢
        obtain ⟨ty, g1, g2, g3⟩ := htypes (k - 1 - a) (by omega)
        exact ⟨_, ty, ho, g1, g2, by rw [g3]; simp [latNum]; omega⟩
  constructor
  · intro a ha
    refine ⟨edgeFn (k + 1) (latNum (k + 1) a) t, fem1Value_lat k a (by omega) t, ?_⟩
    obtain ⟨i, ty, g1, g2, g3, g4⟩ := hA a (by omega)
    rw [hval _ i ty g1 g2, if_pos g3, g4, hMM a (by omega)]
  · intro c hc hne
    obtain ⟨i, hi⟩ : ∃ b, s.order[c]? = some b := ⟨_, List.getElem?_eq_getElem (by omega)⟩
    have hil : i < (quadRef K k).numBasis := List.mem_range.1 (hperm.mem_iff.1 (List.mem_of_getElem? hi))
    have hl := quadTypes_length k
    have hil : i < (quadTypes k).length := by rw [hl]; exact hil
    obtain ⟨ty, hty⟩ : ∃ b, (quadTypes k)[i]? = some b := ⟨_, List.getElem?_eq_getElem hil⟩
    rw [hval c i ty hi hty]
    by_cases h : fixed ty = side
    · exfalso
      have hf := hfree ty (List.mem_of_getElem? hty)
      have hlt := latNum_lt hf.1
      let a := latIdx (k + 1) (if same then latNum (k + 1) (free ty) else k + 1 - latNum (k + 1) (free ty))
      have ha : a < k + 2 := latIdx_lt (by split_ifs <;> omega)
      have hMa : M a = latNum (k + 1) (free ty) := by
        simp only [M, a]
        rw [latNum_latIdx (by split_ifs <;> omega)]
        cases same
        · simp only [Bool.false_eq_true, if_false]; omega
        · rfl
      obtain ⟨i', ty', g1, g2, g3, g4⟩ := hA a ha
      have hf' := hfree ty' (List.mem_of_getElem? g2)
      rw [hMa] at g4
      have g4 := latNum_inj hf'.1 hf.1 g4
      have hee : ty' = ty := by
        have g5 : fixed ty' = fixed ty := g3.trans h.symm
        simp only [free, fixed] at g4 g5
        ext
        · split_ifs at g4 g5 <;> assumption
        · split_ifs at g4 g5 <;> assumption
      subst hee
      obtain ⟨q1, q2⟩ := List.getElem?_eq_some_iff.1 hty
      obtain ⟨q3, q4⟩ := List.getElem?_eq_some_iff.1 g2
      have hii : i = i' := (List.Nodup.getElem_inj_iff hnod).1 (q2.trans q4.symm)
      subst hii
      obtain ⟨q1, q2⟩ := List.getElem?_eq_some_iff.1 hi
      obtain ⟨q3, q4⟩ := List.getElem?_eq_some_iff.1 g1
      exact hne a (by omega) ((List.Nodup.getElem_inj_iff hnd).1 (q4.trans q2.symm))
    · rw [if_neg h]

/-- **C57, mixed meshes.** A triangle and a quadrilateral of the same order report the same boundary functions, so that their traces on a
common mesh edge agree DOF by DOF. -/
theorem C57_mixed (k : Nat) (hk : 1 ≤ k) (d : TriData K) (hd : triCreate K k = .ok d) (d' : QuadData K) (hd' : quadCreate K k = .ok d')
    (t : K) (a : Nat) : triOnEdge d t a = quadOnEdge d' t a := by
  obtain ⟨k, rfl⟩ : ∃ m, k = m + 1 := ⟨k - 1, by omega⟩
  rw [quadCreate_ok] at hd'
  injection hd' with hd'
  rw [triCreate_ok] at hd
  injection hd with hd
  subst hd
  subst hd'
  unfold triOnEdge
  rw [bndRef_ok, except_ok_bind]
  rfl

end

/-- The hypotheses hold for a stretched triangle of order 2 with a reversed edge, and the statement is not vacuous there: the midpoint function
of edge 1 is `1` at the middle of the edge. -/
example : ∃ d s, triCreate ℚ 2 = .ok d ∧ triSpace d 3 [true, false, true] ⟨2, 0, 0, 1, 1 / 2, 0, 0, 1, 0, 0⟩ = .ok s ∧
    IsInverse (⟨2, 0, 0, 1, 1 / 2, 0, 0, 1, 0, 0⟩ : TriMap ℚ) ∧ ∃ v, triOnEdge d (1 / 2) 2 = .ok v ∧
      triPhysValue s (1, 1 / 2) 4 = .ok v := by
  obtain ⟨d, hd, -⟩ := C32_layout (K := ℚ) 2 (by norm_num)
  obtain ⟨⟨s, hs, -⟩, -⟩ := C37_permutation 2 (by norm_num) d hd [true, false, true] rfl ⟨2, 0, 0, 1, 1 / 2, 0, 0, 1, 0, 0⟩
  have hm : IsInverse (⟨2, 0, 0, 1, 1 / 2, 0, 0, 1, 0, 0⟩ : TriMap ℚ) := by norm_num [IsInverse]
  refine ⟨d, s, hd, hs, hm, ?_⟩
  obtain ⟨v, h1, h2⟩ := (C57_triangle 2 (by norm_num) d hd _ rfl _ hm s hs 1 false rfl (1 / 2)).1 2 le_rfl
  refine ⟨v, h1, ?_⟩
  rw [← h2]
  norm_num [segPoint, meshEdge, triVertex, refVertex, edgeDof]

/-- The hypotheses hold for a trapezium of order 3. -/
example : ∃ d s, quadCreate ℚ 3 = .ok d ∧
    quadSpace d (fun a => decide (a = 0)) 4 (fun v => [(0, 0), (3, 0), (2, 1), (0, 1)].getD v 0) [true, false, true, false] = .ok s ∧
    ∃ v, quadOnEdge d (1 / 2) 3 = .ok v ∧ quadPhysValue s (1, 1 / 2) 7 = .ok v := by
  obtain ⟨d, hd, -⟩ := C39_layout (K := ℚ) 3 (by norm_num)
  obtain ⟨⟨s, hs, -⟩, -⟩ := C40_involution 3 (by norm_num) d hd (fun a : ℚ => decide (a = 0))
    (fun v => [(0, 0), (3, 0), (2, 1), (0, 1)].getD v 0) [true, false, true, false] rfl
  refine ⟨d, s, hd, hs, ?_⟩
  obtain ⟨v, h1, h2⟩ := (C57_quadrilateral 3 (by norm_num) d hd _ (by simp) _ _ rfl s hs 1 false rfl (1 / 2)).2.1 3 le_rfl
  refine ⟨v, h1, ?_⟩
  rw [← h2]
  norm_num [segPoint, polyEdge, squareVertex, edgeDof]

end PolyDiM
