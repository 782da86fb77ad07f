import Verif.Lemmas.ZfemSpace
import Verif.Lemmas.ZfemFan
import Verif.Lemmas.ZfemTriPoly
import Verif.Props.Zfem

/-! Helper lemmas: the nodes and the basis functions of a ZFEM element. -/

namespace PolyDiM

open Spec

section Nodes

variable {K : Type} [Field K] [CharZero K]

/-- The nodes and the numbering of the element. -/
structure Element (k : Nat) (ref : ZfemRef K) (poly : ZfemPolygon K) (c : K × K) (V : Nat → K × K) (tris : List (TriSpace K)) (M : IMat) (num : FanNode → Nat)
    (finer : List (K × K)) : Prop where
  tris_ok : zfemTriangles ref poly = .ok tris
  len : tris.length = poly.num
  map_ok : createMaps ref.order poly.num ref.fem.num1D ref.fem.num2D (zfemCounts ref poly.num).basis = .ok M
  map : IsMap poly.num (k - 1) ((k - 1) * (k - 2) / 2) (zfemCounts ref poly.num).total M num
  node_ok : zfemNodes poly.num (zfemCounts ref poly.num).total tris M = .ok finer
  flen : finer.length = (zfemCounts ref poly.num).total
  pt : ∀ x, IsFanNode poly.num (k - 1) ((k - 1) * (k - 2) / 2) x →
    finer[num x]? = some (fanPoint poly.num k c V (fun v => poly.dirs.getD v true) (innerType ref.fem k) x)
  tri : ∀ t < poly.num, ∃ m s, poly.maps[t]? = some m ∧ tris[t]? = some s ∧ IsInverse m ∧
    triSpace ref.fem 3 [true, poly.dirs.getD t true, false] m = .ok s ∧ s.map = m ∧ s.order.length = (k + 1) * (k + 2) / 2 ∧
    ∀ cc < (k + 1) * (k + 2) / 2, triDof s cc = .ok (fanPoint poly.num k c V (fun v => poly.dirs.getD v true) (innerType ref.fem k) (fanNode poly.num (k - 1) t cc))
  vertex : ∀ v, num (.vertex v) = v
  edge : ∀ v j, num (.edge v j) = poly.num + v * (k - 1) + j
  spoke : ∀ v j, poly.num + poly.num * (k - 1) + (k - 1) * (k - 2) / 2 ≤ num (.spoke v j)
  centre : num .centre < poly.num + poly.num * (k - 1) + (k - 1) * (k - 2) / 2 ↔ 3 ≤ k

theorem counts_ok {quad : Nat → Rule (K × K) K} {k : Nat} (hk : 1 ≤ k) {ref : ZfemRef K} (href : zfemRef quad k = .ok ref) (n : Nat) (hn : 1 ≤ n) :
    (zfemCounts ref n).basis = n + n * (k - 1) + (k - 1) * (k - 2) / 2 ∧
      (zfemCounts ref n).total = n + n * (k - 1) + 1 + n * ((k - 1) + (k - 1) * (k - 2) / 2) ∧
      (zfemCounts ref n).basis + (zfemCounts ref n).virt = (zfemCounts ref n).total := by
  obtain ⟨-, -, h1, h2, -⟩ := zfemRef_ok quad k hk ref href
  simp only [zfemCounts, h1, h2]
  refine ⟨trivial, trivial, ?_⟩
  have : (k - 1) * (k - 2) / 2 ≤ n * (k - 1 + (k - 1) * (k - 2) / 2) := (Nat.le_add_left _ _).trans (Nat.le_mul_of_pos_left _ hn)
  omega

theorem element_ok {quad : Nat → Rule (K × K) K} {k : Nat} (hk : 1 ≤ k) {ref : ZfemRef K} (href : zfemRef quad k = .ok ref) {poly : ZfemPolygon K} {c : K × K}
    {V : Nat → K × K} (hF : IsFan poly c V) : ∃ tris M num finer, Element k ref poly c V tris M num finer := by
  obtain ⟨hd, hord, -, -, -, h1, h2, hnb, -⟩ := zfemRef_ok quad k hk ref href
  have hn : 1 ≤ poly.num := by have := hF.three; omega
  obtain ⟨hbas, htot, -⟩ := counts_ok hk href poly.num hn
  obtain ⟨tris, ht, hl, htri⟩ := fan_triangles k hk quad ref href hF
  obtain ⟨M, num, hM, hr, hc, hent, hbij, hv, he, hsp, hce, -⟩ := C124_numbering k poly.num hk hn
  have hmap : IsMap poly.num (k - 1) ((k - 1) * (k - 2) / 2) (zfemCounts ref poly.num).total M num :=
    ⟨hr, by rw [hc, two_mul_half k hk], hent, by rw [htot]; exact hbij⟩
  have htri' : ∀ t < poly.num, ∃ m s, poly.maps[t]? = some m ∧ tris[t]? = some s ∧ IsInverse m ∧
      triSpace ref.fem 3 [true, poly.dirs.getD t true, false] m = .ok s ∧ s.map = m ∧ s.order.length = (k + 1) * (k + 2) / 2 ∧
      ∀ cc < (k + 1) * (k + 2) / 2,
        triDof s cc = .ok (fanPoint poly.num k c V (fun v => poly.dirs.getD v true) (innerType ref.fem k) (fanNode poly.num (k - 1) t cc)) := by
    intro t h
    obtain ⟨m, s, hm, -, hs, hsp⟩ := htri t h
    obtain ⟨⟨s', hs', -, hmap, hperm⟩, -⟩ := C37_permutation k hk ref.fem hd [true, poly.dirs.getD t true, false] rfl m
    rw [hsp] at hs'
    injection hs' with hs'
    subst hs'
    refine ⟨m, s, hm, hs, hF.inverse m (List.mem_of_getElem? hm), hsp, hmap, by rw [hperm.length_eq, List.length_range, hnb], fun cc hcc => ?_⟩
    exact fan_dof k hk ref.fem hd hF h hm (dirs := fun v => poly.dirs.getD v true) hsp hcc
  obtain ⟨nodes, hno, hnl, hnp⟩ := zfemNodes_ok hmap hn (tris := tris)
    (pt := fanPoint poly.num k c V (fun v => poly.dirs.getD v true) (innerType ref.fem k)) (by
      intro t h
      obtain ⟨m, s, -, hs, -, -, -, ho, hd⟩ := htri' t h
      exact ⟨s, hs, by rw [ho, hc], by rw [two_mul_half k hk]; exact hd⟩)
  exact ⟨tris, M, num, nodes, ⟨ht, hl, by rw [hord, h1, h2, hbas]; exact hM, hmap, hno, hnl, hnp, htri', hv, he, hsp, hce⟩⟩

omit [CharZero K] in
theorem Element.unique {k : Nat} {ref : ZfemRef K} {poly : ZfemPolygon K} {c : K × K} {V : Nat → K × K} {tris : List (TriSpace K)} {M : IMat} {num : FanNode → Nat}
    {finer nodes : List (K × K)} (h : Element k ref poly c V tris M num finer) (h' : HasNodes ref poly nodes) : finer = nodes := by
  obtain ⟨tris', M', h1, h2, h3⟩ := h'
  rw [h.tris_ok] at h1
  injection h1 with h1
  subst h1
  rw [h.map_ok] at h2
  injection h2 with h2
  subst h2
  rw [h.node_ok] at h3
  injection h3

end Nodes

/-! ## The values at points -/

theorem mapM_get {α β : Type} (f : α → Except Fault β) : ∀ (l : List α) (g : Nat → β), (∀ i a, l[i]? = some a → f a = .ok (g i)) →
    l.mapM f = .ok ((List.range l.length).map g) := by
  intro l
  induction l with
  | nil => intro g _; rfl
  | cons a l ih =>
    intro g h
    rw [List.mapM_cons, h 0 a rfl, except_ok_bind, ih (fun i => g (i + 1)) fun i b hb => h (i + 1) b (by simpa using hb), except_ok_bind, List.length_cons,
      List.range_succ_eq_map]
    simp [Function.comp_def]
    rfl

theorem table_ok {α : Type} {K : Type} [Field K] (f : α → Nat → Except Fault K) (pts : List α) (order : List Nat) (g : Nat → Nat → K)
    (h : ∀ q P, pts[q]? = some P → ∀ p i, order[p]? = some i → f P i = .ok (g q p)) :
    ∃ rows, (pts.mapM fun P => order.mapM fun i => f P i) = .ok rows ∧ ∀ q < pts.length, ∀ p < order.length, (rows.getD q []).getD p 0 = g q p := by
  refine ⟨_, mapM_get _ pts (fun q => (List.range order.length).map (g q)) fun q P hP => mapM_get _ order (g q) fun p i hi => h q P hP p i hi, ?_⟩
  intro q hq p hp
  simp [List.getD, hq, hp]

section Values

open MvPolynomial

theorem refValues_ok {s : TriSpace ℝ} {C : Nat} (ho : s.order.length = C) {φ : Nat → MvPolynomial (Fin 2) ℝ}
    (hφ : ∀ p < C, ∀ P, triPhysValue s P p = .ok (ev2 (φ p) P)) (pts : List (ℝ × ℝ)) :
    ∃ v, triRefValues s (pts.map (triFInv s.map)) = .ok v ∧ v.rows = pts.length ∧ v.cols = C ∧
      ∀ q P, pts[q]? = some P → ∀ p < C, v.ent q p = ev2 (φ p) P := by
  unfold triRefValues
  obtain ⟨rows, h1, h2⟩ := table_ok (fun (q : ℝ × ℝ) i => triValue s.ref q.1 q.2 i) (pts.map (triFInv s.map)) s.order
    (fun q p => ev2 (φ p) (pts.getD q (0, 0))) (by
      intro q P hP p i hi
      rw [List.getElem?_map, Option.map_eq_some_iff] at hP
      obtain ⟨Q, hQ, rfl⟩ := hP
      have hp : p < C := by rw [← ho]; exact (List.getElem?_eq_some_iff.1 hi).1
      have := hφ p hp Q
      unfold triPhysValue at this
      rw [show unchecked s.order p = .ok i from by unfold unchecked; rw [hi], except_ok_bind] at this
      rw [this]
      simp [List.getD, hQ])
  rw [h1]
  refine ⟨_, rfl, by simp, ho, fun q P hP p hp => ?_⟩
  have hq := (List.getElem?_eq_some_iff.1 hP).1
  refine (h2 q (by simpa using hq) p (by omega)).trans ?_
  simp [List.getD, hP]

theorem refDerivatives_ok {s : TriSpace ℝ} {C : Nat} (ho : s.order.length = C) {dir : Nat} {φ : Nat → MvPolynomial (Fin 2) ℝ}
    (hφ : ∀ p < C, ∀ P, triPhysDerivative s P p dir = .ok (ev2 (φ p) P)) (pts : List (ℝ × ℝ)) :
    ∃ v, triRefDerivatives s (pts.map (triFInv s.map)) dir = .ok v ∧ v.rows = pts.length ∧ v.cols = C ∧
      ∀ q P, pts[q]? = some P → ∀ p < C, v.ent q p = ev2 (φ p) P := by
  unfold triRefDerivatives
  obtain ⟨rows, h1, h2⟩ := table_ok (fun (q : ℝ × ℝ) i => do
      let gx ← triDerivative s.ref q.1 q.2 i 0
      let gy ← triDerivative s.ref q.1 q.2 i 1
      .ok (if dir = 0 then s.map.i00 * gx + s.map.i10 * gy else s.map.i01 * gx + s.map.i11 * gy)) (pts.map (triFInv s.map)) s.order
    (fun q p => ev2 (φ p) (pts.getD q (0, 0))) (by
      intro q P hP p i hi
      rw [List.getElem?_map, Option.map_eq_some_iff] at hP
      obtain ⟨Q, hQ, rfl⟩ := hP
      have hp : p < C := by rw [← ho]; exact (List.getElem?_eq_some_iff.1 hi).1
      have := hφ p hp Q
      unfold triPhysDerivative at this
      rw [show unchecked s.order p = .ok i from by unfold unchecked; rw [hi], except_ok_bind] at this
      rw [this]
      simp [List.getD, hQ])
  rw [h1]
  refine ⟨_, rfl, by simp, ho, fun q P hP p hp => ?_⟩
  have hq := (List.getElem?_eq_some_iff.1 hP).1
  refine (h2 q (by simpa using hq) p (by omega)).trans ?_
  simp [List.getD, hP]

variable {n N1 N2 total : Nat} {M : IMat} {num : FanNode → Nat}

/-- Row `r` of `F` holds the values at `P` of the functions `ψ t` of triangle `t`. -/
structure RowOf (n N1 C : Nat) (num : FanNode → Nat) (ψ : Nat → Nat → MvPolynomial (Fin 2) ℝ) (F : DMat ℝ) (r t : Nat) (P : ℝ × ℝ) : Prop where
  hit : ∀ p < C, F.ent r (num (fanNode n N1 t p)) = ev2 (ψ t p) P
  miss : ∀ i, (∀ p < C, num (fanNode n N1 t p) ≠ i) → F.ent r i = 0

theorem femValuesAt_ok (hM : IsMap n N1 N2 total M num) (hn : 2 ≤ n) {tris : List (TriSpace ℝ)} (hl : tris.length = n) {ψ : Nat → Nat → MvPolynomial (Fin 2) ℝ}
    {vals : TriSpace ℝ → List (ℝ × ℝ) → Except Fault (DMat ℝ)} {nb nv : Nat} (hN : nb + nv = total) {points : List (List (ℝ × ℝ))} (hp : points.length ≤ n)
    (hv : ∀ t s, tris[t]? = some s → ∀ pts, ∃ v, vals s pts = .ok v ∧ v.rows = pts.length ∧ v.cols = 3 * (1 + N1) + N2 ∧
      ∀ q P, pts[q]? = some P → ∀ p < 3 * (1 + N1) + N2, v.ent q p = ev2 (ψ t p) P) :
    ∃ F, zfemFemValuesAt M nb nv tris points vals = .ok F ∧ F.rows = points.flatten.length ∧ F.cols = nb + nv ∧
      ∀ t pts, points[t]? = some pts → ∀ q P, pts[q]? = some P → RowOf n N1 (3 * (1 + N1) + N2) num ψ F ((points.take t).flatten.length + q) t P := by
  have hchoice : ∀ t, ∃ v : DMat ℝ, ∀ s pts, tris[t]? = some s → points[t]? = some pts → vals s pts = .ok v ∧ v.rows = pts.length ∧ v.cols = 3 * (1 + N1) + N2 ∧
      ∀ q P, pts[q]? = some P → ∀ p < 3 * (1 + N1) + N2, v.ent q p = ev2 (ψ t p) P := by
    intro t
    rcases hs : tris[t]? with _ | s
    · exact ⟨DMat.zero 0 0, by simp⟩
    rcases hpt : points[t]? with _ | pts
    · exact ⟨DMat.zero 0 0, by simp⟩
    obtain ⟨v, h⟩ := hv t s hs pts
    refine ⟨v, fun s' pts' h1 h2 => ?_⟩
    injection h1 with h1
    injection h2 with h2
    subst h1 h2
    exact h
  choose v hv' using hchoice
  have hsum : ∀ t ≤ points.length, ∑ s ∈ Finset.range t, (points.getD s []).length = (points.take t).flatten.length := by
    intro t
    induction t with
    | zero => intro _; simp
    | succ t ih =>
      intro ht
      rw [Finset.sum_range_succ, ih (by omega), List.take_add_one]
      simp [List.getD, show t < points.length by omega]
  obtain ⟨F, hF, hFr, hFc, hval⟩ := fold_jobs (K := ℝ) (L := points.zipIdx) (l := fun t => (points.getD t []).length) (v := v)
    (idx := fun t p => num (fanNode n N1 t p)) (C := 3 * (1 + N1) + N2) (R := (points.map List.length).sum) (N := nb + nv)
    (step := fun (s : DMat ℝ × Nat) pt =>
      if pt.1.length > 0 then do
        let tri ← unchecked tris pt.2
        let v ← vals tri pt.1
        let F ← zfemScatter M pt.2 s.2 pt.1.length v s.1
        .ok (F, s.2 + pt.1.length)
      else .ok s) (by
    intro t a F off ha hFr hFc hoff
    rw [List.getElem?_zipIdx, Option.map_eq_some_iff] at ha
    obtain ⟨pts, hpts, rfl⟩ := ha
    have hget : points.getD t [] = pts := by simp [List.getD, hpts]
    have ht : t < n := lt_of_lt_of_le (List.getElem?_eq_some_iff.1 hpts).1 hp
    have htri : tris[t]? = some tris[t] := List.getElem?_eq_getElem (by omega)
    rw [hget] at hoff ⊢
    simp only [Nat.zero_add]
    obtain ⟨h1, h2, h3, -⟩ := hv' t _ pts htri hpts
    by_cases hz : pts.length > 0
    · obtain ⟨F', hF', hsc⟩ := scatter_ok hM hn ht h2 h3 (by rw [hFc, hN]) (by rw [hFr]; exact hoff)
      refine ⟨F', ?_, hsc⟩
      rw [if_pos hz, show unchecked tris t = .ok tris[t] from by unfold unchecked; rw [htri], except_ok_bind, h1, except_ok_bind, hF', except_ok_bind]
    · have hz : pts.length = 0 := by omega
      refine ⟨F, ?_, ⟨rfl, rfl, by intro q hq; omega, by intro q hq; omega, fun _ _ _ => rfl⟩⟩
      rw [if_neg (by omega), hz]
      rfl) (by
    rw [List.length_zipIdx, hsum _ le_rfl, List.take_length, List.length_flatten])
  refine ⟨F, ?_, by rw [hFr, List.length_flatten], hFc, ?_⟩
  · unfold zfemFemValuesAt
    rw [hF, except_ok_bind]
  · intro t pts hpts q P hP
    have htl := (List.getElem?_eq_some_iff.1 hpts).1
    have hget : points.getD t [] = pts := by simp [List.getD, hpts]
    have htri : tris[t]? = some (tris[t]'(by omega)) := List.getElem?_eq_getElem (by omega)
    have hq := (List.getElem?_eq_some_iff.1 hP).1
    obtain ⟨h1, h2⟩ := hval t (by rw [List.length_zipIdx]; exact htl) q (by rw [hget]; exact hq)
    rw [hsum t (by omega)] at h1 h2
    exact ⟨fun p hp => (h1 p hp).trans ((hv' t _ pts htri hpts).2.2.2 q P hP p hp), h2⟩

theorem femValues_ok (hM : IsMap n N1 N2 total M num) (hn : 2 ≤ n) {tris : List (TriSpace ℝ)} (hl : tris.length = n) {ψ : Nat → Nat → MvPolynomial (Fin 2) ℝ}
    {vals : TriSpace ℝ → Except Fault (DMat ℝ)} {nb nv nq : Nat} (hN : nb + nv = total) {pos : Nat → Nat → ℝ × ℝ}
    (hv : ∀ t s, tris[t]? = some s → ∃ v, vals s = .ok v ∧ v.rows = nq ∧ v.cols = 3 * (1 + N1) + N2 ∧
      ∀ q < nq, ∀ p < 3 * (1 + N1) + N2, v.ent q p = ev2 (ψ t p) (pos t q)) :
    ∃ F, zfemFemValues M nb nv nq tris vals = .ok F ∧ F.rows = nq * n ∧ F.cols = nb + nv ∧
      ∀ t < n, ∀ q < nq, RowOf n N1 (3 * (1 + N1) + N2) num ψ F (t * nq + q) t (pos t q) := by
  have hchoice : ∀ t, ∃ v : DMat ℝ, ∀ s, tris[t]? = some s → vals s = .ok v ∧ v.rows = nq ∧ v.cols = 3 * (1 + N1) + N2 ∧
      ∀ q < nq, ∀ p < 3 * (1 + N1) + N2, v.ent q p = ev2 (ψ t p) (pos t q) := by
    intro t
    rcases hs : tris[t]? with _ | s
    · exact ⟨DMat.zero 0 0, by simp⟩
    obtain ⟨v, h⟩ := hv t s hs
    refine ⟨v, fun s' h1 => ?_⟩
    injection h1 with h1
    subst h1
    exact h
  choose v hv' using hchoice
  obtain ⟨F, hF, hFr, hFc, hval⟩ := fold_jobs (K := ℝ) (L := tris.zipIdx) (l := fun _ => nq) (v := v)
    (idx := fun t p => num (fanNode n N1 t p)) (C := 3 * (1 + N1) + N2) (R := nq * tris.length) (N := nb + nv)
    (step := fun (s : DMat ℝ × Nat) st => do
      let v ← vals st.1
      let F ← zfemScatter M st.2 s.2 nq v s.1
      .ok (F, s.2 + nq)) (by
    intro t a F off ha hFr hFc hoff
    rw [List.getElem?_zipIdx, Option.map_eq_some_iff] at ha
    obtain ⟨s, hs, rfl⟩ := ha
    have ht : t < n := by rw [← hl]; exact (List.getElem?_eq_some_iff.1 hs).1
    simp only [Nat.zero_add]
    obtain ⟨h1, h2, h3, -⟩ := hv' t s hs
    obtain ⟨F', hF', hsc⟩ := scatter_ok hM hn ht h2 h3 (by rw [hFc, hN]) (by rw [hFr]; exact hoff)
    refine ⟨F', ?_, hsc⟩
    rw [h1, except_ok_bind, hF', except_ok_bind]) (by
    rw [List.length_zipIdx, Finset.sum_const, Finset.card_range, smul_eq_mul, mul_comm])
  refine ⟨F, ?_, by rw [hFr, hl], hFc, ?_⟩
  · unfold zfemFemValues
    rw [hF, except_ok_bind]
  · intro t ht q hq
    have htri : tris[t]? = some (tris[t]'(by omega)) := List.getElem?_eq_getElem (by omega)
    obtain ⟨h1, h2⟩ := hval t (by rw [List.length_zipIdx, hl]; exact ht) q hq
    rw [Finset.sum_const, Finset.card_range, smul_eq_mul] at h1 h2
    exact ⟨fun p hp => (h1 p hp).trans ((hv' t _ htri).2.2.2 q hq p hp), h2⟩

/-- A row of the combined matrix, applied to DOFs. -/
theorem combine_row (hM : IsMap n N1 N2 total M num) (hn : 2 ≤ n) {ψ : Nat → Nat → MvPolynomial (Fin 2) ℝ} {F B : DMat ℝ} {W : Nat → Nat → ℝ} {nb nv r t : Nat} {P : ℝ × ℝ}
    (hN : nb + nv = total) (ht : t < n) (hR : RowOf n N1 (3 * (1 + N1) + N2) num ψ F r t P)
    (hB : ∀ r i, B.ent r i = F.ent r i + ∑ l ∈ Finset.range nv, F.ent r (nb + l) * W i l) (u : Nat → ℝ) :
    ∑ i ∈ Finset.range nb, u i * B.ent r i =
      ∑ p ∈ Finset.range (3 * (1 + N1) + N2), extend nb W u (num (fanNode n N1 t p)) * ev2 (ψ t p) P := by
  rw [Finset.sum_congr rfl fun i _ => by rw [hB r i], combine_sum (fun i => F.ent r i) W u, hN]
  exact hit_sum (fun p hp => hM.lt (fanNode_valid (by omega) ht hp))
    (fun p hp q hq h => fanNode_inj hn ht (hM.inj (fanNode_valid (by omega) ht hp) (fanNode_valid (by omega) ht hq) h)) _ _ _ hR.hit hR.miss

end Values

end PolyDiM
