import Verif.Lemmas.ZfemElement
import Verif.Props.Trace

/-! Helper lemmas: the basis functions of a ZFEM element. -/

namespace PolyDiM

open Spec MvPolynomial

/-- The Lagrange functions of the triangles. -/
structure Shape (k : Nat) (ref : ZfemRef ℝ) (poly : ZfemPolygon ℝ) (c : ℝ × ℝ) (V : Nat → ℝ × ℝ) (tris : List (TriSpace ℝ)) (φ : Nat → Nat → MvPolynomial (Fin 2) ℝ) :
    Prop where
  degree : ∀ t < poly.num, ∀ p < (k + 1) * (k + 2) / 2, (φ t p).totalDegree ≤ k
  value : ∀ t s, tris[t]? = some s → ∀ p < (k + 1) * (k + 2) / 2, ∀ P, triPhysValue s P p = .ok (ev2 (φ t p) P)
  derX : ∀ t s, tris[t]? = some s → ∀ p < (k + 1) * (k + 2) / 2, ∀ P, triPhysDerivative s P p 0 = .ok (ev2 (pderiv 0 (φ t p)) P)
  derY : ∀ t s, tris[t]? = some s → ∀ p < (k + 1) * (k + 2) / 2, ∀ P, triPhysDerivative s P p 1 = .ok (ev2 (pderiv 1 (φ t p)) P)
  nodal : ∀ t < poly.num, ∀ p < (k + 1) * (k + 2) / 2, ∀ j < (k + 1) * (k + 2) / 2,
    ev2 (φ t p) (fanPoint poly.num k c V (fun v => poly.dirs.getD v true) (innerType ref.fem k) (fanNode poly.num (k - 1) t j)) = if p = j then 1 else 0

theorem shape_ok {quad : Nat → Rule (ℝ × ℝ) ℝ} {k : Nat} (hk : 1 ≤ k) {ref : ZfemRef ℝ} (href : zfemRef quad k = .ok ref) {poly : ZfemPolygon ℝ} {c : ℝ × ℝ}
    {V : Nat → ℝ × ℝ} {tris : List (TriSpace ℝ)} {M : IMat} {num : FanNode → Nat} {finer : List (ℝ × ℝ)} (el : Element k ref poly c V tris M num finer) :
    ∃ φ, Shape k ref poly c V tris φ := by
  obtain ⟨hd, -, -, -, -, -, -, hnb, -⟩ := zfemRef_ok quad k hk ref href
  have h : ∀ t p, ∃ φ : MvPolynomial (Fin 2) ℝ, t < poly.num → p < (k + 1) * (k + 2) / 2 → φ.totalDegree ≤ k ∧ ∀ s, tris[t]? = some s →
      (∀ P, triPhysValue s P p = .ok (ev2 φ P)) ∧ (∀ P, triPhysDerivative s P p 0 = .ok (ev2 (pderiv 0 φ) P)) ∧
      (∀ P, triPhysDerivative s P p 1 = .ok (ev2 (pderiv 1 φ) P)) ∧ ∀ j < (k + 1) * (k + 2) / 2,
        ev2 φ (fanPoint poly.num k c V (fun v => poly.dirs.getD v true) (innerType ref.fem k) (fanNode poly.num (k - 1) t j)) = if p = j then 1 else 0 := by
    intro t p
    by_cases ht : t < poly.num
    · by_cases hp : p < (k + 1) * (k + 2) / 2
      · obtain ⟨m, s, hm, hs, hi, hsp, hsm, ho, hdof⟩ := el.tri t ht
        obtain ⟨φ, h1, h2, h3, h4⟩ := tri_poly k hk ref.fem hd [true, poly.dirs.getD t true, false] rfl m s hsp p (by rw [hnb]; exact hp)
        refine ⟨φ, fun _ _ => ⟨h1, fun s' hs' => ?_⟩⟩
        rw [hs] at hs'
        injection hs' with hs'
        subst hs'
        refine ⟨h2, h3, h4, fun j hj => ?_⟩
        have := C37_values_order k hk ref.fem hd _ rfl m hi s hsp p j (by rw [hnb]; exact hp) _ (hdof j hj)
        rw [h2] at this
        injection this
      · exact ⟨0, fun _ h => absurd h hp⟩
    · exact ⟨0, fun h => absurd h ht⟩
  choose φ hφ using h
  have hlt : ∀ (t : Nat) (s : TriSpace ℝ), tris[t]? = some s → t < poly.num := fun t s hs => by rw [← el.len]; exact (List.getElem?_eq_some_iff.1 hs).1
  refine ⟨φ, fun t ht p hp => (hφ t p ht hp).1, fun t s hs p hp => ((hφ t p (hlt t s hs) hp).2 s hs).1, fun t s hs p hp => ((hφ t p (hlt t s hs) hp).2 s hs).2.1,
    fun t s hs p hp => ((hφ t p (hlt t s hs) hp).2 s hs).2.2.1, fun t ht p hp j hj => ?_⟩
  obtain ⟨-, s, -, hs, -⟩ := el.tri t ht
  exact ((hφ t p ht hp).2 s hs).2.2.2 j hj

/-- The DOFs of an edge of a triangle, as nodes. -/
theorem edge_row {quad : Nat → Rule (ℝ × ℝ) ℝ} {k : Nat} (hk : 1 ≤ k) {ref : ZfemRef ℝ} (href : zfemRef quad k = .ok ref) {poly : ZfemPolygon ℝ} {c : ℝ × ℝ}
    {V : Nat → ℝ × ℝ} {tris : List (TriSpace ℝ)} {M : IMat} {num : FanNode → Nat} {finer : List (ℝ × ℝ)} (el : Element k ref poly c V tris M num finer)
    {φ : Nat → Nat → MvPolynomial (Fin 2) ℝ} (sh : Shape k ref poly c V tris φ) {t e : Nat} (ht : t < poly.num) {m : TriMap ℝ} (hm : poly.maps[t]? = some m) {dir : Bool}
    (he : [true, poly.dirs.getD t true, false][e]? = some dir) (τ : ℝ) (U : FanNode → ℝ) :
    ∃ b : Nat → ℝ, (∀ a ≤ k, triOnEdge ref.fem τ a = .ok (b a)) ∧
      ∑ p ∈ Finset.range ((k + 1) * (k + 2) / 2), U (fanNode poly.num (k - 1) t p) * ev2 (φ t p) (segPoint (meshEdge m dir e).1 (meshEdge m dir e).2 τ) =
        ∑ a ∈ Finset.range (k + 1), U (fanNode poly.num (k - 1) t (edgeDof 3 k dir e a)) * b a := by
  obtain ⟨hd, -, -, -, -, -, -, hnb, -⟩ := zfemRef_ok quad k hk ref href
  obtain ⟨m', s, hm', hs, hi, hsp, hsm, ho, hdof⟩ := el.tri t ht
  rw [hm] at hm'
  injection hm' with hm'
  subst hm'
  obtain ⟨h1, h2⟩ := C57_triangle k hk ref.fem hd _ rfl m hi s hsp e dir he τ
  have he3 : e < 3 := (List.getElem?_eq_some_iff.1 he).1
  have hC := two_mul_half k hk
  have hb : ∀ a, ∃ v, a ≤ k → triOnEdge ref.fem τ a = .ok v ∧ ev2 (φ t (edgeDof 3 k dir e a)) (segPoint (meshEdge m dir e).1 (meshEdge m dir e).2 τ) = v := by
    intro a
    by_cases ha : a ≤ k
    · obtain ⟨v, hv, hv'⟩ := h1 a ha
      refine ⟨v, fun _ => ⟨hv, ?_⟩⟩
      rw [sh.value t s hs] at hv'
      · injection hv'
      · rw [← hC]
        unfold edgeDof
        rcases (show e = 0 ∨ e = 1 ∨ e = 2 by omega) with rfl | rfl | rfl <;> split_ifs <;> omega
    · exact ⟨0, fun h => absurd h ha⟩
  choose b hb using hb
  refine ⟨b, fun a ha => (hb a ha).1, ?_⟩
  have hmem : ∀ a < k + 1, edgeDof 3 k dir e a < (k + 1) * (k + 2) / 2 := by
    intro a ha
    rw [← hC]
    unfold edgeDof
    rcases (show e = 0 ∨ e = 1 ∨ e = 2 by omega) with rfl | rfl | rfl <;> split_ifs <;> omega
  have hinj : ∀ a < k + 1, ∀ a' < k + 1, edgeDof 3 k dir e a = edgeDof 3 k dir e a' → a = a' := by
    intro a ha a' ha' h
    unfold edgeDof at h
    rcases (show e = 0 ∨ e = 1 ∨ e = 2 by omega) with rfl | rfl | rfl <;> split_ifs at h <;> omega
  have := hit_sum (K := ℝ) (C := k + 1) (N := (k + 1) * (k + 2) / 2) (idx := edgeDof 3 k dir e) hmem hinj (fun p => U (fanNode poly.num (k - 1) t p))
    (fun p => if p < (k + 1) * (k + 2) / 2 then ev2 (φ t p) (segPoint (meshEdge m dir e).1 (meshEdge m dir e).2 τ) else 0) b
    (fun a ha => by rw [if_pos (hmem a ha)]; exact (hb a (by omega)).2)
    (fun i hi => by
      split_ifs with hlt
      · have h3 := h2 i (by rw [hnb]; exact hlt) fun a ha => hi a (by omega)
        rw [sh.value t s hs i hlt] at h3
        injection h3
      · rfl)
  rw [← this]
  refine Finset.sum_congr rfl fun p hp => ?_
  rw [if_pos (Finset.mem_range.1 hp)]

/-! ## The local space -/

/-- The matrix `B` has in row `r` the values at `P` of the functions that are combined from the functions `ψ t` of triangle `t`. -/
def Combined (k : Nat) (poly : ZfemPolygon ℝ) (num : FanNode → Nat) (nb : Nat) (W : Nat → Nat → ℝ) (ψ : Nat → Nat → MvPolynomial (Fin 2) ℝ) (B : DMat ℝ) (r t : Nat)
    (P : ℝ × ℝ) : Prop :=
  ∀ u : Nat → ℝ, ∑ i ∈ Finset.range nb, u i * B.ent r i =
    ∑ p ∈ Finset.range ((k + 1) * (k + 2) / 2), extend nb W u (num (fanNode poly.num (k - 1) t p)) * ev2 (ψ t p) P

/-- The local space. -/
structure Space (k : Nat) (ref : ZfemRef ℝ) (poly : ZfemPolygon ℝ) (c : ℝ × ℝ) (V : Nat → ℝ × ℝ) (s : ZfemSpace ℝ) (num : FanNode → Nat)
    (φ : Nat → Nat → MvPolynomial (Fin 2) ℝ) : Prop where
  el : Element k ref poly c V s.tris s.map num s.finer
  sh : Shape k ref poly c V s.tris φ
  counts : s.counts = zfemCounts ref poly.num
  coarse : s.coarse = s.finer.take s.counts.basis
  virt : s.virt = s.finer.drop s.counts.basis
  wrows : s.weights.rows = s.counts.basis
  wcols : s.weights.cols = s.counts.virt
  D_ok : Values s.coarse (compute mono2 k).num (basisPoly k poly.centre poly.diameter) s.D
  V_ok : Values s.virt (compute mono2 k).num (basisPoly k poly.centre poly.diameter) s.V
  repr : ∀ j < (compute mono2 k).num, ∀ l < s.counts.virt, ∑ i ∈ Finset.range s.counts.basis, s.D.ent i j * s.weights.ent i l = s.V.ent l j
  range : ∃ X : Nat → Nat → ℝ, ∀ i l, s.weights.ent i l = ∑ j ∈ Finset.range (compute mono2 k).num, s.D.ent i j * X j l
  val : s.values.rows = ref.quad.points.length * poly.num ∧ s.values.cols = s.counts.basis ∧ ∀ t < poly.num, ∀ m, poly.maps[t]? = some m →
    ∀ q z, ref.quad.points[q]? = some z → Combined k poly num s.counts.basis s.weights.ent φ s.values (t * ref.quad.points.length + q) t (triF m z)
  dx : s.derX.rows = ref.quad.points.length * poly.num ∧ s.derX.cols = s.counts.basis ∧ ∀ t < poly.num, ∀ m, poly.maps[t]? = some m →
    ∀ q z, ref.quad.points[q]? = some z →
      Combined k poly num s.counts.basis s.weights.ent (fun t p => pderiv 0 (φ t p)) s.derX (t * ref.quad.points.length + q) t (triF m z)
  dy : s.derY.rows = ref.quad.points.length * poly.num ∧ s.derY.cols = s.counts.basis ∧ ∀ t < poly.num, ∀ m, poly.maps[t]? = some m →
    ∀ q z, ref.quad.points[q]? = some z →
      Combined k poly num s.counts.basis s.weights.ent (fun t p => pderiv 1 (φ t p)) s.derY (t * ref.quad.points.length + q) t (triF m z)
  nodes : ∃ b : Fem1Data ℝ, fem1Create (K := ℝ) ref.fem.order .equispaced [] = .ok b ∧ edgeNodes ref.order s.ts = .ok b.positions ∧ b.coef = s.coef ∧
    b.positions.length = k + 1

theorem stored_ok {k : Nat} {ref : ZfemRef ℝ} {poly : ZfemPolygon ℝ} {c : ℝ × ℝ} {V : Nat → ℝ × ℝ} {tris : List (TriSpace ℝ)} {M : IMat} {num : FanNode → Nat}
    {finer : List (ℝ × ℝ)} (hk : 1 ≤ k) (hn : 2 ≤ poly.num) (el : Element k ref poly c V tris M num finer)
    {ψ : Nat → Nat → MvPolynomial (Fin 2) ℝ} {vals : TriSpace ℝ → List (ℝ × ℝ) → Except Fault (DMat ℝ)}
    (hv : ∀ (t : Nat) (s : TriSpace ℝ), tris[t]? = some s → ∀ pts : List (ℝ × ℝ), ∃ v, vals s (pts.map (triFInv s.map)) = .ok v ∧ v.rows = pts.length ∧ v.cols = (k + 1) * (k + 2) / 2 ∧
      ∀ q P, pts[q]? = some P → ∀ p < (k + 1) * (k + 2) / 2, v.ent q p = ev2 (ψ t p) P)
    {nb nv : Nat} (hN : nb + nv = (zfemCounts ref poly.num).total) (W : DMat ℝ) (hr : W.rows = nb) (hc : W.cols = nv) (z : List (ℝ × ℝ)) :
    ∃ F B, zfemFemValues M nb nv z.length tris (fun s => vals s z) = .ok F ∧ zfemCombine nb nv F W = .ok B ∧ B.rows = z.length * poly.num ∧ B.cols = nb ∧
      ∀ t < poly.num, ∀ m, poly.maps[t]? = some m → ∀ q y, z[q]? = some y → Combined k poly num nb W.ent ψ B (t * z.length + q) t (triF m y) := by
  have hC := two_mul_half k hk
  have hmp : ∀ (t : Nat) (s : TriSpace ℝ), tris[t]? = some s → ∃ m, poly.maps[t]? = some m ∧ s.map = m ∧ IsInverse m := by
    intro t s hs
    obtain ⟨m, s', hm, hs', hi, -, hsm, -⟩ := el.tri t (by rw [← el.len]; exact (List.getElem?_eq_some_iff.1 hs).1)
    rw [hs] at hs'
    injection hs' with hs'
    subst hs'
    exact ⟨m, hm, hsm, hi⟩
  obtain ⟨F, hF, hFr, hFc, hrow⟩ := femValues_ok el.map hn el.len (nq := z.length) (ψ := ψ) (vals := fun s => vals s z) hN
    (pos := fun t q => triF ((poly.maps[t]?).getD ⟨0, 0, 0, 0, 0, 0, 0, 0, 0, 0⟩) (z.getD q (0, 0))) (by
      intro t s hs
      obtain ⟨m, hm, hsm, hi⟩ := hmp t s hs
      obtain ⟨v, h1, h2, h3, h4⟩ := hv t s hs (z.map (triF m))
      refine ⟨v, ?_, by rw [h2, List.length_map], by rw [h3, hC], fun q hq p hp => ?_⟩
      · rw [List.map_map, hsm] at h1
        rw [show z.map (triFInv m ∘ triF m) = z from by
          conv_rhs => rw [← List.map_id z]
          exact List.map_congr_left fun y _ => triFInv_F hi y] at h1
        exact h1
      · rw [hC] at hp
        rw [hm]
        refine h4 q _ ?_ p hp
        simp [hq])
  obtain ⟨B, hB, hBr, hBc, hBe⟩ := zfemCombine_ok hFc hr hc
  refine ⟨F, B, hF, hB, by rw [hBr, hFr], hBc, fun t ht m hm q y hy u => ?_⟩
  have hq := (List.getElem?_eq_some_iff.1 hy).1
  have := combine_row el.map hn hN ht (hrow t ht q hq) hBe u
  rw [this, hC]
  simp [hm, List.getD, hy]

theorem zfemCreate_ok {quad : Nat → Rule (ℝ × ℝ) ℝ} {k : Nat} (hk : 1 ≤ k) {ref : ZfemRef ℝ} (href : zfemRef quad k = .ok ref) {poly : ZfemPolygon ℝ} {c : ℝ × ℝ}
    {V : Nat → ℝ × ℝ} (hF : IsFan poly c V) (hh : poly.diameter ≠ 0) {finer : List (ℝ × ℝ)} (hfin : HasNodes ref poly finer)
    (hU : Unisolvent k (finer.take (zfemCounts ref poly.num).basis)) {llt : Solver ℝ} (hs : SolvesPosDef llt) :
    ∃ s num φ, zfemCreate llt ref poly = .ok s ∧ s.finer = finer ∧ Space k ref poly c V s num φ := by
  obtain ⟨hd, hord, -, -, hfo, h1, h2, hnb, -, hmono⟩ := zfemRef_ok quad k hk ref href
  have hn : 3 ≤ poly.num := hF.three
  obtain ⟨hbas, htot, hsum⟩ := counts_ok hk href poly.num (by omega)
  obtain ⟨tris, M, num, finer', el⟩ := element_ok hk href hF
  obtain rfl := el.unique hfin
  obtain ⟨φ, sh⟩ := shape_ok hk href el
  obtain ⟨b, ts, hb1, hb2, hb3, hb4, hb5, hb6⟩ := edge_data (K := ℝ) k hk
  have hlen := el.flen
  have hcl : (finer'.take (zfemCounts ref poly.num).basis).length = (zfemCounts ref poly.num).basis := by
    rw [List.length_take, hlen]
    omega
  have hdrop : finer'.length - (zfemCounts ref poly.num).virt = (zfemCounts ref poly.num).basis := by omega
  have hvl : (finer'.drop (zfemCounts ref poly.num).basis).length = (zfemCounts ref poly.num).virt := by
    rw [List.length_drop, hlen]
    omega
  obtain ⟨D, hD, hDv, -⟩ := vanderMat_ok k poly.centre poly.diameter (finer'.take (zfemCounts ref poly.num).basis)
  obtain ⟨Vm, hV, hVv, -⟩ := vanderMat_ok k poly.centre poly.diameter (finer'.drop (zfemCounts ref poly.num).basis)
  obtain ⟨W, hW, hWr, hWc, hrepr, hX⟩ := zfemWeights_ok hh hDv hVv hU hs
  rw [hcl] at hWr hrepr
  rw [hvl] at hWc hrepr
  have hord' : ∀ (t : Nat) (s : TriSpace ℝ), tris[t]? = some s → s.order.length = (k + 1) * (k + 2) / 2 := by
    intro t s h
    obtain ⟨-, s', -, hs', -, -, -, ho, -⟩ := el.tri t (by rw [← el.len]; exact (List.getElem?_eq_some_iff.1 h).1)
    rw [h] at hs'
    injection hs' with hs'
    rw [hs', ho]
  obtain ⟨F, B, hF1, hB1, hB2⟩ := stored_ok hk (by omega) el (ψ := φ) (vals := triRefValues)
    (fun t s h pts => refValues_ok (hord' t s h) (sh.value t s h) pts) hsum W hWr hWc ref.quad.points
  obtain ⟨FX, BX, hFX, hBX, hBX2⟩ := stored_ok hk (by omega) el (ψ := fun t p => pderiv 0 (φ t p)) (vals := fun s pts => triRefDerivatives s pts 0)
    (fun t s h pts => refDerivatives_ok (hord' t s h) (sh.derX t s h) pts) hsum W hWr hWc ref.quad.points
  obtain ⟨FY, BY, hFY, hBY, hBY2⟩ := stored_ok hk (by omega) el (ψ := fun t p => pderiv 1 (φ t p)) (vals := fun s pts => triRefDerivatives s pts 1)
    (fun t s h pts => refDerivatives_ok (hord' t s h) (sh.derY t s h) pts) hsum W hWr hWc ref.quad.points
  have hcoef : edgeBasisCoefficients ref.order ts = .ok b.coef := by
    unfold edgeBasisCoefficients
    rw [hord, hb4, except_ok_bind, hb5]
  refine ⟨⟨zfemCounts ref poly.num, ts, b.coef, tris, M, finer', _, _, D, Vm, W, B, BX, BY⟩, num, φ, ?_, rfl,
    ⟨el, sh, rfl, rfl, rfl, hWr, hWc, hDv, hVv, hrepr, hX, hB2, hBX2, hBY2, ⟨b, by rw [hfo]; exact hb1, by rw [hord]; exact hb4, rfl, hb6⟩⟩⟩
  unfold zfemCreate
  rw [hfo, hb1, except_ok_bind, hord, if_pos hb2, except_ok_bind, hb3]
  rw [hord] at hcoef
  have hmap := el.map_ok
  rw [hord] at hmap
  simp only [hcoef, except_ok_bind, el.tris_ok, hmap, el.node_ok, hF1, hFX, hFY, hdrop, hmono, hD, hV, hW, hB1, hBX, hBY]

/-- The values at given points. -/
theorem at_ok {k : Nat} {ref : ZfemRef ℝ} {poly : ZfemPolygon ℝ} {c : ℝ × ℝ} {V : Nat → ℝ × ℝ} {s : ZfemSpace ℝ} {num : FanNode → Nat}
    {φ : Nat → Nat → MvPolynomial (Fin 2) ℝ} (hk : 1 ≤ k) (hn : 2 ≤ poly.num) (hsum : (zfemCounts ref poly.num).basis + (zfemCounts ref poly.num).virt =
      (zfemCounts ref poly.num).total) (sp : Space k ref poly c V s num φ)
    {ψ : Nat → Nat → MvPolynomial (Fin 2) ℝ} {vals : TriSpace ℝ → List (ℝ × ℝ) → Except Fault (DMat ℝ)}
    (hv : ∀ t tr, s.tris[t]? = some tr → ∀ pts, ∃ v, vals tr pts = .ok v ∧ v.rows = pts.length ∧ v.cols = (k + 1) * (k + 2) / 2 ∧
      ∀ q P, pts[q]? = some P → ∀ p < (k + 1) * (k + 2) / 2, v.ent q p = ev2 (ψ t p) P) (points : List (List (ℝ × ℝ))) (hp : points.length ≤ poly.num) :
    ∃ F B, zfemFemValuesAt s.map s.counts.basis s.counts.virt s.tris points vals = .ok F ∧ zfemCombine s.counts.basis s.counts.virt F s.weights = .ok B ∧
      B.rows = points.flatten.length ∧ B.cols = s.counts.basis ∧ ∀ t pts, points[t]? = some pts → ∀ q P, pts[q]? = some P →
        Combined k poly num s.counts.basis s.weights.ent ψ B ((points.take t).flatten.length + q) t P := by
  have hC := two_mul_half k hk
  have hN : s.counts.basis + s.counts.virt = (zfemCounts ref poly.num).total := by rw [sp.counts, hsum]
  obtain ⟨F, hF, hFr, hFc, hrow⟩ := femValuesAt_ok sp.el.map hn sp.el.len (vals := vals) (ψ := ψ) hN hp (by rw [hC]; exact hv)
  obtain ⟨B, hB, hBr, hBc, hBe⟩ := zfemCombine_ok hFc sp.wrows sp.wcols
  refine ⟨F, B, hF, hB, by rw [hBr, hFr], hBc, fun t pts hpts q P hP u => ?_⟩
  have ht : t < poly.num := lt_of_lt_of_le (List.getElem?_eq_some_iff.1 hpts).1 hp
  rw [combine_row sp.el.map hn hN ht (hrow t pts hpts q P hP) hBe u, hC]

theorem valuesAt_ok {k : Nat} {ref : ZfemRef ℝ} {poly : ZfemPolygon ℝ} {c : ℝ × ℝ} {V : Nat → ℝ × ℝ} {s : ZfemSpace ℝ} {num : FanNode → Nat}
    {φ : Nat → Nat → MvPolynomial (Fin 2) ℝ} (hk : 1 ≤ k) (hn : 2 ≤ poly.num) (hsum : (zfemCounts ref poly.num).basis + (zfemCounts ref poly.num).virt =
      (zfemCounts ref poly.num).total) (sp : Space k ref poly c V s num φ) (points : List (List (ℝ × ℝ))) (hp : points.length ≤ poly.num) :
    ∃ B, zfemValuesAt s points = .ok B ∧ B.rows = points.flatten.length ∧ B.cols = s.counts.basis ∧ ∀ t pts, points[t]? = some pts → ∀ q P, pts[q]? = some P →
      Combined k poly num s.counts.basis s.weights.ent φ B ((points.take t).flatten.length + q) t P := by
  obtain ⟨F, B, h1, h2, h3⟩ := at_ok hk hn hsum sp (ψ := φ) (vals := fun tri pts => triRefValues tri (pts.map (triFInv tri.map))) (fun t tr h pts => by
    obtain ⟨-, s', -, hs', -, -, -, ho, -⟩ := sp.el.tri t (by rw [← sp.el.len]; exact (List.getElem?_eq_some_iff.1 h).1)
    rw [h] at hs'
    injection hs' with hs'
    exact refValues_ok (by rw [hs', ho]) (sp.sh.value t tr h) pts) points hp
  refine ⟨B, ?_, h3⟩
  unfold zfemValuesAt
  rw [h1, except_ok_bind, h2]

theorem derivativesAt_ok {k : Nat} {ref : ZfemRef ℝ} {poly : ZfemPolygon ℝ} {c : ℝ × ℝ} {V : Nat → ℝ × ℝ} {s : ZfemSpace ℝ} {num : FanNode → Nat}
    {φ : Nat → Nat → MvPolynomial (Fin 2) ℝ} (hk : 1 ≤ k) (hn : 2 ≤ poly.num) (hsum : (zfemCounts ref poly.num).basis + (zfemCounts ref poly.num).virt =
      (zfemCounts ref poly.num).total) (sp : Space k ref poly c V s num φ) (points : List (List (ℝ × ℝ))) (hp : points.length ≤ poly.num) (dir : Fin 2) :
    ∃ B, zfemDerivativesAt s points dir = .ok B ∧ B.rows = points.flatten.length ∧ B.cols = s.counts.basis ∧ ∀ t pts, points[t]? = some pts → ∀ q P,
      pts[q]? = some P → Combined k poly num s.counts.basis s.weights.ent (fun t p => pderiv dir (φ t p)) B ((points.take t).flatten.length + q) t P := by
  obtain ⟨F, B, h1, h2, h3⟩ := at_ok hk hn hsum sp (ψ := fun t p => pderiv dir (φ t p))
    (vals := fun tri pts => triRefDerivatives tri (pts.map (triFInv tri.map)) dir) (fun t tr h pts => by
    obtain ⟨-, s', -, hs', -, -, -, ho, -⟩ := sp.el.tri t (by rw [← sp.el.len]; exact (List.getElem?_eq_some_iff.1 h).1)
    rw [h] at hs'
    injection hs' with hs'
    refine refDerivatives_ok (by rw [hs', ho]) ?_ pts
    fin_cases dir
    · exact sp.sh.derX t tr h
    · exact sp.sh.derY t tr h) points hp
  refine ⟨B, ?_, h3⟩
  unfold zfemDerivativesAt
  rw [h1, except_ok_bind, h2]

/-! ## Polynomials -/

/-- The nodal values of a polynomial extend to themselves. -/
theorem Space.extend_poly {k : Nat} {ref : ZfemRef ℝ} {poly : ZfemPolygon ℝ} {c : ℝ × ℝ} {V : Nat → ℝ × ℝ} {s : ZfemSpace ℝ} {num : FanNode → Nat}
    {φ : Nat → Nat → MvPolynomial (Fin 2) ℝ} (sp : Space k ref poly c V s num φ) (hh : poly.diameter ≠ 0)
    (hsum : (zfemCounts ref poly.num).basis + (zfemCounts ref poly.num).virt = (zfemCounts ref poly.num).total)
    (q : MvPolynomial (Fin 2) ℝ) (hq : q.totalDegree ≤ k) {x : FanNode} (hx : IsFanNode poly.num (k - 1) ((k - 1) * (k - 2) / 2) x) :
    extend s.counts.basis s.weights.ent (fun i => ev2 q (s.coarse.getD i (0, 0))) (num x) =
      ev2 q (fanPoint poly.num k c V (fun v => poly.dirs.getD v true) (innerType ref.fem k) x) := by
  have hlt := sp.el.map.lt hx
  have hpt := sp.el.pt x hx
  have hlen := sp.el.flen
  have hcl : s.coarse.length = s.counts.basis := by rw [sp.coarse, List.length_take, hlen, sp.counts]; omega
  have hvl : s.virt.length = s.counts.virt := by rw [sp.virt, List.length_drop, hlen, sp.counts]; omega
  unfold extend
  split_ifs with h
  · have : s.coarse[num x]? = some (fanPoint poly.num k c V (fun v => poly.dirs.getD v true) (innerType ref.fem k) x) := by
      rw [sp.coarse, List.getElem?_take_of_lt h, hpt]
    simp [List.getD, this]
  · have hv : s.virt[num x - s.counts.basis]? = some (fanPoint poly.num k c V (fun v => poly.dirs.getD v true) (innerType ref.fem k) x) := by
      rw [sp.virt, List.getElem?_drop, ← hpt]
      congr 1
      omega
    have := (weights_reproduce hh sp.D_ok sp.V_ok (fun i => s.weights.ent i (num x - s.counts.basis)) hv).1 (by
      intro j hj
      rw [hcl]
      exact sp.repr j hj _ (by rw [sp.counts] at h ⊢; omega)) q hq
    rw [this, hcl]

theorem Space.reproduce {k : Nat} (hk : 1 ≤ k) {ref : ZfemRef ℝ} {poly : ZfemPolygon ℝ} {c : ℝ × ℝ} {V : Nat → ℝ × ℝ} {s : ZfemSpace ℝ} {num : FanNode → Nat}
    {φ : Nat → Nat → MvPolynomial (Fin 2) ℝ} (sp : Space k ref poly c V s num φ) (hh : poly.diameter ≠ 0) (hn : 1 ≤ poly.num)
    (hsum : (zfemCounts ref poly.num).basis + (zfemCounts ref poly.num).virt = (zfemCounts ref poly.num).total)
    (q : MvPolynomial (Fin 2) ℝ) (hq : q.totalDegree ≤ k) {t : Nat} (ht : t < poly.num) :
    ∑ p ∈ Finset.range ((k + 1) * (k + 2) / 2),
      C (extend s.counts.basis s.weights.ent (fun i => ev2 q (s.coarse.getD i (0, 0))) (num (fanNode poly.num (k - 1) t p))) * φ t p = q := by
  have htri : tri (k + 1) = (k + 1) * (k + 2) / 2 := by rw [tri_div]
  have hC := two_mul_half k hk
  have := nodal_reproduces k (φ t) (fun p => fanPoint poly.num k c V (fun v => poly.dirs.getD v true) (innerType ref.fem k) (fanNode poly.num (k - 1) t p))
    (by rw [htri]; exact sp.sh.degree t ht) (by rw [htri]; exact sp.sh.nodal t ht) q hq
  rw [htri] at this
  refine Eq.trans (Finset.sum_congr rfl fun p hp => ?_) this
  rw [sp.extend_poly hh hsum q hq (fanNode_valid hn ht (by rw [hC]; exact Finset.mem_range.1 hp))]

end PolyDiM
