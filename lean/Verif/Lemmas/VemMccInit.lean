import Verif.Lemmas.VemMccFields
import Verif.Lemmas.PatchLocal

/-!
# Lemmas: rules and first matrices of the mixed virtual element method
-/

namespace PolyDiM

open Spec MvPolynomial MeasureTheory

/-- The number of internal DOFs splits into the two kinds. -/
theorem mcc_internal (k : Nat) : k * (k + 2) = (tri (k + 1) - 1) + tri k := by
  have : tri (k + 1) + tri k = (k + 1) * (k + 1) := by
    induction k with
    | zero => rfl
    | succ k ih =>
      rw [tri_succ (k + 1), tri_succ k] at *
      nlinarith
  have h1 : 1 ≤ tri (k + 1) := by rw [tri_succ]; omega
  nlinarith [Nat.sub_add_cancel h1]

section
variable {k n : Nat} {V : Nat → ℝ × ℝ} {len : Nat → ℝ} {dir : Nat → Bool} {nrm : Nat → ℝ × ℝ} {poly : VemPolygon ℝ}
  {triangle : Nat → Rule (ℝ × ℝ) ℝ} {edge : Nat → Rule ℝ ℝ} {ts ws : List ℝ}

/-- The rules of an element. -/
structure MRulesOk (k n : Nat) (V : Nat → ℝ × ℝ) (len : Nat → ℝ) (dir : Nat → Bool) (ts ws : List ℝ) (tris : List (Tri2 ℝ)) (internal : Rule (ℝ × ℝ) ℝ)
    (bnd : EdgesRule ℝ) : Prop where
  wlen : internal.weights.length = internal.points.length
  wpos : ∀ x ∈ internal.weights, 0 ≤ x
  integral : ∀ q : MvPolynomial (Fin 2) ℝ, q.totalDegree ≤ 2 * (k + 1) → quadLin internal.points internal.weights q = ∫ p in unionOf tris, ev2 q p
  pieces : ∀ q : MvPolynomial (Fin 2) ℝ, q.totalDegree ≤ 2 * (k + 1) → quadLin internal.points internal.weights q
    = (tris.map fun v => |shoelace v.1 v.2.1 v.2.2| * ∫ p in {p : ℝ × ℝ | InTriangle (0, 0) (1, 0) (0, 1) p}, ev2 q (v.1 + tri2L v p)).sum
  plen : bnd.points.length = n * (k + 1)
  blen : bnd.weights.length = n * (k + 1)
  at' : ∀ e < n, ∀ i t w, ts[i]? = some t → ws[i]? = some w →
    bnd.points[e * (k + 1) + i]? = some (segPoint (polyEdge n V (dir e) e).1 (polyEdge n V (dir e) e).2 t) ∧
    bnd.weights[e * (k + 1) + i]? = some (|len e| * w)

theorem mrules_ok (hE : IsElement poly n V len dir nrm) (hT : IsMixedTables k triangle edge ts ws) :
    ∃ internal bnd, polygonQuad (triangle (2 * (k + 1))) poly.tris = .ok internal ∧ edgesQuad poly.edges ⟨ts, ws⟩ = .ok bnd ∧
      MRulesOk k n V len dir ts ws poly.tris internal bnd := by
  obtain ⟨r, hr, _, hrl, hrs⟩ := C47_sum (triangle (2 * (k + 1))) hT.triangleLength poly.tris
  obtain ⟨r', hr', hri⟩ := C68_polygon (2 * (k + 1)) (triangle (2 * (k + 1))) hT.triangleLength hT.triangleExact poly.tris hE.tris.disjoint
  obtain ⟨r'', hr'', hrw⟩ := C47_weights_nonneg (triangle (2 * (k + 1))) hT.triangleLength poly.tris hT.triangleWeights
  obtain ⟨b, hb, hb1, hb2, _, _, hb3⟩ := C49_edges hE.edges ⟨ts, ws⟩ hT.edgeLength
  obtain rfl : r' = r := by rw [hr] at hr'; exact (Except.ok.inj hr').symm
  obtain rfl : r'' = r' := by rw [hr] at hr''; exact (Except.ok.inj hr'').symm
  dsimp only at hb1 hb2 hb3
  rw [hT.nodes] at hb1 hb2 hb3
  refine ⟨r'', b, hr, hb, hrl, hrw, hri, ?_, hb1, hb2, fun e he i t w ht hw => ⟨(hb3 e he i t w ht hw).1, (hb3 e he i t w ht hw).2.1⟩⟩
  intro q hq
  refine (hrs _).trans ?_
  congr 1
  apply List.map_congr_left
  intro v _
  obtain ⟨q', hq', hpull⟩ := poly2_pullback v q
  congr 1
  have e : ∀ p, ev2 q' p = ev2 q (v.1 + tri2L v p) := hpull
  simp only [← e]
  rw [← hT.triangleExact q' (hq'.trans hq)]
  congr 1
  funext p
  have : bary3 v.1 v.2.1 v.2.2 (1 - p.1 - p.2) p.1 p.2 = v.1 + tri2L v p := by
    simp only [tri2L, bary3, LinearMap.coe_mk, AddHom.coe_mk]
    module
  rw [this]
  exact (e p).symm

theorem mquad_nonneg {internal : Rule (ℝ × ℝ) ℝ} {bnd : EdgesRule ℝ} (hR : MRulesOk k n V len dir ts ws poly.tris internal bnd)
    (q : MvPolynomial (Fin 2) ℝ) (hq : q.totalDegree ≤ k + 1) : 0 ≤ quadLin internal.points internal.weights (q * q) := by
  rw [hR.pieces _ ((totalDegree_mul _ _).trans (by omega))]
  refine List.sum_nonneg fun x hx => ?_
  obtain ⟨v, _, rfl⟩ := List.mem_map.1 hx
  refine mul_nonneg (abs_nonneg _) (integral_nonneg fun p => ?_)
  simp only [ev2, map_mul]
  exact mul_self_nonneg _

theorem mquad_definite (hE : IsElement poly n V len dir nrm) {internal : Rule (ℝ × ℝ) ℝ} {bnd : EdgesRule ℝ} (hR : MRulesOk k n V len dir ts ws poly.tris internal bnd)
    (q : MvPolynomial (Fin 2) ℝ) (hq : q.totalDegree ≤ k + 1) (h0 : quadLin internal.points internal.weights (q * q) = 0) : q = 0 := by
  rw [hR.pieces _ ((totalDegree_mul _ _).trans (by omega))] at h0
  obtain ⟨v, hv, hp⟩ := hE.tris.pos
  have := sum_zero_all _ _ (fun v _ => mul_nonneg (abs_nonneg _) (integral_nonneg fun p => by
    simp only [ev2, map_mul]
    exact mul_self_nonneg _)) h0 v hv
  refine zero_of_tri_square v hp.ne' q (Eq.trans ?_ ((mul_eq_zero.1 this).resolve_left (abs_ne_zero.2 hp.ne')))
  congr 1
  funext p
  simp [ev2]

/-- The matrix of the values of the fields at points. -/
structure FieldValues (k : Nat) (c : ℝ × ℝ) (h : ℝ) (tPlus : DMat ℝ) (points : List (ℝ × ℝ)) (gk : DMat ℝ) : Prop where
  rows : gk.rows = 2 * tri (k + 1)
  cols : gk.cols = 2 * points.length
  ent : ∀ (i : Nat) (p : ℝ × ℝ), points[i]? = some p → ∀ j < 2 * tri (k + 1), ∀ d : Fin 2, gk.ent j (d * points.length + i) = ev2 (fld k c h tPlus j d) p

theorem mccFields_ok {c : ℝ × ℝ} {h : ℝ} {tNabla tPlus : DMat ℝ} (hT : TkOk k c h tNabla tPlus) (points : List (ℝ × ℝ)) {X : DMat ℝ}
    (hX : Values points (tri (k + 1)) (basisPoly (k + 1) c h) X) :
    ∃ gk, mccFields (tri (k + 1)) points.length tNabla tPlus X = .ok gk ∧ FieldValues k c h tPlus points gk := by
  obtain ⟨t1, t2⟩ := mcc_counts k
  unfold mccFields
  rw [twice_ok _ _ _ (by show X.cols + X.cols = _; rw [hX.cols]; omega) (by show X.rows + X.rows = _; rw [hX.rows]; omega), except_ok_bind,
    DMat.mul_ok _ _ hT.nCols, except_ok_bind, DMat.mul_ok _ _ hT.pCols, except_ok_bind, stack_ok _ _ _ _ (by rfl) (by rfl) (by
      dsimp only
      rw [hT.nRows, hT.pRows]
      omega)]
  refine ⟨_, rfl, rfl, rfl, ?_⟩
  intro i p hi j hj d
  have hil := (List.getElem?_eq_some_iff.1 hi).1
  have key : ∀ y : Nat → ℝ, ∑ l ∈ Finset.range (2 * tri (k + 1)), y l * (if l < X.tr.rows then (if (d : Nat) * points.length + i < X.tr.cols then X.tr.ent l (d * points.length + i) else 0)
      else if (d : Nat) * points.length + i < X.tr.cols then 0 else X.tr.ent (l - X.tr.rows) (d * points.length + i - X.tr.cols)) = ev2 (cfield k c h y d) p := by
    intro y
    have hr : X.tr.rows = tri (k + 1) := hX.cols
    have hc : X.tr.cols = points.length := hX.rows
    rw [hr, hc, two_mul, sum_split]
    have e0 : ∀ l ∈ Finset.range (tri (k + 1)), ev2 (basisPoly (k + 1) c h l) p = X.tr.ent l i := fun l hl => (hX.ent i p hi l (Finset.mem_range.1 hl)).symm
    fin_cases d
    · simp only [Fin.zero_eta, zero_mul, zero_add, if_pos hil]
      rw [Finset.sum_eq_zero (s := Finset.range (tri (k + 1))) (f := fun l => y (tri (k + 1) + l) * _) (fun l hl => by rw [if_neg (by omega), mul_zero]), add_zero]
      simp only [cfield, combo, ev2, map_sum, map_mul, eval_C, Fin.val_zero, zero_mul, zero_add]
      refine Finset.sum_congr rfl fun l hl => ?_
      rw [if_pos (Finset.mem_range.1 hl)]
      have := e0 l hl
      rw [ev2] at this
      rw [this]
    · simp only [Fin.mk_one, one_mul]
      rw [Finset.sum_eq_zero (s := Finset.range (tri (k + 1))) (f := fun l => y l * _) (fun l hl => by
        rw [if_pos (Finset.mem_range.1 hl), if_neg (by omega), mul_zero]), zero_add]
      simp only [cfield, combo, ev2, map_sum, map_mul, eval_C, Fin.val_one, one_mul]
      refine Finset.sum_congr rfl fun l hl => ?_
      rw [if_neg (by omega), if_neg (by omega), Nat.add_sub_cancel_left, Nat.add_sub_cancel_left]
      have := e0 l hl
      rw [ev2] at this
      rw [this]
  dsimp only
  rw [hT.nRows, ← cfield_rowT hT]
  unfold rowT
  by_cases hjM : j < tri (k + 2) - 1
  · simp only [if_pos hjM]
    rw [hT.nCols]
    exact key _
  · simp only [if_neg hjM]
    rw [hT.pCols]
    exact key _

theorem sqrtArray_ok (sqrt : ℝ → ℝ) (w : List ℝ) (hw : ∀ x ∈ w, 0 ≤ x) : sqrtArray sqrt w = .ok (w.map sqrt) :=
  mapM_ok _ _ _ fun x hx => if_neg (not_lt.2 (hw x hx))

/-- What `InitializeProjectorsComputation` guarantees. -/
structure MInitOk (k n : Nat) (c : ℝ × ℝ) (h : ℝ) (internal : Rule (ℝ × ℝ) ℝ) (bnd : List (ℝ × ℝ)) (s : MccInit2D ℝ) : Prop where
  nk : s.nk = tri (k + 1)
  nkNabla : s.nkNabla = tri (k + 2) - 1
  numBoundary : s.numBoundary = n * (k + 1)
  numNabla : s.numNabla = tri (k + 1) - 1
  numPlus : s.numPlus = tri k
  numInternal : s.numInternal = k * (k + 2)
  numBasis : s.numBasis = n * (k + 1) + k * (k + 2)
  vIntK : Values internal.points (tri (k + 2)) (basisPoly (k + 1) c h) s.vanderIntKp1
  vInt : Values internal.points (tri (k + 1)) (basisPoly (k + 1) c h) s.vanderInt
  vBndK : Values bnd (tri (k + 2)) (basisPoly (k + 1) c h) s.vanderBndKp1
  vBnd : Values bnd (tri (k + 1)) (basisPoly (k + 1) c h) s.vanderBnd
  hRows : s.H.rows = tri (k + 1)
  hCols : s.H.cols = tri (k + 1)
  hEnt : ∀ i < tri (k + 1), ∀ j < tri (k + 1), s.H.ent i j = quadLin internal.points internal.weights (basisPoly (k + 1) c h i * basisPoly (k + 1) c h j)
  q : s.qKp1 = .identity (tri (k + 2))
  tk : TkOk k c h s.tNabla s.tPlus
  gk : FieldValues k c h s.tPlus internal.points s.gkInt
  gRows : s.G.rows = 2 * tri (k + 1)
  gCols : s.G.cols = 2 * tri (k + 1)
  gEnt : ∀ i < 2 * tri (k + 1), ∀ j < 2 * tri (k + 1), s.G.ent i j =
    ∑ d : Fin 2, quadLin internal.points internal.weights (fld k c h s.tPlus i d * fld k c h s.tPlus j d)

theorem mccInit_ok {svd : DMat ℝ → DMat ℝ} {sqrt : ℝ → ℝ} (hsvd : ∀ A, RightSingular A (svd A)) (hsq : ∀ x, 0 ≤ x → sqrt x * sqrt x = x) (ref : MccRef2D ℝ)
    (ho : ref.order = k) (h1 : ref.dofs1D = k + 1) (h2 : ref.dofs2D = k * (k + 2)) (hm : ref.mono = compute mono2 (k + 1)) (c : ℝ × ℝ) (h : ℝ)
    (internal : Rule (ℝ × ℝ) ℝ) (hw : internal.weights.length = internal.points.length) (hpos : ∀ x ∈ internal.weights, 0 ≤ x) (bnd : List (ℝ × ℝ)) :
    ∃ s, mccInit2D svd sqrt ref n c h internal bnd = .ok s ∧ MInitOk k n c h internal bnd s := by
  obtain ⟨t1, t2⟩ := mcc_counts k
  have hnum : (compute mono2 (k + 1)).num = tri (k + 2) := num2_eq (k + 1)
  obtain ⟨X, hX, hXv, _⟩ := vanderMat_ok (k + 1) c h internal.points
  obtain ⟨Y, hY, hYv, _⟩ := vanderMat_ok (k + 1) c h bnd
  rw [hnum] at hXv hYv
  have hX' : Values internal.points (tri (k + 1)) (basisPoly (k + 1) c h) ⟨X.rows, tri (k + 1), fun i j => X.ent (0 + i) (0 + j)⟩ :=
    ⟨hXv.rows, rfl, fun i p hi j hj => by dsimp only; rw [zero_add, zero_add]; exact hXv.ent i p hi j (by omega)⟩
  have hY' : Values bnd (tri (k + 1)) (basisPoly (k + 1) c h) ⟨Y.rows, tri (k + 1), fun i j => Y.ent (0 + i) (0 + j)⟩ :=
    ⟨hYv.rows, rfl, fun i p hi j hj => by dsimp only; rw [zero_add, zero_add]; exact hYv.ent i p hi j (by omega)⟩
  obtain ⟨T, hT, hTk⟩ := mccTk_ok hsvd k c h
  obtain ⟨gk, hgk, hgv⟩ := mccFields_ok hTk internal.points hX'
  have hsl : (internal.weights.map sqrt).length = internal.points.length := by rw [List.length_map, hw]
  have hsqw : ∀ i, (internal.weights.map sqrt).getD i 0 * (internal.weights.map sqrt).getD i 0 = internal.weights.getD i 0 := by
    intro i
    by_cases hi : i < internal.weights.length
    · have : (internal.weights.map sqrt).getD i 0 = sqrt internal.weights[i] := by simp [List.getD_eq_getElem?_getD, hi]
      rw [this, hsq _ (hpos _ (List.getElem_mem hi))]
      simp [List.getD_eq_getElem?_getD, hi]
    · simp [List.getD_eq_getElem?_getD, hi]
  unfold mccInit2D
  rw [hm, ho, h1, h2]
  dsimp only
  rw [hX, except_ok_bind, show (k + 1) * (k + 2) / 2 = tri (k + 1) from tri_div k, DMat.block_ok _ _ _ _ _ (by omega) (by rw [hXv.cols]; omega), except_ok_bind, hY, except_ok_bind,
    DMat.block_ok _ _ _ _ _ (by omega) (by rw [hYv.cols]; omega), except_ok_bind, sqrtArray_ok sqrt _ hpos, except_ok_bind,
    scaleRows_ok _ _ (by dsimp only; rw [hsl, hXv.rows]), except_ok_bind, DMat.mul_ok _ _ (by rfl), except_ok_bind, hT, except_ok_bind, hw, hgk, except_ok_bind,
    scaleRows_ok _ _ (by rw [List.length_append, hsl]; show _ = gk.cols; rw [hgv.cols]; omega), except_ok_bind, DMat.mul_ok _ _ (by rfl), except_ok_bind]
  refine ⟨_, rfl, ?_⟩
  constructor
  · rfl
  · dsimp only; omega
  · exact mul_comm _ _
  · rfl
  · dsimp only; omega
  · rfl
  · dsimp only; rw [mul_comm (k + 1) n]
  · exact hXv
  · exact hX'
  · exact hYv
  · exact hY'
  · rfl
  · rfl
  · intro i hi j hj
    dsimp only [DMat.tr]
    rw [hXv.rows, ← sum_quadLin internal.points internal.weights hw (fun l => X.ent l i * X.ent l j) _ (fun l p hl => by
      rw [hXv.ent l p hl i (by omega), hXv.ent l p hl j (by omega)]
      simp [ev2])]
    refine Finset.sum_congr rfl fun l _ => ?_
    rw [← hsqw l]
    simp only [zero_add]
    ring
  · dsimp only; rw [hnum]
  · exact hTk
  · exact hgv
  · exact hgv.rows
  · exact hgv.rows
  · intro i hi j hj
    dsimp only [DMat.tr]
    rw [hgv.cols, two_mul, sum_split, Fin.sum_univ_two]
    have hd : ∀ d : Fin 2, ∑ l ∈ Finset.range internal.points.length, internal.weights.getD l 0 * (gk.ent i (d * internal.points.length + l) * gk.ent j (d * internal.points.length + l))
        = quadLin internal.points internal.weights (fld k c h T.2 i d * fld k c h T.2 j d) := by
      intro d
      refine sum_quadLin internal.points internal.weights hw _ _ fun l p hl => ?_
      rw [hgv.ent l p hl i hi d, hgv.ent l p hl j hj d]
      simp [ev2]
    congr 1
    · rw [← hd 0]
      refine Finset.sum_congr rfl fun l hl => ?_
      have hl' := Finset.mem_range.1 hl
      have e : (internal.weights.map sqrt ++ internal.weights.map sqrt).getD l 0 = (internal.weights.map sqrt).getD l 0 := by
        rw [List.getD_eq_getElem?_getD, List.getElem?_append_left (by omega), ← List.getD_eq_getElem?_getD]
      rw [e, ← hsqw l]
      simp only [Fin.val_zero, zero_mul, zero_add]
      ring
    · rw [← hd 1]
      refine Finset.sum_congr rfl fun l hl => ?_
      have e : (internal.weights.map sqrt ++ internal.weights.map sqrt).getD (internal.points.length + l) 0 = (internal.weights.map sqrt).getD l 0 := by
        rw [List.getD_eq_getElem?_getD, List.getElem?_append_right (by omega), hsl, Nat.add_sub_cancel_left, ← List.getD_eq_getElem?_getD]
      rw [e, ← hsqw l]
      simp only [Fin.val_one, one_mul]
      ring

end

end PolyDiM
