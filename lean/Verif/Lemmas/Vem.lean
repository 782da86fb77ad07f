import Verif.Lemmas.VemMono
import Verif.Lemmas.Mat
import Verif.Lemmas.FemQuad
import Verif.Props.QuadratureExact

/-!
# Lemmas: the matrices of the VEM local space
-/

namespace PolyDiM

open Spec MvPolynomial

/-- The quadrature of a polynomial. -/
noncomputable def quadLin (points : List (ℝ × ℝ)) (weights : List ℝ) : MvPolynomial (Fin 2) ℝ →ₗ[ℝ] ℝ where
  toFun q := quadSum points weights (ev2 q)
  map_add' q r := by
    rw [← quadSum_add]
    congr 1
    funext p
    simp [ev2]
  map_smul' a q := by
    rw [RingHom.id_apply, smul_eq_mul, ← quadSum_const_mul]
    congr 1
    funext p
    simp [ev2]

theorem quadLin_C_mul (points : List (ℝ × ℝ)) (weights : List ℝ) (a : ℝ) (q : MvPolynomial (Fin 2) ℝ) :
    quadLin points weights (C a * q) = a * quadLin points weights q := by
  rw [← smul_eq_C_mul, map_smul, smul_eq_mul]

/-- Values of a polynomial at the points, summed with the weights. -/
theorem sum_quadLin (points : List (ℝ × ℝ)) (w : List ℝ) (hw : w.length = points.length) (F : Nat → ℝ) (q : MvPolynomial (Fin 2) ℝ)
    (hF : ∀ (i : Nat) (p : ℝ × ℝ), points[i]? = some p → F i = ev2 q p) :
    ∑ i ∈ Finset.range points.length, w.getD i 0 * F i = quadLin points w q :=
  sum_quadSum points w hw F (ev2 q) hF

/-- The matrix holds the values of the polynomials `P j`, `j < N`, at the points. -/
structure Values (points : List (ℝ × ℝ)) (N : Nat) (P : Nat → MvPolynomial (Fin 2) ℝ) (V : DMat ℝ) : Prop where
  rows : V.rows = points.length
  cols : V.cols = N
  ent : ∀ (i : Nat) (p : ℝ × ℝ), points[i]? = some p → ∀ j < N, V.ent i j = ev2 (P j) p

theorem vanderMat_ok (k : Nat) (c : ℝ × ℝ) (h : ℝ) (points : List (ℝ × ℝ)) :
    ∃ V, vanderMat (compute mono2 k) points c h = .ok V ∧ Values points (compute mono2 k).num (basisPoly k c h) V ∧
      ∀ (i : Nat) (p : ℝ × ℝ), points[i]? = some p → ∀ j < (compute mono2 k).num, vander (compute mono2 k) (planeCoord p) (planeCoord c) h j = .ok (V.ent i j) := by
  have hv : ∀ p, ∀ j < (compute mono2 k).num, vander (compute mono2 k) (planeCoord p) (planeCoord c) h j = .ok (ev2 (basisPoly k c h j) p) := by
    intro p j hj
    obtain ⟨e, he⟩ := get_of_lt mono2 hj
    rw [vander_ok ranked2 (by decide) _ _ _ he, basisPoly_get k c h he, ev2_monoPoly]
    rfl
  have hrows : points.mapM (fun p => (List.range (compute mono2 k).num).mapM (vander (compute mono2 k) (planeCoord p) (planeCoord c) h))
      = .ok (points.map fun p => (List.range (compute mono2 k).num).map fun j => ev2 (basisPoly k c h j) p) := by
    refine mapM_ok _ _ _ fun p _ => ?_
    exact mapM_ok _ _ _ fun j hj => hv p j (List.mem_range.1 hj)
  have hent : ∀ (i : Nat) (p : ℝ × ℝ), points[i]? = some p → ∀ j < (compute mono2 k).num,
      ((points.map fun p => (List.range (compute mono2 k).num).map fun j => ev2 (basisPoly k c h j) p).getD i []).getD j 0 = ev2 (basisPoly k c h j) p := by
    intro i p hi j hj
    simp [List.getD_eq_getElem?_getD, hj, hi]
  refine ⟨⟨points.length, (compute mono2 k).num, fun i j => ((points.map fun p => (List.range (compute mono2 k).num).map
    fun j => ev2 (basisPoly k c h j) p).getD i []).getD j 0⟩, ?_, ⟨rfl, rfl, hent⟩, ?_⟩
  · unfold vanderMat
    rw [hrows, except_ok_bind]
  · intro i p hi j hj
    dsimp only
    rw [hent i p hi j hj, hv p j hj]

theorem vanderDerMat_ok (k : Nat) (c : ℝ × ℝ) (h : ℝ) (points : List (ℝ × ℝ)) (V : DMat ℝ) (hr : V.rows = points.length)
    (hV : ∀ (i : Nat) (p : ℝ × ℝ), points[i]? = some p → ∀ j < (compute mono2 k).num, vander (compute mono2 k) (planeCoord p) (planeCoord c) h j = .ok (V.ent i j))
    (d : Fin 2) : ∃ X, vanderDerMat (compute mono2 k) V h d = .ok X ∧ Values points (compute mono2 k).num (fun j => pderiv d (basisPoly k c h j)) X := by
  have hv : ∀ (i : Nat) (p : ℝ × ℝ), points[i]? = some p → ∀ j < (compute mono2 k).num,
      vanderDer mono2 (compute mono2 k) (V.ent i) h d j = .ok (ev2 (pderiv d (basisPoly k c h j)) p) := by
    intro i p hi j hj
    obtain ⟨a, b, he, hab, hrk⟩ := exps2_get k hj
    rw [vanderDer_ok facts2 he (d := d) (by show (d : Nat) < 2; omega) (planeCoord p) (planeCoord c) h (V.ent i) (hV i p hi), basisPoly_get k c h he]
    congr 1
    rw [show mono2.dim = 2 from rfl]
    fin_cases d
    · rw [Fin.zero_eta, monoPoly_pderiv0]
      simp only [ev2, map_mul, eval_C]
      have := ev2_monoPoly c h [a - 1, b] p
      simp only [ev2] at this
      rw [this]
      simp only [ex, List.getD_cons_zero, List.set_cons_zero, Fin.val_zero]
      ring
    · simp only [Fin.mk_one]
      rw [monoPoly_pderiv1]
      simp only [ev2, map_mul, eval_C]
      have := ev2_monoPoly c h [a, b - 1] p
      simp only [ev2] at this
      rw [this]
      simp only [ex, List.getD_cons_zero, List.getD_cons_succ, List.set_cons_zero, List.set_cons_succ]
      ring
  have hpt : ∀ i < V.rows, points[i]? = some (points.getD i 0) := by
    intro i hi
    rw [hr] at hi
    rw [List.getD_eq_getElem?_getD, List.getElem?_eq_getElem hi]
    rfl
  have hrows : (List.range V.rows).mapM (fun i => (List.range (compute mono2 k).num).mapM (vanderDer mono2 (compute mono2 k) (V.ent i) h d))
      = .ok ((List.range V.rows).map fun i => (List.range (compute mono2 k).num).map fun j => ev2 (pderiv d (basisPoly k c h j)) (points.getD i 0)) := by
    refine mapM_ok _ _ _ fun i hi => ?_
    exact mapM_ok _ _ _ fun j hj => hv i _ (hpt i (List.mem_range.1 hi)) j (List.mem_range.1 hj)
  refine ⟨⟨V.rows, (compute mono2 k).num, fun i j => (((List.range V.rows).map fun i => (List.range (compute mono2 k).num).map
    fun j => ev2 (pderiv d (basisPoly k c h j)) (points.getD i 0)).getD i []).getD j 0⟩, ?_, hr, rfl, ?_⟩
  · unfold vanderDerMat
    rw [hrows, except_ok_bind]
  · intro i p hi j hj
    have hil : i < V.rows := by
      rw [hr]
      exact (List.getElem?_eq_some_iff.1 hi).1
    have : points.getD i 0 = p := by
      rw [List.getD_eq_getElem?_getD, hi]
      rfl
    simp [List.getD_eq_getElem?_getD, hil, hj, hi]

/-- What `InitializeProjectorsComputation` guarantees. -/
structure InitOk (k n : Nat) (c : ℝ × ℝ) (h : ℝ) (internal : Rule (ℝ × ℝ) ℝ) (bnd : List (ℝ × ℝ)) (s : VemInit2D ℝ) : Prop where
  numVertex : s.numVertex = n
  numEdge : s.numEdge = (k - 1) * n
  numInternal : s.numInternal = tri (k - 1)
  numBasis : s.numBasis = n + (k - 1) * n + tri (k - 1)
  numProj : s.numProj = tri (k + 1)
  nkm1 : s.nkm1 = tri k
  vanderInt : Values internal.points (tri (k + 1)) (basisPoly k c h) s.vanderInt
  vanderIntX : Values internal.points (tri (k + 1)) (fun j => pderiv 0 (basisPoly k c h j)) s.vanderIntX
  vanderIntY : Values internal.points (tri (k + 1)) (fun j => pderiv 1 (basisPoly k c h j)) s.vanderIntY
  vanderBnd : Values bnd (tri (k + 1)) (basisPoly k c h) s.vanderBnd
  vanderBndX : Values bnd (tri (k + 1)) (fun j => pderiv 0 (basisPoly k c h j)) s.vanderBndX
  vanderBndY : Values bnd (tri (k + 1)) (fun j => pderiv 1 (basisPoly k c h j)) s.vanderBndY
  hRows : s.H.rows = tri (k + 1)
  hCols : s.H.cols = tri (k + 1)
  hEnt : ∀ i < tri (k + 1), ∀ j < tri (k + 1), s.H.ent i j = quadLin internal.points internal.weights (basisPoly k c h i * basisPoly k c h j)
  eqInt : vanderMat (compute mono2 k) internal.points c h = .ok s.vanderInt
  eqIntX : vanderDerMat (compute mono2 k) s.vanderInt h 0 = .ok s.vanderIntX
  eqIntY : vanderDerMat (compute mono2 k) s.vanderInt h 1 = .ok s.vanderIntY

theorem tri_one_sub (k : Nat) : tri (k + 1) - k - 1 = tri k := by
  rw [tri_succ]
  omega

/-- `Aᵀ W B` for matrices of values is a matrix of quadratures of products. -/
theorem gram_ok (points : List (ℝ × ℝ)) (w : List ℝ) (hw : w.length = points.length) (N : Nat) (P : Nat → MvPolynomial (Fin 2) ℝ) (V : DMat ℝ)
    (hV : Values points N P V) : ∃ A M, V.tr.mulDiag w = .ok A ∧ A.mul V = .ok M ∧ M.rows = N ∧ M.cols = N ∧
      ∀ i < N, ∀ j < N, M.ent i j = quadLin points w (P i * P j) := by
  refine ⟨_, _, DMat.mulDiag_ok _ _ (by rw [hw, ← hV.rows]; rfl), DMat.mul_ok _ _ rfl, hV.cols, hV.cols, ?_⟩
  intro i hi j hj
  dsimp only
  show ∑ l ∈ Finset.range V.rows, V.ent l i * w.getD l 0 * V.ent l j = _
  rw [hV.rows, ← sum_quadLin points w hw (fun l => V.ent l i * V.ent l j) _ (fun l p hl => by
    rw [hV.ent l p hl i hi, hV.ent l p hl j hj]
    simp [ev2])]
  exact Finset.sum_congr rfl fun l _ => by ring

theorem vemInit2D_ok (ref : VemRef2D ℝ) (poly : VemPolygon ℝ) (k n : Nat) (ho : ref.order = k) (h1 : ref.dofs1D = k - 1)
    (h2 : ref.dofs2D = tri (k - 1)) (hm : ref.mono = compute mono2 k) (hn : poly.edges.vertices.length = n)
    (internal : Rule (ℝ × ℝ) ℝ) (hw : internal.weights.length = internal.points.length) (bnd : List (ℝ × ℝ)) :
    ∃ s, vemInit2D ref poly internal bnd = .ok s ∧ InitOk k n poly.centroid poly.diameter internal bnd s := by
  obtain ⟨V, hV, hV1, hV2⟩ := vanderMat_ok k poly.centroid poly.diameter internal.points
  obtain ⟨VX, hVX, hVX1⟩ := vanderDerMat_ok k poly.centroid poly.diameter internal.points V hV1.rows hV2 0
  obtain ⟨VY, hVY, hVY1⟩ := vanderDerMat_ok k poly.centroid poly.diameter internal.points V hV1.rows hV2 1
  obtain ⟨B, hB, hB1, hB2⟩ := vanderMat_ok k poly.centroid poly.diameter bnd
  obtain ⟨BX, hBX, hBX1⟩ := vanderDerMat_ok k poly.centroid poly.diameter bnd B hB1.rows hB2 0
  obtain ⟨BY, hBY, hBY1⟩ := vanderDerMat_ok k poly.centroid poly.diameter bnd B hB1.rows hB2 1
  obtain ⟨A, H, hA, hH, hr, hc, he⟩ := gram_ok internal.points internal.weights hw _ _ V hV1
  rw [num2_eq] at hV1 hVX1 hVY1 hB1 hBX1 hBY1 hr hc he
  have e : vemInit2D ref poly internal bnd = .ok ⟨n, (k - 1) * n, tri (k - 1), n + (k - 1) * n + tri (k - 1), tri (k + 1), tri (k + 1) - k - 1,
      (k - 1) * k / 2, V, VX, VY, B, BX, BY, H⟩ := by
    unfold vemInit2D
    simp only [Fin.val_zero, Fin.val_one] at hVX hVY hBX hBY
    rw [hm, ho, h1, h2, hn]
    dsimp only
    rw [hV, except_ok_bind, hVX, except_ok_bind, hVY, except_ok_bind, hB, except_ok_bind, hBX, except_ok_bind, hBY, except_ok_bind, hA, except_ok_bind,
      hH, except_ok_bind, num2_eq]
  exact ⟨_, e, rfl, rfl, rfl, rfl, rfl, tri_one_sub k, hV1, hVX1, hVY1, hB1, hBX1, hBY1, hr, hc, he, hV, hVX, hVY⟩

end PolyDiM
