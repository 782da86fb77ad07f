import Verif.Model.RT2D
import Verif.Lemmas.RTPoly
import Verif.Lemmas.VemSpace
import Verif.Lemmas.Elliptic
import Verif.Lemmas.FemHexa

/-!
# Lemmas: the matrices of the Raviart-Thomas element
-/

namespace PolyDiM

open Spec MvPolynomial

/-! ## Small operations -/

section
variable {K : Type} [Field K]

theorem segmentOf_ok (l : List K) (off n : Nat) (h : off + n ≤ l.length) : segmentOf l off n = .ok (vecOf n fun t => l.getD (off + t) 0) := by
  unfold segmentOf
  rw [if_pos h]
  congr 1
  refine List.ext_getElem? fun t => ?_
  simp only [vecOf, List.getElem?_map, List.getElem?_take, List.getElem?_drop, List.getD_eq_getElem?_getD]
  by_cases ht : t < n
  · rw [if_pos ht, List.getElem?_range ht, Option.map_some, List.getElem?_eq_getElem (show off + t < l.length by omega)]
    rfl
  · rw [if_neg ht, List.getElem?_eq_none (by simpa using ht)]
    rfl

theorem arraySum_ok (n : Nat) (f g : Nat → K) : arraySum (vecOf n f) (vecOf n g) = .ok (vecOf n fun i => f i + g i) := by
  unfold arraySum
  rw [if_pos (by rw [vecOf_length, vecOf_length])]
  congr 1
  unfold vecOf
  rw [List.zipWith_map, List.zipWith_self]

theorem diagMul_ok (A : DMat K) (w : List K) (h : w.length = A.rows) : DMat.diagMul w A = .ok ⟨A.rows, A.cols, fun i j => w.getD i 0 * A.ent i j⟩ :=
  if_pos h

theorem rtProd_ok (U : DMat K) (f : Nat → K) (V : DMat K) (r c m n : Nat) (hU : U.rows = m) (hr : r + m ≤ V.rows) (hc : c + n ≤ V.cols) :
    rtProd U (vecOf m f) V r c m n = .ok ⟨U.cols, n, fun i j => ∑ t ∈ Finset.range m, U.ent t i * (vecOf m f).getD t 0 * V.ent (r + t) (c + j)⟩ := by
  unfold rtProd
  rw [DMat.mulDiag_ok _ _ (by rw [vecOf_length]; exact hU), except_ok_bind, DMat.block_ok _ _ _ _ _ hr hc, except_ok_bind, DMat.mul_ok _ _ (by exact hU)]
  congr 2
  funext i j
  exact Finset.sum_congr (by show Finset.range U.rows = _; rw [hU]) fun _ _ => rfl

theorem vec_sum (m : Nat) (a f b : Nat → K) : ∑ t ∈ Finset.range m, a t * (vecOf m f).getD t 0 * b t = ∑ t ∈ Finset.range m, a t * f t * b t :=
  Finset.sum_congr rfl fun t ht => by rw [vecOf_getD _ (Finset.mem_range.1 ht)]

theorem vecOf_eta (l : List K) (n : Nat) (h : l.length = n) : l = vecOf n fun t => l.getD t 0 := by
  have := segmentOf_ok l 0 n (by omega)
  unfold segmentOf at this
  rw [if_pos (by omega), List.drop_zero, List.take_of_length_le (by omega)] at this
  injection this with this
  simpa using this

end

/-! ## The reference element -/

/-- The basis polynomial. -/
noncomputable abbrev rtPoly (k j : Nat) : MvPolynomial (Fin 2) ℝ := basisPoly k rtCenter rtScale j

/-- The vector polynomial of column `j` of the system. -/
noncomputable def rtCol (k j : Nat) : MvPolynomial (Fin 2) ℝ × MvPolynomial (Fin 2) ℝ :=
  if j < tri (k + 1) then (rtPoly k j, 0)
  else if j < 2 * tri (k + 1) then (0, rtPoly k (j - tri (k + 1)))
  else ((X 0 - C (1 / 3)) * rtPoly k (tri k + (j - 2 * tri (k + 1))), (X 1 - C (1 / 3)) * rtPoly k (tri k + (j - 2 * tri (k + 1))))

/-- The number of columns. -/
def rtNum (k : Nat) : Nat := 2 * tri (k + 1) + (k + 1)

theorem rtNum_eq (k : Nat) : 3 * (k + 1) + 2 * tri k = rtNum k := by
  rw [rtNum, tri_succ]
  omega

/-- The field with the given coefficients. -/
noncomputable def rtField (k : Nat) (x : Nat → ℝ) : MvPolynomial (Fin 2) ℝ × MvPolynomial (Fin 2) ℝ :=
  (∑ j ∈ Finset.range (rtNum k), C (x j) * (rtCol k j).1, ∑ j ∈ Finset.range (rtNum k), C (x j) * (rtCol k j).2)

/-- What is known of the reference element before the loop over the directions. -/
structure RtRefOk (k : Nat) (t : Rule (ℝ × ℝ) ℝ) (ts ws : List ℝ) (ref : RtRef ℝ) : Prop where
  order : ref.order = k
  nk : ref.nk = tri (k + 1)
  nkm1 : ref.nkm1 = tri k
  dofs1D : ref.dofs1D = k + 1
  dofs2D : ref.dofs2D = 2 * tri k
  numBasis : ref.numBasis = rtNum k
  triangle : ref.triangle = t
  segment : ref.segment = ⟨ts, ws⟩
  mono2D : ref.mono2D = compute mono2 k
  pressureEq : vanderMat (compute mono2 k) t.points rtCenter rtScale = .ok ref.pressure
  pressure : Values t.points (tri (k + 1)) (rtPoly k) ref.pressure
  vRows : ref.vander1D.rows = k + 1
  vCols : ref.vander1D.cols = k + 1
  vEnt : ∀ t < k + 1, ∀ i < k + 1, ref.vander1D.ent t i = (ts.getD t 0 - 1 / 2) ^ i

theorem vander1_ok (k : Nat) (ts : List ℝ) :
    ∃ V, vanderMat (compute mono1 k) (ts.map fun x => (x, (0 : ℝ))) (1 / 2, 0) 1 = .ok V ∧ V.rows = ts.length ∧ V.cols = k + 1 ∧
      ∀ t < ts.length, ∀ i < k + 1, V.ent t i = (ts.getD t 0 - 1 / 2) ^ i := by
  have hv : ∀ x : ℝ, ∀ i < k + 1, vander (compute mono1 k) (planeCoord (x, (0 : ℝ))) (planeCoord ((1 : ℝ) / 2, (0 : ℝ))) 1 i = .ok ((x - 1 / 2) ^ i) := by
    intro x i hi
    have he : (compute mono1 k).exps[i]? = some [i] := (exps_iff ranked1 k i [i]).2 ⟨rfl, by simp; omega, rfl⟩
    rw [vander_ok ranked1 (by decide) _ _ _ he]
    simp [Spec.monomial, mono1, planeCoord]
  have hnum : (compute mono1 k).num = k + 1 := rfl
  have hrows : (ts.map fun x => (x, (0 : ℝ))).mapM (fun p => (List.range (compute mono1 k).num).mapM (vander (compute mono1 k) (planeCoord p) (planeCoord ((1 : ℝ) / 2, (0 : ℝ))) 1))
      = .ok (ts.map fun x => (List.range (k + 1)).map fun i => (x - 1 / 2) ^ i) := by
    rw [hnum]
    have := mapM_ok (fun p : ℝ × ℝ => (List.range (k + 1)).mapM (vander (compute mono1 k) (planeCoord p) (planeCoord ((1 : ℝ) / 2, (0 : ℝ))) 1))
      (fun p => (List.range (k + 1)).map fun i => (p.1 - 1 / 2) ^ i) (ts.map fun x => (x, (0 : ℝ))) (fun p hp => by
        obtain ⟨x, _, rfl⟩ := List.mem_map.1 hp
        exact mapM_ok _ _ _ fun i hi => hv x i (List.mem_range.1 hi))
    rw [this, List.map_map]
    rfl
  refine ⟨_, by unfold vanderMat; rw [hrows, except_ok_bind], by simp, hnum, ?_⟩
  intro t ht i hi
  dsimp only
  simp [List.getD_eq_getElem?_getD, ht, hi]

theorem rtRef_ok {k : Nat} {triangle : Nat → Rule (ℝ × ℝ) ℝ} {gauss : Nat → Rule ℝ ℝ} {ts ws : List ℝ} (hg : gauss (2 * k + 1) = ⟨ts, ws⟩)
    (hts : ts.length = k + 1) : ∃ ref, rtRef triangle gauss k = .ok ref ∧ RtRefOk k (triangle (2 * (k + 1))) ts ws ref := by
  obtain ⟨V, hV, hV1, -⟩ := vanderMat_ok k rtCenter rtScale (triangle (2 * (k + 1))).points
  obtain ⟨U, hU, hU1, hU2, hU3⟩ := vander1_ok k ts
  rw [num2_eq] at hV1
  refine ⟨_, by unfold rtRef; dsimp only; rw [hV, except_ok_bind, hg, hU, except_ok_bind], rfl, tri_div k, ?_, rfl, ?_, ?_, rfl, rfl, rfl, hV, hV1, by rw [hU1, hts], hU2, ?_⟩
  · exact tri_div' k
  · show 2 * k * (k + 1) / 2 = 2 * tri k
    rw [two_tri, mul_assoc, Nat.mul_div_cancel_left _ (by norm_num)]
  · show 3 * (k + 1) + 2 * k * (k + 1) / 2 = rtNum k
    rw [← rtNum_eq, two_tri, mul_assoc, Nat.mul_div_cancel_left _ (by norm_num)]
  · intro t ht i hi
    exact hU3 t (by omega) i hi

/-! ## The boundary rule -/

/-- Endpoints of edge `e`, in the direction of the mesh. -/
noncomputable def rtEdgeEnds (dir : Nat → Bool) (e : Nat) : (ℝ × ℝ) × (ℝ × ℝ) := polyEdge 3 rtVertex (dir e) e

/-- The outer normal times the length. -/
noncomputable def rtNormal (e : Nat) : ℝ × ℝ := clockwise (rtVertex ((e + 1) % 3) - rtVertex e)

/-- The direction of edge `e`. -/
def dirOf (d : Bool × Bool × Bool) (e : Nat) : Bool := if e = 0 then d.1 else if e = 1 then d.2.1 else d.2.2

/-- The points and weights of the boundary rule. -/
structure RtEdgesOk (k : Nat) (d : Bool × Bool × Bool) (ts ws : List ℝ) (q : EdgesRule ℝ) : Prop where
  plen : q.points.length = 3 * (k + 1)
  xlen : q.nx.length = 3 * (k + 1)
  ylen : q.ny.length = 3 * (k + 1)
  point : ∀ e < 3, ∀ t < k + 1, q.points[e * (k + 1) + t]? = some (segPoint (rtEdgeEnds (dirOf d) e).1 (rtEdgeEnds (dirOf d) e).2 (ts.getD t 0))
  nx : ∀ e < 3, ∀ t < k + 1, q.nx.getD (e * (k + 1) + t) 0 = ws.getD t 0 * (rtNormal e).1
  ny : ∀ e < 3, ∀ t < k + 1, q.ny.getD (e * (k + 1) + t) 0 = ws.getD t 0 * (rtNormal e).2

theorem rtEdges_isPoly (r2 : ℝ) (d : Bool × Bool × Bool) : IsPoly (rtEdges r2 d) 3 rtVertex (fun e => if e = 1 then r2 else 1) (dirOf d)
    (fun e => if e = 0 then (0, -1) else if e = 1 then (1 / r2, 1 / r2) else (-1, 0)) where
  vertices := by simp [rtEdges, rtVertex, List.range_succ]
  lengths := by simp [rtEdges, List.range_succ]
  dirs := by simp [rtEdges, dirOf, List.range_succ]
  tangents := by simp [rtEdges, rtVertex, List.range_succ]
  normals := by simp [rtEdges, List.range_succ]

theorem rtQuad_ok {r2 : ℝ} (hr : 0 < r2) (d : Bool × Bool × Bool) {k : Nat} {ts ws : List ℝ} (hts : ts.length = k + 1) (hws : ws.length = k + 1) :
    ∃ q, edgesQuad (rtEdges r2 d) ⟨ts, ws⟩ = .ok q ∧ RtEdgesOk k d ts ws q := by
  have hn : ∀ e < 3, ((if e = 0 then ((0 : ℝ), (-1 : ℝ)) else if e = 1 then (1 / r2, 1 / r2) else (-1, 0)).1 * |if e = 1 then r2 else 1|) = (rtNormal e).1 ∧
      ((if e = 0 then ((0 : ℝ), (-1 : ℝ)) else if e = 1 then (1 / r2, 1 / r2) else (-1, 0)).2 * |if e = 1 then r2 else 1|) = (rtNormal e).2 := by
    intro e he
    have h2 : r2⁻¹ * r2 = 1 := inv_mul_cancel₀ hr.ne'
    rcases (show e = 0 ∨ e = 1 ∨ e = 2 by omega) with rfl | rfl | rfl <;> simp [rtNormal, rtVertex, clockwise, abs_of_pos hr, h2]
  have hget : ∀ (f : Nat → ℝ) (e t : Nat), e < 3 → t < k + 1 →
      ((List.range 3).flatMap fun i => ws.map (· * f i)).getD (e * (k + 1) + t) 0 = ws.getD t 0 * f e := by
    intro f e t he ht
    rw [List.getD_eq_getElem?_getD, flatMap_get (List.range 3) _ (k + 1) e t e (fun a _ => by simp [hws]) (by simp [he]) ht, List.getElem?_map,
      List.getD_eq_getElem?_getD, List.getElem?_eq_getElem (show t < ws.length by omega)]
    rfl
  have hlen : ∀ f : Nat → ℝ, ((List.range 3).flatMap fun i => ws.map (· * f i)).length = 3 * (k + 1) := by
    intro f
    rw [flatMap_const_length _ _ (k + 1) (fun a _ => by simp [hws]), List.length_range]
  refine ⟨_, edgesQuad_eq (rtEdges_isPoly r2 d) ⟨ts, ws⟩ (by simp only; omega), ?_, ?_, ?_, ?_, ?_, ?_⟩
  · dsimp only
    rw [flatMap_const_length _ _ (k + 1) (fun a _ => by simp [edgePts, hts]), List.length_range]
  · exact hlen fun i => (if i = 0 then ((0 : ℝ), (-1 : ℝ)) else if i = 1 then (1 / r2, 1 / r2) else (-1, 0)).1 * |if i = 1 then r2 else 1|
  · exact hlen fun i => (if i = 0 then ((0 : ℝ), (-1 : ℝ)) else if i = 1 then (1 / r2, 1 / r2) else (-1, 0)).2 * |if i = 1 then r2 else 1|
  · intro e he t ht
    dsimp only
    rw [flatMap_get (List.range 3) _ (k + 1) e t e (fun a _ => by simp [edgePts, hts]) (by simp [he]) ht, edgePts, List.getElem?_map,
      List.getElem?_eq_getElem (show t < ts.length by omega), List.getD_eq_getElem?_getD, List.getElem?_eq_getElem (show t < ts.length by omega)]
    rfl
  · intro e he t ht
    rw [← (hn e he).1]
    exact hget (fun i => (if i = 0 then ((0 : ℝ), (-1 : ℝ)) else if i = 1 then (1 / r2, 1 / r2) else (-1, 0)).1 * |if i = 1 then r2 else 1|) e t he ht
  · intro e he t ht
    rw [← (hn e he).2]
    exact hget (fun i => (if i = 0 then ((0 : ℝ), (-1 : ℝ)) else if i = 1 then (1 / r2, 1 / r2) else (-1, 0)).2 * |if i = 1 then r2 else 1|) e t he ht

end PolyDiM
