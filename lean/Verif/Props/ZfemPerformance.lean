import Verif.Model.ZfemPerformance
import Verif.Props.ZfemEnergy

/-!
# The analysis of a local ZFEM space
-/

namespace PolyDiM

open Spec MvPolynomial

/-- C141: with positive weights an entry of the analysis is zero exactly if the two matrices agree in that column. -/
theorem C141_meaning {A B : DMat ℝ} {w e : List ℝ} (hw : ∀ x ∈ w, 0 < x) (h : squaredErrors A B w = .ok e) :
    e.length = A.cols ∧ ∀ j < A.cols, e[j]? = some 0 ↔ ∀ i < A.rows, A.ent i j = B.ent i j := by
  unfold squaredErrors at h
  split_ifs at h with hs
  cases h
  refine ⟨by simp, fun j hj => ?_⟩
  have hpos : ∀ i ∈ Finset.range A.rows, 0 < w.getD i 0 := by
    intro i hi
    have hi : i < w.length := by rw [← hs.2.2]; exact Finset.mem_range.1 hi
    rw [List.getD_eq_getElem?_getD, List.getElem?_eq_getElem hi]
    exact hw _ (List.getElem_mem hi)
  rw [List.getElem?_map, List.getElem?_range hj]
  simp only [Option.map_some, Option.some.injEq]
  rw [Finset.sum_eq_zero_iff_of_nonneg fun i hi => mul_nonneg (mul_self_nonneg _) (hpos i hi).le]
  refine ⟨fun h0 i hi => ?_, fun h0 i hi => ?_⟩
  · have := h0 i (Finset.mem_range.2 hi)
    rcases mul_eq_zero.1 this with h1 | h1
    · exact sub_eq_zero.1 (mul_self_eq_zero.1 h1)
    · exact absurd h1 (hpos i (Finset.mem_range.2 hi)).ne'
  · rw [h0 i (Finset.mem_range.1 hi), sub_self, zero_mul, zero_mul]

/-- One column agrees, the other does not. -/
example : ∃ e, squaredErrors (⟨2, 2, fun i j => if i = j then 1 else 0⟩ : DMat ℝ) ⟨2, 2, fun i j => if i = 0 ∧ j = 0 then 1 else 0⟩ [1, 2] = .ok e ∧ e[0]? = some 0 ∧ e[1]? ≠ some 0 := by
  refine ⟨_, if_pos ⟨rfl, rfl, rfl⟩, ?_, ?_⟩
  · norm_num [List.range_succ, Finset.sum_range_succ]
  · norm_num [List.range_succ, Finset.sum_range_succ]

theorem squaredErrors_zero {A B : DMat ℝ} {w : List ℝ} (hr : A.rows = B.rows) (hc : A.cols = B.cols) (hw : A.rows = w.length)
    (h : ∀ i < A.rows, ∀ j < A.cols, A.ent i j = B.ent i j) : squaredErrors A B w = .ok (List.replicate A.cols 0) := by
  unfold squaredErrors
  rw [if_pos ⟨hr, hc, hw⟩]
  congr 1
  refine List.ext_getElem (by simp) fun j h1 _ => ?_
  rw [List.getElem_map, List.getElem_replicate, List.getElem_range]
  refine Finset.sum_eq_zero fun i hi => ?_
  rw [h i (Finset.mem_range.1 hi) j (by simpa using h1), sub_self, zero_mul, zero_mul]

section

variable (quad : Nat → Rule (ℝ × ℝ) ℝ) (k : Nat) (hk : 1 ≤ k) (ref : ZfemRef ℝ) (href : zfemRef quad k = .ok ref) (poly : ZfemPolygon ℝ) (c : ℝ × ℝ)
  (V : Nat → ℝ × ℝ) (hF : IsFan poly c V) (hh : poly.diameter ≠ 0) (finer : List (ℝ × ℝ)) (hfin : HasNodes ref poly finer)
  (hU : Unisolvent k (finer.take (zfemCounts ref poly.num).basis)) (llt : Solver ℝ) (hs : SolvesPosDef llt) (s : ZfemSpace ℝ)
  (hcr : zfemCreate llt ref poly = .ok s) (hlen : ref.quad.points.length = ref.quad.weights.length) (hex : ExactOnTriangle (2 * k) ref.quad.points ref.quad.weights)

include hk href hF hh hfin hU hs hcr hlen hex

/-- C141: the analysis of the space of every element succeeds and reports no error for any monomial. -/
theorem C141_consistency : ∃ R r, zfemQuadrature ref (fanTris poly.num c V) = .ok R ∧ zfemPerformance ref poly s R = .ok r ∧
    r.consistency = List.replicate ((k + 1) * (k + 2) / 2) 0 ∧
    r.derivatives = [List.replicate ((k + 1) * (k + 2) / 2) 0, List.replicate ((k + 1) * (k + 2) / 2) 0] := by
  obtain ⟨R, U, hR, hQ, hS, hdeg, hrep, -, hrow, -, -⟩ := zfem_tables quad k hk ref href poly c V hF hh finer hfin hU llt hs s hcr hlen hex ⟨[], [], [], [], []⟩
  obtain ⟨num, φ, sp, hsum, hcl⟩ := space_of_create quad k hk ref href poly c V hF hh finer hfin hU llt hs s hcr
  have hmono : ref.mono = compute mono2 k := (zfemRef_ok quad k hk ref href).2.2.2.2.2.2.2.2.2
  obtain ⟨W, hW, hWv, hWe⟩ := vanderMat_ok k poly.centre poly.diameter R.points
  obtain ⟨WX, hWX, hWXv⟩ := vanderDerMat_ok k poly.centre poly.diameter R.points W hWv.rows hWe 0
  obtain ⟨WY, hWY, hWYv⟩ := vanderDerMat_ok k poly.centre poly.diameter R.points W hWv.rows hWe 1
  have hN : (compute mono2 k).num = (k + 1) * (k + 2) / 2 := by rw [num2_eq, tri_div]
  have hpts : R.points.length = poly.num * ref.quad.points.length := hS.points
  have hwts : R.weights.length = poly.num * ref.quad.points.length := hS.weights
  obtain ⟨s1, s2, s3, s4, s5, s6, -, -⟩ := hS.sizes
  have hDr : s.D.rows = s.coarse.length := sp.D_ok.rows
  have hcol : ∀ j < (compute mono2 k).num, ∀ i < s.coarse.length, s.D.ent i j = ev2 (basisPoly k poly.centre poly.diameter j) (s.coarse.getD i (0, 0)) := by
    intro j hj i hi
    rw [List.getD_eq_getElem?_getD, List.getElem?_eq_getElem hi]
    exact sp.D_ok.ent i _ (List.getElem?_eq_getElem hi) j hj
  have key : ∀ (A W : DMat ℝ) (F : MvPolynomial (Fin 2) ℝ → MvPolynomial (Fin 2) ℝ), A.rows = poly.num * ref.quad.points.length → A.cols = s.coarse.length →
      Values R.points (compute mono2 k).num (fun j => F (basisPoly k poly.centre poly.diameter j)) W →
      (∀ t < poly.num, ∀ a z, ref.quad.points[a]? = some z → ∀ x : Nat → ℝ,
        apply A x (t * ref.quad.points.length + a) = ev2 (F (U x t)) (tri2F (c, V t, V ((t + 1) % poly.num)) z)) →
      ∃ P, A.mul s.D = .ok P ∧ squaredErrors P W R.weights = .ok (List.replicate ((k + 1) * (k + 2) / 2) 0) := by
    intro A W F hAr hAc hWv hA
    refine ⟨_, DMat.mul_ok _ _ (hAc.trans hDr.symm), ?_⟩
    rw [← hN, ← sp.D_ok.cols]
    refine squaredErrors_zero ?_ ?_ ?_ fun i hi j hj => ?_
    · exact hAr.trans (hpts.symm.trans hWv.rows.symm)
    · exact sp.D_ok.cols.trans hWv.cols.symm
    · exact hAr.trans hwts.symm
    · have hi : i < poly.num * ref.quad.points.length := hAr ▸ hi
      have hj : j < (compute mono2 k).num := sp.D_ok.cols ▸ hj
      have hnq : 0 < ref.quad.points.length := Nat.pos_of_mul_pos_left hQ
      have hdm : i / ref.quad.points.length * ref.quad.points.length + i % ref.quad.points.length = i := by
        rw [mul_comm]
        exact Nat.div_add_mod _ _
      have ha := Nat.mod_lt i hnq
      have ht : i / ref.quad.points.length < poly.num := (Nat.div_lt_iff_lt_mul hnq).2 hi
      have hz := List.getElem?_eq_getElem ha
      have e1 := hA _ ht _ _ hz fun i => ev2 (basisPoly k poly.centre poly.diameter j) (s.coarse.getD i (0, 0))
      have e2 := (hrow _ ht _ _ hz fun _ => 0).1
      rw [hrep _ (basisPoly_degree k _ _ hj (by rw [← num2_eq]; exact hj)) _ ht, hdm] at e1
      rw [hdm] at e2
      have hp : R.points[i]? = some (rulePoint R i) := by
        unfold rulePoint
        rw [List.getD_eq_getElem?_getD, List.getElem?_eq_getElem (by rw [hpts]; exact hi)]
        rfl
      rw [hWv.ent i _ hp j hj, e2, ← e1]
      dsimp only
      unfold apply
      rw [hAc]
      exact Finset.sum_congr rfl fun l hl => by rw [hcol j hj l (Finset.mem_range.1 hl)]
  obtain ⟨P, hP, he⟩ := key s.values W id s1 s2 hWv fun t ht a z hz x => (hrow t ht a z hz x).2.1
  obtain ⟨PX, hPX, heX⟩ := key s.derX WX (pderiv 0) s3 s4 hWXv fun t ht a z hz x => (hrow t ht a z hz x).2.2.1
  obtain ⟨PY, hPY, heY⟩ := key s.derY WY (pderiv 1) s5 s6 hWYv fun t ht a z hz x => (hrow t ht a z hz x).2.2.2
  refine ⟨R, ⟨_, _⟩, hR, ?_, rfl, rfl⟩
  have hWX : vanderDerMat (compute mono2 k) W poly.diameter 0 = .ok WX := hWX
  have hWY : vanderDerMat (compute mono2 k) W poly.diameter 1 = .ok WY := hWY
  unfold zfemPerformance
  rw [hmono, hW, except_ok_bind, hWX, except_ok_bind, hWY, except_ok_bind, hP, except_ok_bind, he, except_ok_bind, hPX, except_ok_bind, heX, except_ok_bind, hPY,
    except_ok_bind, heY, except_ok_bind]

end

/-- The diamond at order 2. -/
example : ∃ lu : Solver ℝ, ∃ ref s R r, SolvesPosDef lu ∧ zfemRef (fun _ => ⟨boolePoints, booleWeights⟩) 2 = .ok ref ∧ zfemCreate lu ref diamond = .ok s ∧
    zfemQuadrature ref (fanTris diamond.num (0, 0) diamondV) = .ok R ∧ zfemPerformance ref diamond s R = .ok r ∧ r.consistency = List.replicate 6 0 := by
  obtain ⟨lu, ref, finer, s, h2, href, hq, hfin, hU, hs, hcl⟩ := diamond_space
  have hlen : ref.quad.points.length = ref.quad.weights.length := by rw [hq]; rfl
  have hex : ExactOnTriangle (2 * 2) ref.quad.points ref.quad.weights := by rw [hq]; exact dfBoole_exact
  obtain ⟨R, r, hR, hr, h1, -⟩ := C141_consistency _ 2 (by norm_num) ref href diamond (0, 0) diamondV diamond_fan two_ne_zero finer hfin hU lu h2 s hs hlen hex
  exact ⟨lu, ref, s, R, r, h2, href, hs, hR, hr, h1⟩

end PolyDiM
