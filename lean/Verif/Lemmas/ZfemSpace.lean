import Verif.Lemmas.ZfemValues
import Verif.Lemmas.Trace
import Verif.Spec.Vem

/-! Helper lemmas: the local space of ZFEM. -/

namespace PolyDiM

open Spec MvPolynomial

/-! ## The weights -/

theorem vander_posdef {k : Nat} {c : ℝ × ℝ} {h : ℝ} (hh : h ≠ 0) {points : List (ℝ × ℝ)} {D : DMat ℝ} (hD : Values points (compute mono2 k).num (basisPoly k c h) D)
    (hU : Unisolvent k points) (x : Nat → ℝ) (hx : ∃ j < (compute mono2 k).num, x j ≠ 0) :
    0 < ∑ i ∈ Finset.range (compute mono2 k).num, x i * ∑ j ∈ Finset.range (compute mono2 k).num, (∑ r ∈ Finset.range D.rows, D.ent r i * D.ent r j) * x j := by
  have e : ∑ i ∈ Finset.range (compute mono2 k).num, x i * ∑ j ∈ Finset.range (compute mono2 k).num, (∑ r ∈ Finset.range D.rows, D.ent r i * D.ent r j) * x j =
      ∑ r ∈ Finset.range D.rows, (∑ i ∈ Finset.range (compute mono2 k).num, D.ent r i * x i) ^ 2 := by
    simp_rw [sq, Finset.sum_mul_sum, Finset.sum_mul, Finset.mul_sum]
    rw [Finset.sum_congr rfl fun i _ => Finset.sum_comm, Finset.sum_comm]
    refine Finset.sum_congr rfl fun r _ => Finset.sum_congr rfl fun i _ => Finset.sum_congr rfl fun j _ => ?_
    ring
  rw [e]
  refine lt_of_le_of_ne (Finset.sum_nonneg fun _ _ => sq_nonneg _) fun h0 => ?_
  have h1 := (Finset.sum_eq_zero_iff_of_nonneg fun _ _ => sq_nonneg _).1 h0.symm
  have h2 : ∑ j ∈ Finset.range (compute mono2 k).num, C (x j) * basisPoly k c h j = 0 := by
    refine hU _ ?_ fun p hp => ?_
    · refine (totalDegree_finsetSum _ _).trans (Finset.sup_le fun j hj => (totalDegree_mul _ _).trans ?_)
      rw [totalDegree_C, Nat.zero_add]
      refine basisPoly_degree k c h (Finset.mem_range.1 hj) ?_
      rw [← num2_eq]
      exact Finset.mem_range.1 hj
    · obtain ⟨i, hi, rfl⟩ := List.mem_iff_getElem.1 hp
      have h3 := h1 i (Finset.mem_range.2 (by rw [hD.rows]; exact hi))
      have h4 : ∑ j ∈ Finset.range (compute mono2 k).num, D.ent i j * x j = 0 := pow_eq_zero_iff (two_ne_zero) |>.1 h3
      rw [← h4]
      simp only [ev2, map_sum, map_mul, eval_C]
      refine Finset.sum_congr rfl fun j hj => ?_
      rw [hD.ent i _ (List.getElem?_eq_getElem hi) j (Finset.mem_range.1 hj), mul_comm]
  obtain ⟨j, hj, hne⟩ := hx
  exact hne (basisPoly_independent k c h hh x h2 j hj)

/-- The weights reproduce the monomials and lie in the range of `D`. -/
theorem zfemWeights_ok {k : Nat} {c : ℝ × ℝ} {h : ℝ} (hh : h ≠ 0) {coarse virt : List (ℝ × ℝ)} {D V : DMat ℝ} (hD : Values coarse (compute mono2 k).num (basisPoly k c h) D)
    (hV : Values virt (compute mono2 k).num (basisPoly k c h) V) (hU : Unisolvent k coarse) {llt : Solver ℝ} (hs : SolvesPosDef llt) :
    ∃ W, zfemWeights llt D V = .ok W ∧ W.rows = coarse.length ∧ W.cols = virt.length ∧
      (∀ j < (compute mono2 k).num, ∀ l < virt.length, ∑ i ∈ Finset.range coarse.length, D.ent i j * W.ent i l = V.ent l j) ∧
      ∃ X : Nat → Nat → ℝ, ∀ i l, W.ent i l = ∑ j ∈ Finset.range (compute mono2 k).num, D.ent i j * X j l := by
  unfold zfemWeights
  rw [DMat.mul_ok _ _ rfl, except_ok_bind]
  have hsol := hs ⟨D.cols, D.cols, fun i j => ∑ r ∈ Finset.range D.rows, D.tr.ent i r * D.ent r j⟩ V.tr rfl (by show V.cols = D.cols; rw [hV.cols, hD.cols])
    (fun i _ j _ => by
      show ∑ r ∈ Finset.range D.rows, D.ent r i * D.ent r j = ∑ r ∈ Finset.range D.rows, D.ent r j * D.ent r i
      exact Finset.sum_congr rfl fun r _ => mul_comm _ _) (fun x hx => by
      have := vander_posdef hh hD hU x (by rw [← hD.cols]; exact hx)
      dsimp only
      rw [hD.cols]
      exact this)
  obtain ⟨hr, hc, he⟩ := hsol
  dsimp only at hr hc he
  change DMat.rows (llt ⟨D.cols, D.cols, fun i j => ∑ r ∈ Finset.range D.rows, D.tr.ent i r * D.ent r j⟩ V.tr) = D.cols at hr
  have hm : D.tr.rows = D.cols := rfl
  have hm' : D.tr.cols = D.rows := rfl
  rw [hm, hm']
  generalize llt ⟨D.cols, D.cols, fun i j => ∑ r ∈ Finset.range D.rows, D.tr.ent i r * D.ent r j⟩ V.tr = X at hr hc he ⊢
  rw [DMat.mul_ok _ _ (by rw [hr])]
  refine ⟨_, rfl, hD.rows, by show X.cols = _; rw [hc]; exact hV.rows, ?_, X.ent, ?_⟩
  · intro j hj l hl
    have := he j (by rw [hD.cols]; exact hj) l (by show l < V.rows; rw [hV.rows]; exact hl)
    have e1 : V.tr.ent j l = V.ent l j := rfl
    rw [← e1, ← this, ← hD.rows]
    simp_rw [Finset.mul_sum, Finset.sum_mul]
    rw [Finset.sum_comm]
    refine Finset.sum_congr rfl fun a _ => Finset.sum_congr rfl fun b _ => ?_
    show D.ent b j * (D.ent b a * X.ent a l) = D.ent b j * D.ent b a * X.ent a l
    ring
  · intro i l
    show ∑ j ∈ Finset.range D.cols, D.ent i j * X.ent j l = _
    rw [hD.cols]

theorem weights_reproduce {k : Nat} {c : ℝ × ℝ} {h : ℝ} (hh : h ≠ 0) {coarse virt : List (ℝ × ℝ)} {D V : DMat ℝ}
    (hD : Values coarse (compute mono2 k).num (basisPoly k c h) D) (hV : Values virt (compute mono2 k).num (basisPoly k c h) V) (w : Nat → ℝ) {l : Nat} {v : ℝ × ℝ}
    (hl : virt[l]? = some v) :
    (∀ j < (compute mono2 k).num, ∑ i ∈ Finset.range coarse.length, D.ent i j * w i = V.ent l j) ↔
      ∀ q : MvPolynomial (Fin 2) ℝ, q.totalDegree ≤ k → ev2 q v = ∑ i ∈ Finset.range coarse.length, w i * ev2 q (coarse.getD i (0, 0)) := by
  have hget : ∀ i < coarse.length, coarse[i]? = some (coarse.getD i (0, 0)) := by
    intro i hi
    simp [List.getD, hi]
  constructor
  · intro hw q hq
    obtain ⟨a, ha⟩ := basisPoly_span k c h hh le_rfl q hq
    rw [← num2_eq] at ha
    have hev : ∀ p, ev2 q p = ∑ j ∈ Finset.range (compute mono2 k).num, a j * ev2 (basisPoly k c h j) p := by
      intro p
      conv_lhs => rw [ha]
      simp [ev2]
    rw [hev v]
    have h1 : ∀ j ∈ Finset.range (compute mono2 k).num, a j * ev2 (basisPoly k c h j) v =
        ∑ i ∈ Finset.range coarse.length, a j * (ev2 (basisPoly k c h j) (coarse.getD i (0, 0)) * w i) := by
      intro j hj
      have hj := Finset.mem_range.1 hj
      rw [← hV.ent l v hl j hj, ← hw j hj, Finset.mul_sum]
      refine Finset.sum_congr rfl fun i hi => ?_
      rw [hD.ent i _ (hget i (Finset.mem_range.1 hi)) j hj]
    rw [Finset.sum_congr rfl h1, Finset.sum_comm]
    refine Finset.sum_congr rfl fun i _ => ?_
    rw [hev, Finset.mul_sum]
    exact Finset.sum_congr rfl fun j _ => by ring
  · intro hw j hj
    rw [hV.ent l v hl j hj, hw _ (basisPoly_degree k c h hj (by rw [← num2_eq]; exact hj))]
    refine Finset.sum_congr rfl fun i hi => ?_
    rw [hD.ent i _ (hget i (Finset.mem_range.1 hi)) j hj, mul_comm]

/-! ## The values -/

theorem zfemCombine_ok {K : Type} [Field K] {nb nv : Nat} {F W : DMat K} (hF : F.cols = nb + nv) (hr : W.rows = nb) (hc : W.cols = nv) :
    ∃ B, zfemCombine nb nv F W = .ok B ∧ B.rows = F.rows ∧ B.cols = nb ∧
      ∀ r i, B.ent r i = F.ent r i + ∑ l ∈ Finset.range nv, F.ent r (nb + l) * W.ent i l := by
  unfold zfemCombine
  rw [if_pos (by omega), DMat.block_ok _ _ _ _ _ (by omega) (by omega), except_ok_bind, DMat.block_ok _ _ _ _ _ (by omega) (by omega), except_ok_bind,
    DMat.mul_ok _ _ (by show nv = W.cols; rw [hc]), except_ok_bind, DMat.add_ok _ _ (by rfl) (by show nb = W.rows; rw [hr])]
  refine ⟨_, rfl, rfl, rfl, fun r i => ?_⟩
  simp only [Nat.zero_add]
  congr 1
  refine Finset.sum_congr rfl fun l _ => ?_
  rw [hF, Nat.add_sub_cancel]
  rfl

/-- The nodal values on the triangles of the function with the DOFs `u`. -/
def extend {K : Type} [Field K] (nb : Nat) (W : Nat → Nat → K) (u : Nat → K) (i : Nat) : K := if i < nb then u i else ∑ a ∈ Finset.range nb, W a (i - nb) * u a

theorem combine_sum {K : Type} [Field K] {nb nv : Nat} (F : Nat → K) (W : Nat → Nat → K) (u : Nat → K) :
    ∑ i ∈ Finset.range nb, u i * (F i + ∑ l ∈ Finset.range nv, F (nb + l) * W i l) = ∑ i ∈ Finset.range (nb + nv), extend nb W u i * F i := by
  rw [Finset.sum_range_add]
  simp_rw [mul_add, Finset.sum_add_distrib]
  congr 1
  · refine Finset.sum_congr rfl fun i hi => ?_
    unfold extend
    rw [if_pos (Finset.mem_range.1 hi)]
  · simp_rw [Finset.mul_sum]
    rw [Finset.sum_comm]
    refine Finset.sum_congr rfl fun l _ => ?_
    unfold extend
    rw [if_neg (by omega), Nat.add_sub_cancel_left, Finset.sum_mul]
    refine Finset.sum_congr rfl fun i _ => ?_
    ring

theorem hit_sum {K : Type} [Field K] {C N : Nat} {idx : Nat → Nat} (hlt : ∀ p < C, idx p < N) (hinj : ∀ p < C, ∀ q < C, idx p = idx q → p = q) (U F v : Nat → K)
    (h1 : ∀ p < C, F (idx p) = v p) (h2 : ∀ i, (∀ p < C, idx p ≠ i) → F i = 0) :
    ∑ i ∈ Finset.range N, U i * F i = ∑ p ∈ Finset.range C, U (idx p) * v p := by
  have hsub : (Finset.range C).image idx ⊆ Finset.range N := by
    intro i hi
    obtain ⟨p, hp, rfl⟩ := Finset.mem_image.1 hi
    exact Finset.mem_range.2 (hlt p (Finset.mem_range.1 hp))
  rw [← Finset.sum_subset hsub, Finset.sum_image]
  · exact Finset.sum_congr rfl fun p hp => by rw [h1 p (Finset.mem_range.1 hp)]
  · intro p hp q hq h
    exact hinj p (Finset.mem_range.1 (by simpa using hp)) q (Finset.mem_range.1 (by simpa using hq)) h
  · intro i _ hi
    rw [h2 i, mul_zero]
    intro p hp he
    exact hi (Finset.mem_image.2 ⟨p, Finset.mem_range.2 hp, he⟩)

theorem edge_data (k : Nat) (hk : 1 ≤ k) {K : Type} [Field K] [CharZero K] : ∃ (b : Fem1Data K) (ts : List K), fem1Create (K := K) k .equispaced [] = .ok b ∧
    2 + (k - 1) ≤ b.positions.length ∧ (b.positions.drop 2).take (k - 1) = ts ∧ edgeNodes k ts = .ok b.positions ∧ b.coef = lagCoefficients b.positions ∧
    b.positions.length = k + 1 := by
  obtain ⟨k, rfl⟩ : ∃ m, k = m + 1 := ⟨k - 1, by omega⟩
  have hlen := equi_length (K := K) k
  have h0 := equi_lat (K := K) k 0 (by omega)
  have h1 := equi_lat (K := K) k 1 (by omega)
  have hb : (bndRef K k).positions = equi K k := rfl
  have hts : (((equi K k).drop 2).take (k + 1 - 1)) = (equi K k).drop 2 := by
    rw [List.take_of_length_le]
    simp [hlen]
  refine ⟨_, _, bndRef_ok k, by rw [hb, hlen]; omega, rfl, ?_, rfl, by rw [hb, hlen]⟩
  rw [hb, hts]
  unfold edgeNodes
  rw [if_pos (by simp [hlen]; omega)]
  have h2 : equi K k = (equi K k).getD 0 0 :: (equi K k).getD 1 0 :: (equi K k).drop 2 := by
    match h : equi K k with
    | [] => rw [h] at hlen; simp at hlen
    | [a] => rw [h] at hlen; simp at hlen
    | a :: b :: l => rfl
  have hk0 : ((k + 1 : Nat) : K) ≠ 0 := Nat.cast_ne_zero.2 (by omega)
  conv_rhs => rw [h2, h0, h1]
  simp only [latNum]
  norm_num
  rw [div_self (by exact_mod_cast hk0)]

end PolyDiM
