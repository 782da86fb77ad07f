import Verif.Lemmas.VemDfPoly
import Verif.Props.VemStab

/-!
# Lemmas: evaluation, DOFs and stabilization of the divergence-free virtual element
-/

namespace PolyDiM

open Spec MvPolynomial MeasureTheory

/-! ## Stabilization -/

/-- The bilinear form of the stabilization. -/
theorem dfDofi_form (N M : Nat) (P0 P1 D0 D1 : DMat ℝ) (h0 : P0.rows = N) (h1 : P1.rows = N) (h2 : P0.cols = M) (h3 : P1.cols = M) (h4 : D0.rows = M) (h5 : D1.rows = M)
    (h6 : D0.cols = N) (h7 : D1.cols = N) (c : ℝ) :
    ∃ S, dfDofiDofi (P0, P1) c (D0, D1) = .ok S ∧ S.rows = M ∧ S.cols = M ∧ (∀ i j, S.ent i j = S.ent j i) ∧ ∀ x : Nat → ℝ,
      ∑ i ∈ Finset.range M, x i * apply S x i = c * ∑ r ∈ Finset.range M, (apply D0 (apply P0 x) r + apply D1 (apply P1 x) r - x r) ^ 2 := by
  set R : Nat → Nat → ℝ := fun i j => if i = j then (∑ l ∈ Finset.range D0.cols, D0.ent i l * P0.ent l j) + (∑ l ∈ Finset.range D1.cols, D1.ent i l * P1.ent l j) - 1
    else (∑ l ∈ Finset.range D0.cols, D0.ent i l * P0.ent l j) + ∑ l ∈ Finset.range D1.cols, D1.ent i l * P1.ent l j with hR
  have e : dfDofiDofi (P0, P1) c (D0, D1) = .ok ⟨P0.cols, P0.cols, fun i j => ∑ r ∈ Finset.range D0.rows, c * R r i * R r j⟩ := by
    unfold dfDofiDofi
    dsimp only
    rw [DMat.mul_ok _ _ (h6.trans h0.symm), except_ok_bind, DMat.mul_ok _ _ (h7.trans h1.symm), except_ok_bind,
      DMat.add_ok _ _ (by exact h4.trans h5.symm) (by exact h2.trans h3.symm), except_ok_bind]
    exact DMat.mul_ok _ _ rfl
  refine ⟨_, e, h2, h2, ?_, ?_⟩
  · intro i j
    dsimp only
    exact Finset.sum_congr rfl fun r _ => by ring
  · intro x
    have hRx : ∀ r ∈ Finset.range M, ∑ j ∈ Finset.range M, R r j * x j = apply D0 (apply P0 x) r + apply D1 (apply P1 x) r - x r := by
      intro r hr
      have : ∀ j ∈ Finset.range M, R r j * x j = (∑ l ∈ Finset.range D0.cols, D0.ent r l * (P0.ent l j * x j)) + (∑ l ∈ Finset.range D1.cols, D1.ent r l * (P1.ent l j * x j))
          - if r = j then x j else 0 := by
        intro j _
        rw [hR]
        dsimp only
        split_ifs
        · rw [sub_mul, add_mul, Finset.sum_mul, Finset.sum_mul, one_mul]
          simp only [mul_assoc]
        · rw [add_mul, Finset.sum_mul, Finset.sum_mul, sub_zero]
          simp only [mul_assoc]
      rw [Finset.sum_congr rfl this, Finset.sum_sub_distrib, Finset.sum_add_distrib, Finset.sum_ite_eq, if_pos hr, Finset.sum_comm, Finset.sum_comm (s := Finset.range M) (t := Finset.range D1.cols)]
      simp only [apply, Finset.mul_sum, h2, h3]
    have := congruence_form M R (fun _ => c) x x
    rw [h4, h2]
    simp only [apply]
    refine this.trans ?_
    rw [Finset.mul_sum]
    refine Finset.sum_congr rfl fun r hr => ?_
    rw [hRx r hr]
    simp only [apply]
    ring

section
variable {k n : Nat} {V : Nat → ℝ × ℝ} {len : Nat → ℝ} {dir : Nat → Bool} {nrm : Nat → ℝ × ℝ} {poly : VemPolygon ℝ}
  {triangle : Nat → Rule (ℝ × ℝ) ℝ} {edge : Nat → Rule ℝ ℝ} {ts ws ss vs : List ℝ} {w v₀ : ℝ} {s : DfSpace2D ℝ} {m : Nat}

/-! ## DOFs -/

theorem nkm3_tri (hk : 2 ≤ k) : (k - 2) * (k - 1) / 2 = tri (k - 2) := by
  rw [← tri_div']
  congr 3
  omega

/-- The entries of a vector of DOFs are determined. -/
theorem velDofs_unique (hk : 2 ≤ k) (hts : ts.length = k - 1) {u : ℝ × ℝ → ℝ × ℝ} {P : MvPolynomial (Fin 2) ℝ} {v v' : Nat → ℝ} (hv : IsVelocityDofs k m poly n V dir ts u P v)
    (hv' : IsVelocityDofs k m poly n V dir ts u P v') : ∀ r < numVelocityDofs k m n, v r = v' r := by
  intro r hr
  set L := n + n * (k - 1) with hL
  have hk3 := nkm3_tri hk
  have split : ∀ b < L, b < n ∨ ∃ e < n, ∃ i t, ts[i]? = some t ∧ b = n + e * (k - 1) + i := by
    intro b hb
    by_cases hbn : b < n
    · exact Or.inl hbn
    · refine Or.inr ?_
      have h0 : 0 < k - 1 := by omega
      have hm1 : (b - n) % (k - 1) < k - 1 := Nat.mod_lt _ h0
      refine ⟨(b - n) / (k - 1), Nat.div_lt_of_lt_mul (by rw [mul_comm]; omega), (b - n) % (k - 1), ts[(b - n) % (k - 1)]'(by omega), by simp, ?_⟩
      have := Nat.div_add_mod (b - n) (k - 1)
      rw [mul_comm] at this
      omega
  by_cases h1 : r < L
  · rcases split r h1 with hn | ⟨e, he, i, t, hi, rfl⟩
    · rw [hv.vertexFirst r hn, hv'.vertexFirst r hn]
    · rw [hv.nodeFirst e he i t hi, hv'.nodeFirst e he i t hi]
  by_cases h2 : r < 2 * L
  · obtain ⟨b, rfl⟩ : ∃ b, r = L + b := ⟨r - L, by omega⟩
    rcases split b (by omega) with hn | ⟨e, he, i, t, hi, rfl⟩
    · rw [hv.vertexSecond b hn, hv'.vertexSecond b hn]
    · rw [hv.nodeSecond e he i t hi, hv'.nodeSecond e he i t hi]
  by_cases h3 : r < 2 * L + tri (k - 2)
  · obtain ⟨l, rfl⟩ : ∃ l, r = 2 * L + l := ⟨r - 2 * L, by omega⟩
    have hl : l < tri (k - 2) := by omega
    have hk3' : 3 ≤ k := by
      by_contra hc
      rw [show k - 2 = 0 by omega] at hl
      exact absurd hl (by simp [tri])
    rw [show k - 2 = k - 3 + 1 by omega] at hl
    obtain ⟨a, b, hab, rfl⟩ := exists_position hl
    rw [hv.swirl a b (by omega), hv'.swirl a b (by omega)]
  · have h5 : (m + 1) * (m + 2) / 2 = tri (m + 1) := tri_div m
    have hr' : r < 2 * L + tri (k - 2) + (tri (m + 1) - 1) := by
      have : numVelocityDofs k m n = 2 * L + tri (k - 2) + (tri (m + 1) - 1) := by rw [numVelocityDofs, hk3, h5]
      omega
    obtain ⟨l, rfl⟩ : ∃ l, r = 2 * L + tri (k - 2) + l := ⟨r - (2 * L + tri (k - 2)), by omega⟩
    obtain ⟨a, b, hab, hp⟩ := exists_position (m := m) (l := l + 1) (by omega)
    have h0 : 0 < a + b := by
      rcases Nat.eq_zero_or_pos (a + b) with h | h
      · have ha : a = 0 := by omega
        have hb : b = 0 := by omega
        subst ha hb
        simp [position] at hp
      · exact h
    have e : 2 * L + tri (k - 2) + l = 2 * L + (k - 2) * (k - 1) / 2 + (position a b - 1) := by rw [hk3, hp]; omega
    rw [e, hv.divergence a b h0 hab, hv'.divergence a b h0 hab]

/-- A vector with the entries of a vector of DOFs is one. -/
theorem velDofs_congr (hk : 2 ≤ k) (hts : ts.length = k - 1) {u : ℝ × ℝ → ℝ × ℝ} {P : MvPolynomial (Fin 2) ℝ} {v v' : Nat → ℝ} (hv : IsVelocityDofs k m poly n V dir ts u P v)
    (h : ∀ r < numVelocityDofs k m n, v r = v' r) : IsVelocityDofs k m poly n V dir ts u P v' := by
  set L := n + n * (k - 1) with hL
  have hk3 := nkm3_tri hk
  have h5 : (m + 1) * (m + 2) / 2 = tri (m + 1) := tri_div m
  have hN : numVelocityDofs k m n = 2 * L + tri (k - 2) + (tri (m + 1) - 1) := by rw [numVelocityDofs, hk3, h5]
  have node : ∀ e < n, ∀ i t, ts[i]? = some t → n + e * (k - 1) + i < L := by
    intro e he i t hi
    have hi' := (List.getElem?_eq_some_iff.1 hi).1
    have : (e + 1) * (k - 1) ≤ n * (k - 1) := Nat.mul_le_mul_right _ he
    rw [Nat.succ_mul] at this
    omega
  refine ⟨?_, ?_, ?_, ?_, ?_, ?_⟩
  · intro e he
    rw [← h _ (by omega)]
    exact hv.vertexFirst e he
  · intro e he i t hi
    rw [← h _ (by have := node e he i t hi; omega)]
    exact hv.nodeFirst e he i t hi
  · intro e he
    rw [← h _ (by omega)]
    exact hv.vertexSecond e he
  · intro e he i t hi
    rw [← h _ (by have := node e he i t hi; omega)]
    exact hv.nodeSecond e he i t hi
  · intro a b hab
    rw [← h _ ?_]
    · exact hv.swirl a b hab
    · have : position a b < tri (k - 2) := by
        rw [show k - 2 = k - 3 + 1 by omega]
        exact position_lt.2 (by omega)
      omega
  · intro a b h0 hab
    rw [← h _ ?_]
    · exact hv.divergence a b h0 hab
    · have h1 : position a b < tri (m + 1) := position_lt.2 hab
      have h2 : 0 < position a b := by
        unfold position
        rcases Nat.eq_zero_or_pos b with hb | hb
        · subst hb
          have : 2 ≤ (a + 0) * (a + 0 + 1) := by nlinarith
          omega
        · omega
      rw [hN, hk3]
      omega

/-- The matrices of the DOFs of the monomials applied to coefficients. -/
theorem dofs_apply (hT : IsDfTables k triangle edge ts ws w ss vs v₀) (hm : m + 1 ≤ k) (hs : DfSpaceOk k m n V len dir ts ws w ss vs v₀ poly s) (a : Fin 2 → Nat → ℝ) :
    IsVelocityDofs k m poly n V dir ts
      (vectorPoly (combo k poly.centroid poly.diameter (tri (k + 1)) (a 0), combo k poly.centroid poly.diameter (tri (k + 1)) (a 1)))
      (divPoly (combo k poly.centroid poly.diameter (tri (k + 1)) (a 0), combo k poly.centroid poly.diameter (tri (k + 1)) (a 1)))
      fun r => apply s.D.1 (a 0) r + apply s.D.2 (a 1) r := by
  set c := poly.centroid
  set h := poly.diameter
  set q : Fin 2 → MvPolynomial (Fin 2) ℝ := fun d => combo k c h (tri (k + 1)) (a d) with hq
  have hqd : ∀ d, (q d).totalDegree ≤ k := fun d => combo_degree _ le_rfl
  have hk := hT.two
  have hpts : s.dofs.points = dfPoints n V dir ts := hs.rules.points
  have hlen : s.dofs.points.length = n + n * (k - 1) := by rw [hpts, dfPoints_length, hT.nodes]
  have hk3 := nkm3_tri hk
  have hap : ∀ (d : Fin 2) (r : Nat), apply (pick s.D d) (a d) r = ∑ j ∈ Finset.range (tri (k + 1)), (pick s.D d).ent r j * a d j := by
    intro d r
    simp only [apply, (hs.dofs d).cols]
  have value : ∀ (d d' : Fin 2) (b : Nat) (p : ℝ × ℝ), (dfPoints n V dir ts)[b]? = some p → apply (pick s.D d) (a d) (d' * (n + n * (k - 1)) + b) = if (d' : Nat) = d then ev2 (q d) p else 0 := by
    intro d d' b p hb
    rw [← hpts] at hb
    rw [hap, ← hlen, Finset.sum_congr rfl fun j hj => by rw [(hs.dofs d).value d' d'.isLt b p hb j (Finset.mem_range.1 hj)]]
    split_ifs
    · simp only [hq, combo, ev2, map_sum, map_mul, eval_C]
      exact Finset.sum_congr rfl fun j _ => mul_comm _ _
    · simp
  have bval : ∀ (d' : Fin 2) (b : Nat) (p : ℝ × ℝ), (dfPoints n V dir ts)[b]? = some p →
      apply s.D.1 (a 0) (d' * (n + n * (k - 1)) + b) + apply s.D.2 (a 1) (d' * (n + n * (k - 1)) + b) = ev2 (q d') p := by
    intro d' b p hb
    have v0 := value 0 d' b p hb
    have v1 := value 1 d' b p hb
    refine (congrArg₂ (· + ·) v0 v1).trans ?_
    fin_cases d' <;> simp
  refine ⟨?_, ?_, ?_, ?_, ?_, ?_⟩
  · intro e he
    have := bval 0 e _ (dfPoints_vertex n V dir ts he)
    rwa [Fin.val_zero, zero_mul, zero_add] at this
  · intro e he i t hi
    have := bval 0 _ _ (dfPoints_node n V dir ts he hi)
    rwa [Fin.val_zero, zero_mul, zero_add, hT.nodes] at this
  · intro e he
    have := bval 1 e _ (dfPoints_vertex n V dir ts he)
    rwa [Fin.val_one, one_mul] at this
  · intro e he i t hi
    have := bval 1 _ _ (dfPoints_node n V dir ts he hi)
    rwa [Fin.val_one, one_mul, hT.nodes] at this
  · intro a' b' hab
    have hp : position a' b' < tri (k - 2) := by
      rw [show k - 2 = k - 3 + 1 by omega]
      exact position_lt.2 (by omega)
    have hu : ∀ d : Nat, IntegrableOn (fun p => pick ((ev2 (q 0) p, ev2 (q 1) p) : ℝ × ℝ) d) (unionOf poly.tris) := by
      intro d
      unfold pick
      split_ifs
      · exact ev2_integrable _ _
      · exact ev2_integrable _ _
    have key : ∀ d : Fin 2, apply (pick s.D d) (a d) (2 * (n + n * (k - 1)) + position a' b') = quadLin s.internal.points s.internal.weights (gPoly k c h d (position a' b') * q d) := by
      intro d
      rw [hap, ← hlen, Finset.sum_congr rfl fun j hj => by rw [(hs.dofs d).swirl _ hp j (Finset.mem_range.1 hj)]]
      simp only [hq, combo, Finset.mul_sum, map_sum]
      refine Finset.sum_congr rfl fun j _ => ?_
      rw [mul_left_comm, quadLin_C_mul]
      ring
    have k0 := key 0
    have k1 := key 1
    refine (congrArg₂ (· + ·) k0 k1).trans ?_
    have hlt : position a' b' < tri k := lt_of_lt_of_le hp (tri_le (by omega))
    have i0 := intU_poly hs hu 0 (z := gPoly k poly.centroid poly.diameter 0 (position a' b')) ((totalDegree_mul _ _).trans (by
      have := gPoly_degree (c := poly.centroid) (h := poly.diameter) (by omega) hlt 0
      have := hqd 0
      omega))
    have i1 := intU_poly hs hu 1 (z := gPoly k poly.centroid poly.diameter 1 (position a' b')) ((totalDegree_mul _ _).trans (by
      have := gPoly_degree (c := poly.centroid) (h := poly.diameter) (by omega) hlt 1
      have := hqd 1
      omega))
    have := swirl_intU (k := k) (poly := poly) (u := fun p => (ev2 (q 0) p, ev2 (q 1) p)) hu (a := a') (b := b') (by omega)
    refine Eq.trans ?_ this.symm
    exact (congrArg₂ (· + ·) i0 i1).symm
  · intro a' b' h0 hab
    have hlt : position a' b' < tri (m + 1) := position_lt.2 hab
    have hpos : 0 < position a' b' := by
      unfold position
      rcases Nat.eq_zero_or_pos b' with hb | hb
      · subst hb
        have : 2 ≤ (a' + 0) * (a' + 0 + 1) := by nlinarith
        omega
      · omega
    have key : ∀ d : Fin 2, apply (pick s.D d) (a d) (2 * (n + n * (k - 1)) + (k - 2) * (k - 1) / 2 + (position a' b' - 1))
        = quadLin s.internal.points s.internal.weights (basisPoly k c h (position a' b') * pderiv d (q d)) := by
      intro d
      rw [hap, ← hlen, hk3, Finset.sum_congr rfl fun j hj => by rw [(hs.dofs d).div _ hpos hlt j (Finset.mem_range.1 hj)]]
      simp only [hq, combo, Finset.mul_sum, map_sum, pderiv_C_mul]
      refine Finset.sum_congr rfl fun j _ => ?_
      rw [mul_left_comm, quadLin_C_mul]
      ring
    have k0 := key 0
    have k1 := key 1
    refine (congrArg₂ (· + ·) k0 k1).trans ?_
    rw [← map_add, ← mul_add, hs.rules.integral]
    · congr 1
      funext p
      rw [← ev2_basis_position k _ _ (show a' + b' ≤ k by omega)]
      simp only [ev2, map_mul]
      rfl
    · have h1 := basisPoly_degree k c h (j := position a' b') (m := k) (by rw [num2_eq]; exact position_lt.2 (by omega)) (position_lt.2 (by omega))
      have h2 := der_degree (hqd 0) 0
      have h3 := der_degree (hqd 1) 1
      have h4 := totalDegree_add (pderiv 0 (q 0)) (pderiv 1 (q 1))
      refine (totalDegree_mul _ _).trans ?_
      have : max (pderiv 0 (q 0)).totalDegree (pderiv 1 (q 1)).totalDegree ≤ k - 1 := max_le h2 h3
      omega

/-! ## Evaluation -/

theorem dfValuesOf_ok (hk : 2 ≤ k) (hs : DfSpaceOk k m n V len dir ts ws w ss vs v₀ poly s) {points : List (ℝ × ℝ)} {X : DMat ℝ}
    (hX : Values points (tri (k + 1)) (basisPoly k poly.centroid poly.diameter) X) :
    (∃ A B, dfValuesOf s X .pi0k = .ok (A, B) ∧ (A.rows = points.length ∧ B.rows = points.length ∧ A.cols = s.pi0k.1.cols ∧ B.cols = s.pi0k.2.cols) ∧
      ∀ (v : Nat → ℝ) (i : Nat) (p : ℝ × ℝ), points[i]? = some p → apply A v i = polyOf k poly.centroid poly.diameter (apply s.pi0k.1 v) p ∧
        apply B v i = polyOf k poly.centroid poly.diameter (apply s.pi0k.2 v) p) ∧
    (∃ A B, dfValuesOf s X .pi0km2 = .ok (A, B) ∧ (A.rows = points.length ∧ B.rows = points.length ∧ A.cols = s.pi0km2.1.cols ∧ B.cols = s.pi0km2.2.cols) ∧
      ∀ (v : Nat → ℝ) (i : Nat) (p : ℝ × ℝ), points[i]? = some p → apply A v i = polyOf (k - 2) poly.centroid poly.diameter (apply s.pi0km2.1 v) p ∧
        apply B v i = polyOf (k - 2) poly.centroid poly.diameter (apply s.pi0km2.2 v) p) ∧
    ∀ type, type ≠ .pi0k → type ≠ .pi0km2 → dfValuesOf s X type = .error .runtimeError := by
  refine ⟨?_, ?_, ?_⟩
  · obtain ⟨A, hA, a1, a2, a3⟩ := values_mul hX s.pi0k.1 (hs.fullRows 0)
    obtain ⟨B, hB, b1, b2, b3⟩ := values_mul hX s.pi0k.2 (hs.fullRows 1)
    refine ⟨A, B, ?_, ⟨a1, b1, a2, b2⟩, fun v i p hp => ⟨?_, ?_⟩⟩
    · unfold dfValuesOf
      rw [hA, except_ok_bind, hB, except_ok_bind]
    · rw [a3 v i p hp, ← ev2_combo k _ _ le_rfl]
      rfl
    · rw [b3 v i p hp, ← ev2_combo k _ _ le_rfl]
      rfl
  · obtain ⟨W, hW, hWv⟩ := values_left hX (N' := tri (k - 1)) (tri_le (by omega))
    obtain ⟨A, hA, a1, a2, a3⟩ := values_mul hWv s.pi0km2.1 (hs.lowRows 0)
    obtain ⟨B, hB, b1, b2, b3⟩ := values_mul hWv s.pi0km2.2 (hs.lowRows 1)
    refine ⟨A, B, ?_, ⟨a1, b1, a2, b2⟩, fun v i p hp => ⟨?_, ?_⟩⟩
    · unfold dfValuesOf
      dsimp only
      rw [hs.init.nkm2, hW, except_ok_bind, hA, except_ok_bind, hB, except_ok_bind]
    · rw [a3 v i p hp, ← ev2_combo k _ _ (by omega), show k - 2 + 1 = k - 1 by omega]
      rfl
    · rw [b3 v i p hp, ← ev2_combo k _ _ (by omega), show k - 2 + 1 = k - 1 by omega]
      rfl
  · intro type h1 h2
    unfold dfValuesOf
    cases type <;> first | rfl | contradiction

theorem dfDerivativesOf_ok (hk : 2 ≤ k) (hs : DfSpaceOk k m n V len dir ts ws w ss vs v₀ poly s) {points : List (ℝ × ℝ)} {X : DMat ℝ} {XD : DMat ℝ × DMat ℝ}
    (hX : Values points (tri (k + 1)) (basisPoly k poly.centroid poly.diameter) X)
    (hD : ∀ d : Fin 2, Values points (tri (k + 1)) (fun j => pderiv d (basisPoly k poly.centroid poly.diameter j)) (pick XD d)) :
    (∃ A : (DMat ℝ × DMat ℝ) × (DMat ℝ × DMat ℝ), dfDerivativesOf s X XD .piNabla = .ok A ∧
      (A.1.1.rows = points.length ∧ A.1.2.rows = points.length ∧ A.2.1.rows = points.length ∧ A.2.2.rows = points.length) ∧
      (A.1.1.cols = s.piNabla.1.cols ∧ A.1.2.cols = s.piNabla.1.cols ∧ A.2.1.cols = s.piNabla.2.cols ∧ A.2.2.cols = s.piNabla.2.cols) ∧
      ∀ v : Nat → ℝ, ∃ P Q : MvPolynomial (Fin 2) ℝ, (∀ p : ℝ × ℝ, eval ![p.1, p.2] P = polyOf k poly.centroid poly.diameter (apply s.piNabla.1 v) p) ∧
        (∀ p : ℝ × ℝ, eval ![p.1, p.2] Q = polyOf k poly.centroid poly.diameter (apply s.piNabla.2 v) p) ∧
        ∀ (i : Nat) (p : ℝ × ℝ), points[i]? = some p → apply A.1.1 v i = eval ![p.1, p.2] (pderiv 0 P) ∧ apply A.1.2 v i = eval ![p.1, p.2] (pderiv 1 P) ∧
          apply A.2.1 v i = eval ![p.1, p.2] (pderiv 0 Q) ∧ apply A.2.2 v i = eval ![p.1, p.2] (pderiv 1 Q)) ∧
    (∃ A : (DMat ℝ × DMat ℝ) × (DMat ℝ × DMat ℝ), dfDerivativesOf s X XD .pi0km1Der = .ok A ∧
      (A.1.1.rows = points.length ∧ A.1.2.rows = points.length ∧ A.2.1.rows = points.length ∧ A.2.2.rows = points.length) ∧
      (A.1.1.cols = s.der.1.1.cols ∧ A.1.2.cols = s.der.1.2.cols ∧ A.2.1.cols = s.der.2.1.cols ∧ A.2.2.cols = s.der.2.2.cols) ∧
      ∀ (v : Nat → ℝ) (i : Nat) (p : ℝ × ℝ), points[i]? = some p →
        apply A.1.1 v i = polyOf (k - 1) poly.centroid poly.diameter (apply s.der.1.1 v) p ∧ apply A.1.2 v i = polyOf (k - 1) poly.centroid poly.diameter (apply s.der.1.2 v) p ∧
        apply A.2.1 v i = polyOf (k - 1) poly.centroid poly.diameter (apply s.der.2.1 v) p ∧ apply A.2.2 v i = polyOf (k - 1) poly.centroid poly.diameter (apply s.der.2.2 v) p) ∧
    ∀ type, type ≠ .piNabla → type ≠ .pi0km1Der → dfDerivativesOf s X XD type = .error .runtimeError := by
  have hkk : k - 1 + 1 = k := by omega
  refine ⟨?_, ?_, ?_⟩
  · obtain ⟨A, hA, a1, a2, a3⟩ := values_mul (hD 0) s.piNabla.1 (hs.nabla 0).rows
    obtain ⟨B, hB, b1, b2, b3⟩ := values_mul (hD 1) s.piNabla.1 (hs.nabla 0).rows
    obtain ⟨A', hA', a1', a2', a3'⟩ := values_mul (hD 0) s.piNabla.2 (hs.nabla 1).rows
    obtain ⟨B', hB', b1', b2', b3'⟩ := values_mul (hD 1) s.piNabla.2 (hs.nabla 1).rows
    have gA : XD.1.mul s.piNabla.1 = .ok A := hA
    have gB : XD.2.mul s.piNabla.1 = .ok B := hB
    have gA' : XD.1.mul s.piNabla.2 = .ok A' := hA'
    have gB' : XD.2.mul s.piNabla.2 = .ok B' := hB'
    refine ⟨((A, B), (A', B')), ?_, ⟨a1, b1, a1', b1'⟩, ⟨a2, b2, a2', b2'⟩, fun v => ⟨combo k poly.centroid poly.diameter (tri (k + 1)) (apply s.piNabla.1 v),
      combo k poly.centroid poly.diameter (tri (k + 1)) (apply s.piNabla.2 v), fun p => ev2_combo k _ _ le_rfl _ _, fun p => ev2_combo k _ _ le_rfl _ _, fun i p hp => ?_⟩⟩
    · unfold dfDerivativesOf
      dsimp only
      rw [gA, except_ok_bind, gB, except_ok_bind, gA', except_ok_bind, gB', except_ok_bind]
    · refine ⟨?_, ?_, ?_, ?_⟩
      · rw [a3 v i p hp, pderiv_combo]
      · rw [b3 v i p hp, pderiv_combo]
      · rw [a3' v i p hp, pderiv_combo]
      · rw [b3' v i p hp, pderiv_combo]
  · obtain ⟨W, hW, hWv⟩ := values_left hX (N' := tri k) (tri_le (by omega))
    obtain ⟨A, hA, a1, a2, a3⟩ := values_mul hWv s.der.1.1 (hs.derRows 0 0)
    obtain ⟨B, hB, b1, b2, b3⟩ := values_mul hWv s.der.1.2 (hs.derRows 0 1)
    obtain ⟨A', hA', a1', a2', a3'⟩ := values_mul hWv s.der.2.1 (hs.derRows 1 0)
    obtain ⟨B', hB', b1', b2', b3'⟩ := values_mul hWv s.der.2.2 (hs.derRows 1 1)
    refine ⟨((A, B), (A', B')), ?_, ⟨a1, b1, a1', b1'⟩, ⟨a2, b2, a2', b2'⟩, fun v i p hp => ?_⟩
    · unfold dfDerivativesOf
      dsimp only
      rw [hs.init.nkm1, hW, except_ok_bind, hA, except_ok_bind, hB, except_ok_bind, hA', except_ok_bind, hB', except_ok_bind]
    · have hle : k - 1 ≤ k := by omega
      rw [a3 v i p hp, b3 v i p hp, a3' v i p hp, b3' v i p hp, ← ev2_combo k _ _ hle, ← ev2_combo k _ _ hle, ← ev2_combo k _ _ hle, ← ev2_combo k _ _ hle, hkk]
      exact ⟨rfl, rfl, rfl, rfl⟩
  · intro type h1 h2
    unfold dfDerivativesOf
    cases type <;> first | rfl | contradiction

end

end PolyDiM
