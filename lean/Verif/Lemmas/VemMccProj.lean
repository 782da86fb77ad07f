import Verif.Lemmas.VemMccSpace
import Verif.Lemmas.VemDof
import Verif.Lemmas.RTPoly

/-!
# Lemmas: the projections of the mixed virtual element method
-/

namespace PolyDiM

open Spec MvPolynomial MeasureTheory

/-- The gradient of a monomial. -/
theorem grad_ev2 (k : Nat) (c : ℝ × ℝ) (h : ℝ) {a b : Nat} (hab : a + b ≤ k) (p : ℝ × ℝ) :
    gradMonomial c h a b p = (ev2 (pderiv 0 (basisPoly k c h (position a b))) p, ev2 (pderiv 1 (basisPoly k c h (position a b))) p) := by
  rw [position, tri_div', ← rank2_eq, basisPoly_rank k c h hab, monoPoly_pderiv0, monoPoly_pderiv1]
  simp [gradMonomial, ev2, monoPoly, scaledMonomial, ex, div_eq_inv_mul]

theorem field_ev2 (k : Nat) (c : ℝ × ℝ) (h : ℝ) (y : Nat → ℝ) (p : ℝ × ℝ) :
    fieldOf k c h y p = (ev2 (cfield k c h y 0) p, ev2 (cfield k c h y 1) p) := by
  unfold cfield fieldOf
  rw [ev2_combo (k + 1) c h (show k ≤ k + 1 by omega), ev2_combo (k + 1) c h (show k ≤ k + 1 by omega), tri_div]
  simp

theorem sum_tri_pos {M : Type} [AddCommMonoid M] (k : Nat) (f : Nat → M) :
    ∑ j ∈ Finset.range (tri (k + 2) - 1), f j = ∑ d ∈ Finset.range (k + 1), ∑ b ∈ Finset.range (d + 2), f (tri (d + 1) + b - 1) := by
  induction k with
  | zero => simp [tri, Finset.sum_range_succ]
  | succ k ih =>
    have h1 : 1 ≤ tri (k + 2) := by rw [tri_succ]; omega
    rw [Finset.sum_range_succ _ (k + 1), ← ih, tri_succ (k + 2), show tri (k + 2) + (k + 2 + 1) - 1 = (tri (k + 2) - 1) + (k + 1 + 2) by omega, Finset.sum_range_add]
    congr 1
    refine Finset.sum_congr rfl fun b _ => ?_
    congr 1
    show tri (k + 2) - 1 + b = tri (k + 2) + b - 1
    omega

theorem split_ev2 (k : Nat) (c : ℝ × ℝ) (h : ℝ) (tPlus : DMat ℝ) (y : Nat → ℝ) (p : ℝ × ℝ) :
    splitField k c h (fun l => tPlus.ent l) y p = (ev2 (gsum k c h tPlus y 0) p, ev2 (gsum k c h tPlus y 1) p) := by
  obtain ⟨t1, t2⟩ := mcc_counts k
  have h1 : 1 ≤ tri (k + 1) := by rw [tri_succ]; omega
  have hsplit : 2 * tri (k + 1) = (tri (k + 2) - 1) + tri k := by omega
  have key : ∀ d : Fin 2, ev2 (gsum k c h tPlus y d) p = ∑ i ∈ Finset.range (k + 1), ∑ b ∈ Finset.range (i + 2), y (tri (i + 1) + b - 1) *
        ev2 (pderiv d (basisPoly (k + 1) c h (tri (i + 1) + b))) p
      + ∑ l ∈ Finset.range (tri k), y (tri (k + 2) - 1 + l) * ev2 (cfield k c h (tPlus.ent l) d) p := by
    intro d
    rw [gsum, hsplit, Finset.sum_range_add]
    simp only [ev2, map_add, map_sum, map_mul, eval_C]
    congr 1
    · rw [sum_tri_pos]
      refine Finset.sum_congr rfl fun i hi => Finset.sum_congr rfl fun b hb => ?_
      have hp : 1 ≤ tri (i + 1) := by rw [tri_succ]; omega
      have hlt : tri (i + 1) + b < tri (k + 2) := by
        have h3 := tri_succ (i + 1)
        have h2 : tri (i + 2) ≤ tri (k + 2) := tri_le (by have := Finset.mem_range.1 hi; omega)
        have := Finset.mem_range.1 hb
        have h4 : tri (i + 2) = tri (i + 1) + (i + 1 + 1) := h3
        omega
      rw [fld, if_pos (by omega), show tri (i + 1) + b - 1 + 1 = tri (i + 1) + b by omega]
    · refine Finset.sum_congr rfl fun l _ => ?_
      rw [fld, if_neg (by omega), Nat.add_sub_cancel_left]
  have e1 : ∀ i ∈ Finset.range (k + 1), ∀ b ∈ Finset.range (i + 2), y (position (i + 1 - b) b - 1) • gradMonomial c h (i + 1 - b) b p
      = (y (tri (i + 1) + b - 1) * ev2 (pderiv 0 (basisPoly (k + 1) c h (tri (i + 1) + b))) p, y (tri (i + 1) + b - 1) * ev2 (pderiv 1 (basisPoly (k + 1) c h (tri (i + 1) + b))) p) := by
    intro i hi b hb
    have hi' := Finset.mem_range.1 hi
    have hb' := Finset.mem_range.1 hb
    have hp : position (i + 1 - b) b = tri (i + 1) + b := by rw [position, show i + 1 - b + b = i + 1 by omega, tri_div']
    rw [grad_ev2 (k + 1) c h (show i + 1 - b + b ≤ k + 1 by omega), hp]
    rfl
  unfold splitField
  rw [Finset.sum_congr rfl fun i hi => Finset.sum_congr rfl (e1 i hi), key 0, key 1, tri_div', show (k + 2) * (k + 3) / 2 = tri (k + 2) from tri_div (k + 1)]
  simp only [field_ev2]
  ext
  · simp only [Prod.fst_add, Prod.fst_sum, Prod.smul_fst, smul_eq_mul]
  · simp only [Prod.snd_add, Prod.snd_sum, Prod.smul_snd, smul_eq_mul]

section
variable {k n : Nat} {V : Nat → ℝ × ℝ} {len : Nat → ℝ} {dir : Nat → Bool} {nrm : Nat → ℝ × ℝ} {poly : VemPolygon ℝ}
  {triangle : Nat → Rule (ℝ × ℝ) ℝ} {edge : Nat → Rule ℝ ℝ} {ts ws : List ℝ}

theorem medge_exact (hT : IsMixedTables k triangle edge ts ws) {r : Polynomial ℝ} (hr : r.natDegree ≤ k) {z : MvPolynomial (Fin 2) ℝ} (hz : z.totalDegree ≤ k + 1)
    (e : Nat) (L : ℝ) {w : Nat → ℝ} (hw : ∀ i t, ts[i]? = some t → w i = if dir e then r.eval t else -r.eval (1 - t)) :
    ∑ i ∈ Finset.range (k + 1), ev2 z (segPoint (polyEdge n V (dir e) e).1 (polyEdge n V (dir e) e).2 (ts.getD i 0)) * (L * ws.getD i 0 * sgn dir e) * w i
      = L * ∫ t in (0 : ℝ)..1, ev2 z (segPoint (V e) (V ((e + 1) % n)) t) * r.eval t := by
  have main : ∀ P Q : ℝ × ℝ, ∀ r' : Polynomial ℝ, r'.natDegree ≤ k → (∀ i t, ts[i]? = some t → sgn dir e * w i = r'.eval t) →
      ∑ i ∈ Finset.range (k + 1), ev2 z (segPoint P Q (ts.getD i 0)) * (L * ws.getD i 0 * sgn dir e) * w i = L * ∫ t in (0 : ℝ)..1, ev2 z (segPoint P Q t) * r'.eval t := by
    intro P Q r' hr' hw'
    obtain ⟨z', hz', hpull⟩ := poly1_pullback P Q z
    have hpull' : ∀ t, ev2 z (segPoint P Q t) = z'.eval t := fun t => (hpull t).symm
    have h1 := sum_quadSum ts ws hT.edgeLength.symm (fun i => ev2 z (segPoint P Q (ts.getD i 0)) * (sgn dir e * w i)) (fun t => (z' * r').eval t) (by
      intro i t ht
      rw [hw' i t ht, List.getD_eq_getElem?_getD, ht, Option.getD_some, hpull', Polynomial.eval_mul])
    rw [hT.edgeExact _ (Polynomial.natDegree_mul_le.trans (by omega)), hT.nodes] at h1
    simp only [hpull', ← Polynomial.eval_mul]
    rw [← h1, Finset.mul_sum]
    refine Finset.sum_congr rfl fun i _ => ?_
    rw [hpull']
    ring
  cases hd : dir e with
  | true =>
    exact main (V e) (V ((e + 1) % n)) r hr (fun i t ht => by rw [hw i t ht, sgn, hd]; simp)
  | false =>
    have hdeg : (r.comp (1 - Polynomial.X)).natDegree ≤ k := by
      refine Polynomial.natDegree_comp_le.trans ?_
      have : (1 - Polynomial.X : Polynomial ℝ).natDegree ≤ 1 := by
        refine (Polynomial.natDegree_sub_le _ _).trans ?_
        simp
      calc _ ≤ k * 1 := Nat.mul_le_mul hr this
        _ = k := mul_one k
    have := main (V ((e + 1) % n)) (V e) (r.comp (1 - Polynomial.X)) hdeg (fun i t ht => by rw [hw i t ht, sgn, hd]; simp)
    refine this.trans ?_
    congr 1
    have hsub := intervalIntegral.integral_comp_sub_left (a := 0) (b := 1) (fun t => ev2 z (segPoint (V e) (V ((e + 1) % n)) t) * r.eval t) 1
    rw [sub_self, sub_zero] at hsub
    rw [← hsub]
    refine intervalIntegral.integral_congr fun t _ => ?_
    rw [Polynomial.eval_comp]
    have hrev : segPoint (V ((e + 1) % n)) (V e) t = segPoint (V e) (V ((e + 1) % n)) (1 - t) := by
      simp only [segPoint, Prod.mk.injEq]
      constructor <;> ring
    rw [hrev]
    simp

/-- The flux of a polynomial multiple of a field. -/
noncomputable def fluxInt (n : Nat) (V : Nat → ℝ × ℝ) (len : Nat → ℝ) (flux : Nat → Polynomial ℝ) (z : MvPolynomial (Fin 2) ℝ) : ℝ :=
  ∑ e ∈ Finset.range n, |len e| * ∫ t in (0 : ℝ)..1, ev2 z (segPoint (V e) (V ((e + 1) % n)) t) * (flux e).eval t

/-- The integral of a field times polynomials. -/
noncomputable def intF {u : ℝ × ℝ → ℝ × ℝ} {flux : Nat → Polynomial ℝ} (hF : IsMixedField k poly n u flux) (q : Fin 2 → MvPolynomial (Fin 2) ℝ) : ℝ :=
  intU poly.tris hF.first (q 0) + intU poly.tris hF.second (q 1)

theorem intF_eq {u : ℝ × ℝ → ℝ × ℝ} {flux : Nat → Polynomial ℝ} (hF : IsMixedField k poly n u flux) (q : Fin 2 → MvPolynomial (Fin 2) ℝ) :
    intF hF q = ∫ p in unionOf poly.tris, dot2 (ev2 (q 0) p, ev2 (q 1) p) (u p) := by
  rw [intF, intU, intU]
  exact (integral_add (ev2_mul_integrable poly.tris hF.first (q 0)) (ev2_mul_integrable poly.tris hF.second (q 1))).symm

theorem weakDivergence_eq {u : ℝ × ℝ → ℝ × ℝ} {flux : Nat → Polynomial ℝ} (hF : IsMixedField k poly n u flux) {a b : Nat} (hab : a + b ≤ k + 1) :
    weakDivergence poly n V len u flux a b = fluxInt n V len flux (basisPoly (k + 1) poly.centroid poly.diameter (position a b))
      - intF hF fun d => pderiv d (basisPoly (k + 1) poly.centroid poly.diameter (position a b)) := by
  rw [intF_eq, weakDivergence, fluxInt]
  simp only [ev2_basis_position (k + 1) poly.centroid poly.diameter hab, grad_ev2 (k + 1) poly.centroid poly.diameter hab]

variable {s : MccSpace2D ℝ} {u : ℝ × ℝ → ℝ × ℝ} {flux : Nat → Polynomial ℝ} {v : Nat → ℝ}

theorem bsum_flux (hT : IsMixedTables k triangle edge ts ws) (hF : IsMixedField k poly n u flux) {plus : Nat → Nat → ℝ} (hv : IsFluxDofs k poly n dir ts plus u flux v)
    {z : MvPolynomial (Fin 2) ℝ} (hz : z.totalDegree ≤ k + 1) : bsum k n V len dir ts ws v z = fluxInt n V len flux z := by
  refine Finset.sum_congr rfl fun e he => ?_
  exact medge_exact hT (hF.degree e (Finset.mem_range.1 he)) hz e _ (w := fun i => v (e * (k + 1) + i)) (hv.edge e (Finset.mem_range.1 he))

theorem basis_degree {c : ℝ × ℝ} {h : ℝ} {j : Nat} (hj : j < tri (k + 2)) : (basisPoly (k + 1) c h j).totalDegree ≤ k + 1 :=
  basisPoly_degree (k + 1) c h (by rw [num2_eq]; exact hj) hj

/-- The rows of `W` times the DOFs. -/
theorem mW_apply (hE : IsElement poly n V len dir nrm) (hT : IsMixedTables k triangle edge ts ws) (hs : MSpaceOk k n V len dir nrm ts ws poly s)
    (hF : IsMixedField k poly n u flux) (hv : IsFluxDofs k poly n dir ts (fun l => s.init.tPlus.ent l) u flux v) {i : Nat} (hi : i < tri (k + 1)) :
    ∑ b ∈ Finset.range (n * (k + 1) + k * (k + 2)), s.W.ent i b * v b = fluxInt n V len flux (basisPoly (k + 1) poly.centroid poly.diameter i)
      - intF hF fun d => pderiv d (basisPoly (k + 1) poly.centroid poly.diameter i) := by
  obtain ⟨t1, t2⟩ := mcc_counts k
  rw [hs.wSum i hi v, bsum_flux hT hF hv (basis_degree (by omega))]
  congr 1
  by_cases h0 : i = 0
  · subst h0
    rw [if_pos rfl, intF, basisPoly_zero]
    simp
  · rw [if_neg h0]
    obtain ⟨a, b, hab, rfl⟩ := exists_position hi
    have hpos : 0 < a + b := by
      by_contra hc
      obtain rfl : a = 0 := by omega
      obtain rfl : b = 0 := by omega
      exact h0 rfl
    rw [hv.nabla a b hpos hab, intF_eq, ← mul_assoc, mul_one_div_cancel hE.measure, one_mul]
    simp only [grad_ev2 (k + 1) poly.centroid poly.diameter (show a + b ≤ k + 1 by omega)]

/-- The coefficients of the divergence. -/
theorem mV_apply (hE : IsElement poly n V len dir nrm) (hT : IsMixedTables k triangle edge ts ws) (hs : MSpaceOk k n V len dir nrm ts ws poly s)
    (hF : IsMixedField k poly n u flux) (hv : IsFluxDofs k poly n dir ts (fun l => s.init.tPlus.ent l) u flux v) {i : Nat} (hi : i < tri (k + 1)) :
    quadLin s.internal.points s.internal.weights (basisPoly (k + 1) poly.centroid poly.diameter i *
        combo (k + 1) poly.centroid poly.diameter (tri (k + 1)) (Spec.apply s.V v)) = fluxInt n V len flux (basisPoly (k + 1) poly.centroid poly.diameter i)
      - intF hF fun d => pderiv d (basisPoly (k + 1) poly.centroid poly.diameter i) := by
  rw [← mW_apply hE hT hs hF hv hi, quadLin_combo]
  have h1 := solves_apply hs.vSol v (i := i) (by rw [hs.init.hRows]; exact hi)
  rw [hs.init.hCols, hs.wCols] at h1
  rw [← h1]
  refine Finset.sum_congr rfl fun j hj => ?_
  rw [hs.init.hEnt i hi j (Finset.mem_range.1 hj), Spec.apply, hs.vSol.2.1, hs.wCols]

theorem int_mul_combo (hs : MSpaceOk k n V len dir nrm ts ws poly s) {z : MvPolynomial (Fin 2) ℝ} (hz : z.totalDegree ≤ k + 1) (x : Nat → ℝ) :
    ∫ p in unionOf poly.tris, ev2 z p * polyOf k poly.centroid poly.diameter x p
      = quadLin s.internal.points s.internal.weights (z * combo (k + 1) poly.centroid poly.diameter (tri (k + 1)) x) := by
  rw [hs.rules.integral _ ((totalDegree_mul _ _).trans (add_le_add hz (combo_degree x (show k ≤ k + 1 by omega)) |>.trans (by omega)))]
  congr 1
  funext p
  rw [← ev2_combo (k + 1) _ _ (show k ≤ k + 1 by omega)]
  simp [ev2]

theorem mdivergence (hE : IsElement poly n V len dir nrm) (hT : IsMixedTables k triangle edge ts ws) (hs : MSpaceOk k n V len dir nrm ts ws poly s)
    (hF : IsMixedField k poly n u flux) (hv : IsFluxDofs k poly n dir ts (fun l => s.init.tPlus.ent l) u flux v) :
    HasWeakDivergence k poly n V len u flux (polyOf k poly.centroid poly.diameter (Spec.apply s.V v)) := by
  intro a b hab
  have hp : position a b < tri (k + 1) := position_lt.2 hab
  obtain ⟨t1, t2⟩ := mcc_counts k
  rw [weakDivergence_eq hF (show a + b ≤ k + 1 by omega), ← mV_apply hE hT hs hF hv hp, ← int_mul_combo hs (basis_degree (by omega))]
  simp only [ev2_basis_position (k + 1) poly.centroid poly.diameter (show a + b ≤ k + 1 by omega)]

/-- The mass matrix of the monomials has trivial kernel. -/
theorem mH_ext (hE : IsElement poly n V len dir nrm) (hs : MSpaceOk k n V len dir nrm ts ws poly s) {x y : Nat → ℝ}
    (h : ∀ i < tri (k + 1), quadLin s.internal.points s.internal.weights (basisPoly (k + 1) poly.centroid poly.diameter i * combo (k + 1) poly.centroid poly.diameter (tri (k + 1)) x)
      = quadLin s.internal.points s.internal.weights (basisPoly (k + 1) poly.centroid poly.diameter i * combo (k + 1) poly.centroid poly.diameter (tri (k + 1)) y)) :
    ∀ j < tri (k + 1), x j = y j := by
  refine combo_ext hE.diameter (show k ≤ k + 1 by omega) (c := poly.centroid) ?_
  rw [← sub_eq_zero]
  set r := combo (k + 1) poly.centroid poly.diameter (tri (k + 1)) x - combo (k + 1) poly.centroid poly.diameter (tri (k + 1)) y with hr
  have hdeg : r.totalDegree ≤ k + 1 := (totalDegree_sub _ _).trans (max_le ((combo_degree x (show k ≤ k + 1 by omega)).trans (by omega))
    ((combo_degree y (show k ≤ k + 1 by omega)).trans (by omega)))
  refine mquad_definite hE hs.rules r hdeg ?_
  have hi : ∀ i < tri (k + 1), quadLin s.internal.points s.internal.weights (basisPoly (k + 1) poly.centroid poly.diameter i * r) = 0 := by
    intro i hi
    rw [hr, mul_sub, map_sub, h i hi, sub_self]
  have hc : r = combo (k + 1) poly.centroid poly.diameter (tri (k + 1)) fun j => x j - y j := by
    rw [hr, combo, combo, combo, ← Finset.sum_sub_distrib]
    exact Finset.sum_congr rfl fun j _ => by rw [C_sub, sub_mul]
  nth_rw 2 [hc]
  rw [quadLin_combo]
  refine Finset.sum_eq_zero fun i hi' => ?_
  rw [mul_comm r, hi i (Finset.mem_range.1 hi'), zero_mul]

theorem mdivergence_unique (hE : IsElement poly n V len dir nrm) (hs : MSpaceOk k n V len dir nrm ts ws poly s)
    {P Q : MvPolynomial (Fin 2) ℝ} (hP : P.totalDegree ≤ k) (hQ : Q.totalDegree ≤ k) (h1 : HasWeakDivergence k poly n V len u flux (ev2 P))
    (h2 : HasWeakDivergence k poly n V len u flux (ev2 Q)) : P = Q := by
  obtain ⟨x, hx⟩ := basisPoly_span (k + 1) poly.centroid poly.diameter hE.diameter (show k ≤ k + 1 by omega) P hP
  obtain ⟨y, hy⟩ := basisPoly_span (k + 1) poly.centroid poly.diameter hE.diameter (show k ≤ k + 1 by omega) Q hQ
  have hx' : P = combo (k + 1) poly.centroid poly.diameter (tri (k + 1)) x := hx
  have hy' : Q = combo (k + 1) poly.centroid poly.diameter (tri (k + 1)) y := hy
  obtain ⟨t1, t2⟩ := mcc_counts k
  have key : ∀ j < tri (k + 1), x j = y j := mH_ext hE hs (fun i hi => by
    obtain ⟨a, b, hab, rfl⟩ := exists_position hi
    rw [← int_mul_combo hs (basis_degree (by omega)), ← int_mul_combo hs (basis_degree (by omega))]
    have h1' := h1 a b hab
    have h2' := h2 a b hab
    rw [hx'] at h1'
    rw [hy'] at h2'
    simp only [ev2_combo (k + 1) _ _ (show k ≤ k + 1 by omega)] at h1' h2'
    simp only [ev2_basis_position (k + 1) poly.centroid poly.diameter (show a + b ≤ k + 1 by omega)]
    rw [h1', h2'])
  rw [hx, hy]
  exact Finset.sum_congr rfl fun j hj => by rw [key j (Finset.mem_range.1 hj)]

/-- The right-hand side of the projection. -/
theorem mB_apply (hE : IsElement poly n V len dir nrm) (hT : IsMixedTables k triangle edge ts ws) (hs : MSpaceOk k n V len dir nrm ts ws poly s)
    (hF : IsMixedField k poly n u flux) (hv : IsFluxDofs k poly n dir ts (fun l => s.init.tPlus.ent l) u flux v)
    (hd : HasWeakDivergence (k + 1) poly n V len u flux (polyOf k poly.centroid poly.diameter (Spec.apply s.V v))) {j : Nat} (hj : j < 2 * tri (k + 1)) :
    ∑ b ∈ Finset.range (n * (k + 1) + k * (k + 2)), s.B.ent j b * v b = intF hF (fld k poly.centroid poly.diameter s.init.tPlus j) := by
  obtain ⟨t1, t2⟩ := mcc_counts k
  by_cases h1 : j < tri (k + 2) - 1
  · rw [hs.bNabla j h1 v, bsum_flux hT hF hv (basis_degree (by omega))]
    have e : ∑ i ∈ Finset.range (tri (k + 1)), quadLin s.internal.points s.internal.weights
          (basisPoly (k + 1) poly.centroid poly.diameter (j + 1) * basisPoly (k + 1) poly.centroid poly.diameter i) *
        ∑ b ∈ Finset.range (n * (k + 1) + k * (k + 2)), s.V.ent i b * v b
        = ∫ p in unionOf poly.tris, ev2 (basisPoly (k + 1) poly.centroid poly.diameter (j + 1)) p * polyOf k poly.centroid poly.diameter (Spec.apply s.V v) p := by
      rw [int_mul_combo hs (basis_degree (by omega)), quadLin_combo]
      refine Finset.sum_congr rfl fun i _ => ?_
      rw [Spec.apply, hs.vSol.2.1, hs.wCols]
    rw [e]
    obtain ⟨a, b, hab, hp⟩ := exists_position (m := k + 1) (show j + 1 < tri (k + 2) by omega)
    have h2 := hd a b hab
    rw [weakDivergence_eq hF hab, hp] at h2
    have h3 : ∀ p, ev2 (basisPoly (k + 1) poly.centroid poly.diameter (j + 1)) p = scaledMonomial poly.centroid poly.diameter a b p := fun p => by
      rw [← hp, ev2_basis_position (k + 1) _ _ hab]
    simp only [h3]
    rw [h2, sub_sub_cancel]
    congr 1
    funext d
    rw [fld, if_pos h1]
  · obtain ⟨l, rfl⟩ : ∃ l, j = tri (k + 2) - 1 + l := ⟨j - (tri (k + 2) - 1), by omega⟩
    have hl : l < tri k := by omega
    have := hv.plus l (by rw [tri_div']; exact hl)
    rw [tri_div] at this
    rw [hs.bPlus l hl v, this, ← mul_assoc, mul_one_div_cancel hE.measure, one_mul, intF_eq]
    congr 1
    funext p
    rw [field_ev2, fld, fld, if_neg h1, if_neg h1, Nat.add_sub_cancel_left]

/-- The projection times the DOFs, tested with the fields. -/
theorem mP_apply (hE : IsElement poly n V len dir nrm) (hT : IsMixedTables k triangle edge ts ws) (hs : MSpaceOk k n V len dir nrm ts ws poly s)
    (hF : IsMixedField k poly n u flux) (hv : IsFluxDofs k poly n dir ts (fun l => s.init.tPlus.ent l) u flux v)
    (hd : HasWeakDivergence (k + 1) poly n V len u flux (polyOf k poly.centroid poly.diameter (Spec.apply s.V v))) {j : Nat} (hj : j < 2 * tri (k + 1)) :
    ∑ d : Fin 2, quadLin s.internal.points s.internal.weights (fld k poly.centroid poly.diameter s.init.tPlus j d *
        gsum k poly.centroid poly.diameter s.init.tPlus (Spec.apply s.pi0k v) d) = intF hF (fld k poly.centroid poly.diameter s.init.tPlus j) := by
  rw [← mB_apply hE hT hs hF hv hd hj, ← mG_row hs.init _ hj]
  have h1 := solves_apply hs.pSol v (i := j) (by rw [hs.init.gRows]; exact hj)
  rw [hs.init.gCols, hs.bCols] at h1
  rw [← h1]
  refine Finset.sum_congr rfl fun i _ => ?_
  rw [Spec.apply, hs.pSol.2.1, hs.bCols]

theorem intF_sum (hF : IsMixedField k poly n u flux) (L : Nat) (x : Nat → ℝ) (f : Nat → Fin 2 → MvPolynomial (Fin 2) ℝ) :
    intF hF (fun d => ∑ j ∈ Finset.range L, C (x j) * f j d) = ∑ j ∈ Finset.range L, x j * intF hF (f j) := by
  simp only [intF]
  rw [map_sum, map_sum, ← Finset.sum_add_distrib]
  refine Finset.sum_congr rfl fun j _ => ?_
  rw [← smul_eq_C_mul, ← smul_eq_C_mul, map_smul, map_smul, smul_eq_mul, smul_eq_mul]
  ring

/-- The integral of two vector polynomials. -/
theorem int_dot (hs : MSpaceOk k n V len dir nrm ts ws poly s) {q r : Fin 2 → MvPolynomial (Fin 2) ℝ} (hq : ∀ d, (q d).totalDegree ≤ k) (hr : ∀ d, (r d).totalDegree ≤ k) :
    ∫ p in unionOf poly.tris, dot2 (ev2 (q 0) p, ev2 (q 1) p) (ev2 (r 0) p, ev2 (r 1) p)
      = ∑ d : Fin 2, quadLin s.internal.points s.internal.weights (q d * r d) := by
  have hdeg : ∀ d, (q d * r d).totalDegree ≤ 2 * (k + 1) := fun d => (totalDegree_mul _ _).trans ((add_le_add (hq d) (hr d)).trans (by omega))
  rw [Fin.sum_univ_two, ← map_add, hs.rules.integral _ ((totalDegree_add _ _).trans (max_le (hdeg 0) (hdeg 1)))]
  congr 1
  funext p
  simp [ev2, dot2]

/-- The projection is the best approximation. -/
theorem mprojection (hE : IsElement poly n V len dir nrm) (hT : IsMixedTables k triangle edge ts ws) (hs : MSpaceOk k n V len dir nrm ts ws poly s)
    (hF : IsMixedField k poly n u flux) (hv : IsFluxDofs k poly n dir ts (fun l => s.init.tPlus.ent l) u flux v)
    (hd : HasWeakDivergence (k + 1) poly n V len u flux (polyOf k poly.centroid poly.diameter (Spec.apply s.V v)))
    {q : Fin 2 → MvPolynomial (Fin 2) ℝ} (hq : ∀ d, (q d).totalDegree ≤ k) :
    ∫ p in unionOf poly.tris, dot2 (ev2 (q 0) p, ev2 (q 1) p) (splitField k poly.centroid poly.diameter (fun l => s.init.tPlus.ent l) (Spec.apply s.pi0k v) p)
      = ∫ p in unionOf poly.tris, dot2 (ev2 (q 0) p, ev2 (q 1) p) (u p) := by
  simp only [split_ev2]
  rw [int_dot hs hq (fun d => gsum_degree hs.init.tk _ d), ← intF_eq hF]
  obtain ⟨x, hx⟩ := fld_span hs.init.tk hE.diameter q hq
  have hx' : q = fun d => ∑ j ∈ Finset.range (2 * tri (k + 1)), C (x j) * fld k poly.centroid poly.diameter s.init.tPlus j d := funext hx
  rw [hx', intF_sum]
  simp only [Finset.sum_mul, map_sum]
  rw [Finset.sum_comm]
  refine Finset.sum_congr rfl fun j hj => ?_
  rw [← mP_apply hE hT hs hF hv hd (Finset.mem_range.1 hj), Finset.mul_sum]
  refine Finset.sum_congr rfl fun d _ => ?_
  rw [mul_assoc, quadLin_C_mul]

/-- The coefficients of a vector polynomial are determined by the products with the fields. -/
theorem mG_ext (hE : IsElement poly n V len dir nrm) (hs : MSpaceOk k n V len dir nrm ts ws poly s) {x y : Nat → ℝ}
    (h : ∀ j < 2 * tri (k + 1), ∑ d : Fin 2, quadLin s.internal.points s.internal.weights (fld k poly.centroid poly.diameter s.init.tPlus j d *
        gsum k poly.centroid poly.diameter s.init.tPlus x d)
      = ∑ d : Fin 2, quadLin s.internal.points s.internal.weights (fld k poly.centroid poly.diameter s.init.tPlus j d * gsum k poly.centroid poly.diameter s.init.tPlus y d)) :
    ∀ j < 2 * tri (k + 1), x j = y j := by
  refine inj_ext (A := s.init.G.ent) (fun z hz => mG_zero hE hs.rules hE.diameter hs.init z ?_) fun i hi => ?_
  · rw [← mG_form hs.init]
    refine le_of_eq (Finset.sum_eq_zero fun i hi => ?_)
    rw [hz i (Finset.mem_range.1 hi), mul_zero]
  · rw [mG_row hs.init _ hi, mG_row hs.init _ hi, h i hi]

/-- The divergence theorem for a vector polynomial times a polynomial. -/
theorem gauss_field (hE : IsElement poly n V len dir nrm) (hs : MSpaceOk k n V len dir nrm ts ws poly s) {q : Fin 2 → MvPolynomial (Fin 2) ℝ}
    (hq : ∀ d, (q d).totalDegree ≤ k + 1) {flux : Nat → Polynomial ℝ} (hn : IsNormalTrace n V nrm (fun p => (ev2 (q 0) p, ev2 (q 1) p)) flux)
    {z : MvPolynomial (Fin 2) ℝ} (hz : z.totalDegree ≤ k + 1) :
    ∫ p in unionOf poly.tris, ev2 z p * ev2 (pderiv 0 (q 0) + pderiv 1 (q 1)) p
      = fluxInt n V len flux z - ∫ p in unionOf poly.tris, dot2 (ev2 (pderiv 0 z) p, ev2 (pderiv 1 z) p) (ev2 (q 0) p, ev2 (q 1) p) := by
  have hdegP : ∀ d, (z * q d).totalDegree ≤ 2 * (k + 1) := fun d => (totalDegree_mul _ _).trans ((add_le_add hz (hq d)).trans (by omega))
  have hdeg : ∀ d, (pderiv d (z * q d)).totalDegree ≤ 2 * (k + 1) := fun d => (totalDegree_pderiv _ _).trans ((Nat.sub_le _ _).trans (hdegP d))
  have hi : ∀ r : MvPolynomial (Fin 2) ℝ, IntegrableOn (ev2 r) (unionOf poly.tris) := fun r =>
    (poly2_continuous r).continuousOn.integrableOn_compact (unionOf_compact poly.tris)
  have h1 : (∫ p in unionOf poly.tris, ev2 z p * ev2 (pderiv 0 (q 0) + pderiv 1 (q 1)) p)
        + ∫ p in unionOf poly.tris, dot2 (ev2 (pderiv 0 z) p, ev2 (pderiv 1 z) p) (ev2 (q 0) p, ev2 (q 1) p)
      = (∫ p in unionOf poly.tris, ev2 (pderiv 0 (z * q 0)) p) + ∫ p in unionOf poly.tris, ev2 (pderiv 1 (z * q 1)) p := by
    rw [← integral_add (hi _) (hi _)]
    have e1 : (fun p => ev2 z p * ev2 (pderiv 0 (q 0) + pderiv 1 (q 1)) p) = ev2 (z * (pderiv 0 (q 0) + pderiv 1 (q 1))) := by
      funext p
      simp [ev2]
    have e2 : (fun p => dot2 (ev2 (pderiv 0 z) p, ev2 (pderiv 1 z) p) (ev2 (q 0) p, ev2 (q 1) p)) = ev2 (pderiv 0 z * q 0 + pderiv 1 z * q 1) := by
      funext p
      simp [ev2, dot2]
    rw [e1, e2, ← integral_add (hi _) (hi _)]
    congr 1
    funext p
    simp only [ev2, Derivation.leibniz, smul_eq_mul, map_add, map_mul]
    ring
  rw [eq_sub_iff_add_eq, h1, ← hs.rules.integral _ (hdeg 0), ← hs.rules.integral _ (hdeg 1), hs.rules.pieces _ (hdeg 0), hs.rules.pieces _ (hdeg 1),
    (gauss_polygon hE.tris (z * q 0)).1, (gauss_polygon hE.tris (z * q 1)).2, ← Finset.sum_add_distrib, fluxInt]
  refine Finset.sum_congr rfl fun e he => ?_
  have he' := Finset.mem_range.1 he
  have hnn := hE.normals e he'
  have n1 : |len e| * (nrm e).1 = (V ((e + 1) % n) - V e).2 := by
    have := congrArg Prod.fst hnn
    simpa [clockwise] using this
  have n2 : |len e| * (nrm e).2 = -(V ((e + 1) % n) - V e).1 := by
    have := congrArg Prod.snd hnn
    simpa [clockwise] using this
  have hc : ∀ r : MvPolynomial (Fin 2) ℝ, IntervalIntegrable (fun t => ev2 r (segPoint (V e) (V ((e + 1) % n)) t)) volume 0 1 := by
    intro r
    obtain ⟨r', _, hr'⟩ := poly1_pullback (V e) (V ((e + 1) % n)) r
    have : (fun t => ev2 r (segPoint (V e) (V ((e + 1) % n)) t)) = fun t => r'.eval t := funext fun t => (hr' t).symm
    rw [this]
    exact r'.continuous.intervalIntegrable 0 1
  rw [← n1, ← n2, segInt, segInt, mul_assoc, mul_assoc, ← mul_add, ← intervalIntegral.integral_const_mul, ← intervalIntegral.integral_const_mul,
    ← intervalIntegral.integral_add ((hc _).const_mul _) ((hc _).const_mul _)]
  congr 1
  refine intervalIntegral.integral_congr fun t _ => ?_
  rw [hn e he' t]
  simp only [ev2, map_mul, dot2]
  ring

/-- A vector polynomial has polynomial normal components. -/
theorem mcc_exists_trace (q : Fin 2 → MvPolynomial (Fin 2) ℝ) (hq : ∀ d, (q d).totalDegree ≤ k) (n : Nat) (V : Nat → ℝ × ℝ) (nrm : Nat → ℝ × ℝ) :
    ∃ flux : Nat → Polynomial ℝ, IsNormalTrace n V nrm (fun p => (ev2 (q 0) p, ev2 (q 1) p)) flux ∧ ∀ e, (flux e).natDegree ≤ k := by
  have : ∀ e, ∃ f : Polynomial ℝ, f.natDegree ≤ k ∧ ∀ t, f.eval t = ev2 (q 0) (segPoint (V e) (V ((e + 1) % n)) t) * (nrm e).1
      + ev2 (q 1) (segPoint (V e) (V ((e + 1) % n)) t) * (nrm e).2 := by
    intro e
    obtain ⟨a, ha, ha'⟩ := poly1_pullback (V e) (V ((e + 1) % n)) (q 0)
    obtain ⟨b, hb, hb'⟩ := poly1_pullback (V e) (V ((e + 1) % n)) (q 1)
    refine ⟨a * Polynomial.C (nrm e).1 + b * Polynomial.C (nrm e).2, ?_, fun t => ?_⟩
    · refine (Polynomial.natDegree_add_le _ _).trans (max_le ?_ ?_)
      · exact (Polynomial.natDegree_mul_C_le _ _).trans (ha.trans (hq 0))
      · exact (Polynomial.natDegree_mul_C_le _ _).trans (hb.trans (hq 1))
    · simp only [Polynomial.eval_add, Polynomial.eval_mul, Polynomial.eval_C, ha', hb']
  choose f hf hf' using this
  exact ⟨f, fun e _ t => hf' e t, hf⟩

theorem trace_degree (q : Fin 2 → MvPolynomial (Fin 2) ℝ) (hq : ∀ d, (q d).totalDegree ≤ k) {flux : Nat → Polynomial ℝ}
    (hn : IsNormalTrace n V nrm (fun p => (ev2 (q 0) p, ev2 (q 1) p)) flux) {e : Nat} (he : e < n) : (flux e).natDegree ≤ k := by
  obtain ⟨f, hf, hd⟩ := mcc_exists_trace q hq n V nrm
  have : flux e = f e := Polynomial.funext fun t => by rw [hn e he t, hf e he t]
  rw [this]
  exact hd e

theorem poly_field (q : Fin 2 → MvPolynomial (Fin 2) ℝ) (hq : ∀ d, (q d).totalDegree ≤ k) {flux : Nat → Polynomial ℝ}
    (hn : IsNormalTrace n V nrm (fun p => (ev2 (q 0) p, ev2 (q 1) p)) flux) : IsMixedField k poly n (fun p => (ev2 (q 0) p, ev2 (q 1) p)) flux :=
  ⟨(poly2_continuous (q 0)).continuousOn.integrableOn_compact (unionOf_compact poly.tris), (poly2_continuous (q 1)).continuousOn.integrableOn_compact (unionOf_compact poly.tris),
    fun _ he => trace_degree q hq hn he⟩

/-- A vector polynomial of degree at most `k + 1` with normal components of degree at most `k` has the divergence of its components. -/
theorem poly_divergence' (hE : IsElement poly n V len dir nrm) (hs : MSpaceOk k n V len dir nrm ts ws poly s) {q : Fin 2 → MvPolynomial (Fin 2) ℝ}
    (hq : ∀ d, (q d).totalDegree ≤ k + 1) {flux : Nat → Polynomial ℝ} (hn : IsNormalTrace n V nrm (fun p => (ev2 (q 0) p, ev2 (q 1) p)) flux)
    (hF : IsMixedField k poly n (fun p => (ev2 (q 0) p, ev2 (q 1) p)) flux) :
    HasWeakDivergence (k + 1) poly n V len (fun p => (ev2 (q 0) p, ev2 (q 1) p)) flux (ev2 (pderiv 0 (q 0) + pderiv 1 (q 1))) := by
  intro a b hab
  have hp : position a b < tri (k + 2) := position_lt.2 hab
  rw [weakDivergence_eq hF hab, intF_eq]
  have := gauss_field hE hs hq hn (basis_degree (c := poly.centroid) (h := poly.diameter) hp)
  rw [← this]
  simp only [ev2_basis_position (k + 1) poly.centroid poly.diameter hab]

/-- A vector polynomial has the divergence of its components. -/
theorem poly_divergence (hE : IsElement poly n V len dir nrm) (hs : MSpaceOk k n V len dir nrm ts ws poly s) {q : Fin 2 → MvPolynomial (Fin 2) ℝ}
    (hq : ∀ d, (q d).totalDegree ≤ k) {flux : Nat → Polynomial ℝ} (hn : IsNormalTrace n V nrm (fun p => (ev2 (q 0) p, ev2 (q 1) p)) flux) :
    HasWeakDivergence (k + 1) poly n V len (fun p => (ev2 (q 0) p, ev2 (q 1) p)) flux (ev2 (pderiv 0 (q 0) + pderiv 1 (q 1))) :=
  poly_divergence' hE hs (fun d => (hq d).trans (Nat.le_succ k)) hn (poly_field q hq hn)

theorem div_degree {q : Fin 2 → MvPolynomial (Fin 2) ℝ} (hq : ∀ d, (q d).totalDegree ≤ k) : (pderiv 0 (q 0) + pderiv 1 (q 1)).totalDegree ≤ k :=
  (totalDegree_add _ _).trans (max_le ((totalDegree_pderiv _ _).trans ((Nat.sub_le _ _).trans (hq 0))) ((totalDegree_pderiv _ _).trans ((Nat.sub_le _ _).trans (hq 1))))

/-- A divergence of degree at most `k` is what the local space computes. -/
theorem mdivergence_eq (hE : IsElement poly n V len dir nrm) (hT : IsMixedTables k triangle edge ts ws) (hs : MSpaceOk k n V len dir nrm ts ws poly s)
    (hF : IsMixedField k poly n u flux) (hv : IsFluxDofs k poly n dir ts (fun l => s.init.tPlus.ent l) u flux v) {P : MvPolynomial (Fin 2) ℝ}
    (hP : P.totalDegree ≤ k) (hd : HasWeakDivergence k poly n V len u flux (ev2 P)) :
    polyOf k poly.centroid poly.diameter (Spec.apply s.V v) = ev2 P := by
  have h1 := mdivergence hE hT hs hF hv
  have e : polyOf k poly.centroid poly.diameter (Spec.apply s.V v) = ev2 (combo (k + 1) poly.centroid poly.diameter (tri (k + 1)) (Spec.apply s.V v)) := by
    funext p
    rw [ev2_combo (k + 1) _ _ (show k ≤ k + 1 by omega)]
  rw [e] at h1 ⊢
  rw [mdivergence_unique hE hs (combo_degree _ (show k ≤ k + 1 by omega)) hP h1 hd]

/-- The projection maps the DOFs of a vector polynomial to its coefficients. -/
theorem mP_poly (hE : IsElement poly n V len dir nrm) (hT : IsMixedTables k triangle edge ts ws) (hs : MSpaceOk k n V len dir nrm ts ws poly s) {x : Nat → ℝ}
    (hn : IsNormalTrace n V nrm (splitField k poly.centroid poly.diameter (fun l => s.init.tPlus.ent l) x) flux)
    (hv : IsFluxDofs k poly n dir ts (fun l => s.init.tPlus.ent l) (splitField k poly.centroid poly.diameter (fun l => s.init.tPlus.ent l) x) flux v) :
    ∀ j < 2 * tri (k + 1), Spec.apply s.pi0k v j = x j := by
  have hx : splitField k poly.centroid poly.diameter (fun l => s.init.tPlus.ent l) x
      = fun p => (ev2 (gsum k poly.centroid poly.diameter s.init.tPlus x 0) p, ev2 (gsum k poly.centroid poly.diameter s.init.tPlus x 1) p) := funext fun p => split_ev2 k _ _ _ x p
  rw [hx] at hn hv
  have hq := gsum_degree hs.init.tk x
  have hF := poly_field (poly := poly) (gsum k poly.centroid poly.diameter s.init.tPlus x) hq hn
  have hd := poly_divergence hE hs hq hn
  have hdk := mdivergence_eq hE hT hs hF hv (div_degree hq) (fun a b hab => hd a b (by omega))
  refine mG_ext hE hs fun j hj => ?_
  rw [mP_apply hE hT hs hF hv (by rw [hdk]; exact hd) hj, intF_eq, int_dot hs (fun d => fld_degree hs.init.tk j d) hq]

/-- The columns of `D` hold the DOFs of the fields. -/
theorem mD_dofs (hs : MSpaceOk k n V len dir nrm ts ws poly s) (x : Nat → ℝ)
    (hn : IsNormalTrace n V nrm (splitField k poly.centroid poly.diameter (fun l => s.init.tPlus.ent l) x) flux) :
    IsFluxDofs k poly n dir ts (fun l => s.init.tPlus.ent l) (splitField k poly.centroid poly.diameter (fun l => s.init.tPlus.ent l) x) flux (Spec.apply s.D x) := by
  obtain ⟨t1, t2⟩ := mcc_counts k
  have hq := gsum_degree hs.init.tk x
  refine ⟨?_, ?_, ?_⟩
  · intro e he i t ht
    rw [Spec.apply, hs.dCols]
    have e1 : ∀ p : ℝ × ℝ, sgn dir e * dot2 (splitField k poly.centroid poly.diameter (fun l => s.init.tPlus.ent l) x p) (nrm e)
        = ∑ j ∈ Finset.range (2 * tri (k + 1)), sgn dir e * (ev2 (fld k poly.centroid poly.diameter s.init.tPlus j 0) p * (nrm e).1
          + ev2 (fld k poly.centroid poly.diameter s.init.tPlus j 1) p * (nrm e).2) * x j := by
      intro p
      rw [split_ev2, gsum, gsum]
      simp only [ev2, map_sum, map_mul, eval_C, dot2, Finset.sum_mul, ← Finset.sum_add_distrib, Finset.mul_sum]
      exact Finset.sum_congr rfl fun j _ => by ring
    rw [Finset.sum_congr rfl fun j hj => by rw [hs.dEdge e he i t ht j (Finset.mem_range.1 hj)], ← e1]
    cases hd : dir e with
    | true =>
      rw [if_pos rfl, hn e he t, sgn, hd]
      simp [polyEdge]
    | false =>
      have hrev : segPoint (V ((e + 1) % n)) (V e) t = segPoint (V e) (V ((e + 1) % n)) (1 - t) := by
        simp only [segPoint, Prod.mk.injEq]
        constructor <;> ring
      rw [if_neg (by simp), hn e he (1 - t), sgn, hd, ← hrev]
      simp [polyEdge]
  · intro a b h0 hab
    have hp : position a b < tri (k + 1) := position_lt.2 hab
    have hp0 : 0 < position a b := by
      by_contra hc
      have : position a b < tri (0 + 1) := by
        rw [show tri (0 + 1) = 1 from rfl]
        omega
      have := position_lt.1 this
      omega
    rw [Spec.apply, hs.dCols, Finset.sum_congr rfl fun j hj => by rw [hs.dNabla _ (by omega) j (Finset.mem_range.1 hj), mul_assoc], ← Finset.mul_sum,
      mG_row hs.init x (by omega)]
    congr 1
    rw [← int_dot hs (fun d => fld_degree hs.init.tk _ d) hq]
    congr 1
    funext p
    rw [split_ev2, grad_ev2 (k + 1) _ _ (show a + b ≤ k + 1 by omega), fld, fld, if_pos (by omega), if_pos (by omega), Nat.sub_add_cancel hp0]
  · intro l hl
    rw [tri_div'] at hl
    rw [Spec.apply, hs.dCols, tri_div, Finset.sum_congr rfl fun j hj => by rw [hs.dPlus l hl j (Finset.mem_range.1 hj), mul_assoc], ← Finset.mul_sum,
      mG_row hs.init x (by omega)]
    congr 1
    rw [← int_dot hs (fun d => fld_degree hs.init.tk _ d) hq]
    congr 1
    funext p
    rw [split_ev2, field_ev2, fld, fld, if_neg (by omega), if_neg (by omega), Nat.add_sub_cancel_left]

/-- `Π D = 1`. -/
theorem mP_mD (hE : IsElement poly n V len dir nrm) (hT : IsMixedTables k triangle edge ts ws) (hs : MSpaceOk k n V len dir nrm ts ws poly s) (x : Nat → ℝ) :
    ∀ j < 2 * tri (k + 1), Spec.apply s.pi0k (Spec.apply s.D x) j = x j := by
  obtain ⟨flux, hn, _⟩ := mcc_exists_trace (k := k) (gsum k poly.centroid poly.diameter s.init.tPlus x) (gsum_degree hs.init.tk x) n V nrm
  have hx : splitField k poly.centroid poly.diameter (fun l => s.init.tPlus.ent l) x
      = fun p => (ev2 (gsum k poly.centroid poly.diameter s.init.tPlus x 0) p, ev2 (gsum k poly.centroid poly.diameter s.init.tPlus x 1) p) := funext fun p => split_ev2 k _ _ _ x p
  rw [← hx] at hn
  exact mP_poly hE hT hs hn (mD_dofs hs x hn)

end

end PolyDiM
