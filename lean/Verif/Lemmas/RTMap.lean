import Verif.Lemmas.RTBasis
import Mathlib.Analysis.Calculus.Deriv.Comp
import Mathlib.Analysis.Calculus.Deriv.Add
import Mathlib.Analysis.Calculus.Deriv.Prod
import Mathlib.Data.Sign.Basic

/-!
# Lemmas: the map of the Raviart-Thomas element
-/

namespace PolyDiM

open Spec MvPolynomial MeasureTheory

section
variable {v : Tri2 ℝ}

theorem tri2Det_eq (v : Tri2 ℝ) : tri2Det v = shoelace v.1 v.2.1 v.2.2 := by
  simp only [tri2Det, shoelace]
  ring

theorem tri2F_bary (v : Tri2 ℝ) (p : ℝ × ℝ) : tri2F v p = bary3 v.1 v.2.1 v.2.2 (1 - p.1 - p.2) p.1 p.2 := by
  simp only [tri2F, bary3]
  module

theorem tri2F_tri2L (v : Tri2 ℝ) (p : ℝ × ℝ) : tri2F v p = v.1 + tri2L v p := by
  show _ = v.1 + (p.1 • (v.2.1 - v.1) + p.2 • (v.2.2 - v.1))
  rw [tri2F, add_assoc]

theorem tri2FInv_tri2F (hd : tri2Det v ≠ 0) (p : ℝ × ℝ) : tri2FInv v (tri2F v p) = p := by
  refine Prod.ext ?_ ?_
  · rw [tri2FInv]
    dsimp only
    rw [div_eq_iff hd]
    simp only [tri2F, tri2Det, Prod.fst_add, Prod.snd_add, Prod.smul_fst, Prod.smul_snd, Prod.fst_sub, Prod.snd_sub, smul_eq_mul]
    ring
  · rw [tri2FInv]
    dsimp only
    rw [div_eq_iff hd]
    simp only [tri2F, tri2Det, Prod.fst_add, Prod.snd_add, Prod.smul_fst, Prod.smul_snd, Prod.fst_sub, Prod.snd_sub, smul_eq_mul]
    ring

theorem tri2F_tri2FInv (hd : tri2Det v ≠ 0) (x : ℝ × ℝ) : tri2F v (tri2FInv v x) = x := by
  refine Prod.ext ?_ ?_
  · simp only [tri2F, tri2FInv, Prod.fst_add, Prod.smul_fst, Prod.fst_sub, smul_eq_mul, div_mul_eq_mul_div, add_assoc, ← add_div]
    rw [← eq_sub_iff_add_eq', div_eq_iff hd, tri2Det]
    ring
  · simp only [tri2F, tri2FInv, Prod.snd_add, Prod.smul_snd, Prod.snd_sub, smul_eq_mul, div_mul_eq_mul_div, add_assoc, ← add_div]
    rw [← eq_sub_iff_add_eq', div_eq_iff hd, tri2Det]
    ring

/-- The triangle whose map is the inverse map. -/
noncomputable def invTri (v : Tri2 ℝ) : Tri2 ℝ := (tri2FInv v (0, 0), tri2FInv v (1, 0), tri2FInv v (0, 1))

theorem tri2F_invTri (v : Tri2 ℝ) (x : ℝ × ℝ) : tri2F (invTri v) x = tri2FInv v x := by
  refine Prod.ext ?_ ?_ <;>
  · simp only [tri2F, tri2FInv, invTri, Prod.fst_add, Prod.snd_add, Prod.smul_fst, Prod.smul_snd, Prod.fst_sub, Prod.snd_sub, smul_eq_mul]
    ring

theorem tri2F_segPoint (v : Tri2 ℝ) (P Q : ℝ × ℝ) (t : ℝ) : tri2F v (segPoint P Q t) = segPoint (tri2F v P) (tri2F v Q) t := by
  refine Prod.ext ?_ ?_ <;>
  · simp only [tri2F, segPoint, Prod.fst_add, Prod.snd_add, Prod.smul_fst, Prod.smul_snd, Prod.fst_sub, Prod.snd_sub, smul_eq_mul]
    ring

/-- The field carried to the triangle by the code. -/
noncomputable def piola (v : Tri2 ℝ) (w : ℝ × ℝ → ℝ × ℝ) (x : ℝ × ℝ) : ℝ × ℝ :=
  (1 / tri2Det v * ((v.2.1.1 - v.1.1) * (w (tri2FInv v x)).1 + (v.2.2.1 - v.1.1) * (w (tri2FInv v x)).2),
    1 / tri2Det v * ((v.2.1.2 - v.1.2) * (w (tri2FInv v x)).1 + (v.2.2.2 - v.1.2) * (w (tri2FInv v x)).2))

theorem rtMapVelocity_ok (v : Tri2 ℝ) {X Y : DMat ℝ} (hr : X.rows = Y.rows) (hc : X.cols = Y.cols) :
    ∃ X' Y', rtMapVelocity v (X, Y) = .ok (X', Y') ∧ X'.rows = X.rows ∧ X'.cols = X.cols ∧ Y'.rows = X.rows ∧ Y'.cols = X.cols ∧
      ∀ (w : ℝ × ℝ → ℝ × ℝ) (x : ℝ × ℝ) (i j : Nat), (X.ent i j, Y.ent i j) = w (tri2FInv v x) → (X'.ent i j, Y'.ent i j) = piola v w x := by
  refine ⟨_, _, by
    unfold rtMapVelocity
    rw [DMat.add_ok _ _ (by exact hr) (by exact hc), except_ok_bind, DMat.add_ok _ _ (by exact hr) (by exact hc), except_ok_bind], ?_, ?_, ?_, ?_, ?_⟩
  · rfl
  · rfl
  · rfl
  · rfl
  · intro w x i j h
    rw [piola, ← h]
    rfl

theorem piola_sum (v : Tri2 ℝ) (N : Nat) (w : Nat → ℝ × ℝ → ℝ × ℝ) (c : Nat → ℝ) (x : ℝ × ℝ) :
    piola v (fun p => ∑ j ∈ Finset.range N, c j • w j p) x = ∑ j ∈ Finset.range N, c j • piola v (w j) x := by
  refine Prod.ext ?_ ?_
  · simp only [piola, Prod.fst_sum, Prod.snd_sum, Prod.smul_fst, Prod.smul_snd, smul_eq_mul, Finset.mul_sum, ← Finset.sum_add_distrib]
    exact Finset.sum_congr rfl fun j _ => by ring
  · simp only [piola, Prod.fst_sum, Prod.snd_sum, Prod.smul_fst, Prod.smul_snd, smul_eq_mul, Finset.mul_sum, ← Finset.sum_add_distrib]
    exact Finset.sum_congr rfl fun j _ => by ring

/-- The flux through a segment is preserved, point by point. -/
theorem piola_normal (hd : tri2Det v ≠ 0) (w : ℝ × ℝ → ℝ × ℝ) (p P Q : ℝ × ℝ) :
    dot2 (piola v w (tri2F v p)) (clockwise (tri2F v Q - tri2F v P)) = dot2 (w p) (clockwise (Q - P)) := by
  rw [piola, tri2FInv_tri2F hd, dot2]
  simp only [clockwise, dot2]
  have e : ∀ a b c d : ℝ, 1 / tri2Det v * a * b + 1 / tri2Det v * c * d = (a * b + c * d) / tri2Det v := by
    intro a b c d
    ring
  rw [e, div_eq_iff hd]
  simp only [tri2F, tri2Det, Prod.fst_add, Prod.snd_add, Prod.smul_fst, Prod.smul_snd, Prod.fst_sub, Prod.snd_sub, smul_eq_mul]
  ring

theorem piola_flux (hd : tri2Det v ≠ 0) (w : ℝ × ℝ → ℝ × ℝ) (P Q : ℝ × ℝ) (i : Nat) :
    fluxMoment (piola v w) (tri2F v P) (tri2F v Q) i = fluxMoment w P Q i := by
  unfold fluxMoment
  congr 1
  funext t
  rw [← tri2F_segPoint, piola_normal hd]

/-- The divergence of the field carried to the triangle. -/
theorem piola_divergence (hd : tri2Det v ≠ 0) {w : ℝ × ℝ → ℝ × ℝ} {x : ℝ × ℝ} {a b : ℝ × ℝ →L[ℝ] ℝ}
    (ha : HasFDerivAt (fun p => (w p).1) a (tri2FInv v x)) (hb : HasFDerivAt (fun p => (w p).2) b (tri2FInv v x)) :
    HasDivergence (piola v w) x (1 / tri2Det v * (a (1, 0) + b (0, 1))) := by
  have hx : HasDerivAt (fun s : ℝ => tri2FInv v (s, x.2)) ((v.2.2.2 - v.1.2) / tri2Det v, -(v.2.1.2 - v.1.2) / tri2Det v) x.1 := by
    refine HasDerivAt.prodMk ?_ ?_
    · refine HasDerivAt.div_const ?_ _
      simpa using (((hasDerivAt_id x.1).sub_const v.1.1).const_mul (v.2.2.2 - v.1.2)).sub_const ((v.2.2.1 - v.1.1) * (x.2 - v.1.2))
    · refine HasDerivAt.div_const ?_ _
      simpa using (((hasDerivAt_id x.1).sub_const v.1.1).const_mul (v.2.1.2 - v.1.2)).const_sub ((v.2.1.1 - v.1.1) * (x.2 - v.1.2))
  have hy : HasDerivAt (fun s : ℝ => tri2FInv v (x.1, s)) (-(v.2.2.1 - v.1.1) / tri2Det v, (v.2.1.1 - v.1.1) / tri2Det v) x.2 := by
    refine HasDerivAt.prodMk ?_ ?_
    · refine HasDerivAt.div_const ?_ _
      simpa using (((hasDerivAt_id x.2).sub_const v.1.2).const_mul (v.2.2.1 - v.1.1)).const_sub ((v.2.2.2 - v.1.2) * (x.1 - v.1.1))
    · refine HasDerivAt.div_const ?_ _
      simpa using (((hasDerivAt_id x.2).sub_const v.1.2).const_mul (v.2.1.1 - v.1.1)).sub_const ((v.2.1.2 - v.1.2) * (x.1 - v.1.1))
  have lin : ∀ (f : ℝ × ℝ →L[ℝ] ℝ) (s t : ℝ), f (s, t) = s * f (1, 0) + t * f (0, 1) := by
    intro f s t
    rw [← smul_eq_mul, ← smul_eq_mul, ← map_smul, ← map_smul, ← map_add]
    simp
  have hax := HasFDerivAt.comp_hasDerivAt x.1 (f := fun s => tri2FInv v (s, x.2)) (l := fun p => (w p).1) ha hx
  have hbx := HasFDerivAt.comp_hasDerivAt x.1 (f := fun s => tri2FInv v (s, x.2)) (l := fun p => (w p).2) hb hx
  have hay := HasFDerivAt.comp_hasDerivAt x.2 (f := fun s => tri2FInv v (x.1, s)) (l := fun p => (w p).1) ha hy
  have hby := HasFDerivAt.comp_hasDerivAt x.2 (f := fun s => tri2FInv v (x.1, s)) (l := fun p => (w p).2) hb hy
  refine ⟨_, _, ((hax.const_mul (v.2.1.1 - v.1.1)).add (hbx.const_mul (v.2.2.1 - v.1.1))).const_mul (1 / tri2Det v),
    ((hay.const_mul (v.2.1.2 - v.1.2)).add (hby.const_mul (v.2.2.2 - v.1.2))).const_mul (1 / tri2Det v), ?_⟩
  rw [← mul_add]
  congr 1
  simp only [lin _ (_ / _) (_ / _)]
  have hdd : tri2Det v / tri2Det v = 1 := div_self hd
  have e1 : ((v.2.1.1 - v.1.1) * (v.2.2.2 - v.1.2) - (v.2.2.1 - v.1.1) * (v.2.1.2 - v.1.2)) / tri2Det v = 1 := hdd
  linear_combination (-(a (1, 0)) - b (0, 1)) * e1

theorem piola_integral (hd : tri2Det v ≠ 0) (g q : ℝ × ℝ → ℝ) :
    ∫ x in {x | InTriangle v.1 v.2.1 v.2.2 x}, 1 / tri2Det v * g (tri2FInv v x) * q x = SignType.sign (tri2Det v) * ∫ p in refTri, g p * q (tri2F v p) := by
  rw [triangle_image, affine_integral _ _ _ _ refTriangle_compact.measurableSet, tri2L_det, ← tri2Det_eq]
  simp only [← tri2F_tri2L, tri2FInv_tri2F hd]
  have : ∀ p, 1 / tri2Det v * g p * q (tri2F v p) = 1 / tri2Det v * (g p * q (tri2F v p)) := fun p => mul_assoc _ _ _
  simp only [this]
  rw [integral_const_mul, ← mul_assoc]
  congr 1
  rw [mul_one_div, div_eq_iff hd, sign_mul_self]

theorem homogeneous_split {k : Nat} (g : MvPolynomial (Fin 2) ℝ) (hg : g.totalDegree ≤ k) :
    ∃ h r : MvPolynomial (Fin 2) ℝ, h.IsHomogeneous k ∧ g = h + r ∧ ∀ i, (X i * r).totalDegree ≤ k := by
  refine ⟨homogeneousComponent k g, ∑ i ∈ Finset.range k, homogeneousComponent i g, homogeneousComponent_isHomogeneous k g, ?_, fun i => ?_⟩
  · have h1 := sum_homogeneousComponent g
    have h2 : ∑ i ∈ Finset.range (k + 1), homogeneousComponent i g = g := by
      refine Eq.trans (Finset.sum_subset (Finset.range_mono (by omega)) ?_).symm h1
      intro i _ hi
      exact homogeneousComponent_eq_zero i g (by simpa using hi)
    rw [Finset.sum_range_succ, add_comm] at h2
    exact h2.symm
  · rw [Finset.mul_sum]
    refine (totalDegree_finsetSum _ _).trans (Finset.sup_le fun j hj => ?_)
    rw [Finset.mem_range] at hj
    refine (totalDegree_mul _ _).trans ?_
    rw [totalDegree_X]
    have := (homogeneousComponent_isHomogeneous j g).totalDegree_le
    omega

/-- A field of the space, with the position vector taken from any point and any polynomial of degree at most `k`. -/
theorem isRT_of_shift {k : Nat} {w : ℝ × ℝ → ℝ × ℝ} {a b g : MvPolynomial (Fin 2) ℝ} (ha : a.totalDegree ≤ k) (hb : b.totalDegree ≤ k) (hg : g.totalDegree ≤ k)
    (c : ℝ × ℝ) (hw : ∀ p, w p = (ev2 a p + (p.1 - c.1) * ev2 g p, ev2 b p + (p.2 - c.2) * ev2 g p)) : IsRT k w := by
  obtain ⟨h, r, hh, rfl, hr⟩ := homogeneous_split g hg
  have hC : ∀ s : ℝ, (C s * (h + r)).totalDegree ≤ k := fun s => (totalDegree_mul _ _).trans (by rw [totalDegree_C, zero_add]; exact hg)
  refine ⟨a + X 0 * r - C c.1 * (h + r), b + X 1 * r - C c.2 * (h + r), h, ?_, ?_, hh, fun p => ?_⟩
  · exact (totalDegree_sub _ _).trans (max_le ((totalDegree_add _ _).trans (max_le ha (hr 0))) (hC _))
  · exact (totalDegree_sub _ _).trans (max_le ((totalDegree_add _ _).trans (max_le hb (hr 1))) (hC _))
  · rw [hw]
    refine Prod.ext ?_ ?_ <;>
    · simp [ev2]
      ring

theorem piola_isRT (hd : tri2Det v ≠ 0) {k : Nat} {w : ℝ × ℝ → ℝ × ℝ} (hw : IsRT k w) : IsRT k (piola v w) := by
  obtain ⟨a, b, h, ha, hb, hh, hw⟩ := hw
  obtain ⟨a', ha', ea⟩ := poly2_pullback (invTri v) a
  obtain ⟨b', hb', eb⟩ := poly2_pullback (invTri v) b
  obtain ⟨h', hh', eh⟩ := poly2_pullback (invTri v) h
  simp only [← tri2F_tri2L, tri2F_invTri] at ea eb eh
  have hC : ∀ (s : ℝ) (q : MvPolynomial (Fin 2) ℝ), q.totalDegree ≤ k → (C s * q).totalDegree ≤ k := fun s q hq =>
    (totalDegree_mul _ _).trans (by rw [totalDegree_C, zero_add]; exact hq)
  have hA : ∀ s t : ℝ, (C s * a' + C t * b').totalDegree ≤ k := fun s t =>
    (totalDegree_add _ _).trans (max_le (hC _ _ (ha'.trans ha)) (hC _ _ (hb'.trans hb)))
  refine isRT_of_shift (a := C (1 / tri2Det v * (v.2.1.1 - v.1.1)) * a' + C (1 / tri2Det v * (v.2.2.1 - v.1.1)) * b')
    (b := C (1 / tri2Det v * (v.2.1.2 - v.1.2)) * a' + C (1 / tri2Det v * (v.2.2.2 - v.1.2)) * b') (g := C (1 / tri2Det v) * h') (hA _ _) (hA _ _)
    (hC _ _ (hh'.trans hh.totalDegree_le)) v.1 fun x => ?_
  have hx := tri2F_tri2FInv hd x
  have h1 : x.1 - v.1.1 = (tri2FInv v x).1 * (v.2.1.1 - v.1.1) + (tri2FInv v x).2 * (v.2.2.1 - v.1.1) := by
    have := congrArg Prod.fst hx
    simp only [tri2F, Prod.fst_add, Prod.smul_fst, Prod.fst_sub, smul_eq_mul] at this
    linarith
  have h2 : x.2 - v.1.2 = (tri2FInv v x).1 * (v.2.1.2 - v.1.2) + (tri2FInv v x).2 * (v.2.2.2 - v.1.2) := by
    have := congrArg Prod.snd hx
    simp only [tri2F, Prod.snd_add, Prod.smul_snd, Prod.snd_sub, smul_eq_mul] at this
    linarith
  rw [piola, hw, h1, h2]
  simp only [ev2, map_add, map_mul, eval_C, ea, eb, eh]
  refine Prod.ext ?_ ?_ <;>
  · dsimp only
    ring

/-- Every field of the space of the triangle comes from the reference triangle. -/
theorem piola_surjective (hd : tri2Det v ≠ 0) {k : Nat} {w : ℝ × ℝ → ℝ × ℝ} (hw : IsRT k w) : ∃ w', IsRT k w' ∧ ∀ x, w x = piola v w' x := by
  obtain ⟨a, b, h, ha, hb, hh, hw⟩ := hw
  obtain ⟨a', ha', ea⟩ := poly2_pullback v a
  obtain ⟨b', hb', eb⟩ := poly2_pullback v b
  obtain ⟨h', hh', eh⟩ := poly2_pullback v h
  simp only [← tri2F_tri2L] at ea eb eh
  have hC : ∀ (s : ℝ) (q : MvPolynomial (Fin 2) ℝ), q.totalDegree ≤ k → (C s * q).totalDegree ≤ k := fun s q hq =>
    (totalDegree_mul _ _).trans (by rw [totalDegree_C, zero_add]; exact hq)
  have hA : ∀ s t u : ℝ, (C s * a' + C t * b' + C u * h').totalDegree ≤ k := fun s t u =>
    (totalDegree_add _ _).trans (max_le ((totalDegree_add _ _).trans (max_le (hC _ _ (ha'.trans ha)) (hC _ _ (hb'.trans hb))))
      (hC _ _ (hh'.trans hh.totalDegree_le)))
  refine ⟨fun p => ((v.2.2.2 - v.1.2) * (w (tri2F v p)).1 - (v.2.2.1 - v.1.1) * (w (tri2F v p)).2,
    (v.2.1.1 - v.1.1) * (w (tri2F v p)).2 - (v.2.1.2 - v.1.2) * (w (tri2F v p)).1), ?_, fun x => ?_⟩
  · refine isRT_of_shift (a := C (v.2.2.2 - v.1.2) * a' + C (-(v.2.2.1 - v.1.1)) * b' + C ((v.2.2.2 - v.1.2) * v.1.1 - (v.2.2.1 - v.1.1) * v.1.2) * h')
      (b := C (-(v.2.1.2 - v.1.2)) * a' + C (v.2.1.1 - v.1.1) * b' + C ((v.2.1.1 - v.1.1) * v.1.2 - (v.2.1.2 - v.1.2) * v.1.1) * h')
      (g := C (tri2Det v) * h') (hA _ _ _) (hA _ _ _) (hC _ _ (hh'.trans hh.totalDegree_le)) (0, 0) fun p => ?_
    rw [hw]
    simp only [ev2, map_add, map_mul, eval_C, ea, eb, eh]
    refine Prod.ext ?_ ?_ <;>
    · simp only [tri2Det, tri2F, Prod.fst_add, Prod.snd_add, Prod.smul_fst, Prod.smul_snd, Prod.fst_sub, Prod.snd_sub, smul_eq_mul]
      ring
  · rw [piola]
    dsimp only
    rw [tri2F_tri2FInv hd]
    refine Prod.ext ?_ ?_
    · dsimp only
      rw [one_div, eq_inv_mul_iff_mul_eq₀ hd, tri2Det]
      ring
    · dsimp only
      rw [one_div, eq_inv_mul_iff_mul_eq₀ hd, tri2Det]
      ring

end

end PolyDiM
