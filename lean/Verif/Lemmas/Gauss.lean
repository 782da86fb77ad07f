import Verif.Lemmas.Exactness
import Verif.Spec.Vem
import Mathlib.Algebra.MvPolynomial.Funext
import Mathlib.MeasureTheory.Measure.OpenPos
import Mathlib.Analysis.Calculus.MeanValue
import Mathlib.Algebra.MvPolynomial.PDeriv
import Mathlib.MeasureTheory.Integral.IntervalIntegral.FundThmCalculus
import Mathlib.MeasureTheory.Integral.Prod

/-!
# Lemmas: the divergence theorem for polynomials on triangulated polygons
-/

namespace PolyDiM

open Spec MeasureTheory

/-- The value of a polynomial in two variables. -/
noncomputable abbrev ev2 (q : MvPolynomial (Fin 2) ℝ) (p : ℝ × ℝ) : ℝ := MvPolynomial.eval ![p.1, p.2] q

theorem ev2_hasFDerivAt (q : MvPolynomial (Fin 2) ℝ) (p : ℝ × ℝ) :
    HasFDerivAt (ev2 q) (ev2 (MvPolynomial.pderiv 0 q) p • ContinuousLinearMap.fst ℝ ℝ ℝ + ev2 (MvPolynomial.pderiv 1 q) p • ContinuousLinearMap.snd ℝ ℝ ℝ) p := by
  induction q using MvPolynomial.induction_on with
  | C a =>
    have : ev2 (MvPolynomial.C a) = fun _ => a := by
      funext p
      simp [ev2]
    rw [this]
    simpa [ev2] using hasFDerivAt_const a p
  | add q r hq hr =>
    have h := hq.add hr
    have e : ev2 (q + r) = fun p => ev2 q p + ev2 r p := by
      funext p
      simp [ev2]
    rw [e]
    refine h.congr_fderiv ?_
    simp only [ev2, map_add, add_smul]
    abel
  | mul_X q i hq =>
    have e : ev2 (q * MvPolynomial.X i) = fun p => ev2 q p * ![p.1, p.2] i := by
      funext p
      simp [ev2]
    rw [e]
    fin_cases i
    · have h := hq.mul (hasFDerivAt_fst (𝕜 := ℝ) (E := ℝ) (F := ℝ) (p := p))
      refine h.congr_fderiv ?_
      ext <;> simp [ev2, MvPolynomial.pderiv_X]
    · have h := hq.mul (hasFDerivAt_snd (𝕜 := ℝ) (E := ℝ) (F := ℝ) (p := p))
      refine h.congr_fderiv ?_
      ext <;> simp [ev2, MvPolynomial.pderiv_X]

theorem refTriangle_integral' (f : ℝ × ℝ → ℝ) (hf : Continuous f) :
    ∫ p in {p : ℝ × ℝ | InTriangle (0, 0) (1, 0) (0, 1) p}, f p = ∫ y in (0 : ℝ)..1, ∫ x in (0 : ℝ)..(1 - y), f (x, y) := by
  have h := refTriangle_integral (fun p => f p.swap) (hf.comp continuous_swap)
  simp only [Prod.swap_prod_mk] at h
  rw [← h]
  have hmp : MeasurePreserving (Prod.swap : ℝ × ℝ → ℝ × ℝ) volume volume := by
    rw [Measure.volume_eq_prod]
    exact Measure.measurePreserving_swap
  have hpre : (Prod.swap : ℝ × ℝ → ℝ × ℝ) ⁻¹' {p : ℝ × ℝ | InTriangle (0, 0) (1, 0) (0, 1) p} = {p : ℝ × ℝ | InTriangle (0, 0) (1, 0) (0, 1) p} := by
    rw [refTriangle]
    ext p
    simp
    constructor
    · rintro ⟨h1, h2, h3⟩
      exact ⟨h2, h1, by linarith⟩
    · rintro ⟨h1, h2, h3⟩
      exact ⟨h2, h1, by linarith⟩
  have := hmp.setIntegral_preimage_emb (MeasurableEquiv.prodComm.measurableEmbedding) f {p : ℝ × ℝ | InTriangle (0, 0) (1, 0) (0, 1) p}
  rw [hpre] at this
  exact this.symm

theorem segInt_symm (f : ℝ × ℝ → ℝ) (P Q : ℝ × ℝ) : segInt f P Q = segInt f Q P := by
  have := intervalIntegral.integral_comp_sub_left (a := 0) (b := 1) (fun t : ℝ => f (segPoint P Q t)) 1
  rw [sub_self, sub_zero] at this
  unfold segInt
  rw [← this]
  congr 1
  funext t
  congr 1
  simp only [segPoint, Prod.mk.injEq]
  constructor <;> ring

/-- Derivatives of a polynomial after the map of a triangle, along the two axes. -/
theorem gauss_axis (v : Tri2 ℝ) (q : MvPolynomial (Fin 2) ℝ) :
    ∫ p in {p : ℝ × ℝ | InTriangle (0, 0) (1, 0) (0, 1) p}, (ev2 (MvPolynomial.pderiv 0 q) (v.1 + tri2L v p) * (v.2.1 - v.1).1
      + ev2 (MvPolynomial.pderiv 1 q) (v.1 + tri2L v p) * (v.2.1 - v.1).2) = segInt (ev2 q) v.2.1 v.2.2 - segInt (ev2 q) v.1 v.2.2 ∧
    ∫ p in {p : ℝ × ℝ | InTriangle (0, 0) (1, 0) (0, 1) p}, (ev2 (MvPolynomial.pderiv 0 q) (v.1 + tri2L v p) * (v.2.2 - v.1).1
      + ev2 (MvPolynomial.pderiv 1 q) (v.1 + tri2L v p) * (v.2.2 - v.1).2) = segInt (ev2 q) v.2.1 v.2.2 - segInt (ev2 q) v.1 v.2.1 := by
  have hcF : Continuous fun p : ℝ × ℝ => v.1 + tri2L v p := continuous_const.add (tri2L v).continuous_of_finiteDimensional
  have hc : ∀ a b : ℝ, Continuous fun p : ℝ × ℝ => ev2 (MvPolynomial.pderiv 0 q) (v.1 + tri2L v p) * a + ev2 (MvPolynomial.pderiv 1 q) (v.1 + tri2L v p) * b :=
    fun a b => (((poly2_continuous _).comp hcF).mul continuous_const).add (((poly2_continuous _).comp hcF).mul continuous_const)
  have hcq : Continuous (ev2 q) := poly2_continuous q
  have hF : ∀ x y : ℝ, v.1 + tri2L v (x, y) = (v.1.1 + x * (v.2.1 - v.1).1 + y * (v.2.2 - v.1).1, v.1.2 + x * (v.2.1 - v.1).2 + y * (v.2.2 - v.1).2) := by
    intro x y
    ext <;> simp [tri2L] <;> ring
  have hdx : ∀ y x : ℝ, HasDerivAt (fun x => ev2 q (v.1 + tri2L v (x, y))) (ev2 (MvPolynomial.pderiv 0 q) (v.1 + tri2L v (x, y)) * (v.2.1 - v.1).1
      + ev2 (MvPolynomial.pderiv 1 q) (v.1 + tri2L v (x, y)) * (v.2.1 - v.1).2) x := by
    intro y x
    have h1 : HasDerivAt (fun x : ℝ => v.1 + tri2L v (x, y)) (v.2.1 - v.1) x := by
      simp only [hF]
      refine HasDerivAt.prodMk ?_ ?_
      · simpa using (((hasDerivAt_id x).mul_const (v.2.1 - v.1).1).const_add v.1.1).add_const (y * (v.2.2 - v.1).1)
      · simpa using (((hasDerivAt_id x).mul_const (v.2.1 - v.1).2).const_add v.1.2).add_const (y * (v.2.2 - v.1).2)
    have h2 := (ev2_hasFDerivAt q (v.1 + tri2L v (x, y))).comp_hasDerivAt x h1
    refine h2.congr_deriv ?_
    simp
  have hdy : ∀ x y : ℝ, HasDerivAt (fun y => ev2 q (v.1 + tri2L v (x, y))) (ev2 (MvPolynomial.pderiv 0 q) (v.1 + tri2L v (x, y)) * (v.2.2 - v.1).1
      + ev2 (MvPolynomial.pderiv 1 q) (v.1 + tri2L v (x, y)) * (v.2.2 - v.1).2) y := by
    intro x y
    have h1 : HasDerivAt (fun y : ℝ => v.1 + tri2L v (x, y)) (v.2.2 - v.1) y := by
      simp only [hF]
      refine HasDerivAt.prodMk ?_ ?_
      · simpa using (((hasDerivAt_id y).mul_const (v.2.2 - v.1).1).const_add (v.1.1 + x * (v.2.1 - v.1).1))
      · simpa using (((hasDerivAt_id y).mul_const (v.2.2 - v.1).2).const_add (v.1.2 + x * (v.2.1 - v.1).2))
    have h2 := (ev2_hasFDerivAt q (v.1 + tri2L v (x, y))).comp_hasDerivAt y h1
    refine h2.congr_deriv ?_
    simp
  have hsc : ∀ P Q : ℝ × ℝ, Continuous fun t : ℝ => ev2 q (segPoint P Q t) := by
    intro P Q
    refine hcq.comp ?_
    unfold segPoint
    fun_prop
  constructor
  · rw [refTriangle_integral' _ (hc _ _)]
    have : ∀ y : ℝ, ∫ x in (0 : ℝ)..(1 - y), (ev2 (MvPolynomial.pderiv 0 q) (v.1 + tri2L v (x, y)) * (v.2.1 - v.1).1
        + ev2 (MvPolynomial.pderiv 1 q) (v.1 + tri2L v (x, y)) * (v.2.1 - v.1).2)
        = ev2 q (segPoint v.2.1 v.2.2 y) - ev2 q (segPoint v.1 v.2.2 y) := by
      intro y
      rw [intervalIntegral.integral_eq_sub_of_hasDerivAt (fun x _ => hdx y x)
        (Continuous.intervalIntegrable ((hc _ _).comp (by fun_prop : Continuous fun x : ℝ => (x, y))) _ _)]
      congr 2
      · rw [hF]
        simp only [segPoint, Prod.fst_sub, Prod.snd_sub, Prod.mk.injEq]
        constructor <;> ring
      · rw [hF]
        simp only [segPoint, Prod.fst_sub, Prod.snd_sub, Prod.mk.injEq]
        constructor <;> ring
    simp only [this]
    rw [intervalIntegral.integral_sub ((hsc _ _).intervalIntegrable _ _) ((hsc _ _).intervalIntegrable _ _)]
    rfl
  · rw [refTriangle_integral _ (hc _ _)]
    have : ∀ x : ℝ, ∫ y in (0 : ℝ)..(1 - x), (ev2 (MvPolynomial.pderiv 0 q) (v.1 + tri2L v (x, y)) * (v.2.2 - v.1).1
        + ev2 (MvPolynomial.pderiv 1 q) (v.1 + tri2L v (x, y)) * (v.2.2 - v.1).2)
        = ev2 q (segPoint v.2.2 v.2.1 x) - ev2 q (segPoint v.1 v.2.1 x) := by
      intro x
      rw [intervalIntegral.integral_eq_sub_of_hasDerivAt (fun y _ => hdy x y)
        (Continuous.intervalIntegrable ((hc _ _).comp (by fun_prop : Continuous fun y : ℝ => (x, y))) _ _)]
      congr 2
      · rw [hF]
        simp only [segPoint, Prod.fst_sub, Prod.snd_sub, Prod.mk.injEq]
        constructor <;> ring
      · rw [hF]
        simp only [segPoint, Prod.fst_sub, Prod.snd_sub, Prod.mk.injEq]
        constructor <;> ring
    simp only [this]
    rw [intervalIntegral.integral_sub ((hsc _ _).intervalIntegrable _ _) ((hsc _ _).intervalIntegrable _ _), segInt_symm _ v.2.1]
    rfl

/-- The divergence theorem on a triangle, first component. -/
theorem gauss_tri_x (v : Tri2 ℝ) (q : MvPolynomial (Fin 2) ℝ) :
    shoelace v.1 v.2.1 v.2.2 * ∫ p in {p : ℝ × ℝ | InTriangle (0, 0) (1, 0) (0, 1) p}, ev2 (MvPolynomial.pderiv 0 q) (v.1 + tri2L v p)
      = (v.2.1 - v.1).2 * segInt (ev2 q) v.1 v.2.1 + (v.2.2 - v.2.1).2 * segInt (ev2 q) v.2.1 v.2.2 + (v.1 - v.2.2).2 * segInt (ev2 q) v.2.2 v.1 := by
  obtain ⟨h1, h2⟩ := gauss_axis v q
  have hcF : Continuous fun p : ℝ × ℝ => v.1 + tri2L v p := continuous_const.add (tri2L v).continuous_of_finiteDimensional
  have hi : ∀ (r : MvPolynomial (Fin 2) ℝ) (a : ℝ), IntegrableOn (fun p => ev2 r (v.1 + tri2L v p) * a) {p : ℝ × ℝ | InTriangle (0, 0) (1, 0) (0, 1) p} :=
    fun r a => (((poly2_continuous r).comp hcF).mul continuous_const).continuousOn.integrableOn_compact refTriangle_compact
  rw [integral_add (hi _ _) (hi _ _), integral_mul_const, integral_mul_const] at h1 h2
  rw [segInt_symm _ v.2.2 v.1]
  simp only [Prod.fst_sub, Prod.snd_sub] at h1 h2 ⊢
  unfold shoelace
  linear_combination (v.2.2.2 - v.1.2) * h1 - (v.2.1.2 - v.1.2) * h2

/-- The divergence theorem on a triangle, second component. -/
theorem gauss_tri_y (v : Tri2 ℝ) (q : MvPolynomial (Fin 2) ℝ) :
    shoelace v.1 v.2.1 v.2.2 * ∫ p in {p : ℝ × ℝ | InTriangle (0, 0) (1, 0) (0, 1) p}, ev2 (MvPolynomial.pderiv 1 q) (v.1 + tri2L v p)
      = -(v.2.1 - v.1).1 * segInt (ev2 q) v.1 v.2.1 + -(v.2.2 - v.2.1).1 * segInt (ev2 q) v.2.1 v.2.2
        + -(v.1 - v.2.2).1 * segInt (ev2 q) v.2.2 v.1 := by
  obtain ⟨h1, h2⟩ := gauss_axis v q
  have hcF : Continuous fun p : ℝ × ℝ => v.1 + tri2L v p := continuous_const.add (tri2L v).continuous_of_finiteDimensional
  have hi : ∀ (r : MvPolynomial (Fin 2) ℝ) (a : ℝ), IntegrableOn (fun p => ev2 r (v.1 + tri2L v p) * a) {p : ℝ × ℝ | InTriangle (0, 0) (1, 0) (0, 1) p} :=
    fun r a => (((poly2_continuous r).comp hcF).mul continuous_const).continuousOn.integrableOn_compact refTriangle_compact
  rw [integral_add (hi _ _) (hi _ _), integral_mul_const, integral_mul_const] at h1 h2
  rw [segInt_symm _ v.2.2 v.1]
  simp only [Prod.fst_sub, Prod.snd_sub] at h1 h2 ⊢
  unfold shoelace
  linear_combination (v.2.1.1 - v.1.1) * h2 - (v.2.2.1 - v.1.1) * h1

section polygon

variable {tris : List (Tri2 ℝ)} {n : Nat} {V : Nat → ℝ × ℝ}

/-- The divergence theorem on a triangulated polygon. -/
theorem gauss_polygon (T : IsTriangulation tris n V) (q : MvPolynomial (Fin 2) ℝ) :
    (tris.map fun v => |shoelace v.1 v.2.1 v.2.2| * ∫ p in {p : ℝ × ℝ | InTriangle (0, 0) (1, 0) (0, 1) p},
      ev2 (MvPolynomial.pderiv 0 q) (v.1 + tri2L v p)).sum
      = ∑ e ∈ Finset.range n, (V ((e + 1) % n) - V e).2 * segInt (ev2 q) (V e) (V ((e + 1) % n)) ∧
    (tris.map fun v => |shoelace v.1 v.2.1 v.2.2| * ∫ p in {p : ℝ × ℝ | InTriangle (0, 0) (1, 0) (0, 1) p},
      ev2 (MvPolynomial.pderiv 1 q) (v.1 + tri2L v p)).sum
      = ∑ e ∈ Finset.range n, -(V ((e + 1) % n) - V e).1 * segInt (ev2 q) (V e) (V ((e + 1) % n)) := by
  constructor
  · rw [← T.boundary (fun P Q => (Q - P).2 * segInt (ev2 q) P Q) (fun P Q => by
      rw [segInt_symm _ Q P]
      simp only [Prod.snd_sub]
      ring)]
    congr 1
    refine List.map_congr_left fun v hv => ?_
    rw [abs_of_nonneg (T.ccw v hv)]
    exact gauss_tri_x v q
  · rw [← T.boundary (fun P Q => -(Q - P).1 * segInt (ev2 q) P Q) (fun P Q => by
      rw [segInt_symm _ Q P]
      simp only [Prod.fst_sub]
      ring)]
    congr 1
    refine List.map_congr_left fun v hv => ?_
    rw [abs_of_nonneg (T.ccw v hv)]
    exact gauss_tri_y v q

/-- A polynomial that vanishes on an open box is zero. -/
theorem ev2_zero_of_box (q : MvPolynomial (Fin 2) ℝ) (h : ∀ p : ℝ × ℝ, p.1 ∈ Set.Ioo (0 : ℝ) (1 / 2) → p.2 ∈ Set.Ioo (0 : ℝ) (1 / 2) → ev2 q p = 0) :
    q = 0 := by
  refine MvPolynomial.funext_set (fun _ : Fin 2 => Set.Ioo (0 : ℝ) (1 / 2)) (fun _ => Set.Ioo_infinite (by norm_num)) fun x hx => ?_
  rw [map_zero]
  have := h (x 0, x 1) (hx 0 (Set.mem_univ _)) (hx 1 (Set.mem_univ _))
  have e : x = ![x 0, x 1] := by
    funext i
    fin_cases i <;> rfl
  rw [e]
  exact this

theorem ev2_ext {q r : MvPolynomial (Fin 2) ℝ} (h : ∀ p, ev2 q p = ev2 r p) : q = r := by
  rw [← sub_eq_zero]
  refine ev2_zero_of_box _ fun p _ _ => ?_
  have := h p
  simp only [ev2, map_sub] at this ⊢
  rw [this, sub_self]

/-- A polynomial whose square has integral zero over the reference triangle is zero. -/
theorem zero_of_ref_square (q : MvPolynomial (Fin 2) ℝ) (h : ∫ p in {p : ℝ × ℝ | InTriangle (0, 0) (1, 0) (0, 1) p}, ev2 q p * ev2 q p = 0) : q = 0 := by
  set T : Set (ℝ × ℝ) := {p : ℝ × ℝ | InTriangle (0, 0) (1, 0) (0, 1) p} with hT
  have hc : Continuous fun p => ev2 q p * ev2 q p := (poly2_continuous q).mul (poly2_continuous q)
  have hint : IntegrableOn (fun p => ev2 q p * ev2 q p) T := hc.continuousOn.integrableOn_compact refTriangle_compact
  rw [setIntegral_eq_zero_iff_of_nonneg_ae (Filter.Eventually.of_forall fun p => mul_self_nonneg _) hint] at h
  set U : Set (ℝ × ℝ) := Set.Ioo (0 : ℝ) (1 / 2) ×ˢ Set.Ioo (0 : ℝ) (1 / 2) with hU
  have hUo : IsOpen U := isOpen_Ioo.prod isOpen_Ioo
  have hUT : U ⊆ T := by
    rintro p ⟨⟨h1, h2⟩, h3, h4⟩
    rw [hT, refTriangle]
    exact ⟨h1.le, h3.le, by linarith⟩
  have h' : (fun p => ev2 q p * ev2 q p) =ᵐ[volume.restrict U] fun _ => 0 := ae_restrict_of_ae_restrict_of_subset hUT h
  have h2 := Measure.eqOn_open_of_ae_eq h' hUo hc.continuousOn continuousOn_const
  refine ev2_zero_of_box q fun p hp1 hp2 => ?_
  exact mul_self_eq_zero.1 (h2 ⟨hp1, hp2⟩)

/-- A polynomial whose square has integral zero over a triangle with positive area is zero. -/
theorem zero_of_tri_square (v : Tri2 ℝ) (hv : shoelace v.1 v.2.1 v.2.2 ≠ 0) (q : MvPolynomial (Fin 2) ℝ)
    (h : ∫ p in {p : ℝ × ℝ | InTriangle (0, 0) (1, 0) (0, 1) p}, ev2 q (v.1 + tri2L v p) * ev2 q (v.1 + tri2L v p) = 0) : q = 0 := by
  obtain ⟨q', _, hq'⟩ := poly2_pullback v q
  have h0 : q' = 0 := by
    refine zero_of_ref_square q' (Eq.trans ?_ h)
    have e : (fun p : ℝ × ℝ => ev2 q' p * ev2 q' p) = fun p => ev2 q (v.1 + tri2L v p) * ev2 q (v.1 + tri2L v p) := by
      funext p
      have hp : ev2 q' p = ev2 q (v.1 + tri2L v p) := hq' p
      rw [hp]
    rw [e]
  have hdet : LinearMap.det (tri2L v) ≠ 0 := by
    rw [tri2L_det]
    exact hv
  refine ev2_ext fun p => ?_
  have hsurj : Function.Surjective (tri2L v) := ((LinearEquiv.ofIsUnitDet (f := tri2L v) (v := Module.finBasis ℝ (ℝ × ℝ)) (v' := Module.finBasis ℝ (ℝ × ℝ)) (by
    rw [LinearMap.det_toMatrix]
    exact isUnit_iff_ne_zero.2 hdet)).surjective)
  obtain ⟨y, hy⟩ := hsurj (p - v.1)
  have := hq' y
  rw [h0, hy] at this
  simp only [map_zero, add_sub_cancel] at this
  simp only [ev2, map_zero]
  exact this.symm

/-- A polynomial with vanishing gradient is constant. -/
theorem const_of_grad (q : MvPolynomial (Fin 2) ℝ) (h0 : MvPolynomial.pderiv 0 q = 0) (h1 : MvPolynomial.pderiv 1 q = 0) :
    ∃ a, q = MvPolynomial.C a := by
  refine ⟨ev2 q (0, 0), ev2_ext fun p => ?_⟩
  have hd : ∀ p, HasFDerivAt (ev2 q) (0 : ℝ × ℝ →L[ℝ] ℝ) p := by
    intro p
    have := ev2_hasFDerivAt q p
    rw [h0, h1] at this
    simpa [ev2] using this
  have := is_const_of_fderiv_eq_zero (𝕜 := ℝ) (fun p => (hd p).differentiableAt) (fun p => (hd p).fderiv) p (0, 0)
  rw [this]
  simp [ev2]

end polygon

end PolyDiM
