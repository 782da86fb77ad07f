import Verif.Lemmas.Quadrature
import Mathlib.Algebra.MvPolynomial.Degrees
import Mathlib.Algebra.MvPolynomial.Monad
import Mathlib.MeasureTheory.Function.Jacobian
import Mathlib.MeasureTheory.Constructions.BorelSpace.Real
import Mathlib.MeasureTheory.Measure.Lebesgue.EqHaar
import Mathlib.MeasureTheory.Integral.Bochner.Set
import Mathlib.MeasureTheory.Integral.Prod
import Mathlib.Topology.Algebra.MvPolynomial
import Mathlib.LinearAlgebra.Basis.Fin
import Mathlib.Algebra.Polynomial.BigOperators
import Mathlib.MeasureTheory.Integral.IntervalIntegral.Basic
import Mathlib.Analysis.SpecialFunctions.Integrals.Basic

/-!
# Lemmas: integrals of polynomials over triangles and tetrahedra
-/

namespace PolyDiM

open Spec MeasureTheory

instance haar2 : Measure.IsAddHaarMeasure (volume : Measure (ℝ × ℝ)) := Measure.prod.instIsAddHaarMeasure volume volume

instance haar3 : Measure.IsAddHaarMeasure (volume : Measure (ℝ × ℝ × ℝ)) := Measure.prod.instIsAddHaarMeasure volume volume

theorem totalDegree_aeval_le {σ τ : Type} [Fintype σ] (f : σ → MvPolynomial τ ℝ) (hf : ∀ i, (f i).totalDegree ≤ 1) (q : MvPolynomial σ ℝ) :
    (MvPolynomial.aeval f q).totalDegree ≤ q.totalDegree := by
  rw [MvPolynomial.aeval_def, MvPolynomial.eval₂_eq']
  apply MvPolynomial.totalDegree_finsetSum_le
  intro d hd
  refine (MvPolynomial.totalDegree_mul _ _).trans ?_
  have h1 : (algebraMap ℝ (MvPolynomial τ ℝ) (MvPolynomial.coeff d q)).totalDegree = 0 := MvPolynomial.totalDegree_C _
  rw [h1, zero_add]
  refine (MvPolynomial.totalDegree_finsetProd _ _).trans ?_
  refine le_trans (Finset.sum_le_sum (g := fun i => d i) ?_) ?_
  · intro i _
    refine (MvPolynomial.totalDegree_pow _ _).trans ?_
    calc d i * (f i).totalDegree ≤ d i * 1 := Nat.mul_le_mul_left _ (hf i)
      _ = d i := mul_one _
  · refine le_trans (le_of_eq ?_) (MvPolynomial.le_totalDegree hd)
    rw [Finsupp.sum_fintype _ _ (by simp)]

theorem affine_integral {E : Type} [NormedAddCommGroup E] [NormedSpace ℝ E] [FiniteDimensional ℝ E] [MeasurableSpace E] [BorelSpace E]
    (μ : Measure E) [μ.IsAddHaarMeasure] (c : E) (L : E →ₗ[ℝ] E) (s : Set E) (hs : MeasurableSet s) (g : E → ℝ) :
    ∫ x in (fun p => c + L p) '' s, g x ∂μ = |LinearMap.det L| * ∫ p in s, g (c + L p) ∂μ := by
  by_cases hd : LinearMap.det L = 0
  · have h0 : μ ((fun p => c + L p) '' s) = 0 := by
      have : (fun p => c + L p) '' s = (fun x => c + x) '' (L '' s) := by rw [Set.image_image]
      rw [this, Set.image_add_left, measure_preimage_add, Measure.addHaar_image_linearMap, hd]
      simp
    rw [Measure.restrict_eq_zero.2 h0, hd]
    simp
  · have hinj : Function.Injective L := (LinearMap.equivOfDetNeZero L hd).injective
    have := integral_image_eq_integral_abs_det_fderiv_smul μ hs (f := fun p => c + L p) (f' := fun _ => LinearMap.toContinuousLinearMap L)
      (by
        intro x _
        exact ((LinearMap.toContinuousLinearMap L).hasFDerivAt.const_add c).hasFDerivWithinAt) (by
        intro x _ y _ h
        exact hinj (add_left_cancel h)) g
    rw [this]
    simp only [smul_eq_mul]
    rw [integral_const_mul]
    rfl

/-- The integral over a union of pairwise almost disjoint sets. -/
theorem integral_list_union {E : Type} [MeasurableSpace E] (μ : Measure E) {α : Type} (T : α → Set E) (g : E → ℝ) (l : List α)
    (hm : ∀ a ∈ l, MeasurableSet (T a)) (hi : ∀ a ∈ l, IntegrableOn g (T a) μ) (hd : l.Pairwise fun a b => μ (T a ∩ T b) = 0) :
    IntegrableOn g {p | ∃ a ∈ l, p ∈ T a} μ ∧ MeasurableSet {p | ∃ a ∈ l, p ∈ T a} ∧
      ∫ p in {p | ∃ a ∈ l, p ∈ T a}, g p ∂μ = (l.map fun a => ∫ p in T a, g p ∂μ).sum := by
  induction l with
  | nil => simp
  | cons a l ih =>
    rw [List.pairwise_cons] at hd
    obtain ⟨i1, i2, i3⟩ := ih (fun b hb => hm b (by simp [hb])) (fun b hb => hi b (by simp [hb])) hd.2
    have he : {p | ∃ b ∈ a :: l, p ∈ T b} = T a ∪ {p | ∃ b ∈ l, p ∈ T b} := by
      ext p
      simp
    have hn : μ (T a ∩ {p | ∃ b ∈ l, p ∈ T b}) = 0 := by
      have : T a ∩ {p | ∃ b ∈ l, p ∈ T b} = ⋃ b ∈ {b | b ∈ l}, T a ∩ T b := by
        ext p
        simp
      rw [this, measure_biUnion_null_iff (List.finite_toSet l).countable]
      exact hd.1
    rw [he]
    refine ⟨(hi a (by simp)).union i1, (hm a (by simp)).union i2, ?_⟩
    rw [setIntegral_union₀ hn i2.nullMeasurableSet (hi a (by simp)) i1, i3, List.map_cons, List.sum_cons]

/-- The linear part of the map of a triangle. -/
def tri2L (v : Tri2 ℝ) : ℝ × ℝ →ₗ[ℝ] ℝ × ℝ where
  toFun p := p.1 • (v.2.1 - v.1) + p.2 • (v.2.2 - v.1)
  map_add' p q := by simp only [Prod.fst_add, Prod.snd_add]; module
  map_smul' c p := by simp only [Prod.smul_fst, Prod.smul_snd, smul_eq_mul, RingHom.id_apply]; module

theorem tri2L_det (v : Tri2 ℝ) : LinearMap.det (tri2L v) = shoelace v.1 v.2.1 v.2.2 := by
  rw [← LinearMap.det_toMatrix (Module.Basis.finTwoProd ℝ), Matrix.det_fin_two]
  simp [LinearMap.toMatrix_apply, tri2L, shoelace]
  ring

/-- The space as functions on three indices. -/
def vec3Equiv : (ℝ × ℝ × ℝ) ≃ₗ[ℝ] (Fin 3 → ℝ) where
  toFun p := ![p.1, p.2.1, p.2.2]
  invFun f := (f 0, f 1, f 2)
  map_add' p q := by ext i; fin_cases i <;> rfl
  map_smul' c p := by ext i; fin_cases i <;> rfl
  left_inv p := rfl
  right_inv f := by ext i; fin_cases i <;> rfl

/-- The linear part of the map of a tetrahedron. -/
def tet3L (v : Tet3 ℝ) : ℝ × ℝ × ℝ →ₗ[ℝ] ℝ × ℝ × ℝ where
  toFun p := p.1 • (v.2.1 - v.1) + p.2.1 • (v.2.2.1 - v.1) + p.2.2 • (v.2.2.2 - v.1)
  map_add' p q := by simp only [Prod.fst_add, Prod.snd_add]; module
  map_smul' c p := by simp only [Prod.smul_fst, Prod.smul_snd, smul_eq_mul, RingHom.id_apply]; module

theorem tet3L_det (v : Tet3 ℝ) : |LinearMap.det (tet3L v)| = 6 * tetVolume v.1 v.2.1 v.2.2.1 v.2.2.2 := by
  rw [← LinearMap.det_toMatrix (Module.Basis.ofEquivFun vec3Equiv), Matrix.det_fin_three]
  unfold tetVolume
  dsimp only
  rw [mul_div_cancel₀ _ (by norm_num)]
  congr 1
  have e1 : ∀ x, vec3Equiv x = ![x.1, x.2.1, x.2.2] := fun _ => rfl
  have e2 : ∀ x, vec3Equiv.symm x = (x 0, x 1, x 2) := fun _ => rfl
  simp only [LinearMap.toMatrix_apply, Module.Basis.coe_ofEquivFun, Module.Basis.ofEquivFun_repr_apply, e1, e2]
  simp [tet3L, cross]
  ring

theorem refTriangle : {p : ℝ × ℝ | InTriangle (0, 0) (1, 0) (0, 1) p} = {p | 0 ≤ p.1 ∧ 0 ≤ p.2 ∧ p.1 + p.2 ≤ 1} := by
  ext p
  constructor
  · rintro ⟨a, b, c, ha, hb, hc, hs, rfl⟩
    simp [bary3]
    exact ⟨hb, hc, by linarith⟩
  · rintro ⟨h1, h2, h3⟩
    exact ⟨1 - p.1 - p.2, p.1, p.2, by linarith, h1, h2, by ring, by simp [bary3]⟩

theorem refTetrahedron : {p : ℝ × ℝ × ℝ | InTetrahedron (0, 0, 0) (1, 0, 0) (0, 1, 0) (0, 0, 1) p}
    = {p | 0 ≤ p.1 ∧ 0 ≤ p.2.1 ∧ 0 ≤ p.2.2 ∧ p.1 + p.2.1 + p.2.2 ≤ 1} := by
  ext p
  constructor
  · rintro ⟨a, b, c, d, ha, hb, hc, hd, hs, rfl⟩
    simp
    exact ⟨hb, hc, hd, by linarith⟩
  · rintro ⟨h1, h2, h3, h4⟩
    exact ⟨1 - p.1 - p.2.1 - p.2.2, p.1, p.2.1, p.2.2, by linarith, h1, h2, h3, by ring, by simp⟩

theorem refTriangle_compact : IsCompact {p : ℝ × ℝ | InTriangle (0, 0) (1, 0) (0, 1) p} := by
  rw [refTriangle]
  refine IsCompact.of_isClosed_subset ((isCompact_Icc (a := (0 : ℝ)) (b := 1)).prod (isCompact_Icc (a := (0 : ℝ)) (b := 1))) ?_ ?_
  · exact (isClosed_le continuous_const continuous_fst).inter ((isClosed_le continuous_const continuous_snd).inter
      (isClosed_le (continuous_fst.add continuous_snd) continuous_const))
  · rintro p ⟨h1, h2, h3⟩
    exact ⟨⟨h1, by linarith⟩, ⟨h2, by linarith⟩⟩

theorem refTetrahedron_compact : IsCompact {p : ℝ × ℝ × ℝ | InTetrahedron (0, 0, 0) (1, 0, 0) (0, 1, 0) (0, 0, 1) p} := by
  rw [refTetrahedron]
  refine IsCompact.of_isClosed_subset ((isCompact_Icc (a := (0 : ℝ)) (b := 1)).prod ((isCompact_Icc (a := (0 : ℝ)) (b := 1)).prod
    (isCompact_Icc (a := (0 : ℝ)) (b := 1)))) ?_ ?_
  · have c1 : Continuous fun p : ℝ × ℝ × ℝ => p.2.1 := continuous_fst.comp continuous_snd
    have c2 : Continuous fun p : ℝ × ℝ × ℝ => p.2.2 := continuous_snd.comp continuous_snd
    exact (isClosed_le continuous_const continuous_fst).inter ((isClosed_le continuous_const c1).inter
      ((isClosed_le continuous_const c2).inter (isClosed_le ((continuous_fst.add c1).add c2) continuous_const)))
  · rintro p ⟨h1, h2, h3, h4⟩
    exact ⟨⟨h1, by linarith⟩, ⟨h2, by linarith⟩, ⟨h3, by linarith⟩⟩

theorem triangle_image (v : Tri2 ℝ) : {p : ℝ × ℝ | InTriangle v.1 v.2.1 v.2.2 p}
    = (fun p => v.1 + tri2L v p) '' {p : ℝ × ℝ | InTriangle (0, 0) (1, 0) (0, 1) p} := by
  rw [refTriangle]
  ext p
  constructor
  · rintro ⟨a, b, c, ha, hb, hc, hs, rfl⟩
    refine ⟨(b, c), ⟨hb, hc, by dsimp only; linarith⟩, ?_⟩
    have : a = 1 - b - c := by linarith
    subst this
    simp only [tri2L, bary3, LinearMap.coe_mk, AddHom.coe_mk]
    module
  · rintro ⟨q, ⟨h1, h2, h3⟩, rfl⟩
    refine ⟨1 - q.1 - q.2, q.1, q.2, by linarith, h1, h2, by ring, ?_⟩
    simp only [tri2L, bary3, LinearMap.coe_mk, AddHom.coe_mk]
    module

theorem tetrahedron_image (v : Tet3 ℝ) : {p : ℝ × ℝ × ℝ | InTetrahedron v.1 v.2.1 v.2.2.1 v.2.2.2 p}
    = (fun p => v.1 + tet3L v p) '' {p : ℝ × ℝ × ℝ | InTetrahedron (0, 0, 0) (1, 0, 0) (0, 1, 0) (0, 0, 1) p} := by
  rw [refTetrahedron]
  ext p
  constructor
  · rintro ⟨a, b, c, d, ha, hb, hc, hd, hs, rfl⟩
    refine ⟨(b, c, d), ⟨hb, hc, hd, by dsimp only; linarith⟩, ?_⟩
    have : a = 1 - b - c - d := by linarith
    subst this
    simp only [tet3L, LinearMap.coe_mk, AddHom.coe_mk]
    module
  · rintro ⟨q, ⟨h1, h2, h3, h4⟩, rfl⟩
    refine ⟨1 - q.1 - q.2.1 - q.2.2, q.1, q.2.1, q.2.2, by linarith, h1, h2, h3, by ring, ?_⟩
    simp only [tet3L, LinearMap.coe_mk, AddHom.coe_mk]
    module

theorem triangle_compact (v : Tri2 ℝ) : IsCompact {p : ℝ × ℝ | InTriangle v.1 v.2.1 v.2.2 p} := by
  rw [triangle_image]
  exact refTriangle_compact.image (continuous_const.add (tri2L v).continuous_of_finiteDimensional)

theorem tetrahedron_compact (v : Tet3 ℝ) : IsCompact {p : ℝ × ℝ × ℝ | InTetrahedron v.1 v.2.1 v.2.2.1 v.2.2.2 p} := by
  rw [tetrahedron_image]
  exact refTetrahedron_compact.image (continuous_const.add (tet3L v).continuous_of_finiteDimensional)

theorem poly2_continuous (q : MvPolynomial (Fin 2) ℝ) : Continuous fun p : ℝ × ℝ => MvPolynomial.eval ![p.1, p.2] q := by
  refine (MvPolynomial.continuous_eval q).comp (continuous_pi fun i => ?_)
  fin_cases i
  · exact continuous_fst
  · exact continuous_snd

theorem poly3_continuous (q : MvPolynomial (Fin 3) ℝ) : Continuous fun p : ℝ × ℝ × ℝ => MvPolynomial.eval ![p.1, p.2.1, p.2.2] q := by
  refine (MvPolynomial.continuous_eval q).comp (continuous_pi fun i => ?_)
  fin_cases i
  · exact continuous_fst
  · exact continuous_fst.comp continuous_snd
  · exact continuous_snd.comp continuous_snd

/-- An affine function of two variables as polynomial. -/
noncomputable def aff2 (a b c : ℝ) : MvPolynomial (Fin 2) ℝ := MvPolynomial.C a + MvPolynomial.C b * MvPolynomial.X 0 + MvPolynomial.C c * MvPolynomial.X 1

/-- An affine function of three variables as polynomial. -/
noncomputable def aff3 (a b c d : ℝ) : MvPolynomial (Fin 3) ℝ :=
  MvPolynomial.C a + MvPolynomial.C b * MvPolynomial.X 0 + MvPolynomial.C c * MvPolynomial.X 1 + MvPolynomial.C d * MvPolynomial.X 2

theorem deg_CX {σ : Type} (a : ℝ) (i : σ) : (MvPolynomial.C a * MvPolynomial.X i : MvPolynomial σ ℝ).totalDegree ≤ 1 := by
  refine (MvPolynomial.totalDegree_mul _ _).trans ?_
  rw [MvPolynomial.totalDegree_C, MvPolynomial.totalDegree_X]

theorem aff2_deg (a b c : ℝ) : (aff2 a b c).totalDegree ≤ 1 := by
  refine (MvPolynomial.totalDegree_add _ _).trans (max_le ((MvPolynomial.totalDegree_add _ _).trans (max_le ?_ (deg_CX _ _))) (deg_CX _ _))
  rw [MvPolynomial.totalDegree_C]
  exact Nat.zero_le _

theorem aff3_deg (a b c d : ℝ) : (aff3 a b c d).totalDegree ≤ 1 := by
  refine (MvPolynomial.totalDegree_add _ _).trans (max_le ((MvPolynomial.totalDegree_add _ _).trans
    (max_le ((MvPolynomial.totalDegree_add _ _).trans (max_le ?_ (deg_CX _ _))) (deg_CX _ _))) (deg_CX _ _))
  rw [MvPolynomial.totalDegree_C]
  exact Nat.zero_le _

/-- A polynomial after the map of a triangle is a polynomial of no larger degree. -/
theorem poly2_pullback (v : Tri2 ℝ) (q : MvPolynomial (Fin 2) ℝ) : ∃ q' : MvPolynomial (Fin 2) ℝ, q'.totalDegree ≤ q.totalDegree ∧
    ∀ p : ℝ × ℝ, MvPolynomial.eval ![p.1, p.2] q' = MvPolynomial.eval ![(v.1 + tri2L v p).1, (v.1 + tri2L v p).2] q := by
  refine ⟨MvPolynomial.aeval ![aff2 v.1.1 (v.2.1 - v.1).1 (v.2.2 - v.1).1, aff2 v.1.2 (v.2.1 - v.1).2 (v.2.2 - v.1).2] q,
    totalDegree_aeval_le _ ?_ q, ?_⟩
  · intro i
    fin_cases i
    · exact aff2_deg _ _ _
    · exact aff2_deg _ _ _
  · intro p
    rw [MvPolynomial.aeval_def, MvPolynomial.eval_eval₂]
    have h1 : (MvPolynomial.eval ![p.1, p.2]).comp (algebraMap ℝ (MvPolynomial (Fin 2) ℝ)) = RingHom.id ℝ := by
      ext x
      exact MvPolynomial.eval_C x
    rw [h1]
    unfold MvPolynomial.eval
    rw [MvPolynomial.coe_eval₂Hom]
    congr 1
    ext i
    fin_cases i <;> simp [aff2, tri2L] <;> ring

/-- A polynomial after the map of a tetrahedron is a polynomial of no larger degree. -/
theorem poly3_pullback (v : Tet3 ℝ) (q : MvPolynomial (Fin 3) ℝ) : ∃ q' : MvPolynomial (Fin 3) ℝ, q'.totalDegree ≤ q.totalDegree ∧
    ∀ p : ℝ × ℝ × ℝ, MvPolynomial.eval ![p.1, p.2.1, p.2.2] q'
      = MvPolynomial.eval ![(v.1 + tet3L v p).1, (v.1 + tet3L v p).2.1, (v.1 + tet3L v p).2.2] q := by
  refine ⟨MvPolynomial.aeval ![aff3 v.1.1 (v.2.1 - v.1).1 (v.2.2.1 - v.1).1 (v.2.2.2 - v.1).1,
    aff3 v.1.2.1 (v.2.1 - v.1).2.1 (v.2.2.1 - v.1).2.1 (v.2.2.2 - v.1).2.1,
    aff3 v.1.2.2 (v.2.1 - v.1).2.2 (v.2.2.1 - v.1).2.2 (v.2.2.2 - v.1).2.2] q, totalDegree_aeval_le _ ?_ q, ?_⟩
  · intro i
    fin_cases i
    · exact aff3_deg _ _ _ _
    · exact aff3_deg _ _ _ _
    · exact aff3_deg _ _ _ _
  · intro p
    rw [MvPolynomial.aeval_def, MvPolynomial.eval_eval₂]
    have h1 : (MvPolynomial.eval ![p.1, p.2.1, p.2.2]).comp (algebraMap ℝ (MvPolynomial (Fin 3) ℝ)) = RingHom.id ℝ := by
      ext x
      exact MvPolynomial.eval_C x
    rw [h1]
    unfold MvPolynomial.eval
    rw [MvPolynomial.coe_eval₂Hom]
    congr 1
    ext i
    fin_cases i <;> simp [aff3, tet3L] <;> ring

/-- A polynomial along a segment is a polynomial of no larger degree. -/
theorem poly1_pullback (P Q : ℝ × ℝ) (q : MvPolynomial (Fin 2) ℝ) : ∃ q' : Polynomial ℝ, q'.natDegree ≤ q.totalDegree ∧
    ∀ t : ℝ, q'.eval t = MvPolynomial.eval ![(segPoint P Q t).1, (segPoint P Q t).2] q := by
  let f : Fin 2 → Polynomial ℝ := ![Polynomial.C (Q.1 - P.1) * Polynomial.X + Polynomial.C P.1,
    Polynomial.C (Q.2 - P.2) * Polynomial.X + Polynomial.C P.2]
  have hf : ∀ i, (f i).natDegree ≤ 1 := by
    intro i
    fin_cases i <;> exact Polynomial.natDegree_linear_le
  refine ⟨MvPolynomial.aeval f q, ?_, ?_⟩
  · rw [MvPolynomial.aeval_def, MvPolynomial.eval₂_eq']
    apply Polynomial.natDegree_sum_le_of_forall_le
    intro d hd
    refine Polynomial.natDegree_mul_le.trans ?_
    have h1 : (algebraMap ℝ (Polynomial ℝ) (MvPolynomial.coeff d q)).natDegree = 0 := Polynomial.natDegree_C _
    rw [h1, zero_add]
    refine (Polynomial.natDegree_prod_le _ _).trans ?_
    refine le_trans (Finset.sum_le_sum (g := fun i => d i) ?_) ?_
    · intro i _
      refine Polynomial.natDegree_pow_le.trans ?_
      calc d i * (f i).natDegree ≤ d i * 1 := Nat.mul_le_mul_left _ (hf i)
        _ = d i := mul_one _
    · refine le_trans (le_of_eq ?_) (MvPolynomial.le_totalDegree hd)
      rw [Finsupp.sum_fintype _ _ (by simp)]
  · intro t
    rw [MvPolynomial.aeval_def, ← Polynomial.coe_evalRingHom, MvPolynomial.hom_eval₂]
    have h1 : (Polynomial.evalRingHom t).comp (algebraMap ℝ (Polynomial ℝ)) = RingHom.id ℝ := by
      ext x
      simp
    rw [h1]
    unfold MvPolynomial.eval
    rw [MvPolynomial.coe_eval₂Hom]
    congr 1
    ext i
    fin_cases i <;> simp [f, segPoint] <;> ring

/-- The integral over the reference triangle as iterated integral. -/
theorem refTriangle_integral (f : ℝ × ℝ → ℝ) (hf : Continuous f) :
    ∫ p in {p : ℝ × ℝ | InTriangle (0, 0) (1, 0) (0, 1) p}, f p = ∫ x in (0 : ℝ)..1, ∫ y in (0 : ℝ)..(1 - x), f (x, y) := by
  have hm := refTriangle_compact.measurableSet
  have hi : IntegrableOn f {p : ℝ × ℝ | InTriangle (0, 0) (1, 0) (0, 1) p} := hf.continuousOn.integrableOn_compact refTriangle_compact
  rw [← integral_indicator hm, Measure.volume_eq_prod, integral_prod _ ((integrable_indicator_iff hm).2 hi),
    intervalIntegral.integral_of_le zero_le_one, ← integral_Icc_eq_integral_Ioc, ← integral_indicator measurableSet_Icc]
  congr 1
  funext x
  rw [refTriangle]
  by_cases hx : x ∈ Set.Icc (0 : ℝ) 1
  · rw [Set.indicator_of_mem hx, intervalIntegral.integral_of_le (by linarith [hx.2]), ← integral_Icc_eq_integral_Ioc,
      ← integral_indicator measurableSet_Icc]
    congr 1
    funext y
    by_cases hy : y ∈ Set.Icc (0 : ℝ) (1 - x)
    · rw [Set.indicator_of_mem hy]
      apply Set.indicator_of_mem
      exact ⟨hx.1, hy.1, by dsimp only; linarith [hy.2]⟩
    · rw [Set.indicator_of_notMem hy, Set.indicator_of_notMem]
      rintro ⟨h1, h2, h3⟩
      dsimp only at h1 h2 h3
      exact hy ⟨h2, by linarith⟩
  · rw [Set.indicator_of_notMem hx]
    have : (fun y => Set.indicator {p : ℝ × ℝ | 0 ≤ p.1 ∧ 0 ≤ p.2 ∧ p.1 + p.2 ≤ 1} f (x, y)) = fun _ => 0 := by
      funext y
      apply Set.indicator_of_notMem
      rintro ⟨h1, h2, h3⟩
      dsimp only at h1 h2 h3
      exact hx ⟨h1, by linarith⟩
    rw [this]
    simp

/-- The rule with the midpoint of the reference triangle is exact for polynomials of degree one. -/
theorem centroid_exact (q : MvPolynomial (Fin 2) ℝ) (hq : q.totalDegree ≤ 1) :
    quadSum [((1 / 3 : ℝ), (1 / 3 : ℝ))] [(1 / 2 : ℝ)] (fun p => MvPolynomial.eval ![p.1, p.2] q)
      = ∫ p in {p : ℝ × ℝ | InTriangle (0, 0) (1, 0) (0, 1) p}, MvPolynomial.eval ![p.1, p.2] q := by
  rw [refTriangle_integral _ (poly2_continuous q)]
  have hlin : ∃ a b c : ℝ, ∀ x y : ℝ, MvPolynomial.eval ![x, y] q = a + b * x + c * y := by
    have key : ∀ s : Finset (Fin 2 →₀ ℕ), (∀ d ∈ s, d 0 + d 1 ≤ 1) → ∃ a b c : ℝ, ∀ x y : ℝ,
        ∑ d ∈ s, MvPolynomial.coeff d q * ∏ i, ![x, y] i ^ d i = a + b * x + c * y := by
      intro s
      induction s using Finset.induction_on with
      | empty => exact fun _ => ⟨0, 0, 0, by simp⟩
      | insert d s hd ih =>
        intro h
        obtain ⟨a, b, c, hs⟩ := ih fun d' hd' => h d' (Finset.mem_insert_of_mem hd')
        have h1 := h d (Finset.mem_insert_self _ _)
        have h2 : (d 0 = 0 ∧ d 1 = 0) ∨ (d 0 = 1 ∧ d 1 = 0) ∨ (d 0 = 0 ∧ d 1 = 1) := by omega
        rcases h2 with ⟨h3, h4⟩ | ⟨h3, h4⟩ | ⟨h3, h4⟩
        · refine ⟨a + MvPolynomial.coeff d q, b, c, fun x y => ?_⟩
          rw [Finset.sum_insert hd, hs, Fin.prod_univ_two, h3, h4]
          simp
          ring
        · refine ⟨a, b + MvPolynomial.coeff d q, c, fun x y => ?_⟩
          rw [Finset.sum_insert hd, hs, Fin.prod_univ_two, h3, h4]
          simp
          ring
        · refine ⟨a, b, c + MvPolynomial.coeff d q, fun x y => ?_⟩
          rw [Finset.sum_insert hd, hs, Fin.prod_univ_two, h3, h4]
          simp
          ring
    obtain ⟨a, b, c, h⟩ := key q.support (by
      intro d hd
      have := MvPolynomial.le_totalDegree hd
      rw [Finsupp.sum_fintype _ _ (by simp), Fin.sum_univ_two] at this
      omega)
    refine ⟨a, b, c, fun x y => ?_⟩
    rw [MvPolynomial.eval_eq', h]
  obtain ⟨a, b, c, h⟩ := hlin
  simp only [h]
  have hin : ∀ x : ℝ, ∫ y in (0 : ℝ)..(1 - x), (a + b * x + c * y) = (a + b * x) * (1 - x) + c * ((1 - x) ^ 2 / 2) := by
    intro x
    rw [intervalIntegral.integral_add, intervalIntegral.integral_const, intervalIntegral.integral_const_mul, integral_id]
    · simp
      ring
    all_goals exact Continuous.intervalIntegrable (by fun_prop) _ _
  simp only [hin]
  have hout : (fun x : ℝ => (a + b * x) * (1 - x) + c * ((1 - x) ^ 2 / 2)) = fun x => (a + c / 2) + (b - a - c) * x + (c / 2 - b) * x ^ 2 := by
    funext x
    ring
  rw [hout, intervalIntegral.integral_add, intervalIntegral.integral_add, intervalIntegral.integral_const, intervalIntegral.integral_const_mul,
    intervalIntegral.integral_const_mul, integral_id, integral_pow]
  · simp [quadSum]
    ring
  all_goals exact Continuous.intervalIntegrable (by fun_prop) _ _

end PolyDiM
