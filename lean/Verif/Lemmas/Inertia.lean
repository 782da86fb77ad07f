import Verif.Model.Inertia
import Verif.Spec.Inertia
import Verif.Lemmas.Exactness
import Mathlib.LinearAlgebra.Matrix.NonsingularInverse
import Mathlib.MeasureTheory.Measure.Lebesgue.EqHaar
import Mathlib.Analysis.Matrix.Spectrum
import Mathlib.Tactic.FieldSimp
import Mathlib.Tactic.Ring

/-!
# Lemmas: inertia maps
-/

namespace PolyDiM

open Matrix Spec MeasureTheory

section
variable {K : Type} [Field K] {n : Nat}

theorem inertia_right {s : Fin n → K} {Q : Matrix (Fin n) (Fin n) K} {m : K} (hQ : Q.transpose * Q = 1) (hs : ∀ i, s i ≠ 0) (hm : m ≠ 0) :
    inertiaB s Q m * inertiaBInv s Q m = 1 := by
  unfold inertiaB inertiaBInv
  rw [Matrix.smul_mul, Matrix.mul_smul, smul_smul, mul_one_div_cancel hm, one_smul, Matrix.mul_assoc, ← Matrix.mul_assoc Q.transpose, hQ, Matrix.one_mul,
    diagonal_mul_diagonal, ← diagonal_one]
  congr 1
  funext i
  exact one_div_mul_cancel (hs i)

theorem inertia_left {s : Fin n → K} {Q : Matrix (Fin n) (Fin n) K} {m : K} (hQ : Q.transpose * Q = 1) (hs : ∀ i, s i ≠ 0) (hm : m ≠ 0) :
    inertiaBInv s Q m * inertiaB s Q m = 1 := mul_eq_one_comm.1 (inertia_right hQ hs hm)

theorem inertia_iso {s lam : Fin n → K} {H Q : Matrix (Fin n) (Fin n) K} {m : K} (h : IsSpectral H lam Q) (hs : ∀ i, s i ≠ 0) (hl : ∀ i, s i * s i = lam i) :
    inertiaB s Q m * H * (inertiaB s Q m).transpose = (m * m) • (1 : Matrix (Fin n) (Fin n) K) := by
  obtain ⟨hQ, rfl⟩ := h
  unfold inertiaB
  rw [transpose_smul, transpose_mul, transpose_transpose, diagonal_transpose]
  simp only [Matrix.smul_mul, Matrix.mul_smul, smul_smul]
  congr 1
  have : diagonal (fun i => 1 / s i) * Q.transpose * (Q * diagonal lam * Q.transpose) * (Q * diagonal fun i => 1 / s i)
      = diagonal (fun i => 1 / s i) * (Q.transpose * Q) * diagonal lam * (Q.transpose * Q) * diagonal fun i => 1 / s i := by
    simp only [Matrix.mul_assoc]
  rw [this, hQ, Matrix.mul_one, Matrix.mul_one, diagonal_mul_diagonal, diagonal_mul_diagonal, ← diagonal_one]
  congr 1
  funext i
  rw [← hl i]
  have := hs i
  field_simp

end

section
variable {K : Type} [Field K] [LinearOrder K] [IsStrictOrderedRing K] {n : Nat}

theorem eig_pos {lam : Fin n → K} {H Q : Matrix (Fin n) (Fin n) K} (h : IsSpectral H lam Q) (hp : IsPosDef H) (k : Fin n) : 0 < lam k := by
  obtain ⟨hQ, hH⟩ := h
  have hx : (fun i => Q i k) ≠ 0 := by
    intro h0
    have := congrFun (congrFun hQ k) k
    rw [Matrix.mul_apply, one_apply_eq] at this
    simp only [transpose_apply] at this
    have h1 : ∀ i, Q i k = 0 := fun i => congrFun h0 i
    simp [h1] at this
  have := hp.2 _ hx
  have e : ∑ i, ∑ j, Q i k * (H i j * Q j k) = (Q.transpose * H * Q) k k := by
    rw [Matrix.mul_assoc, Matrix.mul_apply]
    refine Finset.sum_congr rfl fun i _ => ?_
    rw [transpose_apply, Matrix.mul_apply, Finset.mul_sum]
  rw [e, hH] at this
  have e2 : Q.transpose * (Q * diagonal lam * Q.transpose) * Q = (Q.transpose * Q) * diagonal lam * (Q.transpose * Q) := by simp only [Matrix.mul_assoc]
  rw [e2, hQ, Matrix.one_mul, Matrix.mul_one, diagonal_apply_eq] at this
  exact this

theorem inertiaAbs_eq (x : K) : inertiaAbs x = |x| := by
  unfold inertiaAbs
  split_ifs with h
  · rw [abs_of_nonneg h]
  · rw [abs_of_neg (not_le.1 h)]

end

/-- Second moments of the image of a set. -/
theorem moment_map {n : Nat} (A : Matrix (Fin n) (Fin n) ℝ) (c : Fin n → ℝ) (E : Set (Fin n → ℝ)) (hE : IsCompact E) :
    (fun i j => secondMoment ((fun x => A.mulVec (x - c)) '' E) 0 i j) = |A.det| • (A * (Matrix.of (secondMoment E c)) * A.transpose) := by
  funext i j
  have e : (fun x => A.mulVec (x - c)) = fun x => (-(A.mulVec c)) + (Matrix.toLin' A) x := by
    funext x
    rw [Matrix.toLin'_apply, Matrix.mulVec_sub]
    abel
  unfold secondMoment
  rw [e, affine_integral volume _ _ _ hE.measurableSet, LinearMap.det_toLin', Matrix.smul_apply, smul_eq_mul]
  congr 1
  have hi : ∀ k l : Fin n, IntegrableOn (fun x : Fin n → ℝ => (x k - c k) * (x l - c l)) E := fun k l =>
    (Continuous.continuousOn (by fun_prop)).integrableOn_compact hE
  have h1 : ∀ x : Fin n → ℝ, ((-(A.mulVec c) + (Matrix.toLin' A) x) i - (0 : Fin n → ℝ) i) * ((-(A.mulVec c) + (Matrix.toLin' A) x) j - (0 : Fin n → ℝ) j)
      = ∑ k, ∑ l, A i k * A j l * ((x k - c k) * (x l - c l)) := by
    intro x
    have h2 : ∀ i, (-(A.mulVec c) + (Matrix.toLin' A) x) i - (0 : Fin n → ℝ) i = ∑ k, A i k * (x k - c k) := by
      intro i
      rw [Matrix.toLin'_apply, Pi.add_apply, Pi.neg_apply, Pi.zero_apply, sub_zero]
      simp only [Matrix.mulVec, dotProduct, mul_sub, Finset.sum_sub_distrib]
      ring
    rw [h2, h2, Finset.sum_mul_sum]
    exact Finset.sum_congr rfl fun k _ => Finset.sum_congr rfl fun l _ => by ring
  simp only [h1]
  rw [integral_finsetSum _ fun k _ => integrable_finsetSum _ fun l _ => (hi k l).const_mul _, Matrix.mul_apply]
  simp only [Matrix.mul_apply, transpose_apply, Finset.sum_mul]
  rw [Finset.sum_comm]
  refine Finset.sum_congr rfl fun k _ => ?_
  rw [integral_finsetSum _ fun l _ => (hi k l).const_mul _]
  refine Finset.sum_congr rfl fun l _ => ?_
  rw [integral_const_mul]
  simp only [Matrix.of_apply]
  ring

/-- Second moments of a rescaled set. -/
theorem moment_scaled {n : Nat} (d : ℝ) (c : Fin n → ℝ) (E : Set (Fin n → ℝ)) (hE : IsCompact E) :
    Matrix.of (secondMoment ((fun x => (1 / d) • x) '' E) fun i => c i / d) = (|(1 / d) ^ n| * (1 / d * (1 / d))) • Matrix.of (secondMoment E c) := by
  funext i j
  have e : (fun x : Fin n → ℝ => (1 / d) • x) = fun x => 0 + ((1 / d) • (LinearMap.id : (Fin n → ℝ) →ₗ[ℝ] Fin n → ℝ)) x := by
    funext x
    simp
  rw [Matrix.smul_apply, Matrix.of_apply, Matrix.of_apply, smul_eq_mul]
  unfold secondMoment
  rw [e, affine_integral volume _ _ _ hE.measurableSet, LinearMap.det_smul, LinearMap.det_id, Module.finrank_fin_fun, mul_one, mul_assoc]
  congr 1
  rw [← integral_const_mul]
  congr 1
  funext x
  simp
  ring

/-- Moments of a set of positive measure are positive definite. -/
theorem moment_posDef {n : Nat} (c : Fin n → ℝ) (E : Set (Fin n → ℝ)) (hE : IsCompact E) (hv : 0 < volume E) : IsPosDef (Matrix.of (secondMoment E c)) := by
  refine ⟨?_, fun x hx => ?_⟩
  · funext i j
    rw [transpose_apply, Matrix.of_apply, Matrix.of_apply]
    unfold secondMoment
    congr 1
    funext y
    ring
  have hi : ∀ k l : Fin n, IntegrableOn (fun x : Fin n → ℝ => (x k - c k) * (x l - c l)) E := fun k l =>
    (Continuous.continuousOn (by fun_prop)).integrableOn_compact hE
  have e : ∑ i, ∑ j, x i * (Matrix.of (secondMoment E c) i j * x j) = ∫ y in E, (∑ i, x i * (y i - c i)) ^ 2 := by
    have h1 : ∀ y : Fin n → ℝ, (∑ i, x i * (y i - c i)) ^ 2 = ∑ k, ∑ l, x k * x l * ((y k - c k) * (y l - c l)) := by
      intro y
      rw [sq, Finset.sum_mul_sum]
      exact Finset.sum_congr rfl fun k _ => Finset.sum_congr rfl fun l _ => by ring
    simp only [h1]
    rw [integral_finsetSum _ fun k _ => integrable_finsetSum _ fun l _ => (hi k l).const_mul _]
    refine Finset.sum_congr rfl fun k _ => ?_
    rw [integral_finsetSum _ fun l _ => (hi k l).const_mul _]
    refine Finset.sum_congr rfl fun l _ => ?_
    rw [integral_const_mul, Matrix.of_apply]
    unfold secondMoment
    ring
  rw [e]
  have hc : Continuous fun y : Fin n → ℝ => (∑ i, x i * (y i - c i)) ^ 2 := by fun_prop
  rw [setIntegral_pos_iff_support_of_nonneg_ae (Filter.Eventually.of_forall fun y => sq_nonneg _) (hc.continuousOn.integrableOn_compact hE)]
  by_contra h
  have h0 : volume ((Function.support fun y : Fin n → ℝ => (∑ i, x i * (y i - c i)) ^ 2) ∩ E) = 0 := by simpa using h
  obtain ⟨k, hk⟩ : ∃ k, x k ≠ 0 := by
    by_contra h'
    push Not at h'
    exact hx (funext h')
  have hz : volume {y : Fin n → ℝ | ∑ i, x i * (y i - c i) = 0} = 0 := by
    have hs : {y : Fin n → ℝ | ∑ i, x i * (y i - c i) = 0} = (fun y => (-c) + y) ⁻¹' ((LinearMap.ker (∑ i, x i • (LinearMap.proj i : (Fin n → ℝ) →ₗ[ℝ] ℝ)) : Submodule ℝ (Fin n → ℝ)) : Set (Fin n → ℝ)) := by
      ext y
      simp only [Set.mem_ofPred_eq, Set.mem_preimage, SetLike.mem_coe, LinearMap.mem_ker, LinearMap.sum_apply, LinearMap.smul_apply, LinearMap.proj_apply,
        smul_eq_mul, Pi.add_apply, Pi.neg_apply]
      rw [Finset.sum_congr rfl fun i _ => by rw [sub_eq_neg_add]]
    rw [hs, measure_preimage_add]
    refine Measure.addHaar_submodule _ _ fun ht => hk ?_
    have : (Pi.single k 1 : Fin n → ℝ) ∈ LinearMap.ker (∑ i, x i • (LinearMap.proj i : (Fin n → ℝ) →ₗ[ℝ] ℝ)) := by
      rw [ht]
      trivial
    simpa [LinearMap.mem_ker, LinearMap.sum_apply, Pi.single_apply] using this
  have : volume E ≤ 0 := by
    calc volume E ≤ volume (((Function.support fun y : Fin n → ℝ => (∑ i, x i * (y i - c i)) ^ 2) ∩ E) ∪ {y : Fin n → ℝ | ∑ i, x i * (y i - c i) = 0}) := by
          refine measure_mono fun y hy => ?_
          by_cases h : ∑ i, x i * (y i - c i) = 0
          · exact Or.inr h
          · exact Or.inl ⟨by simpa using h, hy⟩
      _ ≤ _ := measure_union_le _ _
      _ = 0 := by rw [h0, hz, add_zero]
  exact absurd hv (not_lt.2 this)

/-- A matrix that turns the moments of the rescaled set into a multiple of the identity makes the mapped set isotropic. -/
theorem isotropic {n : Nat} (d : ℝ) (hd : 0 < d) (c : Fin n → ℝ) (E : Set (Fin n → ℝ)) (hE : IsCompact E) (B : Matrix (Fin n) (Fin n) ℝ) (hB : B.det ≠ 0) (m r : ℝ)
    (hm : 0 < m) (hr : r ≠ 0)
    (h : B * Matrix.of (secondMoment ((fun x => (1 / d) • x) '' E) fun i => c i / d) * B.transpose = (m * m) • (1 : Matrix (Fin n) (Fin n) ℝ)) :
    ∃ μ, 0 < μ ∧ ∀ i j, secondMoment ((fun x => (r • B).mulVec (x - c)) '' E) 0 i j = if i = j then μ else 0 := by
  rw [moment_scaled d c E hE, Matrix.mul_smul, Matrix.smul_mul] at h
  set κ := |(1 / d) ^ n| * (1 / d * (1 / d)) with hκ
  have hκ0 : 0 < κ := by positivity
  have h1 : B * Matrix.of (secondMoment E c) * B.transpose = (m * m / κ) • (1 : Matrix (Fin n) (Fin n) ℝ) := by
    have := congrArg (fun M => (1 / κ) • M) h
    simp only [smul_smul] at this
    rw [one_div_mul_cancel hκ0.ne', one_smul, one_div_mul_eq_div] at this
    exact this
  refine ⟨|(r • B).det| * (r * (r * (m * m / κ))), ?_, fun i j => ?_⟩
  · have h2 : 0 < |(r • B).det| := by
      rw [Matrix.det_smul]
      exact abs_pos.2 (mul_ne_zero (pow_ne_zero _ hr) hB)
    have h3 : 0 < r * (r * (m * m / κ)) := by
      rw [← mul_assoc]
      have := mul_self_pos.2 hr
      positivity
    positivity
  · have := congrFun (congrFun (moment_map (r • B) c E hE) i) j
    rw [this, transpose_smul, Matrix.smul_mul, Matrix.smul_mul, Matrix.mul_smul, h1]
    simp only [Matrix.smul_apply, smul_eq_mul, Matrix.one_apply]
    split_ifs <;> ring

/-- The first moments of the mapped set. -/
theorem first_moment {n : Nat} (A : Matrix (Fin n) (Fin n) ℝ) (c : Fin n → ℝ) (E : Set (Fin n → ℝ)) (hE : IsCompact E) (h : ∀ i, ∫ x in E, (x i - c i) = 0) (i : Fin n) :
    ∫ y in (fun x => A.mulVec (x - c)) '' E, y i = 0 := by
  have e : (fun x => A.mulVec (x - c)) = fun x => (-(A.mulVec c)) + (Matrix.toLin' A) x := by
    funext x
    rw [Matrix.toLin'_apply, Matrix.mulVec_sub]
    abel
  rw [e, affine_integral volume _ _ _ hE.measurableSet]
  have h2 : ∀ x : Fin n → ℝ, (-(A.mulVec c) + (Matrix.toLin' A) x) i = ∑ k, A i k * (x k - c k) := by
    intro x
    rw [Matrix.toLin'_apply, Pi.add_apply, Pi.neg_apply]
    simp only [Matrix.mulVec, dotProduct, mul_sub, Finset.sum_sub_distrib]
    ring
  simp only [h2]
  rw [integral_finsetSum _ fun k _ => (((Continuous.continuousOn (by fun_prop)).integrableOn_compact hE : IntegrableOn (fun x : Fin n → ℝ => x k - c k) E volume)).const_mul _]
  rw [Finset.sum_eq_zero fun k _ => by rw [integral_const_mul, h k, mul_zero], mul_zero]

end PolyDiM
