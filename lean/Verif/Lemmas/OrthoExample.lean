import Verif.Lemmas.OrthoSpace
import Verif.Lemmas.VemMccExample
import Mathlib.Analysis.InnerProductSpace.GramSchmidtOrtho
import Mathlib.Analysis.InnerProductSpace.PiL2

/-!
# Lemmas: an element for the space with an orthonormal basis
-/

namespace PolyDiM

open Spec MvPolynomial InnerProductSpace

theorem exists_qr (A : DMat ℝ) (hA : IndependentCols A) : ∃ Q R, IsThinQR A Q R := by
  classical
  let f : Fin A.cols → EuclideanSpace ℝ (Fin A.rows) := fun j => WithLp.toLp 2 fun i => A.ent i j
  have hf : LinearIndependent ℝ f := by
    rw [Fintype.linearIndependent_iff]
    intro g hg j
    have := hA (fun j => if h : j < A.cols then g ⟨j, h⟩ else 0) (by
      intro i hi
      have h1 := congrArg (fun x : EuclideanSpace ℝ (Fin A.rows) => x ⟨i, hi⟩) hg
      simp only [f, WithLp.ofLp_sum, WithLp.ofLp_smul, Finset.sum_apply, Pi.smul_apply, smul_eq_mul, PiLp.zero_apply] at h1
      rw [← h1, Finset.sum_range]
      refine Finset.sum_congr rfl fun j _ => ?_
      rw [dif_pos j.2, mul_comm]) j j.2
    simpa using this
  have hne : ∀ i, gramSchmidt ℝ f i ≠ 0 := fun i => gramSchmidt_ne_zero i hf
  have hort := gramSchmidtNormed_orthonormal hf
  refine ⟨⟨A.rows, A.cols, fun i j => if h : i < A.rows ∧ j < A.cols then gramSchmidtNormed ℝ f ⟨j, h.2⟩ ⟨i, h.1⟩ else 0⟩,
    ⟨A.cols, A.cols, fun i j => if h : i < A.cols ∧ j < A.cols then
      if i < j then ⟪gramSchmidt ℝ f ⟨i, h.1⟩, f ⟨j, h.2⟩⟫_ℝ / ‖gramSchmidt ℝ f ⟨i, h.1⟩‖ else if i = j then ‖gramSchmidt ℝ f ⟨i, h.1⟩‖ else 0 else 0⟩,
    rfl, rfl, rfl, rfl, ?_, ?_, ?_⟩
  · intro i hi j hj
    dsimp only
    have h1 := congrArg (fun x : EuclideanSpace ℝ (Fin A.rows) => x ⟨i, hi⟩) (gramSchmidt_def'' ℝ f ⟨j, hj⟩)
    simp only [f, WithLp.ofLp_add, WithLp.ofLp_sum, WithLp.ofLp_smul, Finset.sum_apply, Pi.add_apply, Pi.smul_apply, smul_eq_mul] at h1
    rw [h1, Finset.sum_range]
    have hterm : ∀ x : Fin A.cols,
        ((if h : i < A.rows ∧ (x : ℕ) < A.cols then gramSchmidtNormed ℝ f ⟨x, h.2⟩ ⟨i, h.1⟩ else 0) *
          if h : (x : ℕ) < A.cols ∧ j < A.cols then
            if (x : ℕ) < j then ⟪gramSchmidt ℝ f ⟨x, h.1⟩, f ⟨j, h.2⟩⟫_ℝ / ‖gramSchmidt ℝ f ⟨x, h.1⟩‖
            else if (x : ℕ) = j then ‖gramSchmidt ℝ f ⟨x, h.1⟩‖ else 0 else 0) =
        (if x = ⟨j, hj⟩ then gramSchmidt ℝ f ⟨j, hj⟩ ⟨i, hi⟩ else 0) +
          if x ∈ Finset.Iio (⟨j, hj⟩ : Fin A.cols) then
            ⟪gramSchmidt ℝ f x, f ⟨j, hj⟩⟫_ℝ / ‖gramSchmidt ℝ f x‖ ^ 2 * gramSchmidt ℝ f x ⟨i, hi⟩ else 0 := by
      intro x
      have hx : ‖gramSchmidt ℝ f x‖ ≠ 0 := norm_ne_zero_iff.2 (hne x)
      rw [dif_pos ⟨hi, x.2⟩, dif_pos ⟨x.2, hj⟩]
      have hN : gramSchmidtNormed ℝ f x ⟨i, hi⟩ = ‖gramSchmidt ℝ f x‖⁻¹ * gramSchmidt ℝ f x ⟨i, hi⟩ := by
        simp [gramSchmidtNormed]
      simp only [Fin.eta, hN, Finset.mem_Iio, Fin.lt_def, Fin.ext_iff]
      rcases lt_trichotomy (x : ℕ) j with h | h | h
      · rw [if_pos h, if_neg (by omega), if_pos h]
        field_simp
        ring
      · have : x = ⟨j, hj⟩ := Fin.ext h
        subst this
        simp only [lt_irrefl, if_false, if_true]
        field_simp
        ring
      · rw [if_neg (by omega), if_neg (by omega), if_neg (by omega), if_neg (by omega)]
        ring
    rw [Finset.sum_congr rfl fun x _ => hterm x, Finset.sum_add_distrib, Finset.sum_ite_eq' Finset.univ,
      if_pos (Finset.mem_univ _), ← Finset.sum_filter]
    congr 1
    refine Finset.sum_congr ?_ fun x _ => rfl
    ext x
    simp
  · intro i hi j hj
    dsimp only
    have := (orthonormal_iff_ite.1 hort) ⟨i, hi⟩ ⟨j, hj⟩
    rw [PiLp.inner_apply] at this
    rw [Finset.sum_range]
    have hif : (if i = j then (1 : ℝ) else 0) = if (⟨i, hi⟩ : Fin A.cols) = ⟨j, hj⟩ then 1 else 0 := by
      simp [Fin.ext_iff]
    rw [hif, ← this]
    refine Finset.sum_congr rfl fun x _ => ?_
    rw [dif_pos ⟨x.2, hi⟩, dif_pos ⟨x.2, hj⟩]
    simp [mul_comm]
  · intro i hi j hj
    dsimp only
    rw [dif_pos ⟨hi, by omega⟩, if_neg (by omega), if_neg (by omega)]

theorem exists_inverse (A : DMat ℝ) (hA : A.rows = A.cols) (hu : ∀ i < A.rows, ∀ j < A.rows, i < j → A.ent i j = 0) (hd : ∀ i < A.rows, A.ent i i ≠ 0) :
    ∃ B : DMat ℝ, B.rows = A.rows ∧ B.cols = A.rows ∧
      ∀ i < A.rows, ∀ j < A.rows, ∑ l ∈ Finset.range A.rows, A.ent i l * B.ent l j = if i = j then 1 else 0 := by
  obtain ⟨X, h1, h2, h3⟩ := exists_solves A ⟨A.rows, A.rows, fun i j => if i = j then 1 else 0⟩ hA (by
    intro x hx k
    induction k using Nat.strong_induction_on with
    | _ k ih =>
      intro hk
      have h := hx k (hA ▸ hk)
      rw [Finset.sum_eq_single_of_mem k (Finset.mem_range.2 hk) fun j hj hne => ?_] at h
      · exact (mul_eq_zero.1 h).resolve_left (hd k (hA ▸ hk))
      · rcases lt_or_gt_of_ne hne with hlt | hgt
        · rw [ih j hlt (Finset.mem_range.1 hj), mul_zero]
        · rw [hu k (hA ▸ hk) j (hA ▸ Finset.mem_range.1 hj) hgt, zero_mul])
  refine ⟨X, h1.trans hA.symm, h2, fun i hi j hj => ?_⟩
  have := h3 i hi j hj
  rw [hA]
  exact this

/-- There are library calls that meet their contracts. -/
theorem exists_ortho_lib : ∃ lib : OrthoLib ℝ, IsOrthoLib lib := by
  classical
  have h : ∀ A : DMat ℝ, ∃ QR : DMat ℝ × DMat ℝ, IndependentCols A → IsThinQR A QR.1 QR.2 := fun A => by
    by_cases hs : IndependentCols A
    · obtain ⟨Q, R, h⟩ := exists_qr A hs
      exact ⟨(Q, R), fun _ => h⟩
    · exact ⟨(A, A), fun h => absurd h hs⟩
  choose mgs hm using h
  have h' : ∀ A : DMat ℝ, ∃ B : DMat ℝ, A.rows = A.cols → (∀ i < A.rows, ∀ j < A.rows, i < j → A.ent i j = 0) → (∀ i < A.rows, A.ent i i ≠ 0) →
      B.rows = A.rows ∧ B.cols = A.rows ∧
        ∀ i < A.rows, ∀ j < A.rows, ∑ l ∈ Finset.range A.rows, A.ent i l * B.ent l j = if i = j then 1 else 0 := fun A => by
    by_cases hs : A.rows = A.cols ∧ (∀ i < A.rows, ∀ j < A.rows, i < j → A.ent i j = 0) ∧ ∀ i < A.rows, A.ent i i ≠ 0
    · obtain ⟨B, hB⟩ := exists_inverse A hs.1 hs.2.1 hs.2.2
      exact ⟨B, fun _ _ _ => hB⟩
    · exact ⟨A, fun h1 h2 h3 => absurd ⟨h1, h2, h3⟩ hs⟩
  choose inv hi using h'
  exact ⟨⟨mgs, inv, Real.sqrt⟩, hm, hi, fun x hx => Real.mul_self_sqrt hx⟩

/-- Order 2 with a triangle rule of positive weights. -/
theorem conical_tables : IsTables 2 (fun _ => ⟨conicalPoints, conicalWeights⟩) (fun _ => ⟨[0, 1 / 2, 1], [1 / 6, 2 / 3, 1 / 6]⟩) [1 / 2] [2 / 3] (1 / 6) where
  low := by norm_num
  high := by norm_num
  triangleLength := rfl
  triangleExact := conical_exact
  edgeRule := rfl
  nodes := rfl
  edgeLength := rfl
  edgeExact := simpson_exact

theorem conical_pos : ∀ x ∈ conicalWeights, (0 : ℝ) ≤ x := by
  intro x hx
  simp only [conicalWeights, List.mem_cons, List.not_mem_nil, or_false] at hx
  rcases hx with h | h | h | h | h | h | h | h | h | h | h | h | h | h | h | h | h | h | h | h <;> rw [h] <;> norm_num

/-- Every function has a vector of DOFs for the orthonormal basis. -/
theorem exists_ortho_dofs (k : Nat) (poly : VemPolygon ℝ) (Q : DMat ℝ) (n : Nat) (V : Nat → ℝ × ℝ) (dir : Nat → Bool) (ts : List ℝ) (hts : ts.length = k - 1)
    (u : ℝ × ℝ → ℝ) : ∃ v, IsOrthoDofs k poly Q n V dir ts u v := by
  refine ⟨fun r => if r < n then u (V r) else if r < n + n * (k - 1) then
      u (segPoint (polyEdge n V (dir ((r - n) / (k - 1))) ((r - n) / (k - 1))).1 (polyEdge n V (dir ((r - n) / (k - 1))) ((r - n) / (k - 1))).2 (ts.getD ((r - n) % (k - 1)) 0))
    else 1 / poly.measure * ∫ p in unionOf poly.tris, polyOf k poly.centroid poly.diameter (fun j => Q.ent (r - (n + n * (k - 1))) j) p * u p, ?_, ?_, ?_⟩
  · intro e he
    rw [if_pos he]
  · intro e he i t hi
    have hlt : i < k - 1 := by
      have := (List.getElem?_eq_some_iff.1 hi).1
      omega
    have h1 : e * (k - 1) + i < n * (k - 1) := by
      have : (e + 1) * (k - 1) ≤ n * (k - 1) := Nat.mul_le_mul_right _ he
      rw [Nat.add_mul, one_mul] at this
      omega
    have hdiv : (e * (k - 1) + i) / (k - 1) = e := by
      rw [mul_comm, Nat.mul_add_div (by omega), Nat.div_eq_of_lt hlt, add_zero]
    have hmod : (e * (k - 1) + i) % (k - 1) = i := by
      rw [mul_comm, Nat.mul_add_mod, Nat.mod_eq_of_lt hlt]
    rw [if_neg (by omega), if_pos (by omega), show n + e * (k - 1) + i - n = e * (k - 1) + i by omega, hdiv, hmod, List.getD_eq_getElem?_getD, hi]
    rfl
  · intro l _
    rw [if_neg (by omega), if_neg (by omega), show n + n * (k - 1) + l - (n + n * (k - 1)) = l by omega]

end PolyDiM
