import Verif.Lemmas.Elliptic
import Mathlib.Tactic.NormNum
import Mathlib.Tactic.Linarith
import Mathlib.Data.Rat.Cast.Order

/-!
# Element matrices of elliptic equations (C53)

`T d q i` is the derivative in direction `d` of test function `i` at quadrature point `q`, `S d q j` the one of trial function `j`.
-/

namespace PolyDiM

open Finset

section
variable {K : Type} [Field K]

/-- C53, diffusion with a scalar coefficient: the matrix is computed and its bilinear form is the quadrature of coefficient times the product of the
gradients of the two discrete functions; the entries are the case of two basis functions. -/
theorem C53_diffusion (Q n m D : Nat) (hD : 1 ≤ D) (w κ : Nat → K) (T S : Nat → Nat → Nat → K) :
    ∃ A, cellDiffusion ((List.range Q).map κ) ((List.range D).map fun d => ⟨Q, m, S d⟩) ((List.range D).map fun d => ⟨Q, n, T d⟩) ((List.range Q).map w) = .ok A ∧
      A.rows = n ∧ A.cols = m ∧ (∀ i j, A.ent i j = ∑ q ∈ range Q, w q * (κ q * ∑ d ∈ range D, T d q i * S d q j)) ∧
      ∀ u v : Nat → K, ∑ i ∈ range n, v i * ∑ j ∈ range m, A.ent i j * u j
        = ∑ q ∈ range Q, w q * (κ q * ∑ d ∈ range D, (∑ i ∈ range n, v i * T d q i) * ∑ j ∈ range m, u j * S d q j) := by
  have e : cellDiffusion (vecOf Q κ) (vecOf D fun d => ⟨Q, m, S d⟩) (vecOf D fun d => ⟨Q, n, T d⟩) (vecOf Q w) = .ok ⟨n, m, fun i j =>
      ∑ q ∈ range Q, w q * (κ q * ∑ d ∈ range D, T d q i * S d q j)⟩ := by
    unfold cellDiffusion
    rw [atIdx_vecOf _ hD, except_ok_bind, atIdx_vecOf _ hD, except_ok_bind, cellTerm_ok, except_ok_bind, vecOf_length,
      acc_ok n m (fun d i j => ∑ q ∈ range Q, T d q i * (vecOf Q fun i => w i * κ i).getD q 0 * S d q j) _ _ _ (by
        intro A d hd
        rw [List.mem_range'_1] at hd
        rw [atIdx_vecOf _ (by omega), except_ok_bind, atIdx_vecOf _ (by omega), except_ok_bind, cellTerm_ok, except_ok_bind])]
    congr 2
    funext i j
    rw [head_sum hD fun d => ∑ q ∈ range Q, T d q i * (vecOf Q fun i => w i * κ i).getD q 0 * S d q j]
    simp only [cellTerm_ent]
    rw [sum_comm]
    exact sum_congr rfl fun q _ => by rw [mul_sum, mul_sum]
  refine ⟨_, e, rfl, rfl, fun i j => rfl, fun u v => ?_⟩
  show form n m (fun i j => ∑ q ∈ range Q, w q * (κ q * ∑ d ∈ range D, T d q i * S d q j)) v u = _
  simp only [form_sum, form_mul, form_prod]

/-- C53, diffusion with a tensor: the nine values are the entries of the tensor by columns, and the bilinear form is the quadrature of `∇v · (κ ∇u)`. -/
theorem C53_tensor (Q n m D : Nat) (hD : 1 ≤ D) (hD' : D ≤ 3) (w : Nat → K) (κ : Nat → Nat → Nat → K) (T S : Nat → Nat → Nat → K) :
    ∃ A, cellDiffusionTensor ((List.range 9).map fun c => (List.range Q).map fun q => κ (c % 3) (c / 3) q) ((List.range D).map fun d => ⟨Q, m, S d⟩)
        ((List.range D).map fun d => ⟨Q, n, T d⟩) ((List.range Q).map w) = .ok A ∧
      A.rows = n ∧ A.cols = m ∧ (∀ i j, A.ent i j = ∑ q ∈ range Q, w q * ∑ r ∈ range D, ∑ c ∈ range D, κ r c q * (T r q i * S c q j)) ∧
      ∀ u v : Nat → K, ∑ i ∈ range n, v i * ∑ j ∈ range m, A.ent i j * u j
        = ∑ q ∈ range Q, w q * ∑ r ∈ range D, ∑ c ∈ range D, κ r c q * ((∑ i ∈ range n, v i * T r q i) * ∑ j ∈ range m, u j * S c q j) := by
  have e : cellDiffusionTensor (vecOf 9 fun c => vecOf Q fun q => κ (c % 3) (c / 3) q) (vecOf D fun d => ⟨Q, m, S d⟩) (vecOf D fun d => ⟨Q, n, T d⟩) (vecOf Q w)
      = .ok ⟨n, m, fun i j => ∑ q ∈ range Q, w q * ∑ r ∈ range D, ∑ c ∈ range D, κ r c q * (T r q i * S c q j)⟩ := by
    unfold cellDiffusionTensor
    rw [atIdx_vecOf _ hD, except_ok_bind, atIdx_vecOf _ hD, except_ok_bind, vecOf_length]
    dsimp only [DMat.zero]
    have inner : ∀ r < D, ∀ A : Nat → Nat → K, (List.range D).foldlM (init := (⟨n, m, A⟩ : DMat K)) (fun A d2 => do
        let t ← atIdx (vecOf D fun d => (⟨Q, n, T d⟩ : DMat K)) r
        let v ← atIdx (vecOf 9 fun c => vecOf Q fun q => κ (c % 3) (c / 3) q) (r + 3 * d2)
        let s ← atIdx (vecOf D fun d => (⟨Q, m, S d⟩ : DMat K)) d2
        let B ← cellTerm v s t (vecOf Q w)
        A.add B) = .ok ⟨n, m, fun i j => A i j + ((List.range D).map fun c => ∑ q ∈ range Q, w q * (κ r c q * (T r q i * S c q j))).sum⟩ := by
      intro r hr A
      rw [acc_ok n m (fun c i j => ∑ q ∈ range Q, T r q i * (vecOf Q fun i => w i * κ r c i).getD q 0 * S c q j) _ _ _ (by
        intro A c hc
        rw [List.mem_range] at hc
        rw [atIdx_vecOf _ hr, except_ok_bind, atIdx_vecOf _ (by omega), except_ok_bind, atIdx_vecOf _ hc, except_ok_bind,
          show (r + 3 * c) % 3 = r by omega, show (r + 3 * c) / 3 = c by omega, cellTerm_ok, except_ok_bind])]
      simp only [cellTerm_ent]
    have := foldlM_eq (fun (A : DMat K) d1 => (List.range D).foldlM (init := A) fun A d2 => do
        let t ← atIdx (vecOf D fun d => (⟨Q, n, T d⟩ : DMat K)) d1
        let v ← atIdx (vecOf 9 fun c => vecOf Q fun q => κ (c % 3) (c / 3) q) (d1 + 3 * d2)
        let s ← atIdx (vecOf D fun d => (⟨Q, m, S d⟩ : DMat K)) d2
        let B ← cellTerm v s t (vecOf Q w)
        A.add B) (fun pre => (⟨n, m, fun i j => (pre.map fun r => ((List.range D).map fun c => ∑ q ∈ range Q, w q * (κ r c q * (T r q i * S c q j))).sum).sum⟩ : DMat K))
      (List.range D) (by
        intro pre r post hl
        have hr : r < D := by
          rw [← List.mem_range, hl]
          simp
        rw [inner r hr]
        simp only [List.map_append, List.map_cons, List.map_nil, List.sum_append, List.sum_cons, List.sum_nil, add_zero])
    simp only [List.map_nil, List.sum_nil] at this
    rw [this]
    congr 2
    funext i j
    simp only [range_sum, mul_sum]
    refine Eq.trans ?_ sum_comm
    exact sum_congr rfl fun r _ => sum_comm
  refine ⟨_, e, rfl, rfl, fun i j => rfl, fun u v => ?_⟩
  show form n m (fun i j => ∑ q ∈ range Q, w q * ∑ r ∈ range D, ∑ c ∈ range D, κ r c q * (T r q i * S c q j)) v u = _
  simp only [form_sum, form_mul, form_prod]

/-- C53, reaction. -/
theorem C53_reaction (Q n m : Nat) (w γ : Nat → K) (T S : Nat → Nat → K) :
    ∃ A, cellReaction ((List.range Q).map γ) ⟨Q, m, S⟩ ⟨Q, n, T⟩ ((List.range Q).map w) = .ok A ∧
      A.rows = n ∧ A.cols = m ∧ (∀ i j, A.ent i j = ∑ q ∈ range Q, w q * (γ q * (T q i * S q j))) ∧
      ∀ u v : Nat → K, ∑ i ∈ range n, v i * ∑ j ∈ range m, A.ent i j * u j
        = ∑ q ∈ range Q, w q * (γ q * ((∑ i ∈ range n, v i * T q i) * ∑ j ∈ range m, u j * S q j)) := by
  have e : cellReaction (vecOf Q γ) ⟨Q, m, S⟩ ⟨Q, n, T⟩ (vecOf Q w) = .ok ⟨n, m, fun i j => ∑ q ∈ range Q, w q * (γ q * (T q i * S q j))⟩ := by
    unfold cellReaction
    rw [cellTerm_ok]
    simp only [cellTerm_ent]
  refine ⟨_, e, rfl, rfl, fun i j => rfl, fun u v => ?_⟩
  show form n m (fun i j => ∑ q ∈ range Q, w q * (γ q * (T q i * S q j))) v u = _
  simp only [form_sum, form_mul, form_prod]

/-- C53, advection: the test function times the field applied to the gradient of the trial function. -/
theorem C53_advection (Q n m D : Nat) (hD : 1 ≤ D) (hD' : D ≤ 3) (w : Nat → K) (β : Nat → Nat → K) (T : Nat → Nat → K) (S : Nat → Nat → Nat → K) :
    ∃ A, cellAdvection ((List.range 3).map fun d => (List.range Q).map (β d)) ⟨Q, n, T⟩ ((List.range D).map fun d => ⟨Q, m, S d⟩) ((List.range Q).map w) = .ok A ∧
      A.rows = n ∧ A.cols = m ∧ (∀ i j, A.ent i j = ∑ q ∈ range Q, w q * ∑ d ∈ range D, β d q * (T q i * S d q j)) ∧
      ∀ u v : Nat → K, ∑ i ∈ range n, v i * ∑ j ∈ range m, A.ent i j * u j
        = ∑ q ∈ range Q, w q * ∑ d ∈ range D, β d q * ((∑ i ∈ range n, v i * T q i) * ∑ j ∈ range m, u j * S d q j) := by
  have e : cellAdvection (vecOf 3 fun d => vecOf Q (β d)) ⟨Q, n, T⟩ (vecOf D fun d => ⟨Q, m, S d⟩) (vecOf Q w) = .ok ⟨n, m, fun i j =>
      ∑ q ∈ range Q, w q * ∑ d ∈ range D, β d q * (T q i * S d q j)⟩ := by
    unfold cellAdvection
    rw [unchecked_vecOf _ (by decide), except_ok_bind, unchecked_vecOf _ hD, except_ok_bind, cellTerm_ok, except_ok_bind, vecOf_length,
      acc_ok n m (fun d i j => ∑ q ∈ range Q, T q i * (vecOf Q fun i => w i * β d i).getD q 0 * S d q j) _ _ _ (by
        intro A d hd
        rw [List.mem_range'_1] at hd
        rw [atIdx_vecOf _ (by omega), except_ok_bind, atIdx_vecOf _ (by omega), except_ok_bind, cellTerm_ok, except_ok_bind])]
    congr 2
    funext i j
    rw [head_sum hD fun d => ∑ q ∈ range Q, T q i * (vecOf Q fun i => w i * β d i).getD q 0 * S d q j]
    simp only [cellTerm_ent]
    rw [sum_comm]
    exact sum_congr rfl fun q _ => by rw [mul_sum]
  refine ⟨_, e, rfl, rfl, fun i j => rfl, fun u v => ?_⟩
  show form n m (fun i j => ∑ q ∈ range Q, w q * ∑ d ∈ range D, β d q * (T q i * S d q j)) v u = _
  simp only [form_sum, form_mul, form_prod]

/-- C53, forcing term with a scalar datum. -/
theorem C53_forcing (Q n : Nat) (w f : Nat → K) (T : Nat → Nat → K) :
    ∃ A, cellForcing ((List.range Q).map f) ⟨Q, n, T⟩ ((List.range Q).map w) = .ok A ∧ A.rows = n ∧ A.cols = 1 ∧
      (∀ i, A.ent i 0 = ∑ q ∈ range Q, w q * (f q * T q i)) ∧
      ∀ v : Nat → K, ∑ i ∈ range n, v i * A.ent i 0 = ∑ q ∈ range Q, w q * (f q * ∑ i ∈ range n, v i * T q i) := by
  have e : cellForcing (vecOf Q f) ⟨Q, n, T⟩ (vecOf Q w) = .ok ⟨n, 1, fun i _ => ∑ q ∈ range Q, w q * (f q * T q i)⟩ := by
    rw [cellForcing_ok]
    simp only [cellForcing_ent]
  refine ⟨_, e, rfl, rfl, fun i => rfl, fun v => ?_⟩
  dsimp only
  simp only [mul_sum]
  rw [sum_comm]
  exact sum_congr rfl fun q _ => sum_congr rfl fun i _ => by ring

/-- C53, forcing term with a vector datum and vector test functions. -/
theorem C53_forcing_vector (Q n D : Nat) (hD : 1 ≤ D) (hD' : D ≤ 3) (w : Nat → K) (f : Nat → Nat → K) (T : Nat → Nat → Nat → K) :
    ∃ A, cellForcingVector ((List.range 3).map fun d => (List.range Q).map (f d)) ((List.range D).map fun d => ⟨Q, n, T d⟩) ((List.range Q).map w) = .ok A ∧
      A.rows = n ∧ A.cols = 1 ∧ (∀ i, A.ent i 0 = ∑ q ∈ range Q, w q * ∑ d ∈ range D, f d q * T d q i) ∧
      ∀ v : Nat → K, ∑ i ∈ range n, v i * A.ent i 0 = ∑ q ∈ range Q, w q * ∑ d ∈ range D, f d q * ∑ i ∈ range n, v i * T d q i := by
  have e : cellForcingVector (vecOf 3 fun d => vecOf Q (f d)) (vecOf D fun d => ⟨Q, n, T d⟩) (vecOf Q w) = .ok ⟨n, 1, fun i _ =>
      ∑ q ∈ range Q, w q * ∑ d ∈ range D, f d q * T d q i⟩ := by
    unfold cellForcingVector
    rw [unchecked_vecOf _ (by decide), except_ok_bind, unchecked_vecOf _ hD, except_ok_bind, cellForcing_ok, except_ok_bind, vecOf_length,
      acc_ok n 1 (fun d i _ => ∑ q ∈ range Q, T d q i * (vecOf Q w).getD q 0 * (vecOf Q (f d)).getD q 0) _ _ _ (by
        intro A d hd
        rw [List.mem_range'_1] at hd
        rw [unchecked_vecOf _ (by omega), except_ok_bind, unchecked_vecOf _ (by omega), except_ok_bind, cellForcing_ok, except_ok_bind])]
    congr 2
    funext i j
    rw [head_sum hD fun d => ∑ q ∈ range Q, T d q i * (vecOf Q w).getD q 0 * (vecOf Q (f d)).getD q 0]
    simp only [cellForcing_ent]
    rw [sum_comm]
    exact sum_congr rfl fun q _ => by rw [mul_sum]
  refine ⟨_, e, rfl, rfl, fun i => rfl, fun v => ?_⟩
  dsimp only
  simp only [mul_sum]
  rw [sum_comm]
  refine sum_congr rfl fun q _ => ?_
  rw [sum_comm]
  exact sum_congr rfl fun d _ => sum_congr rfl fun i _ => by ring

/-- C53: with one basis the diffusion matrix and the reaction matrix are symmetric. -/
theorem C53_symmetric (Q n D : Nat) (hD : 1 ≤ D) (w κ : Nat → K) (S : Nat → Nat → Nat → K) (φ : Nat → Nat → K) :
    (∃ A, cellDiffusionSame ((List.range Q).map κ) ((List.range D).map fun d => ⟨Q, n, S d⟩) ((List.range Q).map w) = .ok A ∧
      A.rows = n ∧ A.cols = n ∧ ∀ i j, A.ent i j = A.ent j i) ∧
    ∃ A, cellReactionSame ((List.range Q).map κ) ⟨Q, n, φ⟩ ((List.range Q).map w) = .ok A ∧ A.rows = n ∧ A.cols = n ∧ ∀ i j, A.ent i j = A.ent j i := by
  obtain ⟨A, hA, hr, hc, e, -⟩ := C53_diffusion Q n n D hD w κ S S
  obtain ⟨B, hB, hr', hc', e', -⟩ := C53_reaction Q n n w κ φ φ
  refine ⟨⟨A, hA, hr, hc, fun i j => ?_⟩, ⟨B, hB, hr', hc', fun i j => ?_⟩⟩
  · rw [e, e]
    exact sum_congr rfl fun q _ => by rw [sum_congr rfl fun d _ => mul_comm (S d q i) (S d q j)]
  · rw [e', e']
    exact sum_congr rfl fun q _ => by rw [mul_comm (φ q i)]

/-- C53: with one basis and a symmetric tensor the diffusion matrix is symmetric. -/
theorem C53_symmetric_tensor (Q n D : Nat) (hD : 1 ≤ D) (hD' : D ≤ 3) (w : Nat → K) (κ : Nat → Nat → Nat → K) (hκ : ∀ r c q, κ r c q = κ c r q)
    (S : Nat → Nat → Nat → K) :
    ∃ A, cellDiffusionTensorSame ((List.range 9).map fun c => (List.range Q).map fun q => κ (c % 3) (c / 3) q) ((List.range D).map fun d => ⟨Q, n, S d⟩)
      ((List.range Q).map w) = .ok A ∧ A.rows = n ∧ A.cols = n ∧ ∀ i j, A.ent i j = A.ent j i := by
  obtain ⟨A, hA, hr, hc, e, -⟩ := C53_tensor Q n n D hD hD' w κ S S
  refine ⟨A, hA, hr, hc, fun i j => ?_⟩
  rw [e, e]
  refine sum_congr rfl fun q _ => ?_
  rw [sum_comm]
  congr 1
  exact sum_congr rfl fun r _ => sum_congr rfl fun c _ => by rw [hκ c r, mul_comm (S c q i)]

/-- C53: the diffusion matrix annihilates the vectors whose discrete function has no gradient at the quadrature points, whatever the coefficient. -/
theorem C53_kernel (Q n D : Nat) (hD : 1 ≤ D) (w κ : Nat → K) (S : Nat → Nat → Nat → K) (u : Nat → K)
    (hu : ∀ d < D, ∀ q < Q, ∑ j ∈ range n, u j * S d q j = 0) :
    ∃ A, cellDiffusionSame ((List.range Q).map κ) ((List.range D).map fun d => ⟨Q, n, S d⟩) ((List.range Q).map w) = .ok A ∧
      ∀ i, ∑ j ∈ range n, A.ent i j * u j = 0 := by
  obtain ⟨A, hA, hr, hc, e, -⟩ := C53_diffusion Q n n D hD w κ S S
  refine ⟨A, hA, fun i => ?_⟩
  simp only [e, sum_mul]
  rw [sum_comm]
  refine sum_eq_zero fun q hq => ?_
  have : ∀ j, w q * (κ q * ∑ d ∈ range D, S d q i * S d q j) * u j = ∑ d ∈ range D, w q * κ q * S d q i * (u j * S d q j) := by
    intro j
    rw [mul_sum, mul_sum, sum_mul]
    exact sum_congr rfl fun d _ => by ring
  simp only [this]
  rw [sum_comm]
  exact sum_eq_zero fun d hd => by rw [← mul_sum, hu d (mem_range.1 hd) q (mem_range.1 hq), mul_zero]
end

section
variable {K : Type} [Field K] [LinearOrder K] [IsStrictOrderedRing K]

/-- C53: non-negative weights and coefficient make the diffusion and the reaction matrix positive semidefinite. -/
theorem C53_psd (Q n D : Nat) (hD : 1 ≤ D) (w κ : Nat → K) (hw : ∀ q < Q, 0 ≤ w q) (hκ : ∀ q < Q, 0 ≤ κ q) (S : Nat → Nat → Nat → K) (φ : Nat → Nat → K) :
    (∃ A, cellDiffusionSame ((List.range Q).map κ) ((List.range D).map fun d => ⟨Q, n, S d⟩) ((List.range Q).map w) = .ok A ∧
      ∀ u : Nat → K, 0 ≤ ∑ i ∈ range n, u i * ∑ j ∈ range n, A.ent i j * u j) ∧
    ∃ A, cellReactionSame ((List.range Q).map κ) ⟨Q, n, φ⟩ ((List.range Q).map w) = .ok A ∧
      ∀ u : Nat → K, 0 ≤ ∑ i ∈ range n, u i * ∑ j ∈ range n, A.ent i j * u j := by
  obtain ⟨A, hA, -, -, -, e⟩ := C53_diffusion Q n n D hD w κ S S
  obtain ⟨B, hB, -, -, -, e'⟩ := C53_reaction Q n n w κ φ φ
  refine ⟨⟨A, hA, fun u => ?_⟩, ⟨B, hB, fun u => ?_⟩⟩
  · rw [e]
    exact sum_nonneg fun q hq => mul_nonneg (hw q (mem_range.1 hq)) (mul_nonneg (hκ q (mem_range.1 hq)) (sum_nonneg fun d _ => mul_self_nonneg _))
  · rw [e']
    exact sum_nonneg fun q hq => mul_nonneg (hw q (mem_range.1 hq)) (mul_nonneg (hκ q (mem_range.1 hq)) (mul_self_nonneg _))

/-- C53: a tensor whose quadratic form is non-negative at the quadrature points makes the matrix positive semidefinite. -/
theorem C53_psd_tensor (Q n D : Nat) (hD : 1 ≤ D) (hD' : D ≤ 3) (w : Nat → K) (hw : ∀ q < Q, 0 ≤ w q) (κ : Nat → Nat → Nat → K)
    (hκ : ∀ q < Q, ∀ x : Nat → K, 0 ≤ ∑ r ∈ range D, ∑ c ∈ range D, κ r c q * (x r * x c)) (S : Nat → Nat → Nat → K) :
    ∃ A, cellDiffusionTensorSame ((List.range 9).map fun c => (List.range Q).map fun q => κ (c % 3) (c / 3) q) ((List.range D).map fun d => ⟨Q, n, S d⟩)
      ((List.range Q).map w) = .ok A ∧ ∀ u : Nat → K, 0 ≤ ∑ i ∈ range n, u i * ∑ j ∈ range n, A.ent i j * u j := by
  obtain ⟨A, hA, -, -, -, e⟩ := C53_tensor Q n n D hD hD' w κ S S
  refine ⟨A, hA, fun u => ?_⟩
  rw [e]
  exact sum_nonneg fun q hq => mul_nonneg (hw q (mem_range.1 hq)) (hκ q (mem_range.1 hq) fun r => ∑ i ∈ range n, u i * S r q i)

/-- The kernel is no larger: with positive weights and coefficient, a vector of zero energy has no gradient at the quadrature points. -/
theorem C53_kernel_converse (Q n D : Nat) (hD : 1 ≤ D) (w κ : Nat → K) (hw : ∀ q < Q, 0 < w q) (hκ : ∀ q < Q, 0 < κ q) (S : Nat → Nat → Nat → K) :
    ∃ A, cellDiffusionSame ((List.range Q).map κ) ((List.range D).map fun d => ⟨Q, n, S d⟩) ((List.range Q).map w) = .ok A ∧
      ∀ u : Nat → K, ∑ i ∈ range n, u i * ∑ j ∈ range n, A.ent i j * u j = 0 → ∀ d < D, ∀ q < Q, ∑ j ∈ range n, u j * S d q j = 0 := by
  obtain ⟨A, hA, -, -, -, e⟩ := C53_diffusion Q n n D hD w κ S S
  refine ⟨A, hA, fun u h d hd q hq => ?_⟩
  rw [e] at h
  have h1 := (sum_eq_zero_iff_of_nonneg fun q hq => mul_nonneg (hw q (mem_range.1 hq)).le (mul_nonneg (hκ q (mem_range.1 hq)).le
    (sum_nonneg fun d _ => mul_self_nonneg _))).1 h q (mem_range.2 hq)
  have h2 := (mul_eq_zero.1 ((mul_eq_zero.1 h1).resolve_left (hw q hq).ne')).resolve_left (hκ q hq).ne'
  have h3 := (sum_eq_zero_iff_of_nonneg fun d _ => mul_self_nonneg _).1 h2 d (mem_range.2 hd)
  exact mul_self_eq_zero.1 h3
end

/-! ### Concrete case: linear elements on the segment and a two-dimensional basis, with their numbers -/

/-- Two functions in the plane at two points with a varying coefficient. -/
example : ∃ A, cellDiffusion ((List.range 2).map fun q => (q : ℚ) + 1) ((List.range 2).map fun d => ⟨2, 2, fun q j => d + q * j⟩)
    ((List.range 2).map fun d => ⟨2, 2, fun q i => if i = d then 1 else q⟩) ((List.range 2).map fun _ => 1 / 2) = .ok A ∧ A.ent 0 1 = 3 := by
  obtain ⟨A, h, -, -, e, -⟩ := C53_diffusion 2 2 2 2 (by decide) (fun _ => (1 / 2 : ℚ)) (fun q => (q : ℚ) + 1)
    (fun d q i => if i = d then 1 else (q : ℚ)) (fun d q j => (d : ℚ) + q * j)
  refine ⟨A, h, ?_⟩
  rw [e]
  norm_num [sum_range_succ]

/-- A tensor that is not symmetric: the entry in row 0 and column 1 of the tensor multiplies test derivative 0 and trial derivative 1. -/
example : ∃ A, cellDiffusionTensor ((List.range 9).map fun c => (List.range 1).map fun _ => if c % 3 = 0 ∧ c / 3 = 1 then (5 : ℚ) else 0)
    ((List.range 2).map fun d => ⟨1, 1, fun _ _ => d⟩) ((List.range 2).map fun d => ⟨1, 1, fun _ _ => 1 - d⟩) ((List.range 1).map fun _ => 2) = .ok A ∧ A.ent 0 0 = 10 := by
  obtain ⟨A, h, -, -, e, -⟩ := C53_tensor 1 1 1 2 (by decide) (by decide) (fun _ => (2 : ℚ)) (fun r c _ => if r = 0 ∧ c = 1 then 5 else 0)
    (fun d _ _ => 1 - (d : ℚ)) (fun d _ _ => (d : ℚ))
  refine ⟨A, h, ?_⟩
  rw [e]
  norm_num [sum_range_succ]

/-- The two linear functions on the unit segment: the stiffness matrix has the constants in its kernel and only them. -/
example : ∃ A, cellDiffusionSame ((List.range 1).map fun _ => (3 : ℚ)) ((List.range 1).map fun _ => ⟨1, 2, fun _ j => if j = 0 then -1 else 1⟩)
    ((List.range 1).map fun _ => 1) = .ok A ∧ (∀ i, ∑ j ∈ range 2, A.ent i j * 1 = 0) := by
  obtain ⟨A, h, e⟩ := C53_kernel 1 2 1 (by decide) (fun _ => (1 : ℚ)) (fun _ => 3) (fun _ _ j => if j = 0 then -1 else 1) (fun _ => 1)
    (by intros; norm_num [sum_range_succ])
  exact ⟨A, h, e⟩

example : ∃ A, cellDiffusionSame ((List.range 1).map fun _ => (3 : ℚ)) ((List.range 1).map fun _ => ⟨1, 2, fun _ j => if j = 0 then -1 else 1⟩)
    ((List.range 1).map fun _ => 1) = .ok A ∧ ∀ u : Nat → ℚ, ∑ i ∈ range 2, u i * ∑ j ∈ range 2, A.ent i j * u j = 0 → u 0 = u 1 := by
  obtain ⟨A, h, e⟩ := C53_kernel_converse 1 2 1 (by decide) (fun _ => (1 : ℚ)) (fun _ => 3) (by intros; norm_num) (by intros; norm_num)
    (fun _ _ j => if j = 0 then -1 else 1)
  refine ⟨A, h, fun u hu => ?_⟩
  have := e u hu 0 (by decide) 0 (by decide)
  norm_num [sum_range_succ] at this
  linarith

/-- Advection and forcing with two components. -/
example : ∃ A, cellAdvection ((List.range 3).map fun d => (List.range 1).map fun _ => if d = 0 then (2 : ℚ) else 3) ⟨1, 1, fun _ _ => 5⟩
    ((List.range 2).map fun d => ⟨1, 1, fun _ _ => if d = 0 then 7 else 11⟩) ((List.range 1).map fun _ => 1) = .ok A ∧ A.ent 0 0 = 235 := by
  obtain ⟨A, h, -, -, e, -⟩ := C53_advection 1 1 1 2 (by decide) (by decide) (fun _ => (1 : ℚ)) (fun d _ => if d = 0 then 2 else 3) (fun _ _ => 5)
    (fun d _ _ => if d = 0 then 7 else 11)
  refine ⟨A, h, ?_⟩
  rw [e]
  norm_num [sum_range_succ]

example : ∃ A, cellForcingVector ((List.range 3).map fun d => (List.range 1).map fun _ => if d = 0 then (2 : ℚ) else 3)
    ((List.range 2).map fun d => ⟨1, 1, fun _ _ => if d = 0 then 7 else 11⟩) ((List.range 1).map fun _ => 1) = .ok A ∧ A.ent 0 0 = 47 := by
  obtain ⟨A, h, -, -, e, -⟩ := C53_forcing_vector 1 1 2 (by decide) (by decide) (fun _ => (1 : ℚ)) (fun d _ => if d = 0 then 2 else 3)
    (fun d _ _ => if d = 0 then 7 else 11)
  refine ⟨A, h, ?_⟩
  rw [e]
  norm_num [sum_range_succ]

/-- The tensor `[[2, 1], [1, 2]]` meets the hypothesis of the semidefiniteness. -/
example (x : Nat → ℚ) : 0 ≤ ∑ r ∈ range 2, ∑ c ∈ range 2, (if r = c then (2 : ℚ) else 1) * (x r * x c) := by
  norm_num [sum_range_succ]
  nlinarith [sq_nonneg (x 0 + x 1), sq_nonneg (x 0), sq_nonneg (x 1)]

end PolyDiM
