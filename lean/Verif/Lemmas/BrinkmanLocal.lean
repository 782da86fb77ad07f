import Verif.Lemmas.MixedLocal
import Verif.Model.AssemblerDf2D

/-!
# Lemmas: the local matrix and right-hand side of the Brinkman assembler
-/

namespace PolyDiM

open Finset Spec

/-- The tables of a space, entry by entry. -/
structure BTables (space : DfCell2D ℝ) (Q nu np : Nat) (x : Nat → ℝ × ℝ) (w : Nat → ℝ) (vel der : Nat → Nat → Nat → ℝ) (dv pr st st0 : Nat → Nat → ℝ) : Prop where
  values : space.values = .ok (⟨Q, nu, vel 0⟩, ⟨Q, nu, vel 1⟩)
  derivatives : space.derivatives = .ok ((⟨Q, nu, der 0⟩, ⟨Q, nu, der 1⟩), (⟨Q, nu, der 2⟩, ⟨Q, nu, der 3⟩))
  divergence : space.divergence = .ok ⟨Q, nu, dv⟩
  pressure : space.pressure = ⟨Q, np, pr⟩
  stabNabla : space.stabNabla = .ok ⟨nu, nu, st⟩
  stab0 : space.stab0 = .ok ⟨nu, nu, st0⟩
  points : space.internal.points = vecOf Q x
  weights : space.internal.weights = vecOf Q w

section
variable {space : DfCell2D ℝ} {Q nu np : Nat} {x : Nat → ℝ × ℝ} {w : Nat → ℝ} {vel der : Nat → Nat → Nat → ℝ} {dv pr st st0 : Nat → Nat → ℝ}

theorem maxAbs_great {Q : Nat} (hQ : 0 < Q) (f : Nat → ℝ) : ∃ m, maxAbs (vecOf Q f) = .ok m ∧ IsGreatest {y | ∃ q < Q, y = |f q|} m := by
  obtain ⟨m, h1, h2, y, hy, h3⟩ := maxAbs_ok (v := vecOf Q f) (by rw [Ne, ← List.length_eq_zero_iff, vecOf_length]; omega)
  refine ⟨m, h1, ?_, ?_⟩
  · obtain ⟨q, hq, rfl⟩ := List.mem_map.1 hy
    exact ⟨q, List.mem_range.1 hq, h3⟩
  · rintro y ⟨q, hq, rfl⟩
    exact h2 _ (List.mem_map.2 ⟨q, List.mem_range.2 hq, rfl⟩)

theorem brinkmanA_ok (hS : BTables space Q nu np x w vel der dv pr st st0) (hQ : 0 < Q) (test : DfTest ℝ) :
    ∃ μ k, IsGreatest {y | ∃ q < Q, y = |test.viscosity (x q)|} μ ∧ IsGreatest {y | ∃ q < Q, ∃ d < 9, y = |test.inverseDiffusion (x q) d|} k ∧
      brinkmanA space (⟨Q, nu, vel 0⟩, ⟨Q, nu, vel 1⟩) ((⟨Q, nu, der 0⟩, ⟨Q, nu, der 1⟩), (⟨Q, nu, der 2⟩, ⟨Q, nu, der 3⟩)) test = .ok ⟨nu, nu, fun i j =>
        (∑ q ∈ range Q, w q * (test.viscosity (x q) * ∑ d ∈ range 4, der d q i * der d q j)) + μ * st i j
        + (∑ q ∈ range Q, w q * ∑ r ∈ range 2, ∑ c ∈ range 2, test.inverseDiffusion (x q) (r + 3 * c) * (vel r q i * vel c q j)) + k * st0 i j⟩ := by
  obtain ⟨μ, hμ, hμg⟩ := maxAbs_great hQ fun q => test.viscosity (x q)
  obtain ⟨k, hk, hg⟩ := kMax_ok (D := 9) (by decide) hQ fun q d => test.inverseDiffusion (x q) d
  refine ⟨μ, k, hμg, hg, ?_⟩
  obtain ⟨B, hB, hr, hc, he, -⟩ := C53_tensor Q nu nu 2 (by decide) (by decide) w (fun r c q => test.inverseDiffusion (x q) (r + 3 * c)) vel vel
  obtain ⟨E, hE, hEr, hEc, hEe, -⟩ := C53_diffusion Q nu nu 4 (by decide) w (fun q => test.viscosity (x q)) der der
  have hval : evalComponents 9 space.internal.points test.inverseDiffusion = vecOf 9 fun c => vecOf Q fun q => test.inverseDiffusion (x q) c := by
    rw [hS.points]
    exact eval_vecOf 9 Q x test.inverseDiffusion
  have hmu : evalScalar space.internal.points test.viscosity = vecOf Q fun q => test.viscosity (x q) := by rw [hS.points, evalScalar_vecOf]
  have hval' : (List.range 9).map (fun c => (List.range Q).map fun q => test.inverseDiffusion (x q) (c % 3 + 3 * (c / 3)))
      = vecOf 9 fun c => vecOf Q fun q => test.inverseDiffusion (x q) c := by
    simp only [Nat.mod_add_div]
    rfl
  rw [hval'] at hB
  obtain ⟨r, c, B⟩ := B
  obtain rfl : r = nu := hr
  obtain rfl : c = r := hc
  obtain ⟨r, d, E⟩ := E
  obtain rfl : r = c := hEr
  obtain rfl : d = r := hEc
  have he' : ∀ i j, B i j = ∑ q ∈ range Q, w q * ∑ r ∈ range 2, ∑ c ∈ range 2, test.inverseDiffusion (x q) (r + 3 * c) * (vel r q i * vel c q j) := he
  have hEe' : ∀ i j, E i j = ∑ q ∈ range Q, w q * (test.viscosity (x q) * ∑ e ∈ range 4, der e q i * der e q j) := hEe
  have e4 : [(⟨Q, d, der 0⟩ : DMat ℝ), ⟨Q, d, der 1⟩, ⟨Q, d, der 2⟩, ⟨Q, d, der 3⟩] = vecOf 4 fun e => (⟨Q, d, der e⟩ : DMat ℝ) := rfl
  unfold brinkmanA cellDiffusionTensorSame cellDiffusionSame
  dsimp only
  rw [hval, hmu, hS.weights, e4, hμ, pair_vecOf fun e => (⟨Q, d, vel e⟩ : DMat ℝ), hk]
  unfold vecOf at hB ⊢
  rw [hE, except_ok_bind, except_ok_bind, hS.stabNabla, except_ok_bind, DMat.add_ok _ _ (by rfl) (by rfl), except_ok_bind, hB, except_ok_bind,
    DMat.add_ok _ _ (by rfl) (by rfl), except_ok_bind, except_ok_bind, hS.stab0, except_ok_bind, DMat.add_ok _ _ (by rfl) (by rfl)]
  simp only [DMat.smul, he', hEe']

theorem brinkmanLocal_ok (hS : BTables space Q nu np x w vel der dv pr st st0) (hQ : 0 < Q) (test : DfTest ℝ) :
    ∃ μ k, IsGreatest {y | ∃ q < Q, y = |test.viscosity (x q)|} μ ∧ IsGreatest {y | ∃ q < Q, ∃ d < 9, y = |test.inverseDiffusion (x q) d|} k ∧
      ∃ f, (∀ i, f i 0 = ∑ q ∈ range Q, w q * ∑ d ∈ range 2, test.source (x q) d * vel d q i) ∧
      brinkmanLocal space test = .ok ⟨⟨nu, nu, fun i j =>
        (∑ q ∈ range Q, w q * (test.viscosity (x q) * ∑ d ∈ range 4, der d q i * der d q j)) + μ * st i j
        + (∑ q ∈ range Q, w q * ∑ r ∈ range 2, ∑ c ∈ range 2, test.inverseDiffusion (x q) (r + 3 * c) * (vel r q i * vel c q j)) + k * st0 i j⟩,
        ⟨np, nu, fun i j => ∑ q ∈ range Q, w q * (pr q i * dv q j)⟩, ⟨nu, 1, f⟩,
        ⟨np, 1, fun i _ => ∑ q ∈ range Q, w q * (test.divergence (x q) * pr q i)⟩⟩ := by
  obtain ⟨μ, k, hμ, hk, hA⟩ := brinkmanA_ok hS hQ test
  refine ⟨μ, k, hμ, hk, ?_⟩
  obtain ⟨F, hF, hFr, hFc, hFe, -⟩ := C53_forcing_vector Q nu 2 (by decide) (by decide) w (fun d q => test.source (x q) d) vel
  obtain ⟨r, c, F⟩ := F
  obtain rfl : r = nu := hFr
  obtain rfl : c = 1 := hFc
  refine ⟨F, hFe, ?_⟩
  have hB : brinkmanB space ⟨Q, r, dv⟩ = .ok ⟨np, r, fun i j => ∑ q ∈ range Q, w q * (pr q i * dv q j)⟩ := by
    unfold brinkmanB
    rw [hS.pressure, hS.weights, DMat.mulDiag_ok _ _ (by rw [vecOf_length]; rfl), except_ok_bind, DMat.mul_ok _ _ (by rfl)]
    dsimp only [DMat.tr]
    congr 2
    funext i j
    exact sum_congr rfl fun q hq => by rw [vecOf_getD _ (mem_range.1 hq)]; ring
  have hG : cellForcing (evalScalar space.internal.points test.divergence) ⟨Q, np, pr⟩ space.internal.weights
      = .ok ⟨np, 1, fun i _ => ∑ q ∈ range Q, w q * (test.divergence (x q) * pr q i)⟩ := by
    rw [hS.weights, hS.points, evalScalar_vecOf, cellForcing_ok]
    simp only [cellForcing_ent]
  have hF' : cellForcingVector (evalComponents 3 space.internal.points test.source) [⟨Q, r, vel 0⟩, ⟨Q, r, vel 1⟩] space.internal.weights = .ok ⟨r, 1, F⟩ := by
    rw [hS.weights, hS.points, pair_vecOf fun e => (⟨Q, r, vel e⟩ : DMat ℝ), show evalComponents 3 (vecOf Q x) test.source = _ from eval_vecOf 3 Q x test.source]
    exact hF
  unfold brinkmanLocal
  rw [hS.values, except_ok_bind, hS.divergence, except_ok_bind, hS.derivatives, except_ok_bind, hA, except_ok_bind, hB, except_ok_bind, hF', except_ok_bind, hS.pressure,
    hG, except_ok_bind]

/-- The block matrix and its form. -/
theorem brinkmanBlocks_ok (nu np : Nat) (a b : Nat → Nat → ℝ) (F G : DMat ℝ) :
    ∃ A, brinkmanMatrix (nu + np) np ⟨⟨nu, nu, a⟩, ⟨np, nu, b⟩, F, G⟩ = .ok A ∧ A.rows = nu + np ∧ A.cols = nu + np ∧
      ∀ z y : Nat → ℝ, ∑ j ∈ range (nu + np), y j * apply A z j
        = form nu nu a y z - form np nu b (fun j => z (nu + j)) y + form np nu b (fun j => y (nu + j)) z := by
  obtain ⟨A, hA, h1, h2, h3⟩ := blocks_ok nu np a b (fun _ _ => 0) (fun _ _ => 0) (fun _ _ => 0)
  refine ⟨⟨nu + np, nu + np, fun i j => if i < nu then (if j < nu then a i j else (-1) * b (j - nu) i) else (if j < nu then b (i - nu) j else 0)⟩, ?_, rfl, rfl, fun z y => ?_⟩
  · unfold brinkmanMatrix
    dsimp only
    rw [beside_ok _ _ _ _ (by rfl) (by rfl) (by rfl), except_ok_bind, beside_ok _ _ _ _ (by rfl) (by rfl) (by rfl), except_ok_bind,
      stack_ok _ _ _ _ (by rfl) (by rfl) (by rfl)]
    rfl
  · have e0 : A = ⟨nu + np, nu + np, fun i j => if i < nu then (if j < nu then a i j else (-1) * b (j - nu) i) else (if j < nu then b (i - nu) j else 0)⟩ := by
      unfold mixedMatrix at hA
      dsimp only at hA
      rw [DMat.add_ok _ _ (by rfl) (by rfl), except_ok_bind, beside_ok _ _ _ _ (by rfl) (by rfl) (by rfl), except_ok_bind, beside_ok _ _ _ _ (by rfl) (by rfl) (by rfl), except_ok_bind,
        stack_ok _ _ _ _ (by rfl) (by rfl) (by rfl)] at hA
      rw [← Except.ok.inj hA]
      simp only [DMat.smul, DMat.tr, add_zero]
    rw [sum_range_add, ← e0, h3 z y fun j => y (nu + j)]
    have z0 : ∀ (n m : Nat) (p q : Nat → ℝ), form n m (fun _ _ => 0) p q = 0 := fun n m p q => by simp [form]
    rw [z0, z0]
    ring

/-- The right-hand side. -/
theorem brinkmanRhs_ok (nu np : Nat) (A B : DMat ℝ) (f g : Nat → Nat → ℝ) :
    ∃ b, brinkmanRhs (nu + np) ⟨A, B, ⟨nu, 1, f⟩, ⟨np, 1, g⟩⟩ = .ok b ∧ b.length = nu + np ∧
      ∀ y : Nat → ℝ, ∑ j ∈ range (nu + np), y j * b.getD j 0 = ∑ j ∈ range nu, y j * f j 0 + ∑ j ∈ range np, y (nu + j) * g j 0 := by
  have e : ∀ (m : Nat) (f : Nat → Nat → ℝ), (⟨m, 1, f⟩ : DMat ℝ).toList = vecOf m fun i => f i 0 := fun m f => rfl
  refine ⟨vecOf nu (fun i => f i 0) ++ vecOf np (fun i => g i 0), ?_, by rw [List.length_append, vecOf_length, vecOf_length], fun y => ?_⟩
  · unfold brinkmanRhs
    rw [if_pos (by rfl), e, e]
  · rw [sum_range_add]
    congr 1
    · refine sum_congr rfl fun j hj => ?_
      rw [List.getD_eq_getElem?_getD, List.getElem?_append_left (by rw [vecOf_length]; exact mem_range.1 hj), ← List.getD_eq_getElem?_getD, vecOf_getD _ (mem_range.1 hj)]
    · refine sum_congr rfl fun j hj => ?_
      rw [List.getD_eq_getElem?_getD, List.getElem?_append_right (by rw [vecOf_length]; omega), vecOf_length, Nat.add_sub_cancel_left, ← List.getD_eq_getElem?_getD,
        vecOf_getD _ (mem_range.1 hj)]

/-- The form of the local matrix. -/
theorem brinkmanMatrix_ok (hS : BTables space Q nu np x w vel der dv pr st st0) (hQ : 0 < Q) (test : DfTest ℝ) :
    ∃ μ k l A b, IsGreatest {y | ∃ q < Q, y = |test.viscosity (x q)|} μ ∧ IsGreatest {y | ∃ q < Q, ∃ d < 9, y = |test.inverseDiffusion (x q) d|} k ∧
      brinkmanLocal space test = .ok l ∧ brinkmanMatrix (nu + np) np l = .ok A ∧ brinkmanRhs (nu + np) l = .ok b ∧ A.rows = nu + np ∧ A.cols = nu + np ∧ b.length = nu + np ∧
      (∀ z y : Nat → ℝ, ∑ j ∈ range (nu + np), y j * apply A z j
        = ∑ q ∈ range Q, w q * (test.viscosity (x q) * (∑ d ∈ range 4, comb nu (der d) y q * comb nu (der d) z q)
            + (∑ a ∈ range 2, ∑ c ∈ range 2, test.inverseDiffusion (x q) (a + 3 * c) * (comb nu (vel a) y q * comb nu (vel c) z q))
            - comb np pr (fun j => z (nu + j)) q * comb nu dv y q
            + comb np pr (fun j => y (nu + j)) q * comb nu dv z q)
          + μ * (∑ i ∈ range nu, y i * ∑ j ∈ range nu, st i j * z j) + k * ∑ i ∈ range nu, y i * ∑ j ∈ range nu, st0 i j * z j) ∧
      ∀ y : Nat → ℝ, ∑ j ∈ range (nu + np), y j * b.getD j 0
        = ∑ q ∈ range Q, w q * ((∑ d ∈ range 2, test.source (x q) d * comb nu (vel d) y q) + test.divergence (x q) * comb np pr (fun j => y (nu + j)) q) := by
  obtain ⟨μ, k, hμ, hk, f, hf, hl⟩ := brinkmanLocal_ok hS hQ test
  obtain ⟨A, hA, hA1, hA2, hA3⟩ := brinkmanBlocks_ok nu np (fun i j =>
        (∑ q ∈ range Q, w q * (test.viscosity (x q) * ∑ d ∈ range 4, der d q i * der d q j)) + μ * st i j
        + (∑ q ∈ range Q, w q * ∑ r ∈ range 2, ∑ c ∈ range 2, test.inverseDiffusion (x q) (r + 3 * c) * (vel r q i * vel c q j)) + k * st0 i j)
    (fun i j => ∑ q ∈ range Q, w q * (pr q i * dv q j)) ⟨nu, 1, f⟩ ⟨np, 1, fun i _ => ∑ q ∈ range Q, w q * (test.divergence (x q) * pr q i)⟩
  obtain ⟨b, hb, hb1, hb2⟩ := brinkmanRhs_ok nu np ⟨nu, nu, fun i j =>
        (∑ q ∈ range Q, w q * (test.viscosity (x q) * ∑ d ∈ range 4, der d q i * der d q j)) + μ * st i j
        + (∑ q ∈ range Q, w q * ∑ r ∈ range 2, ∑ c ∈ range 2, test.inverseDiffusion (x q) (r + 3 * c) * (vel r q i * vel c q j)) + k * st0 i j⟩
    ⟨np, nu, fun i j => ∑ q ∈ range Q, w q * (pr q i * dv q j)⟩ f fun i _ => ∑ q ∈ range Q, w q * (test.divergence (x q) * pr q i)
  refine ⟨μ, k, _, A, b, hμ, hk, hl, hA, hb, hA1, hA2, hb1, fun z y => ?_, fun y => ?_⟩
  · rw [hA3]
    simp only [form_add, form_sum, form_mul, form_prod, mul_add, mul_sub, sum_add_distrib, sum_sub_distrib]
    unfold comb form
    ring
  · rw [hb2]
    simp only [hf, comb, mul_sum, mul_add, sum_add_distrib]
    congr 1
    · rw [sum_comm]
      refine sum_congr rfl fun q _ => ?_
      rw [sum_comm]
      exact sum_congr rfl fun j _ => sum_congr rfl fun j _ => by ring
    · rw [sum_comm]
      exact sum_congr rfl fun q _ => sum_congr rfl fun j _ => by ring

end

end PolyDiM
