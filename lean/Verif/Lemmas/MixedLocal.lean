import Verif.Model.AssemblerMcc2D
import Verif.Props.AssemblerPcc2D
import Verif.Props.VemMcc
import Verif.Props.Elliptic

/-!
# Lemmas: the local matrix and right-hand side of the mixed assembler
-/

namespace PolyDiM

open Finset Spec

/-- The tables of a space, entry by entry. -/
structure MixedTables (space : MixedSpace2D ℝ) (Q nu np : Nat) (x : Nat → ℝ × ℝ) (w : Nat → ℝ) (vel : Nat → Nat → Nat → ℝ) (dv pr st : Nat → Nat → ℝ) : Prop where
  velocity : space.velocity = .ok [⟨Q, nu, vel 0⟩, ⟨Q, nu, vel 1⟩]
  divergence : space.divergence = .ok ⟨Q, nu, dv⟩
  pressure : space.pressure = .ok ⟨Q, np, pr⟩
  stab : space.stab = .ok ⟨nu, nu, st⟩
  points : space.internal.points = vecOf Q x
  weights : space.internal.weights = vecOf Q w

section
variable {space : MixedSpace2D ℝ} {Q nu np : Nat} {x : Nat → ℝ × ℝ} {w : Nat → ℝ} {vel : Nat → Nat → Nat → ℝ} {dv pr st : Nat → Nat → ℝ}

theorem mixedA_ok (hS : MixedTables space Q nu np x w vel dv pr st) (hQ : 0 < Q) (test : MixedTest ℝ) :
    ∃ k, IsGreatest {y | ∃ q < Q, ∃ d < 9, y = |test.inverseDiffusion (x q) d|} k ∧
      mixedA space [⟨Q, nu, vel 0⟩, ⟨Q, nu, vel 1⟩] test = .ok ⟨nu, nu, fun i j =>
        (∑ q ∈ range Q, w q * ∑ r ∈ range 2, ∑ c ∈ range 2, test.inverseDiffusion (x q) (r + 3 * c) * (vel r q i * vel c q j)) + k * st i j⟩ := by
  obtain ⟨k, hk, hg⟩ := kMax_ok (D := 9) (by decide) hQ fun q d => test.inverseDiffusion (x q) d
  refine ⟨k, hg, ?_⟩
  obtain ⟨B, hB, hr, hc, he, -⟩ := C53_tensor Q nu nu 2 (by decide) (by decide) w (fun r c q => test.inverseDiffusion (x q) (r + 3 * c)) vel vel
  have hval : evalComponents 9 space.internal.points test.inverseDiffusion = vecOf 9 fun c => vecOf Q fun q => test.inverseDiffusion (x q) c := by
    rw [hS.points]
    exact eval_vecOf 9 Q x test.inverseDiffusion
  have hval' : (List.range 9).map (fun c => (List.range Q).map fun q => test.inverseDiffusion (x q) (c % 3 + 3 * (c / 3)))
      = vecOf 9 fun c => vecOf Q fun q => test.inverseDiffusion (x q) c := by
    simp only [Nat.mod_add_div]
    rfl
  rw [hval'] at hB
  obtain ⟨r, c, B⟩ := B
  obtain rfl : r = nu := hr
  obtain rfl : c = r := hc
  have he' : ∀ i j, B i j = ∑ q ∈ range Q, w q * ∑ r ∈ range 2, ∑ c ∈ range 2, test.inverseDiffusion (x q) (r + 3 * c) * (vel r q i * vel c q j) := he
  unfold mixedA cellDiffusionTensorSame
  dsimp only
  rw [hval, hS.weights, pair_vecOf fun d => (⟨Q, c, vel d⟩ : DMat ℝ), hk]
  unfold vecOf at hB ⊢
  rw [hB, except_ok_bind, except_ok_bind, hS.stab, except_ok_bind, DMat.add_ok _ _ (by rfl) (by rfl)]
  simp only [DMat.smul, he']

theorem mixedLocal_ok (hS : MixedTables space Q nu np x w vel dv pr st) (hQ : 0 < Q) (test : MixedTest ℝ) :
    ∃ k, IsGreatest {y | ∃ q < Q, ∃ d < 9, y = |test.inverseDiffusion (x q) d|} k ∧
      mixedLocal space test = .ok ⟨⟨nu, nu, fun i j =>
          (∑ q ∈ range Q, w q * ∑ r ∈ range 2, ∑ c ∈ range 2, test.inverseDiffusion (x q) (r + 3 * c) * (vel r q i * vel c q j)) + k * st i j⟩,
        ⟨np, nu, fun i j => ∑ q ∈ range Q, w q * (pr q i * dv q j)⟩,
        ⟨np, nu, fun i j => ∑ q ∈ range Q, w q * ∑ d ∈ range 2, test.advection (x q) d * (pr q i * vel d q j)⟩,
        ⟨np, np, fun i j => ∑ q ∈ range Q, w q * (test.reaction (x q) * (pr q i * pr q j))⟩,
        ⟨np, 1, fun i _ => ∑ q ∈ range Q, w q * (test.source (x q) * pr q i)⟩⟩ := by
  obtain ⟨k, hk, hA⟩ := mixedA_ok hS hQ test
  refine ⟨k, hk, ?_⟩
  obtain ⟨M, hM, hMr, hMc, hMe, -⟩ := C53_reaction Q np np w (fun q => test.reaction (x q)) pr pr
  obtain ⟨T, hT, hTr, hTc, hTe, -⟩ := C53_advection Q np nu 2 (by decide) (by decide) w (fun d q => test.advection (x q) d) pr vel
  obtain ⟨r, c, M⟩ := M
  obtain rfl : r = np := hMr
  obtain rfl : c = r := hMc
  obtain ⟨r, d, T⟩ := T
  obtain rfl : r = c := hTr
  obtain rfl : d = nu := hTc
  have hMe' : M = fun i j => ∑ q ∈ range Q, w q * (test.reaction (x q) * (pr q i * pr q j)) := by funext i j; exact hMe i j
  have hTe' : T = fun i j => ∑ q ∈ range Q, w q * ∑ d ∈ range 2, test.advection (x q) d * (pr q i * vel d q j) := by funext i j; exact hTe i j
  have hB : mixedB space ⟨Q, d, dv⟩ ⟨Q, r, pr⟩ = .ok ⟨r, d, fun i j => ∑ q ∈ range Q, w q * (pr q i * dv q j)⟩ := by
    unfold mixedB
    rw [hS.weights, DMat.mulDiag_ok _ _ (by rw [vecOf_length]; rfl), except_ok_bind, DMat.mul_ok _ _ (by rfl)]
    dsimp only [DMat.tr]
    congr 2
    funext i j
    exact sum_congr rfl fun q hq => by rw [vecOf_getD _ (mem_range.1 hq)]; ring
  have hF : cellForcing (evalScalar space.internal.points test.source) ⟨Q, r, pr⟩ space.internal.weights
      = .ok ⟨r, 1, fun i _ => ∑ q ∈ range Q, w q * (test.source (x q) * pr q i)⟩ := by
    rw [hS.weights, hS.points, show evalScalar (vecOf Q x) test.source = vecOf Q fun q => test.source (x q) from by simp [evalScalar, vecOf], cellForcing_ok]
    simp only [cellForcing_ent]
  have hM' : cellReactionSame (evalScalar space.internal.points test.reaction) ⟨Q, r, pr⟩ space.internal.weights = .ok ⟨r, r, M⟩ := by
    rw [hS.weights, hS.points, show evalScalar (vecOf Q x) test.reaction = vecOf Q fun q => test.reaction (x q) from by simp [evalScalar, vecOf]]
    exact hM
  have hT' : cellAdvection (evalComponents 3 space.internal.points test.advection) ⟨Q, r, pr⟩ [⟨Q, d, vel 0⟩, ⟨Q, d, vel 1⟩] space.internal.weights = .ok ⟨r, d, T⟩ := by
    rw [hS.weights, hS.points, pair_vecOf fun e => (⟨Q, d, vel e⟩ : DMat ℝ), show evalComponents 3 (vecOf Q x) test.advection = _ from eval_vecOf 3 Q x test.advection]
    exact hT
  unfold mixedLocal
  rw [hS.velocity, except_ok_bind, hS.divergence, except_ok_bind, hS.pressure, except_ok_bind, hA, except_ok_bind, hM', except_ok_bind, hT', except_ok_bind, hB,
    except_ok_bind, hF, except_ok_bind, hMe', hTe']

/-- The value of a table at point `q` combined with a vector. -/
def comb (n : Nat) (T : Nat → Nat → ℝ) (v : Nat → ℝ) (q : Nat) : ℝ := ∑ j ∈ range n, v j * T q j

/-- The block matrix and its form. -/
theorem blocks_ok (nu np : Nat) (a b t m : Nat → Nat → ℝ) (f : Nat → Nat → ℝ) :
    ∃ A, mixedMatrix (nu + np) ⟨⟨nu, nu, a⟩, ⟨np, nu, b⟩, ⟨np, nu, t⟩, ⟨np, np, m⟩, ⟨np, 1, f⟩⟩ = .ok A ∧ A.rows = nu + np ∧ A.cols = nu + np ∧
      ∀ z v r : Nat → ℝ, ∑ j ∈ range nu, v j * apply A z j + ∑ j ∈ range np, r j * apply A z (nu + j)
        = form nu nu a v z - form np nu b (fun j => z (nu + j)) v - form np nu t (fun j => z (nu + j)) v + form np nu b r z + form np np m r (fun j => z (nu + j)) := by
  refine ⟨⟨nu + np, nu + np, fun i j => if i < nu then (if j < nu then a i j else (-1) * (b (j - nu) i + t (j - nu) i)) else
    (if j < nu then b (i - nu) j else m (i - nu) (j - nu))⟩, ?_, rfl, rfl, ?_⟩
  · unfold mixedMatrix
    dsimp only
    rw [DMat.add_ok _ _ (by rfl) (by rfl), except_ok_bind, beside_ok _ _ _ _ (by rfl) (by rfl) (by rfl), except_ok_bind, beside_ok _ _ _ _ (by rfl) (by rfl) (by rfl), except_ok_bind,
      stack_ok _ _ _ _ (by rfl) (by rfl) (by rfl)]
    rfl
  · intro z v r
    have h1 : ∀ j ∈ range nu, v j * apply (⟨nu + np, nu + np, fun i j => if i < nu then (if j < nu then a i j else (-1) * (b (j - nu) i + t (j - nu) i)) else
        (if j < nu then b (i - nu) j else m (i - nu) (j - nu))⟩ : DMat ℝ) z j
        = v j * (∑ i ∈ range nu, a j i * z i) - ∑ i ∈ range np, z (nu + i) * (b i j * v j) - ∑ i ∈ range np, z (nu + i) * (t i j * v j) := by
      intro j hj
      have hj := mem_range.1 hj
      rw [apply, sum_range_add]
      simp only [if_pos hj]
      rw [sum_congr rfl fun i hi => show (if i < nu then a j i else -1 * (b (i - nu) j + t (i - nu) j)) * z i = a j i * z i from by rw [if_pos (mem_range.1 hi)],
        mul_add, mul_sum (range np), sub_sub, sub_eq_add_neg, ← sum_add_distrib, ← sum_neg_distrib]
      congr 1
      refine sum_congr rfl fun i _ => ?_
      rw [if_neg (by omega), Nat.add_sub_cancel_left]
      ring
    have h2 : ∀ j ∈ range np, r j * apply (⟨nu + np, nu + np, fun i j => if i < nu then (if j < nu then a i j else (-1) * (b (j - nu) i + t (j - nu) i)) else
        (if j < nu then b (i - nu) j else m (i - nu) (j - nu))⟩ : DMat ℝ) z (nu + j)
        = r j * (∑ i ∈ range nu, b j i * z i) + r j * ∑ i ∈ range np, m j i * z (nu + i) := by
      intro j hj
      rw [apply, sum_range_add, ← mul_add]
      have hn : ¬ nu + j < nu := by omega
      simp only [if_neg hn, Nat.add_sub_cancel_left]
      congr 2
      · exact sum_congr rfl fun i hi => by rw [if_pos (mem_range.1 hi)]
      · exact sum_congr rfl fun i hi => by rw [if_neg (by omega)]
    rw [sum_congr rfl h1, sum_congr rfl h2, sum_add_distrib, sum_sub_distrib, sum_sub_distrib]
    unfold form
    rw [sum_comm (s := range nu) (t := range np) (f := fun j i => z (nu + i) * (b i j * v j)), sum_comm (s := range nu) (t := range np) (f := fun j i => z (nu + i) * (t i j * v j))]
    simp only [mul_sum]
    ring

/-- The right-hand side. -/
theorem blocksRhs_ok (nu np : Nat) (A B T M : DMat ℝ) (f : Nat → ℝ) :
    ∃ b, mixedRhs (nu + np) np ⟨A, B, T, M, ⟨np, 1, fun i _ => f i⟩⟩ = .ok b ∧ b.length = nu + np ∧
      ∀ v r : Nat → ℝ, ∑ j ∈ range nu, v j * b.getD j 0 + ∑ j ∈ range np, r j * b.getD (nu + j) 0 = ∑ j ∈ range np, r j * f j := by
  have e : (⟨np, 1, fun i _ => f i⟩ : DMat ℝ).toList = vecOf np f := rfl
  refine ⟨List.replicate nu 0 ++ vecOf np f, ?_, by rw [List.length_append, List.length_replicate, vecOf_length], fun v r => ?_⟩
  · unfold mixedRhs
    rw [if_pos ⟨Nat.le_add_left _ _, by rfl⟩, e, Nat.add_sub_cancel]
  · rw [sum_eq_zero (s := range nu) fun j hj => ?_, zero_add]
    · refine sum_congr rfl fun j hj => ?_
      rw [← vecOf_getD f (mem_range.1 hj), List.getD_eq_getElem?_getD, List.getElem?_append_right (by simp), List.length_replicate, Nat.add_sub_cancel_left, List.getD_eq_getElem?_getD]
    · have hj := mem_range.1 hj
      rw [List.getD_eq_getElem?_getD, List.getElem?_append_left (by simpa using hj)]
      simp [hj]

theorem form_add (n m : Nat) (F G : Nat → Nat → ℝ) (v u : Nat → ℝ) : form n m (fun i j => F i j + G i j) v u = form n m F v u + form n m G v u := by
  unfold form
  rw [← sum_add_distrib]
  refine sum_congr rfl fun i _ => ?_
  rw [← mul_add, ← sum_add_distrib]
  congr 1
  exact sum_congr rfl fun j _ => by ring

/-- The form of the local matrix. -/
theorem mixedMatrix_ok (hS : MixedTables space Q nu np x w vel dv pr st) (hQ : 0 < Q) (test : MixedTest ℝ) :
    ∃ k l A b, IsGreatest {y | ∃ q < Q, ∃ d < 9, y = |test.inverseDiffusion (x q) d|} k ∧ mixedLocal space test = .ok l ∧ mixedMatrix (nu + np) l = .ok A ∧
      mixedRhs (nu + np) np l = .ok b ∧ A.rows = nu + np ∧ A.cols = nu + np ∧ b.length = nu + np ∧
      (∀ z v r : Nat → ℝ, ∑ j ∈ range nu, v j * apply A z j + ∑ j ∈ range np, r j * apply A z (nu + j)
        = ∑ q ∈ range Q, w q * ((∑ a ∈ range 2, ∑ c ∈ range 2, test.inverseDiffusion (x q) (a + 3 * c) * (comb nu (vel a) v q * comb nu (vel c) z q))
            - comb np pr (fun j => z (nu + j)) q * comb nu dv v q
            - (∑ d ∈ range 2, test.advection (x q) d * (comb np pr (fun j => z (nu + j)) q * comb nu (vel d) v q))
            + comb np pr r q * comb nu dv z q
            + test.reaction (x q) * (comb np pr r q * comb np pr (fun j => z (nu + j)) q))
          + k * ∑ i ∈ range nu, v i * ∑ j ∈ range nu, st i j * z j) ∧
      ∀ v r : Nat → ℝ, ∑ j ∈ range nu, v j * b.getD j 0 + ∑ j ∈ range np, r j * b.getD (nu + j) 0 = ∑ q ∈ range Q, w q * (test.source (x q) * comb np pr r q) := by
  obtain ⟨k, hk, hl⟩ := mixedLocal_ok hS hQ test
  obtain ⟨A, hA, hA1, hA2, hA3⟩ := blocks_ok nu np (fun i j =>
          (∑ q ∈ range Q, w q * ∑ r ∈ range 2, ∑ c ∈ range 2, test.inverseDiffusion (x q) (r + 3 * c) * (vel r q i * vel c q j)) + k * st i j)
    (fun i j => ∑ q ∈ range Q, w q * (pr q i * dv q j)) (fun i j => ∑ q ∈ range Q, w q * ∑ d ∈ range 2, test.advection (x q) d * (pr q i * vel d q j))
    (fun i j => ∑ q ∈ range Q, w q * (test.reaction (x q) * (pr q i * pr q j))) (fun i _ => ∑ q ∈ range Q, w q * (test.source (x q) * pr q i))
  obtain ⟨b, hb, hb1, hb2⟩ := blocksRhs_ok nu np ⟨nu, nu, fun i j =>
          (∑ q ∈ range Q, w q * ∑ r ∈ range 2, ∑ c ∈ range 2, test.inverseDiffusion (x q) (r + 3 * c) * (vel r q i * vel c q j)) + k * st i j⟩
    ⟨np, nu, fun i j => ∑ q ∈ range Q, w q * (pr q i * dv q j)⟩ ⟨np, nu, fun i j => ∑ q ∈ range Q, w q * ∑ d ∈ range 2, test.advection (x q) d * (pr q i * vel d q j)⟩
    ⟨np, np, fun i j => ∑ q ∈ range Q, w q * (test.reaction (x q) * (pr q i * pr q j))⟩ (fun i => ∑ q ∈ range Q, w q * (test.source (x q) * pr q i))
  refine ⟨k, _, A, b, hk, hl, hA, hb, hA1, hA2, hb1, fun z v r => ?_, fun v r => ?_⟩
  · rw [hA3]
    simp only [form_add, form_sum, form_mul, form_prod, mul_add, mul_sub, sum_add_distrib, sum_sub_distrib]
    unfold comb form
    ring
  · rw [hb2]
    simp only [comb, mul_sum]
    rw [sum_comm]
    exact sum_congr rfl fun q _ => sum_congr rfl fun j _ => by ring

end

end PolyDiM
