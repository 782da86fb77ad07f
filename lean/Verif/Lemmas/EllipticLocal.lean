import Verif.Lemmas.BrinkmanLocal
import Verif.Model.AssemblerElliptic2D

/-!
# Lemmas: the local matrix and right-hand side of the advection-diffusion assembler
-/

namespace PolyDiM

open Finset Spec

/-- The tables of a space, entry by entry. -/
structure ETables (space : EllipticCell2D ℝ) (Q n : Nat) (x : Nat → ℝ × ℝ) (w : Nat → ℝ) (val : Nat → Nat → ℝ) (der : Nat → Nat → Nat → ℝ) (st : Nat → Nat → ℝ) : Prop where
  values : space.valuesInt .pi0km1 = .ok ⟨Q, n, val⟩
  derivatives : space.dersInt .pi0km1Der = .ok [⟨Q, n, der 0⟩, ⟨Q, n, der 1⟩]
  stab : space.stab .piNabla = .ok ⟨n, n, st⟩
  points : space.internal.points = vecOf Q x
  weights : space.internal.weights = vecOf Q w

/-- The derivative along the advection. -/
def along (β : Nat → ℝ) (d : Nat → ℝ) : ℝ := β 0 * d 0 + β 1 * d 1

theorem supgVander_ok (Q n : Nat) (β : Nat → Nat → ℝ) (der : Nat → Nat → Nat → ℝ) :
    supgVander (vecOf 3 fun d => vecOf Q (β d)) [⟨Q, n, der 0⟩, ⟨Q, n, der 1⟩] =
      .ok ⟨Q, n, fun q i => (vecOf Q (β 0)).getD q 0 * der 0 q i + (vecOf Q (β 1)).getD q 0 * der 1 q i⟩ := by
  unfold supgVander
  rw [atIdx_vecOf _ (by decide), except_ok_bind]
  show (do let D ← Except.ok _; _) = _
  rw [except_ok_bind, scaleRows, if_pos (vecOf_length Q _), except_ok_bind]
  show (do let A ← (do let v ← atIdx (vecOf 3 fun d => vecOf Q (β d)) 1; _); _) = _
  rw [atIdx_vecOf _ (by decide), except_ok_bind]
  show (do let A ← (do let D ← Except.ok _; _); _) = _
  rw [except_ok_bind, scaleRows, if_pos (vecOf_length Q _), except_ok_bind, DMat.add_ok _ _ (by rfl) (by rfl), except_ok_bind]
  rfl

theorem supgMatrix_ok (Q n : Nat) (β : Nat → Nat → ℝ) (κ w : Nat → ℝ) (der : Nat → Nat → Nat → ℝ) (lap : Nat → Nat → ℝ) :
    supgMatrix (vecOf 3 fun d => vecOf Q (β d)) (vecOf Q κ) ⟨Q, n, lap⟩ [⟨Q, n, der 0⟩, ⟨Q, n, der 1⟩] (vecOf Q w) =
      .ok ⟨n, n, fun i j => ∑ q ∈ range Q, w q * (along (β · q) (der · q i) * (along (β · q) (der · q j) - κ q * lap q j))⟩ := by
  unfold supgMatrix
  rw [supgVander_ok, except_ok_bind, scaleRows, if_pos (vecOf_length Q _), except_ok_bind, cwise_ok, except_ok_bind, scaleRows, if_pos (vecOf_length Q _), except_ok_bind,
    DMat.add_ok _ _ (by rfl) (by rfl), except_ok_bind, DMat.mul_ok _ _ (by rfl)]
  dsimp only [DMat.tr, DMat.smul]
  congr 2
  funext i j
  refine sum_congr rfl fun q hq => ?_
  have hq := mem_range.1 hq
  rw [vecOf_getD _ hq, vecOf_getD _ hq, vecOf_getD _ hq, vecOf_getD _ hq, along, along]
  ring

theorem supgForcing_ok (Q n : Nat) (β : Nat → Nat → ℝ) (f w : Nat → ℝ) (der : Nat → Nat → Nat → ℝ) :
    supgForcing (vecOf 3 fun d => vecOf Q (β d)) (vecOf Q f) [⟨Q, n, der 0⟩, ⟨Q, n, der 1⟩] (vecOf Q w) =
      .ok ⟨n, 1, fun i _ => ∑ q ∈ range Q, w q * (f q * along (β · q) (der · q i))⟩ := by
  unfold supgForcing
  rw [supgVander_ok, except_ok_bind, DMat.mulDiag_ok _ _ (by rw [vecOf_length]; rfl), except_ok_bind,
    DMat.mul_ok _ _ (by rw [show (DMat.col (vecOf Q f)).rows = Q from vecOf_length Q f]; rfl)]
  dsimp only [DMat.tr, DMat.col]
  congr 2
  funext i j
  refine sum_congr rfl fun q hq => ?_
  have hq := mem_range.1 hq
  rw [vecOf_getD _ hq, vecOf_getD _ hq, vecOf_getD _ hq, vecOf_getD _ hq, along]
  ring

theorem advectionNorm_ok (Q : Nat) (β : Nat → Nat → ℝ) (w : Nat → ℝ) :
    advectionNorm (vecOf 3 fun d => vecOf Q (β d)) (vecOf Q w) = .ok (∑ q ∈ range Q, w q * (β 0 q ^ 2 + β 1 q ^ 2)) := by
  unfold advectionNorm
  rw [unchecked_vecOf _ (by decide), except_ok_bind, unchecked_vecOf _ (by decide), except_ok_bind, if_pos (by simp only [vecOf_length]; exact ⟨trivial, trivial⟩), vecOf_length]
  congr 1
  refine sum_congr rfl fun q hq => ?_
  have hq := mem_range.1 hq
  rw [vecOf_getD _ hq, vecOf_getD _ hq, vecOf_getD _ hq]

section
variable {space : EllipticCell2D ℝ} {Q n : Nat} {x : Nat → ℝ × ℝ} {w : Nat → ℝ} {val : Nat → Nat → ℝ} {der : Nat → Nat → Nat → ℝ} {st : Nat → Nat → ℝ}

/-- The stability parameter, and the Laplacian if it is used. -/
def SupgData (config : EllipticConfig ℝ) (space : EllipticCell2D ℝ) (Q n : Nat) (h b k : ℝ) (lap : Nat → Nat → ℝ) (τ : ℝ) : Prop :=
  config.supg = false ∧ τ = 0 ∨
    config.supg = true ∧ space.laplacian .pi0km1Der = .ok ⟨Q, n, lap⟩ ∧ stabilityParameter h b (pecletNumber config.peclet h b k) = .ok τ

theorem ellipticLocal_ok (hS : ETables space Q n x w val der st) (hQ : 0 < Q) (config : EllipticConfig ℝ) (h : ℝ) (test : EllipticTest ℝ) :
    ∃ k, IsGreatest {y | ∃ q < Q, y = |test.diffusion (x q)|} k ∧ ∀ lap τ,
      SupgData config space Q n h (∑ q ∈ range Q, w q * (test.advection (x q) 0 ^ 2 + test.advection (x q) 1 ^ 2)) k lap τ →
      ∃ l, ellipticLocal config space h test = .ok l ∧ l.stability = τ ∧
        l.peclet = pecletNumber config.peclet h (∑ q ∈ range Q, w q * (test.advection (x q) 0 ^ 2 + test.advection (x q) 1 ^ 2)) k ∧
        l.matrix = ⟨n, n, fun i j => ∑ q ∈ range Q, w q * (test.diffusion (x q) * (der 0 q i * der 0 q j + der 1 q i * der 1 q j)
            + val q i * along (test.advection (x q)) (der · q j)
            + τ * (along (test.advection (x q)) (der · q i) * (along (test.advection (x q)) (der · q j) - test.diffusion (x q) * lap q j)))
          + (k + τ * ∑ q ∈ range Q, w q * (test.advection (x q) 0 ^ 2 + test.advection (x q) 1 ^ 2)) * st i j⟩ ∧
        l.rhs.rows = n ∧ l.rhs.cols = 1 ∧
        ∀ i, l.rhs.ent i 0 = ∑ q ∈ range Q, w q * (test.source (x q) * (val q i + τ * along (test.advection (x q)) (der · q i))) := by
  obtain ⟨k, hk, hkg⟩ := maxAbs_great hQ fun q => test.diffusion (x q)
  refine ⟨k, hkg, fun lap τ hτ => ?_⟩
  obtain ⟨E, hE, hEr, hEc, hEe, -⟩ := C53_diffusion Q n n 2 (by decide) w (fun q => test.diffusion (x q)) der der
  obtain ⟨B, hB, hBr, hBc, hBe, -⟩ := C53_advection Q n n 2 (by decide) (by decide) w (fun d q => test.advection (x q) d) val der
  obtain ⟨F, hF, hFr, hFc, hFe, -⟩ := C53_forcing Q n w (fun q => test.source (x q)) val
  have hd : evalScalar space.internal.points test.diffusion = vecOf Q fun q => test.diffusion (x q) := by rw [hS.points, evalScalar_vecOf]
  have hs : evalScalar space.internal.points test.source = vecOf Q fun q => test.source (x q) := by rw [hS.points, evalScalar_vecOf]
  have ha : evalComponents 3 space.internal.points test.advection = vecOf 3 fun d => vecOf Q fun q => test.advection (x q) d := by
    rw [hS.points]
    exact eval_vecOf 3 Q x test.advection
  have e2 : [(⟨Q, n, der 0⟩ : DMat ℝ), ⟨Q, n, der 1⟩] = vecOf 2 fun e => (⟨Q, n, der e⟩ : DMat ℝ) := rfl
  have hE' : cellDiffusionSame (vecOf Q fun q => test.diffusion (x q)) [(⟨Q, n, der 0⟩ : DMat ℝ), ⟨Q, n, der 1⟩] (vecOf Q w) = .ok E := hE
  have hB' : cellAdvection (vecOf 3 fun d => vecOf Q fun q => test.advection (x q) d) ⟨Q, n, val⟩ [(⟨Q, n, der 0⟩ : DMat ℝ), ⟨Q, n, der 1⟩] (vecOf Q w) = .ok B := hB
  have hF' : cellForcing (vecOf Q fun q => test.source (x q)) ⟨Q, n, val⟩ (vecOf Q w) = .ok F := hF
  obtain ⟨r, c, E⟩ := E
  obtain rfl : r = n := hEr
  obtain rfl : c = r := hEc
  obtain ⟨r, d, B⟩ := B
  obtain rfl : r = c := hBr
  obtain rfl : d = r := hBc
  obtain ⟨r, c, F⟩ := F
  obtain rfl : r = d := hFr
  obtain rfl : c = 1 := hFc
  dsimp only at hEe hBe hFe
  unfold ellipticLocal
  rw [hS.values, except_ok_bind, hS.derivatives, except_ok_bind, hd, hs, ha, hS.weights]
  dsimp only
  rw [hE', except_ok_bind, hB', except_ok_bind, hF', except_ok_bind, advectionNorm_ok, except_ok_bind, hk, except_ok_bind]
  have key : ∃ B' F', supgTerms config space h (∑ q ∈ range Q, w q * (test.advection (x q) 0 ^ 2 + test.advection (x q) 1 ^ 2))
      (pecletNumber config.peclet h (∑ q ∈ range Q, w q * (test.advection (x q) 0 ^ 2 + test.advection (x q) 1 ^ 2)) k) (vecOf Q fun q => test.diffusion (x q))
      (vecOf 3 fun d => vecOf Q fun q => test.advection (x q) d) (vecOf Q fun q => test.source (x q)) [(⟨Q, r, der 0⟩ : DMat ℝ), ⟨Q, r, der 1⟩] ⟨r, r, B⟩ ⟨r, 1, F⟩
      = .ok (⟨r, r, B'⟩, ⟨r, 1, F'⟩, τ) ∧
      (∀ i j, B' i j = ∑ q ∈ range Q, w q * (val q i * along (test.advection (x q)) (der · q j)
            + τ * (along (test.advection (x q)) (der · q i) * (along (test.advection (x q)) (der · q j) - test.diffusion (x q) * lap q j)))) ∧
      ∀ i, F' i 0 = ∑ q ∈ range Q, w q * (test.source (x q) * (val q i + τ * along (test.advection (x q)) (der · q i))) := by
    have hB0 : ∀ i j, B i j = ∑ q ∈ range Q, w q * (val q i * along (test.advection (x q)) (der · q j)) := by
      intro i j
      rw [hBe]
      refine sum_congr rfl fun q _ => ?_
      rw [sum_range_succ, sum_range_succ, sum_range_zero, along]
      ring
    rcases hτ with ⟨hc, rfl⟩ | ⟨hc, hl, hp⟩
    · refine ⟨B, F, by rw [supgTerms, hc]; rfl, fun i j => ?_, fun i => ?_⟩
      · rw [hB0]
        simp only [zero_mul, add_zero]
      · rw [hFe]
        simp only [zero_mul, add_zero]
    · refine ⟨fun i j => B i j + τ * ∑ q ∈ range Q, w q * (along (test.advection (x q)) (der · q i) * (along (test.advection (x q)) (der · q j)
          - test.diffusion (x q) * lap q j)), fun i j => F i j + τ * ∑ q ∈ range Q, w q * (test.source (x q) * along (test.advection (x q)) (der · q i)), ?_, fun i j => ?_, fun i => ?_⟩
      · unfold supgTerms
        rw [hc, if_pos rfl, hp, except_ok_bind, hl, except_ok_bind, hS.weights, supgMatrix_ok, except_ok_bind, DMat.add_ok _ _ (by rfl) (by rfl), except_ok_bind, supgForcing_ok,
          except_ok_bind, DMat.add_ok _ _ (by rfl) (by rfl), except_ok_bind]
        rfl
      · beta_reduce
        rw [hB0, mul_sum, ← sum_add_distrib]
        refine sum_congr rfl fun q _ => ?_
        ring
      · beta_reduce
        rw [hFe, mul_sum, ← sum_add_distrib]
        refine sum_congr rfl fun q _ => ?_
        ring
  obtain ⟨B', F', hst, hB1, hF1⟩ := key
  rw [hst, except_ok_bind]
  dsimp only
  rw [hS.stab, except_ok_bind, DMat.add_ok _ _ (by rfl) (by rfl), except_ok_bind, DMat.add_ok _ _ (by rfl) (by rfl), except_ok_bind]
  refine ⟨_, rfl, rfl, rfl, ?_, rfl, rfl, hF1⟩
  dsimp only [DMat.smul]
  congr 1
  funext i j
  rw [hEe, hB1]
  rw [show ∀ a b c : ℝ, a + b + c = a + c + b from fun a b c => by ring, ← sum_add_distrib]
  congr 1
  refine sum_congr rfl fun q _ => ?_
  rw [sum_range_succ, sum_range_succ, sum_range_zero]
  ring

end

/-- The faults of the SUPG terms. -/
theorem ellipticLocal_fault {val : Nat → Nat → ℝ} (hS : ETables space Q n x w val der st) (hQ : 0 < Q) {config : EllipticConfig ℝ} (h : ℝ) (test : EllipticTest ℝ) (hc : config.supg = true) {e : Fault}
    (hf : (∑ q ∈ range Q, w q * (test.advection (x q) 0 ^ 2 + test.advection (x q) 1 ^ 2)) = 0 ∧ e = .notANumber ∨
      (∑ q ∈ range Q, w q * (test.advection (x q) 0 ^ 2 + test.advection (x q) 1 ^ 2)) ≠ 0 ∧ space.laplacian .pi0km1Der = .error e) :
    ellipticLocal config space h test = .error e := by
  obtain ⟨k, hk, -⟩ := maxAbs_great hQ fun q => test.diffusion (x q)
  obtain ⟨E, hE, -⟩ := C53_diffusion Q n n 2 (by decide) w (fun q => test.diffusion (x q)) der der
  obtain ⟨B, hB, -⟩ := C53_advection Q n n 2 (by decide) (by decide) w (fun d q => test.advection (x q) d) val der
  obtain ⟨F, hF, -⟩ := C53_forcing Q n w (fun q => test.source (x q)) val
  have hd : evalScalar space.internal.points test.diffusion = vecOf Q fun q => test.diffusion (x q) := by rw [hS.points, evalScalar_vecOf]
  have hs : evalScalar space.internal.points test.source = vecOf Q fun q => test.source (x q) := by rw [hS.points, evalScalar_vecOf]
  have ha : evalComponents 3 space.internal.points test.advection = vecOf 3 fun d => vecOf Q fun q => test.advection (x q) d := by
    rw [hS.points]
    exact eval_vecOf 3 Q x test.advection
  have hE' : cellDiffusionSame (vecOf Q fun q => test.diffusion (x q)) [(⟨Q, n, der 0⟩ : DMat ℝ), ⟨Q, n, der 1⟩] (vecOf Q w) = .ok E := hE
  have hB' : cellAdvection (vecOf 3 fun d => vecOf Q fun q => test.advection (x q) d) ⟨Q, n, val⟩ [(⟨Q, n, der 0⟩ : DMat ℝ), ⟨Q, n, der 1⟩] (vecOf Q w) = .ok B := hB
  have hF' : cellForcing (vecOf Q fun q => test.source (x q)) ⟨Q, n, val⟩ (vecOf Q w) = .ok F := hF
  unfold ellipticLocal
  rw [hS.values, except_ok_bind, hS.derivatives, except_ok_bind, hd, hs, ha, hS.weights]
  dsimp only
  rw [hE', except_ok_bind, hB', except_ok_bind, hF', except_ok_bind, advectionNorm_ok, except_ok_bind, hk, except_ok_bind]
  unfold supgTerms
  rw [hc, if_pos rfl]
  generalize (∑ q ∈ range Q, w q * (test.advection (x q) 0 ^ 2 + test.advection (x q) 1 ^ 2)) = b at hf
  generalize pecletNumber config.peclet h b k = p
  rcases hf with ⟨h0, rfl⟩ | ⟨h0, hl⟩
  · have : stabilityParameter h b p = .error .notANumber := by
      unfold stabilityParameter
      rw [if_pos h0]
    rw [this]
    rfl
  · have : ∃ τ, stabilityParameter h b p = .ok τ := by
      unfold stabilityParameter
      rw [if_neg h0]
      cases p
      · exact ⟨_, rfl⟩
      · exact ⟨_, rfl⟩
    obtain ⟨τ, hτ⟩ := this
    rw [hτ, hl]
    rfl

end PolyDiM
