import Verif.Lemmas.AssemblerPcc2D
import Verif.Spec.AssemblerPcc2D

/-!
# The local matrices of the assembler in the plane (C84)
-/

namespace PolyDiM

open Finset Spec

section
variable {K : Type} [Field K] [LinearOrder K] [IsStrictOrderedRing K]
  {trial test : Space2D K} {Q n m : Nat} {x : Nat → K × K} {w : Nat → K} {S T : Nat → Nat → K} {SD TD : Nat → Nat → Nat → K}

theorem localDiffusion_ok (hD : Tabulated trial test Q n m x w S T SD TD) (hQ : 0 < Q) (σ : Nat → Nat → K) (hσ : n = m → test.stab .piNabla = .ok ⟨n, n, σ⟩)
    (κ : K × K → Nat → K) (A : Nat → Nat → K) :
    ∃ k, IsGreatest {y | ∃ q < Q, ∃ c < 9, y = |κ (x q) c|} k ∧
      localDiffusion trial test [⟨Q, m, SD 0⟩, ⟨Q, m, SD 1⟩] [⟨Q, n, TD 0⟩, ⟨Q, n, TD 1⟩] (evalComponents 9 trial.internal.points κ) ⟨n, m, A⟩
        = .ok ⟨n, m, fun i j => A i j + (∑ q ∈ range Q, w q * ∑ r ∈ range 2, ∑ c ∈ range 2, κ (x q) (r + 3 * c) * (TD r q i * SD c q j))
          + if n = m then k * σ i j else 0⟩ := by
  obtain ⟨k, hk, hg⟩ := kMax_ok (D := 9) (by decide) hQ fun q d => κ (x q) d
  refine ⟨k, hg, ?_⟩
  obtain ⟨B, hB, hr, hc, he, -⟩ := C53_tensor Q n m 2 (by decide) (by decide) w (fun r c q => κ (x q) (r + 3 * c)) TD SD
  have hval : evalComponents 9 trial.internal.points κ = vecOf 9 fun c => vecOf Q fun q => κ (x q) c := by
    rw [hD.points]
    exact eval_vecOf 9 Q x κ
  have hval' : (List.range 9).map (fun c => (List.range Q).map fun q => κ (x q) (c % 3 + 3 * (c / 3))) = vecOf 9 fun c => vecOf Q fun q => κ (x q) c := by
    simp only [Nat.mod_add_div]
    rfl
  rw [hval'] at hB
  obtain ⟨r, c, B⟩ := B
  obtain rfl : r = n := hr
  obtain rfl : c = m := hc
  unfold localDiffusion
  rw [hval, hD.weights, pair_vecOf fun d => (⟨Q, c, SD d⟩ : DMat K), pair_vecOf fun d => (⟨Q, r, TD d⟩ : DMat K)]
  unfold vecOf at hB ⊢
  rw [hB, except_ok_bind, DMat.add_ok _ _ (by rfl) (by rfl), except_ok_bind, hD.testSize, hD.trialSize]
  have he' : ∀ i j, B i j = ∑ q ∈ range Q, w q * ∑ r ∈ range 2, ∑ c ∈ range 2, κ (x q) (r + 3 * c) * (TD r q i * SD c q j) := he
  by_cases h : r = c
  · have hk' : kMax ((List.range 9).map fun d => (List.range Q).map fun q => κ (x q) d) = .ok k := hk
    rw [if_pos h, hk', except_ok_bind, hσ h, except_ok_bind, DMat.add_ok _ _ (by rfl) (by exact h.symm)]
    simp only [h, if_true, DMat.smul, he']
  · rw [if_neg h]
    simp only [h, if_false, he', add_zero]

omit [LinearOrder K] [IsStrictOrderedRing K] in
theorem localAdvection_ok (hD : Tabulated trial test Q n m x w S T SD TD) (β : K × K → Nat → K) (A : Nat → Nat → K) :
    localAdvection trial ⟨Q, n, T⟩ [⟨Q, m, SD 0⟩, ⟨Q, m, SD 1⟩] (evalComponents 3 trial.internal.points β) ⟨n, m, A⟩
      = .ok ⟨n, m, fun i j => A i j + ∑ q ∈ range Q, w q * ∑ d ∈ range 2, β (x q) d * (T q i * SD d q j)⟩ := by
  obtain ⟨B, hB, hr, hc, he, -⟩ := C53_advection Q n m 2 (by decide) (by decide) w (fun d q => β (x q) d) T SD
  obtain ⟨r, c, B⟩ := B
  obtain rfl : r = n := hr
  obtain rfl : c = m := hc
  have he' : ∀ i j, B i j = ∑ q ∈ range Q, w q * ∑ d ∈ range 2, β (x q) d * (T q i * SD d q j) := he
  unfold localAdvection
  rw [hD.points, hD.weights, pair_vecOf fun d => (⟨Q, c, SD d⟩ : DMat K), show evalComponents 3 ((List.range Q).map x) β = _ from eval_vecOf 3 Q x β]
  unfold vecOf
  rw [hB, except_ok_bind, DMat.add_ok _ _ (by rfl) (by rfl)]
  simp only [he']

omit [LinearOrder K] [IsStrictOrderedRing K] in
theorem localReaction_ok (hD : Tabulated trial test Q n m x w S T SD TD) (γ : K × K → K) (A : Nat → Nat → K) :
    localReaction trial ⟨Q, n, T⟩ ⟨Q, m, S⟩ (evalScalar trial.internal.points γ) ⟨n, m, A⟩
      = .ok ⟨n, m, fun i j => A i j + ∑ q ∈ range Q, w q * (γ (x q) * (T q i * S q j))⟩ := by
  obtain ⟨B, hB, hr, hc, he, -⟩ := C53_reaction Q n m w (fun q => γ (x q)) T S
  obtain ⟨r, c, B⟩ := B
  obtain rfl : r = n := hr
  obtain rfl : c = m := hc
  have he' : ∀ i j, B i j = ∑ q ∈ range Q, w q * (γ (x q) * (T q i * S q j)) := he
  unfold localReaction
  rw [hD.points, hD.weights, show evalScalar ((List.range Q).map x) γ = _ from evalScalar_vecOf Q x γ]
  unfold vecOf
  rw [hB, except_ok_bind, DMat.add_ok _ _ (by rfl) (by rfl)]
  simp only [he']

/-- C84: for any coefficients, present or not, and any two spaces that deliver the values of their functions at the quadrature points of the trial
space, the local matrix is computed and its entries are the quadrature of diffusion, advection and reaction of test function `i` and trial function
`j`. If a diffusion coefficient is given and the spaces have the same size, the stabilization of the test space is added once, times the largest
absolute value of an entry of the tensor at a quadrature point. -/
theorem C84_local (hD : Tabulated trial test Q n m x w S T SD TD) (hQ : 0 < Q) (σ : Nat → Nat → K) (hσ : n = m → test.stab .piNabla = .ok ⟨n, n, σ⟩)
    (κ β : Option (K × K → Nat → K)) (γ : Option (K × K → K)) :
    ∃ A k, localElliptic trial test κ β γ = .ok A ∧ A.rows = n ∧ A.cols = m ∧ (∀ f, κ = some f → IsGreatest {y | ∃ q < Q, ∃ c < 9, y = |f (x q) c|} k) ∧
      ∀ i j, A.ent i j
        = (κ.elim 0 fun f => ∑ q ∈ range Q, w q * ∑ r ∈ range 2, ∑ c ∈ range 2, f (x q) (r + 3 * c) * (TD r q i * SD c q j))
          + (κ.elim 0 fun _ => if n = m then k * σ i j else 0)
          + (β.elim 0 fun f => ∑ q ∈ range Q, w q * ∑ d ∈ range 2, f (x q) d * (T q i * SD d q j))
          + γ.elim 0 fun f => ∑ q ∈ range Q, w q * (f (x q) * (T q i * S q j)) := by
  have start : localElliptic trial test κ β γ = (do
      let A ← onTerm κ (fun f => localDiffusion trial test [⟨Q, m, SD 0⟩, ⟨Q, m, SD 1⟩] [⟨Q, n, TD 0⟩, ⟨Q, n, TD 1⟩] (evalComponents 9 trial.internal.points f)) (.zero n m)
      let A ← onTerm β (fun f => localAdvection trial ⟨Q, n, T⟩ [⟨Q, m, SD 0⟩, ⟨Q, m, SD 1⟩] (evalComponents 3 trial.internal.points f)) A
      onTerm γ (fun f => localReaction trial ⟨Q, n, T⟩ ⟨Q, m, S⟩ (evalScalar trial.internal.points f)) A) := by
    unfold localElliptic
    rw [hD.trialValues, except_ok_bind, hD.trialDers, except_ok_bind, hD.testValues, except_ok_bind, hD.testDers, except_ok_bind, hD.testSize, hD.trialSize]
  have h1 : ∃ k, (∀ f, κ = some f → IsGreatest {y | ∃ q < Q, ∃ c < 9, y = |f (x q) c|} k) ∧
      onTerm κ (fun f => localDiffusion trial test [⟨Q, m, SD 0⟩, ⟨Q, m, SD 1⟩] [⟨Q, n, TD 0⟩, ⟨Q, n, TD 1⟩] (evalComponents 9 trial.internal.points f)) (.zero n m)
        = .ok ⟨n, m, fun i j => (κ.elim 0 fun f => ∑ q ∈ range Q, w q * ∑ r ∈ range 2, ∑ c ∈ range 2, f (x q) (r + 3 * c) * (TD r q i * SD c q j))
          + κ.elim 0 fun _ => if n = m then k * σ i j else 0⟩ := by
    cases κ with
    | none =>
      refine ⟨0, by simp, ?_⟩
      simp only [onTerm, Option.elim, add_zero, DMat.zero]
    | some f =>
      obtain ⟨k, hk, e⟩ := localDiffusion_ok hD hQ σ hσ f fun _ _ => 0
      refine ⟨k, fun g hg => by rw [← Option.some.inj hg]; exact hk, ?_⟩
      simp only [onTerm, Option.elim, DMat.zero, e, zero_add]
  obtain ⟨k, hk, h1⟩ := h1
  have h2 : ∀ A : Nat → Nat → K, onTerm β (fun f => localAdvection trial ⟨Q, n, T⟩ [⟨Q, m, SD 0⟩, ⟨Q, m, SD 1⟩] (evalComponents 3 trial.internal.points f)) ⟨n, m, A⟩
      = .ok ⟨n, m, fun i j => A i j + β.elim 0 fun f => ∑ q ∈ range Q, w q * ∑ d ∈ range 2, f (x q) d * (T q i * SD d q j)⟩ := by
    intro A
    cases β with
    | none => simp only [onTerm, Option.elim, add_zero]
    | some f => simp only [onTerm, Option.elim, localAdvection_ok hD]
  have h3 : ∀ A : Nat → Nat → K, onTerm γ (fun f => localReaction trial ⟨Q, n, T⟩ ⟨Q, m, S⟩ (evalScalar trial.internal.points f)) ⟨n, m, A⟩
      = .ok ⟨n, m, fun i j => A i j + γ.elim 0 fun f => ∑ q ∈ range Q, w q * (f (x q) * (T q i * S q j))⟩ := by
    intro A
    cases γ with
    | none => simp only [onTerm, Option.elim, add_zero]
    | some f => simp only [onTerm, Option.elim, localReaction_ok hD]
  exact ⟨_, k, by rw [start, h1, except_ok_bind, h2, except_ok_bind, h3], rfl, rfl, hk, fun i j => rfl⟩

omit [LinearOrder K] [IsStrictOrderedRing K] in
/-- C84, the right-hand side: the quadrature of datum times test function. -/
theorem C84_source (hD : Tabulated trial test Q n m x w S T SD TD) (f : K × K → K) :
    ∃ b, localSource trial test f = .ok b ∧ b.rows = n ∧ b.cols = 1 ∧ ∀ i, b.ent i 0 = ∑ q ∈ range Q, w q * (f (x q) * T q i) := by
  obtain ⟨b, hb, hr, hc, he, -⟩ := C53_forcing Q n w (fun q => f (x q)) T
  refine ⟨b, ?_, hr, hc, he⟩
  unfold localSource
  rw [hD.testValues, except_ok_bind, hD.points, hD.weights, show evalScalar ((List.range Q).map x) f = _ from evalScalar_vecOf Q x f]
  exact hb

/-- C84, the operator with a scalar coefficient: it is the coefficient times the product of the gradients, and the stabilization is scaled by the
largest absolute value of the coefficient. -/
theorem C84_isotropic (hD : Tabulated trial test Q n m x w S T SD TD) (hQ : 0 < Q) (σ : Nat → Nat → K) (hσ : n = m → test.stab .piNabla = .ok ⟨n, n, σ⟩)
    (f : K × K → K) :
    ∃ A k, localDiffusionOperator trial test f = .ok A ∧ A.rows = n ∧ A.cols = m ∧ IsGreatest {y | ∃ q < Q, y = |f (x q)|} k ∧
      ∀ i j, A.ent i j = (∑ q ∈ range Q, w q * (f (x q) * ∑ d ∈ range 2, TD d q i * SD d q j)) + if n = m then k * σ i j else 0 := by
  obtain ⟨A, k, hA, hr, hc, hk, he⟩ := C84_local hD hQ σ hσ (some (isotropicTensor f)) none none
  refine ⟨A, k, hA, hr, hc, ?_, fun i j => ?_⟩
  · have hg := hk _ rfl
    constructor
    · obtain ⟨q, hq, c, hc, h⟩ := hg.1
      unfold isotropicTensor at h
      split_ifs at h
      · exact ⟨q, hq, h⟩
      · exact ⟨q, hq, h⟩
      · exact ⟨q, hq, h⟩
      · rw [abs_zero] at h
        refine ⟨q, hq, le_antisymm (h.trans_le (abs_nonneg _)) (hg.2 ⟨q, hq, 0, by decide, ?_⟩)⟩
        rfl
    · rintro y ⟨q, hq, rfl⟩
      exact hg.2 ⟨q, hq, 0, by decide, rfl⟩
  · rw [he]
    simp only [Option.elim, add_zero]
    congr 1
    refine sum_congr rfl fun q _ => ?_
    simp only [sum_range_succ, sum_range_zero, isotropicTensor]
    norm_num
    left
    ring
end

/-- The midpoints of the edges of the reference triangle. -/
def samplePoints : List (ℚ × ℚ) := [(1 / 2, 0), (1 / 2, 1 / 2), (0, 1 / 2)]

/-- The linear functions on the reference triangle, with the midpoints of the edges as quadrature points and the identity as stabilization: an example of a
local space for the theorems of this file. -/
def sampleSpace : Space2D ℚ where
  size := 3
  internal := ⟨samplePoints, [1 / 6, 1 / 6, 1 / 6]⟩
  valuesInt := fun _ => .ok ⟨3, 3, fun q j => ![1 - (samplePoints.getD q 0).1 - (samplePoints.getD q 0).2, (samplePoints.getD q 0).1, (samplePoints.getD q 0).2] (Fin.ofNat 3 j)⟩
  valuesAt := fun _ p => .ok ⟨p.length, 3, fun q j => ![1 - (p.getD q 0).1 - (p.getD q 0).2, (p.getD q 0).1, (p.getD q 0).2] (Fin.ofNat 3 j)⟩
  dersInt := fun _ => .ok [⟨3, 3, fun _ j => ![-1, 1, 0] (Fin.ofNat 3 j)⟩, ⟨3, 3, fun _ j => ![-1, 0, 1] (Fin.ofNat 3 j)⟩]
  dersAt := fun _ p => .ok [⟨p.length, 3, fun _ j => ![-1, 1, 0] (Fin.ofNat 3 j)⟩, ⟨p.length, 3, fun _ j => ![-1, 0, 1] (Fin.ofNat 3 j)⟩]
  stab := fun _ => .ok ⟨3, 3, fun i j => if i = j then 1 else 0⟩

/-- The constants on the same triangle, as a test space of another size. -/
def sampleConstants : Space2D ℚ where
  size := 1
  internal := sampleSpace.internal
  valuesInt := fun _ => .ok ⟨3, 1, fun _ _ => 1⟩
  valuesAt := fun _ p => .ok ⟨p.length, 1, fun _ _ => 1⟩
  dersInt := fun _ => .ok [⟨3, 1, fun _ _ => 0⟩, ⟨3, 1, fun _ _ => 0⟩]
  dersAt := fun _ p => .ok [⟨p.length, 1, fun _ _ => 0⟩, ⟨p.length, 1, fun _ _ => 0⟩]
  stab := fun _ => .error .runtimeError

def sampleX (q : Nat) : ℚ × ℚ := samplePoints.getD q 0
def sampleS (q j : Nat) : ℚ := ![1 - (sampleX q).1 - (sampleX q).2, (sampleX q).1, (sampleX q).2] (Fin.ofNat 3 j)
def sampleD (d _q j : Nat) : ℚ := if d = 0 then ![-1, 1, 0] (Fin.ofNat 3 j) else ![-1, 0, 1] (Fin.ofNat 3 j)

theorem sample_tabulated : Tabulated sampleSpace sampleSpace 3 3 3 sampleX (fun _ => 1 / 6) sampleS sampleS sampleD sampleD := by
  constructor <;> rfl

-- trial and test space of the same size: the stabilization is present
example : Tabulated sampleSpace sampleSpace 3 3 3 sampleX (fun _ => 1 / 6) sampleS sampleS sampleD sampleD ∧ 0 < 3 ∧
    ((3 : Nat) = 3 → sampleSpace.stab .piNabla = .ok ⟨3, 3, fun i j => if i = j then 1 else 0⟩) :=
  ⟨sample_tabulated, by decide, fun _ => rfl⟩

-- different sizes: no stabilization is asked for
example : Tabulated sampleSpace sampleConstants 3 1 3 sampleX (fun _ => 1 / 6) sampleS (fun _ _ => 1) sampleD (fun _ _ _ => 0) ∧ 0 < 3 ∧
    ((1 : Nat) = 3 → sampleConstants.stab .piNabla = .ok ⟨1, 1, fun _ _ => 0⟩) :=
  ⟨by constructor <;> rfl, by decide, fun h => absurd h (by decide)⟩

end PolyDiM
