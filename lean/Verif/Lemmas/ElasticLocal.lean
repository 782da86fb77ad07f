import Verif.Model.AssemblerElastic2D
import Verif.Lemmas.EllipticGlobal

/-!
# Lemmas: the local matrix and right-hand side of the elasticity assembler
-/

namespace PolyDiM

open Spec MvPolynomial Finset

/-- A table with `n` columns written to the columns of component `d` of a table with `2 * n` columns. -/
def wide (Q n d : Nat) (f : Nat → Nat → ℝ) (q i : Nat) : ℝ := if 0 ≤ q ∧ q < 0 + Q ∧ d * n ≤ i ∧ i < d * n + n then f (q - 0) (i - d * n) else 0

/-- The entries of the symmetric gradient. -/
noncomputable def symEntry (Q n : Nat) (der : Nat → Nat → Nat → ℝ) (d1 d2 q i : Nat) : ℝ := 1 / 2 * (wide Q n d1 (der d2) q i + wide Q n d2 (der d1) q i)

theorem wide_sum {Q n d q : Nat} (hd : d < 2) (hq : q < Q) (f : Nat → Nat → ℝ) (v : Nat → ℝ) :
    ∑ i ∈ range (2 * n), v i * wide Q n d f q i = ∑ i ∈ range n, v (d * n + i) * f q i := by
  have h : ∀ i, wide Q n d f q i = if d * n ≤ i ∧ i < d * n + n then f q (i - d * n) else 0 := by
    intro i
    unfold wide
    simp only [Nat.zero_le, true_and, zero_add, hq, Nat.sub_zero]
  rw [two_mul, sum_range_add]
  obtain rfl | rfl : d = 0 ∨ d = 1 := by omega
  · rw [sum_eq_zero (s := range n) (f := fun i => v (n + i) * wide Q n 0 f q (n + i)), add_zero]
    · refine sum_congr rfl fun i hi => ?_
      rw [h, if_pos (by have := mem_range.1 hi; omega)]
      simp
    · intro i _
      rw [h, if_neg (by omega), mul_zero]
  · rw [sum_eq_zero (s := range n), zero_add]
    · refine sum_congr rfl fun i hi => ?_
      rw [h, if_pos (by have := mem_range.1 hi; omega)]
      simp
    · intro i hi
      rw [h, if_neg (by have := mem_range.1 hi; omega), mul_zero]

section tables
variable {space : CellSpace2D ℝ} {Q n : Nat} {x : Nat → ℝ × ℝ} {w : Nat → ℝ} {val : Nat → Nat → ℝ} {der : Nat → Nat → Nat → ℝ} {st : Nat → Nat → ℝ}

theorem elasticValues_ok (hv : space.valuesInt .pi0k = .ok ⟨Q, n, val⟩) :
    elasticValues space = .ok ((List.range 2).map fun d => ⟨Q, 2 * n, wide Q n d val⟩) := by
  unfold elasticValues
  rw [hv, except_ok_bind]
  refine mapM_ok _ _ _ fun d hd => ?_
  have hd := List.mem_range.1 hd
  rw [DMat.assign_ok _ _ _ _ _ _ (by rfl) (by rfl) (by simp [DMat.zero]) (by simp only [DMat.zero]; nlinarith)]
  rfl

theorem elasticDers_ok (hd : space.dersInt .pi0km1Der = .ok [⟨Q, n, der 0⟩, ⟨Q, n, der 1⟩]) :
    elasticDers space = .ok [⟨Q, 2 * n, wide Q n 0 (der 0)⟩, ⟨Q, 2 * n, wide Q n 0 (der 1)⟩, ⟨Q, 2 * n, wide Q n 1 (der 0)⟩, ⟨Q, 2 * n, wide Q n 1 (der 1)⟩] := by
  unfold elasticDers
  rw [hd, except_ok_bind]
  show (do let D0 ← Except.ok (⟨Q, n, der 0⟩ : DMat ℝ); _) = _
  rw [except_ok_bind]
  have h : ∀ d1 ∈ List.range 2, ((List.range 2).mapM fun d2 => do
      let D ← unchecked [(⟨Q, n, der 0⟩ : DMat ℝ), ⟨Q, n, der 1⟩] d2
      (DMat.zero Q (2 * n)).assign 0 (d1 * n) Q n D)
      = .ok ((List.range 2).map fun d2 => (⟨Q, 2 * n, wide Q n d1 (der d2)⟩ : DMat ℝ)) := by
    intro d1 h1
    have h1 := List.mem_range.1 h1
    refine mapM_ok _ _ _ fun d2 h2 => ?_
    have h2 := List.mem_range.1 h2
    have e : unchecked [(⟨Q, n, der 0⟩ : DMat ℝ), ⟨Q, n, der 1⟩] d2 = .ok ⟨Q, n, der d2⟩ := by
      obtain rfl | rfl : d2 = 0 ∨ d2 = 1 := by omega
      · rfl
      · rfl
    rw [e, except_ok_bind, DMat.assign_ok _ _ _ _ _ _ (by rfl) (by rfl) (by simp [DMat.zero]) (by simp only [DMat.zero]; nlinarith)]
    rfl
  rw [mapM_ok _ _ _ h, except_ok_bind]
  rfl

theorem symmetricGradient_ok (der : Nat → Nat → Nat → ℝ) :
    symmetricGradient [(⟨Q, 2 * n, wide Q n 0 (der 0)⟩ : DMat ℝ), ⟨Q, 2 * n, wide Q n 0 (der 1)⟩, ⟨Q, 2 * n, wide Q n 1 (der 0)⟩, ⟨Q, 2 * n, wide Q n 1 (der 1)⟩]
      = .ok ((List.range 4).map fun d => ⟨Q, 2 * n, symEntry Q n der (d / 2) (d % 2)⟩) := by
  unfold symmetricGradient
  have h : ∀ d1 ∈ List.range 2, ((List.range 2).mapM fun d2 => do
      let A ← unchecked [(⟨Q, 2 * n, wide Q n 0 (der 0)⟩ : DMat ℝ), ⟨Q, 2 * n, wide Q n 0 (der 1)⟩, ⟨Q, 2 * n, wide Q n 1 (der 0)⟩, ⟨Q, 2 * n, wide Q n 1 (der 1)⟩] (2 * d1 + d2)
      let B ← unchecked [(⟨Q, 2 * n, wide Q n 0 (der 0)⟩ : DMat ℝ), ⟨Q, 2 * n, wide Q n 0 (der 1)⟩, ⟨Q, 2 * n, wide Q n 1 (der 0)⟩, ⟨Q, 2 * n, wide Q n 1 (der 1)⟩] (2 * d2 + d1)
      let S ← A.add B
      .ok (DMat.smul (1 / 2) S))
      = .ok ((List.range 2).map fun d2 => (⟨Q, 2 * n, symEntry Q n der d1 d2⟩ : DMat ℝ)) := by
    intro d1 h1
    have h1 := List.mem_range.1 h1
    refine mapM_ok _ _ _ fun d2 h2 => ?_
    have h2 := List.mem_range.1 h2
    have e : ∀ a < 2, ∀ b < 2, unchecked [(⟨Q, 2 * n, wide Q n 0 (der 0)⟩ : DMat ℝ), ⟨Q, 2 * n, wide Q n 0 (der 1)⟩, ⟨Q, 2 * n, wide Q n 1 (der 0)⟩,
        ⟨Q, 2 * n, wide Q n 1 (der 1)⟩] (2 * a + b) = .ok ⟨Q, 2 * n, wide Q n a (der b)⟩ := by
      intro a ha b hb
      obtain rfl | rfl : a = 0 ∨ a = 1 := by omega
      · obtain rfl | rfl : b = 0 ∨ b = 1 := by omega
        · rfl
        · rfl
      · obtain rfl | rfl : b = 0 ∨ b = 1 := by omega
        · rfl
        · rfl
    rw [e d1 h1 d2 h2, except_ok_bind, e d2 h2 d1 h1, except_ok_bind, DMat.add_ok _ _ (by rfl) (by rfl), except_ok_bind]
    rfl
  rw [mapM_ok _ _ _ h, except_ok_bind]
  rfl

/-- Two copies of a square matrix on the diagonal. -/
def twice (n : Nat) (st : Nat → Nat → ℝ) (i j : Nat) : ℝ :=
  if n ≤ i ∧ i < n + n ∧ n ≤ j ∧ j < n + n then st (i - n) (j - n) else if i < n ∧ j < n then st i j else 0

theorem elasticStab_ok (hs : space.stab .piNabla = .ok ⟨n, n, st⟩) : elasticStab space = .ok ⟨2 * n, 2 * n, twice n st⟩ := by
  unfold elasticStab
  rw [hs, except_ok_bind]
  show (do let A ← (DMat.zero (2 * n) (2 * n)).assign (0 * n) (0 * n) n n ⟨n, n, st⟩
           let B ← A.assign (1 * n) (1 * n) n n ⟨n, n, st⟩
           Except.ok B) = _
  rw [DMat.assign_ok _ _ _ _ _ _ (by rfl) (by rfl) (by simp only [DMat.zero]; omega) (by simp only [DMat.zero]; omega), except_ok_bind,
    DMat.assign_ok _ _ _ _ _ _ (by rfl) (by rfl) (by simp only [DMat.zero]; omega) (by simp only [DMat.zero]; omega), except_ok_bind]
  dsimp only [DMat.zero]
  congr 2
  funext i j
  simp only [twice, one_mul, zero_mul, Nat.zero_le, true_and, zero_add, Nat.sub_zero]

theorem twice_form (n : Nat) (st : Nat → Nat → ℝ) (v u : Nat → ℝ) :
    ∑ i ∈ range (2 * n), v i * ∑ j ∈ range (2 * n), twice n st i j * u j
      = ∑ i ∈ range n, v i * ∑ j ∈ range n, st i j * u j + ∑ i ∈ range n, v (n + i) * ∑ j ∈ range n, st i j * u (n + j) := by
  rw [two_mul, sum_range_add]
  congr 1
  · refine sum_congr rfl fun i hi => ?_
    have hi := mem_range.1 hi
    rw [sum_range_add, sum_eq_zero (s := range n) (f := fun j => twice n st i (n + j) * u (n + j)), add_zero]
    · congr 1
      refine sum_congr rfl fun j hj => ?_
      have hj := mem_range.1 hj
      rw [twice, if_neg (by omega), if_pos ⟨hi, hj⟩]
    · intro j _
      rw [twice, if_neg (by omega), if_neg (by omega), zero_mul]
  · refine sum_congr rfl fun i hi => ?_
    have hi := mem_range.1 hi
    rw [sum_range_add, sum_eq_zero (s := range n) (f := fun j => twice n st (n + i) j * u j), zero_add]
    · congr 1
      refine sum_congr rfl fun j hj => ?_
      have hj := mem_range.1 hj
      rw [twice, if_pos (by omega), Nat.add_sub_cancel_left, Nat.add_sub_cancel_left]
    · intro j hj
      have hj := mem_range.1 hj
      rw [twice, if_neg (by omega), if_neg (by omega), zero_mul]

/-- The matrix and the vector of a cell. -/
structure ElasticForm (Q n : Nat) (x : Nat → ℝ × ℝ) (w : Nat → ℝ) (val : Nat → Nat → ℝ) (der : Nat → Nat → Nat → ℝ) (st : Nat → Nat → ℝ) (test : ElasticTest ℝ) (k : ℝ)
    (A b : DMat ℝ) : Prop where
  rows : A.rows = 2 * n
  cols : A.cols = 2 * n
  rowsB : b.rows = 2 * n
  colsB : b.cols = 1
  symm : (∀ i j, st i j = st j i) → ∀ i j, A.ent i j = A.ent j i
  form : ∀ v u : Nat → ℝ, ∑ i ∈ range (2 * n), v i * apply A u i
    = ∑ q ∈ range Q, w q * (2 * (test.lame (x q) 0 * ∑ d1 ∈ range 2, ∑ d2 ∈ range 2,
          (1 / 2 * (∑ i ∈ range n, v (d1 * n + i) * der d2 q i + ∑ i ∈ range n, v (d2 * n + i) * der d1 q i))
            * (1 / 2 * (∑ i ∈ range n, u (d1 * n + i) * der d2 q i + ∑ i ∈ range n, u (d2 * n + i) * der d1 q i)))
        + test.lame (x q) 1 * ((∑ i ∈ range n, v i * der 0 q i + ∑ i ∈ range n, v (n + i) * der 1 q i)
          * (∑ i ∈ range n, u i * der 0 q i + ∑ i ∈ range n, u (n + i) * der 1 q i)))
      + k * (∑ i ∈ range n, v i * ∑ j ∈ range n, st i j * u j + ∑ i ∈ range n, v (n + i) * ∑ j ∈ range n, st i j * u (n + j))
  load : ∀ v : Nat → ℝ, ∑ i ∈ range (2 * n), v i * b.ent i 0
    = ∑ q ∈ range Q, w q * (test.source (x q) 0 * ∑ i ∈ range n, v i * val q i + test.source (x q) 1 * ∑ i ∈ range n, v (n + i) * val q i)

theorem elasticLocal_ok (hv : space.valuesInt .pi0k = .ok ⟨Q, n, val⟩) (hd : space.dersInt .pi0km1Der = .ok [⟨Q, n, der 0⟩, ⟨Q, n, der 1⟩])
    (hs : space.stab .piNabla = .ok ⟨n, n, st⟩) (hx : space.internal.points = vecOf Q x) (hw : space.internal.weights = vecOf Q w) (hQ : 0 < Q) (test : ElasticTest ℝ) :
    ∃ k A b, IsGreatest {y | ∃ q < Q, y = |test.lame (x q) 0|} k ∧ elasticLocal space test = .ok (A, b) ∧ ElasticForm Q n x w val der st test k A b := by
  obtain ⟨k, hk, hkg⟩ := maxAbs_great hQ fun q => test.lame (x q) 0
  obtain ⟨E, hE, hEr, hEc, hEe, hEf⟩ := C53_diffusion Q (2 * n) (2 * n) 4 (by decide) w (fun q => test.lame (x q) 0) (fun d => symEntry Q n der (d / 2) (d % 2))
    (fun d => symEntry Q n der (d / 2) (d % 2))
  obtain ⟨M, hM, hMr, hMc, hMe, hMf⟩ := C53_reaction Q (2 * n) (2 * n) w (fun q => test.lame (x q) 1)
    (fun q i => wide Q n 0 (der 0) q i + wide Q n 1 (der 1) q i) (fun q i => wide Q n 0 (der 0) q i + wide Q n 1 (der 1) q i)
  obtain ⟨B, hB, hBr, hBc, hBe, hBf⟩ := C53_forcing_vector Q (2 * n) 2 (by decide) (by decide) w (fun d q => test.source (x q) d) fun d => wide Q n d val
  have h1 : evalScalar space.internal.points (fun p => test.lame p 0) = vecOf Q fun q => test.lame (x q) 0 := by rw [hx, evalScalar_vecOf]
  have h2 : evalScalar space.internal.points (fun p => test.lame p 1) = vecOf Q fun q => test.lame (x q) 1 := by rw [hx, evalScalar_vecOf]
  have h3 : evalComponents 3 space.internal.points test.source = vecOf 3 fun d => vecOf Q fun q => test.source (x q) d := by
    rw [hx]
    simp [evalComponents, vecOf, Function.comp_def]
  obtain ⟨r, c, E⟩ := E
  obtain rfl : r = 2 * n := hEr
  obtain rfl : c = 2 * n := hEc
  obtain ⟨r, c, M⟩ := M
  obtain rfl : r = 2 * n := hMr
  obtain rfl : c = 2 * n := hMc
  dsimp only at hEe hEf hMe hMf
  refine ⟨k, ⟨2 * n, 2 * n, fun i j => 2 * E i j + M i j + k * twice n st i j⟩, B, hkg, ?_, ⟨rfl, rfl, hBr, hBc, ?_, ?_, ?_⟩⟩
  · unfold elasticLocal
    rw [elasticValues_ok hv, except_ok_bind, elasticDers_ok hd, except_ok_bind, symmetricGradient_ok, except_ok_bind, h1, h2, h3, hw]
    dsimp only
    have hE' : cellDiffusionSame (vecOf Q fun q => test.lame (x q) 0) ((List.range 4).map fun d => (⟨Q, 2 * n, symEntry Q n der (d / 2) (d % 2)⟩ : DMat ℝ)) (vecOf Q w)
        = .ok ⟨2 * n, 2 * n, E⟩ := hE
    rw [hE', except_ok_bind]
    show (do let D0 ← Except.ok (⟨Q, 2 * n, wide Q n 0 (der 0)⟩ : DMat ℝ)
             let D3 ← Except.ok (⟨Q, 2 * n, wide Q n 1 (der 1)⟩ : DMat ℝ)
             _) = _
    rw [except_ok_bind, except_ok_bind, DMat.add_ok _ _ (by rfl) (by rfl), except_ok_bind]
    have hM' : cellReactionSame (vecOf Q fun q => test.lame (x q) 1) (⟨Q, 2 * n, fun q i => wide Q n 0 (der 0) q i + wide Q n 1 (der 1) q i⟩ : DMat ℝ) (vecOf Q w)
        = .ok ⟨2 * n, 2 * n, M⟩ := hM
    dsimp only
    rw [hM', except_ok_bind, DMat.add_ok _ _ (by rfl) (by rfl), except_ok_bind]
    have hB' : cellForcingVector (vecOf 3 fun d => vecOf Q fun q => test.source (x q) d) ((List.range 2).map fun d => (⟨Q, 2 * n, wide Q n d val⟩ : DMat ℝ)) (vecOf Q w)
        = .ok B := hB
    rw [hB', except_ok_bind, hk, except_ok_bind, elasticStab_ok hs, except_ok_bind, DMat.add_ok _ _ (by rfl) (by rfl), except_ok_bind]
    rfl
  · intro hst i j
    have ht : ∀ i j, twice n st i j = twice n st j i := by
      intro i j
      have hc : (n ≤ i ∧ i < n + n ∧ n ≤ j ∧ j < n + n) ↔ (n ≤ j ∧ j < n + n ∧ n ≤ i ∧ i < n + n) := by omega
      have hc' : (i < n ∧ j < n) ↔ (j < n ∧ i < n) := by omega
      unfold twice
      simp only [hc, hc', hst i j, hst (i - n) (j - n)]
    show 2 * E i j + M i j + k * twice n st i j = 2 * E j i + M j i + k * twice n st j i
    rw [ht i j, hEe, hMe, hEe, hMe]
    congr 2
    · congr 1
      refine sum_congr rfl fun q _ => ?_
      congr 2
      exact sum_congr rfl fun d _ => mul_comm _ _
    · exact sum_congr rfl fun q _ => by ring
  · intro v u
    have e1 : ∀ i, apply (⟨2 * n, 2 * n, fun i j => 2 * E i j + M i j + k * twice n st i j⟩ : DMat ℝ) u i
        = 2 * ∑ j ∈ range (2 * n), E i j * u j + ∑ j ∈ range (2 * n), M i j * u j + k * ∑ j ∈ range (2 * n), twice n st i j * u j := by
      intro i
      rw [apply]
      dsimp only
      rw [mul_sum, mul_sum, ← sum_add_distrib, ← sum_add_distrib]
      exact sum_congr rfl fun j _ => by ring
    have lhs : ∑ i ∈ range (2 * n), v i * apply (⟨2 * n, 2 * n, fun i j => 2 * E i j + M i j + k * twice n st i j⟩ : DMat ℝ) u i
        = 2 * ∑ i ∈ range (2 * n), v i * ∑ j ∈ range (2 * n), E i j * u j + ∑ i ∈ range (2 * n), v i * ∑ j ∈ range (2 * n), M i j * u j
          + k * ∑ i ∈ range (2 * n), v i * ∑ j ∈ range (2 * n), twice n st i j * u j := by
      simp only [e1]
      rw [mul_sum, mul_sum, ← sum_add_distrib, ← sum_add_distrib]
      exact sum_congr rfl fun i _ => by ring
    rw [lhs, hEf, hMf, twice_form, mul_sum, ← sum_add_distrib]
    congr 1
    refine sum_congr rfl fun q hq => ?_
    have hq := mem_range.1 hq
    have e3 : ∀ (u : Nat → ℝ) (a b : Nat), a < 2 → b < 2 → ∑ i ∈ range (2 * n), u i * symEntry Q n der a b q i
        = 1 / 2 * (∑ i ∈ range n, u (a * n + i) * der b q i + ∑ i ∈ range n, u (b * n + i) * der a q i) := by
      intro u a b ha hb
      rw [← wide_sum ha hq, ← wide_sum hb hq, ← sum_add_distrib, mul_sum]
      exact sum_congr rfl fun i _ => by rw [symEntry]; ring
    have e4 : ∀ u : Nat → ℝ, ∑ i ∈ range (2 * n), u i * (wide Q n 0 (der 0) q i + wide Q n 1 (der 1) q i)
        = ∑ i ∈ range n, u i * der 0 q i + ∑ i ∈ range n, u (n + i) * der 1 q i := by
      intro u
      simp only [mul_add, sum_add_distrib]
      rw [wide_sum (by norm_num) hq, wide_sum (by norm_num) hq]
      simp
    rw [e4, e4]
    have r4 : ∀ f : Nat → ℝ, ∑ d ∈ range 4, f d = f 0 + f 1 + f 2 + f 3 := fun f => by simp only [sum_range_succ, sum_range_zero, zero_add]
    have r2 : ∀ f : Nat → ℝ, ∑ d ∈ range 2, f d = f 0 + f 1 := fun f => by simp only [sum_range_succ, sum_range_zero, zero_add]
    rw [r4, r2, r2, r2]
    simp only [Nat.zero_div, Nat.zero_mod, Nat.reduceDiv, Nat.reduceMod]
    rw [e3 v 0 0 (by norm_num) (by norm_num), e3 v 0 1 (by norm_num) (by norm_num), e3 v 1 0 (by norm_num) (by norm_num), e3 v 1 1 (by norm_num) (by norm_num),
      e3 u 0 0 (by norm_num) (by norm_num), e3 u 0 1 (by norm_num) (by norm_num), e3 u 1 0 (by norm_num) (by norm_num), e3 u 1 1 (by norm_num) (by norm_num)]
    ring
  · intro v
    rw [hBf]
    refine sum_congr rfl fun q hq => ?_
    have hq := mem_range.1 hq
    simp only [sum_range_succ (n := 1), sum_range_one]
    rw [wide_sum (by norm_num) hq, wide_sum (by norm_num) hq]
    simp

end tables

end PolyDiM
