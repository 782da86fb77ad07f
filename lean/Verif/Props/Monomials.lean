import Verif.Lemmas.MonomialsFinal

/-!
# C19-C26: the monomial bases

The theorems are about `compute`, `index1`, `index2`, `index3`, `vander`, `vanderDer`, `vanderLap` of
`Verif/Model/Monomials.lean`; the vocabulary (`monomial`, `HasPartial`, `HasLaplacian`) is in `Verif/Spec/Monomials.lean`.
`mono1`, `mono2`, `mono3` stand for the classes `Monomials_1D`, `Monomials_2D`, `Monomials_3D`.
-/

namespace PolyDiM
open Spec

/-! ## C19-C21: enumeration -/

/-- **C19.** `Monomials_1D::Compute(k)` lists `x^0, …, x^k`; `Index` is the position, `-1` on negative input. -/
theorem C19_enumeration (k : Nat) :
    (compute mono1 k).num = k + 1 ∧ (compute mono1 k).exps = (List.range (k + 1)).map (fun i => [i]) ∧
    (∀ a : Nat, a ≤ k → ∃ i : Nat, index1 a = i ∧ (compute mono1 k).exps[i]? = some [a]) ∧
    (∀ a : Int, a < 0 → index1 a = -1) := by
  have hlen : (compute mono1 k).exps.length = k + 1 := exps_length mono1 k
  have hget : ∀ a : Nat, a ≤ k → (compute mono1 k).exps[a]? = some [a] := fun a ha =>
    (exps_iff ranked1 k a [a]).2 ⟨rfl, by simpa using ha, rfl⟩
  refine ⟨rfl, ?_, fun a ha => ⟨a, by simp [index1], hget a ha⟩, fun a ha => if_neg (by omega)⟩
  apply List.ext_getElem?
  intro i
  by_cases hi : i ≤ k
  · rw [hget i hi, List.getElem?_map, List.getElem?_range (by omega)]; rfl
  · rw [List.getElem?_eq_none (by omega), List.getElem?_eq_none (by simp; omega)]

example : (compute mono1 3).exps = [[0], [1], [2], [3]] ∧ index1 2 = 2 ∧ index1 (-1) = -1 := by decide

/-- **C20.** `Monomials_2D::Compute(k)` lists every pair of exponents of sum at most `k` exactly once, by increasing total
degree, extending the list of degree `k - 1`; `Index` returns the position, `-1` when an exponent is negative. -/
theorem C20_enumeration (k : Nat) :
    (compute mono2 k).num = (k + 1) * (k + 2) / 2 ∧ (compute mono2 k).exps.length = (k + 1) * (k + 2) / 2 ∧
    (∀ e, e ∈ (compute mono2 k).exps ↔ ∃ a b, e = [a, b] ∧ a + b ≤ k) ∧ (compute mono2 k).exps.Nodup ∧
    (∀ (i j : Nat) e e', i ≤ j → (compute mono2 k).exps[i]? = some e → (compute mono2 k).exps[j]? = some e' →
      e.sum ≤ e'.sum) ∧
    (compute mono2 k).exps <+: (compute mono2 (k + 1)).exps ∧
    (∀ a b : Nat, a + b ≤ k → ∃ i : Nat, index2 a b = i ∧ (compute mono2 k).exps[i]? = some [a, b]) ∧
    (∀ a b : Int, a < 0 ∨ b < 0 → index2 a b = -1) := by
  refine ⟨rfl, exps_length mono2 k, fun e => ?_, exps_nodup ranked2 k, fun i j e e' h1 h2 h3 =>
    exps_graded ranked2 k h1 h2 h3, ?_, fun a b h => ⟨_, index2_eq a b, ?_⟩, fun a b h => if_neg (by omega)⟩
  · rw [mem_exps_iff ranked2]
    constructor
    · rintro ⟨h1, h2⟩
      obtain ⟨a, b, rfl⟩ := len2 h1
      exact ⟨a, b, rfl, by simpa using h2⟩
    · rintro ⟨a, b, rfl, h⟩
      exact ⟨rfl, by simpa using h⟩
  · rw [exps_prefix ranked2 k]; exact List.take_prefix _ _
  · exact (exps_iff ranked2 k _ _).2 ⟨rfl, by simpa using h, rfl⟩

example : (compute mono2 2).exps = [[0, 0], [1, 0], [0, 1], [2, 0], [1, 1], [0, 2]] ∧ index2 1 1 = 4 ∧ index2 1 (-1) = -1 := by
  decide

/-- **C21.** The same in three dimensions. -/
theorem C21_enumeration (k : Nat) :
    (compute mono3 k).num = (k + 1) * (k + 2) * (k + 3) / 6 ∧
    (compute mono3 k).exps.length = (k + 1) * (k + 2) * (k + 3) / 6 ∧
    (∀ e, e ∈ (compute mono3 k).exps ↔ ∃ a b c, e = [a, b, c] ∧ a + b + c ≤ k) ∧ (compute mono3 k).exps.Nodup ∧
    (∀ (i j : Nat) e e', i ≤ j → (compute mono3 k).exps[i]? = some e → (compute mono3 k).exps[j]? = some e' →
      e.sum ≤ e'.sum) ∧
    (compute mono3 k).exps <+: (compute mono3 (k + 1)).exps ∧
    (∀ a b c : Nat, a + b + c ≤ k → ∃ i : Nat, index3 a b c = i ∧ (compute mono3 k).exps[i]? = some [a, b, c]) ∧
    (∀ a b c : Int, a < 0 ∨ b < 0 ∨ c < 0 → index3 a b c = -1) := by
  refine ⟨rfl, exps_length mono3 k, fun e => ?_, exps_nodup ranked3 k, fun i j e e' h1 h2 h3 =>
    exps_graded ranked3 k h1 h2 h3, ?_, fun a b c h => ⟨_, index3_eq a b c, ?_⟩, fun a b c h => if_neg (by omega)⟩
  · rw [mem_exps_iff ranked3]
    constructor
    · rintro ⟨h1, h2⟩
      obtain ⟨a, b, c, rfl⟩ := len3 h1
      exact ⟨a, b, c, rfl, by simpa [Nat.add_assoc] using h2⟩
    · rintro ⟨a, b, c, rfl, h⟩
      exact ⟨rfl, by simpa [Nat.add_assoc] using h⟩
  · rw [exps_prefix ranked3 k]; exact List.take_prefix _ _
  · exact (exps_iff ranked3 k _ _).2 ⟨rfl, by simpa [Nat.add_assoc] using h, rfl⟩

example : (compute mono3 1).exps = [[0, 0, 0], [1, 0, 0], [0, 1, 0], [0, 0, 1]] ∧ index3 0 1 1 = 8 ∧
    (compute mono3 2).exps[8]? = some [0, 1, 1] ∧ index3 0 0 (-1) = -1 := by decide

/-! ## C22, C23: derivative indices and matrices -/

/-- **C22.** For the monomial `e` at position `i` and direction `d`: `DerivativeIndices` is `-1` when the exponent is zero and
otherwise the position of the monomial with that exponent lowered by one; row `i` of the derivative matrix has the exponent in
that column and zero in every other one. -/
theorem C22_first_derivative (K : MonoKind) (hK : IsKind K) (k i : Nat) (e : List Nat)
    (he : (compute K k).exps[i]? = some e) (d : Nat) (hd : d < K.dim) :
    (e.getD d 0 = 0 → (K.derIndices e i)[d]? = some (-1)) ∧
    (0 < e.getD d 0 → ∃ j : Nat, (K.derIndices e i)[d]? = some (j : Int) ∧
      (compute K k).exps[j]? = some (e.set d (e.getD d 0 - 1))) ∧
    (∀ c : Nat, (compute K k).der d i c =
      if 0 < e.getD d 0 ∧ (compute K k).exps[c]? = some (e.set d (e.getD d 0 - 1)) then (e.getD d 0 : Int) else 0) := by
  obtain ⟨rank, F⟩ := kind_facts hK
  obtain ⟨h1, h2, h3⟩ := (exps_iff F.R k i e).1 he
  have hx := F.D.der e d h1 hd
  rw [h3] at hx
  have hg := lower_get F he hd 1
  refine ⟨fun h0 => ?_, fun h0 => ⟨_, ?_, hg⟩, fun c => ?_⟩
  · rw [hx, show ex e d = 0 from h0]; rfl
  · rw [hx, if_neg (show ¬ ex e d = 0 from by unfold ex; omega)]
  · rw [der_entry F.R F.D he hd]
    have : rank (e.set d (ex e d - 1)) = c ↔ (compute K k).exps[c]? = some (e.set d (ex e d - 1)) := by
      constructor
      · rintro rfl; exact hg
      · intro h; exact (exps_get F.R h).2
    simp only [this]
    rfl

example : (compute mono3 2).exps[5]? = some [1, 1, 0] ∧ mono3.derIndices [1, 1, 0] 5 = [2, 1, -1] ∧
    (compute mono3 2).exps[2]? = some [0, 1, 0] := by decide

/-- **C23.** `SecondDerivativeIndices` is `-1` when the exponent is below two and otherwise the position of the monomial with
the exponent lowered by two; row `i` of the Laplacian matrix is the sum over the directions of `e(e-1)` in these columns, and
zero elsewhere. -/
theorem C23_second_derivative (K : MonoKind) (hK : IsKind K) (k i : Nat) (e : List Nat)
    (he : (compute K k).exps[i]? = some e) :
    (∀ d, d < K.dim → e.getD d 0 < 2 → (K.secIndices e i)[d]? = some (-1)) ∧
    (∀ d, d < K.dim → 2 ≤ e.getD d 0 → ∃ j : Nat, (K.secIndices e i)[d]? = some (j : Int) ∧
      (compute K k).exps[j]? = some (e.set d (e.getD d 0 - 2))) ∧
    (∀ c : Nat, (compute K k).lap i c = ∑ d ∈ Finset.range K.dim,
      if 2 ≤ e.getD d 0 ∧ (compute K k).exps[c]? = some (e.set d (e.getD d 0 - 2))
        then (e.getD d 0 : Int) * ((e.getD d 0 : Int) - 1) else 0) := by
  obtain ⟨rank, F⟩ := kind_facts hK
  obtain ⟨h1, h2, h3⟩ := (exps_iff F.R k i e).1 he
  refine ⟨fun d hd h0 => ?_, fun d hd h0 => ⟨_, ?_, lower_get F he hd 2⟩, fun c => ?_⟩
  · have hx := F.D.sec e d h1 hd
    rw [h3] at hx
    rw [hx, if_pos (show ex e d < 2 from h0)]
  · have hx := F.D.sec e d h1 hd
    rw [h3] at hx
    rw [hx, if_neg (show ¬ ex e d < 2 from by unfold ex; omega)]
  · rw [lap_entry F.R F.D F.slen he]
    apply Finset.sum_congr rfl
    intro d hd
    have : rank (e.set d (ex e d - 2)) = c ↔ (compute K k).exps[c]? = some (e.set d (ex e d - 2)) := by
      constructor
      · rintro rfl; exact lower_get F he (Finset.mem_range.1 hd) 2
      · intro h; exact (exps_get F.R h).2
    simp only [this]
    rfl

set_option maxRecDepth 8000 in
example : (compute mono2 4).exps[12]? = some [2, 2] ∧ mono2.secIndices [2, 2] 12 = [5, 3] ∧
    (compute mono2 4).exps[5]? = some [0, 2] ∧ (compute mono2 4).exps[3]? = some [2, 0] ∧
    (compute mono2 4).lap 12 5 = 2 ∧ (compute mono2 4).lap 12 3 = 2 ∧ (compute mono2 4).lap 12 4 = 0 := by decide

/-! ## C24, C25: Vandermonde matrices -/

/-- **C24.** Column `i` of `Vander` holds the value of the scaled monomial with exponents `Exponents[i]`; no access is out of
bounds. -/
theorem C24_vander {F : Type} [Field F] (K : MonoKind) (hK : IsKind K) (k i : Nat) (e : List Nat)
    (he : (compute K k).exps[i]? = some e) (x c : Nat → F) (h : F) :
    vander (compute K k) x c h i = .ok (monomial K.dim e x c h) := by
  obtain ⟨rank, F⟩ := kind_facts hK
  exact vander_ok F.R F.pos x c h he

example : (compute mono2 2).exps[4]? = some [1, 1] ∧
    vander (compute mono2 2) (fun d => if d = 0 then (7 : ℚ) else 4) (fun _ => 1) 3 4 = .ok 2 := by
  refine ⟨by decide, ?_⟩
  rw [C24_vander mono2 (.inr (.inl rfl)) 2 4 [1, 1] (by decide)]
  simp [monomial, mono2, Finset.prod_range_succ]
  norm_num

/-- **C25.** On the result `row` of `Vander` at `x`, column `i` of `VanderDerivatives[d]` holds the partial derivative in
direction `d` at `x` of the function `f` evaluated by `Vander` in column `i`; no access is out of bounds. -/
theorem C25_vander_derivatives (K : MonoKind) (hK : IsKind K) (k i d : Nat) (hi : i < (compute K k).num) (hd : d < K.dim)
    (x c : Nat → ℝ) (h : ℝ) (row : Nat → ℝ) (f : (Nat → ℝ) → ℝ)
    (hrow : ∀ j, j < (compute K k).num → vander (compute K k) x c h j = .ok (row j))
    (hf : ∀ y, vander (compute K k) y c h i = .ok (f y)) :
    ∃ v, vanderDer K (compute K k) row h d i = .ok v ∧ HasPartial f d x v := by
  obtain ⟨rank, F⟩ := kind_facts hK
  obtain ⟨e, he⟩ := get_of_lt K hi
  refine ⟨_, vanderDer_ok F he hd x c h row hrow, ?_⟩
  refine HasPartial.congr (g := fun y => monomial K.dim e y c h) (fun y => ?_)
    (monomial_partial K.dim e c h hd (exps_get F.R he).1 x)
  have := hf y
  rw [vander_ok F.R F.pos y c h he] at this
  exact (Except.ok.inj this).symm

/-- The hypotheses of C25 and C26 are met by the values of `Vander` themselves, for every kind, degree, point and column. -/
example (K : MonoKind) (hK : IsKind K) (k : Nat) (c : Nat → ℝ) (h : ℝ) :
    ∃ g : Nat → (Nat → ℝ) → ℝ, ∀ j y, j < (compute K k).num → vander (compute K k) y c h j = .ok (g j y) := by
  refine ⟨fun j y => monomial K.dim ((compute K k).exps.getD j []) y c h, fun j y hj => ?_⟩
  obtain ⟨e, he⟩ := get_of_lt K hj
  rw [C24_vander K hK k j e he]
  simp only [List.getD_eq_getElem?_getD, he]
  rfl

example : 4 < (compute mono2 2).num ∧ 1 < mono2.dim ∧
    vanderDer mono2 (compute mono2 2) (fun j => if j = 1 then (5 : ℚ) else 0) 2 1 4 = .ok (5 / 2) := by
  refine ⟨by decide, by decide, ?_⟩
  have h1 : unchecked (compute mono2 2).exps 4 = .ok [1, 1] := by decide
  have h2 : unchecked (mono2.derIndices [1, 1] 4) 1 = .ok 1 := by decide
  have h3 : (compute mono2 2).der 1 4 1 = 1 := by decide
  have h4 : (compute mono2 2).num = 6 := by decide
  simp only [vanderDer, h1, h2, h4, except_ok_bind]
  simp [h3]
  norm_num

/-! ## C26: the Laplacian -/

/-- **C26, correct cases.** In dimension two and three, from degree one on, `VanderLaplacian` stays in bounds and holds the
Laplacian of every column. Missing from the full property: dimension one, and degree zero (see `C26_characterisation`). -/
theorem C26_laplacian_partial (K : MonoKind) (hK : K = mono2 ∨ K = mono3) (k : Nat) (hk : 1 ≤ k) : LaplacianCorrect K k := by
  rcases hK with rfl | rfl
  · exact laplacian_ok facts2 (by decide) hk
  · exact laplacian_ok facts3 (by decide) hk

/-- **C26, exactly when it holds.** In dimension one it fails for every degree, in the others for degree zero. -/
theorem C26_characterisation (K : MonoKind) (hK : IsKind K) (k : Nat) :
    LaplacianCorrect K k ↔ (K = mono2 ∨ K = mono3) ∧ 1 ≤ k := by
  constructor
  · intro h
    have hv : ∀ (i : Nat) (x c : Nat → ℝ) (h : ℝ), i < K.num k → ∃ v, vander (compute K k) x c h i = .ok v := by
      intro i x c h hi
      obtain ⟨e, he⟩ := get_of_lt K (k := k) hi
      exact ⟨_, C24_vander K hK k i e he x c h⟩
    rcases hK with rfl | rfl | rfl
    · exfalso
      by_cases hk : 2 ≤ k
      · exact laplacian_wrong1 hk h
      · exact laplacian_oob (by change 0 < k + 1; omega) (by change k + 1 < 3; omega) hv h
    · refine ⟨.inl rfl, ?_⟩
      by_contra hk
      obtain rfl : k = 0 := by omega
      exact laplacian_oob (by decide) (by decide) hv h
    · refine ⟨.inr rfl, ?_⟩
      by_contra hk
      obtain rfl : k = 0 := by omega
      exact laplacian_oob (by decide) (by decide) hv h
  · rintro ⟨h1, h2⟩
    exact C26_laplacian_partial K h1 k h2

/-- **C26, the wrong value.** In dimension one, with at least three monomials, column 2 (the function `((x-c)/h)²`) holds `0`
whatever the point. -/
theorem C26_wrong_value_1D (k : Nat) (hk : 2 ≤ k) (row : Nat → ℝ) (h : ℝ) :
    vanderLap mono1 (compute mono1 k) row h 2 = .ok 0 := by
  unfold vanderLap
  rw [if_neg (by change ¬ k + 1 < 3; omega), if_pos (by omega)]

example : IsKind mono2 ∧ (mono2 = mono2 ∨ mono2 = mono3) ∧ 1 ≤ 2 := ⟨.inr (.inl rfl), .inl rfl, by decide⟩

end PolyDiM
