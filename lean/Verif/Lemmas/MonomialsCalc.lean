import Verif.Lemmas.Monomials
import Verif.Spec.Monomials
import Verif.Lemmas.AssemblerFinal
import Mathlib.Analysis.Calculus.Deriv.Pow
import Mathlib.Analysis.Calculus.Deriv.Add
import Mathlib.Analysis.Calculus.Deriv.Mul
import Mathlib.Tactic.FieldSimp

/-! Helper lemmas: derivative matrices and Vandermonde matrices. -/

namespace PolyDiM
open Spec

theorem ex_set {e : List Nat} {d : Nat} (hd : d < e.length) (x j : Nat) :
    ex (e.set d x) j = if j = d then x else ex e j := by
  unfold ex
  rw [List.getD_eq_getElem?_getD, List.getD_eq_getElem?_getD, List.getElem?_set]
  by_cases h : j = d
  · subst h; simp [hd]
  · simp [h, Ne.symm h]

theorem sum_set {e : List Nat} : ∀ {d : Nat} (x : Nat), d < e.length → x ≤ ex e d → (e.set d x).sum ≤ e.sum := by
  induction e with
  | nil => intro d x h; simp at h
  | cons a e ih =>
    intro d x h hx
    cases d with
    | zero => simp only [List.set_cons_zero, List.sum_cons]; simp [ex] at hx; omega
    | succ d =>
      simp only [List.set_cons_succ, List.sum_cons]
      have := @ih d x (by simpa using h) (by simpa [ex] using hx)
      omega

section generic
variable {K : MonoKind} {rank : List Nat → Nat}

theorem zero_of_rank (R : Ranked K rank) {e : List Nat} (he : e.length = K.dim) (h0 : rank e = 0) (d : Nat) : ex e d = 0 := by
  have : e = List.replicate K.dim 0 := R.inj e _ he (by simp) (by rw [h0, R.zero])
  subst this
  unfold ex
  rw [List.getD_eq_getElem?_getD, List.getElem?_replicate]
  split <;> rfl

theorem tail_get (l : List (List Nat)) {i : Nat} (hi : 1 ≤ i) : l.tail[i - 1]? = l[i]? := by
  obtain ⟨j, rfl⟩ : ∃ j, i = j + 1 := ⟨i - 1, by omega⟩
  simp

theorem der_entry (R : Ranked K rank) (D : Diff K rank) {k i : Nat} {e : List Nat}
    (he : (compute K k).exps[i]? = some e) {d : Nat} (hd : d < K.dim) (c : Nat) :
    (compute K k).der d i c = if 0 < ex e d ∧ rank (e.set d (ex e d - 1)) = c then (ex e d : Int) else 0 := by
  obtain ⟨h1, h2⟩ := exps_get R he
  have key : ∀ x, (K.derIndices e i)[d]? = some x → (K.derIndices e i).getD d (-1) = x := by
    intro x hx; rw [List.getD_eq_getElem?_getD, hx]; rfl
  have hidx := key _ (by rw [← h2]; exact D.der e d h1 hd)
  change derLoop K d 1 (compute K k).exps.tail (fun _ _ => 0) i c = _
  rw [derLoop_get]
  by_cases hi : 1 ≤ i
  · rw [if_pos hi, tail_get _ hi, he]
    simp only [hidx]
    by_cases h0 : ex e d = 0
    · simp [h0]
    · simp only [h0, if_false]
      congr 1
      apply propext
      constructor
      · rintro ⟨_, h⟩; exact ⟨by omega, by exact_mod_cast h.symm⟩
      · rintro ⟨_, h⟩; exact ⟨by omega, by exact_mod_cast h.symm⟩
  · rw [if_neg hi]
    have := zero_of_rank R h1 (by omega) d
    simp [this]

theorem sec_inj (R : Ranked K rank) {e : List Nat} (he : e.length = K.dim) {d d' : Nat} (hd : d < K.dim) (hd' : d' < K.dim)
    (h2 : 2 ≤ ex e d) (h : rank (e.set d (ex e d - 2)) = rank (e.set d' (ex e d' - 2))) : d = d' := by
  by_contra hne
  have := R.inj _ _ (by simpa using he) (by simpa using he) h
  have h3 := congrArg (fun l => ex l d) this
  simp only [ex_set (show d < e.length by omega), ex_set (show d' < e.length by omega), if_true, if_neg hne] at h3
  omega

/-- Entries of the Laplacian matrix. -/
theorem lap_entry (R : Ranked K rank) (D : Diff K rank) (hlen : ∀ e i, (K.secIndices e i).length = K.dim) {k i : Nat}
    {e : List Nat} (he : (compute K k).exps[i]? = some e) (c : Nat) :
    (compute K k).lap i c = ∑ d ∈ Finset.range K.dim,
      if 2 ≤ ex e d ∧ rank (e.set d (ex e d - 2)) = c then (ex e d : Int) * ((ex e d : Int) - 1) else 0 := by
  obtain ⟨h1, h2⟩ := exps_get R he
  change lapLoop K 1 (compute K k).exps.tail (fun _ _ => 0) i c = _
  rw [lapLoop_get]
  by_cases hi : 1 ≤ i
  · rw [if_pos hi, tail_get _ hi, he]
    have hit : ∀ d, LapHit K i e c d ↔ d < K.dim ∧ 2 ≤ ex e d ∧ rank (e.set d (ex e d - 2)) = c := by
      intro d
      unfold LapHit
      by_cases hd : d < K.dim
      · have hx := D.sec e d h1 hd
        rw [h2] at hx
        rw [List.getD_eq_getElem?_getD, hx]
        simp only [Option.getD_some]
        by_cases hs : ex e d < 2
        · simp only [hs, if_true]
          constructor
          · rintro ⟨h, _⟩; omega
          · rintro ⟨_, h, _⟩; omega
        · simp only [hs, if_false]
          constructor
          · rintro ⟨_, h⟩; exact ⟨hd, by omega, by exact_mod_cast h.symm⟩
          · rintro ⟨_, _, h⟩; exact ⟨by omega, by exact_mod_cast h.symm⟩
      · have : (K.secIndices e i)[d]? = none := List.getElem?_eq_none (by rw [hlen]; omega)
        rw [List.getD_eq_getElem?_getD, this]
        simp [hd]
    by_cases hex : ∃ d0, LapHit K i e c d0
    · obtain ⟨d0, hd0⟩ := hex
      obtain ⟨q1, q2, q3⟩ := (hit d0).1 hd0
      have huniq : ∀ d', d' ≠ d0 → ¬ LapHit K i e c d' := by
        intro d' hne h'
        obtain ⟨p1, p2, p3⟩ := (hit d').1 h'
        exact hne (sec_inj R h1 p1 q1 p2 (by rw [p3, q3]))
      simp only
      rw [lapRow_hit K i e K.dim 0 _ c d0 (by omega) (by omega) hd0 huniq,
        Finset.sum_eq_single d0]
      · rw [if_pos ⟨q2, q3⟩]
      · intro d hd hne
        rw [if_neg]
        intro hc
        exact huniq d hne ((hit d).2 ⟨Finset.mem_range.1 hd, hc⟩)
      · intro h; exact absurd (Finset.mem_range.2 q1) h
    · simp only
      rw [lapRow_other K i e K.dim 0 _ i c (.inr fun d' _ _ h => hex ⟨d', h⟩)]
      symm
      apply Finset.sum_eq_zero
      intro d hd
      rw [if_neg]
      intro hc
      exact hex ⟨d, (hit d).2 ⟨Finset.mem_range.1 hd, hc⟩⟩
  · rw [if_neg hi]
    symm
    apply Finset.sum_eq_zero
    intro d _
    have := zero_of_rank R h1 (by omega) d
    simp [this]

end generic

section values
variable {F : Type} [Field F]

theorem vanderPartial_length (x c h : F) : ∀ n, (vanderPartial x c h n).length = n + 1
  | 0 => rfl
  | 1 => rfl
  | n + 2 => by simp [vanderPartial, vanderPartial_length x c h (n + 1)]

theorem vanderPartial_get (x c h : F) : ∀ (n j : Nat), j ≤ n → (vanderPartial x c h n)[j]? = some (((x - c) / h) ^ j)
  | 0, j, hj => by obtain rfl : j = 0 := by omega
                   simp [vanderPartial]
  | 1, j, hj => by
    have : j = 0 ∨ j = 1 := by omega
    rcases this with rfl | rfl
    · simp [vanderPartial]
    · simp [vanderPartial]; ring
  | n + 2, j, hj => by
    by_cases h1 : j ≤ n + 1
    · rw [vanderPartial]
      rw [List.getElem?_append_left (by rw [vanderPartial_length]; omega)]
      exact vanderPartial_get x c h (n + 1) j h1
    · obtain rfl : j = n + 2 := by omega
      rw [vanderPartial]
      rw [List.getElem?_append_right (by rw [vanderPartial_length]), vanderPartial_length, Nat.sub_self,
        List.getElem?_cons_zero, List.getD_eq_getElem?_getD, vanderPartial_get x c h (n + 1) (n + 1) (Nat.le_refl _)]
      simp only [Option.getD_some]
      congr 1
      rw [pow_succ (a := (x - c) / h) (n := n + 1)]
      ring

theorem ex_le_sum : ∀ (e : List Nat) (d : Nat), ex e d ≤ e.sum := by
  intro e
  induction e with
  | nil => intro d; simp [ex]
  | cons a e ih =>
    intro d
    cases d with
    | zero => simp [ex]
    | succ d => have := ih d; simp only [ex, List.getD_cons_succ, List.sum_cons] at *; omega

theorem vanderProd_ok (data : MonoData) (pt c : Nat → F) (h : F) (e : List Nat) (he : e.sum ≤ data.degree) :
    ∀ n, vanderProd data pt c h e (n + 1) = .ok (monomial (n + 1) e pt c h) := by
  have hg : ∀ d, unchecked (vanderPartial (pt d) (c d) h data.degree) (ex e d) = .ok (((pt d - c d) / h) ^ ex e d) := by
    intro d
    rw [unchecked_ok_iff]
    exact vanderPartial_get _ _ _ _ _ (le_trans (ex_le_sum e d) he)
  intro n
  induction n with
  | zero => rw [vanderProd, hg]; simp [monomial, ex]
  | succ n ih =>
    have hm : monomial (n + 1 + 1) e pt c h = monomial (n + 1) e pt c h * ((pt (n + 1) - c (n + 1)) / h) ^ ex e (n + 1) := by
      rw [monomial, Finset.prod_range_succ]; rfl
    rw [vanderProd, ih, hg, hm]
    rfl

variable {K : MonoKind} {rank : List Nat → Nat}

theorem vander_ok (R : Ranked K rank) (hd : 0 < K.dim) (pt c : Nat → F) (h : F) {k i : Nat} {e : List Nat}
    (he : (compute K k).exps[i]? = some e) :
    vander (compute K k) pt c h i = .ok (monomial K.dim e pt c h) := by
  obtain ⟨h1, h2, h3⟩ := (exps_iff R k i e).1 he
  have hzero : i = 0 → monomial K.dim e pt c h = 1 := by
    intro hi
    unfold monomial
    apply Finset.prod_eq_one
    intro d _
    have := zero_of_rank R h1 (by omega) d
    unfold ex at this
    rw [this, pow_zero]
  have hlt : i < K.num k := by rw [← exps_length]; exact (List.getElem?_eq_some_iff.1 he).1
  unfold vander
  by_cases hn : (compute K k).num > 1
  · rw [if_pos hn]
    by_cases hi : i = 0
    · rw [if_pos hi, hzero hi]
    · rw [if_neg hi, (unchecked_ok_iff _ _ _).2 he]
      obtain ⟨m, hm⟩ : ∃ m, K.dim = m + 1 := ⟨K.dim - 1, by omega⟩
      have : (compute K k).dim = m + 1 := hm
      rw [this, hm]
      exact vanderProd_ok _ _ _ _ _ h2 m
  · rw [if_neg hn]
    have hn' : ¬ K.num k > 1 := hn
    rw [hzero (by omega)]

end values

/-- Splitting off one variable. -/
theorem monomial_update (n : Nat) (e : List Nat) (x c : Nat → ℝ) (h t : ℝ) {d : Nat} (hd : d < n) :
    monomial n e (Function.update x d t) c h =
      (∏ j ∈ (Finset.range n).erase d, ((x j - c j) / h) ^ (e.getD j 0)) * ((t - c d) / h) ^ (e.getD d 0) := by
  unfold monomial
  rw [← Finset.prod_erase_mul _ _ (Finset.mem_range.2 hd)]
  congr 1
  · apply Finset.prod_congr rfl
    intro j hj
    rw [Function.update_of_ne (Finset.ne_of_mem_erase hj)]
  · rw [Function.update_self]

theorem monomial_partial (n : Nat) (e : List Nat) (c : Nat → ℝ) (h : ℝ) {d : Nat} (hd : d < n) (hl : e.length = n)
    (x : Nat → ℝ) :
    HasPartial (fun y => monomial n e y c h) d x
      (1 / h * (ex e d : ℝ) * monomial n (e.set d (ex e d - 1)) x c h) := by
  unfold HasPartial
  simp only [monomial_update n e x c h _ hd]
  have h1 : HasDerivAt (fun t : ℝ => (t - c d) / h) (1 / h) (x d) :=
    HasDerivAt.div_const ((hasDerivAt_sub_const_iff (c d)).2 (hasDerivAt_id (x d))) h
  have h2 := (h1.pow (e.getD d 0)).const_mul (∏ j ∈ (Finset.range n).erase d, ((x j - c j) / h) ^ (e.getD j 0))
  have hx : monomial n (e.set d (ex e d - 1)) x c h =
      (∏ j ∈ (Finset.range n).erase d, ((x j - c j) / h) ^ (e.getD j 0)) * ((x d - c d) / h) ^ (e.getD d 0 - 1) := by
    unfold monomial
    rw [← Finset.prod_erase_mul _ _ (Finset.mem_range.2 hd)]
    have hg : ∀ j, (e.set d (ex e d - 1)).getD j 0 = if j = d then ex e d - 1 else e.getD j 0 :=
      fun j => ex_set (by omega) _ j
    congr 1
    · apply Finset.prod_congr rfl
      intro j hj
      rw [hg, if_neg (Finset.ne_of_mem_erase hj)]
    · rw [hg, if_pos rfl]; rfl
  rw [hx]
  refine h2.congr_deriv ?_
  unfold ex
  ring

theorem HasPartial.congr {f g : (Nat → ℝ) → ℝ} {d : Nat} {x : Nat → ℝ} {v : ℝ} (hfg : ∀ y, f y = g y)
    (h : HasPartial g d x v) : HasPartial f d x v := by
  have : f = g := funext hfg
  rw [this]; exact h

theorem monomial_second (n : Nat) (e : List Nat) (c : Nat → ℝ) (h : ℝ) {d : Nat} (hd : d < n) (hl : e.length = n)
    (x : Nat → ℝ) :
    HasSecondPartial (fun y => monomial n e y c h) d x
      (1 / (h * h) * ((ex e d : ℝ) * ((ex e d : ℝ) - 1)) * monomial n (e.set d (ex e d - 2)) x c h) := by
  refine ⟨_, fun y => monomial_partial n e c h hd hl y, ?_⟩
  have h1 := monomial_partial n (e.set d (ex e d - 1)) c h hd (by simpa using hl) x
  have h2 : ex (e.set d (ex e d - 1)) d = ex e d - 1 := by rw [ex_set (by omega), if_pos rfl]
  rw [h2, List.set_set] at h1
  have h3 := HasDerivAt.const_mul (1 / h * (ex e d : ℝ)) h1
  unfold HasPartial
  refine HasDerivAt.congr_deriv h3 ?_
  rw [show ex e d - 1 - 1 = ex e d - 2 by omega]
  by_cases h0 : ex e d = 0
  · rw [h0]; simp
  · rw [Nat.cast_sub (by omega)]
    by_cases hh : h = 0
    · subst hh; simp
    · field_simp
      ring

end PolyDiM
