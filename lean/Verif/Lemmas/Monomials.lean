import Verif.Model.Monomials
import Mathlib.Data.List.Nodup
import Mathlib.Data.List.Basic
import Mathlib.Tactic.Ring
import Mathlib.Tactic.Linarith
import Mathlib.Algebra.BigOperators.Group.Finset.Basic

/-! Helper lemmas: the monomial enumerations. -/

namespace PolyDiM

/-- Triangular numbers. -/
def tri : Nat → Nat
  | 0 => 0
  | n + 1 => tri n + (n + 1)

/-- Tetrahedral numbers. -/
def tet : Nat → Nat
  | 0 => 0
  | n + 1 => tet n + tri (n + 1)

theorem tri_succ (n : Nat) : tri (n + 1) = tri n + (n + 1) := rfl
theorem tet_succ (n : Nat) : tet (n + 1) = tet n + tri (n + 1) := rfl

theorem two_tri (n : Nat) : 2 * tri n = n * (n + 1) := by
  induction n with
  | zero => rfl
  | succ n ih => rw [tri_succ, Nat.mul_add, ih]; ring

theorem six_tet (n : Nat) : 6 * tet n = n * (n + 1) * (n + 2) := by
  induction n with
  | zero => rfl
  | succ n ih =>
    have := two_tri (n + 1)
    rw [tet_succ, Nat.mul_add, ih]
    have e : 6 * tri (n + 1) = 3 * (2 * tri (n + 1)) := by ring
    rw [e, this]; ring

theorem tri_div (n : Nat) : (n + 1) * (n + 2) / 2 = tri (n + 1) := by
  have := two_tri (n + 1)
  rw [show n + 1 + 1 = n + 2 from rfl] at this
  omega

theorem tri_div' (n : Nat) : n * (n + 1) / 2 = tri n := by
  have := two_tri n
  omega

theorem tet_div (n : Nat) : (n + 1) * (n + 2) * (n + 3) / 6 = tet (n + 1) := by
  have := six_tet (n + 1)
  rw [show n + 1 + 1 = n + 2 from rfl, show n + 1 + 2 = n + 3 from rfl] at this
  omega

theorem tri_le {m n : Nat} (h : m ≤ n) : tri m ≤ tri n := by
  induction h with
  | refl => exact Nat.le_refl _
  | step _ ih => rw [tri_succ]; omega

theorem tet_le {m n : Nat} (h : m ≤ n) : tet m ≤ tet n := by
  induction h with
  | refl => exact Nat.le_refl _
  | step _ ih => rw [tet_succ]; omega

/-- Closed formula for the position, dimension 1, 2, 3. -/
def rank1 (e : List Nat) : Nat := ex e 0
/-- Position in dimension 2. -/
def rank2 (e : List Nat) : Nat := tri (ex e 0 + ex e 1) + ex e 1
/-- Position in dimension 3. -/
def rank3 (e : List Nat) : Nat :=
  tet (ex e 0 + ex e 1 + ex e 2) + (tri (ex e 0 + ex e 1 + ex e 2 + 1) - tri (ex e 0 + ex e 1 + 1)) + ex e 1

/-- What makes a successor rule an enumeration. -/
structure Ranked (K : MonoKind) (rank : List Nat → Nat) : Prop where
  zero : rank (List.replicate K.dim 0) = 0
  len : ∀ e, e.length = K.dim → (K.next e).length = K.dim
  next : ∀ e, e.length = K.dim → rank (K.next e) = rank e + 1
  inj : ∀ e e', e.length = K.dim → e'.length = K.dim → rank e = rank e' → e = e'
  bound : ∀ e k, e.length = K.dim → (rank e < K.num k ↔ e.sum ≤ k)
  mono : ∀ e e', e.length = K.dim → e'.length = K.dim → rank e ≤ rank e' → e.sum ≤ e'.sum

theorem len1 {e : List Nat} (h : e.length = 1) : ∃ a, e = [a] := List.length_eq_one_iff.1 h
theorem len2 {e : List Nat} (h : e.length = 2) : ∃ a b, e = [a, b] := List.length_eq_two.1 h
theorem len3 {e : List Nat} (h : e.length = 3) : ∃ a b c, e = [a, b, c] := List.length_eq_three.1 h

theorem ranked1 : Ranked mono1 rank1 where
  zero := rfl
  len e h := rfl
  next e h := rfl
  inj e e' h h' hr := by
    obtain ⟨a, rfl⟩ := len1 h
    obtain ⟨b, rfl⟩ := len1 h'
    simp only [rank1, ex, List.getD_cons_zero] at hr
    rw [hr]
  bound e k h := by
    obtain ⟨a, rfl⟩ := len1 h
    simp [rank1, ex, mono1, Nat.lt_succ_iff]
  mono e e' h h' hr := by
    obtain ⟨a, rfl⟩ := len1 h
    obtain ⟨b, rfl⟩ := len1 h'
    simpa [rank1, ex] using hr

theorem tri_sum_lt {s b s' b' : Nat} (hb : b ≤ s) (h : tri s' + b' ≤ tri s + b) : s' ≤ s := by
  by_contra hs
  have h1 := tri_le (show s + 1 ≤ s' by omega)
  rw [tri_succ] at h1
  omega

theorem ranked2 : Ranked mono2 rank2 where
  zero := rfl
  len e h := by
    obtain ⟨a, b, rfl⟩ := len2 h
    simp only [mono2]
    split <;> rfl
  next e h := by
    obtain ⟨a, b, rfl⟩ := len2 h
    by_cases ha : a = 0
    · subst ha
      simp [mono2, ex, rank2, tri_succ]
      omega
    · have : a - 1 + (b + 1) = a + b := by omega
      simp [mono2, ex, ha, rank2, this]
      omega
  inj e e' h h' hr := by
    obtain ⟨a, b, rfl⟩ := len2 h
    obtain ⟨a', b', rfl⟩ := len2 h'
    simp only [rank2, ex, List.getD_cons_zero, List.getD_cons_succ] at hr
    have h1 := tri_sum_lt (show b ≤ a + b by omega) (le_of_eq hr.symm)
    have h2 := tri_sum_lt (show b' ≤ a' + b' by omega) (le_of_eq hr)
    have h3 : a + b = a' + b' := by omega
    rw [h3] at hr
    have h4 : b = b' := by omega
    have h5 : a = a' := by omega
    rw [h4, h5]
  bound e k h := by
    obtain ⟨a, b, rfl⟩ := len2 h
    simp only [rank2, ex, mono2, tri_div, List.sum_cons, List.sum_nil, List.getD_cons_zero, List.getD_cons_succ]
    constructor
    · intro hlt
      by_contra hk
      have := tri_le (show k + 1 ≤ a + b by omega)
      omega
    · intro hle
      have h1 := tri_le (show a + b ≤ k by omega)
      have := tri_succ k
      omega
  mono e e' h h' hr := by
    obtain ⟨a, b, rfl⟩ := len2 h
    obtain ⟨a', b', rfl⟩ := len2 h'
    simp only [rank2, ex, List.getD_cons_zero, List.getD_cons_succ] at hr
    have := tri_sum_lt (show b' ≤ a' + b' by omega) hr
    simp only [List.sum_cons, List.sum_nil]
    omega

/-- Position inside the degree-`s` layer in dimension 3. -/
theorem rank3_layer (q s b : Nat) (hq : q ≤ s) (hb : b ≤ q) :
    tri (s + 1) - tri (q + 1) + b + tri (q + 1) = tri (s + 1) + b ∧ tri (s + 1) - tri (q + 1) + b < tri (s + 1) := by
  have h1 := tri_le (show q + 1 ≤ s + 1 by omega)
  have h2 := tri_succ q
  omega

theorem rank3_deg {q s b q' s' b' : Nat} (hq : q ≤ s) (hb : b ≤ q) (_ : q' ≤ s') (_ : b' ≤ q')
    (h : tet s' + (tri (s' + 1) - tri (q' + 1)) + b' ≤ tet s + (tri (s + 1) - tri (q + 1)) + b) : s' ≤ s := by
  by_contra hs
  have h1 := tet_le (show s + 1 ≤ s' by omega)
  rw [tet_succ] at h1
  have := (rank3_layer q s b hq hb).2
  omega

theorem ranked3 : Ranked mono3 rank3 where
  zero := rfl
  len e h := by
    obtain ⟨a, b, c, rfl⟩ := len3 h
    simp only [mono3]
    split
    · split <;> rfl
    · rfl
  next e h := by
    obtain ⟨a, b, c, rfl⟩ := len3 h
    by_cases ha : a = 0
    · subst ha
      by_cases hb : b = 0
      · subst hb
        have h1 := tri_le (show 1 ≤ c + 1 by omega)
        have h2 : tri 1 = 1 := rfl
        simp [mono3, ex, rank3, tet_succ, h2]
        omega
      · obtain ⟨b, rfl⟩ : ∃ m, b = m + 1 := ⟨b - 1, by omega⟩
        have e1 : b + 1 + c = b + (c + 1) := by omega
        have h1 := tri_succ (b + 1)
        have h2 := tri_le (show b + 1 + 1 ≤ b + (c + 1) + 1 by omega)
        simp [mono3, ex, rank3, e1]
        omega
    · obtain ⟨a, rfl⟩ : ∃ m, a = m + 1 := ⟨a - 1, by omega⟩
      have e1 : a + 1 + b = a + (b + 1) := by omega
      simp [mono3, ex, rank3, e1]
      omega
  inj e e' h h' hr := by
    obtain ⟨a, b, c, rfl⟩ := len3 h
    obtain ⟨a', b', c', rfl⟩ := len3 h'
    simp only [rank3, ex, List.getD_cons_zero, List.getD_cons_succ] at hr
    have h1 := rank3_deg (show a + b ≤ a + b + c by omega) (show b ≤ a + b by omega) (show a' + b' ≤ a' + b' + c' by omega)
      (show b' ≤ a' + b' by omega) (le_of_eq hr.symm)
    have h2 := rank3_deg (show a' + b' ≤ a' + b' + c' by omega) (show b' ≤ a' + b' by omega) (show a + b ≤ a + b + c by omega)
      (show b ≤ a + b by omega) (le_of_eq hr)
    have hs : a + b + c = a' + b' + c' := by omega
    have l1 := (rank3_layer (a + b) (a + b + c) b (by omega) (by omega)).1
    have l2 := (rank3_layer (a' + b') (a' + b' + c') b' (by omega) (by omega)).1
    rw [hs] at hr l1
    have t1 := tri_succ (a + b)
    have t2 := tri_succ (a' + b')
    have e1 : tri (a + b + 1) + b' = tri (a' + b' + 1) + b := by omega
    have hq : a + b = a' + b' := by
      rcases Nat.lt_trichotomy (a + b) (a' + b') with hl | hl | hl
      · have := tri_le (show a + b + 1 ≤ a' + b' by omega); omega
      · exact hl
      · have := tri_le (show a' + b' + 1 ≤ a + b by omega); omega
    rw [hq] at e1
    have hb : b = b' := by omega
    have ha : a = a' := by omega
    have hc : c = c' := by omega
    rw [ha, hb, hc]
  bound e k h := by
    obtain ⟨a, b, c, rfl⟩ := len3 h
    have hl := (rank3_layer (a + b) (a + b + c) b (by omega) (by omega)).2
    simp only [rank3, ex, mono3, tet_div, List.sum_cons, List.sum_nil, List.getD_cons_zero, List.getD_cons_succ]
    constructor
    · intro hlt
      by_contra hk
      have := tet_le (show k + 1 ≤ a + b + c by omega)
      omega
    · intro hle
      have h1 := tet_le (show a + b + c + 1 ≤ k + 1 by omega)
      have h2 := tet_succ (a + b + c)
      omega
  mono e e' h h' hr := by
    obtain ⟨a, b, c, rfl⟩ := len3 h
    obtain ⟨a', b', c', rfl⟩ := len3 h'
    simp only [rank3, ex, List.getD_cons_zero, List.getD_cons_succ] at hr
    have := rank3_deg (show a' + b' ≤ a' + b' + c' by omega) (show b' ≤ a' + b' by omega)
      (show a + b ≤ a + b + c by omega) (show b ≤ a + b by omega) hr
    simp only [List.sum_cons, List.sum_nil]
    omega

/-! ### Consequences for any ranked kind -/

section generic
variable {K : MonoKind} {rank : List Nat → Nat}

theorem expoLoop_length (next : List Nat → List Nat) (n : Nat) : ∀ e, (expoLoop next n e).length = n := by
  induction n with
  | zero => intro e; rfl
  | succ n ih => intro e; simp [expoLoop, ih]

theorem expoLoop_take (next : List Nat → List Nat) (n : Nat) : ∀ (m : Nat) e, m ≤ n →
    (expoLoop next n e).take m = expoLoop next m e := by
  induction n with
  | zero => intro m e h; obtain rfl : m = 0 := by omega
            rfl
  | succ n ih =>
    intro m e h
    cases m with
    | zero => rfl
    | succ m => simp only [expoLoop, List.take_succ_cons, ih m (next e) (by omega)]

theorem expoLoop_get (R : Ranked K rank) (n : Nat) : ∀ (e : List Nat) (i : Nat) (x : List Nat), e.length = K.dim →
    (expoLoop K.next n e)[i]? = some x → x.length = K.dim ∧ rank x = rank e + i := by
  induction n with
  | zero => intro e i x _ hx; simp [expoLoop] at hx
  | succ n ih =>
    intro e i x he hx
    cases i with
    | zero =>
      simp only [expoLoop, List.getElem?_cons_zero, Option.some.injEq] at hx
      subst hx
      exact ⟨he, rfl⟩
    | succ i =>
      simp only [expoLoop, List.getElem?_cons_succ] at hx
      obtain ⟨h1, h2⟩ := ih _ i x (R.len e he) hx
      refine ⟨h1, ?_⟩
      rw [h2, R.next e he]; omega

theorem exps_length (K : MonoKind) (k : Nat) : (compute K k).exps.length = K.num k := expoLoop_length _ _ _

theorem exps_get (R : Ranked K rank) {k i : Nat} {e : List Nat} (h : (compute K k).exps[i]? = some e) :
    e.length = K.dim ∧ rank e = i := by
  have := expoLoop_get R (K.num k) _ i e (by simp) h
  rw [R.zero, Nat.zero_add] at this
  exact this

/-- The enumeration is exactly the inverse of `rank`. -/
theorem exps_iff (R : Ranked K rank) (k i : Nat) (e : List Nat) :
    (compute K k).exps[i]? = some e ↔ e.length = K.dim ∧ e.sum ≤ k ∧ rank e = i := by
  constructor
  · intro h
    obtain ⟨h1, h2⟩ := exps_get R h
    refine ⟨h1, ?_, h2⟩
    rw [← R.bound e k h1, h2, ← exps_length K k]
    exact (List.getElem?_eq_some_iff.1 h).1
  · rintro ⟨h1, h2, h3⟩
    have hi : i < (compute K k).exps.length := by
      rw [exps_length, ← h3]; exact (R.bound e k h1).2 h2
    have hx := List.getElem?_eq_getElem hi
    obtain ⟨x1, x2⟩ := exps_get R hx
    rw [hx, R.inj _ e x1 h1 (by rw [x2, h3])]

theorem mem_exps_iff (R : Ranked K rank) (k : Nat) (e : List Nat) :
    e ∈ (compute K k).exps ↔ e.length = K.dim ∧ e.sum ≤ k := by
  rw [List.mem_iff_getElem?]
  constructor
  · rintro ⟨i, h⟩
    have := (exps_iff R k i e).1 h
    exact ⟨this.1, this.2.1⟩
  · rintro ⟨h1, h2⟩
    exact ⟨rank e, (exps_iff R k _ e).2 ⟨h1, h2, rfl⟩⟩

theorem exps_nodup (R : Ranked K rank) (k : Nat) : (compute K k).exps.Nodup := by
  rw [List.nodup_iff_injective_getElem]
  intro i j hij
  have h1 := exps_get R (List.getElem?_eq_getElem i.2)
  have h2 := exps_get R (List.getElem?_eq_getElem j.2)
  simp only at hij
  rw [hij] at h1
  exact Fin.ext (by rw [← h1.2, h2.2])

theorem exps_graded (R : Ranked K rank) (k : Nat) {i j : Nat} {e e' : List Nat} (hij : i ≤ j)
    (hi : (compute K k).exps[i]? = some e) (hj : (compute K k).exps[j]? = some e') : e.sum ≤ e'.sum := by
  obtain ⟨h1, h2⟩ := exps_get R hi
  obtain ⟨h3, h4⟩ := exps_get R hj
  exact R.mono e e' h1 h3 (by omega)

theorem num_mono (R : Ranked K rank) (k : Nat) : K.num k ≤ K.num (k + 1) := by
  by_contra h
  have hlt : K.num (k + 1) < (compute K k).exps.length := by rw [exps_length]; omega
  have hx := List.getElem?_eq_getElem hlt
  have h1 := (exps_iff R k _ _).1 hx
  have h2 := (exps_iff R (k + 1) (K.num (k + 1)) _).2 ⟨h1.1, by omega, h1.2.2⟩
  have := (List.getElem?_eq_some_iff.1 h2).1
  rw [exps_length] at this
  omega

theorem exps_prefix (R : Ranked K rank) (k : Nat) :
    (compute K k).exps = (compute K (k + 1)).exps.take (K.num k) :=
  (expoLoop_take _ _ _ _ (num_mono R k)).symm

theorem derLoop_get (K : MonoKind) (d : Nat) (es : List (List Nat)) : ∀ (i0 : Nat) (M : Nat → Nat → Int) (r c : Nat),
    derLoop K d i0 es M r c = if i0 ≤ r then
      (match es[r - i0]? with
      | some e => if 0 ≤ (K.derIndices e r).getD d (-1) ∧ (c : Int) = (K.derIndices e r).getD d (-1) then (ex e d : Int)
          else M r c
      | none => M r c) else M r c := by
  induction es with
  | nil => intro i0 M r c; simp [derLoop]
  | cons e es ih =>
    intro i0 M r c
    rw [derLoop, ih]
    by_cases h1 : i0 + 1 ≤ r
    · have e1 : r - i0 = (r - (i0 + 1)) + 1 := by omega
      have e2 : r ≠ i0 := by omega
      rw [if_pos h1, if_pos (by omega), e1, List.getElem?_cons_succ]
      simp [setIfIdx, e2]
    · rw [if_neg h1]
      by_cases h2 : r = i0
      · subst h2
        simp [setIfIdx]
      · rw [if_neg (by omega)]
        simp [setIfIdx, h2]

/-- Match of a column with direction `d` in a row of the Laplacian. -/
def LapHit (K : MonoKind) (i : Nat) (e : List Nat) (c d : Nat) : Prop :=
  0 ≤ (K.secIndices e i).getD d (-1) ∧ (c : Int) = (K.secIndices e i).getD d (-1)

theorem lapRow_other (K : MonoKind) (i : Nat) (e : List Nat) (n : Nat) : ∀ (d : Nat) (M : Nat → Nat → Int) (r c : Nat),
    (r ≠ i ∨ ∀ d', d ≤ d' → d' < d + n → ¬ LapHit K i e c d') → lapRow K i e d n M r c = M r c := by
  induction n with
  | zero => intro d M r c _; rfl
  | succ n ih =>
    intro d M r c h
    rw [lapRow, ih]
    · rcases h with h | h
      · simp [setIfIdx, h]
      · have := h d (by omega) (by omega)
        unfold LapHit at this
        unfold setIfIdx
        rw [if_neg]
        tauto
    · rcases h with h | h
      · exact .inl h
      · exact .inr fun d' h1 h2 => h d' (by omega) (by omega)

theorem lapRow_hit (K : MonoKind) (i : Nat) (e : List Nat) (n : Nat) : ∀ (d : Nat) (M : Nat → Nat → Int) (c d0 : Nat),
    d ≤ d0 → d0 < d + n → LapHit K i e c d0 → (∀ d', d' ≠ d0 → ¬ LapHit K i e c d') →
    lapRow K i e d n M i c = (ex e d0 : Int) * ((ex e d0 : Int) - 1) := by
  induction n with
  | zero => intro d M c d0 h1 h2; omega
  | succ n ih =>
    intro d M c d0 h1 h2 hit huniq
    rw [lapRow]
    by_cases hd : d = d0
    · subst hd
      rw [lapRow_other K i e n (d + 1) _ i c (.inr fun d' h3 _ => huniq d' (by omega))]
      unfold setIfIdx
      rw [if_pos ⟨hit.1, rfl, hit.2⟩]
    · exact ih (d + 1) _ c d0 (by omega) (by omega) hit huniq

theorem lapLoop_get (K : MonoKind) (es : List (List Nat)) : ∀ (i0 : Nat) (M : Nat → Nat → Int) (r c : Nat),
    lapLoop K i0 es M r c = if i0 ≤ r then
      (match es[r - i0]? with
      | some e => lapRow K r e 0 K.dim (fun _ _ => M r c) r c
      | none => M r c) else M r c := by
  have hM : ∀ (i : Nat) (e : List Nat) (n d : Nat) (M M' : Nat → Nat → Int) (r c : Nat), M r c = M' r c →
      lapRow K i e d n M r c = lapRow K i e d n M' r c := by
    intro i e n
    induction n with
    | zero => intro d M M' r c h; exact h
    | succ n ih =>
      intro d M M' r c h
      rw [lapRow, lapRow]
      apply ih
      simp only [setIfIdx, h]
  induction es with
  | nil => intro i0 M r c; simp [lapLoop]
  | cons e es ih =>
    intro i0 M r c
    rw [lapLoop, ih]
    by_cases h1 : i0 + 1 ≤ r
    · have e1 : r - i0 = (r - (i0 + 1)) + 1 := by omega
      have e2 : r ≠ i0 := by omega
      rw [if_pos h1, if_pos (by omega), e1, List.getElem?_cons_succ, lapRow_other K i0 e K.dim 0 M r c (.inl e2)]
    · rw [if_neg h1]
      by_cases h2 : r = i0
      · subst h2
        rw [if_pos (Nat.le_refl _), Nat.sub_self, List.getElem?_cons_zero]
        exact hM _ _ _ _ _ _ _ _ rfl
      · rw [if_neg (by omega), lapRow_other K i0 e K.dim 0 M r c (.inl h2)]

end generic

/-- What makes the index formulas correct. -/
structure Diff (K : MonoKind) (rank : List Nat → Nat) : Prop where
  der : ∀ e d, e.length = K.dim → d < K.dim → (K.derIndices e (rank e))[d]? =
    some (if ex e d = 0 then -1 else (rank (e.set d (ex e d - 1)) : Int))
  sec : ∀ e d, e.length = K.dim → d < K.dim → (K.secIndices e (rank e))[d]? =
    some (if ex e d < 2 then -1 else (rank (e.set d (ex e d - 2)) : Int))

theorem lt2 {d : Nat} (h : d < 2) : d = 0 ∨ d = 1 := by omega
theorem lt3 {d : Nat} (h : d < 3) : d = 0 ∨ d = 1 ∨ d = 2 := by omega

theorem diff1 : Diff mono1 rank1 where
  der e d h hd := by
    obtain ⟨a, rfl⟩ := len1 h
    obtain rfl : d = 0 := by simp only [mono1] at hd; omega
    by_cases ha : a = 0
    · subst ha; rfl
    · have : 0 < a := by omega
      simp [mono1, ex, rank1, ha, this]
  sec e d h hd := by
    obtain ⟨a, rfl⟩ := len1 h
    obtain rfl : d = 0 := by simp only [mono1] at hd; omega
    by_cases ha : a < 2
    · have : ¬ 1 < a := by omega
      simp [mono1, ex, ha, this]
    · have : 1 < a := by omega
      simp [mono1, ex, rank1, ha, this]
      omega

theorem diff2 : Diff mono2 rank2 where
  der e d h hd := by
    obtain ⟨a, b, rfl⟩ := len2 h
    rcases lt2 hd with rfl | rfl
    · cases a with
      | zero => rfl
      | succ a =>
        have e1 : a + 1 + b = (a + b) + 1 := by omega
        simp [mono2, ex, rank2, e1, tri_succ]
        omega
    · cases b with
      | zero => simp [mono2, ex]
      | succ b =>
        have e1 : a + (b + 1) = (a + b) + 1 := by omega
        simp [mono2, ex, rank2, e1, tri_succ]
        omega
  sec e d h hd := by
    obtain ⟨a, b, rfl⟩ := len2 h
    rcases lt2 hd with rfl | rfl
    · by_cases ha : a < 2
      · have : ¬ 1 < a := by omega
        simp [mono2, ex, ha, this]
      · obtain ⟨a, rfl⟩ : ∃ m, a = m + 2 := ⟨a - 2, by omega⟩
        have e1 : a + 2 + b = (a + b) + 1 + 1 := by omega
        simp [mono2, ex, rank2, e1, tri_succ]
        omega
    · by_cases ha : b < 2
      · have : ¬ 1 < b := by omega
        simp [mono2, ex, ha, this]
      · obtain ⟨b, rfl⟩ : ∃ m, b = m + 2 := ⟨b - 2, by omega⟩
        have e1 : a + (b + 2) = (a + b) + 1 + 1 := by omega
        simp [mono2, ex, rank2, e1, tri_succ]
        omega

theorem rank3_add (a b c : Nat) : rank3 [a, b, c] + tri (a + b + 1) = tet (a + b + c + 1) + b := by
  have h1 := tri_le (show a + b + 1 ≤ a + b + c + 1 by omega)
  simp only [rank3, ex, List.getD_cons_zero, List.getD_cons_succ, tet_succ]
  omega

theorem sq_tri (s : Nat) : (s + 1) * (s + 1) = tri (s + 1) + tri s := by
  have h1 := two_tri (s + 1)
  have h2 := two_tri s
  have : 2 * ((s + 1) * (s + 1)) = (s + 1) * (s + 1 + 1) + s * (s + 1) := by ring
  omega

theorem diff3 : Diff mono3 rank3 where
  der e d h hd := by
    obtain ⟨a, b, c, rfl⟩ := len3 h
    have r0 := rank3_add a b c
    rcases lt3 hd with rfl | rfl | rfl
    · cases a with
      | zero => rfl
      | succ a =>
        have r1 := rank3_add a b c
        have e1 : a + 1 + b = a + b + 1 := by omega
        have e2 : a + b + 1 + c = a + b + c + 1 := by omega
        have t1 := tri_succ (a + b + 1)
        have t2 := tet_succ (a + b + c + 1)
        simp only [mono3, ex, List.getD_cons_zero, List.getD_cons_succ, List.getElem?_cons_zero, List.set_cons_zero,
          Nat.add_sub_cancel, tri_div, Nat.succ_pos, if_true, Option.some.injEq, gt_iff_lt]
        rw [e1, e2] at r0
        rw [if_neg (by omega), e1, e2]
        omega
    · cases b with
      | zero => simp [mono3, ex]
      | succ b =>
        have r1 := rank3_add a b c
        have e1 : a + (b + 1) = a + b + 1 := by omega
        have e2 : a + b + 1 + c = a + b + c + 1 := by omega
        have t1 := tri_succ (a + b + 1)
        have t2 := tet_succ (a + b + c + 1)
        simp only [mono3, ex, List.getD_cons_zero, List.getD_cons_succ, List.getElem?_cons_zero, List.getElem?_cons_succ,
          List.set_cons_zero, List.set_cons_succ, Nat.add_sub_cancel, tri_div, Nat.succ_pos, if_true, Option.some.injEq,
          gt_iff_lt]
        rw [e1, e2] at r0
        rw [if_neg (by omega), e1, e2]
        omega
    · cases c with
      | zero => simp [mono3, ex]
      | succ c =>
        have r1 := rank3_add a b c
        have t2 := tet_succ (a + b + c + 1)
        have e2 : a + b + (c + 1) = a + b + c + 1 := by omega
        simp only [mono3, ex, List.getD_cons_zero, List.getD_cons_succ, List.getElem?_cons_zero, List.getElem?_cons_succ,
          List.set_cons_zero, List.set_cons_succ, Nat.add_sub_cancel, tri_div, Nat.succ_pos, if_true, Option.some.injEq,
          gt_iff_lt]
        rw [e2] at r0
        rw [if_neg (by omega), e2]
        omega
  sec e d h hd := by
    obtain ⟨a, b, c, rfl⟩ := len3 h
    have r0 := rank3_add a b c
    rcases lt3 hd with rfl | rfl | rfl
    · by_cases ha : a < 2
      · have : ¬ 1 < a := by omega
        simp [mono3, ex, ha, this]
      · obtain ⟨a, rfl⟩ : ∃ m, a = m + 2 := ⟨a - 2, by omega⟩
        have r1 := rank3_add a b c
        have e1 : a + 2 + b = a + b + 2 := by omega
        have e2 : a + b + 2 + c = a + b + c + 2 := by omega
        have t1 : tri (a + b + 2) = tri (a + b + 1) + (a + b + 2) := tri_succ _
        have t1' : tri (a + b + 2 + 1) = tri (a + b + 2) + (a + b + 2 + 1) := tri_succ _
        have t2 : tet (a + b + c + 2) = tet (a + b + c + 1) + tri (a + b + c + 2) := tet_succ _
        have t2' := tet_succ (a + b + c + 2)
        have t3 := tri_succ (a + b + c + 2)
        simp only [mono3, ex, List.getD_cons_zero, List.getD_cons_succ, List.getElem?_cons_zero, List.set_cons_zero,
          Nat.add_sub_cancel, Option.some.injEq, gt_iff_lt, sq_tri]
        rw [e1, e2] at r0
        rw [if_neg (show ¬ a + 2 < 2 by omega), if_pos (by omega), e1, e2]
        omega
    · by_cases ha : b < 2
      · have : ¬ 1 < b := by omega
        simp [mono3, ex, ha, this]
      · obtain ⟨b, rfl⟩ : ∃ m, b = m + 2 := ⟨b - 2, by omega⟩
        have r1 := rank3_add a b c
        have e1 : a + (b + 2) = a + b + 2 := by omega
        have e2 : a + b + 2 + c = a + b + c + 2 := by omega
        have t1 : tri (a + b + 2) = tri (a + b + 1) + (a + b + 2) := tri_succ _
        have t1' : tri (a + b + 2 + 1) = tri (a + b + 2) + (a + b + 2 + 1) := tri_succ _
        have t2 : tet (a + b + c + 2) = tet (a + b + c + 1) + tri (a + b + c + 2) := tet_succ _
        have t2' := tet_succ (a + b + c + 2)
        have t3 := tri_succ (a + b + c + 2)
        simp only [mono3, ex, List.getD_cons_zero, List.getD_cons_succ, List.getElem?_cons_zero, List.getElem?_cons_succ,
          List.set_cons_zero, List.set_cons_succ, Nat.add_sub_cancel, Option.some.injEq, gt_iff_lt, sq_tri]
        rw [e1, e2] at r0
        rw [if_neg (show ¬ b + 2 < 2 by omega), if_pos (by omega), e1, e2]
        omega
    · by_cases ha : c < 2
      · have : ¬ 1 < c := by omega
        simp [mono3, ex, ha, this]
      · obtain ⟨c, rfl⟩ : ∃ m, c = m + 2 := ⟨c - 2, by omega⟩
        have r1 := rank3_add a b c
        have e2 : a + b + (c + 2) = a + b + c + 2 := by omega
        have t2 : tet (a + b + c + 2) = tet (a + b + c + 1) + tri (a + b + c + 2) := tet_succ _
        have t2' := tet_succ (a + b + c + 2)
        have t3 := tri_succ (a + b + c + 2)
        simp only [mono3, ex, List.getD_cons_zero, List.getD_cons_succ, List.getElem?_cons_zero, List.getElem?_cons_succ,
          List.set_cons_zero, List.set_cons_succ, Nat.add_sub_cancel, Option.some.injEq, gt_iff_lt, sq_tri]
        rw [e2] at r0
        rw [if_neg (show ¬ c + 2 < 2 by omega), if_pos (by omega), e2]
        omega

end PolyDiM
