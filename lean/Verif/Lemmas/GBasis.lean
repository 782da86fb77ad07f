import Verif.Model.GBasis
import Verif.Lemmas.MonomialsFinal
import Mathlib.Data.List.Perm.Basic
import Mathlib.Data.List.Perm.Lattice

/-! Helper lemmas: vector polynomial decomposition. -/

namespace PolyDiM
open Spec

theorem nkp1_2 (k : Nat) : (k + 2) * (k + 3) / 2 = tri (k + 2) := tri_div (k + 1)
theorem nkp1_3 (k : Nat) : (k + 2) * (k + 3) * (k + 4) / 6 = tet (k + 2) := tet_div (k + 1)
theorem nkm1_3 (k : Nat) : k * (k + 1) * (k + 2) / 6 = tet k := by
  have := six_tet k
  omega

theorem dimFirst_eq (k : Nat) : k * (k + 1) * (k + 2) / 6 - (k - 1) * k * (k + 1) / 6 = tri k := by
  rw [nkm1_3]
  cases k with
  | zero => rfl
  | succ k =>
    have h1 : (k + 1 - 1) * (k + 1) * (k + 1 + 1) / 6 = tet k := by
      rw [Nat.add_sub_cancel]; exact nkm1_3 k
    rw [h1, tet_succ]
    omega

theorem rank2_lt {a b : Nat} (k : Nat) (h : a + b ≤ k) : rank2 [a, b] < tri (k + 1) := by
  rw [← tri_div]; exact (ranked2.bound [a, b] k rfl).2 (by simpa using h)

theorem rank3_lt {a b c : Nat} (k : Nat) (h : a + b + c ≤ k) : rank3 [a, b, c] < tet (k + 1) := by
  rw [← tet_div]; exact (ranked3.bound [a, b, c] k rfl).2 (by simp; omega)

theorem le_tri (n : Nat) : n ≤ tri n := by
  cases n with
  | zero => exact Nat.le_refl _
  | succ n => rw [tri_succ]; omega

theorem le_tet (n : Nat) : n ≤ tet n := by
  cases n with
  | zero => exact Nat.le_refl _
  | succ n => rw [tet_succ]; have := le_tri (n + 1); omega

section put
variable {K : Type}

theorem putCol_ok (cols : Nat → Nat) (r : DecRow K) (i p n : Nat) (x : K) (h : n < cols p) :
    putCol cols r i p (n : Int) x = .ok (fun i' p' c => if i' = i ∧ p' = p ∧ c = n then x else r i' p' c) := by
  unfold putCol
  rw [if_pos ⟨by omega, by omega⟩]
  congr 1
  funext i' p' c
  simp only [Nat.cast_inj]

theorem putColIf_ok (cond : Bool) (cols : Nat → Nat) (r : DecRow K) (i p n : Nat) (x : K) (idx : Except Fault Int)
    (h : cond = true → idx = .ok (n : Int) ∧ n < cols p) :
    putColIf cond cols r i p idx x =
      .ok (fun i' p' c => if cond = true ∧ i' = i ∧ p' = p ∧ c = n then x else r i' p' c) := by
  unfold putColIf
  cases cond with
  | false => simp
  | true =>
    obtain ⟨h1, h2⟩ := h rfl
    rw [if_pos rfl, h1, except_ok_bind, putCol_ok cols r i p n x h2]
    simp

theorem decLoop_ok (f : List Nat → Except Fault (DecRow K)) (exps : List (List Nat)) (g : List Nat → DecRow K) (n : Nat) :
    ∀ j, (∀ (t : Nat), j ≤ t → t < j + n → ∃ e, exps[t]? = some e ∧ f e = .ok (g e)) →
    ∃ rs, decLoop f exps n j = .ok rs ∧ rs.length = n ∧
      ∀ (t : Nat) e, t < n → exps[j + t]? = some e → rs[t]? = some (g e) := by
  induction n with
  | zero => intro j _; exact ⟨[], rfl, rfl, fun t e ht => absurd ht (by omega)⟩
  | succ n ih =>
    intro j h
    obtain ⟨e, he, hf⟩ := h j (Nat.le_refl _) (by omega)
    obtain ⟨rs, h1, h2, h3⟩ := ih (j + 1) (fun t ht1 ht2 => h t (by omega) (by omega))
    refine ⟨g e :: rs, ?_, by simp [h2], ?_⟩
    · rw [decLoop, (unchecked_ok_iff _ _ _).2 he, except_ok_bind, hf, except_ok_bind, h1]
      rfl
    · intro t e' ht he'
      cases t with
      | zero =>
        rw [Nat.add_zero, he] at he'
        cases he'
        rfl
      | succ t =>
        rw [List.getElem?_cons_succ]
        exact h3 t e' (by omega) (by rw [← he']; congr 1; omega)

end put

/-! ### Two dimensions -/

theorem getM2_ok {N : Nat} {M : Nat → Nat → Int} {a b : Nat} (h1 : a < N) (h2 : b < N) : getM2 N M a b = .ok (M a b) :=
  if_pos ⟨h1, h2⟩

theorem setM2_ok {N : Nat} {M : Nat → Nat → Int} {a b : Nat} (x : Int) (h1 : a < N) (h2 : b < N) :
    setM2 N M a b x = .ok (fun a' b' => if a' = a ∧ b' = b then x else M a' b') := if_pos ⟨h1, h2⟩

theorem rank2_inj {a b a' b' : Nat} (h : rank2 [a, b] = rank2 [a', b']) : a = a' ∧ b = b' := by
  have := ranked2.inj [a, b] [a', b'] rfl rfl h
  simp only [List.cons.injEq, and_true] at this
  exact this

theorem mapLoop2_ok (k n : Nat) : ∀ i M, 1 ≤ i → i + n = tri (k + 2) →
    (∀ a b, rank2 [a, b] < i → M a b = (rank2 [a, b] : Int)) →
    ∃ M', mapLoop2 (tri (k + 2)) (compute mono2 (k + 1)).exps n i M = .ok M' ∧
      ∀ a b, a + b ≤ k + 1 → M' a b = (rank2 [a, b] : Int) := by
  induction n with
  | zero =>
    intro i M _ hi hM
    exact ⟨M, rfl, fun a b hab => hM a b (by have : rank2 [a, b] < tri (k + 2) := rank2_lt (k + 1) hab; omega)⟩
  | succ n ih =>
    intro i M h1 hi hM
    have hlen : (compute mono2 (k + 1)).exps.length = tri (k + 2) := by
      rw [exps_length]; exact nkp1_2 k
    obtain ⟨e, he⟩ : ∃ e, (compute mono2 (k + 1)).exps[i - 1]? = some e :=
      ⟨_, List.getElem?_eq_getElem (by omega)⟩
    obtain ⟨q1, q2, q3⟩ := (exps_iff ranked2 _ _ _).1 he
    obtain ⟨a, b, rfl⟩ := len2 q1
    have hnext := ranked2.next [a, b] rfl
    rw [q3] at hnext
    have hab : a + b ≤ k + 1 := by simpa using q2
    have hN := le_tri (k + 2)
    have hnl : a = 0 → b + 1 < tri (k + 2) := by
      intro ha
      subst ha
      have e1 : mono2.next [0, b] = [b + 1, 0] := rfl
      rw [e1] at hnext
      have hlt : rank2 [b + 1, 0] < tri (k + 2) := by omega
      have : b + 1 ≤ k + 1 := by
        have := (ranked2.bound [b + 1, 0] (k + 1) rfl).1 (by rw [show mono2.num (k + 1) = tri (k + 2) from nkp1_2 k]; exact hlt)
        simpa using this
      omega
    rw [mapLoop2, (unchecked_ok_iff _ _ _).2 he, except_ok_bind, mapStep2]
    by_cases ha : a = 0
    · subst ha
      rw [if_pos (show ex [0, b] 0 = 0 from rfl), show ex [0, b] 1 = b from rfl, setM2_ok _ (hnl rfl) (by omega),
        except_ok_bind]
      refine ih (i + 1) _ (by omega) (by omega) fun a' b' hr => ?_
      have e1 : rank2 [b + 1, 0] = i := by
        rw [show mono2.next [0, b] = [b + 1, 0] from rfl] at hnext; omega
      show (if _ then _ else _) = _
      by_cases hc : a' = b + 1 ∧ b' = 0
      · rw [if_pos hc, hc.1, hc.2, e1]
      · rw [if_neg hc]
        refine hM a' b' ?_
        have : rank2 [a', b'] ≠ i := by
          intro h
          exact hc (rank2_inj (by rw [h, e1]))
        omega
    · rw [if_neg (show ¬ ex [a, b] 0 = 0 from ha), show ex [a, b] 1 = b from rfl, show ex [a, b] 0 = a from rfl,
        setM2_ok _ (by omega) (by omega), except_ok_bind]
      refine ih (i + 1) _ (by omega) (by omega) fun a' b' hr => ?_
      have e1 : rank2 [a - 1, b + 1] = i := by
        have : mono2.next [a, b] = [a - 1, b + 1] := if_neg ha
        rw [this] at hnext; omega
      show (if _ then _ else _) = _
      by_cases hc : a' = a - 1 ∧ b' = b + 1
      · rw [if_pos hc, hc.1, hc.2, e1]
      · rw [if_neg hc]
        refine hM a' b' ?_
        have : rank2 [a', b'] ≠ i := by
          intro h
          exact hc (rank2_inj (by rw [h, e1]))
        omega

/-- The row of the decomposition of the monomial `[a, b]`. -/
noncomputable def row2 (e : List Nat) : DecRow ℝ := fun i p c =>
  if i = 1 ∧ p = 1 then (if 0 < ex e 0 ∧ c = rank2 [ex e 0 - 1, ex e 1] then -(ex e 0 : ℝ) / ((e.sum : ℝ) + 1) else 0)
  else if i = 1 ∧ p = 0 then (if c = rank2 [ex e 0, ex e 1 + 1] then 1 / ((e.sum : ℝ) + 1) else 0)
  else if i = 0 ∧ p = 1 then (if 0 < ex e 1 ∧ c = rank2 [ex e 0, ex e 1 - 1] then (ex e 1 : ℝ) / ((e.sum : ℝ) + 1) else 0)
  else if i = 0 ∧ p = 0 then (if c = rank2 [ex e 0 + 1, ex e 1] then 1 / ((e.sum : ℝ) + 1) else 0)
  else 0

theorem decRow2_ok (k : Nat) (M : Nat → Nat → Int) (hM : ∀ a b, a + b ≤ k + 1 → M a b = (rank2 [a, b] : Int)) (a b : Nat)
    (hab : a + b ≤ k) : decRow2 (K := ℝ) (tri k) (tri (k + 2)) M [a, b] = .ok (row2 [a, b]) := by
  have hN := le_tri (k + 2)
  have g : ∀ a b, a + b ≤ k + 1 → getM2 (tri (k + 2)) M a b = .ok (rank2 [a, b] : Int) := by
    intro a b h
    rw [getM2_ok (by omega) (by omega), hM a b h]
  have l1 : ∀ a b, a + b ≤ k + 1 → rank2 [a, b] < tri (k + 2) := fun a b h => rank2_lt (k + 1) h
  have l2 : ∀ a b, a + b + 1 ≤ k → rank2 [a, b] < tri k := by
    intro a b h
    have := @rank2_lt a b (k - 1) (by omega)
    rwa [show k - 1 + 1 = k by omega] at this
  have i01 : readIf (decide (b > 0)) (getM2 (tri (k + 2)) M a (b - 1)) =
      .ok (if b > 0 then (rank2 [a, b - 1] : Int) else -1) := by
    unfold readIf
    by_cases h : b > 0
    · rw [if_pos (by simpa using h), if_pos h, g _ _ (by omega)]
    · rw [if_neg (by simpa using h), if_neg h]
  have i11 : readIf (decide (a > 0)) (getM2 (tri (k + 2)) M (a - 1) b) =
      .ok (if a > 0 then (rank2 [a - 1, b] : Int) else -1) := by
    unfold readIf
    by_cases h : a > 0
    · rw [if_pos (by simpa using h), if_pos h, g _ _ (by omega)]
    · rw [if_neg (by simpa using h), if_neg h]
  unfold decRow2
  simp only [show ex [a, b] 0 = a from rfl, show ex [a, b] 1 = b from rfl]
  have c0 : (fun p : Nat => if p = 0 then tri (k + 2) else tri k) 0 = tri (k + 2) := rfl
  have c1 : (fun p : Nat => if p = 0 then tri (k + 2) else tri k) 1 = tri k := rfl
  generalize (fun p : Nat => if p = 0 then tri (k + 2) else tri k) = cols at c0 c1 ⊢
  rw [← c0] at l1
  rw [← c1] at l2
  rw [g _ _ (by omega), except_ok_bind, i01, except_ok_bind, g _ _ (by omega), except_ok_bind, i11, except_ok_bind,
    putCol_ok _ _ _ _ _ _ (l1 _ _ (by omega)), except_ok_bind,
    putColIf_ok _ _ _ _ _ (rank2 [a, b - 1]) _ _ ?_, except_ok_bind,
    putCol_ok _ _ _ _ _ _ (l1 _ _ (by omega)), except_ok_bind,
    putColIf_ok _ _ _ _ _ (rank2 [a - 1, b]) _ _ ?_]
  · congr 1
    funext i p c
    unfold row2
    simp only [show ex [a, b] 0 = a from rfl, show ex [a, b] 1 = b from rfl, decide_eq_true_eq]
    by_cases h0 : i = 0
    · subst h0
      by_cases hp : p = 0
      · subst hp; simp
      · by_cases hp1 : p = 1
        · subst hp1; simp
        · simp [hp, hp1]
    · by_cases h1 : i = 1
      · subst h1
        by_cases hp : p = 0
        · subst hp; simp
        · by_cases hp1 : p = 1
          · subst hp1; simp
          · simp [hp, hp1]
      · simp [h0, h1]
  · intro h
    rw [decide_eq_true_eq] at h
    rw [if_pos h]
    exact ⟨rfl, l2 _ _ (by omega)⟩
  · intro h
    rw [decide_eq_true_eq] at h
    rw [if_pos h]
    exact ⟨rfl, l2 _ _ (by omega)⟩

theorem gbasis2_ok (k : Nat) : ∃ g, gbasis2 ℝ k = .ok g ∧ g.degree = k ∧ g.Nk = tri (k + 1) ∧ g.Nkm1 = tri k ∧
    g.Nkp1 = tri (k + 2) ∧ g.mono = compute mono2 (k + 1) ∧ g.dec.length = tri (k + 1) ∧
    ∀ (j : Nat) e, j < tri (k + 1) → (compute mono2 (k + 1)).exps[j]? = some e → g.dec[j]? = some (row2 e) := by
  have hN := le_tri (k + 2)
  obtain ⟨M, m1, m2⟩ := mapLoop2_ok k (tri (k + 2) - 1) 1
    (fun a' b' => if a' = 0 ∧ b' = 0 then 0 else -1) (Nat.le_refl _) (by omega) (by
      intro a b h
      have : a = 0 ∧ b = 0 := rank2_inj (by rw [show rank2 [0, 0] = 0 from rfl]; omega)
      rw [if_pos this, this.1, this.2]
      rfl)
  have hd : ∀ (t : Nat), 0 ≤ t → t < 0 + tri (k + 1) → ∃ e, (compute mono2 (k + 1)).exps[t]? = some e ∧
      decRow2 (K := ℝ) (tri k) (tri (k + 2)) M e = .ok (row2 e) := by
    intro t _ ht
    have hlen : (compute mono2 (k + 1)).exps.length = tri (k + 2) := by
      rw [exps_length]; exact nkp1_2 k
    have : tri (k + 2) = tri (k + 1) + (k + 2) := tri_succ (k + 1)
    obtain ⟨e, he⟩ : ∃ e, (compute mono2 (k + 1)).exps[t]? = some e := ⟨_, List.getElem?_eq_getElem (by omega)⟩
    obtain ⟨q1, q2, q3⟩ := (exps_iff ranked2 _ _ _).1 he
    obtain ⟨a, b, rfl⟩ := len2 q1
    refine ⟨_, he, decRow2_ok k M m2 a b ?_⟩
    have := (ranked2.bound [a, b] k rfl).1 (by rw [q3, show mono2.num k = tri (k + 1) from tri_div k]; omega)
    simpa using this
  obtain ⟨rs, r1, r2, r3⟩ := decLoop_ok (decRow2 (K := ℝ) (tri k) (tri (k + 2)) M) (compute mono2 (k + 1)).exps row2
    (tri (k + 1)) 0 hd
  refine ⟨⟨k, tri (k + 1), tri k, tri (k + 2), 0, [], compute mono2 (k + 1), rs⟩, ?_, rfl, rfl, rfl, rfl, rfl, r2,
    fun j e hj he => r3 j e hj (by rw [Nat.zero_add]; exact he)⟩
  unfold gbasis2
  simp only [tri_div k, nkp1_2 k, tri_div' k]
  rw [setM2_ok _ (by omega) (by omega), except_ok_bind, m1, except_ok_bind, r1, except_ok_bind]

/-! ### Values of monomials -/

theorem mono2_val (a b : Nat) (x c : Nat → ℝ) (h : ℝ) :
    monomial 2 [a, b] x c h = ((x 0 - c 0) / h) ^ a * ((x 1 - c 1) / h) ^ b := by
  simp [monomial, Finset.prod_range_succ]

theorem mono3_val (a b d : Nat) (x c : Nat → ℝ) (h : ℝ) :
    monomial 3 [a, b, d] x c h = ((x 0 - c 0) / h) ^ a * ((x 1 - c 1) / h) ^ b * ((x 2 - c 2) / h) ^ d := by
  simp [monomial, Finset.prod_range_succ]

/-- A sum with a single non-zero coefficient. -/
theorem sum_single (N n : Nat) (v : ℝ) (φ : Nat → ℝ) (h : n < N) :
    ∑ c ∈ Finset.range N, (if c = n then v else 0) * φ c = v * φ n := by
  rw [Finset.sum_eq_single n]
  · simp
  · intro c _ hc; simp [hc]
  · intro hn; exact absurd (Finset.mem_range.2 h) hn

theorem sum_single_if (N n : Nat) (P : Prop) [Decidable P] (v : ℝ) (φ : Nat → ℝ) (h : P → n < N) :
    ∑ c ∈ Finset.range N, (if P ∧ c = n then v else 0) * φ c = if P then v * φ n else 0 := by
  by_cases hP : P
  · simp only [hP, true_and, if_true]
    exact sum_single N n v φ (h hP)
  · simp [hP]

end PolyDiM
