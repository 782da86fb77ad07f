import Verif.Lemmas.GBasis

/-! Helper lemmas: vector polynomial decomposition in three dimensions. -/

namespace PolyDiM
open Spec

theorem getM3_ok {N : Nat} {M : Nat → Nat → Nat → Int} {a b c : Nat} (h1 : a < N) (h2 : b < N) (h3 : c < N) :
    getM3 N M a b c = .ok (M a b c) := if_pos ⟨h1, h2, h3⟩

theorem setM3_ok {N : Nat} {M : Nat → Nat → Nat → Int} {a b c : Nat} (x : Int) (h1 : a < N) (h2 : b < N) (h3 : c < N) :
    setM3 N M a b c x = .ok (fun a' b' c' => if a' = a ∧ b' = b ∧ c' = c then x else M a' b' c') := if_pos ⟨h1, h2, h3⟩

theorem rank3_inj {a b c a' b' c' : Nat} (h : rank3 [a, b, c] = rank3 [a', b', c']) : a = a' ∧ b = b' ∧ c = c' := by
  have := ranked3.inj [a, b, c] [a', b', c'] rfl rfl h
  simp only [List.cons.injEq, and_true] at this
  exact this

theorem mapStep3_ok (N : Nat) (M : Nat → Nat → Nat → Int) (a b c i : Nat) {a' b' c' : Nat}
    (hn : mono3.next [a, b, c] = [a', b', c']) (h1 : a' < N) (h2 : b' < N) (h3 : c' < N) :
    mapStep3 N M [a, b, c] i = .ok (fun x y z => if x = a' ∧ y = b' ∧ z = c' then (i : Int) else M x y z) := by
  unfold mapStep3
  simp only [mono3] at hn
  by_cases ha : ex [a, b, c] 0 = 0
  · rw [if_pos ha] at hn ⊢
    by_cases hb : ex [a, b, c] 1 = 0
    · rw [if_pos hb] at hn ⊢
      simp only [List.cons.injEq, and_true] at hn
      obtain ⟨e1, e2, e3⟩ := hn
      subst e1 e2 e3
      exact setM3_ok _ h1 h2 h3
    · rw [if_neg hb] at hn ⊢
      simp only [List.cons.injEq, and_true] at hn
      obtain ⟨e1, e2, e3⟩ := hn
      subst e1 e2 e3
      exact setM3_ok _ h1 h2 h3
  · rw [if_neg ha] at hn ⊢
    simp only [List.cons.injEq, and_true] at hn
    obtain ⟨e1, e2, e3⟩ := hn
    subst e1 e2 e3
    exact setM3_ok _ h1 h2 h3

theorem mapLoop3_ok (k n : Nat) : ∀ i M, 1 ≤ i → i + n = tet (k + 2) →
    (∀ a b c, rank3 [a, b, c] < i → M a b c = (rank3 [a, b, c] : Int)) →
    ∃ M', mapLoop3 (tet (k + 2)) (compute mono3 (k + 1)).exps n i M = .ok M' ∧
      ∀ a b c, a + b + c ≤ k + 1 → M' a b c = (rank3 [a, b, c] : Int) := by
  induction n with
  | zero =>
    intro i M _ hi hM
    exact ⟨M, rfl, fun a b c hab => hM a b c (by have : rank3 [a, b, c] < tet (k + 2) := rank3_lt (k + 1) hab; omega)⟩
  | succ n ih =>
    intro i M h1 hi hM
    have hlen : (compute mono3 (k + 1)).exps.length = tet (k + 2) := by
      rw [exps_length]; exact nkp1_3 k
    obtain ⟨e, he⟩ : ∃ e, (compute mono3 (k + 1)).exps[i - 1]? = some e :=
      ⟨_, List.getElem?_eq_getElem (by omega)⟩
    obtain ⟨q1, q2, q3⟩ := (exps_iff ranked3 _ _ _).1 he
    obtain ⟨a, b, c, rfl⟩ := len3 q1
    have hnext := ranked3.next [a, b, c] rfl
    rw [q3] at hnext
    obtain ⟨a', b', c', hn⟩ := len3 (ranked3.len [a, b, c] rfl)
    rw [hn] at hnext
    have hr : rank3 [a', b', c'] = i := by omega
    have hs : a' + b' + c' ≤ k + 1 := by
      have := (ranked3.bound [a', b', c'] (k + 1) rfl).1
        (by rw [show mono3.num (k + 1) = tet (k + 2) from nkp1_3 k]; omega)
      simp at this; omega
    have hN := le_tet (k + 2)
    rw [mapLoop3, (unchecked_ok_iff _ _ _).2 he, except_ok_bind,
      mapStep3_ok _ _ _ _ _ _ hn (by omega) (by omega) (by omega), except_ok_bind]
    refine ih (i + 1) _ (by omega) (by omega) fun x y z hxyz => ?_
    show (if _ then _ else _) = _
    by_cases hc : x = a' ∧ y = b' ∧ z = c'
    · rw [if_pos hc, hc.1, hc.2.1, hc.2.2, hr]
    · rw [if_neg hc]
      refine hM x y z ?_
      have : rank3 [x, y, z] ≠ i := fun h => hc (rank3_inj (by rw [h, hr]))
      omega

/-! ### The first group -/

theorem firstLoop_ok (exps : List (List Nat)) (n : Nat) : ∀ (j : Nat) (mp : List Int) (sv : List Nat),
    j + n ≤ exps.length → mp.length = j →
    (∀ t e, t < j → exps[t]? = some e → ex e 0 = 0 → ∃ q : Nat, mp[t]? = some (q : Int) ∧ sv[q]? = some t) →
    (∀ t ∈ sv, t < j) → sv.length = ((exps.take j).filter (fun e => ex e 0 = 0)).length →
    ∃ mp' sv', firstLoop exps n j mp sv = .ok (mp', sv') ∧
      (∀ t e, t < j + n → exps[t]? = some e → ex e 0 = 0 → ∃ q : Nat, mp'[t]? = some (q : Int) ∧ sv'[q]? = some t) ∧
      (∀ t ∈ sv', t < j + n) ∧ sv'.length = ((exps.take (j + n)).filter (fun e => ex e 0 = 0)).length := by
  induction n with
  | zero => intro j mp sv _ _ h1 h2 h3; exact ⟨mp, sv, rfl, h1, h2, h3⟩
  | succ n ih =>
    intro j mp sv hj hmp h1 h2 h3
    have hlt : j < exps.length := by omega
    have he : exps[j]? = some exps[j] := List.getElem?_eq_getElem hlt
    have htake : exps.take (j + 1) = exps.take j ++ [exps[j]] := by
      rw [List.take_add_one, he]; rfl
    have hjn : j + (n + 1) = j + 1 + n := by omega
    rw [firstLoop, (unchecked_ok_iff _ _ _).2 he, except_ok_bind, hjn]
    by_cases h0 : ex exps[j] 0 = 0
    · rw [if_pos h0]
      refine ih (j + 1) _ _ (by omega) (by simp [hmp]) ?_ ?_ ?_
      · intro t e ht hte hz
        by_cases htj : t = j
        · subst htj
          exact ⟨sv.length, by rw [List.getElem?_append_right (by omega)]; simp [hmp],
            by rw [List.getElem?_append_right (Nat.le_refl _)]; simp⟩
        · obtain ⟨q, q1, q2⟩ := h1 t e (by omega) hte hz
          exact ⟨q, by rw [List.getElem?_append_left (by omega)]; exact q1,
            by rw [List.getElem?_append_left (List.getElem?_eq_some_iff.1 q2).1]; exact q2⟩
      · intro t ht
        rcases List.mem_append.1 ht with h | h
        · have := h2 t h; omega
        · have := List.mem_singleton.1 h; omega
      · rw [htake, List.filter_append]; simp [h0, h3]
    · rw [if_neg h0]
      refine ih (j + 1) _ _ (by omega) (by simp [hmp]) ?_ ?_ ?_
      · intro t e ht hte hz
        by_cases htj : t = j
        · subst htj
          rw [he] at hte
          cases hte
          exact absurd hz h0
        · obtain ⟨q, q1, q2⟩ := h1 t e (by omega) hte hz
          exact ⟨q, by rw [List.getElem?_append_left (by omega)]; exact q1, q2⟩
      · intro t ht; have := h2 t ht; omega
      · rw [htake, List.filter_append]; simp [h0, h3]

theorem exps3_take (k : Nat) : (compute mono3 (k + 1)).exps.take (tet k) =
    if k = 0 then [] else (compute mono3 (k - 1)).exps := by
  cases k with
  | zero => rfl
  | succ k =>
    rw [if_neg (by omega), Nat.add_sub_cancel]
    have h1 := exps_prefix ranked3 k
    have h2 := exps_prefix ranked3 (k + 1)
    have n1 : mono3.num k = tet (k + 1) := tet_div k
    have n2 : mono3.num (k + 1) = tet (k + 2) := tet_div (k + 1)
    rw [h2, List.take_take, n1, n2, Nat.min_eq_left (tet_le (by omega))] at h1
    exact h1.symm

/-- The monomials without the first variable are the two-dimensional ones. -/
theorem first_count (k : Nat) :
    (((compute mono3 (k + 1)).exps.take (tet k)).filter (fun e => ex e 0 = 0)).length = tri k := by
  rw [exps3_take]
  cases k with
  | zero => rfl
  | succ k =>
    rw [if_neg (by omega), Nat.add_sub_cancel]
    have hp : (((compute mono3 k).exps.filter (fun e => ex e 0 = 0)).map List.tail).Perm (compute mono2 k).exps := by
      rw [List.perm_ext_iff_of_nodup]
      · intro e
        rw [List.mem_map, mem_exps_iff ranked2]
        constructor
        · rintro ⟨e', h, rfl⟩
          rw [List.mem_filter, mem_exps_iff ranked3] at h
          obtain ⟨⟨q1, q2⟩, q3⟩ := h
          obtain ⟨a, b, c, rfl⟩ := len3 q1
          refine ⟨rfl, ?_⟩
          simp at q2 ⊢
          omega
        · rintro ⟨q1, q2⟩
          obtain ⟨a, b, rfl⟩ := len2 q1
          refine ⟨[0, a, b], ?_, rfl⟩
          rw [List.mem_filter, mem_exps_iff ranked3]
          exact ⟨⟨rfl, by simpa using q2⟩, rfl⟩
      · apply List.Nodup.map_on
        · intro e he e' he' hee
          rw [List.mem_filter, mem_exps_iff ranked3] at he he'
          obtain ⟨⟨q1, _⟩, q3⟩ := he
          obtain ⟨⟨q1', _⟩, q3'⟩ := he'
          obtain ⟨a, b, c, rfl⟩ := len3 q1
          obtain ⟨a', b', c', rfl⟩ := len3 q1'
          have h1 : a = 0 := of_decide_eq_true q3
          have h2 : a' = 0 := of_decide_eq_true q3'
          simp only [List.tail_cons] at hee
          rw [h1, h2, hee]
        · exact (exps_nodup ranked3 k).filter _
      · exact exps_nodup ranked2 k
    have := hp.length_eq
    rw [List.length_map, exps_length] at this
    rw [this]
    exact tri_div k

/-- Position of `[0, b, c]` in the first group. -/
theorem first_group (k : Nat) : ∃ mp sv, firstLoop (compute mono3 (k + 1)).exps (tet k) 0 [] [] = .ok (mp, sv) ∧
    sv.length = tri k ∧ (∀ t ∈ sv, t < tet k) ∧
    ∀ b c, b + c + 1 ≤ k → ∃ q : Nat, mp[rank3 [0, b, c]]? = some (q : Int) ∧ sv[q]? = some (rank3 [0, b, c]) ∧ q < tri k := by
  have hlen : (compute mono3 (k + 1)).exps.length = tet (k + 2) := by rw [exps_length]; exact nkp1_3 k
  have h1 := tet_le (show k ≤ k + 2 by omega)
  obtain ⟨mp, sv, e1, e2, e3, e4⟩ := firstLoop_ok (compute mono3 (k + 1)).exps (tet k) 0 [] [] (by omega) rfl
    (fun t e ht => absurd ht (by omega)) (fun t ht => absurd ht (by simp)) rfl
  rw [Nat.zero_add] at e2 e3 e4
  rw [first_count] at e4
  refine ⟨mp, sv, e1, e4, e3, fun b c hbc => ?_⟩
  have hr : rank3 [0, b, c] < tet k := by
    have := @rank3_lt 0 b c (k - 1) (by omega)
    rwa [show k - 1 + 1 = k by omega] at this
  obtain ⟨q, q1, q2⟩ := e2 (rank3 [0, b, c]) [0, b, c] hr
    ((exps_iff ranked3 _ _ _).2 ⟨rfl, by simp; omega, rfl⟩) rfl
  exact ⟨q, q1, q2, by rw [← e4]; exact (List.getElem?_eq_some_iff.1 q2).1⟩

/-- The row of the decomposition of the monomial `e`, given the position `fg b c` of `[0, b, c]` in the first group. -/
noncomputable def row3 (fg : Nat → Nat → Nat) (e : List Nat) : DecRow ℝ := fun i p c' =>
  let a := ex e 0
  let b := ex e 1
  let c := ex e 2
  let inv : ℝ := 1 / ((e.sum : ℝ) + 1)
  if i = 2 ∧ p = 3 then (if (a > 0 ∧ b > 0) ∧ c' = rank3 [a - 1, b - 1, c + 1] then (b : ℝ) * inv else 0)
  else if i = 2 ∧ p = 2 then (if a > 0 ∧ c' = rank3 [a - 1, b, c] then ((a + b : Nat) : ℝ) * inv else 0)
  else if i = 2 ∧ p = 1 then (if (b > 0 ∧ a = 0) ∧ c' = fg (b - 1) c then -(b : ℝ) * inv else 0)
  else if i = 2 ∧ p = 0 then (if c' = rank3 [a, b, c + 1] then inv else 0)
  else if i = 1 ∧ p = 3 then (if a > 0 ∧ c' = rank3 [a - 1, b, c] then -((a + c : Nat) : ℝ) * inv else 0)
  else if i = 1 ∧ p = 2 then (if (a > 0 ∧ c > 0) ∧ c' = rank3 [a - 1, b + 1, c - 1] then -(c : ℝ) * inv else 0)
  else if i = 1 ∧ p = 1 then (if (c > 0 ∧ a = 0) ∧ c' = fg b (c - 1) then (c : ℝ) * inv else 0)
  else if i = 1 ∧ p = 0 then (if c' = rank3 [a, b + 1, c] then inv else 0)
  else if i = 0 ∧ p = 3 then (if b > 0 ∧ c' = rank3 [a, b - 1, c] then (b : ℝ) * inv else 0)
  else if i = 0 ∧ p = 2 then (if c > 0 ∧ c' = rank3 [a, b, c - 1] then -(c : ℝ) * inv else 0)
  else if i = 0 ∧ p = 0 then (if c' = rank3 [a + 1, b, c] then inv else 0)
  else 0

theorem readIf_ok (P : Prop) [Decidable P] (x : Except Fault Int) (n : Nat) (h : P → x = .ok (n : Int)) :
    readIf (decide P) x = .ok (if P then (n : Int) else -1) := by
  unfold readIf
  by_cases hP : P
  · rw [if_pos (by simpa using hP), if_pos hP, h hP]
  · rw [if_neg (by simpa using hP), if_neg hP]

theorem mapFirst_ok {mp : List Int} {n q : Nat} (h : mp[n]? = some (q : Int)) : mapFirst mp (n : Int) = .ok (q : Int) := by
  unfold mapFirst
  rw [if_pos (by omega), Int.toNat_natCast]
  exact (unchecked_ok_iff _ _ _).2 h

theorem decRow3_ok (k : Nat) (M : Nat → Nat → Nat → Int)
    (hM : ∀ a b c, a + b + c ≤ k + 1 → M a b c = (rank3 [a, b, c] : Int)) (mp : List Int) (fg : Nat → Nat → Nat)
    (hfg : ∀ b c, b + c + 1 ≤ k → mp[rank3 [0, b, c]]? = some (fg b c : Int) ∧ fg b c < tri k)
    (a b c : Nat) (hab : a + b + c ≤ k) :
    decRow3 (K := ℝ) (tri k) (tet k) (tet (k + 2)) M mp [a, b, c] = .ok (row3 fg [a, b, c]) := by
  have hN := le_tet (k + 2)
  have g : ∀ a b c, a + b + c ≤ k + 1 → getM3 (tet (k + 2)) M a b c = .ok (rank3 [a, b, c] : Int) := by
    intro a b c h
    rw [getM3_ok (by omega) (by omega) (by omega), hM a b c h]
  have l1 : ∀ a b c, a + b + c ≤ k + 1 → rank3 [a, b, c] < tet (k + 2) := fun a b c h => rank3_lt (k + 1) h
  have l2 : ∀ a b c, a + b + c + 1 ≤ k → rank3 [a, b, c] < tet k := by
    intro a b c h
    have := @rank3_lt a b c (k - 1) (by omega)
    rwa [show k - 1 + 1 = k by omega] at this
  unfold decRow3
  simp only [show ex [a, b, c] 0 = a from rfl, show ex [a, b, c] 1 = b from rfl, show ex [a, b, c] 2 = c from rfl]
  have c0 : (fun p : Nat => if p = 0 then tet (k + 2) else if p = 1 then tri k else tet k) 0 = tet (k + 2) := rfl
  have c1 : (fun p : Nat => if p = 0 then tet (k + 2) else if p = 1 then tri k else tet k) 1 = tri k := rfl
  have c2 : (fun p : Nat => if p = 0 then tet (k + 2) else if p = 1 then tri k else tet k) 2 = tet k := rfl
  have c3 : (fun p : Nat => if p = 0 then tet (k + 2) else if p = 1 then tri k else tet k) 3 = tet k := rfl
  generalize (fun p : Nat => if p = 0 then tet (k + 2) else if p = 1 then tri k else tet k) = cols at c0 c1 c2 c3 ⊢
  rw [g (a + 1) b c (by omega), except_ok_bind,
    readIf_ok (c > 0) _ (rank3 [a, b, c - 1]) (fun h => g _ _ _ (by omega)), except_ok_bind,
    readIf_ok (b > 0) _ (rank3 [a, b - 1, c]) (fun h => g _ _ _ (by omega)), except_ok_bind,
    g a (b + 1) c (by omega), except_ok_bind,
    readIf_ok (a = 0 ∧ c > 0) _ (rank3 [a, b, c - 1]) (fun h => g _ _ _ (by omega)), except_ok_bind,
    readIf_ok (a > 0 ∧ c > 0) _ (rank3 [a - 1, b + 1, c - 1]) (fun h => g _ _ _ (by omega)), except_ok_bind,
    readIf_ok (a > 0) _ (rank3 [a - 1, b, c]) (fun h => g _ _ _ (by omega)), except_ok_bind,
    g a b (c + 1) (by omega), except_ok_bind,
    readIf_ok (a = 0 ∧ b > 0) _ (rank3 [a, b - 1, c]) (fun h => g _ _ _ (by omega)), except_ok_bind,
    except_ok_bind,
    readIf_ok (a > 0 ∧ b > 0) _ (rank3 [a - 1, b - 1, c + 1]) (fun h => g _ _ _ (by omega)), except_ok_bind,
    putCol_ok _ _ _ _ _ _ (by rw [c0]; exact l1 _ _ _ (by omega)), except_ok_bind,
    putColIf_ok _ _ _ _ _ (rank3 [a, b, c - 1]) _ _ ?h02, except_ok_bind,
    putColIf_ok _ _ _ _ _ (rank3 [a, b - 1, c]) _ _ ?h03, except_ok_bind,
    putCol_ok _ _ _ _ _ _ (by rw [c0]; exact l1 _ _ _ (by omega)), except_ok_bind,
    putColIf_ok _ _ _ _ _ (fg b (c - 1)) _ _ ?h11, except_ok_bind,
    putColIf_ok _ _ _ _ _ (rank3 [a - 1, b + 1, c - 1]) _ _ ?h12, except_ok_bind,
    putColIf_ok _ _ _ _ _ (rank3 [a - 1, b, c]) _ _ ?h13, except_ok_bind,
    putCol_ok _ _ _ _ _ _ (by rw [c0]; exact l1 _ _ _ (by omega)), except_ok_bind,
    putColIf_ok _ _ _ _ _ (fg (b - 1) c) _ _ ?h21, except_ok_bind,
    putColIf_ok _ _ _ _ _ (rank3 [a - 1, b, c]) _ _ ?h22, except_ok_bind,
    putColIf_ok _ _ _ _ _ (rank3 [a - 1, b - 1, c + 1]) _ _ ?h23]
  case h02 => intro h; rw [decide_eq_true_eq] at h; rw [if_pos h, c2]; exact ⟨rfl, l2 _ _ _ (by omega)⟩
  case h03 => intro h; rw [decide_eq_true_eq] at h; rw [if_pos h, c3]; exact ⟨rfl, l2 _ _ _ (by omega)⟩
  case h11 =>
    intro h
    rw [decide_eq_true_eq] at h
    obtain ⟨hc, rfl⟩ := h
    rw [if_pos ⟨rfl, hc⟩, c1]
    obtain ⟨q1, q2⟩ := hfg b (c - 1) (by omega)
    exact ⟨mapFirst_ok q1, q2⟩
  case h12 => intro h; rw [decide_eq_true_eq] at h; rw [if_pos h, c2]; exact ⟨rfl, l2 _ _ _ (by omega)⟩
  case h13 => intro h; rw [decide_eq_true_eq] at h; rw [if_pos h, c3]; exact ⟨rfl, l2 _ _ _ (by omega)⟩
  case h21 =>
    intro h
    rw [decide_eq_true_eq] at h
    obtain ⟨hb, rfl⟩ := h
    rw [if_pos ⟨rfl, hb⟩, c1]
    obtain ⟨q1, q2⟩ := hfg (b - 1) c (by omega)
    exact ⟨mapFirst_ok q1, q2⟩
  case h22 => intro h; rw [decide_eq_true_eq] at h; rw [if_pos h, c2]; exact ⟨rfl, l2 _ _ _ (by omega)⟩
  case h23 => intro h; rw [decide_eq_true_eq] at h; rw [if_pos h, c3]; exact ⟨rfl, l2 _ _ _ (by omega)⟩
  congr 1
  funext i p c'
  unfold row3
  simp only [show ex [a, b, c] 0 = a from rfl, show ex [a, b, c] 1 = b from rfl, show ex [a, b, c] 2 = c from rfl,
    decide_eq_true_eq]
  rcases i with _ | _ | _ | i
  · rcases p with _ | _ | _ | _ | p <;> simp
  · rcases p with _ | _ | _ | _ | p <;> simp
  · rcases p with _ | _ | _ | _ | p <;> simp
  · simp

theorem gbasis3_ok (k : Nat) : ∃ g fg, gbasis3 ℝ k = .ok g ∧ g.degree = k ∧ g.Nk = tet (k + 1) ∧ g.Nkm1 = tet k ∧
    g.Nkp1 = tet (k + 2) ∧ g.dimFirst = tri k ∧ g.firsts.length = tri k ∧ (∀ t ∈ g.firsts, t < tet k) ∧
    g.mono = compute mono3 (k + 1) ∧ g.dec.length = tet (k + 1) ∧
    (∀ b c, b + c + 1 ≤ k → g.firsts[fg b c]? = some (rank3 [0, b, c])) ∧
    ∀ (j : Nat) e, j < tet (k + 1) → (compute mono3 (k + 1)).exps[j]? = some e → g.dec[j]? = some (row3 fg e) := by
  have hN := le_tet (k + 2)
  obtain ⟨M, m1, m2⟩ := mapLoop3_ok k (tet (k + 2) - 1) 1 (fun _ _ _ => 0) (Nat.le_refl _) (by omega) (by
      intro a b c h
      show (0 : Int) = _
      omega)
  obtain ⟨mp, sv, s1, s2, s3, s4⟩ := first_group k
  choose! fg f1 f2 f3 using s4
  have hd : ∀ (t : Nat), 0 ≤ t → t < 0 + tet (k + 1) → ∃ e, (compute mono3 (k + 1)).exps[t]? = some e ∧
      decRow3 (K := ℝ) (tri k) (tet k) (tet (k + 2)) M mp e = .ok (row3 fg e) := by
    intro t _ ht
    have hlen : (compute mono3 (k + 1)).exps.length = tet (k + 2) := by rw [exps_length]; exact nkp1_3 k
    have : tet (k + 2) = tet (k + 1) + tri (k + 2) := tet_succ (k + 1)
    obtain ⟨e, he⟩ : ∃ e, (compute mono3 (k + 1)).exps[t]? = some e := ⟨_, List.getElem?_eq_getElem (by omega)⟩
    obtain ⟨q1, q2, q3⟩ := (exps_iff ranked3 _ _ _).1 he
    obtain ⟨a, b, c, rfl⟩ := len3 q1
    refine ⟨_, he, decRow3_ok k M m2 mp fg (fun b c h => ⟨f1 b c h, f3 b c h⟩) a b c ?_⟩
    have := (ranked3.bound [a, b, c] k rfl).1 (by rw [q3, show mono3.num k = tet (k + 1) from tet_div k]; omega)
    simp at this
    omega
  obtain ⟨rs, r1, r2, r3⟩ := decLoop_ok (decRow3 (K := ℝ) (tri k) (tet k) (tet (k + 2)) M mp) (compute mono3 (k + 1)).exps
    (row3 fg) (tet (k + 1)) 0 hd
  refine ⟨⟨k, tet (k + 1), tet k, tet (k + 2), tri k, sv, compute mono3 (k + 1), rs⟩, fg, ?_, rfl, rfl, rfl, rfl, rfl, s2,
    s3, rfl, r2, f2, fun j e hj he => r3 j e hj (by rw [Nat.zero_add]; exact he)⟩
  unfold gbasis3
  simp only [dimFirst_eq k]
  simp only [tet_div k, nkp1_3 k, nkm1_3 k]
  rw [m1, except_ok_bind, s1, except_ok_bind, r1, except_ok_bind]

end PolyDiM
