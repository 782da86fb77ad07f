import Verif.Lemmas.MonomialsCalc

/-! Helper lemmas: Vandermonde derivatives and Laplacian, index formulas. -/

namespace PolyDiM
open Spec

/-- Everything needed about one of the three classes. -/
structure KindFacts (K : MonoKind) (rank : List Nat → Nat) : Prop where
  R : Ranked K rank
  D : Diff K rank
  dlen : ∀ e i, (K.derIndices e i).length = K.dim
  slen : ∀ e i, (K.secIndices e i).length = K.dim
  pos : 0 < K.dim

theorem facts1 : KindFacts mono1 rank1 := ⟨ranked1, diff1, fun _ _ => rfl, fun _ _ => rfl, by decide⟩
theorem facts2 : KindFacts mono2 rank2 := ⟨ranked2, diff2, fun _ _ => rfl, fun _ _ => rfl, by decide⟩
theorem facts3 : KindFacts mono3 rank3 := ⟨ranked3, diff3, fun _ _ => rfl, fun _ _ => rfl, by decide⟩

theorem kind_facts {K : MonoKind} (hK : IsKind K) : ∃ rank, KindFacts K rank := by
  rcases hK with rfl | rfl | rfl
  · exact ⟨_, facts1⟩
  · exact ⟨_, facts2⟩
  · exact ⟨_, facts3⟩

theorem except_ok_bind {α β : Type} (a : α) (f : α → Except Fault β) : ((Except.ok a : Except Fault α) >>= f) = f a := rfl

section
variable {K : MonoKind} {rank : List Nat → Nat}

theorem get_of_lt (K : MonoKind) {k i : Nat} (hi : i < (compute K k).num) : ∃ e, (compute K k).exps[i]? = some e :=
  ⟨_, List.getElem?_eq_getElem (by rw [exps_length]; exact hi)⟩

theorem lower_get (F : KindFacts K rank) {k i : Nat} {e : List Nat} (he : (compute K k).exps[i]? = some e) {d : Nat}
    (hd : d < K.dim) (n : Nat) :
    (compute K k).exps[rank (e.set d (ex e d - n))]? = some (e.set d (ex e d - n)) := by
  obtain ⟨h1, h2, _⟩ := (exps_iff F.R k i e).1 he
  refine (exps_iff F.R k _ _).2 ⟨by simpa using h1, ?_, rfl⟩
  exact le_trans (sum_set _ (by omega) (by omega)) h2

theorem vanderDer_ok (F : KindFacts K rank) {k i : Nat} {e : List Nat} (he : (compute K k).exps[i]? = some e) {d : Nat}
    (hd : d < K.dim) (x c : Nat → ℝ) (h : ℝ) (row : Nat → ℝ)
    (hrow : ∀ j, j < (compute K k).num → vander (compute K k) x c h j = .ok (row j)) :
    vanderDer K (compute K k) row h d i =
      .ok (1 / h * (ex e d : ℝ) * monomial K.dim (e.set d (ex e d - 1)) x c h) := by
  obtain ⟨h1, h2, h3⟩ := (exps_iff F.R k i e).1 he
  have hlt : i < K.num k := by rw [← exps_length]; exact (List.getElem?_eq_some_iff.1 he).1
  unfold vanderDer
  by_cases hi : i = 0
  · rw [if_pos hi, zero_of_rank F.R h1 (by omega) d]; simp
  · rw [if_neg hi, if_pos (show (compute K k).num > 1 from by change K.num k > 1; omega), (unchecked_ok_iff _ _ _).2 he]
    have hx := F.D.der e d h1 hd
    rw [h3] at hx
    change (do
      let idx ← unchecked (K.derIndices e i) d
      if 0 ≤ idx then
        if idx < (compute K k).num then
          Except.ok (1 / h * ((compute K k).der d i idx.toNat : ℝ) * row idx.toNat) else .error .undefinedBehaviour
      else .ok 0) = _
    rw [(unchecked_ok_iff _ _ _).2 hx]
    by_cases h0 : ex e d = 0
    · simp only [h0, if_true]
      rw [except_ok_bind, if_neg (by omega)]; simp
    · simp only [h0, if_false]
      have hg := lower_get F he hd 1
      have hl : rank (e.set d (ex e d - 1)) < K.num k := by
        rw [← exps_length]; exact (List.getElem?_eq_some_iff.1 hg).1
      rw [except_ok_bind, if_pos (by omega),
        if_pos (show (rank (e.set d (ex e d - 1)) : Int) < ((compute K k).num : Nat) from by exact_mod_cast hl), Int.toNat_natCast, der_entry F.R F.D he hd,
        if_pos ⟨by omega, rfl⟩]
      have hr : row (rank (e.set d (ex e d - 1))) = monomial K.dim (e.set d (ex e d - 1)) x c h := by
        have e1 := hrow _ hl
        rw [vander_ok F.R F.pos x c h hg] at e1
        exact (Except.ok.inj e1).symm
      rw [hr]
      simp

theorem lap_self (F : KindFacts K rank) {k i : Nat} {e : List Nat} (he : (compute K k).exps[i]? = some e) {d : Nat}
    (hd : d < K.dim) (h2 : 2 ≤ ex e d) :
    (compute K k).lap i (rank (e.set d (ex e d - 2))) = (ex e d : Int) * ((ex e d : Int) - 1) := by
  obtain ⟨h1, _⟩ := exps_get F.R he
  rw [lap_entry F.R F.D F.slen he, Finset.sum_eq_single d, if_pos ⟨h2, rfl⟩]
  · intro d' hd' hne
    rw [if_neg]
    rintro ⟨q1, q2⟩
    exact hne (sec_inj F.R h1 (Finset.mem_range.1 hd') hd q1 q2)
  · intro h; exact absurd (Finset.mem_range.2 hd) h

theorem lapSum_ok (F : KindFacts K rank) {k i : Nat} {e : List Nat} (he : (compute K k).exps[i]? = some e)
    (x c : Nat → ℝ) (h : ℝ) (row : Nat → ℝ)
    (hrow : ∀ j, j < (compute K k).num → vander (compute K k) x c h j = .ok (row j)) : ∀ n, n ≤ K.dim →
    lapSum (compute K k) row h i (K.secIndices e i) n = .ok (∑ d ∈ Finset.range n,
      1 / (h * h) * ((ex e d : ℝ) * ((ex e d : ℝ) - 1)) * monomial K.dim (e.set d (ex e d - 2)) x c h) := by
  obtain ⟨h1, h2, h3⟩ := (exps_iff F.R k i e).1 he
  intro n
  induction n with
  | zero => intro _; rfl
  | succ n ih =>
    intro hn
    have hd : n < K.dim := by omega
    have hx := F.D.sec e n h1 hd
    rw [h3] at hx
    rw [lapSum, ih (by omega), (unchecked_ok_iff _ _ _).2 hx, Finset.sum_range_succ]
    generalize (∑ d ∈ Finset.range n,
      1 / (h * h) * ((ex e d : ℝ) * ((ex e d : ℝ) - 1)) * monomial K.dim (e.set d (ex e d - 2)) x c h) = S
    by_cases h0 : ex e n < 2
    · simp only [h0, if_true]
      rw [except_ok_bind, except_ok_bind, if_neg (by omega)]
      have : ex e n = 0 ∨ ex e n = 1 := by omega
      rcases this with q | q <;> rw [q] <;> simp
    · simp only [h0, if_false]
      have hg := lower_get F he hd 2
      have hl : rank (e.set n (ex e n - 2)) < K.num k := by
        rw [← exps_length]; exact (List.getElem?_eq_some_iff.1 hg).1
      rw [except_ok_bind, except_ok_bind, if_pos (by omega),
        if_pos (show (rank (e.set n (ex e n - 2)) : Int) < ((compute K k).num : Nat) from by exact_mod_cast hl), Int.toNat_natCast, lap_self F he hd (by omega)]
      have hr : row (rank (e.set n (ex e n - 2))) = monomial K.dim (e.set n (ex e n - 2)) x c h := by
        have e1 := hrow _ hl
        rw [vander_ok F.R F.pos x c h hg] at e1
        exact (Except.ok.inj e1).symm
      rw [hr]
      simp

theorem laplacian_ok (F : KindFacts K rank) (h3 : 3 ≤ K.num 1) {k : Nat} (hk : 1 ≤ k) : LaplacianCorrect K k := by
  intro i x c h row f hi hh hrow hf
  obtain ⟨e, he⟩ := get_of_lt K hi
  obtain ⟨h1, h2, h4⟩ := (exps_iff F.R k i e).1 he
  have hfe : f = fun y => monomial K.dim e y c h := by
    funext y
    have := hf y
    rw [vander_ok F.R F.pos y c h he] at this
    exact (Except.ok.inj this).symm
  have hnum : 3 ≤ K.num k := by
    have hm : ∀ m, 1 ≤ m → 3 ≤ K.num m := by
      intro m hm
      induction hm with
      | refl => exact h3
      | step _ ih => exact le_trans ih (num_mono F.R _)
    exact hm k hk
  refine ⟨∑ d ∈ Finset.range K.dim,
      1 / (h * h) * ((ex e d : ℝ) * ((ex e d : ℝ) - 1)) * monomial K.dim (e.set d (ex e d - 2)) x c h, ?_, ?_⟩
  · unfold vanderLap
    rw [if_neg (show ¬ (compute K k).num < 3 from by change ¬ K.num k < 3; omega)]
    by_cases hi3 : i < 3
    · rw [if_pos hi3]
      have hs : e.sum ≤ 1 := (F.R.bound e 1 h1).1 (by omega)
      congr 1
      symm
      apply Finset.sum_eq_zero
      intro d _
      have := ex_le_sum e d
      have : ex e d = 0 ∨ ex e d = 1 := by omega
      rcases this with q | q <;> rw [q] <;> simp
    · rw [if_neg hi3, (unchecked_ok_iff _ _ _).2 he]
      exact lapSum_ok F he x c h row hrow K.dim (Nat.le_refl _)
  · rw [hfe]
    exact ⟨_, fun d hd => monomial_second K.dim e c h hd h1 x, rfl⟩

end

theorem hasPartial_unique {f : (Nat → ℝ) → ℝ} {d : Nat} {x : Nat → ℝ} {v w : ℝ} (h1 : HasPartial f d x v)
    (h2 : HasPartial f d x w) : v = w := HasDerivAt.unique h1 h2

theorem hasSecondPartial_unique {f : (Nat → ℝ) → ℝ} {d : Nat} {x : Nat → ℝ} {v w : ℝ} (h1 : HasSecondPartial f d x v)
    (h2 : HasSecondPartial f d x w) : v = w := by
  obtain ⟨g, g1, g2⟩ := h1
  obtain ⟨g', g1', g2'⟩ := h2
  have : g = g' := funext fun y => hasPartial_unique (g1 y) (g1' y)
  subst this
  exact hasPartial_unique g2 g2'

theorem hasLaplacian_unique {n : Nat} {f : (Nat → ℝ) → ℝ} {x : Nat → ℝ} {v w : ℝ} (h1 : HasLaplacian n f x v)
    (h2 : HasLaplacian n f x w) : v = w := by
  obtain ⟨s, s1, rfl⟩ := h1
  obtain ⟨s', s1', rfl⟩ := h2
  exact Finset.sum_congr rfl fun d hd =>
    hasSecondPartial_unique (s1 d (Finset.mem_range.1 hd)) (s1' d (Finset.mem_range.1 hd))

/-- In one dimension the entry of `x²` is always wrong. -/
theorem laplacian_wrong1 {k : Nat} (hk : 2 ≤ k) : ¬ LaplacianCorrect mono1 k := by
  intro hc
  have F := facts1
  have hnum : 2 < (compute mono1 k).num := by change 2 < k + 1; omega
  have he : (compute mono1 k).exps[2]? = some [2] :=
    (exps_iff F.R k 2 [2]).2 ⟨rfl, by simpa using hk, rfl⟩
  have hv : ∀ (y : Nat → ℝ) (j : Nat), j < (compute mono1 k).num → vander (compute mono1 k) y (fun _ => 0) (1 : ℝ) j =
      .ok (monomial 1 ((compute mono1 k).exps.getD j []) y (fun _ => 0) 1) := by
    intro y j hj
    obtain ⟨e, hje⟩ := get_of_lt mono1 hj
    rw [vander_ok F.R F.pos y _ _ hje, List.getD_eq_getElem?_getD, hje]
    rfl
  obtain ⟨v, v1, v2⟩ := hc 2 (fun _ => 0) (fun _ => 0) 1
    (fun j => monomial 1 ((compute mono1 k).exps.getD j []) (fun _ => 0) (fun _ => 0) 1)
    (fun y => monomial 1 [2] y (fun _ => 0) 1) hnum one_ne_zero (hv _)
    (fun y => vander_ok F.R F.pos y _ _ he)
  have hv0 : v = 0 := by
    unfold vanderLap at v1
    rw [if_neg (by change ¬ k + 1 < 3; omega), if_pos (by omega)] at v1
    exact (Except.ok.inj v1).symm
  have hs : HasLaplacian 1 (fun y => monomial 1 [2] y (fun _ => 0) 1) (fun _ => 0) _ :=
    ⟨_, fun d hd => monomial_second 1 [2] _ 1 hd rfl _, rfl⟩
  have := hasLaplacian_unique v2 hs
  rw [hv0] at this
  simp [monomial, ex] at this
  norm_num at this

theorem laplacian_oob {K : MonoKind} {k : Nat} (hpos : 0 < K.num k) (h3 : K.num k < 3)
    (hok : ∀ (i : Nat) (x c : Nat → ℝ) (h : ℝ), i < K.num k → ∃ v, vander (compute K k) x c h i = .ok v) :
    ¬ LaplacianCorrect K k := by
  intro hc
  choose! g hg using hok
  obtain ⟨v, v1, _⟩ := hc 0 (fun _ => 0) (fun _ => 0) 1 (fun j => g j (fun _ => 0) (fun _ => 0) 1)
    (fun y => g 0 y (fun _ => 0) 1) hpos one_ne_zero (fun j hj => hg _ _ _ _ hj) (fun y => hg _ _ _ _ hpos)
  unfold vanderLap at v1
  rw [if_pos (show (compute K k).num < 3 from h3)] at v1
  exact absurd v1 (by simp)

theorem index2_eq (a b : Nat) : index2 a b = (rank2 [a, b] : Int) := by
  unfold index2
  rw [if_pos ⟨by omega, by omega⟩]
  simp only [rank2, ex, List.getD_cons_zero, List.getD_cons_succ]
  rw [← tri_div']
  push_cast
  rfl

theorem index3_eq (a b c : Nat) : index3 a b c = (rank3 [a, b, c] : Int) := by
  unfold index3
  rw [if_pos ⟨by omega, by omega, by omega⟩]
  have h1 := rank3_add a b c
  have h2 := tet_div (a + b + c)
  have h3 := tri_div (a + b)
  have h4 : ((a : Int) + b + c + 1) * (a + b + c + 2) * (a + b + c + 3) / 6 = (tet (a + b + c + 1) : Int) := by
    rw [← h2]; push_cast; rfl
  have h5 : ((a : Int) + b + 1) * (a + b + 2) / 2 = (tri (a + b + 1) : Int) := by
    rw [← h3]; push_cast; rfl
  rw [h4, h5]
  omega

end PolyDiM
