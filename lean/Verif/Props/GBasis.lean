import Verif.Lemmas.GBasis3

/-!
# C27, C28: decomposition of vector polynomials

The theorems are about `gbasis2`, `gbasis3`, `gbig2`, `gbig3` of `Verif/Model/GBasis.lean`; `HasPartial` is in
`Verif/Spec/Monomials.lean`. The gradients in the decomposition are with respect to the scaled coordinates, that is `h` times
the gradients with respect to `x`.
-/

namespace PolyDiM
open Spec

/-- **C27.** `GBasis_2D::Compute(k)` succeeds. Let `f c` be the functions evaluated by `Vander` for the monomials of degree at
most `k + 1` and `D d c` their partial derivatives at `x`; let `row` be the row of `Vander` at `x` for some degree
`n ≥ max(1, k - 1)`. Then `VanderGBigOPlus` on `row` succeeds, and for every `j < Nk` and component `i` the field with
`i`-th component `f j` and the other component zero is, at `x`, the combination with coefficients
`VectorDecomposition[i][0](j, ·)` of the scaled gradients plus the combination with coefficients
`VectorDecomposition[i][1](j, ·)` of the complement fields. -/
theorem C27_decomposition (k : Nat) : ∃ g, gbasis2 ℝ k = .ok g ∧ g.Nk = (k + 1) * (k + 2) / 2 ∧ g.dec.length = g.Nk ∧
    ∀ (x c : Nat → ℝ) (h : ℝ), h ≠ 0 →
    ∀ (f : Nat → (Nat → ℝ) → ℝ) (D : Nat → Nat → ℝ) (n : Nat) (row : Nat → ℝ), 1 ≤ n → k ≤ n + 1 →
      (∀ i y, i < g.Nkp1 → vander (compute mono2 (k + 1)) y c h i = .ok (f i y)) →
      (∀ i d, i < g.Nkp1 → d < 2 → HasPartial (f i) d x (D d i)) →
      (∀ i, i < (compute mono2 n).num → vander (compute mono2 n) x c h i = .ok (row i)) →
      ∃ G : Nat → Nat → ℝ,
        (∀ comp col, comp < 2 → col < g.Nkm1 → gbig2 g (compute mono2 n).num row comp col = .ok (G comp col)) ∧
        ∀ (j i comp : Nat) r, j < g.Nk → i < 2 → comp < 2 → g.dec[j]? = some r →
          (if i = comp then f j x else 0) =
            ∑ q ∈ Finset.range g.Nkp1, r i 0 q * (h * D comp q) + ∑ q ∈ Finset.range g.Nkm1, r i 1 q * G comp q := by
  obtain ⟨g, g0, _, g1, g2, g3, g4, g5, g6⟩ := gbasis2_ok k
  refine ⟨g, g0, by rw [g1, tri_div], by rw [g5, g1], ?_⟩
  intro x c h hh f D n row hn hkn hf hD hrow
  have hnum : (compute mono2 n).num = tri (n + 1) := tri_div n
  have t1 : tri k ≤ tri (n + 1) := tri_le hkn
  have t2 : 3 ≤ tri (n + 1) := tri_le (show 2 ≤ n + 1 by omega)
  set X := (x 0 - c 0) / h with hX
  set Y := (x 1 - c 1) / h with hY
  have hrow' : ∀ a b, a + b ≤ n → row (rank2 [a, b]) = X ^ a * Y ^ b := by
    intro a b hab
    have he := (exps_iff ranked2 n (rank2 [a, b]) [a, b]).2 ⟨rfl, by simpa using hab, rfl⟩
    have h1 := hrow _ (by rw [hnum]; exact rank2_lt n hab)
    rw [vander_ok ranked2 (by decide) x c h he, show mono2.dim = 2 from rfl, mono2_val] at h1
    exact (Except.ok.inj h1).symm
  have hf' : ∀ a b, a + b ≤ k + 1 → f (rank2 [a, b]) = fun y => monomial 2 [a, b] y c h := by
    intro a b hab
    funext y
    have he := (exps_iff ranked2 (k + 1) (rank2 [a, b]) [a, b]).2 ⟨rfl, by simpa using hab, rfl⟩
    have h1 := hf (rank2 [a, b]) y (by rw [g3]; exact rank2_lt (k + 1) hab)
    rw [vander_ok ranked2 (by decide) y c h he] at h1
    exact (Except.ok.inj h1).symm
  have hD' : ∀ a b d, d < 2 → a + b ≤ k + 1 → h * D d (rank2 [a, b]) =
      (ex [a, b] d : ℝ) * monomial 2 ([a, b].set d (ex [a, b] d - 1)) x c h := by
    intro a b d hd hab
    have h1 := hD (rank2 [a, b]) d (by rw [g3]; exact rank2_lt (k + 1) hab) hd
    rw [hf' a b hab] at h1
    rw [hasPartial_unique h1 (monomial_partial 2 [a, b] c h hd rfl x)]
    field_simp
  have hX1 : row 1 = X := by
    have := hrow' 1 0 (by omega)
    rw [show rank2 [1, 0] = 1 from rfl] at this
    simpa using this
  have hY1 : row 2 = Y := by
    have := hrow' 0 1 (by omega)
    rw [show rank2 [0, 1] = 2 from rfl] at this
    simpa using this
  refine ⟨fun comp col => if comp = 0 then row col * row 2 else row col * (-1 * row 1), ?_, ?_⟩
  · intro comp col h1 h2
    unfold gbig2
    rw [if_pos ⟨by rw [g2, hnum]; exact t1, by rw [hnum]; omega, h2, h1⟩]
  intro j i comp r hj hi hcomp hr
  rw [g1] at hj
  have hlen : (compute mono2 (k + 1)).exps.length = tri (k + 2) := by rw [exps_length]; exact nkp1_2 k
  have hts : tri (k + 2) = tri (k + 1) + (k + 2) := tri_succ (k + 1)
  obtain ⟨e, he⟩ : ∃ e, (compute mono2 (k + 1)).exps[j]? = some e := ⟨_, List.getElem?_eq_getElem (by omega)⟩
  obtain ⟨q1, q2, q3⟩ := (exps_iff ranked2 _ _ _).1 he
  obtain ⟨a, b, rfl⟩ := len2 q1
  have hab : a + b ≤ k := by
    have := (ranked2.bound [a, b] k rfl).1 (by rw [q3, show mono2.num k = tri (k + 1) from tri_div k]; omega)
    simpa using this
  rw [g6 j _ hj he, Option.some.injEq] at hr
  subst hr
  have hfj : f j x = X ^ a * Y ^ b := by
    rw [← q3, hf' a b (by omega)]
    exact mono2_val a b x c h
  have hs : ((a : ℝ) + b + 1) ≠ 0 := by positivity
  have hl2 : ∀ a b, a + b + 1 ≤ k → rank2 [a, b] < tri k := by
    intro a b hab
    have := @rank2_lt a b (k - 1) (by omega)
    rwa [show k - 1 + 1 = k by omega] at this
  have hsum : (([a, b] : List Nat).sum : ℝ) = (a : ℝ) + b := by simp
  rw [hfj, g2, g3, hX1, hY1]
  rcases lt2 hi with rfl | rfl
  · have r0 : ∀ q, row2 [a, b] 0 0 q = if q = rank2 [a + 1, b] then 1 / ((a : ℝ) + b + 1) else 0 := by
      intro q; simp [row2, ex]
    have r1 : ∀ q, row2 [a, b] 0 1 q = if 0 < b ∧ q = rank2 [a, b - 1] then (b : ℝ) / ((a : ℝ) + b + 1) else 0 := by
      intro q; simp [row2, ex]
    simp only [r0, r1]
    rw [sum_single _ _ _ _ (rank2_lt (k + 1) (by omega)), sum_single_if _ _ _ _ _ (fun hb => hl2 _ _ (by omega)),
      hD' _ _ _ hcomp (by omega)]
    rcases lt2 hcomp with rfl | rfl
    · simp only [ex, List.getD_cons_zero, List.set_cons_zero, mono2_val, if_true]
      rw [← hX, ← hY]
      cases b with
      | zero => simp at hs ⊢; field_simp
      | succ b =>
        rw [if_pos (by omega), hrow' _ _ (by omega)]
        simp at hs ⊢
        field_simp
        ring
    · simp only [ex, List.getD_cons_zero, List.getD_cons_succ, List.set_cons_zero, List.set_cons_succ, mono2_val]
      rw [← hX, ← hY]
      cases b with
      | zero => simp
      | succ b =>
        rw [if_pos (show 0 < b + 1 by omega), hrow' _ _ (by omega)]
        simp at hs ⊢
        field_simp
        ring
  · have r0 : ∀ q, row2 [a, b] 1 0 q = if q = rank2 [a, b + 1] then 1 / ((a : ℝ) + b + 1) else 0 := by
      intro q; simp [row2, ex]
    have r1 : ∀ q, row2 [a, b] 1 1 q = if 0 < a ∧ q = rank2 [a - 1, b] then -(a : ℝ) / ((a : ℝ) + b + 1) else 0 := by
      intro q; simp [row2, ex]
    simp only [r0, r1]
    rw [sum_single _ _ _ _ (rank2_lt (k + 1) (by omega)), sum_single_if _ _ _ _ _ (fun hb => hl2 _ _ (by omega)),
      hD' _ _ _ hcomp (by omega)]
    rcases lt2 hcomp with rfl | rfl
    · simp only [ex, List.getD_cons_zero, List.set_cons_zero, mono2_val]
      rw [← hX, ← hY]
      cases a with
      | zero => simp
      | succ a =>
        rw [if_pos (show 0 < a + 1 by omega), hrow' _ _ (by omega)]
        simp at hs ⊢
        field_simp
        ring
    · simp only [ex, List.getD_cons_zero, List.getD_cons_succ, List.set_cons_zero, List.set_cons_succ, mono2_val, if_true]
      rw [← hX, ← hY]
      cases a with
      | zero => simp at hs ⊢; field_simp
      | succ a =>
        rw [if_pos (show 0 < a + 1 by omega), hrow' _ _ (by omega)]
        simp at hs ⊢
        field_simp
        ring

/-- The hypotheses of C27 are met for every degree, centre, diameter and point by the outputs of `Vander` and
`VanderDerivatives`. -/
example (k n N : Nat) (hN : N = (compute mono2 (k + 1)).num) (x c : Nat → ℝ) (h : ℝ) :
    ∃ (f : Nat → (Nat → ℝ) → ℝ) (D : Nat → Nat → ℝ) (row : Nat → ℝ),
      (∀ i y, i < N → vander (compute mono2 (k + 1)) y c h i = .ok (f i y)) ∧
      (∀ i d, i < N → d < 2 → HasPartial (f i) d x (D d i)) ∧
      (∀ i, i < (compute mono2 n).num → vander (compute mono2 n) x c h i = .ok (row i)) := by
  subst hN
  have hv : ∀ m j (y : Nat → ℝ), j < (compute mono2 m).num → vander (compute mono2 m) y c h j =
      .ok (monomial 2 ((compute mono2 m).exps.getD j []) y c h) := by
    intro m j y hj
    obtain ⟨e, he⟩ := get_of_lt mono2 hj
    rw [vander_ok ranked2 (by decide) y c h he]
    simp only [List.getD_eq_getElem?_getD, he]
    rfl
  have hp : ∀ j d, j < (compute mono2 (k + 1)).num → d < 2 → ∃ v,
      HasPartial (fun y => monomial 2 ((compute mono2 (k + 1)).exps.getD j []) y c h) d x v := by
    intro j d hj hd
    obtain ⟨e, he⟩ := get_of_lt mono2 hj
    simp only [List.getD_eq_getElem?_getD, he, Option.getD_some]
    exact ⟨_, monomial_partial 2 e c h hd (exps_get ranked2 he).1 x⟩
  choose! D hD using hp
  exact ⟨fun j y => monomial 2 ((compute mono2 (k + 1)).exps.getD j []) y c h, fun d j => D j d,
    fun j => monomial 2 ((compute mono2 n).exps.getD j []) x c h, fun i y hi => hv _ _ _ hi, fun i d hi hd => hD i d hi hd,
    fun i hi => hv _ _ _ hi⟩

/-- **C28.** The same in three dimensions: the complement fields are the columns of `VanderGBigOPlus`, the first `DimFirstBasis`
of them weighted with `VectorDecomposition[i][1]`, the next `Nkm1` with `VectorDecomposition[i][2]`, the last `Nkm1` with
`VectorDecomposition[i][3]`. -/
theorem C28_decomposition (k : Nat) : ∃ g, gbasis3 ℝ k = .ok g ∧ g.Nk = (k + 1) * (k + 2) * (k + 3) / 6 ∧
    g.dec.length = g.Nk ∧
    ∀ (x c : Nat → ℝ) (h : ℝ), h ≠ 0 →
    ∀ (f : Nat → (Nat → ℝ) → ℝ) (D : Nat → Nat → ℝ) (n : Nat) (row : Nat → ℝ), 1 ≤ n → k ≤ n + 1 →
      (∀ i y, i < g.Nkp1 → vander (compute mono3 (k + 1)) y c h i = .ok (f i y)) →
      (∀ i d, i < g.Nkp1 → d < 3 → HasPartial (f i) d x (D d i)) →
      (∀ i, i < (compute mono3 n).num → vander (compute mono3 n) x c h i = .ok (row i)) →
      ∃ G : Nat → Nat → ℝ,
        (∀ comp col, comp < 3 → col < g.dimFirst + 2 * g.Nkm1 →
          gbig3 g (compute mono3 n).num row comp col = .ok (G comp col)) ∧
        ∀ (j i comp : Nat) r, j < g.Nk → i < 3 → comp < 3 → g.dec[j]? = some r →
          (if i = comp then f j x else 0) =
            ∑ q ∈ Finset.range g.Nkp1, r i 0 q * (h * D comp q) +
            ∑ q ∈ Finset.range g.dimFirst, r i 1 q * G comp q +
            ∑ q ∈ Finset.range g.Nkm1, r i 2 q * G comp (g.dimFirst + q) +
            ∑ q ∈ Finset.range g.Nkm1, r i 3 q * G comp (g.dimFirst + g.Nkm1 + q) := by
  obtain ⟨g, fg, g0, _, g1, g2, g3, gd, gf, gt, g4, g5, gg, g6⟩ := gbasis3_ok k
  refine ⟨g, g0, by rw [g1, tet_div], by rw [g5, g1], ?_⟩
  intro x c h hh f D n row hn hkn hf hD hrow
  have hnum : (compute mono3 n).num = tet (n + 1) := tet_div n
  have t1 : tet k ≤ tet (n + 1) := tet_le hkn
  have t2 : 4 ≤ tet (n + 1) := tet_le (show 2 ≤ n + 1 by omega)
  set X := (x 0 - c 0) / h with hX
  set Y := (x 1 - c 1) / h with hY
  set Z := (x 2 - c 2) / h with hZ
  have hrow' : ∀ a b d, a + b + d ≤ n → row (rank3 [a, b, d]) = X ^ a * Y ^ b * Z ^ d := by
    intro a b d hab
    have he := (exps_iff ranked3 n (rank3 [a, b, d]) [a, b, d]).2 ⟨rfl, by simp; omega, rfl⟩
    have h1 := hrow _ (by rw [hnum]; exact rank3_lt n hab)
    rw [vander_ok ranked3 (by decide) x c h he, show mono3.dim = 3 from rfl, mono3_val] at h1
    exact (Except.ok.inj h1).symm
  have hf' : ∀ a b d, a + b + d ≤ k + 1 → f (rank3 [a, b, d]) = fun y => monomial 3 [a, b, d] y c h := by
    intro a b d hab
    funext y
    have he := (exps_iff ranked3 (k + 1) (rank3 [a, b, d]) [a, b, d]).2 ⟨rfl, by simp; omega, rfl⟩
    have h1 := hf (rank3 [a, b, d]) y (by rw [g3]; exact rank3_lt (k + 1) hab)
    rw [vander_ok ranked3 (by decide) y c h he] at h1
    exact (Except.ok.inj h1).symm
  have hD' : ∀ a b e d, d < 3 → a + b + e ≤ k + 1 → h * D d (rank3 [a, b, e]) =
      (ex [a, b, e] d : ℝ) * monomial 3 ([a, b, e].set d (ex [a, b, e] d - 1)) x c h := by
    intro a b e d hd hab
    have h1 := hD (rank3 [a, b, e]) d (by rw [g3]; exact rank3_lt (k + 1) hab) hd
    rw [hf' a b e hab] at h1
    rw [hasPartial_unique h1 (monomial_partial 3 [a, b, e] c h hd rfl x)]
    field_simp
  have hX1 : row 1 = X := by
    have := hrow' 1 0 0 (by omega)
    rw [show rank3 [1, 0, 0] = 1 from rfl] at this
    simpa using this
  have hY1 : row 2 = Y := by
    have := hrow' 0 1 0 (by omega)
    rw [show rank3 [0, 1, 0] = 2 from rfl] at this
    simpa using this
  have hZ1 : row 3 = Z := by
    have := hrow' 0 0 1 (by omega)
    rw [show rank3 [0, 0, 1] = 3 from rfl] at this
    simpa using this
  have hok : ∀ comp col, comp < 3 → col < g.dimFirst + 2 * g.Nkm1 →
      ∃ v, gbig3 g (compute mono3 n).num row comp col = .ok v := by
    intro comp col h1 h2
    unfold gbig3
    rw [if_neg (by simp only [not_not]; exact ⟨h1, h2⟩), if_neg (by rw [hnum]; omega),
      if_neg (by rw [hnum, g2, gd, gf]; omega)]
    by_cases h3 : col < g.dimFirst
    · have h4 : col < g.firsts.length := by rw [gf, ← gd]; exact h3
      rw [if_pos h3, if_pos h4, (unchecked_ok_iff _ _ _).2 (List.getElem?_eq_getElem h4), except_ok_bind,
        if_pos (by rw [g2]; exact gt _ (List.getElem_mem h4))]
      exact ⟨_, rfl⟩
    · rw [if_neg h3]
      split
      · exact ⟨_, rfl⟩
      · exact ⟨_, rfl⟩
  choose! G hG using hok
  refine ⟨G, hG, ?_⟩
  have hl2 : ∀ a b d, a + b + d + 1 ≤ k → rank3 [a, b, d] < tet k := by
    intro a b d hab
    have := @rank3_lt a b d (k - 1) (by omega)
    rwa [show k - 1 + 1 = k by omega] at this
  have hfg : ∀ b d, b + d + 1 ≤ k → fg b d < tri k := by
    intro b d h1
    rw [← gf]; exact (List.getElem?_eq_some_iff.1 (gg b d h1)).1
  -- values of the complement fields
  have G1 : ∀ comp b d, comp < 3 → b + d + 1 ≤ k → G comp (fg b d) =
      if comp = 0 then 0 else if comp = 1 then Y ^ b * Z ^ d * Z else -(Y ^ b * Z ^ d * Y) := by
    intro comp b d h1 h2
    have h3 := hfg b d h2
    have h4 := hG comp (fg b d) h1 (by rw [gd]; omega)
    unfold gbig3 at h4
    rw [if_neg (by simp only [not_not]; exact ⟨h1, by rw [gd]; omega⟩), if_neg (by rw [hnum]; omega),
      if_neg (by rw [hnum, g2, gd, gf]; omega), if_pos (by rw [gd]; exact h3), if_pos (by rw [gf]; exact h3),
      (unchecked_ok_iff _ _ _).2 (gg b d h2), except_ok_bind, if_pos (by rw [g2]; exact hl2 _ _ _ (by omega)),
      hrow' _ _ _ (by omega), hY1, hZ1] at h4
    rw [← Except.ok.inj h4]
    simp
  have G2 : ∀ comp a b d, comp < 3 → a + b + d + 1 ≤ k → G comp (g.dimFirst + rank3 [a, b, d]) =
      if comp = 0 then -(X ^ a * Y ^ b * Z ^ d * Z) else if comp = 1 then 0 else X ^ a * Y ^ b * Z ^ d * X := by
    intro comp a b d h1 h2
    have h3 := hl2 a b d h2
    have h4 := hG comp (g.dimFirst + rank3 [a, b, d]) h1 (by rw [g2]; omega)
    unfold gbig3 at h4
    rw [if_neg (by simp only [not_not]; exact ⟨h1, by rw [g2]; omega⟩), if_neg (by rw [hnum]; omega),
      if_neg (by rw [hnum, g2, gd, gf]; omega), if_neg (by omega), if_pos (by rw [g2]; omega), Nat.add_sub_cancel_left,
      hrow' _ _ _ (by omega), hX1, hZ1] at h4
    exact (Except.ok.inj h4).symm
  have G3 : ∀ comp a b d, comp < 3 → a + b + d + 1 ≤ k → G comp (g.dimFirst + g.Nkm1 + rank3 [a, b, d]) =
      if comp = 0 then X ^ a * Y ^ b * Z ^ d * Y else if comp = 1 then -(X ^ a * Y ^ b * Z ^ d * X) else 0 := by
    intro comp a b d h1 h2
    have h3 := hl2 a b d h2
    have h4 := hG comp (g.dimFirst + g.Nkm1 + rank3 [a, b, d]) h1 (by rw [g2]; omega)
    unfold gbig3 at h4
    rw [if_neg (by simp only [not_not]; exact ⟨h1, by rw [g2]; omega⟩), if_neg (by rw [hnum]; omega),
      if_neg (by rw [hnum, g2, gd, gf]; omega), if_neg (by omega), if_neg (by omega),
      show g.dimFirst + g.Nkm1 + rank3 [a, b, d] - g.dimFirst - g.Nkm1 = rank3 [a, b, d] by omega,
      hrow' _ _ _ (by omega), hX1, hY1] at h4
    exact (Except.ok.inj h4).symm
  intro j i comp r hj hi hcomp hr
  rw [g1] at hj
  have hlen : (compute mono3 (k + 1)).exps.length = tet (k + 2) := by rw [exps_length]; exact nkp1_3 k
  have hts : tet (k + 2) = tet (k + 1) + tri (k + 2) := tet_succ (k + 1)
  obtain ⟨e, he⟩ : ∃ e, (compute mono3 (k + 1)).exps[j]? = some e := ⟨_, List.getElem?_eq_getElem (by omega)⟩
  obtain ⟨q1, q2, q3⟩ := (exps_iff ranked3 _ _ _).1 he
  obtain ⟨a, b, d, rfl⟩ := len3 q1
  have hab : a + b + d ≤ k := by
    have := (ranked3.bound [a, b, d] k rfl).1 (by rw [q3, show mono3.num k = tet (k + 1) from tet_div k]; omega)
    simp at this
    omega
  rw [g6 j _ hj he, Option.some.injEq] at hr
  subst hr
  have hfj : f j x = X ^ a * Y ^ b * Z ^ d := by
    rw [← q3, hf' a b d (by omega)]
    exact mono3_val a b d x c h
  have hs : ((a : ℝ) + (b + d) + 1) ≠ 0 := by positivity
  rw [hfj]
  rw [show g.Nkp1 = tet (k + 2) from g3]
  have sd : Finset.range g.dimFirst = Finset.range (tri k) := by rw [gd]
  have sn : Finset.range g.Nkm1 = Finset.range (tet k) := by rw [g2]
  rw [sd, sn]
  rcases lt3 hi with rfl | rfl | rfl
  · have r0 : ∀ q, row3 fg [a, b, d] 0 0 q = if q = rank3 [a + 1, b, d] then 1 / ((a : ℝ) + (b + d) + 1) else 0 := by
      intro q; simp [row3, ex]
    have r1 : ∀ q, row3 fg [a, b, d] 0 1 q = 0 := by
      intro q; simp [row3, ex]
    have r2 : ∀ q, row3 fg [a, b, d] 0 2 q =
        if 0 < d ∧ q = rank3 [a, b, d - 1] then -(d : ℝ) * (1 / ((a : ℝ) + (b + d) + 1)) else 0 := by
      intro q; simp [row3, ex]
    have r3 : ∀ q, row3 fg [a, b, d] 0 3 q =
        if 0 < b ∧ q = rank3 [a, b - 1, d] then (b : ℝ) * (1 / ((a : ℝ) + (b + d) + 1)) else 0 := by
      intro q; simp [row3, ex]
    simp only [r0, r1, r2, r3, zero_mul, Finset.sum_const_zero]
    rw [sum_single _ _ _ _ (rank3_lt (k + 1) (by omega)), sum_single_if _ _ _ _ _ (fun hb => hl2 _ _ _ (by omega)),
      sum_single_if _ _ _ _ _ (fun hb => hl2 _ _ _ (by omega)), hD' _ _ _ _ hcomp (by omega)]
    rcases lt3 hcomp with rfl | rfl | rfl
    all_goals
      simp only [ex, List.getD_cons_zero, List.getD_cons_succ, List.set_cons_zero, List.set_cons_succ, mono3_val]
      rw [← hX, ← hY, ← hZ]
      rcases b with _ | b <;> rcases d with _ | d
      all_goals
        simp only [Nat.add_sub_cancel, Nat.lt_irrefl, if_false, if_true, Nat.succ_pos]
        try rw [G2 _ _ _ _ hcomp (by omega)]
        try rw [G3 _ _ _ _ hcomp (by omega)]
        simp at hs ⊢
        try field_simp
        try ring
  · have r0 : ∀ q, row3 fg [a, b, d] 1 0 q = if q = rank3 [a, b + 1, d] then 1 / ((a : ℝ) + (b + d) + 1) else 0 := by
      intro q; simp [row3, ex]
    have r1 : ∀ q, row3 fg [a, b, d] 1 1 q =
        if (d > 0 ∧ a = 0) ∧ q = fg b (d - 1) then (d : ℝ) * (1 / ((a : ℝ) + (b + d) + 1)) else 0 := by
      intro q; simp [row3, ex]
    have r2 : ∀ q, row3 fg [a, b, d] 1 2 q =
        if (a > 0 ∧ d > 0) ∧ q = rank3 [a - 1, b + 1, d - 1] then -(d : ℝ) * (1 / ((a : ℝ) + (b + d) + 1)) else 0 := by
      intro q; simp [row3, ex]
    have r3 : ∀ q, row3 fg [a, b, d] 1 3 q =
        if a > 0 ∧ q = rank3 [a - 1, b, d] then -((a + d : Nat) : ℝ) * (1 / ((a : ℝ) + (b + d) + 1)) else 0 := by
      intro q; simp [row3, ex]
    simp only [r0, r1, r2, r3]
    rw [sum_single _ _ _ _ (rank3_lt (k + 1) (by omega)), sum_single_if _ _ _ _ _ (fun hb => hfg _ _ (by omega)),
      sum_single_if _ _ _ _ _ (fun hb => hl2 _ _ _ (by omega)),
      sum_single_if _ _ _ _ _ (fun hb => hl2 _ _ _ (by omega)), hD' _ _ _ _ hcomp (by omega)]
    rcases lt3 hcomp with rfl | rfl | rfl
    all_goals
      simp only [ex, List.getD_cons_zero, List.getD_cons_succ, List.set_cons_zero, List.set_cons_succ, mono3_val]
      rw [← hX, ← hY, ← hZ]
      rcases a with _ | a <;> rcases d with _ | d
      all_goals
        simp only [Nat.add_sub_cancel, Nat.lt_irrefl, if_false, if_true, Nat.succ_pos, gt_iff_lt, and_true, and_false,
          true_and, false_and, Nat.succ_ne_zero]
        try rw [G1 _ _ _ hcomp (by omega)]
        try rw [G2 _ _ _ _ hcomp (by omega)]
        try rw [G3 _ _ _ _ hcomp (by omega)]
        simp at hs ⊢
        try field_simp
        try ring
  · have r0 : ∀ q, row3 fg [a, b, d] 2 0 q = if q = rank3 [a, b, d + 1] then 1 / ((a : ℝ) + (b + d) + 1) else 0 := by
      intro q; simp [row3, ex]
    have r1 : ∀ q, row3 fg [a, b, d] 2 1 q =
        if (b > 0 ∧ a = 0) ∧ q = fg (b - 1) d then -(b : ℝ) * (1 / ((a : ℝ) + (b + d) + 1)) else 0 := by
      intro q; simp [row3, ex]
    have r2 : ∀ q, row3 fg [a, b, d] 2 2 q =
        if a > 0 ∧ q = rank3 [a - 1, b, d] then ((a + b : Nat) : ℝ) * (1 / ((a : ℝ) + (b + d) + 1)) else 0 := by
      intro q; simp [row3, ex]
    have r3 : ∀ q, row3 fg [a, b, d] 2 3 q =
        if (a > 0 ∧ b > 0) ∧ q = rank3 [a - 1, b - 1, d + 1] then (b : ℝ) * (1 / ((a : ℝ) + (b + d) + 1)) else 0 := by
      intro q; simp [row3, ex]
    simp only [r0, r1, r2, r3]
    rw [sum_single _ _ _ _ (rank3_lt (k + 1) (by omega)), sum_single_if _ _ _ _ _ (fun hb => hfg _ _ (by omega)),
      sum_single_if _ _ _ _ _ (fun hb => hl2 _ _ _ (by omega)),
      sum_single_if _ _ _ _ _ (fun hb => hl2 _ _ _ (by omega)), hD' _ _ _ _ hcomp (by omega)]
    rcases lt3 hcomp with rfl | rfl | rfl
    all_goals
      simp only [ex, List.getD_cons_zero, List.getD_cons_succ, List.set_cons_zero, List.set_cons_succ, mono3_val]
      rw [← hX, ← hY, ← hZ]
      rcases a with _ | a <;> rcases b with _ | b
      all_goals
        simp only [Nat.add_sub_cancel, Nat.lt_irrefl, if_false, if_true, Nat.succ_pos, gt_iff_lt, and_true, and_false,
          true_and, false_and, Nat.succ_ne_zero]
        try rw [G1 _ _ _ hcomp (by omega)]
        try rw [G2 _ _ _ _ hcomp (by omega)]
        try rw [G3 _ _ _ _ hcomp (by omega)]
        simp at hs ⊢
        try field_simp
        try ring

/-- The hypotheses of C28 are met for every degree, centre, diameter and point by the outputs of `Vander` and
`VanderDerivatives`. -/
example (k n N : Nat) (hN : N = (compute mono3 (k + 1)).num) (x c : Nat → ℝ) (h : ℝ) :
    ∃ (f : Nat → (Nat → ℝ) → ℝ) (D : Nat → Nat → ℝ) (row : Nat → ℝ),
      (∀ i y, i < N → vander (compute mono3 (k + 1)) y c h i = .ok (f i y)) ∧
      (∀ i d, i < N → d < 3 → HasPartial (f i) d x (D d i)) ∧
      (∀ i, i < (compute mono3 n).num → vander (compute mono3 n) x c h i = .ok (row i)) := by
  subst hN
  have hv : ∀ m j (y : Nat → ℝ), j < (compute mono3 m).num → vander (compute mono3 m) y c h j =
      .ok (monomial 3 ((compute mono3 m).exps.getD j []) y c h) := by
    intro m j y hj
    obtain ⟨e, he⟩ := get_of_lt mono3 hj
    rw [vander_ok ranked3 (by decide) y c h he]
    simp only [List.getD_eq_getElem?_getD, he]
    rfl
  have hp : ∀ j d, j < (compute mono3 (k + 1)).num → d < 3 → ∃ v,
      HasPartial (fun y => monomial 3 ((compute mono3 (k + 1)).exps.getD j []) y c h) d x v := by
    intro j d hj hd
    obtain ⟨e, he⟩ := get_of_lt mono3 hj
    simp only [List.getD_eq_getElem?_getD, he, Option.getD_some]
    exact ⟨_, monomial_partial 3 e c h hd (exps_get ranked3 he).1 x⟩
  choose! D hD using hp
  exact ⟨fun j y => monomial 3 ((compute mono3 (k + 1)).exps.getD j []) y c h, fun d j => D j d,
    fun j => monomial 3 ((compute mono3 n).exps.getD j []) x c h, fun i y hi => hv _ _ _ hi, fun i d hi hd => hD i d hi hd,
    fun i hi => hv _ _ _ hi⟩

/-- **C27, C28, count.** Together with the constant (whose gradient is zero) the fields of the decomposition are as many as the
monomial fields: no field is superfluous. -/
theorem C27_count (k : Nat) : ∃ g, gbasis2 ℝ k = .ok g ∧ g.Nkp1 + g.Nkm1 = 2 * g.Nk + 1 := by
  obtain ⟨g, g0, _, g1, g2, g3, _⟩ := gbasis2_ok k
  refine ⟨g, g0, ?_⟩
  rw [g1, g2, g3]
  have h1 : tri (k + 2) = tri (k + 1) + (k + 2) := tri_succ _
  have h2 := tri_succ k
  omega

theorem C28_count (k : Nat) : ∃ g, gbasis3 ℝ k = .ok g ∧ g.firsts.length = g.dimFirst ∧
    g.Nkp1 + g.dimFirst + 2 * g.Nkm1 = 3 * g.Nk + 1 := by
  obtain ⟨g, fg, g0, _, g1, g2, g3, gd, gf, _⟩ := gbasis3_ok k
  refine ⟨g, g0, by rw [gf, gd], ?_⟩
  rw [g1, g2, g3, gd]
  have h1 : tet (k + 2) = tet (k + 1) + tri (k + 2) := tet_succ _
  have h2 := tet_succ k
  have h3 : tri (k + 2) = tri (k + 1) + (k + 2) := tri_succ _
  have h4 := tri_succ k
  omega

end PolyDiM
