import Verif.Lemmas.VemProj

/-!
# Lemmas: what the systems solved by the VEM local space say about polynomials
-/

namespace PolyDiM

open Spec MvPolynomial

section
variable {k : Nat} {c : ℝ × ℝ} {h m : ℝ} {internal : Rule (ℝ × ℝ) ℝ} {bnd : EdgesRule ℝ}

/-- The polynomial with the given coefficients. -/
noncomputable def combo (k : Nat) (c : ℝ × ℝ) (h : ℝ) (N : Nat) (x : Nat → ℝ) : MvPolynomial (Fin 2) ℝ :=
  ∑ j ∈ Finset.range N, C (x j) * basisPoly k c h j

theorem quadLin_combo (points : List (ℝ × ℝ)) (w : List ℝ) (p : MvPolynomial (Fin 2) ℝ) (N : Nat) (x : Nat → ℝ) :
    quadLin points w (p * combo k c h N x) = ∑ j ∈ Finset.range N, quadLin points w (p * basisPoly k c h j) * x j := by
  rw [combo, Finset.mul_sum, map_sum]
  refine Finset.sum_congr rfl fun j _ => ?_
  rw [show p * (C (x j) * basisPoly k c h j) = C (x j) * (p * basisPoly k c h j) by ring, quadLin_C_mul, mul_comm]

theorem quadLin_combo' (points : List (ℝ × ℝ)) (w : List ℝ) (N : Nat) (x : Nat → ℝ) :
    quadLin points w (combo k c h N x) = ∑ j ∈ Finset.range N, quadLin points w (basisPoly k c h j) * x j := by
  have := quadLin_combo (k := k) (c := c) (h := h) points w 1 N x
  simpa using this

theorem quadLin_combo_pderiv (points : List (ℝ × ℝ)) (w : List ℝ) (d : Fin 2) (p : MvPolynomial (Fin 2) ℝ) (N : Nat) (x : Nat → ℝ) :
    quadLin points w (p * pderiv d (combo k c h N x)) = ∑ j ∈ Finset.range N, quadLin points w (p * pderiv d (basisPoly k c h j)) * x j := by
  rw [combo, map_sum, Finset.mul_sum, map_sum]
  refine Finset.sum_congr rfl fun j _ => ?_
  rw [Derivation.leibniz, pderiv_C, smul_zero, add_zero, smul_eq_mul,
    show p * (C (x j) * pderiv d (basisPoly k c h j)) = C (x j) * (p * pderiv d (basisPoly k c h j)) by ring, quadLin_C_mul, mul_comm]

theorem combo_degree (x : Nat → ℝ) {a : Nat} (ha : a ≤ k) : (combo k c h (tri (a + 1)) x).totalDegree ≤ a := by
  refine (totalDegree_finsetSum _ _).trans (Finset.sup_le fun j hj => ?_)
  rw [Finset.mem_range] at hj
  refine (totalDegree_mul _ _).trans ?_
  rw [totalDegree_C, zero_add]
  refine basisPoly_degree k c h ?_ hj
  rw [num2_eq]
  have := tri_le (show a + 1 ≤ k + 1 by omega)
  omega

theorem pderiv_degree (d : Fin 2) (hk : 1 ≤ k) {j : Nat} (hj : j < tri (k + 1)) : (pderiv d (basisPoly k c h j)).totalDegree ≤ k - 1 := by
  rw [basisPoly_pderiv k c h (num2_eq k ▸ hj) hj le_rfl d]
  have := combo_degree (k := k) (c := c) (h := h) (fun l => ((compute mono2 k).der d j l : ℝ) / h) (show k - 1 ≤ k by omega)
  rwa [show k - 1 + 1 = k by omega] at this

theorem combo_pderiv_degree (d : Fin 2) (hk : 1 ≤ k) (x : Nat → ℝ) : (pderiv d (combo k c h (tri (k + 1)) x)).totalDegree ≤ k - 1 := by
  rw [combo, map_sum]
  refine (totalDegree_finsetSum _ _).trans (Finset.sup_le fun j hj => ?_)
  rw [Derivation.leibniz, pderiv_C, smul_zero, add_zero, smul_eq_mul]
  refine (totalDegree_mul _ _).trans ?_
  rw [totalDegree_C, zero_add]
  exact pderiv_degree d hk (Finset.mem_range.1 hj)

theorem combo_ext (hh : h ≠ 0) {a : Nat} (ha : a ≤ k) {x y : Nat → ℝ} (he : combo k c h (tri (a + 1)) x = combo k c h (tri (a + 1)) y) :
    ∀ j < tri (a + 1), x j = y j := by
  intro j hj
  have hsub : ∑ l ∈ Finset.range (compute mono2 k).num, C (if l < tri (a + 1) then x l - y l else 0) * basisPoly k c h l = 0 := by
    rw [num2_eq, ← Finset.sum_subset (Finset.range_subset_range.2 (tri_le (show a + 1 ≤ k + 1 by omega)))]
    · have : combo k c h (tri (a + 1)) x - combo k c h (tri (a + 1)) y = 0 := by rw [he, sub_self]
      rw [combo, combo, ← Finset.sum_sub_distrib] at this
      rw [← this]
      refine Finset.sum_congr rfl fun l hl => ?_
      rw [if_pos (Finset.mem_range.1 hl), C_sub, sub_mul]
    · intro l _ hl
      rw [Finset.mem_range] at hl
      rw [if_neg hl, C_0, zero_mul]
  have := basisPoly_independent k c h hh _ hsub j (by
    rw [num2_eq]
    have := tri_le (show a + 1 ≤ k + 1 by omega)
    omega)
  rw [if_pos hj] at this
  linarith

/-- The DOFs of a polynomial. -/
structure IsDofs (k : Nat) (c : ℝ × ℝ) (h m : ℝ) (internal : Rule (ℝ × ℝ) ℝ) (points : List (ℝ × ℝ)) (q : MvPolynomial (Fin 2) ℝ) (v : Nat → ℝ) : Prop where
  value : ∀ (b : Nat) (p : ℝ × ℝ), points[b]? = some p → v b = ev2 q p
  moment : ∀ l < tri (k - 1), m * v (points.length + l) = quadLin internal.points internal.weights (basisPoly k c h l * q)

theorem sum_split (L M : Nat) (f : Nat → ℝ) : ∑ b ∈ Finset.range (L + M), f b = ∑ b ∈ Finset.range L, f b + ∑ l ∈ Finset.range M, f (L + l) :=
  Finset.sum_range_add f L M

/-- Integration by parts, discretely. -/
theorem green (hd : Discrete k internal bnd) (hk : 1 ≤ k) {q : MvPolynomial (Fin 2) ℝ} (hq : q.totalDegree ≤ k) {v : Nat → ℝ}
    (hv : IsDofs k c h m internal bnd.points q v) {G B : DMat ℝ} (hB : NablaOk k c h m internal bnd G B) {i : Nat} (hi : i < tri (k + 1)) (hi0 : 0 < i) :
    ∑ b ∈ Finset.range (bnd.points.length + tri (k - 1)), B.ent i b * v b
      = quadLin internal.points internal.weights (pderiv 0 (basisPoly k c h i) * pderiv 0 q)
        + quadLin internal.points internal.weights (pderiv 1 (basisPoly k c h i) * pderiv 1 q) := by
  set P := basisPoly k c h i with hP
  have hdeg : ∀ d : Fin 2, (pderiv d P * q).totalDegree ≤ 2 * k - 1 := by
    intro d
    refine (totalDegree_mul _ _).trans ?_
    have := pderiv_degree (k := k) (c := c) (h := h) d hk hi
    rw [← hP] at this
    omega
  have e1 : ∑ b ∈ Finset.range bnd.points.length, B.ent i b * v b = quadLin bnd.points bnd.nx (pderiv 0 P * q) + quadLin bnd.points bnd.ny (pderiv 1 P * q) := by
    rw [← sum_quadLin bnd.points bnd.nx hd.xlen (fun b => ev2 (pderiv 0 P) (bnd.points.getD b 0) * ev2 q (bnd.points.getD b 0)) _ (by
        intro b p hb
        simp [List.getD_eq_getElem?_getD, hb, ev2]),
      ← sum_quadLin bnd.points bnd.ny hd.ylen (fun b => ev2 (pderiv 1 P) (bnd.points.getD b 0) * ev2 q (bnd.points.getD b 0)) _ (by
        intro b p hb
        simp [List.getD_eq_getElem?_getD, hb, ev2]), ← Finset.sum_add_distrib]
    refine Finset.sum_congr rfl fun b hb => ?_
    have hb' := List.getElem?_eq_getElem (Finset.mem_range.1 hb)
    have hg : bnd.points.getD b 0 = bnd.points[b]'(Finset.mem_range.1 hb) := by rw [List.getD_eq_getElem?_getD, hb', Option.getD_some]
    rw [hB.bBnd i hi hi0 b _ hb', hv.value b _ hb', hg, hP]
    ring
  have e2 : ∑ l ∈ Finset.range (tri (k - 1)), B.ent i (bnd.points.length + l) * v (bnd.points.length + l)
      = -quadLin internal.points internal.weights ((pderiv 0 (pderiv 0 P) + pderiv 1 (pderiv 1 P)) * q) := by
    rw [basisPoly_lap k c h (num2_eq k ▸ hi) hi le_rfl, Finset.sum_mul, map_sum, ← Finset.sum_neg_distrib]
    refine Finset.sum_congr rfl fun l hl => ?_
    rw [mul_assoc, quadLin_C_mul, hB.bInt i hi hi0 l (Finset.mem_range.1 hl), ← hv.moment l (Finset.mem_range.1 hl)]
    ring
  rw [sum_split, e1, e2, hd.gaussX _ (hdeg 0), hd.gaussY _ (hdeg 1), Derivation.leibniz, Derivation.leibniz, add_mul, map_add, map_add, map_add]
  simp only [smul_eq_mul]
  rw [mul_comm q (pderiv 0 (pderiv 0 P)), mul_comm q (pderiv 1 (pderiv 1 P))]
  ring

/-- The functional of the first row. -/
theorem firstRow (hd : Discrete k internal bnd) {q : MvPolynomial (Fin 2) ℝ} {v : Nat → ℝ} (hk : 1 ≤ k)
    (hv : IsDofs k c h m internal bnd.points q v) {G B : DMat ℝ} (hB : NablaOk k c h m internal bnd G B) :
    ∑ b ∈ Finset.range (bnd.points.length + tri (k - 1)), B.ent 0 b * v b
      = if k = 1 then quadLin bnd.points bnd.weights q else quadLin internal.points internal.weights q := by
  have hf := hB.bFirst
  by_cases h1 : k = 1
  · rw [if_pos h1] at hf ⊢
    rw [sum_split, show tri (k - 1) = 0 by rw [h1]; rfl, Finset.sum_range_zero, add_zero, ← sum_quadLin bnd.points bnd.weights hd.blen v q hv.value]
    exact Finset.sum_congr rfl fun b hb => by rw [hf b (Finset.mem_range.1 hb)]
  · rw [if_neg h1] at hf ⊢
    have hint : 0 < tri (k - 1) := by
      obtain ⟨k', rfl⟩ : ∃ k', k = k' + 2 := ⟨k - 2, by omega⟩
      rw [show k' + 2 - 1 = k' + 1 by omega, tri_succ]
      omega
    rw [sum_split, Finset.sum_eq_zero (fun b hb => by rw [hf.1 b (Finset.mem_range.1 hb), zero_mul]), zero_add, Finset.sum_eq_single 0]
    · rw [hf.2 0 hint, if_pos rfl, hv.moment 0 hint, basisPoly_zero, one_mul]
    · intro l hl h0
      rw [hf.2 l (Finset.mem_range.1 hl), if_neg h0, zero_mul]
    · intro hn
      exact absurd (Finset.mem_range.2 hint) hn

theorem row_pos {G B : DMat ℝ} (hB : NablaOk k c h m internal bnd G B) (x : Nat → ℝ) {i : Nat} (hi : i < tri (k + 1)) (hi0 : 0 < i) :
    ∑ j ∈ Finset.range (tri (k + 1)), G.ent i j * x j
      = quadLin internal.points internal.weights (pderiv 0 (basisPoly k c h i) * pderiv 0 (combo k c h (tri (k + 1)) x))
        + quadLin internal.points internal.weights (pderiv 1 (basisPoly k c h i) * pderiv 1 (combo k c h (tri (k + 1)) x)) := by
  rw [quadLin_combo_pderiv, quadLin_combo_pderiv, ← Finset.sum_add_distrib]
  refine Finset.sum_congr rfl fun j hj => ?_
  rw [hB.gEnt i hi hi0 j (Finset.mem_range.1 hj)]
  ring

theorem row_zero {G B : DMat ℝ} (hB : NablaOk k c h m internal bnd G B) (x : Nat → ℝ) :
    ∑ j ∈ Finset.range (tri (k + 1)), G.ent 0 j * x j
      = if k = 1 then quadLin bnd.points bnd.weights (combo k c h (tri (k + 1)) x) else quadLin internal.points internal.weights (combo k c h (tri (k + 1)) x) := by
  rw [quadLin_combo', quadLin_combo']
  by_cases h1 : k = 1
  · rw [if_pos h1]
    exact Finset.sum_congr rfl fun j hj => by rw [hB.gFirst j (Finset.mem_range.1 hj), if_pos h1]
  · rw [if_neg h1]
    exact Finset.sum_congr rfl fun j hj => by rw [hB.gFirst j (Finset.mem_range.1 hj), if_neg h1]

theorem nabla_injective (hd : Discrete k internal bnd) (hk : 1 ≤ k) (hh : h ≠ 0) {G B : DMat ℝ} (hB : NablaOk k c h m internal bnd G B) (x : Nat → ℝ)
    (hx : ∀ i < tri (k + 1), ∑ j ∈ Finset.range (tri (k + 1)), G.ent i j * x j = 0) : ∀ j < tri (k + 1), x j = 0 := by
  set q := combo k c h (tri (k + 1)) x with hq
  have hpos : 0 < tri (k + 1) := by rw [tri_succ]; omega
  have hzero : ∀ d : Fin 2, pderiv d (basisPoly k c h 0) = 0 := by
    intro d
    rw [basisPoly_zero, ← C_1, pderiv_C]
  have hgrad : quadLin internal.points internal.weights (pderiv 0 q * pderiv 0 q) + quadLin internal.points internal.weights (pderiv 1 q * pderiv 1 q) = 0 := by
    have e : ∀ d : Fin 2, quadLin internal.points internal.weights (pderiv d q * pderiv d q)
        = ∑ i ∈ Finset.range (tri (k + 1)), quadLin internal.points internal.weights (pderiv d (basisPoly k c h i) * pderiv d q) * x i := by
      intro d
      conv_lhs => rw [hq, quadLin_combo_pderiv, ← hq]
      exact Finset.sum_congr rfl fun i _ => by rw [mul_comm (pderiv d q)]
    rw [e 0, e 1, ← Finset.sum_add_distrib]
    refine Finset.sum_eq_zero fun i hi => ?_
    rw [← add_mul]
    rcases Nat.eq_zero_or_pos i with rfl | hi0
    · rw [hzero, hzero]
      simp
    · rw [← row_pos hB x (Finset.mem_range.1 hi) hi0, hx i (Finset.mem_range.1 hi), zero_mul]
  have hdeg : ∀ d : Fin 2, (pderiv d q).totalDegree ≤ k := by
    intro d
    have := combo_pderiv_degree (k := k) (c := c) (h := h) d hk x
    rw [← hq] at this
    omega
  have h0 := hd.nonneg _ (hdeg 0)
  have h1 := hd.nonneg _ (hdeg 1)
  have z0 : pderiv 0 q = 0 := hd.definite _ (hdeg 0) (by linarith)
  have z1 : pderiv 1 q = 0 := hd.definite _ (hdeg 1) (by linarith)
  obtain ⟨a, ha⟩ := const_of_grad q z0 z1
  have hr := hx 0 hpos
  rw [row_zero hB x, ← hq, ha] at hr
  have ha0 : a = 0 := by
    have e : ∀ (points : List (ℝ × ℝ)) (w : List ℝ), quadLin points w (C a) = a * quadLin points w 1 := by
      intro points w
      rw [← quadLin_C_mul, mul_one]
    have hne : quadLin internal.points internal.weights 1 ≠ 0 := by
      intro h1
      have := hd.definite 1 (by simp) (by rw [one_mul]; exact h1)
      exact one_ne_zero this
    rw [e, e] at hr
    split_ifs at hr
    · exact (mul_eq_zero.1 hr).resolve_right hd.perimeter
    · exact (mul_eq_zero.1 hr).resolve_right hne
  have hq0 : q = combo k c h (tri (k + 1)) (fun _ => 0) := by
    rw [ha, ha0]
    simp [combo]
  exact combo_ext hh le_rfl (hq.symm.trans hq0)

/-- Two vectors with the same image under an injective matrix. -/
theorem inj_ext {N : Nat} {A : Nat → Nat → ℝ} (hA : ∀ x : Nat → ℝ, (∀ i < N, ∑ j ∈ Finset.range N, A i j * x j = 0) → ∀ j < N, x j = 0) {x y : Nat → ℝ}
    (h : ∀ i < N, ∑ j ∈ Finset.range N, A i j * x j = ∑ j ∈ Finset.range N, A i j * y j) : ∀ j < N, x j = y j := by
  intro j hj
  have := hA (fun j => x j - y j) (fun i hi => by
    simp only [mul_sub, Finset.sum_sub_distrib]
    rw [h i hi, sub_self]) j hj
  linarith

/-- The product of the solution with a vector. -/
theorem solves_apply {A B X : DMat ℝ} (hs : Solves A B X) (v : Nat → ℝ) {i : Nat} (hi : i < A.rows) :
    ∑ j ∈ Finset.range A.cols, A.ent i j * ∑ b ∈ Finset.range B.cols, X.ent j b * v b = ∑ b ∈ Finset.range B.cols, B.ent i b * v b := by
  simp only [Finset.mul_sum]
  rw [Finset.sum_comm]
  refine Finset.sum_congr rfl fun b hb => ?_
  rw [← hs.2.2 i hi b (Finset.mem_range.1 hb), Finset.sum_mul]
  exact Finset.sum_congr rfl fun j _ => by ring

/-- The energy projector maps the DOFs of a polynomial to its coefficients. -/
theorem nabla_exact (hd : Discrete k internal bnd) (hk : 1 ≤ k) (hh : h ≠ 0) {G B X : DMat ℝ} (hB : NablaOk k c h m internal bnd G B) (hX : Solves G B X)
    (y : Nat → ℝ) {v : Nat → ℝ} (hv : IsDofs k c h m internal bnd.points (combo k c h (tri (k + 1)) y) v) :
    ∀ j < tri (k + 1), ∑ b ∈ Finset.range (bnd.points.length + tri (k - 1)), X.ent j b * v b = y j := by
  refine inj_ext (A := G.ent) (fun x hx => nabla_injective hd hk hh hB x hx) fun i hi => ?_
  have := solves_apply hX v (i := i) (by rw [hB.gRows]; exact hi)
  rw [hB.gCols, hB.bCols] at this
  rw [this]
  rcases Nat.eq_zero_or_pos i with rfl | hi0
  · rw [firstRow hd hk hv hB, row_zero hB]
  · rw [green hd hk (combo_degree y le_rfl) hv hB hi hi0, row_pos hB y hi hi0]

theorem gram_injective (hd : Discrete k internal bnd) (hh : h ≠ 0) {a : Nat} (ha : a ≤ k) (x : Nat → ℝ)
    (hx : ∀ i < tri (a + 1), ∑ j ∈ Finset.range (tri (a + 1)), quadLin internal.points internal.weights (basisPoly k c h i * basisPoly k c h j) * x j = 0) :
    ∀ j < tri (a + 1), x j = 0 := by
  have h0 : quadLin internal.points internal.weights (combo k c h (tri (a + 1)) x * combo k c h (tri (a + 1)) x) = 0 := by
    rw [quadLin_combo]
    refine Finset.sum_eq_zero fun i hi => ?_
    rw [mul_comm (combo k c h (tri (a + 1)) x), quadLin_combo, hx i (Finset.mem_range.1 hi), zero_mul]
  have := hd.definite _ ((combo_degree x ha).trans ha) h0
  refine combo_ext hh ha (y := fun _ => 0) (this.trans ?_)
  simp [combo]

theorem gram_posDef (hd : Discrete k internal bnd) (hh : h ≠ 0) {a : Nat} (ha : a ≤ k) (x : Nat → ℝ) (hx : ∃ i < tri (a + 1), x i ≠ 0) :
    0 < ∑ i ∈ Finset.range (tri (a + 1)), x i * ∑ j ∈ Finset.range (tri (a + 1)), quadLin internal.points internal.weights (basisPoly k c h i * basisPoly k c h j) * x j := by
  have e : ∑ i ∈ Finset.range (tri (a + 1)), x i * ∑ j ∈ Finset.range (tri (a + 1)), quadLin internal.points internal.weights (basisPoly k c h i * basisPoly k c h j) * x j
      = quadLin internal.points internal.weights (combo k c h (tri (a + 1)) x * combo k c h (tri (a + 1)) x) := by
    rw [quadLin_combo]
    refine Finset.sum_congr rfl fun i _ => ?_
    rw [mul_comm (combo k c h (tri (a + 1)) x), quadLin_combo, mul_comm]
  rw [e]
  refine lt_of_le_of_ne (hd.nonneg _ ((combo_degree x ha).trans ha)) fun h0 => ?_
  obtain ⟨i, hi, hxi⟩ := hx
  have := hd.definite _ ((combo_degree x ha).trans ha) h0.symm
  refine hxi (combo_ext hh ha (y := fun _ => 0) (this.trans ?_) i hi)
  simp [combo]

/-- The right-hand side of the L2 projections. -/
noncomputable def rhsL2 (k L : Nat) (c : ℝ × ℝ) (h m : ℝ) (internal : Rule (ℝ × ℝ) ℝ) (X : DMat ℝ) (v : Nat → ℝ) (i : Nat) : ℝ :=
  if i < tri (k - 1) then m * v (L + i)
  else quadLin internal.points internal.weights (basisPoly k c h i * combo k c h (tri (k + 1)) fun j => ∑ b ∈ Finset.range (L + tri (k - 1)), X.ent j b * v b)

/-- The L2 projectors of the functions. -/
structure L2Ok (k L : Nat) (c : ℝ × ℝ) (h m : ℝ) (internal : Rule (ℝ × ℝ) ℝ) (X Y Z : DMat ℝ) : Prop where
  yRows : Y.rows = tri k
  yCols : Y.cols = L + tri (k - 1)
  zRows : Z.rows = tri (k + 1)
  zCols : Z.cols = L + tri (k - 1)
  yEq : ∀ v : Nat → ℝ, ∀ i < tri k, quadLin internal.points internal.weights (basisPoly k c h i *
    combo k c h (tri k) fun j => ∑ b ∈ Finset.range (L + tri (k - 1)), Y.ent j b * v b) = rhsL2 k L c h m internal X v i
  zEq : ∀ v : Nat → ℝ, ∀ i < tri (k + 1), quadLin internal.points internal.weights (basisPoly k c h i *
    combo k c h (tri (k + 1)) fun j => ∑ b ∈ Finset.range (L + tri (k - 1)), Z.ent j b * v b) = rhsL2 k L c h m internal X v i

theorem gram_comm (points : List (ℝ × ℝ)) (w : List ℝ) (i j : Nat) :
    quadLin points w (basisPoly k c h i * basisPoly k c h j) = quadLin points w (basisPoly k c h j * basisPoly k c h i) := by rw [mul_comm]

/-- A system with the leading block of `H`. -/
theorem gram_solve {n : Nat} {s : VemInit2D ℝ} (hs : InitOk k n c h internal bnd.points s) (hd : Discrete k internal bnd) (hh : h ≠ 0) {llt : Solver ℝ}
    (hl : SolvesPosDef llt) {a : Nat} (ha : a ≤ k) (H R : DMat ℝ) (hr : H.rows = tri (a + 1)) (hc : H.cols = tri (a + 1))
    (he : ∀ i < tri (a + 1), ∀ j < tri (a + 1), H.ent i j = s.H.ent i j) (hR : R.rows = tri (a + 1)) :
    (llt H R).rows = tri (a + 1) ∧ (llt H R).cols = R.cols ∧ ∀ v : Nat → ℝ, ∀ i < tri (a + 1), quadLin internal.points internal.weights (basisPoly k c h i *
      combo k c h (tri (a + 1)) fun j => ∑ b ∈ Finset.range R.cols, (llt H R).ent j b * v b) = ∑ b ∈ Finset.range R.cols, R.ent i b * v b := by
  have hle := tri_le (show a + 1 ≤ k + 1 by omega)
  have hent : ∀ i < tri (a + 1), ∀ j < tri (a + 1), H.ent i j = quadLin internal.points internal.weights (basisPoly k c h i * basisPoly k c h j) := by
    intro i hi j hj
    rw [he i hi j hj, hs.hEnt i (by omega) j (by omega)]
  have S := hl H R (hr.trans hc.symm) (hR.trans hr.symm) (by
    rw [hr]
    intro i hi j hj
    rw [hent i hi j hj, hent j hj i hi, gram_comm]) (by
    rw [hr, hc]
    intro x hx
    have := gram_posDef (c := c) hd hh ha x hx
    refine this.trans_eq (Finset.sum_congr rfl fun i hi => ?_)
    refine congrArg _ (Finset.sum_congr rfl fun j hj => ?_)
    rw [hent i (Finset.mem_range.1 hi) j (Finset.mem_range.1 hj)])
  refine ⟨S.1.trans hc, S.2.1, fun v i hi => ?_⟩
  have := solves_apply S v (i := i) (by omega)
  rw [hc] at this
  rw [← this, quadLin_combo]
  exact Finset.sum_congr rfl fun j hj => by rw [hent i hi j (Finset.mem_range.1 hj)]

theorem vemL2_ok {n : Nat} {s : VemInit2D ℝ} (hs : InitOk k n c h internal bnd.points s) (hd : Discrete k internal bnd) (hk : 1 ≤ k) (hh : h ≠ 0)
    (hL : n + (k - 1) * n = bnd.points.length) {llt : Solver ℝ} (hl : SolvesPosDef llt) (X : DMat ℝ) (hXr : X.rows = tri (k + 1))
    (hXc : X.cols = bnd.points.length + tri (k - 1)) :
    ∃ C Y Z, vemL2Projectors llt m k s.nkm1 s.numProj s.numInternal s.numBasis s.H X = .ok (C, Y, Z) ∧
      L2Ok k bnd.points.length c h m internal X Y Z ∧ C.rows = tri (k + 1) ∧ C.cols = bnd.points.length + tri (k - 1) ∧
      ∀ v : Nat → ℝ, ∀ i < tri (k + 1), ∑ b ∈ Finset.range (bnd.points.length + tri (k - 1)), C.ent i b * v b = rhsL2 k bnd.points.length c h m internal X v i := by
  have htri := tri_sub_le k
  have hk1 : tri (k - 1) ≤ tri k := tri_le (by omega)
  have hk2 : tri k ≤ tri (k + 1) := tri_le (by omega)
  have hb : s.numBasis = bnd.points.length + tri (k - 1) := by rw [hs.numBasis, hL]
  unfold vemL2Projectors
  rw [DMat.block_ok _ _ _ _ _ (by rw [hs.hRows, hs.numProj, hs.numInternal]; omega) (by omega), except_ok_bind,
    DMat.mul_ok _ _ (by rw [hXr]; exact hs.hCols), except_ok_bind,
    DMat.assign_ok _ _ _ _ _ _ (by rfl) (by rw [hb]; exact hXc) (by simp only [DMat.zero]; rw [hs.numProj, hs.numInternal]; omega) (by simp [DMat.zero]), except_ok_bind]
  have hC : ∃ C, vemL2Internal m k s.numInternal s.numBasis
      ⟨(DMat.zero s.numProj s.numBasis : DMat ℝ).rows, (DMat.zero s.numProj s.numBasis : DMat ℝ).cols, fun i j =>
        if s.numProj - (s.numProj - s.numInternal) ≤ i ∧ i < s.numProj - (s.numProj - s.numInternal) + (s.numProj - s.numInternal) ∧ 0 ≤ j ∧ j < 0 + s.numBasis then
          ∑ l ∈ Finset.range s.H.cols, s.H.ent (s.H.rows - (s.numProj - s.numInternal) + (i - (s.numProj - (s.numProj - s.numInternal)))) (0 + l) * X.ent l (j - 0)
        else (DMat.zero s.numProj s.numBasis : DMat ℝ).ent i j⟩ = .ok C ∧ C.rows = tri (k + 1) ∧ C.cols = bnd.points.length + tri (k - 1) ∧
        ∀ v : Nat → ℝ, ∀ i < tri (k + 1), ∑ b ∈ Finset.range (bnd.points.length + tri (k - 1)), C.ent i b * v b = rhsL2 k bnd.points.length c h m internal X v i := by
    have hlow : ∀ i < tri (k + 1), tri (k - 1) ≤ i → ∀ b < bnd.points.length + tri (k - 1),
        (if s.numProj - (s.numProj - s.numInternal) ≤ i ∧ i < s.numProj - (s.numProj - s.numInternal) + (s.numProj - s.numInternal) ∧ 0 ≤ b ∧ b < 0 + s.numBasis then
          ∑ l ∈ Finset.range s.H.cols, s.H.ent (s.H.rows - (s.numProj - s.numInternal) + (i - (s.numProj - (s.numProj - s.numInternal)))) (0 + l) * X.ent l (b - 0)
        else (DMat.zero s.numProj s.numBasis : DMat ℝ).ent i b)
        = ∑ l ∈ Finset.range (tri (k + 1)), quadLin internal.points internal.weights (basisPoly k c h i * basisPoly k c h l) * X.ent l b := by
      intro i hi hi1 b hbb
      rw [if_pos (by rw [hs.numProj, hs.numInternal, hb]; omega), hs.hCols]
      refine Finset.sum_congr rfl fun l hl => ?_
      rw [show s.H.rows - (s.numProj - s.numInternal) + (i - (s.numProj - (s.numProj - s.numInternal))) = i by
        rw [hs.hRows, hs.numProj, hs.numInternal]; omega, Nat.zero_add, Nat.sub_zero, hs.hEnt i hi l (Finset.mem_range.1 hl)]
    have happ : ∀ (v : Nat → ℝ) (C : DMat ℝ) (i : Nat), (∀ b < bnd.points.length + tri (k - 1), C.ent i b
        = ∑ l ∈ Finset.range (tri (k + 1)), quadLin internal.points internal.weights (basisPoly k c h i * basisPoly k c h l) * X.ent l b) → tri (k - 1) ≤ i →
        ∑ b ∈ Finset.range (bnd.points.length + tri (k - 1)), C.ent i b * v b = rhsL2 k bnd.points.length c h m internal X v i := by
      intro v C i hCe hi1
      rw [rhsL2, if_neg (by omega), quadLin_combo]
      simp only [Finset.mul_sum]
      rw [Finset.sum_comm]
      refine Finset.sum_congr rfl fun b hbb => ?_
      rw [hCe b (Finset.mem_range.1 hbb), Finset.sum_mul]
      exact Finset.sum_congr rfl fun l _ => by ring
    unfold vemL2Internal
    by_cases h1 : 1 < k
    · rw [if_pos h1, DMat.assign_ok _ _ _ _ _ _ (by rfl) (by rfl) (by simp only [DMat.zero]; rw [hs.numProj, hs.numInternal]; omega)
        (by simp only [DMat.zero]; omega), except_ok_bind,
        DMat.assign_ok _ _ _ _ _ _ (by rfl) (by rfl) (by simp only [DMat.zero]; rw [hs.numProj, hs.numInternal]; omega)
        (by simp only [DMat.zero]; rw [hb, hs.numInternal]; omega)]
      refine ⟨_, rfl, hs.numProj, hb, ?_⟩
      intro v i hi
      by_cases hi1 : i < tri (k - 1)
      · rw [rhsL2, if_pos hi1, sum_split, Finset.sum_eq_zero, zero_add, Finset.sum_eq_single i]
        · refine congrArg (· * _) ?_
          refine (if_pos ?_).trans ?_
          · simp only [DMat.zero, hb, hs.numInternal]
            omega
          · simp only [DMat.smul, DMat.identity, DMat.zero, Nat.sub_zero, hb, hs.numInternal]
            rw [if_pos (by omega), mul_one]
        · intro l hl hne
          refine mul_eq_zero_of_left ?_ _
          have hl := Finset.mem_range.1 hl
          refine (if_pos ?_).trans ?_
          · simp only [DMat.zero, hb, hs.numInternal]
            omega
          · simp only [DMat.smul, DMat.identity, DMat.zero, Nat.sub_zero, hb, hs.numInternal]
            rw [if_neg (by omega), mul_zero]
        · intro hn
          exact absurd (Finset.mem_range.2 hi1) hn
        · intro b hbb
          have hbb := Finset.mem_range.1 hbb
          refine mul_eq_zero_of_left ?_ _
          refine (if_neg ?_).trans ?_
          · simp only [DMat.zero, hb, hs.numInternal]
            omega
          refine (if_pos ?_).trans ?_
          · simp only [hb, hs.numInternal]
            omega
          · rfl
      · refine happ v _ i ?_ (by omega)
        intro b hbb
        refine (if_neg ?_).trans ((if_neg ?_).trans (hlow i hi (by omega) b hbb))
        · rw [hs.numInternal]
          omega
        · rw [hs.numInternal]
          omega
    · rw [if_neg h1]
      refine ⟨_, rfl, hs.numProj, hb, ?_⟩
      intro v i hi
      have h0 : tri (k - 1) = 0 := by rw [show k - 1 = 0 by omega]; rfl
      exact happ v _ i (fun b hbb => hlow i hi (by omega) b hbb) (by omega)
  obtain ⟨C, hCe, hCr, hCc, hCv⟩ := hC
  dsimp only
  rw [hCe, except_ok_bind, DMat.block_ok _ _ _ _ _ (by rw [hs.hRows, hs.nkm1]; omega) (by rw [hs.hCols, hs.nkm1]; omega), except_ok_bind,
    DMat.block_ok _ _ _ _ _ (by rw [hCr, hs.nkm1]; omega) (by omega), except_ok_bind]
  have hkk : k - 1 + 1 = k := by omega
  obtain ⟨z1, z2, z3⟩ := gram_solve hs hd hh hl le_rfl s.H C hs.hRows hs.hCols (fun _ _ _ _ => rfl) hCr
  obtain ⟨y1, y2, y3⟩ := gram_solve hs hd hh hl (show k - 1 ≤ k by omega) ⟨s.nkm1, s.nkm1, fun i j => s.H.ent (0 + i) (0 + j)⟩
    ⟨s.nkm1, C.cols, fun i j => C.ent (0 + i) (0 + j)⟩ (by rw [hkk]; exact hs.nkm1) (by rw [hkk]; exact hs.nkm1) (fun i _ j _ => by simp) (by rw [hkk]; exact hs.nkm1)
  rw [hkk] at y1 y3
  dsimp only at y2 y3
  refine ⟨C, _, _, rfl, ⟨y1, y2.trans hCc, z1, z2.trans hCc, ?_, ?_⟩, hCr, hCc, hCv⟩
  · intro v i hi
    have := y3 v i hi
    rw [hCc] at this ⊢
    rw [this, ← hCv v i (by omega)]
    simp only [Nat.zero_add]
  · intro v i hi
    have := z3 v i hi
    rw [hCc] at this
    rw [this, ← hCv v i hi]

/-- The projector of one derivative. -/
structure DerOk (k L : Nat) (c : ℝ × ℝ) (h m : ℝ) (internal : Rule (ℝ × ℝ) ℝ) (points : List (ℝ × ℝ)) (wn : List ℝ) (d : Fin 2) (E Y : DMat ℝ) : Prop where
  eRows : E.rows = tri k
  eCols : E.cols = L + tri (k - 1)
  yRows : Y.rows = tri k
  yCols : Y.cols = L + tri (k - 1)
  bnd : ∀ i < tri k, ∀ (b : Nat) (p : ℝ × ℝ), points[b]? = some p → E.ent i b = wn.getD b 0 * ev2 (basisPoly k c h i) p
  int : ∀ i < tri k, ∀ l < tri (k - 1), E.ent i (L + l) = -(m / h) * ((compute mono2 k).der d i l : ℝ)
  yEq : ∀ v : Nat → ℝ, ∀ i < tri k, quadLin internal.points internal.weights (basisPoly k c h i *
    combo k c h (tri k) fun j => ∑ b ∈ Finset.range (L + tri (k - 1)), Y.ent j b * v b) = ∑ b ∈ Finset.range (L + tri (k - 1)), E.ent i b * v b

theorem vemDer_ok {n : Nat} {s : VemInit2D ℝ} (hs : InitOk k n c h internal bnd.points s) (hd : Discrete k internal bnd) (hk : 1 ≤ k) (hh : h ≠ 0)
    (hL : n + (k - 1) * n = bnd.points.length) {llt : Solver ℝ} (hl : SolvesPosDef llt) (wn : List ℝ) (hw : wn.length = bnd.points.length) (d : Fin 2) :
    ∃ E Y, vemDerProjector llt k s m h wn ⟨s.numProj, s.numProj, fun i j => ((compute mono2 k).der d i j : ℝ)⟩ = .ok (E, Y) ∧
      DerOk k bnd.points.length c h m internal bnd.points wn d E Y := by
  have hk1 : tri (k - 1) ≤ tri k := tri_le (by omega)
  have hk2 : tri k ≤ tri (k + 1) := tri_le (by omega)
  have hb : s.numBasis = bnd.points.length + tri (k - 1) := by rw [hs.numBasis, hL]
  have hkk : k - 1 + 1 = k := by omega
  unfold vemDerProjector
  rw [DMat.block_ok _ _ _ _ _ (by omega) (by rw [hs.vanderBnd.cols, hs.nkm1]; omega), except_ok_bind,
    DMat.mulDiag_ok _ _ (by rw [hw]; exact hs.vanderBnd.rows), except_ok_bind,
    DMat.assign_ok _ _ _ _ _ _ (by rfl) (by rw [hs.numVertex, hs.numEdge, hL]; exact hs.vanderBnd.rows) (by simp [DMat.zero])
      (by simp only [DMat.zero]; rw [hs.numVertex, hs.numEdge, hL, hb]; omega), except_ok_bind]
  have hval : ∀ i < tri k, ∀ (b : Nat) (p : ℝ × ℝ), bnd.points[b]? = some p →
      (if 0 ≤ i ∧ i < 0 + s.nkm1 ∧ 0 ≤ b ∧ b < 0 + (s.numVertex + s.numEdge) then
        (DMat.tr ⟨s.vanderBnd.rows, s.nkm1, fun i j => s.vanderBnd.ent (0 + i) (0 + j)⟩).ent (i - 0) (b - 0) * wn.getD (b - 0) 0
        else (DMat.zero s.nkm1 s.numBasis : DMat ℝ).ent i b) = wn.getD b 0 * ev2 (basisPoly k c h i) p := by
    intro i hi b p hb'
    have hbl := (List.getElem?_eq_some_iff.1 hb').1
    rw [if_pos (by rw [hs.nkm1, hs.numVertex, hs.numEdge, hL]; omega)]
    simp only [DMat.tr, Nat.zero_add, Nat.sub_zero]
    rw [hs.vanderBnd.ent b p hb' i (by omega)]
    ring
  by_cases h1 : 1 < k
  · rw [if_pos h1, DMat.block_ok _ _ _ _ _ (by dsimp only; rw [hs.nkm1, hs.numProj]; omega) (by dsimp only; rw [hs.numInternal, hs.numProj]; omega), except_ok_bind,
      DMat.assign_ok _ _ _ _ _ _ (by rfl) (by rfl) (by omega) (by simp only [DMat.zero]; rw [hb, hs.numInternal]; omega), except_ok_bind,
      DMat.block_ok _ _ _ _ _ (by rw [hs.hRows, hs.nkm1]; omega) (by rw [hs.hCols, hs.nkm1]; omega), except_ok_bind]
    have G := gram_solve hs hd hh hl (show k - 1 ≤ k by omega) ⟨s.nkm1, s.nkm1, fun i j => s.H.ent (0 + i) (0 + j)⟩
    rw [hkk] at G
    refine ⟨_, _, rfl, hs.nkm1, hb, ?_, ?_, ?_, ?_, ?_⟩
    · exact (G _ hs.nkm1 hs.nkm1 (fun i _ j _ => by simp) (by exact hs.nkm1)).1
    · exact (G _ hs.nkm1 hs.nkm1 (fun i _ j _ => by simp) (by exact hs.nkm1)).2.1.trans hb
    · intro i hi b p hb'
      have hbl := (List.getElem?_eq_some_iff.1 hb').1
      refine (if_neg ?_).trans (hval i hi b p hb')
      simp only [DMat.zero]
      rw [hb, hs.numInternal]
      omega
    · intro i hi l hl'
      refine (if_pos ?_).trans ?_
      · simp only [DMat.zero]
        rw [hb, hs.numInternal, hs.nkm1]
        omega
      · simp only [DMat.smul, DMat.zero]
        rw [show 0 + (bnd.points.length + l - (s.numBasis - s.numInternal)) = l by rw [hb, hs.numInternal]; omega, Nat.sub_zero, Nat.zero_add]
    · rw [← hb]
      exact (G _ hs.nkm1 hs.nkm1 (fun i _ j _ => by simp) (by exact hs.nkm1)).2.2
  · rw [if_neg h1, except_ok_bind, DMat.block_ok _ _ _ _ _ (by rw [hs.hRows, hs.nkm1]; omega) (by rw [hs.hCols, hs.nkm1]; omega), except_ok_bind]
    have G := gram_solve hs hd hh hl (show k - 1 ≤ k by omega) ⟨s.nkm1, s.nkm1, fun i j => s.H.ent (0 + i) (0 + j)⟩
    rw [hkk] at G
    refine ⟨_, _, rfl, hs.nkm1, hb, ?_, ?_, ?_, ?_, ?_⟩
    · exact (G _ hs.nkm1 hs.nkm1 (fun i _ j _ => by simp) (by exact hs.nkm1)).1
    · exact (G _ hs.nkm1 hs.nkm1 (fun i _ j _ => by simp) (by exact hs.nkm1)).2.1.trans hb
    · intro i hi b p hb'
      exact hval i hi b p hb'
    · intro i hi l hl'
      rw [show k - 1 = 0 by omega] at hl'
      simp [tri] at hl'
    · rw [← hb]
      exact (G _ hs.nkm1 hs.nkm1 (fun i _ j _ => by simp) (by exact hs.nkm1)).2.2

end

end PolyDiM
