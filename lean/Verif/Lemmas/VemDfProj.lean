import Verif.Lemmas.VemDfAct

/-!
# Lemmas: the projectors of the divergence-free virtual element
-/

namespace PolyDiM

open Spec MvPolynomial MeasureTheory

variable {k m n : Nat} {V : Nat → ℝ × ℝ} {c : ℝ × ℝ} {h μ : ℝ} {g : GData ℝ} {tris : List (Tri2 ℝ)} {internal : Rule (ℝ × ℝ) ℝ} {bnd dofs : EdgesRule ℝ}
  {s : DfInit2D ℝ} {lu llt : Solver ℝ}

/-! ## The moments of low degree -/

theorem decCoef_ne {d a b : Nat} (hd : d < 2) (hne : decCoef d a b ≠ 0) : 0 < a + b ∧ tri (a + b - 1) ≤ swirlIdx d a b ∧ swirlIdx d a b < tri (a + b) := by
  unfold decCoef at hne
  unfold swirlIdx
  rcases (by omega : d = 0 ∨ d = 1) with rfl | rfl
  · rw [if_pos rfl] at hne ⊢
    have hb : 0 < b := Nat.pos_of_ne_zero fun h0 => hne (by simp [h0])
    refine ⟨by omega, ?_, ?_⟩
    · rw [rank2_eq, show a + (b - 1) = a + b - 1 by omega]
      omega
    · conv_rhs => rw [show a + b = a + b - 1 + 1 by omega]
      rw [rank2_lt_iff]
      omega
  · rw [if_neg one_ne_zero] at hne ⊢
    have ha : 0 < a := Nat.pos_of_ne_zero fun h0 => hne (by simp [h0])
    refine ⟨by omega, ?_, ?_⟩
    · rw [rank2_eq, show a - 1 + b = a + b - 1 by omega]
      omega
    · conv_rhs => rw [show a + b = a + b - 1 + 1 by omega]
      rw [rank2_lt_iff]
      omega

theorem c_identity (hh : h ≠ 0) {a b : Nat} (hab : a + b ≤ k) {d : Nat} (hd : d < 2) (F : Nat → MvPolynomial (Fin 2) ℝ →ₗ[ℝ] ℝ) :
    h * (1 / ((a : ℝ) + b + 1) * (F 0 (pderiv 0 (basisPoly (k + 1) c h (gradIdx d a b))) + F 1 (pderiv 1 (basisPoly (k + 1) c h (gradIdx d a b)))))
      + decCoef d a b * (F 0 (gPoly k c h 0 (swirlIdx d a b)) + F 1 (gPoly k c h 1 (swirlIdx d a b))) = F d (basisPoly k c h (rank2 [a, b])) := by
  unfold gPoly
  rw [if_pos rfl, if_neg one_ne_zero]
  exact dec_identity c h hh hab hd F

/-- The moments of degree at most `k - 2`. -/
theorem c_low (hh : h ≠ 0) (hk : 2 ≤ k) {d : Nat} (hd : d < 2) {A : DMat ℝ} (hA : COk k m n V c h tris internal bnd dofs d A) {u : ℝ × ℝ → ℝ × ℝ}
    {hu : ∀ d : Nat, IntegrableOn (fun p => pick (u p) d) (unionOf tris)} {P : MvPolynomial (Fin 2) ℝ} {v : Nat → ℝ}
    (hv : VelOk k m n V c h tris internal bnd dofs u hu P v) {i : Nat} (hi : i < tri (k - 1)) : act A A.cols v i = intU tris (hu d) (basisPoly k c h i) := by
  have hle : tri (k - 1) ≤ tri (k + 1) := tri_le (by omega)
  obtain ⟨a, b, _, hab, rfl⟩ := exps2_get k (j := i) (by rw [num2_eq]; omega)
  have hab2 : a + b ≤ k - 2 := by rwa [show k - 1 = k - 2 + 1 by omega, rank2_lt_iff] at hi
  rw [hA.act u hu P v hv a b hab, ← c_identity hh hab hd fun d => intU tris (hu d)]
  congr 1
  by_cases h0 : decCoef d a b = 0
  · rw [h0]
    simp
  · rw [if_pos]
    have := (decCoef_ne hd h0).2.2
    have := tri_le hab2
    omega

theorem act_block {A : DMat ℝ} {N M : Nat} (v : Nat → ℝ) (i : Nat) : act ⟨M, N, fun i j => A.ent (0 + i) (0 + j)⟩ N v i = act A N v i := by
  unfold act
  simp only [zero_add]

/-- A window of columns. -/
theorem sum_window {N o L : Nat} (hN : o + L ≤ N) (f v : Nat → ℝ) :
    ∑ b ∈ Finset.range N, (if o ≤ b ∧ b < o + L then f (b - o) else 0) * v b = ∑ b ∈ Finset.range L, f b * v (o + b) := by
  obtain ⟨r, rfl⟩ := Nat.exists_eq_add_of_le hN
  rw [show o + L + r = o + (L + r) by omega, sum_split o, sum_split L, Finset.sum_eq_zero, zero_add, Finset.sum_eq_zero (s := Finset.range r), add_zero]
  · refine Finset.sum_congr rfl fun b hb => ?_
    rw [if_pos (by have := Finset.mem_range.1 hb; omega), Nat.add_sub_cancel_left]
  · intro b _
    rw [if_neg (by omega), zero_mul]
  · intro b hb
    rw [if_neg (by have := Finset.mem_range.1 hb; omega), zero_mul]

/-! ## Matrix operations, with the entries apart -/

theorem mul_spec {A B : DMat ℝ} (e : A.cols = B.rows) : ∃ X, A.mul B = .ok X ∧ X.rows = A.rows ∧ X.cols = B.cols ∧ ∀ i j, X.ent i j = ∑ t ∈ Finset.range A.cols, A.ent i t * B.ent t j :=
  ⟨_, DMat.mul_ok A B e, rfl, rfl, fun _ _ => rfl⟩

theorem mulDiag_spec {A : DMat ℝ} {w : List ℝ} (e : A.cols = w.length) : ∃ X, A.mulDiag w = .ok X ∧ X.rows = A.rows ∧ X.cols = A.cols ∧ ∀ i j, X.ent i j = A.ent i j * w.getD j 0 :=
  ⟨_, DMat.mulDiag_ok A w e, rfl, rfl, fun _ _ => rfl⟩

theorem add_spec {A B : DMat ℝ} (e : A.rows = B.rows) (f : A.cols = B.cols) : ∃ X, A.add B = .ok X ∧ X.rows = A.rows ∧ X.cols = A.cols ∧ ∀ i j, X.ent i j = A.ent i j + B.ent i j :=
  ⟨_, DMat.add_ok A B e f, rfl, rfl, fun _ _ => rfl⟩

theorem block_spec {A : DMat ℝ} {r c m n : Nat} (e : r + m ≤ A.rows) (f : c + n ≤ A.cols) :
    ∃ X, A.block r c m n = .ok X ∧ X.rows = m ∧ X.cols = n ∧ ∀ i j, X.ent i j = A.ent (r + i) (c + j) :=
  ⟨_, DMat.block_ok A _ _ _ _ e f, rfl, rfl, fun _ _ => rfl⟩

theorem assign_spec {A : DMat ℝ} {r c m n : Nat} {X : DMat ℝ} (h1 : X.rows = m) (h2 : X.cols = n) (h3 : r + m ≤ A.rows) (h4 : c + n ≤ A.cols) :
    ∃ Y, A.assign r c m n X = .ok Y ∧ Y.rows = A.rows ∧ Y.cols = A.cols
      ∧ ∀ i j, Y.ent i j = if r ≤ i ∧ i < r + m ∧ c ≤ j ∧ j < c + n then X.ent (i - r) (j - c) else A.ent i j :=
  ⟨_, DMat.assign_ok A _ _ _ _ X h1 h2 h3 h4, rfl, rfl, fun _ _ => rfl⟩

theorem addBlock_spec {A : DMat ℝ} {r c m n : Nat} {X : DMat ℝ} (h1 : X.rows = m) (h2 : X.cols = n) (h3 : r + m ≤ A.rows) (h4 : c + n ≤ A.cols) :
    ∃ Y, A.addBlock r c m n X = .ok Y ∧ Y.rows = A.rows ∧ Y.cols = A.cols
      ∧ ∀ i j, Y.ent i j = if r ≤ i ∧ i < r + m ∧ c ≤ j ∧ j < c + n then A.ent i j + X.ent (i - r) (j - c) else A.ent i j :=
  ⟨_, addBlock_ok A _ _ _ _ X h1 h2 h3 h4, rfl, rfl, fun _ _ => rfl⟩

/-! ## The energy projection -/

structure GOk (k : Nat) (c : ℝ × ℝ) (h μ : ℝ) (internal : Rule (ℝ × ℝ) ℝ) (G : DMat ℝ) : Prop where
  rows : G.rows = tri (k + 1)
  cols : G.cols = tri (k + 1)
  ent : ∀ i < tri (k + 1), 0 < i → ∀ j < tri (k + 1), G.ent i j =
    quadLin internal.points internal.weights (pderiv 0 (basisPoly k c h i) * pderiv 0 (basisPoly k c h j))
      + quadLin internal.points internal.weights (pderiv 1 (basisPoly k c h i) * pderiv 1 (basisPoly k c h j))
  first : ∀ j < tri (k + 1), G.ent 0 j = 1 / μ * quadLin internal.points internal.weights (basisPoly k c h j)

theorem dfG_ok (hs : DfInitOk k m n V c h internal bnd.points dofs.points s) (hw : internal.weights.length = internal.points.length) :
    ∃ G, dfG μ s internal.weights = .ok G ∧ GOk k c h μ internal G := by
  obtain ⟨AX, X, h1, h2, h3, h4, h5⟩ := gram_ok internal.points internal.weights hw _ _ _ (hs.vIntD 0)
  obtain ⟨AY, Y, g1, g2, g3, g4, g5⟩ := gram_ok internal.points internal.weights hw _ _ _ (hs.vIntD 1)
  have hp := tri_pos (show 0 < k + 1 by omega)
  unfold dfG vemGradGrad
  simp only [pick, Fin.val_zero, Fin.val_one, if_true, one_ne_zero, if_false] at h1 h2 g1 g2
  rw [h1, except_ok_bind, h2, except_ok_bind, g1, except_ok_bind, g2, except_ok_bind, DMat.add_ok _ _ (h3.trans g3.symm) (h4.trans g4.symm), except_ok_bind,
    DMat.mul_ok _ _ (by dsimp only [DMat.smul, DMat.tr, DMat.col]; rw [hs.vInt.rows, hw]), except_ok_bind,
    DMat.assign_ok _ _ _ _ _ _ (by rfl) (by dsimp only [DMat.tr, DMat.smul]; rw [hs.vInt.cols, h4]) (by dsimp only; omega) (by dsimp only; omega)]
  refine ⟨_, rfl, h3, h4, ?_, ?_⟩
  · intro i hi h0 j hj
    dsimp only
    rw [if_neg (by omega), h5 i hi j hj, g5 i hi j hj]
  · intro j hj
    dsimp only [DMat.tr, DMat.smul, DMat.col]
    rw [if_pos (by omega), Nat.sub_zero, hs.vInt.rows, ← sum_quadLin internal.points internal.weights hw (fun l => s.vanderInt.ent l j) _ (fun l p hl => hs.vInt.ent l p hl j hj),
      Finset.mul_sum]
    exact Finset.sum_congr rfl fun l _ => by ring

theorem g_row {G : DMat ℝ} (hG : GOk k c h μ internal G) (x : Nat → ℝ) {i : Nat} (hi : i < tri (k + 1)) (hi0 : 0 < i) :
    ∑ j ∈ Finset.range (tri (k + 1)), G.ent i j * x j
      = quadLin internal.points internal.weights (pderiv 0 (basisPoly k c h i) * pderiv 0 (combo k c h (tri (k + 1)) x))
        + quadLin internal.points internal.weights (pderiv 1 (basisPoly k c h i) * pderiv 1 (combo k c h (tri (k + 1)) x)) := by
  rw [quadLin_combo_pderiv, quadLin_combo_pderiv, ← Finset.sum_add_distrib]
  refine Finset.sum_congr rfl fun j hj => ?_
  rw [hG.ent i hi hi0 j (Finset.mem_range.1 hj)]
  ring

theorem g_first {G : DMat ℝ} (hG : GOk k c h μ internal G) (x : Nat → ℝ) :
    ∑ j ∈ Finset.range (tri (k + 1)), G.ent 0 j * x j = 1 / μ * quadLin internal.points internal.weights (combo k c h (tri (k + 1)) x) := by
  rw [quadLin_combo', Finset.mul_sum]
  exact Finset.sum_congr rfl fun j hj => by rw [hG.first j (Finset.mem_range.1 hj)]; ring

theorem g_injective (hd : Discrete k internal dofs) (hk : 1 ≤ k) (hh : h ≠ 0) (hμ : μ ≠ 0) {G : DMat ℝ} (hG : GOk k c h μ internal G) (x : Nat → ℝ)
    (hx : ∀ i < tri (k + 1), ∑ j ∈ Finset.range (tri (k + 1)), G.ent i j * x j = 0) : ∀ j < tri (k + 1), x j = 0 := by
  set q := combo k c h (tri (k + 1)) x with hq
  have hpos : 0 < tri (k + 1) := tri_pos (by omega)
  have hgrad : quadLin internal.points internal.weights (pderiv 0 q * pderiv 0 q) + quadLin internal.points internal.weights (pderiv 1 q * pderiv 1 q) = 0 := by
    have e : ∀ d : Fin 2, quadLin internal.points internal.weights (pderiv d q * pderiv d q)
        = ∑ i ∈ Finset.range (tri (k + 1)), quadLin internal.points internal.weights (pderiv d (basisPoly k c h i) * pderiv d q) * x i := by
      intro d
      conv_lhs => rw [hq, quadLin_combo_pderiv, ← hq]
      exact Finset.sum_congr rfl fun i _ => by rw [mul_comm (pderiv d q)]
    rw [e 0, e 1, ← Finset.sum_add_distrib]
    refine Finset.sum_eq_zero fun i hi => ?_
    rw [← add_mul]
    rcases Nat.eq_zero_or_pos i with rfl | hi0
    · rw [basisPoly_zero, ← C_1, pderiv_C, pderiv_C]
      simp
    · rw [← g_row hG x (Finset.mem_range.1 hi) hi0, hx i (Finset.mem_range.1 hi), zero_mul]
  have hdeg : ∀ d : Fin 2, (pderiv d q).totalDegree ≤ k := by
    intro d
    have := combo_pderiv_degree (k := k) (c := c) (h := h) d hk x
    rw [← hq] at this
    omega
  have h0 := hd.nonneg _ (hdeg 0)
  have h1 := hd.nonneg _ (hdeg 1)
  have z0 : pderiv 0 q = 0 := hd.definite _ (hdeg 0) (by linarith)
  have z1 : pderiv 1 q = 0 := hd.definite _ (hdeg 1) (by linarith)
  obtain ⟨a, ha⟩ := const_of_grad q z0 z1
  have hr := hx 0 hpos
  rw [g_first hG x, ← hq, ha] at hr
  have ha0 : a = 0 := by
    have e : quadLin internal.points internal.weights (C a) = a * quadLin internal.points internal.weights 1 := by rw [← quadLin_C_mul, mul_one]
    have hne : quadLin internal.points internal.weights 1 ≠ 0 := fun h1 => one_ne_zero (hd.definite 1 (by simp) (by rw [one_mul]; exact h1))
    rw [e] at hr
    exact (mul_eq_zero.1 ((mul_eq_zero.1 hr).resolve_left (one_div_ne_zero hμ))).resolve_right hne
  refine combo_ext (c := c) hh le_rfl (y := fun _ => 0) ?_
  rw [← hq, ha, ha0]
  unfold combo
  simp

structure BOk (k m n : Nat) (V : Nat → ℝ × ℝ) (c : ℝ × ℝ) (h μ : ℝ) (tris : List (Tri2 ℝ)) (internal : Rule (ℝ × ℝ) ℝ) (bnd dofs : EdgesRule ℝ) (d : Nat) (B : DMat ℝ) : Prop where
  rows : B.rows = tri (k + 1)
  cols : B.cols = 2 * dofs.points.length + (tri (k - 2) + (tri (m + 1) - 1))
  first : ∀ u hu P v, VelOk k m n V c h tris internal bnd dofs u hu P v → act B B.cols v 0 = 1 / μ * intU tris (hu d) 1
  other : ∀ u hu P v, VelOk k m n V c h tris internal bnd dofs u hu P v → ∀ i < tri (k + 1), 0 < i →
    act B B.cols v i = energyRhs tris (hu d) dofs (basisPoly k c h i)

/-- The sum that a row forms. -/
theorem b_sum (hs : DfInitOk k m n V c h internal bnd.points dofs.points s) (hd : Discrete k internal dofs) (hh : h ≠ 0) (hk : 2 ≤ k) {A : DMat ℝ} {d : Nat} (hdd : d < 2)
    (hA : COk k m n V c h tris internal bnd dofs d A) (u : ℝ × ℝ → ℝ × ℝ) (hu : ∀ d : Nat, IntegrableOn (fun p => pick (u p) d) (unionOf tris))
    (P : MvPolynomial (Fin 2) ℝ) (v : Nat → ℝ) (hv : VelOk k m n V c h tris internal bnd dofs u hu P v) (i : Nat) (hi : i < tri (k + 1)) :
    ∑ b ∈ Finset.range (2 * dofs.points.length + (tri (k - 2) + (tri (m + 1) - 1))), ((if i = 0 then 1 / μ * A.ent 0 b else 0)
          + (if d * dofs.points.length ≤ b ∧ b < d * dofs.points.length + dofs.points.length then
              s.vanderBndD.1.ent (b - d * dofs.points.length) i * dofs.nx.getD (b - d * dofs.points.length) 0
                + s.vanderBndD.2.ent (b - d * dofs.points.length) i * dofs.ny.getD (b - d * dofs.points.length) 0 else 0)
          + ∑ l ∈ Finset.range (tri (k - 1)), -1 / (h * h) * ((compute mono2 k).lap i l : ℝ) * A.ent l b) * v b
      = (if i = 0 then 1 / μ * intU tris (hu d) 1 else 0) + energyRhs tris (hu d) dofs (basisPoly k c h i) := by
  set L := dofs.points.length with hLdef
  have hp := tri_pos (show 0 < k - 1 by omega)
  have hdL : d * L + L ≤ 2 * L := by
    rcases (by omega : d = 0 ∨ d = 1) with rfl | rfl <;> omega
  have v0 := hs.vBndD 0
  have v1 := hs.vBndD 1
  simp only [pick, Fin.val_zero, Fin.val_one, if_true, one_ne_zero, if_false] at v0 v1
  have hlow : ∀ l < tri (k - 1), ∑ b ∈ Finset.range (2 * L + (tri (k - 2) + (tri (m + 1) - 1))), A.ent l b * v b = intU tris (hu d) (basisPoly k c h l) := by
    intro l hl
    have := c_low hh hk hdd hA hv hl
    rwa [act, hA.cols] at this
  simp only [add_mul, Finset.sum_add_distrib]
  have e1 : ∑ b ∈ Finset.range (2 * L + (tri (k - 2) + (tri (m + 1) - 1))), (if i = 0 then 1 / μ * A.ent 0 b else 0) * v b = if i = 0 then 1 / μ * intU tris (hu d) 1 else 0 := by
    by_cases h0 : i = 0
    · simp only [if_pos h0]
      rw [← basisPoly_zero k c h, ← hlow 0 hp, Finset.mul_sum]
      exact Finset.sum_congr rfl fun b _ => by ring
    · simp only [if_neg h0, zero_mul]
      exact Finset.sum_const_zero
  have hval : ∀ (b : Nat) (p : ℝ × ℝ), dofs.points[b]? = some p → v (d * L + b) = pick (u p) d := hv.value d hdd
  have e2 : ∑ b ∈ Finset.range (2 * L + (tri (k - 2) + (tri (m + 1) - 1))), (if d * L ≤ b ∧ b < d * L + L then s.vanderBndD.1.ent (b - d * L) i * dofs.nx.getD (b - d * L) 0
        + s.vanderBndD.2.ent (b - d * L) i * dofs.ny.getD (b - d * L) 0 else 0) * v b
      = quadU dofs.points dofs.nx (fun p => pick (u p) d) (pderiv 0 (basisPoly k c h i)) + quadU dofs.points dofs.ny (fun p => pick (u p) d) (pderiv 1 (basisPoly k c h i)) := by
    refine (sum_window (by omega) (fun b => s.vanderBndD.1.ent b i * dofs.nx.getD b 0 + s.vanderBndD.2.ent b i * dofs.ny.getD b 0) v).trans ?_
    rw [← sum_quadU dofs.points dofs.nx hd.xlen (fun b => s.vanderBndD.1.ent b i) (fun b => v (d * L + b)) _ _ (fun b p hb => v0.ent b p hb i hi) hval,
      ← sum_quadU dofs.points dofs.ny hd.ylen (fun b => s.vanderBndD.2.ent b i) (fun b => v (d * L + b)) _ _ (fun b p hb => v1.ent b p hb i hi) hval,
      ← Finset.sum_add_distrib]
    exact Finset.sum_congr rfl fun b _ => by ring
  have e3 : ∑ b ∈ Finset.range (2 * L + (tri (k - 2) + (tri (m + 1) - 1))), (∑ l ∈ Finset.range (tri (k - 1)), -1 / (h * h) * ((compute mono2 k).lap i l : ℝ) * A.ent l b) * v b
      = -(intU tris (hu d) (pderiv 0 (pderiv 0 (basisPoly k c h i))) + intU tris (hu d) (pderiv 1 (pderiv 1 (basisPoly k c h i)))) := by
    rw [← map_add, basisPoly_lap k c h (num2_eq k ▸ hi) hi le_rfl, lin_combo, ← Finset.sum_neg_distrib, Finset.sum_congr rfl fun b _ => Finset.sum_mul _ _ _, Finset.sum_comm]
    refine Finset.sum_congr rfl fun l hl => ?_
    rw [← hlow l (Finset.mem_range.1 hl), Finset.mul_sum, ← Finset.sum_neg_distrib]
    exact Finset.sum_congr rfl fun b _ => by ring
  rw [e1, e3, e2, energyRhs_apply]
  ring

theorem energyRhs_first {u : ℝ × ℝ → ℝ} (hu : IntegrableOn u (unionOf tris)) : energyRhs tris hu dofs (basisPoly k c h 0) = 0 := by
  have hz : ∀ d : Fin 2, pderiv d (basisPoly k c h 0) = 0 := by
    intro d
    rw [basisPoly_zero, ← C_1, pderiv_C]
  rw [energyRhs_apply]
  simp only [hz, map_zero, sub_zero, add_zero]

theorem dfB_ok (hs : DfInitOk k m n V c h internal bnd.points dofs.points s) (hd : Discrete k internal dofs) (hh : h ≠ 0) (hk : 2 ≤ k) {A : DMat ℝ} {d : Nat} (hdd : d < 2)
    (hA : COk k m n V c h tris internal bnd dofs d A) {Ckm2 : DMat ℝ} (hCr : Ckm2.rows = tri (k - 1)) (hCc : Ckm2.cols = A.cols) (hCe : ∀ i j, Ckm2.ent i j = A.ent i j) :
    ∃ B, dfB (compute mono2 k) μ h s dofs Ckm2 d = .ok B ∧ BOk k m n V c h μ tris internal bnd dofs d B := by
  set L := dofs.points.length with hL
  have hp := tri_pos (show 0 < k - 1 by omega)
  have hp' := tri_pos (show 0 < k + 1 by omega)
  have hle : tri (k - 1) ≤ tri (k + 1) := tri_le (by omega)
  have hnum : (compute mono2 k).num = tri (k + 1) := num2_eq k
  have hdL : d * L + L ≤ 2 * L := by
    rcases (by omega : d = 0 ∨ d = 1) with rfl | rfl <;> omega
  have hAc := hA.cols
  rw [← hL] at hAc
  have v0 := hs.vBndD 0
  have v1 := hs.vBndD 1
  simp only [pick, Fin.val_zero, Fin.val_one, if_true, one_ne_zero, if_false] at v0 v1
  obtain ⟨BX, x1, x2, x3, x4⟩ := mulDiag_spec (A := s.vanderBndD.1.tr) (w := dofs.nx) (by dsimp only [DMat.tr]; rw [v0.rows, hd.xlen])
  obtain ⟨BY, y1, y2, y3, y4⟩ := mulDiag_spec (A := s.vanderBndD.2.tr) (w := dofs.ny) (by dsimp only [DMat.tr]; rw [v1.rows, hd.ylen])
  obtain ⟨BB, z1, z2, z3, z4⟩ := add_spec (A := BX) (B := BY) (by rw [x2, y2]; dsimp only [DMat.tr]; rw [v0.cols, v1.cols])
    (by rw [x3, y3]; dsimp only [DMat.tr]; rw [v0.rows, v1.rows])
  have hBr : BB.rows = tri (k + 1) := z2.trans (x2.trans v0.cols)
  have hBc : BB.cols = L := z3.trans (x3.trans v0.rows)
  obtain ⟨R, r1, r2, r3, r4⟩ := block_spec (A := Ckm2) (r := 0) (c := 0) (m := 1) (n := Ckm2.cols) (by omega) (by omega)
  obtain ⟨B0, b1, b2, b3, b4⟩ := assign_spec (A := DMat.zero (tri (k + 1)) (2 * L + (tri (k - 2) + (tri (m + 1) - 1)))) (r := 0) (c := 0) (m := 1)
    (n := 2 * L + (tri (k - 2) + (tri (m + 1) - 1))) (X := DMat.smul (1 / μ) R) r2 (by show R.cols = _; rw [r3, hCc, hAc]) (by dsimp only [DMat.zero]; omega) (by dsimp only [DMat.zero]; omega)
  have hb2 : B0.rows = tri (k + 1) := b2
  have hb3 : B0.cols = 2 * L + (tri (k - 2) + (tri (m + 1) - 1)) := b3
  obtain ⟨B1, c1, c2, c3, c4⟩ := addBlock_spec (A := B0) (r := 0) (c := d * L) (m := B0.rows) (n := L) (X := BB) (by rw [hBr, hb2]) hBc (by omega) (by omega)
  obtain ⟨T, t1, t2, t3, t4⟩ := block_spec (A := ⟨(compute mono2 k).num, (compute mono2 k).num, fun i j => ((compute mono2 k).lap i j : ℝ)⟩) (r := 0) (c := 0) (m := tri (k + 1))
    (n := tri (k - 1)) (by dsimp only; omega) (by dsimp only; omega)
  obtain ⟨X, X1, X2, X3, X4⟩ := mul_spec (A := DMat.smul (-1 / (h * h)) T) (B := Ckm2) (by show T.cols = _; rw [t3, hCr])
  have hX2 : X.rows = tri (k + 1) := X2.trans t2
  obtain ⟨B, e1, e2, e3, e4⟩ := add_spec (A := B1) (B := X) (by omega) (by omega)
  have hBrows : B.rows = tri (k + 1) := by omega
  have hBcols : B.cols = 2 * L + (tri (k - 2) + (tri (m + 1) - 1)) := by omega
  have hent : ∀ i < tri (k + 1), ∀ b < 2 * L + (tri (k - 2) + (tri (m + 1) - 1)), B.ent i b = (if i = 0 then 1 / μ * A.ent 0 b else 0)
      + (if d * L ≤ b ∧ b < d * L + L then s.vanderBndD.1.ent (b - d * L) i * dofs.nx.getD (b - d * L) 0 + s.vanderBndD.2.ent (b - d * L) i * dofs.ny.getD (b - d * L) 0 else 0)
      + ∑ l ∈ Finset.range (tri (k - 1)), -1 / (h * h) * ((compute mono2 k).lap i l : ℝ) * A.ent l b := by
    intro i hi b hb
    have hX : X.ent i b = ∑ l ∈ Finset.range (tri (k - 1)), -1 / (h * h) * ((compute mono2 k).lap i l : ℝ) * A.ent l b := by
      rw [X4]
      dsimp only [DMat.smul]
      rw [t3]
      refine Finset.sum_congr rfl fun l _ => ?_
      rw [t4, hCe, zero_add, zero_add]
    have h0 : B0.ent i b = if i = 0 then 1 / μ * A.ent 0 b else 0 := by
      rw [b4]
      by_cases h0 : i = 0
      · rw [if_pos (by omega), if_pos h0]
        dsimp only [DMat.smul]
        rw [r4, hCe, h0]
        simp only [zero_add, Nat.sub_zero]
      · rw [if_neg (by omega), if_neg h0]
        rfl
    rw [e4, hX, c4]
    congr 1
    by_cases hw : d * L ≤ b ∧ b < d * L + L
    · rw [if_pos ⟨by omega, by omega, hw⟩, if_pos hw, h0, z4, x4, y4, Nat.sub_zero]
      rfl
    · rw [if_neg (fun hc => hw hc.2.2), if_neg hw, h0, add_zero]
  have hsum : ∀ (v : Nat → ℝ), ∀ i < tri (k + 1), act B B.cols v i = ∑ b ∈ Finset.range (2 * L + (tri (k - 2) + (tri (m + 1) - 1))), ((if i = 0 then 1 / μ * A.ent 0 b else 0)
      + (if d * L ≤ b ∧ b < d * L + L then s.vanderBndD.1.ent (b - d * L) i * dofs.nx.getD (b - d * L) 0 + s.vanderBndD.2.ent (b - d * L) i * dofs.ny.getD (b - d * L) 0 else 0)
      + ∑ l ∈ Finset.range (tri (k - 1)), -1 / (h * h) * ((compute mono2 k).lap i l : ℝ) * A.ent l b) * v b := by
    intro v i hi
    rw [act, hBcols]
    exact Finset.sum_congr rfl fun b hb => by rw [hent i hi b (Finset.mem_range.1 hb)]
  refine ⟨B, ?_, hBrows, hBcols, ?_, ?_⟩
  · unfold dfB
    rw [hs.nv, hs.nk, hs.nkm2, hs.numBasis, ← hL, x1, except_ok_bind, y1, except_ok_bind, z1, except_ok_bind, r1, except_ok_bind, b1, except_ok_bind, c1, except_ok_bind, t1,
      except_ok_bind, X1, except_ok_bind, e1]
  · intro u hu P v hv
    rw [hsum v 0 hp', b_sum hs hd hh hk hdd hA u hu P v hv 0 hp', if_pos rfl, energyRhs_first, add_zero]
  · intro u hu P v hv i hi h0
    rw [hsum v i hi, b_sum hs hd hh hk hdd hA u hu P v hv i hi, if_neg (by omega), zero_add]

/-- The energy projection of a component. -/
structure NOk (k m n : Nat) (V : Nat → ℝ × ℝ) (c : ℝ × ℝ) (h : ℝ) (tris : List (Tri2 ℝ)) (internal : Rule (ℝ × ℝ) ℝ) (bnd dofs : EdgesRule ℝ) (d : Nat) (X : DMat ℝ) : Prop where
  rows : X.rows = tri (k + 1)
  cols : X.cols = 2 * dofs.points.length + (tri (k - 2) + (tri (m + 1) - 1))
  mean : ∀ u hu P v, VelOk k m n V c h tris internal bnd dofs u hu P v →
    quadLin internal.points internal.weights (combo k c h (tri (k + 1)) (act X X.cols v)) = intU tris (hu d) 1
  energy : ∀ u hu P v, VelOk k m n V c h tris internal bnd dofs u hu P v → ∀ x : Nat → ℝ,
    quadLin internal.points internal.weights (pderiv 0 (combo k c h (tri (k + 1)) x) * pderiv 0 (combo k c h (tri (k + 1)) (act X X.cols v)))
      + quadLin internal.points internal.weights (pderiv 1 (combo k c h (tri (k + 1)) x) * pderiv 1 (combo k c h (tri (k + 1)) (act X X.cols v)))
      = energyRhs tris (hu d) dofs (combo k c h (tri (k + 1)) x)

theorem nabla_ok (hd : Discrete k internal dofs) (hk : 1 ≤ k) (hh : h ≠ 0) (hμ : μ ≠ 0) (hlu : SolvesRegular lu) {G B : DMat ℝ} (hG : GOk k c h μ internal G) {d : Nat}
    (hB : BOk k m n V c h μ tris internal bnd dofs d B) : NOk k m n V c h tris internal bnd dofs d (lu G B) := by
  have S : Solves G B (lu G B) := hlu G B (hG.rows.trans hG.cols.symm) (hB.rows.trans hG.rows.symm) (by
    rw [hG.rows, hG.cols]
    exact fun x hx => g_injective hd hk hh hμ hG x hx)
  have hpos : 0 < tri (k + 1) := tri_pos (by omega)
  have hrow : ∀ v : Nat → ℝ, ∀ i < tri (k + 1), ∑ j ∈ Finset.range (tri (k + 1)), G.ent i j * act (lu G B) (lu G B).cols v j = act B B.cols v i := by
    intro v i hi
    have := solves_apply S v (i := i) (by rw [hG.rows]; exact hi)
    rw [hG.cols, ← S.2.1] at this
    rw [act, ← S.2.1, ← this]
    rfl
  refine ⟨S.1.trans hG.cols, S.2.1.trans hB.cols, ?_, ?_⟩
  · intro u hu P v hv
    have h1 := hrow v 0 hpos
    rw [g_first hG, hB.first u hu P v hv] at h1
    exact mul_left_cancel₀ (one_div_ne_zero hμ) h1
  · intro u hu P v hv x
    set q := combo k c h (tri (k + 1)) (act (lu G B) (lu G B).cols v) with hq
    have e : ∀ d : Fin 2, quadLin internal.points internal.weights (pderiv d (combo k c h (tri (k + 1)) x) * pderiv d q)
        = ∑ i ∈ Finset.range (tri (k + 1)), x i * quadLin internal.points internal.weights (pderiv d (basisPoly k c h i) * pderiv d q) := by
      intro d
      rw [mul_comm, quadLin_combo_pderiv]
      exact Finset.sum_congr rfl fun i _ => by rw [mul_comm, mul_comm (pderiv d q)]
    rw [e 0, e 1, ← Finset.sum_add_distrib]
    conv_rhs => rw [combo, lin_combo]
    refine Finset.sum_congr rfl fun i hi => ?_
    have hi := Finset.mem_range.1 hi
    rw [← mul_add]
    congr 1
    rcases Nat.eq_zero_or_pos i with rfl | hi0
    · have hzero : ∀ d : Fin 2, pderiv d (basisPoly k c h 0) = 0 := by
        intro d
        rw [basisPoly_zero, ← C_1, pderiv_C]
      rw [energyRhs_apply]
      simp only [hzero, map_zero, zero_mul, sub_zero, add_zero]
    · rw [← hB.other u hu P v hv i hi hi0, ← g_row hG _ hi hi0]
      exact hrow v i hi

/-! ## The moments of all degrees -/

/-- The rows added to the moments. -/
structure EnhOk (k m L : Nat) (c : ℝ × ℝ) (h : ℝ) (internal : Rule (ℝ × ℝ) ℝ) (N0 N1 E : DMat ℝ) : Prop where
  rows : E.rows = tri k - tri (k - 2)
  cols : E.cols = 2 * L + (tri (k - 2) + (tri (m + 1) - 1))
  act : ∀ v : Nat → ℝ, ∀ l < tri k - tri (k - 2), act E E.cols v l
    = quadLin internal.points internal.weights (gPoly k c h 0 (tri (k - 2) + l) * combo k c h (tri (k + 1)) (act N0 N0.cols v))
      + quadLin internal.points internal.weights (gPoly k c h 1 (tri (k - 2) + l) * combo k c h (tri (k + 1)) (act N1 N1.cols v))

/-- The products of two families of polynomials. -/
theorem cross_ok (points : List (ℝ × ℝ)) (w : List ℝ) (hw : w.length = points.length) {N M : Nat} {P Q : Nat → MvPolynomial (Fin 2) ℝ} {X Y : DMat ℝ} (hX : Values points N P X)
    (hY : Values points M Q Y) : ∃ A B, X.tr.mulDiag w = .ok A ∧ A.mul Y = .ok B ∧ B.rows = N ∧ B.cols = M ∧ ∀ i < N, ∀ j < M, B.ent i j = quadLin points w (P i * Q j) := by
  refine ⟨_, _, DMat.mulDiag_ok _ _ (by dsimp only [DMat.tr]; rw [hX.rows, hw]), DMat.mul_ok _ _ (by dsimp only [DMat.tr]; rw [hX.rows, hY.rows]), hX.cols, hY.cols, ?_⟩
  intro i hi j hj
  dsimp only [DMat.tr]
  rw [hX.rows, ← sum_quadLin points w hw (fun l => X.ent l i * Y.ent l j) _ (fun l p hl => by
    rw [hX.ent l p hl i hi, hY.ent l p hl j hj]
    simp [ev2])]
  exact Finset.sum_congr rfl fun l _ => by ring

theorem dfEnhanced_ok (hs : DfInitOk k m n V c h internal bnd.points dofs.points s) (hw : internal.weights.length = internal.points.length) {N0 N1 : DMat ℝ}
    (h0 : NOk k m n V c h tris internal bnd dofs 0 N0) (h1 : NOk k m n V c h tris internal bnd dofs 1 N1) :
    ∃ E, dfEnhanced s internal.weights (N0, N1) = .ok E ∧ EnhOk k m dofs.points.length c h internal N0 N1 E := by
  have hle : tri (k - 2) ≤ tri k := tri_le (by omega)
  obtain ⟨A0, B0, a1, a2, a3, a4, a5⟩ := cross_ok internal.points internal.weights hw (hs.gBig 0) hs.vInt
  obtain ⟨A1, B1, b1, b2, b3, b4, b5⟩ := cross_ok internal.points internal.weights hw (hs.gBig 1) hs.vInt
  have hg0 := (hs.gBig 0).cols
  simp only [Fin.val_zero, Fin.val_one] at a1 b1 a5 b5 hg0
  have t0 : dfEnhancedTerm s internal.weights N0 0 = .ok ⟨B0.rows, N0.cols, fun i j => ∑ t ∈ Finset.range B0.cols, B0.ent i t * N0.ent t j⟩ := by
    unfold dfEnhancedTerm
    rw [a1, except_ok_bind, a2, except_ok_bind, DMat.mul_ok _ _ (by rw [a4, h0.rows])]
  have t1 : dfEnhancedTerm s internal.weights N1 1 = .ok ⟨B1.rows, N1.cols, fun i j => ∑ t ∈ Finset.range B1.cols, B1.ent i t * N1.ent t j⟩ := by
    unfold dfEnhancedTerm
    rw [b1, except_ok_bind, b2, except_ok_bind, DMat.mul_ok _ _ (by rw [b4, h1.rows])]
  have hg0' : s.gBig.1.cols = tri k := hg0
  unfold dfEnhanced
  dsimp only
  rw [t0, except_ok_bind, DMat.add_ok _ _ (by dsimp only [DMat.zero]; rw [a3, hg0']) (by dsimp only [DMat.zero]; rw [h0.cols, hs.numBasis]), except_ok_bind, t1, except_ok_bind,
    DMat.add_ok _ _ (by dsimp only [DMat.zero]; rw [b3, hg0']) (by dsimp only [DMat.zero]; rw [h1.cols, hs.numBasis]), except_ok_bind, hs.nkm1, hs.nkm3,
    DMat.block_ok _ _ _ _ _ (by dsimp only [DMat.zero]; omega) (by omega)]
  refine ⟨_, rfl, rfl, hs.numBasis, ?_⟩
  intro v l hl
  unfold act
  dsimp only [DMat.zero]
  rw [hs.numBasis]
  have key : ∀ (B N : DMat ℝ) (d : Nat), B.cols = tri (k + 1) → N.cols = 2 * dofs.points.length + (tri (k - 2) + (tri (m + 1) - 1)) →
      (∀ i < tri k, ∀ j < tri (k + 1), B.ent i j = quadLin internal.points internal.weights (gPoly k c h d i * basisPoly k c h j)) →
      ∑ b ∈ Finset.range (2 * dofs.points.length + (tri (k - 2) + (tri (m + 1) - 1))), (∑ t ∈ Finset.range B.cols, B.ent (tri (k - 2) + l) t * N.ent t (0 + b)) * v b
        = quadLin internal.points internal.weights (gPoly k c h d (tri (k - 2) + l) * combo k c h (tri (k + 1)) fun j => ∑ b ∈ Finset.range N.cols, N.ent j b * v b) := by
    intro B N d hB hN hBe
    rw [quadLin_combo, Finset.sum_congr rfl fun b _ => Finset.sum_mul _ _ _, Finset.sum_comm, hB]
    refine Finset.sum_congr rfl fun t ht => ?_
    rw [hBe _ (by omega) t (Finset.mem_range.1 ht), Finset.mul_sum, hN]
    simp only [zero_add]
    exact Finset.sum_congr rfl fun b _ => by ring
  rw [Finset.sum_congr rfl fun b _ => show _ = (∑ t ∈ Finset.range B0.cols, B0.ent (tri (k - 2) + l) t * N0.ent t (0 + b)) * v b
    + (∑ t ∈ Finset.range B1.cols, B1.ent (tri (k - 2) + l) t * N1.ent t (0 + b)) * v b by rw [zero_add]; ring, Finset.sum_add_distrib,
    key B0 N0 0 a4 h0.cols a5, key B1 N1 1 b4 h1.cols b5]

/-- The matrix of all moments. -/
structure FullOk (k m n : Nat) (V : Nat → ℝ × ℝ) (c : ℝ × ℝ) (h : ℝ) (tris : List (Tri2 ℝ)) (internal : Rule (ℝ × ℝ) ℝ) (bnd dofs : EdgesRule ℝ) (N0 N1 : DMat ℝ) (d : Nat)
    (A : DMat ℝ) : Prop where
  rows : A.rows = tri (k + 1)
  cols : A.cols = 2 * dofs.points.length + (tri (k - 2) + (tri (m + 1) - 1))
  low : ∀ u hu P v, VelOk k m n V c h tris internal bnd dofs u hu P v → ∀ i < tri (k - 1), act A A.cols v i = intU tris (hu d) (basisPoly k c h i)
  high : ∀ u hu P v, VelOk k m n V c h tris internal bnd dofs u hu P v → ∀ a b, a + b ≤ k → k ≤ a + b + 1 → act A A.cols v (rank2 [a, b])
    = h * (1 / ((a : ℝ) + b + 1) * (intU tris (hu 0) (pderiv 0 (basisPoly (k + 1) c h (gradIdx d a b))) + intU tris (hu 1) (pderiv 1 (basisPoly (k + 1) c h (gradIdx d a b)))))
      + decCoef d a b * (quadLin internal.points internal.weights (gPoly k c h 0 (swirlIdx d a b) * combo k c h (tri (k + 1)) (act N0 N0.cols v))
        + quadLin internal.points internal.weights (gPoly k c h 1 (swirlIdx d a b) * combo k c h (tri (k + 1)) (act N1 N1.cols v)))

theorem dfCFull_ok (hs : DfInitOk k m n V c h internal bnd.points dofs.points s) (hh : h ≠ 0) (hk : 2 ≤ k) (hg : DecOk k g) {N0 N1 E A : DMat ℝ}
    (hE : EnhOk k m dofs.points.length c h internal N0 N1 E) {d : Nat} (hdd : d < 2) (hA : COk k m n V c h tris internal bnd dofs d A) :
    ∃ A', dfCFull g s E A d = .ok A' ∧ FullOk k m n V c h tris internal bnd dofs N0 N1 d A' := by
  have hle : tri (k - 2) ≤ tri k := tri_le (by omega)
  have hle2 : tri (k - 1) ≤ tri (k + 1) := tri_le (by omega)
  have hle3 : tri (k - 2) ≤ tri (k - 1) := tri_le (by omega)
  unfold dfCFull
  rw [hs.nk, hs.nkm1, hs.nkm2, hs.nkm3, DMat.block_ok _ _ _ _ _ (by show _ ≤ g.Nk; rw [hg.nk]; omega)
    (by show _ ≤ (if (1 : Nat) = 0 then g.Nkp1 else g.Nkm1); rw [if_neg one_ne_zero, hg.nkm1]; omega), except_ok_bind, DMat.mul_ok _ _ (by rw [hE.rows]), except_ok_bind,
    addBlock_ok _ _ _ _ _ _ (by rfl) (by rw [hE.cols, hA.cols]) (by rw [hA.rows]; omega) (by omega)]
  refine ⟨_, rfl, hA.rows, hA.cols, ?_, ?_⟩
  · intro u hu P v hv i hi
    rw [← c_low hh hk hdd hA hv hi]
    unfold act
    dsimp only
    refine Finset.sum_congr rfl fun b _ => ?_
    rw [if_neg (by rw [hA.rows]; omega)]
  · intro u hu P v hv a b hab hlo
    have hi : rank2 [a, b] < tri (k + 1) := rank2_lt k hab
    have hil : tri (k - 1) ≤ rank2 [a, b] := by
      rw [rank2_eq]
      have := tri_le (show k - 1 ≤ a + b by omega)
      omega
    set i := rank2 [a, b] with hidef
    unfold act
    dsimp only
    rw [Finset.sum_congr rfl fun b hb => show _ = A.ent i b * v b + (∑ l ∈ Finset.range (tri k - tri (k - 2)), (dfDec g d 1).ent i (tri (k - 2) + l) * E.ent l b) * v b by
      have hb := Finset.mem_range.1 hb
      rw [if_pos ⟨by rw [hA.rows]; omega, by rw [hA.rows]; omega, by omega, by omega⟩, Nat.sub_zero, hA.rows, show tri (k - 1) + (i - (tri (k + 1) - (tri (k + 1) - tri (k - 1)))) = i by omega,
        add_mul], Finset.sum_add_distrib]
    have h1 := hA.act u hu P v hv a b hab
    unfold act at h1
    rw [← hidef] at h1
    have h2 : ∑ b ∈ Finset.range A.cols, (∑ l ∈ Finset.range (tri k - tri (k - 2)), (dfDec g d 1).ent i (tri (k - 2) + l) * E.ent l b) * v b
        = ∑ l ∈ Finset.range (tri k - tri (k - 2)), (dfDec g d 1).ent i (tri (k - 2) + l) * (fun r => quadLin internal.points internal.weights
          (gPoly k c h 0 r * combo k c h (tri (k + 1)) (PolyDiM.act N0 N0.cols v))
          + quadLin internal.points internal.weights (gPoly k c h 1 r * combo k c h (tri (k + 1)) (PolyDiM.act N1 N1.cols v))) (tri (k - 2) + l) := by
      rw [Finset.sum_congr rfl fun b _ => Finset.sum_mul _ _ _, Finset.sum_comm]
      refine Finset.sum_congr rfl fun l hl => ?_
      dsimp only
      rw [← hE.act v l (Finset.mem_range.1 hl), PolyDiM.act, hE.cols, ← hA.cols, Finset.mul_sum]
      exact Finset.sum_congr rfl fun b _ => by ring
    rw [h1, h2, hidef]
    refine (congrArg₂ (· + ·) rfl (dec_swirl hg hab hdd (tri (k - 2)) (tri k - tri (k - 2)) fun r => quadLin internal.points internal.weights
          (gPoly k c h 0 r * combo k c h (tri (k + 1)) (PolyDiM.act N0 N0.cols v))
          + quadLin internal.points internal.weights (gPoly k c h 1 r * combo k c h (tri (k + 1)) (PolyDiM.act N1 N1.cols v)))).trans ?_
    rw [Nat.add_sub_cancel' hle, add_assoc]
    congr 1
    by_cases h0 : decCoef d a b = 0
    · rw [h0]
      simp
    · obtain ⟨hp, hlo', hhi⟩ := decCoef_ne hdd h0
      have l1 := tri_le (show k - 2 ≤ a + b - 1 by omega)
      have l2 := tri_le (show a + b ≤ k by omega)
      rw [if_neg (by omega), if_pos (by omega), zero_add]
      rfl

/-! ## The derivatives -/

structure DerivOk (k m n : Nat) (V : Nat → ℝ × ℝ) (c : ℝ × ℝ) (h : ℝ) (tris : List (Tri2 ℝ)) (internal : Rule (ℝ × ℝ) ℝ) (bnd dofs : EdgesRule ℝ) (d1 d2 : Fin 2) (E : DMat ℝ) : Prop where
  rows : E.rows = tri k
  cols : E.cols = 2 * dofs.points.length + (tri (k - 2) + (tri (m + 1) - 1))
  act : ∀ u hu P v, VelOk k m n V c h tris internal bnd dofs u hu P v → ∀ i < tri k, act E E.cols v i
    = quadU dofs.points (if (d2 : Nat) = 0 then dofs.nx else dofs.ny) (fun p => pick (u p) d1) (basisPoly k c h i) - intU tris (hu d1) (pderiv d2 (basisPoly k c h i))

theorem dfE_ok (hs : DfInitOk k m n V c h internal bnd.points dofs.points s) (hd : Discrete k internal dofs) (hh : h ≠ 0) (hk : 2 ≤ k) {A : DMat ℝ} (d1 d2 : Fin 2)
    (hA : COk k m n V c h tris internal bnd dofs d1 A) {Ckm2 : DMat ℝ} (hCr : Ckm2.rows = tri (k - 1)) (hCc : Ckm2.cols = A.cols) (hCe : ∀ i j, Ckm2.ent i j = A.ent i j) :
    ∃ E, dfE (compute mono2 k) h s dofs Ckm2 d1 d2 = .ok E ∧ DerivOk k m n V c h tris internal bnd dofs d1 d2 E := by
  set L := dofs.points.length with hL
  have hle : tri (k - 1) ≤ tri (k + 1) := tri_le (by omega)
  have hle2 : tri k ≤ tri (k + 1) := tri_le (by omega)
  have hnum : (compute mono2 k).num = tri (k + 1) := num2_eq k
  have hdL : (d1 : Nat) * L + L ≤ 2 * L := by
    have := d1.isLt
    rcases (by omega : (d1 : Nat) = 0 ∨ (d1 : Nat) = 1) with h | h <;> rw [h] <;> omega
  have hAc := hA.cols
  rw [← hL] at hAc
  have hwn : (if (d2 : Nat) = 0 then dofs.nx else dofs.ny).length = L := by
    split_ifs
    · exact hd.xlen
    · exact hd.ylen
  obtain ⟨T, t1, t2, t3, t4⟩ := block_spec (A := ⟨(compute mono2 k).num, (compute mono2 k).num, fun i j => ((compute mono2 k).der d2 i j : ℝ)⟩) (r := 0) (c := 0) (m := tri k)
    (n := tri (k - 1)) (by dsimp only; omega) (by dsimp only; omega)
  obtain ⟨X, X1, X2, X3, X4⟩ := mul_spec (A := DMat.smul (-(1 / h)) T) (B := Ckm2) (by show T.cols = _; rw [t3, hCr])
  have hX2 : X.rows = tri k := X2.trans t2
  obtain ⟨R, r1, r2, r3, r4⟩ := block_spec (A := s.vanderBnd) (r := 0) (c := 0) (m := s.vanderBnd.rows) (n := tri k) (by omega) (by rw [hs.vBnd.cols]; omega)
  obtain ⟨Y, y1, y2, y3, y4⟩ := mulDiag_spec (A := R.tr) (w := if (d2 : Nat) = 0 then dofs.nx else dofs.ny) (by rw [hwn]; show R.rows = _; rw [r2, hs.vBnd.rows])
  have hy2 : Y.rows = tri k := y2.trans r3
  have hy3 : Y.cols = L := y3.trans (r2.trans hs.vBnd.rows)
  obtain ⟨E, e1, e2, e3, e4⟩ := addBlock_spec (A := X) (r := 0) (c := d1 * L) (m := X.rows) (n := L) (X := Y) (by omega) hy3 (by omega) (by omega)
  have hrun : dfE (compute mono2 k) h s dofs Ckm2 d1 d2 = .ok E := by
    unfold dfE
    rw [hs.nv, hs.nkm1, hs.nkm2, ← hL, t1, except_ok_bind, X1, except_ok_bind, r1, except_ok_bind, y1, except_ok_bind, e1]
  refine ⟨E, hrun, e2.trans hX2, by omega, ?_⟩
  intro u hu P v hv i hi
  have hlow : ∀ l < tri (k - 1), ∑ b ∈ Finset.range A.cols, A.ent l b * v b = intU tris (hu d1) (basisPoly k c h l) := fun l hl => c_low hh hk d1.isLt hA hv hl
  have hent : ∀ b, E.ent i b = (if (d1 : Nat) * L ≤ b ∧ b < d1 * L + L then
        (fun b => s.vanderBnd.ent b i * (if (d2 : Nat) = 0 then dofs.nx else dofs.ny).getD b 0) (b - d1 * L) else 0)
      + ∑ l ∈ Finset.range (tri (k - 1)), -(1 / h) * ((compute mono2 k).der d2 i l : ℝ) * A.ent l b := by
    intro b
    have hX : X.ent i b = ∑ l ∈ Finset.range (tri (k - 1)), -(1 / h) * ((compute mono2 k).der d2 i l : ℝ) * A.ent l b := by
      rw [X4]
      dsimp only [DMat.smul]
      rw [t3]
      refine Finset.sum_congr rfl fun l _ => ?_
      rw [t4, hCe, zero_add, zero_add]
    rw [e4, hX]
    by_cases hw : (d1 : Nat) * L ≤ b ∧ b < d1 * L + L
    · rw [if_pos hw]
      refine (if_pos ⟨by omega, by omega, hw⟩).trans ?_
      rw [y4, add_comm, Nat.sub_zero]
      dsimp only [DMat.tr]
      rw [r4, zero_add, zero_add]
    · rw [if_neg hw]
      refine Eq.trans ?_ (zero_add _).symm
      exact if_neg fun hc : 0 ≤ i ∧ i < 0 + X.rows ∧ (d1 : Nat) * L ≤ b ∧ b < d1 * L + L => hw hc.2.2
  rw [act, e3, X3, hCc, Finset.sum_congr rfl fun b _ => by rw [hent b, add_mul], Finset.sum_add_distrib,
    sum_window (by omega) (fun b => s.vanderBnd.ent b i * (if (d2 : Nat) = 0 then dofs.nx else dofs.ny).getD b 0)]
  have e2 := sum_quadU dofs.points (if (d2 : Nat) = 0 then dofs.nx else dofs.ny) hwn (fun b => s.vanderBnd.ent b i) (fun b => v (d1 * L + b)) _ _
    (fun b p hb => hs.vBnd.ent b p hb i (by omega)) (hv.value d1 d1.isLt)
  have e3 : ∑ b ∈ Finset.range A.cols, (∑ l ∈ Finset.range (tri (k - 1)), -(1 / h) * ((compute mono2 k).der d2 i l : ℝ) * A.ent l b) * v b
      = -intU tris (hu d1) (pderiv d2 (basisPoly k c h i)) := by
    have hi' : i < tri (k - 1 + 1) := by rwa [show k - 1 + 1 = k by omega]
    rw [basisPoly_pderiv k c h (by rw [num2_eq]; omega) hi' (by omega) d2, lin_combo, ← Finset.sum_neg_distrib, Finset.sum_congr rfl fun b _ => Finset.sum_mul _ _ _, Finset.sum_comm]
    refine Finset.sum_congr rfl fun l hl => ?_
    rw [← hlow l (Finset.mem_range.1 hl), Finset.mul_sum, ← Finset.sum_neg_distrib]
    exact Finset.sum_congr rfl fun b _ => by ring
  rw [e3, ← e2, sub_eq_add_neg]

/-! ## The DOFs of the monomials -/

structure DfDofsOk (k m : Nat) (c : ℝ × ℝ) (h : ℝ) (internal : Rule (ℝ × ℝ) ℝ) (points : List (ℝ × ℝ)) (d : Fin 2) (D : DMat ℝ) : Prop where
  rows : D.rows = 2 * points.length + (tri (k - 2) + (tri (m + 1) - 1))
  cols : D.cols = tri (k + 1)
  value : ∀ d' < 2, ∀ (b : Nat) (p : ℝ × ℝ), points[b]? = some p → ∀ j < tri (k + 1), D.ent (d' * points.length + b) j = if d' = (d : Nat) then ev2 (basisPoly k c h j) p else 0
  swirl : ∀ l < tri (k - 2), ∀ j < tri (k + 1), D.ent (2 * points.length + l) j = quadLin internal.points internal.weights (gPoly k c h d l * basisPoly k c h j)
  div : ∀ i, 0 < i → i < tri (m + 1) → ∀ j < tri (k + 1), D.ent (2 * points.length + tri (k - 2) + (i - 1)) j
    = quadLin internal.points internal.weights (basisPoly k c h i * pderiv d (basisPoly k c h j))

theorem dfDofs_ok {red : Bool} (hs : DfInitOk k (divDegree red k) n V c h internal bnd.points dofs.points s) (hw : internal.weights.length = internal.points.length) (d : Fin 2) :
    ∃ D, dfDofs red s internal.weights d = .ok D ∧ DfDofsOk k (divDegree red k) c h internal dofs.points d D := by
  set m := divDegree red k with hm
  set L := dofs.points.length with hL
  have hp := tri_pos (show 0 < m + 1 by omega)
  have hdlt := d.isLt
  have hdL : (d : Nat) * L + L ≤ 2 * L := by
    rcases (by omega : (d : Nat) = 0 ∨ (d : Nat) = 1) with h | h <;> rw [h] <;> omega
  have hmk : m ≤ k := by
    rw [hm]
    unfold divDegree
    split_ifs <;> omega
  have hle : tri (m + 1) ≤ tri (k + 1) := tri_le (by omega)
  have hvr : s.vanderBnd.rows = L := hs.vBnd.rows
  obtain ⟨A, B, a1, a2, a3, a4, a5⟩ := cross_ok internal.points internal.weights hw (hs.gBig2 d) hs.vInt
  obtain ⟨D0, d1, d2, d3, d4⟩ := assign_spec (A := DMat.zero (2 * L + (tri (k - 2) + (tri (m + 1) - 1))) (tri (k + 1))) (r := d * L) (c := 0) (m := L) (n := tri (k + 1))
    (X := s.vanderBnd) hvr hs.vBnd.cols (by dsimp only [DMat.zero]; omega) (by dsimp only [DMat.zero]; omega)
  have hd2 : D0.rows = 2 * L + (tri (k - 2) + (tri (m + 1) - 1)) := d2
  have hd3 : D0.cols = tri (k + 1) := d3
  obtain ⟨D1, e1, e2, e3, e4⟩ := assign_spec (A := D0) (r := 2 * L) (c := 0) (m := tri (k - 2)) (n := D0.cols) (X := B) a3 (by omega) (by omega) (by omega)
  have hval : ∀ d' < 2, ∀ (b : Nat) (p : ℝ × ℝ), dofs.points[b]? = some p → ∀ j < tri (k + 1), D1.ent (d' * L + b) j = if d' = (d : Nat) then ev2 (basisPoly k c h j) p else 0 := by
    intro d' hd' b p hb j hj
    have hbl : b < L := (List.getElem?_eq_some_iff.1 hb).1
    have hlt : d' * L + b < 2 * L := by
      rcases (by omega : d' = 0 ∨ d' = 1) with h2 | h2 <;> rw [h2] <;> omega
    rw [e4, if_neg (by omega), d4]
    by_cases he : d' = (d : Nat)
    · rw [he, if_pos (by omega), if_pos rfl, Nat.add_sub_cancel_left, Nat.sub_zero, hs.vBnd.ent b p hb j hj]
    · rw [if_neg he, if_neg]
      · rfl
      · rcases (by omega : (d : Nat) = 0 ∧ d' = 1 ∨ (d : Nat) = 1 ∧ d' = 0) with ⟨h1, h2⟩ | ⟨h1, h2⟩ <;> rw [h1, h2] <;> omega
  have hswirl : ∀ l < tri (k - 2), ∀ j < tri (k + 1), D1.ent (2 * L + l) j = quadLin internal.points internal.weights (gPoly k c h d l * basisPoly k c h j) := by
    intro l hl j hj
    rw [e4, if_pos (by omega), Nat.add_sub_cancel_left, Nat.sub_zero]
    exact a5 l hl j hj
  have hrun : ∀ D, (if red then .ok D1 else do
      let T ← s.vanderInt.block 0 1 s.vanderInt.rows (tri (m + 1) - 1)
      let TW ← T.tr.mulDiag internal.weights
      let TX ← TW.mul (pick s.vanderIntD d)
      D1.assign (D1.rows - (tri (m + 1) - 1)) 0 (tri (m + 1) - 1) D1.cols TX : Except Fault (DMat ℝ)) = .ok D → dfDofs red s internal.weights d = .ok D := by
    intro D hD
    unfold dfDofs
    rw [hs.nv, hs.numBasis, hs.nk, hs.numBoundary, hs.numBig, hs.numDiv, ← hL, d1, except_ok_bind, a1, except_ok_bind, a2, except_ok_bind, e1, except_ok_bind]
    exact hD
  by_cases hr : red = true
  · refine ⟨D1, hrun D1 (if_pos hr), by omega, by omega, hval, hswirl, ?_⟩
    intro i h0 hi
    have hm0 : m = 0 := by rw [hm, hr]; rfl
    rw [hm0] at hi
    have : tri (0 + 1) = 1 := rfl
    omega
  · have hV1 : Values internal.points (tri (m + 1) - 1) (fun i => basisPoly k c h (1 + i)) ⟨s.vanderInt.rows, tri (m + 1) - 1, fun i j => s.vanderInt.ent (0 + i) (1 + j)⟩ :=
      ⟨hs.vInt.rows, rfl, fun i p hi j hj => by dsimp only; rw [zero_add]; exact hs.vInt.ent i p hi (1 + j) (by omega)⟩
    obtain ⟨A', B', c1, c2, c3, c4, c5⟩ := cross_ok internal.points internal.weights hw hV1 (hs.vIntD d)
    obtain ⟨D2, f1, f2, f3, f4⟩ := assign_spec (A := D1) (r := D1.rows - (tri (m + 1) - 1)) (c := 0) (m := tri (m + 1) - 1) (n := D1.cols) (X := B') c3 (by omega) (by omega) (by omega)
    refine ⟨D2, hrun D2 ?_, by omega, by omega, ?_, ?_, ?_⟩
    · rw [if_neg hr, DMat.block_ok _ _ _ _ _ (by omega) (by rw [hs.vInt.cols]; omega), except_ok_bind, c1, except_ok_bind, c2, except_ok_bind, f1]
    · intro d' hd' b p hb j hj
      have hbl : b < L := (List.getElem?_eq_some_iff.1 hb).1
      have hlt : d' * L + b < 2 * L := by
        rcases (by omega : d' = 0 ∨ d' = 1) with h2 | h2 <;> rw [h2] <;> omega
      rw [← hL, f4, if_neg (by omega)]
      exact hval d' hd' b p hb j hj
    · intro l hl j hj
      rw [f4, if_neg (by omega)]
      exact hswirl l hl j hj
    · intro i h0 hi j hj
      rw [f4, if_pos (by omega), Nat.sub_zero, show 2 * L + tri (k - 2) + (i - 1) - (D1.rows - (tri (m + 1) - 1)) = i - 1 by omega]
      refine (c5 (i - 1) (by omega) j hj).trans ?_
      rw [show 1 + (i - 1) = i by omega]

end PolyDiM
