import Verif.Lemmas.VemDfMat

/-!
# Lemmas: what the matrices of the divergence-free virtual element do to the DOFs of a velocity
-/

namespace PolyDiM

open Spec MvPolynomial MeasureTheory

variable {k m n : Nat} {V : Nat → ℝ × ℝ} {c : ℝ × ℝ} {h μ : ℝ} {g : GData ℝ} {tris : List (Tri2 ℝ)} {internal : Rule (ℝ × ℝ) ℝ} {bnd dofs : EdgesRule ℝ}
  {s : DfInit2D ℝ} {lu llt : Solver ℝ}

theorem sum4 (L B D : Nat) (f : Nat → ℝ) : ∑ b ∈ Finset.range (2 * L + (B + D)), f b
    = ∑ b ∈ Finset.range L, f b + ∑ b ∈ Finset.range L, f (L + b) + ∑ l ∈ Finset.range B, f (2 * L + l) + ∑ l ∈ Finset.range D, f (2 * L + B + l) := by
  rw [sum_split (2 * L), sum_split B, show 2 * L = L + L by ring, sum_split L L]
  simp only [add_assoc]

/-- A velocity, its divergence and its DOFs, as the matrices see them. -/
structure VelOk (k m n : Nat) (V : Nat → ℝ × ℝ) (c : ℝ × ℝ) (h : ℝ) (tris : List (Tri2 ℝ)) (internal : Rule (ℝ × ℝ) ℝ) (bnd dofs : EdgesRule ℝ)
    (u : ℝ × ℝ → ℝ × ℝ) (hu : ∀ d : Nat, IntegrableOn (fun p => pick (u p) d) (unionOf tris)) (P : MvPolynomial (Fin 2) ℝ) (v : Nat → ℝ) : Prop where
  degree : P.totalDegree ≤ m
  trace : ∀ d : Nat, EdgePolynomial k n V fun p => pick (u p) d
  value : ∀ d < 2, ∀ (b : Nat) (p : ℝ × ℝ), dofs.points[b]? = some p → v (d * dofs.points.length + b) = pick (u p) d
  swirl : ∀ l < tri (k - 2), v (2 * dofs.points.length + l) = intU tris (hu 0) (gPoly k c h 0 l) + intU tris (hu 1) (gPoly k c h 1 l)
  div : ∀ i, 0 < i → i < tri (m + 1) → v (2 * dofs.points.length + tri (k - 2) + (i - 1)) = quadLin internal.points internal.weights (basisPoly k c h i * P)
  mean : quadLin internal.points internal.weights P = quadU dofs.points dofs.nx (fun p => pick (u p) 0) 1 + quadU dofs.points dofs.ny (fun p => pick (u p) 1) 1
  green : ∀ j < tri (k + 2), quadU bnd.points bnd.nx (fun p => pick (u p) 0) (basisPoly (k + 1) c h j) + quadU bnd.points bnd.ny (fun p => pick (u p) 1) (basisPoly (k + 1) c h j)
      - quadLin internal.points internal.weights (basisPoly (k + 1) c h j * P)
    = intU tris (hu 0) (pderiv 0 (basisPoly (k + 1) c h j)) + intU tris (hu 1) (pderiv 1 (basisPoly (k + 1) c h j))

/-- A matrix applied to a vector. -/
noncomputable def act (A : DMat ℝ) (N : Nat) (v : Nat → ℝ) (i : Nat) : ℝ := ∑ b ∈ Finset.range N, A.ent i b * v b

/-- The sum over the points of a rule as the quadrature of a polynomial times a function. -/
theorem sum_quadU (points : List (ℝ × ℝ)) (w : List ℝ) (hw : w.length = points.length) (F X : Nat → ℝ) (q : MvPolynomial (Fin 2) ℝ) (u : ℝ × ℝ → ℝ)
    (hF : ∀ (b : Nat) (p : ℝ × ℝ), points[b]? = some p → F b = ev2 q p) (hX : ∀ (b : Nat) (p : ℝ × ℝ), points[b]? = some p → X b = u p) :
    ∑ b ∈ Finset.range points.length, F b * w.getD b 0 * X b = quadU points w u q := by
  refine Eq.trans ?_ (sum_quadSum points w hw (fun b => F b * X b) (fun p => ev2 q p * u p) (by
    intro b p hb
    rw [hF b p hb, hX b p hb]))
  exact Finset.sum_congr rfl fun b _ => by ring

/-! ## The divergence -/

structure WOk (k m L : Nat) (dofs : EdgesRule ℝ) (W : DMat ℝ) : Prop where
  rows : W.rows = tri (m + 1)
  cols : W.cols = 2 * L + (tri (k - 2) + (tri (m + 1) - 1))
  first : ∀ v : Nat → ℝ, act W W.cols v 0 = ∑ b ∈ Finset.range L, dofs.nx.getD b 0 * v b + ∑ b ∈ Finset.range L, dofs.ny.getD b 0 * v (L + b)
  other : ∀ v : Nat → ℝ, ∀ i, 0 < i → i < tri (m + 1) → act W W.cols v i = v (2 * L + tri (k - 2) + (i - 1))

theorem dfW_ok (hs : DfInitOk k m n V c h internal bnd.points dofs.points s) (hm : m + 1 = k) (hx : dofs.nx.length = dofs.points.length) (hy : dofs.ny.length = dofs.points.length) :
    ∃ W, dfW s dofs = .ok W ∧ WOk k m dofs.points.length dofs W := by
  have hp := tri_pos (show 0 < m + 1 by omega)
  unfold dfW
  rw [hs.nv, hs.nkm1, hs.numBasis, hs.numBoundary, hs.numBig, hs.numDiv, ← hm]
  rw [DMat.assign_ok _ _ _ _ _ _ (by rfl) (by rfl) (by dsimp only [DMat.zero]; omega) (by dsimp only [DMat.zero]; omega), except_ok_bind,
    DMat.assign_ok _ _ _ _ _ _ (by rfl) hx (by dsimp only [DMat.zero]; omega) (by dsimp only [DMat.zero]; omega), except_ok_bind,
    DMat.assign_ok _ _ _ _ _ _ (by rfl) hy (by dsimp only [DMat.zero]; omega) (by dsimp only [DMat.zero]; omega)]
  refine ⟨_, rfl, rfl, rfl, ?_, ?_⟩
  · intro v
    unfold act
    dsimp only [DMat.zero, DMat.row, DMat.identity]
    rw [sum4]
    rw [Finset.sum_eq_zero (s := Finset.range (tri (m + 1 - 2))), Finset.sum_eq_zero (s := Finset.range (tri (m + 1) - 1)), add_zero, add_zero]
    · congr 1
      · refine Finset.sum_congr rfl fun b hb => ?_
        have hb := Finset.mem_range.1 hb
        rw [if_neg (by omega), if_pos (by omega), Nat.sub_zero]
      · refine Finset.sum_congr rfl fun b hb => ?_
        have hb := Finset.mem_range.1 hb
        rw [if_pos (by omega), Nat.add_sub_cancel_left]
    · intro l _
      rw [if_neg (by omega), if_neg (by omega), if_neg (by omega), zero_mul]
    · intro l _
      rw [if_neg (by omega), if_neg (by omega), if_neg (by omega), zero_mul]
  · intro v i h0 hi
    unfold act
    dsimp only [DMat.zero, DMat.row, DMat.identity]
    rw [sum4]
    rw [Finset.sum_eq_zero, Finset.sum_eq_zero, Finset.sum_eq_zero, Finset.sum_eq_single (i - 1)]
    · rw [if_neg (by omega), if_neg (by omega), if_pos (by omega), if_pos (by omega), one_mul]
      simp
    · intro l hl hne
      have hl := Finset.mem_range.1 hl
      rw [if_neg (by omega), if_neg (by omega), if_pos (by omega), if_neg (by omega), zero_mul]
    · intro hn
      exact absurd (Finset.mem_range.2 (by omega)) hn
    · intro l hl
      have hl := Finset.mem_range.1 hl
      rw [if_neg (by omega), if_neg (by omega), if_neg (by omega), zero_mul]
    · intro l hl
      have hl := Finset.mem_range.1 hl
      rw [if_neg (by omega), if_neg (by omega), if_neg (by omega), zero_mul]
    · intro l hl
      have hl := Finset.mem_range.1 hl
      rw [if_neg (by omega), if_neg (by omega), if_neg (by omega), zero_mul]

theorem dfWReduced_ok (hs : DfInitOk k 0 n V c h internal bnd.points dofs.points s) (hx : dofs.nx.length = dofs.points.length) (hy : dofs.ny.length = dofs.points.length) :
    ∃ W, dfWReduced s dofs = .ok W ∧ WOk k 0 dofs.points.length dofs W := by
  unfold dfWReduced
  rw [hs.nv, hs.numBasis]
  rw [DMat.assign_ok _ _ _ _ _ _ (by rfl) hx (by dsimp only [DMat.zero]; omega) (by dsimp only [DMat.zero]; omega), except_ok_bind,
    DMat.assign_ok _ _ _ _ _ _ (by rfl) hy (by dsimp only [DMat.zero]; omega) (by dsimp only [DMat.zero]; omega)]
  refine ⟨_, rfl, rfl, rfl, ?_, ?_⟩
  · intro v
    unfold act
    dsimp only [DMat.zero, DMat.row, DMat.identity]
    rw [sum4]
    rw [Finset.sum_eq_zero (s := Finset.range (tri (k - 2))), Finset.sum_eq_zero (s := Finset.range (tri (0 + 1) - 1)), add_zero, add_zero]
    · congr 1
      · refine Finset.sum_congr rfl fun b hb => ?_
        have hb := Finset.mem_range.1 hb
        rw [if_neg (by omega), if_pos (by omega), Nat.sub_zero]
      · refine Finset.sum_congr rfl fun b hb => ?_
        have hb := Finset.mem_range.1 hb
        rw [if_pos (by omega), Nat.add_sub_cancel_left]
    · intro l _
      rw [if_neg (by omega), if_neg (by omega), zero_mul]
    · intro l _
      rw [if_neg (by omega), if_neg (by omega), zero_mul]
  · intro v i h0 hi
    have : tri (0 + 1) = 1 := rfl
    omega

/-- A system with the matrix of the products of the monomials. -/
theorem gram_solve' (hd : Discrete k internal dofs) (hh : h ≠ 0) (hl : SolvesPosDef llt) {a : Nat} (ha : a ≤ k) (H R : DMat ℝ) (hr : H.rows = tri (a + 1))
    (hc : H.cols = tri (a + 1)) (hent : ∀ i < tri (a + 1), ∀ j < tri (a + 1), H.ent i j = quadLin internal.points internal.weights (basisPoly k c h i * basisPoly k c h j))
    (hR : R.rows = tri (a + 1)) :
    (llt H R).rows = tri (a + 1) ∧ (llt H R).cols = R.cols ∧ ∀ v : Nat → ℝ, ∀ i < tri (a + 1), quadLin internal.points internal.weights (basisPoly k c h i *
      combo k c h (tri (a + 1)) (act (llt H R) R.cols v)) = act R R.cols v i := by
  have S := hl H R (hr.trans hc.symm) (hR.trans hr.symm) (by
    rw [hr]
    intro i hi j hj
    rw [hent i hi j hj, hent j hj i hi, gram_comm]) (by
    rw [hr, hc]
    intro x hx
    have := gram_posDef (c := c) hd hh ha x hx
    refine this.trans_eq (Finset.sum_congr rfl fun i hi => ?_)
    refine congrArg _ (Finset.sum_congr rfl fun j hj => ?_)
    rw [hent i (Finset.mem_range.1 hi) j (Finset.mem_range.1 hj)])
  refine ⟨S.1.trans hc, S.2.1, fun v i hi => ?_⟩
  have := solves_apply S v (i := i) (by omega)
  rw [hc] at this
  rw [act, ← this, quadLin_combo]
  exact Finset.sum_congr rfl fun j hj => by rw [hent i hi j (Finset.mem_range.1 hj)]; rfl

/-- A polynomial is determined by its moments. -/
theorem combo_eq_of_moments (hd : Discrete k internal dofs) (hh : h ≠ 0) {a : Nat} (ha : a ≤ k) (x : Nat → ℝ) {q : MvPolynomial (Fin 2) ℝ} (hq : q.totalDegree ≤ a)
    (hx : ∀ i < tri (a + 1), quadLin internal.points internal.weights (basisPoly k c h i * combo k c h (tri (a + 1)) x) = quadLin internal.points internal.weights (basisPoly k c h i * q)) :
    combo k c h (tri (a + 1)) x = q := by
  obtain ⟨y, hy⟩ := basisPoly_span k c h hh ha q hq
  have hy : q = combo k c h (tri (a + 1)) y := hy
  have := inj_ext (A := fun i j => quadLin internal.points internal.weights (basisPoly k c h i * basisPoly k c h j)) (gram_injective hd hh ha) (x := x) (y := y) (by
    intro i hi
    have := hx i hi
    rw [hy, quadLin_combo, quadLin_combo] at this
    exact this)
  rw [hy]
  unfold combo
  exact Finset.sum_congr rfl fun j hj => by rw [this j (Finset.mem_range.1 hj)]

/-- The coefficients of the divergence. -/
structure VOk (k m L : Nat) (c : ℝ × ℝ) (h : ℝ) (internal : Rule (ℝ × ℝ) ℝ) (W X : DMat ℝ) : Prop where
  rows : X.rows = tri (m + 1)
  cols : X.cols = 2 * L + (tri (k - 2) + (tri (m + 1) - 1))
  solves : ∀ v : Nat → ℝ, ∀ i < tri (m + 1), quadLin internal.points internal.weights (basisPoly k c h i * combo k c h (tri (m + 1)) (act X X.cols v)) = act W W.cols v i

theorem dfDivergence_ok (hs : DfInitOk k m n V c h internal bnd.points dofs.points s) (hd : Discrete k internal dofs) (hh : h ≠ 0) (hl : SolvesPosDef llt) (hm : m + 1 = k) :
    ∃ W X, dfDivergence llt s dofs = .ok (W, X) ∧ WOk k m dofs.points.length dofs W ∧ VOk k m dofs.points.length c h internal W X := by
  obtain ⟨W, hW, hWo⟩ := dfW_ok hs hm hd.xlen hd.ylen
  have hle : tri k ≤ tri (k + 1) := tri_le (by omega)
  have hmk : tri (m + 1) = tri k := by rw [hm]
  unfold dfDivergence
  rw [hW, except_ok_bind, hs.nkm1, DMat.block_ok _ _ _ _ _ (by rw [hs.hRows]; omega) (by rw [hs.hCols]; omega), except_ok_bind]
  obtain ⟨h1, h2, h3⟩ := gram_solve' (c := c) hd hh hl (a := m) (by omega) ⟨tri k, tri k, fun i j => s.H.ent (0 + i) (0 + j)⟩ W hmk.symm hmk.symm (by
    intro i hi j hj
    dsimp only
    rw [zero_add, zero_add, hs.hEnt i (by omega) j (by omega)]) hWo.rows
  refine ⟨W, _, rfl, hWo, h1, h2.trans hWo.cols, ?_⟩
  intro v i hi
  rw [h2]
  exact h3 v i hi

theorem dfDivergenceReduced_ok (hs : DfInitOk k 0 n V c h internal bnd.points dofs.points s) (hd : Discrete k internal dofs) (hμ : μ ≠ 0)
    (harea : quadLin internal.points internal.weights 1 = μ) :
    ∃ W X, dfDivergenceReduced μ s dofs = .ok (W, X) ∧ WOk k 0 dofs.points.length dofs W ∧ VOk k 0 dofs.points.length c h internal W X := by
  obtain ⟨W, hW, hWo⟩ := dfWReduced_ok hs hd.xlen hd.ylen
  unfold dfDivergenceReduced
  rw [hW, except_ok_bind]
  refine ⟨W, _, rfl, hWo, hWo.rows, hWo.cols, ?_⟩
  intro v i hi
  have hi0 : i = 0 := by
    have : tri (0 + 1) = 1 := rfl
    omega
  rw [hi0, quadLin_combo, show tri (0 + 1) = 1 from rfl, Finset.sum_range_one, basisPoly_zero, mul_one, harea]
  unfold act
  rw [Finset.mul_sum]
  refine Finset.sum_congr rfl fun b _ => ?_
  dsimp only [DMat.smul]
  field_simp

/-- The first row of `W` is the mean of the divergence. -/
theorem w_mean {u : ℝ × ℝ → ℝ × ℝ} {hu : ∀ d : Nat, IntegrableOn (fun p => pick (u p) d) (unionOf tris)} {P : MvPolynomial (Fin 2) ℝ} {v : Nat → ℝ}
    (hd : Discrete k internal dofs) (hv : VelOk k m n V c h tris internal bnd dofs u hu P v) {W : DMat ℝ} (hW : WOk k m dofs.points.length dofs W) {i : Nat} (hi : i < tri (m + 1)) :
    act W W.cols v i = quadLin internal.points internal.weights (basisPoly k c h i * P) := by
  rcases Nat.eq_zero_or_pos i with rfl | h0
  · rw [hW.first, basisPoly_zero, one_mul, hv.mean]
    congr 1
    · refine Eq.trans ?_ (sum_quadU dofs.points dofs.nx hd.xlen (fun _ => 1) v 1 _ (by simp [ev2]) (fun b p hb => by
        have := hv.value 0 (by omega) b p hb
        rwa [Nat.zero_mul, Nat.zero_add] at this))
      exact Finset.sum_congr rfl fun b _ => by rw [one_mul]
    · refine Eq.trans ?_ (sum_quadU dofs.points dofs.ny hd.ylen (fun _ => 1) (fun b => v (dofs.points.length + b)) 1 _ (by simp [ev2]) (fun b p hb => by
        have := hv.value 1 (by omega) b p hb
        rwa [Nat.one_mul] at this))
      exact Finset.sum_congr rfl fun b _ => by rw [one_mul]
  · rw [hW.other v i h0 hi, hv.div i h0 hi]

/-- The coefficients of the divergence of a velocity. -/
theorem div_exact {u : ℝ × ℝ → ℝ × ℝ} {hu : ∀ d : Nat, IntegrableOn (fun p => pick (u p) d) (unionOf tris)} {P : MvPolynomial (Fin 2) ℝ} {v : Nat → ℝ}
    (hd : Discrete k internal dofs) (hh : h ≠ 0) (hmk : m ≤ k) (hv : VelOk k m n V c h tris internal bnd dofs u hu P v) {W X : DMat ℝ} (hW : WOk k m dofs.points.length dofs W)
    (hX : VOk k m dofs.points.length c h internal W X) : combo k c h (tri (m + 1)) (act X X.cols v) = P :=
  combo_eq_of_moments hd hh hmk _ hv.degree fun i hi => by rw [hX.solves v i hi, w_mean hd hv hW hi]

/-! ## The moments -/

structure COk (k m n : Nat) (V : Nat → ℝ × ℝ) (c : ℝ × ℝ) (h : ℝ) (tris : List (Tri2 ℝ)) (internal : Rule (ℝ × ℝ) ℝ) (bnd dofs : EdgesRule ℝ) (d : Nat) (A : DMat ℝ) : Prop where
  rows : A.rows = tri (k + 1)
  cols : A.cols = 2 * dofs.points.length + (tri (k - 2) + (tri (m + 1) - 1))
  act : ∀ u hu P v, VelOk k m n V c h tris internal bnd dofs u hu P v → ∀ a b, a + b ≤ k → act A A.cols v (rank2 [a, b])
    = h * (1 / ((a : ℝ) + b + 1) * (intU tris (hu 0) (pderiv 0 (basisPoly (k + 1) c h (gradIdx d a b))) + intU tris (hu 1) (pderiv 1 (basisPoly (k + 1) c h (gradIdx d a b)))))
      + if swirlIdx d a b < tri (k - 2) then decCoef d a b * (intU tris (hu 0) (gPoly k c h 0 (swirlIdx d a b)) + intU tris (hu 1) (gPoly k c h 1 (swirlIdx d a b))) else 0

theorem dfC_ok (hs : DfInitOk k m n V c h internal bnd.points dofs.points s) (hd : Discrete k internal dofs) (hh : h ≠ 0) (hmk : m ≤ k) (hg : DecOk k g)
    (hx : bnd.nx.length = bnd.points.length) (hy : bnd.ny.length = bnd.points.length) {W X : DMat ℝ} (hW : WOk k m dofs.points.length dofs W)
    (hX : VOk k m dofs.points.length c h internal W X) {d : Nat} (hdd : d < 2) :
    ∃ A, dfC g h s bnd X d = .ok A ∧ COk k m n V c h tris internal bnd dofs d A := by
  set L := dofs.points.length with hL
  have hp := tri_pos (show 0 < k + 2 by omega)
  have hle : tri (k - 2) ≤ tri k := tri_le (by omega)
  have hle2 : tri (m + 1) ≤ tri (k + 1) := tri_le (by omega)
  have hle3 : tri (k + 1) ≤ tri (k + 2) := tri_le (by omega)
  unfold dfC
  rw [hs.nv, hs.nk, hs.nkp1, hs.nkm3, hs.numBasis, hs.numBoundary, hs.numBig, hs.nDiv]
  rw [DMat.block_ok _ _ _ _ _ (by show _ ≤ g.Nk; rw [hg.nk]; omega) (by show _ ≤ g.Nkp1; rw [hg.nkp1]; omega), except_ok_bind,
    DMat.block_ok _ _ _ _ _ (by omega) (by rw [hs.vBndK.cols]; omega), except_ok_bind, DMat.mul_ok _ _ (by rfl), except_ok_bind,
    DMat.mulDiag_ok _ _ (by dsimp only [DMat.tr]; rw [hs.vBndK.rows, hx]), except_ok_bind,
    DMat.mul_ok _ _ (by dsimp only [DMat.tr]; rw [hs.vBndK.rows, hs.proj.rows]), except_ok_bind,
    DMat.assign_ok _ _ _ _ _ _ (by rfl) (by exact hs.proj.cols) (by dsimp only [DMat.zero]; omega) (by dsimp only [DMat.zero]; omega), except_ok_bind,
    DMat.mulDiag_ok _ _ (by dsimp only [DMat.tr]; rw [hs.vBndK.rows, hy]), except_ok_bind,
    DMat.mul_ok _ _ (by dsimp only [DMat.tr]; rw [hs.vBndK.rows, hs.proj.rows]), except_ok_bind,
    DMat.assign_ok _ _ _ _ _ _ (by rfl) (by exact hs.proj.cols) (by dsimp only [DMat.zero]; omega) (by dsimp only [DMat.zero]; omega), except_ok_bind,
    DMat.block_ok _ _ _ _ _ (by show _ ≤ g.Nk; rw [hg.nk]; omega) (by show _ ≤ (if (1 : Nat) = 0 then g.Nkp1 else g.Nkm1); rw [if_neg one_ne_zero, hg.nkm1]; omega), except_ok_bind,
    addBlock_ok _ _ _ _ _ _ (by rfl) (by rfl) (by dsimp only [DMat.zero]; omega) (by dsimp only [DMat.zero]; omega), except_ok_bind,
    DMat.block_ok _ _ _ _ _ (by rw [hs.pRows]; omega) (by rw [hs.pCols]; omega), except_ok_bind, DMat.mul_ok _ _ (by rfl), except_ok_bind,
    DMat.mul_ok _ _ (by dsimp only; rw [hX.rows]), except_ok_bind, DMat.add_ok _ _ (by rfl) (by dsimp only [DMat.zero]; rw [hX.cols])]
  refine ⟨_, rfl, rfl, rfl, ?_⟩
  intro u hu P v hv a b hab
  have hi : rank2 [a, b] < tri (k + 1) := rank2_lt k hab
  set i := rank2 [a, b] with hidef
  have hP := div_exact hd hh hmk hv hW hX
  unfold act
  dsimp only [DMat.zero, DMat.tr, DMat.smul]
  rw [← hL]
  -- the two boundary parts
  have hbnd : ∀ (wn : List ℝ) (y : Nat → ℝ) (d' : Nat), wn.length = bnd.points.length →
      (∀ (b : Nat) (p : ℝ × ℝ), dofs.points[b]? = some p → y b = pick (u p) d') →
      ∑ b ∈ Finset.range L, (∑ r ∈ Finset.range s.vanderBndKp1.rows, (∑ q ∈ Finset.range (tri (k + 2) - 1), h * (dfDec g d 0).ent (0 + i) (1 + q) * s.vanderBndKp1.ent (0 + r) (1 + q)) *
        wn.getD r 0 * s.edgeProj.ent r b) * y b
      = h * ∑ q ∈ Finset.range (tri (k + 2) - 1), (dfDec g d 0).ent i (1 + q) * quadU bnd.points wn (fun p => pick (u p) d') (basisPoly (k + 1) c h (1 + q)) := by
    intro wn y d' hwn hy'
    rw [Finset.sum_congr rfl fun b _ => Finset.sum_mul _ _ _, Finset.sum_comm]
    have : ∀ r ∈ Finset.range s.vanderBndKp1.rows, ∑ b ∈ Finset.range L, (∑ q ∈ Finset.range (tri (k + 2) - 1), h * (dfDec g d 0).ent (0 + i) (1 + q) * s.vanderBndKp1.ent (0 + r) (1 + q)) *
        wn.getD r 0 * s.edgeProj.ent r b * y b
        = ∑ q ∈ Finset.range (tri (k + 2) - 1), h * ((dfDec g d 0).ent i (1 + q) * (s.vanderBndKp1.ent r (1 + q) * wn.getD r 0 * ∑ b ∈ Finset.range L, s.edgeProj.ent r b * y b)) := by
      intro r _
      rw [Finset.sum_congr rfl fun b _ => mul_assoc _ _ _, ← Finset.mul_sum, Finset.sum_mul, Finset.sum_mul]
      simp only [zero_add]
      exact Finset.sum_congr rfl fun q _ => by ring
    rw [Finset.sum_congr rfl this, Finset.sum_comm, Finset.mul_sum]
    refine Finset.sum_congr rfl fun q hq => ?_
    have hq := Finset.mem_range.1 hq
    rw [← Finset.mul_sum, ← Finset.mul_sum, hs.vBndK.rows]
    congr 2
    exact sum_quadU bnd.points wn hwn (fun r => s.vanderBndKp1.ent r (1 + q)) (fun r => ∑ b ∈ Finset.range L, s.edgeProj.ent r b * y b) _ (fun p => pick (u p) d')
      (fun r p hr => hs.vBndK.ent r p hr (1 + q) (by omega)) (fun r p hr => hs.proj.interp (fun p => pick (u p) d') (hv.trace d') y hy' r p hr)
  -- the part of the divergence
  have hdiv : ∑ b ∈ Finset.range (2 * L + (tri (k - 2) + (tri (m + 1) - 1))), (∑ t ∈ Finset.range (tri (m + 1)), (∑ q ∈ Finset.range (tri (k + 2) - 1),
        -h * (dfDec g d 0).ent (0 + i) (1 + q) * s.HKp1.ent (1 + q) (0 + t)) * X.ent t b) * v b
      = -(h * ∑ q ∈ Finset.range (tri (k + 2) - 1), (dfDec g d 0).ent i (1 + q) * quadLin internal.points internal.weights (basisPoly (k + 1) c h (1 + q) * P)) := by
    rw [Finset.sum_congr rfl fun b _ => Finset.sum_mul _ _ _, Finset.sum_comm]
    have : ∀ t ∈ Finset.range (tri (m + 1)), ∑ b ∈ Finset.range (2 * L + (tri (k - 2) + (tri (m + 1) - 1))), (∑ q ∈ Finset.range (tri (k + 2) - 1),
        -h * (dfDec g d 0).ent (0 + i) (1 + q) * s.HKp1.ent (1 + q) (0 + t)) * X.ent t b * v b
        = ∑ q ∈ Finset.range (tri (k + 2) - 1), -h * ((dfDec g d 0).ent i (1 + q) * (s.HKp1.ent (1 + q) t * PolyDiM.act X X.cols v t)) := by
      intro t _
      rw [Finset.sum_congr rfl fun b _ => mul_assoc _ _ _, ← Finset.mul_sum, Finset.sum_mul]
      simp only [zero_add]
      refine Finset.sum_congr rfl fun q _ => ?_
      unfold act
      rw [hX.cols]
      ring
    rw [Finset.sum_congr rfl this, Finset.sum_comm, Finset.mul_sum, ← Finset.sum_neg_distrib]
    refine Finset.sum_congr rfl fun q hq => ?_
    have hq := Finset.mem_range.1 hq
    rw [← Finset.mul_sum, ← Finset.mul_sum, neg_mul]
    congr 3
    conv_rhs => rw [← hP, quadLin_combo]
    refine Finset.sum_congr rfl fun t ht => ?_
    have ht := Finset.mem_range.1 ht
    rw [hs.pEnt (1 + q) (by omega) t (by omega), basis_mono (Nat.le_succ k) c h (j := t) (by omega)]
  rw [Finset.sum_congr rfl fun b _ => add_mul _ _ _, Finset.sum_add_distrib, hdiv, sum4]
  rw [Finset.sum_eq_zero (s := Finset.range (tri (m + 1) - 1)), add_zero]
  swap
  · intro l _
    rw [if_neg (by omega), if_neg (by omega), if_neg (by omega), zero_mul]
  have hsw : ∑ l ∈ Finset.range (tri (k - 2)), (dfDec g d 1).ent i (0 + l) * v (2 * L + l)
      = if swirlIdx d a b < tri (k - 2) then decCoef d a b * (intU tris (hu 0) (gPoly k c h 0 (swirlIdx d a b)) + intU tris (hu 1) (gPoly k c h 1 (swirlIdx d a b))) else 0 := by
    have := dec_swirl hg hab hdd 0 (tri (k - 2)) (fun l => intU tris (hu 0) (gPoly k c h 0 l) + intU tris (hu 1) (gPoly k c h 1 l))
    simp only [Nat.zero_le, true_and, zero_add] at this ⊢
    rw [← this]
    exact Finset.sum_congr rfl fun l hl => by rw [← hv.swirl l (Finset.mem_range.1 hl)]
  have h1 := hbnd bnd.nx v 0 hx (fun b p hb => by
    have := hv.value 0 (by omega) b p hb
    rwa [Nat.zero_mul, Nat.zero_add] at this)
  have h2 := hbnd bnd.ny (fun b => v (L + b)) 1 hy (fun b p hb => by
    have := hv.value 1 (by omega) b p hb
    rwa [Nat.one_mul] at this)
  have hgr := dec_grad hg hab hdd (fun q => intU tris (hu 0) (pderiv 0 (basisPoly (k + 1) c h q)) + intU tris (hu 1) (pderiv 1 (basisPoly (k + 1) c h q)))
  rw [← hgr, ← hsw]
  have hgr2 : ∑ q ∈ Finset.range (tri (k + 2) - 1), (dfDec g d 0).ent (rank2 [a, b]) (1 + q) * (intU tris (hu 0) (pderiv 0 (basisPoly (k + 1) c h (1 + q))) +
        intU tris (hu 1) (pderiv 1 (basisPoly (k + 1) c h (1 + q))))
      = ∑ q ∈ Finset.range (tri (k + 2) - 1), (dfDec g d 0).ent i (1 + q) * quadU bnd.points bnd.nx (fun p => pick (u p) 0) (basisPoly (k + 1) c h (1 + q))
        + ∑ q ∈ Finset.range (tri (k + 2) - 1), (dfDec g d 0).ent i (1 + q) * quadU bnd.points bnd.ny (fun p => pick (u p) 1) (basisPoly (k + 1) c h (1 + q))
        - ∑ q ∈ Finset.range (tri (k + 2) - 1), (dfDec g d 0).ent i (1 + q) * quadLin internal.points internal.weights (basisPoly (k + 1) c h (1 + q) * P) := by
    rw [← Finset.sum_add_distrib, ← Finset.sum_sub_distrib]
    refine Finset.sum_congr rfl fun q hq => ?_
    rw [← hv.green (1 + q) (by have := Finset.mem_range.1 hq; omega)]
    ring
  rw [hgr2]
  refine (congrArg₂ (· + ·) (congrArg₂ (· + ·) (congrArg₂ (· + ·) ((Finset.sum_congr rfl fun b hb => ?_).trans h1) ((Finset.sum_congr rfl fun b hb => ?_).trans h2))
    (Finset.sum_congr rfl fun l hl => ?_)) rfl).trans (b := h * _ + h * _ + ∑ l ∈ Finset.range (tri (k - 2)), (dfDec g d 1).ent i (0 + l) * v (2 * L + l) + _) ?_
  · have hb := Finset.mem_range.1 hb
    rw [if_neg (by omega), if_neg (by omega), if_pos (by omega), Nat.sub_zero, Nat.sub_zero]
  · have hb := Finset.mem_range.1 hb
    rw [if_neg (by omega), if_pos (by omega), Nat.sub_zero, Nat.add_sub_cancel_left]
  · have hl := Finset.mem_range.1 hl
    rw [if_pos (by omega), if_neg (by omega), if_neg (by omega), zero_add, Nat.sub_zero, Nat.add_sub_cancel_left, zero_add i]
  · ring

end PolyDiM
