import Verif.Lemmas.VemPerformance
import Verif.Props.VemOrthoEval

/-!
# The analysis of a local VEM space
-/

namespace PolyDiM

open Spec Finset

section

variable {sqrt : ℝ → ℝ} {N M L : Nat} {s : PerfInput ℝ} {der : List (DMat ℝ)} {TX TY X Y EX EY S : DMat ℝ} {r : PerfData ℝ}

/-- C138: on data of fitting sizes every number the analysis reports is zero exactly if its identity between matrices holds. -/
theorem C138_meaning (hsq : ∀ x, 0 ≤ x → sqrt x * sqrt x = x) (hs : PerfSizes N M L s der TX TY X Y EX EY) (hS : Sized S L L)
    (h : vemPerformance sqrt der (.ok S) s = .ok r) :
    (r.errPiNabla = 0 ↔ ∀ i < N, ∀ j < N, ∑ l ∈ range L, s.piNabla.ent i l * s.D.ent l j = if i = j then 1 else 0) ∧
    (r.errPi0km1 = 0 ↔ ∀ i < M, ∀ j < M, ∑ l ∈ range L, s.pi0km1.ent i l * s.D.ent l j = if i = j then 1 else 0) ∧
    (r.errPi0k = 0 ↔ ∀ i < N, ∀ j < N, ∑ l ∈ range L, s.pi0k.ent i l * s.D.ent l j = if i = j then 1 else 0) ∧
    (∃ gx gy, r.errGrad = [gx, gy] ∧
      (gx = 0 ↔ ∀ i < M, ∀ j < N, ∑ l ∈ range L, X.ent i l * s.D.ent l j
        = 1 / s.diameter * ∑ b ∈ range M, (∑ a ∈ range N, s.q.ent j a * TX.ent a b) * s.qInv.ent b i) ∧
      (gy = 0 ↔ ∀ i < M, ∀ j < N, ∑ l ∈ range L, Y.ent i l * s.D.ent l j
        = 1 / s.diameter * ∑ b ∈ range M, (∑ a ∈ range N, s.q.ent j a * TY.ent a b) * s.qInv.ent b i)) ∧
    (r.stabNorm = 0 ↔ ∀ i < L, ∀ j < L, S.ent i j = 0) ∧
    (r.errStab = 0 ↔ ∀ i < L, ∀ j < N, ∑ l ∈ range L, S.ent i l * s.D.ent l j = 0) ∧
    (r.errHCD = 0 ↔ ∀ i < N, ∀ j < N, s.H.ent i j = ∑ l ∈ range L, s.C.ent i l * s.D.ent l j) ∧
    (r.errGBD = 0 ↔ ∀ i < N, ∀ j < N, s.G.ent i j = ∑ l ∈ range L, s.B.ent i l * s.D.ent l j) ∧
    ∃ hx hy, r.errHED = [hx, hy] ∧
      (hx = 0 ↔ ∀ i < M, ∀ j < N, 1 / s.diameter * ∑ b ∈ range M, TX.ent j b * s.H.ent b i = ∑ l ∈ range L, EX.ent i l * s.D.ent l j) ∧
      (hy = 0 ↔ ∀ i < M, ∀ j < N, 1 / s.diameter * ∑ b ∈ range M, TY.ent j b * s.H.ent b i = ∑ l ∈ range L, EY.ent i l * s.D.ent l j) := by
  have hN : 0 < N := lt_of_lt_of_le hs.pos hs.le
  have hders : s.ders.length = 2 := by rw [hs.ders]; rfl
  unfold vemPerformance at h
  obtain ⟨inv, hinv, h⟩ := (bind_ok_iff _ _ _).1 h
  dsimp only at h
  obtain ⟨P1, hP1, h⟩ := (bind_ok_iff _ _ _).1 h
  obtain ⟨e1, h1, h⟩ := (bind_ok_iff _ _ _).1 h
  obtain ⟨Dl, hDl, h⟩ := (bind_ok_iff _ _ _).1 h
  obtain ⟨P2, hP2, h⟩ := (bind_ok_iff _ _ _).1 h
  obtain ⟨one1, hone, h⟩ := (bind_ok_iff _ _ _).1 h
  obtain ⟨e2, h2, h⟩ := (bind_ok_iff _ _ _).1 h
  obtain ⟨P3, hP3, h⟩ := (bind_ok_iff _ _ _).1 h
  obtain ⟨e3, h3, h⟩ := (bind_ok_iff _ _ _).1 h
  obtain ⟨grad, hgrad, h⟩ := (bind_ok_iff _ _ _).1 h
  rw [except_ok_bind] at h
  obtain ⟨SD, hSD, h⟩ := (bind_ok_iff _ _ _).1 h
  obtain ⟨e4, h4, h⟩ := (bind_ok_iff _ _ _).1 h
  obtain ⟨e5, h5, h⟩ := (bind_ok_iff _ _ _).1 h
  obtain ⟨hed, hhed, h⟩ := (bind_ok_iff _ _ _).1 h
  cases h
  rw [hders] at hgrad hhed
  obtain ⟨gx, gy, rfl, hgx, hgy⟩ := mapM_range_two_inv _ hgrad
  obtain ⟨hx, hy, rfl, hhx, hhy⟩ := mapM_range_two_inv _ hhed
  unfold normQuotient at hinv
  split_ifs at hinv
  cases hinv
  rw [DMat.mul_ok _ _ (hs.piNabla.2.trans hs.D.1.symm)] at hP1
  cases hP1
  rw [DMat.mul_ok _ _ (hs.pi0k.2.trans hs.D.1.symm)] at hP3
  cases hP3
  rw [DMat.mul_ok _ _ (hS.2.trans hs.D.1.symm)] at hSD
  cases hSD
  unfold DMat.block at hDl hone
  split_ifs at hDl hone
  cases hDl
  cases hone
  rw [DMat.mul_ok s.pi0km1 _ (by exact hs.pi0km1.2.trans hs.D.1.symm)] at hP2
  cases hP2
  refine ⟨?_, ?_, ?_, ⟨gx, gy, rfl, ?_, ?_⟩, ?_, ?_, perfProduct_inv hsq hN hs.basis hs.H hs.C h4, perfProduct_inv hsq hN hs.basis hs.G hs.B h5, hx, hy, rfl, ?_, ?_⟩
  · rw [relativeError_inv hsq h1, hs.piNabla.1, hs.piNabla.2, hs.D.2]
    rfl
  · rw [relativeError_inv hsq h2, hs.pi0km1.1, hs.pi0km1.2]
    simp only [Nat.zero_add, DMat.identity]
  · rw [relativeError_inv hsq h3, hs.pi0k.1, hs.pi0k.2, hs.D.2]
    rfl
  · exact perfGrad_inv hsq hs.q hs.x hs.D hs.pi0km1.1 (by rw [hs.ders]; rfl) (by rw [hs.der]; rfl) hgx
  · exact perfGrad_inv hsq hs.q hs.y hs.D hs.pi0km1.1 (by rw [hs.ders]; rfl) (by rw [hs.der]; rfl) hgy
  · rw [frobenius_eq_zero hsq, hS.1, hS.2]
  · rw [frobenius_eq_zero hsq, hS.1, hS.2, hs.D.2]
  · exact perfHED_inv hsq hs.eX hs.piNabla.1 hs.nkm1 (by rw [hs.Es]; rfl) (by rw [hs.der]; rfl) hhx
  · exact perfHED_inv hsq hs.eY hs.piNabla.1 hs.nkm1 (by rw [hs.Es]; rfl) (by rw [hs.der]; rfl) hhy

/-- Data whose matrices are all `(1)`. -/
example : ∃ (s : PerfInput ℝ) (r : PerfData ℝ), PerfSizes 1 1 1 s [.identity 1, .identity 1] (.identity 1) (.identity 1) (.identity 1) (.identity 1) (.identity 1) (.identity 1) ∧
    vemPerformance Real.sqrt [.identity 1, .identity 1] (.ok (.identity 1)) s = .ok r ∧ r.errPiNabla = 0 ∧ r.stabNorm ≠ 0 := by
  obtain ⟨s, hs⟩ : ∃ s : PerfInput ℝ, s = ⟨1, 1, 1, .identity 1, .identity 1, .identity 1, .identity 1, .identity 1, .identity 1, [.identity 1, .identity 1], .identity 1,
    .identity 1, .identity 1, .identity 1, [.identity 1, .identity 1]⟩ := ⟨_, rfl⟩
  have hsz : PerfSizes 1 1 1 s [.identity 1, .identity 1] (.identity 1) (.identity 1) (.identity 1) (.identity 1) (.identity 1) (.identity 1) := by
    subst hs
    constructor <;> first | rfl | exact ⟨rfl, rfl⟩ | omega
  have hsq : ∀ x : ℝ, 0 ≤ x → Real.sqrt x * Real.sqrt x = x := fun x hx => Real.mul_self_sqrt hx
  have h1 : ∃ i < 1, ∃ j < 1, ∑ b ∈ range 1, (DMat.identity 1 : DMat ℝ).ent j b * (DMat.identity 1 : DMat ℝ).ent b i ≠ 0 := ⟨0, one_pos, 0, one_pos, by simp [DMat.identity]⟩
  obtain ⟨r, hr⟩ := perf_ok hsq hsz (S := .identity 1) ⟨rfl, rfl⟩ (by subst hs; exact one_ne_zero) ⟨0, one_pos, 0, one_pos, by subst hs; exact one_ne_zero⟩
    ⟨0, one_pos, 0, one_pos, by subst hs; exact one_ne_zero⟩ (fun _ _ h => absurd h (lt_irrefl 1))
    (by
      intro T hT
      obtain rfl : T = .identity 1 := by simpa using hT
      subst hs
      exact h1)
  obtain ⟨m1, -, -, -, m5, -⟩ := C138_meaning hsq hsz ⟨rfl, rfl⟩ hr
  refine ⟨s, r, hsz, hr, m1.2 ?_, fun h0 => ?_⟩
  · intro i hi j hj
    obtain rfl : i = 0 := by omega
    obtain rfl : j = 0 := by omega
    subst hs
    simp [DMat.identity]
  · exact one_ne_zero (m5.1 h0 0 one_pos 0 one_pos)

/-- If the projectors fit the DOFs of the polynomials, the analysis succeeds and reports no error but perhaps the last ones. -/
theorem perf_zero (hsq : ∀ x, 0 ≤ x → sqrt x * sqrt x = x) (hs : PerfSizes N M L s der TX TY X Y EX EY) (hd : s.diameter ≠ 0)
    (hstab : dofiDofi s.piNabla 1 s.D = .ok S)
    (hG : ∃ i < N, ∃ j < N, s.G.ent i j ≠ 0) (hH : ∃ i < N, ∃ j < N, s.H.ent i j ≠ 0)
    (hgrad : ∀ T ∈ [TX, TY], 1 < M → ∃ i < M, ∃ j < N, ∑ b ∈ range M, (∑ a ∈ range N, s.q.ent j a * T.ent a b) * s.qInv.ent b i ≠ 0)
    (hhed : ∀ T ∈ [TX, TY], ∃ i < M, ∃ j < N, ∑ b ∈ range M, T.ent j b * s.H.ent b i ≠ 0)
    (h1 : ∀ i < N, ∀ j < N, ∑ l ∈ range L, s.piNabla.ent i l * s.D.ent l j = if i = j then 1 else 0)
    (h2 : ∀ i < M, ∀ j < M, ∑ l ∈ range L, s.pi0km1.ent i l * s.D.ent l j = if i = j then 1 else 0)
    (h3 : ∀ i < N, ∀ j < N, ∑ l ∈ range L, s.pi0k.ent i l * s.D.ent l j = if i = j then 1 else 0)
    (hx : ∀ i < M, ∀ j < N, ∑ l ∈ range L, X.ent i l * s.D.ent l j = 1 / s.diameter * ∑ b ∈ range M, (∑ a ∈ range N, s.q.ent j a * TX.ent a b) * s.qInv.ent b i)
    (hy : ∀ i < M, ∀ j < N, ∑ l ∈ range L, Y.ent i l * s.D.ent l j = 1 / s.diameter * ∑ b ∈ range M, (∑ a ∈ range N, s.q.ent j a * TY.ent a b) * s.qInv.ent b i)
    (hC : ∀ i < N, ∀ j < N, s.H.ent i j = ∑ l ∈ range L, s.C.ent i l * s.D.ent l j) (hB : Solves s.G s.B s.piNabla) :
    ∃ r, vemPerformance sqrt der (.ok S) s = .ok r ∧ NoErrorsButHED r ∧
      ∃ ex ey, r.errHED = [ex, ey] ∧
        (ex = 0 ↔ ∀ i < M, ∀ j < N, 1 / s.diameter * ∑ b ∈ range M, TX.ent j b * s.H.ent b i = ∑ l ∈ range L, EX.ent i l * s.D.ent l j) ∧
        (ey = 0 ↔ ∀ i < M, ∀ j < N, 1 / s.diameter * ∑ b ∈ range M, TY.ent j b * s.H.ent b i = ∑ l ∈ range L, EY.ent i l * s.D.ent l j) := by
  have hS : Sized S L L := by
    unfold dofiDofi at hstab
    obtain ⟨P, hP, hstab⟩ := (bind_ok_iff _ _ _).1 hstab
    unfold DMat.mul at hP
    split_ifs at hP
    cases hP
    unfold DMat.mul at hstab
    dsimp only at hstab
    split_ifs at hstab
    cases hstab
    exact ⟨hs.piNabla.2, hs.piNabla.2⟩
  obtain ⟨r, hr⟩ := perf_ok hsq hs hS hd hG hH hgrad hhed
  obtain ⟨m1, m2, m3, ⟨gx, gy, hg, mx, my⟩, -, m5, m6, m7, m8⟩ := C138_meaning hsq hs hS hr
  refine ⟨r, hr, ⟨m1.2 h1, m2.2 h2, m3.2 h3, by rw [hg, mx.2 hx, my.2 hy], m5.2 fun i hi j hj => ?_, m6.2 hC, m7.2 fun i hi j hj => ?_⟩, m8⟩
  · have hPe : s.piNabla = ⟨N, L, s.piNabla.ent⟩ := by
      obtain ⟨a, b⟩ := hs.piNabla
      cases hp : s.piNabla
      rw [hp] at a b
      cases a
      cases b
      rfl
    have hDe : s.D = ⟨L, N, s.D.ent⟩ := by
      obtain ⟨a, b⟩ := hs.D
      cases hp : s.D
      rw [hp] at a b
      cases a
      cases b
      rfl
    obtain ⟨S', hS', h⟩ := C50_dofi_polynomials N L s.piNabla.ent s.D.ent 1 (fun q => if q = j then 1 else 0) (by
      intro l hl
      have : ∀ b, ∑ q ∈ range N, s.D.ent b q * (if q = j then 1 else 0) = s.D.ent b j := fun b => by simp [hj]
      simp only [this]
      exact h1 l hl j hj)
    rw [← hPe, ← hDe, hstab] at hS'
    cases hS'
    have := h i hi
    have e : ∀ b, ∑ q ∈ range N, s.D.ent b q * (if q = j then 1 else 0) = s.D.ent b j := fun b => by simp [hj]
    simpa only [e] using this
  · have := solves_apply hB (fun b => s.D.ent b j) (i := i) (by rw [hs.G.1]; exact hi)
    rw [hs.G.2, hs.B.2] at this
    rw [← this, sum_eq_single j]
    · rw [h1 j hj j hj, if_pos rfl, mul_one]
    · intro l hl hne
      rw [h1 l (mem_range.1 hl) j hj, if_neg hne, mul_zero]
    · intro hn
      exact absurd (mem_range.2 hj) hn

end

section

open MvPolynomial MeasureTheory

variable {k n : Nat} {V : Nat → ℝ × ℝ} {len : Nat → ℝ} {dir : Nat → Bool} {nrm : Nat → ℝ × ℝ} {poly : VemPolygon ℝ}
  {triangle : Nat → Rule (ℝ × ℝ) ℝ} {edge : Nat → Rule ℝ ℝ} {ts ws : List ℝ} {w : ℝ} {lu llt : Solver ℝ} {lib : OrthoLib ℝ} {s : VemSpace2D ℝ} {t : OrthoSpace2D ℝ}
  {sqrt : ℝ → ℝ}

/-- The derivative of some monomial does not vanish. -/
theorem der_ne_zero (hk : 1 ≤ k) (d : Fin 2) : ∃ i < tri k, ∃ j < tri (k + 1), ((compute mono2 k).der d j i : ℝ) ≠ 0 := by
  by_contra hcon
  push Not at hcon
  obtain ⟨y, hy⟩ := basisPoly_span k (0, 0) 1 one_ne_zero (le_refl k) (MvPolynomial.X d) (by rw [totalDegree_X]; exact hk)
  have h1 : pderiv d (MvPolynomial.X d : MvPolynomial (Fin 2) ℝ) = 1 := pderiv_X_self d
  rw [hy, map_sum, sum_eq_zero] at h1
  · exact zero_ne_one h1
  · intro j hj
    have hj := mem_range.1 hj
    rw [Derivation.leibniz, pderiv_C, smul_zero, add_zero, basisPoly_pderiv k _ _ (by rw [num2_eq]; exact hj) hj le_rfl d, sum_eq_zero, smul_zero]
    intro l hl
    rw [hcon l (mem_range.1 hl) j hj, zero_div, C_0, zero_mul]

theorem combo_single (c : ℝ × ℝ) (h : ℝ) {M j : Nat} (hj : j < M) : basisPoly k c h j = combo k c h M fun l => if l = j then 1 else 0 := by
  unfold combo
  rw [sum_eq_single j]
  · simp
  · intro l _ hl
    simp [hl]
  · intro hn
    exact absurd (mem_range.2 hj) hn

/-- The projections of the columns of the matrix of DOFs. -/
theorem mono_columns (hE : IsElement poly n V len dir nrm) (hT : IsTables k triangle edge ts ws w) (hlu : SolvesRegular lu) (hllt : SolvesPosDef llt)
    {ref : VemRef2D ℝ} (hr : vemRef2D triangle edge k = .ok ref) (hc : vemCreate2D lu llt ref poly = .ok s) {j : Nat} (hj : j < tri (k + 1)) :
    (∀ i < tri (k + 1), apply s.piNabla (fun r => s.D.ent r j) i = if i = j then 1 else 0) ∧
    (∀ i < tri (k + 1), apply s.pi0k (fun r => s.D.ent r j) i = if i = j then 1 else 0) ∧
    (j < tri k → ∀ i < tri k, apply s.pi0km1 (fun r => s.D.ent r j) i = if i = j then 1 else 0) ∧
    (∀ i < tri k, apply s.derX (fun r => s.D.ent r j) i = ((compute mono2 k).der 0 j i : ℝ) / poly.diameter) ∧
    ∀ i < tri k, apply s.derY (fun r => s.D.ent r j) i = ((compute mono2 k).der 1 j i : ℝ) / poly.diameter := by
  have hk := hT.low
  have hkk : k - 1 + 1 = k := by omega
  have hh := hE.diameter
  obtain ⟨r0, s0, hr0, hs0, _, _, e0⟩ := C51_dofs hE hT hlu hllt
  obtain ⟨r1, s1, hr1, hs1, _, _, e1⟩ := C51_exact hE hT hlu hllt
  obtain ⟨r2, s2, hr2, hs2, _, _, e2⟩ := C52_pi0k hE hT hlu hllt
  obtain ⟨r3, s3, hr3, hs3, _, _, e3⟩ := C52_pi0km1 hE hT hlu hllt
  obtain ⟨r4, s4, hr4, hs4, _, _, _, _, e4⟩ := C71_derivatives hE hT hlu hllt
  obtain rfl : r0 = ref := Except.ok.inj (hr0.symm.trans hr)
  obtain rfl : s0 = s := Except.ok.inj (hs0.symm.trans hc)
  obtain rfl : r1 = r0 := Except.ok.inj (hr1.symm.trans hr)
  obtain rfl : s1 = s0 := Except.ok.inj (hs1.symm.trans hc)
  obtain rfl : r2 = r1 := Except.ok.inj (hr2.symm.trans hr)
  obtain rfl : s2 = s1 := Except.ok.inj (hs2.symm.trans hc)
  obtain rfl : r3 = r2 := Except.ok.inj (hr3.symm.trans hr)
  obtain rfl : s3 = s2 := Except.ok.inj (hs3.symm.trans hc)
  obtain rfl : r4 = r3 := Except.ok.inj (hr4.symm.trans hr)
  obtain rfl : s4 = s3 := Except.ok.inj (hs4.symm.trans hc)
  obtain ⟨a, b, hab, hp⟩ := exists_position hj
  have hd : (basisPoly k poly.centroid poly.diameter j).totalDegree ≤ k := basisPoly_degree k _ _ (by rw [num2_eq]; exact hj) hj
  have hv : IsDofVector k poly n V dir ts (fun p => eval ![p.1, p.2] (basisPoly k poly.centroid poly.diameter j)) fun r => s4.D.ent r j := by
    have := e0 a b hab
    rw [hp] at this
    have e : (fun p : ℝ × ℝ => eval ![p.1, p.2] (basisPoly k poly.centroid poly.diameter j)) = scaledMonomial poly.centroid poly.diameter a b := by
      funext p
      rw [← ev2_basis_position k _ _ hab, hp]
    rw [e]
    exact this
  refine ⟨?_, ?_, fun hj' => ?_, ?_, ?_⟩
  · refine combo_ext (c := poly.centroid) hh le_rfl (ev2_ext fun p => ?_)
    rw [ev2_combo k _ _ le_rfl, e1 _ hd _ hv, ← combo_single _ _ hj]
  · refine combo_ext (c := poly.centroid) hh le_rfl (ev2_ext fun p => ?_)
    rw [ev2_combo k _ _ le_rfl, e2 _ hd _ hv, ← combo_single _ _ hj]
  · have hd' : (basisPoly k poly.centroid poly.diameter j).totalDegree ≤ k - 1 := basisPoly_degree k _ _ (by rw [num2_eq]; exact hj) (by rw [hkk]; exact hj')
    have := combo_ext (k := k) (c := poly.centroid) hh (show k - 1 ≤ k by omega) (x := apply s4.pi0km1 fun r => s4.D.ent r j) (y := fun i => if i = j then 1 else 0)
      (ev2_ext fun p => by
        rw [ev2_combo k _ _ (by omega), (e3 _ hd _ hv).2 hd', ← combo_single _ _ (by rw [hkk]; exact hj')])
    rw [hkk] at this
    exact this
  · have := combo_ext (k := k) (c := poly.centroid) hh (show k - 1 ≤ k by omega) (x := apply s4.derX fun r => s4.D.ent r j)
      (y := fun i => ((compute mono2 k).der 0 j i : ℝ) / poly.diameter) (ev2_ext fun p => by
        rw [ev2_combo k _ _ (by omega), (e4 _ hd _ hv p).1, basisPoly_pderiv k _ _ (by rw [num2_eq]; exact hj) hj le_rfl 0, hkk]
        rfl)
    rw [hkk] at this
    exact this
  · have := combo_ext (k := k) (c := poly.centroid) hh (show k - 1 ≤ k by omega) (x := apply s4.derY fun r => s4.D.ent r j)
      (y := fun i => ((compute mono2 k).der 1 j i : ℝ) / poly.diameter) (ev2_ext fun p => by
        rw [ev2_combo k _ _ (by omega), (e4 _ hd _ hv p).2, basisPoly_pderiv k _ _ (by rw [num2_eq]; exact hj) hj le_rfl 1, hkk]
        rfl)
    rw [hkk] at this
    exact this

/-- C139: for the space with monomials the analysis succeeds and every error is zero. -/
theorem C139_monomials (hE : IsElement poly n V len dir nrm) (hT : IsTables k triangle edge ts ws w) (hlu : SolvesRegular lu) (hllt : SolvesPosDef llt)
    (hsq : ∀ x, 0 ≤ x → sqrt x * sqrt x = x) :
    ∃ ref s r, vemRef2D triangle edge k = .ok ref ∧ vemCreate2D lu llt ref poly = .ok s ∧ vemComputePerformance sqrt ref poly s = .ok r ∧
      NoErrorsButHED r ∧ r.errHED = [0, 0] := by
  have hk := hT.low
  have hkk : k - 1 + 1 = k := by omega
  have hh := hE.diameter
  have htri : tri k ≤ tri (k + 1) := tri_le (by omega)
  have hpos : 0 < tri k := by
    obtain ⟨m, rfl⟩ : ∃ m, k = m + 1 := ⟨k - 1, by omega⟩
    rw [tri_succ]
    omega
  obtain ⟨ref, s, hr, hc, hs⟩ := vemCreate_ok hE hT hlu hllt
  have hmono : ref.mono = compute mono2 k := by
    have := vemRef_ok hT
    rw [hr] at this
    cases this
    rfl
  have hcol := fun j hj => mono_columns hE hT hlu hllt hr hc (j := j) hj
  obtain ⟨L, hL⟩ : ∃ L, L = s.boundary.points.length + tri (k - 1) := ⟨_, rfl⟩
  have hL0 : 0 < L := by
    have : 0 < s.boundary.points.length := by
      by_contra h0
      have h0 : s.boundary.points = [] := List.length_eq_zero_iff.1 (by omega)
      refine hs.discrete.perimeter ?_
      rw [h0]
      rfl
    omega
  have hap : ∀ (A : DMat ℝ) (j i : Nat), A.cols = L → apply A (fun r => s.D.ent r j) i = ∑ l ∈ range L, A.ent i l * s.D.ent l j := by
    intro A j i hA
    unfold apply
    rw [hA]
  have hPc : s.piNabla.cols = L := by rw [hs.solves.2.1, hs.nabla.bCols, hL]
  have hPr : s.piNabla.rows = tri (k + 1) := by rw [hs.solves.1, hs.nabla.gCols]
  have hsz : PerfSizes (tri (k + 1)) (tri k) L (vemPerfInput poly s) (derMatrices ref s.init.numProj)
      ⟨tri (k + 1), tri (k + 1), fun i j => ((compute mono2 k).der 0 i j : ℝ)⟩ ⟨tri (k + 1), tri (k + 1), fun i j => ((compute mono2 k).der 1 i j : ℝ)⟩
      s.derX s.derY s.eX s.eY :=
    { numProj := hs.init.numProj, nkm1 := hs.init.nkm1, le := htri, pos := hpos, basis := hL0,
      q := ⟨hs.init.numProj, hs.init.numProj⟩, qInv := ⟨hs.init.numProj, hs.init.numProj⟩, piNabla := ⟨hPr, hPc⟩,
      pi0km1 := ⟨hs.l2.yRows, hs.l2.yCols.trans hL.symm⟩, pi0k := ⟨hs.l2.zRows, hs.l2.zCols.trans hL.symm⟩,
      D := ⟨hs.dofs.rows.trans hL.symm, hs.dofs.cols⟩, ders := rfl, x := ⟨hs.eX.yRows, hs.eX.yCols.trans hL.symm⟩, y := ⟨hs.eY.yRows, hs.eY.yCols.trans hL.symm⟩,
      H := ⟨hs.init.hRows, hs.init.hCols⟩, C := ⟨hs.cRows, hs.cCols.trans hL.symm⟩, G := ⟨hs.nabla.gRows, hs.nabla.gCols⟩,
      B := ⟨hs.nabla.bRows, hs.nabla.bCols.trans hL.symm⟩, Es := rfl, eX := ⟨hs.eX.eRows, hs.eX.eCols.trans hL.symm⟩, eY := ⟨hs.eY.eRows, hs.eY.eCols.trans hL.symm⟩,
      der := by unfold derMatrices; rw [hmono, hs.init.numProj], tX := ⟨rfl, rfl⟩, tY := ⟨rfl, rfl⟩ }
  have hid : ∀ (T : Nat → Nat → ℝ), ∀ i < tri k, ∀ j < tri (k + 1),
      ∑ b ∈ range (tri k), (∑ a ∈ range (tri (k + 1)), (vemPerfInput poly s).q.ent j a * T a b) * (vemPerfInput poly s).qInv.ent b i = T j i := by
    intro T i hi j hj
    have hq : (vemPerfInput poly s).q = .identity s.init.numProj := rfl
    have hqi : (vemPerfInput poly s).qInv = .identity s.init.numProj := rfl
    rw [hq, hqi]
    simp [DMat.identity, hi, hj]
  obtain ⟨S, hS⟩ : ∃ S, dofiDofi s.piNabla 1 s.D = .ok S := by
    unfold dofiDofi
    rw [DMat.mul_ok _ _ (by rw [hs.dofs.cols, hPr]), except_ok_bind]
    refine ⟨_, DMat.mul_ok _ _ ?_⟩
    rfl
  have hne : ∀ d : Fin 2, ∃ i < tri k, ∃ j < tri (k + 1), ∑ b ∈ range (tri k), ((compute mono2 k).der d j b : ℝ) * s.init.H.ent b i ≠ 0 := by
    intro d
    by_contra hcon
    push Not at hcon
    obtain ⟨b, hb, j, hj, hne⟩ := der_ne_zero (k := k) hk d
    refine hne (gram_injective (c := poly.centroid) hs.discrete hh (show k - 1 ≤ k by omega) (fun b => ((compute mono2 k).der d j b : ℝ)) ?_ b (by rw [hkk]; exact hb))
    rw [hkk]
    intro i hi
    rw [← hcon i hi j hj]
    refine sum_congr rfl fun b hb => ?_
    rw [hs.init.hEnt b (by have := mem_range.1 hb; omega) i (by omega), gram_comm]
    ring
  obtain ⟨r, hr', hz, ex, ey, he, hex, hey⟩ := perf_zero hsq hsz hh (S := S) hS
    (by
      by_contra hcon
      push Not at hcon
      refine one_ne_zero (α := ℝ) (nabla_injective hs.discrete hk hh hs.nabla (fun _ => 1) (fun i hi => sum_eq_zero fun j hj => ?_) 0 (by omega))
      rw [show s.G.ent i j = 0 from hcon i hi j (mem_range.1 hj), zero_mul])
    (by
      by_contra hcon
      push Not at hcon
      refine one_ne_zero (α := ℝ) (gram_injective (c := poly.centroid) hs.discrete hh le_rfl (fun _ => 1) (fun i hi => sum_eq_zero fun j hj => ?_) 0 (by omega))
      rw [← hs.init.hEnt i hi j (mem_range.1 hj), show s.init.H.ent i j = 0 from hcon i hi j (mem_range.1 hj), zero_mul])
    (by
      intro T hTm _
      rcases List.mem_cons.1 hTm with rfl | hTm
      · obtain ⟨i, hi, j, hj, h⟩ := der_ne_zero (k := k) hk 0
        refine ⟨i, hi, j, hj, ?_⟩
        rw [hid _ i hi j hj]
        exact h
      · rw [List.mem_singleton] at hTm
        subst hTm
        obtain ⟨i, hi, j, hj, h⟩ := der_ne_zero (k := k) hk 1
        refine ⟨i, hi, j, hj, ?_⟩
        rw [hid _ i hi j hj]
        exact h)
    (by
      intro T hTm
      rcases List.mem_cons.1 hTm with rfl | hTm
      · exact hne 0
      · rw [List.mem_singleton] at hTm
        subst hTm
        exact hne 1)
    (fun i hi j hj => by rw [← (hcol j hj).1 i hi, hap _ _ _ hPc]; rfl)
    (fun i hi j hj => by rw [← (hcol j (by omega)).2.2.1 hj i hi, hap _ _ _ (hs.l2.yCols.trans hL.symm)]; rfl)
    (fun i hi j hj => by rw [← (hcol j hj).2.1 i hi, hap _ _ _ (hs.l2.zCols.trans hL.symm)]; rfl)
    (fun i hi j hj => by
      rw [hid _ i hi j hj, one_div_mul_eq_div]
      have := (hcol j hj).2.2.2.1 i hi
      rw [hap _ _ _ (hs.eX.yCols.trans hL.symm)] at this
      exact this)
    (fun i hi j hj => by
      rw [hid _ i hi j hj, one_div_mul_eq_div]
      have := (hcol j hj).2.2.2.2 i hi
      rw [hap _ _ _ (hs.eY.yCols.trans hL.symm)] at this
      exact this)
    (fun i hi j hj => by
      have := hs.cEq (fun r => s.D.ent r j) i hi
      rw [← hL] at this
      refine Eq.trans ?_ this.symm
      unfold rhsL2
      split_ifs with h
      · beta_reduce
        rw [hs.dofs.moment i h j hj]
        refine (hs.init.hEnt i hi j hj).trans ?_
        rw [mul_div_cancel₀ _ hE.measure]
      · refine (hs.init.hEnt i hi j hj).trans ?_
        rw [combo_single (M := tri (k + 1)) _ _ hj]
        congr 2
        unfold combo
        refine sum_congr rfl fun l hl => ?_
        have := (hcol j hj).1 l (mem_range.1 hl)
        rw [hap _ _ _ hPc] at this
        beta_reduce
        rw [← hL, this])
    hs.solves
  have key : ∀ (d : Fin 2) (E Y : DMat ℝ) (wn : List ℝ), DerOk k s.boundary.points.length poly.centroid poly.diameter poly.measure s.internal s.boundary.points wn d E Y →
      (∀ j < tri (k + 1), ∀ i < tri k, apply Y (fun r => s.D.ent r j) i = ((compute mono2 k).der d j i : ℝ) / poly.diameter) →
      ∀ i < tri k, ∀ j < tri (k + 1), 1 / poly.diameter * ∑ b ∈ range (tri k), ((compute mono2 k).der d j b : ℝ) * s.init.H.ent b i = ∑ l ∈ range L, E.ent i l * s.D.ent l j := by
    intro d E Y wn hd hy i hi j hj
    rw [hL, ← hd.yEq (fun r => s.D.ent r j) i hi, quadLin_combo, mul_sum]
    refine sum_congr rfl fun b hb => ?_
    have := hy j hj b (mem_range.1 hb)
    rw [hap _ _ _ (hd.yCols.trans hL.symm)] at this
    rw [← hL, this, hs.init.hEnt b (by have := mem_range.1 hb; omega) i (by omega), gram_comm]
    ring
  refine ⟨ref, s, r, hr, hc, ?_, hz, ?_⟩
  · unfold vemComputePerformance vemDofiDofi
    dsimp only
    rw [hS]
    exact hr'
  · rw [he, hex.2 (key 0 _ _ _ hs.eX fun j hj => (hcol j hj).2.2.2.1), hey.2 (key 1 _ _ _ hs.eY fun j hj => (hcol j hj).2.2.2.2)]

/-- The square, order 2. -/
example : ∃ lu llt : Solver ℝ, ∃ ref s r, vemRef2D (fun _ => ⟨nc4Points, nc4Weights⟩) (fun _ => ⟨[0, 1 / 2, 1], [1 / 6, 2 / 3, 1 / 6]⟩) 2 = .ok ref ∧
    vemCreate2D lu llt ref squarePoly = .ok s ∧ vemComputePerformance Real.sqrt ref squarePoly s = .ok r ∧ NoErrorsButHED r ∧ r.errHED = [0, 0] := by
  obtain ⟨lu, h1, h2⟩ := exists_solvers
  obtain ⟨ref, s, r, h⟩ := C139_monomials square_element square_tables h1 h2 (sqrt := Real.sqrt) fun x hx => Real.mul_self_sqrt hx
  exact ⟨lu, lu, ref, s, r, h⟩

/-- The coefficients of the derivatives of the orthonormal polynomials. -/
theorem oPoly_der {c : ℝ × ℝ} {h : ℝ} {points : List (ℝ × ℝ)} {wt : List ℝ} {H QI Q : DMat ℝ} (hB : OBasis k c h points wt H QI Q) (d : Fin 2) {i : Nat}
    (hi : i < tri (k + 1)) (j : Nat) : quadLin points wt (oPoly k c h Q i * pderiv d (oPoly k c h Q j))
      = 1 / h * ∑ b ∈ range (tri k), (∑ a ∈ range (tri (k + 1)), Q.ent j a * ((compute mono2 k).der d a b : ℝ)) * QI.ent b i := by
  have htri : tri k ≤ tri (k + 1) := tri_le (by omega)
  have h1 : ∀ a ∈ range (tri (k + 1)), quadLin points wt (oPoly k c h Q i * (C (Q.ent j a) * pderiv d (basisPoly k c h a)))
      = ∑ b ∈ range (tri k), 1 / h * (Q.ent j a * ((compute mono2 k).der d a b : ℝ) * QI.ent b i) := by
    intro a ha
    have ha := mem_range.1 ha
    rw [basisPoly_pderiv k _ _ (by rw [num2_eq]; exact ha) ha le_rfl d, mul_sum, mul_sum, map_sum]
    refine sum_congr rfl fun b hb => ?_
    have hb := mem_range.1 hb
    rw [show oPoly k c h Q i * (C (Q.ent j a) * (C (((compute mono2 k).der d a b : ℝ) / h) * basisPoly k c h b))
      = C (Q.ent j a * (((compute mono2 k).der d a b : ℝ) / h)) * (oPoly k c h Q i * basisPoly k c h b) by rw [map_mul]; ring, quadLin_C_mul,
      basis_oPoly hB (show b < tri (k + 1) by omega), oPoly_oCombo hB le_rfl hi, if_pos hi]
    ring
  rw [pderiv_oPoly, mul_sum, map_sum, sum_congr rfl h1, sum_comm, mul_sum]
  refine sum_congr rfl fun b _ => ?_
  rw [sum_mul, mul_sum]

/-- The projections of the columns of the matrix of DOFs, orthonormal basis. -/
theorem ortho_columns (hE : IsElement poly n V len dir nrm) (hT : IsTables k triangle edge ts ws w) (hpos : ∀ x ∈ (triangle (2 * k)).weights, 0 ≤ x)
    (hlu : SolvesRegular lu) (hllt : SolvesPosDef llt) (hl : IsOrthoLib lib) {ref : VemRef2D ℝ} (hr : vemRef2D triangle edge k = .ok ref)
    (hc : vemCreate2D lu llt ref poly = .ok s) (ht : orthoCreate2D lib lu llt ref poly = .ok t) (hs : SpaceOk k n V len dir ts ws w poly s) (ho : OSpaceOk k poly s t)
    {j : Nat} (hj : j < tri (k + 1)) :
    (∀ i < tri (k + 1), apply t.piNabla (fun r => t.D.ent r j) i = if i = j then 1 else 0) ∧
    (∀ i < tri (k + 1), apply t.pi0k (fun r => t.D.ent r j) i = if i = j then 1 else 0) ∧
    (∀ i < tri k, apply t.derX (fun r => t.D.ent r j) i
      = quadLin s.internal.points s.internal.weights (oPoly k poly.centroid poly.diameter t.base.q i * pderiv 0 (oPoly k poly.centroid poly.diameter t.base.q j))) ∧
    ∀ i < tri k, apply t.derY (fun r => t.D.ent r j) i
      = quadLin s.internal.points s.internal.weights (oPoly k poly.centroid poly.diameter t.base.q i * pderiv 1 (oPoly k poly.centroid poly.diameter t.base.q j)) := by
  have htri : tri k ≤ tri (k + 1) := tri_le (by omega)
  obtain ⟨r0, t0, hr0, ht0, _, _, hd⟩ := C136_dofs hE hT hpos hlu hllt hl
  obtain rfl : r0 = ref := Except.ok.inj (hr0.symm.trans hr)
  obtain rfl : t0 = t := Except.ok.inj (ht0.symm.trans ht)
  have hv := hd j (by rw [tri_div]; exact hj)
  have e : (polyOf k poly.centroid poly.diameter fun l => t0.base.q.ent j l) = fun p => eval ![p.1, p.2] (oPoly k poly.centroid poly.diameter t0.base.q j) := by
    funext p
    rw [← ev2_oPoly]
  rw [e] at hv
  obtain ⟨_, _, hx, hy, hc2⟩ := ortho_exact hE hT hlu hllt hr hc hs ho (oPoly_degree ho.basis le_rfl hj) hv
  refine ⟨fun i hi => ?_, fun i hi => ?_, fun i hi => ?_, fun i hi => ?_⟩
  · rw [(hc2 i hi).2, oPoly_gram ho.basis hi hj]
  · rw [(hc2 i hi).1, oPoly_gram ho.basis hi hj]
  · rw [← hx, oPoly_oCombo ho.basis htri (by omega), if_pos hi]
  · rw [← hy, oPoly_oCombo ho.basis htri (by omega), if_pos hi]

/-- Not all derivatives of orthonormal polynomials vanish. -/
theorem oPoly_der_ne {c : ℝ × ℝ} {h : ℝ} {points : List (ℝ × ℝ)} {wt : List ℝ} {H QI Q : DMat ℝ} (hB : OBasis k c h points wt H QI Q) (hk : 1 ≤ k) (hh : h ≠ 0) (d : Fin 2) :
    ∃ i < tri k, ∃ j < tri (k + 1), ∑ b ∈ range (tri k), (∑ a ∈ range (tri (k + 1)), Q.ent j a * ((compute mono2 k).der d a b : ℝ)) * QI.ent b i ≠ 0 := by
  by_contra hcon
  push Not at hcon
  have hkk : k - 1 + 1 = k := by omega
  have htri : tri k ≤ tri (k + 1) := tri_le (by omega)
  have hz : ∀ j < tri (k + 1), pderiv d (oPoly k c h Q j) = 0 := by
    intro j hj
    have hdeg : (pderiv d (oPoly k c h Q j)).totalDegree ≤ k - 1 :=
      (totalDegree_pderiv d _).trans (Nat.sub_le_sub_right (oPoly_degree hB le_rfl hj) 1)
    rw [oCombo_span hB hh (show k - 1 ≤ k by omega) hdeg, hkk, oCombo]
    refine sum_eq_zero fun i hi => ?_
    have hi := mem_range.1 hi
    rw [oPoly_der hB d (by omega), hcon i hi j hj, mul_zero, C_0, zero_mul]
  have h1 : pderiv d (MvPolynomial.X d : MvPolynomial (Fin 2) ℝ) = 1 := pderiv_X_self d
  rw [oCombo_span hB hh le_rfl (show (MvPolynomial.X d : MvPolynomial (Fin 2) ℝ).totalDegree ≤ k by rw [totalDegree_X]; exact hk), oCombo, map_sum, sum_eq_zero] at h1
  · exact zero_ne_one h1
  · intro j hj
    rw [Derivation.leibniz, pderiv_C, smul_zero, add_zero, hz j (mem_range.1 hj), smul_zero]

/-- The analysis of a space with an orthonormal basis. -/
theorem ortho_perf (hE : IsElement poly n V len dir nrm) (hT : IsTables k triangle edge ts ws w) (hpos : ∀ x ∈ (triangle (2 * k)).weights, 0 ≤ x)
    (hlu : SolvesRegular lu) (hllt : SolvesPosDef llt) (hl : IsOrthoLib lib) (hsq : ∀ x, 0 ≤ x → sqrt x * sqrt x = x) :
    ∃ ref s t r, vemRef2D triangle edge k = .ok ref ∧ vemCreate2D lu llt ref poly = .ok s ∧ orthoCreate2D lib lu llt ref poly = .ok t ∧
      SpaceOk k n V len dir ts ws w poly s ∧ OSpaceOk k poly s t ∧ orthoComputePerformance sqrt ref poly t = .ok r ∧ NoErrorsButHED r ∧
      ∃ ex ey, r.errHED = [ex, ey] ∧
        (ex = 0 ↔ ∀ i < tri k, ∀ j < tri (k + 1), 1 / poly.diameter * ((compute mono2 k).der 0 j i : ℝ)
          = quadLin s.internal.points s.internal.weights (oPoly k poly.centroid poly.diameter t.base.q i * pderiv 0 (oPoly k poly.centroid poly.diameter t.base.q j))) ∧
        (ey = 0 ↔ ∀ i < tri k, ∀ j < tri (k + 1), 1 / poly.diameter * ((compute mono2 k).der 1 j i : ℝ)
          = quadLin s.internal.points s.internal.weights (oPoly k poly.centroid poly.diameter t.base.q i * pderiv 1 (oPoly k poly.centroid poly.diameter t.base.q j))) := by
  have hk := hT.low
  have hkk : k - 1 + 1 = k := by omega
  have hh := hE.diameter
  have htri : tri k ≤ tri (k + 1) := tri_le (by omega)
  have htri' : tri (k - 1) ≤ tri (k + 1) := tri_le (by omega)
  have hp0 : 0 < tri k := by
    obtain ⟨m, rfl⟩ : ∃ m, k = m + 1 := ⟨k - 1, by omega⟩
    rw [tri_succ]
    omega
  obtain ⟨ref, s, t, hr, hc, ht, hs, ho⟩ := orthoCreate_ok hE hT hpos hlu hllt hl.mgs hl.inverse hl.sqrt
  have hmono : ref.mono = compute mono2 k := by
    have := vemRef_ok hT
    rw [hr] at this
    cases this
    rfl
  have hcol := fun j hj => ortho_columns hE hT hpos hlu hllt hl hr hc ht hs ho (j := j) hj
  obtain ⟨L, hL⟩ : ∃ L, L = s.boundary.points.length + tri (k - 1) := ⟨_, rfl⟩
  have hL0 : 0 < L := by
    have : 0 < s.boundary.points.length := by
      by_contra h0
      have h0 : s.boundary.points = [] := List.length_eq_zero_iff.1 (by omega)
      refine hs.discrete.perimeter ?_
      rw [h0]
      rfl
    omega
  have hap : ∀ (A : DMat ℝ) (j i : Nat), A.cols = L → apply A (fun r => t.D.ent r j) i = ∑ l ∈ range L, A.ent i l * t.D.ent l j := by
    intro A j i hA
    unfold apply
    rw [hA]
  obtain ⟨W, hN⟩ := ho.nabla
  obtain ⟨WX, hX⟩ := ho.derX
  obtain ⟨WY, hY⟩ := ho.derY
  have hnp : t.base.init.numProj = tri (k + 1) := by rw [ho.init]; exact hs.init.numProj
  have hPc : t.piNabla.cols = L := by rw [ho.solves.2.1, hN.bCols, hL]
  have hPr : t.piNabla.rows = tri (k + 1) := by rw [ho.solves.1, hN.gCols]
  have hsz : PerfSizes (tri (k + 1)) (tri k) L (orthoPerfInput poly t) (derMatrices ref t.base.init.numProj)
      ⟨tri (k + 1), tri (k + 1), fun i j => ((compute mono2 k).der 0 i j : ℝ)⟩ ⟨tri (k + 1), tri (k + 1), fun i j => ((compute mono2 k).der 1 i j : ℝ)⟩
      t.derX t.derY t.eX t.eY :=
    { numProj := hnp, nkm1 := by show t.base.init.nkm1 = _; rw [ho.init]; exact hs.init.nkm1
      le := htri, pos := hp0, basis := hL0,
      q := ⟨ho.basis.qRows, ho.basis.qCols⟩, qInv := ⟨ho.basis.iRows, ho.basis.iCols⟩, piNabla := ⟨hPr, hPc⟩,
      pi0km1 := ⟨ho.l2.yRows, ho.l2.yCols.trans hL.symm⟩, pi0k := ⟨ho.l2.zRows, ho.l2.zCols.trans hL.symm⟩,
      D := ⟨ho.dofs.rows.trans hL.symm, ho.dofs.cols⟩, ders := rfl, x := ⟨hX.yRows, hX.yCols.trans hL.symm⟩, y := ⟨hY.yRows, hY.yCols.trans hL.symm⟩,
      H := ⟨ho.basis.hRows, ho.basis.hCols⟩, C := ⟨ho.l2.cRows, ho.l2.cCols.trans hL.symm⟩, G := ⟨hN.gRows, hN.gCols⟩,
      B := ⟨hN.bRows, hN.bCols.trans hL.symm⟩, Es := rfl, eX := ⟨hX.eRows, hX.eCols.trans hL.symm⟩, eY := ⟨hY.eRows, hY.eCols.trans hL.symm⟩,
      der := by unfold derMatrices; rw [hmono, hnp], tX := ⟨rfl, rfl⟩, tY := ⟨rfl, rfl⟩ }
  have hH : ∀ i < tri (k + 1), ∀ j < tri (k + 1), (orthoPerfInput poly t).H.ent i j = if i = j then 1 else 0 := ho.basis.hEnt
  have hid : ∀ T : Nat → ℝ, ∀ i < tri k, ∑ b ∈ range (tri k), T b * (orthoPerfInput poly t).H.ent b i = T i := by
    intro T i hi
    rw [sum_eq_single i]
    · rw [hH i (by omega) i (by omega), if_pos rfl, mul_one]
    · intro b hb hbi
      rw [hH b (by have := mem_range.1 hb; omega) i (by omega), if_neg hbi, mul_zero]
    · intro hn
      exact absurd (mem_range.2 hi) hn
  obtain ⟨S, hS⟩ : ∃ S, dofiDofi t.piNabla 1 t.D = .ok S := by
    unfold dofiDofi
    rw [DMat.mul_ok _ _ (by rw [ho.dofs.cols, hPr]), except_ok_bind]
    refine ⟨_, DMat.mul_ok _ _ ?_⟩
    rfl
  obtain ⟨r, hr', hz, ex, ey, he, hex, hey⟩ := perf_zero hsq hsz hh (S := S) hS
    (by
      by_contra hcon
      push Not at hcon
      refine one_ne_zero (α := ℝ) (oNabla_injective hs.discrete hk hh ho.basis hs.nabla hN (fun _ => 1) (fun i hi => sum_eq_zero fun j hj => ?_) 0 (by omega))
      rw [show t.G.ent i j = 0 from hcon i hi j (mem_range.1 hj), zero_mul])
    ⟨0, by omega, 0, by omega, by rw [hH 0 (by omega) 0 (by omega), if_pos rfl]; exact one_ne_zero⟩
    (by
      intro T hTm _
      rcases List.mem_cons.1 hTm with rfl | hTm
      · exact oPoly_der_ne ho.basis hk hh 0
      · rw [List.mem_singleton] at hTm
        subst hTm
        exact oPoly_der_ne ho.basis hk hh 1)
    (by
      intro T hTm
      rcases List.mem_cons.1 hTm with rfl | hTm
      · obtain ⟨i, hi, j, hj, h⟩ := der_ne_zero (k := k) hk 0
        refine ⟨i, hi, j, hj, ?_⟩
        rw [hid _ i hi]
        exact h
      · rw [List.mem_singleton] at hTm
        subst hTm
        obtain ⟨i, hi, j, hj, h⟩ := der_ne_zero (k := k) hk 1
        refine ⟨i, hi, j, hj, ?_⟩
        rw [hid _ i hi]
        exact h)
    (fun i hi j hj => by rw [← (hcol j hj).1 i hi, hap _ _ _ hPc]; rfl)
    (fun i hi j hj => by
      rw [← (hcol j (by omega)).2.1 i (by omega), ← (ol2_apply ho _).2.2 i hi, hap _ _ _ (ho.l2.yCols.trans hL.symm)]
      rfl)
    (fun i hi j hj => by rw [← (hcol j hj).2.1 i hi, hap _ _ _ (ho.l2.zCols.trans hL.symm)]; rfl)
    (fun i hi j hj => by
      have := (hcol j hj).2.2.1 i hi
      rw [hap _ _ _ (hX.yCols.trans hL.symm), oPoly_der ho.basis 0 (by omega)] at this
      exact this)
    (fun i hi j hj => by
      have := (hcol j hj).2.2.2 i hi
      rw [hap _ _ _ (hY.yCols.trans hL.symm), oPoly_der ho.basis 1 (by omega)] at this
      exact this)
    (fun i hi j hj => by
      rw [hH i hi j hj, ← (hcol j hj).2.1 i hi, hap _ _ _ (ho.l2.zCols.trans hL.symm)]
      refine sum_congr rfl fun b hb => ?_
      rw [ho.l2.zEnt i hi b (by have := mem_range.1 hb; omega)]
      rfl)
    ho.solves
  have key : ∀ (d : Fin 2) (E Y : DMat ℝ) (wn : List ℝ) (W : Nat → Nat → ℝ), ODerOk k s.boundary.points.length poly.centroid poly.diameter poly.measure s.boundary.points wn d t.base.qInv t.base.q E Y W →
      (∀ j < tri (k + 1), ∀ i < tri k, apply Y (fun r => t.D.ent r j) i
        = quadLin s.internal.points s.internal.weights (oPoly k poly.centroid poly.diameter t.base.q i * pderiv d (oPoly k poly.centroid poly.diameter t.base.q j))) →
      ∀ i < tri k, ∀ j < tri (k + 1), ∑ l ∈ range L, E.ent i l * t.D.ent l j
        = quadLin s.internal.points s.internal.weights (oPoly k poly.centroid poly.diameter t.base.q i * pderiv d (oPoly k poly.centroid poly.diameter t.base.q j)) := by
    intro d E Y wn W hd hy i hi j hj
    rw [← hy j hj i hi, hap _ _ _ (hd.yCols.trans hL.symm)]
    refine sum_congr rfl fun b hb => ?_
    rw [hd.yEnt i hi b (by have := mem_range.1 hb; omega)]
  refine ⟨ref, s, t, r, hr, hc, ht, hs, ho, ?_, hz, ex, ey, he, hex.trans ?_, hey.trans ?_⟩
  · unfold orthoComputePerformance orthoDofiDofi
    dsimp only
    rw [hS]
    exact hr'
  · refine forall₂_congr fun i hi => forall₂_congr fun j hj => ?_
    rw [hid _ i hi]
    exact Eq.congr rfl (key 0 _ _ _ _ hX (fun j hj => (hcol j hj).2.2.1) i hi j hj)
  · refine forall₂_congr fun i hi => forall₂_congr fun j hj => ?_
    rw [hid _ i hi]
    exact Eq.congr rfl (key 1 _ _ _ _ hY (fun j hj => (hcol j hj).2.2.2) i hi j hj)

theorem mono_gram {c : ℝ × ℝ} {h : ℝ} {points : List (ℝ × ℝ)} {wt : List ℝ} {H QI Q : DMat ℝ} (hB : OBasis k c h points wt H QI Q) {j : Nat} (hj : j < tri (k + 1)) :
    quadLin points wt (basisPoly k c h j * basisPoly k c h j) = ∑ i ∈ range (tri (k + 1)), QI.ent j i * QI.ent j i := by
  nth_rewrite 2 [basis_oPoly hB hj]
  rw [lin_mul_oCombo]
  refine sum_congr rfl fun i hi => ?_
  rw [basis_oPoly hB hj, oPoly_oCombo hB le_rfl (mem_range.1 hi), if_pos (mem_range.1 hi)]

/-- The last error compares a matrix for the monomials with one for the orthonormal basis. -/
theorem hed_false {c : ℝ × ℝ} {h : ℝ} {points : List (ℝ × ℝ)} {wt : List ℝ} {H QI Q : DMat ℝ} (hB : OBasis k c h points wt H QI Q) (hk : 1 ≤ k) (hh : h ≠ 0) (d : Fin 2) {j : Nat}
    (hj : j < 3) (hz : ∀ a < j, pderiv d (basisPoly k c h a) = 0) (h1 : pderiv d (basisPoly k c h j) = C (1 / h))
    (he : 1 / h * ((compute mono2 k).der d j 0 : ℝ) = quadLin points wt (oPoly k c h Q 0 * pderiv d (oPoly k c h Q j))) :
    quadLin points wt 1 ≤ quadLin points wt (basisPoly k c h j * basisPoly k c h j) := by
  have h3 : 3 ≤ tri (k + 1) := (show tri 2 = 3 from rfl) ▸ tri_le (show 2 ≤ k + 1 by omega)
  have hT : ((compute mono2 k).der d j 0 : ℝ) = 1 := by
    have := basisPoly_pderiv k c h (j := j) (m := 1) (by rw [num2_eq]; omega) (by show j < 3; exact hj) hk d
    rw [h1, show tri 1 = 1 from rfl, sum_range_one, basisPoly_zero, mul_one] at this
    have := C_injective _ _ this
    field_simp at this
    exact this.symm
  have ho : pderiv d (oPoly k c h Q j) = C (Q.ent j j * (1 / h)) * basisPoly k c h 0 := by
    rw [pderiv_oPoly, sum_eq_single j, h1, basisPoly_zero, mul_one, C_mul]
    · intro a ha haj
      rcases lt_or_gt_of_ne haj with hlt | hgt
      · rw [hz a hlt, mul_zero]
      · rw [hB.qLower j (by omega) a (mem_range.1 ha) hgt, C_0, zero_mul]
    · intro hn
      exact absurd (mem_range.2 (by omega)) hn
  rw [hT, ho, show oPoly k c h Q 0 * (C (Q.ent j j * (1 / h)) * basisPoly k c h 0) = C (Q.ent j j * (1 / h)) * (oPoly k c h Q 0 * basisPoly k c h 0) by ring, quadLin_C_mul,
    basis_oPoly hB (show 0 < tri (k + 1) by omega), oPoly_oCombo hB le_rfl (by omega), if_pos (by omega)] at he
  have hq0 : Q.ent j j * QI.ent 0 0 = 1 := by
    field_simp at he
    linarith
  have hqj : Q.ent j j * QI.ent j j = 1 := by
    have := hB.left j (by omega) j (by omega)
    rw [if_pos rfl, sum_eq_single j] at this
    · exact this
    · intro l hl hlj
      rcases lt_or_gt_of_ne hlj with hlt | hgt
      · rw [hB.iLower l (mem_range.1 hl) j (by omega) hlt, mul_zero]
      · rw [hB.qLower j (by omega) l (mem_range.1 hl) hgt, zero_mul]
    · intro hn
      exact absurd (mem_range.2 (by omega)) hn
  have hqq : QI.ent 0 0 = QI.ent j j := by
    have hne : Q.ent j j ≠ 0 := by
      intro h0
      rw [h0, zero_mul] at hq0
      exact zero_ne_one hq0
    exact mul_left_cancel₀ hne (hq0.trans hqj.symm)
  have h00 : quadLin points wt 1 = QI.ent 0 0 * QI.ent 0 0 := by
    have := mono_gram hB (j := 0) (by omega)
    rw [basisPoly_zero, mul_one] at this
    rw [this, sum_eq_single 0]
    · intro i hi hi0
      rw [hB.iLower 0 (by omega) i (mem_range.1 hi) (by omega), mul_zero]
    · intro hn
      exact absurd (mem_range.2 (by omega)) hn
  rw [h00, hqq, mono_gram hB (by omega)]
  exact single_le_sum (f := fun i => QI.ent j i * QI.ent j i) (fun i _ => mul_self_nonneg _) (mem_range.2 (by omega))

/-- C140, as far as it holds: for the space with an orthonormal basis the analysis succeeds and the errors of the projectors, of the stabilisation and of
the matrices `H`, `C`, `G`, `B` are zero. Missing: `ErrorHED`, which is not zero (`C140_hed_wrong`). -/
theorem C140_ortho_partial (hE : IsElement poly n V len dir nrm) (hT : IsTables k triangle edge ts ws w) (hpos : ∀ x ∈ (triangle (2 * k)).weights, 0 ≤ x)
    (hlu : SolvesRegular lu) (hllt : SolvesPosDef llt) (hl : IsOrthoLib lib) (hsq : ∀ x, 0 ≤ x → sqrt x * sqrt x = x) :
    ∃ ref t r, vemRef2D triangle edge k = .ok ref ∧ orthoCreate2D lib lu llt ref poly = .ok t ∧ orthoComputePerformance sqrt ref poly t = .ok r ∧ NoErrorsButHED r := by
  obtain ⟨ref, s, t, r, hr, _, ht, _, _, hp, hz, _⟩ := ortho_perf hE hT hpos hlu hllt hl hsq
  exact ⟨ref, t, r, hr, ht, hp, hz⟩

/-- C140: `ErrorHED` is not zero for the space with an orthonormal basis, on no element whose points are closer to the centroid than the diameter. -/
theorem C140_hed_wrong (hE : IsElement poly n V len dir nrm) (hT : IsTables k triangle edge ts ws w) (hpos : ∀ x ∈ (triangle (2 * k)).weights, 0 ≤ x)
    (hlu : SolvesRegular lu) (hllt : SolvesPosDef llt) (hl : IsOrthoLib lib) (hsq : ∀ x, 0 ≤ x → sqrt x * sqrt x = x)
    (hin : ∀ p ∈ unionOf poly.tris, |p.1 - poly.centroid.1| < |poly.diameter| ∧ |p.2 - poly.centroid.2| < |poly.diameter|) :
    ∃ ref t r ex ey, vemRef2D triangle edge k = .ok ref ∧ orthoCreate2D lib lu llt ref poly = .ok t ∧ orthoComputePerformance sqrt ref poly t = .ok r ∧
      r.errHED = [ex, ey] ∧ ex ≠ 0 ∧ ey ≠ 0 := by
  have hk := hT.low
  have hh := hE.diameter
  have h3 : 3 ≤ tri (k + 1) := (show tri 2 = 3 from rfl) ▸ tri_le (show 2 ≤ k + 1 by omega)
  have hp0 : 0 < tri k := by
    obtain ⟨m, rfl⟩ : ∃ m, k = m + 1 := ⟨k - 1, by omega⟩
    rw [tri_succ]
    omega
  obtain ⟨ref, s, t, r, hr, _, ht, hs, ho, hp, _, ex, ey, he, hx, hy⟩ := ortho_perf hE hT hpos hlu hllt hl hsq
  have hcomp : MeasurableSet (unionOf poly.tris) := (unionOf_compact poly.tris).measurableSet
  have hvol : 0 < volume (unionOf poly.tris) := by
    rw [pos_iff_ne_zero]
    intro h0
    have h1 := hs.discrete.definite 1 (by simp) (by
      rw [mul_one, hs.rules.integral 1 (by simp), MeasureTheory.setIntegral_measure_zero _ h0])
    exact one_ne_zero h1
  have hstrict : ∀ j < 3, (∀ p ∈ unionOf poly.tris, |ev2 (basisPoly k poly.centroid poly.diameter j) p| < 1) →
      quadLin s.internal.points s.internal.weights (basisPoly k poly.centroid poly.diameter j * basisPoly k poly.centroid poly.diameter j)
        < quadLin s.internal.points s.internal.weights 1 := by
    intro j hj hb
    have hd : (basisPoly k poly.centroid poly.diameter j).totalDegree ≤ 1 := basisPoly_degree k _ _ (by rw [num2_eq]; omega) (by show j < 3; exact hj)
    have hd2 : (1 - basisPoly k poly.centroid poly.diameter j * basisPoly k poly.centroid poly.diameter j).totalDegree ≤ 2 * k := by
      refine (totalDegree_sub _ _).trans (max_le (by simp) ((totalDegree_mul _ _).trans (by omega)))
    rw [← sub_pos, ← map_sub, hs.rules.integral _ hd2,
      setIntegral_pos_iff_support_of_nonneg_ae ?_ (ev2_integrable _ _)]
    · have : Function.support (ev2 (1 - basisPoly k poly.centroid poly.diameter j * basisPoly k poly.centroid poly.diameter j)) ∩ unionOf poly.tris = unionOf poly.tris := by
        refine Set.inter_eq_right.2 fun p hp => ?_
        have := abs_lt.1 (hb p hp)
        rw [Function.mem_support]
        refine ne_of_gt ?_
        simp only [ev2, map_sub, map_mul, map_one] at this ⊢
        nlinarith
      rw [this]
      exact hvol
    · refine (ae_restrict_iff' hcomp).2 (Filter.Eventually.of_forall fun p hp => ?_)
      have := abs_lt.1 (hb p hp)
      simp only [ev2, map_sub, map_mul, map_one, Pi.zero_apply] at this ⊢
      nlinarith
  have m1 : basisPoly k poly.centroid poly.diameter 1 = monoPoly poly.centroid poly.diameter [1, 0] := basisPoly_rank k _ _ (a := 1) (b := 0) (by omega)
  have m2 : basisPoly k poly.centroid poly.diameter 2 = monoPoly poly.centroid poly.diameter [0, 1] := basisPoly_rank k _ _ (a := 0) (b := 1) (by omega)
  have m0 : monoPoly poly.centroid poly.diameter [0, 0] = 1 := by simp [monoPoly, PolyDiM.ex]
  have hzero : ∀ d : Fin 2, pderiv d (basisPoly k poly.centroid poly.diameter 0) = 0 := by
    intro d
    rw [basisPoly_zero, ← C_1, pderiv_C]
  have hsmall : ∀ x : ℝ, |x| < |poly.diameter| → |1 / poly.diameter * x| < 1 := by
    intro x hx
    rw [one_div_mul_eq_div, abs_div, div_lt_one (abs_pos.2 hh)]
    exact hx
  refine ⟨ref, t, r, ex, ey, hr, ht, hp, he, fun h0 => ?_, fun h0 => ?_⟩
  · refine absurd (hstrict 1 (by omega) fun p hp => ?_) (not_lt.2 (hed_false ho.basis hk hh 0 (by omega) ?_ ?_ (hx.1 h0 0 hp0 1 (by omega))))
    · have := hsmall _ (hin p hp).1
      rw [m1]
      simpa [ev2, monoPoly, PolyDiM.ex] using this
    · intro a ha
      obtain rfl : a = 0 := by omega
      exact hzero 0
    · rw [m1, monoPoly_pderiv0]
      simp [m0]
  · refine absurd (hstrict 2 (by omega) fun p hp => ?_) (not_lt.2 (hed_false ho.basis hk hh 1 (by omega) ?_ ?_ (hy.1 h0 0 hp0 2 (by omega))))
    · have := hsmall _ (hin p hp).2
      rw [m2]
      simpa [ev2, monoPoly, PolyDiM.ex] using this
    · intro a ha
      obtain rfl | rfl : a = 0 ∨ a = 1 := by omega
      · exact hzero 1
      · rw [m1, monoPoly_pderiv1]
        simp
    · rw [m2, monoPoly_pderiv1]
      simp [m0]

theorem square_near : ∀ p ∈ unionOf squarePoly.tris, |p.1 - squarePoly.centroid.1| < |squarePoly.diameter| ∧ |p.2 - squarePoly.centroid.2| < |squarePoly.diameter| := by
  have h2 : (1 : ℝ) ≤ |squarePoly.diameter| := by
    show 1 ≤ |Real.sqrt 2|
    rw [abs_of_nonneg (Real.sqrt_nonneg _)]
    exact Real.one_le_sqrt.2 (by norm_num)
  rintro p ⟨v, hv, a, b, c, ha, hb, hc, hs, rfl⟩
  simp only [squarePoly, List.mem_cons, List.not_mem_nil, or_false] at hv
  rcases hv with rfl | rfl <;>
    simp only [bary3, Prod.smul_mk, Prod.mk_add_mk, smul_eq_mul, mul_zero, mul_one, zero_add, add_zero] <;>
    refine ⟨lt_of_lt_of_le (abs_lt.2 ⟨?_, ?_⟩) h2, lt_of_lt_of_le (abs_lt.2 ⟨?_, ?_⟩) h2⟩ <;> simp only [squarePoly] <;> linarith

/-- The square, order 2, with an orthonormal basis. -/
example : ∃ (lib : OrthoLib ℝ) (lu llt : Solver ℝ), ∃ ref t r ex ey, vemRef2D (fun _ => ⟨conicalPoints, conicalWeights⟩) (fun _ => ⟨[0, 1 / 2, 1], [1 / 6, 2 / 3, 1 / 6]⟩) 2 = .ok ref ∧
    orthoCreate2D lib lu llt ref squarePoly = .ok t ∧ orthoComputePerformance Real.sqrt ref squarePoly t = .ok r ∧ NoErrorsButHED r ∧ r.errHED = [ex, ey] ∧ ex ≠ 0 ∧ ey ≠ 0 := by
  obtain ⟨lib, hl⟩ := exists_ortho_lib
  obtain ⟨lu, h1, h2⟩ := exists_solvers
  have hsq : ∀ x : ℝ, 0 ≤ x → Real.sqrt x * Real.sqrt x = x := fun x hx => Real.mul_self_sqrt hx
  obtain ⟨ref, t, r, hr, ht, hp, hz⟩ := C140_ortho_partial square_element conical_tables conical_pos h1 h2 hl hsq
  obtain ⟨ref', t', r', ex, ey, hr', ht', hp', h⟩ := C140_hed_wrong square_element conical_tables conical_pos h1 h2 hl hsq square_near
  obtain rfl : ref' = ref := Except.ok.inj (hr'.symm.trans hr)
  obtain rfl : t' = t := Except.ok.inj (ht'.symm.trans ht)
  obtain rfl : r' = r := Except.ok.inj (hp'.symm.trans hp)
  exact ⟨lib, lu, lu, ref', t', r', ex, ey, hr, ht, hp, hz, h⟩

end

end PolyDiM
