import Verif.Spec.VemPerformance
import Verif.Lemmas.OrthoProj
import Verif.Lemmas.VemEval
import Verif.Lemmas.VemSpace

/-!
# Lemmas: the analysis of a local VEM space
-/

namespace PolyDiM

open Spec Finset

section

variable {sqrt : ℝ → ℝ}

theorem frobenius_eq_zero (hsq : ∀ x, 0 ≤ x → sqrt x * sqrt x = x) (A : DMat ℝ) :
    A.frobenius sqrt = 0 ↔ ∀ i < A.rows, ∀ j < A.cols, A.ent i j = 0 := by
  have hn : 0 ≤ ∑ i ∈ range A.rows, ∑ j ∈ range A.cols, A.ent i j * A.ent i j :=
    sum_nonneg fun i _ => sum_nonneg fun j _ => mul_self_nonneg _
  have h0 : A.frobenius sqrt = 0 ↔ ∑ i ∈ range A.rows, ∑ j ∈ range A.cols, A.ent i j * A.ent i j = 0 := by
    constructor
    · intro h
      have := hsq _ hn
      rw [← this]
      change A.frobenius sqrt * A.frobenius sqrt = 0
      rw [h, mul_zero]
    · intro h
      have := hsq _ hn
      change A.frobenius sqrt * A.frobenius sqrt = _ at this
      rw [h] at this
      exact mul_self_eq_zero.1 this
  rw [h0, sum_eq_zero_iff_of_nonneg fun i _ => sum_nonneg fun j _ => mul_self_nonneg _]
  constructor
  · intro h i hi j hj
    have := (sum_eq_zero_iff_of_nonneg fun j _ => mul_self_nonneg _).1 (h i (mem_range.2 hi)) j (mem_range.2 hj)
    exact mul_self_eq_zero.1 this
  · intro h i hi
    exact sum_eq_zero fun j hj => by rw [h i (mem_range.1 hi) j (mem_range.1 hj), mul_zero]

theorem relativeError_inv (hsq : ∀ x, 0 ≤ x → sqrt x * sqrt x = x) {A B : DMat ℝ} {d e : ℝ} (h : relativeError sqrt A B d = .ok e) :
    e = 0 ↔ ∀ i < A.rows, ∀ j < A.cols, A.ent i j = B.ent i j := by
  unfold relativeError at h
  obtain ⟨E, hE, h⟩ := (bind_ok_iff _ _ _).1 h
  unfold DMat.sub at hE
  split_ifs at hE with hs
  cases hE
  unfold normQuotient at h
  split_ifs at h with hd
  cases h
  rw [div_eq_zero_iff, or_iff_left hd, frobenius_eq_zero hsq]
  exact forall₂_congr fun i _ => forall₂_congr fun j _ => sub_eq_zero

theorem relativeError_ok {A B : DMat ℝ} {d : ℝ} (hr : A.rows = B.rows) (hc : A.cols = B.cols) (hd : d ≠ 0) : ∃ e, relativeError sqrt A B d = .ok e := by
  unfold relativeError DMat.sub
  rw [if_pos ⟨hr, hc⟩, except_ok_bind]
  unfold normQuotient
  rw [if_neg hd]
  exact ⟨_, rfl⟩

theorem frobenius_ne_zero (hsq : ∀ x, 0 ≤ x → sqrt x * sqrt x = x) {A : DMat ℝ} {i j : Nat} (hi : i < A.rows) (hj : j < A.cols) (h : A.ent i j ≠ 0) :
    A.frobenius sqrt ≠ 0 := fun h0 => h ((frobenius_eq_zero hsq A).1 h0 i hi j hj)

/-- One product of the analysis. -/
theorem perfProduct_inv (hsq : ∀ x, 0 ≤ x → sqrt x * sqrt x = x) {H C D : DMat ℝ} {N L : Nat} (hN : 0 < N) (hL : 0 < L) (hH : Sized H N N) (hC : Sized C N L) {e : ℝ}
    (h : perfProduct sqrt H C D = .ok e) : e = 0 ↔ ∀ i < N, ∀ j < N, H.ent i j = ∑ l ∈ range L, C.ent i l * D.ent l j := by
  unfold perfProduct at h
  rw [if_pos (by rw [hH.1, hH.2, hC.1, hC.2]; exact ⟨Nat.mul_pos hN hN, Nat.mul_pos hN hL⟩)] at h
  obtain ⟨CD, hCD, h⟩ := (bind_ok_iff _ _ _).1 h
  unfold DMat.mul at hCD
  split_ifs at hCD
  cases hCD
  rw [relativeError_inv hsq h, hH.1, hH.2, hC.2]

theorem perfProduct_ok {H C D : DMat ℝ} {N L : Nat} (hH : Sized H N N) (hC : Sized C N L) (hD : Sized D L N) (hn : H.frobenius sqrt ≠ 0) :
    ∃ e, perfProduct sqrt H C D = .ok e := by
  unfold perfProduct
  split_ifs
  · rw [DMat.mul_ok _ _ (hC.2.trans hD.1.symm), except_ok_bind]
    exact relativeError_ok (hH.1.trans hC.1.symm) (hH.2.trans hD.2.symm) hn
  · exact ⟨_, rfl⟩

variable {N M L : Nat} {s : PerfInput ℝ} {der : List (DMat ℝ)} {TX TY X Y EX EY : DMat ℝ}

theorem perfGrad_inv (hsq : ∀ x, 0 ≤ x → sqrt x * sqrt x = x) {inv e : ℝ} {d : Nat} {P T : DMat ℝ} (hq : Sized s.q N N) (hP : Sized P M L) (hD : Sized s.D L N)
    (hPi : s.pi0km1.rows = M) (hd : s.ders[d]? = some P) (hT : der[d]? = some T) (h : perfGrad sqrt der s inv d = .ok e) :
    e = 0 ↔ ∀ i < M, ∀ j < N, ∑ l ∈ range L, P.ent i l * s.D.ent l j = inv * ∑ b ∈ range M, (∑ a ∈ range N, s.q.ent j a * T.ent a b) * s.qInv.ent b i := by
  unfold perfGrad at h
  rw [(unchecked_ok_iff _ _ _).2 hd, except_ok_bind, (unchecked_ok_iff _ _ _).2 hT, except_ok_bind] at h
  obtain ⟨T', hT', h⟩ := (bind_ok_iff _ _ _).1 h
  obtain ⟨QT, hQT, h⟩ := (bind_ok_iff _ _ _).1 h
  obtain ⟨QI, hQI, h⟩ := (bind_ok_iff _ _ _).1 h
  obtain ⟨R, hR, h⟩ := (bind_ok_iff _ _ _).1 h
  obtain ⟨PD, hPD, h⟩ := (bind_ok_iff _ _ _).1 h
  unfold DMat.block at hT' hQI
  unfold DMat.mul at hQT hR hPD
  split_ifs at hT' hQI
  cases hT'
  cases hQI
  split_ifs at hQT
  cases hQT
  split_ifs at hR hPD
  cases hR
  cases hPD
  rw [relativeError_inv hsq h]
  simp only [DMat.smul, DMat.tr, Nat.zero_add, hP.1, hP.2, hD.2, hq.2, hPi]

theorem perfHED_inv (hsq : ∀ x, 0 ≤ x → sqrt x * sqrt x = x) {inv e : ℝ} {d : Nat} {E T : DMat ℝ} (hE : Sized E M L) (hN : s.piNabla.rows = N) (hM : s.nkm1 = M)
    (hd : s.Es[d]? = some E) (hT : der[d]? = some T) (h : perfHED sqrt der s inv d = .ok e) :
    e = 0 ↔ ∀ i < M, ∀ j < N, inv * ∑ b ∈ range M, T.ent j b * s.H.ent b i = ∑ l ∈ range L, E.ent i l * s.D.ent l j := by
  unfold perfHED at h
  rw [(unchecked_ok_iff _ _ _).2 hT, except_ok_bind] at h
  obtain ⟨T', hT', h⟩ := (bind_ok_iff _ _ _).1 h
  obtain ⟨Hk, hHk, h⟩ := (bind_ok_iff _ _ _).1 h
  obtain ⟨R, hR, h⟩ := (bind_ok_iff _ _ _).1 h
  rw [(unchecked_ok_iff _ _ _).2 hd, except_ok_bind] at h
  obtain ⟨ED, hED, h⟩ := (bind_ok_iff _ _ _).1 h
  unfold DMat.block at hT' hHk
  unfold DMat.mul at hR hED
  split_ifs at hT' hHk
  cases hT'
  cases hHk
  split_ifs at hR hED
  cases hR
  cases hED
  rw [relativeError_inv hsq h]
  simp only [DMat.smul, DMat.tr, Nat.zero_add, hE.2, hN, hM, mul_sum, mul_assoc]

theorem perfGrad_ok {inv : ℝ} {d : Nat} {P T : DMat ℝ} (hle : M ≤ N) (hq : Sized s.q N N) (hqi : Sized s.qInv N N) (hP : Sized P M L) (hD : Sized s.D L N)
    (hPi : s.pi0km1.rows = M) (hN : s.piNabla.rows = N) (hd : s.ders[d]? = some P) (hT : der[d]? = some T) (hTs : Sized T N N)
    (hne : ∀ R : DMat ℝ, Sized R M N → (∀ i j, R.ent i j = inv * ∑ b ∈ range M, (∑ a ∈ range N, s.q.ent j a * T.ent a b) * s.qInv.ent b i) → 1 < M →
      R.frobenius sqrt ≠ 0) : ∃ e, perfGrad sqrt der s inv d = .ok e := by
  unfold perfGrad
  rw [(unchecked_ok_iff _ _ _).2 hd, except_ok_bind, (unchecked_ok_iff _ _ _).2 hT, except_ok_bind,
    DMat.block_ok _ _ _ _ _ (by rw [hN, hTs.1]; omega) (by rw [hPi, hTs.2]; omega), except_ok_bind, DMat.mul_ok s.q _ (by exact hq.2.trans hN.symm), except_ok_bind,
    DMat.block_ok _ _ _ _ _ (by rw [hPi, hqi.1]; omega) (by rw [hPi, hqi.2]; omega), except_ok_bind, DMat.mul_ok _ _ rfl, except_ok_bind,
    DMat.mul_ok _ _ (hP.2.trans hD.1.symm), except_ok_bind]
  refine relativeError_ok (hP.1.trans hPi.symm) (hD.2.trans hq.1.symm) ?_
  split_ifs with h1
  · refine hne _ ⟨hPi, hq.1⟩ (fun i j => ?_) (by rw [← hPi]; exact h1)
    simp only [DMat.smul, DMat.tr, Nat.zero_add, hq.2, hPi]
  · exact one_ne_zero

theorem perfHED_ok {inv : ℝ} {d : Nat} {E T : DMat ℝ} (hle : M ≤ N) (hE : Sized E M L) (hD : Sized s.D L N) (hH : Sized s.H N N) (hN : s.piNabla.rows = N)
    (hM : s.nkm1 = M) (hd : s.Es[d]? = some E) (hT : der[d]? = some T) (hTs : Sized T N N)
    (hne : ∀ R : DMat ℝ, Sized R N M → (∀ j i, R.ent j i = inv * ∑ b ∈ range M, T.ent j b * s.H.ent b i) → R.frobenius sqrt ≠ 0) :
    ∃ e, perfHED sqrt der s inv d = .ok e := by
  unfold perfHED
  rw [(unchecked_ok_iff _ _ _).2 hT, except_ok_bind, DMat.block_ok _ _ _ _ _ (by rw [hN, hTs.1]; omega) (by rw [hM, hTs.2]; omega), except_ok_bind,
    DMat.block_ok _ _ _ _ _ (by rw [hM, hH.1]; omega) (by rw [hM, hH.2]; omega), except_ok_bind, DMat.mul_ok _ _ rfl, except_ok_bind,
    (unchecked_ok_iff _ _ _).2 hd, except_ok_bind, DMat.mul_ok _ _ (hE.2.trans hD.1.symm), except_ok_bind]
  refine relativeError_ok (hM.trans hE.1.symm) (hN.trans hD.2.symm) (hne _ ⟨hN, hM⟩ fun j i => ?_)
  simp only [DMat.smul, Nat.zero_add, hM, mul_sum, mul_assoc]

theorem mapM_range_two_inv {α : Type} (f : Nat → Except Fault α) {l : List α} (h : (List.range 2).mapM f = .ok l) : ∃ a b, l = [a, b] ∧ f 0 = .ok a ∧ f 1 = .ok b := by
  have : List.range 2 = [0, 1] := rfl
  rw [this, List.mapM_cons] at h
  obtain ⟨a, ha, h⟩ := (bind_ok_iff _ _ _).1 h
  rw [List.mapM_cons] at h
  obtain ⟨l', hl, h⟩ := (bind_ok_iff _ _ _).1 h
  obtain ⟨b, hb, hl⟩ := (bind_ok_iff _ _ _).1 hl
  rw [List.mapM_nil] at hl
  cases hl
  cases h
  exact ⟨a, b, rfl, ha, hb⟩

theorem identity_frobenius (hsq : ∀ x, 0 ≤ x → sqrt x * sqrt x = x) (h : 0 < N) {A : DMat ℝ} (hA : Sized A N N) (he : A.ent 0 0 = 1) : A.frobenius sqrt ≠ 0 :=
  frobenius_ne_zero hsq (i := 0) (j := 0) (by rw [hA.1]; exact h) (by rw [hA.2]; exact h) (by rw [he]; exact one_ne_zero)

/-- The analysis succeeds on data of fitting sizes whose denominators do not vanish. -/
theorem perf_ok (hsq : ∀ x, 0 ≤ x → sqrt x * sqrt x = x) (hs : PerfSizes N M L s der TX TY X Y EX EY) {S : DMat ℝ} (hS : Sized S L L) (hd : s.diameter ≠ 0)
    (hG : ∃ i < N, ∃ j < N, s.G.ent i j ≠ 0) (hH : ∃ i < N, ∃ j < N, s.H.ent i j ≠ 0)
    (hgrad : ∀ T ∈ [TX, TY], 1 < M → ∃ i < M, ∃ j < N, ∑ b ∈ range M, (∑ a ∈ range N, s.q.ent j a * T.ent a b) * s.qInv.ent b i ≠ 0)
    (hhed : ∀ T ∈ [TX, TY], ∃ i < M, ∃ j < N, ∑ b ∈ range M, T.ent j b * s.H.ent b i ≠ 0) :
    ∃ r, vemPerformance sqrt der (.ok S) s = .ok r := by
  have hle := hs.le
  have hN : 0 < N := lt_of_lt_of_le hs.pos hs.le
  obtain ⟨iG, hiG, jG, hjG, hG⟩ := hG
  obtain ⟨iH, hiH, jH, hjH, hH⟩ := hH
  unfold vemPerformance
  have hq : normQuotient 1 s.diameter = .ok (1 / s.diameter) := if_neg hd
  have hi : (1 : ℝ) / s.diameter ≠ 0 := one_div_ne_zero hd
  rw [hq, except_ok_bind]
  dsimp only
  rw [DMat.mul_ok _ _ (hs.piNabla.2.trans hs.D.1.symm), except_ok_bind]
  have one : ∀ A : DMat ℝ, Sized A N N → ∃ e, relativeError sqrt A (DMat.identity s.numProj) ((DMat.identity s.numProj).frobenius sqrt) = .ok e := fun A hA =>
    relativeError_ok (hA.1.trans hs.numProj.symm) (hA.2.trans hs.numProj.symm) (identity_frobenius hsq hN ⟨hs.numProj, hs.numProj⟩ (by simp [DMat.identity]))
  obtain ⟨e1, h1⟩ := one ⟨s.piNabla.rows, s.D.cols, fun i j => ∑ k ∈ range s.piNabla.cols, s.piNabla.ent i k * s.D.ent k j⟩ ⟨hs.piNabla.1, hs.D.2⟩
  obtain ⟨e3, h3⟩ := one ⟨s.pi0k.rows, s.D.cols, fun i j => ∑ k ∈ range s.pi0k.cols, s.pi0k.ent i k * s.D.ent k j⟩ ⟨hs.pi0k.1, hs.D.2⟩
  rw [h1, except_ok_bind, DMat.block_ok _ _ _ _ _ (by omega) (by rw [hs.pi0km1.1, hs.D.2]; omega), except_ok_bind, DMat.mul_ok s.pi0km1 _ (by exact hs.pi0km1.2.trans hs.D.1.symm),
    except_ok_bind, DMat.block_ok _ _ _ _ _ (by rw [hs.pi0km1.1]; simp only [DMat.identity]; rw [hs.numProj]; omega)
      (by rw [hs.pi0km1.1]; simp only [DMat.identity]; rw [hs.numProj]; omega), except_ok_bind]
  obtain ⟨e2, h2⟩ := relativeError_ok (sqrt := sqrt) (A := ⟨s.pi0km1.rows, s.pi0km1.rows, fun i j => ∑ k ∈ range s.pi0km1.cols, s.pi0km1.ent i k * s.D.ent (0 + k) (0 + j)⟩)
    (B := ⟨s.pi0km1.rows, s.pi0km1.rows, fun i j => (DMat.identity s.numProj : DMat ℝ).ent (0 + i) (0 + j)⟩) rfl rfl
    (identity_frobenius (A := ⟨s.pi0km1.rows, s.pi0km1.rows, fun i j => (DMat.identity s.numProj : DMat ℝ).ent (0 + i) (0 + j)⟩) hsq hs.pos
      ⟨hs.pi0km1.1, hs.pi0km1.1⟩ (by simp [DMat.identity]))
  dsimp only at h2 ⊢
  rw [h2, except_ok_bind, DMat.mul_ok _ _ (hs.pi0k.2.trans hs.D.1.symm), except_ok_bind, h3, except_ok_bind]
  have hders : s.ders.length = 2 := by rw [hs.ders]; rfl
  have grad : ∀ (d : Nat) (P T : DMat ℝ), s.ders[d]? = some P → der[d]? = some T → Sized P M L → Sized T N N → T ∈ [TX, TY] →
      ∃ e, perfGrad sqrt der s (1 / s.diameter) d = .ok e := by
    intro d P T hP hT hPs hTs hm
    refine perfGrad_ok hle hs.q hs.qInv hPs hs.D hs.pi0km1.1 hs.piNabla.1 hP hT hTs fun R hR hRe hM => ?_
    obtain ⟨i, hi', j, hj', hne⟩ := hgrad T hm hM
    exact frobenius_ne_zero hsq (by rw [hR.1]; exact hi') (by rw [hR.2]; exact hj') (by rw [hRe]; exact mul_ne_zero hi hne)
  have hed : ∀ (d : Nat) (E T : DMat ℝ), s.Es[d]? = some E → der[d]? = some T → Sized E M L → Sized T N N → T ∈ [TX, TY] →
      ∃ e, perfHED sqrt der s (1 / s.diameter) d = .ok e := by
    intro d E T hE hT hEs hTs hm
    refine perfHED_ok hle hEs hs.D hs.H hs.piNabla.1 hs.nkm1 hE hT hTs fun R hR hRe => ?_
    obtain ⟨i, hi', j, hj', hne⟩ := hhed T hm
    exact frobenius_ne_zero hsq (by rw [hR.1]; exact hj') (by rw [hR.2]; exact hi') (by rw [hRe]; exact mul_ne_zero hi hne)
  obtain ⟨gx, hgx⟩ := grad 0 X TX (by rw [hs.ders]; rfl) (by rw [hs.der]; rfl) hs.x hs.tX (by simp)
  obtain ⟨gy, hgy⟩ := grad 1 Y TY (by rw [hs.ders]; rfl) (by rw [hs.der]; rfl) hs.y hs.tY (by simp)
  obtain ⟨ex, hex⟩ := hed 0 EX TX (by rw [hs.Es]; rfl) (by rw [hs.der]; rfl) hs.eX hs.tX (by simp)
  obtain ⟨ey, hey⟩ := hed 1 EY TY (by rw [hs.Es]; rfl) (by rw [hs.der]; rfl) hs.eY hs.tY (by simp)
  obtain ⟨e4, h4⟩ := perfProduct_ok (sqrt := sqrt) hs.H hs.C hs.D (frobenius_ne_zero hsq (by rw [hs.H.1]; exact hiH) (by rw [hs.H.2]; exact hjH) hH)
  obtain ⟨e5, h5⟩ := perfProduct_ok (sqrt := sqrt) hs.G hs.B hs.D (frobenius_ne_zero hsq (by rw [hs.G.1]; exact hiG) (by rw [hs.G.2]; exact hjG) hG)
  rw [hders, mapM_range_two _ hgx hgy, except_ok_bind, except_ok_bind, DMat.mul_ok _ _ (hS.2.trans hs.D.1.symm), except_ok_bind, h4, except_ok_bind, h5, except_ok_bind,
    mapM_range_two _ hex hey, except_ok_bind]
  exact ⟨_, rfl⟩

end

end PolyDiM
