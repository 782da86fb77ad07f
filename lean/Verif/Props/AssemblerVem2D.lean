import Verif.Props.AssemblerPcc2D
import Verif.Props.VemEval
import Verif.Lemmas.RTPoly

/-!
# The local matrices of the assembler with virtual elements (C85, C86)
-/

namespace PolyDiM

open Spec MvPolynomial MeasureTheory

section
variable {k n : Nat} {V : Nat → ℝ × ℝ} {len : Nat → ℝ} {dir : Nat → Bool} {nrm : Nat → ℝ × ℝ} {poly : VemPolygon ℝ}
  {triangle : Nat → Rule (ℝ × ℝ) ℝ} {edge : Nat → Rule ℝ ℝ} {ts ws : List ℝ} {w : ℝ} {lu llt : Solver ℝ}

theorem dmat_eta {A : DMat ℝ} {r c : Nat} (hr : A.rows = r) (hc : A.cols = c) : A = ⟨r, c, A.ent⟩ := by
  subst hr hc
  rfl

/-- The functions of the VEM space at its quadrature points. -/
theorem vem_tabulated (hE : IsElement poly n V len dir nrm) (hT : IsTables k triangle edge ts ws w) (hlu : SolvesRegular lu) (hllt : SolvesPosDef llt) :
    ∃ ref s, vemRef2D triangle edge k = .ok ref ∧ vemCreate2D lu llt ref poly = .ok s ∧ SpaceOk k n V len dir ts ws w poly s ∧ 0 < s.internal.points.length ∧
      ∃ (S : Nat → Nat → ℝ) (SD : Nat → Nat → Nat → ℝ),
        Tabulated (vemSpace2D ref poly s) (vemSpace2D ref poly s) s.internal.points.length (n + n * (k - 1) + k * (k - 1) / 2) (n + n * (k - 1) + k * (k - 1) / 2)
          (fun q => s.internal.points.getD q 0) (fun q => s.internal.weights.getD q 0) S S SD SD ∧
        ∀ (v : Nat → ℝ) (q : Nat), q < s.internal.points.length →
          ∑ j ∈ Finset.range (n + n * (k - 1) + k * (k - 1) / 2), v j * S q j = polyOf (k - 1) poly.centroid poly.diameter (apply s.pi0km1 v) (s.internal.points.getD q 0) ∧
          ∑ j ∈ Finset.range (n + n * (k - 1) + k * (k - 1) / 2), v j * SD 0 q j = polyOf (k - 1) poly.centroid poly.diameter (apply s.derX v) (s.internal.points.getD q 0) ∧
          ∑ j ∈ Finset.range (n + n * (k - 1) + k * (k - 1) / 2), v j * SD 1 q j = polyOf (k - 1) poly.centroid poly.diameter (apply s.derY v) (s.internal.points.getD q 0) := by
  obtain ⟨ref, s, hr, hc, hs⟩ := vemCreate_ok hE hT hlu hllt
  obtain ⟨r1, s1, hr1, hc1, hv⟩ := C74_values hE hT hlu hllt
  obtain ⟨r2, s2, hr2, hc2, hd⟩ := C74_derivatives hE hT hlu hllt
  obtain ⟨r3, s3, hr3, hc3, hi, hi'⟩ := C74_internal hE hT hlu hllt
  obtain rfl : r1 = ref := Except.ok.inj (hr1.symm.trans hr)
  obtain rfl : r2 = r1 := Except.ok.inj (hr2.symm.trans hr)
  obtain rfl : r3 = r2 := Except.ok.inj (hr3.symm.trans hr)
  obtain rfl : s1 = s := Except.ok.inj (hc1.symm.trans hc)
  obtain rfl : s2 = s1 := Except.ok.inj (hc2.symm.trans hc)
  obtain rfl : s3 = s2 := Except.ok.inj (hc3.symm.trans hc)
  obtain ⟨-, ⟨A, hA, hAr, hAc, hAe⟩, -⟩ := hv s3.internal.points
  obtain ⟨-, ⟨X, Y, hXY, hXr, hYr, hXc, hYc, hXYe⟩, -⟩ := hd s3.internal.points
  have hne : 0 < s3.internal.points.length := by
    rcases Nat.eq_zero_or_pos s3.internal.points.length with h | h
    · have := hs.discrete.definite 1 (by simp) (by
        rw [List.length_eq_zero_iff.1 h]
        simp [quadLin, quadSum])
      exact absurd this one_ne_zero
    · exact h
  have hsize : s3.init.numBasis = n + n * (k - 1) + k * (k - 1) / 2 := by rw [hs.init.numBasis, half_tri, mul_comm]
  have hget : ∀ q < s3.internal.points.length, s3.internal.points[q]? = some (s3.internal.points.getD q 0) := by
    intro q hq
    simp [List.getD_eq_getElem?_getD, hq]
  have hsum : ∀ (B : DMat ℝ) (v : Nat → ℝ) (q : Nat), B.cols = n + n * (k - 1) + k * (k - 1) / 2 →
      ∑ j ∈ Finset.range (n + n * (k - 1) + k * (k - 1) / 2), v j * B.ent q j = apply B v q := by
    intro B v q hB
    rw [apply_eq hB]
    exact Finset.sum_congr rfl fun j _ => mul_comm _ _
  refine ⟨r3, s3, hr, hc, hs, hne, A.ent, fun d => if d = 0 then X.ent else Y.ent, ⟨hsize, hsize, ?_, ?_, ?_, ?_, ?_, ?_⟩, ?_⟩
  · exact eq_vecOf s3.internal.points
  · show s3.internal.weights = _
    rw [← hs.rules.wlen]
    exact eq_vecOf s3.internal.weights
  · exact (hi _ (by decide)).trans (hA.trans (by rw [← dmat_eta hAr hAc]))
  · refine (hi' _).trans (hXY.trans ?_)
    rw [if_pos rfl, if_neg one_ne_zero, ← dmat_eta hXr hXc, ← dmat_eta hYr hYc]
  · exact hA.trans (by rw [← dmat_eta hAr hAc])
  · refine hXY.trans ?_
    rw [if_pos rfl, if_neg one_ne_zero, ← dmat_eta hXr hXc, ← dmat_eta hYr hYc]
  · intro v q hq
    refine ⟨(hsum A v q hAc).trans (hAe v q _ (hget q hq)), ?_, ?_⟩
    · show ∑ j ∈ Finset.range _, v j * X.ent q j = _
      exact (hsum X v q hXc).trans (hXYe v q _ (hget q hq)).1
    · show ∑ j ∈ Finset.range _, v j * Y.ent q j = _
      exact (hsum Y v q hYc).trans (hXYe v q _ (hget q hq)).2

/-- The local matrix applied to two vectors: quadrature of the coefficients applied to the projections, plus the scaled stabilization. -/
theorem vem_form (hE : IsElement poly n V len dir nrm) (hT : IsTables k triangle edge ts ws w) (hlu : SolvesRegular lu) (hllt : SolvesPosDef llt)
    (hpos : 0 < poly.measure) (κ : ℝ × ℝ → Nat → ℝ) (β : Option (ℝ × ℝ → Nat → ℝ)) (γ : Option (ℝ × ℝ → ℝ)) :
    ∃ ref s A S K, vemRef2D triangle edge k = .ok ref ∧ vemCreate2D lu llt ref poly = .ok s ∧ SpaceOk k n V len dir ts ws w poly s ∧
      localElliptic (vemSpace2D ref poly s) (vemSpace2D ref poly s) (some κ) β γ = .ok A ∧
      A.rows = n + n * (k - 1) + k * (k - 1) / 2 ∧ A.cols = n + n * (k - 1) + k * (k - 1) / 2 ∧
      vemDofiDofi poly s .piNabla = .ok S ∧ IsGreatest {y | ∃ p ∈ s.internal.points, ∃ c < 9, y = |κ p c|} K ∧
      S.rows = n + n * (k - 1) + k * (k - 1) / 2 ∧ S.cols = n + n * (k - 1) + k * (k - 1) / 2 ∧
      ∀ v y : Nat → ℝ, ∑ i ∈ Finset.range A.rows, v i * apply A y i
        = quadSum s.internal.points s.internal.weights (fun p =>
            (κ p 0 * (polyOf (k - 1) poly.centroid poly.diameter (apply s.derX v) p * polyOf (k - 1) poly.centroid poly.diameter (apply s.derX y) p)
            + κ p 3 * (polyOf (k - 1) poly.centroid poly.diameter (apply s.derX v) p * polyOf (k - 1) poly.centroid poly.diameter (apply s.derY y) p)
            + κ p 1 * (polyOf (k - 1) poly.centroid poly.diameter (apply s.derY v) p * polyOf (k - 1) poly.centroid poly.diameter (apply s.derX y) p)
            + κ p 4 * (polyOf (k - 1) poly.centroid poly.diameter (apply s.derY v) p * polyOf (k - 1) poly.centroid poly.diameter (apply s.derY y) p))
            + (β.elim 0 fun b => b p 0 * (polyOf (k - 1) poly.centroid poly.diameter (apply s.pi0km1 v) p * polyOf (k - 1) poly.centroid poly.diameter (apply s.derX y) p)
              + b p 1 * (polyOf (k - 1) poly.centroid poly.diameter (apply s.pi0km1 v) p * polyOf (k - 1) poly.centroid poly.diameter (apply s.derY y) p))
            + γ.elim 0 fun c => c p * (polyOf (k - 1) poly.centroid poly.diameter (apply s.pi0km1 v) p * polyOf (k - 1) poly.centroid poly.diameter (apply s.pi0km1 y) p))
          + K * ∑ i ∈ Finset.range S.rows, v i * apply S y i := by
  obtain ⟨ref, s, hr, hc, hs, hQ, S, SD, hD, hval⟩ := vem_tabulated hE hT hlu hllt
  obtain ⟨r1, s1, hr1, hc1, hst, -⟩ := C77_stabilization hE hT hlu hllt hpos
  obtain rfl : r1 = ref := Except.ok.inj (hr1.symm.trans hr)
  obtain rfl : s1 = s := Except.ok.inj (hc1.symm.trans hc)
  obtain ⟨Z, hZ, hZr, hZc, -, -⟩ := hst .piNabla (Or.inl rfl)
  have hZ' := dmat_eta hZr (hZc.trans hZr)
  obtain ⟨A, K, hA, hAr, hAc, hK, he⟩ := C84_local hD hQ Z.ent (fun _ => by rw [← hZ']; exact hZ) (some κ) β γ
  refine ⟨r1, s1, A, Z, K, hr, hc, hs, hA, hAr, hAc, hZ, ?_, hZr, hZc.trans hZr, ?_⟩
  · have hg := hK κ rfl
    have hset : {y | ∃ p ∈ s1.internal.points, ∃ c < 9, y = |κ p c|} = {y | ∃ q < s1.internal.points.length, ∃ c < 9, y = |κ (s1.internal.points.getD q 0) c|} := by
      ext y
      constructor
      · rintro ⟨p, hp, c, hc, rfl⟩
        obtain ⟨q, hq, rfl⟩ := List.mem_iff_getElem.1 hp
        exact ⟨q, hq, c, hc, by simp [List.getD_eq_getElem?_getD, hq]⟩
      · rintro ⟨q, hq, c, hc, rfl⟩
        exact ⟨_, by simp [List.getD_eq_getElem?_getD, hq], c, hc, rfl⟩
    rw [hset]
    exact hg
  · intro v y
    have hadd : ∀ (F G : Nat → Nat → ℝ), form (n + n * (k - 1) + k * (k - 1) / 2) (n + n * (k - 1) + k * (k - 1) / 2) (fun i j => F i j + G i j) v y
        = form (n + n * (k - 1) + k * (k - 1) / 2) (n + n * (k - 1) + k * (k - 1) / 2) F v y + form (n + n * (k - 1) + k * (k - 1) / 2) (n + n * (k - 1) + k * (k - 1) / 2) G v y := by
      intro F G
      unfold form
      simp only [add_mul, Finset.sum_add_distrib, mul_add]
    have hzero : form (n + n * (k - 1) + k * (k - 1) / 2) (n + n * (k - 1) + k * (k - 1) / 2) (fun _ _ => 0) v y = 0 := by
      unfold form
      simp
    have hent : A.ent = fun i j => _ := funext fun i => funext fun j => he i j
    rw [hAr, hZr, apply_eq hAc, apply_eq (hZc.trans hZr)]
    show form _ _ A.ent v y = _ + K * form _ _ Z.ent v y
    rw [hent, hadd, hadd, hadd]
    simp only [Option.elim_some, if_true]
    rw [form_mul, quadSum_add, quadSum_add]
    have hpts : ∀ (i : Nat) (p : ℝ × ℝ), s1.internal.points[i]? = some p → i < s1.internal.points.length ∧ s1.internal.points.getD i 0 = p := by
      intro i p hp
      obtain ⟨hi, rfl⟩ := List.getElem?_eq_some_iff.1 hp
      exact ⟨hi, by simp [List.getD_eq_getElem?_getD, hi]⟩
    have e1 : form (n + n * (k - 1) + k * (k - 1) / 2) (n + n * (k - 1) + k * (k - 1) / 2) (fun i j => ∑ q ∈ Finset.range s1.internal.points.length,
        s1.internal.weights.getD q 0 * ∑ r ∈ Finset.range 2, ∑ c ∈ Finset.range 2, κ (s1.internal.points.getD q 0) (r + 3 * c) * (SD r q i * SD c q j)) v y
        = quadSum s1.internal.points s1.internal.weights fun p =>
            κ p 0 * (polyOf (k - 1) poly.centroid poly.diameter (apply s1.derX v) p * polyOf (k - 1) poly.centroid poly.diameter (apply s1.derX y) p)
            + κ p 3 * (polyOf (k - 1) poly.centroid poly.diameter (apply s1.derX v) p * polyOf (k - 1) poly.centroid poly.diameter (apply s1.derY y) p)
            + κ p 1 * (polyOf (k - 1) poly.centroid poly.diameter (apply s1.derY v) p * polyOf (k - 1) poly.centroid poly.diameter (apply s1.derX y) p)
            + κ p 4 * (polyOf (k - 1) poly.centroid poly.diameter (apply s1.derY v) p * polyOf (k - 1) poly.centroid poly.diameter (apply s1.derY y) p) := by
      rw [form_sum]
      simp only [form_mul]
      refine sum_quadSum _ _ hs.rules.wlen _ _ fun i p hp => ?_
      obtain ⟨hi, hp⟩ := hpts i p hp
      obtain ⟨-, v1, v2⟩ := hval v i hi
      obtain ⟨-, y1, y2⟩ := hval y i hi
      simp only [form_sum, form_mul, form_prod]
      simp only [Finset.sum_range_succ _ 1, Finset.sum_range_one, v1, v2, y1, y2, hp]
      norm_num
      ring
    have e2 : form (n + n * (k - 1) + k * (k - 1) / 2) (n + n * (k - 1) + k * (k - 1) / 2) (fun i j => β.elim 0 fun f => ∑ q ∈ Finset.range s1.internal.points.length,
        s1.internal.weights.getD q 0 * ∑ d ∈ Finset.range 2, f (s1.internal.points.getD q 0) d * (S q i * SD d q j)) v y
        = quadSum s1.internal.points s1.internal.weights fun p => β.elim 0 fun b =>
            b p 0 * (polyOf (k - 1) poly.centroid poly.diameter (apply s1.pi0km1 v) p * polyOf (k - 1) poly.centroid poly.diameter (apply s1.derX y) p)
              + b p 1 * (polyOf (k - 1) poly.centroid poly.diameter (apply s1.pi0km1 v) p * polyOf (k - 1) poly.centroid poly.diameter (apply s1.derY y) p) := by
      cases β with
      | none =>
        simp only [Option.elim]
        rw [← sum_quadSum _ _ hs.rules.wlen (fun _ => 0) _ fun i p hp => rfl]
        simpa using hzero
      | some f =>
        simp only [Option.elim]
        rw [form_sum]
        simp only [form_mul]
        refine sum_quadSum _ _ hs.rules.wlen _ _ fun i p hp => ?_
        obtain ⟨hi, hp⟩ := hpts i p hp
        obtain ⟨v0, -, -⟩ := hval v i hi
        obtain ⟨-, y1, y2⟩ := hval y i hi
        simp only [form_sum, form_mul, form_prod]
        simp only [Finset.sum_range_succ _ 1, Finset.sum_range_one, v0, y1, y2, hp]
    have e3 : form (n + n * (k - 1) + k * (k - 1) / 2) (n + n * (k - 1) + k * (k - 1) / 2) (fun i j => γ.elim 0 fun f => ∑ q ∈ Finset.range s1.internal.points.length,
        s1.internal.weights.getD q 0 * (f (s1.internal.points.getD q 0) * (S q i * S q j))) v y
        = quadSum s1.internal.points s1.internal.weights fun p => γ.elim 0 fun c =>
            c p * (polyOf (k - 1) poly.centroid poly.diameter (apply s1.pi0km1 v) p * polyOf (k - 1) poly.centroid poly.diameter (apply s1.pi0km1 y) p) := by
      cases γ with
      | none =>
        simp only [Option.elim]
        rw [← sum_quadSum _ _ hs.rules.wlen (fun _ => 0) _ fun i p hp => rfl]
        simpa using hzero
      | some f =>
        simp only [Option.elim]
        rw [form_sum]
        simp only [form_mul]
        refine sum_quadSum _ _ hs.rules.wlen _ _ fun i p hp => ?_
        obtain ⟨hi, hp⟩ := hpts i p hp
        obtain ⟨v0, -, -⟩ := hval v i hi
        obtain ⟨y0, -, -⟩ := hval y i hi
        simp only [form_prod, v0, y0, hp]
    rw [e1, e2, e3]
    ring

theorem vem_energy (hE : IsElement poly n V len dir nrm) (hT : IsTables k triangle edge ts ws w) (hlu : SolvesRegular lu) (hllt : SolvesPosDef llt)
    (hpos : 0 < poly.measure) (κ : ℝ × ℝ → Nat → ℝ) :
    ∃ ref s A S K, vemRef2D triangle edge k = .ok ref ∧ vemCreate2D lu llt ref poly = .ok s ∧ SpaceOk k n V len dir ts ws w poly s ∧
      localElliptic (vemSpace2D ref poly s) (vemSpace2D ref poly s) (some κ) none none = .ok A ∧
      A.rows = n + n * (k - 1) + k * (k - 1) / 2 ∧ A.cols = n + n * (k - 1) + k * (k - 1) / 2 ∧
      vemDofiDofi poly s .piNabla = .ok S ∧ IsGreatest {y | ∃ p ∈ s.internal.points, ∃ c < 9, y = |κ p c|} K ∧
      S.rows = n + n * (k - 1) + k * (k - 1) / 2 ∧ S.cols = n + n * (k - 1) + k * (k - 1) / 2 ∧
      ∀ v y : Nat → ℝ, ∑ i ∈ Finset.range A.rows, v i * apply A y i
        = quadSum s.internal.points s.internal.weights (fun p =>
            κ p 0 * (polyOf (k - 1) poly.centroid poly.diameter (apply s.derX v) p * polyOf (k - 1) poly.centroid poly.diameter (apply s.derX y) p)
            + κ p 3 * (polyOf (k - 1) poly.centroid poly.diameter (apply s.derX v) p * polyOf (k - 1) poly.centroid poly.diameter (apply s.derY y) p)
            + κ p 1 * (polyOf (k - 1) poly.centroid poly.diameter (apply s.derY v) p * polyOf (k - 1) poly.centroid poly.diameter (apply s.derX y) p)
            + κ p 4 * (polyOf (k - 1) poly.centroid poly.diameter (apply s.derY v) p * polyOf (k - 1) poly.centroid poly.diameter (apply s.derY y) p))
          + K * ∑ i ∈ Finset.range S.rows, v i * apply S y i := by
  have := vem_form hE hT hlu hllt hpos κ none none
  simpa only [Option.elim, add_zero] using this

/-- A symmetric positive semidefinite matrix maps the vectors of zero energy to zero. -/
theorem psd_null {N : Nat} {S : Nat → Nat → ℝ} (hsym : ∀ i j, S i j = S j i) (hpsd : ∀ x, 0 ≤ form N N S x x) {y : Nat → ℝ} (h0 : form N N S y y = 0)
    (v : Nat → ℝ) : form N N S v y = 0 := by
  have hexp : ∀ t : ℝ, form N N S (fun i => v i + t * y i) (fun i => v i + t * y i) = form N N S v v + 2 * t * form N N S v y + t * t * form N N S y y := by
    intro t
    have hs : form N N S y v = form N N S v y := by
      unfold form
      simp only [Finset.mul_sum]
      rw [Finset.sum_comm]
      exact Finset.sum_congr rfl fun i _ => Finset.sum_congr rfl fun j _ => by rw [hsym]; ring
    have : form N N S (fun i => v i + t * y i) (fun i => v i + t * y i) = form N N S v v + t * form N N S v y + (t * form N N S y v + t * t * form N N S y y) := by
      unfold form
      simp only [Finset.mul_sum, ← Finset.sum_add_distrib]
      exact Finset.sum_congr rfl fun i _ => Finset.sum_congr rfl fun j _ => by ring
    rw [this, hs]
    ring
  by_contra h
  set b := form N N S v y
  have h1 := hpsd fun i => v i + (-(form N N S v v + 1) / (2 * b)) * y i
  rw [hexp, h0, mul_zero, add_zero] at h1
  have : 2 * (-(form N N S v v + 1) / (2 * b)) * b = -(form N N S v v + 1) := by field_simp
  linarith

/-- The stabilization does not see the polynomials. -/
theorem stab_null (hE : IsElement poly n V len dir nrm) (hT : IsTables k triangle edge ts ws w) (hlu : SolvesRegular lu) (hllt : SolvesPosDef llt)
    (hpos : 0 < poly.measure) {ref : VemRef2D ℝ} {s : VemSpace2D ℝ} {S : DMat ℝ} (hr : vemRef2D triangle edge k = .ok ref) (hc : vemCreate2D lu llt ref poly = .ok s)
    (hS : vemDofiDofi poly s .piNabla = .ok S) {q : MvPolynomial (Fin 2) ℝ} {y : Nat → ℝ} (hq : q.totalDegree ≤ k)
    (hy : IsDofVector k poly n V dir ts (fun p => eval ![p.1, p.2] q) y) (v : Nat → ℝ) : ∑ i ∈ Finset.range S.rows, v i * apply S y i = 0 := by
  obtain ⟨r1, s1, hr1, hc1, hst, -⟩ := C77_stabilization hE hT hlu hllt hpos
  obtain rfl : r1 = ref := Except.ok.inj (hr1.symm.trans hr)
  obtain rfl : s1 = s := Except.ok.inj (hc1.symm.trans hc)
  obtain ⟨Z, hZ, hZr, hZc, hsym, hpsd⟩ := hst .piNabla (Or.inl rfl)
  obtain rfl : Z = S := Except.ok.inj (hZ.symm.trans hS)
  have hf : ∀ a b : Nat → ℝ, ∑ i ∈ Finset.range Z.rows, a i * apply Z b i = form Z.rows Z.rows Z.ent a b := by
    intro a b
    rw [apply_eq hZc]
    rfl
  rw [hf]
  exact psd_null hsym (fun x => hf x x ▸ (hpsd x).1) (hf y y ▸ (hpsd y).2.2 ⟨q, hq, hy⟩) v

/-- C85, consistency: for a constant diffusion tensor the local matrix applied to a function `u` with the degrees of freedom `v` and a polynomial `q` of
degree at most the order is the exact energy, written with the flux `F = κ ∇q` so that it makes sense for the virtual functions: the integral of `u F · n`
over the edges minus the integral of `u div F`. The stabilization does not contribute. -/
theorem C85_consistency (hE : IsElement poly n V len dir nrm) (hT : IsTables k triangle edge ts ws w) (hts : ∀ t ∈ ts, 0 ≤ t ∧ t ≤ 1)
    (hlu : SolvesRegular lu) (hllt : SolvesPosDef llt) (hpos : 0 < poly.measure) (κ : Nat → ℝ) :
    ∃ ref s A, vemRef2D triangle edge k = .ok ref ∧ vemCreate2D lu llt ref poly = .ok s ∧
      localElliptic (vemSpace2D ref poly s) (vemSpace2D ref poly s) (some fun _ => κ) none none = .ok A ∧
      A.rows = n + n * (k - 1) + k * (k - 1) / 2 ∧ A.cols = A.rows ∧
      ∀ (u : ℝ × ℝ → ℝ) (v : Nat → ℝ) (q : MvPolynomial (Fin 2) ℝ) (y : Nat → ℝ),
        IntegrableOn u (unionOf poly.tris) → EdgePolynomial k n V u → IsDofVector k poly n V dir ts u v →
        q.totalDegree ≤ k → IsDofVector k poly n V dir ts (fun p => eval ![p.1, p.2] q) y →
        ∀ F₁ F₂ : MvPolynomial (Fin 2) ℝ, F₁ = C (κ 0) * pderiv 0 q + C (κ 3) * pderiv 1 q → F₂ = C (κ 1) * pderiv 0 q + C (κ 4) * pderiv 1 q →
        ∑ i ∈ Finset.range A.rows, v i * apply A y i
          = (∑ e ∈ Finset.range n, ((clockwise (V ((e + 1) % n) - V e)).1 * segInt (fun p => eval ![p.1, p.2] F₁ * u p) (V e) (V ((e + 1) % n))
              + (clockwise (V ((e + 1) % n) - V e)).2 * segInt (fun p => eval ![p.1, p.2] F₂ * u p) (V e) (V ((e + 1) % n))))
            - ((∫ p in unionOf poly.tris, eval ![p.1, p.2] (pderiv 0 F₁) * u p) + ∫ p in unionOf poly.tris, eval ![p.1, p.2] (pderiv 1 F₂) * u p) := by
  obtain ⟨ref, s, A, S, K, hr, hc, hs, hA, hAr, hAc, hS, hK, hSr, hSc, he⟩ := vem_energy hE hT hlu hllt hpos fun _ => κ
  obtain ⟨r2, s2, hr2, hc2, hder⟩ := C73_derivatives hE hT hts hlu hllt
  obtain ⟨r3, s3, hr3, hc3, -, -, -, -, hexact⟩ := C71_derivatives hE hT hlu hllt
  obtain rfl : r2 = ref := Except.ok.inj (hr2.symm.trans hr)
  obtain rfl : s2 = s := Except.ok.inj (hc2.symm.trans hc)
  obtain rfl : r3 = r2 := Except.ok.inj (hr3.symm.trans hr)
  obtain rfl : s3 = s2 := Except.ok.inj (hc3.symm.trans hc)
  have hk := hT.low
  have hkk : k - 1 + 1 = k := by omega
  refine ⟨r3, s3, A, hr, hc, hA, hAr, hAc.trans hAr.symm, ?_⟩
  intro u v q y hu hue hv hq hy F₁ F₂ hF₁ hF₂
  have hd : ∀ d, (pderiv d q).totalDegree ≤ k - 1 := fun d => (totalDegree_pderiv d q).trans (by omega)
  have hCd : ∀ (a b : ℝ) (x y : MvPolynomial (Fin 2) ℝ), x.totalDegree ≤ k - 1 → y.totalDegree ≤ k - 1 → (C a * x + C b * y).totalDegree ≤ k - 1 := by
    intro a b x y hx hy
    refine (totalDegree_add _ _).trans (max_le ?_ ?_)
    · exact (totalDegree_mul _ _).trans (by rw [totalDegree_C]; omega)
    · exact (totalDegree_mul _ _).trans (by rw [totalDegree_C]; omega)
  have hF₁d : F₁.totalDegree ≤ k - 1 := hF₁ ▸ hCd _ _ _ _ (hd 0) (hd 1)
  have hF₂d : F₂.totalDegree ≤ k - 1 := hF₂ ▸ hCd _ _ _ _ (hd 0) (hd 1)
  have hnull := stab_null hE hT hlu hllt hpos hr hc hS hq hy v
  rw [he, hnull, mul_zero, add_zero]
  obtain ⟨d1, d2⟩ := hder u v hu hue hv F₁ hF₁d
  obtain ⟨e1, e2⟩ := hder u v hu hue hv F₂ hF₂d
  set PX := combo k poly.centroid poly.diameter (tri k) (apply s3.derX v) with hPX
  set PY := combo k poly.centroid poly.diameter (tri k) (apply s3.derY v) with hPY
  have hX : ∀ p, ev2 PX p = polyOf (k - 1) poly.centroid poly.diameter (apply s3.derX v) p := fun p => by
    rw [← ev2_combo k _ _ (show k - 1 ≤ k by omega), hkk]
  have hY : ∀ p, ev2 PY p = polyOf (k - 1) poly.centroid poly.diameter (apply s3.derY v) p := fun p => by
    rw [← ev2_combo k _ _ (show k - 1 ≤ k by omega), hkk]
  have hXd := combo_degree (c := poly.centroid) (h := poly.diameter) (apply s3.derX v) (show k - 1 ≤ k by omega)
  have hYd := combo_degree (c := poly.centroid) (h := poly.diameter) (apply s3.derY v) (show k - 1 ≤ k by omega)
  rw [hkk, ← hPX] at hXd
  rw [hkk, ← hPY] at hYd
  have hquad : quadSum s3.internal.points s3.internal.weights (fun p =>
            κ 0 * (polyOf (k - 1) poly.centroid poly.diameter (apply s3.derX v) p * polyOf (k - 1) poly.centroid poly.diameter (apply s3.derX y) p)
            + κ 3 * (polyOf (k - 1) poly.centroid poly.diameter (apply s3.derX v) p * polyOf (k - 1) poly.centroid poly.diameter (apply s3.derY y) p)
            + κ 1 * (polyOf (k - 1) poly.centroid poly.diameter (apply s3.derY v) p * polyOf (k - 1) poly.centroid poly.diameter (apply s3.derX y) p)
            + κ 4 * (polyOf (k - 1) poly.centroid poly.diameter (apply s3.derY v) p * polyOf (k - 1) poly.centroid poly.diameter (apply s3.derY y) p))
      = quadLin s3.internal.points s3.internal.weights (F₁ * PX) + quadLin s3.internal.points s3.internal.weights (F₂ * PY) := by
    rw [← map_add]
    show _ = quadSum _ _ (ev2 _)
    congr 1
    funext p
    rw [(hexact q hq y hy p).1, (hexact q hq y hy p).2, ← hX, ← hY, hF₁, hF₂]
    simp only [ev2, map_add, map_mul, eval_C]
    ring
  rw [hquad, hs.rules.integral _ ((totalDegree_mul _ _).trans (by omega)), hs.rules.integral _ ((totalDegree_mul _ _).trans (by omega))]
  have i1 : (∫ p in unionOf poly.tris, ev2 (F₁ * PX) p) = ∫ p in unionOf poly.tris, eval ![p.1, p.2] F₁ * polyOf (k - 1) poly.centroid poly.diameter (apply s3.derX v) p := by
    congr 1
    funext p
    rw [← hX]
    simp only [ev2, map_mul]
  have i2 : (∫ p in unionOf poly.tris, ev2 (F₂ * PY) p) = ∫ p in unionOf poly.tris, eval ![p.1, p.2] F₂ * polyOf (k - 1) poly.centroid poly.diameter (apply s3.derY v) p := by
    congr 1
    funext p
    rw [← hY]
    simp only [ev2, map_mul]
  rw [i1, i2, d1, e2, Finset.sum_add_distrib]
  ring

/-- C85, exactness: if the entries of the tensor are polynomials of degree at most 2, the local diffusion matrix applied to two polynomials of degree at most
the order is the integral of `κ ∇q · ∇p`. -/
theorem C85_exact (hE : IsElement poly n V len dir nrm) (hT : IsTables k triangle edge ts ws w) (hlu : SolvesRegular lu) (hllt : SolvesPosDef llt)
    (hpos : 0 < poly.measure) (κ : Nat → MvPolynomial (Fin 2) ℝ) (hκ : ∀ c, (κ c).totalDegree ≤ 2) :
    ∃ ref s A, vemRef2D triangle edge k = .ok ref ∧ vemCreate2D lu llt ref poly = .ok s ∧
      localElliptic (vemSpace2D ref poly s) (vemSpace2D ref poly s) (some fun p c => eval ![p.1, p.2] (κ c)) none none = .ok A ∧
      ∀ (p q : MvPolynomial (Fin 2) ℝ) (v y : Nat → ℝ), p.totalDegree ≤ k → q.totalDegree ≤ k →
        IsDofVector k poly n V dir ts (fun x => eval ![x.1, x.2] p) v → IsDofVector k poly n V dir ts (fun x => eval ![x.1, x.2] q) y →
        ∑ i ∈ Finset.range A.rows, v i * apply A y i
          = ∫ x in unionOf poly.tris, eval ![x.1, x.2] ((κ 0 * pderiv 0 q + κ 3 * pderiv 1 q) * pderiv 0 p + (κ 1 * pderiv 0 q + κ 4 * pderiv 1 q) * pderiv 1 p) := by
  obtain ⟨ref, s, A, S, K, hr, hc, hs, hA, hAr, hAc, hS, hK, hSr, hSc, he⟩ := vem_energy hE hT hlu hllt hpos fun p c => eval ![p.1, p.2] (κ c)
  obtain ⟨r3, s3, hr3, hc3, -, -, -, -, hexact⟩ := C71_derivatives hE hT hlu hllt
  obtain rfl : r3 = ref := Except.ok.inj (hr3.symm.trans hr)
  obtain rfl : s3 = s := Except.ok.inj (hc3.symm.trans hc)
  refine ⟨r3, s3, A, hr, hc, hA, ?_⟩
  intro p q v y hp hq hv hy
  have hk := hT.low
  rw [he, stab_null hE hT hlu hllt hpos hr hc hS hq hy v, mul_zero, add_zero]
  have hd : ∀ (c : Nat) (i j : Fin 2), (κ c * pderiv i q * pderiv j p).totalDegree ≤ 2 * k := by
    intro c i j
    have h1 := hκ c
    have h2 := totalDegree_pderiv i q
    have h3 := totalDegree_pderiv j p
    refine (totalDegree_mul _ _).trans ((add_le_add_left (totalDegree_mul _ _) _).trans ?_)
    omega
  have hdeg : ((κ 0 * pderiv 0 q + κ 3 * pderiv 1 q) * pderiv 0 p + (κ 1 * pderiv 0 q + κ 4 * pderiv 1 q) * pderiv 1 p).totalDegree ≤ 2 * k := by
    rw [add_mul, add_mul]
    refine (totalDegree_add _ _).trans (max_le ((totalDegree_add _ _).trans (max_le ?_ ?_)) ((totalDegree_add _ _).trans (max_le ?_ ?_))) <;> exact hd _ _ _
  refine Eq.trans ?_ (hs.rules.integral _ hdeg)
  show _ = quadSum _ _ (ev2 _)
  congr 1
  funext x
  rw [(hexact q hq y hy x).1, (hexact q hq y hy x).2, (hexact p hp v hv x).1, (hexact p hp v hv x).2]
  simp only [ev2, map_add, map_mul]
  ring

/-- C85, all terms: with advection and reaction, for polynomials of degree at most the order minus one. -/
theorem C85_all (hE : IsElement poly n V len dir nrm) (hT : IsTables k triangle edge ts ws w) (hlu : SolvesRegular lu) (hllt : SolvesPosDef llt)
    (hpos : 0 < poly.measure) (κ β : Nat → MvPolynomial (Fin 2) ℝ) (γ : MvPolynomial (Fin 2) ℝ) (hκ : ∀ c, (κ c).totalDegree ≤ 2) (hβ : ∀ c, (β c).totalDegree ≤ 2)
    (hγ : γ.totalDegree ≤ 2) :
    ∃ ref s A, vemRef2D triangle edge k = .ok ref ∧ vemCreate2D lu llt ref poly = .ok s ∧
      localElliptic (vemSpace2D ref poly s) (vemSpace2D ref poly s) (some fun p c => eval ![p.1, p.2] (κ c)) (some fun p c => eval ![p.1, p.2] (β c))
        (some fun p => eval ![p.1, p.2] γ) = .ok A ∧
      ∀ (p q : MvPolynomial (Fin 2) ℝ) (v y : Nat → ℝ), p.totalDegree ≤ k - 1 → q.totalDegree ≤ k - 1 →
        IsDofVector k poly n V dir ts (fun x => eval ![x.1, x.2] p) v → IsDofVector k poly n V dir ts (fun x => eval ![x.1, x.2] q) y →
        ∑ i ∈ Finset.range A.rows, v i * apply A y i
          = ∫ x in unionOf poly.tris, eval ![x.1, x.2] ((κ 0 * pderiv 0 q + κ 3 * pderiv 1 q) * pderiv 0 p + (κ 1 * pderiv 0 q + κ 4 * pderiv 1 q) * pderiv 1 p
              + (β 0 * pderiv 0 q + β 1 * pderiv 1 q) * p + γ * q * p) := by
  obtain ⟨ref, s, A, S, K, hr, hc, hs, hA, hAr, hAc, hS, hK, hSr, hSc, he⟩ := vem_form hE hT hlu hllt hpos (fun p c => eval ![p.1, p.2] (κ c))
    (some fun p c => eval ![p.1, p.2] (β c)) (some fun p => eval ![p.1, p.2] γ)
  obtain ⟨r3, s3, hr3, hc3, -, -, -, -, hexact⟩ := C71_derivatives hE hT hlu hllt
  obtain ⟨r4, s4, hr4, hc4, -, -, hvalue⟩ := C52_pi0km1 hE hT hlu hllt
  obtain rfl : r3 = ref := Except.ok.inj (hr3.symm.trans hr)
  obtain rfl : s3 = s := Except.ok.inj (hc3.symm.trans hc)
  obtain rfl : r4 = r3 := Except.ok.inj (hr4.symm.trans hr)
  obtain rfl : s4 = s3 := Except.ok.inj (hc4.symm.trans hc)
  refine ⟨r4, s4, A, hr, hc, hA, ?_⟩
  intro p q v y hp hq hv hy
  have hk := hT.low
  have hp' : p.totalDegree ≤ k := hp.trans (by omega)
  have hq' : q.totalDegree ≤ k := hq.trans (by omega)
  rw [he, stab_null hE hT hlu hllt hpos hr hc hS hq' hy v, mul_zero, add_zero]
  have hd : ∀ a b c : MvPolynomial (Fin 2) ℝ, a.totalDegree ≤ 2 → b.totalDegree ≤ k - 1 → c.totalDegree ≤ k - 1 → (a * b * c).totalDegree ≤ 2 * k := by
    intro a b c h1 h2 h3
    refine (totalDegree_mul _ _).trans ((add_le_add_left (totalDegree_mul _ _) _).trans ?_)
    omega
  have hdp : ∀ i, (pderiv i p).totalDegree ≤ k - 1 := fun i => (totalDegree_pderiv i p).trans (by omega)
  have hdq : ∀ i, (pderiv i q).totalDegree ≤ k - 1 := fun i => (totalDegree_pderiv i q).trans (by omega)
  have hsum : ∀ a b : MvPolynomial (Fin 2) ℝ, a.totalDegree ≤ 2 * k → b.totalDegree ≤ 2 * k → (a + b).totalDegree ≤ 2 * k := fun a b h1 h2 =>
    (totalDegree_add _ _).trans (max_le h1 h2)
  have hdeg : ((κ 0 * pderiv 0 q + κ 3 * pderiv 1 q) * pderiv 0 p + (κ 1 * pderiv 0 q + κ 4 * pderiv 1 q) * pderiv 1 p
              + (β 0 * pderiv 0 q + β 1 * pderiv 1 q) * p + γ * q * p).totalDegree ≤ 2 * k := by
    rw [add_mul, add_mul, add_mul]
    refine hsum _ _ (hsum _ _ (hsum _ _ (hsum _ _ ?_ ?_) (hsum _ _ ?_ ?_)) (hsum _ _ ?_ ?_)) (hd _ _ _ hγ hq hp)
    · exact hd _ _ _ (hκ _) (hdq _) (hdp _)
    · exact hd _ _ _ (hκ _) (hdq _) (hdp _)
    · exact hd _ _ _ (hκ _) (hdq _) (hdp _)
    · exact hd _ _ _ (hκ _) (hdq _) (hdp _)
    · exact hd _ _ _ (hβ _) (hdq _) hp
    · exact hd _ _ _ (hβ _) (hdq _) hp
  refine Eq.trans ?_ (hs.rules.integral _ hdeg)
  show _ = quadSum _ _ (ev2 _)
  congr 1
  funext x
  rw [(hexact q hq' y hy x).1, (hexact q hq' y hy x).2, (hexact p hp' v hv x).1, (hexact p hp' v hv x).2, (hvalue p hp' v hv).2 hp x, (hvalue q hq' y hy).2 hq x]
  simp only [ev2, map_add, map_mul, Option.elim_some]
  ring

/-- C85, the right-hand side: tested with a polynomial `q` of degree at most `k` it is the integral of `f q`, if `f` is a polynomial of degree at most
`k - 1`, or of degree at most `k + 1` and `q` of degree at most `k - 1`. -/
theorem C85_source (hE : IsElement poly n V len dir nrm) (hT : IsTables k triangle edge ts ws w) (hlu : SolvesRegular lu) (hllt : SolvesPosDef llt)
    (f : MvPolynomial (Fin 2) ℝ) :
    ∃ ref s b, vemRef2D triangle edge k = .ok ref ∧ vemCreate2D lu llt ref poly = .ok s ∧
      localSource (vemSpace2D ref poly s) (vemSpace2D ref poly s) (fun p => eval ![p.1, p.2] f) = .ok b ∧ b.rows = n + n * (k - 1) + k * (k - 1) / 2 ∧ b.cols = 1 ∧
      ∀ (q : MvPolynomial (Fin 2) ℝ) (v : Nat → ℝ), q.totalDegree ≤ k → f.totalDegree ≤ k - 1 ∨ f.totalDegree ≤ k + 1 ∧ q.totalDegree ≤ k - 1 →
        IsDofVector k poly n V dir ts (fun x => eval ![x.1, x.2] q) v →
        ∑ i ∈ Finset.range b.rows, v i * b.ent i 0 = ∫ x in unionOf poly.tris, eval ![x.1, x.2] f * eval ![x.1, x.2] q := by
  obtain ⟨ref, s, hr, hc, hs, hQ, S, SD, hD, hval⟩ := vem_tabulated hE hT hlu hllt
  obtain ⟨r4, s4, hr4, hc4, -, -, hvalue⟩ := C52_pi0km1 hE hT hlu hllt
  obtain rfl : r4 = ref := Except.ok.inj (hr4.symm.trans hr)
  obtain rfl : s4 = s := Except.ok.inj (hc4.symm.trans hc)
  obtain ⟨b, hb, hbr, hbc, he⟩ := C84_source hD fun p => eval ![p.1, p.2] f
  have hk := hT.low
  refine ⟨r4, s4, b, hr, hc, hb, hbr, hbc, fun q v hq hf hv => ?_⟩
  have hb : ∑ i ∈ Finset.range b.rows, v i * b.ent i 0
      = quadSum s4.internal.points s4.internal.weights fun p => eval ![p.1, p.2] f * polyOf (k - 1) poly.centroid poly.diameter (apply s4.pi0km1 v) p := by
    rw [hbr]
    simp only [he, Finset.mul_sum]
    rw [Finset.sum_comm]
    refine Eq.trans ?_ (sum_quadSum s4.internal.points s4.internal.weights hs.rules.wlen (fun q => eval ![(s4.internal.points.getD q 0).1, (s4.internal.points.getD q 0).2] f *
      ∑ j ∈ Finset.range (n + n * (k - 1) + k * (k - 1) / 2), v j * S q j) _ ?_)
    · refine Finset.sum_congr rfl fun i _ => ?_
      rw [Finset.mul_sum, Finset.mul_sum]
      exact Finset.sum_congr rfl fun j _ => by ring
    · intro i p hp
      have hi : i < s4.internal.points.length := (List.getElem?_eq_some_iff.1 hp).1
      have e : s4.internal.points.getD i 0 = p := by simp [List.getD_eq_getElem?_getD, hp]
      rw [(hval v i hi).1, e]
  rw [hb]
  rcases hf with hf | ⟨hf, hq'⟩
  · have h1 := (hvalue q hq v hv).1 f hf
    refine Eq.trans ?_ ((h1.trans ?_))
    · have hkk : k - 1 + 1 = k := by omega
      set P := combo k poly.centroid poly.diameter (tri k) (apply s4.pi0km1 v) with hP
      have hX : ∀ p, ev2 P p = polyOf (k - 1) poly.centroid poly.diameter (apply s4.pi0km1 v) p := fun p => by
        rw [← ev2_combo k _ _ (show k - 1 ≤ k by omega), hkk]
      have hXd := combo_degree (c := poly.centroid) (h := poly.diameter) (apply s4.pi0km1 v) (show k - 1 ≤ k by omega)
      rw [hkk, ← hP] at hXd
      refine Eq.trans ?_ ((hs.rules.integral (P * f) ((totalDegree_mul _ _).trans (by omega))).trans ?_)
      · show _ = quadSum _ _ (ev2 _)
        congr 1
        funext x
        rw [← hX]
        simp only [ev2, map_mul]
        ring
      · congr 1
        funext x
        rw [← hX]
        simp only [ev2, map_mul]
    · congr 1
      funext x
      ring
  · have hdeg : (f * q).totalDegree ≤ 2 * k := (totalDegree_mul _ _).trans (by omega)
    refine Eq.trans ?_ ((hs.rules.integral _ hdeg).trans ?_)
    · show _ = quadSum _ _ (ev2 _)
      congr 1
      funext x
      rw [(hvalue q hq v hv).2 hq' x]
      simp only [ev2, map_mul]
    · simp only [map_mul]

/-- The energy is zero on the constants only, if its quadrature part is nonnegative and controls the projected gradient. -/
theorem energy_stable (hE : IsElement poly n V len dir nrm) (hT : IsTables k triangle edge ts ws w) (hlu : SolvesRegular lu) (hllt : SolvesPosDef llt)
    (hpos : 0 < poly.measure) {ref : VemRef2D ℝ} {s : VemSpace2D ℝ} {S : DMat ℝ} {K : ℝ} (hr : vemRef2D triangle edge k = .ok ref)
    (hc : vemCreate2D lu llt ref poly = .ok s) (hS : vemDofiDofi poly s .piNabla = .ok S) (hK : 0 < K) (T : (Nat → ℝ) → ℝ) (hT0 : ∀ x, 0 ≤ T x)
    (hT1 : ∀ x, T x = 0 ↔ ∀ p, polyOf (k - 1) poly.centroid poly.diameter (apply s.derX x) p = 0 ∧ polyOf (k - 1) poly.centroid poly.diameter (apply s.derY x) p = 0)
    (x : Nat → ℝ) :
    0 ≤ T x + K * ∑ i ∈ Finset.range S.rows, x i * apply S x i ∧
      (T x + K * ∑ i ∈ Finset.range S.rows, x i * apply S x i = 0 ↔ ∃ a : ℝ, IsDofVector k poly n V dir ts (fun _ => a) x) := by
  obtain ⟨r1, s1, hr1, hc1, hst, -⟩ := C77_stabilization hE hT hlu hllt hpos
  obtain ⟨r3, s3, hr3, hc3, -, -, -, -, hexact⟩ := C71_derivatives hE hT hlu hllt
  obtain rfl : r1 = ref := Except.ok.inj (hr1.symm.trans hr)
  obtain rfl : s1 = s := Except.ok.inj (hc1.symm.trans hc)
  obtain rfl : r3 = r1 := Except.ok.inj (hr3.symm.trans hr)
  obtain rfl : s3 = s1 := Except.ok.inj (hc3.symm.trans hc)
  obtain ⟨Z, hZ, hZr, hZc, hsym, hpsd⟩ := hst .piNabla (Or.inl rfl)
  obtain rfl : Z = S := Except.ok.inj (hZ.symm.trans hS)
  have h1 := hT0 x
  have h2 := mul_nonneg hK.le (hpsd x).1
  refine ⟨add_nonneg h1 h2, fun h => ?_, ?_⟩
  · have hT' : T x = 0 := by linarith
    have hS' : ∑ i ∈ Finset.range Z.rows, x i * apply Z x i = 0 := by
      have : K * ∑ i ∈ Finset.range Z.rows, x i * apply Z x i = 0 := by linarith
      exact (mul_eq_zero.1 this).resolve_left hK.ne'
    obtain ⟨q, hq, hx⟩ := (hpsd x).2.1 hS'
    have hg := (hT1 x).1 hT'
    obtain ⟨a, rfl⟩ := const_of_grad q (ev2_ext fun p => by
        have := (hexact q hq x hx p).1.symm.trans (hg p).1
        simpa [ev2] using this) (ev2_ext fun p => by
        have := (hexact q hq x hx p).2.symm.trans (hg p).2
        simpa [ev2] using this)
    exact ⟨a, by simpa using hx⟩
  · rintro ⟨a, hx⟩
    have hx' : IsDofVector k poly n V dir ts (fun p => eval ![p.1, p.2] (C a : MvPolynomial (Fin 2) ℝ)) x := by simpa using hx
    have hq : (C a : MvPolynomial (Fin 2) ℝ).totalDegree ≤ k := by simp
    rw [stab_null hE hT hlu hllt hpos hr hc hS hq hx' x, mul_zero, add_zero, hT1]
    intro p
    have := hexact _ hq x hx' p
    simpa using this

/-- C86, stability: for a constant tensor that is positive definite in the plane the local matrix is positive semidefinite and its energy is zero exactly on the
degrees of freedom of the constants. -/
theorem C86_constant (hE : IsElement poly n V len dir nrm) (hT : IsTables k triangle edge ts ws w) (hlu : SolvesRegular lu) (hllt : SolvesPosDef llt)
    (hpos : 0 < poly.measure) (κ : Nat → ℝ) (hκ : ∀ a b : ℝ, a ≠ 0 ∨ b ≠ 0 → 0 < a * (κ 0 * a + κ 3 * b) + b * (κ 1 * a + κ 4 * b)) :
    ∃ ref s A, vemRef2D triangle edge k = .ok ref ∧ vemCreate2D lu llt ref poly = .ok s ∧
      localElliptic (vemSpace2D ref poly s) (vemSpace2D ref poly s) (some fun _ => κ) none none = .ok A ∧
      ∀ x : Nat → ℝ, 0 ≤ ∑ i ∈ Finset.range A.rows, x i * apply A x i ∧
        (∑ i ∈ Finset.range A.rows, x i * apply A x i = 0 ↔ ∃ a : ℝ, IsDofVector k poly n V dir ts (fun _ => a) x) := by
  obtain ⟨ref, s, A, S, K, hr, hc, hs, hA, hAr, hAc, hS, hK, hSr, hSc, he⟩ := vem_energy hE hT hlu hllt hpos fun _ => κ
  refine ⟨ref, s, A, hr, hc, hA, fun x => ?_⟩
  have hk := hT.low
  have hkk : k - 1 + 1 = k := by omega
  have h0 : 0 < κ 0 := by simpa using hκ 1 0 (Or.inl one_ne_zero)
  have hdisc : 0 < 4 * κ 0 * κ 4 - (κ 1 + κ 3) * (κ 1 + κ 3) := by
    have h1 := hκ (κ 1 + κ 3) (-(2 * κ 0)) (Or.inr (by linarith))
    have h2 : (κ 1 + κ 3) * (κ 0 * (κ 1 + κ 3) + κ 3 * -(2 * κ 0)) + -(2 * κ 0) * (κ 1 * (κ 1 + κ 3) + κ 4 * -(2 * κ 0))
        = κ 0 * (4 * κ 0 * κ 4 - (κ 1 + κ 3) * (κ 1 + κ 3)) := by ring
    rw [h2] at h1
    exact (mul_pos_iff_of_pos_left h0).1 h1
  have hKpos : 0 < K := by
    obtain ⟨p, hp, c, hc', rfl⟩ := hK.1
    exact lt_of_lt_of_le (abs_pos.2 h0.ne') (hK.2 ⟨p, hp, 0, by decide, rfl⟩)
  rw [he]
  refine energy_stable hE hT hlu hllt hpos hr hc hS hKpos (fun x => quadSum s.internal.points s.internal.weights (fun p =>
            κ 0 * (polyOf (k - 1) poly.centroid poly.diameter (apply s.derX x) p * polyOf (k - 1) poly.centroid poly.diameter (apply s.derX x) p)
            + κ 3 * (polyOf (k - 1) poly.centroid poly.diameter (apply s.derX x) p * polyOf (k - 1) poly.centroid poly.diameter (apply s.derY x) p)
            + κ 1 * (polyOf (k - 1) poly.centroid poly.diameter (apply s.derY x) p * polyOf (k - 1) poly.centroid poly.diameter (apply s.derX x) p)
            + κ 4 * (polyOf (k - 1) poly.centroid poly.diameter (apply s.derY x) p * polyOf (k - 1) poly.centroid poly.diameter (apply s.derY x) p))) ?_ ?_ x
  all_goals
    intro x
    set PX := combo k poly.centroid poly.diameter (tri k) (apply s.derX x) with hPX
    set PY := combo k poly.centroid poly.diameter (tri k) (apply s.derY x) with hPY
    have hX : ∀ p, polyOf (k - 1) poly.centroid poly.diameter (apply s.derX x) p = ev2 PX p := fun p => by
      rw [← ev2_combo k _ _ (show k - 1 ≤ k by omega), hkk]
    have hY : ∀ p, polyOf (k - 1) poly.centroid poly.diameter (apply s.derY x) p = ev2 PY p := fun p => by
      rw [← ev2_combo k _ _ (show k - 1 ≤ k by omega), hkk]
    have hXd := combo_degree (c := poly.centroid) (h := poly.diameter) (apply s.derX x) (show k - 1 ≤ k by omega)
    have hYd := combo_degree (c := poly.centroid) (h := poly.diameter) (apply s.derY x) (show k - 1 ≤ k by omega)
    rw [hkk, ← hPX] at hXd
    rw [hkk, ← hPY] at hYd
    have hsq : (C (2 * κ 0) * PX + C (κ 1 + κ 3) * PY).totalDegree ≤ k := by
      refine (totalDegree_add _ _).trans (max_le ?_ ?_)
      · exact (totalDegree_mul _ _).trans (by rw [totalDegree_C]; omega)
      · exact (totalDegree_mul _ _).trans (by rw [totalDegree_C]; omega)
    have hYd' : PY.totalDegree ≤ k := hYd.trans (by omega)
    have key : 4 * κ 0 * quadSum s.internal.points s.internal.weights (fun p =>
            κ 0 * (polyOf (k - 1) poly.centroid poly.diameter (apply s.derX x) p * polyOf (k - 1) poly.centroid poly.diameter (apply s.derX x) p)
            + κ 3 * (polyOf (k - 1) poly.centroid poly.diameter (apply s.derX x) p * polyOf (k - 1) poly.centroid poly.diameter (apply s.derY x) p)
            + κ 1 * (polyOf (k - 1) poly.centroid poly.diameter (apply s.derY x) p * polyOf (k - 1) poly.centroid poly.diameter (apply s.derX x) p)
            + κ 4 * (polyOf (k - 1) poly.centroid poly.diameter (apply s.derY x) p * polyOf (k - 1) poly.centroid poly.diameter (apply s.derY x) p))
        = quadLin s.internal.points s.internal.weights ((C (2 * κ 0) * PX + C (κ 1 + κ 3) * PY) * (C (2 * κ 0) * PX + C (κ 1 + κ 3) * PY))
          + (4 * κ 0 * κ 4 - (κ 1 + κ 3) * (κ 1 + κ 3)) * quadLin s.internal.points s.internal.weights (PY * PY) := by
      rw [← quadLin_C_mul, ← map_add, ← quadSum_const_mul]
      show _ = quadSum _ _ (ev2 _)
      congr 1
      funext p
      rw [hX, hY]
      simp only [ev2, map_add, map_mul, eval_C]
      ring
    have n1 := hs.discrete.nonneg _ hsq
    have n2 := mul_nonneg hdisc.le (hs.discrete.nonneg _ hYd')
  · have : 0 ≤ 4 * κ 0 * quadSum s.internal.points s.internal.weights _ := key ▸ add_nonneg n1 n2
    exact (mul_nonneg_iff_of_pos_left (by linarith)).1 this
  · constructor
    · intro h
      rw [h, mul_zero] at key
      have z2 : quadLin s.internal.points s.internal.weights (PY * PY) = 0 := by
        have : (4 * κ 0 * κ 4 - (κ 1 + κ 3) * (κ 1 + κ 3)) * quadLin s.internal.points s.internal.weights (PY * PY) = 0 := by linarith
        exact (mul_eq_zero.1 this).resolve_left hdisc.ne'
      have hPY0 := hs.discrete.definite _ hYd' z2
      have hPX0 := hs.discrete.definite _ hsq (by linarith)
      rw [hPY0, mul_zero, add_zero] at hPX0
      have hPX0 : PX = 0 := (mul_eq_zero.1 hPX0).resolve_left (fun h => by rw [C_eq_zero] at h; linarith)
      intro p
      rw [hX, hY, hPX0, hPY0]
      simp [ev2]
    · intro h
      have : (fun p =>
            κ 0 * (polyOf (k - 1) poly.centroid poly.diameter (apply s.derX x) p * polyOf (k - 1) poly.centroid poly.diameter (apply s.derX x) p)
            + κ 3 * (polyOf (k - 1) poly.centroid poly.diameter (apply s.derX x) p * polyOf (k - 1) poly.centroid poly.diameter (apply s.derY x) p)
            + κ 1 * (polyOf (k - 1) poly.centroid poly.diameter (apply s.derY x) p * polyOf (k - 1) poly.centroid poly.diameter (apply s.derX x) p)
            + κ 4 * (polyOf (k - 1) poly.centroid poly.diameter (apply s.derY x) p * polyOf (k - 1) poly.centroid poly.diameter (apply s.derY x) p))
          = fun _ => 0 := by
        funext p
        rw [(h p).1, (h p).2]
        ring
      rw [this, ← sum_quadSum _ _ hs.rules.wlen (fun _ => 0) _ fun i p hp => rfl]
      simp

/-- C86, a tensor that varies: if the weights of the rule are not negative and the tensor is positive definite at the quadrature points. -/
theorem C86_variable (hE : IsElement poly n V len dir nrm) (hT : IsTables k triangle edge ts ws w) (hlu : SolvesRegular lu) (hllt : SolvesPosDef llt)
    (hpos : 0 < poly.measure) (κ : ℝ × ℝ → Nat → ℝ) :
    ∃ ref s A, vemRef2D triangle edge k = .ok ref ∧ vemCreate2D lu llt ref poly = .ok s ∧
      localElliptic (vemSpace2D ref poly s) (vemSpace2D ref poly s) (some κ) none none = .ok A ∧
      ((∀ w ∈ s.internal.weights, 0 ≤ w) →
        (∀ p ∈ s.internal.points, ∀ a b : ℝ, a ≠ 0 ∨ b ≠ 0 → 0 < a * (κ p 0 * a + κ p 3 * b) + b * (κ p 1 * a + κ p 4 * b)) →
        ∀ x : Nat → ℝ, 0 ≤ ∑ i ∈ Finset.range A.rows, x i * apply A x i ∧
          (∑ i ∈ Finset.range A.rows, x i * apply A x i = 0 ↔ ∃ a : ℝ, IsDofVector k poly n V dir ts (fun _ => a) x)) := by
  obtain ⟨ref, s, A, S, K, hr, hc, hs, hA, hAr, hAc, hS, hK, hSr, hSc, he⟩ := vem_energy hE hT hlu hllt hpos κ
  refine ⟨ref, s, A, hr, hc, hA, fun hw hκ x => ?_⟩
  have hk := hT.low
  have hkk : k - 1 + 1 = k := by omega
  have hKpos : 0 < K := by
    obtain ⟨p, hp, c, hc', rfl⟩ := hK.1
    have h0 : 0 < κ p 0 := by simpa using hκ p hp 1 0 (Or.inl one_ne_zero)
    exact lt_of_lt_of_le (abs_pos.2 h0.ne') (hK.2 ⟨p, hp, 0, by decide, rfl⟩)
  rw [he]
  set G : (Nat → ℝ) → ℝ × ℝ → ℝ := fun x p =>
            κ p 0 * (polyOf (k - 1) poly.centroid poly.diameter (apply s.derX x) p * polyOf (k - 1) poly.centroid poly.diameter (apply s.derX x) p)
            + κ p 3 * (polyOf (k - 1) poly.centroid poly.diameter (apply s.derX x) p * polyOf (k - 1) poly.centroid poly.diameter (apply s.derY x) p)
            + κ p 1 * (polyOf (k - 1) poly.centroid poly.diameter (apply s.derY x) p * polyOf (k - 1) poly.centroid poly.diameter (apply s.derX x) p)
            + κ p 4 * (polyOf (k - 1) poly.centroid poly.diameter (apply s.derY x) p * polyOf (k - 1) poly.centroid poly.diameter (apply s.derY x) p) with hG
  have hGp : ∀ x, ∀ p ∈ s.internal.points, 0 ≤ G x p ∧ (G x p = 0 → polyOf (k - 1) poly.centroid poly.diameter (apply s.derX x) p = 0 ∧
      polyOf (k - 1) poly.centroid poly.diameter (apply s.derY x) p = 0) := by
    intro x p hp
    have e : G x p = polyOf (k - 1) poly.centroid poly.diameter (apply s.derX x) p * (κ p 0 * polyOf (k - 1) poly.centroid poly.diameter (apply s.derX x) p
        + κ p 3 * polyOf (k - 1) poly.centroid poly.diameter (apply s.derY x) p)
        + polyOf (k - 1) poly.centroid poly.diameter (apply s.derY x) p * (κ p 1 * polyOf (k - 1) poly.centroid poly.diameter (apply s.derX x) p
        + κ p 4 * polyOf (k - 1) poly.centroid poly.diameter (apply s.derY x) p) := by
      rw [hG]
      ring
    by_cases h : polyOf (k - 1) poly.centroid poly.diameter (apply s.derX x) p = 0 ∧ polyOf (k - 1) poly.centroid poly.diameter (apply s.derY x) p = 0
    · refine ⟨?_, fun _ => h⟩
      rw [e, h.1, h.2]
      simp
    · have := hκ p hp _ _ (not_and_or.1 h)
      rw [← e] at this
      exact ⟨this.le, fun h0 => absurd h0 this.ne'⟩
  have hsum : ∀ x, quadSum s.internal.points s.internal.weights (G x) = ∑ i ∈ Finset.range s.internal.points.length, s.internal.weights.getD i 0 * G x (s.internal.points.getD i 0) :=
    fun x => (sum_quadSum _ _ hs.rules.wlen (fun i => G x (s.internal.points.getD i 0)) _ fun i p hp => by
      obtain ⟨hi, rfl⟩ := List.getElem?_eq_some_iff.1 hp
      simp [List.getD_eq_getElem?_getD, hi]).symm
  have hmem : ∀ i ∈ Finset.range s.internal.points.length, s.internal.points.getD i 0 ∈ s.internal.points ∧ 0 ≤ s.internal.weights.getD i 0 := by
    intro i hi
    rw [Finset.mem_range] at hi
    refine ⟨by simp [List.getD_eq_getElem?_getD, hi], hw _ ?_⟩
    have : i < s.internal.weights.length := by
      rw [hs.rules.wlen]
      exact hi
    simp [List.getD_eq_getElem?_getD, this]
  have hterm : ∀ x, ∀ i ∈ Finset.range s.internal.points.length, 0 ≤ s.internal.weights.getD i 0 * G x (s.internal.points.getD i 0) :=
    fun x i hi => mul_nonneg (hmem i hi).2 (hGp x _ (hmem i hi).1).1
  refine energy_stable hE hT hlu hllt hpos hr hc hS hKpos (fun x => quadSum s.internal.points s.internal.weights (G x)) (fun x => ?_) (fun x => ?_) x
  · rw [hsum]
    exact Finset.sum_nonneg (hterm x)
  · constructor
    · intro h
      rw [hsum, Finset.sum_eq_zero_iff_of_nonneg (hterm x)] at h
      have hzero : ∀ a : Nat → ℝ, (∀ i ∈ Finset.range s.internal.points.length, s.internal.weights.getD i 0 = 0 ∨
          polyOf (k - 1) poly.centroid poly.diameter a (s.internal.points.getD i 0) = 0) → ∀ p, polyOf (k - 1) poly.centroid poly.diameter a p = 0 := by
        intro a ha p
        have hd := combo_degree (k := k) (c := poly.centroid) (h := poly.diameter) a (show k - 1 ≤ k by omega)
        have he : ∀ p, ev2 (combo k poly.centroid poly.diameter (tri (k - 1 + 1)) a) p = polyOf (k - 1) poly.centroid poly.diameter a p :=
          fun p => ev2_combo k _ _ (show k - 1 ≤ k by omega) a p
        have hz := hs.discrete.definite _ (hd.trans (by omega)) (by
          rw [← sum_quadLin s.internal.points s.internal.weights hs.rules.wlen (fun i => polyOf (k - 1) poly.centroid poly.diameter a (s.internal.points.getD i 0)
            * polyOf (k - 1) poly.centroid poly.diameter a (s.internal.points.getD i 0))]
          · refine Finset.sum_eq_zero fun i hi => ?_
            rcases ha i hi with h | h
            · rw [h, zero_mul]
            · rw [h, zero_mul, mul_zero]
          · intro i p hp
            obtain ⟨hi, rfl⟩ := List.getElem?_eq_some_iff.1 hp
            rw [← he]
            simp [List.getD_eq_getElem?_getD, hi, ev2])
        rw [← he, hz]
        simp [ev2]
      intro p
      refine ⟨hzero _ (fun i hi => ?_) p, hzero _ (fun i hi => ?_) p⟩
      · exact (mul_eq_zero.1 (h i hi)).imp_right fun h0 => ((hGp x _ (hmem i hi).1).2 h0).1
      · exact (mul_eq_zero.1 (h i hi)).imp_right fun h0 => ((hGp x _ (hmem i hi).1).2 h0).2
    · intro h
      rw [hsum]
      refine Finset.sum_eq_zero fun i _ => ?_
      rw [hG]
      simp only [(h _).1, (h _).2]
      ring

end

-- C85_consistency: the unit square, order 2, the function `|x - y|` on it and the polynomial `xy`
example : ∃ lu llt : Solver ℝ, SolvesRegular lu ∧ SolvesPosDef llt ∧ IsElement squarePoly 4 squareV (fun _ => 1) (fun i => i % 2 = 0) squareN ∧
    IsTables 2 (fun _ => ⟨nc4Points, nc4Weights⟩) (fun _ => ⟨[0, 1 / 2, 1], [1 / 6, 2 / 3, 1 / 6]⟩) [1 / 2] [2 / 3] (1 / 6) ∧ 0 < squarePoly.measure ∧ (∀ t ∈ [(1 / 2 : ℝ)], 0 ≤ t ∧ t ≤ 1) ∧
    IntegrableOn (fun p : ℝ × ℝ => |p.1 - p.2|) (unionOf squarePoly.tris) ∧ EdgePolynomial 2 4 squareV (fun p : ℝ × ℝ => |p.1 - p.2|) ∧
    (∃ v, IsDofVector 2 squarePoly 4 squareV (fun i => i % 2 = 0) [1 / 2] (fun p : ℝ × ℝ => |p.1 - p.2|) v) ∧ (X 0 * X 1 : MvPolynomial (Fin 2) ℝ).totalDegree ≤ 2 ∧
    ∃ y, IsDofVector 2 squarePoly 4 squareV (fun i => i % 2 = 0) [1 / 2] (fun p => eval ![p.1, p.2] (X 0 * X 1 : MvPolynomial (Fin 2) ℝ)) y := by
  obtain ⟨lu, h1, h2⟩ := exists_solvers
  exact ⟨lu, lu, h1, h2, square_element, square_tables, by norm_num [squarePoly], by intro t ht; simp only [List.mem_singleton] at ht; subst ht; norm_num,
    square_integrable (by fun_prop), square_edges, exists_dofs 2 _ _ _ _ _ rfl _,
    (totalDegree_mul _ _).trans (by simp [totalDegree_X]), exists_dofs 2 _ _ _ _ _ rfl _⟩

-- C85_exact, C85_all: a tensor of degree 2 and an advection field of degree 1 on the same square
example : ∃ lu llt : Solver ℝ, SolvesRegular lu ∧ SolvesPosDef llt ∧ IsElement squarePoly 4 squareV (fun _ => 1) (fun i => i % 2 = 0) squareN ∧
    IsTables 2 (fun _ => ⟨nc4Points, nc4Weights⟩) (fun _ => ⟨[0, 1 / 2, 1], [1 / 6, 2 / 3, 1 / 6]⟩) [1 / 2] [2 / 3] (1 / 6) ∧ 0 < squarePoly.measure ∧
    (∀ c : Nat, (if c = 0 ∨ c = 4 then C 1 + X 0 * X 1 else 0 : MvPolynomial (Fin 2) ℝ).totalDegree ≤ 2) ∧
    (∀ c : Nat, (if c = 0 then X 1 else C 3 : MvPolynomial (Fin 2) ℝ).totalDegree ≤ 2) := by
  obtain ⟨lu, h1, h2⟩ := exists_solvers
  refine ⟨lu, lu, h1, h2, square_element, square_tables, by norm_num [squarePoly], fun c => ?_, fun c => ?_⟩
  · split_ifs
    · exact (totalDegree_add _ _).trans (max_le (by simp) ((totalDegree_mul _ _).trans (by simp [totalDegree_X])))
    · simp
  · split_ifs <;> simp [totalDegree_X]

-- C86: a tensor that is not symmetric, constant or growing with the first coordinate, on the same square
example : ∃ lu llt : Solver ℝ, SolvesRegular lu ∧ SolvesPosDef llt ∧ IsElement squarePoly 4 squareV (fun _ => 1) (fun i => i % 2 = 0) squareN ∧
    IsTables 2 (fun _ => ⟨nc4Points, nc4Weights⟩) (fun _ => ⟨[0, 1 / 2, 1], [1 / 6, 2 / 3, 1 / 6]⟩) [1 / 2] [2 / 3] (1 / 6) ∧ 0 < squarePoly.measure ∧
    (∀ a b : ℝ, a ≠ 0 ∨ b ≠ 0 → 0 < a * (2 * a + 1 * b) + b * (-1 * a + 3 * b)) ∧
    ∀ p : ℝ × ℝ, ∀ a b : ℝ, a ≠ 0 ∨ b ≠ 0 → 0 < a * ((1 + p.1 ^ 2) * a + 0 * b) + b * (0 * a + (1 + p.1 ^ 2) * b) := by
  obtain ⟨lu, h1, h2⟩ := exists_solvers
  refine ⟨lu, lu, h1, h2, square_element, square_tables, by norm_num [squarePoly], fun a b h => ?_, fun p a b h => ?_⟩
  · rcases h with h | h
    · nlinarith [pow_pos (abs_pos.2 h) 2, sq_abs a, sq_nonneg b]
    · nlinarith [pow_pos (abs_pos.2 h) 2, sq_abs b, sq_nonneg a]
  · have e : a * ((1 + p.1 ^ 2) * a + 0 * b) + b * (0 * a + (1 + p.1 ^ 2) * b) = (1 + p.1 ^ 2) * (a ^ 2 + b ^ 2) := by ring
    rw [e]
    refine mul_pos (by positivity) ?_
    rcases h with h | h <;> positivity

/-- C89 is false for the code: with a ZFEM test space, a method that `CreateReferenceElement` accepts (LocalSpace_PCC_2D.cpp:26), the local matrix and
the local right-hand side are never computed, whatever the spaces and the data, because the values at given points have no such case. -/
theorem C89_methods_false {K : Type} [Field K] [LinearOrder K] (trial : Space2D K) (size : Nat) (internal : Rule (K × K) K) (values : Except Fault (DMat K))
    (ders : Except Fault (List (DMat K))) (κ β : Option (K × K → Nat → K)) (γ : Option (K × K → K)) (f : K × K → K) :
    (∀ A, localElliptic trial (zfemSpace2D size internal values ders) κ β γ ≠ .ok A) ∧ ∀ b, localSource trial (zfemSpace2D size internal values ders) f ≠ .ok b := by
  refine ⟨fun A h => ?_, fun b h => ?_⟩
  · unfold localElliptic at h
    cases h1 : trial.valuesInt .pi0km1 with
    | error e => rw [h1] at h; exact nomatch h
    | ok v =>
      cases h2 : trial.dersInt .pi0km1Der with
      | error e => rw [h1, h2] at h; exact nomatch h
      | ok d => rw [h1, h2] at h; exact nomatch h
  · exact nomatch h

-- C89_methods_false has no hypotheses; here with a space that can be tabulated
example (A : DMat ℚ) : localElliptic sampleSpace (zfemSpace2D 3 sampleSpace.internal (sampleSpace.valuesInt .pi0km1) (sampleSpace.dersInt .pi0km1Der)) none none none ≠ .ok A :=
  (C89_methods_false sampleSpace 3 _ _ _ none none none fun _ => 0).1 A

section
variable {k n : Nat} {V : Nat → ℝ × ℝ} {len : Nat → ℝ} {dir : Nat → Bool} {nrm : Nat → ℝ × ℝ} {poly : VemPolygon ℝ}
  {triangle : Nat → Rule (ℝ × ℝ) ℝ} {edge : Nat → Rule ℝ ℝ} {ts ws : List ℝ} {w : ℝ} {lu llt : Solver ℝ}

/-- C89, the part that holds: on every element and for all data a virtual element space is accepted, as trial and test space. Missing: ZFEM. -/
theorem C89_methods_partial (hE : IsElement poly n V len dir nrm) (hT : IsTables k triangle edge ts ws w) (hlu : SolvesRegular lu) (hllt : SolvesPosDef llt)
    (hpos : 0 < poly.measure) (κ : ℝ × ℝ → Nat → ℝ) (β : Option (ℝ × ℝ → Nat → ℝ)) (γ : Option (ℝ × ℝ → ℝ)) (f : ℝ × ℝ → ℝ) :
    ∃ ref s A b, vemRef2D triangle edge k = .ok ref ∧ vemCreate2D lu llt ref poly = .ok s ∧
      localElliptic (vemSpace2D ref poly s) (vemSpace2D ref poly s) (some κ) β γ = .ok A ∧ localSource (vemSpace2D ref poly s) (vemSpace2D ref poly s) f = .ok b := by
  obtain ⟨ref, s, A, S, K, hr, hc, hs, hA, -⟩ := vem_form hE hT hlu hllt hpos κ β γ
  obtain ⟨r1, s1, hr1, hc1, -, -, S', SD, hD, -⟩ := vem_tabulated hE hT hlu hllt
  obtain rfl : r1 = ref := Except.ok.inj (hr1.symm.trans hr)
  obtain rfl : s1 = s := Except.ok.inj (hc1.symm.trans hc)
  obtain ⟨b, hb, -⟩ := C84_source hD f
  exact ⟨r1, s1, A, b, hr, hc, hA, hb⟩
end

end PolyDiM
