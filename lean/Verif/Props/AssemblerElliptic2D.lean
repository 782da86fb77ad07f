import Verif.Spec.Supg
import Verif.Lemmas.EllipticLocal
import Verif.Props.AssemblerVem2D

/-!
# C131: the cell matrix and the cell vector of the advection-diffusion example
-/

namespace PolyDiM

open Finset Spec MvPolynomial

section

variable {space : EllipticCell2D ℝ} {Q n : Nat} {Φ X Y S L : DMat ℝ}

theorem cell_entries (h : CellTables space Q n Φ X Y S) :
    ETables space Q n (rulePoint space.internal) (fun q => space.internal.weights.getD q 0) Φ.ent (fun d => if d = 0 then X.ent else Y.ent) S.ent := by
  obtain ⟨h1, h2, h3, h4, h5, s1, s2, s3, s4, s5, s6, s7, s8⟩ := h
  refine ⟨by rw [h1, ← dmat_eta s1 s2], ?_, by rw [h3, ← dmat_eta s7 s8], ?_, ?_⟩
  · rw [h2]
    simp only [if_true, one_ne_zero, if_false]
    rw [← dmat_eta s3 s4, ← dmat_eta s5 s6]
  · unfold vecOf rulePoint
    refine List.ext_getElem (by simp [h4]) fun i hi _ => ?_
    simp [List.getD_eq_getElem?_getD, hi]
  · unfold vecOf
    refine List.ext_getElem (by simp [h5]) fun i hi _ => ?_
    simp [List.getD_eq_getElem?_getD, hi]

theorem greatest_iff (rule : Rule (ℝ × ℝ) ℝ) (κ : ℝ × ℝ → ℝ) (k : ℝ) :
    GreatestOn rule κ k ↔ IsGreatest {y | ∃ q < rule.points.length, y = |κ (rulePoint rule q)|} k := by
  have : {y | ∃ p ∈ rule.points, y = |κ p|} = {y | ∃ q < rule.points.length, y = |κ (rulePoint rule q)|} := by
    ext y
    constructor
    · rintro ⟨p, hp, rfl⟩
      obtain ⟨q, hq, rfl⟩ := List.mem_iff_getElem.1 hp
      exact ⟨q, hq, by simp [rulePoint, List.getD_eq_getElem?_getD, hq]⟩
    · rintro ⟨q, hq, rfl⟩
      exact ⟨_, by simp [rulePoint, List.getD_eq_getElem?_getD, hq], rfl⟩
  rw [GreatestOn, this]

/-- The cell matrix and vector as forms, for both settings of the switch. -/
theorem elliptic_forms (hS : CellTables space Q n Φ X Y S) (hQ : 0 < Q) (config : EllipticConfig ℝ) (h : ℝ) (test : EllipticTest ℝ) :
    ∃ k, GreatestOn space.internal test.diffusion k ∧ ∀ L τ, L.cols = n →
      SupgData config space Q n h (advectionSquare space.internal test.advection) k L.ent τ →
      ∃ l, ellipticLocal config space h test = .ok l ∧ l.stability = τ ∧
        l.peclet = pecletNumber config.peclet h (advectionSquare space.internal test.advection) k ∧
        l.matrix.rows = n ∧ l.matrix.cols = n ∧ l.rhs.rows = n ∧ l.rhs.cols = 1 ∧ (∀ v u : Nat → ℝ, ∑ i ∈ range n, v i * apply l.matrix u i =
          galerkinForm space.internal Φ X Y test.diffusion test.advection u v + τ * upwindForm space.internal X Y L test.diffusion test.advection u v
            + (k + τ * advectionSquare space.internal test.advection) * ∑ i ∈ range n, v i * apply S u i) ∧
        ∀ v : Nat → ℝ, ∑ i ∈ range n, v i * l.rhs.ent i 0 =
          cellSum space.internal fun q => test.source (rulePoint space.internal q) * (apply Φ v q + τ * streamline space.internal X Y test.advection v q) := by
  obtain ⟨k, hk, hl⟩ := ellipticLocal_ok (cell_entries hS) hQ config h test
  have hpts := hS.points
  obtain ⟨s1, s2, s3, s4, s5, s6, s7, s8⟩ := hS.sizes
  have hb : (∑ q ∈ range Q, space.internal.weights.getD q 0 * (test.advection (rulePoint space.internal q) 0 ^ 2 + test.advection (rulePoint space.internal q) 1 ^ 2))
      = advectionSquare space.internal test.advection := by
    unfold advectionSquare cellSum
    rw [hpts]
  simp only [hb] at hl
  refine ⟨k, (greatest_iff _ _ _).2 (by rw [hpts]; exact hk), fun L τ hL hd => ?_⟩
  obtain ⟨l, h1, h2, h3, h4, h5, h6, h7⟩ := hl L.ent τ hd
  refine ⟨l, h1, h2, h3, by rw [h4], by rw [h4], h5, h6, fun v u => ?_, fun v => ?_⟩
  · have ht : ∀ {T : DMat ℝ} (_ : T.cols = n) (u : Nat → ℝ) (q : Nat), apply T u q = ∑ j ∈ range n, u j * T.ent q j := by
      intro T hT u q
      unfold apply
      rw [hT]
      exact sum_congr rfl fun j _ => mul_comm _ _
    have e : ∑ i ∈ range n, v i * apply l.matrix u i = form n n l.matrix.ent v u := by
      rw [h4]
      rfl
    have e' : ∑ i ∈ range n, v i * apply S u i = form n n S.ent v u := by
      rw [apply_eq s8]
      rfl
    rw [e, e', h4, form_add, form_mul, form_sum]
    congr 1
    unfold galerkinForm upwindForm cellSum
    rw [hpts, mul_sum, ← sum_add_distrib]
    refine sum_congr rfl fun q _ => ?_
    rw [form_mul, form_add, form_add, form_mul, form_add, form_prod, form_prod, form_prod, form_mul, form_prod]
    have ha : ∀ z : Nat → ℝ, ∑ j ∈ range n, z j * along (test.advection (rulePoint space.internal q)) (fun d => (if d = 0 then X.ent else Y.ent) q j)
        = streamline space.internal X Y test.advection z q := by
      intro z
      unfold streamline along
      rw [ht s4, ht s6, mul_sum, mul_sum, ← sum_add_distrib]
      exact sum_congr rfl fun j _ => by simp only [if_true, one_ne_zero, if_false]; ring
    have hr : ∑ j ∈ range n, u j * (along (test.advection (rulePoint space.internal q)) (fun d => (if d = 0 then X.ent else Y.ent) q j)
        - test.diffusion (rulePoint space.internal q) * L.ent q j) = streamline space.internal X Y test.advection u q - test.diffusion (rulePoint space.internal q) * apply L u q := by
      rw [← ha, ht hL, mul_sum, ← sum_sub_distrib]
      exact sum_congr rfl fun j _ => by ring
    simp only [ha, hr]
    simp only [if_true, one_ne_zero, if_false]
    rw [ht s4, ht s4, ht s6, ht s6, ht s2]
    ring
  · unfold cellSum streamline
    simp only [h7, mul_sum]
    rw [sum_comm, hpts]
    refine sum_congr rfl fun q _ => ?_
    unfold apply along
    rw [s2, s4, s6, mul_sum, mul_sum, ← sum_add_distrib, mul_sum, ← sum_add_distrib, mul_sum, mul_sum]
    exact sum_congr rfl fun j _ => by simp only [if_true, one_ne_zero, if_false]; ring

/-- C131: without SUPG the form of the cell matrix is the quadrature of `κ ∇u·∇v + (β·∇u) v` with `max |κ|` times the stabilization, and the cell vector is the quadrature of
`f v`. -/
theorem C131_galerkin (hS : CellTables space Q n Φ X Y S) (hQ : 0 < Q) {config : EllipticConfig ℝ} (hc : config.supg = false) (h : ℝ) (test : EllipticTest ℝ) :
    ∃ l k, ellipticLocal config space h test = .ok l ∧ GreatestOn space.internal test.diffusion k ∧ l.stability = 0 ∧
      l.matrix.rows = n ∧ l.matrix.cols = n ∧ l.rhs.rows = n ∧ l.rhs.cols = 1 ∧
      (∀ v u : Nat → ℝ, ∑ i ∈ range n, v i * apply l.matrix u i =
        galerkinForm space.internal Φ X Y test.diffusion test.advection u v + k * ∑ i ∈ range n, v i * apply S u i) ∧
      ∀ v : Nat → ℝ, ∑ i ∈ range n, v i * l.rhs.ent i 0 = cellSum space.internal fun q => test.source (rulePoint space.internal q) * apply Φ v q := by
  obtain ⟨k, hk, hl⟩ := elliptic_forms hS hQ config h test
  obtain ⟨l, h1, h2, -, h4, h5, h6, h7, h8, h9⟩ := hl ⟨Q, n, fun _ _ => 0⟩ 0 rfl (Or.inl ⟨hc, rfl⟩)
  refine ⟨l, k, h1, hk, h2, h4, h5, h6, h7, fun v u => ?_, fun v => ?_⟩
  · rw [h8]
    ring
  · rw [h9]
    simp only [zero_mul, add_zero]

/-- C131: with SUPG the terms `τ (-κ Δu + β·∇u) (β·∇v)` and `τ f (β·∇v)` are added and the stabilization is scaled by `max |κ| + τ ∫|β|²`. Here
`τ = h / ∫|β|² · min(1, C h ∫|β|² / (2 max |κ|))`, so that `0 ≤ τ ≤ C h² / (2 max |κ|)` and `τ ∫|β|² ≤ h`. -/
theorem C131_supg (hS : CellTables space Q n Φ X Y S) (hQ : 0 < Q) {config : EllipticConfig ℝ} (hc : config.supg = true) (hL : space.laplacian .pi0km1Der = .ok L)
    (hr : L.rows = Q) (hn : L.cols = n) {h : ℝ} {test : EllipticTest ℝ} (hb : 0 < advectionSquare space.internal test.advection) (hC : 0 ≤ config.peclet) (hh : 0 ≤ h)
    (hne : ∃ p ∈ space.internal.points, test.diffusion p ≠ 0) :
    ∃ l k, ellipticLocal config space h test = .ok l ∧ GreatestOn space.internal test.diffusion k ∧ 0 < k ∧
      l.peclet = some (config.peclet * h * advectionSquare space.internal test.advection / (2 * k)) ∧
      l.stability = h / advectionSquare space.internal test.advection * min 1 (config.peclet * h * advectionSquare space.internal test.advection / (2 * k)) ∧
      0 ≤ l.stability ∧ l.stability ≤ config.peclet * h ^ 2 / (2 * k) ∧ l.stability * advectionSquare space.internal test.advection ≤ h ∧
      l.matrix.rows = n ∧ l.matrix.cols = n ∧ l.rhs.rows = n ∧ l.rhs.cols = 1 ∧
      (∀ v u : Nat → ℝ, ∑ i ∈ range n, v i * apply l.matrix u i =
        galerkinForm space.internal Φ X Y test.diffusion test.advection u v + l.stability * upwindForm space.internal X Y L test.diffusion test.advection u v
          + (k + l.stability * advectionSquare space.internal test.advection) * ∑ i ∈ range n, v i * apply S u i) ∧
      ∀ v : Nat → ℝ, ∑ i ∈ range n, v i * l.rhs.ent i 0 =
        cellSum space.internal fun q => test.source (rulePoint space.internal q) * (apply Φ v q + l.stability * streamline space.internal X Y test.advection v q) := by
  obtain ⟨k, hk, hl⟩ := elliptic_forms hS hQ config h test
  have hpos : 0 < k := by
    obtain ⟨p, hp, h0⟩ := hne
    exact lt_of_lt_of_le (abs_pos.2 h0) (hk.2 ⟨p, hp, rfl⟩)
  have hp : pecletNumber config.peclet h (advectionSquare space.internal test.advection) k = some (config.peclet * h * advectionSquare space.internal test.advection / (2 * k)) := by
    rw [pecletNumber, if_neg (by positivity)]
  have hτ : stabilityParameter h (advectionSquare space.internal test.advection) (some (config.peclet * h * advectionSquare space.internal test.advection / (2 * k)))
      = .ok (h / advectionSquare space.internal test.advection * min 1 (config.peclet * h * advectionSquare space.internal test.advection / (2 * k))) := by
    unfold stabilityParameter
    rw [if_neg hb.ne']
  obtain ⟨l, h1, h2, h3, h4, h5, h6, h7, h8, h9⟩ := hl L _ hn (Or.inr ⟨hc, by rw [hL, ← dmat_eta hr hn], by rw [hp]; exact hτ⟩)
  rw [hp] at h3
  rw [← h2] at h8 h9
  have hm : 0 ≤ min 1 (config.peclet * h * advectionSquare space.internal test.advection / (2 * k)) := le_min zero_le_one (by positivity)
  refine ⟨l, k, h1, hk, hpos, h3, h2, ?_, ?_, ?_, h4, h5, h6, h7, h8, h9⟩
  · rw [h2]
    positivity
  · rw [h2]
    refine (mul_le_mul_of_nonneg_left (min_le_right _ _) (by positivity)).trans (le_of_eq ?_)
    field_simp
  · rw [h2]
    calc _ = h * min 1 (config.peclet * h * advectionSquare space.internal test.advection / (2 * k)) := by field_simp
      _ ≤ h * 1 := mul_le_mul_of_nonneg_left (min_le_left _ _) hh
      _ = h := mul_one h

/-- C131: with SUPG on a cell where the advection vanishes the stability parameter is not a number (zero times infinity). -/
theorem C131_no_advection (hS : CellTables space Q n Φ X Y S) (hQ : 0 < Q) {config : EllipticConfig ℝ} (hc : config.supg = true) (h : ℝ) (test : EllipticTest ℝ)
    (hb : ∀ p ∈ space.internal.points, test.advection p 0 = 0 ∧ test.advection p 1 = 0) : ellipticLocal config space h test = .error .notANumber := by
  refine ellipticLocal_fault (cell_entries hS) hQ h test hc (Or.inl ⟨sum_eq_zero fun q hq => ?_, rfl⟩)
  have hm : rulePoint space.internal q ∈ space.internal.points := by
    have : q < space.internal.points.length := by rw [hS.points]; exact mem_range.1 hq
    simp [rulePoint, List.getD_eq_getElem?_getD, this]
  rw [(hb _ hm).1, (hb _ hm).2]
  ring

/-- C131: with SUPG a space that has no Laplacian, as the ZFEM space, ends with its exception. -/
theorem C131_no_laplacian (hS : CellTables space Q n Φ X Y S) (hQ : 0 < Q) {config : EllipticConfig ℝ} (hc : config.supg = true) {e : Fault}
    (hL : space.laplacian .pi0km1Der = .error e) (h : ℝ) {test : EllipticTest ℝ} (hb : advectionSquare space.internal test.advection ≠ 0) :
    ellipticLocal config space h test = .error e := by
  refine ellipticLocal_fault (cell_entries hS) hQ h test hc (Or.inr ⟨?_, hL⟩)
  unfold advectionSquare cellSum at hb
  rwa [hS.points] at hb

end

section

variable {k n : Nat} {poly : VemPolygon ℝ} {V : Nat → ℝ × ℝ} {len : Nat → ℝ} {dir : Nat → Bool} {nrm : Nat → ℝ × ℝ} {triangle : Nat → Rule (ℝ × ℝ) ℝ} {edge : Nat → Rule ℝ ℝ}
  {ts ws : List ℝ} {w : ℝ} {lu llt : Solver ℝ}

/-- The tables of the VEM space. -/
theorem vem_tables (hE : IsElement poly n V len dir nrm) (hT : IsTables k triangle edge ts ws w) (hlu : SolvesRegular lu) (hllt : SolvesPosDef llt) (hpos : 0 < poly.measure) :
    ∃ ref s Φ X Y S L, vemRef2D triangle edge k = .ok ref ∧ vemCreate2D lu llt ref poly = .ok s ∧ SpaceOk k n V len dir ts ws w poly s ∧ 0 < s.internal.points.length ∧
      CellTables (vemEllipticCell ref poly s) s.internal.points.length (n + n * (k - 1) + k * (k - 1) / 2) Φ X Y S ∧
      (vemEllipticCell ref poly s).laplacian .pi0km1Der = .ok L ∧ L.rows = s.internal.points.length ∧ L.cols = n + n * (k - 1) + k * (k - 1) / 2 ∧
      (∀ (v : Nat → ℝ) (i : Nat) (p : ℝ × ℝ), s.internal.points[i]? = some p → apply Φ v i = polyOf (k - 1) poly.centroid poly.diameter (apply s.pi0km1 v) p ∧
        apply X v i = polyOf (k - 1) poly.centroid poly.diameter (apply s.derX v) p ∧ apply Y v i = polyOf (k - 1) poly.centroid poly.diameter (apply s.derY v) p) ∧
      ∀ q : MvPolynomial (Fin 2) ℝ, q.totalDegree ≤ k → ∀ y : Nat → ℝ, IsDofVector k poly n V dir ts (fun p => eval ![p.1, p.2] q) y →
        (∀ v : Nat → ℝ, ∑ i ∈ Finset.range (n + n * (k - 1) + k * (k - 1) / 2), v i * apply S y i = 0) ∧
        ∀ (i : Nat) (p : ℝ × ℝ), s.internal.points[i]? = some p → apply X y i = eval ![p.1, p.2] (pderiv 0 q) ∧ apply Y y i = eval ![p.1, p.2] (pderiv 1 q) ∧
          apply L y i = eval ![p.1, p.2] (pderiv 0 (pderiv 0 q) + pderiv 1 (pderiv 1 q)) := by
  obtain ⟨ref, s, hr, hc, hs, hne, -⟩ := vem_tabulated hE hT hlu hllt
  obtain ⟨r1, s1, hr1, hc1, hv⟩ := C74_values hE hT hlu hllt
  obtain ⟨r2, s2, hr2, hc2, hd⟩ := C74_derivatives hE hT hlu hllt
  obtain ⟨r3, s3, hr3, hc3, hi, hi'⟩ := C74_internal hE hT hlu hllt
  obtain ⟨r4, s4, hr4, hc4, ⟨L, hL, hLr, hLc, -, hLe⟩, -⟩ := C72_laplacian_partial hE hT hlu hllt
  obtain ⟨r5, s5, hr5, hc5, hst, -⟩ := C77_stabilization hE hT hlu hllt hpos
  obtain ⟨r6, s6, hr6, hc6, -, -, -, -, hex⟩ := C71_derivatives hE hT hlu hllt
  obtain rfl : r1 = ref := Except.ok.inj (hr1.symm.trans hr)
  obtain rfl : r2 = r1 := Except.ok.inj (hr2.symm.trans hr)
  obtain rfl : r3 = r2 := Except.ok.inj (hr3.symm.trans hr)
  obtain rfl : r4 = r3 := Except.ok.inj (hr4.symm.trans hr)
  obtain rfl : r5 = r4 := Except.ok.inj (hr5.symm.trans hr)
  obtain rfl : r6 = r5 := Except.ok.inj (hr6.symm.trans hr)
  obtain rfl : s1 = s := Except.ok.inj (hc1.symm.trans hc)
  obtain rfl : s2 = s1 := Except.ok.inj (hc2.symm.trans hc)
  obtain rfl : s3 = s2 := Except.ok.inj (hc3.symm.trans hc)
  obtain rfl : s4 = s3 := Except.ok.inj (hc4.symm.trans hc)
  obtain rfl : s5 = s4 := Except.ok.inj (hc5.symm.trans hc)
  obtain rfl : s6 = s5 := Except.ok.inj (hc6.symm.trans hc)
  obtain ⟨-, ⟨A, hA, hAr, hAc, hAe⟩, -⟩ := hv s6.internal.points
  obtain ⟨-, ⟨X, Y, hXY, hXr, hYr, hXc, hYc, hXYe⟩, -⟩ := hd s6.internal.points
  obtain ⟨S, hS, hSr, hSc, -, -⟩ := hst .piNabla (Or.inl rfl)
  refine ⟨r6, s6, A, X, Y, S, L, hr, hc, hs, hne, ⟨?_, ?_, hS, rfl, hs.rules.wlen, hAr, hAc, hXr, hXc, hYr, hYc, hSr, hSc.trans hSr⟩, hL, hLr, hLc,
    fun v i p hp => ⟨hAe v i p hp, hXYe v i p hp⟩, fun q hq y hy => ⟨fun v => ?_, fun i p hp => ⟨?_, ?_, hLe q hq y hy i p hp⟩⟩⟩
  · exact (hi .pi0km1 (by decide)).trans hA
  · exact (hi' .pi0km1Der).trans hXY
  · rw [← hSr]
    exact stab_null hE hT hlu hllt hpos hr hc hS hq hy v
  · rw [(hXYe y i p hp).1]
    exact (hex q hq y hy p).1
  · rw [(hXYe y i p hp).2]
    exact (hex q hq y hy p).2

/-- The residual of a polynomial in the cell system: the terms with the advection and those of SUPG cancel. -/
theorem vem_residual (hE : IsElement poly n V len dir nrm) (hT : IsTables k triangle edge ts ws w) (hlu : SolvesRegular lu) (hllt : SolvesPosDef llt) (hpos : 0 < poly.measure) :
    ∃ ref s, vemRef2D triangle edge k = .ok ref ∧ vemCreate2D lu llt ref poly = .ok s ∧ SpaceOk k n V len dir ts ws w poly s ∧
      ∀ (config : EllipticConfig ℝ) (h : ℝ) (test : EllipticTest ℝ), (config.supg = true → advectionSquare s.internal test.advection ≠ 0) →
        ∃ l, ellipticLocal config (vemEllipticCell ref poly s) h test = .ok l ∧ l.matrix.rows = n + n * (k - 1) + k * (k - 1) / 2 ∧
          l.matrix.cols = n + n * (k - 1) + k * (k - 1) / 2 ∧ l.rhs.rows = n + n * (k - 1) + k * (k - 1) / 2 ∧ l.rhs.cols = 1 ∧
          ∀ q : MvPolynomial (Fin 2) ℝ, q.totalDegree ≤ k → ∀ y : Nat → ℝ, IsDofVector k poly n V dir ts (fun p => eval ![p.1, p.2] q) y →
            (∀ p ∈ s.internal.points, test.source p = -(test.diffusion p * eval ![p.1, p.2] (pderiv 0 (pderiv 0 q) + pderiv 1 (pderiv 1 q)))
              + (test.advection p 0 * eval ![p.1, p.2] (pderiv 0 q) + test.advection p 1 * eval ![p.1, p.2] (pderiv 1 q))) →
            ∀ v : Nat → ℝ, ∑ i ∈ range (n + n * (k - 1) + k * (k - 1) / 2), v i * (apply l.matrix y i - l.rhs.ent i 0) = quadSum s.internal.points s.internal.weights fun p =>
              test.diffusion p * (eval ![p.1, p.2] (pderiv 0 q) * polyOf (k - 1) poly.centroid poly.diameter (apply s.derX v) p
                + eval ![p.1, p.2] (pderiv 1 q) * polyOf (k - 1) poly.centroid poly.diameter (apply s.derY v) p
                + eval ![p.1, p.2] (pderiv 0 (pderiv 0 q) + pderiv 1 (pderiv 1 q)) * polyOf (k - 1) poly.centroid poly.diameter (apply s.pi0km1 v) p) := by
  obtain ⟨ref, s, Φ, X, Y, S, L, hr, hc, hs, hne, hS, hL, hLr, hLc, hval, hpol⟩ := vem_tables hE hT hlu hllt hpos
  refine ⟨ref, s, hr, hc, hs, fun config h test hb => ?_⟩
  obtain ⟨K, hK, hl⟩ := elliptic_forms hS hne config h test
  have hint : (vemEllipticCell ref poly s).internal = s.internal := rfl
  obtain ⟨τ, hτ⟩ : ∃ τ, SupgData config (vemEllipticCell ref poly s) s.internal.points.length (n + n * (k - 1) + k * (k - 1) / 2) h
      (advectionSquare (vemEllipticCell ref poly s).internal test.advection) K L.ent τ := by
    cases hc : config.supg
    · exact ⟨0, Or.inl ⟨hc, rfl⟩⟩
    · have h0 : advectionSquare (vemEllipticCell ref poly s).internal test.advection ≠ 0 := hb hc
      have : ∀ p, ∃ τ, stabilityParameter h (advectionSquare (vemEllipticCell ref poly s).internal test.advection) p = .ok τ := by
        intro p
        unfold stabilityParameter
        rw [if_neg h0]
        cases p
        · exact ⟨_, rfl⟩
        · exact ⟨_, rfl⟩
      obtain ⟨τ, hτ⟩ := this (pecletNumber config.peclet h (advectionSquare (vemEllipticCell ref poly s).internal test.advection) K)
      exact ⟨τ, Or.inr ⟨hc, by rw [hL, ← dmat_eta hLr hLc], hτ⟩⟩
  obtain ⟨l, h1, -, -, h4, h5, h6, h7, h8, h9⟩ := hl L τ hLc hτ
  refine ⟨l, h1, h4, h5, h6, h7, fun q hq y hy hf v => ?_⟩
  obtain ⟨hnull, hp⟩ := hpol q hq y hy
  simp only [mul_sub, sum_sub_distrib]
  rw [h8, h9, hnull, mul_zero, add_zero, hint]
  unfold galerkinForm upwindForm
  have e : ∀ (f g j : Nat → ℝ) (t : ℝ), cellSum s.internal f + t * cellSum s.internal g - cellSum s.internal j = cellSum s.internal fun q => f q + t * g q - j q := by
    intro f g j t
    unfold cellSum
    rw [mul_sum, ← sum_add_distrib, ← sum_sub_distrib]
    exact sum_congr rfl fun i _ => by ring
  rw [e]
  refine sum_quadSum _ _ hs.rules.wlen _ _ fun i p hi => ?_
  have hx : rulePoint s.internal i = p := by simp [rulePoint, List.getD_eq_getElem?_getD, hi]
  obtain ⟨v1, v2, v3⟩ := hval v i p hi
  obtain ⟨y1, y2, y3⟩ := hp i p hi
  unfold streamline
  rw [hx, hf p (List.mem_of_getElem? hi), v1, v2, v3, y1, y2, y3]
  ring

/-- The quadrature of a constant advection. -/
theorem advection_pos {s : VemSpace2D ℝ} (hs : SpaceOk k n V len dir ts ws w poly s) {β : ℝ × ℝ → Nat → ℝ}
    (hβ : ∀ p, β p 0 = 1 ∧ β p 1 = 0) : 0 < advectionSquare s.internal β ∧ advectionSquare s.internal β = cellSum s.internal fun _ => 1 := by
  have e : advectionSquare s.internal β = cellSum s.internal fun _ => 1 := by
    unfold advectionSquare
    simp [hβ]
  have e' : (cellSum s.internal fun _ => 1) = quadLin s.internal.points s.internal.weights (1 * 1) :=
    sum_quadSum _ _ hs.rules.wlen _ _ fun i p _ => by simp
  refine ⟨?_, e⟩
  rw [e, e']
  exact lt_of_le_of_ne (hs.discrete.nonneg 1 (by simp)) fun h => one_ne_zero (hs.discrete.definite 1 (by simp) h.symm)

/-- C132: SUPG is consistent on polynomials. If the source is `-κ Δq + β·∇q` at the quadrature points, for a polynomial `q` of degree at most `k`, the residual of the degrees
of freedom of `q` in the cell system is the same with and without SUPG, in every row. -/
theorem C132_consistent (hE : IsElement poly n V len dir nrm) (hT : IsTables k triangle edge ts ws w) (hlu : SolvesRegular lu) (hllt : SolvesPosDef llt) (hpos : 0 < poly.measure)
    {q : MvPolynomial (Fin 2) ℝ} (hq : q.totalDegree ≤ k) {y : Nat → ℝ} (hy : IsDofVector k poly n V dir ts (fun p => eval ![p.1, p.2] q) y) (C h : ℝ) (test : EllipticTest ℝ) :
    ∃ ref s, vemRef2D triangle edge k = .ok ref ∧ vemCreate2D lu llt ref poly = .ok s ∧
      ((∀ p ∈ s.internal.points, test.source p = -(test.diffusion p * eval ![p.1, p.2] (pderiv 0 (pderiv 0 q) + pderiv 1 (pderiv 1 q)))
          + (test.advection p 0 * eval ![p.1, p.2] (pderiv 0 q) + test.advection p 1 * eval ![p.1, p.2] (pderiv 1 q))) →
        advectionSquare s.internal test.advection ≠ 0 →
        ∃ l l', ellipticLocal ⟨true, C⟩ (vemEllipticCell ref poly s) h test = .ok l ∧ ellipticLocal ⟨false, C⟩ (vemEllipticCell ref poly s) h test = .ok l' ∧
          l.matrix.rows = n + n * (k - 1) + k * (k - 1) / 2 ∧
          ∀ i < n + n * (k - 1) + k * (k - 1) / 2, apply l.matrix y i - l.rhs.ent i 0 = apply l'.matrix y i - l'.rhs.ent i 0) := by
  obtain ⟨ref, s, hr, hc, -, h0⟩ := vem_residual hE hT hlu hllt hpos
  refine ⟨ref, s, hr, hc, fun hf hb => ?_⟩
  obtain ⟨l, hl, h1, -, -, -, h2⟩ := h0 ⟨true, C⟩ h test fun _ => hb
  obtain ⟨l', hl', -, -, -, -, h3⟩ := h0 ⟨false, C⟩ h test fun h => absurd h (by simp)
  refine ⟨l, l', hl, hl', h1, fun i hi => ?_⟩
  have := (h2 q hq y hy hf fun j => if j = i then 1 else 0).trans (h3 q hq y hy hf fun j => if j = i then 1 else 0).symm
  simpa [hi] using this

end

section

/-- Data on the unit square: `κ = 1 + x`, advection `(1, 0)`. -/
noncomputable def squareTest (f : ℝ × ℝ → ℝ) : EllipticTest ℝ := ⟨fun p => 1 + p.1, fun _ d => if d = 0 then 1 else 0, f, fun _ _ => 0, fun _ _ => 0⟩

/-- C132: for a diffusion that is not constant SUPG is not consistent, because its residual has no term `∇κ·∇u`. On the unit square at order 2, with `κ = 1 + x` and
`β = (1, 0)`, the function `q = x` solves `-div(κ ∇q) + β·∇q = 0`. With SUPG the residual of its degrees of freedom is another one than without. -/
theorem C132_variable_false : ∃ lu llt : Solver ℝ, SolvesRegular lu ∧ SolvesPosDef llt ∧ ∃ ref s l l', ∃ y : Nat → ℝ,
    vemRef2D (fun _ => ⟨nc4Points, nc4Weights⟩) (fun _ => ⟨[0, 1 / 2, 1], [1 / 6, 2 / 3, 1 / 6]⟩) 2 = .ok ref ∧ vemCreate2D lu llt ref squarePoly = .ok s ∧
    IsDofVector 2 squarePoly 4 squareV (fun i => i % 2 = 0) [1 / 2] (fun p => p.1) y ∧
    (∀ p : ℝ × ℝ, (squareTest fun _ => 0).source p = eval ![p.1, p.2] (-(pderiv 0 ((1 + X 0) * pderiv 0 (X 0)) + pderiv 1 ((1 + X 0) * pderiv 1 (X 0)) : MvPolynomial (Fin 2) ℝ))
      + ((squareTest fun _ => 0).advection p 0 * eval ![p.1, p.2] (pderiv 0 (X 0 : MvPolynomial (Fin 2) ℝ))
        + (squareTest fun _ => 0).advection p 1 * eval ![p.1, p.2] (pderiv 1 (X 0 : MvPolynomial (Fin 2) ℝ)))) ∧
    ellipticLocal ⟨true, 1⟩ (vemEllipticCell ref squarePoly s) 1 (squareTest fun _ => 0) = .ok l ∧
    ellipticLocal ⟨false, 1⟩ (vemEllipticCell ref squarePoly s) 1 (squareTest fun _ => 0) = .ok l' ∧
    ∃ i < 9, apply l.matrix y i - l.rhs.ent i 0 ≠ apply l'.matrix y i - l'.rhs.ent i 0 := by
  obtain ⟨lu, h1, h2⟩ := exists_solvers
  obtain ⟨ref, s, Φ, X', Y', S, L, hr, hc, hs, hne, hS, hL, hLr, hLc, hval, hpol⟩ := vem_tables square_element square_tables h1 h2 (by norm_num [squarePoly])
  obtain ⟨y, hy⟩ := exists_dofs 2 squarePoly 4 squareV (fun i => i % 2 = 0) [1 / 2] rfl fun p => p.1
  obtain ⟨hb, hb'⟩ := advection_pos (β := (squareTest fun _ => 0).advection) hs fun p => ⟨rfl, rfl⟩
  obtain ⟨hnull, hp⟩ := hpol (X 0) (by simp [totalDegree_X]) y (by simpa using hy)
  have hne' : ∃ p ∈ (vemEllipticCell ref squarePoly s).internal.points, (squareTest fun _ => 0).diffusion p ≠ 0 := by
    by_contra hcon
    push Not at hcon
    have : quadLin s.internal.points s.internal.weights ((1 + X 0) * (1 + X 0)) = 0 := by
      refine (sum_quadSum _ _ hs.rules.wlen (fun _ => 0) _ fun i p hi => ?_).symm.trans (by simp)
      have h0 : 1 + p.1 = 0 := hcon p (List.mem_of_getElem? hi)
      simp [ev2, h0]
    have := hs.discrete.definite (1 + X 0) ((totalDegree_add _ _).trans (by simp [totalDegree_X])) this
    have := congrArg (eval ![(0 : ℝ), 0]) this
    simp at this
  obtain ⟨l, K, hl, -, hK, -, ht, -, -, -, -, -, -, -, h8, h9⟩ := C131_supg hS hne (config := ⟨true, 1⟩) rfl hL hLr hLc (h := 1) (test := squareTest fun _ => 0) hb zero_le_one zero_le_one hne'
  obtain ⟨l', K', hl', hK', -, -, -, -, -, h8', h9'⟩ := C131_galerkin hS hne (config := ⟨false, 1⟩) rfl 1 (squareTest fun _ => 0)
  refine ⟨lu, lu, h1, h2, ref, s, l, l', y, hr, hc, hy, fun p => ?_, hl, hl', ?_⟩
  · simp [squareTest, pderiv_X]
  · by_contra hcon
    push Not at hcon
    have e : ∑ i ∈ range 9, y i * (apply l.matrix y i - l.rhs.ent i 0) = ∑ i ∈ range 9, y i * (apply l'.matrix y i - l'.rhs.ent i 0) :=
      sum_congr rfl fun i hi => by rw [hcon i (mem_range.1 hi)]
    simp only [mul_sub, sum_sub_distrib] at e
    have a1 := h8 y y
    have a2 := h8' y y
    have a3 := h9 y
    have a4 := h9' y
    rw [hnull, mul_zero, add_zero] at a1 a2
    have hz : ∀ g : Nat → ℝ, (cellSum (vemEllipticCell ref squarePoly s).internal fun q => (squareTest fun _ => 0).source (rulePoint (vemEllipticCell ref squarePoly s).internal q) * g q) = 0 := by
      intro g
      simp [cellSum, squareTest]
    rw [hz] at a3 a4
    have hu : upwindForm (vemEllipticCell ref squarePoly s).internal X' Y' L (squareTest fun _ => 0).diffusion (squareTest fun _ => 0).advection y y = cellSum s.internal fun _ => 1 := by
      unfold upwindForm cellSum
      refine sum_congr rfl fun i hi => ?_
      obtain ⟨p, hp'⟩ : ∃ p, s.internal.points[i]? = some p := ⟨_, List.getElem?_eq_getElem (mem_range.1 hi)⟩
      obtain ⟨y1, y2, y3⟩ := hp i p hp'
      rw [show (vemEllipticCell ref squarePoly s).internal = s.internal from rfl]
      unfold streamline
      beta_reduce
      rw [y1, y2, y3]
      simp [squareTest, pderiv_X]
    have hpos : 0 < l.stability * cellSum s.internal fun _ => 1 := by
      rw [ht]
      rw [hb'] at hb
      have : (advectionSquare (vemEllipticCell ref squarePoly s).internal (squareTest fun _ => 0).advection) = cellSum s.internal fun _ => 1 := hb'
      rw [this]
      have : 0 < min 1 ((1 : ℝ) * 1 * (cellSum s.internal fun _ => 1) / (2 * K)) := lt_min one_pos (by positivity)
      positivity
    rw [hu] at a1
    have b1 : ∑ i ∈ range 9, y i * apply l.matrix y i = _ := a1
    have b2 : ∑ i ∈ range 9, y i * apply l'.matrix y i = _ := a2
    have b3 : ∑ i ∈ range 9, y i * l.rhs.ent i 0 = _ := a3
    have b4 : ∑ i ∈ range 9, y i * l'.rhs.ent i 0 = _ := a4
    rw [b1, b2, b3, b4] at e
    linarith

-- C131 and C132: the unit square at order 2, `κ = 1 + x`, advection `(1, 0)`, with the source that SUPG expects for `q = x y`
example : ∃ lu llt : Solver ℝ, ∃ ref s, SolvesRegular lu ∧ SolvesPosDef llt ∧
    vemRef2D (fun _ => ⟨nc4Points, nc4Weights⟩) (fun _ => ⟨[0, 1 / 2, 1], [1 / 6, 2 / 3, 1 / 6]⟩) 2 = .ok ref ∧ vemCreate2D lu llt ref squarePoly = .ok s ∧
    (∃ l l', ∃ y : Nat → ℝ, ellipticLocal ⟨true, 1⟩ (vemEllipticCell ref squarePoly s) 1 (squareTest fun p => p.2) = .ok l ∧
      ellipticLocal ⟨false, 1⟩ (vemEllipticCell ref squarePoly s) 1 (squareTest fun p => p.2) = .ok l' ∧
      IsDofVector 2 squarePoly 4 squareV (fun i => i % 2 = 0) [1 / 2] (fun p => p.1 * p.2) y ∧
      ∀ i < 9, apply l.matrix y i - l.rhs.ent i 0 = apply l'.matrix y i - l'.rhs.ent i 0) ∧
    -- without advection SUPG fails
    ellipticLocal ⟨true, 1⟩ (vemEllipticCell ref squarePoly s) 1 ⟨fun _ => 1, fun _ _ => 0, fun _ => 1, fun _ _ => 0, fun _ _ => 0⟩ = .error .notANumber := by
  obtain ⟨lu, h1, h2⟩ := exists_solvers
  obtain ⟨y, hy⟩ := exists_dofs 2 squarePoly 4 squareV (fun i => i % 2 = 0) [1 / 2] rfl fun p => p.1 * p.2
  obtain ⟨ref, s, Φ, X', Y', S, L, hr, hc, hs, hne, hS, -⟩ := vem_tables square_element square_tables h1 h2 (by norm_num [squarePoly])
  obtain ⟨r', s', hr', hc', h⟩ := C132_consistent square_element square_tables h1 h2 (by norm_num [squarePoly]) (q := X 0 * X 1)
    ((totalDegree_mul _ _).trans (by rw [totalDegree_X, totalDegree_X])) (y := y) (by simpa using hy) 1 1 (squareTest fun p => p.2)
  obtain rfl : r' = ref := Except.ok.inj (hr'.symm.trans hr)
  obtain rfl : s' = s := Except.ok.inj (hc'.symm.trans hc)
  obtain ⟨l, l', hl, hl', -, he⟩ := h (fun p _ => by simp [squareTest, pderiv_X]) (advection_pos (β := (squareTest fun p => p.2).advection) hs fun p => ⟨rfl, rfl⟩).1.ne'
  exact ⟨lu, lu, r', s', h1, h2, hr, hc, ⟨l, l', y, hl, hl', hy, he⟩, C131_no_advection hS hne rfl 1 _ fun _ _ => ⟨rfl, rfl⟩⟩

end

end PolyDiM
