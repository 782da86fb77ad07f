import Verif.Model.AssemblerParabolic2D
import Verif.Lemmas.EllipticGlobal

/-!
# Lemmas: the local matrices of the example Parabolic_PCC_2D
-/

namespace PolyDiM

open Spec MvPolynomial Finset

section tables
variable {space : EllipticCell2D ℝ} {Q n : Nat} {x : Nat → ℝ × ℝ} {w : Nat → ℝ} {val : Nat → Nat → ℝ} {der : Nat → Nat → Nat → ℝ} {st : Nat → Nat → ℝ}

theorem parabolicLocal_ok (hS : ETables space Q n x w val der st) (hQ : 0 < Q) {tt : Nat → Nat → ℝ} (ht : space.stab .pi0k = .ok ⟨n, n, tt⟩) (test : ParabolicTest ℝ) :
    ∃ k, IsGreatest {y | ∃ q < Q, y = |test.diffusion (x q)|} k ∧ parabolicLocal space.toCellSpace2D test
      = .ok (⟨n, n, fun i j => ∑ q ∈ range Q, w q * (test.diffusion (x q) * (der 0 q i * der 0 q j + der 1 q i * der 1 q j)) + k * st i j⟩,
        ⟨n, n, fun i j => ∑ q ∈ range Q, w q * (val q i * val q j) + tt i j⟩) := by
  obtain ⟨k, hk, hkg⟩ := maxAbs_great hQ fun q => test.diffusion (x q)
  refine ⟨k, hkg, ?_⟩
  obtain ⟨E, hE, hEr, hEc, hEe, -⟩ := C53_diffusion Q n n 2 (by decide) w (fun q => test.diffusion (x q)) der der
  obtain ⟨M, hM, hMr, hMc, hMe, -⟩ := C53_reaction Q n n w (fun _ => 1) val val
  have hd : evalScalar space.internal.points test.diffusion = vecOf Q fun q => test.diffusion (x q) := by rw [hS.points, evalScalar_vecOf]
  have hE' : cellDiffusionSame (vecOf Q fun q => test.diffusion (x q)) [(⟨Q, n, der 0⟩ : DMat ℝ), ⟨Q, n, der 1⟩] (vecOf Q w) = .ok E := hE
  have hone : List.replicate space.internal.points.length (1 : ℝ) = vecOf Q fun _ => 1 := by
    rw [hS.points, vecOf_length]
    unfold vecOf
    rw [List.map_const', List.length_range]
  have hM' : cellReactionSame (vecOf Q fun _ => 1) ⟨Q, n, val⟩ (vecOf Q w) = .ok M := hM
  obtain ⟨r, c, E⟩ := E
  obtain rfl : r = n := hEr
  obtain rfl : c = r := hEc
  obtain ⟨r, d, M⟩ := M
  obtain rfl : r = c := hMr
  obtain rfl : d = r := hMc
  dsimp only at hEe hMe
  unfold parabolicLocal
  rw [hS.values, except_ok_bind, hS.derivatives, except_ok_bind, hd, hS.weights]
  dsimp only
  rw [hE', except_ok_bind, hk, except_ok_bind, hS.stab, except_ok_bind, hone, hM', except_ok_bind, ht, except_ok_bind, DMat.add_ok _ _ (by rfl) (by rfl), except_ok_bind,
    DMat.add_ok _ _ (by rfl) (by rfl), except_ok_bind]
  congr 3
  · funext i j
    show E i j + k * st i j = _
    rw [hEe]
    congr 1
    refine sum_congr rfl fun q _ => ?_
    rw [sum_range_succ, sum_range_succ, sum_range_zero, zero_add]
  · funext i j
    show M i j + tt i j = _
    rw [hMe]
    congr 1
    exact sum_congr rfl fun q _ => by rw [one_mul]

theorem parabolicForcing_ok (hS : ETables space Q n x w val der st) (f : ℝ × ℝ → ℝ) :
    cellForcing (evalScalar space.internal.points f) ⟨Q, n, val⟩ space.internal.weights = .ok ⟨n, 1, fun i _ => ∑ q ∈ range Q, w q * (f (x q) * val q i)⟩ := by
  rw [hS.points, evalScalar_vecOf, hS.weights, cellForcing_ok]
  simp only [cellForcing_ent]

end tables

section element
variable {k n : Nat} {V : Nat → ℝ × ℝ} {len : Nat → ℝ} {dir : Nat → Bool} {nrm : Nat → ℝ × ℝ} {triangle : Nat → Rule (ℝ × ℝ) ℝ} {edge : Nat → Rule ℝ ℝ} {ts ws : List ℝ} {w : ℝ}
  {lu llt : Solver ℝ} {poly : VemPolygon ℝ}

/-- What the cells of the example hold: the local matrices as forms, and the vector of a source. -/
structure HeatLocal (k n : Nat) (ref : VemRef2D ℝ) (poly : VemPolygon ℝ) (s : VemSpace2D ℝ) (test : ParabolicTest ℝ) (Φ S T A M : DMat ℝ) (κmax : ℝ) : Prop where
  stab : vemDofiDofi poly s .piNabla = .ok S
  stabM : vemDofiDofi poly s .pi0k = .ok T
  sizeS : S.rows = n + n * (k - 1) + k * (k - 1) / 2
  sizeT : T.rows = n + n * (k - 1) + k * (k - 1) / 2
  rows : A.rows = n + n * (k - 1) + k * (k - 1) / 2
  cols : A.cols = n + n * (k - 1) + k * (k - 1) / 2
  rowsM : M.rows = n + n * (k - 1) + k * (k - 1) / 2
  colsM : M.cols = n + n * (k - 1) + k * (k - 1) / 2
  symm : ∀ i j, A.ent i j = A.ent j i
  symmM : ∀ i j, M.ent i j = M.ent j i
  run : parabolicLocal (vemCell2D ref poly s) test = .ok (A, M)
  greatest : IsGreatest {y | ∃ p ∈ s.internal.points, y = |test.diffusion p|} κmax
  form : ∀ v y : Nat → ℝ, ∑ i ∈ range (n + n * (k - 1) + k * (k - 1) / 2), v i * apply A y i = quadSum s.internal.points s.internal.weights (fun p =>
        test.diffusion p * (polyOf (k - 1) poly.centroid poly.diameter (apply s.derX v) p * polyOf (k - 1) poly.centroid poly.diameter (apply s.derX y) p
          + polyOf (k - 1) poly.centroid poly.diameter (apply s.derY v) p * polyOf (k - 1) poly.centroid poly.diameter (apply s.derY y) p))
      + κmax * ∑ i ∈ range S.rows, v i * apply S y i
  formM : ∀ v y : Nat → ℝ, ∑ i ∈ range (n + n * (k - 1) + k * (k - 1) / 2), v i * apply M y i = quadSum s.internal.points s.internal.weights (fun p =>
        polyOf (k - 1) poly.centroid poly.diameter (apply s.pi0km1 v) p * polyOf (k - 1) poly.centroid poly.diameter (apply s.pi0km1 y) p)
      + ∑ i ∈ range T.rows, v i * apply T y i
  values : (vemCell2D ref poly s).valuesInt .pi0km1 = .ok Φ
  forcing : ∀ f : ℝ × ℝ → ℝ, cellForcing (evalScalar s.internal.points f) Φ s.internal.weights
    = .ok ⟨n + n * (k - 1) + k * (k - 1) / 2, 1, fun i _ => cellSum s.internal fun q => f (rulePoint s.internal q) * Φ.ent q i⟩
  source : ∀ (f : ℝ × ℝ → ℝ) (v : Nat → ℝ), ∑ i ∈ range (n + n * (k - 1) + k * (k - 1) / 2), v i * cellSum s.internal (fun q => f (rulePoint s.internal q) * Φ.ent q i)
    = quadSum s.internal.points s.internal.weights fun p => f p * polyOf (k - 1) poly.centroid poly.diameter (apply s.pi0km1 v) p
  elliptic : ∀ (et : EllipticTest ℝ) (peclet h : ℝ) (l : EllipticLocal ℝ), et.diffusion = test.diffusion → et.advection = (fun _ _ => 0) →
    ellipticLocal ⟨false, peclet⟩ (vemEllipticCell ref poly s) h et = .ok l →
      l.matrix = A ∧ ∀ i, l.rhs.ent i 0 = cellSum s.internal fun q => et.source (rulePoint s.internal q) * Φ.ent q i

theorem heat_local (hE : IsElement poly n V len dir nrm) (hT : IsTables k triangle edge ts ws w) (hlu : SolvesRegular lu) (hllt : SolvesPosDef llt) (hpos : 0 < poly.measure) :
    ∃ ref s, vemRef2D triangle edge k = .ok ref ∧ vemCreate2D lu llt ref poly = .ok s ∧ SpaceOk k n V len dir ts ws w poly s ∧
      ∀ test : ParabolicTest ℝ, ∃ Φ S T A M κmax, HeatLocal k n ref poly s test Φ S T A M κmax := by
  obtain ⟨ref, s, Φ, X, Y, S, L, hr, hc, hs, hne, hcell, -, -, -, htab, -⟩ := vem_tables hE hT hlu hllt hpos
  obtain ⟨r5, s5, hr5, hc5, hst, -⟩ := C77_stabilization hE hT hlu hllt hpos
  obtain rfl : r5 = ref := Except.ok.inj (hr5.symm.trans hr)
  obtain rfl : s5 = s := Except.ok.inj (hc5.symm.trans hc)
  obtain ⟨T, hT1, hTr, hTc, hTs, -⟩ := hst .pi0k (Or.inr rfl)
  obtain ⟨S', hS1, hSr, hSc, hSs, -⟩ := hst .piNabla (Or.inl rfl)
  obtain rfl : S' = S := Except.ok.inj (hS1.symm.trans hcell.stab)
  refine ⟨r5, s5, hr, hc, hs, fun test => ?_⟩
  set N := n + n * (k - 1) + k * (k - 1) / 2 with hN
  have hEt := cell_entries hcell
  obtain ⟨-, hΦc, -, hXc, -, hYc, -, -⟩ := hcell.sizes
  have hstT : (vemEllipticCell r5 poly s5).stab .pi0k = .ok ⟨N, N, T.ent⟩ := by rw [← dmat_eta hTr (hTc.trans hTr)]; exact hT1
  obtain ⟨κmax, hmax, hrun⟩ := parabolicLocal_ok hEt hne hstT test
  have hget : ∀ q < s5.internal.points.length, s5.internal.points[q]? = some (rulePoint s5.internal q) := fun q hq => by
    unfold rulePoint
    rw [List.getD_eq_getElem?_getD, List.getElem?_eq_getElem hq]
    rfl
  have hap : ∀ (B : DMat ℝ) (v : Nat → ℝ) (q : Nat), B.cols = N → ∑ i ∈ range N, v i * B.ent q i = apply B v q := fun B v q hB => by
    rw [apply_eq hB]
    exact sum_congr rfl fun i _ => mul_comm _ _
  have hap' : ∀ (B : DMat ℝ) (v : Nat → ℝ) (q : Nat), B.cols = N → ∑ i ∈ range N, B.ent q i * v i = apply B v q := fun B v q hB => by rw [apply_eq hB]
  refine ⟨Φ, S', T, _, _, κmax, hS1, hT1, hSr, hTr, rfl, rfl, rfl, rfl, fun i j => ?_, fun i j => ?_, hrun, ?_, fun v y => ?_, fun v y => ?_, hcell.values, fun f => ?_, fun f v => ?_,
    fun et pe h l hdiff hadv hl => ?_⟩
  · dsimp only
    rw [hSs i j]
    congr 1
    exact sum_congr rfl fun q _ => by ring
  · dsimp only
    rw [hTs i j]
    congr 1
    exact sum_congr rfl fun q _ => by ring
  · constructor
    · obtain ⟨q, hq, e⟩ := hmax.1
      exact ⟨_, List.mem_of_getElem? (hget q hq), e⟩
    · rintro y ⟨p, hp, rfl⟩
      obtain ⟨q, hq⟩ := List.mem_iff_getElem?.1 hp
      have hlt := (List.getElem?_eq_some_iff.1 hq).1
      have : rulePoint s5.internal q = p := Option.some.inj ((hget q hlt).symm.trans hq)
      exact hmax.2 ⟨q, hlt, by rw [← this]; rfl⟩
  · rw [apply_eq rfl]
    show form N N (fun i j => _ + κmax * S'.ent i j) v y = _
    rw [form_add, form_mul, form_sum]
    congr 1
    · rw [← sum_quadSum s5.internal.points s5.internal.weights hs.rules.wlen (fun q => test.diffusion (rulePoint s5.internal q) * (apply X v q * apply X y q + apply Y v q * apply Y y q))]
      · refine sum_congr rfl fun q _ => ?_
        rw [form_mul, form_mul, form_add, form_prod, form_prod]
        simp only [if_true, one_ne_zero, if_false]
        rw [hap X v q hXc, hap X y q hXc, hap Y v q hYc, hap Y y q hYc]
        rfl
      · intro i p hp
        have hi := (List.getElem?_eq_some_iff.1 hp).1
        have hx : rulePoint s5.internal i = p := Option.some.inj ((hget i hi).symm.trans hp)
        rw [hx, (htab v i p hp).2.1, (htab v i p hp).2.2, (htab y i p hp).2.1, (htab y i p hp).2.2]
    · congr 1
      rw [hSr]
      refine sum_congr rfl fun i _ => ?_
      rw [hap' S' y i (hSc.trans hSr)]
  · rw [apply_eq rfl]
    show form N N (fun i j => _ + T.ent i j) v y = _
    rw [form_add, form_sum]
    congr 1
    · rw [← sum_quadSum s5.internal.points s5.internal.weights hs.rules.wlen (fun q => apply Φ v q * apply Φ y q)]
      · refine sum_congr rfl fun q _ => ?_
        rw [form_mul, form_prod, hap Φ v q hΦc, hap Φ y q hΦc]
        rfl
      · intro i p hp
        rw [(htab v i p hp).1, (htab y i p hp).1]
    · rw [hTr]
      refine sum_congr rfl fun i _ => ?_
      rw [hap' T y i (hTc.trans hTr)]
  · have := parabolicForcing_ok hEt f
    obtain ⟨h1, h2, -⟩ := hcell.sizes
    rw [← dmat_eta h1 h2] at this
    exact this
  · rw [← sum_quadSum s5.internal.points s5.internal.weights hs.rules.wlen (fun q => f (rulePoint s5.internal q) * apply Φ v q)]
    · simp only [cellSum, mul_sum]
      rw [sum_comm]
      refine sum_congr rfl fun q _ => ?_
      rw [← hap Φ v q hΦc, mul_sum, mul_sum]
      exact sum_congr rfl fun i _ => by ring
    · intro i p hp
      have hi := (List.getElem?_eq_some_iff.1 hp).1
      have hx : rulePoint s5.internal i = p := Option.some.inj ((hget i hi).symm.trans hp)
      rw [hx, (htab v i p hp).1]
  · obtain ⟨κ', hκ', hok⟩ := ellipticLocal_ok hEt hne ⟨false, pe⟩ h et
    obtain ⟨l', hl', -, -, hm, -, -, hrhs⟩ := hok (fun _ _ => 0) 0 (Or.inl ⟨rfl, rfl⟩)
    obtain rfl : l' = l := Except.ok.inj (hl'.symm.trans hl)
    rw [hdiff] at hκ'
    obtain rfl : κ' = κmax := hκ'.unique hmax
    constructor
    · rw [hm]
      congr 1
      funext i j
      simp only [hdiff, hadv, along, zero_mul, add_zero, mul_zero]
    · intro i
      rw [hrhs]
      simp only [hadv, along, zero_mul, add_zero, mul_zero]
      rfl

/-- The mass matrix applied to the degrees of freedom of a polynomial is the vector of this polynomial as a source. -/
theorem mass_poly (hE : IsElement poly n V len dir nrm) (hT : IsTables k triangle edge ts ws w) (hlu : SolvesRegular lu) (hllt : SolvesPosDef llt) (hpos : 0 < poly.measure)
    {ref : VemRef2D ℝ} {s : VemSpace2D ℝ} (hr : vemRef2D triangle edge k = .ok ref) (hc : vemCreate2D lu llt ref poly = .ok s) (hs : SpaceOk k n V len dir ts ws w poly s)
    {test : ParabolicTest ℝ} {Φ S T A M : DMat ℝ} {κmax : ℝ} (hL : HeatLocal k n ref poly s test Φ S T A M κmax) {q : MvPolynomial (Fin 2) ℝ} (hq : q.totalDegree ≤ k) {y : Nat → ℝ}
    (hy : IsDofVector k poly n V dir ts (fun p => eval ![p.1, p.2] q) y) (v : Nat → ℝ) :
    ∑ i ∈ range (n + n * (k - 1) + k * (k - 1) / 2), v i * apply M y i
      = quadSum s.internal.points s.internal.weights fun p => eval ![p.1, p.2] q * polyOf (k - 1) poly.centroid poly.diameter (apply s.pi0km1 v) p := by
  have hk := hT.low
  have hkk : k - 1 + 1 = k := by omega
  obtain ⟨r5, s5, hr5, hc5, hst, -⟩ := C77_stabilization hE hT hlu hllt hpos
  obtain ⟨r1, s1, hr1, hc1, -, -, hmom⟩ := C52_pi0km1 hE hT hlu hllt
  obtain rfl : r5 = ref := Except.ok.inj (hr5.symm.trans hr)
  obtain rfl : s5 = s := Except.ok.inj (hc5.symm.trans hc)
  obtain rfl : r1 = r5 := Except.ok.inj (hr1.symm.trans hr)
  obtain rfl : s1 = s5 := Except.ok.inj (hc1.symm.trans hc)
  obtain ⟨Z, hZ, hZr, hZc, hsym, hpsd⟩ := hst .pi0k (Or.inr rfl)
  obtain rfl : Z = T := Except.ok.inj (hZ.symm.trans hL.stabM)
  have hf : ∀ a b : Nat → ℝ, ∑ i ∈ range Z.rows, a i * apply Z b i = form Z.rows Z.rows Z.ent a b := by
    intro a b
    rw [apply_eq hZc]
    rfl
  have hnull : ∑ i ∈ range Z.rows, v i * apply Z y i = 0 := by
    rw [hf]
    exact psd_null hsym (fun x => hf x x ▸ (hpsd x).1) (hf y y ▸ (hpsd y).2.2 ⟨q, hq, hy⟩) v
  rw [hL.formM, hnull, add_zero]
  set P : (Nat → ℝ) → MvPolynomial (Fin 2) ℝ := fun u => combo k poly.centroid poly.diameter (tri k) (apply s1.pi0km1 u) with hP
  have hev : ∀ u p, ev2 (P u) p = polyOf (k - 1) poly.centroid poly.diameter (apply s1.pi0km1 u) p := fun u p => by
    rw [← ev2_combo k _ _ (by omega), hkk]
  have hdeg : ∀ u, (P u).totalDegree ≤ k - 1 := fun u => by
    have := combo_degree (k := k) (c := poly.centroid) (h := poly.diameter) (apply s1.pi0km1 u) (show k - 1 ≤ k by omega)
    rwa [hkk] at this
  have h1 : quadSum s1.internal.points s1.internal.weights (fun p => polyOf (k - 1) poly.centroid poly.diameter (apply s1.pi0km1 v) p
      * polyOf (k - 1) poly.centroid poly.diameter (apply s1.pi0km1 y) p) = quadLin s1.internal.points s1.internal.weights (P y * P v) := by
    refine quadSum_congr _ _ fun p _ => ?_
    rw [← hev, ← hev]
    simp only [ev2, map_mul]
    ring
  have h2 : quadSum s1.internal.points s1.internal.weights (fun p => eval ![p.1, p.2] q * polyOf (k - 1) poly.centroid poly.diameter (apply s1.pi0km1 v) p)
      = quadLin s1.internal.points s1.internal.weights (q * P v) := by
    refine quadSum_congr _ _ fun p _ => ?_
    rw [← hev]
    simp only [ev2, map_mul]
  rw [h1, h2, hs.rules.integral _ ((totalDegree_mul _ _).trans (by have := hdeg y; have := hdeg v; omega)),
    hs.rules.integral _ ((totalDegree_mul _ _).trans (by have := hdeg v; omega))]
  have := (hmom q hq y hy).1 (P v) (hdeg v)
  simp only [← hev] at this
  simp only [ev2, map_mul] at this ⊢
  exact this

/-- The energies of the local matrices. -/
theorem heat_energy (hE : IsElement poly n V len dir nrm) (hT : IsTables k triangle edge ts ws w) (hlu : SolvesRegular lu) (hllt : SolvesPosDef llt) (hpos : 0 < poly.measure)
    {ref : VemRef2D ℝ} {s : VemSpace2D ℝ} (hr : vemRef2D triangle edge k = .ok ref) (hc : vemCreate2D lu llt ref poly = .ok s) (hs : SpaceOk k n V len dir ts ws w poly s)
    {test : ParabolicTest ℝ} {Φ S T A M : DMat ℝ} {κmax κ : ℝ} (hL : HeatLocal k n ref poly s test Φ S T A M κmax) (hκ : ∀ p, test.diffusion p = κ) (hκ0 : 0 < κ) (x : Nat → ℝ) :
    0 ≤ ∑ i ∈ range (n + n * (k - 1) + k * (k - 1) / 2), x i * apply A x i ∧
    (∑ i ∈ range (n + n * (k - 1) + k * (k - 1) / 2), x i * apply A x i = 0 ↔ ∃ a : ℝ, IsDofVector k poly n V dir ts (fun _ => a) x) := by
  have hk := hT.low
  have hkk : k - 1 + 1 = k := by omega
  have hK : 0 < κmax := by
    obtain ⟨p, hp, e⟩ := hL.greatest.1
    rw [e, hκ]
    exact abs_pos.2 hκ0.ne'
  rw [hL.form]
  refine energy_stable hE hT hlu hllt hpos hr hc hL.stab hK (fun x => quadSum s.internal.points s.internal.weights (fun p =>
        test.diffusion p * (polyOf (k - 1) poly.centroid poly.diameter (apply s.derX x) p * polyOf (k - 1) poly.centroid poly.diameter (apply s.derX x) p
          + polyOf (k - 1) poly.centroid poly.diameter (apply s.derY x) p * polyOf (k - 1) poly.centroid poly.diameter (apply s.derY x) p))) ?_ ?_ x
  all_goals
    intro x
    set PX := combo k poly.centroid poly.diameter (tri k) (apply s.derX x) with hPX
    set PY := combo k poly.centroid poly.diameter (tri k) (apply s.derY x) with hPY
    have hev : ∀ a p, ev2 (combo k poly.centroid poly.diameter (tri k) a) p = polyOf (k - 1) poly.centroid poly.diameter a p := fun a p => by
      rw [← ev2_combo k _ _ (by omega), hkk]
    have hdeg : ∀ a, (combo k poly.centroid poly.diameter (tri k) a).totalDegree ≤ k := fun a => by
      have := combo_degree (k := k) (c := poly.centroid) (h := poly.diameter) a (show k - 1 ≤ k by omega)
      rw [hkk] at this
      omega
    have hsum : quadSum s.internal.points s.internal.weights (fun p =>
        test.diffusion p * (polyOf (k - 1) poly.centroid poly.diameter (apply s.derX x) p * polyOf (k - 1) poly.centroid poly.diameter (apply s.derX x) p
          + polyOf (k - 1) poly.centroid poly.diameter (apply s.derY x) p * polyOf (k - 1) poly.centroid poly.diameter (apply s.derY x) p))
        = κ * (quadLin s.internal.points s.internal.weights (PX * PX) + quadLin s.internal.points s.internal.weights (PY * PY)) := by
      rw [← map_add, ← quadLin_C_mul]
      refine quadSum_congr _ _ fun p _ => ?_
      rw [hκ, ← hev, ← hev]
      simp only [ev2, map_mul, map_add, eval_C, hPX, hPY]
    have hx0 := hs.discrete.nonneg PX (hdeg _)
    have hy0 := hs.discrete.nonneg PY (hdeg _)
    rw [hsum]
  · exact mul_nonneg hκ0.le (add_nonneg hx0 hy0)
  · constructor
    · intro h p
      have h' := (mul_eq_zero.1 h).resolve_left hκ0.ne'
      have hX := hs.discrete.definite PX (hdeg _) (by linarith)
      have hY := hs.discrete.definite PY (hdeg _) (by linarith)
      rw [← hev, ← hev, ← hPX, ← hPY, hX, hY]
      simp [ev2]
    · intro h
      have hX : PX = 0 := ev2_ext fun p => by rw [hev, (h p).1]; simp [ev2]
      have hY : PY = 0 := ev2_ext fun p => by rw [hev, (h p).2]; simp [ev2]
      rw [hX, hY]
      simp

theorem mass_psd (hE : IsElement poly n V len dir nrm) (hT : IsTables k triangle edge ts ws w) (hlu : SolvesRegular lu) (hllt : SolvesPosDef llt) (hpos : 0 < poly.measure)
    {ref : VemRef2D ℝ} {s : VemSpace2D ℝ} (hr : vemRef2D triangle edge k = .ok ref) (hc : vemCreate2D lu llt ref poly = .ok s) (hs : SpaceOk k n V len dir ts ws w poly s)
    {test : ParabolicTest ℝ} {Φ S T A M : DMat ℝ} {κmax : ℝ} (hL : HeatLocal k n ref poly s test Φ S T A M κmax) (x : Nat → ℝ) :
    0 ≤ ∑ i ∈ range (n + n * (k - 1) + k * (k - 1) / 2), x i * apply M x i ∧
    (∑ i ∈ range (n + n * (k - 1) + k * (k - 1) / 2), x i * apply M x i = 0 ↔ (∀ p, polyOf (k - 1) poly.centroid poly.diameter (apply s.pi0km1 x) p = 0) ∧
      ∃ q : MvPolynomial (Fin 2) ℝ, q.totalDegree ≤ k ∧ IsDofVector k poly n V dir ts (fun p => eval ![p.1, p.2] q) x) := by
  have hk := hT.low
  have hkk : k - 1 + 1 = k := by omega
  obtain ⟨r5, s5, hr5, hc5, hst, -⟩ := C77_stabilization hE hT hlu hllt hpos
  obtain rfl : r5 = ref := Except.ok.inj (hr5.symm.trans hr)
  obtain rfl : s5 = s := Except.ok.inj (hc5.symm.trans hc)
  obtain ⟨Z, hZ, hZr, hZc, hsym, hpsd⟩ := hst .pi0k (Or.inr rfl)
  obtain rfl : Z = T := Except.ok.inj (hZ.symm.trans hL.stabM)
  set P := combo k poly.centroid poly.diameter (tri k) (apply s5.pi0km1 x) with hP
  have hev : ∀ p, ev2 P p = polyOf (k - 1) poly.centroid poly.diameter (apply s5.pi0km1 x) p := fun p => by
    rw [← ev2_combo k _ _ (by omega), hkk]
  have hdeg : P.totalDegree ≤ k := by
    have := combo_degree (k := k) (c := poly.centroid) (h := poly.diameter) (apply s5.pi0km1 x) (show k - 1 ≤ k by omega)
    rw [hkk] at this
    exact this.trans (by omega)
  have h1 : quadSum s5.internal.points s5.internal.weights (fun p => polyOf (k - 1) poly.centroid poly.diameter (apply s5.pi0km1 x) p
      * polyOf (k - 1) poly.centroid poly.diameter (apply s5.pi0km1 x) p) = quadLin s5.internal.points s5.internal.weights (P * P) := by
    refine quadSum_congr _ _ fun p _ => ?_
    rw [← hev]
    simp only [ev2, map_mul]
  rw [hL.formM, h1]
  have h0 := hs.discrete.nonneg P hdeg
  have h2 := (hpsd x).1
  refine ⟨add_nonneg h0 h2, fun h => ⟨fun p => ?_, (hpsd x).2.1 (by linarith)⟩, ?_⟩
  · rw [← hev, hs.discrete.definite P hdeg (by linarith)]
    simp [ev2]
  · rintro ⟨hz, hq⟩
    rw [(hpsd x).2.2 hq, (ev2_ext fun p => by rw [hev, hz]; simp [ev2] : P = 0)]
    simp

/-- `a` times the stiffness matrix plus the mass matrix is definite. -/
theorem heat_definite (hE : IsElement poly n V len dir nrm) (hT : IsTables k triangle edge ts ws w) (hlu : SolvesRegular lu) (hllt : SolvesPosDef llt) (hpos : 0 < poly.measure)
    {ref : VemRef2D ℝ} {s : VemSpace2D ℝ} (hr : vemRef2D triangle edge k = .ok ref) (hc : vemCreate2D lu llt ref poly = .ok s) (hs : SpaceOk k n V len dir ts ws w poly s)
    {test : ParabolicTest ℝ} {Φ S T A M : DMat ℝ} {κmax κ : ℝ} (hL : HeatLocal k n ref poly s test Φ S T A M κmax) (hκ : ∀ p, test.diffusion p = κ) (hκ0 : 0 < κ) (x : Nat → ℝ)
    (hA : ∑ i ∈ range (n + n * (k - 1) + k * (k - 1) / 2), x i * apply A x i = 0) (hM : ∑ i ∈ range (n + n * (k - 1) + k * (k - 1) / 2), x i * apply M x i = 0) :
    ∀ i < n + n * (k - 1) + k * (k - 1) / 2, x i = 0 := by
  have hk := hT.low
  obtain ⟨r1, s1, hr1, hc1, -, -, hmom⟩ := C52_pi0km1 hE hT hlu hllt
  obtain rfl : r1 = ref := Except.ok.inj (hr1.symm.trans hr)
  obtain rfl : s1 = s := Except.ok.inj (hc1.symm.trans hc)
  obtain ⟨a, ha⟩ := (heat_energy hE hT hlu hllt hpos hr hc hs hL hκ hκ0 x).2.1 hA
  have hz := ((mass_psd hE hT hlu hllt hpos hr hc hs hL x).2.1 hM).1
  have ha' : IsDofVector k poly n V dir ts (fun p => eval ![p.1, p.2] (C a : MvPolynomial (Fin 2) ℝ)) x := by simpa using ha
  have h := (hmom (C a) (by simp) x ha').2 (by simp) 0
  rw [hz, eval_C] at h
  subst h
  intro i hi
  have hzero : IsDofVector k poly n V dir ts (fun _ => 0) (fun _ => (0 : ℝ)) := ⟨fun _ _ => rfl, fun _ _ _ _ _ => rfl, fun _ _ _ => by simp⟩
  exact dofVector_unique hT.nodes ha hzero i (by rwa [← half_tri])

end element

end PolyDiM
