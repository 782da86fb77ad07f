import Verif.Lemmas.ParabolicTime
import Verif.Props.Solvability2D
import Verif.Props.EllipticPatch2D

/-!
# C146 to C150: the heat equation in the plane, `examples/Parabolic_PCC_2D`
-/

namespace PolyDiM

open Spec MvPolynomial MeasureTheory

section element
variable {k n : Nat} {V : Nat → ℝ × ℝ} {len : Nat → ℝ} {dir : Nat → Bool} {nrm : Nat → ℝ × ℝ} {triangle : Nat → Rule (ℝ × ℝ) ℝ} {edge : Nat → Rule ℝ ℝ} {ts ws : List ℝ} {w : ℝ}
  {lu llt : Solver ℝ} {poly : VemPolygon ℝ}

/-- The product of the degrees of freedom of a polynomial with the matrix is an integral with a polynomial of degree `k - 1`. -/
theorem mass_integral (hE : IsElement poly n V len dir nrm) (hT : IsTables k triangle edge ts ws w) (hlu : SolvesRegular lu) (hllt : SolvesPosDef llt) (hpos : 0 < poly.measure)
    {ref : VemRef2D ℝ} {s : VemSpace2D ℝ} (hr : vemRef2D triangle edge k = .ok ref) (hc : vemCreate2D lu llt ref poly = .ok s) (hs : SpaceOk k n V len dir ts ws w poly s)
    {test : ParabolicTest ℝ} {Φ S T A M : DMat ℝ} {κmax : ℝ} (hL : HeatLocal k n ref poly s test Φ S T A M κmax) {q : MvPolynomial (Fin 2) ℝ} (hq : q.totalDegree ≤ k) {y : Nat → ℝ}
    (hy : IsDofVector k poly n V dir ts (fun p => eval ![p.1, p.2] q) y) (v : Nat → ℝ) :
    ∃ z : MvPolynomial (Fin 2) ℝ, z.totalDegree ≤ k - 1 ∧ (∀ p : ℝ × ℝ, polyOf (k - 1) poly.centroid poly.diameter (apply s.pi0km1 v) p = eval ![p.1, p.2] z) ∧
      ∑ i ∈ Finset.range (n + n * (k - 1) + k * (k - 1) / 2), v i * apply M y i = ∫ p in unionOf poly.tris, eval ![p.1, p.2] q * eval ![p.1, p.2] z := by
  have hk := hT.low
  have hkk : k - 1 + 1 = k := by omega
  have hev : ∀ p : ℝ × ℝ, polyOf (k - 1) poly.centroid poly.diameter (apply s.pi0km1 v) p = ev2 (combo k poly.centroid poly.diameter (tri k) (apply s.pi0km1 v)) p := fun p => by
    rw [← ev2_combo k _ _ (by omega), hkk]
  have hdeg : (combo k poly.centroid poly.diameter (tri k) (apply s.pi0km1 v)).totalDegree ≤ k - 1 := by
    have := combo_degree (k := k) (c := poly.centroid) (h := poly.diameter) (apply s.pi0km1 v) (show k - 1 ≤ k by omega)
    rwa [hkk] at this
  refine ⟨_, hdeg, hev, ?_⟩
  rw [mass_poly hE hT hlu hllt hpos hr hc hs hL hq hy v]
  have h2 : quadSum s.internal.points s.internal.weights (fun p => eval ![p.1, p.2] q * polyOf (k - 1) poly.centroid poly.diameter (apply s.pi0km1 v) p)
      = quadLin s.internal.points s.internal.weights (q * combo k poly.centroid poly.diameter (tri k) (apply s.pi0km1 v)) := by
    refine quadSum_congr _ _ fun p _ => ?_
    rw [hev]
    simp only [ev2, map_mul]
  rw [h2, hs.rules.integral _ ((totalDegree_mul _ _).trans (by omega))]
  simp only [ev2, map_mul]

/-- C146: the element matrices of the heat equation: both are square and symmetric; the mass matrix, on the DOFs of a polynomial of degree `k`, is the integral against the
projection to the polynomials of degree `k - 1`, hence the integral of the product when the other one is a polynomial of degree `k - 1`. -/
theorem C146_form (hE : IsElement poly n V len dir nrm) (hT : IsTables k triangle edge ts ws w) (hlu : SolvesRegular lu) (hllt : SolvesPosDef llt) (hpos : 0 < poly.measure) :
    ∃ ref s, vemRef2D triangle edge k = .ok ref ∧ vemCreate2D lu llt ref poly = .ok s ∧ ∀ test : ParabolicTest ℝ, ∃ A M : DMat ℝ,
      parabolicLocal (vemCell2D ref poly s) test = .ok (A, M) ∧ A.rows = n + n * (k - 1) + k * (k - 1) / 2 ∧ A.cols = n + n * (k - 1) + k * (k - 1) / 2 ∧
      M.rows = n + n * (k - 1) + k * (k - 1) / 2 ∧ M.cols = n + n * (k - 1) + k * (k - 1) / 2 ∧ (∀ i j, A.ent i j = A.ent j i) ∧ (∀ i j, M.ent i j = M.ent j i) ∧
      ∀ q : MvPolynomial (Fin 2) ℝ, q.totalDegree ≤ k → ∀ y, IsDofVector k poly n V dir ts (fun p => eval ![p.1, p.2] q) y →
        (∀ v : Nat → ℝ, ∑ i ∈ Finset.range (n + n * (k - 1) + k * (k - 1) / 2), v i * apply M y i
          = ∫ p in unionOf poly.tris, eval ![p.1, p.2] q * polyOf (k - 1) poly.centroid poly.diameter (apply s.pi0km1 v) p) ∧
        ∀ z : MvPolynomial (Fin 2) ℝ, z.totalDegree ≤ k - 1 → ∀ v, IsDofVector k poly n V dir ts (fun p => eval ![p.1, p.2] z) v →
          ∑ i ∈ Finset.range (n + n * (k - 1) + k * (k - 1) / 2), v i * apply M y i = ∫ p in unionOf poly.tris, eval ![p.1, p.2] q * eval ![p.1, p.2] z := by
  obtain ⟨ref, s, hr, hc, hs, h⟩ := heat_local hE hT hlu hllt hpos
  obtain ⟨r1, s1, hr1, hc1, -, -, hmom⟩ := C52_pi0km1 hE hT hlu hllt
  obtain rfl : r1 = ref := Except.ok.inj (hr1.symm.trans hr)
  obtain rfl : s1 = s := Except.ok.inj (hc1.symm.trans hc)
  refine ⟨r1, s1, hr, hc, fun test => ?_⟩
  obtain ⟨Φ, S, T, A, M, κmax, hL⟩ := h test
  refine ⟨A, M, hL.run, hL.rows, hL.cols, hL.rowsM, hL.colsM, hL.symm, hL.symmM, fun q hq y hy => ?_⟩
  have h1 : ∀ v : Nat → ℝ, ∑ i ∈ Finset.range (n + n * (k - 1) + k * (k - 1) / 2), v i * apply M y i
      = ∫ p in unionOf poly.tris, eval ![p.1, p.2] q * polyOf (k - 1) poly.centroid poly.diameter (apply s1.pi0km1 v) p := fun v => by
    obtain ⟨z, -, e1, e2⟩ := mass_integral hE hT hlu hllt hpos hr hc hs hL hq hy v
    simp only [e1]
    exact e2
  refine ⟨h1, fun z hz v hv => ?_⟩
  rw [h1]
  simp only [(hmom z (by omega) v hv).2 hz]

/-- C146: the energy of the mass matrix is not negative, and it is zero exactly on the DOFs of the polynomials of degree `k` that are orthogonal to those of degree `k - 1`. -/
theorem C146_kernel (hE : IsElement poly n V len dir nrm) (hT : IsTables k triangle edge ts ws w) (hlu : SolvesRegular lu) (hllt : SolvesPosDef llt) (hpos : 0 < poly.measure) :
    ∃ ref s, vemRef2D triangle edge k = .ok ref ∧ vemCreate2D lu llt ref poly = .ok s ∧ ∀ test : ParabolicTest ℝ, ∃ A M : DMat ℝ,
      parabolicLocal (vemCell2D ref poly s) test = .ok (A, M) ∧ ∀ x : Nat → ℝ,
        0 ≤ ∑ i ∈ Finset.range (n + n * (k - 1) + k * (k - 1) / 2), x i * apply M x i ∧
        (∑ i ∈ Finset.range (n + n * (k - 1) + k * (k - 1) / 2), x i * apply M x i = 0 ↔ ∃ q : MvPolynomial (Fin 2) ℝ, q.totalDegree ≤ k ∧
          IsDofVector k poly n V dir ts (fun p => eval ![p.1, p.2] q) x ∧
          ∀ z : MvPolynomial (Fin 2) ℝ, z.totalDegree ≤ k - 1 → ∫ p in unionOf poly.tris, eval ![p.1, p.2] q * eval ![p.1, p.2] z = 0) := by
  obtain ⟨ref, s, hr, hc, hs, h⟩ := heat_local hE hT hlu hllt hpos
  obtain ⟨r1, s1, hr1, hc1, -, -, hmom⟩ := C52_pi0km1 hE hT hlu hllt
  obtain rfl : r1 = ref := Except.ok.inj (hr1.symm.trans hr)
  obtain rfl : s1 = s := Except.ok.inj (hc1.symm.trans hc)
  refine ⟨r1, s1, hr, hc, fun test => ?_⟩
  obtain ⟨Φ, S, T, A, M, κmax, hL⟩ := h test
  refine ⟨A, M, hL.run, fun x => ?_⟩
  obtain ⟨h0, h1⟩ := mass_psd hE hT hlu hllt hpos hr hc hs hL x
  refine ⟨h0, fun hx => ?_, ?_⟩
  · obtain ⟨hp, q, hq, hd⟩ := h1.1 hx
    refine ⟨q, hq, hd, fun z hz => ?_⟩
    rw [← (hmom q hq x hd).1 z hz]
    simp only [hp, zero_mul, integral_zero]
  · rintro ⟨q, hq, hd, ho⟩
    obtain ⟨z, hz, -, e⟩ := mass_integral hE hT hlu hllt hpos hr hc hs hL hq hd x
    rw [e, ho z hz]

/-- On every element there is a polynomial of degree `k`, not zero, orthogonal to those of degree `k - 1`. -/
theorem exists_orthogonal (hE : IsElement poly n V len dir nrm) (hT : IsTables k triangle edge ts ws w) {s : VemSpace2D ℝ} (hs : SpaceOk k n V len dir ts ws w poly s) :
    ∃ q : MvPolynomial (Fin 2) ℝ, q ≠ 0 ∧ q.totalDegree ≤ k ∧
      ∀ z : MvPolynomial (Fin 2) ℝ, z.totalDegree ≤ k - 1 → ∫ p in unionOf poly.tris, eval ![p.1, p.2] q * eval ![p.1, p.2] z = 0 := by
  have hk := hT.low
  have hkk : k - 1 + 1 = k := by omega
  let Q : (Fin (tri (k + 1)) → ℝ) →ₗ[ℝ] MvPolynomial (Fin 2) ℝ := Fintype.linearCombination ℝ fun j : Fin (tri (k + 1)) => basisPoly k poly.centroid poly.diameter j
  let f : (Fin (tri (k + 1)) → ℝ) →ₗ[ℝ] (Fin (tri k) → ℝ) :=
    LinearMap.pi fun i => (quadLin s.internal.points s.internal.weights).comp ((LinearMap.mulLeft ℝ (basisPoly k poly.centroid poly.diameter i)).comp Q)
  have hlt : Module.finrank ℝ (Fin (tri k) → ℝ) < Module.finrank ℝ (Fin (tri (k + 1)) → ℝ) := by
    rw [Module.finrank_fin_fun, Module.finrank_fin_fun, tri_succ]
    omega
  obtain ⟨x, hx, hx0⟩ := (Submodule.ne_bot_iff _).1 (LinearMap.ker_ne_bot_of_finrank_lt hlt (f := f))
  have hQ : Q x = combo k poly.centroid poly.diameter (tri (k + 1)) (fun j => if h : j < tri (k + 1) then x ⟨j, h⟩ else 0) := by
    rw [combo, ← Fin.sum_univ_eq_sum_range (fun j => C (if h : j < tri (k + 1) then x ⟨j, h⟩ else 0) * basisPoly k poly.centroid poly.diameter j)]
    simp only [Q, Fintype.linearCombination_apply, smul_eq_C_mul, Fin.is_lt, dite_true, Fin.eta]
  refine ⟨Q x, fun h0 => hx0 ?_, ?_, fun z hz => ?_⟩
  · rw [hQ] at h0
    funext i
    have := basisPoly_independent k poly.centroid poly.diameter hE.diameter (fun j => if h : j < tri (k + 1) then x ⟨j, h⟩ else 0) (by rw [num2_eq]; exact h0) i (by rw [num2_eq]; exact i.2)
    simpa using this
  · rw [hQ]
    exact combo_degree _ le_rfl
  · obtain ⟨y, hy⟩ := basisPoly_span k poly.centroid poly.diameter hE.diameter (show k - 1 ≤ k by omega) z hz
    rw [hkk] at hy
    have hdeg : (Q x).totalDegree ≤ k := by
      rw [hQ]
      exact combo_degree _ le_rfl
    have h1 : quadLin s.internal.points s.internal.weights (Q x * z) = 0 := by
      have hz' : z = combo k poly.centroid poly.diameter (tri k) y := hy
      rw [hz', quadLin_combo]
      refine Finset.sum_eq_zero fun i hi => ?_
      have := congrFun (LinearMap.mem_ker.1 hx) ⟨i, Finset.mem_range.1 hi⟩
      simp only [f, LinearMap.pi_apply, LinearMap.comp_apply, LinearMap.mulLeft_apply, Pi.zero_apply] at this
      rw [mul_comm (Q x), this]
      simp
    rw [hs.rules.integral _ ((totalDegree_mul _ _).trans (by omega))] at h1
    simpa only [ev2, map_mul] using h1

/-- C146: the mass matrix of every element is singular. -/
theorem C146_singular (hE : IsElement poly n V len dir nrm) (hT : IsTables k triangle edge ts ws w) (hlu : SolvesRegular lu) (hllt : SolvesPosDef llt) (hpos : 0 < poly.measure) :
    ∃ ref s, vemRef2D triangle edge k = .ok ref ∧ vemCreate2D lu llt ref poly = .ok s ∧ ∀ test : ParabolicTest ℝ, ∃ A M : DMat ℝ,
      parabolicLocal (vemCell2D ref poly s) test = .ok (A, M) ∧
      ∃ x : Nat → ℝ, (∃ i < n + n * (k - 1) + k * (k - 1) / 2, x i ≠ 0) ∧ ∀ i < n + n * (k - 1) + k * (k - 1) / 2, apply M x i = 0 := by
  obtain ⟨ref, s, hr, hc, hs, h⟩ := heat_local hE hT hlu hllt hpos
  obtain ⟨r1, s1, hr1, hc1, -, hcols, hex⟩ := C51_exact hE hT hlu hllt
  obtain rfl : r1 = ref := Except.ok.inj (hr1.symm.trans hr)
  obtain rfl : s1 = s := Except.ok.inj (hc1.symm.trans hc)
  refine ⟨r1, s1, hr, hc, fun test => ?_⟩
  obtain ⟨Φ, S, T, A, M, κmax, hL⟩ := h test
  obtain ⟨q, hq0, hq, ho⟩ := exists_orthogonal hE hT hs
  obtain ⟨x, hx⟩ := exists_dofs k poly n V dir ts hT.nodes fun p => eval ![p.1, p.2] q
  refine ⟨A, M, hL.run, x, ?_, fun i hi => ?_⟩
  · by_contra hno
    push Not at hno
    refine hq0 (ev2_ext fun p => ?_)
    have h1 := hex q hq x hx p
    have h2 : apply s1.piNabla x = fun _ => 0 := by
      rw [apply_eq hcols]
      funext i
      exact Finset.sum_eq_zero fun j hj => by rw [hno j (Finset.mem_range.1 hj), mul_zero]
    rw [h2] at h1
    simp only [polyOf, zero_mul, Finset.sum_const_zero] at h1
    simp only [ev2, map_zero]
    exact h1.symm
  · obtain ⟨z, hz, -, e⟩ := mass_integral hE hT hlu hllt hpos hr hc hs hL hq hx fun j => if j = i then 1 else 0
    rw [ho z hz] at e
    simpa [Finset.sum_ite_eq', hi] using e

-- C146: the first triangle of the mesh of two triangles, order 2; the seven DOFs of a polynomial of degree 2 that is not zero are in the kernel
example : ∃ lu : Solver ℝ, ∃ ref s, SolvesRegular lu ∧ SolvesPosDef lu ∧ vemCreate2D lu lu ref (patchPoly 0) = .ok s ∧ ∀ test : ParabolicTest ℝ, ∃ A M : DMat ℝ,
    parabolicLocal (vemCell2D ref (patchPoly 0) s) test = .ok (A, M) ∧ M.rows = 7 ∧ (∀ i j, M.ent i j = M.ent j i) ∧
    (∀ x : Nat → ℝ, 0 ≤ ∑ i ∈ Finset.range 7, x i * apply M x i) ∧ ∃ x : Nat → ℝ, (∃ i < 7, x i ≠ 0) ∧ ∀ i < 7, apply M x i = 0 := by
  obtain ⟨lu, h1, h2⟩ := exists_solvers
  have hE := patch_mesh.element 0 (show 0 < 2 by norm_num)
  have hm := patch_mesh.measure 0 (show 0 < 2 by norm_num)
  obtain ⟨ref, s, hr, hc, h⟩ := C146_form hE square_tables h1 h2 hm
  obtain ⟨ref', s', hr', hc', h'⟩ := C146_kernel hE square_tables h1 h2 hm
  obtain ⟨ref'', s'', hr'', hc'', h''⟩ := C146_singular hE square_tables h1 h2 hm
  obtain rfl : ref' = ref := Except.ok.inj (hr'.symm.trans hr)
  obtain rfl : s' = s := Except.ok.inj (hc'.symm.trans hc)
  obtain rfl : ref'' = ref' := Except.ok.inj (hr''.symm.trans hr)
  obtain rfl : s'' = s' := Except.ok.inj (hc''.symm.trans hc)
  refine ⟨lu, ref'', s'', h1, h2, hc, fun test => ?_⟩
  obtain ⟨A, M, hAM, -, -, h3, -, -, h4, -⟩ := h test
  obtain ⟨A', M', hAM', h5⟩ := h' test
  obtain ⟨A'', M'', hAM'', h6⟩ := h'' test
  obtain ⟨rfl, rfl⟩ := Prod.mk.inj (Except.ok.inj (hAM'.symm.trans hAM))
  obtain ⟨rfl, rfl⟩ := Prod.mk.inj (Except.ok.inj (hAM''.symm.trans hAM))
  exact ⟨A'', M'', hAM, h3, h4, fun x => (h5 x).1, h6⟩

end element

section steps
variable {k : Nat} {mesh : PlaneMesh ℝ} {poly : Nat → VemPolygon ℝ} {n : Nat → Nat} {len : Nat → Nat → ℝ} {dir : Nat → Nat → Bool} {nrm : Nat → Nat → ℝ × ℝ}
  {triangle : Nat → Rule (ℝ × ℝ) ℝ} {edge : Nat → Rule ℝ ℝ} {ts ws : List ℝ} {w : ℝ} {lu llt : Solver ℝ}
  {ref : VemRef2D ℝ} {boundary : Nat → Option BInfo} {info : MeshInfo} {data : DOFsData} {gauss : Nat → Rule ℝ ℝ} {test : ParabolicTest ℝ}

/-- C146: with the default `theta = 0` and no Dirichlet DOFs the matrix of the steps is singular as soon as a polynomial of degree `k` is orthogonal, on every cell, to those of
degree `k - 1`. -/
theorem C146_explicit (hM : IsPlaneMesh k mesh poly n len dir nrm) (hT : IsTables k triangle edge ts ws w) (hlu : SolvesRegular lu) (hllt : SolvesPosDef llt)
    (hr : vemRef2D triangle edge k = .ok ref) (hi : vemMeshInfo ref mesh.topo boundary = .ok info) (hdata : createDOFs 2 info mesh.topo = .ok data)
    (hov : totalRequested info 2 < 2 ^ 32) (hact : ∀ c < mesh.num2D, mesh.active2D c = true) (hnum : 0 < mesh.num2D) (hno : data.counters.strongs = 0) (dt : ℝ)
    {q : MvPolynomial (Fin 2) ℝ} (hq0 : q ≠ 0) (hq : q.totalDegree ≤ k)
    (ho : ∀ c < mesh.num2D, ∀ z : MvPolynomial (Fin 2) ℝ, z.totalDegree ≤ k - 1 → ∫ p in unionOf (poly c).tris, eval ![p.1, p.2] q * eval ![p.1, p.2] z = 0) :
    ∃ P, parabolicStatic data (vemSpaces lu llt ref poly) mesh test = .ok P ∧ ∃ x : Nat → ℝ, (∃ i < data.counters.dofs, x i ≠ 0) ∧
      ∀ i < data.counters.dofs, ∑ j ∈ Finset.range data.counters.dofs, entry (thetaMatrices dt 0 P).next i j * x j = 0 := by
  have H := handler_plane hT hr hi hdata hov
  obtain ⟨s, Φ, S, T, A, M, κmax, P, hH⟩ := heat_mesh hM hT hlu hllt hr H hact test
  obtain ⟨N, hN1, hN2⟩ := moments_ok hM hT hlu hllt hr fun p => eval ![p.1, p.2] q
  obtain ⟨v, hv, hvf, hvs, hvv⟩ := evaluate_ok hM hT hlu hllt hr H _ N hN1
  have hdof : ∀ c < mesh.num2D, IsDofVector k (poly c) (n c) (cellPoint mesh c) (dir c) ts (fun p => eval ![p.1, p.2] q) (onList (vemList k mesh.topo c) (valueOf data v.free v.strong)) := by
    intro c hc
    refine local_dofVector hM hT.nodes hc (hN2 q (by omega) (fun _ => rfl) c hc) fun j r hj => ?_
    rw [onList, hj, Option.elim_some, hvv c hc r (List.mem_of_getElem? hj)]
  have hs0 : v.strong = [] := List.length_eq_zero_iff.1 (hvs.trans hno)
  refine ⟨P, hH.static, fun i => v.free.getD i 0, ?_, fun i _ => ?_⟩
  · by_contra hz
    push Not at hz
    have hzero : ∀ r, valueOf data v.free v.strong r = 0 := by
      intro r
      unfold valueOf
      rw [hs0]
      split
      · rename_i j hj
        by_cases hlt : j < v.free.length
        · exact hz _ (hvf ▸ hlt)
        · simp [List.getD_eq_getElem?_getD, List.getElem?_eq_none (not_lt.1 hlt)]
      · simp
      · rfl
    obtain ⟨r1, s1, hr1, hc1, -, hcols, hex⟩ := C51_exact (hM.element 0 hnum) hT hlu hllt
    have h1 := hex q hq _ (hdof 0 hnum)
    refine hq0 (ev2_ext fun p => ?_)
    have h2 : apply s1.piNabla (onList (vemList k mesh.topo 0) (valueOf data v.free v.strong)) = fun _ => 0 := by
      rw [apply_eq hcols]
      funext i
      refine Finset.sum_eq_zero fun j _ => ?_
      have : onList (vemList k mesh.topo 0) (valueOf data v.free v.strong) j = 0 := by
        unfold onList
        cases (vemList k mesh.topo 0)[j]? with
        | none => rfl
        | some r => exact hzero r
      rw [this, mul_zero]
    have h3 := h1 p
    rw [h2] at h3
    simp only [polyOf, zero_mul, Finset.sum_const_zero] at h3
    simp only [ev2, map_zero]
    exact h3.symm
  · have hm := heat_mass hM hT hlu hllt hr H hH hq hv i
    have hz : heatLoad k data mesh s Φ (fun p => eval ![p.1, p.2] q) i = 0 := by
      rw [← hm, hH.rowsM _ _ hvf hvs]
      refine List.sum_eq_zero fun z hz => ?_
      obtain ⟨c, hc, rfl⟩ := List.mem_map.1 hz
      have hc' := (mem_cells.1 hc).1
      obtain ⟨z, hz, -, e⟩ := mass_integral (hM.element c hc') hT hlu hllt (hM.measure c hc') hr (hH.space c hc') (hH.good c hc') (hH.cell c hc') hq (hdof c hc')
        (onList (vemList k mesh.topo c) (rowTest data i))
      rw [hH.size c hc', e, ho c hc' z hz]
    rw [hz, heatRow, hs0, hvf] at hm
    simp only [List.length_nil, Finset.range_zero, Finset.sum_empty, add_zero] at hm
    refine Eq.trans (Finset.sum_congr rfl fun j _ => ?_) hm
    simp only [thetaMatrices, entry_append, entry_scale]
    ring

/-- C147: the method of the heat equation is exact, at every step and on every degree of freedom, when the solution is a polynomial of degree `k` in space and of degree 1 in time,
and of degree 2 in time for `theta = 1 / 2`. -/
theorem C147_patch (hM : IsPlaneMesh k mesh poly n len dir nrm) (hT : IsTables k triangle edge ts ws w) (hd : (0 :: 1 :: ts).Nodup) (hlu : SolvesRegular lu)
    (hllt : SolvesPosDef llt) (hr : vemRef2D triangle edge k = .ok ref) (hi : vemMeshInfo ref mesh.topo boundary = .ok info) (hdata : createDOFs 2 info mesh.topo = .ok data)
    (hov : totalRequested info 2 < 2 ^ 32) (hgl : (gauss (2 * k)).weights.length = (gauss (2 * k)).points.length)
    (hge : ExactOnSegment (2 * k) (gauss (2 * k)).points (gauss (2 * k)).weights) (hg01 : ∀ t ∈ (gauss (2 * k)).points, 0 ≤ t ∧ t ≤ 1)
    (hact : ∀ c < mesh.num2D, mesh.active2D c = true)
    (hcover : ∀ d ≤ 2, ∀ E < (mesh.topo.markers d).length, ∃ c ∈ mesh.cells, E ∈ entities mesh d c)
    (htypes : ∀ (E : Nat) (b : BInfo), (info.bInfo 1)[E]? = some b → b.type = .none ∨ b.type = .weak ∨ b.type = .strong)
    (hinner : ∀ (E : Nat) (b : BInfo), (info.bInfo 1)[E]? = some b → b.type = .none → signedCount mesh n dir E = 0)
    (hstrong : ∀ (E : Nat) (b : BInfo), (info.bInfo 1)[E]? = some b → b.type = .strong → bTypeOf info (0, (mesh.topo.cell1DVertices E).1) = some .strong ∧
      bTypeOf info (0, (mesh.topo.cell1DVertices E).2) = some .strong)
    (hg : ∀ d ≤ 2, ∀ (b : BInfo) (E : Nat), (info.bInfo d)[E]? = some b → b.type = .strong → d ≤ 1 ∧ ∃ c ∈ mesh.cells, E ∈ entities mesh d c)
    {solve : List (Nat × Nat × ℝ) → List (Nat × ℝ) → List ℝ} (hsolve : SolvesSystems data.counters.dofs solve) {κ : ℝ} (hκ : ∀ p, test.diffusion p = κ) (hκ0 : 0 < κ)
    {dt theta : ℝ} (hdt : 0 < dt) (hth : 0 < theta) {q₀ q₁ q₂ : MvPolynomial (Fin 2) ℝ} (h0 : q₀.totalDegree ≤ k) (h1 : q₁.totalDegree ≤ k) (h2 : q₂.totalDegree ≤ k)
    (horder : q₂ = 0 ∨ theta = 1 / 2)
    (hsrc : ∀ t p, test.source t p = eval ![p.1, p.2] (heatRate q₁ q₂ t)
      - κ * eval ![p.1, p.2] (pderiv 0 (pderiv 0 (heatAt q₀ q₁ q₂ t)) + pderiv 1 (pderiv 1 (heatAt q₀ q₁ q₂ t))))
    (hN : ∀ τ, ∀ c ∈ mesh.cells, ∀ e < n c, ∀ b : BInfo, (info.bInfo 1)[cellEdge mesh c e]? = some b → b.type = .weak → ∀ t, 0 ≤ t → t ≤ 1 →
      test.weak τ b.marker (edgePoint mesh (cellEdge mesh c e) t)
        = κ * (eval ![(edgePoint mesh (cellEdge mesh c e) t).1, (edgePoint mesh (cellEdge mesh c e) t).2] (pderiv 0 (heatAt q₀ q₁ q₂ τ)) * (nrm c e).1
          + eval ![(edgePoint mesh (cellEdge mesh c e) t).1, (edgePoint mesh (cellEdge mesh c e) t).2] (pderiv 1 (heatAt q₀ q₁ q₂ τ)) * (nrm c e).2))
    (hf : ∀ t, ∀ d ≤ 2, ∀ (b : BInfo) (E : Nat), (info.bInfo d)[E]? = some b → b.type = .strong → ∀ p : ℝ × ℝ, test.strong t b.marker p = eval ![p.1, p.2] (heatAt q₀ q₁ q₂ t))
    {first : ℝ} {rest : List ℝ} (hch : (first :: rest).IsChain fun a b => b = a + dt) (hini : ∀ p : ℝ × ℝ, test.initial p = eval ![p.1, p.2] (heatAt q₀ q₁ q₂ first)) :
    ∃ states, parabolicRun solve info data k gauss (fun c => (poly c).edges) (vemSpaces lu llt ref poly) mesh test dt theta (first :: rest) = .ok states ∧
      List.Forall₂ (fun t (st : ParabolicState ℝ) => ∃ v, evaluateOnDofs data k (vemSpaces lu llt ref poly) mesh (fun p => eval ![p.1, p.2] (heatAt q₀ q₁ q₂ t)) = .ok v ∧
        st.free = v.free ∧ st.strong = v.strong) (first :: rest) states := by
  have H := handler_plane hT hr hi hdata hov
  obtain ⟨s, Φ, S, T, A, M, κmax, P, hH⟩ := heat_mesh hM hT hlu hllt hr H hact test
  have hC : ∀ (a : ℝ) (r : MvPolynomial (Fin 2) ℝ), r.totalDegree ≤ k → (C a * r).totalDegree ≤ k := fun a r hr => (totalDegree_mul _ _).trans (by rw [totalDegree_C]; omega)
  refine heat_run hM hT hd hlu hllt hr hi hdata hov hgl hge hg01 hact htypes hinner hstrong hg hH hκ (U := heatAt q₀ q₁ q₂) (V := heatRate q₁ q₂)
    (fun t => (totalDegree_add _ _).trans (max_le ((totalDegree_add _ _).trans (max_le h0 (hC _ _ h1))) (hC _ _ h2))) hsrc hN hf hsolve
    (fun x => (step_definite hM hT hlu hllt hr H hH hκ hκ0 hcover (mul_pos hdt hth) x).2) ?_ hch hini
  intro a b hab p
  subst hab
  simp only [heatAt, heatRate, map_add, map_mul, eval_C]
  rcases horder with rfl | rfl
  · simp only [map_zero]
    ring
  · ring

/-- C148: the form of the matrix of the steps is positive definite as soon as `dt theta > 0`, whatever the boundary conditions; its two parts are symmetric. -/
theorem C148_definite (hM : IsPlaneMesh k mesh poly n len dir nrm) (hT : IsTables k triangle edge ts ws w) (hlu : SolvesRegular lu) (hllt : SolvesPosDef llt)
    (hr : vemRef2D triangle edge k = .ok ref) (hi : vemMeshInfo ref mesh.topo boundary = .ok info) (hdata : createDOFs 2 info mesh.topo = .ok data)
    (hov : totalRequested info 2 < 2 ^ 32) (hact : ∀ c < mesh.num2D, mesh.active2D c = true)
    (hcover : ∀ d ≤ 2, ∀ E < (mesh.topo.markers d).length, ∃ c ∈ mesh.cells, E ∈ entities mesh d c) {κ : ℝ} (hκ : ∀ p, test.diffusion p = κ) (hκ0 : 0 < κ)
    {dt theta : ℝ} (ha : 0 < dt * theta) :
    ∃ P, parabolicStatic data (vemSpaces lu llt ref poly) mesh test = .ok P ∧
      (∀ x y : Nat → ℝ, tripletForm P.globalA data.counters.dofs x y = tripletForm P.globalA data.counters.dofs y x ∧
        tripletForm P.globalM data.counters.dofs x y = tripletForm P.globalM data.counters.dofs y x) ∧
      (∀ x : Nat → ℝ, 0 ≤ tripletForm P.globalA data.counters.dofs x x ∧ 0 ≤ tripletForm P.globalM data.counters.dofs x x) ∧
      ∀ x : Nat → ℝ, (∃ i < data.counters.dofs, x i ≠ 0) → 0 < tripletForm (thetaMatrices dt theta P).next data.counters.dofs x x := by
  have H := handler_plane hT hr hi hdata hov
  obtain ⟨s, Φ, S, T, A, M, κmax, P, hH⟩ := heat_mesh hM hT hlu hllt hr H hact test
  refine ⟨P, hH.static, fun x y => ⟨stiff_symm H hH x y, mass_symm H hH x y⟩, fun x => ⟨stiff_nonneg hM hT hlu hllt hr H hH hκ hκ0 x, mass_nonneg hM hT hlu hllt hr H hH x⟩, ?_⟩
  rintro x ⟨i, hi, hx⟩
  obtain ⟨h1, h2⟩ := step_definite hM hT hlu hllt hr H hH hκ hκ0 hcover ha x
  exact lt_of_le_of_ne h1 fun h => hx (h2 h.symm i hi)

/-- C148: every step has exactly one solution. -/
theorem C148_unique (hM : IsPlaneMesh k mesh poly n len dir nrm) (hT : IsTables k triangle edge ts ws w) (hlu : SolvesRegular lu) (hllt : SolvesPosDef llt)
    (hr : vemRef2D triangle edge k = .ok ref) (hi : vemMeshInfo ref mesh.topo boundary = .ok info) (hdata : createDOFs 2 info mesh.topo = .ok data)
    (hov : totalRequested info 2 < 2 ^ 32) (hact : ∀ c < mesh.num2D, mesh.active2D c = true)
    (hcover : ∀ d ≤ 2, ∀ E < (mesh.topo.markers d).length, ∃ c ∈ mesh.cells, E ∈ entities mesh d c) {κ : ℝ} (hκ : ∀ p, test.diffusion p = κ) (hκ0 : 0 < κ)
    {dt theta : ℝ} (ha : 0 < dt * theta) :
    ∃ P, parabolicStatic data (vemSpaces lu llt ref poly) mesh test = .ok P ∧ ∀ (st : ParabolicState ℝ) (d : ParabolicData ℝ), ∃! x : List ℝ, x.length = data.counters.dofs ∧
      ∀ i < data.counters.dofs, ∑ j ∈ Finset.range data.counters.dofs, entry (thetaMatrices dt theta P).next i j * x.getD j 0
        = ventry (thetaRhs dt theta (thetaMatrices dt theta P) st d) i := by
  have H := handler_plane hT hr hi hdata hov
  obtain ⟨s, Φ, S, T, A, M, κmax, P, hH⟩ := heat_mesh hM hT hlu hllt hr H hact test
  have hdef := fun x => (step_definite hM hT hlu hllt hr H hH hκ hκ0 hcover ha x).2
  refine ⟨P, hH.static, fun st d => ?_⟩
  obtain ⟨solve, hs⟩ := exists_system_solver data.counters.dofs
  have hreg : ∀ x : Nat → ℝ, (∀ i < data.counters.dofs, ∑ j ∈ Finset.range data.counters.dofs, entry (thetaMatrices dt theta P).next i j * x j = 0) → ∀ i < data.counters.dofs, x i = 0 :=
    fun x h => hdef x (by
      unfold tripletForm
      exact Finset.sum_eq_zero fun i hi => by rw [h i (Finset.mem_range.1 hi), mul_zero])
  obtain ⟨h1, h2⟩ := hs (thetaMatrices dt theta P).next (thetaRhs dt theta (thetaMatrices dt theta P) st d) hreg
  exact ⟨_, ⟨h1, h2⟩, fun y hy => (solver_unique hs hdef _ hy.1 hy.2).symm⟩

end steps

end PolyDiM
