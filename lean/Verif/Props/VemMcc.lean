import Verif.Lemmas.VemMccExample
import Verif.Lemmas.VemMccValues
import Verif.Props.VemStab

/-!
# C96-C102: the mixed virtual element method in the plane

An element is a polygon with a triangulation (`IsElement`), the tables hold quadrature rules of sufficient degree (`IsMixedTables`); `svd` returns
right singular vectors, `sqrt` square roots, `llt` solutions of positive definite systems. All statements are about `mccCreate2D`, the model of
`VEM_MCC_2D_Velocity_LocalSpace::CreateLocalSpace`.
-/

namespace PolyDiM

open Spec MvPolynomial MeasureTheory

section
variable {k n : Nat} {V : Nat → ℝ × ℝ} {len : Nat → ℝ} {dir : Nat → Bool} {nrm : Nat → ℝ × ℝ} {poly : VemPolygon ℝ}
  {triangle : Nat → Rule (ℝ × ℝ) ℝ} {edge : Nat → Rule ℝ ℝ} {ts ws : List ℝ} {svd : DMat ℝ → DMat ℝ} {sqrt : ℝ → ℝ} {llt : Solver ℝ}

/-- C96: the first rows of coefficients are the gradients of the scaled monomials of degree 1 to `k + 1`, in the order of the monomials. -/
theorem C96_gradients (hE : IsElement poly n V len dir nrm) (hT : IsMixedTables k triangle edge ts ws) (hsvd : ∀ A, RightSingular A (svd A))
    (hsq : ∀ x, 0 ≤ x → sqrt x * sqrt x = x) (hllt : SolvesPosDef llt) :
    ∃ s, mccCreate2D svd sqrt llt (mccRef2D triangle edge k) poly = .ok s ∧ s.init.tNabla.rows = (k + 2) * (k + 3) / 2 - 1 ∧
      s.init.tNabla.cols = (k + 1) * (k + 2) ∧ ∀ a b, 0 < a + b → a + b ≤ k + 1 → ∀ p,
        fieldOf k poly.centroid poly.diameter (s.init.tNabla.ent (position a b - 1)) p = gradMonomial poly.centroid poly.diameter a b p := by
  obtain ⟨s, hs, hS⟩ := mccCreate_ok hE hT hsvd hsq hllt
  refine ⟨s, hs, ?_, ?_, ?_⟩
  · rw [hS.init.tk.nRows, ← tri_div (k + 1)]
  · rw [hS.init.tk.nCols, two_tri]
  · intro a b h0 hab p
    have hp : position a b < tri (k + 2) := position_lt.2 hab
    have hp0 : 0 < position a b := by
      by_contra hc
      have h1 : position a b < tri (0 + 1) := by
        rw [show tri (0 + 1) = 1 from rfl]
        omega
      have := position_lt.1 h1
      omega
    rw [field_ev2, hS.init.tk.nabla _ (by omega), hS.init.tk.nabla _ (by omega), Nat.sub_add_cancel hp0, grad_ev2 (k + 1) _ _ hab]

/-- C96: the last rows of coefficients are orthonormal and orthogonal to the ones of the gradients. -/
theorem C96_orthonormal (hE : IsElement poly n V len dir nrm) (hT : IsMixedTables k triangle edge ts ws) (hsvd : ∀ A, RightSingular A (svd A))
    (hsq : ∀ x, 0 ≤ x → sqrt x * sqrt x = x) (hllt : SolvesPosDef llt) :
    ∃ s, mccCreate2D svd sqrt llt (mccRef2D triangle edge k) poly = .ok s ∧ s.init.tPlus.rows = k * (k + 1) / 2 ∧ s.init.tPlus.cols = (k + 1) * (k + 2) ∧
      (∀ i < k * (k + 1) / 2, ∀ j < k * (k + 1) / 2, ∑ l ∈ Finset.range ((k + 1) * (k + 2)), s.init.tPlus.ent i l * s.init.tPlus.ent j l = if i = j then 1 else 0) ∧
      ∀ i < (k + 2) * (k + 3) / 2 - 1, ∀ j < k * (k + 1) / 2, ∑ l ∈ Finset.range ((k + 1) * (k + 2)), s.init.tNabla.ent i l * s.init.tPlus.ent j l = 0 := by
  obtain ⟨s, hs, hS⟩ := mccCreate_ok hE hT hsvd hsq hllt
  have h2 : (k + 1) * (k + 2) = 2 * tri (k + 1) := (two_tri (k + 1)).symm
  rw [tri_div', show (k + 2) * (k + 3) / 2 = tri (k + 2) from tri_div (k + 1), h2]
  exact ⟨s, hs, hS.init.tk.pRows, hS.init.tk.pCols, hS.init.tk.ortho, hS.init.tk.kern⟩

/-- C96: gradients and remaining fields are a basis of the vector polynomials of degree at most `k`: every one is a combination in exactly one way. -/
theorem C96_basis (hE : IsElement poly n V len dir nrm) (hT : IsMixedTables k triangle edge ts ws) (hsvd : ∀ A, RightSingular A (svd A))
    (hsq : ∀ x, 0 ≤ x → sqrt x * sqrt x = x) (hllt : SolvesPosDef llt) :
    ∃ s, mccCreate2D svd sqrt llt (mccRef2D triangle edge k) poly = .ok s ∧
      (∀ q : MvPolynomial (Fin 2) ℝ × MvPolynomial (Fin 2) ℝ, q.1.totalDegree ≤ k → q.2.totalDegree ≤ k →
        ∃ y, splitField k poly.centroid poly.diameter s.init.tPlus.ent y = polyField q) ∧
      (∀ y, ∃ q : MvPolynomial (Fin 2) ℝ × MvPolynomial (Fin 2) ℝ, q.1.totalDegree ≤ k ∧ q.2.totalDegree ≤ k ∧
        splitField k poly.centroid poly.diameter s.init.tPlus.ent y = polyField q) ∧
      ∀ y z, splitField k poly.centroid poly.diameter s.init.tPlus.ent y = splitField k poly.centroid poly.diameter s.init.tPlus.ent z →
        ∀ j < (k + 1) * (k + 2), y j = z j := by
  obtain ⟨s, hs, hS⟩ := mccCreate_ok hE hT hsvd hsq hllt
  have h2 : (k + 1) * (k + 2) = 2 * tri (k + 1) := (two_tri (k + 1)).symm
  refine ⟨s, hs, ?_, ?_, ?_⟩
  · rintro ⟨q1, q2⟩ h1 h2
    obtain ⟨y, hy⟩ := fld_span hS.init.tk hE.diameter ![q1, q2] (fun d => by fin_cases d; exacts [h1, h2])
    refine ⟨y, funext fun p => ?_⟩
    rw [split_ev2, polyField, gsum, gsum, ← hy 0, ← hy 1]
    rfl
  · intro y
    refine ⟨(gsum k poly.centroid poly.diameter s.init.tPlus y 0, gsum k poly.centroid poly.diameter s.init.tPlus y 1), gsum_degree hS.init.tk y 0, gsum_degree hS.init.tk y 1, funext fun p => ?_⟩
    rw [split_ev2]
    rfl
  · intro y z hyz
    rw [h2]
    have key : ∀ d : Fin 2, gsum k poly.centroid poly.diameter s.init.tPlus y d = gsum k poly.centroid poly.diameter s.init.tPlus z d := by
      intro d
      refine ev2_ext fun p => ?_
      have := congrFun hyz p
      rw [split_ev2, split_ev2, Prod.mk.injEq] at this
      fin_cases d
      exacts [this.1, this.2]
    intro j hj
    have := fld_independent hS.init.tk hE.diameter (fun j => y j - z j) (fun d => by
      have hd := key d
      rw [gsum, gsum, ← sub_eq_zero, ← Finset.sum_sub_distrib] at hd
      rw [← hd]
      exact Finset.sum_congr rfl fun j _ => by rw [C_sub, sub_mul]) j hj
    linarith

/-- C97: for every field with polynomial normal components of degree at most `k` on the edges, the polynomial with the coefficients `V v` is the
`L²` projection of its divergence: tested with the monomials of degree at most `k` it gives what integration by parts says. -/
theorem C97_divergence (hE : IsElement poly n V len dir nrm) (hT : IsMixedTables k triangle edge ts ws) (hsvd : ∀ A, RightSingular A (svd A))
    (hsq : ∀ x, 0 ≤ x → sqrt x * sqrt x = x) (hllt : SolvesPosDef llt) :
    ∃ s, mccCreate2D svd sqrt llt (mccRef2D triangle edge k) poly = .ok s ∧ ∀ u flux v, IsMixedField k poly n u flux →
      IsFluxDofs k poly n dir ts s.init.tPlus.ent u flux v → HasWeakDivergence k poly n V len u flux (polyOf k poly.centroid poly.diameter (apply s.V v)) := by
  obtain ⟨s, hs, hS⟩ := mccCreate_ok hE hT hsvd hsq hllt
  exact ⟨s, hs, fun u flux v hF hv => mdivergence hE hT hS hF hv⟩

/-- C97: where the divergence of the field is a polynomial of degree at most `k`, it is the polynomial with the coefficients `V v`. -/
theorem C97_exact (hE : IsElement poly n V len dir nrm) (hT : IsMixedTables k triangle edge ts ws) (hsvd : ∀ A, RightSingular A (svd A))
    (hsq : ∀ x, 0 ≤ x → sqrt x * sqrt x = x) (hllt : SolvesPosDef llt) :
    ∃ s, mccCreate2D svd sqrt llt (mccRef2D triangle edge k) poly = .ok s ∧ ∀ u flux v, IsMixedField k poly n u flux →
      IsFluxDofs k poly n dir ts s.init.tPlus.ent u flux v → ∀ P : MvPolynomial (Fin 2) ℝ, P.totalDegree ≤ k →
      HasWeakDivergence k poly n V len u flux (fun p => eval ![p.1, p.2] P) → ∀ p, polyOf k poly.centroid poly.diameter (apply s.V v) p = eval ![p.1, p.2] P := by
  obtain ⟨s, hs, hS⟩ := mccCreate_ok hE hT hsvd hsq hllt
  exact ⟨s, hs, fun u flux v hF hv P hP hd p => congrFun (mdivergence_eq hE hT hS hF hv hP hd) p⟩

/-- C97: for a vector polynomial of degree at most `k` it is its divergence. -/
theorem C97_polynomial (hE : IsElement poly n V len dir nrm) (hT : IsMixedTables k triangle edge ts ws) (hsvd : ∀ A, RightSingular A (svd A))
    (hsq : ∀ x, 0 ≤ x → sqrt x * sqrt x = x) (hllt : SolvesPosDef llt) :
    ∃ s, mccCreate2D svd sqrt llt (mccRef2D triangle edge k) poly = .ok s ∧ ∀ q : MvPolynomial (Fin 2) ℝ × MvPolynomial (Fin 2) ℝ,
      q.1.totalDegree ≤ k → q.2.totalDegree ≤ k → ∀ flux, IsNormalTrace n V nrm (polyField q) flux → ∀ v,
      IsFluxDofs k poly n dir ts s.init.tPlus.ent (polyField q) flux v →
      ∀ p, polyOf k poly.centroid poly.diameter (apply s.V v) p = eval ![p.1, p.2] (pderiv 0 q.1 + pderiv 1 q.2) := by
  obtain ⟨s, hs, hS⟩ := mccCreate_ok hE hT hsvd hsq hllt
  refine ⟨s, hs, ?_⟩
  rintro ⟨q1, q2⟩ h1 h2 flux hn v hv p
  have hq : ∀ d, ((![q1, q2] : Fin 2 → _) d).totalDegree ≤ k := fun d => by fin_cases d; exacts [h1, h2]
  have hd := poly_divergence hE hS hq (flux := flux) hn
  exact congrFun (mdivergence_eq hE hT hS (poly_field (poly := poly) ![q1, q2] hq hn) hv (div_degree hq) fun a b hab => hd a b (by omega)) p

/-- C98: for every field with polynomial normal components of degree at most `k` on the edges and polynomial divergence of degree at most `k`, the
vector polynomial with the coefficients `Pi0k v` is the `L²` projection of the field onto the vector polynomials of degree at most `k`. -/
theorem C98_projection (hE : IsElement poly n V len dir nrm) (hT : IsMixedTables k triangle edge ts ws) (hsvd : ∀ A, RightSingular A (svd A))
    (hsq : ∀ x, 0 ≤ x → sqrt x * sqrt x = x) (hllt : SolvesPosDef llt) :
    ∃ s, mccCreate2D svd sqrt llt (mccRef2D triangle edge k) poly = .ok s ∧ ∀ u flux v, IsMixedField k poly n u flux →
      IsFluxDofs k poly n dir ts s.init.tPlus.ent u flux v → ∀ P : MvPolynomial (Fin 2) ℝ, P.totalDegree ≤ k →
      HasWeakDivergence (k + 1) poly n V len u flux (fun p => eval ![p.1, p.2] P) → ∀ q : MvPolynomial (Fin 2) ℝ × MvPolynomial (Fin 2) ℝ,
      q.1.totalDegree ≤ k → q.2.totalDegree ≤ k →
      ∫ p in unionOf poly.tris, dot2 (polyField q p) (splitField k poly.centroid poly.diameter s.init.tPlus.ent (apply s.pi0k v) p)
        = ∫ p in unionOf poly.tris, dot2 (polyField q p) (u p) := by
  obtain ⟨s, hs, hS⟩ := mccCreate_ok hE hT hsvd hsq hllt
  refine ⟨s, hs, ?_⟩
  rintro u flux v hF hv P hP hd ⟨q1, q2⟩ h1 h2
  have hq : ∀ d, ((![q1, q2] : Fin 2 → _) d).totalDegree ≤ k := fun d => by fin_cases d; exacts [h1, h2]
  have he := mdivergence_eq hE hT hS hF hv hP (fun a b hab => hd a b (by omega))
  exact mprojection hE hT hS hF hv (by rw [he]; exact hd) hq

/-- C98: the projection leaves the vector polynomials of degree at most `k` unchanged. -/
theorem C98_exact (hE : IsElement poly n V len dir nrm) (hT : IsMixedTables k triangle edge ts ws) (hsvd : ∀ A, RightSingular A (svd A))
    (hsq : ∀ x, 0 ≤ x → sqrt x * sqrt x = x) (hllt : SolvesPosDef llt) :
    ∃ s, mccCreate2D svd sqrt llt (mccRef2D triangle edge k) poly = .ok s ∧ ∀ q : MvPolynomial (Fin 2) ℝ × MvPolynomial (Fin 2) ℝ,
      q.1.totalDegree ≤ k → q.2.totalDegree ≤ k → ∀ flux, IsNormalTrace n V nrm (polyField q) flux → ∀ v,
      IsFluxDofs k poly n dir ts s.init.tPlus.ent (polyField q) flux v →
      ∀ p, splitField k poly.centroid poly.diameter s.init.tPlus.ent (apply s.pi0k v) p = polyField q p := by
  obtain ⟨s, hs, hS⟩ := mccCreate_ok hE hT hsvd hsq hllt
  refine ⟨s, hs, ?_⟩
  rintro ⟨q1, q2⟩ h1 h2 flux hn v hv p
  obtain ⟨y, hy⟩ := fld_span hS.init.tk hE.diameter ![q1, q2] (fun d => by fin_cases d; exacts [h1, h2])
  have e : splitField k poly.centroid poly.diameter s.init.tPlus.ent y = polyField (q1, q2) := by
    funext p
    rw [split_ev2, polyField, gsum, gsum, ← hy 0, ← hy 1]
    rfl
  rw [← e] at hn hv ⊢
  have := mP_poly hE hT hS hn hv
  have hg : ∀ d, gsum k poly.centroid poly.diameter s.init.tPlus (apply s.pi0k v) d = gsum k poly.centroid poly.diameter s.init.tPlus y d :=
    fun d => Finset.sum_congr rfl fun j hj => by rw [this j (Finset.mem_range.1 hj)]
  rw [split_ev2, split_ev2, hg, hg]

/-- C99: `D y` holds the DOFs of the vector polynomial with coefficients `y`. -/
theorem C99_dofs (hE : IsElement poly n V len dir nrm) (hT : IsMixedTables k triangle edge ts ws) (hsvd : ∀ A, RightSingular A (svd A))
    (hsq : ∀ x, 0 ≤ x → sqrt x * sqrt x = x) (hllt : SolvesPosDef llt) :
    ∃ s, mccCreate2D svd sqrt llt (mccRef2D triangle edge k) poly = .ok s ∧ s.D.rows = n * (k + 1) + k * (k + 2) ∧ s.D.cols = (k + 1) * (k + 2) ∧ ∀ y flux,
      IsNormalTrace n V nrm (splitField k poly.centroid poly.diameter s.init.tPlus.ent y) flux →
      IsFluxDofs k poly n dir ts s.init.tPlus.ent (splitField k poly.centroid poly.diameter s.init.tPlus.ent y) flux (apply s.D y) := by
  obtain ⟨s, hs, hS⟩ := mccCreate_ok hE hT hsvd hsq hllt
  exact ⟨s, hs, hS.dRows, hS.dCols.trans (two_tri (k + 1)), fun y flux hn => mD_dofs hS y hn⟩

/-- C99: `Pi0k D` is the identity. -/
theorem C99_left_inverse (hE : IsElement poly n V len dir nrm) (hT : IsMixedTables k triangle edge ts ws) (hsvd : ∀ A, RightSingular A (svd A))
    (hsq : ∀ x, 0 ≤ x → sqrt x * sqrt x = x) (hllt : SolvesPosDef llt) :
    ∃ s, mccCreate2D svd sqrt llt (mccRef2D triangle edge k) poly = .ok s ∧ s.pi0k.rows = (k + 1) * (k + 2) ∧ s.pi0k.cols = n * (k + 1) + k * (k + 2) ∧
      ∀ i < (k + 1) * (k + 2), ∀ j < (k + 1) * (k + 2), ∑ b ∈ Finset.range (n * (k + 1) + k * (k + 2)), s.pi0k.ent i b * s.D.ent b j = if i = j then 1 else 0 := by
  obtain ⟨s, hs, hS⟩ := mccCreate_ok hE hT hsvd hsq hllt
  have h2 : (k + 1) * (k + 2) = 2 * tri (k + 1) := (two_tri (k + 1)).symm
  refine ⟨s, hs, (hS.pSol.1.trans hS.init.gCols).trans h2.symm, hS.pSol.2.1.trans hS.bCols, ?_⟩
  intro i hi j hj
  rw [h2] at hi hj
  have := mP_mD hE hT hS (fun l => if l = j then 1 else 0) i hi
  simp only [apply, hS.dCols, hS.pSol.2.1, hS.bCols, mul_ite, mul_one, mul_zero, Finset.sum_ite_eq', Finset.mem_range, hj, if_true] at this
  exact this

/-- C100: the stabilization is symmetric and positive semidefinite. -/
theorem C100_form (hE : IsElement poly n V len dir nrm) (hT : IsMixedTables k triangle edge ts ws) (hsvd : ∀ A, RightSingular A (svd A))
    (hsq : ∀ x, 0 ≤ x → sqrt x * sqrt x = x) (hllt : SolvesPosDef llt) (hm : 0 < poly.measure) :
    ∃ s S, mccCreate2D svd sqrt llt (mccRef2D triangle edge k) poly = .ok s ∧ mccStabilization poly.measure s = .ok S ∧
      S.rows = n * (k + 1) + k * (k + 2) ∧ S.cols = n * (k + 1) + k * (k + 2) ∧ (∀ i j, S.ent i j = S.ent j i) ∧
      ∀ x : Nat → ℝ, 0 ≤ ∑ i ∈ Finset.range (n * (k + 1) + k * (k + 2)), x i * ∑ j ∈ Finset.range (n * (k + 1) + k * (k + 2)), S.ent i j * x j := by
  obtain ⟨s, hs, hS⟩ := mccCreate_ok hE hT hsvd hsq hllt
  have hp : s.pi0k = ⟨2 * tri (k + 1), n * (k + 1) + k * (k + 2), s.pi0k.ent⟩ := by rw [← hS.pSol.1.trans hS.init.gCols, ← hS.pSol.2.1.trans hS.bCols]
  have hD : s.D = ⟨n * (k + 1) + k * (k + 2), 2 * tri (k + 1), s.D.ent⟩ := by rw [← hS.dRows, ← hS.dCols]
  have e : mccStabilization poly.measure s = dofiDofi s.pi0k poly.measure s.D := rfl
  obtain ⟨S, h1, h2, h3, h4, h5⟩ := C50_dofi_form (2 * tri (k + 1)) (n * (k + 1) + k * (k + 2)) s.pi0k.ent s.D.ent poly.measure
  obtain ⟨S', h1', h6⟩ := C50_dofi_psd (2 * tri (k + 1)) (n * (k + 1) + k * (k + 2)) s.pi0k.ent s.D.ent poly.measure hm.le
  rw [h1, Except.ok.injEq] at h1'
  subst h1'
  exact ⟨s, S, hs, by rw [e, hp, hD]; exact h1, h2, h3, h4, h6⟩

/-- C100: the stabilization vanishes on the DOFs of the vector polynomials of degree at most `k`. -/
theorem C100_polynomials (hE : IsElement poly n V len dir nrm) (hT : IsMixedTables k triangle edge ts ws) (hsvd : ∀ A, RightSingular A (svd A))
    (hsq : ∀ x, 0 ≤ x → sqrt x * sqrt x = x) (hllt : SolvesPosDef llt) :
    ∃ s S, mccCreate2D svd sqrt llt (mccRef2D triangle edge k) poly = .ok s ∧ mccStabilization poly.measure s = .ok S ∧
      ∀ q : MvPolynomial (Fin 2) ℝ × MvPolynomial (Fin 2) ℝ, q.1.totalDegree ≤ k → q.2.totalDegree ≤ k → ∀ flux, IsNormalTrace n V nrm (polyField q) flux → ∀ v,
      IsFluxDofs k poly n dir ts s.init.tPlus.ent (polyField q) flux v →
      ∀ i < n * (k + 1) + k * (k + 2), ∑ j ∈ Finset.range (n * (k + 1) + k * (k + 2)), S.ent i j * v j = 0 := by
  obtain ⟨s, hs, hS⟩ := mccCreate_ok hE hT hsvd hsq hllt
  have hp : s.pi0k = ⟨2 * tri (k + 1), n * (k + 1) + k * (k + 2), s.pi0k.ent⟩ := by rw [← hS.pSol.1.trans hS.init.gCols, ← hS.pSol.2.1.trans hS.bCols]
  have hD : s.D = ⟨n * (k + 1) + k * (k + 2), 2 * tri (k + 1), s.D.ent⟩ := by rw [← hS.dRows, ← hS.dCols]
  have e : mccStabilization poly.measure s = dofiDofi s.pi0k poly.measure s.D := rfl
  obtain ⟨S, h1, h2, h3, h4, h5⟩ := C50_dofi_form (2 * tri (k + 1)) (n * (k + 1) + k * (k + 2)) s.pi0k.ent s.D.ent poly.measure
  refine ⟨s, S, hs, by rw [e, hp, hD]; exact h1, ?_⟩
  rintro ⟨q1, q2⟩ hq1 hq2 flux hn v hv
  obtain ⟨y, hy⟩ := fld_span hS.init.tk hE.diameter ![q1, q2] (fun d => by fin_cases d; exacts [hq1, hq2])
  have ef : splitField k poly.centroid poly.diameter s.init.tPlus.ent y = polyField (q1, q2) := by
    funext p
    rw [split_ev2, polyField, gsum, gsum, ← hy 0, ← hy 1]
    rfl
  rw [← ef] at hn hv
  have hvD : ∀ b < n * (k + 1) + k * (k + 2), v b = apply s.D y b := by
    have hv' := mD_dofs hS y hn
    intro b hb
    by_cases hb1 : b < n * (k + 1)
    · have he : b / (k + 1) < n := Nat.div_lt_of_lt_mul (by rwa [mul_comm])
      have hi : b % (k + 1) < ts.length := by rw [hT.nodes]; exact Nat.mod_lt _ (by omega)
      have hsum : b / (k + 1) * (k + 1) + b % (k + 1) = b := Nat.div_add_mod' b (k + 1)
      have a1 := hv.edge _ he _ _ (List.getElem?_eq_getElem hi)
      have a2 := hv'.edge _ he _ _ (List.getElem?_eq_getElem hi)
      rw [hsum] at a1 a2
      rw [a1, a2]
    · have hi' := mcc_internal k
      by_cases hb2 : b < n * (k + 1) + (tri (k + 1) - 1)
      · obtain ⟨a, c, hac, hpos⟩ := exists_position (m := k) (l := b - n * (k + 1) + 1) (by omega)
        have h0 : 0 < a + c := by
          by_contra hc
          obtain rfl : a = 0 := by omega
          obtain rfl : c = 0 := by omega
          rw [show position 0 0 = 0 from rfl] at hpos
          omega
        have a1 := hv.nabla a c h0 hac
        have a2 := hv'.nabla a c h0 hac
        rw [hpos, show n * (k + 1) + (b - n * (k + 1) + 1 - 1) = b by omega] at a1 a2
        rw [a1, a2]
      · have a1 := hv.plus (b - (n * (k + 1) + (tri (k + 1) - 1))) (by rw [tri_div']; omega)
        have a2 := hv'.plus (b - (n * (k + 1) + (tri (k + 1) - 1))) (by rw [tri_div']; omega)
        rw [tri_div, Nat.add_sub_cancel' (by omega)] at a1 a2
        rw [a1, a2]
  obtain ⟨S', h1', h6⟩ := C50_dofi_polynomials (2 * tri (k + 1)) (n * (k + 1) + k * (k + 2)) s.pi0k.ent s.D.ent poly.measure y (by
    intro l hl
    have := mP_mD hE hT hS y l hl
    simp only [apply, hS.dCols, hS.pSol.2.1, hS.bCols] at this
    exact this)
  rw [h1, Except.ok.injEq] at h1'
  subst h1'
  intro i hi
  rw [← h6 i hi]
  refine Finset.sum_congr rfl fun j hj => ?_
  rw [hvD j (Finset.mem_range.1 hj), apply, hS.dCols]

/-- C100: mass matrix of the projections plus stabilization is positive definite. -/
theorem C100_definite (hE : IsElement poly n V len dir nrm) (hT : IsMixedTables k triangle edge ts ws) (hsvd : ∀ A, RightSingular A (svd A))
    (hsq : ∀ x, 0 ≤ x → sqrt x * sqrt x = x) (hllt : SolvesPosDef llt) (hm : 0 < poly.measure) :
    ∃ s S, mccCreate2D svd sqrt llt (mccRef2D triangle edge k) poly = .ok s ∧ mccStabilization poly.measure s = .ok S ∧
      ∀ (x : Nat → ℝ) (c : ℝ), 0 < c → (∃ i < n * (k + 1) + k * (k + 2), x i ≠ 0) →
        0 < (∫ p in unionOf poly.tris, dot2 (splitField k poly.centroid poly.diameter s.init.tPlus.ent (apply s.pi0k x) p)
            (splitField k poly.centroid poly.diameter s.init.tPlus.ent (apply s.pi0k x) p))
          + c * ∑ i ∈ Finset.range (n * (k + 1) + k * (k + 2)), x i * ∑ j ∈ Finset.range (n * (k + 1) + k * (k + 2)), S.ent i j * x j := by
  obtain ⟨s, hs, hS⟩ := mccCreate_ok hE hT hsvd hsq hllt
  have hp : s.pi0k = ⟨2 * tri (k + 1), n * (k + 1) + k * (k + 2), s.pi0k.ent⟩ := by rw [← hS.pSol.1.trans hS.init.gCols, ← hS.pSol.2.1.trans hS.bCols]
  have hD : s.D = ⟨n * (k + 1) + k * (k + 2), 2 * tri (k + 1), s.D.ent⟩ := by rw [← hS.dRows, ← hS.dCols]
  have e : mccStabilization poly.measure s = dofiDofi s.pi0k poly.measure s.D := rfl
  obtain ⟨S, h1, h2, h3, h4, h5⟩ := C50_dofi_form (2 * tri (k + 1)) (n * (k + 1) + k * (k + 2)) s.pi0k.ent s.D.ent poly.measure
  refine ⟨s, S, hs, by rw [e, hp, hD]; exact h1, ?_⟩
  rintro x c hc ⟨i, hi, hx⟩
  have hdeg := gsum_degree hS.init.tk (apply s.pi0k x)
  have hI : (∫ p in unionOf poly.tris, dot2 (splitField k poly.centroid poly.diameter s.init.tPlus.ent (apply s.pi0k x) p)
      (splitField k poly.centroid poly.diameter s.init.tPlus.ent (apply s.pi0k x) p))
      = ∑ d : Fin 2, quadLin s.internal.points s.internal.weights (gsum k poly.centroid poly.diameter s.init.tPlus (apply s.pi0k x) d * gsum k poly.centroid poly.diameter s.init.tPlus (apply s.pi0k x) d) := by
    rw [← int_dot hS hdeg hdeg]
    congr 1
    funext p
    rw [split_ev2]
  have hnn : 0 ≤ ∑ d : Fin 2, quadLin s.internal.points s.internal.weights (gsum k poly.centroid poly.diameter s.init.tPlus (apply s.pi0k x) d * gsum k poly.centroid poly.diameter s.init.tPlus (apply s.pi0k x) d) :=
    Finset.sum_nonneg fun d _ => mquad_nonneg (poly := poly) hS.rules _ ((hdeg d).trans (by omega))
  have hstab : 0 ≤ c * ∑ i ∈ Finset.range (n * (k + 1) + k * (k + 2)), x i * ∑ j ∈ Finset.range (n * (k + 1) + k * (k + 2)), S.ent i j * x j := by
    rw [h5]
    exact mul_nonneg hc.le (mul_nonneg hm.le (Finset.sum_nonneg fun _ _ => mul_self_nonneg _))
  rw [hI]
  by_contra hcon
  have h0 : ∀ j < 2 * tri (k + 1), apply s.pi0k x j = 0 := mG_zero hE hS.rules hE.diameter hS.init _ (by linarith)
  have hz : c * ∑ i ∈ Finset.range (n * (k + 1) + k * (k + 2)), x i * ∑ j ∈ Finset.range (n * (k + 1) + k * (k + 2)), S.ent i j * x j = 0 := by linarith
  rw [h5] at hz
  have hz2 := (mul_eq_zero.1 ((mul_eq_zero.1 hz).resolve_left hc.ne')).resolve_left hm.ne'
  have hz3 := (Finset.sum_eq_zero_iff_of_nonneg fun _ _ => mul_self_nonneg _).1 hz2 i (Finset.mem_range.2 hi)
  have h0' : ∀ l ∈ Finset.range (2 * tri (k + 1)), s.D.ent i l * ∑ j ∈ Finset.range (n * (k + 1) + k * (k + 2)), s.pi0k.ent l j * x j = 0 := by
    intro l hl
    have := h0 l (Finset.mem_range.1 hl)
    rw [apply, hS.pSol.2.1, hS.bCols] at this
    rw [this, mul_zero]
  rw [Finset.sum_eq_zero h0', zero_sub, neg_mul_neg, mul_self_eq_zero] at hz3
  exact hx hz3

/-- C101: at every quadrature point of the cell, the values of the basis functions combined with a vector of DOFs give the projected field. -/
theorem C101_values (hE : IsElement poly n V len dir nrm) (hT : IsMixedTables k triangle edge ts ws) (hsvd : ∀ A, RightSingular A (svd A))
    (hsq : ∀ x, 0 ≤ x → sqrt x * sqrt x = x) (hllt : SolvesPosDef llt) :
    ∃ s X Y, mccCreate2D svd sqrt llt (mccRef2D triangle edge k) poly = .ok s ∧ mccValues s = .ok [X, Y] ∧
      X.rows = s.internal.points.length ∧ Y.rows = s.internal.points.length ∧ X.cols = n * (k + 1) + k * (k + 2) ∧ Y.cols = n * (k + 1) + k * (k + 2) ∧
      ∀ (v : Nat → ℝ) (i : Nat) (p : ℝ × ℝ), s.internal.points[i]? = some p →
        (apply X v i, apply Y v i) = splitField k poly.centroid poly.diameter s.init.tPlus.ent (apply s.pi0k v) p := by
  obtain ⟨s, hs, hS⟩ := mccCreate_ok hE hT hsvd hsq hllt
  obtain ⟨X, Y, h⟩ := mccValues_ok hS
  exact ⟨s, X, Y, hs, h⟩

/-- C101: the same at given points. -/
theorem C101_values_at (hE : IsElement poly n V len dir nrm) (hT : IsMixedTables k triangle edge ts ws) (hsvd : ∀ A, RightSingular A (svd A))
    (hsq : ∀ x, 0 ≤ x → sqrt x * sqrt x = x) (hllt : SolvesPosDef llt) :
    ∃ s, mccCreate2D svd sqrt llt (mccRef2D triangle edge k) poly = .ok s ∧ ∀ points : List (ℝ × ℝ), ∃ X Y,
      mccValuesAt (mccRef2D triangle edge k) poly s points = .ok [X, Y] ∧
      X.rows = points.length ∧ Y.rows = points.length ∧ X.cols = n * (k + 1) + k * (k + 2) ∧ Y.cols = n * (k + 1) + k * (k + 2) ∧
      ∀ (v : Nat → ℝ) (i : Nat) (p : ℝ × ℝ), points[i]? = some p →
        (apply X v i, apply Y v i) = splitField k poly.centroid poly.diameter s.init.tPlus.ent (apply s.pi0k v) p := by
  obtain ⟨s, hs, hS⟩ := mccCreate_ok hE hT hsvd hsq hllt
  exact ⟨s, hs, fun points => mccValuesAt_ok hT hS points⟩

/-- C101: at every quadrature point of the cell, the values of the divergences combined with a vector of DOFs give the polynomial of C97. -/
theorem C101_divergence (hE : IsElement poly n V len dir nrm) (hT : IsMixedTables k triangle edge ts ws) (hsvd : ∀ A, RightSingular A (svd A))
    (hsq : ∀ x, 0 ≤ x → sqrt x * sqrt x = x) (hllt : SolvesPosDef llt) :
    ∃ s X, mccCreate2D svd sqrt llt (mccRef2D triangle edge k) poly = .ok s ∧ mccDivergenceValues s = .ok X ∧
      X.rows = s.internal.points.length ∧ X.cols = n * (k + 1) + k * (k + 2) ∧
      ∀ (v : Nat → ℝ) (i : Nat) (p : ℝ × ℝ), s.internal.points[i]? = some p → apply X v i = polyOf k poly.centroid poly.diameter (apply s.V v) p := by
  obtain ⟨s, hs, hS⟩ := mccCreate_ok hE hT hsvd hsq hllt
  obtain ⟨X, h⟩ := mccDivergenceValues_ok hS
  exact ⟨s, X, hs, h⟩

/-- C101: the pressure space as built by `LocalSpace_MCC_2D`: the basis functions are the scaled monomials of degree at most `k`, at the quadrature
points of the velocity and at given points, and `Hmatrix` is their mass matrix. -/
theorem C101_pressure (hE : IsElement poly n V len dir nrm) (hT : IsMixedTables k triangle edge ts ws) (hsvd : ∀ A, RightSingular A (svd A))
    (hsq : ∀ x, 0 ≤ x → sqrt x * sqrt x = x) (hllt : SolvesPosDef llt) :
    ∃ s p X, mccLocalSpace svd sqrt llt triangle edge k poly = .ok (s, p) ∧ mccCreate2D svd sqrt llt (mccRef2D triangle edge k) poly = .ok s ∧
      p.numBasis = (k + 1) * (k + 2) / 2 ∧ mccPressureValues p = .ok X ∧ X.rows = s.internal.points.length ∧ X.cols = (k + 1) * (k + 2) / 2 ∧
      (∀ i x, s.internal.points[i]? = some x → ∀ a b, a + b ≤ k → X.ent i (position a b) = scaledMonomial poly.centroid poly.diameter a b x) ∧
      (∀ points : List (ℝ × ℝ), ∃ Y, mccPressureValuesAt poly p points = .ok Y ∧ Y.rows = points.length ∧ Y.cols = (k + 1) * (k + 2) / 2 ∧
        ∀ i x, points[i]? = some x → ∀ a b, a + b ≤ k → Y.ent i (position a b) = scaledMonomial poly.centroid poly.diameter a b x) ∧
      ∀ a b c d, a + b ≤ k → c + d ≤ k → p.H.ent (position a b) (position c d) =
        ∫ x in unionOf poly.tris, scaledMonomial poly.centroid poly.diameter a b x * scaledMonomial poly.centroid poly.diameter c d x := by
  obtain ⟨s, hs, hS⟩ := mccCreate_ok hE hT hsvd hsq hllt
  obtain ⟨p, hp, p1, p2, p3, p4, p5, p6, p7, p8, p9⟩ := mccPressure_ok (sqrt := sqrt) hE hT hsq
  have hint : p.internal = s.internal := by
    unfold mccCreate2D at hs
    rw [mccRef_ok hT] at hs
    dsimp only at hs
    rw [p5, except_ok_bind] at hs
    cases hb : edgesQuad poly.edges ⟨ts, ws⟩ with
    | error f => rw [hb] at hs; exact absurd hs (by rintro ⟨⟩)
    | ok b =>
      rw [hb, except_ok_bind] at hs
      revert hs
      generalize mccInit2D svd sqrt _ _ _ _ _ _ = I
      cases I with
      | error f => rintro ⟨⟩
      | ok I =>
        rw [except_ok_bind]
        generalize mccBoundary poly.edges _ _ _ = J
        cases J with
        | error f => rintro ⟨⟩
        | ok J =>
          rw [except_ok_bind]
          generalize mccDivergence llt _ _ _ _ = J2
          cases J2 with
          | error f => rintro ⟨⟩
          | ok J2 =>
            rw [except_ok_bind]
            generalize mccL2 llt _ _ _ _ _ = J3
            cases J3 with
            | error f => rintro ⟨⟩
            | ok J3 =>
              rw [except_ok_bind]
              generalize mccDofs _ poly.measure _ _ = J4
              cases J4 with
              | error f => rintro ⟨⟩
              | ok J4 =>
                intro hs
                rw [except_ok_bind, Except.ok.injEq] at hs
                rw [← hs]
  have hle : tri (k + 1) ≤ tri (k + 2) := tri_le (by omega)
  have hmul : ∀ {points : List (ℝ × ℝ)} {Z : DMat ℝ}, Values points (tri (k + 1)) (basisPoly k poly.centroid poly.diameter) Z →
      ∃ X, Z.mul (DMat.tr ⟨tri (k + 1), tri (k + 1), fun i j => (DMat.identity (tri (k + 2)) : DMat ℝ).ent (0 + i) (0 + j)⟩) = .ok X ∧ X.rows = points.length ∧
        X.cols = tri (k + 1) ∧ ∀ i x, points[i]? = some x → ∀ a b, a + b ≤ k → X.ent i (position a b) = scaledMonomial poly.centroid poly.diameter a b x := by
    intro points Z hZ
    refine ⟨_, DMat.mul_ok _ _ hZ.cols, hZ.rows, rfl, ?_⟩
    intro i x hi a b hab
    have hpos := position_lt.2 hab
    dsimp only [DMat.tr, DMat.identity]
    rw [hZ.cols, Finset.sum_eq_single_of_mem (position a b) (Finset.mem_range.2 hpos) fun j _ hj => by rw [if_neg (by omega), mul_zero], if_pos rfl, mul_one,
      hZ.ent i x hi _ hpos, ev2_basis_position k _ _ hab]
  obtain ⟨X, hX⟩ := hmul p6
  refine ⟨s, { p with q := ⟨tri (k + 1), tri (k + 1), fun i j => (DMat.identity (tri (k + 2)) : DMat ℝ).ent (0 + i) (0 + j)⟩ }, X, ?_, hs, p2.trans (tri_div k).symm, hX.1, by rw [hX.2.1, hint], hX.2.2.1.trans (tri_div k).symm, ?_, ?_, ?_⟩
  · unfold mccLocalSpace
    rw [hs, except_ok_bind, hp, except_ok_bind, hS.init.q, hS.init.nk, DMat.block_ok _ _ _ _ _ (by show 0 + tri (k + 1) ≤ tri (k + 2); omega) (by show 0 + tri (k + 1) ≤ tri (k + 2); omega), except_ok_bind]
  · rw [← hint]
    exact hX.2.2.2
  · intro points
    obtain ⟨Z, hZ, hZv, _⟩ := vanderMat_ok k poly.centroid poly.diameter points
    rw [num2_eq] at hZv
    obtain ⟨Y, hY⟩ := hmul hZv
    refine ⟨Y, ?_, hY.2.1, hY.2.2.1.trans (tri_div k).symm, hY.2.2.2⟩
    unfold mccPressureValuesAt
    dsimp only
    rw [p1, hZ, except_ok_bind]
    exact hY.1
  · intro a b c d hab hcd
    refine (p9 _ (position_lt.2 hab) _ (position_lt.2 hcd)).trans ?_
    congr 1
    funext x
    rw [← ev2_basis_position k _ _ hab, ← ev2_basis_position k _ _ hcd, ev2, map_mul]

/-- C101: the pressure space alone cannot evaluate its basis functions: `CreateLocalSpace` leaves `Qmatrix` without entries, and the product with it
has no meaning. -/
theorem C101_pressure_alone (hE : IsElement poly n V len dir nrm) (hT : IsMixedTables k triangle edge ts ws) (hsq : ∀ x, 0 ≤ x → sqrt x * sqrt x = x) :
    ∃ p, mccPressure2D sqrt triangle k poly = .ok p ∧ mccPressureValues p = .error .undefinedBehaviour ∧
      ∀ points, mccPressureValuesAt poly p points = .error .undefinedBehaviour := by
  obtain ⟨p, hp, p1, p2, p3, p4, p5, p6, _⟩ := mccPressure_ok (sqrt := sqrt) hE hT hsq
  have h0 : tri (k + 1) ≠ 0 := by
    rw [tri_succ]
    omega
  refine ⟨p, hp, ?_, fun points => ?_⟩
  · rw [mccPressureValues, p4]
    exact if_neg (by rw [p6.cols]; exact h0)
  · obtain ⟨Z, hZ, hZv, _⟩ := vanderMat_ok k poly.centroid poly.diameter points
    rw [mccPressureValuesAt, p1, hZ, except_ok_bind, p4]
    exact if_neg (by rw [hZv.cols, num2_eq]; exact h0)

/-- C102: on every edge, the basis functions of the edge combined with the DOFs of a field give its outward normal component at the quadrature points
of the edge. -/
theorem C102_trace (hE : IsElement poly n V len dir nrm) (hT : IsMixedTables k triangle edge ts ws) (hsvd : ∀ A, RightSingular A (svd A))
    (hsq : ∀ x, 0 ≤ x → sqrt x * sqrt x = x) (hllt : SolvesPosDef llt) :
    ∃ s, mccCreate2D svd sqrt llt (mccRef2D triangle edge k) poly = .ok s ∧ ∀ e < n, ∃ r X, mccEdgeQuadrature (mccRef2D triangle edge k) s e = .ok r ∧
      mccValuesOnEdge poly.edges (mccRef2D triangle edge k) e = .ok X ∧ r.points.length = k + 1 ∧ r.weights.length = k + 1 ∧ X.rows = k + 1 ∧ X.cols = k + 1 ∧
      ∀ u flux v, IsFluxDofs k poly n dir ts s.init.tPlus.ent u flux v → ∀ i < k + 1, ∃ t,
        r.points[i]? = some (segPoint (V e) (V ((e + 1) % n)) t) ∧ apply X (fun j => v (e * (k + 1) + j)) i = (flux e).eval t := by
  obtain ⟨s, hs, hS⟩ := mccCreate_ok hE hT hsvd hsq hllt
  refine ⟨s, hs, fun e he => ?_⟩
  obtain ⟨m, hm, hml, hmi⟩ := mid_ok hS.rules.plen he
  obtain ⟨w, hw, hwl, hwi⟩ := mid_ok hS.rules.blen he
  obtain ⟨X, hX, hX1, hX2, hX3⟩ := mccValuesOnEdge_ok hE hT he
  refine ⟨⟨m, w⟩, X, ?_, hX, hml, hwl, hX1, hX2, ?_⟩
  · rw [mccEdgeQuadrature, mccRef_ok hT]
    dsimp only
    rw [hT.nodes, hm, except_ok_bind, hw, except_ok_bind]
  · intro u flux v hv i hi
    have hit : i < ts.length := by rw [hT.nodes]; exact hi
    have hiw : i < ws.length := by rw [← hT.edgeLength]; exact hit
    have hp := (hS.rules.at' e he i _ _ (List.getElem?_eq_getElem hit) (List.getElem?_eq_getElem hiw)).1
    rw [hX3 _ i hi, hv.edge e he i _ (List.getElem?_eq_getElem hit)]
    dsimp only
    rw [hmi i hi, hp]
    unfold sgn polyEdge
    cases dir e with
    | true => exact ⟨ts[i], rfl, by simp⟩
    | false =>
      refine ⟨1 - ts[i], ?_, by simp⟩
      simp only [segPoint, Option.some.injEq, Prod.mk.injEq, if_neg Bool.false_ne_true]
      constructor <;> ring

/-- C102: integrals over an edge of the normal component times a polynomial of degree at most `k + 1` are exact. -/
theorem C102_edge_integrals (hE : IsElement poly n V len dir nrm) (hT : IsMixedTables k triangle edge ts ws) (hsvd : ∀ A, RightSingular A (svd A))
    (hsq : ∀ x, 0 ≤ x → sqrt x * sqrt x = x) (hllt : SolvesPosDef llt) :
    ∃ s, mccCreate2D svd sqrt llt (mccRef2D triangle edge k) poly = .ok s ∧ ∀ e < n, ∃ r X, mccEdgeQuadrature (mccRef2D triangle edge k) s e = .ok r ∧
      mccValuesOnEdge poly.edges (mccRef2D triangle edge k) e = .ok X ∧
      ∀ u flux v, IsMixedField k poly n u flux → IsFluxDofs k poly n dir ts s.init.tPlus.ent u flux v → ∀ z : MvPolynomial (Fin 2) ℝ, z.totalDegree ≤ k + 1 →
        ∑ i ∈ Finset.range (k + 1), r.weights.getD i 0 * eval ![(r.points.getD i 0).1, (r.points.getD i 0).2] z * apply X (fun j => v (e * (k + 1) + j)) i
          = |len e| * ∫ t in (0 : ℝ)..1, eval ![(segPoint (V e) (V ((e + 1) % n)) t).1, (segPoint (V e) (V ((e + 1) % n)) t).2] z * (flux e).eval t := by
  obtain ⟨s, hs, hS⟩ := mccCreate_ok hE hT hsvd hsq hllt
  refine ⟨s, hs, fun e he => ?_⟩
  obtain ⟨m, hm, hml, hmi⟩ := mid_ok hS.rules.plen he
  obtain ⟨w, hw, hwl, hwi⟩ := mid_ok hS.rules.blen he
  obtain ⟨X, hX, hX1, hX2, hX3⟩ := mccValuesOnEdge_ok hE hT he
  refine ⟨⟨m, w⟩, X, ?_, hX, ?_⟩
  · rw [mccEdgeQuadrature, mccRef_ok hT]
    dsimp only
    rw [hT.nodes, hm, except_ok_bind, hw, except_ok_bind]
  · intro u flux v hF hv z hz
    rw [← medge_exact (V := V) (n := n) hT (hF.degree e he) hz e |len e| (w := fun i => v (e * (k + 1) + i)) (hv.edge e he)]
    refine Finset.sum_congr rfl fun i hi => ?_
    have hi := Finset.mem_range.1 hi
    have hit : i < ts.length := by rw [hT.nodes]; exact hi
    have hiw : i < ws.length := by rw [← hT.edgeLength]; exact hit
    obtain ⟨h1, h2⟩ := hS.rules.at' e he i _ _ (List.getElem?_eq_getElem hit) (List.getElem?_eq_getElem hiw)
    rw [← hmi i hi] at h1
    rw [← hwi i hi] at h2
    rw [hX3 _ i hi, List.getD_eq_getElem?_getD, List.getD_eq_getElem?_getD, h1, h2, List.getD_eq_getElem?_getD, List.getD_eq_getElem?_getD,
      List.getElem?_eq_getElem hit, List.getElem?_eq_getElem hiw]
    simp only [Option.getD_some]
    ring

/-- C102: the values of the outward normal component at the coordinates of the DOFs of an edge are turned into the DOFs of the edge. -/
theorem C102_edge_dofs (hE : IsElement poly n V len dir nrm) (hT : IsMixedTables k triangle edge ts ws) (hsvd : ∀ A, RightSingular A (svd A))
    (hsq : ∀ x, 0 ≤ x → sqrt x * sqrt x = x) (hllt : SolvesPosDef llt) :
    ∃ s, mccCreate2D svd sqrt llt (mccRef2D triangle edge k) poly = .ok s ∧ ∀ e < n, ∃ pts, mccEdgeCoords (mccRef2D triangle edge k) s e = .ok pts ∧
      ∀ u flux v, IsFluxDofs k poly n dir ts s.init.tPlus.ent u flux v → ∀ f : ℝ × ℝ → ℝ, (∀ t, f (segPoint (V e) (V ((e + 1) % n)) t) = (flux e).eval t) →
        ∃ d, mccEdgeDofs poly.edges e (pts.map f) = .ok d ∧ d.length = k + 1 ∧ ∀ i < k + 1, d[i]? = some (v (e * (k + 1) + i)) := by
  obtain ⟨s, hs, hS⟩ := mccCreate_ok hE hT hsvd hsq hllt
  refine ⟨s, hs, fun e he => ?_⟩
  obtain ⟨m, hm, hml, hmi⟩ := mid_ok hS.rules.plen he
  refine ⟨m, by rw [mccEdgeCoords, mccRef_ok hT]; exact hm, ?_⟩
  intro u flux v hv f hf
  rw [mccEdgeDofs, show unchecked poly.edges.dirs e = .ok (dir e) from by rw [unchecked, hE.edges.dirs, List.getElem?_map, List.getElem?_range he]; rfl, except_ok_bind]
  refine ⟨_, rfl, by rw [List.length_map, List.length_map, hml], ?_⟩
  intro i hi
  have hit : i < ts.length := by rw [hT.nodes]; exact hi
  have hiw : i < ws.length := by rw [← hT.edgeLength]; exact hit
  have hp := (hS.rules.at' e he i _ _ (List.getElem?_eq_getElem hit) (List.getElem?_eq_getElem hiw)).1
  rw [List.getElem?_map, List.getElem?_map, hmi i hi, hp, hv.edge e he i _ (List.getElem?_eq_getElem hit)]
  unfold polyEdge
  cases dir e with
  | true => simp [hf]
  | false =>
    have : segPoint (V ((e + 1) % n)) (V e) ts[i] = segPoint (V e) (V ((e + 1) % n)) (1 - ts[i]) := by
      simp only [segPoint, Prod.mk.injEq]
      constructor <;> ring
    simp [this, hf]

end

/-! ### Examples -/

/-- Everything asked of the tables and of the library calls holds on the unit square for order 1. -/
example : ∃ (svd : DMat ℝ → DMat ℝ) (llt : Solver ℝ), IsElement squarePoly 4 squareV (fun _ => 1) (fun i => i % 2 = 0) squareN ∧
    IsMixedTables 1 (fun _ => ⟨conicalPoints, conicalWeights⟩) (fun _ => ⟨[1 / 2 - Real.sqrt 3 / 6, 1 / 2 + Real.sqrt 3 / 6], [1 / 2, 1 / 2]⟩)
      [1 / 2 - Real.sqrt 3 / 6, 1 / 2 + Real.sqrt 3 / 6] [1 / 2, 1 / 2] ∧
    (∀ A, RightSingular A (svd A)) ∧ (∀ x, 0 ≤ x → Real.sqrt x * Real.sqrt x = x) ∧ SolvesPosDef llt ∧ 0 < squarePoly.measure := by
  obtain ⟨svd, hsvd⟩ := exists_svd
  obtain ⟨llt, _, hllt⟩ := exists_solvers
  exact ⟨svd, llt, square_element, mixed_tables, hsvd, fun x hx => Real.mul_self_sqrt hx, hllt, by norm_num [squarePoly]⟩

/-- Normal components of the field `(x², x y)` on the edges of the unit square. -/
noncomputable def squareFlux : Nat → Polynomial ℝ
  | 0 => 0
  | 1 => 1
  | 2 => 1 - Polynomial.X
  | _ => 0

theorem square_trace : IsNormalTrace 4 squareV squareN (polyField (X 0 * X 0, X 0 * X 1)) squareFlux := by
  intro e he t
  interval_cases e <;> simp [squareFlux, polyField, dot2, segPoint, squareV, squareN]

/-- The field `(x², x y)` on the unit square, which is not of degree 1, meets the hypotheses of C97, C98 and C102 for order 1: its normal components
are of degree 1, its divergence `3 x` too. -/
example {svd : DMat ℝ → DMat ℝ} (hsvd : ∀ A, RightSingular A (svd A)) {llt : Solver ℝ} (hllt : SolvesPosDef llt) :
    ∃ s v, mccCreate2D svd Real.sqrt llt (mccRef2D (fun _ => ⟨conicalPoints, conicalWeights⟩)
        (fun _ => ⟨[1 / 2 - Real.sqrt 3 / 6, 1 / 2 + Real.sqrt 3 / 6], [1 / 2, 1 / 2]⟩) 1) squarePoly = .ok s ∧
      IsMixedField 1 squarePoly 4 (polyField (X 0 * X 0, X 0 * X 1)) squareFlux ∧
      IsFluxDofs 1 squarePoly 4 (fun i => i % 2 = 0) [1 / 2 - Real.sqrt 3 / 6, 1 / 2 + Real.sqrt 3 / 6] s.init.tPlus.ent
        (polyField (X 0 * X 0, X 0 * X 1)) squareFlux v ∧
      (C 3 * X 0 : MvPolynomial (Fin 2) ℝ).totalDegree ≤ 1 ∧
      HasWeakDivergence (1 + 1) squarePoly 4 squareV (fun _ => 1) (polyField (X 0 * X 0, X 0 * X 1)) squareFlux (fun p => eval ![p.1, p.2] (C 3 * X 0)) ∧
      ∀ e < 4, ∀ t, dot2 (polyField (X 0 * X 0, X 0 * X 1) (segPoint (squareV e) (squareV ((e + 1) % 4)) t)) (squareN e) = (squareFlux e).eval t := by
  obtain ⟨s, hs, hS⟩ := mccCreate_ok square_element mixed_tables hsvd (fun x hx => Real.mul_self_sqrt hx) hllt
  obtain ⟨v, hv⟩ := exists_fluxDofs 1 squarePoly 4 (fun i => i % 2 = 0) [1 / 2 - Real.sqrt 3 / 6, 1 / 2 + Real.sqrt 3 / 6] rfl s.init.tPlus.ent
    (polyField (X 0 * X 0, X 0 * X 1)) squareFlux
  have hF : IsMixedField 1 squarePoly 4 (polyField (X 0 * X 0, X 0 * X 1)) squareFlux := by
    refine ⟨(poly2_continuous (X 0 * X 0)).continuousOn.integrableOn_compact (unionOf_compact squarePoly.tris),
      (poly2_continuous (X 0 * X 1)).continuousOn.integrableOn_compact (unionOf_compact squarePoly.tris), ?_⟩
    intro e he
    interval_cases e
    · simp [squareFlux]
    · simp [squareFlux]
    · exact (Polynomial.natDegree_sub_le _ _).trans (by simp)
    · simp [squareFlux]
  refine ⟨s, v, hs, hF, hv, ?_, ?_, fun e he t => (square_trace e he t).symm⟩
  · exact (totalDegree_mul _ _).trans (by rw [totalDegree_C, totalDegree_X])
  · have hq : ∀ d, ((![X 0 * X 0, X 0 * X 1] : Fin 2 → MvPolynomial (Fin 2) ℝ) d).totalDegree ≤ 1 + 1 := by
      intro d
      fin_cases d
      · exact (totalDegree_mul _ _).trans (by rw [totalDegree_X])
      · exact (totalDegree_mul _ _).trans (by rw [totalDegree_X, totalDegree_X])
    have := poly_divergence' (q := ![X 0 * X 0, X 0 * X 1]) square_element hS hq square_trace hF
    intro a b hab
    refine Eq.trans ?_ (this a b hab)
    congr 1
    funext p
    congr 1
    simp [ev2, pderiv_X]
    ring

/-- The field `(y, x + y)` of degree 1 on the unit square has normal components and DOFs. -/
example {svd : DMat ℝ → DMat ℝ} (hsvd : ∀ A, RightSingular A (svd A)) {llt : Solver ℝ} (hllt : SolvesPosDef llt) :
    ∃ s flux v, mccCreate2D svd Real.sqrt llt (mccRef2D (fun _ => ⟨conicalPoints, conicalWeights⟩)
        (fun _ => ⟨[1 / 2 - Real.sqrt 3 / 6, 1 / 2 + Real.sqrt 3 / 6], [1 / 2, 1 / 2]⟩) 1) squarePoly = .ok s ∧
      (X 1 : MvPolynomial (Fin 2) ℝ).totalDegree ≤ 1 ∧ (X 0 + X 1 : MvPolynomial (Fin 2) ℝ).totalDegree ≤ 1 ∧
      IsNormalTrace 4 squareV squareN (polyField (X 1, X 0 + X 1)) flux ∧
      IsFluxDofs 1 squarePoly 4 (fun i => i % 2 = 0) [1 / 2 - Real.sqrt 3 / 6, 1 / 2 + Real.sqrt 3 / 6] s.init.tPlus.ent (polyField (X 1, X 0 + X 1)) flux v := by
  obtain ⟨s, hs, hS⟩ := mccCreate_ok square_element mixed_tables hsvd (fun x hx => Real.mul_self_sqrt hx) hllt
  have h1 : (X 1 : MvPolynomial (Fin 2) ℝ).totalDegree ≤ 1 := by rw [totalDegree_X]
  have h2 : (X 0 + X 1 : MvPolynomial (Fin 2) ℝ).totalDegree ≤ 1 := (totalDegree_add _ _).trans (by rw [totalDegree_X, totalDegree_X]; simp)
  obtain ⟨flux, hn, _⟩ := mcc_exists_trace (k := 1) ![X 1, X 0 + X 1] (fun d => by fin_cases d; exacts [h1, h2]) 4 squareV squareN
  obtain ⟨v, hv⟩ := exists_fluxDofs 1 squarePoly 4 (fun i => i % 2 = 0) [1 / 2 - Real.sqrt 3 / 6, 1 / 2 + Real.sqrt 3 / 6] rfl s.init.tPlus.ent
    (polyField (X 1, X 0 + X 1)) flux
  exact ⟨s, flux, v, hs, h1, h2, hn, hv⟩

/-- The fields of C99 have normal components too. -/
example (y : Nat → ℝ) {svd : DMat ℝ → DMat ℝ} (hsvd : ∀ A, RightSingular A (svd A)) {llt : Solver ℝ} (hllt : SolvesPosDef llt) :
    ∃ s flux, mccCreate2D svd Real.sqrt llt (mccRef2D (fun _ => ⟨conicalPoints, conicalWeights⟩)
        (fun _ => ⟨[1 / 2 - Real.sqrt 3 / 6, 1 / 2 + Real.sqrt 3 / 6], [1 / 2, 1 / 2]⟩) 1) squarePoly = .ok s ∧
      IsNormalTrace 4 squareV squareN (splitField 1 squarePoly.centroid squarePoly.diameter s.init.tPlus.ent y) flux := by
  obtain ⟨s, hs, hS⟩ := mccCreate_ok square_element mixed_tables hsvd (fun x hx => Real.mul_self_sqrt hx) hllt
  obtain ⟨flux, hn, _⟩ := mcc_exists_trace (k := 1) (gsum 1 squarePoly.centroid squarePoly.diameter s.init.tPlus y) (gsum_degree hS.init.tk y) 4 squareV squareN
  refine ⟨s, flux, hs, fun e he t => ?_⟩
  rw [split_ev2]
  exact hn e he t

end PolyDiM
