import Verif.Props.AssemblerVem2D

/-!
# Error norms with virtual elements (C88)
-/

namespace PolyDiM

open Spec MvPolynomial MeasureTheory

section
variable {k n : Nat} {V : Nat → ℝ × ℝ} {len : Nat → ℝ} {dir : Nat → Bool} {nrm : Nat → ℝ × ℝ} {poly : VemPolygon ℝ}
  {triangle : Nat → Rule (ℝ × ℝ) ℝ} {edge : Nat → Rule ℝ ℝ} {ts ws : List ℝ} {w : ℝ} {lu llt : Solver ℝ}

theorem mul_col {A : DMat ℝ} {dofs : List ℝ} (h : A.cols = dofs.length) :
    ∃ x, A.mul (.col dofs) = .ok x ∧ x.rows = A.rows ∧ ∀ q, x.ent q 0 = apply A (fun i => dofs.getD i 0) q :=
  ⟨_, DMat.mul_ok _ _ h, rfl, fun _ => rfl⟩

/-- C88, the `L²` error on a cell: the quadrature of the squared difference between the projection of the discrete function and the given one, of the squares
of both. Without a given function it counts as zero. -/
theorem C88_L2_quadrature (hE : IsElement poly n V len dir nrm) (hT : IsTables k triangle edge ts ws w) (hlu : SolvesRegular lu) (hllt : SolvesPosDef llt) :
    ∃ ref s, vemRef2D triangle edge k = .ok ref ∧ vemCreate2D lu llt ref poly = .ok s ∧
      ∀ (dofs : List ℝ) (f : Option (ℝ × ℝ → ℝ)), dofs.length = n + n * (k - 1) + k * (k - 1) / 2 →
        localErrorL2 (vemSpace2D ref poly s) dofs f = .ok
          (quadSum s.internal.points s.internal.weights fun p => (polyOf k poly.centroid poly.diameter (apply s.pi0k fun i => dofs.getD i 0) p - f.elim 0 fun g => g p) ^ 2,
            quadSum s.internal.points s.internal.weights fun p => (polyOf k poly.centroid poly.diameter (apply s.pi0k fun i => dofs.getD i 0) p) ^ 2,
            quadSum s.internal.points s.internal.weights fun p => (f.elim 0 fun g => g p) ^ 2) := by
  obtain ⟨ref, s, hr, hc, hs⟩ := vemCreate_ok hE hT hlu hllt
  obtain ⟨r1, s1, hr1, hc1, hv⟩ := C74_values hE hT hlu hllt
  obtain ⟨r3, s3, hr3, hc3, hi, -⟩ := C74_internal hE hT hlu hllt
  obtain rfl : r1 = ref := Except.ok.inj (hr1.symm.trans hr)
  obtain rfl : r3 = r1 := Except.ok.inj (hr3.symm.trans hr)
  obtain rfl : s1 = s := Except.ok.inj (hc1.symm.trans hc)
  obtain rfl : s3 = s1 := Except.ok.inj (hc3.symm.trans hc)
  refine ⟨r3, s3, hr, hc, fun dofs f hdofs => ?_⟩
  obtain ⟨⟨A, hA, hAr, hAc, hAe⟩, -, -⟩ := hv s3.internal.points
  obtain ⟨x, hx, hxr, hxe⟩ := mul_col (dofs := dofs) (hAc.trans hdofs.symm)
  have hV : (vemSpace2D r3 poly s3).valuesInt .pi0k = .ok A := (hi _ (by decide)).trans hA
  have hpts : (vemSpace2D r3 poly s3).internal = s3.internal := rfl
  set e : List ℝ := exactScalar s3.internal.points f with he
  have hlen : e.length = s3.internal.points.length := by
    rw [he]
    cases f <;> simp [exactScalar, evalScalar]
  have heq : ∀ (i : Nat) (p : ℝ × ℝ), s3.internal.points[i]? = some p → e.getD i 0 = f.elim 0 fun g => g p := by
    intro i p hp
    rw [he, List.getD_eq_getElem?_getD]
    cases f with
    | none =>
      obtain ⟨hi, -⟩ := List.getElem?_eq_some_iff.1 hp
      simp [exactScalar, hi]
    | some g => simp [exactScalar, evalScalar, hp]
  have hxr' : x.rows = s3.internal.points.length := hxr.trans hAr
  unfold localErrorL2
  rw [hV, except_ok_bind, hpts]
  dsimp only
  rw [hx, except_ok_bind, if_pos ⟨hxr'.trans hlen.symm, hs.rules.wlen.trans hlen.symm⟩, hxr']
  have hval : ∀ (i : Nat) (p : ℝ × ℝ), s3.internal.points[i]? = some p → x.ent i 0 = polyOf k poly.centroid poly.diameter (apply s3.pi0k fun i => dofs.getD i 0) p :=
    fun i p hp => (hxe i).trans (hAe _ i p hp)
  congr 1
  refine congrArg₂ Prod.mk ?_ (congrArg₂ Prod.mk ?_ ?_)
  · exact sum_quadSum _ _ hs.rules.wlen _ _ fun i p hp => by rw [hval i p hp, heq i p hp]
  · exact sum_quadSum _ _ hs.rules.wlen _ _ fun i p hp => by rw [hval i p hp]
  · exact sum_quadSum _ _ hs.rules.wlen _ _ fun i p hp => by rw [heq i p hp]

/-- C88, the error in the gradients on a cell. -/
theorem C88_H1_quadrature (hE : IsElement poly n V len dir nrm) (hT : IsTables k triangle edge ts ws w) (hlu : SolvesRegular lu) (hllt : SolvesPosDef llt) :
    ∃ ref s, vemRef2D triangle edge k = .ok ref ∧ vemCreate2D lu llt ref poly = .ok s ∧
      ∀ (dofs : List ℝ) (f : Option (ℝ × ℝ → Nat → ℝ)), dofs.length = n + n * (k - 1) + k * (k - 1) / 2 →
        localErrorH1 (vemSpace2D ref poly s) dofs f = .ok
          (quadSum s.internal.points s.internal.weights fun p =>
              (polyOf (k - 1) poly.centroid poly.diameter (apply s.derX fun i => dofs.getD i 0) p - f.elim 0 fun g => g p 0) ^ 2
              + (polyOf (k - 1) poly.centroid poly.diameter (apply s.derY fun i => dofs.getD i 0) p - f.elim 0 fun g => g p 1) ^ 2,
            quadSum s.internal.points s.internal.weights fun p =>
              (polyOf (k - 1) poly.centroid poly.diameter (apply s.derX fun i => dofs.getD i 0) p) ^ 2
              + (polyOf (k - 1) poly.centroid poly.diameter (apply s.derY fun i => dofs.getD i 0) p) ^ 2,
            quadSum s.internal.points s.internal.weights fun p => (f.elim 0 fun g => g p 0) ^ 2 + (f.elim 0 fun g => g p 1) ^ 2) := by
  obtain ⟨ref, s, hr, hc, hs⟩ := vemCreate_ok hE hT hlu hllt
  obtain ⟨r1, s1, hr1, hc1, hv⟩ := C74_derivatives hE hT hlu hllt
  obtain ⟨r3, s3, hr3, hc3, -, hi⟩ := C74_internal hE hT hlu hllt
  obtain rfl : r1 = ref := Except.ok.inj (hr1.symm.trans hr)
  obtain rfl : r3 = r1 := Except.ok.inj (hr3.symm.trans hr)
  obtain rfl : s1 = s := Except.ok.inj (hc1.symm.trans hc)
  obtain rfl : s3 = s1 := Except.ok.inj (hc3.symm.trans hc)
  refine ⟨r3, s3, hr, hc, fun dofs f hdofs => ?_⟩
  obtain ⟨-, ⟨A, B, hAB, hAr, hBr, hAc, hBc, hABe⟩, -⟩ := hv s3.internal.points
  obtain ⟨x, hx, hxr, hxe⟩ := mul_col (dofs := dofs) (hAc.trans hdofs.symm)
  obtain ⟨y, hy, hyr, hye⟩ := mul_col (dofs := dofs) (hBc.trans hdofs.symm)
  have hV : (vemSpace2D r3 poly s3).dersInt .pi0km1Der = .ok [A, B] := (hi _).trans hAB
  have hpts : (vemSpace2D r3 poly s3).internal = s3.internal := rfl
  set e : Nat → List ℝ := fun c => match f with
    | some f => s3.internal.points.map fun p => f p c
    | none => List.replicate s3.internal.points.length 0 with he
  have hlist : exactComponents s3.internal.points f = [e 0, e 1, e 2] := by
    rw [he]
    cases f <;> rfl
  have hlen : ∀ c, (e c).length = s3.internal.points.length := by
    intro c
    rw [he]
    cases f <;> simp
  have heq : ∀ (c i : Nat) (p : ℝ × ℝ), s3.internal.points[i]? = some p → (e c).getD i 0 = f.elim 0 fun g => g p c := by
    intro c i p hp
    rw [he, List.getD_eq_getElem?_getD]
    cases f with
    | none =>
      obtain ⟨hi, -⟩ := List.getElem?_eq_some_iff.1 hp
      simp [hi]
    | some g => simp [hp]
  have hxr' : x.rows = s3.internal.points.length := hxr.trans hAr
  have hyr' : y.rows = s3.internal.points.length := hyr.trans hBr
  unfold localErrorH1
  rw [hV, except_ok_bind, hpts]
  dsimp only
  rw [hlist]
  simp only [atIdx, List.getElem?_cons_zero, List.getElem?_cons_succ, except_ok_bind]
  rw [hx, except_ok_bind, hy, except_ok_bind, if_pos ⟨hxr'.trans (hlen 0).symm, hyr'.trans (hlen 1).symm, hxr'.trans hyr'.symm, hs.rules.wlen.trans (hlen 0).symm⟩, hxr']
  have hvx : ∀ (i : Nat) (p : ℝ × ℝ), s3.internal.points[i]? = some p → x.ent i 0 = polyOf (k - 1) poly.centroid poly.diameter (apply s3.derX fun i => dofs.getD i 0) p :=
    fun i p hp => (hxe i).trans (hABe _ i p hp).1
  have hvy : ∀ (i : Nat) (p : ℝ × ℝ), s3.internal.points[i]? = some p → y.ent i 0 = polyOf (k - 1) poly.centroid poly.diameter (apply s3.derY fun i => dofs.getD i 0) p :=
    fun i p hp => (hye i).trans (hABe _ i p hp).2
  congr 1
  refine congrArg₂ Prod.mk ?_ (congrArg₂ Prod.mk ?_ ?_)
  · exact sum_quadSum _ _ hs.rules.wlen _ _ fun i p hp => by rw [hvx i p hp, hvy i p hp, heq 0 i p hp, heq 1 i p hp]
  · exact sum_quadSum _ _ hs.rules.wlen _ _ fun i p hp => by rw [hvx i p hp, hvy i p hp]
  · exact sum_quadSum _ _ hs.rules.wlen _ _ fun i p hp => by rw [heq 0 i p hp, heq 1 i p hp]

/-- C88, polynomials: if the degrees of freedom are those of a polynomial of degree at most the order, the three numbers of the `L²` error are the integrals of
the squared difference and of the squares. They are zero, and equal, if the given function is this polynomial. -/
theorem C88_L2_exact (hE : IsElement poly n V len dir nrm) (hT : IsTables k triangle edge ts ws w) (hlu : SolvesRegular lu) (hllt : SolvesPosDef llt) :
    ∃ ref s, vemRef2D triangle edge k = .ok ref ∧ vemCreate2D lu llt ref poly = .ok s ∧
      ∀ (p q : MvPolynomial (Fin 2) ℝ) (dofs : List ℝ), p.totalDegree ≤ k → q.totalDegree ≤ k → dofs.length = n + n * (k - 1) + k * (k - 1) / 2 →
        IsDofVector k poly n V dir ts (fun x => eval ![x.1, x.2] p) (fun i => dofs.getD i 0) →
        localErrorL2 (vemSpace2D ref poly s) dofs (some fun x => eval ![x.1, x.2] q) = .ok
          (∫ x in unionOf poly.tris, (eval ![x.1, x.2] p - eval ![x.1, x.2] q) ^ 2, ∫ x in unionOf poly.tris, (eval ![x.1, x.2] p) ^ 2,
            ∫ x in unionOf poly.tris, (eval ![x.1, x.2] q) ^ 2) := by
  obtain ⟨ref, s, hr, hc, hs⟩ := vemCreate_ok hE hT hlu hllt
  obtain ⟨r1, s1, hr1, hc1, hv⟩ := C88_L2_quadrature hE hT hlu hllt
  obtain ⟨r3, s3, hr3, hc3, -, -, hx⟩ := C52_pi0k hE hT hlu hllt
  obtain rfl : r1 = ref := Except.ok.inj (hr1.symm.trans hr)
  obtain rfl : r3 = r1 := Except.ok.inj (hr3.symm.trans hr)
  obtain rfl : s1 = s := Except.ok.inj (hc1.symm.trans hc)
  obtain rfl : s3 = s1 := Except.ok.inj (hc3.symm.trans hc)
  refine ⟨r3, s3, hr, hc, fun p q dofs hp hq hd hdv => ?_⟩
  rw [hv dofs _ hd]
  have hsq : ∀ z : MvPolynomial (Fin 2) ℝ, z.totalDegree ≤ k → quadSum s3.internal.points s3.internal.weights (fun x => (eval ![x.1, x.2] z) ^ 2)
      = ∫ x in unionOf poly.tris, (eval ![x.1, x.2] z) ^ 2 := by
    intro z hz
    have := hs.rules.integral (z ^ 2) ((totalDegree_pow _ _).trans (by omega))
    have e : ev2 (z ^ 2) = fun x => (eval ![x.1, x.2] z) ^ 2 := funext fun x => by simp [ev2]
    rw [← e]
    exact this
  have hdeg : (p - q).totalDegree ≤ k := (totalDegree_sub _ _).trans (max_le hp hq)
  congr 1
  refine congrArg₂ Prod.mk ?_ (congrArg₂ Prod.mk ?_ ?_)
  · rw [← show _ = ∫ x in unionOf poly.tris, (eval ![x.1, x.2] p - eval ![x.1, x.2] q) ^ 2 by simpa using hsq (p - q) hdeg]
    congr 1
    funext x
    rw [hx p hp _ hdv x]
    rfl
  · rw [← hsq p hp]
    congr 1
    funext x
    rw [hx p hp _ hdv x]
  · exact hsq q hq

/-- C88, the same for the gradients. -/
theorem C88_H1_exact (hE : IsElement poly n V len dir nrm) (hT : IsTables k triangle edge ts ws w) (hlu : SolvesRegular lu) (hllt : SolvesPosDef llt) :
    ∃ ref s, vemRef2D triangle edge k = .ok ref ∧ vemCreate2D lu llt ref poly = .ok s ∧
      ∀ (p q : MvPolynomial (Fin 2) ℝ) (dofs : List ℝ), p.totalDegree ≤ k → q.totalDegree ≤ k → dofs.length = n + n * (k - 1) + k * (k - 1) / 2 →
        IsDofVector k poly n V dir ts (fun x => eval ![x.1, x.2] p) (fun i => dofs.getD i 0) →
        localErrorH1 (vemSpace2D ref poly s) dofs (some fun x c => if c = 0 then eval ![x.1, x.2] (pderiv 0 q) else if c = 1 then eval ![x.1, x.2] (pderiv 1 q) else 0) = .ok
          (∫ x in unionOf poly.tris, ((eval ![x.1, x.2] (pderiv 0 p) - eval ![x.1, x.2] (pderiv 0 q)) ^ 2 + (eval ![x.1, x.2] (pderiv 1 p) - eval ![x.1, x.2] (pderiv 1 q)) ^ 2),
            ∫ x in unionOf poly.tris, ((eval ![x.1, x.2] (pderiv 0 p)) ^ 2 + (eval ![x.1, x.2] (pderiv 1 p)) ^ 2),
            ∫ x in unionOf poly.tris, ((eval ![x.1, x.2] (pderiv 0 q)) ^ 2 + (eval ![x.1, x.2] (pderiv 1 q)) ^ 2)) := by
  obtain ⟨ref, s, hr, hc, hs⟩ := vemCreate_ok hE hT hlu hllt
  obtain ⟨r1, s1, hr1, hc1, hv⟩ := C88_H1_quadrature hE hT hlu hllt
  obtain ⟨r3, s3, hr3, hc3, -, -, -, -, hx⟩ := C71_derivatives hE hT hlu hllt
  obtain rfl : r1 = ref := Except.ok.inj (hr1.symm.trans hr)
  obtain rfl : r3 = r1 := Except.ok.inj (hr3.symm.trans hr)
  obtain rfl : s1 = s := Except.ok.inj (hc1.symm.trans hc)
  obtain rfl : s3 = s1 := Except.ok.inj (hc3.symm.trans hc)
  refine ⟨r3, s3, hr, hc, fun p q dofs hp hq hd hdv => ?_⟩
  rw [hv dofs _ hd]
  have hsq : ∀ y z : MvPolynomial (Fin 2) ℝ, y.totalDegree ≤ k → z.totalDegree ≤ k →
      quadSum s3.internal.points s3.internal.weights (fun x => (eval ![x.1, x.2] y) ^ 2 + (eval ![x.1, x.2] z) ^ 2)
      = ∫ x in unionOf poly.tris, ((eval ![x.1, x.2] y) ^ 2 + (eval ![x.1, x.2] z) ^ 2) := by
    intro y z hy hz
    have := hs.rules.integral (y ^ 2 + z ^ 2) ((totalDegree_add _ _).trans (max_le ((totalDegree_pow _ _).trans (by omega)) ((totalDegree_pow _ _).trans (by omega))))
    have e : ev2 (y ^ 2 + z ^ 2) = fun x => (eval ![x.1, x.2] y) ^ 2 + (eval ![x.1, x.2] z) ^ 2 := funext fun x => by simp [ev2]
    rw [← e]
    exact this
  have hd' : ∀ (i : Fin 2) (z : MvPolynomial (Fin 2) ℝ), z.totalDegree ≤ k → (pderiv i z).totalDegree ≤ k := fun i z hz => (totalDegree_pderiv i z).trans (by omega)
  have hdeg : ∀ i : Fin 2, (pderiv i p - pderiv i q).totalDegree ≤ k := fun i => (totalDegree_sub _ _).trans (max_le (hd' i p hp) (hd' i q hq))
  simp only [Option.elim_some, if_true, one_ne_zero, if_false]
  congr 1
  refine congrArg₂ Prod.mk ?_ (congrArg₂ Prod.mk ?_ ?_)
  · have := hsq _ _ (hdeg 0) (hdeg 1)
    simp only [map_sub] at this
    rw [← this]
    congr 1
    funext x
    rw [(hx p hp _ hdv x).1, (hx p hp _ hdv x).2]
  · rw [← hsq _ _ (hd' 0 p hp) (hd' 1 p hp)]
    congr 1
    funext x
    rw [(hx p hp _ hdv x).1, (hx p hp _ hdv x).2]
  · exact hsq _ _ (hd' 0 q hq) (hd' 1 q hq)

end

theorem list_getD (y : Nat → ℝ) {N i : Nat} (h : i < N) : ((List.range N).map y).getD i 0 = y i := by
  simp [List.getD, h]

-- C88: the degrees of freedom of `xy` on the unit square, order 2, as a list
example : ∃ lu llt : Solver ℝ, SolvesRegular lu ∧ SolvesPosDef llt ∧ IsElement squarePoly 4 squareV (fun _ => 1) (fun i => i % 2 = 0) squareN ∧
    IsTables 2 (fun _ => ⟨nc4Points, nc4Weights⟩) (fun _ => ⟨[0, 1 / 2, 1], [1 / 6, 2 / 3, 1 / 6]⟩) [1 / 2] [2 / 3] (1 / 6) ∧
    (X 0 * X 1 : MvPolynomial (Fin 2) ℝ).totalDegree ≤ 2 ∧ ∃ dofs : List ℝ, dofs.length = 4 + 4 * (2 - 1) + 2 * (2 - 1) / 2 ∧
      IsDofVector 2 squarePoly 4 squareV (fun i => i % 2 = 0) [1 / 2] (fun p => eval ![p.1, p.2] (X 0 * X 1 : MvPolynomial (Fin 2) ℝ)) fun i => dofs.getD i 0 := by
  obtain ⟨lu, h1, h2⟩ := exists_solvers
  obtain ⟨y, hy⟩ := exists_dofs 2 squarePoly 4 squareV (fun i => i % 2 = 0) [1 / 2] rfl (fun p => eval ![p.1, p.2] (X 0 * X 1 : MvPolynomial (Fin 2) ℝ))
  refine ⟨lu, lu, h1, h2, square_element, square_tables, (totalDegree_mul _ _).trans (by simp [totalDegree_X]), (List.range 9).map y, rfl, fun e he => ?_, fun e he i t hi => ?_, fun a b hab => ?_⟩
  · rw [list_getD y (by omega), hy.vertex e he]
  · have : i = 0 := by
      have := (List.getElem?_eq_some_iff.1 hi).1
      simpa using this
    subst this
    rw [list_getD y (by omega), hy.node e he 0 t hi]
  · obtain ⟨rfl, rfl⟩ : a = 0 ∧ b = 0 := by omega
    have e : 4 + 4 * (2 - 1) + position 0 0 = 8 := rfl
    rw [← hy.moment 0 0 hab, e, list_getD y (by omega)]

end PolyDiM
