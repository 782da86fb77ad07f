import Verif.Lemmas.VemDfEval
import Verif.Props.VemDf

/-!
# C114-C116: DOFs, stabilization, evaluation and pressure of the divergence-free virtual element
-/

namespace PolyDiM

open Spec MvPolynomial MeasureTheory

section
variable {k n : Nat} {V : Nat → ℝ × ℝ} {len : Nat → ℝ} {dir : Nat → Bool} {nrm : Nat → ℝ × ℝ} {poly : VemPolygon ℝ}
  {triangle : Nat → Rule (ℝ × ℝ) ℝ} {edge : Nat → Rule ℝ ℝ} {ts ws ss vs : List ℝ} {w v₀ : ℝ} {sqrt : ℝ → ℝ} {lu llt : Solver ℝ} {s : DfSpace2D ℝ} {m : Nat}

/-- C114: the matrices of the DOFs of the monomials, applied to the coefficients of the two components of a polynomial field of degree at most `k` and
added, give the DOFs of the field. -/
theorem C114_dofs (red : Bool) (hE : IsElement poly n V len dir nrm) (hT : IsDfTables k triangle edge ts ws w ss vs v₀) (hsq : ∀ x, 0 ≤ x → sqrt x * sqrt x = x)
    (hlu : SolvesRegular lu) (hllt : SolvesPosDef llt) (harea : red = true → poly.measure = ∫ _p in unionOf poly.tris, (1 : ℝ)) :
    ∃ ref s, dfRef2D red triangle edge k = .ok ref ∧ dfCreate2D sqrt lu llt ref poly = .ok s ∧
      ∀ (q : MvPolynomial (Fin 2) ℝ × MvPolynomial (Fin 2) ℝ) (a b : Nat → ℝ), (∀ p : ℝ × ℝ, polyOf k poly.centroid poly.diameter a p = eval ![p.1, p.2] q.1) →
        (∀ p : ℝ × ℝ, polyOf k poly.centroid poly.diameter b p = eval ![p.1, p.2] q.2) →
        IsVelocityDofs k (divDegree red k) poly n V dir ts (vectorPoly q) (divPoly q) fun r => apply s.D.1 a r + apply s.D.2 b r := by
  obtain ⟨ref, s, hr, hc, hs⟩ := dfCreate_ok (sqrt := sqrt) red hE hT hsq hlu hllt harea
  refine ⟨ref, s, hr, hc, fun q a b ha hb => ?_⟩
  have h1 : combo k poly.centroid poly.diameter (tri (k + 1)) a = q.1 := ev2_ext fun p => by
    rw [ev2_combo k _ _ le_rfl, ha p]
  have h2 : combo k poly.centroid poly.diameter (tri (k + 1)) b = q.2 := ev2_ext fun p => by
    rw [ev2_combo k _ _ le_rfl, hb p]
  have := dofs_apply hT (divDegree_le red hT.two) hs ![a, b]
  simp only [Matrix.cons_val_zero, Matrix.cons_val_one] at this
  rw [h1, h2] at this
  exact this

/-- The field with the coefficients of the monomials of degree 2 on the unit square. -/
example (red : Bool) : ∃ lu llt : Solver ℝ, ∃ ref s, ∃ a b : Nat → ℝ,
    dfRef2D red (fun _ => ⟨boolePoints, booleWeights⟩) dfEdgeRules 2 = .ok ref ∧ dfCreate2D Real.sqrt lu llt ref squarePoly = .ok s ∧
    (∀ p : ℝ × ℝ, polyOf 2 squarePoly.centroid squarePoly.diameter a p = p.1 * p.1) ∧
    IsVelocityDofs 2 (divDegree red 2) squarePoly 4 squareV (fun i => i % 2 = 0) [1 / 2] (vectorPoly squareQ) (divPoly squareQ) fun r => apply s.D.1 a r + apply s.D.2 b r := by
  obtain ⟨lu, h1, h2⟩ := exists_solvers
  obtain ⟨ref, s, hr, hs, h⟩ := C114_dofs red square_element df_tables real_sqrt h1 h2 fun _ => square_area
  obtain ⟨a, ha⟩ := basisPoly_span 2 squarePoly.centroid squarePoly.diameter square_element.diameter le_rfl squareQ.1 squareQ_degree.1
  obtain ⟨b, hb⟩ := basisPoly_span 2 squarePoly.centroid squarePoly.diameter square_element.diameter le_rfl squareQ.2 squareQ_degree.2
  have ha' : ∀ p : ℝ × ℝ, polyOf 2 squarePoly.centroid squarePoly.diameter a p = eval ![p.1, p.2] squareQ.1 := fun p => by
    rw [← ev2_combo 2 _ _ le_rfl, ha]
    rfl
  have hb' : ∀ p : ℝ × ℝ, polyOf 2 squarePoly.centroid squarePoly.diameter b p = eval ![p.1, p.2] squareQ.2 := fun p => by
    rw [← ev2_combo 2 _ _ le_rfl, hb]
    rfl
  exact ⟨lu, lu, ref, s, a, b, hr, hs, fun p => (ha' p).trans (by simp [squareQ]), h squareQ a b ha' hb'⟩

/-- C114: the stabilization exists for the energy projection and for the L2 projection, is symmetric and positive semidefinite: its quadratic form is the sum
of the squares of the differences between the DOFs of the projection and the given ones, times 1 resp. the measure. The quadratic form vanishes on
the DOFs of every polynomial field of degree at most `k` (in the reduced space: with constant divergence), and where it vanishes the vector consists of the
DOFs of a polynomial field. Any other type of projection is refused. -/
theorem C114_stabilization (red : Bool) (hE : IsElement poly n V len dir nrm) (hT : IsDfTables k triangle edge ts ws w ss vs v₀) (hsq : ∀ x, 0 ≤ x → sqrt x * sqrt x = x)
    (hlu : SolvesRegular lu) (hllt : SolvesPosDef llt) (harea : red = true → poly.measure = ∫ _p in unionOf poly.tris, (1 : ℝ)) (hpos : 0 < poly.measure) :
    ∃ ref s, dfRef2D red triangle edge k = .ok ref ∧ dfCreate2D sqrt lu llt ref poly = .ok s ∧
      (∀ type Q c, (type = .piNabla ∧ Q = s.piNabla ∧ c = 1) ∨ (type = .pi0k ∧ Q = s.pi0k ∧ c = poly.measure) → ∃ S, dfStabilization s type = .ok S ∧ S.rows = numVelocityDofs k (divDegree red k) n ∧ S.cols = S.rows ∧
        (∀ i j, S.ent i j = S.ent j i) ∧ ∀ x : Nat → ℝ, 0 ≤ ∑ i ∈ Finset.range S.rows, x i * apply S x i ∧
          (∀ (q : MvPolynomial (Fin 2) ℝ × MvPolynomial (Fin 2) ℝ) (y : Nat → ℝ), (∀ p : ℝ × ℝ, eval ![p.1, p.2] q.1 = polyOf k poly.centroid poly.diameter (apply Q.1 x) p) →
            (∀ p : ℝ × ℝ, eval ![p.1, p.2] q.2 = polyOf k poly.centroid poly.diameter (apply Q.2 x) p) →
            IsVelocityDofs k (divDegree red k) poly n V dir ts (vectorPoly q) (divPoly q) y →
            ∑ i ∈ Finset.range S.rows, x i * apply S x i = c * ∑ r ∈ Finset.range S.rows, (y r - x r) ^ 2) ∧
          (∀ q, q.1.totalDegree ≤ k → q.2.totalDegree ≤ k → (red = true → (divPoly q).totalDegree = 0) →
            IsVelocityDofs k (divDegree red k) poly n V dir ts (vectorPoly q) (divPoly q) x → ∑ i ∈ Finset.range S.rows, x i * apply S x i = 0) ∧
          (∑ i ∈ Finset.range S.rows, x i * apply S x i = 0 → ∃ q, q.1.totalDegree ≤ k ∧ q.2.totalDegree ≤ k ∧
            IsVelocityDofs k (divDegree red k) poly n V dir ts (vectorPoly q) (divPoly q) x)) ∧
      ∀ type, type ≠ .piNabla → type ≠ .pi0k → dfStabilization s type = .error .runtimeError := by
  obtain ⟨ref, s, hr, hc, hs⟩ := dfCreate_ok (sqrt := sqrt) red hE hT hsq hlu hllt harea
  obtain ⟨r1, s1, hr1, hc1, hex⟩ := C111_exact (sqrt := sqrt) red hE hT hsq hlu hllt harea
  obtain rfl : r1 = ref := Except.ok.inj (hr1.symm.trans hr)
  obtain rfl : s1 = s := Except.ok.inj (hc1.symm.trans hc)
  have hk := hT.two
  have hcols := df_cols hT hs
  set N := numVelocityDofs k (divDegree red k) n with hN
  have key : ∀ (c : ℝ) (Q : DMat ℝ × DMat ℝ), 0 < c → Q.1.rows = tri (k + 1) → Q.2.rows = tri (k + 1) → Q.1.cols = N → Q.2.cols = N →
      (∀ q v, q.1.totalDegree ≤ k → q.2.totalDegree ≤ k → (red = true → (divPoly q).totalDegree = 0) →
        IsVelocityDofs k (divDegree red k) poly n V dir ts (vectorPoly q) (divPoly q) v → ∀ p : ℝ × ℝ,
          polyOf k poly.centroid poly.diameter (apply Q.1 v) p = eval ![p.1, p.2] q.1 ∧ polyOf k poly.centroid poly.diameter (apply Q.2 v) p = eval ![p.1, p.2] q.2) →
      ∃ S, dfDofiDofi Q c s1.D = .ok S ∧ S.rows = N ∧ S.cols = S.rows ∧
        (∀ i j, S.ent i j = S.ent j i) ∧ ∀ x : Nat → ℝ, 0 ≤ ∑ i ∈ Finset.range S.rows, x i * apply S x i ∧
          (∀ (q : MvPolynomial (Fin 2) ℝ × MvPolynomial (Fin 2) ℝ) (y : Nat → ℝ), (∀ p : ℝ × ℝ, eval ![p.1, p.2] q.1 = polyOf k poly.centroid poly.diameter (apply Q.1 x) p) →
            (∀ p : ℝ × ℝ, eval ![p.1, p.2] q.2 = polyOf k poly.centroid poly.diameter (apply Q.2 x) p) →
            IsVelocityDofs k (divDegree red k) poly n V dir ts (vectorPoly q) (divPoly q) y →
            ∑ i ∈ Finset.range S.rows, x i * apply S x i = c * ∑ r ∈ Finset.range S.rows, (y r - x r) ^ 2) ∧
          (∀ q, q.1.totalDegree ≤ k → q.2.totalDegree ≤ k → (red = true → (divPoly q).totalDegree = 0) →
            IsVelocityDofs k (divDegree red k) poly n V dir ts (vectorPoly q) (divPoly q) x → ∑ i ∈ Finset.range S.rows, x i * apply S x i = 0) ∧
          (∑ i ∈ Finset.range S.rows, x i * apply S x i = 0 → ∃ q, q.1.totalDegree ≤ k ∧ q.2.totalDegree ≤ k ∧
            IsVelocityDofs k (divDegree red k) poly n V dir ts (vectorPoly q) (divPoly q) x) := by
    intro c Q hcpos q1 q2 q3 q4 hQ
    obtain ⟨S, hS, h1, h2, h3, h4⟩ := dfDofi_form (tri (k + 1)) N Q.1 Q.2 s1.D.1 s1.D.2 q1 q2 q3 q4 ((hs.dofs 0).rows.trans hcols) ((hs.dofs 1).rows.trans hcols)
      (hs.dofs 0).cols (hs.dofs 1).cols c
    refine ⟨S, hS, h1, h2.trans h1.symm, h3, fun x => ?_⟩
    rw [h1, h4]
    have hnn : 0 ≤ ∑ r ∈ Finset.range N, (apply s1.D.1 (apply Q.1 x) r + apply s1.D.2 (apply Q.2 x) r - x r) ^ 2 := Finset.sum_nonneg fun r _ => sq_nonneg _
    refine ⟨mul_nonneg hcpos.le hnn, fun q y e1 e2 hy => ?_, fun q d1 d2 hd hx => ?_, fun h0 => ?_⟩
    · have e1' : combo k poly.centroid poly.diameter (tri (k + 1)) (apply Q.1 x) = q.1 := ev2_ext fun p => by
        rw [ev2_combo k _ _ le_rfl]
        exact (e1 p).symm
      have e2' : combo k poly.centroid poly.diameter (tri (k + 1)) (apply Q.2 x) = q.2 := ev2_ext fun p => by
        rw [ev2_combo k _ _ le_rfl]
        exact (e2 p).symm
      have h5 := dofs_apply hT (divDegree_le red hk) hs ![apply Q.1 x, apply Q.2 x]
      simp only [Matrix.cons_val_zero, Matrix.cons_val_one] at h5
      rw [e1', e2'] at h5
      refine congrArg (c * ·) (Finset.sum_congr rfl fun r hr => ?_)
      rw [velDofs_unique hk hT.nodes h5 hy r (Finset.mem_range.1 hr)]
    · refine mul_eq_zero_of_right _ (Finset.sum_eq_zero fun r hr => ?_)
      have e1 : combo k poly.centroid poly.diameter (tri (k + 1)) (apply Q.1 x) = q.1 := ev2_ext fun p => by
        rw [ev2_combo k _ _ le_rfl]
        exact (hQ q x d1 d2 hd hx p).1
      have e2 : combo k poly.centroid poly.diameter (tri (k + 1)) (apply Q.2 x) = q.2 := ev2_ext fun p => by
        rw [ev2_combo k _ _ le_rfl]
        exact (hQ q x d1 d2 hd hx p).2
      have h5 := dofs_apply hT (divDegree_le red hk) hs ![apply Q.1 x, apply Q.2 x]
      simp only [Matrix.cons_val_zero, Matrix.cons_val_one] at h5
      rw [e1, e2] at h5
      have := velDofs_unique hk hT.nodes h5 hx r (Finset.mem_range.1 hr)
      rw [this, sub_self]
      norm_num
    · have h5 := (mul_eq_zero.1 h0).resolve_left hcpos.ne'
      rw [Finset.sum_eq_zero_iff_of_nonneg fun r _ => sq_nonneg _] at h5
      have h6 := dofs_apply hT (divDegree_le red hk) hs ![apply Q.1 x, apply Q.2 x]
      refine ⟨_, combo_degree (k := k) _ le_rfl, combo_degree (k := k) _ le_rfl, velDofs_congr hk hT.nodes h6 fun r hr => ?_⟩
      have := h5 r (Finset.mem_range.2 hr)
      exact sub_eq_zero.1 (pow_eq_zero_iff (two_ne_zero) |>.1 this)
  refine ⟨r1, s1, hr, hc, fun type Q c ht => ?_, fun type h1 h2 => ?_⟩
  · rcases ht with ⟨rfl, rfl, rfl⟩ | ⟨rfl, rfl, rfl⟩
    · exact key 1 s1.piNabla one_pos (hs.nabla 0).rows (hs.nabla 1).rows ((hs.nabla 0).cols.trans hcols) ((hs.nabla 1).cols.trans hcols)
        fun q v d1 d2 hd hv p => ⟨(hex q v d1 d2 hd hv p).1, (hex q v d1 d2 hd hv p).2.1⟩
    · have := key poly.measure s1.pi0k hpos (hs.fullRows 0) (hs.fullRows 1) ((hs.fullCols 0).trans hcols) ((hs.fullCols 1).trans hcols)
        fun q v d1 d2 hd hv p => ⟨(hex q v d1 d2 hd hv p).2.2.1, (hex q v d1 d2 hd hv p).2.2.2⟩
      unfold dfStabilization
      rw [hs.measure]
      exact this
  · unfold dfStabilization
    cases type <;> first | rfl | contradiction

/-- The unit square at order 2: the stabilization vanishes on the DOFs of the field `(x², -2xy)`. -/
example (red : Bool) : ∃ lu llt : Solver ℝ, ∃ ref s S v,
    dfRef2D red (fun _ => ⟨boolePoints, booleWeights⟩) dfEdgeRules 2 = .ok ref ∧ dfCreate2D Real.sqrt lu llt ref squarePoly = .ok s ∧
    dfStabilization s .pi0k = .ok S ∧ IsVelocityDofs 2 (divDegree red 2) squarePoly 4 squareV (fun i => i % 2 = 0) [1 / 2] (vectorPoly squareQ) (divPoly squareQ) v ∧
    ∑ i ∈ Finset.range S.rows, v i * apply S v i = 0 := by
  obtain ⟨lu, h1, h2⟩ := exists_solvers
  obtain ⟨ref, s, hr, hs, h, _⟩ := C114_stabilization red square_element df_tables real_sqrt h1 h2 (fun _ => square_area) (by norm_num [squarePoly])
  obtain ⟨S, hS, _, _, _, h3⟩ := h .pi0k _ _ (Or.inr ⟨rfl, rfl, rfl⟩)
  obtain ⟨v, _, hv⟩ := square_velocity red
  exact ⟨lu, lu, ref, s, S, v, hr, hs, hS, hv, (h3 v).2.2.1 _ squareQ_degree.1 squareQ_degree.2 (fun _ => by rw [squareQ_div, totalDegree_zero]) hv⟩

/-- C115: at any points and at the quadrature points the values of the projections `Pi0k` and `Pi0km2` are computed: row `i` applied to DOFs is the value of
the projection at the `i`-th point. Any other type of projection is refused. -/
theorem C115_values (red : Bool) (hE : IsElement poly n V len dir nrm) (hT : IsDfTables k triangle edge ts ws w ss vs v₀) (hsq : ∀ x, 0 ≤ x → sqrt x * sqrt x = x)
    (hlu : SolvesRegular lu) (hllt : SolvesPosDef llt) (harea : red = true → poly.measure = ∫ _p in unionOf poly.tris, (1 : ℝ)) :
    ∃ ref s, dfRef2D red triangle edge k = .ok ref ∧ dfCreate2D sqrt lu llt ref poly = .ok s ∧
      ∀ (values : DfProjection → Except Fault (DMat ℝ × DMat ℝ)) (points : List (ℝ × ℝ)),
        (values = fun t => dfValuesAt ref poly s t points) ∨ (values = dfValues s ∧ points = s.internal.points) →
      (∃ A B, values .pi0k = .ok (A, B) ∧ (A.rows = points.length ∧ B.rows = points.length ∧ A.cols = numVelocityDofs k (divDegree red k) n ∧ B.cols = numVelocityDofs k (divDegree red k) n) ∧
        ∀ (v : Nat → ℝ) (i : Nat) (p : ℝ × ℝ), points[i]? = some p → apply A v i = polyOf k poly.centroid poly.diameter (apply s.pi0k.1 v) p ∧
          apply B v i = polyOf k poly.centroid poly.diameter (apply s.pi0k.2 v) p) ∧
      (∃ A B, values .pi0km2 = .ok (A, B) ∧ (A.rows = points.length ∧ B.rows = points.length ∧ A.cols = numVelocityDofs k (divDegree red k) n ∧ B.cols = numVelocityDofs k (divDegree red k) n) ∧
        ∀ (v : Nat → ℝ) (i : Nat) (p : ℝ × ℝ), points[i]? = some p → apply A v i = polyOf (k - 2) poly.centroid poly.diameter (apply s.pi0km2.1 v) p ∧
          apply B v i = polyOf (k - 2) poly.centroid poly.diameter (apply s.pi0km2.2 v) p) ∧
      ∀ type, type ≠ .pi0k → type ≠ .pi0km2 → values type = .error .runtimeError := by
  obtain ⟨ref, s, hr, hc, hs⟩ := dfCreate_ok (sqrt := sqrt) red hE hT hsq hlu hllt harea
  have hm : ref.mono = compute mono2 k := by
    obtain ⟨g, _, hg⟩ := dfRef_ok red hT
    rw [hr] at hg
    rw [Except.ok.inj hg]
  have hcols := df_cols hT hs
  refine ⟨ref, s, hr, hc, fun values points hv => ?_⟩
  obtain ⟨X, hX, hval⟩ : ∃ X, Values points (tri (k + 1)) (basisPoly k poly.centroid poly.diameter) X ∧ ∀ t, values t = dfValuesOf s X t := by
    rcases hv with rfl | ⟨rfl, rfl⟩
    · obtain ⟨X, hX, hXv, _⟩ := vanderMat_ok k poly.centroid poly.diameter points
      rw [num2_eq] at hXv
      refine ⟨X, hXv, fun t => ?_⟩
      dsimp only
      unfold dfValuesAt
      rw [hm, hX, except_ok_bind]
    · exact ⟨s.init.vanderInt, hs.init.vInt, fun t => rfl⟩
  obtain ⟨⟨A, B, h1, ⟨h2, h3, h4, h5⟩, h6⟩, ⟨A', B', h1', ⟨h2', h3', h4', h5'⟩, h6'⟩, h7⟩ := dfValuesOf_ok hT.two hs hX
  exact ⟨⟨A, B, (hval _).trans h1, ⟨h2, h3, h4.trans ((hs.fullCols 0).trans hcols), h5.trans ((hs.fullCols 1).trans hcols)⟩, h6⟩,
    ⟨A', B', (hval _).trans h1', ⟨h2', h3', h4'.trans ((hs.lowCols 0).trans hcols), h5'.trans ((hs.lowCols 1).trans hcols)⟩, h6'⟩,
    fun type t1 t2 => (hval _).trans (h7 type t1 t2)⟩

/-- The unit square at order 2: the values at one point are two rows with 18 or 16 entries. -/
example (red : Bool) : ∃ lu llt : Solver ℝ, ∃ ref s A B,
    dfRef2D red (fun _ => ⟨boolePoints, booleWeights⟩) dfEdgeRules 2 = .ok ref ∧ dfCreate2D Real.sqrt lu llt ref squarePoly = .ok s ∧
    dfValuesAt ref squarePoly s .pi0k [(1 / 4, 1 / 3)] = .ok (A, B) ∧ A.rows = 1 ∧ A.cols = if red then 16 else 18 := by
  obtain ⟨lu, h1, h2⟩ := exists_solvers
  obtain ⟨ref, s, hr, hs, h⟩ := C115_values red square_element df_tables real_sqrt h1 h2 fun _ => square_area
  obtain ⟨⟨A, B, hA, ⟨h3, _, h4, _⟩, _⟩, _⟩ := h _ [(1 / 4, 1 / 3)] (Or.inl rfl)
  refine ⟨lu, lu, ref, s, A, B, hr, hs, hA, h3, h4.trans ?_⟩
  cases red <;> rfl

/-- C115: at any points and at the quadrature points the derivatives of the energy projections (type `PiNabla`) and the projections of the derivatives (type
`Pi0km1Der`) are computed; any other type of projection is refused. -/
theorem C115_derivatives (red : Bool) (hE : IsElement poly n V len dir nrm) (hT : IsDfTables k triangle edge ts ws w ss vs v₀) (hsq : ∀ x, 0 ≤ x → sqrt x * sqrt x = x)
    (hlu : SolvesRegular lu) (hllt : SolvesPosDef llt) (harea : red = true → poly.measure = ∫ _p in unionOf poly.tris, (1 : ℝ)) :
    ∃ ref s, dfRef2D red triangle edge k = .ok ref ∧ dfCreate2D sqrt lu llt ref poly = .ok s ∧
      ∀ (derivatives : DfProjection → Except Fault ((DMat ℝ × DMat ℝ) × (DMat ℝ × DMat ℝ))) (points : List (ℝ × ℝ)),
        (derivatives = fun t => dfDerivativesAt ref poly s t points) ∨ (derivatives = dfDerivatives s ∧ points = s.internal.points) →
      (∃ A : (DMat ℝ × DMat ℝ) × (DMat ℝ × DMat ℝ), derivatives .piNabla = .ok A ∧
        (A.1.1.rows = points.length ∧ A.1.2.rows = points.length ∧ A.2.1.rows = points.length ∧ A.2.2.rows = points.length) ∧
        (∀ X, X = A.1.1 ∨ X = A.1.2 ∨ X = A.2.1 ∨ X = A.2.2 → X.cols = numVelocityDofs k (divDegree red k) n) ∧
        ∀ v : Nat → ℝ, ∃ P Q : MvPolynomial (Fin 2) ℝ, (∀ p : ℝ × ℝ, eval ![p.1, p.2] P = polyOf k poly.centroid poly.diameter (apply s.piNabla.1 v) p) ∧
          (∀ p : ℝ × ℝ, eval ![p.1, p.2] Q = polyOf k poly.centroid poly.diameter (apply s.piNabla.2 v) p) ∧
          ∀ (i : Nat) (p : ℝ × ℝ), points[i]? = some p → apply A.1.1 v i = eval ![p.1, p.2] (pderiv 0 P) ∧ apply A.1.2 v i = eval ![p.1, p.2] (pderiv 1 P) ∧
            apply A.2.1 v i = eval ![p.1, p.2] (pderiv 0 Q) ∧ apply A.2.2 v i = eval ![p.1, p.2] (pderiv 1 Q)) ∧
      (∃ A : (DMat ℝ × DMat ℝ) × (DMat ℝ × DMat ℝ), derivatives .pi0km1Der = .ok A ∧
        (A.1.1.rows = points.length ∧ A.1.2.rows = points.length ∧ A.2.1.rows = points.length ∧ A.2.2.rows = points.length) ∧
        (∀ X, X = A.1.1 ∨ X = A.1.2 ∨ X = A.2.1 ∨ X = A.2.2 → X.cols = numVelocityDofs k (divDegree red k) n) ∧
        ∀ (v : Nat → ℝ) (i : Nat) (p : ℝ × ℝ), points[i]? = some p →
          apply A.1.1 v i = polyOf (k - 1) poly.centroid poly.diameter (apply s.der.1.1 v) p ∧ apply A.1.2 v i = polyOf (k - 1) poly.centroid poly.diameter (apply s.der.1.2 v) p ∧
          apply A.2.1 v i = polyOf (k - 1) poly.centroid poly.diameter (apply s.der.2.1 v) p ∧ apply A.2.2 v i = polyOf (k - 1) poly.centroid poly.diameter (apply s.der.2.2 v) p) ∧
      ∀ type, type ≠ .piNabla → type ≠ .pi0km1Der → derivatives type = .error .runtimeError := by
  obtain ⟨ref, s, hr, hc, hs⟩ := dfCreate_ok (sqrt := sqrt) red hE hT hsq hlu hllt harea
  have hm : ref.mono = compute mono2 k := by
    obtain ⟨g, _, hg⟩ := dfRef_ok red hT
    rw [hr] at hg
    rw [Except.ok.inj hg]
  have hcols := df_cols hT hs
  refine ⟨ref, s, hr, hc, fun derivatives points hv => ?_⟩
  obtain ⟨X, XD, hX, hXD, hval⟩ : ∃ X XD, Values points (tri (k + 1)) (basisPoly k poly.centroid poly.diameter) X ∧
      (∀ d : Fin 2, Values points (tri (k + 1)) (fun j => pderiv d (basisPoly k poly.centroid poly.diameter j)) (pick XD d)) ∧ ∀ t, derivatives t = dfDerivativesOf s X XD t := by
    rcases hv with rfl | ⟨rfl, rfl⟩
    · obtain ⟨X, hX, hXv, hXe⟩ := vanderMat_ok k poly.centroid poly.diameter points
      obtain ⟨Y, hY, hYv⟩ := vanderDerMat_ok k poly.centroid poly.diameter points X hXv.rows hXe 0
      obtain ⟨Z, hZ, hZv⟩ := vanderDerMat_ok k poly.centroid poly.diameter points X hXv.rows hXe 1
      rw [num2_eq] at hXv hYv hZv
      simp only [Fin.val_zero, Fin.val_one] at hY hZ
      refine ⟨X, (Y, Z), hXv, Fin.forall_fin_two.2 ⟨hYv, hZv⟩, fun t => ?_⟩
      dsimp only
      unfold dfDerivativesAt
      rw [hm, hX, except_ok_bind, hY, except_ok_bind, hZ, except_ok_bind]
    · exact ⟨s.init.vanderInt, s.init.vanderIntD, hs.init.vInt, hs.init.vIntD, fun t => rfl⟩
  obtain ⟨⟨A, h1, h2, ⟨c1, c2, c3, c4⟩, h3⟩, ⟨A', h1', h2', ⟨c1', c2', c3', c4'⟩, h3'⟩, h7⟩ := dfDerivativesOf_ok hT.two hs hX hXD
  refine ⟨⟨A, (hval _).trans h1, h2, ?_, h3⟩, ⟨A', (hval _).trans h1', h2', ?_, h3'⟩, fun type t1 t2 => (hval _).trans (h7 type t1 t2)⟩
  · rintro X (rfl | rfl | rfl | rfl)
    · exact c1.trans ((hs.nabla 0).cols.trans hcols)
    · exact c2.trans ((hs.nabla 0).cols.trans hcols)
    · exact c3.trans ((hs.nabla 1).cols.trans hcols)
    · exact c4.trans ((hs.nabla 1).cols.trans hcols)
  · rintro X (rfl | rfl | rfl | rfl)
    · exact c1'.trans ((hs.derCols 0 0).trans hcols)
    · exact c2'.trans ((hs.derCols 0 1).trans hcols)
    · exact c3'.trans ((hs.derCols 1 0).trans hcols)
    · exact c4'.trans ((hs.derCols 1 1).trans hcols)

/-- The unit square at order 2: the derivatives at two points. -/
example (red : Bool) : ∃ lu llt : Solver ℝ, ∃ ref s, ∃ A : (DMat ℝ × DMat ℝ) × (DMat ℝ × DMat ℝ),
    dfRef2D red (fun _ => ⟨boolePoints, booleWeights⟩) dfEdgeRules 2 = .ok ref ∧ dfCreate2D Real.sqrt lu llt ref squarePoly = .ok s ∧
    dfDerivativesAt ref squarePoly s .pi0km1Der [(1 / 4, 1 / 3), (1, 1)] = .ok A ∧ A.2.1.rows = 2 ∧ A.2.1.cols = if red then 16 else 18 := by
  obtain ⟨lu, h1, h2⟩ := exists_solvers
  obtain ⟨ref, s, hr, hs, h⟩ := C115_derivatives red square_element df_tables real_sqrt h1 h2 fun _ => square_area
  obtain ⟨_, ⟨A, hA, ⟨_, _, h3, _⟩, h4, _⟩, _⟩ := h _ [(1 / 4, 1 / 3), (1, 1)] (Or.inl rfl)
  refine ⟨lu, lu, ref, s, A, hr, hs, hA, h3, (h4 _ (Or.inr (Or.inr (Or.inl rfl)))).trans ?_⟩
  cases red <;> rfl

/-- C115: the divergence values at the quadrature points, applied to the DOFs of a velocity, are the values of its divergence. -/
theorem C115_divergence (red : Bool) (hE : IsElement poly n V len dir nrm) (hT : IsDfTables k triangle edge ts ws w ss vs v₀) (hsq : ∀ x, 0 ≤ x → sqrt x * sqrt x = x)
    (hlu : SolvesRegular lu) (hllt : SolvesPosDef llt) (harea : red = true → poly.measure = ∫ _p in unionOf poly.tris, (1 : ℝ)) :
    ∃ ref s A, dfRef2D red triangle edge k = .ok ref ∧ dfCreate2D sqrt lu llt ref poly = .ok s ∧ dfDivergenceValues s = .ok A ∧ A.rows = s.internal.points.length ∧
      A.cols = numVelocityDofs k (divDegree red k) n ∧
      ∀ u P v, IsVelocity k (divDegree red k) poly n V len nrm u P → IsVelocityDofs k (divDegree red k) poly n V dir ts u P v →
        ∀ (i : Nat) (p : ℝ × ℝ), s.internal.points[i]? = some p → apply A v i = eval ![p.1, p.2] P := by
  obtain ⟨ref, s, hr, hc, hs⟩ := dfCreate_ok (sqrt := sqrt) red hE hT hsq hlu hllt harea
  obtain ⟨r1, s1, hr1, hc1, hdiv⟩ := C109_divergence (sqrt := sqrt) red hE hT hsq hlu hllt harea
  obtain rfl : r1 = ref := Except.ok.inj (hr1.symm.trans hr)
  obtain rfl : s1 = s := Except.ok.inj (hc1.symm.trans hc)
  have hm := divDegree_le red hT.two
  obtain ⟨W, hW, hWv⟩ := values_left hs.init.vInt (N' := tri (divDegree red k + 1)) (tri_le (by omega))
  obtain ⟨A, hA, a1, a2, a3⟩ := values_mul hWv s1.V hs.v.rows
  refine ⟨r1, s1, A, hr, hc, ?_, a1, a2.trans (hs.v.cols.trans (df_cols hT hs)), fun u P v hu hv i p hp => ?_⟩
  · unfold dfDivergenceValues
    rw [hs.init.nDiv, hW, except_ok_bind, hA]
  · rw [a3 v i p hp, ← hdiv u P v hu hv p, ← ev2_combo k _ _ (show divDegree red k ≤ k by omega)]
    rfl

/-- The unit square at order 2: the divergence values of the field `(x², -2xy)` are zero. -/
example (red : Bool) : ∃ lu llt : Solver ℝ, ∃ ref s A v,
    dfRef2D red (fun _ => ⟨boolePoints, booleWeights⟩) dfEdgeRules 2 = .ok ref ∧ dfCreate2D Real.sqrt lu llt ref squarePoly = .ok s ∧
    dfDivergenceValues s = .ok A ∧ IsVelocityDofs 2 (divDegree red 2) squarePoly 4 squareV (fun i => i % 2 = 0) [1 / 2] (vectorPoly squareQ) (divPoly squareQ) v ∧
    ∀ (i : Nat) (p : ℝ × ℝ), s.internal.points[i]? = some p → apply A v i = 0 := by
  obtain ⟨lu, h1, h2⟩ := exists_solvers
  obtain ⟨ref, s, A, hr, hs, hA, _, _, h⟩ := C115_divergence red square_element df_tables real_sqrt h1 h2 fun _ => square_area
  obtain ⟨v, hu, hv⟩ := square_velocity red
  refine ⟨lu, lu, ref, s, A, v, hr, hs, hA, hv, fun i p hp => (h _ _ _ hu hv i p hp).trans ?_⟩
  rw [squareQ_div, map_zero]

/-- C116: the pressure space has the monomials up to the degree of the divergence; its values are those of the monomials and `Hmatrix` holds their products. -/
theorem C116_pressure (red : Bool) (hE : IsElement poly n V len dir nrm) (hT : IsDfTables k triangle edge ts ws w ss vs v₀) (hsq : ∀ x, 0 ≤ x → sqrt x * sqrt x = x) :
    ∃ P, dfPressure2D sqrt red triangle k poly = .ok P ∧ P.numBasis = (divDegree red k + 1) * (divDegree red k + 2) / 2 ∧
      ((dfPressureValues P).rows = P.internal.points.length ∧ (dfPressureValues P).cols = P.numBasis ∧ P.H.rows = P.numBasis ∧ P.H.cols = P.numBasis) ∧
      (∀ (i : Nat) (p : ℝ × ℝ), P.internal.points[i]? = some p → ∀ a b, a + b ≤ divDegree red k →
        (dfPressureValues P).ent i (position a b) = scaledMonomial poly.centroid poly.diameter a b p) ∧
      (∀ points : List (ℝ × ℝ), ∃ A, dfPressureValuesAt poly P points = .ok A ∧ A.rows = points.length ∧ A.cols = P.numBasis ∧
        ∀ (i : Nat) (p : ℝ × ℝ), points[i]? = some p → ∀ a b, a + b ≤ divDegree red k → A.ent i (position a b) = scaledMonomial poly.centroid poly.diameter a b p) ∧
      ∀ a b a' b', a + b ≤ divDegree red k → a' + b' ≤ divDegree red k → P.H.ent (position a b) (position a' b')
        = ∫ p in unionOf poly.tris, scaledMonomial poly.centroid poly.diameter a b p * scaledMonomial poly.centroid poly.diameter a' b' p := by
  have hk := hT.two
  have h2 := hT.below
  have hm := divDegree_le red hk
  set m := divDegree red k with hmdef
  obtain ⟨internal, dofs, hq1, _, hR⟩ := rules_ok hE hT.toIsTables
  have hpos : ∀ x ∈ internal.weights, 0 ≤ x := by
    obtain ⟨r, hr, hr'⟩ := C47_weights_nonneg (triangle (2 * k)) hT.triangleLength poly.tris hT.triangleWeights
    rw [hq1] at hr
    rw [Except.ok.inj hr]
    exact hr'
  have e1 : (if red then 0 else u32 (k + 4294967295)) = m := by
    rw [hmdef]
    unfold divDegree
    cases red
    · simp only [Bool.false_eq_true, if_false]
      unfold u32
      omega
    · simp only [if_true]
  have e2 : (if red then 1 else u32 (k * u32 (k + 1)) / 2) = tri (m + 1) := by
    rw [hmdef]
    unfold divDegree
    cases red
    · simp only [Bool.false_eq_true, if_false]
      have e1'' : u32 (k + 1) = k + 1 := by unfold u32; omega
      have e2 : u32 (k * (k + 1)) = k * (k + 1) := by
        unfold u32
        refine Nat.mod_eq_of_lt ?_
        calc k * (k + 1) ≤ 65535 * 65536 := Nat.mul_le_mul h2 (by omega)
          _ < 4294967296 := by norm_num
      rw [e1'', e2, tri_div', show k - 1 + 1 = k by omega]
    · rfl
  have e3 : u32 (2 * k) = 2 * k := by unfold u32; omega
  obtain ⟨X, hX, hXv, _⟩ := vanderMat_ok m poly.centroid poly.diameter internal.points
  rw [num2_eq] at hXv
  have hsl : (internal.weights.map sqrt).length = internal.points.length := by rw [List.length_map, hR.wlen]
  have hsqw : ∀ i, (internal.weights.map sqrt).getD i 0 * (internal.weights.map sqrt).getD i 0 = internal.weights.getD i 0 := by
    intro i
    by_cases hi : i < internal.weights.length
    · have : (internal.weights.map sqrt).getD i 0 = sqrt internal.weights[i] := by simp [List.getD_eq_getElem?_getD, hi]
      rw [this, hsq _ (hpos _ (List.getElem_mem hi))]
      simp [List.getD_eq_getElem?_getD, hi]
    · simp [List.getD_eq_getElem?_getD, hi]
  have hok : dfPressure2D sqrt red triangle k poly = .ok ⟨compute mono2 m, tri (m + 1), internal, X, ⟨X.cols, X.cols, fun i j => ∑ l ∈ Finset.range X.rows,
      (internal.weights.map sqrt).getD l 0 * X.ent l i * ((internal.weights.map sqrt).getD l 0 * X.ent l j)⟩⟩ := by
    unfold dfPressure2D
    rw [e1, e2, e3, hq1, except_ok_bind]
    rw [hX, except_ok_bind, sqrtArray_ok sqrt _ hpos, except_ok_bind, scaleRows_ok _ _ (by rw [hsl, hXv.rows]), except_ok_bind, DMat.mul_ok _ _ (by rfl), except_ok_bind]
    rfl
  refine ⟨_, hok, (tri_div m).symm, ⟨hXv.rows, hXv.cols, hXv.cols, hXv.cols⟩, ?_, ?_, ?_⟩
  · intro i p hp a b hab
    rw [← ev2_basis_position m _ _ hab]
    exact hXv.ent i p hp _ (position_lt.2 hab)
  · intro points
    obtain ⟨A, hA, hAv, _⟩ := vanderMat_ok m poly.centroid poly.diameter points
    rw [num2_eq] at hAv
    refine ⟨A, hA, hAv.rows, hAv.cols, fun i p hp a b hab => ?_⟩
    rw [← ev2_basis_position m _ _ hab]
    exact hAv.ent i p hp _ (position_lt.2 hab)
  · intro a b a' b' hab hab'
    have d1 := basisPoly_degree m poly.centroid poly.diameter (j := position a b) (m := m) (by rw [num2_eq]; exact position_lt.2 hab) (position_lt.2 hab)
    have d2 := basisPoly_degree m poly.centroid poly.diameter (j := position a' b') (m := m) (by rw [num2_eq]; exact position_lt.2 hab') (position_lt.2 hab')
    have hint := hR.integral (basisPoly m poly.centroid poly.diameter (position a b) * basisPoly m poly.centroid poly.diameter (position a' b')) ((totalDegree_mul _ _).trans (by omega))
    have e : (∫ p in unionOf poly.tris, ev2 (basisPoly m poly.centroid poly.diameter (position a b) * basisPoly m poly.centroid poly.diameter (position a' b')) p)
        = ∫ p in unionOf poly.tris, scaledMonomial poly.centroid poly.diameter a b p * scaledMonomial poly.centroid poly.diameter a' b' p := by
      congr 1
      funext p
      rw [← ev2_basis_position m _ _ hab, ← ev2_basis_position m _ _ hab']
      simp only [ev2, map_mul]
    rw [← e, ← hint]
    dsimp only
    rw [hXv.rows, ← sum_quadLin internal.points internal.weights hR.wlen (fun l => X.ent l (position a b) * X.ent l (position a' b')) _ (fun l p hl => by
      rw [hXv.ent l p hl _ (position_lt.2 hab), hXv.ent l p hl _ (position_lt.2 hab')]
      simp [ev2])]
    refine Finset.sum_congr rfl fun l _ => ?_
    rw [← hsqw l]
    ring

/-- The unit square at order 2: three pressure functions in the full space, one in the reduced one. -/
example (red : Bool) : ∃ P, dfPressure2D Real.sqrt red (fun _ => ⟨boolePoints, booleWeights⟩) 2 squarePoly = .ok P ∧ P.numBasis = if red then 1 else 3 := by
  obtain ⟨P, hP, h, _⟩ := C116_pressure red square_element df_tables real_sqrt
  refine ⟨P, hP, h.trans ?_⟩
  cases red <;> rfl

/-- C108, order 1: on every polygon the local space is not created: `VanderKp1EdgeProjections` has two rows per vertex, the boundary quadrature of order 1 has
only one point per vertex, so the product in `ComputeCMatrixkm2` has factors of different sizes. -/
theorem C108_order_one (red : Bool) (hE : IsElement poly n V len dir nrm) (hn : 0 < n) {ref : DfRef2D ℝ} (hr : dfRef2D red triangle edge 1 = .ok ref) :
    ∀ s, dfCreate2D sqrt lu llt ref poly ≠ .ok s := by
  intro s hs
  have hnv : poly.edges.vertices.length = n := by rw [hE.edges.vertices, List.length_map, List.length_range]
  have hseg : ref.segment = ([], [], (1 / 2, 1 / 2)) ∧ ref.order = 1 := by
    unfold dfRef2D at hr
    simp only [bind_ok_iff, Except.ok.injEq] at hr
    obtain ⟨g, _, x, hx, y, _, rfl⟩ := hr
    unfold dfSegmentRule lobattoSplit at hx
    rw [if_pos rfl] at hx
    exact ⟨(Except.ok.inj hx).symm, rfl⟩
  obtain ⟨b, hb, hbp, _⟩ := C48_sum hE.edges ([] : List ℝ) [] (1 / 2, 1 / 2) rfl
  have hlen : b.points.length = n := by
    rw [hbp]
    simp
  unfold dfCreate2D at hs
  simp only [bind_ok_iff] at hs
  obtain ⟨internal, _, bnd, hbnd, dofs, _, i, hi, _, _, _, _, WV, _, C0, hC0, _⟩ := hs
  rw [hseg.1] at hbnd
  obtain rfl : b = bnd := Except.ok.inj (hb.symm.trans hbnd)
  -- the matrices of the initialisation
  have hrows : i.edgeProj.rows = n + n ∧ i.vanderBndKp1.rows = n := by
    unfold dfInit2D at hi
    simp only [bind_ok_iff, Except.ok.injEq] at hi
    obtain ⟨_, _, _, _, _, _, _, _, _, _, _, _, _, _, VB, hVB, _, _, _, _, _, _, _, _, EP, hEP, _, _, _, _, _, _, _, _, rfl⟩ := hi
    constructor
    · dsimp only
      unfold dfEdgeProjections at hEP
      simp only [bind_ok_iff, Except.ok.injEq] at hEP
      obtain ⟨M, hM, F, _, r, hr', rfl⟩ := hEP
      have hM' : M.rows = n + n := by
        unfold DMat.assign at hM
        split at hM
        · rw [← Except.ok.inj hM]
          dsimp only [DMat.zero]
          rw [hnv, hseg.2, one_mul]
        · exact absurd hM (by simp)
      have hstep : ∀ (l : List Nat) (a c : DMat ℝ × Nat), l.foldlM (dfEdgeStep poly.edges.dirs poly.edges.vertices.length ref.order F) a = .ok c → c.1.rows = a.1.rows := by
        intro l
        induction l with
        | nil => intro a c h; rw [← Except.ok.inj h]
        | cons e l ih =>
          intro a c h
          rw [List.foldlM_cons, bind_ok_iff] at h
          obtain ⟨x, hx, hy⟩ := h
          rw [ih x c hy]
          have asg : ∀ {A X B : DMat ℝ} {r c m n : Nat}, A.assign r c m n X = .ok B → B.rows = A.rows := by
            intro A X B r c m n h
            unfold DMat.assign at h
            split at h
            · rw [← Except.ok.inj h]
            · exact absurd h (by simp)
          unfold dfEdgeStep at hx
          simp only [bind_ok_iff, Except.ok.injEq] at hx
          obtain ⟨_, _, _, _, M1, h1, _, _, M2, h2, _, _, M3, h3, rfl⟩ := hx
          exact (asg h3).trans ((asg h2).trans (asg h1))
      rw [hstep _ _ _ hr', hM']
    · unfold vanderMat at hVB
      simp only [bind_ok_iff, Except.ok.injEq] at hVB
      obtain ⟨_, _, rfl⟩ := hVB
      exact hlen
  unfold dfC at hC0
  simp only [bind_ok_iff] at hC0
  obtain ⟨T, _, VB, hVB, X, hX, X0, hX0, Y0, hY0, _⟩ := hC0
  have h1 : VB.rows = n := by
    unfold DMat.block at hVB
    split at hVB
    · rw [← Except.ok.inj hVB]
      exact hrows.2
    · exact absurd hVB (by simp)
  have h2 : X.cols = n := by
    unfold DMat.mul at hX
    split at hX
    · rw [← Except.ok.inj hX]
      exact h1
    · exact absurd hX (by simp)
  have h3 : X0.cols = n := by
    unfold DMat.mulDiag at hX0
    split at hX0
    · rw [← Except.ok.inj hX0]
      exact h2
    · exact absurd hX0 (by simp)
  unfold DMat.mul at hY0
  split at hY0
  · rename_i h
    rw [h3, hrows.1] at h
    omega
  · exact absurd hY0 (by simp)

/-- On the unit square the reference element of order 1 exists but the local space does not. -/
example (red : Bool) (lu llt : Solver ℝ) : ∃ ref, dfRef2D red (fun _ => ⟨boolePoints, booleWeights⟩) dfEdgeRules 1 = .ok ref ∧
    ∀ s, dfCreate2D Real.sqrt lu llt ref squarePoly ≠ .ok s := by
  obtain ⟨g, hg, _⟩ := dec_ok 1
  have hr : ∃ ref, dfRef2D red (fun _ => ⟨boolePoints, booleWeights⟩) dfEdgeRules 1 = .ok ref := by
    unfold dfRef2D dfSegmentRule pccEdgeRule lobattoSplit
    rw [hg, except_ok_bind, if_pos rfl, except_ok_bind, if_pos rfl, except_ok_bind]
    exact ⟨_, rfl⟩
  obtain ⟨ref, hr⟩ := hr
  exact ⟨ref, hr, C108_order_one red square_element (by norm_num) hr⟩

end

end PolyDiM
