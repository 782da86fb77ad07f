import Verif.Props.VemOrtho

/-!
# DOF matrix, stabilization and evaluation of the VEM local space with an orthonormal basis (C136, C137)
-/

namespace PolyDiM

open Spec MvPolynomial MeasureTheory

section
variable {k n : Nat} {V : Nat → ℝ × ℝ} {len : Nat → ℝ} {dir : Nat → Bool} {nrm : Nat → ℝ × ℝ} {poly : VemPolygon ℝ}
  {triangle : Nat → Rule (ℝ × ℝ) ℝ} {edge : Nat → Rule ℝ ℝ} {ts ws : List ℝ} {w : ℝ} {lu llt : Solver ℝ} {lib : OrthoLib ℝ} {s : VemSpace2D ℝ} {t : OrthoSpace2D ℝ}

/-- C136: the columns of the DOF matrix are the DOFs of the polynomials of the basis. -/
theorem C136_dofs (hE : IsElement poly n V len dir nrm) (hT : IsTables k triangle edge ts ws w) (hpos : ∀ x ∈ (triangle (2 * k)).weights, 0 ≤ x)
    (hlu : SolvesRegular lu) (hllt : SolvesPosDef llt) (hl : IsOrthoLib lib) :
    ∃ ref t, vemRef2D triangle edge k = .ok ref ∧ orthoCreate2D lib lu llt ref poly = .ok t ∧
      t.D.rows = n + n * (k - 1) + k * (k - 1) / 2 ∧ t.D.cols = (k + 1) * (k + 2) / 2 ∧
      ∀ j < (k + 1) * (k + 2) / 2, IsOrthoDofs k poly t.base.q n V dir ts (polyOf k poly.centroid poly.diameter fun l => t.base.q.ent j l) fun r => t.D.ent r j := by
  obtain ⟨ref, s, t, hr, _, ht, hs, ho⟩ := orthoCreate_ok hE hT hpos hlu hllt hl.mgs hl.inverse hl.sqrt
  have htri := tri_sub_le k
  refine ⟨ref, t, hr, ht, ?_, ?_, ?_⟩
  · rw [ho.dofs.rows, ← hs.length, half_tri]
  · rw [ho.dofs.cols, tri_div]
  · rw [tri_div]
    intro j hj
    have hv : ∀ (r : Nat) (p : ℝ × ℝ), s.boundary.points[r]? = some p → t.D.ent r j = polyOf k poly.centroid poly.diameter (fun l => t.base.q.ent j l) p := by
      intro r p hp
      rw [ho.dofs.value r p hp j hj, ev2_oPoly]
    refine ⟨fun e he => hv e _ ?_, fun e he i t ht => hv _ _ ?_, fun l hl => ?_⟩
    · rw [hs.rules.points, List.getElem?_append_left (by simpa using he), List.getElem?_map, List.getElem?_range he]
      rfl
    · have hi : i < k - 1 := by
        rw [← hT.nodes]
        exact (List.getElem?_eq_some_iff.1 ht).1
      rw [hs.rules.points, List.getElem?_append_right (by simp; omega), List.length_map, List.length_range,
        show n + e * (k - 1) + i - n = e * (k - 1) + i by omega,
        flatMap_get _ _ (k - 1) e i e (by simp [hT.nodes]) (by rw [List.getElem?_range he]) hi, List.getElem?_map, ht]
      rfl
    · rw [half_tri] at hl
      rw [hs.length, ho.dofs.moment l hl j hj, ← oPoly_gram ho.basis (show l < tri (k + 1) by omega) hj, hs.rules.integral _ (by
        refine (totalDegree_mul _ _).trans ?_
        have h1 := oPoly_degree ho.basis le_rfl (show l < tri (k + 1) by omega)
        have h2 := oPoly_degree ho.basis le_rfl hj
        omega), div_eq_inv_mul, one_div]
      congr 2
      funext p
      rw [← ev2_oPoly, ← ev2_oPoly]
      simp [ev2]

/-- The unit square at order 2: nine DOFs, six polynomials. -/
example : ∃ (lib : OrthoLib ℝ) (lu llt : Solver ℝ), ∃ ref t, vemRef2D (fun _ => ⟨conicalPoints, conicalWeights⟩) (fun _ => ⟨[0, 1 / 2, 1], [1 / 6, 2 / 3, 1 / 6]⟩) 2 = .ok ref ∧
    orthoCreate2D lib lu llt ref squarePoly = .ok t ∧ t.D.rows = 9 ∧ t.D.cols = 6 := by
  obtain ⟨lib, hl⟩ := exists_ortho_lib
  obtain ⟨lu, h1, h2⟩ := exists_solvers
  obtain ⟨ref, t, hr, ht, h3, h4, _⟩ := C136_dofs square_element conical_tables conical_pos h1 h2 hl
  exact ⟨lib, lu, lu, ref, t, hr, ht, h3, h4⟩

/-- The DOF matrix takes the coefficients of a polynomial to its DOFs. -/
theorem ortho_reproduce (hE : IsElement poly n V len dir nrm) (hT : IsTables k triangle edge ts ws w) (hs : SpaceOk k n V len dir ts ws w poly s)
    (ho : OSpaceOk k poly s t) {q : MvPolynomial (Fin 2) ℝ} {v : Nat → ℝ} (hv : IsOrthoDofs k poly t.base.q n V dir ts (fun p => eval ![p.1, p.2] q) v) {x : Nat → ℝ}
    (hx : oCombo k poly.centroid poly.diameter t.base.q (tri (k + 1)) x = q) (hl : ∀ l < tri (k - 1), x l = poly.measure * v (s.boundary.points.length + l)) :
    ∀ b < s.boundary.points.length + tri (k - 1), ∑ l ∈ Finset.range (tri (k + 1)), t.D.ent b l * x l = v b := by
  have htri := tri_sub_le k
  intro b hb
  rcases lt_or_ge b s.boundary.points.length with h | h
  · have hp : s.boundary.points[b]? = some s.boundary.points[b] := List.getElem?_eq_getElem h
    have hcont : IntegrableOn (fun p : ℝ × ℝ => eval ![p.1, p.2] q) (unionOf poly.tris) := (poly2_continuous q).continuousOn.integrableOn_compact (unionOf_compact _)
    have h1 := (dofsU_ok hE hT hs (dofs_back hE hT hs ho.basis hcont hv)).value b _ hp
    rw [monoDofs_low h] at h1
    rw [h1, ← hx]
    simp only [oCombo, map_sum, map_mul, eval_C]
    refine Finset.sum_congr rfl fun l hl => ?_
    rw [ho.dofs.value b _ hp l (Finset.mem_range.1 hl), mul_comm]
  · obtain ⟨l, rfl⟩ : ∃ l, b = s.boundary.points.length + l := ⟨b - s.boundary.points.length, by omega⟩
    have hl' : l < tri (k - 1) := by omega
    rw [Finset.sum_eq_single_of_mem l (Finset.mem_range.2 (by omega)) fun j hj hne => ?_]
    · rw [ho.dofs.moment l hl' l (by omega), if_pos rfl, hl l hl', one_div, inv_mul_cancel_left₀ hE.measure]
    · rw [ho.dofs.moment l hl' j (Finset.mem_range.1 hj), if_neg (Ne.symm hne), zero_div, zero_mul]

/-- C136: the dofi-dofi stabilization is a symmetric matrix over the DOFs whose quadratic form is 1 (`PiNabla`) or the measure (`Pi0k`) times the
sum of the squares of what projecting and taking DOFs changes in the vector; it vanishes on the DOFs of polynomials. Types of projection other than `PiNabla` and `Pi0k` are refused. -/
theorem C136_stabilization (hE : IsElement poly n V len dir nrm) (hT : IsTables k triangle edge ts ws w) (hpos : ∀ x ∈ (triangle (2 * k)).weights, 0 ≤ x)
    (hlu : SolvesRegular lu) (hllt : SolvesPosDef llt) (hl : IsOrthoLib lib) :
    ∃ ref t, vemRef2D triangle edge k = .ok ref ∧ orthoCreate2D lib lu llt ref poly = .ok t ∧
      (∀ type P, (type = ProjType.piNabla ∧ P = t.piNabla) ∨ (type = ProjType.pi0k ∧ P = t.pi0k) →
        ∃ S, orthoDofiDofi poly t type = .ok S ∧ S.rows = n + n * (k - 1) + k * (k - 1) / 2 ∧ S.cols = n + n * (k - 1) + k * (k - 1) / 2 ∧
          (∀ i j, S.ent i j = S.ent j i) ∧
          (∀ x : Nat → ℝ, ∑ i ∈ Finset.range (n + n * (k - 1) + k * (k - 1) / 2), x i * apply S x i
            = (if type = ProjType.piNabla then 1 else poly.measure) * ∑ b ∈ Finset.range (n + n * (k - 1) + k * (k - 1) / 2),
              (apply t.D (apply P x) b - x b) ^ 2) ∧
          ∀ q : MvPolynomial (Fin 2) ℝ, q.totalDegree ≤ k → ∀ v : Nat → ℝ, IsOrthoDofs k poly t.base.q n V dir ts (fun p => eval ![p.1, p.2] q) v →
            ∀ i < n + n * (k - 1) + k * (k - 1) / 2, apply S v i = 0) ∧
      ∀ type, type ≠ .piNabla → type ≠ .pi0k → orthoDofiDofi poly t type = .error .runtimeError := by
  obtain ⟨ref, s, t, hr, hc, ht, hs, ho⟩ := orthoCreate_ok hE hT hpos hlu hllt hl.mgs hl.inverse hl.sqrt
  have htri := tri_sub_le k
  obtain ⟨W, hN⟩ := ho.nabla
  refine ⟨ref, t, hr, ht, ?_, ?_⟩
  · rintro type P hP
    rw [half_tri, hs.length]
    have hPr : P.rows = tri (k + 1) := by
      rcases hP with ⟨_, rfl⟩ | ⟨_, rfl⟩
      · exact ho.solves.1.trans hN.gCols
      · exact ho.l2.zRows
    have hPc : P.cols = s.boundary.points.length + tri (k - 1) := by
      rcases hP with ⟨_, rfl⟩ | ⟨_, rfl⟩
      · exact ho.solves.2.1.trans hN.bCols
      · exact ho.l2.zCols
    obtain ⟨S, hS, h1, h2, h3, h4⟩ := C50_dofi_form (tri (k + 1)) (s.boundary.points.length + tri (k - 1)) P.ent t.D.ent (if type = ProjType.piNabla then 1 else poly.measure)
    have hshape : ∀ {A : DMat ℝ} {r c : Nat}, A.rows = r → A.cols = c → (⟨r, c, A.ent⟩ : DMat ℝ) = A := by
      rintro A _ _ rfl rfl
      rfl
    rw [hshape hPr hPc, hshape ho.dofs.rows ho.dofs.cols] at hS
    have hA : ∀ x b, apply t.D (apply P x) b = ∑ l ∈ Finset.range (tri (k + 1)), t.D.ent b l * ∑ j ∈ Finset.range (s.boundary.points.length + tri (k - 1)), P.ent l j * x j := by
      intro x b
      rw [apply_eq ho.dofs.cols, apply_eq hPc]
    refine ⟨S, ?_, h1, h2, h3, fun x => ?_, fun q hq v hv i hi => ?_⟩
    · rcases hP with ⟨rfl, rfl⟩ | ⟨rfl, rfl⟩ <;> exact hS
    · rw [apply_eq h2, h4]
      congr 1
      exact Finset.sum_congr rfl fun b _ => by rw [hA, sq]
    · obtain ⟨e1, e2, _, _, e5⟩ := ortho_exact hE hT hlu hllt hr hc hs ho hq hv
      have hx : oCombo k poly.centroid poly.diameter t.base.q (tri (k + 1)) (apply P v) = q := by
        rcases hP with ⟨_, rfl⟩ | ⟨_, rfl⟩
        · exact e1
        · exact e2
      have hrep := ortho_reproduce hE hT hs ho hv hx (by
        intro l hl
        rw [← (ol2_apply ho v).1 l hl]
        rcases hP with ⟨_, rfl⟩ | ⟨_, rfl⟩
        · rw [(e5 l (by omega)).1, (e5 l (by omega)).2]
        · rfl)
      generalize (if type = ProjType.piNabla then (1 : ℝ) else poly.measure) = c at h4
      have := h4 (fun j => if j = i then 1 else 0) v
      simp only [ite_mul, one_mul, zero_mul, Finset.sum_ite_eq', Finset.mem_range, hi, if_true] at this
      rw [apply_eq h2]
      beta_reduce
      rw [apply_eq hPc] at hrep
      rw [this, Finset.sum_eq_zero fun b hb => by rw [hrep b (Finset.mem_range.1 hb), sub_self, mul_zero], mul_zero]
  · intro type h1 h2
    unfold orthoDofiDofi
    cases type <;> first | rfl | contradiction

/-- The unit square at order 2: the stabilization of the DOFs of `x y` vanishes. -/
example : ∃ (lib : OrthoLib ℝ) (lu llt : Solver ℝ), ∃ ref t S v, vemRef2D (fun _ => ⟨conicalPoints, conicalWeights⟩) (fun _ => ⟨[0, 1 / 2, 1], [1 / 6, 2 / 3, 1 / 6]⟩) 2 = .ok ref ∧
    orthoCreate2D lib lu llt ref squarePoly = .ok t ∧ IsOrthoDofs 2 squarePoly t.base.q 4 squareV (fun i => i % 2 = 0) [1 / 2] (fun p => p.1 * p.2) v ∧
    orthoDofiDofi squarePoly t .pi0k = .ok S ∧ S.rows = 9 ∧ ∀ i < 9, apply S v i = 0 := by
  obtain ⟨lib, hl⟩ := exists_ortho_lib
  obtain ⟨lu, h1, h2⟩ := exists_solvers
  obtain ⟨ref, t, hr, ht, h, _⟩ := C136_stabilization square_element conical_tables conical_pos h1 h2 hl
  obtain ⟨S, hS, h3, _, _, _, h4⟩ := h .pi0k _ (Or.inr ⟨rfl, rfl⟩)
  obtain ⟨v, hv⟩ := exists_ortho_dofs 2 squarePoly t.base.q 4 squareV (fun i => i % 2 = 0) [1 / 2] rfl fun p => p.1 * p.2
  exact ⟨lib, lu, lu, ref, t, S, v, hr, ht, hv, hS, h3,
    h4 (X 0 * X 1) ((totalDegree_mul _ _).trans (by rw [totalDegree_X, totalDegree_X])) v (by simpa using hv)⟩

/-- The values of the first polynomials of the basis, from the leading blocks. -/
theorem values_corner {points : List (ℝ × ℝ)} {N M : Nat} {P : Nat → MvPolynomial (Fin 2) ℝ} {A Q : DMat ℝ} (hA : Values points N P A) (hr : Q.rows = N) (hc : Q.cols = N)
    (hq : ∀ i < N, ∀ j < N, i < j → Q.ent i j = 0) (hM : M ≤ N) :
    ∃ V1 C1 W, A.block 0 0 A.rows M = .ok V1 ∧ Q.block 0 0 M M = .ok C1 ∧ V1.mul C1.tr = .ok W ∧
      Values points M (fun i => ∑ j ∈ Finset.range N, C (Q.ent i j) * P j) W := by
  obtain ⟨V1, hV, hV1⟩ := values_left hA hM
  obtain ⟨C1, hC, c1, c2, c3⟩ := block_ex (A := Q) (r := 0) (c := 0) (m := M) (n := M) (by omega) (by omega)
  obtain ⟨W, hW, w1, w2, w3⟩ := mul_ex (A := V1) (B := C1.tr) (by rw [hV1.cols]; exact c2.symm)
  refine ⟨V1, C1, W, hV, hC, hW, by rw [w1, hV1.rows], by rw [w2]; exact c1, fun i p hp j hj => ?_⟩
  rw [w3, hV1.cols]
  simp only [ev2, map_sum, map_mul, eval_C]
  have hsub : Finset.range M ⊆ Finset.range N := Finset.range_subset_range.2 hM
  rw [← Finset.sum_subset hsub fun l hl hl' => by
    rw [hq j (by omega) l (Finset.mem_range.1 hl) (by simp at hl'; omega), zero_mul]]
  refine Finset.sum_congr rfl fun l hl => ?_
  rw [hV1.ent i p hp l (Finset.mem_range.1 hl), mul_comm, DMat.tr, c3]
  simp [ev2]

theorem ortho_values_mul {points : List (ℝ × ℝ)} {c : ℝ × ℝ} {h : ℝ} {M : Nat} {A Q : DMat ℝ} (hA : Values points M (oPoly k c h Q) A) (B : DMat ℝ) (hB : B.rows = M) :
    ∃ R, A.mul B = .ok R ∧ R.rows = points.length ∧ R.cols = B.cols ∧ ∀ (v : Nat → ℝ) (i : Nat) (p : ℝ × ℝ), points[i]? = some p →
      apply R v i = orthoOf k c h Q M (apply B v) p := by
  obtain ⟨R, h1, h2, h3, h4⟩ := values_mul hA B hB
  exact ⟨R, h1, h2, h3, fun v i p hp => by rw [h4 v i p hp, ← ev2_oCombo]; rfl⟩

/-- C137: at any points the values of the L2 projections of the basis functions are computed; any other type of projection is refused. -/
theorem C137_values (hE : IsElement poly n V len dir nrm) (hT : IsTables k triangle edge ts ws w) (hpos : ∀ x ∈ (triangle (2 * k)).weights, 0 ≤ x)
    (hlu : SolvesRegular lu) (hllt : SolvesPosDef llt) (hl : IsOrthoLib lib) :
    ∃ ref t, vemRef2D triangle edge k = .ok ref ∧ orthoCreate2D lib lu llt ref poly = .ok t ∧ ∀ points : List (ℝ × ℝ),
      (∃ A, orthoValuesAt ref poly t .pi0k points = .ok A ∧ A.rows = points.length ∧ A.cols = n + n * (k - 1) + k * (k - 1) / 2 ∧
        ∀ (v : Nat → ℝ) (i : Nat) (p : ℝ × ℝ), points[i]? = some p →
          apply A v i = orthoOf k poly.centroid poly.diameter t.base.q ((k + 1) * (k + 2) / 2) (apply t.pi0k v) p) ∧
      (∃ A, orthoValuesAt ref poly t .pi0km1 points = .ok A ∧ A.rows = points.length ∧ A.cols = n + n * (k - 1) + k * (k - 1) / 2 ∧
        ∀ (v : Nat → ℝ) (i : Nat) (p : ℝ × ℝ), points[i]? = some p →
          apply A v i = orthoOf k poly.centroid poly.diameter t.base.q (k * (k + 1) / 2) (apply t.pi0km1 v) p) ∧
      ∀ type, type ≠ .pi0k → type ≠ .pi0km1 → orthoValuesAt ref poly t type points = .error .runtimeError := by
  obtain ⟨ref, s, t, hr, _, ht, hs, ho⟩ := orthoCreate_ok hE hT hpos hlu hllt hl.mgs hl.inverse hl.sqrt
  have hm : ref.mono = compute mono2 k := by
    rw [vemRef_ok hT] at hr
    rw [← Except.ok.inj hr]
  refine ⟨ref, t, hr, ht, fun points => ?_⟩
  obtain ⟨W, _, _, hW, _, _, _, hW1, _, _⟩ := polyDer_ok hm poly points
  obtain ⟨A, hA, hA1⟩ := values_q hW1 ho.basis.qRows ho.basis.qCols
  have hP : orthoPolyValues ref poly t points = .ok A := by
    unfold orthoPolyValues
    rw [hW, except_ok_bind, hA]
  have hn : t.base.init.nkm1 = tri k := by rw [ho.init]; exact hs.init.nkm1
  rw [tri_div, tri_div']
  refine ⟨?_, ?_, ?_⟩
  · obtain ⟨R, h0, h1, h2, h3⟩ := ortho_values_mul hA1 t.pi0k ho.l2.zRows
    refine ⟨R, ?_, h1, by rw [h2, ho.l2.zCols, ← hs.length, half_tri], h3⟩
    unfold orthoValuesAt
    rw [hP, except_ok_bind]
    exact h0
  · obtain ⟨A', hA', hA1'⟩ := values_left hA1 (N' := tri k) (by rw [tri_succ]; omega)
    obtain ⟨R, h0, h1, h2, h3⟩ := ortho_values_mul hA1' t.pi0km1 ho.l2.yRows
    refine ⟨R, ?_, h1, by rw [h2, ho.l2.yCols, ← hs.length, half_tri], h3⟩
    unfold orthoValuesAt
    rw [hP, except_ok_bind, hn]
    dsimp only
    rw [hA', except_ok_bind]
    exact h0
  · intro type h1 h2
    unfold orthoValuesAt
    rw [hP, except_ok_bind]
    cases type <;> first | rfl | contradiction

/-- The unit square at order 2: the values at one point are a row with nine entries. -/
example : ∃ (lib : OrthoLib ℝ) (lu llt : Solver ℝ), ∃ ref t A, vemRef2D (fun _ => ⟨conicalPoints, conicalWeights⟩) (fun _ => ⟨[0, 1 / 2, 1], [1 / 6, 2 / 3, 1 / 6]⟩) 2 = .ok ref ∧
    orthoCreate2D lib lu llt ref squarePoly = .ok t ∧ orthoValuesAt ref squarePoly t .pi0km1 [(1 / 4, 1 / 3)] = .ok A ∧ A.rows = 1 ∧ A.cols = 9 := by
  obtain ⟨lib, hl⟩ := exists_ortho_lib
  obtain ⟨lu, h1, h2⟩ := exists_solvers
  obtain ⟨ref, t, hr, ht, h⟩ := C137_values square_element conical_tables conical_pos h1 h2 hl
  obtain ⟨_, ⟨A, hA, h3, h4, _⟩, _⟩ := h [(1 / 4, 1 / 3)]
  exact ⟨lib, lu, lu, ref, t, A, hr, ht, hA, h3, h4⟩

/-- The derivatives of a combination of the basis. -/
theorem pderiv_oCombo (d : Fin 2) (c : ℝ × ℝ) (h : ℝ) (Q : DMat ℝ) (M : Nat) (x : Nat → ℝ) :
    pderiv d (oCombo k c h Q M x) = ∑ i ∈ Finset.range M, C (x i) * pderiv d (oPoly k c h Q i) := by
  unfold oCombo
  rw [map_sum]
  exact Finset.sum_congr rfl fun i _ => pderiv_C_mul

/-- C137: at any points the derivatives of the energy projections of the basis functions (type `PiNabla`) and the projections of their derivatives
(type `Pi0km1Der`) are computed; any other type of projection is refused. -/
theorem C137_derivatives (hE : IsElement poly n V len dir nrm) (hT : IsTables k triangle edge ts ws w) (hpos : ∀ x ∈ (triangle (2 * k)).weights, 0 ≤ x)
    (hlu : SolvesRegular lu) (hllt : SolvesPosDef llt) (hl : IsOrthoLib lib) :
    ∃ ref t, vemRef2D triangle edge k = .ok ref ∧ orthoCreate2D lib lu llt ref poly = .ok t ∧ ∀ points : List (ℝ × ℝ),
      (∃ A B, orthoDerivativesAt ref poly t .piNabla points = .ok [A, B] ∧ A.rows = points.length ∧ B.rows = points.length ∧
        A.cols = n + n * (k - 1) + k * (k - 1) / 2 ∧ B.cols = n + n * (k - 1) + k * (k - 1) / 2 ∧
        ∀ v : Nat → ℝ, ∃ P : MvPolynomial (Fin 2) ℝ,
          (∀ p : ℝ × ℝ, eval ![p.1, p.2] P = orthoOf k poly.centroid poly.diameter t.base.q ((k + 1) * (k + 2) / 2) (apply t.piNabla v) p) ∧
          ∀ (i : Nat) (p : ℝ × ℝ), points[i]? = some p → apply A v i = eval ![p.1, p.2] (pderiv 0 P) ∧ apply B v i = eval ![p.1, p.2] (pderiv 1 P)) ∧
      (∃ A B, orthoDerivativesAt ref poly t .pi0km1Der points = .ok [A, B] ∧ A.rows = points.length ∧ B.rows = points.length ∧
        A.cols = n + n * (k - 1) + k * (k - 1) / 2 ∧ B.cols = n + n * (k - 1) + k * (k - 1) / 2 ∧
        ∀ (v : Nat → ℝ) (i : Nat) (p : ℝ × ℝ), points[i]? = some p →
          apply A v i = orthoOf k poly.centroid poly.diameter t.base.q (k * (k + 1) / 2) (apply t.derX v) p ∧
          apply B v i = orthoOf k poly.centroid poly.diameter t.base.q (k * (k + 1) / 2) (apply t.derY v) p) ∧
      ∀ type, type ≠ .piNabla → type ≠ .pi0km1Der → orthoDerivativesAt ref poly t type points = .error .runtimeError := by
  obtain ⟨ref, s, t, hr, _, ht, hs, ho⟩ := orthoCreate_ok hE hT hpos hlu hllt hl.mgs hl.inverse hl.sqrt
  have hm : ref.mono = compute mono2 k := by
    rw [vemRef_ok hT] at hr
    rw [← Except.ok.inj hr]
  obtain ⟨W, hN⟩ := ho.nabla
  obtain ⟨WX, hX⟩ := ho.derX
  obtain ⟨WY, hY⟩ := ho.derY
  have hpr : t.piNabla.rows = tri (k + 1) := ho.solves.1.trans hN.gCols
  have hpc : t.piNabla.cols = s.boundary.points.length + tri (k - 1) := ho.solves.2.1.trans hN.bCols
  have hn : t.base.init.nkm1 = tri k := by rw [ho.init]; exact hs.init.nkm1
  refine ⟨ref, t, hr, ht, fun points => ?_⟩
  obtain ⟨U, UX, UY, hU, hUX, hUY, _, hU1, hUX1, hUY1⟩ := polyDer_ok hm poly points
  rw [tri_div, tri_div']
  refine ⟨?_, ?_, ?_⟩
  · obtain ⟨A, hA, hA1⟩ := values_q hUX1 ho.basis.qRows ho.basis.qCols
    obtain ⟨B, hB, hB1⟩ := values_q hUY1 ho.basis.qRows ho.basis.qCols
    obtain ⟨R, hR, r1, r2, r3⟩ := values_mul hA1 t.piNabla hpr
    obtain ⟨R', hR', r1', r2', r3'⟩ := values_mul hB1 t.piNabla hpr
    refine ⟨R, R', ?_, r1, r1', by rw [r2, hpc, ← hs.length, half_tri], by rw [r2', hpc, ← hs.length, half_tri], fun v =>
      ⟨oCombo k poly.centroid poly.diameter t.base.q (tri (k + 1)) (apply t.piNabla v), fun p => ev2_oCombo _ _ _ _ _ _ _, fun i p hp => ?_⟩⟩
    · unfold orthoDerivativesAt orthoPolyDerivatives
      dsimp only
      rw [hU, except_ok_bind, hUX, except_ok_bind, hUY, except_ok_bind, hA, except_ok_bind, hB, except_ok_bind]
      exact mapM_range_two (fun i => (unchecked [A, B] i).bind fun d => d.mul t.piNabla) hR hR'
    · rw [r3 v i p hp, r3' v i p hp, pderiv_oCombo, pderiv_oCombo]
      simp only [pderiv_oPoly, and_self]
  · obtain ⟨A, hA, hA1⟩ := values_q hU1 ho.basis.qRows ho.basis.qCols
    obtain ⟨A', hA', hA1'⟩ := values_left hA1 (N' := tri k) (by rw [tri_succ]; omega)
    obtain ⟨R, hR, r1, r2, r3⟩ := ortho_values_mul hA1' t.derX hX.yRows
    obtain ⟨R', hR', r1', r2', r3'⟩ := ortho_values_mul hA1' t.derY hY.yRows
    refine ⟨R, R', ?_, r1, r1', by rw [r2, hX.yCols, ← hs.length, half_tri], by rw [r2', hY.yCols, ← hs.length, half_tri], fun v i p hp =>
      ⟨r3 v i p hp, r3' v i p hp⟩⟩
    unfold orthoDerivativesAt orthoPolyValues
    dsimp only
    rw [hU, except_ok_bind, hA, except_ok_bind, hn, hA', except_ok_bind, hR, except_ok_bind, hR', except_ok_bind]
  · intro type h1 h2
    unfold orthoDerivativesAt
    cases type <;> first | rfl | contradiction

/-- The unit square at order 2: the derivatives at two points are two matrices with two rows and nine columns. -/
example : ∃ (lib : OrthoLib ℝ) (lu llt : Solver ℝ), ∃ ref t A B, vemRef2D (fun _ => ⟨conicalPoints, conicalWeights⟩) (fun _ => ⟨[0, 1 / 2, 1], [1 / 6, 2 / 3, 1 / 6]⟩) 2 = .ok ref ∧
    orthoCreate2D lib lu llt ref squarePoly = .ok t ∧ orthoDerivativesAt ref squarePoly t .piNabla [(1 / 4, 1 / 3), (1, 1)] = .ok [A, B] ∧ A.rows = 2 ∧ A.cols = 9 := by
  obtain ⟨lib, hl⟩ := exists_ortho_lib
  obtain ⟨lu, h1, h2⟩ := exists_solvers
  obtain ⟨ref, t, hr, ht, h⟩ := C137_derivatives square_element conical_tables conical_pos h1 h2 hl
  obtain ⟨⟨A, B, hA, h3, _, h4, _⟩, _⟩ := h [(1 / 4, 1 / 3), (1, 1)]
  exact ⟨lib, lu, lu, ref, t, A, B, hr, ht, hA, h3, h4⟩

/-- C137: the values kept at the quadrature points are those at these points: of both L2 projections, of the derivatives of the energy projection, of the
projections of the derivatives, of the divergence of these, and of the polynomials of degree at most `k - 2` divided by the measure. -/
theorem C137_internal (hE : IsElement poly n V len dir nrm) (hT : IsTables k triangle edge ts ws w) (hpos : ∀ x ∈ (triangle (2 * k)).weights, 0 ≤ x)
    (hlu : SolvesRegular lu) (hllt : SolvesPosDef llt) (hl : IsOrthoLib lib) :
    ∃ ref t, vemRef2D triangle edge k = .ok ref ∧ orthoCreate2D lib lu llt ref poly = .ok t ∧
      (∃ A, orthoValuesInt t .pi0k = .ok A ∧ A.rows = t.internal.points.length ∧ A.cols = n + n * (k - 1) + k * (k - 1) / 2 ∧
        ∀ (v : Nat → ℝ) (i : Nat) (p : ℝ × ℝ), t.internal.points[i]? = some p →
          apply A v i = orthoOf k poly.centroid poly.diameter t.base.q ((k + 1) * (k + 2) / 2) (apply t.pi0k v) p) ∧
      (∃ A, orthoValuesInt t .pi0km1 = .ok A ∧ A.rows = t.internal.points.length ∧ A.cols = n + n * (k - 1) + k * (k - 1) / 2 ∧
        ∀ (v : Nat → ℝ) (i : Nat) (p : ℝ × ℝ), t.internal.points[i]? = some p →
          apply A v i = orthoOf k poly.centroid poly.diameter t.base.q (k * (k + 1) / 2) (apply t.pi0km1 v) p) ∧
      (∃ A B, orthoDerivativesInt t .piNabla = .ok [A, B] ∧ A.rows = t.internal.points.length ∧ B.rows = t.internal.points.length ∧
        A.cols = n + n * (k - 1) + k * (k - 1) / 2 ∧ B.cols = n + n * (k - 1) + k * (k - 1) / 2 ∧
        ∀ v : Nat → ℝ, ∃ P : MvPolynomial (Fin 2) ℝ,
          (∀ p : ℝ × ℝ, eval ![p.1, p.2] P = orthoOf k poly.centroid poly.diameter t.base.q ((k + 1) * (k + 2) / 2) (apply t.piNabla v) p) ∧
          ∀ (i : Nat) (p : ℝ × ℝ), t.internal.points[i]? = some p →
            apply A v i = eval ![p.1, p.2] (pderiv 0 P) ∧ apply B v i = eval ![p.1, p.2] (pderiv 1 P)) ∧
      (∃ A B, orthoDerivativesInt t .pi0km1Der = .ok [A, B] ∧ A.rows = t.internal.points.length ∧ B.rows = t.internal.points.length ∧
        A.cols = n + n * (k - 1) + k * (k - 1) / 2 ∧ B.cols = n + n * (k - 1) + k * (k - 1) / 2 ∧
        ∀ (v : Nat → ℝ) (i : Nat) (p : ℝ × ℝ), t.internal.points[i]? = some p →
          apply A v i = orthoOf k poly.centroid poly.diameter t.base.q (k * (k + 1) / 2) (apply t.derX v) p ∧
          apply B v i = orthoOf k poly.centroid poly.diameter t.base.q (k * (k + 1) / 2) (apply t.derY v) p) ∧
      (∃ A, orthoLaplacianInt t .pi0km1Der = .ok A ∧ A.rows = t.internal.points.length ∧ A.cols = n + n * (k - 1) + k * (k - 1) / 2 ∧
        ∀ v : Nat → ℝ, ∃ P P' : MvPolynomial (Fin 2) ℝ,
          (∀ p : ℝ × ℝ, eval ![p.1, p.2] P = orthoOf k poly.centroid poly.diameter t.base.q (k * (k + 1) / 2) (apply t.derX v) p) ∧
          (∀ p : ℝ × ℝ, eval ![p.1, p.2] P' = orthoOf k poly.centroid poly.diameter t.base.q (k * (k + 1) / 2) (apply t.derY v) p) ∧
          ∀ (i : Nat) (p : ℝ × ℝ), t.internal.points[i]? = some p → apply A v i = eval ![p.1, p.2] (pderiv 0 P + pderiv 1 P')) ∧
      (∃ A, orthoScaledPolyValues poly t = .ok A ∧ A.rows = t.internal.points.length ∧ A.cols = k * (k - 1) / 2 ∧
        ∀ (i : Nat) (p : ℝ × ℝ), t.internal.points[i]? = some p → ∀ l < k * (k - 1) / 2,
          A.ent i l = 1 / poly.measure * polyOf k poly.centroid poly.diameter (fun j => t.base.q.ent l j) p) ∧
      (∀ type, type ≠ .pi0k → type ≠ .pi0km1 → orthoValuesInt t type = .error .runtimeError) ∧
      (∀ type, type ≠ .piNabla → type ≠ .pi0km1Der → orthoDerivativesInt t type = .error .runtimeError) ∧
      ∀ type, type ≠ .pi0km1Der → orthoLaplacianInt t type = .error .runtimeError := by
  obtain ⟨ref, s, t, hr, _, ht, hs, ho⟩ := orthoCreate_ok hE hT hpos hlu hllt hl.mgs hl.inverse hl.sqrt
  obtain ⟨W, hN⟩ := ho.nabla
  obtain ⟨WX, hX⟩ := ho.derX
  obtain ⟨WY, hY⟩ := ho.derY
  have hB := ho.basis
  have hpr : t.piNabla.rows = tri (k + 1) := ho.solves.1.trans hN.gCols
  have hpc : t.piNabla.cols = s.boundary.points.length + tri (k - 1) := ho.solves.2.1.trans hN.bCols
  have hn : t.base.init.nkm1 = tri k := by rw [ho.init]; exact hs.init.nkm1
  have hn2 := ho.nkm2
  have e0 : t.base.init.vanderInt = s.init.vanderInt := by rw [ho.init]
  have eX : t.base.init.vanderIntX = s.init.vanderIntX := by rw [ho.init]
  have eY : t.base.init.vanderIntY = s.init.vanderIntY := by rw [ho.init]
  have hle : tri k ≤ tri (k + 1) := by rw [tri_succ]; omega
  refine ⟨ref, t, hr, ht, ?_⟩
  rw [tri_div, tri_div', half_tri, ho.internal]
  obtain ⟨A, hA, hA1⟩ := values_q hs.init.vanderInt hB.qRows hB.qCols
  obtain ⟨AX, hAX, hAX1⟩ := values_q hs.init.vanderIntX hB.qRows hB.qCols
  obtain ⟨AY, hAY, hAY1⟩ := values_q hs.init.vanderIntY hB.qRows hB.qCols
  obtain ⟨V1, C1, U, hV1, hC1, hU, hU1⟩ := values_corner hs.init.vanderInt hB.qRows hB.qCols hB.qLower hle
  refine ⟨?_, ?_, ?_, ?_, ?_, ?_, ?_, ?_, ?_⟩
  · obtain ⟨R, h0, h1, h2, h3⟩ := ortho_values_mul hA1 t.pi0k ho.l2.zRows
    refine ⟨R, ?_, h1, by rw [h2, ho.l2.zCols, ← hs.length], h3⟩
    unfold orthoValuesInt
    dsimp only
    rw [e0, hA, except_ok_bind, h0]
  · obtain ⟨R, h0, h1, h2, h3⟩ := ortho_values_mul hU1 t.pi0km1 ho.l2.yRows
    refine ⟨R, ?_, h1, by rw [h2, ho.l2.yCols, ← hs.length], h3⟩
    unfold orthoValuesInt
    dsimp only
    rw [e0, hn, hV1, except_ok_bind, hC1, except_ok_bind, hU, except_ok_bind, h0]
  · obtain ⟨R, hR, r1, r2, r3⟩ := values_mul hAX1 t.piNabla hpr
    obtain ⟨R', hR', r1', r2', r3'⟩ := values_mul hAY1 t.piNabla hpr
    refine ⟨R, R', ?_, r1, r1', by rw [r2, hpc, ← hs.length], by rw [r2', hpc, ← hs.length], fun v =>
      ⟨oCombo k poly.centroid poly.diameter t.base.q (tri (k + 1)) (apply t.piNabla v), fun p => ev2_oCombo _ _ _ _ _ _ _, fun i p hp => ?_⟩⟩
    · unfold orthoDerivativesInt
      dsimp only
      rw [eX, eY, hAX, except_ok_bind, hR, except_ok_bind, hAY, except_ok_bind, hR', except_ok_bind]
    · rw [r3 v i p hp, r3' v i p hp, pderiv_oCombo, pderiv_oCombo]
      simp only [pderiv_oPoly, and_self]
  · obtain ⟨R, hR, r1, r2, r3⟩ := ortho_values_mul hU1 t.derX hX.yRows
    obtain ⟨R', hR', r1', r2', r3'⟩ := ortho_values_mul hU1 t.derY hY.yRows
    refine ⟨R, R', ?_, r1, r1', by rw [r2, hX.yCols, ← hs.length], by rw [r2', hY.yCols, ← hs.length], fun v i p hp =>
      ⟨r3 v i p hp, r3' v i p hp⟩⟩
    unfold orthoDerivativesInt
    dsimp only
    rw [e0, hn, hV1, except_ok_bind, hC1, except_ok_bind, hU, except_ok_bind, hR, except_ok_bind, hR', except_ok_bind]
  · obtain ⟨VX, CX, UX, hVX, hCX, hUX, hUX1⟩ := values_corner hs.init.vanderIntX hB.qRows hB.qCols hB.qLower hle
    obtain ⟨VY, CY, UY, hVY, hCY, hUY, hUY1⟩ := values_corner hs.init.vanderIntY hB.qRows hB.qCols hB.qLower hle
    obtain rfl : CX = C1 := Except.ok.inj (hCX.symm.trans hC1)
    obtain rfl : CY = CX := Except.ok.inj (hCY.symm.trans hC1)
    obtain ⟨R, hR, r1, r2, r3⟩ := values_mul hUX1 t.derX hX.yRows
    obtain ⟨R', hR', r1', r2', r3'⟩ := values_mul hUY1 t.derY hY.yRows
    refine ⟨⟨R.rows, R.cols, fun i j => R.ent i j + R'.ent i j⟩, ?_, r1, by show R.cols = _; rw [r2, hX.yCols, ← hs.length], fun v =>
      ⟨oCombo k poly.centroid poly.diameter t.base.q (tri k) (apply t.derX v), oCombo k poly.centroid poly.diameter t.base.q (tri k) (apply t.derY v),
        fun p => ev2_oCombo _ _ _ _ _ _ _, fun p => ev2_oCombo _ _ _ _ _ _ _, fun i p hp => ?_⟩⟩
    · unfold orthoLaplacianInt
      dsimp only
      rw [eX, eY, hn, hCX, except_ok_bind, hVX, except_ok_bind, hUX, except_ok_bind, hR, except_ok_bind, hVY, except_ok_bind, hUY, except_ok_bind, hR', except_ok_bind,
        DMat.add_ok _ _ (r1.trans r1'.symm) (by rw [r2, r2', hX.yCols, hY.yCols])]
    · have e : apply (⟨R.rows, R.cols, fun i j => R.ent i j + R'.ent i j⟩ : DMat ℝ) v i = apply R v i + apply R' v i := by
        unfold apply
        dsimp only
        rw [r2', r2, hX.yCols, hY.yCols, ← Finset.sum_add_distrib]
        exact Finset.sum_congr rfl fun j _ => by ring
      rw [e, r3 v i p hp, r3' v i p hp, pderiv_oCombo, pderiv_oCombo, map_add]
      simp only [pderiv_oPoly]
  · have htri := tri_sub_le k
    obtain ⟨V2, hV2, hV21⟩ := values_left hs.init.vanderInt htri
    obtain ⟨C2, hC2, c1, c2, c3⟩ := block_ex (A := t.base.q.tr) (r := 0) (c := 0) (m := tri (k - 1)) (n := tri (k - 1))
      (by show 0 + tri (k - 1) ≤ t.base.q.cols; rw [hB.qCols]; omega) (by show 0 + tri (k - 1) ≤ t.base.q.rows; rw [hB.qRows]; omega)
    obtain ⟨R, hR, r1, r2, r3⟩ := mul_ex (A := DMat.smul (1 / poly.measure) V2) (B := C2) (by rw [c1]; exact hV21.cols)
    refine ⟨R, ?_, by rw [r1]; exact hV21.rows, by rw [r2, c2], fun i p hp l hl => ?_⟩
    · unfold orthoScaledPolyValues
      rw [e0, hn2, hV2, except_ok_bind, hC2, except_ok_bind, hR]
    · rw [r3, ← ev2_oPoly]
      unfold oPoly combo
      simp only [ev2, map_sum, map_mul, eval_C]
      rw [show (DMat.smul (1 / poly.measure) V2).cols = tri (k - 1) from hV21.cols, Finset.mul_sum]
      have hsub : Finset.range (tri (k - 1)) ⊆ Finset.range (tri (k + 1)) := Finset.range_subset_range.2 htri
      rw [← Finset.sum_subset hsub fun j hj hj' => by
        rw [hB.qLower l (by omega) j (Finset.mem_range.1 hj) (by simp at hj'; omega), zero_mul, mul_zero]]
      refine Finset.sum_congr rfl fun j hj => ?_
      rw [c3]
      simp only [DMat.smul, DMat.tr, Nat.zero_add]
      rw [hV21.ent i p hp j (Finset.mem_range.1 hj), ev2]
      ring
  · intro type h1 h2
    unfold orthoValuesInt
    cases type <;> first | rfl | contradiction
  · intro type h1 h2
    unfold orthoDerivativesInt
    cases type <;> first | rfl | contradiction
  · intro type h1
    unfold orthoLaplacianInt
    cases type <;> first | rfl | contradiction

/-- The unit square at order 2: one polynomial of degree 0, at forty quadrature points. -/
example : ∃ (lib : OrthoLib ℝ) (lu llt : Solver ℝ), ∃ ref t A, vemRef2D (fun _ => ⟨conicalPoints, conicalWeights⟩) (fun _ => ⟨[0, 1 / 2, 1], [1 / 6, 2 / 3, 1 / 6]⟩) 2 = .ok ref ∧
    orthoCreate2D lib lu llt ref squarePoly = .ok t ∧ orthoScaledPolyValues squarePoly t = .ok A ∧ A.rows = t.internal.points.length ∧ A.cols = 1 := by
  obtain ⟨lib, hl⟩ := exists_ortho_lib
  obtain ⟨lu, h1, h2⟩ := exists_solvers
  obtain ⟨ref, t, hr, ht, _, _, _, _, _, ⟨A, hA, h3, h4, _⟩, _⟩ := C137_internal square_element conical_tables conical_pos h1 h2 hl
  exact ⟨lib, lu, lu, ref, t, A, hr, ht, hA, h3, h4⟩

end

end PolyDiM
