import Verif.Lemmas.VemExample

/-!
# The projectors of the VEM local space on polygons (C51, C52, C71, C73)
-/

namespace PolyDiM

open Spec MvPolynomial MeasureTheory

section
variable {k n : Nat} {V : Nat → ℝ × ℝ} {len : Nat → ℝ} {dir : Nat → Bool} {nrm : Nat → ℝ × ℝ} {poly : VemPolygon ℝ}
  {triangle : Nat → Rule (ℝ × ℝ) ℝ} {edge : Nat → Rule ℝ ℝ} {ts ws : List ℝ} {w : ℝ} {lu llt : Solver ℝ}

theorem half_tri (k : Nat) : k * (k - 1) / 2 = tri (k - 1) := by
  cases k with
  | zero => rfl
  | succ k => rw [Nat.add_sub_cancel, ← tri_div', mul_comm]

/-- The coefficient vector of a projection. -/
theorem apply_eq {A : DMat ℝ} {L : Nat} (h : A.cols = L) (v : Nat → ℝ) : apply A v = fun j => ∑ b ∈ Finset.range L, A.ent j b * v b := by
  funext j
  rw [apply, h]

/-- C51: the reference element and the local space of every element are computed without fault, and the energy projector maps the DOFs of every
polynomial of degree at most `k` to its coefficients. -/
theorem C51_exact (hE : IsElement poly n V len dir nrm) (hT : IsTables k triangle edge ts ws w) (hlu : SolvesRegular lu) (hllt : SolvesPosDef llt) :
    ∃ ref s, vemRef2D triangle edge k = .ok ref ∧ vemCreate2D lu llt ref poly = .ok s ∧
      s.piNabla.rows = (k + 1) * (k + 2) / 2 ∧ s.piNabla.cols = n + n * (k - 1) + k * (k - 1) / 2 ∧
      ∀ q : MvPolynomial (Fin 2) ℝ, q.totalDegree ≤ k → ∀ v : Nat → ℝ, IsDofVector k poly n V dir ts (fun p => eval ![p.1, p.2] q) v →
        ∀ p : ℝ × ℝ, polyOf k poly.centroid poly.diameter (apply s.piNabla v) p = eval ![p.1, p.2] q := by
  obtain ⟨ref, s, hr, hc, hs⟩ := vemCreate_ok hE hT hlu hllt
  have hcols : s.piNabla.cols = s.boundary.points.length + tri (k - 1) := hs.solves.2.1.trans hs.nabla.bCols
  refine ⟨ref, s, hr, hc, ?_, ?_, ?_⟩
  · rw [tri_div]
    exact hs.solves.1.trans hs.nabla.gCols
  · rw [hcols, ← hs.length, half_tri]
  · intro q hq v hv p
    obtain ⟨y, hy⟩ := basisPoly_span k poly.centroid poly.diameter hE.diameter le_rfl q hq
    have hd := dofs_ok hs hq (dofsU_ok hE hT hs hv)
    have hx := nabla_exact hs.discrete hT.low hE.diameter hs.nabla hs.solves y (v := v) (by
      rw [combo, ← hy]
      exact hd)
    rw [← ev2_combo k _ _ le_rfl, apply_eq hcols]
    have : combo k poly.centroid poly.diameter (tri (k + 1)) (fun j => ∑ b ∈ Finset.range (s.boundary.points.length + tri (k - 1)), s.piNabla.ent j b * v b) = q := by
      conv_rhs => rw [hy]
      exact Finset.sum_congr rfl fun j hj => congrArg (fun a => C a * _) (hx j (Finset.mem_range.1 hj))
    rw [this]

/-- The unit square at order 2: `C51_exact` applies, and the polynomial `x y` has DOFs. -/
example : ∃ lu llt : Solver ℝ, SolvesRegular lu ∧ SolvesPosDef llt ∧ IsElement squarePoly 4 squareV (fun _ => 1) (fun i => i % 2 = 0) squareN ∧
    IsTables 2 (fun _ => ⟨nc4Points, nc4Weights⟩) (fun _ => ⟨[0, 1 / 2, 1], [1 / 6, 2 / 3, 1 / 6]⟩) [1 / 2] [2 / 3] (1 / 6) ∧
    ((X 0 * X 1 : MvPolynomial (Fin 2) ℝ)).totalDegree ≤ 2 ∧
    ∃ v, IsDofVector 2 squarePoly 4 squareV (fun i => i % 2 = 0) [1 / 2] (fun p => eval ![p.1, p.2] (X 0 * X 1 : MvPolynomial (Fin 2) ℝ)) v := by
  obtain ⟨lu, h1, h2⟩ := exists_solvers
  refine ⟨lu, lu, h1, h2, square_element, square_tables, (totalDegree_mul _ _).trans ?_, exists_dofs 2 _ _ _ _ _ rfl _⟩
  rw [totalDegree_X, totalDegree_X]

/-- C51: the columns of the DOF matrix are the DOFs of the monomials. -/
theorem C51_dofs (hE : IsElement poly n V len dir nrm) (hT : IsTables k triangle edge ts ws w) (hlu : SolvesRegular lu) (hllt : SolvesPosDef llt) :
    ∃ ref s, vemRef2D triangle edge k = .ok ref ∧ vemCreate2D lu llt ref poly = .ok s ∧
      s.D.rows = n + n * (k - 1) + k * (k - 1) / 2 ∧ s.D.cols = (k + 1) * (k + 2) / 2 ∧
      ∀ a b, a + b ≤ k → IsDofVector k poly n V dir ts (scaledMonomial poly.centroid poly.diameter a b) (fun r => s.D.ent r (position a b)) := by
  obtain ⟨ref, s, hr, hc, hs⟩ := vemCreate_ok hE hT hlu hllt
  refine ⟨ref, s, hr, hc, ?_, ?_, ?_⟩
  · rw [hs.dofs.rows, ← hs.length, half_tri]
  · rw [hs.dofs.cols, tri_div]
  · intro a b hab
    have hj := position_lt.2 hab
    have hv : ∀ (r : Nat) (p : ℝ × ℝ), s.boundary.points[r]? = some p → s.D.ent r (position a b) = scaledMonomial poly.centroid poly.diameter a b p := by
      intro r p hp
      rw [hs.dofs.value r p hp _ hj, ev2_basis_position k _ _ hab]
    refine ⟨fun e he => hv e _ ?_, fun e he i t ht => hv _ _ ?_, fun a' b' hab' => ?_⟩
    · rw [hs.rules.points, List.getElem?_append_left (by simpa using he), List.getElem?_map, List.getElem?_range he]
      rfl
    · have hi : i < k - 1 := by
        rw [← hT.nodes]
        exact (List.getElem?_eq_some_iff.1 ht).1
      rw [hs.rules.points, List.getElem?_append_right (by simp; omega), List.length_map, List.length_range,
        show n + e * (k - 1) + i - n = e * (k - 1) + i by omega,
        flatMap_get _ _ (k - 1) e i e (by simp [hT.nodes]) (by rw [List.getElem?_range he]) hi, List.getElem?_map, ht]
      rfl
    · have hl : position a' b' < tri (k - 1) := by
        have := (position_lt (k := k - 2) (a := a') (b := b')).2 (by omega)
        rwa [show k - 2 + 1 = k - 1 by omega] at this
      have hdeg : ∀ {a b : Nat}, a + b ≤ k → (basisPoly k poly.centroid poly.diameter (position a b)).totalDegree ≤ k := fun h =>
        basisPoly_degree k _ _ (by rw [num2_eq]; exact position_lt.2 h) (position_lt.2 h)
      rw [hs.length, hs.dofs.moment _ hl _ hj, hs.rules.integral _ (by
        refine (totalDegree_mul _ _).trans ?_
        have h1 := hdeg (a := a') (b := b') (by omega)
        have h2 := hdeg hab
        omega), div_eq_inv_mul, one_div]
      congr 2
      funext p
      rw [← ev2_basis_position k _ _ hab, ← ev2_basis_position k _ _ (show a' + b' ≤ k by omega)]
      simp [ev2]

/-- The unit square at order 2: nine DOFs, six monomials. -/
example : ∃ lu llt : Solver ℝ, ∃ ref s, vemRef2D (fun _ => ⟨nc4Points, nc4Weights⟩) (fun _ => ⟨[0, 1 / 2, 1], [1 / 6, 2 / 3, 1 / 6]⟩) 2 = .ok ref ∧
    vemCreate2D lu llt ref squarePoly = .ok s ∧ s.D.rows = 9 ∧ s.D.cols = 6 := by
  obtain ⟨lu, h1, h2⟩ := exists_solvers
  obtain ⟨ref, s, hr, hs, h3, h4, _⟩ := C51_dofs square_element square_tables h1 h2
  exact ⟨lu, lu, ref, s, hr, hs, h3, h4⟩

/-- C52: the L2 projector onto degree `k` maps the DOFs of a polynomial of degree at most `k` to its coefficients. -/
theorem C52_pi0k (hE : IsElement poly n V len dir nrm) (hT : IsTables k triangle edge ts ws w) (hlu : SolvesRegular lu) (hllt : SolvesPosDef llt) :
    ∃ ref s, vemRef2D triangle edge k = .ok ref ∧ vemCreate2D lu llt ref poly = .ok s ∧
      s.pi0k.rows = (k + 1) * (k + 2) / 2 ∧ s.pi0k.cols = n + n * (k - 1) + k * (k - 1) / 2 ∧
      ∀ q : MvPolynomial (Fin 2) ℝ, q.totalDegree ≤ k → ∀ v : Nat → ℝ, IsDofVector k poly n V dir ts (fun p => eval ![p.1, p.2] q) v →
        ∀ p : ℝ × ℝ, polyOf k poly.centroid poly.diameter (apply s.pi0k v) p = eval ![p.1, p.2] q := by
  obtain ⟨ref, s, hr, hc, hs⟩ := vemCreate_ok hE hT hlu hllt
  refine ⟨ref, s, hr, hc, by rw [hs.l2.zRows, tri_div], by rw [hs.l2.zCols, ← hs.length, half_tri], ?_⟩
  intro q hq v hv p
  obtain ⟨y, hy⟩ := basisPoly_span k poly.centroid poly.diameter hE.diameter le_rfl q hq
  have hd := dofs_ok hs hq (dofsU_ok hE hT hs hv)
  have hx := nabla_exact hs.discrete hT.low hE.diameter hs.nabla hs.solves y (v := v) (by
    rw [combo, ← hy]
    exact hd)
  have hnab : combo k poly.centroid poly.diameter (tri (k + 1)) (fun j => ∑ b ∈ Finset.range (s.boundary.points.length + tri (k - 1)), s.piNabla.ent j b * v b) = q := by
    conv_rhs => rw [hy]
    exact Finset.sum_congr rfl fun j hj => congrArg (fun a => C a * _) (hx j (Finset.mem_range.1 hj))
  have hrhs : ∀ i, rhsL2 k s.boundary.points.length poly.centroid poly.diameter poly.measure s.internal s.piNabla v i
      = quadLin s.internal.points s.internal.weights (basisPoly k poly.centroid poly.diameter i * q) := by
    intro i
    unfold rhsL2
    split_ifs with hi
    · exact hd.moment i hi
    · rw [hnab]
  have hz : ∀ i < tri (k + 1), (fun j => ∑ b ∈ Finset.range (s.boundary.points.length + tri (k - 1)), s.pi0k.ent j b * v b) i = y i := by
    refine inj_ext (A := fun i j => quadLin s.internal.points s.internal.weights (basisPoly k poly.centroid poly.diameter i * basisPoly k poly.centroid poly.diameter j))
      (fun x hx => gram_injective hs.discrete hE.diameter le_rfl x hx) fun i hi => ?_
    rw [← quadLin_combo, ← quadLin_combo, hs.l2.zEq v i hi, hrhs, combo, ← hy]
  rw [← ev2_combo k _ _ le_rfl, apply_eq hs.l2.zCols]
  have : combo k poly.centroid poly.diameter (tri (k + 1)) (fun j => ∑ b ∈ Finset.range (s.boundary.points.length + tri (k - 1)), s.pi0k.ent j b * v b) = q := by
    conv_rhs => rw [hy]
    exact Finset.sum_congr rfl fun j hj => congrArg (fun a => C a * _) (hz j (Finset.mem_range.1 hj))
  rw [this]

/-- The unit square at order 2: the L2 projection of `x y` is computed and is `x y`. -/
example : ∃ lu llt : Solver ℝ, ∃ ref s v, vemRef2D (fun _ => ⟨nc4Points, nc4Weights⟩) (fun _ => ⟨[0, 1 / 2, 1], [1 / 6, 2 / 3, 1 / 6]⟩) 2 = .ok ref ∧
    vemCreate2D lu llt ref squarePoly = .ok s ∧ IsDofVector 2 squarePoly 4 squareV (fun i => i % 2 = 0) [1 / 2] (fun p => p.1 * p.2) v ∧
    ∀ p : ℝ × ℝ, polyOf 2 squarePoly.centroid squarePoly.diameter (apply s.pi0k v) p = p.1 * p.2 := by
  obtain ⟨lu, h1, h2⟩ := exists_solvers
  obtain ⟨ref, s, hr, hs, _, _, h⟩ := C52_pi0k square_element square_tables h1 h2
  obtain ⟨v, hv⟩ := exists_dofs 2 squarePoly 4 squareV (fun i => i % 2 = 0) [1 / 2] rfl fun p => p.1 * p.2
  have := h (X 0 * X 1) ((totalDegree_mul _ _).trans (by rw [totalDegree_X, totalDegree_X])) v (by simpa using hv)
  exact ⟨lu, lu, ref, s, v, hr, hs, hv, fun p => by simpa using this p⟩

/-- C52: the L2 projector onto degree `k - 1` maps the DOFs of a polynomial `q` of degree at most `k` to the coefficients of the polynomial that
has the same moments as `q` against all polynomials of degree at most `k - 1`; if `q` has degree at most `k - 1`, this is `q`. -/
theorem C52_pi0km1 (hE : IsElement poly n V len dir nrm) (hT : IsTables k triangle edge ts ws w) (hlu : SolvesRegular lu) (hllt : SolvesPosDef llt) :
    ∃ ref s, vemRef2D triangle edge k = .ok ref ∧ vemCreate2D lu llt ref poly = .ok s ∧
      s.pi0km1.rows = k * (k + 1) / 2 ∧ s.pi0km1.cols = n + n * (k - 1) + k * (k - 1) / 2 ∧
      ∀ q : MvPolynomial (Fin 2) ℝ, q.totalDegree ≤ k → ∀ v : Nat → ℝ, IsDofVector k poly n V dir ts (fun p => eval ![p.1, p.2] q) v →
        (∀ z : MvPolynomial (Fin 2) ℝ, z.totalDegree ≤ k - 1 →
          ∫ p in unionOf poly.tris, polyOf (k - 1) poly.centroid poly.diameter (apply s.pi0km1 v) p * eval ![p.1, p.2] z
            = ∫ p in unionOf poly.tris, eval ![p.1, p.2] q * eval ![p.1, p.2] z) ∧
        (q.totalDegree ≤ k - 1 → ∀ p : ℝ × ℝ, polyOf (k - 1) poly.centroid poly.diameter (apply s.pi0km1 v) p = eval ![p.1, p.2] q) := by
  obtain ⟨ref, s, hr, hc, hs⟩ := vemCreate_ok hE hT hlu hllt
  have hk := hT.low
  have hkk : k - 1 + 1 = k := by omega
  refine ⟨ref, s, hr, hc, by rw [hs.l2.yRows, tri_div'], by rw [hs.l2.yCols, ← hs.length, half_tri], ?_⟩
  intro q hq v hv
  obtain ⟨y, hy⟩ := basisPoly_span k poly.centroid poly.diameter hE.diameter le_rfl q hq
  have hd := dofs_ok hs hq (dofsU_ok hE hT hs hv)
  have hx := nabla_exact hs.discrete hT.low hE.diameter hs.nabla hs.solves y (v := v) (by
    rw [combo, ← hy]
    exact hd)
  have hnab : combo k poly.centroid poly.diameter (tri (k + 1)) (fun j => ∑ b ∈ Finset.range (s.boundary.points.length + tri (k - 1)), s.piNabla.ent j b * v b) = q := by
    conv_rhs => rw [hy]
    exact Finset.sum_congr rfl fun j hj => congrArg (fun a => C a * _) (hx j (Finset.mem_range.1 hj))
  have hrhs : ∀ i, rhsL2 k s.boundary.points.length poly.centroid poly.diameter poly.measure s.internal s.piNabla v i
      = quadLin s.internal.points s.internal.weights (basisPoly k poly.centroid poly.diameter i * q) := by
    intro i
    unfold rhsL2
    split_ifs with hi
    · exact hd.moment i hi
    · rw [hnab]
  set Y := combo k poly.centroid poly.diameter (tri k) (fun j => ∑ b ∈ Finset.range (s.boundary.points.length + tri (k - 1)), s.pi0km1.ent j b * v b) with hY
  have hev : ∀ p, ev2 Y p = polyOf (k - 1) poly.centroid poly.diameter (apply s.pi0km1 v) p := by
    intro p
    rw [← ev2_combo k _ _ (by omega), apply_eq hs.l2.yCols, hkk]
  have hYdeg : Y.totalDegree ≤ k - 1 := by
    have := combo_degree (k := k) (c := poly.centroid) (h := poly.diameter)
      (fun j => ∑ b ∈ Finset.range (s.boundary.points.length + tri (k - 1)), s.pi0km1.ent j b * v b) (show k - 1 ≤ k by omega)
    rwa [hkk] at this
  have horth : ∀ z : MvPolynomial (Fin 2) ℝ, z.totalDegree ≤ k - 1 →
      quadLin s.internal.points s.internal.weights (z * Y) = quadLin s.internal.points s.internal.weights (z * q) := by
    intro z hz
    obtain ⟨x, hx⟩ := basisPoly_span k poly.centroid poly.diameter hE.diameter (show k - 1 ≤ k by omega) z hz
    rw [hkk] at hx
    have hx' : z = combo k poly.centroid poly.diameter (tri k) x := hx
    rw [hx', mul_comm _ Y, mul_comm _ q, quadLin_combo, quadLin_combo]
    refine Finset.sum_congr rfl fun i hi => ?_
    rw [mul_comm Y, mul_comm q, hs.l2.yEq v i (Finset.mem_range.1 hi), hrhs]
  constructor
  · intro z hz
    have h1 := horth z hz
    rw [hs.rules.integral _ ((totalDegree_mul _ _).trans (by omega)), hs.rules.integral _ ((totalDegree_mul _ _).trans (by omega))] at h1
    refine Eq.trans ?_ (h1.trans ?_)
    · congr 1
      funext p
      rw [← hev]
      simp only [ev2, map_mul]
      ring
    · congr 1
      funext p
      simp only [ev2, map_mul]
      ring
  · intro hq1 p
    rw [← hev]
    have hdeg : (Y - q).totalDegree ≤ k - 1 := (totalDegree_sub _ _).trans (max_le hYdeg hq1)
    have h0 : Y - q = 0 := by
      refine hs.discrete.definite _ (by omega) ?_
      have := horth (Y - q) hdeg
      rw [← sub_eq_zero, ← map_sub, ← mul_sub] at this
      exact this
    rw [sub_eq_zero.1 h0]

/-- The unit square at order 2: the L2 projection of `x` on the polynomials of degree 1 is computed and is `x`. -/
example : ∃ lu llt : Solver ℝ, ∃ ref s v, vemRef2D (fun _ => ⟨nc4Points, nc4Weights⟩) (fun _ => ⟨[0, 1 / 2, 1], [1 / 6, 2 / 3, 1 / 6]⟩) 2 = .ok ref ∧
    vemCreate2D lu llt ref squarePoly = .ok s ∧ IsDofVector 2 squarePoly 4 squareV (fun i => i % 2 = 0) [1 / 2] (fun p => p.1) v ∧
    ∀ p : ℝ × ℝ, polyOf 1 squarePoly.centroid squarePoly.diameter (apply s.pi0km1 v) p = p.1 := by
  obtain ⟨lu, h1, h2⟩ := exists_solvers
  obtain ⟨ref, s, hr, hs, _, _, h⟩ := C52_pi0km1 square_element square_tables h1 h2
  obtain ⟨v, hv⟩ := exists_dofs 2 squarePoly 4 squareV (fun i => i % 2 = 0) [1 / 2] rfl fun p => p.1
  have := (h (X 0) (by rw [totalDegree_X]; norm_num) v (by simpa using hv)).2 (by rw [totalDegree_X])
  exact ⟨lu, lu, ref, s, v, hr, hs, hv, fun p => by simpa using this p⟩

/-- C71: the projectors of the derivatives map the DOFs of a polynomial of degree at most `k` to the coefficients of its partial derivatives. -/
theorem C71_derivatives (hE : IsElement poly n V len dir nrm) (hT : IsTables k triangle edge ts ws w) (hlu : SolvesRegular lu) (hllt : SolvesPosDef llt) :
    ∃ ref s, vemRef2D triangle edge k = .ok ref ∧ vemCreate2D lu llt ref poly = .ok s ∧
      s.derX.rows = k * (k + 1) / 2 ∧ s.derX.cols = n + n * (k - 1) + k * (k - 1) / 2 ∧
      s.derY.rows = k * (k + 1) / 2 ∧ s.derY.cols = n + n * (k - 1) + k * (k - 1) / 2 ∧
      ∀ q : MvPolynomial (Fin 2) ℝ, q.totalDegree ≤ k → ∀ v : Nat → ℝ, IsDofVector k poly n V dir ts (fun p => eval ![p.1, p.2] q) v →
        ∀ p : ℝ × ℝ, polyOf (k - 1) poly.centroid poly.diameter (apply s.derX v) p = eval ![p.1, p.2] (pderiv 0 q) ∧
          polyOf (k - 1) poly.centroid poly.diameter (apply s.derY v) p = eval ![p.1, p.2] (pderiv 1 q) := by
  obtain ⟨ref, s, hr, hc, hs⟩ := vemCreate_ok hE hT hlu hllt
  have hk := hT.low
  have hkk : k - 1 + 1 = k := by omega
  obtain ⟨EX, hX⟩ := hs.derX
  obtain ⟨EY, hY⟩ := hs.derY
  refine ⟨ref, s, hr, hc, by rw [hX.yRows, tri_div'], by rw [hX.yCols, ← hs.length, half_tri], by rw [hY.yRows, tri_div'], by rw [hY.yCols, ← hs.length, half_tri], ?_⟩
  intro q hq v hv p
  have hU := dofsU_ok hE hT hs hv
  have hu : IntegrableOn (ev2 q) (unionOf poly.tris) := by
    have := ev2_mul_integrable poly.tris (u := fun _ => 1) (integrableOn_const (by
      have : unionOf poly.tris = ⋃ v ∈ {v | v ∈ poly.tris}, {p : ℝ × ℝ | InTriangle v.1 v.2.1 v.2.2 p} := by
        ext p
        simp [unionOf]
      rw [this]
      exact ((List.finite_toSet poly.tris).isCompact_biUnion fun v _ => triangle_compact v).measure_lt_top.ne) (by simp)) q
    simpa using this
  have key : ∀ (d : Fin 2) (Y E : DMat ℝ) (wn : List ℝ), wn.length = s.boundary.points.length →
      DerOk k s.boundary.points.length poly.centroid poly.diameter poly.measure s.internal s.boundary.points wn d E Y →
      (∀ r : MvPolynomial (Fin 2) ℝ, r.totalDegree ≤ 2 * k - 1 → quadLin s.boundary.points wn r = quadLin s.internal.points s.internal.weights (pderiv d r)) →
      polyOf (k - 1) poly.centroid poly.diameter (apply Y v) p = ev2 (pderiv d q) p := by
    intro d Y E wn hw hD hg
    rw [← ev2_combo k _ _ (by omega), apply_eq hD.yCols, hkk]
    set Z := combo k poly.centroid poly.diameter (tri k) (fun j => ∑ b ∈ Finset.range (s.boundary.points.length + tri (k - 1)), Y.ent j b * v b) with hZ
    have hZdeg : Z.totalDegree ≤ k - 1 := by
      have := combo_degree (k := k) (c := poly.centroid) (h := poly.diameter)
        (fun j => ∑ b ∈ Finset.range (s.boundary.points.length + tri (k - 1)), Y.ent j b * v b) (show k - 1 ≤ k by omega)
      rwa [hkk] at this
    have hqdeg : (pderiv d q).totalDegree ≤ k - 1 := by
      obtain ⟨y, hy⟩ := basisPoly_span k poly.centroid poly.diameter hE.diameter le_rfl q hq
      rw [hy]
      exact combo_pderiv_degree d hk y
    have horth : ∀ z : MvPolynomial (Fin 2) ℝ, z.totalDegree ≤ k - 1 →
        quadLin s.internal.points s.internal.weights (z * Z) = quadLin s.internal.points s.internal.weights (z * pderiv d q) := by
      intro z hz
      obtain ⟨x, hx⟩ := basisPoly_span k poly.centroid poly.diameter hE.diameter (show k - 1 ≤ k by omega) z hz
      rw [hkk] at hx
      have hx' : z = combo k poly.centroid poly.diameter (tri k) x := hx
      have h1 := derivative hk hw hD hu hU x
      rw [← hx'] at h1
      rw [h1]
      have e1 : quadU s.boundary.points wn (ev2 q) z = quadLin s.boundary.points wn (z * q) := by
        show quadSum _ _ _ = quadSum _ _ _
        congr 1
        funext p
        simp [ev2]
      have hzd : (pderiv d z).totalDegree ≤ k - 1 := by
        obtain ⟨x', hx'⟩ := basisPoly_span k poly.centroid poly.diameter hE.diameter le_rfl z (by omega)
        rw [hx']
        exact combo_pderiv_degree d hk x'
      have e2 : intU poly.tris hu (pderiv d z) = quadLin s.internal.points s.internal.weights (pderiv d z * q) := by
        rw [hs.rules.integral _ ((totalDegree_mul _ _).trans (by omega))]
        show (∫ p in unionOf poly.tris, _) = _
        congr 1
        funext p
        simp [ev2]
      rw [e1, e2, hg _ ((totalDegree_mul _ _).trans (by omega)), Derivation.leibniz, map_add]
      simp only [smul_eq_mul]
      rw [mul_comm q]
      ring
    have h0 : Z - pderiv d q = 0 := by
      refine hs.discrete.definite _ (by
        have := (totalDegree_sub Z (pderiv d q)).trans (max_le hZdeg hqdeg)
        omega) ?_
      have := horth (Z - pderiv d q) ((totalDegree_sub _ _).trans (max_le hZdeg hqdeg))
      rw [← sub_eq_zero, ← map_sub, ← mul_sub] at this
      exact this
    rw [sub_eq_zero.1 h0]
  exact ⟨key 0 _ _ _ hs.rules.xlen hX hs.discrete.gaussX, key 1 _ _ _ hs.rules.ylen hY hs.discrete.gaussY⟩

/-- The unit square at order 2: the projected derivatives of `x y` are `y` and `x`. -/
example : ∃ lu llt : Solver ℝ, ∃ ref s v, vemRef2D (fun _ => ⟨nc4Points, nc4Weights⟩) (fun _ => ⟨[0, 1 / 2, 1], [1 / 6, 2 / 3, 1 / 6]⟩) 2 = .ok ref ∧
    vemCreate2D lu llt ref squarePoly = .ok s ∧ IsDofVector 2 squarePoly 4 squareV (fun i => i % 2 = 0) [1 / 2] (fun p => p.1 * p.2) v ∧
    ∀ p : ℝ × ℝ, polyOf 1 squarePoly.centroid squarePoly.diameter (apply s.derX v) p = p.2 ∧
      polyOf 1 squarePoly.centroid squarePoly.diameter (apply s.derY v) p = p.1 := by
  obtain ⟨lu, h1, h2⟩ := exists_solvers
  obtain ⟨ref, s, hr, hs, _, _, _, _, h⟩ := C71_derivatives square_element square_tables h1 h2
  obtain ⟨v, hv⟩ := exists_dofs 2 squarePoly 4 squareV (fun i => i % 2 = 0) [1 / 2] rfl fun p => p.1 * p.2
  have := h (X 0 * X 1) ((totalDegree_mul _ _).trans (by rw [totalDegree_X, totalDegree_X])) v (by simpa using hv)
  exact ⟨lu, lu, ref, s, v, hr, hs, hv, fun p => by simpa [pderiv_X] using this p⟩

/-- C73: the energy projection of a function `u` of the virtual element space (a polynomial of degree at most `k` on every edge, given by its DOFs)
is the polynomial `P` that satisfies the equations of the energy projection: its energy product with every polynomial `z` of degree at most `k` is the
one of `u` after integration by parts, and its mean over the boundary (order 1) or over the element (higher order) is the one of `u`. -/
theorem C73_energy (hE : IsElement poly n V len dir nrm) (hT : IsTables k triangle edge ts ws w) (hts : ∀ t ∈ ts, 0 ≤ t ∧ t ≤ 1)
    (hlu : SolvesRegular lu) (hllt : SolvesPosDef llt) :
    ∃ ref s, vemRef2D triangle edge k = .ok ref ∧ vemCreate2D lu llt ref poly = .ok s ∧
      ∀ (u : ℝ × ℝ → ℝ) (v : Nat → ℝ), IntegrableOn u (unionOf poly.tris) → EdgePolynomial k n V u → IsDofVector k poly n V dir ts u v →
        ∃ P : MvPolynomial (Fin 2) ℝ, P.totalDegree ≤ k ∧ (∀ p : ℝ × ℝ, polyOf k poly.centroid poly.diameter (apply s.piNabla v) p = eval ![p.1, p.2] P) ∧
          (∀ z : MvPolynomial (Fin 2) ℝ, z.totalDegree ≤ k →
            ∫ p in unionOf poly.tris, (eval ![p.1, p.2] (pderiv 0 z) * eval ![p.1, p.2] (pderiv 0 P) + eval ![p.1, p.2] (pderiv 1 z) * eval ![p.1, p.2] (pderiv 1 P))
              = (∑ e ∈ Finset.range n, ((clockwise (V ((e + 1) % n) - V e)).1 * segInt (fun p => eval ![p.1, p.2] (pderiv 0 z) * u p) (V e) (V ((e + 1) % n))
                  + (clockwise (V ((e + 1) % n) - V e)).2 * segInt (fun p => eval ![p.1, p.2] (pderiv 1 z) * u p) (V e) (V ((e + 1) % n))))
                - ∫ p in unionOf poly.tris, eval ![p.1, p.2] (pderiv 0 (pderiv 0 z) + pderiv 1 (pderiv 1 z)) * u p) ∧
          (k = 1 → ∑ e ∈ Finset.range n, |len e| * segInt (fun p => eval ![p.1, p.2] P) (V e) (V ((e + 1) % n))
            = ∑ e ∈ Finset.range n, |len e| * segInt u (V e) (V ((e + 1) % n))) ∧
          (2 ≤ k → ∫ p in unionOf poly.tris, eval ![p.1, p.2] P = ∫ p in unionOf poly.tris, u p) := by
  obtain ⟨ref, s, hr, hc, hs⟩ := vemCreate_ok hE hT hlu hllt
  have hk := hT.low
  have hcols : s.piNabla.cols = s.boundary.points.length + tri (k - 1) := hs.solves.2.1.trans hs.nabla.bCols
  refine ⟨ref, s, hr, hc, ?_⟩
  intro u v hu hue hv
  have hU := dofsU_ok hE hT hs hv
  set P := combo k poly.centroid poly.diameter (tri (k + 1)) (fun j => ∑ b ∈ Finset.range (s.boundary.points.length + tri (k - 1)), s.piNabla.ent j b * v b) with hP
  have hPdeg : P.totalDegree ≤ k := combo_degree _ le_rfl
  have hpd : ∀ (d : Fin 2) (z : MvPolynomial (Fin 2) ℝ), z.totalDegree ≤ k → (pderiv d z).totalDegree ≤ k - 1 := by
    intro d z hz
    obtain ⟨x, hx⟩ := basisPoly_span k poly.centroid poly.diameter hE.diameter le_rfl z hz
    rw [hx]
    exact combo_pderiv_degree d hk x
  refine ⟨P, hPdeg, fun p => ?_, fun z hz => ?_, fun h1 => ?_, fun h2 => ?_⟩
  · rw [← ev2_combo k _ _ le_rfl, apply_eq hcols]
  · obtain ⟨x, hx⟩ := basisPoly_span k poly.centroid poly.diameter hE.diameter le_rfl z hz
    have hx' : z = combo k poly.centroid poly.diameter (tri (k + 1)) x := hx
    have h1 := energy hs hu hU x
    rw [← hx', ← hP, energyRhs_apply, ← map_add] at h1
    have hdeg : (pderiv 0 z * pderiv 0 P + pderiv 1 z * pderiv 1 P).totalDegree ≤ 2 * k := by
      refine (totalDegree_add _ _).trans (max_le ?_ ?_) <;> refine (totalDegree_mul _ _).trans ?_
      · have e1 := hpd 0 z hz
        have e2 := hpd 0 P hPdeg
        omega
      · have e1 := hpd 1 z hz
        have e2 := hpd 1 P hPdeg
        omega
    rw [hs.rules.integral _ hdeg] at h1
    have e1 : quadU s.boundary.points s.boundary.nx u (pderiv 0 z) = ∑ e ∈ Finset.range n, (V ((e + 1) % n) - V e).2 *
        segInt (fun p => ev2 (pderiv 0 z) p * u p) (V e) (V ((e + 1) % n)) := by
      refine (hs.rules.anyX _).trans (Finset.sum_congr rfl fun e he => ?_)
      rw [edge_exact hT hts hue (hpd 0 z hz) (Finset.mem_range.1 he)]
    have e2 : quadU s.boundary.points s.boundary.ny u (pderiv 1 z) = ∑ e ∈ Finset.range n, -(V ((e + 1) % n) - V e).1 *
        segInt (fun p => ev2 (pderiv 1 z) p * u p) (V e) (V ((e + 1) % n)) := by
      refine (hs.rules.anyY _).trans (Finset.sum_congr rfl fun e he => ?_)
      rw [edge_exact hT hts hue (hpd 1 z hz) (Finset.mem_range.1 he)]
    have e3 : intU poly.tris hu (pderiv 0 (pderiv 0 z)) + intU poly.tris hu (pderiv 1 (pderiv 1 z))
        = ∫ p in unionOf poly.tris, ev2 (pderiv 0 (pderiv 0 z) + pderiv 1 (pderiv 1 z)) p * u p := by
      rw [← map_add]
      rfl
    refine Eq.trans ?_ (h1.trans ?_)
    · congr 1
      funext p
      simp only [ev2, map_add, map_mul]
    · rw [e1, e2, sub_sub, e3, Finset.sum_add_distrib]
      rfl
  · have hm := energy_mean hs hk hU
    rw [if_pos h1, if_pos h1, ← hP, hs.rules.boundary P (by omega)] at hm
    refine hm.trans ((hs.rules.anyW u).trans (Finset.sum_congr rfl fun e he => ?_))
    have := edge_exact (dir := dir) hT hts hue (z := 1) (by simp) (Finset.mem_range.1 he)
    simp only [ev2, map_one, one_mul] at this
    rw [this]
  · have hm := energy_mean hs hk hU
    rw [if_neg (by omega), if_neg (by omega), ← hP, hs.rules.integral P (by omega)] at hm
    exact hm

/-- The unit square at order 2 and the function `|x - y|`, which is no polynomial: its energy projection has its mean. -/
example : ∃ lu llt : Solver ℝ, ∃ ref s v, vemRef2D (fun _ => ⟨nc4Points, nc4Weights⟩) (fun _ => ⟨[0, 1 / 2, 1], [1 / 6, 2 / 3, 1 / 6]⟩) 2 = .ok ref ∧
    vemCreate2D lu llt ref squarePoly = .ok s ∧ IsDofVector 2 squarePoly 4 squareV (fun i => i % 2 = 0) [1 / 2] (fun p => |p.1 - p.2|) v ∧
    ∃ P : MvPolynomial (Fin 2) ℝ, P.totalDegree ≤ 2 ∧
      ∫ p in unionOf squarePoly.tris, eval ![p.1, p.2] P = ∫ p in unionOf squarePoly.tris, |p.1 - p.2| := by
  obtain ⟨lu, h1, h2⟩ := exists_solvers
  obtain ⟨ref, s, hr, hs, h⟩ := C73_energy square_element square_tables (by norm_num) h1 h2
  obtain ⟨v, hv⟩ := exists_dofs 2 squarePoly 4 squareV (fun i => i % 2 = 0) [1 / 2] rfl fun p => |p.1 - p.2|
  obtain ⟨P, hP, _, _, _, hm⟩ := h _ v (square_integrable (by fun_prop)) square_edges hv
  exact ⟨lu, lu, ref, s, v, hr, hs, hv, P, hP, hm le_rfl⟩

/-- C73: the L2 projections of a function of the virtual element space have its moments of degree at most `k - 2`; their moments of higher degree
are those of the energy projection. -/
theorem C73_l2 (hE : IsElement poly n V len dir nrm) (hT : IsTables k triangle edge ts ws w) (hlu : SolvesRegular lu) (hllt : SolvesPosDef llt) :
    ∃ ref s, vemRef2D triangle edge k = .ok ref ∧ vemCreate2D lu llt ref poly = .ok s ∧
      ∀ (u : ℝ × ℝ → ℝ) (v : Nat → ℝ), IsDofVector k poly n V dir ts u v →
        (∀ a b, a + b + 2 ≤ k → ∫ p in unionOf poly.tris, scaledMonomial poly.centroid poly.diameter a b p * polyOf (k - 1) poly.centroid poly.diameter (apply s.pi0km1 v) p
          = ∫ p in unionOf poly.tris, scaledMonomial poly.centroid poly.diameter a b p * u p) ∧
        (∀ a b, a + b + 1 = k → ∫ p in unionOf poly.tris, scaledMonomial poly.centroid poly.diameter a b p * polyOf (k - 1) poly.centroid poly.diameter (apply s.pi0km1 v) p
          = ∫ p in unionOf poly.tris, scaledMonomial poly.centroid poly.diameter a b p * polyOf k poly.centroid poly.diameter (apply s.piNabla v) p) ∧
        (∀ a b, a + b + 2 ≤ k → ∫ p in unionOf poly.tris, scaledMonomial poly.centroid poly.diameter a b p * polyOf k poly.centroid poly.diameter (apply s.pi0k v) p
          = ∫ p in unionOf poly.tris, scaledMonomial poly.centroid poly.diameter a b p * u p) ∧
        (∀ a b, k ≤ a + b + 1 → a + b ≤ k → ∫ p in unionOf poly.tris, scaledMonomial poly.centroid poly.diameter a b p * polyOf k poly.centroid poly.diameter (apply s.pi0k v) p
          = ∫ p in unionOf poly.tris, scaledMonomial poly.centroid poly.diameter a b p * polyOf k poly.centroid poly.diameter (apply s.piNabla v) p) := by
  obtain ⟨ref, s, hr, hc, hs⟩ := vemCreate_ok hE hT hlu hllt
  have hk := hT.low
  have hkk : k - 1 + 1 = k := by omega
  have hcols : s.piNabla.cols = s.boundary.points.length + tri (k - 1) := hs.solves.2.1.trans hs.nabla.bCols
  refine ⟨ref, s, hr, hc, ?_⟩
  intro u v hv
  have hU := dofsU_ok hE hT hs hv
  have hint : ∀ (a b m : Nat) (x : Nat → ℝ), a + b ≤ k → m ≤ k →
      quadLin s.internal.points s.internal.weights (basisPoly k poly.centroid poly.diameter (position a b) * combo k poly.centroid poly.diameter (tri (m + 1)) x)
        = ∫ p in unionOf poly.tris, scaledMonomial poly.centroid poly.diameter a b p * polyOf m poly.centroid poly.diameter x p := by
    intro a b m x hab hm
    have h1 := basisPoly_degree k poly.centroid poly.diameter (j := position a b) (m := k) (by rw [num2_eq]; exact position_lt.2 hab) (position_lt.2 hab)
    have h2 := combo_degree (c := poly.centroid) (h := poly.diameter) x hm
    rw [hs.rules.integral _ ((totalDegree_mul _ _).trans (by omega))]
    congr 1
    funext p
    rw [← ev2_combo k _ _ hm, ← ev2_basis_position k _ _ hab]
    simp only [ev2, map_mul]
  have hlow : ∀ a b, a + b + 2 ≤ k → rhsL2 k s.boundary.points.length poly.centroid poly.diameter poly.measure s.internal s.piNabla v (position a b)
      = ∫ p in unionOf poly.tris, scaledMonomial poly.centroid poly.diameter a b p * u p := by
    intro a b hab
    have hl : position a b < tri (k - 1) := by
      have := (position_lt (k := k - 2) (a := a) (b := b)).2 (by omega)
      rwa [show k - 2 + 1 = k - 1 by omega] at this
    rw [rhsL2, if_pos hl, hU.moment _ hl]
    congr 1
    funext p
    rw [ev2_basis_position k _ _ (by omega)]
  have hhigh : ∀ a b, k ≤ a + b + 1 → a + b ≤ k → rhsL2 k s.boundary.points.length poly.centroid poly.diameter poly.measure s.internal s.piNabla v (position a b)
      = ∫ p in unionOf poly.tris, scaledMonomial poly.centroid poly.diameter a b p * polyOf k poly.centroid poly.diameter (apply s.piNabla v) p := by
    intro a b hab hab'
    have hl : ¬ position a b < tri (k - 1) := by
      rcases Nat.lt_or_ge k 2 with h2 | h2
      · rw [show k - 1 = 0 by omega]
        simp [tri]
      · have := (position_lt (k := k - 2) (a := a) (b := b))
        rw [show k - 2 + 1 = k - 1 by omega] at this
        omega
    rw [rhsL2, if_neg hl, hint a b k _ hab' le_rfl, apply_eq hcols]
  refine ⟨fun a b hab => ?_, fun a b hab => ?_, fun a b hab => ?_, fun a b hab hab' => ?_⟩
  · rw [← hlow a b hab, ← hint a b (k - 1) _ (by omega) (by omega), apply_eq hs.l2.yCols, hkk, hs.l2.yEq v]
    have := (position_lt (k := k - 1) (a := a) (b := b)).2 (by omega)
    rwa [hkk] at this
  · rw [← hhigh a b (by omega) (by omega), ← hint a b (k - 1) _ (by omega) (by omega), apply_eq hs.l2.yCols, hkk, hs.l2.yEq v]
    have := (position_lt (k := k - 1) (a := a) (b := b)).2 (by omega)
    rwa [hkk] at this
  · rw [← hlow a b hab, ← hint a b k _ (by omega) le_rfl, apply_eq hs.l2.zCols, hs.l2.zEq v _ (position_lt.2 (by omega))]
  · rw [← hhigh a b hab hab', ← hint a b k _ hab' le_rfl, apply_eq hs.l2.zCols, hs.l2.zEq v _ (position_lt.2 hab')]

/-- The unit square at order 2: the hypotheses hold, with the DOFs of `|x - y|`. -/
example : ∃ lu llt : Solver ℝ, SolvesRegular lu ∧ SolvesPosDef llt ∧ IsElement squarePoly 4 squareV (fun _ => 1) (fun i => i % 2 = 0) squareN ∧
    IsTables 2 (fun _ => ⟨nc4Points, nc4Weights⟩) (fun _ => ⟨[0, 1 / 2, 1], [1 / 6, 2 / 3, 1 / 6]⟩) [1 / 2] [2 / 3] (1 / 6) ∧
    ∃ v, IsDofVector 2 squarePoly 4 squareV (fun i => i % 2 = 0) [1 / 2] (fun p => |p.1 - p.2|) v := by
  obtain ⟨lu, h1, h2⟩ := exists_solvers
  exact ⟨lu, lu, h1, h2, square_element, square_tables, exists_dofs 2 _ _ _ _ _ rfl _⟩

/-- C73: the projectors of the derivatives compute, for a function `u` of the virtual element space, the L2 projection of its partial derivatives
after integration by parts. -/
theorem C73_derivatives (hE : IsElement poly n V len dir nrm) (hT : IsTables k triangle edge ts ws w) (hts : ∀ t ∈ ts, 0 ≤ t ∧ t ≤ 1)
    (hlu : SolvesRegular lu) (hllt : SolvesPosDef llt) :
    ∃ ref s, vemRef2D triangle edge k = .ok ref ∧ vemCreate2D lu llt ref poly = .ok s ∧
      ∀ (u : ℝ × ℝ → ℝ) (v : Nat → ℝ), IntegrableOn u (unionOf poly.tris) → EdgePolynomial k n V u → IsDofVector k poly n V dir ts u v →
        ∀ z : MvPolynomial (Fin 2) ℝ, z.totalDegree ≤ k - 1 →
          (∫ p in unionOf poly.tris, eval ![p.1, p.2] z * polyOf (k - 1) poly.centroid poly.diameter (apply s.derX v) p
            = (∑ e ∈ Finset.range n, (clockwise (V ((e + 1) % n) - V e)).1 * segInt (fun p => eval ![p.1, p.2] z * u p) (V e) (V ((e + 1) % n)))
              - ∫ p in unionOf poly.tris, eval ![p.1, p.2] (pderiv 0 z) * u p) ∧
          (∫ p in unionOf poly.tris, eval ![p.1, p.2] z * polyOf (k - 1) poly.centroid poly.diameter (apply s.derY v) p
            = (∑ e ∈ Finset.range n, (clockwise (V ((e + 1) % n) - V e)).2 * segInt (fun p => eval ![p.1, p.2] z * u p) (V e) (V ((e + 1) % n)))
              - ∫ p in unionOf poly.tris, eval ![p.1, p.2] (pderiv 1 z) * u p) := by
  obtain ⟨ref, s, hr, hc, hs⟩ := vemCreate_ok hE hT hlu hllt
  have hk := hT.low
  have hkk : k - 1 + 1 = k := by omega
  obtain ⟨EX, hX⟩ := hs.derX
  obtain ⟨EY, hY⟩ := hs.derY
  refine ⟨ref, s, hr, hc, ?_⟩
  intro u v hu hue hv z hz
  have hU := dofsU_ok hE hT hs hv
  obtain ⟨x, hx⟩ := basisPoly_span k poly.centroid poly.diameter hE.diameter (show k - 1 ≤ k by omega) z hz
  rw [hkk] at hx
  have hx' : z = combo k poly.centroid poly.diameter (tri k) x := hx
  have hint : ∀ y : Nat → ℝ, quadLin s.internal.points s.internal.weights (z * combo k poly.centroid poly.diameter (tri k) y)
      = ∫ p in unionOf poly.tris, ev2 z p * polyOf (k - 1) poly.centroid poly.diameter y p := by
    intro y
    have h2 := combo_degree (c := poly.centroid) (h := poly.diameter) y (show k - 1 ≤ k by omega)
    rw [hkk] at h2
    rw [hs.rules.integral _ ((totalDegree_mul _ _).trans (by omega))]
    congr 1
    funext p
    rw [← ev2_combo k _ _ (show k - 1 ≤ k by omega), hkk]
    simp only [ev2, map_mul]
  constructor
  · have h1 := derivative hk hs.rules.xlen hX hu hU x
    rw [← hx', hint, ← apply_eq hX.yCols] at h1
    refine h1.trans ?_
    have e1 : quadU s.boundary.points s.boundary.nx u z = ∑ e ∈ Finset.range n, (V ((e + 1) % n) - V e).2 * segInt (fun p => ev2 z p * u p) (V e) (V ((e + 1) % n)) := by
      refine (hs.rules.anyX _).trans (Finset.sum_congr rfl fun e he => ?_)
      rw [edge_exact hT hts hue hz (Finset.mem_range.1 he)]
    rw [e1]
    rfl
  · have h1 := derivative hk hs.rules.ylen hY hu hU x
    rw [← hx', hint, ← apply_eq hY.yCols] at h1
    refine h1.trans ?_
    have e1 : quadU s.boundary.points s.boundary.ny u z = ∑ e ∈ Finset.range n, -(V ((e + 1) % n) - V e).1 * segInt (fun p => ev2 z p * u p) (V e) (V ((e + 1) % n)) := by
      refine (hs.rules.anyY _).trans (Finset.sum_congr rfl fun e he => ?_)
      rw [edge_exact hT hts hue hz (Finset.mem_range.1 he)]
    rw [e1]
    rfl

/-- The unit square at order 2: the hypotheses hold for `|x - y|`. -/
example : ∃ lu llt : Solver ℝ, SolvesRegular lu ∧ SolvesPosDef llt ∧ IsElement squarePoly 4 squareV (fun _ => 1) (fun i => i % 2 = 0) squareN ∧
    IsTables 2 (fun _ => ⟨nc4Points, nc4Weights⟩) (fun _ => ⟨[0, 1 / 2, 1], [1 / 6, 2 / 3, 1 / 6]⟩) [1 / 2] [2 / 3] (1 / 6) ∧
    IntegrableOn (fun p : ℝ × ℝ => |p.1 - p.2|) (unionOf squarePoly.tris) ∧ EdgePolynomial 2 4 squareV (fun p => |p.1 - p.2|) ∧
    ∃ v, IsDofVector 2 squarePoly 4 squareV (fun i => i % 2 = 0) [1 / 2] (fun p => |p.1 - p.2|) v := by
  obtain ⟨lu, h1, h2⟩ := exists_solvers
  exact ⟨lu, lu, h1, h2, square_element, square_tables, square_integrable (by fun_prop), square_edges, exists_dofs 2 _ _ _ _ _ rfl _⟩

end

end PolyDiM
