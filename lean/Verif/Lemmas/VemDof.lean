import Verif.Lemmas.VemSpace

/-!
# Lemmas: degrees of freedom of functions of the virtual element space
-/

namespace PolyDiM

open Spec MvPolynomial MeasureTheory

section
variable {k n : Nat} {V : Nat → ℝ × ℝ} {len : Nat → ℝ} {dir : Nat → Bool} {nrm : Nat → ℝ × ℝ} {poly : VemPolygon ℝ}
  {triangle : Nat → Rule (ℝ × ℝ) ℝ} {edge : Nat → Rule ℝ ℝ} {ts ws : List ℝ} {w : ℝ} {s : VemSpace2D ℝ}

/-- The DOFs of a function. -/
structure IsDofsU (k : Nat) (c : ℝ × ℝ) (h m : ℝ) (region : Set (ℝ × ℝ)) (points : List (ℝ × ℝ)) (u : ℝ × ℝ → ℝ) (v : Nat → ℝ) : Prop where
  value : ∀ (b : Nat) (p : ℝ × ℝ), points[b]? = some p → v b = u p
  moment : ∀ l < tri (k - 1), m * v (points.length + l) = ∫ p in region, ev2 (basisPoly k c h l) p * u p

theorem dofsU_ok (hE : IsElement poly n V len dir nrm) (hT : IsTables k triangle edge ts ws w) (hs : SpaceOk k n V len dir ts ws w poly s)
    {u : ℝ × ℝ → ℝ} {v : Nat → ℝ} (hv : IsDofVector k poly n V dir ts u v) :
    IsDofsU k poly.centroid poly.diameter poly.measure (unionOf poly.tris) s.boundary.points u v := by
  have hk := hT.low
  constructor
  · intro b p hb
    rw [hs.rules.points] at hb
    by_cases hbn : b < n
    · rw [List.getElem?_append_left (by simpa using hbn), List.getElem?_map, List.getElem?_range hbn] at hb
      simp only [Option.map_some, Option.some.injEq] at hb
      rw [hv.vertex b hbn, hb]
    · rw [List.getElem?_append_right (by simpa using hbn), List.length_map, List.length_range] at hb
      have hlt := (List.getElem?_eq_some_iff.1 hb).1
      rw [flatMap_const_length _ _ ts.length (by simp), List.length_range, hT.nodes] at hlt
      have hk0 : 0 < k - 1 := Nat.pos_of_ne_zero fun h0 => by rw [h0, Nat.mul_zero] at hlt; omega
      have he : (b - n) / (k - 1) < n := Nat.div_lt_of_lt_mul (by rwa [mul_comm] at hlt)
      have hi : (b - n) % (k - 1) < k - 1 := Nat.mod_lt _ hk0
      have hsplit : (b - n) / (k - 1) * (k - 1) + (b - n) % (k - 1) = b - n := Nat.div_add_mod' _ _
      rw [← hsplit, flatMap_get _ _ (k - 1) _ _ ((b - n) / (k - 1)) (by simp [hT.nodes]) (by rw [List.getElem?_range he]) hi, List.getElem?_map] at hb
      obtain ⟨t, ht⟩ : ∃ t, ts[(b - n) % (k - 1)]? = some t := ⟨_, List.getElem?_eq_getElem (by rw [hT.nodes]; exact hi)⟩
      rw [ht] at hb
      simp only [Option.map_some, Option.some.injEq] at hb
      have := hv.node _ he _ t ht
      rw [show n + (b - n) / (k - 1) * (k - 1) + (b - n) % (k - 1) = b by omega] at this
      rw [this, hb]
  · intro l hl
    have hk2 : 2 ≤ k := by
      by_contra hc
      rw [show k - 1 = 0 by omega] at hl
      simp [tri] at hl
    obtain ⟨a, b, hab, rfl⟩ := exists_position (m := k - 2) (l := l) (by rwa [show k - 2 + 1 = k - 1 by omega])
    rw [← hs.length, hv.moment a b (by omega), ← mul_assoc, mul_one_div_cancel hE.measure, one_mul]
    congr 1
    funext p
    rw [ev2_basis_position k _ _ (by omega)]

theorem dofs_ok (hs : SpaceOk k n V len dir ts ws w poly s) {q : MvPolynomial (Fin 2) ℝ} (hq : q.totalDegree ≤ k)
    {v : Nat → ℝ} (hv : IsDofsU k poly.centroid poly.diameter poly.measure (unionOf poly.tris) s.boundary.points (ev2 q) v) :
    IsDofs k poly.centroid poly.diameter poly.measure s.internal s.boundary.points q v := by
  refine ⟨hv.value, fun l hl => ?_⟩
  rw [hv.moment l hl, hs.rules.integral]
  · congr 1
    funext p
    simp [ev2]
  · refine (totalDegree_mul _ _).trans ?_
    have := basisPoly_degree k poly.centroid poly.diameter (j := l) (m := k) (by rw [num2_eq]; have := tri_sub_le k; omega) (by have := tri_sub_le k; omega)
    omega

/-- The quadrature of a polynomial times a function. -/
noncomputable def quadU (points : List (ℝ × ℝ)) (weights : List ℝ) (u : ℝ × ℝ → ℝ) : MvPolynomial (Fin 2) ℝ →ₗ[ℝ] ℝ where
  toFun q := quadSum points weights fun p => ev2 q p * u p
  map_add' q r := by
    rw [← quadSum_add]
    congr 1
    funext p
    simp only [ev2, map_add]
    ring
  map_smul' a q := by
    rw [RingHom.id_apply, smul_eq_mul, ← quadSum_const_mul]
    congr 1
    funext p
    simp only [ev2, smul_eval]
    ring

theorem unionOf_compact (tris : List (Tri2 ℝ)) : IsCompact (unionOf tris) := by
  have : unionOf tris = ⋃ v ∈ {v | v ∈ tris}, {p : ℝ × ℝ | InTriangle v.1 v.2.1 v.2.2 p} := by
    ext p
    simp [unionOf]
  rw [this]
  exact (List.finite_toSet tris).isCompact_biUnion fun v _ => triangle_compact v

theorem ev2_mul_integrable (tris : List (Tri2 ℝ)) {u : ℝ × ℝ → ℝ} (hu : IntegrableOn u (unionOf tris)) (q : MvPolynomial (Fin 2) ℝ) :
    IntegrableOn (fun p => ev2 q p * u p) (unionOf tris) := by
  exact hu.continuousOn_mul (poly2_continuous q).continuousOn (unionOf_compact tris)

/-- The integral of a polynomial times a function. -/
noncomputable def intU (tris : List (Tri2 ℝ)) {u : ℝ × ℝ → ℝ} (hu : IntegrableOn u (unionOf tris)) : MvPolynomial (Fin 2) ℝ →ₗ[ℝ] ℝ where
  toFun q := ∫ p in unionOf tris, ev2 q p * u p
  map_add' q r := by
    rw [← integral_add (ev2_mul_integrable tris hu q) (ev2_mul_integrable tris hu r)]
    congr 1
    funext p
    simp only [ev2, map_add]
    ring
  map_smul' a q := by
    rw [RingHom.id_apply, smul_eq_mul, ← integral_const_mul]
    congr 1
    funext p
    simp only [ev2, smul_eval]
    ring

theorem lin_combo {F : MvPolynomial (Fin 2) ℝ →ₗ[ℝ] ℝ} (N : Nat) (x : Nat → ℝ) (P : Nat → MvPolynomial (Fin 2) ℝ) :
    F (∑ j ∈ Finset.range N, C (x j) * P j) = ∑ j ∈ Finset.range N, x j * F (P j) := by
  rw [map_sum]
  refine Finset.sum_congr rfl fun j _ => ?_
  rw [← smul_eq_C_mul, map_smul, smul_eq_mul]

theorem quadSum_congr {P : Type} (points : List P) (weights : List ℝ) {f g : P → ℝ} (h : ∀ p ∈ points, f p = g p) :
    quadSum points weights f = quadSum points weights g := by
  induction points generalizing weights with
  | nil => rfl
  | cons p ps ih =>
    cases weights with
    | nil => rfl
    | cons a l =>
      have := ih l (fun p hp => h p (List.mem_cons_of_mem _ hp))
      simp only [quadSum, List.zipWith_cons_cons, List.sum_cons] at this ⊢
      rw [this, h p List.mem_cons_self]

theorem edge_exact (hT : IsTables k triangle edge ts ws w) (hts : ∀ t ∈ ts, 0 ≤ t ∧ t ≤ 1) {u : ℝ × ℝ → ℝ} (hu : EdgePolynomial k n V u)
    {z : MvPolynomial (Fin 2) ℝ} (hz : z.totalDegree ≤ k - 1) {e : Nat} (he : e < n) :
    quadSum (0 :: ts ++ [1]) (w :: ws ++ [w]) (fun t => ev2 z (segPoint (polyEdge n V (dir e) e).1 (polyEdge n V (dir e) e).2 t) *
      u (segPoint (polyEdge n V (dir e) e).1 (polyEdge n V (dir e) e).2 t)) = segInt (fun p => ev2 z p * u p) (V e) (V ((e + 1) % n)) := by
  have hk := hT.low
  obtain ⟨z', hz', hpull⟩ := poly1_pullback (polyEdge n V (dir e) e).1 (polyEdge n V (dir e) e).2 z
  have hpull' : ∀ t, ev2 z (segPoint (polyEdge n V (dir e) e).1 (polyEdge n V (dir e) e).2 t) = z'.eval t := fun t => (hpull t).symm
  obtain ⟨r, hr, hru⟩ := hu e he
  obtain ⟨r', hr', hru'⟩ : ∃ r' : Polynomial ℝ, r'.natDegree ≤ k ∧ ∀ t, 0 ≤ t → t ≤ 1 →
      u (segPoint (polyEdge n V (dir e) e).1 (polyEdge n V (dir e) e).2 t) = r'.eval t := by
    unfold polyEdge
    split_ifs
    · exact ⟨r, hr, hru⟩
    · refine ⟨r.comp (1 - Polynomial.X), ?_, fun t h0 h1 => ?_⟩
      · refine Polynomial.natDegree_comp_le.trans ?_
        have : (1 - Polynomial.X : Polynomial ℝ).natDegree ≤ 1 := by
          refine (Polynomial.natDegree_sub_le _ _).trans ?_
          simp
        calc _ ≤ k * 1 := Nat.mul_le_mul hr this
          _ = k := mul_one k
      · have hrev : segPoint (V ((e + 1) % n)) (V e) t = segPoint (V e) (V ((e + 1) % n)) (1 - t) := by
          simp only [segPoint, Prod.mk.injEq]
          constructor <;> ring
        rw [hrev, hru (1 - t) (by linarith) (by linarith)]
        simp
  have hprod : ∀ t, 0 ≤ t → t ≤ 1 → ev2 z (segPoint (polyEdge n V (dir e) e).1 (polyEdge n V (dir e) e).2 t) *
      u (segPoint (polyEdge n V (dir e) e).1 (polyEdge n V (dir e) e).2 t) = (z' * r').eval t := by
    intro t h0 h1
    rw [hpull', hru' t h0 h1, Polynomial.eval_mul]
  rw [quadSum_congr _ _ (g := fun t => (z' * r').eval t) (by
    intro t ht
    rw [List.mem_append, List.mem_cons, List.mem_singleton] at ht
    rcases ht with (rfl | ht) | rfl
    · exact hprod 0 le_rfl zero_le_one
    · exact hprod t (hts t ht).1 (hts t ht).2
    · exact hprod 1 zero_le_one le_rfl), hT.edgeExact _ (by
    refine Polynomial.natDegree_mul_le.trans ?_
    omega)]
  have hsym : segInt (fun p => ev2 z p * u p) (V e) (V ((e + 1) % n)) = segInt (fun p => ev2 z p * u p) (polyEdge n V (dir e) e).1 (polyEdge n V (dir e) e).2 := by
    unfold polyEdge
    split_ifs
    · rfl
    · exact segInt_symm _ _ _
  rw [hsym, segInt]
  refine intervalIntegral.integral_congr fun t ht => ?_
  rw [Set.uIcc_of_le zero_le_one] at ht
  exact (hprod t ht.1 ht.2).symm

/-- The functional that the matrix `B` represents. -/
noncomputable def energyRhs (tris : List (Tri2 ℝ)) {u : ℝ × ℝ → ℝ} (hu : IntegrableOn u (unionOf tris)) (bnd : EdgesRule ℝ) : MvPolynomial (Fin 2) ℝ →ₗ[ℝ] ℝ :=
  (quadU bnd.points bnd.nx u).comp (pderiv 0).toLinearMap + (quadU bnd.points bnd.ny u).comp (pderiv 1).toLinearMap
    - ((intU tris hu).comp (pderiv 0).toLinearMap).comp (pderiv 0).toLinearMap - ((intU tris hu).comp (pderiv 1).toLinearMap).comp (pderiv 1).toLinearMap

theorem energyRhs_apply (tris : List (Tri2 ℝ)) {u : ℝ × ℝ → ℝ} (hu : IntegrableOn u (unionOf tris)) (bnd : EdgesRule ℝ) (z : MvPolynomial (Fin 2) ℝ) :
    energyRhs tris hu bnd z = quadU bnd.points bnd.nx u (pderiv 0 z) + quadU bnd.points bnd.ny u (pderiv 1 z)
      - intU tris hu (pderiv 0 (pderiv 0 z)) - intU tris hu (pderiv 1 (pderiv 1 z)) := rfl

theorem b_apply (hs : SpaceOk k n V len dir ts ws w poly s) {u : ℝ × ℝ → ℝ} (hu : IntegrableOn u (unionOf poly.tris)) {v : Nat → ℝ}
    (hv : IsDofsU k poly.centroid poly.diameter poly.measure (unionOf poly.tris) s.boundary.points u v) {i : Nat} (hi : i < tri (k + 1)) (hi0 : 0 < i) :
    ∑ b ∈ Finset.range (s.boundary.points.length + tri (k - 1)), s.B.ent i b * v b
      = energyRhs poly.tris hu s.boundary (basisPoly k poly.centroid poly.diameter i) := by
  set P := basisPoly k poly.centroid poly.diameter i with hP
  have e1 : ∑ b ∈ Finset.range s.boundary.points.length, s.B.ent i b * v b
      = quadU s.boundary.points s.boundary.nx u (pderiv 0 P) + quadU s.boundary.points s.boundary.ny u (pderiv 1 P) := by
    have hX := sum_quadSum s.boundary.points s.boundary.nx hs.rules.xlen
      (fun b => ev2 (pderiv 0 P) (s.boundary.points.getD b 0) * u (s.boundary.points.getD b 0)) (fun p => ev2 (pderiv 0 P) p * u p) (by
        intro b p hb
        simp [List.getD_eq_getElem?_getD, hb])
    have hY := sum_quadSum s.boundary.points s.boundary.ny hs.rules.ylen
      (fun b => ev2 (pderiv 1 P) (s.boundary.points.getD b 0) * u (s.boundary.points.getD b 0)) (fun p => ev2 (pderiv 1 P) p * u p) (by
        intro b p hb
        simp [List.getD_eq_getElem?_getD, hb])
    refine Eq.trans ?_ (congrArg₂ (· + ·) hX hY)
    rw [← Finset.sum_add_distrib]
    refine Finset.sum_congr rfl fun b hb => ?_
    have hb' := List.getElem?_eq_getElem (Finset.mem_range.1 hb)
    have hg : s.boundary.points.getD b 0 = s.boundary.points[b]'(Finset.mem_range.1 hb) := by rw [List.getD_eq_getElem?_getD, hb', Option.getD_some]
    rw [hs.nabla.bBnd i hi hi0 b _ hb', hv.value b _ hb', hg, hP]
    ring
  have e2 : ∑ l ∈ Finset.range (tri (k - 1)), s.B.ent i (s.boundary.points.length + l) * v (s.boundary.points.length + l)
      = -(intU poly.tris hu (pderiv 0 (pderiv 0 P)) + intU poly.tris hu (pderiv 1 (pderiv 1 P))) := by
    rw [← map_add, basisPoly_lap k _ _ (num2_eq k ▸ hi) hi le_rfl, lin_combo, ← Finset.sum_neg_distrib]
    refine Finset.sum_congr rfl fun l hl => ?_
    rw [hs.nabla.bInt i hi hi0 l (Finset.mem_range.1 hl)]
    have := hv.moment l (Finset.mem_range.1 hl)
    have e : intU poly.tris hu (basisPoly k poly.centroid poly.diameter l) = poly.measure * v (s.boundary.points.length + l) := this.symm
    rw [e]
    ring
  rw [sum_split, e1, e2, energyRhs_apply]
  ring

/-- The energy projection of a function of the space. -/
theorem energy (hs : SpaceOk k n V len dir ts ws w poly s) {u : ℝ × ℝ → ℝ} (hu : IntegrableOn u (unionOf poly.tris)) {v : Nat → ℝ}
    (hv : IsDofsU k poly.centroid poly.diameter poly.measure (unionOf poly.tris) s.boundary.points u v) (x : Nat → ℝ) :
    quadLin s.internal.points s.internal.weights (pderiv 0 (combo k poly.centroid poly.diameter (tri (k + 1)) x) *
        pderiv 0 (combo k poly.centroid poly.diameter (tri (k + 1)) fun j => ∑ b ∈ Finset.range (s.boundary.points.length + tri (k - 1)), s.piNabla.ent j b * v b))
      + quadLin s.internal.points s.internal.weights (pderiv 1 (combo k poly.centroid poly.diameter (tri (k + 1)) x) *
        pderiv 1 (combo k poly.centroid poly.diameter (tri (k + 1)) fun j => ∑ b ∈ Finset.range (s.boundary.points.length + tri (k - 1)), s.piNabla.ent j b * v b))
      = energyRhs poly.tris hu s.boundary (combo k poly.centroid poly.diameter (tri (k + 1)) x) := by
  set y : Nat → ℝ := fun j => ∑ b ∈ Finset.range (s.boundary.points.length + tri (k - 1)), s.piNabla.ent j b * v b with hy
  set q := combo k poly.centroid poly.diameter (tri (k + 1)) y with hq
  have e : ∀ d : Fin 2, quadLin s.internal.points s.internal.weights (pderiv d (combo k poly.centroid poly.diameter (tri (k + 1)) x) * pderiv d q)
      = ∑ i ∈ Finset.range (tri (k + 1)), x i * quadLin s.internal.points s.internal.weights (pderiv d (basisPoly k poly.centroid poly.diameter i) * pderiv d q) := by
    intro d
    rw [mul_comm, quadLin_combo_pderiv]
    exact Finset.sum_congr rfl fun i _ => by rw [mul_comm, mul_comm (pderiv d q)]
  rw [e 0, e 1, ← Finset.sum_add_distrib]
  conv_rhs => rw [combo, lin_combo]
  refine Finset.sum_congr rfl fun i hi => ?_
  have hi := Finset.mem_range.1 hi
  rw [← mul_add]
  congr 1
  rcases Nat.eq_zero_or_pos i with rfl | hi0
  · have hzero : ∀ d : Fin 2, pderiv d (basisPoly k poly.centroid poly.diameter 0) = 0 := by
      intro d
      rw [basisPoly_zero, ← C_1, pderiv_C]
    rw [energyRhs_apply]
    simp only [hzero, map_zero, zero_mul, sub_zero, add_zero]
  · rw [← b_apply hs hu hv hi hi0, ← row_pos hs.nabla y hi hi0]
    have := solves_apply hs.solves v (i := i) (by rw [hs.nabla.gRows]; exact hi)
    rw [hs.nabla.gCols, hs.nabla.bCols] at this
    exact this

/-- The mean of the energy projection. -/
theorem energy_mean (hs : SpaceOk k n V len dir ts ws w poly s) (hk : 1 ≤ k) {u : ℝ × ℝ → ℝ} {v : Nat → ℝ}
    (hv : IsDofsU k poly.centroid poly.diameter poly.measure (unionOf poly.tris) s.boundary.points u v) :
    (if k = 1 then quadLin s.boundary.points s.boundary.weights (combo k poly.centroid poly.diameter (tri (k + 1)) fun j =>
        ∑ b ∈ Finset.range (s.boundary.points.length + tri (k - 1)), s.piNabla.ent j b * v b)
      else quadLin s.internal.points s.internal.weights (combo k poly.centroid poly.diameter (tri (k + 1)) fun j =>
        ∑ b ∈ Finset.range (s.boundary.points.length + tri (k - 1)), s.piNabla.ent j b * v b))
      = if k = 1 then quadSum s.boundary.points s.boundary.weights u else ∫ p in unionOf poly.tris, u p := by
  have hpos : 0 < tri (k + 1) := by rw [tri_succ]; omega
  rw [← row_zero hs.nabla]
  have := solves_apply hs.solves v (i := 0) (by rw [hs.nabla.gRows]; exact hpos)
  rw [hs.nabla.gCols, hs.nabla.bCols] at this
  rw [this]
  have hf := hs.nabla.bFirst
  by_cases h1 : k = 1
  · rw [if_pos h1] at hf ⊢
    rw [sum_split, show tri (k - 1) = 0 by rw [h1]; rfl, Finset.sum_range_zero, add_zero, ← sum_quadSum s.boundary.points s.boundary.weights hs.rules.blen v u hv.value]
    exact Finset.sum_congr rfl fun b hb => by rw [hf b (Finset.mem_range.1 hb)]
  · rw [if_neg h1] at hf ⊢
    have hint : 0 < tri (k - 1) := by
      obtain ⟨k', rfl⟩ : ∃ k', k = k' + 2 := ⟨k - 2, by omega⟩
      rw [show k' + 2 - 1 = k' + 1 by omega, tri_succ]
      omega
    rw [sum_split, Finset.sum_eq_zero (fun b hb => by rw [hf.1 b (Finset.mem_range.1 hb), zero_mul]), zero_add, Finset.sum_eq_single 0]
    · rw [hf.2 0 hint, if_pos rfl, hv.moment 0 hint, basisPoly_zero]
      simp [ev2]
    · intro l hl h0
      rw [hf.2 l (Finset.mem_range.1 hl), if_neg h0, zero_mul]
    · intro hn
      exact absurd (Finset.mem_range.2 hint) hn

/-- The projection of a derivative of a function of the space. -/
theorem derivative {d : Fin 2} {E Y : DMat ℝ} {wn : List ℝ} (hk : 1 ≤ k)
    (hw : wn.length = s.boundary.points.length)
    (hd : DerOk k s.boundary.points.length poly.centroid poly.diameter poly.measure s.internal s.boundary.points wn d E Y)
    {u : ℝ × ℝ → ℝ} (hu : IntegrableOn u (unionOf poly.tris)) {v : Nat → ℝ}
    (hv : IsDofsU k poly.centroid poly.diameter poly.measure (unionOf poly.tris) s.boundary.points u v) (x : Nat → ℝ) :
    quadLin s.internal.points s.internal.weights (combo k poly.centroid poly.diameter (tri k) x *
        combo k poly.centroid poly.diameter (tri k) fun j => ∑ b ∈ Finset.range (s.boundary.points.length + tri (k - 1)), Y.ent j b * v b)
      = quadU s.boundary.points wn u (combo k poly.centroid poly.diameter (tri k) x) - intU poly.tris hu (pderiv d (combo k poly.centroid poly.diameter (tri k) x)) := by
  rw [mul_comm, quadLin_combo]
  have hlin : quadU s.boundary.points wn u (combo k poly.centroid poly.diameter (tri k) x) - intU poly.tris hu (pderiv d (combo k poly.centroid poly.diameter (tri k) x))
      = (quadU s.boundary.points wn u - (intU poly.tris hu).comp (pderiv d).toLinearMap) (combo k poly.centroid poly.diameter (tri k) x) := rfl
  rw [hlin]
  conv_rhs => rw [combo, lin_combo]
  refine Finset.sum_congr rfl fun i hi => ?_
  have hi := Finset.mem_range.1 hi
  rw [mul_comm (combo k poly.centroid poly.diameter (tri k) _), hd.yEq v i hi, mul_comm]
  congr 1
  rw [sum_split]
  have e1 := sum_quadSum s.boundary.points wn hw
      (fun b => ev2 (basisPoly k poly.centroid poly.diameter i) (s.boundary.points.getD b 0) * u (s.boundary.points.getD b 0))
      (fun p => ev2 (basisPoly k poly.centroid poly.diameter i) p * u p) (by
        intro b p hb
        simp [List.getD_eq_getElem?_getD, hb])
  have e1' : ∑ b ∈ Finset.range s.boundary.points.length, E.ent i b * v b = quadU s.boundary.points wn u (basisPoly k poly.centroid poly.diameter i) := by
    refine Eq.trans ?_ e1
    refine Finset.sum_congr rfl fun b hb => ?_
    have hb' := List.getElem?_eq_getElem (Finset.mem_range.1 hb)
    have hg : s.boundary.points.getD b 0 = s.boundary.points[b]'(Finset.mem_range.1 hb) := by rw [List.getD_eq_getElem?_getD, hb', Option.getD_some]
    rw [hd.bnd i hi b _ hb', hv.value b _ hb', hg]
    ring
  have e2 : ∑ l ∈ Finset.range (tri (k - 1)), E.ent i (s.boundary.points.length + l) * v (s.boundary.points.length + l)
      = -intU poly.tris hu (pderiv d (basisPoly k poly.centroid poly.diameter i)) := by
    have hi' : i < tri (k - 1 + 1) := by rwa [show k - 1 + 1 = k by omega]
    have hi'' : i < (compute mono2 k).num := by
      rw [num2_eq]
      have := tri_le (show k ≤ k + 1 by omega)
      omega
    rw [basisPoly_pderiv k _ _ hi'' hi' (by omega) d, lin_combo, ← Finset.sum_neg_distrib]
    refine Finset.sum_congr rfl fun l hl => ?_
    rw [hd.int i hi l (Finset.mem_range.1 hl)]
    have e : intU poly.tris hu (basisPoly k poly.centroid poly.diameter l) = poly.measure * v (s.boundary.points.length + l) := (hv.moment l (Finset.mem_range.1 hl)).symm
    rw [e]
    ring
  rw [e1', e2]
  show _ = quadU s.boundary.points wn u (basisPoly k poly.centroid poly.diameter i) - intU poly.tris hu (pderiv d (basisPoly k poly.centroid poly.diameter i))
  ring

end

end PolyDiM
