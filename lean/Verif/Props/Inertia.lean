import Verif.Lemmas.Inertia
import Mathlib.Tactic.NormNum
import Mathlib.Tactic.Linarith
import Mathlib.Tactic.FinCases

/-!
# Inertia maps (C54, C78, C79)
-/

namespace PolyDiM

open Matrix Spec MeasureTheory Pointwise

section
variable {K : Type} [Field K] [LinearOrder K]

/-- What is assumed of Gedim and Eigen: the eigen solver diagonalizes symmetric matrices, the diameter is the largest distance of two vertices, the
square root is one. -/
structure IsInertiaLib {n : Nat} (lib : InertiaLib K n) : Prop where
  eig : ∀ H : Matrix (Fin n) (Fin n) K, H.transpose = H → ∃ lam Q, lib.eig H = some (lam, Q) ∧ IsSpectral H lam Q
  diameter : ∀ V, V ≠ [] → IsDiameter V (lib.diameter V)
  sqrt : ∀ x, 0 < x → 0 < lib.sqrt x ∧ lib.sqrt x * lib.sqrt x = x

/-- The block of a planar map. -/
def planar (M : Matrix (Fin 3) (Fin 3) K) : Matrix (Fin 2) (Fin 2) K := !![M 0 0, M 0 1; M 1 0, M 1 1]

end

section
variable {K : Type} [Field K]

omit [Field K] in
theorem topLeft_planar (M : Matrix (Fin 3) (Fin 3) K) : topLeft M = planar M := by
  funext i j
  fin_cases i <;> fin_cases j <;> rfl

theorem setTopLeft_mul (a b : K) (A B : Matrix (Fin 2) (Fin 2) K) :
    setTopLeft (a • (1 : Matrix (Fin 3) (Fin 3) K)) A * setTopLeft (b • (1 : Matrix (Fin 3) (Fin 3) K)) B = setTopLeft ((a * b) • (1 : Matrix (Fin 3) (Fin 3) K)) (A * B) := by
  funext i j
  rw [Matrix.mul_apply, Fin.sum_univ_three]
  fin_cases i <;> fin_cases j <;> simp [setTopLeft, Matrix.mul_apply, Fin.sum_univ_two]

theorem setTopLeft_one : setTopLeft ((1 : K) • (1 : Matrix (Fin 3) (Fin 3) K)) 1 = 1 := by
  funext i j
  fin_cases i <;> fin_cases j <;> simp [setTopLeft]

omit [Field K] in
theorem planar_set (M : Matrix (Fin 3) (Fin 3) K) (A : Matrix (Fin 2) (Fin 2) K) : planar (setTopLeft M A) = A := by
  funext i j
  fin_cases i <;> fin_cases j <;> rfl

theorem planar_smul (r : K) (M : Matrix (Fin 3) (Fin 3) K) : planar (r • M) = r • planar M := by
  funext i j
  fin_cases i <;> fin_cases j <;> rfl

theorem topLeft_one (r : K) : topLeft (r • (1 : Matrix (Fin 3) (Fin 3) K)) = r • (1 : Matrix (Fin 2) (Fin 2) K) := by
  funext i j
  fin_cases i <;> fin_cases j <;> simp [topLeft]

theorem mapPoints_one (d : K) (T : List (Fin 3 → K)) : mapPoints ((1 / d) • (1 : Matrix (Fin 3) (Fin 3) K)) 0 T = T.map fun p i => p i / d := by
  unfold mapPoints
  refine List.map_congr_left fun p _ => ?_
  funext i
  rw [sub_zero, Matrix.smul_mulVec, Matrix.one_mulVec, Pi.smul_apply, smul_eq_mul, one_div_mul_eq_div]

theorem centroid_one (d : K) (c : Fin 3 → K) : ((1 / d) • (1 : Matrix (Fin 3) (Fin 3) K)).mulVec (c - 0) = fun i => c i / d := by
  funext i
  rw [sub_zero, Matrix.smul_mulVec, Matrix.one_mulVec, Pi.smul_apply, smul_eq_mul, one_div_mul_eq_div]

end

section
variable {K : Type} [Field K] [LinearOrder K] [IsStrictOrderedRing K]

theorem sqDist_pos {p q : Fin 3 → K} (h : p ≠ q) : 0 < sqDist p q := by
  obtain ⟨i, hi⟩ := Function.ne_iff.1 h
  exact Finset.sum_pos' (fun j _ => mul_self_nonneg _) ⟨i, Finset.mem_univ _, mul_self_pos.2 (sub_ne_zero.2 hi)⟩

/-- The diameter of points that are not all equal is positive, and stays so through an injective map. -/
theorem diameter_pos {V : List (Fin 3 → K)} {δ : K} {f : (Fin 3 → K) → Fin 3 → K} (hf : Function.Injective f) (h : IsDiameter (V.map f) δ)
    (hV : ∃ p ∈ V, ∃ q ∈ V, p ≠ q) : 0 < δ := by
  obtain ⟨p, hp, q, hq, hpq⟩ := hV
  have h1 := h.2.1 (f p) (List.mem_map_of_mem hp) (f q) (List.mem_map_of_mem hq)
  have h2 := sqDist_pos (hf.ne hpq)
  rcases h.1.lt_or_eq with h3 | h3
  · exact h3
  · rw [← h3, mul_zero] at h1
    exact absurd h2 (not_lt.2 h1)

theorem diameter_scale {V : List (Fin 3 → K)} {δ : K} {f g : (Fin 3 → K) → Fin 3 → K} (h : IsDiameter (V.map f) δ) (hδ : 0 < δ)
    (hg : ∀ p, g p = (1 / δ) • f p) : IsDiameter (V.map g) 1 := by
  have e : ∀ p q, sqDist (g p) (g q) = sqDist (f p) (f q) / (δ * δ) := by
    intro p q
    unfold sqDist
    rw [Finset.sum_div]
    refine Finset.sum_congr rfl fun i _ => ?_
    rw [hg, hg, Pi.smul_apply, Pi.smul_apply, smul_eq_mul, smul_eq_mul]
    field_simp
  have h0 := mul_pos hδ hδ
  refine ⟨zero_le_one, ?_, ?_⟩
  · intro p hp' q hq'
    obtain ⟨p, hp, rfl⟩ := List.mem_map.1 hp'
    obtain ⟨q, hq, rfl⟩ := List.mem_map.1 hq'
    rw [e, mul_one, div_le_one h0]
    exact h.2.1 _ (List.mem_map_of_mem hp) _ (List.mem_map_of_mem hq)
  · obtain ⟨p, hp', q, hq', hpq⟩ := h.2.2
    obtain ⟨p, hp, rfl⟩ := List.mem_map.1 hp'
    obtain ⟨q, hq, rfl⟩ := List.mem_map.1 hq'
    refine ⟨g p, List.mem_map_of_mem hp, g q, List.mem_map_of_mem hq, ?_⟩
    rw [e, hpq, mul_one, div_self h0.ne']

omit [LinearOrder K] [IsStrictOrderedRing K] in
theorem mulVec_injective {A B : Matrix (Fin 3) (Fin 3) K} (h : A * B = 1) (t : Fin 3 → K) : Function.Injective fun p => B.mulVec (p - t) := by
  intro p q hpq
  have := congrArg A.mulVec hpq
  simp only [mulVec_mulVec, h, one_mulVec] at this
  exact sub_left_injective this

/-- All the data of the planar map. -/
theorem inertia2D_ok (lib : InertiaLib K 2) (ok : IsInertiaLib lib) (thr : K) (V : List (Fin 3 → K)) (c : Fin 3 → K) (d : K) (hd : 0 < d)
    (tri : List (List (Fin 3 → K))) (hH : IsPosDef (lib.mass (fun i => c i / d) (tri.map fun T => T.map fun p i => p i / d))) (hV : ∃ p ∈ V, ∃ q ∈ V, p ≠ q) :
    ∃ (D : InertiaData K) (B BInv : Matrix (Fin 2) (Fin 2) K) (m δ : K), inertiaMapping2D lib thr V c d tri = .ok D ∧ B * BInv = 1 ∧ BInv * B = 1 ∧ 0 < m ∧ 0 < δ ∧
      B * lib.mass (fun i => c i / d) (tri.map fun T => T.map fun p i => p i / d) * B.transpose = (m * m) • (1 : Matrix (Fin 2) (Fin 2) K) ∧
      D.F = δ • setTopLeft (d • (1 : Matrix (Fin 3) (Fin 3) K)) (d • BInv) ∧
      D.FInv = (1 / δ) • setTopLeft ((1 / d) • (1 : Matrix (Fin 3) (Fin 3) K)) ((1 / d) • B) ∧
      D.translation = c ∧ D.absDet = d * d * |BInv.det| * (δ * δ) ∧ D.signDetQ = (if thr < BInv.det then 1 else -1) ∧
      IsDiameter (V.map fun p => D.FInv.mulVec (p - D.translation)) 1 := by
  obtain ⟨lam, Q, he, hs⟩ := ok.eig _ hH.1
  have hl := eig_pos hs hH
  have hsq : ∀ i, lib.sqrt (lam i) ≠ 0 := fun i => (ok.sqrt _ (hl i)).1.ne'
  have hm : 0 < max (lib.sqrt (lam 0)) (lib.sqrt (lam 1)) := lt_max_of_lt_left (ok.sqrt _ (hl 0)).1
  set s : Fin 2 → K := fun i => lib.sqrt (lam i) with hsdef
  set m := max (lib.sqrt (lam 0)) (lib.sqrt (lam 1)) with hmdef
  have hr := inertia_right hs.1 hsq hm.ne'
  have hle := inertia_left hs.1 hsq hm.ne'
  set B := inertiaB s Q m with hB
  set BInv := inertiaBInv s Q m with hBInv
  have hne : d * (1 / d) = 1 := mul_one_div_cancel hd.ne'
  have hinv : setTopLeft (d • (1 : Matrix (Fin 3) (Fin 3) K)) (d • BInv) * setTopLeft ((1 / d) • (1 : Matrix (Fin 3) (Fin 3) K)) ((1 / d) • B) = 1 := by
    rw [setTopLeft_mul, Matrix.smul_mul, Matrix.mul_smul, smul_smul, hle, hne, one_smul K (1 : Matrix (Fin 2) (Fin 2) K), setTopLeft_one]
  have hdi := ok.diameter (mapPoints (setTopLeft ((1 / d) • (1 : Matrix (Fin 3) (Fin 3) K)) ((1 / d) • B)) c V) (by
    obtain ⟨p, hp, -⟩ := hV
    intro h0
    exact List.ne_nil_of_mem hp (List.map_eq_nil_iff.1 h0))
  have hδ := diameter_pos (mulVec_injective hinv c) hdi hV
  set δ := lib.diameter (mapPoints (setTopLeft ((1 / d) • (1 : Matrix (Fin 3) (Fin 3) K)) ((1 / d) • B)) c V) with hδdef
  refine ⟨⟨δ • setTopLeft (d • 1) (d • BInv), (1 / δ) • setTopLeft ((1 / d) • 1) ((1 / d) • B), c, d * d * |BInv.det| * (δ * δ), if thr < BInv.det then 1 else -1⟩,
    B, BInv, m, δ, ?_, hr, hle, hm, hδ, inertia_iso hs hsq fun i => (ok.sqrt _ (hl i)).2, rfl, rfl, rfl, rfl, rfl, ?_⟩
  · unfold inertiaMapping2D
    dsimp only
    have hmap : (mapPoints ((1 / d) • (1 : Matrix (Fin 3) (Fin 3) K)) 0) = fun T => T.map fun p i => p i / d := funext fun T => mapPoints_one d T
    rw [centroid_one, hmap, he]
    dsimp only
    rw [topLeft_one, topLeft_one, Matrix.mul_smul, Matrix.mul_one, Matrix.smul_mul, Matrix.one_mul, zero_add, inertiaAbs_eq, one_mul]
  · exact diameter_scale hdi hδ fun p => by
      dsimp only
      rw [Matrix.smul_mulVec]

/-- All the data of the map in space. -/
theorem inertia3D_ok (lib : InertiaLib K 3) (ok : IsInertiaLib lib) (old : K) (V : List (Fin 3 → K)) (c : Fin 3 → K) (d : K) (hd : 0 < d)
    (tet : List (List (Fin 3 → K))) (hH : IsPosDef (lib.mass (fun i => c i / d) (tet.map fun T => T.map fun p i => p i / d))) (hV : ∃ p ∈ V, ∃ q ∈ V, p ≠ q) :
    ∃ (D : InertiaData K) (B BInv : Matrix (Fin 3) (Fin 3) K) (m δ : K), inertiaMapping3D lib old V c d tet = .ok D ∧ B * BInv = 1 ∧ BInv * B = 1 ∧ 0 < m ∧ 0 < δ ∧
      B * lib.mass (fun i => c i / d) (tet.map fun T => T.map fun p i => p i / d) * B.transpose = (m * m) • (1 : Matrix (Fin 3) (Fin 3) K) ∧
      D.F = δ • d • BInv ∧ D.FInv = (1 / δ) • (1 / d) • B ∧
      D.translation = c ∧ D.absDet = d * d * d * |BInv.det| * (δ * δ * δ) ∧
      IsDiameter (V.map fun p => D.FInv.mulVec (p - D.translation)) 1 := by
  obtain ⟨lam, Q, he, hs⟩ := ok.eig _ hH.1
  have hl := eig_pos hs hH
  have hsq : ∀ i, lib.sqrt (lam i) ≠ 0 := fun i => (ok.sqrt _ (hl i)).1.ne'
  have hm : 0 < max (max (lib.sqrt (lam 0)) (lib.sqrt (lam 1))) (lib.sqrt (lam 2)) := lt_max_of_lt_right (ok.sqrt _ (hl 2)).1
  set s : Fin 3 → K := fun i => lib.sqrt (lam i) with hsdef
  set m := max (max (lib.sqrt (lam 0)) (lib.sqrt (lam 1))) (lib.sqrt (lam 2)) with hmdef
  have hr := inertia_right hs.1 hsq hm.ne'
  have hle := inertia_left hs.1 hsq hm.ne'
  set B := inertiaB s Q m with hB
  set BInv := inertiaBInv s Q m with hBInv
  have hne : d * (1 / d) = 1 := mul_one_div_cancel hd.ne'
  have hinv : (d • BInv) * ((1 / d) • B) = 1 := by rw [Matrix.smul_mul, Matrix.mul_smul, smul_smul, hle, hne, one_smul]
  have hdi := ok.diameter (mapPoints ((1 / d) • B) c V) (by
    obtain ⟨p, hp, -⟩ := hV
    intro h0
    exact List.ne_nil_of_mem hp (List.map_eq_nil_iff.1 h0))
  have hδ := diameter_pos (mulVec_injective hinv c) hdi hV
  set δ := lib.diameter (mapPoints ((1 / d) • B) c V) with hδdef
  refine ⟨⟨δ • d • BInv, (1 / δ) • (1 / d) • B, c, d * d * d * |BInv.det| * (δ * δ * δ), old⟩,
    B, BInv, m, δ, ?_, hr, hle, hm, hδ, inertia_iso hs hsq fun i => (ok.sqrt _ (hl i)).2, rfl, rfl, rfl, rfl, ?_⟩
  · unfold inertiaMapping3D
    dsimp only
    have hmap : (mapPoints ((1 / d) • (1 : Matrix (Fin 3) (Fin 3) K)) 0) = fun T => T.map fun p i => p i / d := funext fun T => mapPoints_one d T
    rw [centroid_one, hmap, he]
    dsimp only
    rw [Matrix.mul_smul, Matrix.mul_one, Matrix.smul_mul, Matrix.one_mul, zero_add, inertiaAbs_eq, one_mul]
  · exact diameter_scale hdi hδ fun p => by
      dsimp only
      rw [Matrix.smul_mulVec]

/-- C54 for polygons: the matrices are inverse to each other, they map the plane to itself, and the reported determinant is the absolute value of the
determinant of the planar map. -/
theorem C54_planar (lib : InertiaLib K 2) (ok : IsInertiaLib lib) (thr : K) (V : List (Fin 3 → K)) (c : Fin 3 → K) (d : K) (hd : 0 < d)
    (tri : List (List (Fin 3 → K))) (hH : IsPosDef (lib.mass (fun i => c i / d) (tri.map fun T => T.map fun p i => p i / d))) (hV : ∃ p ∈ V, ∃ q ∈ V, p ≠ q) :
    ∃ D, inertiaMapping2D lib thr V c d tri = .ok D ∧ D.F * D.FInv = 1 ∧ D.FInv * D.F = 1 ∧ planar D.F * planar D.FInv = 1 ∧
      D.F 0 2 = 0 ∧ D.F 1 2 = 0 ∧ D.F 2 0 = 0 ∧ D.F 2 1 = 0 ∧ 0 < D.F 2 2 ∧ D.absDet = |(planar D.F).det| ∧ 0 < D.absDet ∧ D.translation = c := by
  obtain ⟨D, B, BInv, m, δ, h, hr, hl, hm, hδ, -, hF, hFI, ht, hab, -, -⟩ := inertia2D_ok lib ok thr V c d hd tri hH hV
  have hne : d * (1 / d) = 1 := mul_one_div_cancel hd.ne'
  have hne' : δ * (1 / δ) = 1 := mul_one_div_cancel hδ.ne'
  have h1 : D.F * D.FInv = 1 := by
    rw [hF, hFI, Matrix.smul_mul, Matrix.mul_smul, smul_smul, hne', one_smul, setTopLeft_mul, Matrix.smul_mul, Matrix.mul_smul, smul_smul, hl, hne,
      one_smul K (1 : Matrix (Fin 2) (Fin 2) K), setTopLeft_one]
  have hdet : BInv.det ≠ 0 := by
    intro h0
    have := congrArg Matrix.det hr
    rw [Matrix.det_mul, h0, mul_zero, Matrix.det_one] at this
    exact zero_ne_one this
  have hab' : D.absDet = |(planar D.F).det| := by
    rw [hab, hF, planar_smul, planar_set, Matrix.det_smul, Matrix.det_smul, Fintype.card_fin, abs_mul, abs_mul, abs_of_pos (pow_pos hδ 2), abs_of_pos (pow_pos hd 2)]
    ring
  refine ⟨D, h, h1, mul_eq_one_comm.1 h1, ?_, ?_, ?_, ?_, ?_, ?_, hab', ?_, ht⟩
  · rw [hF, hFI, planar_smul, planar_smul, planar_set, planar_set, Matrix.smul_mul, Matrix.mul_smul, smul_smul, hne', one_smul, Matrix.smul_mul, Matrix.mul_smul,
      smul_smul, hl, hne, one_smul]
  · rw [hF]
    simp [setTopLeft]
  · rw [hF]
    simp [setTopLeft]
  · rw [hF]
    simp [setTopLeft]
  · rw [hF]
    simp [setTopLeft]
  · rw [hF]
    simpa [setTopLeft, Matrix.one_apply] using mul_pos hδ hd
  · rw [hab]
    have := abs_pos.2 hdet
    positivity

/-- C54 for polyhedra. -/
theorem C54_space (lib : InertiaLib K 3) (ok : IsInertiaLib lib) (old : K) (V : List (Fin 3 → K)) (c : Fin 3 → K) (d : K) (hd : 0 < d)
    (tet : List (List (Fin 3 → K))) (hH : IsPosDef (lib.mass (fun i => c i / d) (tet.map fun T => T.map fun p i => p i / d))) (hV : ∃ p ∈ V, ∃ q ∈ V, p ≠ q) :
    ∃ D, inertiaMapping3D lib old V c d tet = .ok D ∧ D.F * D.FInv = 1 ∧ D.FInv * D.F = 1 ∧ D.absDet = |D.F.det| ∧ 0 < D.absDet ∧ D.translation = c := by
  obtain ⟨D, B, BInv, m, δ, h, hr, hl, hm, hδ, -, hF, hFI, ht, hab, -⟩ := inertia3D_ok lib ok old V c d hd tet hH hV
  have hne : d * (1 / d) = 1 := mul_one_div_cancel hd.ne'
  have hne' : δ * (1 / δ) = 1 := mul_one_div_cancel hδ.ne'
  have h1 : D.F * D.FInv = 1 := by
    rw [hF, hFI, Matrix.smul_mul, Matrix.mul_smul, smul_smul, hne', one_smul, Matrix.smul_mul, Matrix.mul_smul, smul_smul, hl, hne, one_smul]
  have hdet : BInv.det ≠ 0 := by
    intro h0
    have := congrArg Matrix.det hr
    rw [Matrix.det_mul, h0, mul_zero, Matrix.det_one] at this
    exact zero_ne_one this
  refine ⟨D, h, h1, mul_eq_one_comm.1 h1, ?_, ?_, ht⟩
  · rw [hab, hF, Matrix.det_smul, Matrix.det_smul, Fintype.card_fin, abs_mul, abs_mul, abs_of_pos (pow_pos hδ 3), abs_of_pos (pow_pos hd 3)]
    ring
  · rw [hab]
    have := abs_pos.2 hdet
    positivity

/-- C79, the part that holds: the reported sign is the sign of the determinant of the planar map when this determinant, divided by the square of the
scaling `D.F 2 2`, exceeds the threshold in absolute value. Missing: elements so anisotropic that it does not (`C79_sign_false`). -/
theorem C79_sign_partial (lib : InertiaLib K 2) (ok : IsInertiaLib lib) (thr : K) (hthr : 0 ≤ thr) (V : List (Fin 3 → K)) (c : Fin 3 → K) (d : K) (hd : 0 < d)
    (tri : List (List (Fin 3 → K))) (hH : IsPosDef (lib.mass (fun i => c i / d) (tri.map fun T => T.map fun p i => p i / d))) (hV : ∃ p ∈ V, ∃ q ∈ V, p ≠ q) :
    ∃ D, inertiaMapping2D lib thr V c d tri = .ok D ∧ (thr * (D.F 2 2 * D.F 2 2) < D.absDet → D.signDetQ * D.absDet = (planar D.F).det) := by
  obtain ⟨D, B, BInv, m, δ, h, hr, hl, hm, hδ, -, hF, hFI, ht, hab, hsg, -⟩ := inertia2D_ok lib ok thr V c d hd tri hH hV
  refine ⟨D, h, fun hlt => ?_⟩
  have h22 : D.F 2 2 = δ * d := by
    rw [hF]
    simp [setTopLeft]
  have hdet : (planar D.F).det = δ * δ * (d * d) * BInv.det := by
    rw [hF, planar_smul, planar_set, Matrix.det_smul, Matrix.det_smul, Fintype.card_fin]
    ring
  rw [h22, hab] at hlt
  have h2 : thr < |BInv.det| := by
    have hp : 0 < δ * d * (δ * d) := by positivity
    refine lt_of_mul_lt_mul_right ?_ hp.le
    calc thr * (δ * d * (δ * d)) < d * d * |BInv.det| * (δ * δ) := hlt
      _ = |BInv.det| * (δ * d * (δ * d)) := by ring
  rw [hdet, hab, hsg]
  by_cases h3 : thr < BInv.det
  · rw [if_pos h3, abs_of_pos (lt_of_le_of_lt hthr h3)]
    ring
  · rw [if_neg h3]
    rcases le_or_gt 0 BInv.det with h4 | h4
    · rw [abs_of_nonneg h4] at h2
      exact absurd h2 h3
    · rw [abs_of_neg h4]
      ring

end

/-- C78 for polygons: when the mass matrix is the matrix of second moments of the rescaled element, the mapped element has second moments that are a positive
multiple of the identity, its vertices have diameter 1 and, if the point passed as centroid is the centroid, its centroid is the origin. -/
theorem C78_planar (lib : InertiaLib ℝ 2) (ok : IsInertiaLib lib) (thr : ℝ) (V : List (Fin 3 → ℝ)) (c : Fin 3 → ℝ) (d : ℝ) (hd : 0 < d)
    (tri : List (List (Fin 3 → ℝ))) (E : Set (Fin 2 → ℝ)) (hE : IsCompact E) (hv : 0 < volume E)
    (hmass : lib.mass (fun i => c i / d) (tri.map fun T => T.map fun p i => p i / d) = Matrix.of (secondMoment ((fun x => (1 / d) • x) '' E) fun i => c i.castSucc / d))
    (hV : ∃ p ∈ V, ∃ q ∈ V, p ≠ q) :
    ∃ D, inertiaMapping2D lib thr V c d tri = .ok D ∧
      (∃ μ, 0 < μ ∧ ∀ i j, secondMoment ((fun x => (planar D.FInv).mulVec (x - fun k => D.translation k.castSucc)) '' E) 0 i j = if i = j then μ else 0) ∧
      IsDiameter (V.map fun p => D.FInv.mulVec (p - D.translation)) 1 ∧
      ((∀ i, ∫ x in E, (x i - c i.castSucc) = 0) →
        ∀ i, ∫ y in (fun x => (planar D.FInv).mulVec (x - fun k => D.translation k.castSucc)) '' E, y i = 0) := by
  have hs : (0 : ℝ) < |(1 / d) ^ 2| * (1 / d * (1 / d)) := by positivity
  have hPD : IsPosDef (lib.mass (fun i => c i / d) (tri.map fun T => T.map fun p i => p i / d)) := by
    rw [hmass]
    refine moment_posDef _ _ (hE.image (by fun_prop)) ?_
    have : (fun x : Fin 2 → ℝ => (1 / d) • x) '' E = (1 / d) • E := rfl
    rw [this, Measure.addHaar_smul]
    refine ENNReal.mul_pos ?_ hv.ne'
    rw [Module.finrank_fin_fun]
    exact (ENNReal.ofReal_pos.2 (by positivity)).ne'
  obtain ⟨D, B, BInv, m, δ, h, hr, hl, hm, hδ, hiso, hF, hFI, ht, -, -, hdi⟩ := inertia2D_ok lib ok thr V c d hd tri hPD hV
  have hdet : B.det ≠ 0 := by
    intro h0
    have := congrArg Matrix.det hr
    rw [Matrix.det_mul, h0, zero_mul, Matrix.det_one] at this
    exact zero_ne_one this
  have hp : planar D.FInv = ((1 / δ) * (1 / d)) • B := by rw [hFI, planar_smul, planar_set, smul_smul]
  rw [hmass] at hiso
  refine ⟨D, h, ?_, hdi, fun hc i => ?_⟩
  · rw [hp, ht]
    exact isotropic d hd (fun k => c k.castSucc) E hE B hdet m _ hm (by positivity) hiso
  · rw [ht]
    exact first_moment _ _ E hE hc i

/-- C78 for polyhedra. -/
theorem C78_space (lib : InertiaLib ℝ 3) (ok : IsInertiaLib lib) (old : ℝ) (V : List (Fin 3 → ℝ)) (c : Fin 3 → ℝ) (d : ℝ) (hd : 0 < d)
    (tet : List (List (Fin 3 → ℝ))) (E : Set (Fin 3 → ℝ)) (hE : IsCompact E) (hv : 0 < volume E)
    (hmass : lib.mass (fun i => c i / d) (tet.map fun T => T.map fun p i => p i / d) = Matrix.of (secondMoment ((fun x => (1 / d) • x) '' E) fun i => c i / d))
    (hV : ∃ p ∈ V, ∃ q ∈ V, p ≠ q) :
    ∃ D, inertiaMapping3D lib old V c d tet = .ok D ∧
      (∃ μ, 0 < μ ∧ ∀ i j, secondMoment ((fun x => D.FInv.mulVec (x - D.translation)) '' E) 0 i j = if i = j then μ else 0) ∧
      IsDiameter (V.map fun p => D.FInv.mulVec (p - D.translation)) 1 ∧
      ((∀ i, ∫ x in E, (x i - c i) = 0) → ∀ i, ∫ y in (fun x => D.FInv.mulVec (x - D.translation)) '' E, y i = 0) := by
  have hPD : IsPosDef (lib.mass (fun i => c i / d) (tet.map fun T => T.map fun p i => p i / d)) := by
    rw [hmass]
    refine moment_posDef _ _ (hE.image (by fun_prop)) ?_
    have : (fun x : Fin 3 → ℝ => (1 / d) • x) '' E = (1 / d) • E := rfl
    rw [this, Measure.addHaar_smul]
    refine ENNReal.mul_pos ?_ hv.ne'
    rw [Module.finrank_fin_fun]
    exact (ENNReal.ofReal_pos.2 (by positivity)).ne'
  obtain ⟨D, B, BInv, m, δ, h, hr, hl, hm, hδ, hiso, hF, hFI, ht, -, hdi⟩ := inertia3D_ok lib ok old V c d hd tet hPD hV
  have hdet : B.det ≠ 0 := by
    intro h0
    have := congrArg Matrix.det hr
    rw [Matrix.det_mul, h0, zero_mul, Matrix.det_one] at this
    exact zero_ne_one this
  rw [hmass] at hiso
  refine ⟨D, h, ?_, hdi, fun hc i => ?_⟩
  · rw [hFI, smul_smul, ht]
    exact isotropic d hd c E hE B hdet m _ hm (by positivity) hiso
  · rw [ht]
    exact first_moment _ _ E hE hc i

/-! ### The assumptions can be met -/

theorem exists_spectral {n : Nat} (H : Matrix (Fin n) (Fin n) ℝ) (h : H.transpose = H) : ∃ lam Q, IsSpectral H lam Q := by
  have hA : H.IsHermitian := by
    rw [Matrix.IsHermitian, Matrix.conjTranspose_eq_transpose_of_trivial, h]
  refine ⟨hA.eigenvalues, (hA.eigenvectorUnitary : Matrix (Fin n) (Fin n) ℝ), ?_, ?_⟩
  · have := Unitary.coe_star_mul_self hA.eigenvectorUnitary
    rwa [Matrix.star_eq_conjTranspose, Matrix.conjTranspose_eq_transpose_of_trivial] at this
  · have := hA.spectral_theorem
    rw [Unitary.conjStarAlgAut_apply, Matrix.star_eq_conjTranspose, Matrix.conjTranspose_eq_transpose_of_trivial] at this
    exact this

theorem exists_diameter (V : List (Fin 3 → ℝ)) (hV : V ≠ []) : ∃ δ, IsDiameter V δ := by
  have hne : (V ×ˢ V) ≠ [] := by
    obtain ⟨p, hp⟩ := List.exists_mem_of_ne_nil _ hV
    exact List.ne_nil_of_mem (List.mem_product.2 ⟨hp, hp⟩)
  classical
  obtain ⟨pq, hpq, hmax⟩ := Finset.exists_max_image (V ×ˢ V).toFinset (fun x => sqDist x.1 x.2) (List.toFinset_nonempty_iff _ |>.2 hne)
  rw [List.mem_toFinset] at hpq
  have h0 : 0 ≤ sqDist pq.1 pq.2 := Finset.sum_nonneg fun i _ => mul_self_nonneg _
  refine ⟨Real.sqrt (sqDist pq.1 pq.2), Real.sqrt_nonneg _, fun p hp q hq => ?_, pq.1, (List.mem_product.1 hpq).1, pq.2, (List.mem_product.1 hpq).2, ?_⟩
  · rw [Real.mul_self_sqrt h0]
    exact hmax (p, q) (List.mem_toFinset.2 (List.mem_product.2 ⟨hp, hq⟩))
  · rw [Real.mul_self_sqrt h0]

/-- A library with a given mass function and given eigenvectors of one matrix. -/
theorem exists_lib {n : Nat} (mass : (Fin 3 → ℝ) → List (List (Fin 3 → ℝ)) → Matrix (Fin n) (Fin n) ℝ) (H : Matrix (Fin n) (Fin n) ℝ) (lam : Fin n → ℝ)
    (Q : Matrix (Fin n) (Fin n) ℝ) (h : IsSpectral H lam Q) : ∃ lib : InertiaLib ℝ n, IsInertiaLib lib ∧ lib.mass = mass ∧ lib.eig H = some (lam, Q) ∧ lib.sqrt = Real.sqrt := by
  classical
  refine ⟨⟨mass, fun M => if M = H then some (lam, Q) else if hM : M.transpose = M then
    some ((exists_spectral M hM).choose, (exists_spectral M hM).choose_spec.choose) else none,
    fun V => if hV : V ≠ [] then (exists_diameter V hV).choose else 0, Real.sqrt⟩, ⟨fun M hM => ?_, fun V hV => ?_, fun x hx => ?_⟩, rfl, if_pos rfl, rfl⟩
  · by_cases e : M = H
    · exact ⟨lam, Q, if_pos e, by rw [e]; exact h⟩
    · exact ⟨_, _, (if_neg e).trans (dif_pos hM), (exists_spectral M hM).choose_spec.choose_spec⟩
  · dsimp only
    rw [dif_pos hV]
    exact (exists_diameter V hV).choose_spec
  · exact ⟨Real.sqrt_pos.2 hx, Real.mul_self_sqrt hx.le⟩

theorem diag_posDef (a b : ℝ) (ha : 0 < a) (hb : 0 < b) : IsPosDef (diagonal ![a, b]) := by
  refine ⟨diagonal_transpose _, fun x hx => ?_⟩
  simp only [Fin.sum_univ_two]
  have e : x 0 * (diagonal ![a, b] 0 0 * x 0) + x 0 * (diagonal ![a, b] 0 1 * x 1) + (x 1 * (diagonal ![a, b] 1 0 * x 0) + x 1 * (diagonal ![a, b] 1 1 * x 1))
      = a * (x 0 * x 0) + b * (x 1 * x 1) := by
    simp
    ring
  rw [e]
  have h0 := mul_self_nonneg (x 0)
  have h1 := mul_self_nonneg (x 1)
  by_cases h : x 0 = 0
  · have h' : x 1 ≠ 0 := by
      intro h'
      apply hx
      funext i
      fin_cases i
      · exact h
      · exact h'
    have := mul_pos hb (mul_self_pos.2 h')
    have := mul_nonneg ha.le h0
    linarith
  · have := mul_pos ha (mul_self_pos.2 h)
    have := mul_nonneg hb.le h1
    linarith

/-- C79 fails for very thin elements: with moments in the ratio `10⁻²⁶` the map preserves the orientation but the reported sign is `-1`. -/
theorem C79_sign_false : ∃ (lib : InertiaLib ℝ 2) (V : List (Fin 3 → ℝ)) (c : Fin 3 → ℝ) (tri : List (List (Fin 3 → ℝ))) (D : InertiaData ℝ),
    IsInertiaLib lib ∧ IsPosDef (lib.mass (fun i => c i / 1) (tri.map fun T => T.map fun p i => p i / 1)) ∧
    inertiaMapping2D lib (1 / 10 ^ 12) V c 1 tri = .ok D ∧ D.signDetQ = -1 ∧ 0 < (planar D.F).det := by
  have hsp : IsSpectral (diagonal ![(1 : ℝ), (1 / 10 ^ 13) * (1 / 10 ^ 13)]) ![(1 : ℝ), (1 / 10 ^ 13) * (1 / 10 ^ 13)] 1 := by
    refine ⟨by rw [transpose_one, Matrix.one_mul], by rw [transpose_one, Matrix.one_mul, Matrix.mul_one]⟩
  obtain ⟨lib, ok, hm, he, hq⟩ := exists_lib (fun _ _ => diagonal ![(1 : ℝ), (1 / 10 ^ 13) * (1 / 10 ^ 13)]) _ _ _ hsp
  have s0 : Real.sqrt 1 = 1 := Real.sqrt_one
  have s1 : Real.sqrt ((1 / 10 ^ 13) * (1 / 10 ^ 13)) = 1 / 10 ^ 13 := Real.sqrt_mul_self (by positivity)
  have hpd : IsPosDef (lib.mass (fun i => (0 : Fin 3 → ℝ) i / 1) (([] : List (List (Fin 3 → ℝ))).map fun T => T.map fun p i => p i / 1)) := by
    rw [hm]
    exact diag_posDef _ _ one_pos (by positivity)
  obtain ⟨D, h, -, -, -, -, -, -, -, -, hab, hpos, -⟩ := C54_planar lib ok (1 / 10 ^ 12) [0, fun _ => 1] 0 1 one_pos [] hpd
    ⟨0, by simp, fun _ => 1, by simp, by
      intro h
      have := congrFun h 0
      simp at this⟩
  refine ⟨lib, [0, fun _ => 1], 0, [], D, ok, hpd, h, ?_⟩
  have hE : inertiaMapping2D lib (1 / 10 ^ 12) [0, fun _ => 1] 0 1 [] = .ok D := h
  unfold inertiaMapping2D at hE
  dsimp only at hE
  rw [hm] at hE
  dsimp only at hE
  rw [he] at hE
  dsimp only at hE
  simp only [Except.ok.injEq] at hE
  have hdet : (inertiaBInv (fun i => lib.sqrt ((![(1 : ℝ), (1 / 10 ^ 13) * (1 / 10 ^ 13)] : Fin 2 → ℝ) i)) 1
      (max (lib.sqrt ((![(1 : ℝ), (1 / 10 ^ 13) * (1 / 10 ^ 13)] : Fin 2 → ℝ) 0)) (lib.sqrt ((![(1 : ℝ), (1 / 10 ^ 13) * (1 / 10 ^ 13)] : Fin 2 → ℝ) 1)))).det = 1 / 10 ^ 13 := by
    rw [hq]
    show (inertiaBInv (fun i => Real.sqrt ((![(1 : ℝ), (1 / 10 ^ 13) * (1 / 10 ^ 13)] : Fin 2 → ℝ) i)) 1 (max (Real.sqrt 1) (Real.sqrt ((1 / 10 ^ 13) * (1 / 10 ^ 13))))).det = _
    rw [s0, s1, max_eq_left (by norm_num)]
    unfold inertiaBInv
    rw [Matrix.one_mul, div_one, one_smul, Matrix.det_diagonal, Fin.prod_univ_two]
    show Real.sqrt 1 * Real.sqrt ((1 / 10 ^ 13) * (1 / 10 ^ 13)) = _
    rw [s0, s1, one_mul]
  constructor
  · rw [← hE]
    dsimp only
    rw [hdet]
    exact if_neg (by norm_num)
  · have h0 : 0 ≤ (planar D.F).det := by
      rw [← hE]
      dsimp only
      rw [planar_smul, planar_set, Matrix.det_smul, Matrix.det_mul, hdet, topLeft_one (1 : ℝ), one_smul ℝ (1 : Matrix (Fin 2) (Fin 2) ℝ), Matrix.det_one, Fintype.card_fin]
      positivity
    rw [hab] at hpos
    exact lt_of_le_of_ne h0 (abs_pos.1 hpos).symm

/-- A rectangle with sides 2 and 1: C78 applies to it. -/
example : ∃ (lib : InertiaLib ℝ 2) (D : InertiaData ℝ), inertiaMapping2D lib (1 / 10 ^ 12) [![0, 0, 0], ![2, 0, 0], ![2, 1, 0], ![0, 1, 0]] ![1, 1 / 2, 0] 2
      [[![0, 0, 0], ![2, 0, 0], ![2, 1, 0]], [![0, 0, 0], ![2, 1, 0], ![0, 1, 0]]] = .ok D ∧
    (∃ μ, 0 < μ ∧ ∀ i j, secondMoment ((fun x => (planar D.FInv).mulVec (x - fun k => D.translation k.castSucc)) '' Set.Icc (0 : Fin 2 → ℝ) ![2, 1]) 0 i j = if i = j then μ else 0) ∧
    IsDiameter ([![0, 0, 0], ![2, 0, 0], ![2, 1, 0], ![0, 1, 0]].map fun p => D.FInv.mulVec (p - D.translation)) 1 := by
  obtain ⟨lib, ok, hm, -, -⟩ := exists_lib (fun _ _ => Matrix.of (secondMoment ((fun x => (1 / (2 : ℝ)) • x) '' Set.Icc (0 : Fin 2 → ℝ) ![2, 1])
    fun i => (![1, 1 / 2, 0] : Fin 3 → ℝ) i.castSucc / 2)) (1 : Matrix (Fin 2) (Fin 2) ℝ) 1 1 ⟨by simp, by simp⟩
  obtain ⟨D, h, h1, h2, -⟩ := C78_planar lib ok (1 / 10 ^ 12) [![0, 0, 0], ![2, 0, 0], ![2, 1, 0], ![0, 1, 0]] ![1, 1 / 2, 0] 2 two_pos
    [[![0, 0, 0], ![2, 0, 0], ![2, 1, 0]], [![0, 0, 0], ![2, 1, 0], ![0, 1, 0]]] (Set.Icc (0 : Fin 2 → ℝ) ![2, 1]) isCompact_Icc (by
      rw [Real.volume_Icc_pi, Fin.prod_univ_two]
      simp) (by rw [hm]) ⟨![0, 0, 0], by simp, ![2, 0, 0], by simp, by
      intro h
      have := congrFun h 0
      simp at this⟩
  exact ⟨lib, D, h, h1, h2⟩

/-- The unit cube: C54 and C78 in space. -/
example : ∃ (lib : InertiaLib ℝ 3) (D : InertiaData ℝ), inertiaMapping3D lib 0 [![0, 0, 0], ![1, 0, 0], ![1, 1, 1]] ![1 / 2, 1 / 2, 1 / 2] 3 [] = .ok D ∧
    D.F * D.FInv = 1 ∧ D.absDet = |D.F.det| ∧
    (∃ μ, 0 < μ ∧ ∀ i j, secondMoment ((fun x => D.FInv.mulVec (x - D.translation)) '' Set.Icc (0 : Fin 3 → ℝ) 1) 0 i j = if i = j then μ else 0) := by
  obtain ⟨lib, ok, hm, -, -⟩ := exists_lib (fun _ _ => Matrix.of (secondMoment ((fun x => (1 / (3 : ℝ)) • x) '' Set.Icc (0 : Fin 3 → ℝ) 1)
    fun i => (![1 / 2, 1 / 2, 1 / 2] : Fin 3 → ℝ) i / 3)) (1 : Matrix (Fin 3) (Fin 3) ℝ) 1 1 ⟨by simp, by simp⟩
  have hv : 0 < volume (Set.Icc (0 : Fin 3 → ℝ) 1) := by
    rw [Real.volume_Icc_pi, Fin.prod_univ_three]
    simp
  have hV : ∃ p ∈ [![0, 0, 0], ![1, 0, 0], (![1, 1, 1] : Fin 3 → ℝ)], ∃ q ∈ [![0, 0, 0], ![1, 0, 0], (![1, 1, 1] : Fin 3 → ℝ)], p ≠ q := ⟨![0, 0, 0], by simp, ![1, 0, 0], by simp, by
      intro h
      have := congrFun h 0
      simp at this⟩
  obtain ⟨D, h, h1, -⟩ := C78_space lib ok 0 [![0, 0, 0], ![1, 0, 0], ![1, 1, 1]] ![1 / 2, 1 / 2, 1 / 2] 3 (by norm_num) [] (Set.Icc (0 : Fin 3 → ℝ) 1) isCompact_Icc hv (by rw [hm]) hV
  obtain ⟨D', h', h2, -, h3, -⟩ := C54_space lib ok 0 [![0, 0, 0], ![1, 0, 0], ![1, 1, 1]] ![1 / 2, 1 / 2, 1 / 2] 3 (by norm_num) [] (by
    rw [hm]
    refine moment_posDef _ _ (isCompact_Icc.image (by fun_prop)) ?_
    have : (fun x : Fin 3 → ℝ => (1 / (3 : ℝ)) • x) '' Set.Icc (0 : Fin 3 → ℝ) 1 = (1 / (3 : ℝ)) • Set.Icc (0 : Fin 3 → ℝ) 1 := rfl
    rw [this, Measure.addHaar_smul]
    exact ENNReal.mul_pos (by simp) hv.ne') hV
  rw [h] at h'
  cases h'
  exact ⟨lib, D, h, h2, h3, h1⟩

end PolyDiM
