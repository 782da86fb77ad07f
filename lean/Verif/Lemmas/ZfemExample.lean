import Verif.Lemmas.ZfemUnisolvent

/-! Two polygons: a square on its corner, and a triangle with a vertex in the middle of a side. -/

namespace PolyDiM

open Spec MvPolynomial

/-- A square with centre 0, cut into four triangles; the second edge is stored backwards. -/
noncomputable def diamond : ZfemPolygon ℝ :=
  ⟨4, [⟨1, 0, 0, 1, 1, 0, 0, 1, 0, 0⟩, ⟨0, -1, 1, 0, 0, 1, -1, 0, 0, 0⟩, ⟨-1, 0, 0, -1, -1, 0, 0, -1, 0, 0⟩, ⟨0, 1, -1, 0, 0, -1, 1, 0, 0, 0⟩],
    [true, false, true, true], (0, 0), 2⟩

/-- The vertices of the square. -/
noncomputable def diamondV (v : Nat) : ℝ × ℝ := if v = 0 then (1, 0) else if v = 1 then (0, 1) else if v = 2 then (-1, 0) else (0, -1)

theorem diamond_fan : IsFan diamond (0, 0) diamondV := by
  refine ⟨by decide, rfl, rfl, ?_, ?_⟩
  · intro t ht m hm
    have ht : t < 4 := ht
    interval_cases t <;> simp only [diamond, List.getElem?_cons_zero, List.getElem?_cons_succ, Option.some.injEq] at hm <;> subst hm <;>
      simp [triVertex, refVertex, diamondV, diamond]
  · intro m hm
    simp only [diamond, List.mem_cons, List.not_mem_nil, or_false] at hm
    rcases hm with rfl | rfl | rfl | rfl <;> simp [IsInverse]

theorem diamond_lines : DifferentLines diamond.num diamondV (Finset.range 4) := by
  intro t ht r hr htr
  have ht := Finset.mem_range.1 ht
  have hr := Finset.mem_range.1 hr
  interval_cases t <;> interval_cases r <;> first | exact absurd rfl htr | (simp [area2, diamondV, diamond]; try norm_num)

/-- The triangle (4, 0), (0, 3), (0, 0) with the vertex (0, 2) on a side, cut at the centre (1, 1) of its inscribed circle. -/
noncomputable def hanging : ZfemPolygon ℝ :=
  ⟨4, [⟨3, -1, -1, 2, 2 / 5, 1 / 5, 1 / 5, 3 / 5, 1, 1⟩, ⟨-1, -1, 2, 1, 1, 1, -2, -1, 1, 1⟩, ⟨-1, -1, 1, -1, -1 / 2, 1 / 2, -1 / 2, -1 / 2, 1, 1⟩,
    ⟨-1, 3, -1, -1, -1 / 4, -3 / 4, 1 / 4, -1 / 4, 1, 1⟩], [true, true, true, true], (4 / 3, 1), 5⟩

/-- The vertices of the triangle with a vertex on a side. -/
noncomputable def hangingV (v : Nat) : ℝ × ℝ := if v = 0 then (4, 0) else if v = 1 then (0, 3) else if v = 2 then (0, 2) else (0, 0)

theorem hanging_fan : IsFan hanging (1, 1) hangingV := by
  refine ⟨by decide, rfl, rfl, ?_, ?_⟩
  · intro t ht m hm
    have ht : t < 4 := ht
    interval_cases t <;> simp only [hanging, List.getElem?_cons_zero, List.getElem?_cons_succ, Option.some.injEq] at hm <;> subst hm <;>
      simp [triVertex, refVertex, hangingV, hanging] <;> norm_num
  · intro m hm
    simp only [hanging, List.mem_cons, List.not_mem_nil, or_false] at hm
    rcases hm with rfl | rfl | rfl | rfl <;> simp only [IsInverse] <;> norm_num

/-- The polynomial of degree 4 that vanishes at the DOF nodes of order 4. -/
noncomputable def hangingPoly : MvPolynomial (Fin 2) ℝ := affPoly 0 1 0 * affPoly 0 0 1 * affPoly (-12) 3 4 * affPoly (-1) 0 1

theorem ev2_hangingPoly (p : ℝ × ℝ) : ev2 hangingPoly p = p.1 * p.2 * (3 * p.1 + 4 * p.2 - 12) * (p.2 - 1) := by
  unfold hangingPoly
  rw [show ev2 (affPoly 0 1 0 * affPoly 0 0 1 * affPoly (-12) 3 4 * affPoly (-1) 0 1) p =
    ev2 (affPoly 0 1 0) p * ev2 (affPoly 0 0 1) p * ev2 (affPoly (-12) 3 4) p * ev2 (affPoly (-1) 0 1) p by simp [ev2]]
  simp only [ev2_affPoly]
  ring

theorem hangingPoly_degree : hangingPoly.totalDegree ≤ 4 := by
  unfold hangingPoly
  have h1 := affPoly_degree 0 1 0
  have h2 := affPoly_degree 0 0 1
  have h3 := affPoly_degree (-12) 3 4
  have h4 := affPoly_degree (-1) 0 1
  refine (totalDegree_mul _ _).trans ?_
  have := (totalDegree_mul (affPoly 0 1 0 * affPoly 0 0 1) (affPoly (-12) 3 4))
  have := (totalDegree_mul (affPoly 0 1 0) (affPoly 0 0 1))
  omega

theorem hanging_map : ∃ M, createMaps 4 4 3 3 19 = .ok M ∧ M.ent 0 0 = some 16 ∧ M.ent 0 13 = some 17 ∧ M.ent 2 12 = some 18 ∧ M.ent 0 3 = some 19 :=
  ⟨_, rfl, rfl, rfl, rfl, rfl⟩

/-- The DOF nodes are zeros of the polynomial; the first virtual node is not. -/
theorem hanging_zeros {quad : Nat → Rule (ℝ × ℝ) ℝ} {ref : ZfemRef ℝ} (href : zfemRef quad 4 = .ok ref) {finer : List (ℝ × ℝ)} (hfin : HasNodes ref hanging finer) :
    (∀ p ∈ finer.take 19, ev2 hangingPoly p = 0) ∧ ∃ v, finer[19]? = some v ∧ ev2 hangingPoly v ≠ 0 := by
  obtain ⟨tris, M, num, finer', el⟩ := element_ok (by norm_num) href hanging_fan
  obtain rfl := el.unique hfin
  obtain ⟨hd, hord, -, -, -, h1, h2, -⟩ := zfemRef_ok quad 4 (by norm_num) ref href
  obtain ⟨hbas, htot, -⟩ := counts_ok (by norm_num) href hanging.num (by decide)
  obtain ⟨M', hM', e0, e1, e2, e3⟩ := hanging_map
  have hMM : M = M' := by
    have h := el.map_ok
    rw [hord, h1, h2, hbas] at h
    rw [show createMaps 4 hanging.num (4 - 1) ((4 - 1) * (4 - 2) / 2) (hanging.num + hanging.num * (4 - 1) + (4 - 1) * (4 - 2) / 2) = createMaps 4 4 3 3 19 from rfl,
      hM'] at h
    injection h with h
    exact h.symm
  subst hMM
  have hn : hanging.num = 4 := rfl
  have hcols : M.cols = 15 := by rw [el.map.cols]
  have hent := el.map.ent
  have f0 := hent 0 (by decide) 0 (by omega)
  have f1 := hent 0 (by decide) 13 (by omega)
  have f2 := hent 2 (by decide) 12 (by omega)
  have f3 := hent 0 (by decide) 3 (by omega)
  rw [e0] at f0
  rw [e1] at f1
  rw [e2] at f2
  rw [e3] at f3
  have g0 : num .centre = 16 := (Option.some.inj f0).symm
  have g1 : num (.inner 0 1) = 17 := (Option.some.inj f1).symm
  have g2 : num (.inner 2 0) = 18 := (Option.some.inj f2).symm
  have g3 : num (.spoke 0 0) = 19 := (Option.some.inj f3).symm
  have hty : ∀ j, innerType ref.fem 4 j = (triTypes 3).getD (12 + j) (0, 0, 0) := by
    intro j
    rw [triCreate_ok] at hd
    injection hd with hd
    rw [← hd]
    rfl
  have t1 : innerType ref.fem 4 1 = (1, 2, 1) := by rw [hty]; decide
  have t0 : innerType ref.fem 4 0 = (2, 1, 1) := by rw [hty]; decide
  have hdir : ∀ v < 4, hanging.dirs.getD v true = true := by
    intro v hv
    interval_cases v <;> rfl
  constructor
  · intro p hp
    obtain ⟨i, hi, hpi⟩ := List.mem_iff_getElem.1 hp
    have hi19 : i < 19 := lt_of_lt_of_le hi (List.length_take_le _ _)
    have hp' : finer'[i]? = some p := by
      rw [← hpi, List.getElem_take]
      exact List.getElem?_eq_getElem _
    have hcase : ∀ x, IsFanNode 4 3 3 x → num x = i → p = fanPoint 4 4 (1, 1) hangingV (fun v => hanging.dirs.getD v true) (innerType ref.fem 4) x := by
      intro x hx hxi
      have := el.pt x hx
      rw [hxi, hp'] at this
      exact Option.some.inj this
    rw [ev2_hangingPoly]
    by_cases hv : i < 4
    · rw [hcase (.vertex i) (.vertex i hv) (el.vertex i)]
      interval_cases i <;> simp [fanPoint, hangingV]
    by_cases he : i < 16
    · obtain ⟨v, j, hv4, hj, rfl⟩ : ∃ v j, v < 4 ∧ j < 3 ∧ i = 4 + v * 3 + j := ⟨(i - 4) / 3, (i - 4) % 3, by omega, by omega, by omega⟩
      rw [hcase (.edge v j) (.edge v j hv4 hj) (by rw [el.edge, hn])]
      simp only [fanPoint, hdir v hv4, polyEdge, if_true, segPoint]
      interval_cases v <;> simp [hangingV] <;> (ring_nf; simp)
    rcases (show i = 16 ∨ i = 17 ∨ i = 18 by omega) with h | h | h
    · rw [hcase .centre .centre (by rw [g0, h])]
      simp [fanPoint]
    · rw [hcase (.inner 0 1) (.inner 0 1 (by norm_num) (by norm_num)) (by rw [g1, h])]
      simp only [fanPoint, t1, hangingV]
      norm_num
    · rw [hcase (.inner 2 0) (.inner 2 0 (by norm_num) (by norm_num)) (by rw [g2, h])]
      simp only [fanPoint, t0, hangingV]
      norm_num
  · have := el.pt (.spoke 0 0) (.spoke 0 0 (by decide) (by norm_num))
    rw [g3] at this
    refine ⟨_, this, ?_⟩
    rw [ev2_hangingPoly]
    simp only [fanPoint, segPoint, hangingV]
    norm_num

end PolyDiM
