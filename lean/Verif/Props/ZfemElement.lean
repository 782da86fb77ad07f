import Verif.Lemmas.ZfemShape
import Verif.Lemmas.ZfemExample
import Verif.Lemmas.VemExample

/-!
# C125–C129: nodes, weights and basis functions of the ZFEM element

About `zfemNodes`, `zfemCreate`, `zfemValuesAt`, `zfemDerivativesAt`, `zfemValuesOnEdge` of `Verif/Model/Zfem2D.lean`.
-/

namespace PolyDiM

open Spec MvPolynomial

/-- **C125.** For every order and every polygon cut into triangles around a point: the nodes of the element are the nodes of the triangles, each once, at the
positions prescribed by geometry: vertices, `k - 1` equidistant points on every edge in the direction of the mesh and on every spoke, the lattice points inside every
triangle. The DOF nodes come first: the vertices of the polygon, its edges, the centre from order 3 on, and nodes inside the triangles. -/
theorem C125_nodes {K : Type} [Field K] [CharZero K] (quad : Nat → Rule (K × K) K) (k : Nat) (hk : 1 ≤ k) (ref : ZfemRef K) (href : zfemRef quad k = .ok ref)
    (poly : ZfemPolygon K) (c : K × K) (V : Nat → K × K) (hF : IsFan poly c V) :
    ∃ (finer : List (K × K)) (num : FanNode → Nat) (ty : Nat → Nat × Nat × Nat), HasNodes ref poly finer ∧ ListsInner k ((k - 1) * (k - 2) / 2) ty ∧
      finer.length = poly.num + poly.num * (k - 1) + 1 + poly.num * ((k - 1) + (k - 1) * (k - 2) / 2) ∧
      (zfemCounts ref poly.num).basis = poly.num + poly.num * (k - 1) + (k - 1) * (k - 2) / 2 ∧
      Set.BijOn num {x | IsFanNode poly.num (k - 1) ((k - 1) * (k - 2) / 2) x} {i | i < finer.length} ∧
      (∀ x, IsFanNode poly.num (k - 1) ((k - 1) * (k - 2) / 2) x → finer[num x]? = some (fanPoint poly.num k c V (fun v => poly.dirs.getD v true) ty x)) ∧
      (∀ v, num (.vertex v) = v) ∧ (∀ v j, num (.edge v j) = poly.num + v * (k - 1) + j) ∧
      (∀ v j, (zfemCounts ref poly.num).basis ≤ num (.spoke v j)) ∧ (num .centre < (zfemCounts ref poly.num).basis ↔ 3 ≤ k) := by
  obtain ⟨hd, -⟩ := zfemRef_ok quad k hk ref href
  obtain ⟨tris, M, num, finer, el⟩ := element_ok hk href hF
  obtain ⟨hbas, htot, -⟩ := counts_ok hk href poly.num (by have := hF.three; omega)
  refine ⟨finer, num, innerType ref.fem k, ⟨tris, M, el.tris_ok, el.map_ok, el.node_ok⟩, innerType_lists k hk ref.fem hd, by rw [el.flen, htot], hbas,
    by rw [el.flen]; exact el.map.bij, el.pt, el.vertex, el.edge, by rw [hbas]; exact el.spoke, by rw [hbas]; exact el.centre⟩

/-- A square on its corner, cut at its centre. -/
example : IsFan diamond (0, 0) diamondV := diamond_fan

/-- **C126, when the weights exist.** If the polygon has edges on at least `k + 1` different lines (from order 3 on `k` lines suffice), then a polynomial of degree
at most `k` is determined by its values at the DOF nodes. -/
theorem C126_unisolvent (quad : Nat → Rule (ℝ × ℝ) ℝ) (k : Nat) (hk : 1 ≤ k) (ref : ZfemRef ℝ) (href : zfemRef quad k = .ok ref) (poly : ZfemPolygon ℝ) (c : ℝ × ℝ)
    (V : Nat → ℝ × ℝ) (hF : IsFan poly c V) (finer : List (ℝ × ℝ)) (hfin : HasNodes ref poly finer) (S : Finset Nat) (hS : ∀ t ∈ S, t < poly.num)
    (hdiff : DifferentLines poly.num V S) (hcard : k + 1 ≤ S.card ∨ 3 ≤ k ∧ k ≤ S.card) : Unisolvent k (finer.take (zfemCounts ref poly.num).basis) := by
  obtain ⟨tris, M, num, finer', el⟩ := element_ok hk href hF
  obtain rfl := el.unique hfin
  exact fan_unisolvent hk href hF el S hS hdiff hcard

/-- The square on its corner, for the orders 1 to 4. -/
example (quad : Nat → Rule (ℝ × ℝ) ℝ) (k : Nat) (hk : 1 ≤ k) (h4 : k ≤ 4) : ∃ ref finer, zfemRef quad k = .ok ref ∧ HasNodes ref diamond finer ∧
    Unisolvent k (finer.take (zfemCounts ref diamond.num).basis) := by
  obtain ⟨d, hd, -⟩ := C32_layout (K := ℝ) k hk
  have href : zfemRef quad k = .ok ⟨k, k - 1, (k - 1) * (k - 2) / 2, d, quad (2 * k), compute mono2 k⟩ := by
    unfold zfemRef
    rw [hd, except_ok_bind]
  obtain ⟨finer, -, -, hfin, -⟩ := C125_nodes quad k hk _ href diamond (0, 0) diamondV diamond_fan
  refine ⟨_, finer, href, hfin, C126_unisolvent quad k hk _ href diamond (0, 0) diamondV diamond_fan finer hfin (Finset.range 4) ?_ diamond_lines ?_⟩
  · intro t ht
    exact Finset.mem_range.1 ht
  · rw [Finset.card_range]
    omega

/-- **C126.** Whenever the DOF nodes determine polynomials of degree at most `k`, the local space is created, and the weights of a virtual node express the value there of every
polynomial of degree at most `k` by its values at the DOF nodes. -/
theorem C126_weights (quad : Nat → Rule (ℝ × ℝ) ℝ) (k : Nat) (hk : 1 ≤ k) (ref : ZfemRef ℝ) (href : zfemRef quad k = .ok ref) (poly : ZfemPolygon ℝ) (c : ℝ × ℝ)
    (V : Nat → ℝ × ℝ) (hF : IsFan poly c V) (hh : poly.diameter ≠ 0) (finer : List (ℝ × ℝ)) (hfin : HasNodes ref poly finer)
    (hU : Unisolvent k (finer.take (zfemCounts ref poly.num).basis)) (llt : Solver ℝ) (hs : SolvesPosDef llt) :
    ∃ s, zfemCreate llt ref poly = .ok s ∧ s.coarse ++ s.virt = finer ∧ s.coarse.length = poly.num + poly.num * (k - 1) + (k - 1) * (k - 2) / 2 ∧
      s.weights.rows = s.coarse.length ∧ s.weights.cols = s.virt.length ∧
      ∀ q : MvPolynomial (Fin 2) ℝ, q.totalDegree ≤ k → ∀ l v, s.virt[l]? = some v →
        ev2 q v = ∑ i ∈ Finset.range s.coarse.length, s.weights.ent i l * ev2 q (s.coarse.getD i (0, 0)) := by
  obtain ⟨s, num, φ, hcr, hfs, sp⟩ := zfemCreate_ok hk href hF hh hfin hU hs
  obtain ⟨hbas, htot, hsum⟩ := counts_ok hk href poly.num (by have := hF.three; omega)
  have hlen := sp.el.flen
  have hcl : s.coarse.length = s.counts.basis := by rw [sp.coarse, List.length_take, hlen, sp.counts]; omega
  have hvl : s.virt.length = s.counts.virt := by rw [sp.virt, List.length_drop, hlen, sp.counts]; omega
  refine ⟨s, hcr, by rw [sp.coarse, sp.virt, List.take_append_drop, hfs], by rw [hcl, sp.counts, hbas], by rw [sp.wrows, hcl], by rw [sp.wcols, hvl], ?_⟩
  intro q hq l v hv
  refine (weights_reproduce hh sp.D_ok sp.V_ok (fun i => s.weights.ent i l) hv).1 (fun j hj => ?_) q hq
  rw [hcl]
  exact sp.repr j hj l (by rw [← hvl]; exact (List.getElem?_eq_some_iff.1 hv).1)

/-- The square on its corner with order 4, quadrature and solver arbitrary. -/
example (quad : Nat → Rule (ℝ × ℝ) ℝ) : ∃ (llt : Solver ℝ) (ref : ZfemRef ℝ) (finer : List (ℝ × ℝ)), SolvesPosDef llt ∧ zfemRef quad 4 = .ok ref ∧
    IsFan diamond (0, 0) diamondV ∧ diamond.diameter ≠ 0 ∧ HasNodes ref diamond finer ∧ Unisolvent 4 (finer.take (zfemCounts ref diamond.num).basis) := by
  obtain ⟨d, hd, -⟩ := C32_layout (K := ℝ) 4 (by norm_num)
  have href : zfemRef quad 4 = .ok ⟨4, 3, 3, d, quad 8, compute mono2 4⟩ := by
    unfold zfemRef
    rw [hd, except_ok_bind]
  obtain ⟨finer, -, -, hfin, -⟩ := C125_nodes quad 4 (by norm_num) _ href diamond (0, 0) diamondV diamond_fan
  obtain ⟨lu, -, h2⟩ := exists_solvers
  refine ⟨lu, _, finer, h2, href, diamond_fan, two_ne_zero, hfin, C126_unisolvent quad 4 (by norm_num) _ href diamond (0, 0) diamondV diamond_fan finer hfin
    (Finset.range 4) (fun t ht => Finset.mem_range.1 ht) diamond_lines (.inr ⟨by norm_num, by simp⟩)⟩

/-- **C126, where it fails.** For order 4 and the triangle (4, 0), (0, 3), (0, 0) with a hanging vertex (0, 2), cut at the centre of the inscribed circle, no weights reproduce the
polynomials of degree 4 at the first virtual node: a polynomial of degree 4 vanishes at all 19 DOF nodes and not there. The matrix that the code factorizes is singular. -/
theorem C126_hanging_fails (quad : Nat → Rule (ℝ × ℝ) ℝ) : ∃ (poly : ZfemPolygon ℝ) (c : ℝ × ℝ) (V : Nat → ℝ × ℝ), IsFan poly c V ∧ poly.diameter ≠ 0 ∧
    ∃ ref finer, zfemRef quad 4 = .ok ref ∧ HasNodes ref poly finer ∧ ¬Unisolvent 4 (finer.take (zfemCounts ref poly.num).basis) ∧
      ∃ v ∈ finer.drop (zfemCounts ref poly.num).basis, ∀ w : Nat → ℝ, ∃ q : MvPolynomial (Fin 2) ℝ, q.totalDegree ≤ 4 ∧
        ev2 q v ≠ ∑ i ∈ Finset.range (zfemCounts ref poly.num).basis, w i * ev2 q (finer.getD i (0, 0)) := by
  obtain ⟨d, hd, -⟩ := C32_layout (K := ℝ) 4 (by norm_num)
  have href : zfemRef quad 4 = .ok ⟨4, 3, 3, d, quad 8, compute mono2 4⟩ := by
    unfold zfemRef
    rw [hd, except_ok_bind]
  obtain ⟨finer, -, -, hfin, -, hlen, hbas, -⟩ := C125_nodes quad 4 (by norm_num) _ href hanging (1, 1) hangingV hanging_fan
  obtain ⟨hz, v, hv, hne⟩ := hanging_zeros href hfin
  refine ⟨hanging, (1, 1), hangingV, hanging_fan, by simp [hanging], _, finer, href, hfin, ?_, v, ?_, fun w => ⟨hangingPoly, hangingPoly_degree, ?_⟩⟩
  · intro hU
    have := hU hangingPoly hangingPoly_degree hz
    rw [this] at hne
    exact hne (map_zero _)
  · refine List.mem_of_getElem? (i := 0) ?_
    rw [List.getElem?_drop]
    exact hv
  · rw [Finset.sum_eq_zero]
    · exact hne
    · intro i hi
      have hi : i < 19 := Finset.mem_range.1 hi
      have hl : i < finer.length := by
        rw [hlen]
        have : hanging.num = 4 := rfl
        omega
      rw [hz, mul_zero]
      refine List.mem_of_getElem? (i := i) ?_
      rw [List.getElem?_take_of_lt hi]
      simp [List.getD, hl]

/-- **C127.** Among all weights that reproduce the polynomials of degree at most `k` at a virtual node, the computed ones have the smallest sum of squares, and they are the
only ones with that sum. -/
theorem C127_minimal (quad : Nat → Rule (ℝ × ℝ) ℝ) (k : Nat) (hk : 1 ≤ k) (ref : ZfemRef ℝ) (href : zfemRef quad k = .ok ref) (poly : ZfemPolygon ℝ) (c : ℝ × ℝ)
    (V : Nat → ℝ × ℝ) (hF : IsFan poly c V) (hh : poly.diameter ≠ 0) (finer : List (ℝ × ℝ)) (hfin : HasNodes ref poly finer)
    (hU : Unisolvent k (finer.take (zfemCounts ref poly.num).basis)) (llt : Solver ℝ) (hs : SolvesPosDef llt) (s : ZfemSpace ℝ)
    (hcr : zfemCreate llt ref poly = .ok s) (l : Nat) (v : ℝ × ℝ) (hv : s.virt[l]? = some v) (w : Nat → ℝ)
    (hw : ∀ q : MvPolynomial (Fin 2) ℝ, q.totalDegree ≤ k → ev2 q v = ∑ i ∈ Finset.range s.coarse.length, w i * ev2 q (s.coarse.getD i (0, 0))) :
    ∑ i ∈ Finset.range s.coarse.length, s.weights.ent i l ^ 2 ≤ ∑ i ∈ Finset.range s.coarse.length, w i ^ 2 ∧
      (∑ i ∈ Finset.range s.coarse.length, w i ^ 2 = ∑ i ∈ Finset.range s.coarse.length, s.weights.ent i l ^ 2 → ∀ i < s.coarse.length, w i = s.weights.ent i l) := by
  obtain ⟨s', num, φ, hcr', hfs, sp⟩ := zfemCreate_ok hk href hF hh hfin hU hs
  rw [hcr] at hcr'
  injection hcr' with hcr'
  subst hcr'
  obtain ⟨hbas, htot, hsum⟩ := counts_ok hk href poly.num (by have := hF.three; omega)
  have hlen := sp.el.flen
  have hcl : s.coarse.length = s.counts.basis := by rw [sp.coarse, List.length_take, hlen, sp.counts]; omega
  have hvl : s.virt.length = s.counts.virt := by rw [sp.virt, List.length_drop, hlen, sp.counts]; omega
  have h1 := (weights_reproduce hh sp.D_ok sp.V_ok w hv).2 hw
  have h2 : ∀ j < (compute mono2 k).num, ∑ i ∈ Finset.range s.coarse.length, s.D.ent i j * s.weights.ent i l = s.V.ent l j := by
    intro j hj
    rw [hcl]
    exact sp.repr j hj l (by rw [← hvl]; exact (List.getElem?_eq_some_iff.1 hv).1)
  obtain ⟨X, hX⟩ := sp.range
  have horth : ∑ i ∈ Finset.range s.coarse.length, s.weights.ent i l * (w i - s.weights.ent i l) = 0 := by
    have e : ∀ i ∈ Finset.range s.coarse.length, s.weights.ent i l * (w i - s.weights.ent i l) =
        ∑ j ∈ Finset.range (compute mono2 k).num, X j l * (s.D.ent i j * w i - s.D.ent i j * s.weights.ent i l) := by
      intro i _
      conv_lhs => rw [hX i l, Finset.sum_mul, ← hX i l]
      exact Finset.sum_congr rfl fun j _ => by ring
    rw [Finset.sum_congr rfl e, Finset.sum_comm]
    refine Finset.sum_eq_zero fun j hj => ?_
    rw [← Finset.mul_sum, Finset.sum_sub_distrib, h1 j (Finset.mem_range.1 hj), h2 j (Finset.mem_range.1 hj), sub_self, mul_zero]
  have hdec : ∑ i ∈ Finset.range s.coarse.length, w i ^ 2 =
      ∑ i ∈ Finset.range s.coarse.length, s.weights.ent i l ^ 2 + ∑ i ∈ Finset.range s.coarse.length, (w i - s.weights.ent i l) ^ 2 := by
    have e : ∀ i ∈ Finset.range s.coarse.length, w i ^ 2 =
        s.weights.ent i l ^ 2 + (w i - s.weights.ent i l) ^ 2 + 2 * (s.weights.ent i l * (w i - s.weights.ent i l)) := fun i _ => by ring
    rw [Finset.sum_congr rfl e, Finset.sum_add_distrib, Finset.sum_add_distrib, ← Finset.mul_sum, horth, mul_zero, add_zero]
  have hnn : 0 ≤ ∑ i ∈ Finset.range s.coarse.length, (w i - s.weights.ent i l) ^ 2 := Finset.sum_nonneg fun _ _ => sq_nonneg _
  refine ⟨by rw [hdec]; linarith, fun heq i hi => ?_⟩
  rw [hdec] at heq
  have h0 : ∑ i ∈ Finset.range s.coarse.length, (w i - s.weights.ent i l) ^ 2 = 0 := by linarith
  have := (Finset.sum_eq_zero_iff_of_nonneg fun _ _ => sq_nonneg _).1 h0 i (Finset.mem_range.2 hi)
  exact sub_eq_zero.1 (pow_eq_zero_iff two_ne_zero |>.1 this)

/-- The square on its corner with order 2: 13 nodes, 5 of them virtual; the weights of C126 reproduce polynomials. -/
example (quad : Nat → Rule (ℝ × ℝ) ℝ) : ∃ (llt : Solver ℝ) (ref : ZfemRef ℝ) (s : ZfemSpace ℝ) (v : ℝ × ℝ), SolvesPosDef llt ∧ zfemRef quad 2 = .ok ref ∧
    zfemCreate llt ref diamond = .ok s ∧ s.virt[0]? = some v ∧ ∃ w : Nat → ℝ, ∀ q : MvPolynomial (Fin 2) ℝ, q.totalDegree ≤ 2 →
      ev2 q v = ∑ i ∈ Finset.range s.coarse.length, w i * ev2 q (s.coarse.getD i (0, 0)) := by
  obtain ⟨d, hd, -⟩ := C32_layout (K := ℝ) 2 (by norm_num)
  have href : zfemRef quad 2 = .ok ⟨2, 1, 0, d, quad 4, compute mono2 2⟩ := by
    unfold zfemRef
    rw [hd, except_ok_bind]
  obtain ⟨finer, -, -, hfin, -, hlen, -⟩ := C125_nodes quad 2 (by norm_num) _ href diamond (0, 0) diamondV diamond_fan
  obtain ⟨lu, -, h2⟩ := exists_solvers
  have hU := C126_unisolvent quad 2 (by norm_num) _ href diamond (0, 0) diamondV diamond_fan finer hfin
    (Finset.range 4) (fun t ht => Finset.mem_range.1 ht) diamond_lines (.inl (by simp))
  obtain ⟨s, hs, happ, hcl, -, -, hq⟩ := C126_weights quad 2 (by norm_num) _ href diamond (0, 0) diamondV diamond_fan two_ne_zero finer hfin hU lu h2
  have hl : 0 < s.virt.length := by
    have h1 := congrArg List.length happ
    rw [List.length_append, hcl, hlen] at h1
    have : diamond.num = 4 := rfl
    omega
  exact ⟨lu, _, s, s.virt[0], h2, href, hs, List.getElem?_eq_getElem hl, fun i => s.weights.ent i 0, fun q hd => hq q hd 0 _ (List.getElem?_eq_getElem hl)⟩

section Functions

variable (quad : Nat → Rule (ℝ × ℝ) ℝ) (k : Nat) (hk : 1 ≤ k) (ref : ZfemRef ℝ) (href : zfemRef quad k = .ok ref) (poly : ZfemPolygon ℝ) (c : ℝ × ℝ)
  (V : Nat → ℝ × ℝ) (hF : IsFan poly c V) (hh : poly.diameter ≠ 0) (finer : List (ℝ × ℝ)) (hfin : HasNodes ref poly finer)
  (hU : Unisolvent k (finer.take (zfemCounts ref poly.num).basis)) (llt : Solver ℝ) (hs : SolvesPosDef llt) (s : ZfemSpace ℝ)
  (hcr : zfemCreate llt ref poly = .ok s)

include hk href hF hh hfin hU hs hcr

theorem space_of_create : ∃ num φ, Space k ref poly c V s num φ ∧
    (zfemCounts ref poly.num).basis + (zfemCounts ref poly.num).virt = (zfemCounts ref poly.num).total ∧ s.coarse.length = s.counts.basis := by
  obtain ⟨s', num, φ, hcr', hfs, sp⟩ := zfemCreate_ok hk href hF hh hfin hU hs
  rw [hcr] at hcr'
  injection hcr' with hcr'
  subst hcr'
  obtain ⟨hbas, htot, hsum⟩ := counts_ok hk href poly.num (by have := hF.three; omega)
  exact ⟨num, φ, sp, hsum, by rw [sp.coarse, List.length_take, sp.el.flen, sp.counts]; omega⟩

/-- **C128 for values.** The combination of the basis functions with the values of a polynomial of degree at most `k` at the DOF nodes is that polynomial, in every
triangle and at every point. -/
theorem C128_values (points : List (List (ℝ × ℝ))) (hp : points.length ≤ poly.num) :
    ∃ B, zfemValuesAt s points = .ok B ∧ B.rows = points.flatten.length ∧ B.cols = s.coarse.length ∧ ∀ q : MvPolynomial (Fin 2) ℝ, q.totalDegree ≤ k →
      ∀ t pts, points[t]? = some pts → ∀ a P, pts[a]? = some P →
        ∑ i ∈ Finset.range s.coarse.length, ev2 q (s.coarse.getD i (0, 0)) * B.ent ((points.take t).flatten.length + a) i = ev2 q P := by
  obtain ⟨num, φ, sp, hsum, hcl⟩ := space_of_create quad k hk ref href poly c V hF hh finer hfin hU llt hs s hcr
  have hn := hF.three
  obtain ⟨B, hB, hr, hc, hrow⟩ := valuesAt_ok hk (by omega) hsum sp points hp
  refine ⟨B, hB, hr, by rw [hc, hcl], fun q hq t pts hpts a P hP => ?_⟩
  have ht : t < poly.num := lt_of_lt_of_le (List.getElem?_eq_some_iff.1 hpts).1 hp
  rw [hcl, hrow t pts hpts a P hP fun i => ev2 q (s.coarse.getD i (0, 0))]
  conv_rhs => rw [← sp.reproduce hk hh (by omega) hsum q hq ht]
  simp [ev2]

/-- **C128 for derivatives.** -/
theorem C128_derivatives (points : List (List (ℝ × ℝ))) (hp : points.length ≤ poly.num) (dir : Fin 2) :
    ∃ B, zfemDerivativesAt s points dir = .ok B ∧ B.rows = points.flatten.length ∧ B.cols = s.coarse.length ∧ ∀ q : MvPolynomial (Fin 2) ℝ, q.totalDegree ≤ k →
      ∀ t pts, points[t]? = some pts → ∀ a P, pts[a]? = some P →
        ∑ i ∈ Finset.range s.coarse.length, ev2 q (s.coarse.getD i (0, 0)) * B.ent ((points.take t).flatten.length + a) i = ev2 (pderiv dir q) P := by
  obtain ⟨num, φ, sp, hsum, hcl⟩ := space_of_create quad k hk ref href poly c V hF hh finer hfin hU llt hs s hcr
  have hn := hF.three
  obtain ⟨B, hB, hr, hc, hrow⟩ := derivativesAt_ok hk (by omega) hsum sp points hp dir
  refine ⟨B, hB, hr, by rw [hc, hcl], fun q hq t pts hpts a P hP => ?_⟩
  have ht : t < poly.num := lt_of_lt_of_le (List.getElem?_eq_some_iff.1 hpts).1 hp
  rw [hcl, hrow t pts hpts a P hP fun i => ev2 q (s.coarse.getD i (0, 0))]
  conv_rhs => rw [← sp.reproduce hk hh (by omega) hsum q hq ht]
  simp [ev2]

/-- **C128 for the stored values.** The values and derivatives stored by `CreateLocalSpace` belong, in the order of the triangles, to the images of the quadrature points, and they
reproduce polynomials of degree at most `k`. -/
theorem C128_quadrature (q : MvPolynomial (Fin 2) ℝ) (hq : q.totalDegree ≤ k) (t : Nat) (m : TriMap ℝ) (hm : poly.maps[t]? = some m) (a : Nat) (z : ℝ × ℝ)
    (hz : ref.quad.points[a]? = some z) :
    (s.values.rows = ref.quad.points.length * poly.num ∧ s.values.cols = s.coarse.length ∧
      ∑ i ∈ Finset.range s.coarse.length, ev2 q (s.coarse.getD i (0, 0)) * s.values.ent (t * ref.quad.points.length + a) i = ev2 q (triF m z)) ∧
    (s.derX.rows = ref.quad.points.length * poly.num ∧ s.derX.cols = s.coarse.length ∧
      ∑ i ∈ Finset.range s.coarse.length, ev2 q (s.coarse.getD i (0, 0)) * s.derX.ent (t * ref.quad.points.length + a) i = ev2 (pderiv 0 q) (triF m z)) ∧
    s.derY.rows = ref.quad.points.length * poly.num ∧ s.derY.cols = s.coarse.length ∧
      ∑ i ∈ Finset.range s.coarse.length, ev2 q (s.coarse.getD i (0, 0)) * s.derY.ent (t * ref.quad.points.length + a) i = ev2 (pderiv 1 q) (triF m z) := by
  obtain ⟨num, φ, sp, hsum, hcl⟩ := space_of_create quad k hk ref href poly c V hF hh finer hfin hU llt hs s hcr
  have hn := hF.three
  have ht : t < poly.num := by rw [← hF.maps]; exact (List.getElem?_eq_some_iff.1 hm).1
  have hrep := sp.reproduce hk hh (by omega) hsum q hq ht
  obtain ⟨v1, v2, v3⟩ := sp.val
  obtain ⟨x1, x2, x3⟩ := sp.dx
  obtain ⟨y1, y2, y3⟩ := sp.dy
  rw [hcl]
  refine ⟨⟨v1, v2, ?_⟩, ⟨x1, x2, ?_⟩, y1, y2, ?_⟩
  · rw [v3 t ht m hm a z hz fun i => ev2 q (s.coarse.getD i (0, 0))]
    conv_rhs => rw [← hrep]
    simp [ev2]
  · rw [x3 t ht m hm a z hz fun i => ev2 q (s.coarse.getD i (0, 0))]
    conv_rhs => rw [← hrep]
    simp [ev2]
  · rw [y3 t ht m hm a z hz fun i => ev2 q (s.coarse.getD i (0, 0))]
    conv_rhs => rw [← hrep]
    simp [ev2]

/-- **C129, nodes.** The basis functions are Lagrangian: at DOF node `j`, in every triangle that has this node, basis function `i` is 1 when `i = j` and 0 otherwise. -/
theorem C129_nodal (points : List (List (ℝ × ℝ))) (hp : points.length ≤ poly.num) (B : DMat ℝ) (hB : zfemValuesAt s points = .ok B) (t : Nat) (pts : List (ℝ × ℝ))
    (hpts : points[t]? = some pts) (cc j : Nat) (hc : cc < s.map.cols) (hj : s.map.ent t cc = some j) (P : ℝ × ℝ) (hP : s.coarse[j]? = some P) (a : Nat)
    (ha : pts[a]? = some P) (i : Nat) (hi : i < s.coarse.length) : B.ent ((points.take t).flatten.length + a) i = if i = j then 1 else 0 := by
  obtain ⟨num, φ, sp, hsum, hcl⟩ := space_of_create quad k hk ref href poly c V hF hh finer hfin hU llt hs s hcr
  have hn := hF.three
  have hC := two_mul_half k hk
  obtain ⟨B', hB', -, -, hrow⟩ := valuesAt_ok hk (by omega) hsum sp points hp
  rw [hB] at hB'
  injection hB' with hB'
  subst hB'
  have ht : t < poly.num := lt_of_lt_of_le (List.getElem?_eq_some_iff.1 hpts).1 hp
  have h1 := hrow t pts hpts a P ha fun l => if l = i then 1 else 0
  have hcc : cc < (k + 1) * (k + 2) / 2 := by rw [← hC, ← sp.el.map.cols]; exact hc
  have hnum : num (fanNode poly.num (k - 1) t cc) = j := by
    have := sp.el.map.ent t ht cc hc
    rw [hj] at this
    exact (Option.some.inj this).symm
  have hPn : P = fanPoint poly.num k c V (fun v => poly.dirs.getD v true) (innerType ref.fem k) (fanNode poly.num (k - 1) t cc) := by
    have := sp.el.pt _ (fanNode_valid (by omega) ht (by rw [hC]; exact hcc))
    have hjl : j < s.counts.basis := by rw [← hcl]; exact (List.getElem?_eq_some_iff.1 hP).1
    rw [hnum] at this
    rw [sp.coarse, List.getElem?_take_of_lt hjl, this] at hP
    exact (Option.some.inj hP).symm
  have h2 : ∑ l ∈ Finset.range s.counts.basis, (if l = i then 1 else 0) * B.ent ((points.take t).flatten.length + a) l = B.ent ((points.take t).flatten.length + a) i := by
    simp only [ite_mul, one_mul, zero_mul]
    rw [Finset.sum_ite_eq' (Finset.range s.counts.basis) i, if_pos (Finset.mem_range.2 (by rw [← hcl]; exact hi))]
  rw [h2] at h1
  rw [h1]
  have h3 : ∀ p ∈ Finset.range ((k + 1) * (k + 2) / 2),
      extend s.counts.basis s.weights.ent (fun l => if l = i then (1 : ℝ) else 0) (num (fanNode poly.num (k - 1) t p)) * ev2 (φ t p) P =
        if p = cc then extend s.counts.basis s.weights.ent (fun l => if l = i then (1 : ℝ) else 0) j else 0 := by
    intro p hpp
    rw [hPn, sp.sh.nodal t ht p (Finset.mem_range.1 hpp) cc hcc]
    split_ifs with h
    · rw [h, hnum, mul_one]
    · rw [mul_zero]
  rw [Finset.sum_congr rfl h3, Finset.sum_ite_eq' _ cc, if_pos (Finset.mem_range.2 hcc)]
  unfold extend
  rw [if_pos (by rw [← hcl]; exact (List.getElem?_eq_some_iff.1 hP).1)]
  simp [eq_comm]

/-- **C129, edges.** On an edge of the polygon, in the direction of the mesh, the function with the DOFs `u` is the combination of the boundary functions that
`ComputeValuesOnEdge` returns with the DOFs of the two ends and of the edge. So it does not depend on the other DOFs nor on the polygon: neighbours agree. -/
theorem C129_edge (points : List (List (ℝ × ℝ))) (hp : points.length ≤ poly.num) (B : DMat ℝ) (hB : zfemValuesAt s points = .ok B) (τs : List ℝ) :
    ∃ E, zfemValuesOnEdge ref s τs = .ok E ∧ E.rows = τs.length ∧ E.cols = k + 1 ∧ ∀ b τ, τs[b]? = some τ → ∀ t pts dir, points[t]? = some pts →
      poly.dirs[t]? = some dir → ∀ a, pts[a]? = some (segPoint (polyEdge poly.num V dir t).1 (polyEdge poly.num V dir t).2 τ) → ∀ u : Nat → ℝ,
        ∑ i ∈ Finset.range s.coarse.length, u i * B.ent ((points.take t).flatten.length + a) i = ∑ d ∈ Finset.range (k + 1), u (edgeDof poly.num k dir t d) * E.ent b d := by
  obtain ⟨num, φ, sp, hsum, hcl⟩ := space_of_create quad k hk ref href poly c V hF hh finer hfin hU llt hs s hcr
  have hn := hF.three
  obtain ⟨hbas, -⟩ := counts_ok hk href poly.num (by omega)
  obtain ⟨B', hB', -, -, hrow⟩ := valuesAt_ok hk (by omega) hsum sp points hp
  rw [hB] at hB'
  injection hB' with hB'
  subst hB'
  obtain ⟨bd, hb1, hb2, hb3, hb4⟩ := sp.nodes
  obtain ⟨-, -, -, -, hfo, -⟩ := zfemRef_ok quad k hk ref href
  have hval : ∀ τ : ℝ, ∀ d < k + 1, ∃ v, lagValue bd.positions bd.coef τ d = .ok v := by
    intro τ d hd
    unfold lagValue
    have hcoef : bd.coef = lagCoefficients bd.positions := by
      obtain ⟨b', ts', e1, -, -, -, e5, -⟩ := edge_data (K := ℝ) k hk
      rw [← hfo, hb1] at e1
      injection e1 with e1
      subst e1
      exact e5
    split_ifs
    · exact ⟨_, rfl⟩
    · have hl : d < bd.coef.length := by rw [hcoef]; simp [lagCoefficients, hb4, hd]
      rw [show unchecked bd.coef d = .ok bd.coef[d] from by unfold unchecked; rw [List.getElem?_eq_getElem hl]]
      exact ⟨_, rfl⟩
  have hex : ∀ (τ : ℝ) (d : Nat), ∃ v, d < k + 1 → lagValue bd.positions bd.coef τ d = .ok v := by
    intro τ d
    by_cases hd : d < k + 1
    · obtain ⟨v, hv⟩ := hval τ d hd
      exact ⟨v, fun _ => hv⟩
    · exact ⟨0, fun h => absurd h hd⟩
  choose g hg using hex
  obtain ⟨rows, hrows, hent⟩ := table_ok (fun (p : ℝ) d => lagValue bd.positions s.coef p d) τs (List.range bd.positions.length)
    (fun b d => g (τs.getD b 0) d) (by
      intro b τ hb d i hi
      have hi' := List.getElem?_eq_some_iff.1 hi
      obtain ⟨hil, hie⟩ := hi'
      rw [List.getElem_range] at hie
      subst hie
      rw [List.length_range, hb4] at hil
      rw [← hb3, hg τ d hil]
      simp [List.getD, hb])
  refine ⟨⟨τs.length, bd.positions.length, fun i j => (rows.getD i []).getD j 0⟩, ?_, rfl, hb4, ?_⟩
  · unfold zfemValuesOnEdge
    rw [hb2, except_ok_bind, hrows, except_ok_bind]
  intro b τ hb t pts dir hpts hdir a hP u
  have ht : t < poly.num := lt_of_lt_of_le (List.getElem?_eq_some_iff.1 hpts).1 hp
  have hdd : poly.dirs.getD t true = dir := by simp [List.getD, hdir]
  have hm : poly.maps[t]? = some (poly.maps[t]'(by rw [hF.maps]; exact ht)) := List.getElem?_eq_getElem _
  generalize poly.maps[t]'(by rw [hF.maps]; exact ht) = m at hm
  obtain ⟨e0, e1, e2⟩ := hF.vertices t ht m hm
  have hme : meshEdge m dir 1 = polyEdge poly.num V dir t := by
    unfold meshEdge polyEdge
    rw [e1, e2]
  obtain ⟨bv, hbv, hsumE⟩ := edge_row hk href sp.el sp.sh ht hm (e := 1) (dir := dir) (by rw [hdd]; rfl) τ
    (fun x => extend s.counts.basis s.weights.ent u (num x))
  rw [hme] at hsumE
  rw [hcl, hrow t pts hpts a _ hP u, hsumE]
  refine Finset.sum_congr rfl fun d hd => ?_
  have hd := Finset.mem_range.1 hd
  have hbd : bv d = g τ d := by
    have := hbv d (by omega)
    unfold triOnEdge at this
    rw [hb1, except_ok_bind] at this
    unfold fem1Value at this
    rw [hg τ d hd] at this
    injection this with this
    exact this.symm
  have hrowE : (rows.getD b []).getD d 0 = g τ d := by
    rw [hent b (List.getElem?_eq_some_iff.1 hb).1 d (by rw [List.length_range, hb4]; exact hd)]
    simp [List.getD, hb]
  show _ = u _ * (rows.getD b []).getD d 0
  rw [hrowE, hbd]
  congr 1
  have hnumE : num (fanNode poly.num (k - 1) t (edgeDof 3 k dir 1 d)) = edgeDof poly.num k dir t d := by
    unfold edgeDof
    by_cases h0 : d = 0
    · rw [if_pos h0, if_pos h0]
      cases dir
      · show num (.vertex ((t + 1) % poly.num)) = _
        rw [sp.el.vertex]
        rfl
      · show num (.vertex t) = _
        rw [sp.el.vertex]
        rfl
    rw [if_neg h0, if_neg h0]
    by_cases h1 : d = 1
    · rw [if_pos h1, if_pos h1]
      cases dir
      · show num (.vertex t) = _
        rw [sp.el.vertex]
        rfl
      · show num (.vertex ((t + 1) % poly.num)) = _
        rw [sp.el.vertex]
        rfl
    rw [if_neg h1, if_neg h1]
    unfold fanNode
    rw [if_neg (by omega), if_neg (by omega), if_neg (by omega), if_neg (by omega), if_pos (by omega), sp.el.edge]
    congr 1
    omega
  have hlt : edgeDof poly.num k dir t d < s.counts.basis := by
    rw [sp.counts, hbas]
    have hmod : (t + 1) % poly.num < poly.num := Nat.mod_lt _ (by omega)
    have hmul : t * (k - 1) + (k - 1) ≤ poly.num * (k - 1) := by
      rw [← Nat.succ_mul]
      exact Nat.mul_le_mul_right _ ht
    unfold edgeDof
    split_ifs <;> omega
  rw [hnumE]
  unfold extend
  rw [if_pos hlt]

/-- **C129, spokes.** The functions are continuous inside the polygon: at a point of the spoke between two neighbouring triangles both give the same values. -/
theorem C129_spoke (points : List (List (ℝ × ℝ))) (hp : points.length ≤ poly.num) (B : DMat ℝ) (hB : zfemValuesAt s points = .ok B) (t : Nat)
    (pts pts' : List (ℝ × ℝ)) (hpts : points[t]? = some pts) (hpts' : points[(t + 1) % poly.num]? = some pts') (τ : ℝ) (a a' : Nat)
    (ha : pts[a]? = some (segPoint c (V ((t + 1) % poly.num)) τ)) (ha' : pts'[a']? = some (segPoint c (V ((t + 1) % poly.num)) τ)) (i : Nat)
    (hi : i < s.coarse.length) :
    B.ent ((points.take t).flatten.length + a) i = B.ent ((points.take ((t + 1) % poly.num)).flatten.length + a') i := by
  obtain ⟨num, φ, sp, hsum, hcl⟩ := space_of_create quad k hk ref href poly c V hF hh finer hfin hU llt hs s hcr
  have hn := hF.three
  obtain ⟨B', hB', -, -, hrow⟩ := valuesAt_ok hk (by omega) hsum sp points hp
  rw [hB] at hB'
  injection hB' with hB'
  subst hB'
  have ht : t < poly.num := lt_of_lt_of_le (List.getElem?_eq_some_iff.1 hpts).1 hp
  obtain ⟨r, hr⟩ : ∃ r, (t + 1) % poly.num = r := ⟨_, rfl⟩
  have hrl : r < poly.num := by rw [← hr]; exact Nat.mod_lt _ (by omega)
  rw [hr] at hpts' ha ha' ⊢
  have hpick : ∀ x, ∑ l ∈ Finset.range s.counts.basis, (if l = i then 1 else 0) * B.ent x l = B.ent x i := by
    intro x
    simp only [ite_mul, one_mul, zero_mul]
    rw [Finset.sum_ite_eq' (Finset.range s.counts.basis) i, if_pos (Finset.mem_range.2 (by rw [← hcl]; exact hi))]
  rw [← hpick, ← hpick, hrow t pts hpts a _ ha, hrow r pts' hpts' a' _ ha']
  have hm : poly.maps[t]? = some (poly.maps[t]'(by rw [hF.maps]; exact ht)) := List.getElem?_eq_getElem _
  generalize poly.maps[t]'(by rw [hF.maps]; exact ht) = m at hm
  have hm' : poly.maps[r]? = some (poly.maps[r]'(by rw [hF.maps]; exact hrl)) := List.getElem?_eq_getElem _
  generalize poly.maps[r]'(by rw [hF.maps]; exact hrl) = m' at hm'
  obtain ⟨e0, e1, e2⟩ := hF.vertices t ht m hm
  obtain ⟨e0', e1', e2'⟩ := hF.vertices r hrl m' hm'
  have h2 : meshEdge m false 2 = (c, V r) := by
    show (triVertex m 0, triVertex m 2) = _
    rw [e0, e2, hr]
  have h0 : meshEdge m' true 0 = (c, V r) := by
    show (triVertex m' 0, triVertex m' 1) = _
    rw [e0', e1']
  obtain ⟨b, hb, hs1⟩ := edge_row hk href sp.el sp.sh ht hm (e := 2) (dir := false) rfl τ
    (fun x => extend s.counts.basis s.weights.ent (fun l => if l = i then (1 : ℝ) else 0) (num x))
  obtain ⟨b', hb', hs2⟩ := edge_row hk href sp.el sp.sh hrl hm' (e := 0) (dir := true) rfl τ
    (fun x => extend s.counts.basis s.weights.ent (fun l => if l = i then (1 : ℝ) else 0) (num x))
  rw [h2] at hs1
  rw [h0] at hs2
  rw [hs1, hs2]
  refine Finset.sum_congr rfl fun d hd => ?_
  have hd := Finset.mem_range.1 hd
  have hbb : b d = b' d := by
    have e := hb d (by omega)
    rw [hb' d (by omega)] at e
    injection e with e
    exact e.symm
  have hnode : fanNode poly.num (k - 1) t (edgeDof 3 k false 2 d) = fanNode poly.num (k - 1) r (edgeDof 3 k true 0 d) := by
    unfold edgeDof
    by_cases h0 : d = 0
    · rw [if_pos h0, if_pos h0]
      rfl
    rw [if_neg h0, if_neg h0]
    by_cases h1 : d = 1
    · rw [if_pos h1, if_pos h1]
      show FanNode.vertex ((t + 1) % poly.num) = FanNode.vertex r
      rw [hr]
    rw [if_neg h1, if_neg h1]
    unfold fanNode
    rw [if_neg (by omega), if_neg (by omega), if_neg (by omega), if_neg (by omega), if_neg (by omega), if_pos (by omega), if_neg (by omega), if_neg (by omega),
      if_neg (by omega), if_pos (by omega), hr]
    congr 1
    omega
  rw [hbb, hnode]

end Functions

/-- C128, C129: the square on its corner with order 3, values at a point of the first and of the second triangle that lies on their common spoke, and a point of the first edge. -/
example (quad : Nat → Rule (ℝ × ℝ) ℝ) : ∃ (llt : Solver ℝ) (ref : ZfemRef ℝ) (finer : List (ℝ × ℝ)) (s : ZfemSpace ℝ) (B : DMat ℝ), SolvesPosDef llt ∧
    zfemRef quad 3 = .ok ref ∧ HasNodes ref diamond finer ∧ Unisolvent 3 (finer.take (zfemCounts ref diamond.num).basis) ∧ zfemCreate llt ref diamond = .ok s ∧
    zfemValuesAt s [[(0, 1 / 2), (1 / 2, 1 / 2)], [(0, 1 / 2)]] = .ok B ∧
    (0, 1 / 2) = segPoint ((0, 0) : ℝ × ℝ) (diamondV ((0 + 1) % diamond.num)) (1 / 2) ∧
    (1 / 2, 1 / 2) = segPoint (polyEdge diamond.num diamondV true 0).1 (polyEdge diamond.num diamondV true 0).2 (1 / 2) := by
  obtain ⟨d, hd, -⟩ := C32_layout (K := ℝ) 3 (by norm_num)
  have href : zfemRef quad 3 = .ok ⟨3, 2, 1, d, quad 6, compute mono2 3⟩ := by
    unfold zfemRef
    rw [hd, except_ok_bind]
  obtain ⟨finer, -, -, hfin, -⟩ := C125_nodes quad 3 (by norm_num) _ href diamond (0, 0) diamondV diamond_fan
  obtain ⟨lu, -, h2⟩ := exists_solvers
  have hU := C126_unisolvent quad 3 (by norm_num) _ href diamond (0, 0) diamondV diamond_fan finer hfin
    (Finset.range 4) (fun t ht => Finset.mem_range.1 ht) diamond_lines (.inl (by simp))
  obtain ⟨s, hs, -⟩ := C126_weights quad 3 (by norm_num) _ href diamond (0, 0) diamondV diamond_fan two_ne_zero finer hfin hU lu h2
  obtain ⟨B, hB, -⟩ := C128_values quad 3 (by norm_num) _ href diamond (0, 0) diamondV diamond_fan two_ne_zero finer hfin hU lu h2 s hs
    [[(0, 1 / 2), (1 / 2, 1 / 2)], [(0, 1 / 2)]] (by show 2 ≤ 4; norm_num)
  refine ⟨lu, _, finer, s, B, h2, href, hfin, hU, hs, hB, ?_, ?_⟩
  · simp [segPoint, diamond, diamondV]
  · simp [segPoint, polyEdge, diamond, diamondV]
    norm_num

end PolyDiM
