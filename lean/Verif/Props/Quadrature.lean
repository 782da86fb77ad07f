import Verif.Lemmas.Quadrature
import Verif.Spec.TetMesh
import Mathlib.Tactic.NormNum
import Mathlib.Tactic.FieldSimp
import Mathlib.Tactic.IntervalCases

/-!
# Properties C47-C49, C65-C67, C69, C70: quadrature of polygons and polyhedra
-/

namespace PolyDiM

open Spec

variable {K : Type} [Field K] [LinearOrder K]

/-! ## C47 -/

/-- C47: `PolygonInternalQuadrature` succeeds, and the quadrature of any function is the sum over the triangles of twice the area times the
reference quadrature of the function in barycentric coordinates. -/
theorem C47_sum (data : Rule (K × K) K) (h : data.points.length = data.weights.length) (tris : List (Tri2 K)) :
    ∃ r, polygonQuad data tris = .ok r ∧ r.points.length = tris.length * data.points.length ∧ r.weights.length = r.points.length ∧
      ∀ f : K × K → K, quadSum r.points r.weights f = (tris.map fun v => |shoelace v.1 v.2.1 v.2.2| *
        quadSum data.points data.weights fun p => f (bary3 v.1 v.2.1 v.2.2 (1 - p.1 - p.2) p.1 p.2)).sum := by
  refine ⟨_, polygonQuad_eq data tris h, ?_, ?_, ?_⟩
  · exact flatMap_const_length _ _ _ (by simp)
  · exact (faceRule_length data tris h).symm
  · intro f
    dsimp only
    rw [quadSum_flatMap _ _ _ _ (by simp [h])]
    congr 1
    apply List.map_congr_left
    intro v _
    rw [quadSum_smul, quadSum_map]
    have h1 : tri2Det v = shoelace v.1 v.2.1 v.2.2 := by
      unfold tri2Det shoelace
      ring
    have h2 : f ∘ tri2F v = fun p => f (bary3 v.1 v.2.1 v.2.2 (1 - p.1 - p.2) p.1 p.2) := by
      funext p
      have : tri2F v p = bary3 v.1 v.2.1 v.2.2 (1 - p.1 - p.2) p.1 p.2 := by
        unfold tri2F bary3
        module
      rw [Function.comp_apply, this]
    rw [h1, h2]

/-- C47: the points lie in the triangles, if those of the reference rule lie in the reference triangle. -/
theorem C47_points_inside (data : Rule (K × K) K) (h : data.points.length = data.weights.length) (tris : List (Tri2 K))
    (hin : ∀ p ∈ data.points, InTriangle (0, 0) (1, 0) (0, 1) p) :
    ∃ r, polygonQuad data tris = .ok r ∧ ∀ p ∈ r.points, ∃ v ∈ tris, InTriangle v.1 v.2.1 v.2.2 p := by
  refine ⟨_, polygonQuad_eq data tris h, ?_⟩
  intro p hp
  obtain ⟨v, hv, hp⟩ := List.mem_flatMap.1 hp
  obtain ⟨q, hq, rfl⟩ := List.mem_map.1 hp
  refine ⟨v, hv, ?_⟩
  obtain ⟨a, b, c, ha, hb, hc, hs, rfl⟩ := hin q hq
  refine ⟨a, b, c, ha, hb, hc, hs, ?_⟩
  have e : bary3 ((0 : K), (0 : K)) (1, 0) (0, 1) a b c = (b, c) := by simp [bary3]
  rw [e]
  unfold tri2F bary3
  rw [show a = 1 - b - c by linear_combination hs]
  module

/-- C47: the weights are non-negative, if those of the reference rule are. -/
theorem C47_weights_nonneg [IsStrictOrderedRing K] (data : Rule (K × K) K) (h : data.points.length = data.weights.length) (tris : List (Tri2 K))
    (hw : ∀ w ∈ data.weights, 0 ≤ w) : ∃ r, polygonQuad data tris = .ok r ∧ ∀ w ∈ r.weights, 0 ≤ w := by
  refine ⟨_, polygonQuad_eq data tris h, ?_⟩
  intro w hm
  obtain ⟨v, _, hm⟩ := List.mem_flatMap.1 hm
  obtain ⟨w', hw', rfl⟩ := List.mem_map.1 hm
  exact mul_nonneg (hw w' hw') (abs_nonneg _)

/-- C47: the sum of the weights is the sum of the areas of the triangles, if the reference weights sum to the area of the reference
triangle. -/
theorem C47_total_area (data : Rule (K × K) K) (h : data.points.length = data.weights.length) (tris : List (Tri2 K))
    (hw : data.weights.sum = 1 / 2) :
    ∃ r, polygonQuad data tris = .ok r ∧ r.weights.sum = (tris.map fun v => triArea v.1 v.2.1 v.2.2).sum := by
  obtain ⟨r, hr, _, hl, hs⟩ := C47_sum data h tris
  refine ⟨r, hr, ?_⟩
  rw [← quadSum_one r.points r.weights hl.symm, hs]
  congr 1
  apply List.map_congr_left
  intro v _
  rw [quadSum_one _ _ h, hw]
  unfold triArea
  ring

/-- The hypotheses of C47 are met by the rule with the three midpoints of the edges and the unit square cut into two triangles. -/
example : ∃ r, polygonQuad (K := ℚ) ⟨[(1 / 2, 0), (1 / 2, 1 / 2), (0, 1 / 2)], [1 / 6, 1 / 6, 1 / 6]⟩
    [((0, 0), (1, 0), (1, 1)), ((0, 0), (1, 1), (0, 1))] = .ok r ∧ r.weights.sum = 1 ∧
      (∀ p ∈ [((1 / 2, 0) : ℚ × ℚ), (1 / 2, 1 / 2), (0, 1 / 2)], InTriangle (0, 0) (1, 0) (0, 1) p) ∧
      quadSum r.points r.weights (fun p => p.1 * p.2) = 1 / 4 := by
  refine ⟨_, polygonQuad_eq _ _ rfl, ?_, ?_, ?_⟩
  · norm_num [tri2Det, abs_of_nonneg]
  · intro p hp
    simp only [List.mem_cons, List.not_mem_nil, or_false] at hp
    rcases hp with rfl | rfl | rfl
    · exact ⟨1 / 2, 1 / 2, 0, by norm_num, by norm_num, by norm_num, by norm_num, by norm_num [bary3]⟩
    · exact ⟨0, 1 / 2, 1 / 2, by norm_num, by norm_num, by norm_num, by norm_num, by norm_num [bary3]⟩
    · exact ⟨1 / 2, 0, 1 / 2, by norm_num, by norm_num, by norm_num, by norm_num, by norm_num [bary3]⟩
  · norm_num [tri2Det, abs_of_nonneg, quadSum, tri2F]

/-! ## C48 -/

section
variable {g : PolyEdges K} {n : Nat} {V : Nat → K × K} {len : Nat → K} {dir : Nat → Bool} {nrm : Nat → K × K}

/-- C48: the quadrature of any function is the sum over the edges of the length times the weights of the two ends and of the internal points
of the reference rule, the latter in the direction in which the mesh stores the edge. The same for the normal components. -/
theorem C48_sum (hg : IsPoly g n V len dir nrm) (ts ws : List K) (ext : K × K) (hl : ts.length = ws.length) :
    ∃ r, lobattoQuad g ts ws ext = .ok r ∧
      r.points = (List.range n).map V ++ ((List.range n).flatMap fun e => ts.map fun t => segPoint (polyEdge n V (dir e) e).1 (polyEdge n V (dir e) e).2 t) ∧
      r.weights.length = r.points.length ∧ r.nx.length = r.points.length ∧ r.ny.length = r.points.length ∧
      (∀ f : K × K → K, quadSum r.points r.weights f = ∑ e ∈ Finset.range n, |len e| * (ext.1 * f (V e) + ext.2 * f (V ((e + 1) % n)) +
        quadSum ts ws fun t => f (segPoint (polyEdge n V (dir e) e).1 (polyEdge n V (dir e) e).2 t))) ∧
      (∀ f : K × K → K, quadSum r.points r.nx f = ∑ e ∈ Finset.range n, (nrm e).1 * |len e| * (ext.1 * f (V e) + ext.2 * f (V ((e + 1) % n)) +
        quadSum ts ws fun t => f (segPoint (polyEdge n V (dir e) e).1 (polyEdge n V (dir e) e).2 t))) ∧
      (∀ f : K × K → K, quadSum r.points r.ny f = ∑ e ∈ Finset.range n, (nrm e).2 * |len e| * (ext.1 * f (V e) + ext.2 * f (V ((e + 1) % n)) +
        quadSum ts ws fun t => f (segPoint (polyEdge n V (dir e) e).1 (polyEdge n V (dir e) e).2 t))) := by
  have hlen : ∀ c : Nat → K, ((List.range n).flatMap fun i => ws.map (· * c i)).length = n * ts.length := by
    intro c
    rw [flatMap_const_length _ _ ts.length (by simp [hl]), List.length_range]
  have hp : ((List.range n).flatMap fun i => edgePts n V dir ts i).length = n * ts.length := by
    rw [flatMap_const_length _ _ ts.length (by simp [edgePts]), List.length_range]
  refine ⟨_, lobattoQuad_eq hg ts ws ext hl, rfl, ?_, ?_, ?_, ?_, ?_, ?_⟩
  · simp only [List.length_append, hlen fun i => |len i|, hp, List.length_map]
  · simp only [List.length_append, hlen fun i => (nrm i).1 * |len i|, hp, List.length_map]
  · simp only [List.length_append, hlen fun i => (nrm i).2 * |len i|, hp, List.length_map]
  · exact lobatto_sum_aux n V dir ts ws (fun i => |len i|) ext.1 ext.2 _ _ (fun i => mul_comm _ _) (fun i => mul_comm _ _) hl
  · exact lobatto_sum_aux n V dir ts ws (fun i => (nrm i).1 * |len i|) ext.1 ext.2 _ _ (fun i => rfl) (fun i => rfl) hl
  · exact lobatto_sum_aux n V dir ts ws (fun i => (nrm i).2 * |len i|) ext.1 ext.2 _ _ (fun i => rfl) (fun i => rfl) hl

/-- C48: with equal weights at the two ends (as in the Lobatto tables) the quadrature is the sum over the edges of the length times the whole
reference rule mapped in the direction in which the mesh stores the edge. -/
theorem C48_rule (hg : IsPoly g n V len dir nrm) (ts ws : List K) (w : K) (hl : ts.length = ws.length) :
    ∃ r, lobattoQuad g ts ws (w, w) = .ok r ∧
      (∀ f : K × K → K, quadSum r.points r.weights f = ∑ e ∈ Finset.range n, |len e| *
        quadSum (0 :: ts ++ [1]) (w :: ws ++ [w]) fun t => f (segPoint (polyEdge n V (dir e) e).1 (polyEdge n V (dir e) e).2 t)) ∧
      (∀ f : K × K → K, quadSum r.points r.nx f = ∑ e ∈ Finset.range n, (nrm e).1 * |len e| *
        quadSum (0 :: ts ++ [1]) (w :: ws ++ [w]) fun t => f (segPoint (polyEdge n V (dir e) e).1 (polyEdge n V (dir e) e).2 t)) ∧
      (∀ f : K × K → K, quadSum r.points r.ny f = ∑ e ∈ Finset.range n, (nrm e).2 * |len e| *
        quadSum (0 :: ts ++ [1]) (w :: ws ++ [w]) fun t => f (segPoint (polyEdge n V (dir e) e).1 (polyEdge n V (dir e) e).2 t)) := by
  obtain ⟨r, hr, _, _, _, _, h1, h2, h3⟩ := C48_sum hg ts ws (w, w) hl
  refine ⟨r, hr, ?_, ?_, ?_⟩ <;> intro f
  · rw [h1]
    exact Finset.sum_congr rfl fun e _ => by rw [← rule_ends e ts ws w hl f]
  · rw [h2]
    exact Finset.sum_congr rfl fun e _ => by rw [← rule_ends e ts ws w hl f]
  · rw [h3]
    exact Finset.sum_congr rfl fun e _ => by rw [← rule_ends e ts ws w hl f]


/-- C48: the normal-weighted rule vanishes on constants for a closed polygon, if the normal times the length of every edge is the edge
turned by a right angle. -/
theorem C48_closed (hg : IsPoly g n V len dir nrm) (ts ws : List K) (ext : K × K) (hl : ts.length = ws.length)
    (hn : ∀ e < n, |len e| • nrm e = clockwise (V ((e + 1) % n) - V e)) (c : K) :
    ∃ r, lobattoQuad g ts ws ext = .ok r ∧ quadSum r.points r.nx (fun _ => c) = 0 ∧ quadSum r.points r.ny (fun _ => c) = 0 := by
  obtain ⟨r, hr, _, _, _, _, _, h2, h3⟩ := C48_sum hg ts ws ext hl
  refine ⟨r, hr, ?_, ?_⟩
  · rw [h2, ← Finset.sum_mul]
    have h : ∑ e ∈ Finset.range n, (nrm e).1 * |len e| = 0 := by
      rw [show ∑ e ∈ Finset.range n, (nrm e).1 * |len e| = ∑ e ∈ Finset.range n, ((V ((e + 1) % n)).2 - (V e).2) from
        Finset.sum_congr rfl fun e he => by
          have := congrArg Prod.fst (hn e (Finset.mem_range.1 he))
          simp [clockwise] at this
          linear_combination this]
      rw [Finset.sum_sub_distrib, sum_cyclic n fun e => (V e).2, sub_self]
    rw [h, zero_mul]
  · rw [h3, ← Finset.sum_mul]
    have h : ∑ e ∈ Finset.range n, (nrm e).2 * |len e| = 0 := by
      rw [show ∑ e ∈ Finset.range n, (nrm e).2 * |len e| = ∑ e ∈ Finset.range n, ((V e).1 - (V ((e + 1) % n)).1) from
        Finset.sum_congr rfl fun e he => by
          have := congrArg Prod.snd (hn e (Finset.mem_range.1 he))
          simp [clockwise] at this
          linear_combination this]
      rw [Finset.sum_sub_distrib, sum_cyclic n fun e => (V e).1, sub_self]
    rw [h, zero_mul]

/-- C48 with `Compute_PCC_2D`: if the Lobatto table of degree `2 * order - 1` has the ends of the segment as first and last point with equal
weights (and is the trapezoidal rule for order 1), then the boundary rule of the polygon is the sum over the edges of the length times the
table mapped to the edge. -/
theorem C48_compute (hg : IsPoly g n V len dir nrm) (table : Nat → Rule K K) (order : Nat) (h1 : 1 ≤ order) (hb : order ≤ 2147483648)
    (ts ws : List K) (w : K) (hl : ts.length = ws.length) (ht : table (2 * order - 1) = ⟨0 :: ts ++ [1], w :: ws ++ [w]⟩)
    (ho : order = 1 → ts = [] ∧ w = 1 / 2) :
    ∃ s r, pccEdgeRule table order = .ok s ∧ lobattoQuad g s.1 s.2.1 s.2.2 = .ok r ∧
      (∀ f : K × K → K, quadSum r.points r.weights f = ∑ e ∈ Finset.range n, |len e| *
        quadSum (table (2 * order - 1)).points (table (2 * order - 1)).weights
          fun t => f (segPoint (polyEdge n V (dir e) e).1 (polyEdge n V (dir e) e).2 t)) := by
  have hs : pccEdgeRule table order = .ok (ts, ws, (w, w)) := by
    unfold pccEdgeRule
    rw [show u32 (2 * order + 4294967295) = 2 * order - 1 by unfold u32; omega, ht]
    exact lobattoSplit_ok order ts ws w hl ho
  obtain ⟨r, hr, hf, _⟩ := C48_rule hg ts ws w hl
  refine ⟨_, r, hs, hr, ?_⟩
  intro f
  rw [hf, ht]

/-- The hypotheses of C48 are met by the unit square with the three-point Lobatto (Simpson) rule and two edges stored backwards. -/
example : ∃ r, lobattoQuad (K := ℚ) ⟨[(0, 0), (1, 0), (1, 1), (0, 1)], [1, 1, 1, 1], [true, false, true, false],
      [(1, 0), (0, 1), (-1, 0), (0, -1)], [(0, -1), (1, 0), (0, 1), (-1, 0)]⟩ [1 / 2] [2 / 3] (1 / 6, 1 / 6) = .ok r ∧
    quadSum r.points r.nx (fun p => p.1 * p.1) = 1 ∧ quadSum r.points r.weights (fun _ => 1) = 4 := by
  have hg : IsPoly (K := ℚ) ⟨[(0, 0), (1, 0), (1, 1), (0, 1)], [1, 1, 1, 1], [true, false, true, false],
      [(1, 0), (0, 1), (-1, 0), (0, -1)], [(0, -1), (1, 0), (0, 1), (-1, 0)]⟩ 4
      (fun i => if i = 0 then (0, 0) else if i = 1 then (1, 0) else if i = 2 then (1, 1) else (0, 1)) (fun _ => 1) (fun i => i % 2 = 0) (fun i => if i = 0 then (0, -1) else if i = 1 then (1, 0)
        else if i = 2 then (0, 1) else (-1, 0)) := by
    constructor <;> simp [List.range_succ]
  obtain ⟨r, hr, hf, hx, _⟩ := C48_rule hg [1 / 2] [2 / 3] (1 / 6) rfl
  refine ⟨r, hr, ?_, ?_⟩
  · rw [hx]
    norm_num [Finset.sum_range_succ, quadSum, segPoint, polyEdge]
  · rw [hf]
    norm_num [Finset.sum_range_succ, quadSum]

/-! ## C49 -/

/-- C49: for every edge, in order, the reference rule mapped from the mesh origin of the edge; the weights are multiplied by the length and
by the components of the normal. -/
theorem C49_edges (hg : IsPoly g n V len dir nrm) (data : Rule K K) (hl : data.points.length = data.weights.length) :
    ∃ r, edgesQuad g data = .ok r ∧ r.points.length = n * data.points.length ∧ r.weights.length = n * data.points.length ∧
      r.nx.length = n * data.points.length ∧ r.ny.length = n * data.points.length ∧
      ∀ e < n, ∀ q t w, data.points[q]? = some t → data.weights[q]? = some w →
        r.points[e * data.points.length + q]? = some (segPoint (polyEdge n V (dir e) e).1 (polyEdge n V (dir e) e).2 t) ∧
        r.weights[e * data.points.length + q]? = some (|len e| * w) ∧
        r.nx[e * data.points.length + q]? = some (|len e| * w * (nrm e).1) ∧
        r.ny[e * data.points.length + q]? = some (|len e| * w * (nrm e).2) := by
  refine ⟨_, edgesQuad_eq hg data hl, ?_, ?_, ?_, ?_, ?_⟩
  · dsimp only
    rw [flatMap_const_length _ _ data.points.length (by simp [edgePts]), List.length_range]
  · dsimp only
    rw [flatMap_const_length _ _ data.points.length (by simp [hl]), List.length_range]
  · dsimp only
    rw [flatMap_const_length _ _ data.points.length (by simp [hl]), List.length_range]
  · dsimp only
    rw [flatMap_const_length _ _ data.points.length (by simp [hl]), List.length_range]
  · intro e he q t w ht hw
    have hq : q < data.points.length := (List.getElem?_eq_some_iff.1 ht).1
    have hr : (List.range n)[e]? = some e := by rw [List.getElem?_range he]
    refine ⟨?_, ?_, ?_, ?_⟩
    · dsimp only
      rw [flatMap_get _ _ data.points.length e q e (by simp [edgePts]) hr hq]
      simp [edgePts, ht]
    · dsimp only
      rw [flatMap_get _ _ data.points.length e q e (by simp [hl]) hr hq]
      simp [hw, mul_comm]
    · dsimp only
      rw [flatMap_get _ _ data.points.length e q e (by simp [hl]) hr hq]
      simp only [List.getElem?_map, hw, Option.map_some]
      congr 1
      ring
    · dsimp only
      rw [flatMap_get _ _ data.points.length e q e (by simp [hl]) hr hq]
      simp only [List.getElem?_map, hw, Option.map_some]
      congr 1
      ring

/-- The hypotheses of C49 are met by a triangle with an edge stored backwards and a two-point rule. -/
example : IsPoly (K := ℚ) ⟨[(0, 0), (4, 0), (0, 3)], [4, 5, 3], [true, false, true], [(4, 0), (-4, 3), (0, -3)], [(0, -1), (3 / 5, 4 / 5), (-1, 0)]⟩ 3
    (fun i => if i = 0 then (0, 0) else if i = 1 then (4, 0) else (0, 3)) (fun i => if i = 0 then 4 else if i = 1 then 5 else 3)
    (fun i => i ≠ 1) (fun i => if i = 0 then (0, -1) else if i = 1 then (3 / 5, 4 / 5) else (-1, 0)) := by
  constructor <;> simp [List.range_succ]

/-! ## C69 -/

/-- C69: if the reference rule integrates `1` and `t` exactly, the normal-weighted boundary rule applied to the coordinate in the direction of
the normal gives the area of the polygon (in both directions). -/
theorem C69_area [CharZero K] (hg : IsPoly g n V len dir nrm) (ts ws : List K) (ext : K × K) (hl : ts.length = ws.length)
    (hn : ∀ e < n, |len e| • nrm e = clockwise (V ((e + 1) % n) - V e)) (he : ext.1 = ext.2)
    (h0 : ext.1 + ext.2 + quadSum ts ws (fun _ => 1) = 1) (h1 : ext.2 + quadSum ts ws (fun t => t) = 1 / 2) :
    ∃ r, lobattoQuad g ts ws ext = .ok r ∧ quadSum r.points r.nx (fun p => p.1) = polyArea n V ∧
      quadSum r.points r.ny (fun p => p.2) = polyArea n V := by
  obtain ⟨r, hr, _, _, _, _, _, h2, h3⟩ := C48_sum hg ts ws ext hl
  have hseg : ∀ (c : K × K → K), (c = Prod.fst ∨ c = Prod.snd) → ∀ P Q : K × K,
      quadSum ts ws (fun t => c (segPoint P Q t)) = c P * (quadSum ts ws (fun _ => 1) - quadSum ts ws fun t => t)
        + c Q * quadSum ts ws fun t => t := by
    intro c hc P Q
    have h4 : (fun t => c (segPoint P Q t)) = fun t => c P * 1 + (c Q - c P) * t := by
      funext t
      rcases hc with rfl | rfl <;> simp only [segPoint] <;> ring
    rw [h4, quadSum_add, quadSum_const_mul, quadSum_const_mul]
    ring
  have hedge : ∀ (c : K × K → K), (c = Prod.fst ∨ c = Prod.snd) → ∀ e, ext.1 * c (V e) + ext.2 * c (V ((e + 1) % n)) +
      quadSum ts ws (fun t => c (segPoint (polyEdge n V (dir e) e).1 (polyEdge n V (dir e) e).2 t)) = (c (V e) + c (V ((e + 1) % n))) / 2 := by
    intro c hc e
    rw [hseg c hc]
    have hd : quadSum ts ws (fun _ => 1) = 1 - 2 * ext.2 := by rw [he] at h0; linear_combination h0
    have hs : quadSum ts ws (fun t => t) = 1 / 2 - ext.2 := by linear_combination h1
    rw [hd, hs, he]
    unfold polyEdge
    split_ifs <;> dsimp only <;> ring
  have harea : polyArea n V = ∑ e ∈ Finset.range n, ((V e).1 * (V ((e + 1) % n)).2 - (V ((e + 1) % n)).1 * (V e).2) / 2 := by
    unfold polyArea
    rw [← Finset.sum_div]
    congr 1
  refine ⟨r, hr, ?_, ?_⟩
  · rw [h2 (fun p => p.1), harea]
    have e1 : ∀ e ∈ Finset.range n, (nrm e).1 * |len e| * (ext.1 * (V e).1 + ext.2 * (V ((e + 1) % n)).1 +
        quadSum ts ws fun t => (segPoint (polyEdge n V (dir e) e).1 (polyEdge n V (dir e) e).2 t).1)
        = ((V e).1 * (V ((e + 1) % n)).2 - (V ((e + 1) % n)).1 * (V e).2) / 2
          + ((V ((e + 1) % n)).1 * (V ((e + 1) % n)).2 / 2 - (V e).1 * (V e).2 / 2) := by
      intro e he
      have := congrArg Prod.fst (hn e (Finset.mem_range.1 he))
      simp [clockwise] at this
      rw [hedge Prod.fst (Or.inl rfl) e]
      linear_combination ((V e).1 + (V ((e + 1) % n)).1) / 2 * this
    rw [Finset.sum_congr rfl e1, Finset.sum_add_distrib, Finset.sum_sub_distrib, sum_cyclic n fun e => (V e).1 * (V e).2 / 2, sub_self,
      add_zero]
  · rw [h3 (fun p => p.2), harea]
    have e1 : ∀ e ∈ Finset.range n, (nrm e).2 * |len e| * (ext.1 * (V e).2 + ext.2 * (V ((e + 1) % n)).2 +
        quadSum ts ws fun t => (segPoint (polyEdge n V (dir e) e).1 (polyEdge n V (dir e) e).2 t).2)
        = ((V e).1 * (V ((e + 1) % n)).2 - (V ((e + 1) % n)).1 * (V e).2) / 2
          + ((V e).1 * (V e).2 / 2 - (V ((e + 1) % n)).1 * (V ((e + 1) % n)).2 / 2) := by
      intro e he
      have := congrArg Prod.snd (hn e (Finset.mem_range.1 he))
      simp [clockwise] at this
      rw [hedge Prod.snd (Or.inr rfl) e]
      linear_combination ((V e).2 + (V ((e + 1) % n)).2) / 2 * this
    rw [Finset.sum_congr rfl e1, Finset.sum_add_distrib, Finset.sum_sub_distrib, sum_cyclic n fun e => (V e).1 * (V e).2 / 2, sub_self,
      add_zero]

/-- The hypotheses of C69 are met by a triangle with an edge stored backwards and Simpson's rule. -/
example : ∃ r, lobattoQuad (K := ℚ) ⟨[(0, 0), (4, 0), (0, 3)], [4, 5, 3], [true, false, true], [(4, 0), (-4, 3), (0, -3)],
    [(0, -1), (3 / 5, 4 / 5), (-1, 0)]⟩ [1 / 2] [2 / 3] (1 / 6, 1 / 6) = .ok r ∧ quadSum r.points r.nx (fun p => p.1) = 6 := by
  have hg : IsPoly (K := ℚ) ⟨[(0, 0), (4, 0), (0, 3)], [4, 5, 3], [true, false, true], [(4, 0), (-4, 3), (0, -3)],
    [(0, -1), (3 / 5, 4 / 5), (-1, 0)]⟩ 3 (fun i => if i = 0 then (0, 0) else if i = 1 then (4, 0) else (0, 3))
    (fun i => if i = 0 then 4 else if i = 1 then 5 else 3) (fun i => i ≠ 1)
    (fun i => if i = 0 then (0, -1) else if i = 1 then (3 / 5, 4 / 5) else (-1, 0)) := by
    constructor <;> simp [List.range_succ]
  obtain ⟨r, hr, h, _⟩ := C69_area hg [1 / 2] [2 / 3] (1 / 6, 1 / 6) rfl (by
    intro e he
    interval_cases e <;> norm_num [clockwise]) rfl (by norm_num [quadSum]) (by norm_num [quadSum])
  refine ⟨r, hr, ?_⟩
  rw [h]
  norm_num [polyArea, List.range_succ]

/-! ## C70 -/

/-- C70, true part: for order at least 2 the boundary rule of `Compute_DF_PCC_2D` is the Lobatto table of degree `2 * order + 1` mapped to every
edge. Missing: order 1, see `C70_order_one`. -/
theorem C70_df_rule_partial (hg : IsPoly g n V len dir nrm) (table : Nat → Rule K K) (order : Nat) (h1 : 2 ≤ order) (hb : order < 2147483647)
    (ts ws : List K) (w : K) (hl : ts.length = ws.length) (ht : table (2 * order + 1) = ⟨0 :: ts ++ [1], w :: ws ++ [w]⟩) :
    ∃ s r, dfSegmentRule table order = .ok s ∧ lobattoQuad g s.1 s.2.1 s.2.2 = .ok r ∧
      (∀ f : K × K → K, quadSum r.points r.weights f = ∑ e ∈ Finset.range n, |len e| *
        quadSum (table (2 * order + 1)).points (table (2 * order + 1)).weights
          fun t => f (segPoint (polyEdge n V (dir e) e).1 (polyEdge n V (dir e) e).2 t)) := by
  have hs : dfSegmentRule table order = .ok (ts, ws, (w, w)) := by
    unfold dfSegmentRule
    rw [show u32 (2 * order + 1) = 2 * order + 1 by unfold u32; omega, ht]
    exact lobattoSplit_ok order ts ws w hl (by omega)
  obtain ⟨r, hr, hf, _⟩ := C48_rule hg ts ws w hl
  refine ⟨_, r, hs, hr, ?_⟩
  intro f
  rw [hf, ht]

end

/-- C70 is false for order 1: with Simpson's rule as table of degree 3, the rule on the boundary of the unit square does not integrate `x²` as
the table does (the code puts the trapezoidal rule). -/
theorem C70_order_one : ∃ (table : Nat → Rule ℚ ℚ) (g : PolyEdges ℚ) (V : Nat → ℚ × ℚ) (len : Nat → ℚ) (dir : Nat → Bool) (nrm : Nat → ℚ × ℚ),
    IsPoly g 4 V len dir nrm ∧ table 3 = ⟨[0, 1 / 2, 1], [1 / 6, 2 / 3, 1 / 6]⟩ ∧
    ∃ s r, dfSegmentRule table 1 = .ok s ∧ lobattoQuad g s.1 s.2.1 s.2.2 = .ok r ∧
      quadSum r.points r.weights (fun p => p.1 * p.1) ≠ ∑ e ∈ Finset.range 4, |len e| * quadSum (table 3).points (table 3).weights
        fun t => (segPoint (polyEdge 4 V (dir e) e).1 (polyEdge 4 V (dir e) e).2 t).1 * (segPoint (polyEdge 4 V (dir e) e).1 (polyEdge 4 V (dir e) e).2 t).1 := by
  have hg : IsPoly (K := ℚ) ⟨[(0, 0), (1, 0), (1, 1), (0, 1)], [1, 1, 1, 1], [true, true, true, true],
      [(1, 0), (0, 1), (-1, 0), (0, -1)], [(0, -1), (1, 0), (0, 1), (-1, 0)]⟩ 4
      (fun i => if i = 0 then (0, 0) else if i = 1 then (1, 0) else if i = 2 then (1, 1) else (0, 1)) (fun _ => 1) (fun _ => true)
      (fun i => if i = 0 then (0, -1) else if i = 1 then (1, 0) else if i = 2 then (0, 1) else (-1, 0)) := by
    constructor <;> simp [List.range_succ]
  obtain ⟨r, hr, hf, _⟩ := C48_rule hg [] [] (1 / 2) rfl
  refine ⟨fun _ => ⟨[0, 1 / 2, 1], [1 / 6, 2 / 3, 1 / 6]⟩, _, _, _, _, _, hg, rfl, ([], [], (1 / 2, 1 / 2)), r, rfl, hr, ?_⟩
  rw [hf]
  norm_num [Finset.sum_range_succ, quadSum, segPoint, polyEdge]

/-- The hypotheses of C70 are met by order 2 with the four-point Lobatto rule, up to the position of the internal points. -/
example : ∃ s, dfSegmentRule (K := ℚ) (fun _ => ⟨[0, 1 / 4, 3 / 4, 1], [1 / 12, 5 / 12, 5 / 12, 1 / 12]⟩) 2 = .ok s ∧ s.1 = [1 / 4, 3 / 4] := by
  refine ⟨_, lobattoSplit_ok 2 [1 / 4, 3 / 4] [5 / 12, 5 / 12] (1 / 12) rfl (by omega), rfl⟩

/-! ## C65 -/

/-- C65: `PolyhedronInternalQuadrature` succeeds, and the quadrature of any function is the sum over the tetrahedra of six times the volume times
the reference quadrature of the function in barycentric coordinates. -/
theorem C65_sum [CharZero K] (data : Rule (Vec3 K) K) (h : data.points.length = data.weights.length) (tets : List (Tet3 K)) :
    ∃ r, polyhedronQuad data tets = .ok r ∧ r.points.length = tets.length * data.points.length ∧ r.weights.length = r.points.length ∧
      ∀ f : Vec3 K → K, quadSum r.points r.weights f = (tets.map fun v => 6 * tetVolume v.1 v.2.1 v.2.2.1 v.2.2.2 *
        quadSum data.points data.weights fun p => f ((1 - p.1 - p.2.1 - p.2.2) • v.1 + p.1 • v.2.1 + p.2.1 • v.2.2.1 + p.2.2 • v.2.2.2)).sum := by
  refine ⟨_, polyhedronQuad_eq data tets h, ?_, ?_, ?_⟩
  · exact flatMap_const_length _ _ _ (by simp)
  · dsimp only
    rw [flatMap_const_length _ _ data.points.length (by simp [h]), flatMap_const_length _ _ data.points.length (by simp [h])]
  · intro f
    dsimp only
    rw [quadSum_flatMap _ _ _ _ (by simp [h])]
    congr 1
    apply List.map_congr_left
    intro v _
    rw [quadSum_smul, quadSum_map]
    have h1 : |tet3Det v| = 6 * tetVolume v.1 v.2.1 v.2.2.1 v.2.2.2 := by
      unfold tetVolume
      have h6 : (6 : K) ≠ 0 := by norm_num
      dsimp only
      rw [mul_div_cancel₀ _ h6]
      congr 1
      unfold tet3Det det3 cross
      ring
    have h2 : f ∘ tet3F v = fun p => f ((1 - p.1 - p.2.1 - p.2.2) • v.1 + p.1 • v.2.1 + p.2.1 • v.2.2.1 + p.2.2 • v.2.2.2) := by
      funext p
      have : tet3F v p = (1 - p.1 - p.2.1 - p.2.2) • v.1 + p.1 • v.2.1 + p.2.1 • v.2.2.1 + p.2.2 • v.2.2.2 := by
        unfold tet3F
        module
      rw [Function.comp_apply, this]
    rw [h1, h2]

/-- C65: points in the tetrahedra and non-negative weights, if the reference rule has them; total weight the volume, if the reference weights
sum to 1/6. -/
theorem C65_inside [IsStrictOrderedRing K] (data : Rule (Vec3 K) K) (h : data.points.length = data.weights.length) (tets : List (Tet3 K)) :
    ∃ r, polyhedronQuad data tets = .ok r ∧
      ((∀ p ∈ data.points, InTetrahedron (0, 0, 0) (1, 0, 0) (0, 1, 0) (0, 0, 1) p) →
        ∀ p ∈ r.points, ∃ v ∈ tets, InTetrahedron v.1 v.2.1 v.2.2.1 v.2.2.2 p) ∧
      ((∀ w ∈ data.weights, 0 ≤ w) → ∀ w ∈ r.weights, 0 ≤ w) ∧
      (data.weights.sum = 1 / 6 → r.weights.sum = (tets.map fun v => tetVolume v.1 v.2.1 v.2.2.1 v.2.2.2).sum) := by
  obtain ⟨r, hr, _, hl, hs⟩ := C65_sum data h tets
  have hr' := hr
  rw [polyhedronQuad_eq data tets h] at hr'
  injection hr' with hr'
  refine ⟨r, hr, ?_, ?_, ?_⟩
  · intro hin p hp
    rw [← hr'] at hp
    obtain ⟨v, hv, hp⟩ := List.mem_flatMap.1 hp
    obtain ⟨q, hq, rfl⟩ := List.mem_map.1 hp
    refine ⟨v, hv, ?_⟩
    obtain ⟨a, b, c, d, ha, hb, hc, hd, hs, rfl⟩ := hin q hq
    refine ⟨a, b, c, d, ha, hb, hc, hd, hs, ?_⟩
    have e : a • ((0 : K), (0 : K), (0 : K)) + b • ((1 : K), (0 : K), (0 : K)) + c • ((0 : K), (1 : K), (0 : K)) + d • ((0 : K), (0 : K), (1 : K))
        = (b, c, d) := by simp
    rw [e]
    unfold tet3F
    rw [show a = 1 - b - c - d by linear_combination hs]
    module
  · intro hw w hm
    rw [← hr'] at hm
    obtain ⟨v, _, hm⟩ := List.mem_flatMap.1 hm
    obtain ⟨w', hw', rfl⟩ := List.mem_map.1 hm
    exact mul_nonneg (hw w' hw') (abs_nonneg _)
  · intro hw
    rw [← quadSum_one r.points r.weights hl.symm, hs]
    congr 1
    apply List.map_congr_left
    intro v _
    rw [quadSum_one _ _ h, hw]
    ring

/-- The hypotheses of C65 are met by the one-point rule and a tetrahedron of volume 4. -/
example : ∃ r, polyhedronQuad (K := ℚ) ⟨[(1 / 4, 1 / 4, 1 / 4)], [1 / 6]⟩ [((0, 0, 0), (2, 0, 0), (0, 3, 0), (0, 0, 4))] = .ok r ∧
    r.weights.sum = 4 ∧ InTetrahedron (K := ℚ) (0, 0, 0) (1, 0, 0) (0, 1, 0) (0, 0, 1) (1 / 4, 1 / 4, 1 / 4) := by
  obtain ⟨r, hr, _, _, h⟩ := C65_inside (K := ℚ) ⟨[(1 / 4, 1 / 4, 1 / 4)], [1 / 6]⟩ rfl [((0, 0, 0), (2, 0, 0), (0, 3, 0), (0, 0, 4))]
  refine ⟨r, hr, ?_, ⟨1 / 4, 1 / 4, 1 / 4, 1 / 4, by norm_num, by norm_num, by norm_num, by norm_num, by norm_num, by norm_num⟩⟩
  rw [h (by norm_num)]
  norm_num [tetVolume, cross, abs_of_nonneg]

/-! ## C66 -/

omit [LinearOrder K] in
/-- C66: `PolyhedronFacesQuadrature` succeeds, and the quadrature of any function is the sum over the faces of the rule of the face applied to the
function at the image of the point in the plane of the face; the weights of the three directions carry the outward normal of the face. -/
theorem C66_faces (fr : List (FaceFrame K × Rule (K × K) K)) (h : ∀ x ∈ fr, x.2.points.length = x.2.weights.length) :
    ∃ r, facesQuad (fr.map Prod.fst) (fr.map Prod.snd) = .ok r ∧ r.weights.length = r.points.length ∧ r.nx.length = r.points.length ∧
      r.ny.length = r.points.length ∧ r.nz.length = r.points.length ∧
      (∀ f : Vec3 K → K, quadSum r.points r.weights f
        = (fr.map fun x => quadSum x.2.points x.2.weights fun p => f (x.1.shift + p.1 • x.1.r0 + p.2 • x.1.r1)).sum) ∧
      (∀ f : Vec3 K → K, quadSum r.points r.nx f = (fr.map fun x => (if x.1.outward then x.1.normal else -x.1.normal).1 *
        quadSum x.2.points x.2.weights fun p => f (x.1.shift + p.1 • x.1.r0 + p.2 • x.1.r1)).sum) ∧
      (∀ f : Vec3 K → K, quadSum r.points r.ny f = (fr.map fun x => (if x.1.outward then x.1.normal else -x.1.normal).2.1 *
        quadSum x.2.points x.2.weights fun p => f (x.1.shift + p.1 • x.1.r0 + p.2 • x.1.r1)).sum) ∧
      (∀ f : Vec3 K → K, quadSum r.points r.nz f = (fr.map fun x => (if x.1.outward then x.1.normal else -x.1.normal).2.2 *
        quadSum x.2.points x.2.weights fun p => f (x.1.shift + p.1 • x.1.r0 + p.2 • x.1.r1)).sum) := by
  have hlen : ∀ {α β : Type} (F : FaceFrame K × Rule (K × K) K → List α) (G : FaceFrame K × Rule (K × K) K → List β),
      (∀ x ∈ fr, (F x).length = (G x).length) → (fr.flatMap F).length = (fr.flatMap G).length := by
    intro α β F G hFG
    rw [List.length_flatMap, List.length_flatMap]
    congr 1
    exact List.map_congr_left hFG
  have hsum : ∀ (c : FaceFrame K → K) (d : FaceFrame K → K) (hd : ∀ x, d x = (if x.outward then (1 : K) else -1) * c x) (f : Vec3 K → K),
      quadSum (fr.flatMap fun x => x.2.points.map (frameLift x.1))
        (fr.flatMap fun x => x.2.weights.map (· * (if x.1.outward then (1 : K) else -1) * c x.1)) f
        = (fr.map fun x => d x.1 * quadSum x.2.points x.2.weights fun p => f (x.1.shift + p.1 • x.1.r0 + p.2 • x.1.r1)).sum := by
    intro c d hd f
    rw [quadSum_flatMap _ _ _ _ (by intro x hx; simp [h x hx])]
    congr 1
    apply List.map_congr_left
    intro x _
    rw [hd]
    simp only [mul_assoc]
    rw [quadSum_smul, quadSum_map]
    rw [mul_assoc]
    rfl
  refine ⟨_, facesQuad_eq fr h, ?_, ?_, ?_, ?_, ?_, ?_, ?_, ?_⟩
  · exact hlen _ _ fun x hx => by simp [h x hx]
  · exact hlen _ _ fun x hx => by simp [h x hx]
  · exact hlen _ _ fun x hx => by simp [h x hx]
  · exact hlen _ _ fun x hx => by simp [h x hx]
  · intro f
    dsimp only
    rw [quadSum_flatMap _ _ _ _ (by intro x hx; simp [h x hx])]
    congr 1
    apply List.map_congr_left
    intro x _
    rw [quadSum_map]
    rfl
  · exact hsum (fun x => x.normal.1) (fun x => (if x.outward then x.normal else -x.normal).1) fun x => by
      split_ifs <;> simp
  · exact hsum (fun x => x.normal.2.1) (fun x => (if x.outward then x.normal else -x.normal).2.1) fun x => by
      split_ifs <;> simp
  · exact hsum (fun x => x.normal.2.2) (fun x => (if x.outward then x.normal else -x.normal).2.2) fun x => by
      split_ifs <;> simp

omit [LinearOrder K] in
/-- C66: on a closed surface (the areas times the outward normals add up to zero) the three normal-weighted rules vanish on constants. -/
theorem C66_closed (fr : List (FaceFrame K × Rule (K × K) K)) (h : ∀ x ∈ fr, x.2.points.length = x.2.weights.length)
    (area : FaceFrame K → K) (ha : ∀ x ∈ fr, x.2.weights.sum = area x.1)
    (hc : (fr.map fun x => area x.1 • (if x.1.outward then x.1.normal else -x.1.normal)).sum = 0) :
    ∃ r, facesQuad (fr.map Prod.fst) (fr.map Prod.snd) = .ok r ∧ quadSum r.points r.nx (fun _ => 1) = 0 ∧
      quadSum r.points r.ny (fun _ => 1) = 0 ∧ quadSum r.points r.nz (fun _ => 1) = 0 := by
  obtain ⟨r, hr, _, _, _, _, _, h1, h2, h3⟩ := C66_faces fr h
  have key : ∀ (c : Vec3 K →+ K) (_ : ∀ (a : K) v, c (a • v) = a * c v),
      (fr.map fun x => c (if x.1.outward then x.1.normal else -x.1.normal) * quadSum x.2.points x.2.weights fun _ => 1).sum = 0 := by
    intro c hcs
    rw [← map_zero c, ← hc, map_list_sum, List.map_map]
    congr 1
    apply List.map_congr_left
    intro x hx
    rw [quadSum_one _ _ (h x hx), ha x hx, Function.comp_apply, hcs, mul_comm]
  refine ⟨r, hr, ?_, ?_, ?_⟩
  · rw [h1]
    exact key (AddMonoidHom.fst K (K × K)) fun _ _ => rfl
  · rw [h2]
    exact key ((AddMonoidHom.fst K K).comp (AddMonoidHom.snd K (K × K))) fun _ _ => rfl
  · rw [h3]
    exact key ((AddMonoidHom.snd K K).comp (AddMonoidHom.snd K (K × K))) fun _ _ => rfl

/-- C66, mixed method: `PolyhedronFacesQuadrature` succeeds, gives for every face the quadrature of its triangulation, and the quadrature of the
whole boundary is the sum over the triangles of the faces of twice the area (the absolute value of `shoelace`) times the reference rule at the image of the barycentric combination
in the plane of the face. -/
theorem C66_mcc (data : Rule (K × K) K) (h : data.points.length = data.weights.length) (tf : List (List (Tri2 K) × FaceFrame K)) :
    ∃ rules r, mccFacesQuad data (tf.map Prod.fst) (tf.map Prod.snd) = .ok (rules, r) ∧ rules.length = tf.length ∧
      r.points.length = r.weights.length ∧
      (∀ (i : Nat) tris, (tf.map Prod.fst)[i]? = some tris → ∃ rule, rules[i]? = some rule ∧ polygonQuad data tris = .ok rule) ∧
      ∀ f : Vec3 K → K, quadSum r.points r.weights f = (tf.map fun x => (x.1.map fun v => |shoelace v.1 v.2.1 v.2.2| *
        quadSum data.points data.weights fun p => f (x.2.shift + (bary3 v.1 v.2.1 v.2.2 (1 - p.1 - p.2) p.1 p.2).1 • x.2.r0
          + (bary3 v.1 v.2.1 v.2.2 (1 - p.1 - p.2) p.1 p.2).2 • x.2.r1)).sum).sum := by
  refine ⟨_, _, mccFacesQuad_eq data tf h, by simp, ?_, ?_, ?_⟩
  · dsimp only
    rw [List.length_flatMap, List.length_flatMap]
    congr 1
    apply List.map_congr_left
    intro x _
    rw [List.length_map, faceRule_length data _ h]
  · intro i tris hi
    refine ⟨faceRule data tris, ?_, polygonQuad_eq data tris h⟩
    rw [List.getElem?_map] at hi ⊢
    obtain ⟨x, hx, rfl⟩ := Option.map_eq_some_iff.1 hi
    rw [hx]
    rfl
  · intro f
    dsimp only
    rw [quadSum_flatMap _ _ _ _ (by intro x _; rw [List.length_map, faceRule_length data _ h])]
    congr 1
    apply List.map_congr_left
    intro x _
    rw [quadSum_map]
    obtain ⟨r, hr, _, _, hs⟩ := C47_sum data h x.1
    rw [polygonQuad_eq data x.1 h] at hr
    injection hr with hr
    have := hs (f ∘ frameLift x.2)
    rw [← hr] at this
    exact this

/-- The hypotheses of C66 are met by the unit tetrahedron with the one-point rule on each face. The face that is not in a coordinate plane has
the normal `(1, 1, 1)` up to its length, which is put in the area; the face in the plane `z = 0` is stored with the inward normal. -/
example : ∃ r, facesQuad (K := ℚ) ([((⟨(0, 0, 0), (1, 0, 0), (0, 1, 0), (0, 0, 1), false⟩ : FaceFrame ℚ), (⟨[(1 / 3, 1 / 3)], [1 / 2]⟩ : Rule (ℚ × ℚ) ℚ)),
    (⟨(0, 0, 0), (1, 0, 0), (0, 0, 1), (0, -1, 0), true⟩, ⟨[(1 / 3, 1 / 3)], [1 / 2]⟩),
    (⟨(0, 0, 0), (0, 1, 0), (0, 0, 1), (-1, 0, 0), true⟩, ⟨[(1 / 3, 1 / 3)], [1 / 2]⟩),
    (⟨(1, 0, 0), (-1, 1, 0), (-1, 0, 1), (1, 1, 1), true⟩, ⟨[(1 / 3, 1 / 3)], [1 / 2]⟩)].map Prod.fst)
    (List.replicate 4 ⟨[(1 / 3, 1 / 3)], [1 / 2]⟩) = .ok r ∧ quadSum r.points r.nz (fun _ => 1) = 0 := by
  obtain ⟨r, hr, _, _, h⟩ := C66_closed (K := ℚ) [((⟨(0, 0, 0), (1, 0, 0), (0, 1, 0), (0, 0, 1), false⟩ : FaceFrame ℚ), (⟨[(1 / 3, 1 / 3)], [1 / 2]⟩ : Rule (ℚ × ℚ) ℚ)),
    (⟨(0, 0, 0), (1, 0, 0), (0, 0, 1), (0, -1, 0), true⟩, ⟨[(1 / 3, 1 / 3)], [1 / 2]⟩),
    (⟨(0, 0, 0), (0, 1, 0), (0, 0, 1), (-1, 0, 0), true⟩, ⟨[(1 / 3, 1 / 3)], [1 / 2]⟩),
    (⟨(1, 0, 0), (-1, 1, 0), (-1, 0, 1), (1, 1, 1), true⟩, ⟨[(1 / 3, 1 / 3)], [1 / 2]⟩)] (by simp) (fun _ => 1 / 2) (by simp) (by norm_num)
  exact ⟨r, hr, h⟩

/-- The hypotheses of C66 (mixed) are met by a face of two triangles in the plane `z = 2`. -/
example : ∃ rules r, mccFacesQuad (K := ℚ) ⟨[(1 / 3, 1 / 3)], [1 / 2]⟩ [[((0, 0), (1, 0), (1, 1)), ((0, 0), (1, 1), (0, 1))]]
    [⟨(0, 0, 2), (1, 0, 0), (0, 1, 0), (0, 0, 1), true⟩] = .ok (rules, r) ∧ quadSum r.points r.weights (fun p => p.2.2) = 2 := by
  obtain ⟨rules, r, hr, _, _, _, h⟩ := C66_mcc (K := ℚ) ⟨[(1 / 3, 1 / 3)], [1 / 2]⟩ rfl [([((0, 0), (1, 0), (1, 1)), ((0, 0), (1, 1), (0, 1))],
    ⟨(0, 0, 2), (1, 0, 0), (0, 1, 0), (0, 0, 1), true⟩)]
  refine ⟨rules, r, hr, ?_⟩
  rw [h]
  norm_num [shoelace, quadSum, abs_of_nonneg]

/-! ## C67 -/

omit [LinearOrder K] in
/-- C67: `PolyhedronInternalEdgesQuadraturePoints` succeeds with `m` points per edge, and position `e * m + q` holds the point of edge `e` at
the parameter of the `q`-th reference point, measured from the first vertex of the edge if the edge is stored with its direction in the cell and
from the second one otherwise. -/
theorem C67_edge_points (ts : List K) (V : List (Vec3 K)) (edges : List (Nat × Nat)) (dirs : List Bool) (tangents : List (Vec3 K))
    (pt : Nat → Vec3 K) (hV : ∀ e ∈ edges, V[e.1]? = some (pt e.1) ∧ V[e.2]? = some (pt e.2)) (dir : Nat → Bool)
    (hd : dirs = (List.range edges.length).map dir) (ht : tangents = edges.map fun e => pt e.2 - pt e.1) :
    ∃ r, polyhedronEdgePoints ts V edges dirs tangents = .ok r ∧ r.length = edges.length * ts.length ∧
      ∀ (e q : Nat) (a b : Nat) (t : K), edges[e]? = some (a, b) → ts[q]? = some t →
        r[e * ts.length + q]? = some (if dir e then segPoint3 (pt a) (pt b) t else segPoint3 (pt b) (pt a) t) := by
  refine ⟨_, polyhedronEdgePoints_eq ts V edges dirs tangents pt hV dir hd ht, ?_, ?_⟩
  · rw [flatMap_const_length _ _ ts.length (by simp), List.length_zipIdx]
  · intro e q a b t he hq
    have hq' : q < ts.length := (List.getElem?_eq_some_iff.1 hq).1
    rw [flatMap_get _ _ ts.length e q ((a, b), e) (by simp) (by rw [List.getElem?_zipIdx, he]; simp) hq']
    simp only [List.getElem?_map, hq, Option.map_some]
    congr 1

omit [LinearOrder K] in
/-- C67: two cells that share an edge and store it alike have the same points on it, whatever their vertices and the position of the edge. -/
theorem C67_neighbours (ts : List K) (V V' : List (Vec3 K)) (edges edges' : List (Nat × Nat)) (dirs dirs' : List Bool)
    (tangents tangents' : List (Vec3 K)) (pt pt' : Nat → Vec3 K)
    (hV : ∀ e ∈ edges, V[e.1]? = some (pt e.1) ∧ V[e.2]? = some (pt e.2)) (hV' : ∀ e ∈ edges', V'[e.1]? = some (pt' e.1) ∧ V'[e.2]? = some (pt' e.2))
    (dir dir' : Nat → Bool) (hd : dirs = (List.range edges.length).map dir) (hd' : dirs' = (List.range edges'.length).map dir')
    (ht : tangents = edges.map fun e => pt e.2 - pt e.1) (ht' : tangents' = edges'.map fun e => pt' e.2 - pt' e.1)
    (e e' a b a' b' : Nat) (he : edges[e]? = some (a, b)) (he' : edges'[e']? = some (a', b'))
    (hs : (dir e = dir' e' ∧ pt a = pt' a' ∧ pt b = pt' b') ∨ (dir e ≠ dir' e' ∧ pt a = pt' b' ∧ pt b = pt' a')) :
    ∃ r r', polyhedronEdgePoints ts V edges dirs tangents = .ok r ∧ polyhedronEdgePoints ts V' edges' dirs' tangents' = .ok r' ∧
      ∀ q < ts.length, r[e * ts.length + q]? = r'[e' * ts.length + q]? := by
  obtain ⟨r, hr, _, h⟩ := C67_edge_points ts V edges dirs tangents pt hV dir hd ht
  obtain ⟨r', hr', _, h'⟩ := C67_edge_points ts V' edges' dirs' tangents' pt' hV' dir' hd' ht'
  refine ⟨r, r', hr, hr', ?_⟩
  intro q hq
  have hq' : ts[q]? = some ts[q] := List.getElem?_eq_getElem hq
  rw [h e q a b _ he hq', h' e' q a' b' _ he' hq']
  rcases hs with ⟨h1, h2, h3⟩ | ⟨h1, h2, h3⟩
  · rw [h1, h2, h3]
  · rw [h2, h3]
    cases hde : dir e <;> cases hde' : dir' e' <;> simp_all

/-- The hypotheses of C67 are met by two edges of a tetrahedron, the second one stored backwards. -/
example : ∃ r, polyhedronEdgePoints (K := ℚ) [1 / 4, 3 / 4] [(0, 0, 0), (4, 0, 0), (0, 8, 0)] [(0, 1), (1, 2)] [true, false]
    [(4, 0, 0), (-4, 8, 0)] = .ok r ∧ r[2]? = some (1, 6, 0) := by
  obtain ⟨r, hr, _, h⟩ := C67_edge_points (K := ℚ) [1 / 4, 3 / 4] [(0, 0, 0), (4, 0, 0), (0, 8, 0)] [(0, 1), (1, 2)] [true, false]
    [(4, 0, 0), (-4, 8, 0)] (fun i => if i = 0 then (0, 0, 0) else if i = 1 then (4, 0, 0) else (0, 8, 0)) (by simp) (fun e => e = 0)
    (by simp [List.range_succ]) (by simp)
  refine ⟨r, hr, ?_⟩
  have := h 1 0 1 2 (1 / 4) rfl rfl
  norm_num [segPoint3] at this
  exact this

end PolyDiM
