import Verif.Lemmas.PlaneWeak
import Verif.Lemmas.PlaneExample
import Verif.Props.PlaneMesh2D

/-!
# Lemmas: the fluxes through the edges of a mesh
-/

namespace PolyDiM

open Spec MvPolynomial MeasureTheory

/-- Sums over the edges of cells, regrouped by the edges of the mesh. -/
theorem regroup (cells : List Nat) (n : Nat → Nat) (Ed : Nat → Nat → Nat) (σ : Nat → Nat → ℤ) (N : Nat) (hN : ∀ c ∈ cells, ∀ e < n c, Ed c e < N) (G : Nat → ℝ) :
    (cells.map fun c => ∑ e ∈ Finset.range (n c), G (Ed c e) * (σ c e : ℝ)).sum
      = ∑ E ∈ Finset.range N, G E * (((cells.map fun c => ∑ e ∈ Finset.range (n c), if Ed c e = E then σ c e else 0).sum : ℤ) : ℝ) := by
  induction cells with
  | nil => simp
  | cons c cells ih =>
    simp only [List.map_cons, List.sum_cons, Int.cast_add, mul_add, Finset.sum_add_distrib]
    rw [ih fun c' hc' => hN c' (List.mem_cons_of_mem _ hc')]
    congr 1
    simp only [Int.cast_sum, Finset.mul_sum]
    rw [Finset.sum_comm]
    refine Finset.sum_congr rfl fun e he => ?_
    rw [Finset.sum_eq_single_of_mem (Ed c e) (Finset.mem_range.2 (hN c List.mem_cons_self e (Finset.mem_range.1 he)))]
    · rw [if_pos rfl]
    · intro E _ hE
      rw [if_neg (Ne.symm hE), Int.cast_zero, mul_zero]

/-- The rule with the ends and the internal nodes. -/
theorem quadSum_nodes (ts ws : List ℝ) (w : ℝ) (h : ts.length = ws.length) (g : ℝ → ℝ) :
    quadSum (0 :: ts ++ [1]) (w :: ws ++ [w]) g = w * g 0 + w * g 1 + ∑ r ∈ Finset.range ws.length, ws.getD r 0 * g (ts.getD r 0) := by
  have h1 : quadSum (0 :: ts ++ [1]) (w :: ws ++ [w]) g = w * g 0 + (quadSum ts ws g + quadSum [1] [w] g) := by
    rw [← quadSum_append _ _ _ _ _ h]
    simp [quadSum]
  rw [h1, ← sum_quadSum ts ws h.symm (fun r => g (ts.getD r 0)) g (fun i p hp => by rw [List.getD_eq_getElem?_getD, hp]; rfl), h]
  simp [quadSum]
  ring

theorem natDegree_of_lt {P : Polynomial ℝ} {k : Nat} (h : P.degree < ((k + 1 : Nat) : WithBot Nat)) : P.natDegree ≤ k := by
  by_contra hlt
  rw [Polynomial.degree_eq_natDegree (by rintro rfl; simp at hlt)] at h
  have : P.natDegree < k + 1 := by exact_mod_cast h
  omega

section
variable {k : Nat} {mesh : PlaneMesh ℝ} {poly : Nat → VemPolygon ℝ} {n : Nat → Nat} {len : Nat → Nat → ℝ} {dir : Nat → Nat → Bool} {nrm : Nat → Nat → ℝ × ℝ}
  {triangle : Nat → Rule (ℝ × ℝ) ℝ} {edge : Nat → Rule ℝ ℝ} {ts ws : List ℝ} {w : ℝ} {lu llt : Solver ℝ}
  {ref : VemRef2D ℝ} {boundary : Nat → Option BInfo} {info : MeshInfo} {data : DOFsData}

/-- Every function on the nodes has traces. -/
theorem exists_trace (hT : IsTables k triangle edge ts ws w) (hd : (0 :: 1 :: ts).Nodup) (mesh : PlaneMesh ℝ) (χ : GDOF → ℝ) : ∃ u, IsTrace k mesh ts χ u := by
  have hk := hT.low
  have hl : (0 :: 1 :: ts).length = k + 1 := by
    rw [List.length_cons, List.length_cons, hT.nodes]
    omega
  let vals : Nat → Nat → ℝ := fun E j => if j = 0 then χ ⟨0, (mesh.topo.cell1DVertices E).1, 0⟩ else if j = 1 then χ ⟨0, (mesh.topo.cell1DVertices E).2, 0⟩ else χ ⟨1, E, j - 2⟩
  have hinj := nodes_injOn hd
  refine ⟨fun E => Lagrange.interpolate (Finset.range (0 :: 1 :: ts).length) (fun j => (0 :: 1 :: ts).getD j 0) (vals E), fun E _ => ?_⟩
  have hat : ∀ j < k + 1, (Lagrange.interpolate (Finset.range (0 :: 1 :: ts).length) (fun j => (0 :: 1 :: ts).getD j 0) (vals E)).eval ((0 :: 1 :: ts).getD j 0) = vals E j := by
    intro j hj
    exact Lagrange.eval_interpolate_at_node _ hinj (Finset.mem_range.2 (by omega))
  refine ⟨?_, hat 0 (by omega), hat 1 (by omega), fun j t hj => ?_⟩
  · exact natDegree_of_lt (lt_of_lt_of_eq (Lagrange.degree_interpolate_lt (vals E) hinj) (by rw [Finset.card_range, hl]))
  · have hj' : j < ts.length := (List.getElem?_eq_some_iff.1 hj).1
    have h2 := hat (j + 2) (by rw [hT.nodes] at hj'; omega)
    rw [List.getD_cons_succ, List.getD_cons_succ, List.getD_eq_getElem?_getD, hj, Option.getD_some] at h2
    rw [h2]
    simp [vals]

/-- On an edge the nodes integrate the product of a polynomial of degree `k - 1` with a trace. -/
theorem nodeSum_trace (hT : IsTables k triangle edge ts ws w) {χ : GDOF → ℝ} {u : Nat → Polynomial ℝ} (hu : IsTrace k mesh ts χ u) {E : Nat} (hE : E < mesh.num1D)
    {F : MvPolynomial (Fin 2) ℝ} (hF : F.totalDegree ≤ k - 1) :
    nodeSum ts ws w (fun t => eval ![(edgePoint mesh E t).1, (edgePoint mesh E t).2] F) (χ ⟨0, (mesh.topo.cell1DVertices E).1, 0⟩) (χ ⟨0, (mesh.topo.cell1DVertices E).2, 0⟩)
      (fun r => χ ⟨1, E, r⟩) = ∫ t in (0 : ℝ)..1, eval ![(edgePoint mesh E t).1, (edgePoint mesh E t).2] F * (u E).eval t := by
  obtain ⟨h1, h2, h3, h4⟩ := hu E hE
  obtain ⟨q', hq', hqe⟩ := poly1_pullback (mesh.coords (mesh.topo.cell1DVertices E).1) (mesh.coords (mesh.topo.cell1DVertices E).2) F
  have hk := hT.low
  have hex := hT.edgeExact (q' * u E) ((Polynomial.natDegree_mul_le).trans (by omega))
  have hfun : ∀ t, eval ![(edgePoint mesh E t).1, (edgePoint mesh E t).2] F * (u E).eval t = (q' * u E).eval t := by
    intro t
    rw [Polynomial.eval_mul, hqe]
    rfl
  simp only [hfun]
  rw [← hex, quadSum_nodes ts ws w hT.edgeLength, nodeSum, ← h2, ← h3]
  have hw : ∀ r ∈ Finset.range ws.length, ws.getD r 0 * eval ![(edgePoint mesh E (ts.getD r 0)).1, (edgePoint mesh E (ts.getD r 0)).2] F * χ ⟨1, E, r⟩
      = ws.getD r 0 * (q' * u E).eval (ts.getD r 0) := by
    intro r hr
    have hr' : r < ts.length := by rw [hT.edgeLength]; exact Finset.mem_range.1 hr
    rw [← hfun, ← h4 r (ts.getD r 0) (by rw [List.getD_eq_getElem?_getD, List.getElem?_eq_getElem hr']; rfl)]
    ring
  rw [Finset.sum_congr rfl hw]
  rw [← hfun, ← hfun]
  ring

end

end PolyDiM
