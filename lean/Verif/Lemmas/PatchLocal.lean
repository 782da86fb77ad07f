import Verif.Props.AssemblerVem2D

/-!
# Lemmas: the residual of a polynomial on one element
-/

namespace PolyDiM

open Spec MvPolynomial MeasureTheory

theorem sum_range_blocks (n m : Nat) (f : Nat → ℝ) : ∑ x ∈ Finset.range (n * m), f x = ∑ e ∈ Finset.range n, ∑ r ∈ Finset.range m, f (e * m + r) := by
  induction n with
  | zero => simp
  | succ n ih => rw [Nat.succ_mul, Finset.sum_range_add, ih, Finset.sum_range_succ]

/-- The weights of the boundary rule against a function of the index. -/
theorem index_sum (n m : Nat) (c : Nat → ℝ) (w : ℝ) (ws : List ℝ) (hws : ws.length = m) (G : Nat → ℝ) :
    ∑ b ∈ Finset.range (n + n * m), ((List.range n).map (vertexWeight n (fun i => c i * w) (fun i => c i * w) (List.range n))
        ++ (List.range n).flatMap fun i => ws.map (· * c i)).getD b 0 * G b
      = ∑ e ∈ Finset.range n, c e * (w * G e + w * G ((e + 1) % n) + ∑ r ∈ Finset.range m, ws.getD r 0 * G (n + e * m + r)) := by
  rw [Finset.sum_range_add]
  have h1 : ∑ b ∈ Finset.range n, ((List.range n).map (vertexWeight n (fun i => c i * w) (fun i => c i * w) (List.range n))
        ++ (List.range n).flatMap fun i => ws.map (· * c i)).getD b 0 * G b = ∑ e ∈ Finset.range n, (c e * w * G e + c e * w * G ((e + 1) % n)) := by
    have h := vertexWeight_sum (K := ℝ) n (fun i => (G i, 0)) (fun i => c i * w) (fun i => c i * w) Prod.fst
    rw [quadSum_range] at h
    refine Eq.trans (Finset.sum_congr rfl fun b hb => ?_) h
    have hb := Finset.mem_range.1 hb
    rw [List.getD_eq_getElem?_getD, List.getElem?_append_left (by simpa using hb)]
    simp [hb]
  have h2 : ∑ b ∈ Finset.range (n * m), ((List.range n).map (vertexWeight n (fun i => c i * w) (fun i => c i * w) (List.range n))
        ++ (List.range n).flatMap fun i => ws.map (· * c i)).getD (n + b) 0 * G (n + b)
      = ∑ e ∈ Finset.range n, c e * ∑ r ∈ Finset.range m, ws.getD r 0 * G (n + e * m + r) := by
    rw [sum_range_blocks]
    refine Finset.sum_congr rfl fun e he => ?_
    rw [Finset.mul_sum]
    refine Finset.sum_congr rfl fun r hr => ?_
    have he := Finset.mem_range.1 he
    have hr := Finset.mem_range.1 hr
    rw [List.getD_eq_getElem?_getD, List.getElem?_append_right (by simp)]
    simp only [List.length_map, List.length_range, Nat.add_sub_cancel_left]
    rw [flatMap_get _ _ m _ _ e (by simp [hws]) (by rw [List.getElem?_range he]) hr, List.getElem?_map]
    have : ws[r]? = some (ws.getD r 0) := by simp [List.getD_eq_getElem?_getD, hws, hr]
    rw [this]
    simp only [Option.map_some, Option.getD_some]
    rw [Nat.add_assoc]
    ring
  rw [h1, h2, ← Finset.sum_add_distrib]
  exact Finset.sum_congr rfl fun e _ => by ring

section
variable {k n : Nat} {V : Nat → ℝ × ℝ} {len : Nat → ℝ} {dir : Nat → Bool} {nrm : Nat → ℝ × ℝ} {poly : VemPolygon ℝ}
  {triangle : Nat → Rule (ℝ × ℝ) ℝ} {edge : Nat → Rule ℝ ℝ} {ts ws : List ℝ} {w : ℝ} {lu llt : Solver ℝ}

theorem create_boundary {ref : VemRef2D ℝ} {s : VemSpace2D ℝ} (h : vemCreate2D lu llt ref poly = .ok s) :
    lobattoQuad poly.edges ref.ts ref.ws ref.ext = .ok s.boundary := by
  unfold vemCreate2D at h
  obtain ⟨i, -, h⟩ := (bind_ok_iff _ _ _).1 h
  obtain ⟨b, hb, h⟩ := (bind_ok_iff _ _ _).1 h
  obtain ⟨x, -, h⟩ := (bind_ok_iff _ _ _).1 h
  obtain ⟨x, -, h⟩ := (bind_ok_iff _ _ _).1 h
  obtain ⟨x, -, h⟩ := (bind_ok_iff _ _ _).1 h
  obtain ⟨x, -, h⟩ := (bind_ok_iff _ _ _).1 h
  obtain ⟨x, -, h⟩ := (bind_ok_iff _ _ _).1 h
  obtain ⟨x, -, h⟩ := (bind_ok_iff _ _ _).1 h
  cases h
  exact hb

/-- The sum over the nodes of an edge: the ends with the values `a` and `b`, the inner nodes with the values `g`. -/
def nodeSum (ts ws : List ℝ) (w : ℝ) (X : ℝ → ℝ) (a b : ℝ) (g : Nat → ℝ) : ℝ :=
  w * X 0 * a + w * X 1 * b + ∑ r ∈ Finset.range ws.length, ws.getD r 0 * X (ts.getD r 0) * g r

/-- The index of the first vertex of an edge in the direction of the mesh. -/
def startOf (n : Nat) (dir : Bool) (e : Nat) : Nat := if dir then e else (e + 1) % n

/-- The index of the last vertex of an edge in the direction of the mesh. -/
def stopOf (n : Nat) (dir : Bool) (e : Nat) : Nat := if dir then (e + 1) % n else e

/-- The boundary terms, edge by edge. -/
theorem boundary_terms (hE : IsElement poly n V len dir nrm) (hT : IsTables k triangle edge ts ws w) {ref : VemRef2D ℝ} {s : VemSpace2D ℝ}
    (hr : vemRef2D triangle edge k = .ok ref) (hc : vemCreate2D lu llt ref poly = .ok s) (z : MvPolynomial (Fin 2) ℝ) (v : Nat → ℝ) :
    ∑ b ∈ Finset.range (n + n * (k - 1)), s.boundary.nx.getD b 0 * (ev2 z (s.boundary.points.getD b 0) * v b)
      = ∑ e ∈ Finset.range n, (clockwise (V ((e + 1) % n) - V e)).1 * nodeSum ts ws w (fun t => ev2 z (segPoint (polyEdge n V (dir e) e).1 (polyEdge n V (dir e) e).2 t))
          (v (startOf n (dir e) e)) (v (stopOf n (dir e) e)) (fun r => v (n + e * (k - 1) + r)) ∧
    ∑ b ∈ Finset.range (n + n * (k - 1)), s.boundary.ny.getD b 0 * (ev2 z (s.boundary.points.getD b 0) * v b)
      = ∑ e ∈ Finset.range n, (clockwise (V ((e + 1) % n) - V e)).2 * nodeSum ts ws w (fun t => ev2 z (segPoint (polyEdge n V (dir e) e).1 (polyEdge n V (dir e) e).2 t))
          (v (startOf n (dir e) e)) (v (stopOf n (dir e) e)) (fun r => v (n + e * (k - 1) + r)) := by
  rw [vemRef_ok hT] at hr
  cases hr
  have hb := create_boundary hc
  rw [lobattoQuad_eq hE.edges ts ws (w, w) hT.edgeLength] at hb
  have hb := Except.ok.inj hb
  have hws : ws.length = k - 1 := hT.edgeLength.symm.trans hT.nodes
  have pv : ∀ e < n, s.boundary.points.getD e 0 = V e := by
    intro e he
    rw [← hb]
    dsimp only
    rw [List.getD_eq_getElem?_getD, List.getElem?_append_left (by simpa using he)]
    simp [he]
  have pn : ∀ e < n, ∀ r < k - 1, s.boundary.points.getD (n + e * (k - 1) + r) 0 = segPoint (polyEdge n V (dir e) e).1 (polyEdge n V (dir e) e).2 (ts.getD r 0) := by
    intro e he r hr
    rw [← hb]
    dsimp only
    rw [List.getD_eq_getElem?_getD, List.getElem?_append_right (by simp; omega)]
    simp only [List.length_map, List.length_range]
    rw [show n + e * (k - 1) + r - n = e * (k - 1) + r by omega,
      flatMap_get _ _ (k - 1) _ _ e (by simp [hT.nodes, edgePts]) (by rw [List.getElem?_range he]) hr]
    simp [edgePts, List.getD_eq_getElem?_getD, hT.nodes, hr]
  have common : ∀ c : Nat → ℝ, ∑ e ∈ Finset.range n, c e * (w * (ev2 z (s.boundary.points.getD e 0) * v e)
        + w * (ev2 z (s.boundary.points.getD ((e + 1) % n) 0) * v ((e + 1) % n))
        + ∑ r ∈ Finset.range (k - 1), ws.getD r 0 * (ev2 z (s.boundary.points.getD (n + e * (k - 1) + r) 0) * v (n + e * (k - 1) + r)))
      = ∑ e ∈ Finset.range n, c e * nodeSum ts ws w (fun t => ev2 z (segPoint (polyEdge n V (dir e) e).1 (polyEdge n V (dir e) e).2 t))
          (v (startOf n (dir e) e)) (v (stopOf n (dir e) e)) (fun r => v (n + e * (k - 1) + r)) := by
    intro c
    refine Finset.sum_congr rfl fun e he => ?_
    have he := Finset.mem_range.1 he
    have hn : (e + 1) % n < n := Nat.mod_lt _ (by omega)
    have hP : ∀ P Q : ℝ × ℝ, segPoint P Q 0 = P ∧ segPoint P Q 1 = Q := by
      intro P Q
      constructor <;> simp [segPoint]
    rw [pv e he, pv _ hn, nodeSum, hws, (hP _ _).1, (hP _ _).2]
    congr 1
    congr 1
    · unfold polyEdge startOf stopOf
      split_ifs
      · ring
      · ring
    · exact Finset.sum_congr rfl fun r hr => by rw [pn e he r (Finset.mem_range.1 hr)]; ring
  constructor
  · have h := index_sum n (k - 1) (fun i => (nrm i).1 * |len i|) w ws hws (fun b => ev2 z (s.boundary.points.getD b 0) * v b)
    rw [common] at h
    have hx : s.boundary.nx = _ := (congrArg EdgesRule.nx hb).symm
    rw [hx]
    refine h.trans (Finset.sum_congr rfl fun e he => ?_)
    rw [(normal_parts hE (Finset.mem_range.1 he)).1]
    rfl
  · have h := index_sum n (k - 1) (fun i => (nrm i).2 * |len i|) w ws hws (fun b => ev2 z (s.boundary.points.getD b 0) * v b)
    rw [common] at h
    have hx : s.boundary.ny = _ := (congrArg EdgesRule.ny hb).symm
    rw [hx]
    refine h.trans (Finset.sum_congr rfl fun e he => ?_)
    rw [(normal_parts hE (Finset.mem_range.1 he)).2]
    rfl

/-- The projected derivative of any vector against a polynomial. -/
theorem discrete_derivative {s : VemSpace2D ℝ} {d : Fin 2} {E Y : DMat ℝ} {wn : List ℝ} (hk : 1 ≤ k) (hs : SpaceOk k n V len dir ts ws w poly s)
    (hh : poly.diameter ≠ 0)
    (hd : DerOk k s.boundary.points.length poly.centroid poly.diameter poly.measure s.internal s.boundary.points wn d E Y)
    (v : Nat → ℝ) (z : MvPolynomial (Fin 2) ℝ) (hz : z.totalDegree ≤ k - 1) :
    quadLin s.internal.points s.internal.weights (z * combo k poly.centroid poly.diameter (tri k) (apply Y v))
      = ∑ b ∈ Finset.range s.boundary.points.length, wn.getD b 0 * (ev2 z (s.boundary.points.getD b 0) * v b)
        - quadLin s.internal.points s.internal.weights (pderiv d z * combo k poly.centroid poly.diameter (tri k) (apply s.pi0km1 v)) := by
  have hkk : k - 1 + 1 = k := by omega
  obtain ⟨x, hx⟩ := basisPoly_span k poly.centroid poly.diameter hh (show k - 1 ≤ k by omega) z hz
  rw [hkk] at hx
  have hx' : z = combo k poly.centroid poly.diameter (tri k) x := hx
  set P0 := combo k poly.centroid poly.diameter (tri k) (apply s.pi0km1 v) with hP0
  have hP0' : P0 = combo k poly.centroid poly.diameter (tri k) fun j => ∑ b ∈ Finset.range (s.boundary.points.length + tri (k - 1)), s.pi0km1.ent j b * v b := by
    rw [hP0, apply_eq hs.l2.yCols]
  rw [apply_eq hd.yCols]
  set PY := combo k poly.centroid poly.diameter (tri k) (fun j => ∑ b ∈ Finset.range (s.boundary.points.length + tri (k - 1)), Y.ent j b * v b) with hPY
  have hbase : ∀ i < tri k, quadLin s.internal.points s.internal.weights (basisPoly k poly.centroid poly.diameter i * PY)
      = ∑ b ∈ Finset.range s.boundary.points.length, wn.getD b 0 * (ev2 (basisPoly k poly.centroid poly.diameter i) (s.boundary.points.getD b 0) * v b)
        - quadLin s.internal.points s.internal.weights (pderiv d (basisPoly k poly.centroid poly.diameter i) * P0) := by
    intro i hi
    rw [hPY, hd.yEq v i hi, sum_split]
    have e1 : ∑ b ∈ Finset.range s.boundary.points.length, E.ent i b * v b
        = ∑ b ∈ Finset.range s.boundary.points.length, wn.getD b 0 * (ev2 (basisPoly k poly.centroid poly.diameter i) (s.boundary.points.getD b 0) * v b) := by
      refine Finset.sum_congr rfl fun b hb => ?_
      have hb' := List.getElem?_eq_getElem (Finset.mem_range.1 hb)
      have hg : s.boundary.points.getD b 0 = s.boundary.points[b]'(Finset.mem_range.1 hb) := by rw [List.getD_eq_getElem?_getD, hb', Option.getD_some]
      rw [hd.bnd i hi b _ hb', hg]
      ring
    have hi' : i < tri (k - 1 + 1) := by rwa [hkk]
    have hi'' : i < (compute mono2 k).num := by
      rw [num2_eq]
      have := tri_le (show k ≤ k + 1 by omega)
      omega
    have e2 : ∑ l ∈ Finset.range (tri (k - 1)), E.ent i (s.boundary.points.length + l) * v (s.boundary.points.length + l)
        = -quadLin s.internal.points s.internal.weights (pderiv d (basisPoly k poly.centroid poly.diameter i) * P0) := by
      rw [basisPoly_pderiv k _ _ hi'' hi' (by omega) d, Finset.sum_mul]
      simp only [mul_assoc]
      rw [lin_combo, ← Finset.sum_neg_distrib]
      refine Finset.sum_congr rfl fun l hl => ?_
      have hl := Finset.mem_range.1 hl
      rw [hd.int i hi l hl, hP0', hs.l2.yEq v l (lt_of_lt_of_le hl (tri_le (by omega))), rhsL2, if_pos hl]
      ring
    rw [e1, e2]
    ring
  have hlin : ∀ Q : MvPolynomial (Fin 2) ℝ, quadLin s.internal.points s.internal.weights (z * Q)
      = ∑ i ∈ Finset.range (tri k), x i * quadLin s.internal.points s.internal.weights (basisPoly k poly.centroid poly.diameter i * Q) := by
    intro Q
    rw [hx', combo, Finset.sum_mul]
    simp only [mul_assoc]
    rw [lin_combo]
  have hlin' : quadLin s.internal.points s.internal.weights (pderiv d z * P0)
      = ∑ i ∈ Finset.range (tri k), x i * quadLin s.internal.points s.internal.weights (pderiv d (basisPoly k poly.centroid poly.diameter i) * P0) := by
    rw [hx', combo, map_sum, Finset.sum_mul]
    have : ∀ i, pderiv d (C (x i) * basisPoly k poly.centroid poly.diameter i) * P0 = C (x i) * (pderiv d (basisPoly k poly.centroid poly.diameter i) * P0) := by
      intro i
      rw [Derivation.leibniz, pderiv_C]
      simp only [smul_eq_mul, mul_zero, add_zero]
      ring
    simp only [this]
    rw [lin_combo]
  have hev : ∀ p, ev2 z p = ∑ i ∈ Finset.range (tri k), x i * ev2 (basisPoly k poly.centroid poly.diameter i) p := by
    intro p
    rw [hx', combo]
    simp only [ev2, map_sum, map_mul, eval_C]
  rw [hlin, hlin', Finset.sum_congr rfl fun i hi => by rw [hbase i (Finset.mem_range.1 hi)]]
  simp only [hev, mul_sub, Finset.sum_sub_distrib, Finset.mul_sum, Finset.sum_mul]
  rw [Finset.sum_comm]
  congr 1
  exact Finset.sum_congr rfl fun b _ => Finset.sum_congr rfl fun i _ => by ring

/-- The source term tested with any vector. -/
theorem source_form (hE : IsElement poly n V len dir nrm) (hT : IsTables k triangle edge ts ws w) (hlu : SolvesRegular lu) (hllt : SolvesPosDef llt)
    (f : ℝ × ℝ → ℝ) :
    ∃ ref s b, vemRef2D triangle edge k = .ok ref ∧ vemCreate2D lu llt ref poly = .ok s ∧
      localSource (vemSpace2D ref poly s) (vemSpace2D ref poly s) f = .ok b ∧ b.rows = n + n * (k - 1) + k * (k - 1) / 2 ∧ b.cols = 1 ∧
      ∀ v : Nat → ℝ, ∑ i ∈ Finset.range (n + n * (k - 1) + k * (k - 1) / 2), v i * b.ent i 0
        = quadSum s.internal.points s.internal.weights fun p => f p * polyOf (k - 1) poly.centroid poly.diameter (apply s.pi0km1 v) p := by
  obtain ⟨ref, s, hr, hc, hs, hQ, S, SD, hD, hval⟩ := vem_tabulated hE hT hlu hllt
  obtain ⟨b, hb, hbr, hbc, he⟩ := C84_source hD f
  refine ⟨ref, s, b, hr, hc, hb, hbr, hbc, fun v => ?_⟩
  simp only [he, Finset.mul_sum]
  rw [Finset.sum_comm]
  refine Eq.trans ?_ (sum_quadSum s.internal.points s.internal.weights hs.rules.wlen (fun q => f (s.internal.points.getD q 0) *
    ∑ j ∈ Finset.range (n + n * (k - 1) + k * (k - 1) / 2), v j * S q j) _ ?_)
  · refine Finset.sum_congr rfl fun i _ => ?_
    rw [Finset.mul_sum, Finset.mul_sum]
    exact Finset.sum_congr rfl fun j _ => by ring
  · intro i p hp
    have hi : i < s.internal.points.length := (List.getElem?_eq_some_iff.1 hp).1
    have e : s.internal.points.getD i 0 = p := by simp [List.getD_eq_getElem?_getD, hp]
    rw [(hval v i hi).1, e]

/-- The residual of a polynomial on one element: only the boundary terms of the flux remain. -/
theorem local_residual (hE : IsElement poly n V len dir nrm) (hT : IsTables k triangle edge ts ws w) (hlu : SolvesRegular lu) (hllt : SolvesPosDef llt)
    (hpos : 0 < poly.measure) (κ : Nat → ℝ) {q F₁ F₂ : MvPolynomial (Fin 2) ℝ} (hq : q.totalDegree ≤ k)
    (hF₁ : F₁ = C (κ 0) * pderiv 0 q + C (κ 3) * pderiv 1 q) (hF₂ : F₂ = C (κ 1) * pderiv 0 q + C (κ 4) * pderiv 1 q) :
    ∃ ref s A b, vemRef2D triangle edge k = .ok ref ∧ vemCreate2D lu llt ref poly = .ok s ∧
      localElliptic (vemSpace2D ref poly s) (vemSpace2D ref poly s) (some fun _ => κ) none none = .ok A ∧
      localSource (vemSpace2D ref poly s) (vemSpace2D ref poly s) (fun p => -(eval ![p.1, p.2] (pderiv 0 F₁) + eval ![p.1, p.2] (pderiv 1 F₂))) = .ok b ∧
      A.rows = n + n * (k - 1) + k * (k - 1) / 2 ∧ A.cols = n + n * (k - 1) + k * (k - 1) / 2 ∧ b.rows = n + n * (k - 1) + k * (k - 1) / 2 ∧ b.cols = 1 ∧
      ∀ y, IsDofVector k poly n V dir ts (fun p => eval ![p.1, p.2] q) y → ∀ v : Nat → ℝ,
        ∑ i ∈ Finset.range (n + n * (k - 1) + k * (k - 1) / 2), v i * (apply A y i - b.ent i 0)
          = ∑ e ∈ Finset.range n, ((clockwise (V ((e + 1) % n) - V e)).1 *
                nodeSum ts ws w (fun t => eval ![(segPoint (polyEdge n V (dir e) e).1 (polyEdge n V (dir e) e).2 t).1, (segPoint (polyEdge n V (dir e) e).1 (polyEdge n V (dir e) e).2 t).2] F₁)
                  (v (startOf n (dir e) e)) (v (stopOf n (dir e) e)) (fun r => v (n + e * (k - 1) + r))
              + (clockwise (V ((e + 1) % n) - V e)).2 *
                nodeSum ts ws w (fun t => eval ![(segPoint (polyEdge n V (dir e) e).1 (polyEdge n V (dir e) e).2 t).1, (segPoint (polyEdge n V (dir e) e).1 (polyEdge n V (dir e) e).2 t).2] F₂)
                  (v (startOf n (dir e) e)) (v (stopOf n (dir e) e)) (fun r => v (n + e * (k - 1) + r))) := by
  obtain ⟨ref, s, A, S, K, hr, hc, hs, hA, hAr, hAc, hS, hK, hSr, hSc, he⟩ := vem_energy hE hT hlu hllt hpos fun _ => κ
  obtain ⟨r3, s3, hr3, hc3, -, -, -, -, hexact⟩ := C71_derivatives hE hT hlu hllt
  obtain ⟨r4, s4, b, hr4, hc4, hb, hbr, hbc, hbe⟩ := source_form hE hT hlu hllt fun p => -(eval ![p.1, p.2] (pderiv 0 F₁) + eval ![p.1, p.2] (pderiv 1 F₂))
  obtain rfl : r3 = ref := Except.ok.inj (hr3.symm.trans hr)
  obtain rfl : s3 = s := Except.ok.inj (hc3.symm.trans hc)
  obtain rfl : r4 = r3 := Except.ok.inj (hr4.symm.trans hr)
  obtain rfl : s4 = s3 := Except.ok.inj (hc4.symm.trans hc)
  have hk := hT.low
  have hkk : k - 1 + 1 = k := by omega
  refine ⟨r4, s4, A, b, hr, hc, hA, hb, hAr, hAc, hbr, hbc, ?_⟩
  intro y hy v
  have hd : ∀ d, (pderiv d q).totalDegree ≤ k - 1 := fun d => (totalDegree_pderiv d q).trans (by omega)
  have hCd : ∀ (a b : ℝ) (x y : MvPolynomial (Fin 2) ℝ), x.totalDegree ≤ k - 1 → y.totalDegree ≤ k - 1 → (C a * x + C b * y).totalDegree ≤ k - 1 := by
    intro a b x y hx hy
    refine (totalDegree_add _ _).trans (max_le ?_ ?_)
    · exact (totalDegree_mul _ _).trans (by rw [totalDegree_C]; omega)
    · exact (totalDegree_mul _ _).trans (by rw [totalDegree_C]; omega)
  have hF₁d : F₁.totalDegree ≤ k - 1 := hF₁ ▸ hCd _ _ _ _ (hd 0) (hd 1)
  have hF₂d : F₂.totalDegree ≤ k - 1 := hF₂ ▸ hCd _ _ _ _ (hd 0) (hd 1)
  have hnull := stab_null hE hT hlu hllt hpos hr hc hS hq hy v
  set PX := combo k poly.centroid poly.diameter (tri k) (apply s4.derX v) with hPX
  set PY := combo k poly.centroid poly.diameter (tri k) (apply s4.derY v) with hPY
  set P0 := combo k poly.centroid poly.diameter (tri k) (apply s4.pi0km1 v) with hP0
  have hX : ∀ p, ev2 PX p = polyOf (k - 1) poly.centroid poly.diameter (apply s4.derX v) p := fun p => by
    rw [← ev2_combo k _ _ (show k - 1 ≤ k by omega), hkk]
  have hY : ∀ p, ev2 PY p = polyOf (k - 1) poly.centroid poly.diameter (apply s4.derY v) p := fun p => by
    rw [← ev2_combo k _ _ (show k - 1 ≤ k by omega), hkk]
  have h0 : ∀ p, ev2 P0 p = polyOf (k - 1) poly.centroid poly.diameter (apply s4.pi0km1 v) p := fun p => by
    rw [← ev2_combo k _ _ (show k - 1 ≤ k by omega), hkk]
  have hEn := he v y
  rw [hnull, mul_zero, add_zero, hAr] at hEn
  have hquad : quadSum s4.internal.points s4.internal.weights (fun p =>
            κ 0 * (polyOf (k - 1) poly.centroid poly.diameter (apply s4.derX v) p * polyOf (k - 1) poly.centroid poly.diameter (apply s4.derX y) p)
            + κ 3 * (polyOf (k - 1) poly.centroid poly.diameter (apply s4.derX v) p * polyOf (k - 1) poly.centroid poly.diameter (apply s4.derY y) p)
            + κ 1 * (polyOf (k - 1) poly.centroid poly.diameter (apply s4.derY v) p * polyOf (k - 1) poly.centroid poly.diameter (apply s4.derX y) p)
            + κ 4 * (polyOf (k - 1) poly.centroid poly.diameter (apply s4.derY v) p * polyOf (k - 1) poly.centroid poly.diameter (apply s4.derY y) p))
      = quadLin s4.internal.points s4.internal.weights (F₁ * PX) + quadLin s4.internal.points s4.internal.weights (F₂ * PY) := by
    rw [← map_add]
    show _ = quadSum _ _ (ev2 _)
    congr 1
    funext p
    rw [(hexact q hq y hy p).1, (hexact q hq y hy p).2, ← hX, ← hY, hF₁, hF₂]
    simp only [ev2, map_add, map_mul, eval_C]
    ring
  have hsrc : quadSum s4.internal.points s4.internal.weights (fun p => -(eval ![p.1, p.2] (pderiv 0 F₁) + eval ![p.1, p.2] (pderiv 1 F₂)) *
        polyOf (k - 1) poly.centroid poly.diameter (apply s4.pi0km1 v) p)
      = -(quadLin s4.internal.points s4.internal.weights (pderiv 0 F₁ * P0) + quadLin s4.internal.points s4.internal.weights (pderiv 1 F₂ * P0)) := by
    rw [← map_add, ← map_neg]
    show _ = quadSum _ _ (ev2 _)
    congr 1
    funext p
    rw [← h0]
    simp only [ev2, map_add, map_mul, map_neg]
    ring
  obtain ⟨EX, hDX⟩ := hs.derX
  obtain ⟨EY, hDY⟩ := hs.derY
  have d1 := discrete_derivative hk hs hE.diameter hDX v F₁ hF₁d
  have d2 := discrete_derivative hk hs hE.diameter hDY v F₂ hF₂d
  obtain ⟨t1, -⟩ := boundary_terms hE hT hr hc F₁ v
  obtain ⟨-, t2⟩ := boundary_terms hE hT hr hc F₂ v
  rw [← hs.length, t1] at d1
  rw [← hs.length, t2] at d2
  simp only [mul_sub, Finset.sum_sub_distrib]
  rw [hEn, hquad, hbe v, hsrc, d1, d2, Finset.sum_add_distrib]
  simp only [ev2]
  ring

end

end PolyDiM
