import Verif.Lemmas.VemAlg
import Verif.Spec.VemElement

/-!
# Lemmas: the whole VEM local space
-/

namespace PolyDiM

open Spec MvPolynomial MeasureTheory

theorem ev2_combo (k : Nat) (c : ℝ × ℝ) (h : ℝ) {a : Nat} (ha : a ≤ k) (x : Nat → ℝ) (p : ℝ × ℝ) :
    ev2 (combo k c h (tri (a + 1)) x) p = polyOf a c h x p := by
  have hd : ∀ d ≤ k, ∀ b < d + 1, ev2 (C (x (tri d + b)) * basisPoly k c h (tri d + b)) p = x (position (d - b) b) * scaledMonomial c h (d - b) b p := by
    intro d hd b hb
    have hr : tri d + b = rank2 [d - b, b] := by
      rw [rank2_eq, show d - b + b = d by omega]
    have hp : position (d - b) b = tri d + b := by
      rw [position, show d - b + b = d by omega, tri_div']
    rw [hp, hr, basisPoly_rank k c h (show d - b + b ≤ k by omega)]
    simp [ev2, monoPoly, scaledMonomial, ex, div_eq_inv_mul]
  unfold polyOf combo
  induction a with
  | zero =>
    have := hd 0 (by omega) 0 (by omega)
    simp only [show tri 0 = 0 from rfl, Nat.zero_add] at this
    simpa [show tri 1 = 1 from rfl] using this
  | succ a ih =>
    rw [Finset.sum_range_succ _ (a + 1), ← ih (by omega), tri_succ, Finset.sum_range_add]
    simp only [ev2, map_add, map_sum]
    congr 1
    rw [show a + 1 + 1 = (a + 1) + 1 from rfl]
    exact Finset.sum_congr rfl fun b hb => hd (a + 1) (by omega) b (Finset.mem_range.1 hb)

/-- The bridge between the position of a monomial and the polynomial. -/
theorem position_lt {k a b : Nat} : position a b < tri (k + 1) ↔ a + b ≤ k := by
  rw [position, tri_div', ← rank2_eq]
  exact rank2_lt_iff

theorem ev2_basis_position (k : Nat) (c : ℝ × ℝ) (h : ℝ) {a b : Nat} (hab : a + b ≤ k) (p : ℝ × ℝ) :
    ev2 (basisPoly k c h (position a b)) p = scaledMonomial c h a b p := by
  rw [position, tri_div', ← rank2_eq, basisPoly_rank k c h hab]
  simp [ev2, monoPoly, scaledMonomial, ex, div_eq_inv_mul]

/-- Every position is the position of a monomial. -/
theorem exists_position {m l : Nat} (hl : l < tri (m + 1)) : ∃ a b, a + b ≤ m ∧ position a b = l := by
  obtain ⟨a, b, _, hab, hr⟩ := exps2_get m (num2_eq m ▸ hl)
  refine ⟨a, b, hab, ?_⟩
  rw [position, tri_div', ← rank2_eq, hr]

section
variable {k n : Nat} {V : Nat → ℝ × ℝ} {len : Nat → ℝ} {dir : Nat → Bool} {nrm : Nat → ℝ × ℝ} {poly : VemPolygon ℝ}
  {triangle : Nat → Rule (ℝ × ℝ) ℝ} {edge : Nat → Rule ℝ ℝ} {ts ws : List ℝ} {w : ℝ} {lu llt : Solver ℝ}

/-- The rules of an element. -/
structure RulesOk (k n : Nat) (V : Nat → ℝ × ℝ) (len : Nat → ℝ) (dir : Nat → Bool) (ts ws : List ℝ) (w : ℝ) (tris : List (Tri2 ℝ)) (internal : Rule (ℝ × ℝ) ℝ) (bnd : EdgesRule ℝ) : Prop where
  wlen : internal.weights.length = internal.points.length
  integral : ∀ q : MvPolynomial (Fin 2) ℝ, q.totalDegree ≤ 2 * k → quadLin internal.points internal.weights q = ∫ p in unionOf tris, ev2 q p
  pieces : ∀ q : MvPolynomial (Fin 2) ℝ, q.totalDegree ≤ 2 * k → quadLin internal.points internal.weights q
    = (tris.map fun v => |shoelace v.1 v.2.1 v.2.2| * ∫ p in {p : ℝ × ℝ | InTriangle (0, 0) (1, 0) (0, 1) p}, ev2 q (v.1 + tri2L v p)).sum
  points : bnd.points = (List.range n).map V ++ ((List.range n).flatMap fun e => ts.map fun t => segPoint (polyEdge n V (dir e) e).1 (polyEdge n V (dir e) e).2 t)
  blen : bnd.weights.length = bnd.points.length
  xlen : bnd.nx.length = bnd.points.length
  ylen : bnd.ny.length = bnd.points.length
  boundary : ∀ q : MvPolynomial (Fin 2) ℝ, q.totalDegree ≤ 2 * k - 1 → quadLin bnd.points bnd.weights q = ∑ e ∈ Finset.range n, |len e| * segInt (ev2 q) (V e) (V ((e + 1) % n))
  nx : ∀ q : MvPolynomial (Fin 2) ℝ, q.totalDegree ≤ 2 * k - 1 → quadLin bnd.points bnd.nx q
    = ∑ e ∈ Finset.range n, (V ((e + 1) % n) - V e).2 * segInt (ev2 q) (V e) (V ((e + 1) % n))
  ny : ∀ q : MvPolynomial (Fin 2) ℝ, q.totalDegree ≤ 2 * k - 1 → quadLin bnd.points bnd.ny q
    = ∑ e ∈ Finset.range n, -(V ((e + 1) % n) - V e).1 * segInt (ev2 q) (V e) (V ((e + 1) % n))
  anyW : ∀ f : ℝ × ℝ → ℝ, quadSum bnd.points bnd.weights f = ∑ e ∈ Finset.range n, |len e| *
    quadSum (0 :: ts ++ [1]) (w :: ws ++ [w]) fun t => f (segPoint (polyEdge n V (dir e) e).1 (polyEdge n V (dir e) e).2 t)
  anyX : ∀ f : ℝ × ℝ → ℝ, quadSum bnd.points bnd.nx f = ∑ e ∈ Finset.range n, (V ((e + 1) % n) - V e).2 *
    quadSum (0 :: ts ++ [1]) (w :: ws ++ [w]) fun t => f (segPoint (polyEdge n V (dir e) e).1 (polyEdge n V (dir e) e).2 t)
  anyY : ∀ f : ℝ × ℝ → ℝ, quadSum bnd.points bnd.ny f = ∑ e ∈ Finset.range n, -(V ((e + 1) % n) - V e).1 *
    quadSum (0 :: ts ++ [1]) (w :: ws ++ [w]) fun t => f (segPoint (polyEdge n V (dir e) e).1 (polyEdge n V (dir e) e).2 t)

theorem normal_parts (hE : IsElement poly n V len dir nrm) {e : Nat} (he : e < n) :
    (nrm e).1 * |len e| = (V ((e + 1) % n) - V e).2 ∧ (nrm e).2 * |len e| = -(V ((e + 1) % n) - V e).1 := by
  have := hE.normals e he
  have h1 := congrArg Prod.fst this
  have h2 := congrArg Prod.snd this
  simp only [Prod.smul_fst, Prod.smul_snd, smul_eq_mul, clockwise] at h1 h2
  exact ⟨by linarith, by linarith⟩

theorem rules_ok (hE : IsElement poly n V len dir nrm) (hT : IsTables k triangle edge ts ws w) :
    ∃ internal bnd, polygonQuad (triangle (2 * k)) poly.tris = .ok internal ∧ lobattoQuad poly.edges ts ws (w, w) = .ok bnd ∧
      RulesOk k n V len dir ts ws w poly.tris internal bnd := by
  obtain ⟨r, hr, _, hrl, hrs⟩ := C47_sum (triangle (2 * k)) hT.triangleLength poly.tris
  obtain ⟨r', hr', hri⟩ := C68_polygon (2 * k) (triangle (2 * k)) hT.triangleLength hT.triangleExact poly.tris hE.tris.disjoint
  obtain ⟨b, hb, hbp, hb1, hb2, hb3, _⟩ := C48_sum hE.edges ts ws (w, w) hT.edgeLength
  obtain ⟨b', hb', hbi⟩ := C68_boundary (2 * k - 1) hE.edges ts ws w hT.edgeLength hT.edgeExact
  obtain ⟨b'', hb'', hw, hx, hy⟩ := C48_rule hE.edges ts ws w hT.edgeLength
  obtain rfl : b'' = b := by rw [hb] at hb''; exact (Except.ok.inj hb'').symm
  obtain rfl : r' = r := by rw [hr] at hr'; exact (Except.ok.inj hr').symm
  obtain rfl : b' = b'' := by rw [hb] at hb'; exact (Except.ok.inj hb').symm
  refine ⟨r', b', hr, hb, hrl, hri, ?_, hbp, hb1, hb2, hb3, fun q hq => (hbi q hq).1, ?_, ?_, hw, ?_, ?_⟩
  · intro q hq
    refine (hrs _).trans ?_
    congr 1
    apply List.map_congr_left
    intro v _
    obtain ⟨q', hq', hpull⟩ := poly2_pullback v q
    congr 1
    have e : ∀ p, ev2 q' p = ev2 q (v.1 + tri2L v p) := hpull
    simp only [← e]
    rw [← hT.triangleExact q' (hq'.trans hq)]
    congr 1
    funext p
    have : bary3 v.1 v.2.1 v.2.2 (1 - p.1 - p.2) p.1 p.2 = v.1 + tri2L v p := by
      simp only [tri2L, bary3, LinearMap.coe_mk, AddHom.coe_mk]
      module
    rw [this]
    exact (e p).symm
  · intro q hq
    refine ((hbi q hq).2.1).trans (Finset.sum_congr rfl fun e he => ?_)
    rw [(normal_parts hE (Finset.mem_range.1 he)).1]
    rfl
  · intro q hq
    refine ((hbi q hq).2.2).trans (Finset.sum_congr rfl fun e he => ?_)
    rw [(normal_parts hE (Finset.mem_range.1 he)).2]
    rfl
  · intro f
    refine (hx f).trans (Finset.sum_congr rfl fun e he => ?_)
    rw [(normal_parts hE (Finset.mem_range.1 he)).1]
  · intro f
    refine (hy f).trans (Finset.sum_congr rfl fun e he => ?_)
    rw [(normal_parts hE (Finset.mem_range.1 he)).2]

theorem sum_pos_of {α : Type} (l : List α) (f : α → ℝ) (h0 : ∀ a ∈ l, 0 ≤ f a) {a : α} (ha : a ∈ l) (hp : 0 < f a) : 0 < (l.map f).sum := by
  induction l with
  | nil => simp at ha
  | cons b l ih =>
    rw [List.map_cons, List.sum_cons]
    have hl : 0 ≤ (l.map f).sum := List.sum_nonneg (by
      intro x hx
      obtain ⟨y, hy, rfl⟩ := List.mem_map.1 hx
      exact h0 y (List.mem_cons_of_mem _ hy))
    rcases List.mem_cons.1 ha with rfl | ha
    · linarith
    · have := ih (fun a ha => h0 a (List.mem_cons_of_mem _ ha)) ha
      linarith [h0 b List.mem_cons_self]

theorem sum_zero_all {α : Type} (l : List α) (f : α → ℝ) (h0 : ∀ a ∈ l, 0 ≤ f a) (hs : (l.map f).sum = 0) : ∀ a ∈ l, f a = 0 := by
  intro a ha
  by_contra hne
  have := sum_pos_of l f h0 ha (lt_of_le_of_ne (h0 a ha) (Ne.symm hne))
  linarith

theorem perimeter_pos (hE : IsElement poly n V len dir nrm) : ∑ e ∈ Finset.range n, |len e| ≠ 0 := by
  intro h0
  have hz : ∀ e < n, V ((e + 1) % n) = V e := by
    intro e he
    have := (Finset.sum_eq_zero_iff_of_nonneg (fun e _ => abs_nonneg (len e))).1 h0 e (Finset.mem_range.2 he)
    obtain ⟨h1, h2⟩ := normal_parts hE he
    rw [this, mul_zero] at h1 h2
    simp only [Prod.fst_sub, Prod.snd_sub] at h1 h2
    refine Prod.ext ?_ ?_ <;> linarith
  have hb := hE.tris.boundary (fun P Q => P.1 * Q.2 - Q.1 * P.2) (fun P Q => by ring)
  obtain ⟨v, hv, hp⟩ := hE.tris.pos
  have := sum_pos_of poly.tris (fun v => shoelace v.1 v.2.1 v.2.2) hE.tris.ccw hv hp
  have e : (poly.tris.map fun v : Tri2 ℝ => v.1.1 * v.2.1.2 - v.2.1.1 * v.1.2 + (v.2.1.1 * v.2.2.2 - v.2.2.1 * v.2.1.2) + (v.2.2.1 * v.1.2 - v.1.1 * v.2.2.2))
      = poly.tris.map fun v => shoelace v.1 v.2.1 v.2.2 := List.map_congr_left fun v _ => by
    unfold shoelace
    ring
  rw [e, Finset.sum_eq_zero] at hb
  · linarith
  · intro e he
    rw [hz e (Finset.mem_range.1 he)]
    ring

theorem discrete_ok (hE : IsElement poly n V len dir nrm) (hk : 1 ≤ k) {internal : Rule (ℝ × ℝ) ℝ} {bnd : EdgesRule ℝ}
    (hR : RulesOk k n V len dir ts ws w poly.tris internal bnd) : Discrete k internal bnd := by
  have hdeg : ∀ q : MvPolynomial (Fin 2) ℝ, q.totalDegree ≤ k → (q * q).totalDegree ≤ 2 * k := fun q hq => (totalDegree_mul _ _).trans (by omega)
  have hnn : ∀ (q : MvPolynomial (Fin 2) ℝ) (v : Tri2 ℝ), 0 ≤ |shoelace v.1 v.2.1 v.2.2| *
      ∫ p in {p : ℝ × ℝ | InTriangle (0, 0) (1, 0) (0, 1) p}, ev2 (q * q) (v.1 + tri2L v p) := by
    intro q v
    refine mul_nonneg (abs_nonneg _) (integral_nonneg fun p => ?_)
    simp only [ev2, map_mul]
    exact mul_self_nonneg _
  have hgd : ∀ (d : Fin 2) (q : MvPolynomial (Fin 2) ℝ), q.totalDegree ≤ 2 * k - 1 → (pderiv d q).totalDegree ≤ 2 * k := by
    intro d q hq
    refine Finset.sup_le fun s hs => ?_
    obtain ⟨s', hs', hle⟩ : ∃ s' ∈ q.support, (s.sum fun _ a => a) ≤ (s'.sum fun _ a => a) := by
      refine ⟨s + Finsupp.single d 1, ?_, ?_⟩
      · rw [mem_support_iff] at hs ⊢
        intro h0
        apply hs
        rw [coeff_pderiv, h0, zero_mul]
      · rw [Finsupp.sum_add_index' (fun _ => rfl) (fun _ _ _ => rfl)]
        omega
    have := le_totalDegree hs'
    omega
  constructor
  · exact hR.wlen
  · exact hR.blen
  · exact hR.xlen
  · exact hR.ylen
  · intro q hq
    rw [hR.nx q hq, hR.pieces _ (hgd 0 q hq), (gauss_polygon hE.tris q).1]
  · intro q hq
    rw [hR.ny q hq, hR.pieces _ (hgd 1 q hq), (gauss_polygon hE.tris q).2]
  · intro q hq
    rw [hR.pieces _ (hdeg q hq)]
    refine List.sum_nonneg fun x hx => ?_
    obtain ⟨v, _, rfl⟩ := List.mem_map.1 hx
    exact hnn q v
  · intro q hq h0
    rw [hR.pieces _ (hdeg q hq)] at h0
    obtain ⟨v, hv, hp⟩ := hE.tris.pos
    have := sum_zero_all _ _ (fun v _ => hnn q v) h0 v hv
    refine zero_of_tri_square v hp.ne' q (Eq.trans ?_ ((mul_eq_zero.1 this).resolve_left (abs_ne_zero.2 hp.ne')))
    congr 1
    funext p
    simp [ev2]
  · rw [hR.boundary 1 (by simp)]
    have e : ∀ P Q : ℝ × ℝ, segInt (ev2 1) P Q = 1 := by
      intro P Q
      simp [segInt, ev2]
    simp only [e, mul_one]
    exact perimeter_pos hE

theorem vemRef_ok (hT : IsTables k triangle edge ts ws w) :
    vemRef2D triangle edge k = .ok ⟨k, k - 1, tri (k - 1), compute mono2 k, triangle (2 * k), ts, ws, (w, w)⟩ := by
  have h1 := hT.low
  have h2 := hT.high
  have hs : pccEdgeRule edge k = .ok (ts, ws, (w, w)) := by
    unfold pccEdgeRule
    rw [show u32 (2 * k + 4294967295) = 2 * k - 1 by unfold u32; omega, hT.edgeRule]
    refine lobattoSplit_ok k ts ws w hT.edgeLength fun hk => ?_
    have hts : ts = [] := List.length_eq_zero_iff.1 (by rw [hT.nodes, hk])
    have hws : ws = [] := List.length_eq_zero_iff.1 (by rw [← hT.edgeLength, hts]; rfl)
    refine ⟨hts, ?_⟩
    have := hT.edgeExact 1 (by simp)
    rw [hts, hws] at this
    simp [quadSum] at this
    linarith
  unfold vemRef2D
  rw [hs, except_ok_bind]
  have e1 : u32 (k + 4294967295) = k - 1 := by unfold u32; omega
  have e2 : u32 (k * (k - 1)) = k * (k - 1) := by
    unfold u32
    refine Nat.mod_eq_of_lt ?_
    calc k * (k - 1) ≤ 65536 * 65535 := Nat.mul_le_mul h2 (by omega)
      _ < 4294967296 := by norm_num
  have e3 : u32 (2 * k) = 2 * k := by unfold u32; omega
  have e4 : k * (k - 1) / 2 = tri (k - 1) := by
    rw [← tri_div', show k - 1 + 1 = k by omega, mul_comm]
  rw [e1, e2, e3, e4]

/-- Everything about the local space of an element. -/
structure SpaceOk (k n : Nat) (V : Nat → ℝ × ℝ) (len : Nat → ℝ) (dir : Nat → Bool) (ts ws : List ℝ) (w : ℝ) (poly : VemPolygon ℝ) (s : VemSpace2D ℝ) : Prop where
  init : InitOk k n poly.centroid poly.diameter s.internal s.boundary.points s.init
  rules : RulesOk k n V len dir ts ws w poly.tris s.internal s.boundary
  discrete : Discrete k s.internal s.boundary
  length : n + n * (k - 1) = s.boundary.points.length
  nabla : NablaOk k poly.centroid poly.diameter poly.measure s.internal s.boundary s.G s.B
  solves : Solves s.G s.B s.piNabla
  l2 : L2Ok k s.boundary.points.length poly.centroid poly.diameter poly.measure s.internal s.piNabla s.pi0km1 s.pi0k
  derX : ∃ E, DerOk k s.boundary.points.length poly.centroid poly.diameter poly.measure s.internal s.boundary.points s.boundary.nx 0 E s.derX
  derY : ∃ E, DerOk k s.boundary.points.length poly.centroid poly.diameter poly.measure s.internal s.boundary.points s.boundary.ny 1 E s.derY
  dofs : DofsOk k s.boundary.points.length poly.centroid poly.diameter poly.measure s.internal s.boundary.points s.D
  cRows : s.C.rows = tri (k + 1)
  cCols : s.C.cols = s.boundary.points.length + tri (k - 1)
  cEq : ∀ v : Nat → ℝ, ∀ i < tri (k + 1), ∑ b ∈ Finset.range (s.boundary.points.length + tri (k - 1)), s.C.ent i b * v b
    = rhsL2 k s.boundary.points.length poly.centroid poly.diameter poly.measure s.internal s.piNabla v i
  eX : DerOk k s.boundary.points.length poly.centroid poly.diameter poly.measure s.internal s.boundary.points s.boundary.nx 0 s.eX s.derX
  eY : DerOk k s.boundary.points.length poly.centroid poly.diameter poly.measure s.internal s.boundary.points s.boundary.ny 1 s.eY s.derY

theorem vemCreate_ok (hE : IsElement poly n V len dir nrm) (hT : IsTables k triangle edge ts ws w) (hlu : SolvesRegular lu) (hllt : SolvesPosDef llt) :
    ∃ ref s, vemRef2D triangle edge k = .ok ref ∧ vemCreate2D lu llt ref poly = .ok s ∧ SpaceOk k n V len dir ts ws w poly s := by
  have hk := hT.low
  have hh := hE.diameter
  obtain ⟨internal, bnd, hi, hb, hR⟩ := rules_ok hE hT
  have hD := discrete_ok hE hk hR
  have hlen : bnd.points.length = n + n * (k - 1) := by
    rw [hR.points, List.length_append, List.length_map, List.length_range, flatMap_const_length _ _ ts.length (by simp), List.length_range, hT.nodes]
  have hlen' : n + (k - 1) * n = bnd.points.length := by rw [hlen, mul_comm]
  obtain ⟨s, hs, hI⟩ := vemInit2D_ok (⟨k, k - 1, tri (k - 1), compute mono2 k, triangle (2 * k), ts, ws, (w, w)⟩ : VemRef2D ℝ) poly k n rfl rfl rfl rfl
    (by rw [hE.edges.vertices, List.length_map, List.length_range]) internal hR.wlen bnd.points
  obtain ⟨G, B, hGB, hN⟩ := vemPiNabla_ok (m := poly.measure) lu (⟨k, k - 1, tri (k - 1), compute mono2 k, triangle (2 * k), ts, ws, (w, w)⟩ : VemRef2D ℝ) rfl rfl hI hD hk hlen'
  have hS : Solves G B (lu G B) := hlu G B (hN.gRows.trans hN.gCols.symm) (hN.bRows.trans hN.gRows.symm) (by
    rw [hN.gRows, hN.gCols]
    exact fun x hx => nabla_injective hD hk hh hN x hx)
  obtain ⟨C, Y, Z, hL, hLok, hC1, hC2, hC3⟩ := vemL2_ok (m := poly.measure) hI hD hk hh hlen' hllt (lu G B) (hS.1.trans hN.gCols) (hS.2.1.trans hN.bCols)
  obtain ⟨EX, X, hX, hXok⟩ := vemDer_ok (m := poly.measure) hI hD hk hh hlen' hllt bnd.nx hD.xlen 0
  obtain ⟨EY, X', hY, hYok⟩ := vemDer_ok (m := poly.measure) hI hD hk hh hlen' hllt bnd.ny hD.ylen 1
  obtain ⟨D, hDo, hDok⟩ := vemDofs_ok (m := poly.measure) hI hk hlen'
  refine ⟨_, ⟨s, internal, bnd, G, B, lu G B, C, Y, Z, X, X', D, EX, EY⟩, vemRef_ok hT, ?_, hI, hR, hD, hlen.symm, hN, hS, hLok, ⟨EX, hXok⟩, ⟨EY, hYok⟩, hDok, hC1, hC2, hC3, hXok, hYok⟩
  unfold vemCreate2D
  dsimp only
  simp only [Fin.val_zero, Fin.val_one] at hX hY
  rw [hi, except_ok_bind, hb, except_ok_bind, hs, except_ok_bind, hGB, except_ok_bind, hL, except_ok_bind, hX, except_ok_bind, hY, except_ok_bind, hDo, except_ok_bind]

end

end PolyDiM
