import Verif.Model.ElasticPost
import Verif.Lemmas.ElasticCell

/-!
# Lemmas: the errors of the elasticity example on one cell
-/

namespace PolyDiM

open Spec MvPolynomial Finset

theorem addSquares_ok (Q : Nat) (a u : Nat → ℝ) : addSquares (vecOf Q a) (vecOf Q u) = .ok (vecOf Q fun q => a q + u q * u q) := by
  rw [addSquares, if_pos (by simp [vecOf])]
  simp [vecOf, List.zipWith_map, List.zipWith_self]

theorem minusList_ok (Q : Nat) (a u : Nat → ℝ) : minusList (vecOf Q a) (vecOf Q u) = .ok (vecOf Q fun q => a q - u q) := by
  rw [minusList, if_pos (by simp [vecOf])]
  simp [vecOf, List.zipWith_map, List.zipWith_self]

theorem dotWeights_ok (Q : Nat) (a u : Nat → ℝ) : dotWeights (vecOf Q a) (vecOf Q u) = .ok (∑ q ∈ range Q, a q * u q) := by
  rw [dotWeights, if_pos (by simp [vecOf]), ← list_sum_range]
  simp [vecOf, List.zipWith_map, List.zipWith_self]

variable {space : CellSpace2D ℝ} {Q n : Nat} {x : Nat → ℝ × ℝ} {w : Nat → ℝ} {val : Nat → Nat → ℝ} {der : Nat → Nat → Nat → ℝ}

/-- The values of component `d1` and of its derivatives at the points. -/
def tableSum (n : Nat) (f : Nat → Nat → ℝ) (y : Nat → ℝ) (d q : Nat) : ℝ := ∑ i ∈ range n, y (d * n + i) * f q i

theorem wide_mul {d : Nat} (hd : d < 2) (f : Nat → Nat → ℝ) {dofs : List ℝ} (hl : dofs.length = 2 * n) :
    ∃ u, DMat.mul ⟨Q, 2 * n, wide Q n d f⟩ (.col dofs) = .ok u ∧ u.toList = vecOf Q (tableSum n f (fun i => dofs.getD i 0) d) := by
  refine ⟨_, DMat.mul_ok _ _ hl.symm, ?_⟩
  unfold DMat.toList vecOf
  refine List.map_congr_left fun q hq => ?_
  dsimp only [DMat.col]
  rw [tableSum, ← wide_sum hd (List.mem_range.1 hq) f fun i => dofs.getD i 0]
  exact sum_congr rfl fun i _ => mul_comm _ _

theorem elasticSquares_ok {dofs : List ℝ} (hl : dofs.length = 2 * n) (f : Nat → List ℝ → Except Fault (List ℝ)) (g : Nat → Nat → List ℝ → Except Fault (List ℝ))
    (F : Nat → Nat → ℝ) (G : Nat → Nat → Nat → ℝ) (hf : ∀ d < 2, f d (vecOf Q (tableSum n val (fun i => dofs.getD i 0) d)) = .ok (vecOf Q (F d)))
    (hg : ∀ d < 2, ∀ e < 2, g d e (vecOf Q (tableSum n (der e) (fun i => dofs.getD i 0) d)) = .ok (vecOf Q (G d e))) :
    elasticSquares ((List.range 2).map fun d => ⟨Q, 2 * n, wide Q n d val⟩)
      [⟨Q, 2 * n, wide Q n 0 (der 0)⟩, ⟨Q, 2 * n, wide Q n 0 (der 1)⟩, ⟨Q, 2 * n, wide Q n 1 (der 0)⟩, ⟨Q, 2 * n, wide Q n 1 (der 1)⟩] dofs (List.replicate Q 0) f g
      = .ok (vecOf Q fun q => ∑ d ∈ range 2, F d q ^ 2, vecOf Q fun q => ∑ d ∈ range 2, ∑ e ∈ range 2, G d e q ^ 2) := by
  have hz : List.replicate Q (0 : ℝ) = vecOf Q fun _ => 0 := by simp [vecOf]
  obtain ⟨u0, h0, e0⟩ := wide_mul (Q := Q) (d := 0) (by norm_num) val hl
  obtain ⟨u1, h1, e1⟩ := wide_mul (Q := Q) (d := 1) (by norm_num) val hl
  obtain ⟨u00, h00, e00⟩ := wide_mul (Q := Q) (d := 0) (by norm_num) (der 0) hl
  obtain ⟨u01, h01, e01⟩ := wide_mul (Q := Q) (d := 0) (by norm_num) (der 1) hl
  obtain ⟨u10, h10, e10⟩ := wide_mul (Q := Q) (d := 1) (by norm_num) (der 0) hl
  obtain ⟨u11, h11, e11⟩ := wide_mul (Q := Q) (d := 1) (by norm_num) (der 1) hl
  have r2 : List.range 2 = [0, 1] := rfl
  have hp : ∀ {α : Type} (a : α), (pure a : Except Fault α) = .ok a := fun _ => rfl
  unfold elasticSquares
  rw [hz]
  simp only [r2, hp, List.map_cons, List.map_nil, List.foldlM_cons, List.foldlM_nil, unchecked, List.getElem?_cons_zero, List.getElem?_cons_succ, except_ok_bind, mul_zero, mul_one, zero_add, add_zero,
    h0, h1, h00, h01, h10, h11, e0, e1, e00, e01, e10, e11, hf 0 (by norm_num), hf 1 (by norm_num), hg 0 (by norm_num) 0 (by norm_num), hg 0 (by norm_num) 1 (by norm_num),
    hg 1 (by norm_num) 0 (by norm_num), hg 1 (by norm_num) 1 (by norm_num), addSquares_ok, sum_range_succ, sum_range_zero, pow_two, add_assoc]

theorem elasticErrors_ok (hv : space.valuesInt .pi0k = .ok ⟨Q, n, val⟩) (hd : space.dersInt .pi0km1Der = .ok [⟨Q, n, der 0⟩, ⟨Q, n, der 1⟩])
    (hx : space.internal.points = vecOf Q x) (hw : space.internal.weights = vecOf Q w) (exact : Option (ElasticExact ℝ)) {dofs : List ℝ} (hl : dofs.length = 2 * n) :
    elasticErrors space exact dofs = .ok
      ⟨exact.map fun e => ∑ q ∈ range Q, w q * ∑ d ∈ range 2, (tableSum n val (fun i => dofs.getD i 0) d q - e.value (x q) d) ^ 2,
       ∑ q ∈ range Q, w q * ∑ d ∈ range 2, tableSum n val (fun i => dofs.getD i 0) d q ^ 2,
       exact.map fun e => ∑ q ∈ range Q, w q * ∑ d ∈ range 2, ∑ h ∈ range 2, (tableSum n (der h) (fun i => dofs.getD i 0) d q - e.derivative (x q) (3 * d + h)) ^ 2,
       ∑ q ∈ range Q, w q * ∑ d ∈ range 2, ∑ h ∈ range 2, tableSum n (der h) (fun i => dofs.getD i 0) d q ^ 2⟩ := by
  have hlen : (vecOf Q x).length = Q := by simp [vecOf]
  have hm : ∀ f : ℝ × ℝ → ℝ, (vecOf Q x).map f = vecOf Q fun q => f (x q) := fun f => by simp [vecOf, Function.comp_def]
  unfold elasticErrors
  rw [elasticValues_ok hv, except_ok_bind, elasticDers_ok hd, except_ok_bind, hx, hw, hlen]
  dsimp only
  rw [elasticSquares_ok hl _ _ _ _ (fun _ _ => rfl) (fun _ _ _ _ => rfl), except_ok_bind, dotWeights_ok, except_ok_bind, dotWeights_ok, except_ok_bind]
  cases exact with
  | none => rfl
  | some e =>
    dsimp only
    simp only [hm]
    rw [elasticSquares_ok hl _ _ (fun d q => tableSum n val (fun i => dofs.getD i 0) d q - e.value (x q) d)
      (fun d h q => tableSum n (der h) (fun i => dofs.getD i 0) d q - e.derivative (x q) (3 * d + h)) (fun _ _ => minusList_ok _ _ _) (fun _ _ _ _ => minusList_ok _ _ _), except_ok_bind, dotWeights_ok, except_ok_bind, dotWeights_ok, except_ok_bind]
    rfl

section element

variable {k n : Nat} {V : Nat → ℝ × ℝ} {len : Nat → ℝ} {dir : Nat → Bool} {nrm : Nat → ℝ × ℝ} {triangle : Nat → Rule (ℝ × ℝ) ℝ} {edge : Nat → Rule ℝ ℝ} {ts ws : List ℝ} {w : ℝ}
  {poly : VemPolygon ℝ} {lu llt : Solver ℝ}

/-- The errors on one cell of the VEM space: quadratures of the squared differences of the projections and the exact functions. -/
theorem errors_vem (hE : IsElement poly n V len dir nrm) (hT : IsTables k triangle edge ts ws w) (hlu : SolvesRegular lu) (hllt : SolvesPosDef llt) (hpos : 0 < poly.measure) :
    ∃ ref s, vemRef2D triangle edge k = .ok ref ∧ vemCreate2D lu llt ref poly = .ok s ∧ ∀ (exact : Option (ElasticExact ℝ)) (dofs : List ℝ),
      dofs.length = 2 * (n + n * (k - 1) + k * (k - 1) / 2) → elasticErrors (vemCell2D ref poly s) exact dofs = .ok
      ⟨exact.map fun e => quadSum s.internal.points s.internal.weights fun p => ∑ d ∈ range 2,
          (polyOf k poly.centroid poly.diameter (apply s.pi0k (compOf (n + n * (k - 1) + k * (k - 1) / 2) (fun i => dofs.getD i 0) d)) p - e.value p d) ^ 2,
       quadSum s.internal.points s.internal.weights fun p => ∑ d ∈ range 2,
          polyOf k poly.centroid poly.diameter (apply s.pi0k (compOf (n + n * (k - 1) + k * (k - 1) / 2) (fun i => dofs.getD i 0) d)) p ^ 2,
       exact.map fun e => quadSum s.internal.points s.internal.weights fun p => ∑ d ∈ range 2, ∑ h ∈ range 2,
          (projGrad k poly s (compOf (n + n * (k - 1) + k * (k - 1) / 2) fun i => dofs.getD i 0) p d h - e.derivative p (3 * d + h)) ^ 2,
       quadSum s.internal.points s.internal.weights fun p => ∑ d ∈ range 2, ∑ h ∈ range 2,
          projGrad k poly s (compOf (n + n * (k - 1) + k * (k - 1) / 2) fun i => dofs.getD i 0) p d h ^ 2⟩ := by
  obtain ⟨ref, s, Φ, X, Y, S, L, hr, hc, hs, hne, hcell, -, -, -, htab, -⟩ := vem_tables hE hT hlu hllt hpos
  obtain ⟨r1, s1, hr1, hc1, hv⟩ := C74_values hE hT hlu hllt
  obtain ⟨r3, s3, hr3, hc3, hi, -⟩ := C74_internal hE hT hlu hllt
  obtain rfl : r1 = ref := Except.ok.inj (hr1.symm.trans hr)
  obtain rfl : s1 = s := Except.ok.inj (hc1.symm.trans hc)
  obtain rfl : r3 = r1 := Except.ok.inj (hr3.symm.trans hr)
  obtain rfl : s3 = s1 := Except.ok.inj (hc3.symm.trans hc)
  obtain ⟨⟨P, hP, hPr, hPc, hPe⟩, -⟩ := hv s3.internal.points
  refine ⟨r3, s3, hr, hc, fun exact dofs hl => ?_⟩
  set N := n + n * (k - 1) + k * (k - 1) / 2 with hN
  have hEt := cell_entries hcell
  obtain ⟨-, -, -, hXc, -, hYc, -, -⟩ := hcell.sizes
  have hval : (vemCell2D r3 poly s3).valuesInt .pi0k = .ok ⟨s3.internal.points.length, N, P.ent⟩ := by
    rw [← dmat_eta hPr hPc]
    exact (hi .pi0k (by decide)).trans hP
  have hget : ∀ q < s3.internal.points.length, s3.internal.points[q]? = some (rulePoint s3.internal q) := fun q hq => by
    simp [rulePoint, List.getD_eq_getElem?_getD, hq]
  have hap : ∀ (B : DMat ℝ) (v : Nat → ℝ) (q : Nat), B.cols = N → ∑ i ∈ range N, v i * B.ent q i = apply B v q := fun B v q hB => by
    rw [apply_eq hB]
    exact sum_congr rfl fun i _ => mul_comm _ _
  have hpt : ∀ q p, s3.internal.points[q]? = some p → rulePoint (vemEllipticCell r3 poly s3).internal q = p := fun q p hp =>
    Option.some.inj ((hget q (List.getElem?_eq_some_iff.1 hp).1).symm.trans hp)
  have hV : ∀ (y : Nat → ℝ) (d q : Nat) (p : ℝ × ℝ), s3.internal.points[q]? = some p →
      tableSum N P.ent y d q = polyOf k poly.centroid poly.diameter (apply s3.pi0k (compOf N y d)) p := fun y d q p hp =>
    (hap P (compOf N y d) q hPc).trans (hPe _ q p hp)
  have hD : ∀ (y : Nat → ℝ) (d h q : Nat) (p : ℝ × ℝ), s3.internal.points[q]? = some p →
      tableSum N (if h = 0 then X.ent else Y.ent) y d q = projGrad k poly s3 (compOf N y) p d h := fun y d h q p hp => by
    rw [projGrad]
    split_ifs
    · exact (hap X (compOf N y d) q hXc).trans (htab _ q p hp).2.1
    · exact (hap Y (compOf N y d) q hYc).trans (htab _ q p hp).2.2
  rw [elasticErrors_ok (der := fun d => if d = 0 then X.ent else Y.ent) hval hEt.derivatives hEt.points hEt.weights exact hl]
  congr 2
  · congr 1
    funext e
    exact sum_quadSum _ _ hs.rules.wlen _ _ fun q p hp => by simp only [hV _ _ q p hp, hpt q p hp]
  · exact sum_quadSum _ _ hs.rules.wlen _ _ fun q p hp => by simp only [hV _ _ q p hp]
  · congr 1
    funext e
    exact sum_quadSum _ _ hs.rules.wlen _ _ fun q p hp => by simp only [hD _ _ _ q p hp, hpt q p hp]
  · exact sum_quadSum _ _ hs.rules.wlen _ _ fun q p hp => by simp only [hD _ _ _ q p hp]

end element

end PolyDiM
