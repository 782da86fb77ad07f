import Verif.Lemmas.ZfemShape
import Verif.Lemmas.PatchLocal
import Verif.Lemmas.MixedUnique
import Verif.Lemmas.RTMap
import Verif.Props.QuadratureExact
import Verif.Props.Elliptic

/-!
# Lemmas: the functions of a ZFEM element and their energy
-/

namespace PolyDiM

open Spec MvPolynomial MeasureTheory

/-! ## The quadrature over a fan of triangles -/

theorem fan_sum {data R : Rule (ℝ × ℝ) ℝ} (h : data.points.length = data.weights.length) {n : Nat} {c : ℝ × ℝ} {V : Nat → ℝ × ℝ}
    (hR : polygonQuad data (fanTris n c V) = .ok R) (G : Nat → ℝ) (g : Nat → ℝ × ℝ → ℝ)
    (hG : ∀ t < n, ∀ a z, data.points[a]? = some z → G (t * data.points.length + a) = g t (tri2F (c, V t, V ((t + 1) % n)) z)) :
    ∑ q ∈ Finset.range (n * data.points.length), R.weights.getD q 0 * G q =
      ∑ t ∈ Finset.range n, |tri2Det (c, V t, V ((t + 1) % n))| * quadSum data.points data.weights fun z => g t (tri2F (c, V t, V ((t + 1) % n)) z) := by
  rw [polygonQuad_eq data _ h] at hR
  injection hR with hR
  subst hR
  rw [sum_range_blocks]
  refine Finset.sum_congr rfl fun t ht => ?_
  have ht' := Finset.mem_range.1 ht
  rw [← sum_quadSum data.points data.weights h.symm (fun a => G (t * data.points.length + a)) _ (hG t ht'), Finset.mul_sum]
  refine Finset.sum_congr rfl fun a ha => ?_
  have ha' := Finset.mem_range.1 ha
  have hw := flatMap_get (fanTris n c V) (fun v => data.weights.map (· * |tri2Det v|)) data.points.length t a (c, V t, V ((t + 1) % n)) (by simp [h])
    (by simp [fanTris, ht']) ha'
  dsimp only
  rw [List.getD_eq_getElem?_getD, hw, List.getElem?_map, List.getD_eq_getElem?_getD, List.getElem?_eq_getElem (by omega)]
  simp only [Option.map_some, Option.getD_some]
  ring

theorem fan_points {data R : Rule (ℝ × ℝ) ℝ} (h : data.points.length = data.weights.length) {n : Nat} {c : ℝ × ℝ} {V : Nat → ℝ × ℝ}
    (hR : polygonQuad data (fanTris n c V) = .ok R) : R.points.length = n * data.points.length ∧ R.weights.length = n * data.points.length ∧
      ∀ t < n, ∀ a z, data.points[a]? = some z → R.points[t * data.points.length + a]? = some (tri2F (c, V t, V ((t + 1) % n)) z) := by
  rw [polygonQuad_eq data _ h] at hR
  injection hR with hR
  subst hR
  have hl : (fanTris n c V).length = n := by simp [fanTris]
  refine ⟨?_, ?_, fun t ht a z hz => ?_⟩
  · dsimp only
    rw [flatMap_const_length _ _ data.points.length (by simp), hl]
  · dsimp only
    rw [flatMap_const_length _ _ data.points.length (by simp [h]), hl]
  · have ha := (List.getElem?_eq_some_iff.1 hz).1
    rw [flatMap_get (fanTris n c V) _ data.points.length t a (c, V t, V ((t + 1) % n)) (by simp) (by simp [fanTris, ht]) ha, List.getElem?_map, hz]
    rfl

theorem tri_integral {d : Nat} {points : List (ℝ × ℝ)} {weights : List ℝ} (he : ExactOnTriangle d points weights) (v : Tri2 ℝ) (q : MvPolynomial (Fin 2) ℝ)
    (hq : q.totalDegree ≤ d) :
    |tri2Det v| * quadSum points weights (fun z => ev2 q (tri2F v z)) = ∫ p in {p : ℝ × ℝ | InTriangle v.1 v.2.1 v.2.2 p}, ev2 q p := by
  obtain ⟨q', hq', hpull⟩ := poly2_pullback v q
  rw [triangle_image, affine_integral volume v.1 (tri2L v) _ refTriangle_compact.measurableSet, tri2L_det, tri2Det_eq]
  congr 1
  have h1 : (fun z => ev2 q (tri2F v z)) = fun z => ev2 q' z := by
    funext z
    rw [tri2F_tri2L]
    exact (hpull z).symm
  have h2 : (fun z => ev2 q (v.1 + tri2L v z)) = fun z => ev2 q' z := by
    funext z
    exact (hpull z).symm
  rw [h1, h2]
  exact he q' (hq'.trans hq)

theorem fan_tri2F {poly : ZfemPolygon ℝ} {c : ℝ × ℝ} {V : Nat → ℝ × ℝ} (hF : IsFan poly c V) {t : Nat} (ht : t < poly.num) {m : TriMap ℝ} (hm : poly.maps[t]? = some m) :
    (∀ z, triF m z = tri2F (c, V t, V ((t + 1) % poly.num)) z) ∧ tri2Det (c, V t, V ((t + 1) % poly.num)) ≠ 0 := by
  obtain ⟨h0, h1, h2⟩ := hF.vertices t ht m hm
  obtain ⟨i1, i2, i3, i4⟩ := hF.inverse m (List.mem_of_getElem? hm)
  unfold triVertex at h0 h1 h2
  simp only [refVertex] at h0 h1 h2
  norm_num at h0 h1 h2
  constructor
  · intro z
    unfold triF tri2F
    rw [← h0, ← h1, ← h2]
    ext <;> simp <;> ring
  · unfold tri2Det
    rw [← h0, ← h1, ← h2]
    intro h
    have e : m.b00 * m.b11 - m.b01 * m.b10 = 0 := by
      rw [← h]
      ring
    have : (m.i00 * m.b00 + m.i01 * m.b10) * (m.i10 * m.b01 + m.i11 * m.b11) - (m.i00 * m.b01 + m.i01 * m.b11) * (m.i10 * m.b00 + m.i11 * m.b10)
        = (m.i00 * m.i11 - m.i01 * m.i10) * (m.b00 * m.b11 - m.b01 * m.b10) := by ring
    rw [i1, i2, i3, i4, e] at this
    norm_num at this

/-! ## The function with given DOFs on a triangle -/

/-- The function with the DOFs `x` on triangle `t`. -/
noncomputable def piece (k n : Nat) (num : FanNode → Nat) (nb : Nat) (W : Nat → Nat → ℝ) (φ : Nat → Nat → MvPolynomial (Fin 2) ℝ) (x : Nat → ℝ) (t : Nat) :
    MvPolynomial (Fin 2) ℝ :=
  ∑ p ∈ Finset.range ((k + 1) * (k + 2) / 2), C (extend nb W x (num (fanNode n (k - 1) t p))) * φ t p

variable {k : Nat} {ref : ZfemRef ℝ} {poly : ZfemPolygon ℝ} {c : ℝ × ℝ} {V : Nat → ℝ × ℝ} {s : ZfemSpace ℝ} {num : FanNode → Nat}
  {φ : Nat → Nat → MvPolynomial (Fin 2) ℝ}

theorem piece_degree (sp : Space k ref poly c V s num φ) (x : Nat → ℝ) {t : Nat} (ht : t < poly.num) :
    (piece k poly.num num s.counts.basis s.weights.ent φ x t).totalDegree ≤ k := by
  refine totalDegree_finsetSum_le fun p hp => ?_
  refine (totalDegree_mul _ _).trans ?_
  rw [totalDegree_C, zero_add]
  exact sp.sh.degree t ht p (Finset.mem_range.1 hp)

theorem piece_combined (d : MvPolynomial (Fin 2) ℝ →ₗ[ℝ] MvPolynomial (Fin 2) ℝ) {nb : Nat} {W : Nat → Nat → ℝ} {B : DMat ℝ} {r t : Nat} {P : ℝ × ℝ}
    (h : Combined k poly num nb W (fun t p => d (φ t p)) B r t P) (x : Nat → ℝ) :
    ∑ i ∈ Finset.range nb, x i * B.ent r i = ev2 (d (piece k poly.num num nb W φ x t)) P := by
  rw [h x]
  unfold piece ev2
  rw [map_sum, map_sum]
  refine Finset.sum_congr rfl fun p _ => ?_
  rw [C_mul', map_smul, smul_eval]

theorem piece_node (sp : Space k ref poly c V s num φ) (x : Nat → ℝ) {t p : Nat} (ht : t < poly.num) (hp : p < (k + 1) * (k + 2) / 2) :
    ev2 (piece k poly.num num s.counts.basis s.weights.ent φ x t)
      (fanPoint poly.num k c V (fun v => poly.dirs.getD v true) (innerType ref.fem k) (fanNode poly.num (k - 1) t p))
      = extend s.counts.basis s.weights.ent x (num (fanNode poly.num (k - 1) t p)) := by
  unfold piece ev2
  rw [map_sum]
  have h : ∀ r ∈ Finset.range ((k + 1) * (k + 2) / 2), eval ![(fanPoint poly.num k c V (fun v => poly.dirs.getD v true) (innerType ref.fem k) (fanNode poly.num (k - 1) t p)).1,
      (fanPoint poly.num k c V (fun v => poly.dirs.getD v true) (innerType ref.fem k) (fanNode poly.num (k - 1) t p)).2]
      (C (extend s.counts.basis s.weights.ent x (num (fanNode poly.num (k - 1) t r))) * φ t r)
      = if r = p then extend s.counts.basis s.weights.ent x (num (fanNode poly.num (k - 1) t r)) else 0 := by
    intro r hr
    have hn := sp.sh.nodal t ht r (Finset.mem_range.1 hr) p hp
    unfold ev2 at hn
    rw [map_mul, hn, eval_C]
    split_ifs <;> simp
  rw [Finset.sum_congr rfl h, Finset.sum_ite_eq' _ p, if_pos (Finset.mem_range.2 hp)]

/-- A function that is constant on every triangle has equal DOFs. -/
theorem piece_const (hk : 1 ≤ k) (sp : Space k ref poly c V s num φ) (hn : 1 ≤ poly.num)
    (hsum : (zfemCounts ref poly.num).basis + (zfemCounts ref poly.num).virt = (zfemCounts ref poly.num).total) (x : Nat → ℝ)
    (h : ∀ t < poly.num, ∃ a, piece k poly.num num s.counts.basis s.weights.ent φ x t = C a) :
    ∀ i < s.counts.basis, x i = extend s.counts.basis s.weights.ent x (num .centre) := by
  intro i hi
  have hC := two_mul_half k hk
  obtain ⟨y, hy, hyi⟩ := sp.el.map.bij.surjOn (show i < (zfemCounts ref poly.num).total by rw [← hsum, ← sp.counts]; omega)
  obtain ⟨t, ht, p, hp', rfl⟩ := fanNode_surj hn hy
  have hp : p < (k + 1) * (k + 2) / 2 := by omega
  obtain ⟨a, ha⟩ := h t ht
  have h1 := piece_node sp x ht hp
  have h2 := piece_node sp x ht (p := 0) (by omega)
  rw [ha] at h1 h2
  have h0 : fanNode poly.num (k - 1) t 0 = .centre := by simp [fanNode]
  rw [h0] at h2
  rw [hyi] at h1
  have e1 : extend s.counts.basis s.weights.ent x i = x i := by
    unfold extend
    rw [if_pos hi]
  rw [e1] at h1
  rw [← h1, ← h2]
  simp [ev2]

end PolyDiM
