import Verif.Lemmas.ZfemFan
import Verif.Lemmas.Gauss
import Verif.Lemmas.VemMono
import Mathlib.LinearAlgebra.Matrix.NonsingularInverse

/-! Helper lemmas: the basis functions of a mapped triangle are polynomials and reproduce polynomials. -/

namespace PolyDiM

open Spec MvPolynomial

/-- An affine function as polynomial. -/
noncomputable def affPoly (a b c : ℝ) : MvPolynomial (Fin 2) ℝ := C a + C b * X 0 + C c * X 1

theorem ev2_affPoly (a b c : ℝ) (p : ℝ × ℝ) : ev2 (affPoly a b c) p = a + b * p.1 + c * p.2 := by simp [ev2, affPoly]

theorem affPoly_degree (a b c : ℝ) : (affPoly a b c).totalDegree ≤ 1 := by
  unfold affPoly
  refine (totalDegree_add _ _).trans (max_le ((totalDegree_add _ _).trans (max_le ?_ ?_)) ?_)
  · rw [totalDegree_C]; omega
  · exact (totalDegree_mul _ _).trans (by rw [totalDegree_C, totalDegree_X])
  · exact (totalDegree_mul _ _).trans (by rw [totalDegree_C, totalDegree_X])

theorem prod_degree (l : List (MvPolynomial (Fin 2) ℝ)) (h : ∀ q ∈ l, q.totalDegree ≤ 1) : l.prod.totalDegree ≤ l.length := by
  induction l with
  | nil => simp
  | cons a l ih =>
    rw [List.prod_cons, List.length_cons]
    have h1 := ih fun q hq => h q (by simp [hq])
    have h2 := h a (by simp)
    have := totalDegree_mul a l.prod
    omega

theorem ev2_prod (l : List (MvPolynomial (Fin 2) ℝ)) (p : ℝ × ℝ) : ev2 l.prod p = (l.map fun q => ev2 q p).prod := by
  unfold ev2
  rw [map_list_prod]

theorem ev2_pderiv0 (q : MvPolynomial (Fin 2) ℝ) (x y : ℝ) : HasDerivAt (fun s => ev2 q (s, y)) (ev2 (pderiv 0 q) (x, y)) x := by
  have h1 := ev2_hasFDerivAt q (x, y)
  have h2 : HasDerivAt (fun s : ℝ => (s, y)) ((1 : ℝ), (0 : ℝ)) x := (hasDerivAt_id x).prodMk (hasDerivAt_const x y)
  have h3 := h1.comp_hasDerivAt x h2
  refine HasDerivAt.congr_deriv (f' := _) h3 ?_
  simp

theorem ev2_pderiv1 (q : MvPolynomial (Fin 2) ℝ) (x y : ℝ) : HasDerivAt (fun s => ev2 q (x, s)) (ev2 (pderiv 1 q) (x, y)) y := by
  have h1 := ev2_hasFDerivAt q (x, y)
  have h2 : HasDerivAt (fun s : ℝ => (x, s)) ((0 : ℝ), (1 : ℝ)) y := (hasDerivAt_const y x).prodMk (hasDerivAt_id y)
  have h3 := h1.comp_hasDerivAt y h2
  refine HasDerivAt.congr_deriv (f' := _) h3 ?_
  simp

/-- The basis functions of a mapped triangle as polynomials. -/
theorem tri_poly (k : Nat) (hk : 1 ≤ k) (d : TriData ℝ) (hd : triCreate ℝ k = .ok d) (dirs : List Bool) (hn : dirs.length = 3) (m : TriMap ℝ) (s : TriSpace ℝ)
    (hs : triSpace d 3 dirs m = .ok s) (c : Nat) (hc : c < d.numBasis) :
    ∃ φ : MvPolynomial (Fin 2) ℝ, φ.totalDegree ≤ k ∧ (∀ p, triPhysValue s p c = .ok (ev2 φ p)) ∧
      (∀ p, triPhysDerivative s p c 0 = .ok (ev2 (pderiv 0 φ) p)) ∧ ∀ p, triPhysDerivative s p c 1 = .ok (ev2 (pderiv 1 φ) p) := by
  obtain ⟨⟨s', hs', href, hmap, hperm⟩, -⟩ := C37_permutation k hk d hd dirs hn m
  rw [hs] at hs'
  injection hs' with hs'
  subst hs'
  have hchain := C38_chain_rule k hk d hd dirs hn m s hs c hc
  obtain ⟨d', hd', ho, -, -, -, hnb, htl, hpl, -, hmem, -⟩ := C32_layout (K := ℝ) k hk
  rw [hd] at hd'
  injection hd' with hd'
  subst hd'
  have hlen : s.order.length = d.numBasis := by rw [hperm.length_eq, List.length_range]
  obtain ⟨b, hb⟩ : ∃ b, s.order[c]? = some b := ⟨_, List.getElem?_eq_getElem (by omega)⟩
  have hbl : b < d.numBasis := List.mem_range.1 (hperm.mem_iff.1 (List.mem_of_getElem? hb))
  obtain ⟨t, ht⟩ : ∃ t, d.types[b]? = some t := ⟨_, List.getElem?_eq_getElem (by omega)⟩
  obtain ⟨p, hp⟩ : ∃ p, d.positions[b]? = some p := ⟨_, List.getElem?_eq_getElem (by omega)⟩
  have hsum : t.1 + t.2.1 + t.2.2 = k := (hmem _ _ _).1 (List.mem_of_getElem? ht)
  set l := affTerms (1 / (d.order : ℝ)) t p with hl
  have hll : l.length = k := by
    rw [hl, affTerms]
    simp only [List.length_append, List.length_map, List.length_range]
    exact hsum
  set φ : MvPolynomial (Fin 2) ℝ := C (1 / (l.map fun a => a.den).prod) *
    (l.map fun a => affPoly (a.al - a.gx * (m.i00 * m.o0 + m.i01 * m.o1) - a.gy * (m.i10 * m.o0 + m.i11 * m.o1))
      (a.gx * m.i00 + a.gy * m.i10) (a.gx * m.i01 + a.gy * m.i11)).prod with hφ
  have hval : ∀ p, triPhysValue s p c = .ok (ev2 φ p) := by
    intro q
    unfold triPhysValue
    rw [(unchecked_ok_iff _ _ _).2 hb, except_ok_bind, href, hmap, triValue_terms d (by omega) _ _ b t p ht hp]
    congr 1
    rw [hφ, show ∀ a b, ev2 (a * b) q = ev2 a q * ev2 b q from fun a b => map_mul (eval ![q.1, q.2]) a b, ev2_prod, List.map_map, ← hl, div_eq_mul_one_div, mul_comm]
    congr 1
    · simp [ev2]
    · congr 1
      refine List.map_congr_left fun a _ => ?_
      simp only [Function.comp, ev2_affPoly, triFInv]
      ring
  obtain ⟨f, fx, fy, h1, h2, h3, h4⟩ := hchain
  have hf : ∀ x y, f x y = ev2 φ (x, y) := fun x y => Except.ok.inj ((h1 x y).symm.trans (hval (x, y)))
  refine ⟨φ, ?_, hval, ?_, ?_⟩
  · rw [hφ]
    refine (totalDegree_mul _ _).trans ?_
    rw [totalDegree_C, Nat.zero_add]
    refine (prod_degree _ ?_).trans (by rw [List.length_map, hll])
    intro q hq
    obtain ⟨a, -, rfl⟩ := List.mem_map.1 hq
    exact affPoly_degree _ _ _
  · rintro ⟨x, y⟩
    rw [h2 x y]
    congr 1
    have e : (fun s => f s y) = fun s => ev2 φ (s, y) := funext fun s => hf s y
    exact HasDerivAt.unique (h4 x y).1 (e ▸ ev2_pderiv0 φ x y)
  · rintro ⟨x, y⟩
    rw [h3 x y]
    congr 1
    have e : (fun s => f x s) = fun s => ev2 φ (x, s) := funext fun s => hf x s
    exact HasDerivAt.unique (h4 x y).2 (e ▸ ev2_pderiv1 φ x y)

/-- Polynomials of degree `k` that are nodal in as many points as the space has dimensions reproduce polynomials. -/
theorem nodal_reproduces (k : Nat) (φ : Nat → MvPolynomial (Fin 2) ℝ) (x : Nat → ℝ × ℝ) (hdeg : ∀ c < tri (k + 1), (φ c).totalDegree ≤ k)
    (hnod : ∀ c < tri (k + 1), ∀ j < tri (k + 1), ev2 (φ c) (x j) = if c = j then 1 else 0) (q : MvPolynomial (Fin 2) ℝ) (hq : q.totalDegree ≤ k) :
    ∑ c ∈ Finset.range (tri (k + 1)), C (ev2 q (x c)) * φ c = q := by
  set N := tri (k + 1) with hN
  have h1 : ∀ c, ∃ e : Nat → ℝ, c < N → φ c = ∑ j ∈ Finset.range N, C (e j) * basisPoly k (0, 0) 1 j := by
    intro c
    by_cases hc : c < N
    · obtain ⟨e, he⟩ := basisPoly_span k (0, 0) 1 one_ne_zero le_rfl (φ c) (hdeg c hc)
      exact ⟨e, fun _ => he⟩
    · exact ⟨fun _ => 0, fun h => absurd h hc⟩
  choose e he using h1
  have hev : ∀ (f : Nat → ℝ) (p : ℝ × ℝ), ev2 (∑ j ∈ Finset.range N, C (f j) * basisPoly k (0, 0) 1 j) p = ∑ j ∈ Finset.range N, f j * ev2 (basisPoly k (0, 0) 1 j) p := by
    intro f p
    simp [ev2]
  have hEM : (Matrix.of fun (c j : Fin N) => e c j) * (Matrix.of fun (j c : Fin N) => ev2 (basisPoly k (0, 0) 1 j) (x c)) = 1 := by
    ext c i
    rw [Matrix.mul_apply, Matrix.one_apply]
    simp only [Matrix.of_apply]
    have := hnod c c.2 i i.2
    rw [he c c.2, hev, ← Fin.sum_univ_eq_sum_range (fun j => e c j * ev2 (basisPoly k (0, 0) 1 j) (x i))] at this
    rw [this]
    simp [Fin.ext_iff]
  have hME := mul_eq_one_comm.1 hEM
  have hbas : ∀ i < N, ∑ c ∈ Finset.range N, C (ev2 (basisPoly k (0, 0) 1 i) (x c)) * φ c = basisPoly k (0, 0) 1 i := by
    intro i hi
    rw [Finset.sum_congr rfl fun c hc => by rw [he c (Finset.mem_range.1 hc), Finset.mul_sum], Finset.sum_comm]
    have h2 : ∀ j < N, ∑ c ∈ Finset.range N, ev2 (basisPoly k (0, 0) 1 i) (x c) * e c j = if i = j then 1 else 0 := by
      intro j hj
      have := congrFun (congrFun hME ⟨i, hi⟩) ⟨j, hj⟩
      rw [Matrix.mul_apply, Matrix.one_apply] at this
      simp only [Matrix.of_apply, Fin.mk.injEq] at this
      rw [← this, ← Fin.sum_univ_eq_sum_range (fun c => ev2 (basisPoly k (0, 0) 1 i) (x c) * e c j)]
    have h3 : ∀ j ∈ Finset.range N, ∑ c ∈ Finset.range N, C (ev2 (basisPoly k (0, 0) 1 i) (x c)) * (C (e c j) * basisPoly k (0, 0) 1 j) =
        if i = j then basisPoly k (0, 0) 1 j else 0 := by
      intro j hj
      rw [Finset.sum_congr rfl fun c _ => by rw [← mul_assoc, ← C_mul], ← Finset.sum_mul, ← map_sum, h2 j (Finset.mem_range.1 hj)]
      split_ifs
      · rw [C_1, one_mul]
      · rw [C_0, zero_mul]
    rw [Finset.sum_congr rfl h3, Finset.sum_ite_eq, if_pos (Finset.mem_range.2 hi)]
  obtain ⟨a, ha⟩ := basisPoly_span k (0, 0) 1 one_ne_zero le_rfl q hq
  rw [← hN] at ha
  have h4 : ∀ c ∈ Finset.range N, C (ev2 q (x c)) * φ c = ∑ i ∈ Finset.range N, C (a i) * (C (ev2 (basisPoly k (0, 0) 1 i) (x c)) * φ c) := by
    intro c _
    have : ev2 q (x c) = ∑ j ∈ Finset.range N, a j * ev2 (basisPoly k (0, 0) 1 j) (x c) := by rw [← hev, ← ha]
    rw [this, map_sum, Finset.sum_mul]
    exact Finset.sum_congr rfl fun i _ => by rw [C_mul, mul_assoc]
  rw [Finset.sum_congr rfl h4, Finset.sum_comm]
  conv_rhs => rw [ha]
  exact Finset.sum_congr rfl fun i hi => by rw [← Finset.mul_sum, hbas i (Finset.mem_range.1 hi)]

end PolyDiM
