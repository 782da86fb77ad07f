import Verif.Lemmas.VemDfEval
import Verif.Lemmas.MixedUnique
import Verif.Spec.DfMesh
import Mathlib.MeasureTheory.Measure.Lebesgue.EqHaar
import Mathlib.LinearAlgebra.AffineSpace.FiniteDimensional

/-!
# Lemmas: every vector of DOFs belongs to a velocity
-/

namespace PolyDiM

open Spec MvPolynomial MeasureTheory

variable {k m n : Nat} {V : Nat → ℝ × ℝ} {len : Nat → ℝ} {dir : Nat → Bool} {nrm : Nat → ℝ × ℝ} {poly : VemPolygon ℝ}
  {triangle : Nat → Rule (ℝ × ℝ) ℝ} {edge : Nat → Rule ℝ ℝ} {ts ws ss vs : List ℝ} {w v₀ : ℝ}

theorem position_inj {a b a' b' : Nat} (h : position a b = position a' b') : a = a' ∧ b = b' := by
  have h1 : a + b < a' + b' + 1 := by
    rw [← Nat.not_le]
    intro hle
    have := (position_lt (a := a') (b := b') (k := a' + b')).2 le_rfl
    have h2 : ¬ position a b < tri (a' + b' + 1) := fun h' => by have := position_lt.1 h'; omega
    omega
  have h3 : a' + b' < a + b + 1 := by
    rw [← Nat.not_le]
    intro hle
    have := (position_lt (a := a) (b := b) (k := a + b)).2 le_rfl
    have h2 : ¬ position a' b' < tri (a + b + 1) := fun h' => by have := position_lt.1 h'; omega
    omega
  have h4 : a + b = a' + b' := by omega
  unfold position at h
  rw [h4] at h
  omega

/-- A polynomial with given moments. -/
theorem exists_moments (hE : IsElement poly n V len dir nrm) (hT : IsDfTables k triangle edge ts ws w ss vs v₀) {j : Nat} (hj : j ≤ k) (T : Nat → Nat → ℝ) :
    ∃ q : MvPolynomial (Fin 2) ℝ, q.totalDegree ≤ j ∧ ∀ a b, a + b ≤ j →
      ∫ p in unionOf poly.tris, scaledMonomial poly.centroid poly.diameter a b p * eval ![p.1, p.2] q = T a b := by
  obtain ⟨internal, dofs, _, _, hR⟩ := rules_ok hE hT.toIsTables
  have hD : Discrete k internal dofs := discrete_ok hE hT.low hR
  set c := poly.centroid
  set h := poly.diameter
  have hex : ∀ i, ∃ y : ℝ, ∀ a b, position a b = i → T a b = y := by
    intro i
    by_cases hi : ∃ a b, position a b = i
    · obtain ⟨a, b, rfl⟩ := hi
      refine ⟨T a b, fun a' b' h' => ?_⟩
      obtain ⟨rfl, rfl⟩ := position_inj h'
      rfl
    · exact ⟨0, fun a b hab => absurd ⟨a, b, hab⟩ hi⟩
  choose y hy using hex
  obtain ⟨x, ⟨_, hx⟩, _⟩ := injective_solves (N := tri (j + 1)) (E := fun i l => quadLin internal.points internal.weights (basisPoly k c h i * basisPoly k c h l)) (by
    intro x _ hx i hi
    exact gram_injective hD hE.diameter hj (fun l => x.getD l 0) hx i hi) y
  refine ⟨combo k c h (tri (j + 1)) fun l => x.getD l 0, combo_degree _ hj, fun a b hab => ?_⟩
  have h1 := basisPoly_degree k c h (j := position a b) (m := k) (by rw [num2_eq]; exact position_lt.2 (by omega)) (position_lt.2 (by omega))
  have h2 := combo_degree (c := c) (h := h) (fun l => x.getD l 0) hj
  have h3 := hx (position a b) (position_lt.2 hab)
  rw [← quadLin_combo, hR.integral _ ((totalDegree_mul _ _).trans (by omega))] at h3
  rw [hy _ a b rfl, ← h3]
  refine integral_congr_ae (Filter.Eventually.of_forall fun p => ?_)
  dsimp only
  rw [← ev2_basis_position k c h (by omega)]
  simp only [ev2, map_mul]

/-- A polynomial of degree at most `k` with given values at the ends and the nodes. -/
theorem exists_edge_poly (hT : IsDfTables k triangle edge ts ws w ss vs v₀) (d : Bool) (A B : ℝ) (f : Nat → ℝ) :
    ∃ r : Polynomial ℝ, r.natDegree ≤ k ∧ r.eval 0 = A ∧ r.eval 1 = B ∧ ∀ i t, ts[i]? = some t → r.eval (if d then t else 1 - t) = f i := by
  have hk := hT.low
  have hl : (0 :: 1 :: ts).length = k + 1 := by
    rw [List.length_cons, List.length_cons, hT.nodes]
    omega
  let vals : Nat → ℝ := fun j => if j = 0 then (if d then A else B) else if j = 1 then (if d then B else A) else f (j - 2)
  have hinj := nodes_injOn hT.distinct
  set r := Lagrange.interpolate (Finset.range (0 :: 1 :: ts).length) (fun j => (0 :: 1 :: ts).getD j 0) vals with hr
  have hat : ∀ j < k + 1, r.eval ((0 :: 1 :: ts).getD j 0) = vals j := fun j hj =>
    Lagrange.eval_interpolate_at_node _ hinj (Finset.mem_range.2 (by omega))
  have hdeg : r.natDegree ≤ k := natDegree_of_lt (lt_of_lt_of_eq (Lagrange.degree_interpolate_lt vals hinj) (by rw [Finset.card_range, hl]))
  have h0 : r.eval 0 = if d then A else B := hat 0 (by omega)
  have h1 : r.eval 1 = if d then B else A := hat 1 (by omega)
  have h2 : ∀ i t, ts[i]? = some t → r.eval t = f i := by
    intro i t hi
    have hi' := (List.getElem?_eq_some_iff.1 hi).1
    have := hat (i + 2) (by rw [hT.nodes] at hi'; omega)
    rw [show (0 :: 1 :: ts).getD (i + 2) 0 = t by
      rw [List.getD_eq_getElem?_getD, List.getElem?_cons_succ, List.getElem?_cons_succ, hi, Option.getD_some]] at this
    rw [this]
    simp [vals]
  cases d with
  | true => exact ⟨r, hdeg, by simpa using h0, by simpa using h1, fun i t hi => by simpa using h2 i t hi⟩
  | false =>
    refine ⟨r.comp (1 - Polynomial.X), ?_, ?_, ?_, fun i t hi => ?_⟩
    · refine (Polynomial.natDegree_comp_le).trans ?_
      have : (1 - Polynomial.X : Polynomial ℝ).natDegree ≤ 1 := by
        refine (Polynomial.natDegree_sub_le _ _).trans ?_
        simp
      exact (Nat.mul_le_mul hdeg this).trans (by omega)
    · simpa [Polynomial.eval_comp] using h1
    · simpa [Polynomial.eval_comp] using h0
    · simpa [Polynomial.eval_comp] using h2 i t hi

/-- A line has no area. -/
theorem line_null (P Q : ℝ × ℝ) : volume {p : ℝ × ℝ | ∃ t : ℝ, p = segPoint P Q t} = 0 := by
  have hsub : {p : ℝ × ℝ | ∃ t : ℝ, p = segPoint P Q t} ⊆ (affineSpan ℝ {P, Q} : Set (ℝ × ℝ)) := by
    rintro p ⟨t, rfl⟩
    have : segPoint P Q t = AffineMap.lineMap P Q t := by
      rw [AffineMap.lineMap_apply]
      ext <;> simp [segPoint] <;> ring
    rw [this]
    exact AffineMap.lineMap_mem_affineSpan_pair t P Q
  refine measure_mono_null hsub (Measure.addHaar_affineSubspace volume _ fun htop => ?_)
  have h1 : Module.finrank ℝ (vectorSpan ℝ ({P, Q} : Set (ℝ × ℝ))) ≤ 1 := collinear_iff_finrank_le_one.1 (collinear_pair ℝ P Q)
  rw [← direction_affineSpan, htop, AffineSubspace.direction_top, finrank_top, Module.finrank_prod] at h1
  simp at h1

/-- Every vector of DOFs belongs to a velocity; the moments against the orthogonal fields of the two highest degrees can be prescribed. -/
theorem exists_velocity (hE : IsElement poly n V len dir nrm) (hS : SimplePolygon n V) (hT : IsDfTables k triangle edge ts ws w ss vs v₀) (hm : m ≤ k) (v : Nat → ℝ)
    (S : Nat → Nat → ℝ) (hSv : ∀ a b, a + b + 3 ≤ k → v (2 * (n + n * (k - 1)) + position a b) = S a b) :
    ∃ u P, IsVelocity k m poly n V len nrm u P ∧ IsVelocityDofs k m poly n V dir ts u P v ∧ ∀ a b, a + b + 1 ≤ k → swirlMoment poly u a b = S a b := by
  have hn := two_vertices hE
  set L := n + n * (k - 1) with hL
  choose r hdeg hr0 hr1 hrt using fun (d e : Nat) => exists_edge_poly hT (dir e) (v (d * L + e)) (v (d * L + (e + 1) % n)) fun i => v (d * L + (n + e * (k - 1) + i))
  let g : (ℝ × ℝ → ℝ) → ℝ := fun q => ∑ e ∈ Finset.range n, |len e| * ∫ t in (0 : ℝ)..1,
    q (segPoint (V e) (V ((e + 1) % n)) t) * dot2 ((r 0 e).eval t, (r 1 e).eval t) (nrm e)
  set c := poly.centroid with hc
  set h := poly.diameter with hh
  have hh0 : h ≠ 0 := hE.diameter
  obtain ⟨P, hPd, hP⟩ := exists_moments hE hT hm fun a b => if a + b = 0 then g (scaledMonomial c h 0 0) else v (2 * L + (k - 2) * (k - 1) / 2 + (position a b - 1))
  let G : Nat → Nat → ℝ := fun a b => g (scaledMonomial c h a b) - ∫ p in unionOf poly.tris, scaledMonomial c h a b p * eval ![p.1, p.2] P
  obtain ⟨w1, hw1d, hw1⟩ := exists_moments hE hT le_rfl fun a b => h / (a + b + 1) * G (a + 1) b + b / (a + b + 1) * S a (b - 1)
  obtain ⟨w2, hw2d, hw2⟩ := exists_moments hE hT le_rfl fun a b => h / (a + b + 1) * G a (b + 1) - a / (a + b + 1) * S (a - 1) b
  rw [← hc, ← hh] at hP hw1 hw2
  let onEdge : ℝ × ℝ → Nat × ℝ → Prop := fun p x => x.1 < n ∧ 0 ≤ x.2 ∧ x.2 < 1 ∧ p = segPoint (V x.1) (V ((x.1 + 1) % n)) x.2
  classical
  let u : ℝ × ℝ → ℝ × ℝ := fun p => if hp : ∃ x, onEdge p x then ((r 0 hp.choose.1).eval hp.choose.2, (r 1 hp.choose.1).eval hp.choose.2)
    else (eval ![p.1, p.2] w1, eval ![p.1, p.2] w2)
  have hedge : ∀ e < n, ∀ t : ℝ, 0 ≤ t → t < 1 → u (segPoint (V e) (V ((e + 1) % n)) t) = ((r 0 e).eval t, (r 1 e).eval t) := by
    intro e he t h0 h1
    have hp : ∃ x, onEdge (segPoint (V e) (V ((e + 1) % n)) t) x := ⟨(e, t), he, h0, h1, rfl⟩
    obtain ⟨h3, h4⟩ := hS e he _ hp.choose_spec.1 t _ h0 h1 hp.choose_spec.2.1 hp.choose_spec.2.2.1 hp.choose_spec.2.2.2
    refine (dif_pos hp).trans ?_
    rw [← h3, ← h4]
  have hvert : ∀ e < n, u (V e) = (v (0 * L + e), v (1 * L + e)) := by
    intro e he
    have := hedge e he 0 le_rfl zero_lt_one
    rw [hr0, hr0, show segPoint (V e) (V ((e + 1) % n)) 0 = V e by ext <;> simp [segPoint]] at this
    exact this
  have hclosed : ∀ e < n, ∀ t : ℝ, 0 ≤ t → t ≤ 1 → u (segPoint (V e) (V ((e + 1) % n)) t) = ((r 0 e).eval t, (r 1 e).eval t) := by
    intro e he t h0 h1
    rcases h1.lt_or_eq with h1 | rfl
    · exact hedge e he t h0 h1
    · rw [show segPoint (V e) (V ((e + 1) % n)) 1 = V ((e + 1) % n) by ext <;> simp [segPoint], hvert _ (Nat.mod_lt _ (by omega)), hr1, hr1]
  have hflow : ∀ q, outflow n V len nrm u q = g q := by
    intro q
    refine Finset.sum_congr rfl fun e he => ?_
    congr 1
    refine intervalIntegral.integral_congr fun t ht => ?_
    rw [Set.uIcc_of_le zero_le_one] at ht
    rw [hclosed e (Finset.mem_range.1 he) t ht.1 ht.2]
  have hnull : volume {p : ℝ × ℝ | ∃ x, onEdge p x} = 0 := by
    refine measure_mono_null (t := ⋃ e : Nat, {p : ℝ × ℝ | ∃ t : ℝ, p = segPoint (V e) (V ((e + 1) % n)) t}) ?_ (measure_iUnion_null fun e => line_null _ _)
    rintro p ⟨x, hx⟩
    exact Set.mem_iUnion.2 ⟨x.1, x.2, hx.2.2.2⟩
  have hae : ∀ᵐ p ∂(volume.restrict (unionOf poly.tris)), u p = (eval ![p.1, p.2] w1, eval ![p.1, p.2] w2) := by
    refine ae_restrict_of_ae ?_
    rw [ae_iff]
    refine measure_mono_null (fun p hp => ?_) hnull
    by_contra hcon
    exact hp (dif_neg hcon)
  have hint : ∀ q : MvPolynomial (Fin 2) ℝ, IntegrableOn (fun p : ℝ × ℝ => eval ![p.1, p.2] q) (unionOf poly.tris) := fun q => ev2_integrable poly.tris q
  have hi1 : IntegrableOn (fun p => (u p).1) (unionOf poly.tris) := (hint w1).congr (hae.mono fun p hp => by dsimp only; rw [hp])
  have hi2 : IntegrableOn (fun p => (u p).2) (unionOf poly.tris) := (hint w2).congr (hae.mono fun p hp => by dsimp only; rw [hp])
  have hmon : ∀ a b, ∃ q : MvPolynomial (Fin 2) ℝ, ∀ p : ℝ × ℝ, scaledMonomial c h a b p = eval ![p.1, p.2] q := fun a b =>
    ⟨basisPoly (a + b) c h (position a b), fun p => (ev2_basis_position (a + b) c h le_rfl p).symm⟩
  have hmi : ∀ a b, ∀ q : MvPolynomial (Fin 2) ℝ, IntegrableOn (fun p : ℝ × ℝ => scaledMonomial c h a b p * eval ![p.1, p.2] q) (unionOf poly.tris) := by
    intro a b q
    obtain ⟨z, hz⟩ := hmon a b
    refine (hint (z * q)).congr (Filter.Eventually.of_forall fun p => ?_)
    simp only [hz, map_mul]
  have htwo : ∀ (x y : ℝ) (a b a' b' : Nat), ∫ p in unionOf poly.tris, (x * (scaledMonomial c h a b p * (u p).1) + y * (scaledMonomial c h a' b' p * (u p).2))
      = x * (∫ p in unionOf poly.tris, scaledMonomial c h a b p * eval ![p.1, p.2] w1) + y * ∫ p in unionOf poly.tris, scaledMonomial c h a' b' p * eval ![p.1, p.2] w2 := by
    intro x y a b a' b'
    rw [← integral_const_mul, ← integral_const_mul, ← integral_add ((hmi a b w1).const_mul x) ((hmi a' b' w2).const_mul y)]
    refine integral_congr_ae (hae.mono fun p hp => ?_)
    dsimp only
    rw [hp]
  have hswirl : ∀ a b, a + b + 1 ≤ k → swirlMoment poly u a b = S a b := by
    intro a b hab
    unfold swirlMoment
    rw [← hc, ← hh]
    have e1 : ∀ p, scaledMonomial c h a b p * dot2 (swirl c h p) (u p)
        = 1 * (scaledMonomial c h a (b + 1) p * (u p).1) + -1 * (scaledMonomial c h (a + 1) b p * (u p).2) := fun p => by
      simp only [dot2, swirl, scaledMonomial]
      ring
    simp only [e1]
    rw [htwo, hw1 a (b + 1) (by omega), hw2 (a + 1) b (by omega), Nat.add_sub_cancel, Nat.add_sub_cancel]
    push_cast
    have : (a : ℝ) + b + 2 ≠ 0 := by positivity
    rw [show (a : ℝ) + (b + 1) + 1 = a + b + 2 by ring, show (a : ℝ) + 1 + b + 1 = a + b + 2 by ring]
    field_simp
    ring
  refine ⟨u, P, ⟨hi1, hi2, fun e he => ⟨r 0 e, hdeg 0 e, fun t h0 h1 => by show (u _).1 = _; rw [hclosed e he t h0 h1]⟩, fun e he => ⟨r 1 e, hdeg 1 e, fun t h0 h1 => by show (u _).2 = _; rw [hclosed e he t h0 h1]⟩,
    hPd, fun a b hab => ?_⟩, ⟨fun e he => by rw [hvert e he, zero_mul, zero_add], ?_, fun e he => by rw [hvert e he, one_mul], ?_, fun a b hab => ?_, fun a b h0 hab => ?_⟩, ?_⟩
  · rw [hflow, eq_sub_iff_add_eq, ← eq_sub_iff_add_eq']
    show _ = G a b
    have e1 : ∀ p, dot2 (gradMonomial c h a b p) (u p) = a / h * (scaledMonomial c h (a - 1) b p * (u p).1) + b / h * (scaledMonomial c h a (b - 1) p * (u p).2) := by
      intro p
      simp only [dot2, gradMonomial]
      ring
    refine (integral_congr_ae (Filter.Eventually.of_forall e1)).trans ?_
    rw [htwo]
    rcases Nat.eq_zero_or_pos (a + b) with h0 | h0
    · obtain rfl : a = 0 := by omega
      obtain rfl : b = 0 := by omega
      have := hP 0 0 (Nat.zero_le _)
      simp only [Nat.add_zero, if_true] at this
      simp only [G, this]
      simp
    · have hne : ((a : ℝ) + b) ≠ 0 := by
        have : (0 : ℝ) < ((a + b : Nat) : ℝ) := by exact_mod_cast h0
        push_cast at this
        exact this.ne'
      rcases Nat.eq_zero_or_pos a with rfl | ha
      · rw [hw2 0 (b - 1) (by omega), Nat.sub_add_cancel (by omega)]
        simp only [Nat.zero_add] at h0 hne ⊢
        rw [Nat.cast_sub h0]
        simp only [Nat.cast_zero, zero_add] at hne ⊢
        simp
        field_simp
      · rcases Nat.eq_zero_or_pos b with rfl | hb
        · rw [hw1 (a - 1) 0 (by omega), Nat.sub_add_cancel ha, Nat.cast_sub ha]
          simp only [Nat.cast_zero, add_zero] at hne ⊢
          simp
          field_simp
        · rw [hw1 (a - 1) b (by omega), hw2 a (b - 1) (by omega), Nat.sub_add_cancel ha, Nat.sub_add_cancel hb, Nat.cast_sub ha, Nat.cast_sub hb]
          have e2 : (a : ℝ) - (1 : Nat) + b + 1 = a + b := by push_cast; ring
          have e3 : (a : ℝ) + (b - (1 : Nat)) + 1 = a + b := by push_cast; ring
          rw [e2, e3]
          field_simp
          ring
  · intro e he i t hi
    have hti := hT.inside t (List.mem_of_getElem? hi)
    have := hrt 0 e i t hi
    rw [zero_mul, zero_add] at this
    rw [← this]
    unfold polyEdge
    cases dir e with
    | true =>
      simp only [if_true]
      rw [hclosed e he t hti.1 hti.2]
    | false =>
      simp only [Bool.false_eq_true, if_false]
      rw [show segPoint (V ((e + 1) % n)) (V e) t = segPoint (V e) (V ((e + 1) % n)) (1 - t) by ext <;> simp [segPoint] <;> ring,
        hclosed e he (1 - t) (by linarith) (by linarith)]
  · intro e he i t hi
    have hti := hT.inside t (List.mem_of_getElem? hi)
    have := hrt 1 e i t hi
    rw [one_mul] at this
    rw [← this]
    unfold polyEdge
    cases dir e with
    | true =>
      simp only [if_true]
      rw [hclosed e he t hti.1 hti.2]
    | false =>
      simp only [Bool.false_eq_true, if_false]
      rw [show segPoint (V ((e + 1) % n)) (V e) t = segPoint (V e) (V ((e + 1) % n)) (1 - t) by ext <;> simp [segPoint] <;> ring,
        hclosed e he (1 - t) (by linarith) (by linarith)]
  · exact (hSv a b hab).trans (hswirl a b (by omega)).symm
  · have := hP a b hab
    rw [if_neg (by omega)] at this
    exact this.symm
  · exact hswirl

/-- A function that is a polynomial of degree at most `k` on the edges is determined there by its values at the vertices and the nodes. -/
theorem trace_unique (hT : IsDfTables k triangle edge ts ws w ss vs v₀) {u u' : ℝ × ℝ → ℝ} (hu : EdgePolynomial k n V u) (hu' : EdgePolynomial k n V u')
    (hV : ∀ e < n, u (V e) = u' (V e)) (hN : ∀ e < n, ∀ (i : Nat) (t : ℝ), ts[i]? = some t →
      u (segPoint (polyEdge n V (dir e) e).1 (polyEdge n V (dir e) e).2 t) = u' (segPoint (polyEdge n V (dir e) e).1 (polyEdge n V (dir e) e).2 t)) :
    ∀ e < n, ∀ t : ℝ, 0 ≤ t → t ≤ 1 → u (segPoint (V e) (V ((e + 1) % n)) t) = u' (segPoint (V e) (V ((e + 1) % n)) t) := by
  intro e he t h0 h1
  obtain ⟨r, hr, hru⟩ := hu e he
  obtain ⟨r', hr', hru'⟩ := hu' e he
  have hk := hT.low
  have hl : (0 :: 1 :: ts).length = k + 1 := by
    rw [List.length_cons, List.length_cons, hT.nodes]
    omega
  let f : ℝ → ℝ := fun x => if dir e then x else 1 - x
  have hf : Function.Injective f := by
    intro x y hxy
    simp only [f] at hxy
    split_ifs at hxy <;> linarith
  have hat : ∀ j < k + 1, r.eval (f ((0 :: 1 :: ts).getD j 0)) = r'.eval (f ((0 :: 1 :: ts).getD j 0)) := by
    have hend : ∀ x : ℝ, x = 0 ∨ x = 1 → r.eval x = r'.eval x := by
      rintro x (rfl | rfl)
      · rw [← hru 0 le_rfl zero_le_one, ← hru' 0 le_rfl zero_le_one, show segPoint (V e) (V ((e + 1) % n)) 0 = V e by ext <;> simp [segPoint], hV e he]
      · rw [← hru 1 zero_le_one le_rfl, ← hru' 1 zero_le_one le_rfl, show segPoint (V e) (V ((e + 1) % n)) 1 = V ((e + 1) % n) by ext <;> simp [segPoint],
          hV _ (Nat.mod_lt _ (by omega))]
    intro j hj
    rcases j with _ | _ | j
    · refine hend _ ?_
      simp only [f, List.getD_cons_zero]
      split_ifs <;> simp
    · refine hend _ ?_
      simp only [f, List.getD_cons_succ, List.getD_cons_zero]
      split_ifs <;> simp
    · have hj' : j < ts.length := by rw [hT.nodes]; omega
      have hg : (0 :: 1 :: ts).getD (j + 2) 0 = ts[j] := by simp [hj']
      have hti := hT.inside _ (List.getElem_mem hj')
      have := hN e he j ts[j] (List.getElem?_eq_getElem hj')
      rw [hg]
      simp only [f]
      unfold polyEdge at this
      cases hd : dir e with
      | true =>
        simp only [hd, if_true] at this ⊢
        rw [hru _ hti.1 hti.2, hru' _ hti.1 hti.2] at this
        exact this
      | false =>
        simp only [hd, Bool.false_eq_true, if_false] at this ⊢
        rw [show segPoint (V ((e + 1) % n)) (V e) ts[j] = segPoint (V e) (V ((e + 1) % n)) (1 - ts[j]) by ext <;> simp [segPoint] <;> ring,
          hru _ (by linarith) (by linarith), hru' _ (by linarith) (by linarith)] at this
        exact this
  rw [hru t h0 h1, hru' t h0 h1]
  have hinj := nodes_injOn hT.distinct
  have : r = r' := by
    refine Polynomial.eq_of_degrees_lt_of_eval_index_eq (Finset.range (k + 1)) (v := fun j => f ((0 :: 1 :: ts).getD j 0)) ?_ ?_ ?_ fun j hj => hat j (Finset.mem_range.1 hj)
    · intro i hi j hj hij
      rw [hl] at hinj
      exact hinj hi hj (hf hij)
    · rw [Finset.card_range]
      exact lt_of_le_of_lt Polynomial.degree_le_natDegree (by exact_mod_cast Nat.lt_succ_of_le hr)
    · rw [Finset.card_range]
      exact lt_of_le_of_lt Polynomial.degree_le_natDegree (by exact_mod_cast Nat.lt_succ_of_le hr')
  rw [this]

end PolyDiM
