import Verif.Lemmas.ZfemElement
import Verif.Lemmas.Exactness

/-! Helper lemmas: polynomials that vanish at the DOF nodes of a ZFEM element. -/

namespace PolyDiM

open Spec MvPolynomial

/-- A polynomial of degree at most `k` with `k + 1` zeros on a line vanishes on the line. -/
theorem zero_on_line {k : Nat} {q : MvPolynomial (Fin 2) ℝ} (hq : q.totalDegree ≤ k) (P Q : ℝ × ℝ) (T : Finset ℝ) (hT : k + 1 ≤ T.card)
    (h0 : ∀ τ ∈ T, ev2 q (segPoint P Q τ) = 0) (τ : ℝ) : ev2 q (segPoint P Q τ) = 0 := by
  obtain ⟨r, hr, hv⟩ := poly1_pullback P Q q
  have hz : r = 0 := by
    refine Polynomial.eq_zero_of_natDegree_lt_card_of_eval_eq_zero' r T (fun x hx => ?_) (by omega)
    rw [← h0 x hx]
    exact hv x
  have := hv τ
  rw [hz, Polynomial.eval_zero] at this
  exact this.symm

/-- The point of the line through `a` and `b` where `area2 a b` vanishes. -/
theorem on_line {a b p : ℝ × ℝ} (hab : a ≠ b) (h : area2 a b p = 0) : ∃ τ, p = segPoint a b τ := by
  obtain ⟨a1, a2⟩ := a
  obtain ⟨b1, b2⟩ := b
  obtain ⟨p1, p2⟩ := p
  simp only [area2] at h
  have hd : 0 < (b1 - a1) ^ 2 + (b2 - a2) ^ 2 := by
    refine lt_of_le_of_ne (by positivity) fun h0 => hab ?_
    have e1 : b1 - a1 = 0 := by nlinarith [sq_nonneg (b1 - a1), sq_nonneg (b2 - a2)]
    have e2 : b2 - a2 = 0 := by nlinarith [sq_nonneg (b1 - a1), sq_nonneg (b2 - a2)]
    rw [show a1 = b1 by linarith, show a2 = b2 by linarith]
  refine ⟨((p1 - a1) * (b1 - a1) + (p2 - a2) * (b2 - a2)) / ((b1 - a1) ^ 2 + (b2 - a2) ^ 2), ?_⟩
  simp only [segPoint, Prod.mk.injEq]
  constructor
  · field_simp
    linear_combination (-(b2 - a2)) * h
  · field_simp
    linear_combination (b1 - a1) * h

theorem affPoly_ne_zero {a b c : ℝ} (h : b ≠ 0 ∨ c ≠ 0) : affPoly a b c ≠ 0 := by
  intro h0
  have e1 := ev2_affPoly a b c (0, 0)
  have e2 := ev2_affPoly a b c (1, 0)
  have e3 := ev2_affPoly a b c (0, 1)
  rw [h0] at e1 e2 e3
  simp [ev2] at e1 e2 e3
  rcases h with h | h
  · exact h (by linarith)
  · exact h (by linarith)

/-- A polynomial of degree at most `k` that vanishes on `m` different lines, none through `c`, and at `c`, is zero when `m ≥ k`; without the zero at `c`, when
`m ≥ k + 1`. -/
theorem zero_of_lines {k : Nat} {q : MvPolynomial (Fin 2) ℝ} (hq : q.totalDegree ≤ k) (c : ℝ × ℝ) (S : Finset Nat) (A B : Nat → ℝ × ℝ)
    (hc : ∀ t ∈ S, area2 (A t) (B t) c ≠ 0) (hdiff : ∀ t ∈ S, ∀ r ∈ S, t ≠ r → ¬(area2 (A t) (B t) (A r) = 0 ∧ area2 (A t) (B t) (B r) = 0))
    (hline : ∀ t ∈ S, ∀ τ, ev2 q (segPoint (A t) (B t) τ) = 0) (hcard : k + 1 ≤ S.card ∨ k ≤ S.card ∧ ev2 q c = 0) : q = 0 := by
  classical
  -- `1 + g t` is the affine function that is 1 at `c` and 0 on line `t`
  let g1 : Nat → ℝ := fun t => -((B t).2 - (A t).2) / area2 (A t) (B t) c
  let g2 : Nat → ℝ := fun t => ((B t).1 - (A t).1) / area2 (A t) (B t) c
  let g : Nat → ℝ × ℝ → ℝ := fun t d => g1 t * d.1 + g2 t * d.2
  have hg : ∀ t ∈ S, ∀ x : ℝ × ℝ, area2 (A t) (B t) x = area2 (A t) (B t) c * (1 + g t (x - c)) := by
    intro t ht x
    have := hc t ht
    simp only [g, g1, g2, Prod.fst_sub, Prod.snd_sub]
    field_simp
    simp only [area2]
    ring
  have hne : ∀ t ∈ S, g1 t ≠ 0 ∨ g2 t ≠ 0 := by
    intro t ht
    by_contra h
    push Not at h
    have h1 := hg t ht (A t)
    have h2 : area2 (A t) (B t) (A t) = 0 := by simp [area2]
    simp only [g, h.1, h.2, h2, zero_mul, add_zero, mul_one] at h1
    exact hc t ht h1.symm
  have hgd : ∀ t ∈ S, ∀ r ∈ S, t ≠ r → g1 t - g1 r ≠ 0 ∨ g2 t - g2 r ≠ 0 := by
    intro t ht r hr htr
    by_contra h
    push Not at h
    have e : ∀ d, g t d = g r d := by
      intro d
      simp only [g]
      rw [sub_eq_zero.1 h.1, sub_eq_zero.1 h.2]
    refine hdiff t ht r hr htr ⟨?_, ?_⟩
    · have h1 := hg r hr (A r)
      have h2 : area2 (A r) (B r) (A r) = 0 := by simp [area2]
      rw [h2] at h1
      have h3 := (mul_eq_zero.1 h1.symm).resolve_left (hc r hr)
      rw [hg t ht, e, h3, mul_zero]
    · have h1 := hg r hr (B r)
      have h2 : area2 (A r) (B r) (B r) = 0 := by simp only [area2]; ring
      rw [h2] at h1
      have h3 := (mul_eq_zero.1 h1.symm).resolve_left (hc r hr)
      rw [hg t ht, e, h3, mul_zero]
  let G : Nat → MvPolynomial (Fin 2) ℝ := fun t => affPoly (-(g1 t * c.1 + g2 t * c.2)) (g1 t) (g2 t)
  have hGv : ∀ t x, ev2 (G t) x = g t (x - c) := by
    intro t x
    simp only [G, g, ev2_affPoly, Prod.fst_sub, Prod.snd_sub]
    ring
  let R : MvPolynomial (Fin 2) ℝ := (∏ t ∈ S, G t) * ∏ p ∈ S.offDiag, (G p.1 - G p.2)
  have hR : R ≠ 0 := by
    refine mul_ne_zero (Finset.prod_ne_zero_iff.2 fun t ht => affPoly_ne_zero (hne t ht)) (Finset.prod_ne_zero_iff.2 fun p hp => ?_)
    obtain ⟨h1, h2, h3⟩ := Finset.mem_offDiag.1 hp
    have e : G p.1 - G p.2 = affPoly (-(g1 p.1 * c.1 + g2 p.1 * c.2) - -(g1 p.2 * c.1 + g2 p.2 * c.2)) (g1 p.1 - g1 p.2) (g2 p.1 - g2 p.2) := by
      simp only [G, affPoly, C_sub]
      ring
    rw [e]
    exact affPoly_ne_zero (hgd _ h1 _ h2 h3)
  have hz : q * R = 0 := by
    refine ev2_ext fun x => ?_
    rw [show ev2 (q * R) x = ev2 q x * ev2 R x from map_mul (eval ![x.1, x.2]) q R, show ev2 (0 : MvPolynomial (Fin 2) ℝ) x = 0 from map_zero _]
    by_cases hx : ev2 R x = 0
    · rw [hx, mul_zero]
    have hx' : (∀ t ∈ S, g t (x - c) ≠ 0) ∧ ∀ t ∈ S, ∀ r ∈ S, t ≠ r → g t (x - c) ≠ g r (x - c) := by
      simp only [R, ev2, map_mul, map_prod, map_sub] at hx
      have h1 := Finset.prod_ne_zero_iff.1 (left_ne_zero_of_mul hx)
      have h2 := Finset.prod_ne_zero_iff.1 (right_ne_zero_of_mul hx)
      refine ⟨fun t ht => ?_, fun t ht r hr htr => ?_⟩
      · rw [← hGv]
        exact h1 t ht
      · have := h2 (t, r) (Finset.mem_offDiag.2 ⟨ht, hr, htr⟩)
        rw [← hGv, ← hGv]
        exact sub_ne_zero.1 this
    have hzero : ∀ t ∈ S, ev2 q (segPoint c x (-1 / g t (x - c))) = 0 := by
      intro t ht
      have hgt := hx'.1 t ht
      have h1 : area2 (A t) (B t) (segPoint c x (-1 / g t (x - c))) = 0 := by
        rw [hg t ht]
        have : g t (segPoint c x (-1 / g t (x - c)) - c) = -1 / g t (x - c) * g t (x - c) := by
          simp only [g, segPoint, Prod.fst_sub, Prod.snd_sub]
          ring
        rw [this, div_mul_cancel₀ _ hgt]
        ring
      have hAB : A t ≠ B t := by
        intro h
        refine hc t ht ?_
        simp [area2, h]
      obtain ⟨τ, hτ⟩ := on_line hAB h1
      rw [hτ]
      exact hline t ht τ
    have hinj : Set.InjOn (fun t => -1 / g t (x - c)) S := by
      intro t ht r hr h
      by_contra hne
      refine hx'.2 t ht r hr hne ?_
      have h1 := hx'.1 t ht
      have h2 := hx'.1 r hr
      simp only at h
      field_simp at h
      linarith
    have h1 : segPoint c x 1 = x := by simp [segPoint]
    rw [← h1, mul_eq_zero]
    left
    rcases hcard with hcard | ⟨hcard, hcz⟩
    · refine zero_on_line hq c x (S.image fun t => -1 / g t (x - c)) (by rw [Finset.card_image_of_injOn hinj]; exact hcard) ?_ 1
      intro τ hτ
      obtain ⟨t, ht, rfl⟩ := Finset.mem_image.1 hτ
      exact hzero t ht
    · refine zero_on_line hq c x (insert 0 (S.image fun t => -1 / g t (x - c))) ?_ ?_ 1
      · rw [Finset.card_insert_of_notMem, Finset.card_image_of_injOn hinj]
        · omega
        · intro h
          obtain ⟨t, ht, h⟩ := Finset.mem_image.1 h
          have := hx'.1 t ht
          rw [div_eq_zero_iff] at h
          rcases h with h | h
          · norm_num at h
          · exact this h
      · intro τ hτ
        rcases Finset.mem_insert.1 hτ with rfl | hτ
        · simpa [segPoint] using hcz
        · obtain ⟨t, ht, rfl⟩ := Finset.mem_image.1 hτ
          exact hzero t ht
  exact (mul_eq_zero.1 hz).resolve_right hR

/-- The DOF nodes determine a polynomial when the polygon has enough sides. -/
theorem fan_unisolvent {quad : Nat → Rule (ℝ × ℝ) ℝ} {k : Nat} (hk : 1 ≤ k) {ref : ZfemRef ℝ} (href : zfemRef quad k = .ok ref) {poly : ZfemPolygon ℝ} {c : ℝ × ℝ}
    {V : Nat → ℝ × ℝ} (hF : IsFan poly c V) {tris : List (TriSpace ℝ)} {M : IMat} {num : FanNode → Nat} {finer : List (ℝ × ℝ)}
    (el : Element k ref poly c V tris M num finer) (S : Finset Nat) (hS : ∀ t ∈ S, t < poly.num) (hdiff : DifferentLines poly.num V S)
    (hcard : k + 1 ≤ S.card ∨ 3 ≤ k ∧ k ≤ S.card) : Unisolvent k (finer.take (zfemCounts ref poly.num).basis) := by
  intro q hq h0
  have hn := hF.three
  obtain ⟨hbas, htot, hsum⟩ := counts_ok hk href poly.num (by omega)
  have hk0 : (k : ℝ) ≠ 0 := Nat.cast_ne_zero.2 (by omega)
  have hnode : ∀ x, IsFanNode poly.num (k - 1) ((k - 1) * (k - 2) / 2) x → num x < (zfemCounts ref poly.num).basis →
      ev2 q (fanPoint poly.num k c V (fun v => poly.dirs.getD v true) (innerType ref.fem k) x) = 0 := by
    intro x hx hlt
    refine h0 _ (List.mem_of_getElem? (i := num x) ?_)
    rw [List.getElem?_take_of_lt hlt, el.pt x hx]
  have hvert : ∀ v < poly.num, ev2 q (V v) = 0 := fun v hv => hnode (.vertex v) (.vertex v hv) (by rw [el.vertex, hbas]; omega)
  have hedge : ∀ t < poly.num, ∀ j < k - 1,
      ev2 q (segPoint (polyEdge poly.num V (poly.dirs.getD t true) t).1 (polyEdge poly.num V (poly.dirs.getD t true) t).2 (((j + 1 : Nat) : ℝ) / (k : ℝ))) = 0 := by
    intro t ht j hj
    refine hnode (.edge t j) (.edge t j ht hj) ?_
    rw [el.edge, hbas]
    have : t * (k - 1) + (k - 1) ≤ poly.num * (k - 1) := by
      rw [← Nat.succ_mul]
      exact Nat.mul_le_mul_right _ ht
    omega
  have hmod : ∀ t, (t + 1) % poly.num < poly.num := fun t => Nat.mod_lt _ (by omega)
  have hline : ∀ t < poly.num, ∀ τ, ev2 q (segPoint (V t) (V ((t + 1) % poly.num)) τ) = 0 := by
    intro t ht τ
    have hcast : ∀ j ∈ Finset.range (k + 1), ∀ i ∈ Finset.range (k + 1), ((j : ℝ) / k) = (i : ℝ) / k → j = i := by
      intro j _ i _ h
      rw [div_left_inj' hk0] at h
      exact_mod_cast h
    refine zero_on_line hq _ _ ((Finset.range (k + 1)).image fun j : Nat => (j : ℝ) / k) ?_ ?_ τ
    · rw [Finset.card_image_of_injOn (fun j hj i hi h => hcast j hj i hi h), Finset.card_range]
    · intro σ hσ
      obtain ⟨j, hj, rfl⟩ := Finset.mem_image.1 hσ
      have hj := Finset.mem_range.1 hj
      by_cases h1 : j = 0
      · rw [h1]
        simpa [segPoint] using hvert t ht
      by_cases h2 : j = k
      · rw [h2, div_self hk0]
        simpa [segPoint] using hvert _ (hmod t)
      · by_cases hd : poly.dirs.getD t true = true
        · have := hedge t ht (j - 1) (by omega)
          rw [hd, show j - 1 + 1 = j by omega] at this
          simpa [polyEdge] using this
        · have := hedge t ht (k - j - 1) (by omega)
          rw [Bool.eq_false_iff.2 hd, show k - j - 1 + 1 = k - j by omega, Nat.cast_sub (by omega)] at this
          rw [← this]
          congr 1
          simp only [polyEdge, Bool.false_eq_true, if_false, segPoint, Prod.mk.injEq]
          constructor <;> field_simp <;> ring
  have hcen : 3 ≤ k → ev2 q c = 0 := fun h3 => hnode .centre .centre (by rw [hbas]; exact el.centre.2 h3)
  refine zero_of_lines hq c S V (fun t => V ((t + 1) % poly.num)) ?_ hdiff (fun t ht => hline t (hS t ht)) ?_
  · intro t ht h
    have htl := hS t ht
    have hm : poly.maps[t]? = some (poly.maps[t]'(by rw [hF.maps]; exact htl)) := List.getElem?_eq_getElem _
    generalize poly.maps[t]'(by rw [hF.maps]; exact htl) = m at hm
    obtain ⟨e0, e1, e2⟩ := hF.vertices t htl m hm
    obtain ⟨i1, i2, i3, i4⟩ := hF.inverse m (List.mem_of_getElem? hm)
    rw [← e0, ← e1, ← e2] at h
    simp [area2, triVertex, refVertex] at h
    have hdet : (m.b00 * m.b11 - m.b01 * m.b10) * (m.i00 * m.i11 - m.i01 * m.i10) = 1 := by
      have e : (m.b00 * m.b11 - m.b01 * m.b10) * (m.i00 * m.i11 - m.i01 * m.i10) =
          (m.i00 * m.b00 + m.i01 * m.b10) * (m.i10 * m.b01 + m.i11 * m.b11) - (m.i00 * m.b01 + m.i01 * m.b11) * (m.i10 * m.b00 + m.i11 * m.b10) := by ring
      rw [e, i1, i2, i3, i4]
      ring
    have : m.b00 * m.b11 - m.b01 * m.b10 = 0 := by linear_combination h
    rw [this, zero_mul] at hdet
    exact zero_ne_one hdet
  · rcases hcard with h | ⟨h3, h⟩
    · exact .inl h
    · exact .inr ⟨h, hcen h3⟩

end PolyDiM
