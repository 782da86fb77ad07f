import Verif.Lemmas.OrthoProj
import Verif.Lemmas.VemDof
import Verif.Lemmas.BrinkmanCell
import Verif.Props.Vem

/-!
# Lemmas: the whole space with an orthonormal basis
-/

namespace PolyDiM

open Spec MvPolynomial MeasureTheory

section
variable {k n : Nat} {c : ℝ × ℝ} {h m : ℝ} {internal : Rule (ℝ × ℝ) ℝ} {bnd : EdgesRule ℝ} {H QI Q : DMat ℝ}

/-- The degrees of freedom over monomials that belong to degrees of freedom over the orthonormal basis. -/
noncomputable def monoDofs (L M : Nat) (QI : DMat ℝ) (v : Nat → ℝ) (b : Nat) : ℝ := if b < L then v b else ∑ l ∈ Finset.range M, QI.ent (b - L) l * v (L + l)

theorem monoDofs_low {L M : Nat} {v : Nat → ℝ} {b : Nat} (hb : b < L) : monoDofs L M QI v b = v b := if_pos hb

theorem monoDofs_high {L M : Nat} {v : Nat → ℝ} (r : Nat) : monoDofs L M QI v (L + r) = ∑ l ∈ Finset.range M, QI.ent r l * v (L + l) := by
  unfold monoDofs
  rw [if_neg (by omega), Nat.add_sub_cancel_left]

/-- A matrix whose entries for the moments go through the change of basis. -/
theorem moments_apply {L M : Nat} {e f : Nat → ℝ} (g : Nat → ℝ) (he : ∀ b < L, e b = f b) (hf : ∀ r < M, f (L + r) = g r)
    (hi : ∀ l < M, e (L + l) = ∑ r ∈ Finset.range M, g r * QI.ent r l) (v : Nat → ℝ) :
    ∑ b ∈ Finset.range (L + M), e b * v b = ∑ b ∈ Finset.range (L + M), f b * monoDofs L M QI v b := by
  rw [sum_split, sum_split]
  congr 1
  · refine Finset.sum_congr rfl fun b hb => ?_
    rw [he b (Finset.mem_range.1 hb), monoDofs_low (Finset.mem_range.1 hb)]
  · have h1 : ∀ l ∈ Finset.range M, e (L + l) * v (L + l) = ∑ r ∈ Finset.range M, g r * QI.ent r l * v (L + l) := fun l hl => by
      rw [hi l (Finset.mem_range.1 hl), Finset.sum_mul]
    have h2 : ∀ r ∈ Finset.range M, f (L + r) * monoDofs L M QI v (L + r) = ∑ l ∈ Finset.range M, g r * QI.ent r l * v (L + l) := fun r hr => by
      rw [hf r (Finset.mem_range.1 hr), monoDofs_high, Finset.mul_sum]
      exact Finset.sum_congr rfl fun l _ => by ring
    rw [Finset.sum_congr rfl h1, Finset.sum_congr rfl h2, Finset.sum_comm]

/-- A solution of the system of the new basis gives a solution of the system over monomials. -/
theorem nabla_transfer (hk : 1 ≤ k) (hB : OBasis k c h internal.points internal.weights H QI Q) {G B G' B' : DMat ℝ} {W : Nat → Nat → ℝ}
    (hM : NablaOk k c h m internal bnd G B) (hO : ONablaOk k c h m internal bnd QI Q G' B' W) (x v : Nat → ℝ)
    (hx : ∀ i < tri (k + 1), ∑ j ∈ Finset.range (tri (k + 1)), G'.ent i j * x j = ∑ b ∈ Finset.range (bnd.points.length + tri (k - 1)), B'.ent i b * v b) :
    ∀ a < tri (k + 1), ∑ j ∈ Finset.range (tri (k + 1)), G.ent a j * ∑ i ∈ Finset.range (tri (k + 1)), x i * Q.ent i j
      = ∑ b ∈ Finset.range (bnd.points.length + tri (k - 1)), B.ent a b * monoDofs bnd.points.length (tri (k - 1)) QI v b := by
  have hp0 : 0 < tri (k + 1) := by rw [tri_succ]; omega
  set P := oCombo k c h Q (tri (k + 1)) x with hP
  have hPc : P = combo k c h (tri (k + 1)) fun j => ∑ i ∈ Finset.range (tri (k + 1)), x i * Q.ent i j := oCombo_eq _ _
  -- the gradient part as a functional
  let F : MvPolynomial (Fin 2) ℝ →ₗ[ℝ] ℝ := (quadLin internal.points internal.weights).comp ((LinearMap.mulRight ℝ (pderiv 0 P)).comp (pderiv 0).toLinearMap)
    + (quadLin internal.points internal.weights).comp ((LinearMap.mulRight ℝ (pderiv 1 P)).comp (pderiv 1).toLinearMap)
  have hF : ∀ z, F z = quadLin internal.points internal.weights (pderiv 0 z * pderiv 0 P) + quadLin internal.points internal.weights (pderiv 1 z * pderiv 1 P) := fun z => rfl
  let R : Nat → ℝ := fun a => ∑ b ∈ Finset.range (bnd.points.length + tri (k - 1)), W a b * v b
  have hlin : ∀ (w : List ℝ) (pts : List (ℝ × ℝ)) (d : Fin 2) (z : MvPolynomial (Fin 2) ℝ), quadLin pts w (z * pderiv d P)
      = ∑ j ∈ Finset.range (tri (k + 1)), quadLin pts w (z * pderiv d (oPoly k c h Q j)) * x j := by
    intro w pts d z
    rw [hP, oCombo, map_sum, Finset.mul_sum, map_sum]
    refine Finset.sum_congr rfl fun j _ => ?_
    rw [pderiv_C_mul, show z * (C (x j) * pderiv d (oPoly k c h Q j)) = C (x j) * (z * pderiv d (oPoly k c h Q j)) by ring, quadLin_C_mul, mul_comm]
  have hzero : pderiv 0 (basisPoly k c h 0) = 0 ∧ pderiv 1 (basisPoly k c h 0) = 0 := by
    rw [basisPoly_zero]
    simp
  have hR0 : R 0 = 0 := by
    refine (sum_split _ _ _).trans ?_
    rw [Finset.sum_eq_zero, Finset.sum_eq_zero, add_zero]
    · intro l hl
      rw [hO.wInt 0 hp0 l (Finset.mem_range.1 hl), Finset.sum_eq_zero, zero_mul]
      intro r _
      rw [lap_zero_row]
      simp
    · intro b hb
      rw [hO.wBnd 0 hp0 b _ (List.getElem?_eq_getElem (Finset.mem_range.1 hb)), hzero.1, hzero.2]
      simp [ev2]
  have hdiff : ∀ a < tri (k + 1), F (basisPoly k c h a) - R a = 0 := by
    refine lower_inj hB (r := fun a => F (basisPoly k c h a) - R a) fun i hi => ?_
    simp only [mul_sub, Finset.sum_sub_distrib]
    rw [← lin_oPoly, sub_eq_zero]
    by_cases hi0 : i = 0
    · subst hi0
      have h1 : ∀ a ∈ Finset.range (tri (k + 1)), Q.ent 0 a * R a = 0 := by
        intro a ha
        by_cases ha0 : a = 0
        · rw [ha0, hR0, mul_zero]
        · rw [hB.qLower 0 hp0 a (Finset.mem_range.1 ha) (by omega), zero_mul]
      have h2 : ∀ a ∈ Finset.range (tri (k + 1)), Q.ent 0 a * F (basisPoly k c h a) = 0 := by
        intro a ha
        by_cases ha0 : a = 0
        · rw [ha0, hF, hzero.1, hzero.2]
          simp
        · rw [hB.qLower 0 hp0 a (Finset.mem_range.1 ha) (by omega), zero_mul]
      rw [lin_oPoly, Finset.sum_eq_zero h2, Finset.sum_eq_zero h1]
    · have hi0 : 0 < i := by omega
      rw [hF, hlin, hlin, ← Finset.sum_add_distrib]
      have h1 : ∀ j ∈ Finset.range (tri (k + 1)), quadLin internal.points internal.weights (pderiv 0 (oPoly k c h Q i) * pderiv 0 (oPoly k c h Q j)) * x j
          + quadLin internal.points internal.weights (pderiv 1 (oPoly k c h Q i) * pderiv 1 (oPoly k c h Q j)) * x j = G'.ent i j * x j := fun j hj => by
        rw [hO.gEnt i hi hi0 j (Finset.mem_range.1 hj)]
        ring
      rw [Finset.sum_congr rfl h1, hx i hi]
      have h2 : ∀ b ∈ Finset.range (bnd.points.length + tri (k - 1)), B'.ent i b * v b = ∑ a ∈ Finset.range (tri (k + 1)), Q.ent i a * (W a b * v b) := fun b hb => by
        rw [hO.bEnt i hi hi0 b (Finset.mem_range.1 hb), Finset.sum_mul]
        exact Finset.sum_congr rfl fun a _ => by ring
      rw [Finset.sum_congr rfl h2, Finset.sum_comm]
      exact Finset.sum_congr rfl fun a _ => by rw [Finset.mul_sum]
  intro a ha
  by_cases ha0 : a = 0
  · subst ha0
    rw [row_zero hM, ← hPc]
    have hfirst : (if k = 1 then quadLin bnd.points bnd.weights P else quadLin internal.points internal.weights P)
        = ∑ j ∈ Finset.range (tri (k + 1)), G'.ent 0 j * x j := by
      have : ∀ F : MvPolynomial (Fin 2) ℝ →ₗ[ℝ] ℝ, F P = ∑ j ∈ Finset.range (tri (k + 1)), F (oPoly k c h Q j) * x j := by
        intro F
        rw [hP, oCombo, map_sum]
        exact Finset.sum_congr rfl fun j _ => by rw [← smul_eq_C_mul, map_smul, smul_eq_mul, mul_comm]
      split
      · rename_i h1
        rw [this]
        exact Finset.sum_congr rfl fun j hj => by rw [hO.gFirst j (Finset.mem_range.1 hj), if_pos h1]
      · rename_i h1
        rw [this]
        exact Finset.sum_congr rfl fun j hj => by rw [hO.gFirst j (Finset.mem_range.1 hj), if_neg h1]
    rw [hfirst, hx 0 hp0]
    have f1 := hM.bFirst
    have f2 := hO.bFirst
    by_cases h1 : k = 1
    · rw [if_pos h1] at f1 f2
      have ht0 : tri (k - 1) = 0 := by rw [h1]; rfl
      rw [ht0]
      refine Finset.sum_congr rfl fun b hb => ?_
      have hb : b < bnd.points.length := Finset.mem_range.1 hb
      rw [f1 b hb, f2 b hb, monoDofs_low hb]
    · rw [if_neg h1] at f1 f2
      refine moments_apply (fun r => if r = 0 then m else 0) (fun b hb => by rw [f1.1 b hb, f2.1 b hb]) (fun r hr => f1.2 r hr) (fun l hl => ?_) v
      rw [f2.2 l hl, Finset.sum_eq_single 0]
      · rw [if_pos rfl]
      · intro r _ hr
        rw [if_neg hr, zero_mul]
      · intro hn
        rw [Finset.mem_range] at hn
        omega
  · have ha0 : 0 < a := by omega
    rw [row_pos hM _ ha ha0, ← hPc, ← hF, sub_eq_zero.1 (hdiff a ha)]
    refine moments_apply (fun r => -m / (h * h) * ((compute mono2 k).lap a r : ℝ)) (fun b hb => ?_) (fun r hr => hM.bInt a ha ha0 r hr) (fun l hl => hO.wInt a ha l hl) v
    rw [hO.wBnd a ha b _ (List.getElem?_eq_getElem hb), hM.bBnd a ha ha0 b _ (List.getElem?_eq_getElem hb)]

/-- Coefficients in the two bases. -/
theorem coeff_back (hB : OBasis k c h internal.points internal.weights H QI Q) {x : Nat → ℝ} (hz : ∀ j < tri (k + 1), ∑ i ∈ Finset.range (tri (k + 1)), x i * Q.ent i j = 0) :
    ∀ i < tri (k + 1), x i = 0 := by
  intro l hl
  have : ∑ j ∈ Finset.range (tri (k + 1)), (∑ i ∈ Finset.range (tri (k + 1)), x i * Q.ent i j) * QI.ent j l = x l := by
    simp only [Finset.sum_mul]
    rw [Finset.sum_comm]
    have h1 : ∀ i ∈ Finset.range (tri (k + 1)), ∑ j ∈ Finset.range (tri (k + 1)), x i * Q.ent i j * QI.ent j l = if i = l then x i else 0 := by
      intro i hi
      have : ∀ j ∈ Finset.range (tri (k + 1)), x i * Q.ent i j * QI.ent j l = x i * (Q.ent i j * QI.ent j l) := fun j _ => by ring
      rw [Finset.sum_congr rfl this, ← Finset.mul_sum, hB.left i (Finset.mem_range.1 hi) l hl]
      split <;> simp
    rw [Finset.sum_congr rfl h1, Finset.sum_ite_eq', if_pos (Finset.mem_range.2 hl)]
  rw [← this]
  exact Finset.sum_eq_zero fun j hj => by rw [hz j (Finset.mem_range.1 hj), zero_mul]

theorem oNabla_injective (hd : Discrete k internal bnd) (hk : 1 ≤ k) (hh : h ≠ 0) (hB : OBasis k c h internal.points internal.weights H QI Q) {G B G' B' : DMat ℝ}
    {W : Nat → Nat → ℝ} (hM : NablaOk k c h m internal bnd G B) (hO : ONablaOk k c h m internal bnd QI Q G' B' W) (x : Nat → ℝ)
    (hx : ∀ i < tri (k + 1), ∑ j ∈ Finset.range (tri (k + 1)), G'.ent i j * x j = 0) : ∀ j < tri (k + 1), x j = 0 := by
  refine coeff_back hB (nabla_injective hd hk hh hM _ fun a ha => ?_)
  rw [nabla_transfer hk hB hM hO x (fun _ => 0) (fun i hi => by rw [hx i hi]; simp) a ha]
  refine Finset.sum_eq_zero fun b _ => ?_
  unfold monoDofs
  split <;> simp

/-- The energy projection is the one of the space over monomials. -/
theorem oNabla_eq (hd : Discrete k internal bnd) (hk : 1 ≤ k) (hh : h ≠ 0) (hB : OBasis k c h internal.points internal.weights H QI Q) {G B X G' B' X' : DMat ℝ}
    {W : Nat → Nat → ℝ} (hM : NablaOk k c h m internal bnd G B) (hX : Solves G B X) (hO : ONablaOk k c h m internal bnd QI Q G' B' W) (hX' : Solves G' B' X')
    (v : Nat → ℝ) : oCombo k c h Q (tri (k + 1)) (fun i => ∑ b ∈ Finset.range (bnd.points.length + tri (k - 1)), X'.ent i b * v b)
      = combo k c h (tri (k + 1)) fun j => ∑ b ∈ Finset.range (bnd.points.length + tri (k - 1)), X.ent j b * monoDofs bnd.points.length (tri (k - 1)) QI v b := by
  rw [oCombo_eq]
  have h1 := nabla_transfer hk hB hM hO (fun i => ∑ b ∈ Finset.range (bnd.points.length + tri (k - 1)), X'.ent i b * v b) v (fun i hi => by
    have := solves_apply hX' v (show i < G'.rows by rw [hO.gRows]; exact hi)
    rw [hO.gCols, hO.bCols] at this
    exact this)
  have h2 : ∀ j < tri (k + 1), _ := inj_ext (N := tri (k + 1)) (A := G.ent) (nabla_injective hd hk hh hM)
    (x := fun j => ∑ i ∈ Finset.range (tri (k + 1)), (∑ b ∈ Finset.range (bnd.points.length + tri (k - 1)), X'.ent i b * v b) * Q.ent i j)
    (y := fun j => ∑ b ∈ Finset.range (bnd.points.length + tri (k - 1)), X.ent j b * monoDofs bnd.points.length (tri (k - 1)) QI v b) (by
      intro i hi
      have := solves_apply hX (monoDofs bnd.points.length (tri (k - 1)) QI v) (show i < G.rows by rw [hM.gRows]; exact hi)
      rw [hM.gCols, hM.bCols] at this
      rw [h1 i hi, this])
  unfold combo
  exact Finset.sum_congr rfl fun j hj => congrArg (fun a => C a * _) (h2 j (Finset.mem_range.1 hj))

/-- The projection of a derivative is the one of the space over monomials. -/
theorem oDer_eq (hk : 1 ≤ k) (hh : h ≠ 0) (hB : OBasis k c h internal.points internal.weights H QI Q) {d : Fin 2} {wn : List ℝ} {E Y E' Y' : DMat ℝ}
    {W : Nat → Nat → ℝ} (hM : DerOk k bnd.points.length c h m internal bnd.points wn d E Y) (hO : ODerOk k bnd.points.length c h m bnd.points wn d QI Q E' Y' W)
    (v : Nat → ℝ) : oCombo k c h Q (tri k) (fun i => ∑ b ∈ Finset.range (bnd.points.length + tri (k - 1)), Y'.ent i b * v b)
      = combo k c h (tri k) fun j => ∑ b ∈ Finset.range (bnd.points.length + tri (k - 1)), Y.ent j b * monoDofs bnd.points.length (tri (k - 1)) QI v b := by
  have hkk : k - 1 + 1 = k := by omega
  have hle : tri k ≤ tri (k + 1) := tri_le (by omega)
  set P := oCombo k c h Q (tri k) (fun i => ∑ b ∈ Finset.range (bnd.points.length + tri (k - 1)), Y'.ent i b * v b) with hP
  set R := combo k c h (tri k) fun j => ∑ b ∈ Finset.range (bnd.points.length + tri (k - 1)), Y.ent j b * monoDofs bnd.points.length (tri (k - 1)) QI v b with hR
  have hdP : P.totalDegree ≤ k - 1 := by
    have := oCombo_degree hB (show k - 1 ≤ k by omega) (fun i => ∑ b ∈ Finset.range (bnd.points.length + tri (k - 1)), Y'.ent i b * v b)
    rwa [hkk] at this
  have hdR : R.totalDegree ≤ k - 1 := by
    have := combo_degree (k := k) (c := c) (h := h) (fun j => ∑ b ∈ Finset.range (bnd.points.length + tri (k - 1)), Y.ent j b * monoDofs bnd.points.length (tri (k - 1)) QI v b)
      (show k - 1 ≤ k by omega)
    rwa [hkk] at this
  have hz : ∀ i < tri k, quadLin internal.points internal.weights (oPoly k c h Q i * (P - R)) = 0 := by
    intro i hi
    rw [mul_sub, map_sub, hP, oPoly_oCombo hB hle (by omega), if_pos hi, sub_eq_zero]
    have h1 : ∀ b ∈ Finset.range (bnd.points.length + tri (k - 1)), Y'.ent i b * v b = ∑ a ∈ Finset.range (tri k), Q.ent i a * (W a b * v b) := fun b hb => by
      rw [hO.yEnt i hi b (Finset.mem_range.1 hb), hO.ent i hi b (Finset.mem_range.1 hb), Finset.sum_mul]
      exact Finset.sum_congr rfl fun a _ => by ring
    rw [Finset.sum_congr rfl h1, Finset.sum_comm]
    have h2 : ∀ a ∈ Finset.range (tri k), ∑ b ∈ Finset.range (bnd.points.length + tri (k - 1)), Q.ent i a * (W a b * v b)
        = Q.ent i a * quadLin internal.points internal.weights (basisPoly k c h a * R) := fun a ha => by
      have ha := Finset.mem_range.1 ha
      rw [← Finset.mul_sum, hR, hM.yEq _ a ha]
      congr 1
      refine moments_apply (fun r => -(m / h) * ((compute mono2 k).der d a r : ℝ)) (fun b hb => ?_) (fun r hr => hM.int a ha r hr) (fun l hl => hO.int a ha l hl) v
      rw [hO.bnd a ha b _ (List.getElem?_eq_getElem hb), hM.bnd a ha b _ (List.getElem?_eq_getElem hb)]
    rw [Finset.sum_congr rfl h2]
    have h3 := lin_oPoly (k := k) (c := c) (h := h) (Q := Q) ((quadLin internal.points internal.weights).comp (LinearMap.mulRight ℝ R)) i
    refine Eq.trans ?_ h3.symm
    refine Finset.sum_subset (Finset.range_subset_range.2 hle) fun j hj hj' => ?_
    have hj := Finset.mem_range.1 hj
    have hj' : tri k ≤ j := by simpa using hj'
    rw [hB.qLower i (by omega) j hj (by omega), zero_mul]
  have hspan := oCombo_span hB hh (show k - 1 ≤ k by omega) (q := P - R) ((totalDegree_sub _ _).trans (max_le hdP hdR))
  rw [hkk] at hspan
  have : P - R = 0 := by
    rw [hspan]
    unfold oCombo
    refine Finset.sum_eq_zero fun i hi => ?_
    beta_reduce
    rw [hz i (Finset.mem_range.1 hi), C_0, zero_mul]
  exact sub_eq_zero.1 this

end


section
variable {k n : Nat} {V : Nat → ℝ × ℝ} {len : Nat → ℝ} {dir : Nat → Bool} {nrm : Nat → ℝ × ℝ} {poly : VemPolygon ℝ}
  {triangle : Nat → Rule (ℝ × ℝ) ℝ} {edge : Nat → Rule ℝ ℝ} {ts ws : List ℝ} {w : ℝ} {lu llt : Solver ℝ} {lib : OrthoLib ℝ} {s : VemSpace2D ℝ} {t : OrthoSpace2D ℝ}

/-- Everything about the local space with an orthonormal basis, next to the space `s` over monomials. -/
structure OSpaceOk (k : Nat) (poly : VemPolygon ℝ) (s : VemSpace2D ℝ) (t : OrthoSpace2D ℝ) : Prop where
  internal : t.internal = s.internal
  boundary : t.boundary = s.boundary
  init : t.base.init = { s.init with H := t.base.init.H }
  nkm2 : t.base.init.nkm2 = tri (k - 1)
  basis : OBasis k poly.centroid poly.diameter s.internal.points s.internal.weights t.base.init.H t.base.qInv t.base.q
  nabla : ∃ W, ONablaOk k poly.centroid poly.diameter poly.measure s.internal s.boundary t.base.qInv t.base.q t.G t.B W
  solves : Solves t.G t.B t.piNabla
  l2 : OL2Ok k s.boundary.points.length poly.measure t.piNabla t.C t.pi0km1 t.pi0k
  derX : ∃ W, ODerOk k s.boundary.points.length poly.centroid poly.diameter poly.measure s.boundary.points s.boundary.nx 0 t.base.qInv t.base.q t.eX t.derX W
  derY : ∃ W, ODerOk k s.boundary.points.length poly.centroid poly.diameter poly.measure s.boundary.points s.boundary.ny 1 t.base.qInv t.base.q t.eY t.derY W
  dofs : ODofsOk k s.boundary.points.length poly.centroid poly.diameter poly.measure s.boundary.points t.base.q t.D

theorem orthoInit_ok {ref : VemRef2D ℝ} {internal : Rule (ℝ × ℝ) ℝ} {bnd : List (ℝ × ℝ)} {i : VemInit2D ℝ} {H QI Q : DMat ℝ} (hi : vemInit2D ref poly internal bnd = .ok i)
    (hO : mgsOrthonormalize lib internal.weights i.vanderInt = .ok (H, QI, Q)) :
    orthoInit2D lib ref poly internal bnd = .ok ⟨{ i with H := H }, QI, Q⟩ ∧ i.nkm2 = (ref.order - 1) * ref.order / 2 := by
  unfold vemInit2D at hi
  obtain ⟨a1, h1, hi⟩ := bind_inv hi
  obtain ⟨a2, h2, hi⟩ := bind_inv hi
  obtain ⟨a3, h3, hi⟩ := bind_inv hi
  obtain ⟨a4, h4, hi⟩ := bind_inv hi
  obtain ⟨a5, h5, hi⟩ := bind_inv hi
  obtain ⟨a6, h6, hi⟩ := bind_inv hi
  obtain ⟨a7, h7, hi⟩ := bind_inv hi
  obtain ⟨a8, h8, hi⟩ := bind_inv hi
  cases hi
  refine ⟨?_, rfl⟩
  unfold orthoInit2D
  dsimp only
  rw [h1, except_ok_bind, h2, except_ok_bind, h3, except_ok_bind, h4, except_ok_bind, h5, except_ok_bind, h6, except_ok_bind]
  rw [show mgsOrthonormalize lib internal.weights a1 = _ from hO, except_ok_bind]

theorem orthoCreate_ok (hE : IsElement poly n V len dir nrm) (hT : IsTables k triangle edge ts ws w) (hpos : ∀ x ∈ (triangle (2 * k)).weights, 0 ≤ x)
    (hlu : SolvesRegular lu) (hllt : SolvesPosDef llt) (hm : Orthogonalizes lib.mgs) (hi : InvertsLower lib.inverseTri)
    (hsq : ∀ x, 0 ≤ x → lib.sqrt x * lib.sqrt x = x) :
    ∃ ref s t, vemRef2D triangle edge k = .ok ref ∧ vemCreate2D lu llt ref poly = .ok s ∧ orthoCreate2D lib lu llt ref poly = .ok t ∧
      SpaceOk k n V len dir ts ws w poly s ∧ OSpaceOk k poly s t := by
  obtain ⟨ref, s, hr, hc, hs⟩ := vemCreate_ok hE hT hlu hllt
  have hk := hT.low
  have hh := hE.diameter
  obtain rfl : (⟨k, k - 1, tri (k - 1), compute mono2 k, triangle (2 * k), ts, ws, (w, w)⟩ : VemRef2D ℝ) = ref := Except.ok.inj ((vemRef_ok hT).symm.trans hr)
  have hlen' : n + (k - 1) * n = s.boundary.points.length := by rw [← hs.length, mul_comm]
  have hc0 := hc
  unfold vemCreate2D at hc0
  obtain ⟨internal, c1, hc0⟩ := bind_inv hc0
  obtain ⟨bnd, c2, hc0⟩ := bind_inv hc0
  obtain ⟨i, c3, hc0⟩ := bind_inv hc0
  obtain ⟨P, c4, hc0⟩ := bind_inv hc0
  obtain ⟨L2, c5, hc0⟩ := bind_inv hc0
  obtain ⟨EX, c6, hc0⟩ := bind_inv hc0
  obtain ⟨EY, c7, hc0⟩ := bind_inv hc0
  obtain ⟨D, c8, hc0⟩ := bind_inv hc0
  cases hc0
  obtain ⟨r, hr1, hr2⟩ := C47_weights_nonneg (triangle (2 * k)) hT.triangleLength poly.tris hpos
  obtain rfl : r = internal := Except.ok.inj (hr1.symm.trans c1)
  have hI := hs.init
  have hD := hs.discrete
  have hN := hs.nabla
  dsimp only at hI hD hN hlen'
  obtain ⟨H, QI, Q, hO, hB⟩ := mgs_ok hm hi hsq hD.wlen hr2 hI.vanderInt (gram_injective hD hh le_rfl)
  obtain ⟨hoi, hnk⟩ := orthoInit_ok c3 hO
  have hnk : i.nkm2 = tri (k - 1) := by
    rw [hnk, ← tri_div', show k - 1 + 1 = k by omega]
  obtain ⟨G, B, W, hGB, hNO⟩ := orthoPiNabla_ok (m := poly.measure) lu (⟨k, k - 1, tri (k - 1), compute mono2 k, triangle (2 * k), ts, ws, (w, w)⟩ : VemRef2D ℝ) rfl rfl hI hnk hD hk hlen' hsq hr2 hB
  have hS : Solves G B (lu G B) := hlu G B (hNO.gRows.trans hNO.gCols.symm) (hNO.bRows.trans hNO.gRows.symm) (by
    rw [hNO.gRows, hNO.gCols]
    exact fun x hx => oNabla_injective hD hk hh hB hN hNO x hx)
  obtain ⟨C, Y, Z, hL, hLok⟩ := orthoL2_ok (m := poly.measure) hI hk hlen' hB hllt (lu G B) (hS.1.trans hNO.gCols) (hS.2.1.trans hNO.bCols)
  obtain ⟨EX', X, WX, hX, hXok⟩ := orthoDer_ok (m := poly.measure) hI hnk hlen' hB hllt bnd.nx hD.xlen 0
  obtain ⟨EY', X', WY, hY, hYok⟩ := orthoDer_ok (m := poly.measure) hI hnk hlen' hB hllt bnd.ny hD.ylen 1
  obtain ⟨D', hDo, hDok⟩ := orthoDofs_ok (m := poly.measure) hI hlen' hB
  refine ⟨_, _, ⟨⟨{ i with H := H }, QI, Q⟩, r, bnd, G, B, lu G B, C, Y, Z, EX', EY', X, X', D'⟩, hr, hc, ?_, hs, rfl, rfl, rfl, hnk, hB, ⟨W, hNO⟩, hS, hLok, ⟨WX, hXok⟩, ⟨WY, hYok⟩, hDok⟩
  unfold orthoCreate2D
  dsimp only at c1 c2 ⊢
  simp only [Fin.val_zero, Fin.val_one] at hX hY
  rw [c1, except_ok_bind, c2, except_ok_bind, hoi, except_ok_bind, hGB, except_ok_bind, hL, except_ok_bind, hX, except_ok_bind, hY, except_ok_bind, hDo, except_ok_bind]

/-- A polynomial of the basis, at a point. -/
theorem ev2_oPoly (k : Nat) (c : ℝ × ℝ) (h : ℝ) (Q : DMat ℝ) (i : Nat) (p : ℝ × ℝ) : ev2 (oPoly k c h Q i) p = polyOf k c h (fun j => Q.ent i j) p := ev2_combo k c h le_rfl _ p

theorem ev2_oCombo (k : Nat) (c : ℝ × ℝ) (h : ℝ) (Q : DMat ℝ) (M : Nat) (x : Nat → ℝ) (p : ℝ × ℝ) : ev2 (oCombo k c h Q M x) p = orthoOf k c h Q M x p := by
  unfold oCombo orthoOf
  simp only [ev2, map_sum, map_mul, eval_C]
  exact Finset.sum_congr rfl fun i _ => by rw [← ev2_oPoly, ev2]

theorem ortho_moment (hE : IsElement poly n V len dir nrm) (hs : SpaceOk k n V len dir ts ws w poly s) {Q : DMat ℝ} {u : ℝ × ℝ → ℝ} {v : Nat → ℝ}
    (hv : IsOrthoDofs k poly Q n V dir ts u v) {l : Nat} (hl : l < tri (k - 1)) :
    poly.measure * v (s.boundary.points.length + l) = ∫ p in unionOf poly.tris, ev2 (oPoly k poly.centroid poly.diameter Q l) p * u p := by
  rw [← hs.length, hv.moment l (by rw [half_tri]; exact hl), ← mul_assoc, mul_one_div_cancel hE.measure, one_mul]
  simp only [ev2_oPoly]

/-- Degrees of freedom of a function for the orthonormal basis give those for monomials. -/
theorem dofs_back (hE : IsElement poly n V len dir nrm) (hT : IsTables k triangle edge ts ws w) (hs : SpaceOk k n V len dir ts ws w poly s) {H QI Q : DMat ℝ}
    (hB : OBasis k poly.centroid poly.diameter s.internal.points s.internal.weights H QI Q) {u : ℝ × ℝ → ℝ} (hu : IntegrableOn u (unionOf poly.tris)) {v : Nat → ℝ}
    (hv : IsOrthoDofs k poly Q n V dir ts u v) :
    IsDofVector k poly n V dir ts u (monoDofs s.boundary.points.length (tri (k - 1)) QI v) := by
  have htri := tri_sub_le k
  refine ⟨fun e he => ?_, fun e he i t ht => ?_, fun a b hab => ?_⟩
  · rw [monoDofs_low (by rw [← hs.length]; omega), hv.vertex e he]
  · have hi : i < k - 1 := by
      rw [← hT.nodes]
      exact (List.getElem?_eq_some_iff.1 ht).1
    have : e * (k - 1) + i < n * (k - 1) := by
      calc e * (k - 1) + i < e * (k - 1) + (k - 1) := by omega
        _ = (e + 1) * (k - 1) := by ring
        _ ≤ n * (k - 1) := Nat.mul_le_mul_right _ he
    rw [monoDofs_low (by rw [← hs.length]; omega), hv.node e he i t ht]
  · have hl : position a b < tri (k - 1) := by
      have := (position_lt (k := k - 2) (a := a) (b := b)).2 (by omega)
      rwa [show k - 2 + 1 = k - 1 by omega] at this
    rw [hs.length, monoDofs_high]
    have h1 : ∫ p in unionOf poly.tris, scaledMonomial poly.centroid poly.diameter a b p * u p
        = intU poly.tris hu (basisPoly k poly.centroid poly.diameter (position a b)) := by
      show _ = ∫ p in unionOf poly.tris, ev2 _ p * u p
      simp only [ev2_basis_position k _ _ (show a + b ≤ k by omega)]
    rw [h1, lin_basis hB _ (by omega), one_div, Finset.mul_sum]
    refine Eq.trans ?_ (Finset.sum_subset (Finset.range_subset_range.2 htri) fun j hj hj' => ?_)
    · refine Finset.sum_congr rfl fun l hl' => ?_
      have := ortho_moment hE hs hv (Finset.mem_range.1 hl')
      have e : intU poly.tris hu (oPoly k poly.centroid poly.diameter Q l) = poly.measure * v (s.boundary.points.length + l) := this.symm
      have := hE.measure
      rw [e]
      field_simp
    · have hj := Finset.mem_range.1 hj
      have hj' : tri (k - 1) ≤ j := by simpa using hj'
      rw [hB.iLower _ (by omega) j hj (by omega), zero_mul, mul_zero]

theorem dofsU_unique (hE : IsElement poly n V len dir nrm) {points : List (ℝ × ℝ)} {region : Set (ℝ × ℝ)} {u : ℝ × ℝ → ℝ} {v v' : Nat → ℝ}
    (hv : IsDofsU k poly.centroid poly.diameter poly.measure region points u v) (hv' : IsDofsU k poly.centroid poly.diameter poly.measure region points u v') :
    ∀ b < points.length + tri (k - 1), v b = v' b := by
  intro b hb
  by_cases h1 : b < points.length
  · rw [hv.value b _ (List.getElem?_eq_getElem h1), hv'.value b _ (List.getElem?_eq_getElem h1)]
  · obtain ⟨l, rfl⟩ : ∃ l, b = points.length + l := ⟨b - points.length, by omega⟩
    refine mul_left_cancel₀ hE.measure ?_
    rw [hv.moment l (by omega), hv'.moment l (by omega)]

end

end PolyDiM
