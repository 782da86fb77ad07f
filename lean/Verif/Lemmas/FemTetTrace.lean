import Verif.Lemmas.FemTetFaces
import Verif.Lemmas.Trace

/-! Helper lemmas: DOFs and basis functions of the local space of the tetrahedron, and their traces on the faces. -/

namespace PolyDiM
open Spec

variable {K : Type} [Field K]

theorem tetSpace_dof [CharZero K] {k : Nat} {s : TetSpace K} {m : TetMap K} (hr : s.ref = tetRef K k) (hm : s.map = m)
    (hp : s.order.Perm (List.range (tet (k + 2)))) {i c : Nat} (hi : s.order[i]? = some c) :
    ∃ t, (tetTypes k)[i]? = some t ∧ tetDof s c = .ok (tetF m (tetPos K (k + 1) t)) ∧
      ∀ x, tetPhysValue s x c = .ok (tetPhi ((k + 1 : Nat) : K) t (tetFInv m x)) := by
  have hil : i < tet (k + 2) := by
    have h1 := (List.getElem?_eq_some_iff.1 hi).1
    have h2 := hp.length_eq
    rw [List.length_range] at h2
    omega
  have hl := tetTypes_length k
  obtain ⟨t, ht⟩ : ∃ t, (tetTypes k)[i]? = some t := ⟨_, List.getElem?_eq_getElem (by omega)⟩
  refine ⟨t, ht, ?_, fun x => ?_⟩
  · unfold tetDof
    rw [tetSource_ok hp hi, except_ok_bind, hr, (unchecked_ok_iff _ _ _).2 (tetPos_get ht), except_ok_bind, hm]
  · unfold tetPhysValue
    rw [tetSource_ok hp hi, except_ok_bind, hr, hm, tetValue_ok ht]

omit [Field K] in
theorem order_get {s : TetSpace K} {N c : Nat} (hp : s.order.Perm (List.range N)) (hc : c < N) : ∃ i : Nat, s.order[i]? = some c := by
  have : c ∈ s.order := hp.mem_iff.2 (List.mem_range.2 hc)
  exact List.mem_iff_getElem?.1 this

/-- The reference coordinates of a point of a face. -/
theorem face_bary {m : TetMap K} (hm : IsInverse3 m) {a b c : Nat} (h : Three a b c) (q : K × K) :
    ∃ y, tetFInv m ((1 - q.1 - q.2) • tetVertex m a + q.1 • tetVertex m b + q.2 • tetVertex m c) = y ∧
      ∀ v, v < 4 → baryCoord y v = faceWeight a b c (1 - q.1 - q.2, q.1, q.2) v := by
  let w := faceWeight a b c ((1 - q.1 - q.2, q.1, q.2) : K × K × K)
  obtain ⟨⟨ha, hb, hc⟩, hab, hbc, hac⟩ := h
  have hsum : w 0 + w 1 + w 2 + w 3 = 1 := by
    simp only [w, faceWeight]
    interval_cases a <;> interval_cases b <;> first
      | exact absurd rfl hab
      | (interval_cases c <;> first
          | exact absurd rfl hbc
          | exact absurd rfl hac
          | (simp; try ring))
  have hw0 : w 0 = 1 - w 1 - w 2 - w 3 := by linear_combination hsum
  refine ⟨(w 1, w 2, w 3), ?_, ?_⟩
  · rw [← comb_face m ha hb hc hab hbc hac (1 - q.1 - q.2, q.1, q.2)]
    have := tetF_comb m (w 1, w 2, w 3)
    dsimp only at this
    rw [← hw0] at this
    rw [← this, tetFInv_tetF hm]
  · intro v hv
    interval_cases v
    · exact hw0.symm
    · rfl
    · rfl
    · rfl

theorem tetPhi_bary (k : K) (t : TetType) (x : Vec3 K) : tetPhi k t x =
    bq (k * baryCoord x 0) (tetWeight t 0) * (bq (k * baryCoord x 1) (tetWeight t 1) * (bq (k * baryCoord x 2) (tetWeight t 2) *
      bq (k * baryCoord x 3) (tetWeight t 3))) := rfl

/-- The vertex opposite to a face. -/
theorem Three.opp {a b c : Nat} (h : Three a b c) : ∃ d, d < 4 ∧ d ≠ a ∧ d ≠ b ∧ d ≠ c := by
  obtain ⟨⟨ha, hb, hc⟩, hab, hbc, hac⟩ := h
  obtain ⟨-, -, h4, h1, h2, h3⟩ := face_tables ha hb hc hab hbc hac
  exact ⟨_, by omega, h1, h2, h3⟩

/-- Trace of a basis function on a face. -/
theorem tetPhi_face [CharZero K] {m : TetMap K} (hm : IsInverse3 m) {a b c d : Nat} (h : Three a b c) (hd : d < 4 ∧ d ≠ a ∧ d ≠ b ∧ d ≠ c)
    (k : K) (t : TetType) (q : K × K) :
    tetPhi k t (tetFInv m ((1 - q.1 - q.2) • tetVertex m a + q.1 • tetVertex m b + q.2 • tetVertex m c)) =
      if tetWeight t d = 0 then triPhi k (tetWeight t a, tetWeight t b, tetWeight t c) q.1 q.2 else 0 := by
  obtain ⟨y, hy, hw⟩ := face_bary hm h q
  rw [hy, tetPhi_bary, hw 0 (by omega), hw 1 (by omega), hw 2 (by omega), hw 3 (by omega)]
  clear hw hy
  obtain ⟨⟨ha, hb, hc⟩, hab, hbc, hac⟩ := h
  obtain ⟨hd, hda, hdb, hdc⟩ := hd
  unfold triPhi faceWeight
  interval_cases a <;> interval_cases b <;> first
    | exact absurd rfl hab
    | (interval_cases c <;> first
        | exact absurd rfl hbc
        | exact absurd rfl hac
        | (interval_cases d <;> first
            | exact absurd rfl hda
            | exact absurd rfl hdb
            | exact absurd rfl hdc
            | (simp only [reduceIte, reduceCtorEq, OfNat.ofNat_ne_zero, OfNat.ofNat_ne_one, one_ne_zero, zero_ne_one, OfNat.zero_ne_ofNat,
                OfNat.one_ne_ofNat, mul_zero, bq_zero_left, Nat.reduceEqDiff]
               split_ifs <;> ring)))

theorem liftType_of_zero {a b c d : Nat} (h : Three a b c) (hd : d < 4 ∧ d ≠ a ∧ d ≠ b ∧ d ≠ c) (t : TetType) (h0 : tetWeight t d = 0) :
    t = liftType a b c (tetWeight t a, tetWeight t b, tetWeight t c) := by
  obtain ⟨⟨ha, hb, hc⟩, hab, hbc, hac⟩ := h
  obtain ⟨hd, hda, hdb, hdc⟩ := hd
  have hw : ∀ v, v < 4 → tetWeight t v = faceWeight a b c (tetWeight t a, tetWeight t b, tetWeight t c) v := by
    intro v hv
    unfold faceWeight
    split_ifs with h1 h2 h3
    · rw [h1]
    · rw [h2]
    · rw [h3]
    · rw [show v = d by omega, h0]
  exact Prod.ext (hw 0 (by omega)) (Prod.ext (hw 1 (by omega)) (Prod.ext (hw 2 (by omega)) (hw 3 (by omega))))

theorem liftType_three {a b c : Nat} (h : Three a b c) (t : TriType) : tetWeight (liftType a b c t) a = t.1 ∧ tetWeight (liftType a b c t) b = t.2.1 ∧
    tetWeight (liftType a b c t) c = t.2.2 ∧ ∀ d, d < 4 → d ≠ a → d ≠ b → d ≠ c → tetWeight (liftType a b c t) d = 0 := by
  obtain ⟨⟨ha, hb, hc⟩, hab, hbc, hac⟩ := h
  refine ⟨?_, ?_, ?_, fun d hd h1 h2 h3 => ?_⟩
  · rw [liftType_weight _ _ _ _ _ ha]; simp [faceWeight]
  · rw [liftType_weight _ _ _ _ _ hb]; simp [faceWeight, hab.symm]
  · rw [liftType_weight _ _ _ _ _ hc]; simp [faceWeight, hac.symm, hbc.symm]
  · rw [liftType_weight _ _ _ _ _ hd]; simp [faceWeight, h1, h2, h3]

/-- Position of a DOF on a face. -/
theorem tetF_liftType [CharZero K] (m : TetMap K) {k a b c : Nat} (h : Three a b c) {t : TriType} (hs : t.1 + t.2.1 + t.2.2 = k + 1) :
    tetF m (tetPos K (k + 1) (liftType a b c t)) = ((t.1 : K) / ((k + 1 : Nat) : K)) • tetVertex m a + ((t.2.1 : K) / ((k + 1 : Nat) : K)) • tetVertex m b +
      ((t.2.2 : K) / ((k + 1 : Nat) : K)) • tetVertex m c := by
  obtain ⟨⟨ha, hb, hc⟩, hab, hbc, hac⟩ := h
  rw [tetF_pos m ((liftType_sum ha hb hc hab hbc hac t).trans hs)]
  have e := comb_face m ha hb hc hab hbc hac ((t.1 : K) / ((k + 1 : Nat) : K), (t.2.1 : K) / ((k + 1 : Nat) : K), (t.2.2 : K) / ((k + 1 : Nat) : K))
  have hw : ∀ v, faceWeight a b c ((t.1 : K) / ((k + 1 : Nat) : K), (t.2.1 : K) / ((k + 1 : Nat) : K), (t.2.2 : K) / ((k + 1 : Nat) : K)) v =
      ((faceWeight a b c t v : Nat) : K) / ((k + 1 : Nat) : K) := by
    intro v
    unfold faceWeight
    split_ifs <;> simp
  rw [hw, hw, hw, hw] at e
  exact e

theorem triF_FInv {m : TriMap K} (h : IsInverse m) (p : K × K) : triF m (triFInv m p) = p := by
  obtain ⟨h1, h2, h3, h4⟩ := h
  have hD : (m.b00 * m.b11 - m.b01 * m.b10) * (m.i00 * m.i11 - m.i01 * m.i10) = 1 := by
    linear_combination (m.i10 * m.b01 + m.i11 * m.b11) * h1 + h4 - (m.i10 * m.b00 + m.i11 * m.b10) * h2
  unfold triF triFInv
  have e1 : m.b00 = m.i11 * (m.b00 * m.b11 - m.b01 * m.b10) := by linear_combination (-m.b00) * h4 + m.b01 * h3
  have e2 : m.b01 = -m.i01 * (m.b00 * m.b11 - m.b01 * m.b10) := by linear_combination (-m.b01) * h1 + m.b00 * h2
  have e3 : m.b10 = -m.i10 * (m.b00 * m.b11 - m.b01 * m.b10) := by linear_combination (-m.b10) * h4 + m.b11 * h3
  have e4 : m.b11 = m.i00 * (m.b00 * m.b11 - m.b01 * m.b10) := by linear_combination (-m.b11) * h1 + m.b10 * h2
  generalize m.b00 * m.b11 - m.b01 * m.b10 = D at *
  rw [e1, e2, e3, e4]
  refine Prod.ext ?_ ?_
  · dsimp only
    linear_combination (p.1 - m.o0) * hD
  · dsimp only
    linear_combination (p.2 - m.o1) * hD

/-! ### Derivatives along a curve -/

theorem tetLambda_path {y : ℝ → Vec3 ℝ} {w : Vec3 ℝ} {s : ℝ} (h0 : HasDerivAt (fun s => (y s).1) w.1 s) (h1 : HasDerivAt (fun s => (y s).2.1) w.2.1 s)
    (h2 : HasDerivAt (fun s => (y s).2.2) w.2.2 s) (i : Nat) :
    HasDerivAt (fun s => (tetLambda (y s)).getD i 0)
      (w.1 * (tetGradLambda ℝ 0).getD i 0 + w.2.1 * (tetGradLambda ℝ 1).getD i 0 + w.2.2 * (tetGradLambda ℝ 2).getD i 0) s := by
  rcases i with _ | _ | _ | _ | i
  · refine (((h0.const_sub 1).sub h1).sub h2).congr_deriv ?_
    simp [tetGradLambda]
    ring
  · refine h0.congr_deriv ?_
    simp [tetGradLambda]
  · refine h1.congr_deriv ?_
    simp [tetGradLambda]
  · refine h2.congr_deriv ?_
    simp [tetGradLambda]
  · simpa [tetLambda, tetGradLambda] using hasDerivAt_const s (0 : ℝ)

theorem tetPhi_path {k : Nat} {t : TetType} (h : t.1 + t.2.1 + t.2.2.1 + t.2.2.2 = k + 1) {y : ℝ → Vec3 ℝ} {w : Vec3 ℝ} {s : ℝ}
    (h0 : HasDerivAt (fun s => (y s).1) w.1 s) (h1 : HasDerivAt (fun s => (y s).2.1) w.2.1 s) (h2 : HasDerivAt (fun s => (y s).2.2) w.2.2 s)
    (hne : ∀ a ∈ tetFactors t, tetFac (k + 1) (y s) a ≠ 0) :
    HasDerivAt (fun s => tetPhi ((k + 1 : Nat) : ℝ) t (y s))
      (w.1 * ((tetFactors t).map fun a => (tetGradLambda ℝ 0).getD a.1 0 * tetPhi ((k + 1 : Nat) : ℝ) t (y s) / tetFac (k + 1) (y s) a).sum +
       w.2.1 * ((tetFactors t).map fun a => (tetGradLambda ℝ 1).getD a.1 0 * tetPhi ((k + 1 : Nat) : ℝ) t (y s) / tetFac (k + 1) (y s) a).sum +
       w.2.2 * ((tetFactors t).map fun a => (tetGradLambda ℝ 2).getD a.1 0 * tetPhi ((k + 1 : Nat) : ℝ) t (y s) / tetFac (k + 1) (y s) a).sum) s := by
  have := hasDerivAt_prod_log (tetFactors t) (fun a s => tetFac (k + 1) (y s) a) (fun a => w.1 * (tetGradLambda ℝ 0).getD a.1 0 +
      w.2.1 * (tetGradLambda ℝ 1).getD a.1 0 + w.2.2 * (tetGradLambda ℝ 2).getD a.1 0) s
    (fun a _ => (hasDerivAt_sub_const_iff _).2 (tetLambda_path h0 h1 h2 a.1)) hne
  have h3 := this.div_const (tetProduct (k + 1) (tetLambda (tetPos ℝ (k + 1) t)) t)
  have e : (fun s => tetPhi ((k + 1 : Nat) : ℝ) t (y s)) = fun s =>
      ((tetFactors t).map fun a => tetFac (k + 1) (y s) a).prod / tetProduct (k + 1) (tetLambda (tetPos ℝ (k + 1) t)) t := by
    funext s
    rw [← tetDen h, tetProduct_fac (k + 1) (y s)]
  rw [e]
  refine h3.congr_deriv ?_
  rw [← tetDen h, tetProduct_fac (k + 1) (y s), div_eq_mul_inv, ← List.sum_map_mul_right, ← List.sum_map_mul_left, ← List.sum_map_mul_left,
    ← List.sum_map_mul_left, ← List.sum_map_add, ← List.sum_map_add]
  congr 1
  apply List.map_congr_left
  intro a _
  generalize ((tetFactors t).map (tetFac (k + 1) (y s))).prod = P
  generalize tetFac (k + 1) (y s) a = q
  generalize (tetGradLambda ℝ 0).getD a.1 0 = g
  generalize (tetGradLambda ℝ 1).getD a.1 0 = g'
  generalize (tetGradLambda ℝ 2).getD a.1 0 = g''
  ring

/-- The reference derivatives give the derivative along every curve. -/
theorem tetDerivative_path {k i : Nat} {t : TetType} (ht : (tetTypes k)[i]? = some t) (x : Vec3 ℝ)
    (hx : k = 0 ∨ ∀ a ∈ tetFactors t, tetFac (k + 1) x a ≠ 0) :
    ∃ g0 g1 g2, tetDerivative (tetRef ℝ k) x i 0 = .ok g0 ∧ tetDerivative (tetRef ℝ k) x i 1 = .ok g1 ∧ tetDerivative (tetRef ℝ k) x i 2 = .ok g2 ∧
      ∀ (y : ℝ → Vec3 ℝ) (w : Vec3 ℝ) (s : ℝ), y s = x → HasDerivAt (fun s => (y s).1) w.1 s → HasDerivAt (fun s => (y s).2.1) w.2.1 s →
        HasDerivAt (fun s => (y s).2.2) w.2.2 s →
        HasDerivAt (fun s => tetPhi ((k + 1 : Nat) : ℝ) t (y s)) (w.1 * g0 + w.2.1 * g1 + w.2.2 * g2) s := by
  by_cases hk : k = 0
  · subst hk
    have hval : ∀ y, tetPhi ((0 + 1 : Nat) : ℝ) t y = (tetLambda y).getD i 0 := by
      intro y
      have h1 := tetValue_ok (K := ℝ) ht y
      unfold tetValue at h1
      rw [if_pos (show (tetRef ℝ 0).order = 1 from rfl), unchecked_ok_iff] at h1
      simp [h1]
    have hg : ∀ dir, tetDerivative (tetRef ℝ 0) x i dir = .ok ((tetGradLambda ℝ dir).getD i 0) := by
      intro dir
      unfold tetDerivative
      rw [if_pos (show (tetRef ℝ 0).order = 1 from rfl), unchecked_ok_iff]
      have hi : i < 4 := by
        have := (List.getElem?_eq_some_iff.1 ht).1
        rw [tetTypes_length] at this
        exact this
      simp [tetGradLambda, hi]
    refine ⟨_, _, _, hg 0, hg 1, hg 2, fun y w s _ h0 h1 h2 => ?_⟩
    simp only [hval]
    exact tetLambda_path h0 h1 h2 i
  · have hne := hx.resolve_left hk
    have hg := fun dir => tetDerivative_ok hk ht x dir
    simp only [if_pos hne] at hg
    refine ⟨_, _, _, hg 0, hg 1, hg 2, fun y w s hy h0 h1 h2 => ?_⟩
    subst hy
    exact tetPhi_path (tetTypes_sum ht) h0 h1 h2 hne

end PolyDiM
