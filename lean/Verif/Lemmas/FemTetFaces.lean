import Verif.Lemmas.FemTetSpace
import Mathlib.Tactic.Module
import Mathlib.Tactic.LinearCombination

/-! Helper lemmas: the faces in the local space of the tetrahedron. -/

namespace PolyDiM
open Spec

variable {K : Type} [Field K]

/-! ## The map -/

theorem vec3_ext {x y : Vec3 K} (h0 : x.1 = y.1) (h1 : x.2.1 = y.2.1) (h2 : x.2.2 = y.2.2) : x = y := Prod.ext h0 (Prod.ext h1 h2)

/-- A combination of the vertices. -/
def combV (m : TetMap K) (a b c d : K) : Vec3 K := a • m.v0 + b • m.v1 + c • m.v2 + d • m.v3

theorem tetF_comb (m : TetMap K) (p : Vec3 K) : tetF m p = combV m (1 - p.1 - p.2.1 - p.2.2) p.1 p.2.1 p.2.2 := by
  unfold tetF combV
  module

theorem tetFInv_tetF {m : TetMap K} (h : IsInverse3 m) (p : Vec3 K) : tetFInv m (tetF m p) = p := by
  obtain ⟨⟨a1, a2, a3⟩, ⟨b1, b2, b3⟩, ⟨c1, c2, c3⟩⟩ := h
  unfold inner3 at *
  simp only [Prod.fst_sub, Prod.snd_sub] at *
  unfold tetFInv tetF dot3
  apply vec3_ext
  · simp only [Prod.fst_sub, Prod.snd_sub, Prod.fst_add, Prod.snd_add, Prod.smul_fst, Prod.smul_snd, smul_eq_mul]
    linear_combination p.1 * a1 + p.2.1 * a2 + p.2.2 * a3
  · simp only [Prod.fst_sub, Prod.snd_sub, Prod.fst_add, Prod.snd_add, Prod.smul_fst, Prod.smul_snd, smul_eq_mul]
    linear_combination p.1 * b1 + p.2.1 * b2 + p.2.2 * b3
  · simp only [Prod.fst_sub, Prod.snd_sub, Prod.fst_add, Prod.snd_add, Prod.smul_fst, Prod.smul_snd, smul_eq_mul]
    linear_combination p.1 * c1 + p.2.1 * c2 + p.2.2 * c3

theorem tetF_inj {m : TetMap K} (h : IsInverse3 m) {p q : Vec3 K} (he : tetF m p = tetF m q) : p = q := by
  rw [← tetFInv_tetF h p, he, tetFInv_tetF h]

theorem tetPos_inj [CharZero K] {k : Nat} {t t' : TetType} (h : t.1 + t.2.1 + t.2.2.1 + t.2.2.2 = k + 1)
    (h' : t'.1 + t'.2.1 + t'.2.2.1 + t'.2.2.2 = k + 1) (he : tetPos K (k + 1) t = tetPos K (k + 1) t') : t = t' := by
  have hk : ((k + 1 : Nat) : K) ≠ 0 := Nat.cast_ne_zero.2 (by omega)
  unfold tetPos at he
  simp only [Prod.mk.injEq, div_left_inj' hk, Nat.cast_inj] at he
  obtain ⟨a, b, c, d⟩ := t
  obtain ⟨a', b', c', d'⟩ := t'
  simp only [Prod.mk.injEq] at *
  omega

theorem tetF_pos [CharZero K] (m : TetMap K) {k : Nat} {t : TetType} (h : t.1 + t.2.1 + t.2.2.1 + t.2.2.2 = k + 1) :
    tetF m (tetPos K (k + 1) t) = combV m ((t.1 : K) / ((k + 1 : Nat) : K)) ((t.2.1 : K) / ((k + 1 : Nat) : K))
      ((t.2.2.1 : K) / ((k + 1 : Nat) : K)) ((t.2.2.2 : K) / ((k + 1 : Nat) : K)) := by
  rw [tetF_comb, tet_bary h]
  rfl

/-! ## Types of a face -/

/-- Weights on three vertices. -/
def faceWeight {α : Type} [Zero α] (a b c : Nat) (t : α × α × α) (v : Nat) : α := if v = a then t.1 else if v = b then t.2.1 else if v = c then t.2.2 else 0

/-- The type of the tetrahedron with given weights on three vertices. -/
def liftType (a b c : Nat) (t : TriType) : TetType := (faceWeight a b c t 0, faceWeight a b c t 1, faceWeight a b c t 2, faceWeight a b c t 3)

theorem liftType_weight (a b c : Nat) (t : TriType) (v : Nat) (hv : v < 4) : tetWeight (liftType a b c t) v = faceWeight a b c t v := by
  interval_cases v <;> rfl

theorem liftType_sum {a b c : Nat} (ha : a < 4) (hb : b < 4) (hc : c < 4) (hab : a ≠ b) (hbc : b ≠ c) (hac : a ≠ c) (t : TriType) :
    (liftType a b c t).1 + (liftType a b c t).2.1 + (liftType a b c t).2.2.1 + (liftType a b c t).2.2.2 = t.1 + t.2.1 + t.2.2 := by
  unfold liftType faceWeight
  interval_cases a <;> interval_cases b <;> first
    | exact absurd rfl hab
    | (interval_cases c <;> first
        | exact absurd rfl hbc
        | exact absurd rfl hac
        | (simp; try omega))

theorem liftType_inj {a b c : Nat} (ha : a < 4) (hb : b < 4) (hc : c < 4) (hab : a ≠ b) (hbc : b ≠ c) (hac : a ≠ c) {t t' : TriType}
    (h : liftType a b c t = liftType a b c t') : t = t' := by
  have hw := fun v (hv : v < 4) => (liftType_weight a b c t v hv).symm.trans ((congrArg (fun s => tetWeight s v) h).trans (liftType_weight a b c t' v hv))
  have h1 := hw a ha
  have h2 := hw b hb
  have h3 := hw c hc
  unfold faceWeight at h1 h2 h3
  rw [if_pos rfl, if_pos rfl] at h1
  rw [if_neg hab.symm, if_pos rfl, if_neg hab.symm, if_pos rfl] at h2
  rw [if_neg hac.symm, if_neg hbc.symm, if_pos rfl, if_neg hac.symm, if_neg hbc.symm, if_pos rfl] at h3
  exact Prod.ext h1 (Prod.ext h2 h3)

theorem comb_face (m : TetMap K) {a b c : Nat} (ha : a < 4) (hb : b < 4) (hc : c < 4) (hab : a ≠ b) (hbc : b ≠ c) (hac : a ≠ c) (t : K × K × K) :
    combV m (faceWeight a b c t 0) (faceWeight a b c t 1) (faceWeight a b c t 2) (faceWeight a b c t 3) =
      t.1 • tetVertex m a + t.2.1 • tetVertex m b + t.2.2 • tetVertex m c := by
  unfold combV faceWeight tetVertex
  interval_cases a <;> interval_cases b <;> first
    | exact absurd rfl hab
    | (interval_cases c <;> first
        | exact absurd rfl hbc
        | exact absurd rfl hac
        | (simp; try module))

theorem mem_faceTypes {k f : Nat} (hf : f < 4) (t : TetType) : t ∈ (tetFaceTypes k).getD f [] ↔
    t.1 + t.2.1 + t.2.2.1 + t.2.2.2 = k + 1 ∧ ∀ v, v < 4 → (tetWeight t v = 0 ↔ v = 3 - f) := by
  have hv : (∀ v, v < 4 → (tetWeight t v = 0 ↔ v = 3 - f)) ↔ ((t.1 = 0 ↔ 0 = 3 - f) ∧ (t.2.1 = 0 ↔ 1 = 3 - f) ∧ (t.2.2.1 = 0 ↔ 2 = 3 - f) ∧
      (t.2.2.2 = 0 ↔ 3 = 3 - f)) := by
    constructor
    · intro h
      exact ⟨h 0 (by omega), h 1 (by omega), h 2 (by omega), h 3 (by omega)⟩
    · rintro ⟨h0, h1, h2, h3⟩ v hv
      interval_cases v
      · exact h0
      · exact h1
      · exact h2
      · exact h3
  rw [hv]
  clear hv
  obtain ⟨a, b, c, d⟩ := t
  dsimp only
  interval_cases f <;> simp only [tetFaceTypes, List.getD_cons_zero, List.getD_cons_succ, List.mem_map, Prod.exists, mem_tetFaceLoop, Prod.mk.injEq]
  · constructor
    · rintro ⟨i, j, h, rfl, rfl, rfl, rfl⟩; simp; omega
    · intro h; simp at h; exact ⟨b - 1, c - 1, by omega, by omega, by omega, by omega, by omega⟩
  · constructor
    · rintro ⟨i, j, h, rfl, rfl, rfl, rfl⟩; simp; omega
    · intro h; simp at h; exact ⟨b - 1, d - 1, by omega, by omega, by omega, by omega, by omega⟩
  · constructor
    · rintro ⟨i, j, h, rfl, rfl, rfl, rfl⟩; simp; omega
    · intro h; simp at h; exact ⟨c - 1, d - 1, by omega, by omega, by omega, by omega, by omega⟩
  · constructor
    · rintro ⟨i, j, h, rfl, rfl, rfl, rfl⟩; simp; omega
    · intro h; simp at h; exact ⟨b - 1, c - 1, by omega, by omega, by omega, by omega, by omega⟩

theorem faceTypes_nodup {k f : Nat} (hf : f < 4) : ((tetFaceTypes k).getD f []).Nodup := by
  interval_cases f <;> simp only [tetFaceTypes, List.getD_cons_zero, List.getD_cons_succ] <;>
    refine List.Nodup.map (fun x y h => ?_) (tetFaceLoop_nodup k) <;>
    simp only [Prod.mk.injEq] at h <;> exact Prod.ext (by omega) (by omega)

theorem faceTypes_length {k f : Nat} (hf : f < 4) : ((tetFaceTypes k).getD f []).length = tri (k - 1) := by
  apply tetFaceTypes_len k
  interval_cases f <;> simp [tetFaceTypes]

theorem faceTypes_get {k f i : Nat} {t : TetType} (hf : f < 4) (h : ((tetFaceTypes k).getD f [])[i]? = some t) :
    (tetTypes k)[4 + 6 * k + f * tri (k - 1) + i]? = some t := by
  have hi := (List.getElem?_eq_some_iff.1 h).1
  rw [faceTypes_length hf] at hi
  rw [tetTypes_face k f i hf hi]
  have : (tetFaceTypes k)[f]? = some ((tetFaceTypes k).getD f []) := by
    interval_cases f <;> rfl
  rw [this]
  exact h

/-! ## The plane triangle -/

theorem triN2_eq (k : Nat) : triN2 k = tri (k - 1) := by
  have h1 := tri_counts k
  unfold triN2
  rcases k with _ | k
  · have : tri (0 + 2) = 3 := rfl
    have h0 : tri (0 - 1) = 0 := rfl
    omega
  · have e2 : tri (k + 1 + 2) = tri k + (k + 1) + (k + 2) + (k + 3) := rfl
    show _ = tri k
    omega

/-- Interior types of the triangle. -/
theorem triTypes_inner {k j : Nat} (hj : j < tri (k - 1)) : ∃ t : TriType, (triTypes k)[3 + 3 * k + j]? = some t ∧ t.1 + t.2.1 + t.2.2 = k + 1 ∧
    0 < t.1 ∧ 0 < t.2.1 ∧ 0 < t.2.2 := by
  have hl := triTypes_length k
  have hc := tri_counts k
  have h2 := triN2_eq k
  unfold triN2 at h2
  obtain ⟨t, ht⟩ : ∃ t, (triTypes k)[3 + 3 * k + j]? = some t := ⟨_, List.getElem?_eq_getElem (by omega)⟩
  refine ⟨t, ht, triTypes_sum ht, ?_⟩
  obtain ⟨d, hd, -, -, -, -, -, -, -, -, -, -, -, -, -, -, hin⟩ := C32_layout (K := ℚ) (k + 1) (by omega)
  rw [triCreate_ok] at hd
  injection hd with hd
  change triRef ℚ k = d at hd
  subst hd
  exact hin (3 + 3 * k + j) t.1 t.2.1 t.2.2 (by omega) ht

theorem lift_affine {m : TetMap K} {edges : List (Nat × Nat)} {f : TetFace K} {a b c : Nat} (h : TetFaceOk m edges f a b c) (p : K × K) :
    faceLift f (triF f.map p) = (1 - p.1 - p.2) • tetVertex m a + p.1 • tetVertex m b + p.2 • tetVertex m c := by
  rw [← h.plane0, ← h.plane1, ← h.plane2]
  unfold faceLift triF triVertex refVertex
  simp only [Nat.zero_mod, if_true, Nat.one_mod, show (1 : Nat) ≠ 0 by omega, if_false, show 2 % 3 = 2 by rfl, show (2 : Nat) ≠ 0 by omega,
    show (2 : Nat) ≠ 1 by omega, show 1 % 3 = 1 by rfl]
  module

end PolyDiM

namespace PolyDiM
open Spec

variable {K : Type} [Field K]

/-! ## Writes of a face -/

theorem mapM_map_ok {α β γ : Type} (h : β → Except Fault γ) (g : α → β) (r : α → γ) (l : List α) (H : ∀ a ∈ l, h (g a) = .ok (r a)) :
    (l.map g).mapM h = .ok (l.map r) := by
  induction l with
  | nil => rfl
  | cons a l ih =>
    rw [List.map_cons, List.mapM_cons, H a (by simp), except_ok_bind, ih fun b hb => H b (by simp [hb]), except_ok_bind]
    rfl

/-- Index, in the block of its reference face, of the DOF that matches DOF `i` of the plane triangle. -/
def faceIdx (k a b c i : Nat) : Nat := ((tetFaceTypes k).getD (faceNo a b c) []).idxOf (liftType a b c ((triTypes k).getD i (0, 0, 0)))

/-- Three different vertices. -/
def Three (a b c : Nat) : Prop := (a < 4 ∧ b < 4 ∧ c < 4) ∧ a ≠ b ∧ b ≠ c ∧ a ≠ c

theorem liftType_mem {k a b c : Nat} (h : Three a b c) {t : TriType} (hs : t.1 + t.2.1 + t.2.2 = k + 1) (h0 : 0 < t.1) (h1 : 0 < t.2.1) (h2 : 0 < t.2.2) :
    liftType a b c t ∈ (tetFaceTypes k).getD (faceNo a b c) [] := by
  obtain ⟨⟨ha, hb, hc⟩, hab, hbc, hac⟩ := h
  obtain ⟨-, -, h4, n1, n2, n3⟩ := face_tables ha hb hc hab hbc hac
  rw [mem_faceTypes h4, liftType_sum ha hb hc hab hbc hac]
  refine ⟨hs, fun v hv => ?_⟩
  rw [liftType_weight _ _ _ _ _ hv]
  unfold faceWeight
  by_cases e1 : v = a
  · rw [if_pos e1]; omega
  · by_cases e2 : v = b
    · rw [if_neg e1, if_pos e2]; omega
    · by_cases e3 : v = c
      · rw [if_neg e1, if_neg e2, if_pos e3]; omega
      · rw [if_neg e1, if_neg e2, if_neg e3]
        omega

theorem faceIdx_get {k a b c j : Nat} (h : Three a b c) (hj : j < tri (k - 1)) :
    ∃ t : TriType, (triTypes k)[3 + 3 * k + j]? = some t ∧ t.1 + t.2.1 + t.2.2 = k + 1 ∧
      ((tetFaceTypes k).getD (faceNo a b c) [])[faceIdx k a b c (3 + 3 * k + j)]? = some (liftType a b c t) := by
  obtain ⟨t, ht, hs, h0, h1, h2⟩ := triTypes_inner hj
  refine ⟨t, ht, hs, ?_⟩
  have hm := liftType_mem h hs h0 h1 h2
  unfold faceIdx
  rw [show (triTypes k).getD (3 + 3 * k + j) (0, 0, 0) = t by simp [ht]]
  exact List.getElem?_idxOf hm

theorem faceIdx_perm {k a b c : Nat} (h : Three a b c) :
    ((List.range' (3 + 3 * k) (tri (k - 1))).map (faceIdx k a b c)).Perm (List.range (tri (k - 1))) := by
  have h4 : faceNo a b c < 4 := (face_tables h.1.1 h.1.2.1 h.1.2.2 h.2.1 h.2.2.1 h.2.2.2).2.2.1
  apply perm_range_of_nodup
  · rw [List.nodup_map_iff_inj_on List.nodup_range']
    intro x hx y hy he
    rw [List.mem_range'_1] at hx hy
    obtain ⟨j, rfl⟩ := Nat.exists_eq_add_of_le hx.1
    obtain ⟨j', rfl⟩ := Nat.exists_eq_add_of_le hy.1
    obtain ⟨t, ht, -, hg⟩ := faceIdx_get (k := k) (j := j) h (by omega)
    obtain ⟨t', ht', -, hg'⟩ := faceIdx_get (k := k) (j := j') h (by omega)
    rw [he, hg'] at hg
    injection hg with hg
    have := liftType_inj h.1.1 h.1.2.1 h.1.2.2 h.2.1 h.2.2.1 h.2.2.2 hg
    subst this
    obtain ⟨p1, p2⟩ := List.getElem?_eq_some_iff.1 ht
    obtain ⟨p3, p4⟩ := List.getElem?_eq_some_iff.1 ht'
    exact (List.Nodup.getElem_inj_iff (triTypes_nodup k)).1 (p2.trans p4.symm)
  · intro i hi
    rw [List.mem_map] at hi
    obtain ⟨x, hx, rfl⟩ := hi
    rw [List.mem_range'_1] at hx
    obtain ⟨j, rfl⟩ := Nat.exists_eq_add_of_le hx.1
    obtain ⟨t, ht, -, hg⟩ := faceIdx_get (k := k) (j := j) h (by omega)
    have := (List.getElem?_eq_some_iff.1 hg).1
    rw [faceTypes_length h4] at this
    exact this
  · simp

/-- The writes of a face. -/
def faceWrites (k a b c f : Nat) : List (Nat × Nat) :=
  (((List.range' (3 + 3 * k) (tri (k - 1))).map (faceIdx k a b c)).map fun i => 4 + k * 6 + tri (k - 1) * faceNo a b c + i).zip
    (List.range' (4 + 6 * k + f * tri (k - 1)) (tri (k - 1)))

theorem faceWrites_fst {k a b c : Nat} (f : Nat) (h : Three a b c) :
    ((faceWrites k a b c f).map Prod.fst).Perm (List.range' (4 + k * 6 + tri (k - 1) * faceNo a b c) (tri (k - 1))) := by
  unfold faceWrites
  rw [List.map_fst_zip (by simp)]
  refine ((faceIdx_perm (k := k) h).map _).trans (List.Perm.of_eq ?_)
  rw [List.range'_eq_map_range (s := 4 + k * 6 + tri (k - 1) * faceNo a b c)]

theorem faceWrites_snd (k a b c f : Nat) :
    (faceWrites k a b c f).map Prod.snd = List.range' (4 + 6 * k + f * tri (k - 1)) (tri (k - 1)) := by
  unfold faceWrites
  rw [List.map_snd_zip (by simp)]

theorem faceWrites_mem (k a b c f j : Nat) (hj : j < tri (k - 1)) :
    ((4 + k * 6 + tri (k - 1) * faceNo a b c + faceIdx k a b c (3 + 3 * k + j), 4 + 6 * k + f * tri (k - 1) + j) : Nat × Nat) ∈ faceWrites k a b c f := by
  unfold faceWrites
  apply List.mem_of_getElem? (i := j)
  rw [List.getElem?_zip_eq_some]
  simp [hj]

/-- The local space of a face. -/
def faceSpace (K : Type) [Field K] (k : Nat) (f : TetFace K) : TriSpace K := ⟨triRef K k, f.map, meshOrder k (triN2 k) fun e => f.dirs.getD e true⟩

theorem faceSpace_inner [CharZero K] {k j : Nat} (f : TetFace K) {t : TriType} (hj : j < tri (k - 1)) (ht : (triTypes k)[3 + 3 * k + j]? = some t) :
    triDof (faceSpace K k f) (3 + 3 * k + j) = .ok (triF f.map ((t.2.1 : K) * (1 / ((k + 1 : Nat) : K)), (t.2.2 : K) * (1 / ((k + 1 : Nat) : K)))) := by
  unfold triDof
  have h1 : (faceSpace K k f).order[3 + 3 * k + j]? = some (3 + 3 * k + j) :=
    meshOrder_inner k (triN2 k) (fun e => f.dirs.getD e true) j (by rw [triN2_eq]; exact hj)
  rw [(unchecked_ok_iff _ _ _).2 h1, except_ok_bind,
    (unchecked_ok_iff _ _ _).2 (show (faceSpace K k f).ref.positions[3 + 3 * k + j]? = _ from triPos_get ht), except_ok_bind]
  rfl

theorem face_point [CharZero K] {m : TetMap K} {edges : List (Nat × Nat)} {f : TetFace K} {a b c : Nat} (h : TetFaceOk m edges f a b c) {k : Nat}
    {t : TriType} (hs : t.1 + t.2.1 + t.2.2 = k + 1) :
    faceLift f (triF f.map ((t.2.1 : K) * (1 / ((k + 1 : Nat) : K)), (t.2.2 : K) * (1 / ((k + 1 : Nat) : K)))) =
      tetF m (tetPos K (k + 1) (liftType a b c t)) := by
  obtain ⟨ha, hb, hc⟩ := h.range
  obtain ⟨hab, hbc, hac⟩ := h.different
  rw [lift_affine h, tetF_pos m ((liftType_sum ha hb hc hab hbc hac t).trans hs)]
  dsimp only
  rw [tri_bary hs]
  have e := comb_face m ha hb hc hab hbc hac ((t.1 : K) * (1 / ((k + 1 : Nat) : K)), (t.2.1 : K) * (1 / ((k + 1 : Nat) : K)), (t.2.2 : K) * (1 / ((k + 1 : Nat) : K)))
  have hw : ∀ v, faceWeight a b c ((t.1 : K) * (1 / ((k + 1 : Nat) : K)), (t.2.1 : K) * (1 / ((k + 1 : Nat) : K)), (t.2.2 : K) * (1 / ((k + 1 : Nat) : K))) v =
      ((faceWeight a b c t v : Nat) : K) / ((k + 1 : Nat) : K) := by
    intro v
    unfold faceWeight
    split_ifs <;> simp [div_eq_mul_inv]
  rw [hw, hw, hw, hw] at e
  exact e.symm

theorem tetFaceWrites_ok [CharZero K] [DecidableEq K] {k : Nat} {m : TetMap K} (hm : IsInverse3 m) {edges : List (Nat × Nat)} {faces : List (TetFace K)}
    {spaces : List (TriSpace K)} {frefs : List Nat} {f : Nat} {face : TetFace K} {a b c : Nat} (h : TetFaceOk m edges face a b c)
    (hf : faces[f]? = some face) (hs : spaces[f]? = some (faceSpace K k face)) (hr : frefs[f]? = some (faceNo a b c)) :
    tetFaceWrites (tetRef K k) m faces spaces frefs f = .ok (faceWrites k a b c f) := by
  have h3 : Three a b c := ⟨h.range, h.different⟩
  have h4 : faceNo a b c < 4 := (face_tables h3.1.1 h3.1.2.1 h3.1.2.2 h3.2.1 h3.2.2.1 h3.2.2.2).2.2.1
  unfold tetFaceWrites
  rw [(unchecked_ok_iff _ _ _).2 hr, except_ok_bind]
  by_cases hn : tri (k - 1) > 0
  · rw [if_pos (show (tetRef K k).num2D > 0 from hn), (unchecked_ok_iff _ _ _).2 hs, except_ok_bind, (unchecked_ok_iff _ _ _).2 hf, except_ok_bind]
    dsimp only [tetRef]
    simp only [Nat.mul_one, Nat.one_mul]
    rw [mapM_ok (triDof (faceSpace K k face)) (fun i => triF face.map ((triRef K k).positions.getD i (0, 0))), except_ok_bind]
    swap
    · intro x hx
      rw [List.mem_range'_1] at hx
      obtain ⟨j, rfl⟩ := Nat.exists_eq_add_of_le hx.1
      obtain ⟨t, ht, -⟩ := faceIdx_get (k := k) (j := j) h3 (by omega)
      rw [faceSpace_inner face (by omega) ht, List.getD_eq_getElem?_getD, triPos_get ht]
      rfl
    have hblock : (List.range' (4 + k * 6 + tri (k - 1) * faceNo a b c) (tri (k - 1))).mapM (unchecked ((tetTypes k).map (tetPos K (k + 1)))) =
        .ok (((tetFaceTypes k).getD (faceNo a b c) []).map (tetPos K (k + 1))) := by
      have hlt : faceNo a b c * tri (k - 1) + tri (k - 1) ≤ 4 * tri (k - 1) := by
        have := Nat.mul_le_mul_right (tri (k - 1)) (show faceNo a b c + 1 ≤ 4 by omega)
        rw [Nat.add_mul, Nat.one_mul] at this
        exact this
      have hcount := tetTypes_length' k
      rw [mapM_unchecked _ ((0, 0, 0) : Vec3 K)]
      · congr 1
        apply List.ext_getElem?
        intro i
        by_cases hi : i < tri (k - 1)
        · obtain ⟨t, ht⟩ : ∃ t, ((tetFaceTypes k).getD (faceNo a b c) [])[i]? = some t :=
            ⟨_, List.getElem?_eq_getElem (by rw [faceTypes_length h4]; exact hi)⟩
          have h2 := faceTypes_get h4 ht
          rw [show 4 + 6 * k + faceNo a b c * tri (k - 1) + i = 4 + k * 6 + tri (k - 1) * faceNo a b c + i by ring] at h2
          rw [List.getElem?_map, List.getElem?_map, ht, List.getElem?_range' hi]
          simp [h2]
        · rw [List.getElem?_eq_none (by simp; omega), List.getElem?_eq_none (by rw [List.length_map, faceTypes_length h4]; omega)]
      · intro i hi
        rw [List.mem_range'_1] at hi
        rw [List.length_map, hcount]
        have : tri (k - 1) * faceNo a b c = faceNo a b c * tri (k - 1) := Nat.mul_comm _ _
        omega
    rw [hblock, except_ok_bind, mapM_map_ok _ _ (faceIdx k a b c), except_ok_bind]
    · rfl
    · intro x hx
      rw [List.mem_range'_1] at hx
      obtain ⟨j, rfl⟩ := Nat.exists_eq_add_of_le hx.1
      obtain ⟨t, ht, hsum, hg⟩ := faceIdx_get (k := k) (j := j) h3 (by omega)
      rw [show (triRef K k).positions.getD (3 + 3 * k + j) (0, 0) = _ by rw [List.getD_eq_getElem?_getD, triPos_get ht, Option.getD_some], face_point h hsum]
      unfold findOne
      rw [findPoint_eq _ _ (faceIdx k a b c (3 + 3 * k + j))]
      · rw [List.map_map, List.getElem?_map, hg]
        rfl
      · rw [List.map_map, List.nodup_map_iff_inj_on (faceTypes_nodup h4)]
        intro t1 ht1 t2 ht2 he
        exact tetPos_inj ((mem_faceTypes h4 _).1 ht1).1 ((mem_faceTypes h4 _).1 ht2).1 (tetF_inj hm he)
  · rw [if_neg (show ¬ (tetRef K k).num2D > 0 from hn)]
    unfold faceWrites
    rw [show tri (k - 1) = 0 by omega]
    simp

theorem faceRef_ok {m : TetMap K} {edges : List (Nat × Nat)} (he : TetEdgesOk edges) {face : TetFace K} {a b c : Nat} (h : TetFaceOk m edges face a b c) :
    tetFaceRef ((List.range 6).map (edgeRef edges)) face.vertices face.edges = .ok (faceNo a b c) := by
  obtain ⟨e0, e1, e2, hfe, h0, h1, -⟩ := h.edges
  obtain ⟨ha, hb, hc⟩ := h.range
  obtain ⟨hab, hbc, hac⟩ := h.different
  have key : ∀ e x y : Nat, x < 4 → y < 4 → x ≠ y → Joins edges e x y →
      ∃ dir, ((List.range 6).map (edgeRef edges))[e]? = some (edgeNo x y, dir) := by
    intro e x y hx hy hxy hj
    have he6 : e < 6 := by
      rw [← he.1]
      rcases hj with hj | hj <;> exact (List.getElem?_eq_some_iff.1 hj).1
    refine ⟨(edgeRef edges e).2, ?_⟩
    rw [List.getElem?_map, List.getElem?_range he6, Option.map_some]
    congr 1
    refine Prod.ext ?_ rfl
    unfold edgeRef
    rcases hj with hj | hj
    · simp [hj]
    · simp [hj, edgeNo_comm hx hy hxy]
  obtain ⟨d0, g0⟩ := key e0 a b ha hb hab h0
  obtain ⟨d1, g1⟩ := key e1 b c hb hc hbc h1
  obtain ⟨t1, ⟨i, dir, t2⟩, -⟩ := face_tables ha hb hc hab hbc hac
  unfold tetFaceRef
  rw [hfe, h.vertices, (unchecked_ok_iff _ _ _).2 (show [e0, e1, e2][0]? = some e0 from rfl), except_ok_bind,
    (unchecked_ok_iff _ _ _).2 (show [e0, e1, e2][1]? = some e1 from rfl), except_ok_bind,
    (unchecked_ok_iff _ _ _).2 g0, except_ok_bind, (unchecked_ok_iff _ _ _).2 g1, except_ok_bind,
    (unchecked_ok_iff _ _ _).2 (show [a, b, c][2]? = some c from rfl), except_ok_bind, t1, except_ok_bind, t2, except_ok_bind, if_pos rfl]

instance : Inhabited (TetFace K) := ⟨⟨[], [], 0, [], ⟨0, 0, 0, 0, 0, 0, 0, 0, 0, 0⟩, 0, 0, 0⟩⟩

/-- Everything about the creation of the local space. -/
theorem tetSpace_ok [CharZero K] [DecidableEq K] (k : Nat) {g : TetGeom K} (hg : TetMeshOk g) :
    ∃ s, tetSpace (tetRef K k) g = .ok s ∧ s.ref = tetRef K k ∧ s.map = g.map ∧ s.order.Perm (List.range (tet (k + 2))) ∧
      (∀ (f : Nat) face, g.faces[f]? = some face → s.faces[f]? = some (faceSpace K k face)) ∧
      (∀ v : Nat, v < 4 → s.order[v]? = some v) ∧
      (∀ e j : Nat, e < 6 → j < k → s.order[4 + (edgeRef g.edges e).1 * k + (if g.dirs.getD e true = (edgeRef g.edges e).2 then j else k - 1 - j)]? =
        some (4 + e * k + j)) ∧
      (∀ (f : Nat) face (a b c j : Nat), g.faces[f]? = some face → TetFaceOk g.map g.edges face a b c → j < tri (k - 1) →
        s.order[4 + k * 6 + tri (k - 1) * faceNo a b c + faceIdx k a b c (3 + 3 * k + j)]? = some (4 + 6 * k + f * tri (k - 1) + j)) ∧
      ∀ j : Nat, j < tet (k - 2) → s.order[4 + 6 * k + 4 * tri (k - 1) + j]? = some (4 + 6 * k + 4 * tri (k - 1) + j) := by
  have hex : ∀ f, f < 4 → ∃ (face : TetFace K) (abc : Nat × Nat × Nat), g.faces[f]? = some face ∧ TetFaceOk g.map g.edges face abc.1 abc.2.1 abc.2.2 := by
    intro f hf
    have h1 : g.faces[f]? = some (g.faces[f]'(by rw [hg.number]; exact hf)) := List.getElem?_eq_getElem _
    obtain ⟨a, b, c, h⟩ := hg.faces _ (List.mem_of_getElem? h1)
    exact ⟨_, (a, b, c), h1, h⟩
  choose! face abc hface hok using hex
  have h3 : ∀ f, f < 4 → Three (abc f).1 (abc f).2.1 (abc f).2.2 := fun f hf => ⟨(hok f hf).range, (hok f hf).different⟩
  have hno : ∀ f, f < 4 → faceNo (abc f).1 (abc f).2.1 (abc f).2.2 < 4 := fun f hf =>
    (face_tables (h3 f hf).1.1 (h3 f hf).1.2.1 (h3 f hf).1.2.2 (h3 f hf).2.1 (h3 f hf).2.2.1 (h3 f hf).2.2.2).2.2.1
  have hspaces : tetFaceSpaces (tetRef K k) g.faces = .ok ((List.range 4).map fun f => faceSpace K k (face f)) := by
    unfold tetFaceSpaces
    apply mapM_ok
    intro f hf
    rw [List.mem_range] at hf
    rw [(unchecked_ok_iff _ _ _).2 (hface f hf), except_ok_bind, (hok f hf).number]
    exact triSpace_ok k _ (by rw [(hok f hf).dirs]) _
  have hfrefs : tetFaceRefs ((List.range 6).map (edgeRef g.edges)) g.faces =
      .ok ((List.range 4).map fun f => faceNo (abc f).1 (abc f).2.1 (abc f).2.2) := by
    unfold tetFaceRefs
    apply mapM_ok
    intro f hf
    rw [List.mem_range] at hf
    rw [(unchecked_ok_iff _ _ _).2 (hface f hf), except_ok_bind]
    exact faceRef_ok hg.edges (hok f hf)
  have hew : (List.range 6).mapM (tetEdgeWrites (tetRef K k) g.dirs ((List.range 6).map (edgeRef g.edges))) =
      .ok ((List.range 6).map (edgeWrites k g.edges g.dirs)) := by
    apply mapM_ok
    intro e he
    exact tetEdgeWrites_ok k _ _ hg.dirs e (List.mem_range.1 he)
  have hfw : (List.range 4).mapM (tetFaceWrites (tetRef K k) g.map g.faces ((List.range 4).map fun f => faceSpace K k (face f))
      ((List.range 4).map fun f => faceNo (abc f).1 (abc f).2.1 (abc f).2.2)) =
      .ok ((List.range 4).map fun f => faceWrites k (abc f).1 (abc f).2.1 (abc f).2.2 f) := by
    apply mapM_ok
    intro f hf
    rw [List.mem_range] at hf
    exact tetFaceWrites_ok hg.inverse (hok f hf) (hface f hf) (by simp [hf]) (by simp [hf])
  have hv : tetVertexWrites (tetRef K k) = [(0, 0), (1, 1), (2, 2), (3, 3)] := rfl
  have hi : tetInnerWrites (tetRef K k) = (List.range' (4 + 6 * k + 4 * tri (k - 1)) (tet (k - 2))).zip (List.range' (4 + 6 * k + 4 * tri (k - 1)) (tet (k - 2))) := by
    unfold tetInnerWrites
    dsimp only [tetRef]
    rw [show 1 * 4 + k * 6 + tri (k - 1) * 4 = 4 + 6 * k + 4 * tri (k - 1) by ring]
  have hNperm : ([0, 1, 2, 3] ++ List.range' 4 (6 * k) ++ List.range' (4 + 6 * k) (4 * tri (k - 1)) ++
      List.range' (4 + 6 * k + 4 * tri (k - 1)) (tet (k - 2))) = List.range (tet (k + 2)) := by
    rw [← tet_count, show [0, 1, 2, 3] = List.range' 0 4 from rfl, List.range_eq_range']
    have e1 := @List.range'_append_1 0 4 (6 * k)
    have e2 := @List.range'_append_1 0 (4 + 6 * k) (4 * tri (k - 1))
    have e3 := @List.range'_append_1 0 (4 + 6 * k + 4 * tri (k - 1)) (tet (k - 2))
    rw [Nat.zero_add] at e1 e2 e3
    rw [e1, e2, e3]
  have hfno : ((List.range 4).map fun f => faceNo (abc f).1 (abc f).2.1 (abc f).2.2).Perm (List.range 4) := by
    apply perm_range_of_nodup
    · rw [List.nodup_map_iff_inj_on List.nodup_range]
      have key : ∀ f f' : Nat, f < 4 → f' < 4 → f < f' → faceNo (abc f).1 (abc f).2.1 (abc f).2.2 ≠ faceNo (abc f').1 (abc f').2.1 (abc f').2.2 := by
        intro f f' hf hf' hlt he
        obtain ⟨g1, g2⟩ := List.getElem?_eq_some_iff.1 (hface f hf)
        obtain ⟨g3, g4⟩ := List.getElem?_eq_some_iff.1 (hface f' hf')
        obtain ⟨v, hv1, hv2⟩ := List.pairwise_iff_getElem.1 hg.different f f' g1 g3 hlt
        rw [g2, (hok f hf).vertices] at hv1
        rw [g4, (hok f' hf').vertices] at hv2
        obtain ⟨⟨a1, a2, a3⟩, a4, a5, a6⟩ := h3 f hf
        obtain ⟨⟨b1, b2, b3⟩, b4, b5, b6⟩ := h3 f' hf'
        obtain ⟨-, -, n0, n1, n2, n3⟩ := face_tables a1 a2 a3 a4 a5 a6
        obtain ⟨-, -, m0, m1, m2, m3⟩ := face_tables b1 b2 b3 b4 b5 b6
        simp only [List.mem_cons, List.not_mem_nil, or_false, not_or] at hv1 hv2
        rw [he] at n1 n2 n3
        omega
      intro f hf f' hf' he
      rw [List.mem_range] at hf hf'
      by_contra hne
      rcases Nat.lt_or_gt_of_ne hne with hlt | hlt
      · exact key f f' hf hf' hlt he
      · exact key f' f hf' hf hlt he.symm
    · intro x hx
      rw [List.mem_map] at hx
      obtain ⟨f, hf, rfl⟩ := hx
      exact hno f (List.mem_range.1 hf)
    · simp
  obtain ⟨L, hL, hperm, hmem⟩ := writeCols_bij (tet (k + 2)) ([(0, 0), (1, 1), (2, 2), (3, 3)] ++ ((List.range 6).map (edgeWrites k g.edges g.dirs)).flatten ++
      ((List.range 4).map fun f => faceWrites k (abc f).1 (abc f).2.1 (abc f).2.2 f).flatten ++
      (List.range' (4 + 6 * k + 4 * tri (k - 1)) (tet (k - 2))).zip (List.range' (4 + 6 * k + 4 * tri (k - 1)) (tet (k - 2))))
    (by
      rw [← hNperm]
      simp only [List.map_append]
      refine List.Perm.append (List.Perm.append (List.Perm.append (List.Perm.of_eq rfl) ?_) ?_) ?_
      · rw [List.map_flatten, List.map_map, ← List.flatMap_def, ← range_flatMap_range' 4 k 6]
        simp only [Function.comp_def, edgeWrites_fst]
        have := (edgeRef_perm hg.edges).flatMap_right (fun r => List.range' (4 + k * r) k)
        rw [List.flatMap_map] at this
        exact this
      · rw [List.map_flatten, List.map_map, ← List.flatMap_def, ← range_flatMap_range' (4 + 6 * k) (tri (k - 1)) 4]
        have h1 : (List.flatMap (List.map Prod.fst ∘ fun f => faceWrites k (abc f).1 (abc f).2.1 (abc f).2.2 f) (List.range 4)).Perm
            ((List.range 4).flatMap fun f => List.range' (4 + 6 * k + tri (k - 1) * faceNo (abc f).1 (abc f).2.1 (abc f).2.2) (tri (k - 1))) := by
          apply List.Perm.flatMap_left
          intro f hf
          rw [Nat.mul_comm 6 k]
          exact faceWrites_fst f (h3 f (List.mem_range.1 hf))
        have := hfno.flatMap_right (fun r => List.range' (4 + 6 * k + tri (k - 1) * r) (tri (k - 1)))
        rw [List.flatMap_map] at this
        exact h1.trans this
      · rw [List.map_fst_zip (by simp)])
    (by
      rw [← hNperm]
      simp only [List.map_append]
      refine List.Perm.append (List.Perm.append (List.Perm.append (List.Perm.of_eq rfl) ?_) ?_) ?_
      · rw [List.map_flatten, List.map_map, ← List.flatMap_def, ← range_flatMap_range' 4 k 6]
        apply List.Perm.flatMap_left
        intro e he
        rw [Nat.mul_comm k e]
        exact edgeWrites_snd k _ _ e
      · rw [List.map_flatten, List.map_map, ← List.flatMap_def, ← range_flatMap_range' (4 + 6 * k) (tri (k - 1)) 4]
        apply List.Perm.flatMap_left
        intro f hf
        rw [Nat.mul_comm (tri (k - 1)) f]
        exact List.Perm.of_eq (faceWrites_snd k _ _ _ f)
      · rw [List.map_snd_zip (by simp)])
  refine ⟨⟨tetRef K k, g.map, (List.range 4).map fun f => faceSpace K k (face f), L⟩, ?_, rfl, rfl, hperm, ?_, ?_, ?_, ?_, ?_⟩
  · unfold tetSpace
    rw [tetEdgeRefs_ok hg.edges, except_ok_bind, hspaces, except_ok_bind, hfrefs, except_ok_bind, hew, except_ok_bind, hfw, except_ok_bind, hv, hi]
    rw [show (tetRef K k).numBasis = tet (k + 2) from rfl, hL, except_ok_bind]
  · intro f face' hf'
    have hf4 : f < 4 := by
      rw [← hg.number]
      exact (List.getElem?_eq_some_iff.1 hf').1
    rw [hface f hf4] at hf'
    injection hf' with hf'
    subst hf'
    simp [hf4]
  · intro v hv
    apply hmem
    simp only [List.append_assoc]
    apply List.mem_append_left
    interval_cases v <;> simp
  · intro e j he hj
    apply hmem
    apply List.mem_append_left
    apply List.mem_append_left
    apply List.mem_append_right
    rw [List.mem_flatten]
    exact ⟨_, List.mem_map_of_mem (List.mem_range.2 he), edgeWrites_mem k _ _ e j hj⟩
  · intro f face' a b c j hf' hok' hj
    have hf4 : f < 4 := by
      rw [← hg.number]
      exact (List.getElem?_eq_some_iff.1 hf').1
    rw [hface f hf4] at hf'
    injection hf' with hf'
    subst hf'
    have hv := (hok f hf4).vertices.symm.trans hok'.vertices
    simp only [List.cons.injEq, and_true] at hv
    obtain ⟨e1, e2, e3⟩ := hv
    apply hmem
    apply List.mem_append_left
    apply List.mem_append_right
    rw [List.mem_flatten]
    refine ⟨_, List.mem_map_of_mem (List.mem_range.2 hf4), ?_⟩
    rw [e1, e2, e3]
    exact faceWrites_mem k a b c f j hj
  · intro j hj
    apply hmem
    apply List.mem_append_right
    apply List.mem_of_getElem? (i := j)
    rw [List.getElem?_zip_eq_some]
    simp [hj]

omit [Field K] in
theorem tetSource_ok {s : TetSpace K} {N i c : Nat} (h : s.order.Perm (List.range N)) (hi : s.order[i]? = some c) : tetSource s c = .ok i := by
  unfold tetSource
  rw [scatterCol_eq s.order (fun i => i) i c (h.nodup_iff.2 List.nodup_range) hi]

end PolyDiM
