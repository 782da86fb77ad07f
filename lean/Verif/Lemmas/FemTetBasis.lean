import Verif.Lemmas.FemTet
import Verif.Lemmas.FemTriangleBasis
import Mathlib.Analysis.Calculus.Deriv.Comp
import Mathlib.Analysis.Calculus.Deriv.Mul

/-! Helper lemmas: the basis functions of the tetrahedron. -/

namespace PolyDiM
open Finset

variable {K : Type} [Field K]

/-- The barycentric coordinates. -/
def tetBary (x : Vec3 K) : K × K × K × K := (1 - x.1 - x.2.1 - x.2.2, x.1, x.2.1, x.2.2)

/-- The function of a type, in barycentric coordinates. -/
def tetPhi (k : K) (t : TetType) (x : Vec3 K) : K :=
  bq (k * (1 - x.1 - x.2.1 - x.2.2)) t.1 * (bq (k * x.1) t.2.1 * (bq (k * x.2.1) t.2.2.1 * bq (k * x.2.2) t.2.2.2))

theorem tetProduct_eq (k : Nat) (x : Vec3 K) (t : TetType) : tetProduct k (tetLambda x) t =
    (∏ p ∈ range t.1, (1 - x.1 - x.2.1 - x.2.2 - (p : K) / (k : K))) * (∏ p ∈ range t.2.1, (x.1 - (p : K) / (k : K))) *
      (∏ p ∈ range t.2.2.1, (x.2.1 - (p : K) / (k : K))) * (∏ p ∈ range t.2.2.2, (x.2.2 - (p : K) / (k : K))) := by
  unfold tetProduct
  rw [show List.range 4 = [0, 1, 2, 3] from rfl]
  simp only [List.foldl_cons, List.foldl_nil, foldl_mul_list, range_map_prod, one_mul]
  rfl

theorem bq_quot [CharZero K] {k : Nat} (hk : k ≠ 0) (z : K) (n : Nat) :
    (∏ p ∈ range n, (z - (p : K) / (k : K))) / (∏ p ∈ range n, ((n : K) / (k : K) - (p : K) / (k : K))) = bq ((k : K) * z) n := by
  have hk : (k : K) ≠ 0 := Nat.cast_ne_zero.2 hk
  unfold bq
  rw [← prod_div_distrib]
  apply prod_congr rfl
  intro t _
  rw [← mul_div_mul_left (z - (t : K) / (k : K)) _ hk]
  congr 1
  · field_simp
  · field_simp

theorem tet_bary [CharZero K] {k : Nat} {t : TetType} (h : t.1 + t.2.1 + t.2.2.1 + t.2.2.2 = k + 1) :
    1 - (tetPos K (k + 1) t).1 - (tetPos K (k + 1) t).2.1 - (tetPos K (k + 1) t).2.2 = (t.1 : K) / ((k + 1 : Nat) : K) := by
  have hk : ((k + 1 : Nat) : K) ≠ 0 := Nat.cast_ne_zero.2 (by omega)
  have h' : (t.1 : K) + t.2.1 + t.2.2.1 + t.2.2.2 = ((k + 1 : Nat) : K) := by exact_mod_cast h
  unfold tetPos
  simp only
  rw [show (1 : K) = ((k + 1 : Nat) : K) / ((k + 1 : Nat) : K) from (div_self hk).symm, ← sub_div, ← sub_div, ← sub_div, ← h']
  congr 1
  ring

theorem tetTypes_sum {k i : Nat} {t : TetType} (h : (tetTypes k)[i]? = some t) : t.1 + t.2.1 + t.2.2.1 + t.2.2.2 = k + 1 :=
  (mem_tetTypes k t).1 (List.mem_of_getElem? h)

theorem tetPos_get {k i : Nat} {t : TetType} (h : (tetTypes k)[i]? = some t) :
    (tetRef K k).positions[i]? = some (tetPos K (k + 1) t) := by
  unfold tetRef
  rw [List.getElem?_map, h]
  rfl

theorem tetTypes_zero : tetTypes 0 = [(1, 0, 0, 0), (0, 1, 0, 0), (0, 0, 1, 0), (0, 0, 0, 1)] := by decide

theorem bq_one (z : K) : bq z 1 = z := by simp [bq]

theorem tetDen [CharZero K] {k : Nat} {t : TetType} (h : t.1 + t.2.1 + t.2.2.1 + t.2.2.2 = k + 1) (x : Vec3 K) :
    tetProduct (k + 1) (tetLambda x) t / tetProduct (k + 1) (tetLambda (tetPos K (k + 1) t)) t = tetPhi ((k + 1 : Nat) : K) t x := by
  rw [tetProduct_eq, tetProduct_eq, tet_bary h]
  unfold tetPhi
  rw [mul_div_mul_comm, mul_div_mul_comm, mul_div_mul_comm]
  simp only [tetPos]
  rw [bq_quot (by omega), bq_quot (by omega), bq_quot (by omega), bq_quot (by omega)]
  ring

theorem tetValue_ok [CharZero K] {k i : Nat} {t : TetType} (h : (tetTypes k)[i]? = some t) (x : Vec3 K) :
    tetValue (tetRef K k) x i = .ok (tetPhi ((k + 1 : Nat) : K) t x) := by
  unfold tetValue
  by_cases h1 : k = 0
  · subst h1
    rw [if_pos (show (tetRef K 0).order = 1 from rfl), unchecked_ok_iff]
    rw [tetTypes_zero] at h
    have hi := (List.getElem?_eq_some_iff.1 h).1
    simp only [List.length_cons, List.length_nil] at hi
    have : i = 0 ∨ i = 1 ∨ i = 2 ∨ i = 3 := by omega
    rcases this with rfl | rfl | rfl | rfl <;> injection h with h <;> subst h <;> simp [tetPhi, bq_one, bq_zero, tetLambda]
  · rw [if_neg (by show ¬ (k + 1 = 1); omega), (unchecked_ok_iff _ _ _).2 (show (tetRef K k).types[i]? = some t from h), except_ok_bind,
      (unchecked_ok_iff _ _ _).2 (tetPos_get h), except_ok_bind]
    exact congrArg _ (tetDen (tetTypes_sum h) x)

theorem tetPhi_nodal [CharZero K] (k : Nat) (t t' : TetType) (h : t.1 + t.2.1 + t.2.2.1 + t.2.2.2 = k + 1)
    (h' : t'.1 + t'.2.1 + t'.2.2.1 + t'.2.2.2 = k + 1) :
    tetPhi ((k + 1 : Nat) : K) t (tetPos K (k + 1) t') = if t = t' then 1 else 0 := by
  have hk : ((k + 1 : Nat) : K) ≠ 0 := Nat.cast_ne_zero.2 (by omega)
  have e : ∀ n : Nat, ((k + 1 : Nat) : K) * ((n : K) / ((k + 1 : Nat) : K)) = n := by intro n; field_simp
  unfold tetPhi
  rw [tet_bary h']
  unfold tetPos
  simp only [e]
  by_cases ht : t = t'
  · subst ht
    rw [if_pos rfl, bq_self, bq_self, bq_self, bq_self, one_mul, one_mul, one_mul]
  · rw [if_neg ht]
    obtain ⟨a, b, c, d⟩ := t
    obtain ⟨a', b', c', d'⟩ := t'
    simp only [Prod.mk.injEq] at h h' ht ⊢
    by_cases h1 : a' < a
    · rw [bq_lt _ _ h1]; ring
    · by_cases h2 : b' < b
      · rw [bq_lt _ _ h2]; ring
      · by_cases h3 : c' < c
        · rw [bq_lt _ _ h3]; ring
        · have h4 : d' < d := by omega
          rw [bq_lt _ _ h4]; ring

/-- Sum over the types as a triple sum. -/
theorem tetTypes_sum_eq (k : Nat) (f : TetType → K) :
    ((tetTypes k).map f).sum = ∑ p ∈ antidiagonal (k + 1), ∑ q ∈ antidiagonal p.2, ∑ r ∈ antidiagonal q.2, f (p.1, q.1, r.1, r.2) := by
  rw [← List.sum_toFinset _ (tetTypes_nodup k), sum_sigma', sum_sigma']
  symm
  apply sum_bij (fun (s : (_ : (_ : Nat × Nat) × (Nat × Nat)) × (Nat × Nat)) _ => ((s.1.1.1, s.1.2.1, s.2.1, s.2.2) : TetType))
  · rintro ⟨⟨⟨a, m⟩, ⟨b, n⟩⟩, ⟨c, d⟩⟩ h
    simp only [mem_sigma, mem_antidiagonal] at h
    rw [List.mem_toFinset, mem_tetTypes]
    simp only
    omega
  · rintro ⟨⟨⟨a, m⟩, ⟨b, n⟩⟩, ⟨c, d⟩⟩ h ⟨⟨⟨a', m'⟩, ⟨b', n'⟩⟩, ⟨c', d'⟩⟩ h' he
    simp only [mem_sigma, mem_antidiagonal] at h h'
    simp only [Prod.mk.injEq] at he
    obtain ⟨rfl, rfl, rfl, rfl⟩ := he
    obtain rfl : n = n' := by omega
    obtain rfl : m = m' := by omega
    rfl
  · rintro ⟨a, b, c, d⟩ h
    rw [List.mem_toFinset, mem_tetTypes] at h
    simp only at h
    exact ⟨⟨⟨(a, b + (c + d)), (b, c + d)⟩, (c, d)⟩, by simp; omega, rfl⟩
  · rintro ⟨⟨⟨a, m⟩, ⟨b, n⟩⟩, ⟨c, d⟩⟩ h
    rfl

theorem tetPhi_sum [CharZero K] (k : Nat) (x : Vec3 K) : ((tetTypes k).map fun t => tetPhi ((k + 1 : Nat) : K) t x).sum = 1 := by
  rw [tetTypes_sum_eq]
  unfold tetPhi
  have := bq_add4 (((k + 1 : Nat) : K) * (1 - x.1 - x.2.1 - x.2.2)) (((k + 1 : Nat) : K) * x.1) (((k + 1 : Nat) : K) * x.2.1)
    (((k + 1 : Nat) : K) * x.2.2) (k + 1)
  rw [show ((k + 1 : Nat) : K) * (1 - x.1 - x.2.1 - x.2.2) + ((k + 1 : Nat) : K) * x.1 + ((k + 1 : Nat) : K) * x.2.1 +
    ((k + 1 : Nat) : K) * x.2.2 = ((k + 1 : Nat) : K) by ring, bq_self] at this
  exact this

/-! ### Derivatives -/

/-- The factor of an iteration of the inner loops. -/
def tetFac (k : Nat) (x : Vec3 K) (ip : Nat × Nat) : K := (tetLambda x).getD ip.1 0 - (ip.2 : K) / (k : K)

theorem mem_tetFactors (t : TetType) (i p : Nat) : (i, p) ∈ tetFactors t ↔ i < 4 ∧ p < (tetTypeList t).getD i 0 := by
  unfold tetFactors
  simp only [List.mem_flatMap, List.mem_range, List.mem_map, Prod.mk.injEq]
  constructor
  · rintro ⟨i, hi, p, hp, rfl, rfl⟩; exact ⟨hi, hp⟩
  · rintro ⟨hi, hp⟩; exact ⟨i, hi, p, hp, rfl, rfl⟩

theorem tetProduct_fac (k : Nat) (x : Vec3 K) (t : TetType) : tetProduct k (tetLambda x) t = ((tetFactors t).map (tetFac k x)).prod := by
  unfold tetProduct tetFactors
  rw [show List.range 4 = [0, 1, 2, 3] from rfl]
  simp only [List.foldl_cons, List.foldl_nil, foldl_mul_list, one_mul, List.flatMap_cons, List.flatMap_nil, List.append_nil, List.map_append,
    List.map_map, List.prod_append, mul_assoc]
  rfl

/-- The loop of the derivatives: succeeds exactly off the zero set of the factors. -/
theorem foldlM_quotient [DecidableEq K] {α : Type} (num den : α → K) (l : List α) (acc : K) :
    l.foldlM (fun acc a => do
      let q ← quotient (num a) (den a)
      Except.ok (acc + q)) acc =
    if ∀ a ∈ l, den a ≠ 0 then Except.ok (acc + (l.map fun a => num a / den a).sum) else Except.error Fault.notANumber := by
  induction l generalizing acc with
  | nil => simp [pure, Except.pure]
  | cons a l ih =>
    rw [List.foldlM_cons]
    by_cases ha : den a = 0
    · rw [show quotient (num a) (den a) = .error .notANumber from if_pos ha, if_neg]
      · rfl
      · intro h
        exact h a (by simp) ha
    · rw [show quotient (num a) (den a) = .ok (num a / den a) from if_neg ha, except_ok_bind, except_ok_bind, ih]
      by_cases h : ∀ b ∈ l, den b ≠ 0
      · rw [if_pos h, if_pos, List.map_cons, List.sum_cons, add_assoc]
        intro b hb
        rcases List.mem_cons.1 hb with rfl | hb
        · exact ha
        · exact h b hb
      · rw [if_neg h, if_neg]
        intro h'
        exact h fun b hb => h' b (by simp [hb])

theorem tetDerivative_ok [CharZero K] [DecidableEq K] {k i : Nat} (hk : k ≠ 0) {t : TetType} (h : (tetTypes k)[i]? = some t) (x : Vec3 K) (dir : Nat) :
    tetDerivative (tetRef K k) x i dir = if ∀ a ∈ tetFactors t, tetFac (k + 1) x a ≠ 0 then
      .ok (((tetFactors t).map fun a => (tetGradLambda K dir).getD a.1 0 * tetPhi ((k + 1 : Nat) : K) t x / tetFac (k + 1) x a).sum)
      else .error .notANumber := by
  unfold tetDerivative
  rw [if_neg (by show ¬ (k + 1 = 1); omega), tetValue_ok h, except_ok_bind,
    (unchecked_ok_iff _ _ _).2 (show (tetRef K k).types[i]? = some t from h), except_ok_bind,
    foldlM_quotient (fun a : Nat × Nat => (tetGradLambda K dir).getD a.1 0 * tetPhi ((k + 1 : Nat) : K) t x)
      (fun a => (tetLambda x).getD a.1 0 - (a.2 : K) / ((tetRef K k).order : K)), zero_add]
  rfl

/-- Logarithmic derivative of a product. -/
theorem hasDerivAt_prod_log {α : Type} (l : List α) (f : α → ℝ → ℝ) (g : α → ℝ) (s : ℝ) (hf : ∀ a ∈ l, HasDerivAt (f a) (g a) s)
    (h0 : ∀ a ∈ l, f a s ≠ 0) :
    HasDerivAt (fun s => (l.map fun a => f a s).prod) ((l.map fun a => g a * (l.map fun a => f a s).prod / f a s).sum) s := by
  induction l with
  | nil => simpa using hasDerivAt_const s (1 : ℝ)
  | cons a l ih =>
    have h1 := ih (fun b hb => hf b (by simp [hb])) (fun b hb => h0 b (by simp [hb]))
    have h2 := (hf a (by simp)).mul h1
    have ha := h0 a (by simp)
    simp only [List.map_cons, List.prod_cons, List.sum_cons]
    refine h2.congr_deriv ?_
    congr 1
    · field_simp
    · rw [← List.sum_map_mul_left]
      congr 1
      apply List.map_congr_left
      intro b _
      ring

/-- Replace one coordinate. -/
def setCoord (x : Vec3 ℝ) (dir : Nat) (s : ℝ) : Vec3 ℝ := if dir = 0 then (s, x.2.1, x.2.2) else if dir = 1 then (x.1, s, x.2.2) else (x.1, x.2.1, s)

/-- One coordinate. -/
def getCoord (x : Vec3 ℝ) (dir : Nat) : ℝ := if dir = 0 then x.1 else if dir = 1 then x.2.1 else x.2.2

theorem setCoord_self (x : Vec3 ℝ) (dir : Nat) : setCoord x dir (getCoord x dir) = x := by
  unfold setCoord getCoord
  split_ifs <;> rfl

theorem tetLambda_hasDeriv (x : Vec3 ℝ) (dir : Nat) (hdir : dir < 3) (i : Nat) (s : ℝ) :
    HasDerivAt (fun s => (tetLambda (setCoord x dir s)).getD i 0) ((tetGradLambda ℝ dir).getD i 0) s := by
  have hid := hasDerivAt_id s
  have : dir = 0 ∨ dir = 1 ∨ dir = 2 := by omega
  rcases this with rfl | rfl | rfl <;> rcases i with _ | _ | _ | _ | i <;> simp only [setCoord, tetLambda, tetGradLambda] <;> norm_num
  all_goals first
    | exact hasDerivAt_id' s
    | exact hasDerivAt_const s _
    | simpa using ((hid.const_sub 1).sub_const x.2.1).sub_const x.2.2
    | simpa using ((hid.const_sub (1 - x.1))).sub_const x.2.2
    | simpa using ((hid.const_sub (1 - x.1 - x.2.1)))

theorem tetFac_hasDeriv (k : Nat) (x : Vec3 ℝ) (dir : Nat) (hdir : dir < 3) (a : Nat × Nat) (s : ℝ) :
    HasDerivAt (fun s => tetFac k (setCoord x dir s) a) ((tetGradLambda ℝ dir).getD a.1 0) s :=
  (hasDerivAt_sub_const_iff _).2 (tetLambda_hasDeriv x dir hdir a.1 s)

theorem tetPhi_hasDeriv {k : Nat} {t : TetType} (h : t.1 + t.2.1 + t.2.2.1 + t.2.2.2 = k + 1) (x : Vec3 ℝ) (dir : Nat) (hdir : dir < 3)
    (h0 : ∀ a ∈ tetFactors t, tetFac (k + 1) x a ≠ 0) :
    HasDerivAt (fun s => tetPhi ((k + 1 : Nat) : ℝ) t (setCoord x dir s))
      (((tetFactors t).map fun a => (tetGradLambda ℝ dir).getD a.1 0 * tetPhi ((k + 1 : Nat) : ℝ) t x / tetFac (k + 1) x a).sum)
      (getCoord x dir) := by
  have hx := setCoord_self x dir
  have := hasDerivAt_prod_log (tetFactors t) (fun a s => tetFac (k + 1) (setCoord x dir s) a) (fun a => (tetGradLambda ℝ dir).getD a.1 0)
    (getCoord x dir) (fun a _ => tetFac_hasDeriv (k + 1) x dir hdir a _) (by simpa only [hx] using h0)
  have h2 := this.div_const (tetProduct (k + 1) (tetLambda (tetPos ℝ (k + 1) t)) t)
  have e : (fun s => tetPhi ((k + 1 : Nat) : ℝ) t (setCoord x dir s)) = fun s =>
      ((tetFactors t).map fun a => tetFac (k + 1) (setCoord x dir s) a).prod / tetProduct (k + 1) (tetLambda (tetPos ℝ (k + 1) t)) t := by
    funext s
    rw [← tetDen h, tetProduct_fac (k + 1) (setCoord x dir s)]
  rw [e]
  refine h2.congr_deriv ?_
  simp only [hx]
  rw [← tetDen h, tetProduct_fac (k + 1) x, div_eq_mul_inv, ← List.sum_map_mul_right]
  congr 1
  apply List.map_congr_left
  intro a _
  generalize ((tetFactors t).map (tetFac (k + 1) x)).prod = P
  generalize tetFac (k + 1) x a = q
  generalize (tetGradLambda ℝ dir).getD a.1 0 = g
  ring

end PolyDiM
