import Verif.Lemmas.FemTriangle
import Verif.Lemmas.Binom
import Mathlib.Algebra.BigOperators.Fin

/-! Helper lemmas: the basis functions of the triangle. -/

namespace PolyDiM
open Finset

variable {K : Type} [Field K]

theorem foldl_mul_div (a b : Nat → K) (v : K) (n : Nat) :
    (List.range n).foldl (fun v t => v * a t / b t) v = v * ∏ t ∈ range n, a t / b t := by
  induction n with
  | zero => simp
  | succ n ih =>
    rw [List.range_succ, List.foldl_append, ih, prod_range_succ]
    show v * _ * a n / b n = _
    rw [mul_div_assoc, mul_assoc]

theorem triFactor_prod (h z p : K) (n : Nat) (v : K) : triFactor h z p n v = v * ∏ t ∈ range n, (z - t * h) / (p - t * h) :=
  foldl_mul_div _ _ _ _

theorem triFactor_bq {k : K} (hk : k ≠ 0) (z : K) (n : Nat) (v : K) :
    triFactor (1 / k) z ((n : K) * (1 / k)) n v = v * bq (k * z) n := by
  rw [triFactor_prod]
  congr 1
  unfold bq
  apply prod_congr rfl
  intro t _
  rw [← mul_div_mul_left (z - t * (1 / k)) _ hk]
  congr 1
  · field_simp
  · field_simp

/-- The function of a type, in barycentric coordinates. -/
def triPhi (k : K) (t : TriType) (x y : K) : K := bq (k * (1 - x - y)) t.1 * bq (k * x) t.2.1 * bq (k * y) t.2.2

/-- The reference data. -/
def triRef (K : Type) [Field K] (k : Nat) : TriData K := ⟨k + 1, 1, k, ((triLattice (k + 1)).filter (cc (k + 1))).length, tri (k + 2),
      (triTypes k).map (fun t => ((t.2.1 : K) * (1 / ((k + 1 : Nat) : K)), (t.2.2 : K) * (1 / ((k + 1 : Nat) : K)))), triTypes k⟩

theorem triTypes_sum {k i : Nat} {t : TriType} (h : (triTypes k)[i]? = some t) : t.1 + t.2.1 + t.2.2 = k + 1 :=
  (mem_triTypes k t).1 (List.mem_of_getElem? h)

theorem triPos_get {k i : Nat} {t : TriType} (h : (triTypes k)[i]? = some t) :
    (triRef K k).positions[i]? = some ((t.2.1 : K) * (1 / ((k + 1 : Nat) : K)), (t.2.2 : K) * (1 / ((k + 1 : Nat) : K))) := by
  unfold triRef
  rw [List.getElem?_map, h]
  rfl

theorem tri_bary [CharZero K] {k a b c : Nat} (h : a + b + c = k + 1) :
    1 - (b : K) * (1 / ((k + 1 : Nat) : K)) - (c : K) * (1 / ((k + 1 : Nat) : K)) = (a : K) * (1 / ((k + 1 : Nat) : K)) := by
  have hk : ((k + 1 : Nat) : K) ≠ 0 := Nat.cast_ne_zero.2 (by omega)
  have h' : (a : K) + b + c = ((k + 1 : Nat) : K) := by exact_mod_cast h
  have : 1 = ((a : K) + b + c) * (1 / ((k + 1 : Nat) : K)) := by rw [h']; field_simp
  calc 1 - (b : K) * (1 / ((k + 1 : Nat) : K)) - (c : K) * (1 / ((k + 1 : Nat) : K))
      = ((a : K) + b + c) * (1 / ((k + 1 : Nat) : K)) - (b : K) * (1 / ((k + 1 : Nat) : K)) - (c : K) * (1 / ((k + 1 : Nat) : K)) := by
        rw [← this]
    _ = _ := by ring

theorem triValue_ok [CharZero K] {k i : Nat} {t : TriType} (h : (triTypes k)[i]? = some t) (x y : K) :
    triValue (triRef K k) x y i = .ok (triPhi ((k + 1 : Nat) : K) t x y) := by
  have hk : ((k + 1 : Nat) : K) ≠ 0 := Nat.cast_ne_zero.2 (by omega)
  have ht := triTypes_sum h
  unfold triValue
  rw [if_neg (by show ¬ (k + 1 = 0); omega), (unchecked_ok_iff _ _ _).2 (show (triRef K k).types[i]? = some t from h), except_ok_bind,
    (unchecked_ok_iff _ _ _).2 (triPos_get h), except_ok_bind]
  show Except.ok (triFactor (1 / ((k + 1 : Nat) : K)) y _ _ (triFactor (1 / ((k + 1 : Nat) : K)) x _ _
    (triFactor (1 / ((k + 1 : Nat) : K)) (1 - x - y) (1 - _ - _) _ 1))) = _
  rw [tri_bary ht, triFactor_bq hk, triFactor_bq hk, triFactor_bq hk, one_mul]
  rfl

theorem triPhi_nodal [CharZero K] (k : Nat) (t t' : TriType) (h : t.1 + t.2.1 + t.2.2 = k + 1) (h' : t'.1 + t'.2.1 + t'.2.2 = k + 1) :
    triPhi ((k + 1 : Nat) : K) t ((t'.2.1 : K) * (1 / ((k + 1 : Nat) : K))) ((t'.2.2 : K) * (1 / ((k + 1 : Nat) : K))) =
      if t = t' then 1 else 0 := by
  have hk : ((k + 1 : Nat) : K) ≠ 0 := Nat.cast_ne_zero.2 (by omega)
  have e : ∀ n : Nat, ((k + 1 : Nat) : K) * ((n : K) * (1 / ((k + 1 : Nat) : K))) = n := by intro n; field_simp
  unfold triPhi
  rw [tri_bary h', e, e, e]
  by_cases ht : t = t'
  · subst ht
    rw [if_pos rfl, bq_self, bq_self, bq_self, one_mul, one_mul]
  · rw [if_neg ht]
    obtain ⟨a, b, c⟩ := t
    obtain ⟨a', b', c'⟩ := t'
    simp only [Prod.mk.injEq] at h h' ht ⊢
    by_cases h1 : a' < a
    · rw [bq_lt _ _ h1]; ring
    · by_cases h2 : b' < b
      · rw [bq_lt _ _ h2]; ring
      · have h3 : c' < c := by omega
        rw [bq_lt _ _ h3]; ring

/-- Sum over the types as a double sum. -/
theorem triTypes_sum_eq (k : Nat) (f : TriType → K) :
    ((triTypes k).map f).sum = ∑ p ∈ antidiagonal (k + 1), ∑ q ∈ antidiagonal p.2, f (p.1, q.1, q.2) := by
  rw [← List.sum_toFinset _ (triTypes_nodup k), sum_sigma']
  symm
  apply sum_bij (fun (s : (_ : Nat × Nat) × (Nat × Nat)) _ => ((s.1.1, s.2.1, s.2.2) : TriType))
  · rintro ⟨⟨a, m⟩, ⟨b, c⟩⟩ h
    simp only [mem_sigma, mem_antidiagonal] at h
    rw [List.mem_toFinset, mem_triTypes]
    simp only
    omega
  · rintro ⟨⟨a, m⟩, ⟨b, c⟩⟩ h ⟨⟨a', m'⟩, ⟨b', c'⟩⟩ h' he
    simp only [mem_sigma, mem_antidiagonal] at h h'
    simp only [Prod.mk.injEq] at he
    obtain ⟨rfl, rfl, rfl⟩ := he
    obtain rfl : m = m' := by omega
    rfl
  · rintro ⟨a, b, c⟩ h
    rw [List.mem_toFinset, mem_triTypes] at h
    simp only at h
    exact ⟨⟨(a, b + c), (b, c)⟩, by simp; omega, rfl⟩
  · rintro ⟨⟨a, m⟩, ⟨b, c⟩⟩ h
    rfl

theorem triPhi_sum [CharZero K] (k : Nat) (x y : K) : ((triTypes k).map fun t => triPhi ((k + 1 : Nat) : K) t x y).sum = 1 := by
  rw [triTypes_sum_eq]
  unfold triPhi
  have := bq_add3 (((k + 1 : Nat) : K) * (1 - x - y)) (((k + 1 : Nat) : K) * x) (((k + 1 : Nat) : K) * y) (k + 1)
  rw [show ((k + 1 : Nat) : K) * (1 - x - y) + ((k + 1 : Nat) : K) * x + ((k + 1 : Nat) : K) * y = ((k + 1 : Nat) : K) by ring, bq_self] at this
  refine Eq.trans ?_ this
  apply sum_congr rfl
  intro p _
  apply sum_congr rfl
  intro q _
  rw [mul_assoc]

/-- A list sum as a sum over indices. -/
theorem list_map_sum_range {α : Type} (l : List α) (f : α → K) (g : Nat → K) (n : Nat) (hn : l.length = n)
    (h : ∀ i a, l[i]? = some a → g i = f a) : ∑ i ∈ range n, g i = (l.map f).sum := by
  subst hn
  induction l using List.reverseRecOn with
  | nil => rfl
  | append_singleton l a ih =>
    rw [List.length_append, List.length_singleton, sum_range_succ, List.map_append, List.sum_append, ih]
    · simp [h l.length a (by simp)]
    · intro i b hb
      apply h
      rw [List.getElem?_append_left (List.getElem?_eq_some_iff.1 hb).1]
      exact hb

/-! ### Derivatives -/

/-- An affine factor with its denominator. -/
structure AffTerm (K : Type) where
  al : K
  gx : K
  gy : K
  den : K

/-- The factors, independent of the point. -/
def affTerms (h : K) (t : TriType) (p : K × K) : List (AffTerm K) :=
  ((List.range t.1).map fun s => ⟨1 - s * h, -1, -1, 1 - p.1 - p.2 - s * h⟩) ++
  ((List.range t.2.1).map fun s => ⟨-(s * h), 1, 0, p.1 - s * h⟩) ++
  ((List.range t.2.2).map fun s => ⟨-(s * h), 0, 1, p.2 - s * h⟩)

theorem triTerms_eq (h x y : K) (t : TriType) (p : K × K) :
    triTerms h x y t p = (affTerms h t p).map fun a => ⟨a.al + a.gx * x + a.gy * y, a.gx, a.gy, a.den⟩ := by
  unfold triTerms affTerms
  rw [List.map_append, List.map_append, List.map_map, List.map_map, List.map_map]
  congr 1
  · congr 1
    · apply List.map_congr_left
      intro s _
      simp only [Function.comp, TriTerm.mk.injEq, and_true]
      ring
    · apply List.map_congr_left
      intro s _
      simp only [Function.comp, TriTerm.mk.injEq, and_true]
      ring
  · apply List.map_congr_left
    intro s _
    simp only [Function.comp, TriTerm.mk.injEq, and_true]
    ring

theorem foldl_mul_list {α : Type} (f : α → K) (l : List α) (v : K) : l.foldl (fun v a => v * f a) v = v * (l.map f).prod := by
  induction l generalizing v with
  | nil => simp
  | cons a l ih => rw [List.foldl_cons, ih, List.map_cons, List.prod_cons, mul_assoc]

theorem range_map_prod (f : Nat → K) (n : Nat) : ((List.range n).map f).prod = ∏ t ∈ range n, f t := by
  induction n with
  | zero => rfl
  | succ n ih => rw [List.range_succ, List.map_append, List.prod_append, ih, prod_range_succ]; simp

theorem triValue_terms (d : TriData K) (hd : d.order ≠ 0) (x y : K) (i : Nat) (t : TriType) (p : K × K) (ht : d.types[i]? = some t)
    (hp : d.positions[i]? = some p) :
    triValue d x y i = .ok (((affTerms (1 / (d.order : K)) t p).map fun a => a.al + a.gx * x + a.gy * y).prod /
      ((affTerms (1 / (d.order : K)) t p).map fun a => a.den).prod) := by
  unfold triValue
  rw [if_neg hd, (unchecked_ok_iff _ _ _).2 ht, except_ok_bind, (unchecked_ok_iff _ _ _).2 hp, except_ok_bind]
  simp only [triFactor_prod, one_mul]
  congr 1
  unfold affTerms
  simp only [List.map_append, List.prod_append, List.map_map, range_map_prod, prod_div_distrib]
  rw [div_mul_div_comm, div_mul_div_comm]
  congr 1
  congr 1
  · congr 1
    · apply prod_congr rfl
      intro s _
      simp only [Function.comp]
      ring
    · apply prod_congr rfl
      intro s _
      simp only [Function.comp]
      ring
  · apply prod_congr rfl
    intro s _
    simp only [Function.comp]
    ring

/-- `prod_{j ≠ i}` -/
theorem triInner_eq (terms : List (TriTerm K)) (i : Nat) :
    triInner terms i = ∏ j ∈ (range terms.length).erase i, (terms.getD j ⟨0, 0, 0, 0⟩).val := by
  unfold triInner
  rw [foldl_prod (fun j => i ≠ j), one_mul]
  apply prod_congr _ (fun _ _ => rfl)
  ext j
  simp [and_comm, eq_comm]

theorem foldl_add_range (g : Nat → K) (c : K) (n : Nat) : (List.range n).foldl (fun v j => v + g j) c = c + ∑ j ∈ range n, g j := by
  induction n with
  | zero => simp
  | succ n ih =>
    rw [List.range_succ, List.foldl_append, ih, sum_range_succ, ← add_assoc]
    rfl

theorem prod_getD (l : List (AffTerm K)) (f : AffTerm K → K) : (l.map f).prod = ∏ j ∈ range l.length, f (l.getD j ⟨0, 0, 0, 0⟩) := by
  induction l using List.reverseRecOn with
  | nil => rfl
  | append_singleton l a ih =>
    rw [List.map_append, List.prod_append, List.length_append, List.length_singleton, prod_range_succ, getD_append_last, ih]
    congr 1
    · apply prod_congr rfl
      intro j hj
      rw [getD_append_lt _ _ _ (mem_range.1 hj)]
    · simp

theorem triDerivative_terms (d : TriData K) (hd : d.order ≠ 0) (x y : K) (i dir : Nat) (t : TriType) (p : K × K) (ht : d.types[i]? = some t)
    (hp : d.positions[i]? = some p) :
    triDerivative d x y i dir = .ok ((∑ j ∈ range (affTerms (1 / (d.order : K)) t p).length,
      (∏ l ∈ (range (affTerms (1 / (d.order : K)) t p).length).erase j,
        (((affTerms (1 / (d.order : K)) t p).getD l ⟨0, 0, 0, 0⟩).al + ((affTerms (1 / (d.order : K)) t p).getD l ⟨0, 0, 0, 0⟩).gx * x +
          ((affTerms (1 / (d.order : K)) t p).getD l ⟨0, 0, 0, 0⟩).gy * y)) *
        (if dir = 0 then ((affTerms (1 / (d.order : K)) t p).getD j ⟨0, 0, 0, 0⟩).gx
          else ((affTerms (1 / (d.order : K)) t p).getD j ⟨0, 0, 0, 0⟩).gy)) /
      ((affTerms (1 / (d.order : K)) t p).map fun a => a.den).prod) := by
  unfold triDerivative
  rw [if_neg hd, (unchecked_ok_iff _ _ _).2 ht, except_ok_bind, (unchecked_ok_iff _ _ _).2 hp, except_ok_bind]
  simp only [triTerms_eq, List.length_map]
  generalize affTerms (1 / (d.order : K)) t p = A
  have hg : ∀ j, j < A.length → (A.map fun a => (⟨a.al + a.gx * x + a.gy * y, a.gx, a.gy, a.den⟩ : TriTerm K)).getD j ⟨0, 0, 0, 0⟩ =
      ⟨(A.getD j ⟨0, 0, 0, 0⟩).al + (A.getD j ⟨0, 0, 0, 0⟩).gx * x + (A.getD j ⟨0, 0, 0, 0⟩).gy * y, (A.getD j ⟨0, 0, 0, 0⟩).gx,
        (A.getD j ⟨0, 0, 0, 0⟩).gy, (A.getD j ⟨0, 0, 0, 0⟩).den⟩ := by
    intro j hj
    simp [hj]
  congr 1
  rw [foldl_add_range, zero_add, foldl_mul_list, one_mul, List.map_map]
  congr 1
  apply sum_congr rfl
  intro j hj
  rw [triInner_eq, List.length_map, hg j (mem_range.1 hj)]
  congr 1
  apply prod_congr rfl
  intro l hl
  rw [hg l (mem_range.1 (mem_erase.1 hl).2)]

/-- The derivative routine returns the derivatives of the value routine. -/
theorem tri_hasDeriv (d : TriData ℝ) (hd : d.order ≠ 0) (i : Nat) (t : TriType) (p : ℝ × ℝ) (ht : d.types[i]? = some t)
    (hp : d.positions[i]? = some p) :
    ∃ f fx fy : ℝ → ℝ → ℝ, (∀ x y, triValue d x y i = .ok (f x y)) ∧ (∀ x y, triDerivative d x y i 0 = .ok (fx x y)) ∧
      (∀ x y, triDerivative d x y i 1 = .ok (fy x y)) ∧
      ∀ x y, HasDerivAt (fun s => f s y) (fx x y) x ∧ HasDerivAt (fun s => f x s) (fy x y) y := by
  refine ⟨_, _, _, fun x y => triValue_terms d hd x y i t p ht hp, fun x y => triDerivative_terms d hd x y i 0 t p ht hp,
    fun x y => triDerivative_terms d hd x y i 1 t p ht hp, fun x y => ?_⟩
  generalize affTerms (1 / (d.order : ℝ)) t p = A
  simp only [prod_getD]
  constructor
  · apply HasDerivAt.div_const
    have := HasDerivAt.fun_finsetProd (u := range A.length) (x := x)
      (f := fun j s => (A.getD j ⟨0, 0, 0, 0⟩).al + (A.getD j ⟨0, 0, 0, 0⟩).gx * s + (A.getD j ⟨0, 0, 0, 0⟩).gy * y)
      (f' := fun j => (A.getD j ⟨0, 0, 0, 0⟩).gx)
      (fun j _ => by
        have := (((hasDerivAt_id x).const_mul (A.getD j ⟨0, 0, 0, 0⟩).gx).const_add (A.getD j ⟨0, 0, 0, 0⟩).al).add_const
          ((A.getD j ⟨0, 0, 0, 0⟩).gy * y)
        simpa using this)
    refine this.congr_deriv ?_
    apply sum_congr rfl
    intro j _
    simp
  · apply HasDerivAt.div_const
    have := HasDerivAt.fun_finsetProd (u := range A.length) (x := y)
      (f := fun j s => (A.getD j ⟨0, 0, 0, 0⟩).al + (A.getD j ⟨0, 0, 0, 0⟩).gx * x + (A.getD j ⟨0, 0, 0, 0⟩).gy * s)
      (f' := fun j => (A.getD j ⟨0, 0, 0, 0⟩).gy)
      (fun j _ => by
        have := ((hasDerivAt_id y).const_mul (A.getD j ⟨0, 0, 0, 0⟩).gy).const_add
          ((A.getD j ⟨0, 0, 0, 0⟩).al + (A.getD j ⟨0, 0, 0, 0⟩).gx * x)
        simpa using this)
    refine this.congr_deriv ?_
    apply sum_congr rfl
    intro j _
    simp

end PolyDiM
