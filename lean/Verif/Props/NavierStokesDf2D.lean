import Verif.Model.NavierStokesDf2D
import Verif.Spec.NavierStokesDf
import Verif.Props.NavierStokes2D

/-!
# C173: the convective term of the Navier-Stokes example
-/

namespace PolyDiM

open Finset Spec

variable {K : Type} [Field K]

theorem nsSkewLhs_ok (Q M : Nat) (w : Nat → K) (u : Nat → Nat → K) (V D : Nat → Nat → Nat → K) :
    nsSkewLhs (vecOf 2 fun d => vecOf Q (u d)) (vecOf 2 fun d => ⟨Q, M, V d⟩) (vecOf 4 fun d => ⟨Q, M, D d⟩) (vecOf Q w)
      = .ok ⟨M, M, fun I J => ∑ q ∈ range Q, w q * ∑ a ∈ range 2, ∑ b ∈ range 2, (u b q * (D (2 * a + b) q I * V a q J) + u a q * (D (2 * a + b) q I * V b q J))⟩ := by
  unfold nsSkewLhs
  simp only [fold_two, unchecked_vecOf _ (show 0 < 2 by decide), unchecked_vecOf _ (show 1 < 2 by decide), except_ok_bind, Nat.mul_zero, Nat.mul_one,
    Nat.zero_add, Nat.add_zero, unchecked_vecOf _ (show 0 < 4 by decide), unchecked_vecOf _ (show 1 < 4 by decide), unchecked_vecOf _ (show 2 < 4 by decide),
    unchecked_vecOf _ (show 2 + 1 < 4 by decide), cellTerm_ok, DMat.zero, DMat.add_ok, cellTerm_ent]
  congr 2
  funext I J
  simp only [Finset.sum_range_succ _ 1, Finset.sum_range_one, ← Finset.sum_add_distrib, zero_add]
  refine sum_congr rfl fun q _ => ?_
  norm_num
  ring

theorem nsSkewRhs_ok (Q M : Nat) (w : Nat → K) (u : Nat → Nat → K) (D : Nat → Nat → Nat → K) :
    nsSkewRhs (vecOf 2 fun d => vecOf Q (u d)) (vecOf 4 fun d => ⟨Q, M, D d⟩) (vecOf Q w)
      = .ok ⟨M, 1, fun I _ => ∑ q ∈ range Q, w q * ∑ a ∈ range 2, ∑ b ∈ range 2, u b q * u a q * D (2 * a + b) q I⟩ := by
  unfold nsSkewRhs
  simp only [fold_two, unchecked_vecOf _ (show 0 < 2 by decide), unchecked_vecOf _ (show 1 < 2 by decide), except_ok_bind, Nat.mul_zero, Nat.mul_one,
    Nat.zero_add, Nat.add_zero, unchecked_vecOf _ (show 0 < 4 by decide), unchecked_vecOf _ (show 1 < 4 by decide), unchecked_vecOf _ (show 2 < 4 by decide),
    unchecked_vecOf _ (show 2 + 1 < 4 by decide), cwise_ok, cellForcing_ok, DMat.zero, DMat.add_ok, cellForcing_ent]
  congr 2
  funext I J
  simp only [Finset.sum_range_succ _ 1, Finset.sum_range_one, ← Finset.sum_add_distrib, zero_add]
  refine sum_congr rfl fun q _ => ?_
  norm_num
  ring

/-- The tables of the speed on a cell: `values.at(a)` and `ders.at(2 a + b)` hold the fields `φ`, one column for each. -/
structure SpeedTables (values ders : List (DMat K)) (weights : List K) (Q M : Nat) (w : Nat → K) (φ : Nat → PointField K) : Prop where
  values : values = vecOf 2 fun a => ⟨Q, M, fun q J => (φ J).value a q⟩
  ders : ders = vecOf 4 fun d => ⟨Q, M, fun q J => (φ J).grad (d / 2) (d % 2) q⟩
  weights : weights = vecOf Q w

/-- The form that each number of the configuration stands for. -/
def formOf (form Q : Nat) (w : Nat → K) : PointField K → PointField K → PointField K → K :=
  if form = 0 then convectiveForm Q w else skewForm Q w

variable {values ders : List (DMat K)} {weights : List K} {Q M : Nat} {w : Nat → K} {φ : Nat → PointField K}

theorem convectiveForm_expand (α u v : PointField K) : convectiveForm Q w α u v
    = ∑ q ∈ range Q, w q * ∑ a ∈ range 2, ∑ b ∈ range 2, α.value b q * u.grad a b q * v.value a q := by
  unfold convectiveForm
  refine sum_congr rfl fun q _ => ?_
  simp only [Finset.sum_range_succ _ 1, Finset.sum_range_one]
  ring

/-- The convective form is linear in each field. -/
theorem convectiveForm_linear (x : Nat → K) (α u v : PointField K) :
    convectiveForm Q w (combined M φ x) u v = ∑ J ∈ range M, convectiveForm Q w (φ J) u v * x J ∧
    convectiveForm Q w α (combined M φ x) v = ∑ J ∈ range M, convectiveForm Q w α (φ J) v * x J ∧
    convectiveForm Q w α u (combined M φ x) = ∑ J ∈ range M, convectiveForm Q w α u (φ J) * x J := by
  unfold convectiveForm combined
  simp only [Finset.sum_mul]
  refine ⟨?_, ?_, ?_⟩
  all_goals
    rw [sum_comm]
    refine sum_congr rfl fun q _ => ?_
    simp only [mul_sum, sum_mul, ← sum_add_distrib]
    refine sum_congr rfl fun J _ => ?_
    ring

theorem skewForm_linear (x : Nat → K) (α u v : PointField K) :
    skewForm Q w (combined M φ x) u v = ∑ J ∈ range M, skewForm Q w (φ J) u v * x J ∧
    skewForm Q w α (combined M φ x) v = ∑ J ∈ range M, skewForm Q w α (φ J) v * x J ∧
    skewForm Q w α u (combined M φ x) = ∑ J ∈ range M, skewForm Q w α u (φ J) * x J := by
  unfold skewForm
  obtain ⟨h1, -, -⟩ := convectiveForm_linear (Q := Q) (M := M) (w := w) (φ := φ) x α u v
  obtain ⟨h1', -, -⟩ := convectiveForm_linear (Q := Q) (M := M) (w := w) (φ := φ) x α v u
  obtain ⟨-, h2, h3⟩ := convectiveForm_linear (Q := Q) (M := M) (w := w) (φ := φ) x α u v
  obtain ⟨-, h2', -⟩ := convectiveForm_linear (Q := Q) (M := M) (w := w) (φ := φ) x α u u
  obtain ⟨-, -, h3'⟩ := convectiveForm_linear (Q := Q) (M := M) (w := w) (φ := φ) x α v v
  rw [h1, h1', h2, h2', h3, h3']
  refine ⟨?_, ?_, ?_⟩
  all_goals
    rw [← sum_sub_distrib, Finset.sum_div]
    refine sum_congr rfl fun J _ => ?_
    ring

theorem formOf_linear (form : Nat) (x : Nat → K) (α u v : PointField K) :
    formOf form Q w (combined M φ x) u v = ∑ J ∈ range M, formOf form Q w (φ J) u v * x J ∧
    formOf form Q w α (combined M φ x) v = ∑ J ∈ range M, formOf form Q w α (φ J) v * x J ∧
    formOf form Q w α u (combined M φ x) = ∑ J ∈ range M, formOf form Q w α u (φ J) * x J := by
  unfold formOf
  split_ifs
  · exact convectiveForm_linear x α u v
  · exact skewForm_linear x α u v

/-- The entries of the local matrix and of the local right-hand side. -/
theorem localConvection_entries (hT : SpeedTables values ders weights Q M w φ) {form : Nat} (hform : form < 2) (d : Nat → K) (rest : List K) :
    ∃ L r, localConvection form values ders weights M (vecOf M d ++ rest) = .ok (L, r) ∧ L.rows = M ∧ L.cols = M ∧ r.rows = M ∧ r.cols = 1 ∧
      ∀ I, r.ent I 0 = formOf form Q w (combined M φ d) (combined M φ d) (φ I) ∧
        ∀ J, L.ent I J = formOf form Q w (combined M φ d) (φ J) (φ I) + formOf form Q w (φ J) (combined M φ d) (φ I) := by
  obtain ⟨rfl, rfl, rfl⟩ := hT
  have hd : frontSegment (vecOf M d ++ rest) M = .ok (vecOf M d) := by
    unfold frontSegment
    rw [if_pos (by rw [List.length_append, vecOf_length]; omega), List.take_append_of_le_length (by rw [vecOf_length])]
    rw [List.take_of_length_le (by rw [vecOf_length])]
  have hu : ∀ a q, ∑ J ∈ range M, (φ J).value a q * (vecOf M d).getD J 0 = (combined M φ d).value a q := fun a q =>
    sum_congr rfl fun J hJ => by rw [vecOf_getD _ (mem_range.1 hJ)]
  have hg : ∀ a b q, ∑ J ∈ range M, (φ J).grad a b q * (vecOf M d).getD J 0 = (combined M φ d).grad a b q := fun a b q =>
    sum_congr rfl fun J hJ => by rw [vecOf_getD _ (mem_range.1 hJ)]
  unfold localConvection
  rw [hd]
  simp only [except_ok_bind, nsOn_ok, hu, hg]
  rcases (by omega : form = 0 ∨ form = 1) with rfl | rfl
  · simp only [nsLhs_ok, nsRhs_ok, except_ok_bind]
    refine ⟨_, _, rfl, rfl, rfl, rfl, rfl, fun I => ⟨?_, fun J => ?_⟩⟩
    · simp only [formOf, if_true, convectiveForm_expand]
      refine sum_congr rfl fun q _ => ?_
      norm_num [Finset.sum_range_succ]
    · simp only [formOf, if_true, convectiveForm_expand, ← sum_add_distrib]
      refine sum_congr rfl fun q _ => ?_
      norm_num [Finset.sum_range_succ]
      ring
  · simp only [nsLhs_ok, nsRhs_ok, nsSkewLhs_ok, nsSkewRhs_ok, except_ok_bind, halfDifference, DMat.smul, DMat.add_ok]
    refine ⟨_, _, rfl, rfl, rfl, rfl, rfl, fun I => ⟨?_, fun J => ?_⟩⟩
    · simp only [formOf, one_ne_zero, if_false, skewForm, convectiveForm_expand]
      rw [neg_one_mul, ← sub_eq_add_neg, ← sum_sub_distrib, ← sum_sub_distrib, Finset.sum_div, Finset.mul_sum]
      refine sum_congr rfl fun q _ => ?_
      norm_num [Finset.sum_range_succ]
      ring
    · simp only [formOf, one_ne_zero, if_false, skewForm, convectiveForm_expand]
      rw [neg_one_mul, ← sub_eq_add_neg, ← sum_sub_distrib, ← sum_sub_distrib, ← sum_sub_distrib, Finset.sum_div, Finset.sum_div, ← sum_add_distrib, Finset.mul_sum]
      refine sum_congr rfl fun q _ => ?_
      norm_num [Finset.sum_range_succ]
      ring

/-- **C173.** With `u` the speed of the previous iteration and `b` the form chosen in the configuration (`Conv` or `Skew`), the local right-hand side is `b(u, u, φ_I)`, and the local
matrix times any vector is `b(u, x, φ_I) + b(x, u, φ_I)`: the derivative of the right-hand side. -/
theorem C173_newton (hT : SpeedTables values ders weights Q M w φ) {form : Nat} (hform : form < 2) (d : Nat → K) (rest : List K) :
    ∃ L r, localConvection form values ders weights M (vecOf M d ++ rest) = .ok (L, r) ∧ L.rows = M ∧ L.cols = M ∧ r.rows = M ∧ r.cols = 1 ∧
      ∀ I, r.ent I 0 = formOf form Q w (combined M φ d) (combined M φ d) (φ I) ∧
        ∀ x : Nat → K, ∑ J ∈ range M, L.ent I J * x J
          = formOf form Q w (combined M φ d) (combined M φ x) (φ I) + formOf form Q w (combined M φ x) (combined M φ d) (φ I) := by
  obtain ⟨L, r, h, h1, h2, h3, h4, he⟩ := localConvection_entries hT hform d rest
  refine ⟨L, r, h, h1, h2, h3, h4, fun I => ⟨(he I).1, fun x => ?_⟩⟩
  rw [(formOf_linear form x (combined M φ d) (combined M φ d) (φ I)).2.1, (formOf_linear form x (combined M φ d) (combined M φ d) (φ I)).1, ← sum_add_distrib]
  exact sum_congr rfl fun J _ => by rw [(he I).2 J]; ring

/-- **C173.** In the skew form the convective term does no work: the local right-hand side tested with the speed itself is zero. -/
theorem C173_skew (hT : SpeedTables values ders weights Q M w φ) (d : Nat → K) (rest : List K) :
    ∃ L r, localConvection 1 values ders weights M (vecOf M d ++ rest) = .ok (L, r) ∧ ∑ I ∈ range M, r.ent I 0 * d I = 0 := by
  obtain ⟨L, r, h, -, -, -, -, he⟩ := localConvection_entries hT (form := 1) (by decide) d rest
  refine ⟨L, r, h, ?_⟩
  rw [sum_congr rfl fun I _ => by rw [(he I).1], ← (formOf_linear 1 d (combined M φ d) (combined M φ d) (combined M φ d)).2.2]
  simp [formOf, skewForm]

/-- **C173.** Without convection the local matrix and right-hand side are zero, and another number of the configuration is refused. -/
theorem C173_none (hT : SpeedTables values ders weights Q M w φ) (form : Nat) (hform : 2 ≤ form) (d : Nat → K) (rest : List K) :
    localConvection form values ders weights M (vecOf M d ++ rest) = if form = 2 then .ok (.zero M M, .zero M 1) else .error .runtimeError := by
  obtain ⟨rfl, rfl, rfl⟩ := hT
  have hd : frontSegment (vecOf M d ++ rest) M = .ok (vecOf M d) := by
    unfold frontSegment
    rw [if_pos (by rw [List.length_append, vecOf_length]; omega), List.take_append_of_le_length (by rw [vecOf_length])]
    rw [List.take_of_length_le (by rw [vecOf_length])]
  unfold localConvection
  rw [hd]
  simp only [except_ok_bind, nsOn_ok]
  obtain ⟨n, rfl⟩ := Nat.exists_eq_add_of_le hform
  cases n with
  | zero => rfl
  | succ n =>
    rw [if_neg (by omega)]
    rw [show 2 + (n + 1) = n + 3 by omega]
    rfl

/-- Three fields at one point: the constant ones and one with the value (2, 1) and the gradient (1, -3; 0, -1). -/
def sampleFields : Nat → PointField ℚ
  | 0 => ⟨fun a _ => if a = 0 then 1 else 0, fun _ _ _ => 0⟩
  | 1 => ⟨fun a _ => if a = 0 then 0 else 1, fun _ _ _ => 0⟩
  | _ => ⟨fun a _ => if a = 0 then 2 else 1, fun a b _ => if a = 0 then (if b = 0 then 1 else -3) else (if b = 0 then 0 else -1)⟩

/-- The hypotheses of `C173_newton` and `C173_skew` are met by three fields and one pressure; the derivative of the right-hand side against the first field, in the direction of the
second field, is `-3`, the derivative of the first component in the second direction. -/
example : ∃ L r, localConvection 0 (vecOf 2 fun a => ⟨1, 3, fun q J => (sampleFields J).value a q⟩) (vecOf 4 fun d => ⟨1, 3, fun q J => (sampleFields J).grad (d / 2) (d % 2) q⟩)
      (vecOf 1 fun _ => (1 : ℚ)) 3 (vecOf 3 (fun J => if J = 2 then (1 : ℚ) else 0) ++ [7]) = .ok (L, r) ∧ r.ent 0 0 = -1 ∧ L.ent 0 1 = -3 := by
  obtain ⟨L, r, h, -, -, -, -, he⟩ := C173_newton (values := vecOf 2 fun a => ⟨1, 3, fun q J => (sampleFields J).value a q⟩)
    (ders := vecOf 4 fun d => ⟨1, 3, fun q J => (sampleFields J).grad (d / 2) (d % 2) q⟩) (weights := vecOf 1 fun _ => (1 : ℚ)) ⟨rfl, rfl, rfl⟩ (form := 0) (by decide)
    (fun J => if J = 2 then (1 : ℚ) else 0) [7]
  refine ⟨L, r, h, ?_, ?_⟩
  · rw [(he 0).1]
    norm_num [formOf, convectiveForm, combined, sampleFields, Finset.sum_range_succ]
  · have := (he 0).2 fun J => if J = 1 then (1 : ℚ) else 0
    norm_num [formOf, convectiveForm, combined, sampleFields, Finset.sum_range_succ] at this
    exact this

end PolyDiM
