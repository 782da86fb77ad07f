import Verif.Lemmas.Quadrature
import Verif.Model.Zfem2D
import Verif.Spec.Zfem
import Mathlib.Data.List.Perm.Basic
import Mathlib.Data.List.Nodup

/-! Helper lemmas: `createMaps`. -/

namespace PolyDiM

open Spec

theorem interleave_perm {N r m : Nat} (h : N ≤ r * m) : ((interleave r m).filter (· < N)).Perm (List.range N) := by
  rw [List.perm_ext_iff_of_nodup]
  · intro x
    rw [List.mem_filter, List.mem_range, interleave, List.mem_flatMap]
    constructor
    · rintro ⟨-, hx⟩
      simpa using hx
    · intro hx
      have hr : 0 < r := Nat.pos_of_ne_zero (by rintro rfl; omega)
      refine ⟨⟨x % r, List.mem_range.2 (Nat.mod_lt _ hr), List.mem_map.2 ⟨x / r, List.mem_range.2 ?_, ?_⟩⟩, by simpa using hx⟩
      · rw [Nat.div_lt_iff_lt_mul hr, mul_comm]
        omega
      · rw [mul_comm]
        exact Nat.mod_add_div x r
  · refine List.Nodup.filter _ ?_
    rw [interleave, List.nodup_flatMap]
    constructor
    · intro i hi
      have hr : 0 < r := by have := List.mem_range.1 hi; omega
      refine List.Nodup.map (fun a b hab => ?_) List.nodup_range
      exact Nat.eq_of_mul_eq_mul_right hr (by simpa using hab)
    · refine List.Nodup.pairwise_of_forall_ne List.nodup_range ?_
      intro a ha b hb hab
      simp only [Function.onFun, List.Disjoint, List.mem_map, List.mem_range]
      rintro x ⟨j, -, rfl⟩ ⟨l, -, hl⟩
      have ha := List.mem_range.1 ha
      have hb := List.mem_range.1 hb
      have h1 : (a + j * r) % r = a := by rw [Nat.add_mul_mod_self_right, Nat.mod_eq_of_lt ha]
      have h2 : (b + l * r) % r = b := by rw [Nat.add_mul_mod_self_right, Nat.mod_eq_of_lt hb]
      rw [hl] at h2
      exact hab (h1.symm.trans h2)
  · exact List.nodup_range

theorem ceilDiv_ge {a b : Nat} (hb : 0 < b) : a ≤ ceilDiv a b * b := by
  unfold ceilDiv
  have := Nat.div_add_mod (a + b - 1) b
  have := Nat.mod_lt (a + b - 1) hb
  rw [mul_comm]
  omega

theorem list_sum_set (l : List Nat) (i v : Nat) (h : i < l.length) : (l.set i v).sum + l[i] = l.sum + v := by
  induction l generalizing i with
  | nil => simp at h
  | cons a l ih =>
    cases i with
    | zero => simp; omega
    | succ i =>
      have := ih i (by simpa using h)
      simp only [List.set_cons_succ, List.sum_cons, List.getElem_cons_succ]
      omega

/-- The numbers of internal DOFs of the triangles: they add up to all internal DOFs but the centre. -/
theorem numPt_ok {n N2 : Nat} (hn : 0 < n) (h2 : 2 ≤ N2) :
    ∃ nums, numPt n N2 = .ok nums ∧ nums.length = n ∧ nums.sum = N2 - 1 ∧
      (∀ m ∈ nums, m ≤ N2) ∧ ∀ m ∈ nums, (N2 - 1) / n ≤ m ∧ m ≤ (N2 - 1) / n + 1 := by
  have hcond : ¬ (n = 0 ∨ N2 = 0 ∨ N2 - 1 = 0) := by omega
  unfold numPt
  rw [if_neg hcond]
  have hperm := interleave_perm (ceilDiv_ge (a := n) (b := N2 - 1) (by omega))
  set L := interleave (ceilDiv n (N2 - 1)) (N2 - 1) with hL
  set base := (N2 - 1) / n with hbase
  set other := (N2 - 1) % n with hother
  obtain ⟨s, hs, hi⟩ := foldlM_inv (numPtStep n base other)
    (fun pre s => s.1.length = n ∧ s.2 = (pre.filter (· < n)).length ∧ s.1.sum = base * s.2 + min s.2 other ∧ (∀ m ∈ s.1, m ≤ base + 1) ∧
      (∀ x (h : x < s.1.length), x ∉ pre → s.1[x] = 0) ∧ ∀ x (h : x < s.1.length), x ∈ pre → base ≤ s.1[x]) L (List.replicate n 0, 0) (by simp) (by
    intro pre x post s hl hinv
    obtain ⟨nums, cnt⟩ := s
    obtain ⟨i1, i2, i3, i4, i5, i6⟩ := hinv
    simp only at i1 i2 i3 i4 i5 i6
    by_cases hx : x < n
    · have hnd : (L.filter (· < n)).Nodup := hperm.nodup_iff.2 List.nodup_range
      have hlen : (L.filter (· < n)).length = n := by rw [hperm.length_eq, List.length_range]
      have hfl : L.filter (· < n) = pre.filter (· < n) ++ x :: post.filter (· < n) := by
        rw [hl, List.filter_append, List.filter_cons_of_pos (by simpa using hx)]
      have hcnt : cnt < n := by
        rw [hfl, List.length_append, List.length_cons] at hlen
        omega
      have hxp : x ∉ pre := by
        intro hmem
        rw [hfl] at hnd
        have := (List.nodup_append.1 hnd).2.2 x (List.mem_filter.2 ⟨hmem, by simpa using hx⟩) x (by simp)
        exact this rfl
      have hx' : x < nums.length := by omega
      refine ⟨(nums.set x (base + if cnt < other then 1 else 0), cnt + 1), ?_, ?_, ?_, ?_, ?_, ?_, ?_⟩
      · unfold numPtStep
        rw [if_pos ⟨hx, hcnt⟩, if_pos hx']
      · simpa using i1
      · simp only
        rw [List.filter_append, List.length_append, i2, List.filter_cons_of_pos (by simpa using hx)]
        simp
      · have h0 := i5 x hx' hxp
        have := list_sum_set nums x (base + if cnt < other then 1 else 0) hx'
        rw [h0] at this
        simp only
        rw [mul_add, mul_one]
        split_ifs at this ⊢ <;> omega
      · intro m hm
        simp only at hm
        rcases List.mem_or_eq_of_mem_set hm with h | h
        · exact i4 m h
        · rw [h]
          split_ifs <;> omega
      · intro y hy hyp
        simp only at hy ⊢
        rw [List.mem_append, not_or] at hyp
        rw [List.getElem_set_ne (by rintro rfl; exact hyp.2 (by simp))]
        exact i5 y (by simpa using hy) hyp.1
      · intro y hy hyp
        simp only at hy ⊢
        by_cases hxy : x = y
        · subst hxy
          rw [List.getElem_set_self]
          omega
        · rw [List.getElem_set_ne hxy]
          refine i6 y (by simpa using hy) ?_
          rcases List.mem_append.1 hyp with h | h
          · exact h
          · exact absurd (List.mem_singleton.1 h).symm hxy
    · refine ⟨(nums, cnt), ?_, i1, ?_, i3, i4, ?_, ?_⟩
      · unfold numPtStep
        rw [if_neg (by omega)]
      · simp only
        rw [List.filter_append, List.filter_cons_of_neg (by simpa using hx), List.filter_nil, List.append_nil]
        exact i2
      · intro y hy hyp
        rw [List.mem_append, not_or] at hyp
        exact i5 y hy hyp.1
      · intro y hy hyp
        simp only at hy
        refine i6 y hy ?_
        rcases List.mem_append.1 hyp with h | h
        · exact h
        · exact absurd (List.mem_singleton.1 h) (by omega))
  obtain ⟨i1, i2, i3, i4, i5, i6⟩ := hi
  rw [hs, except_ok_bind]
  rw [hperm.length_eq, List.length_range] at i2
  refine ⟨s.1, rfl, i1, ?_, fun m hm => (i4 m hm).trans ?_, fun m hm => ⟨?_, i4 m hm⟩⟩
  · rw [i3, i2, min_eq_right (Nat.mod_lt _ hn).le, mul_comm]
    exact Nat.div_add_mod (N2 - 1) n
  · have : base ≤ N2 - 1 := Nat.div_le_self _ _
    omega
  · obtain ⟨x, hx, rfl⟩ := List.mem_iff_getElem.1 hm
    exact i6 x hx (List.mem_filter.1 (hperm.mem_iff.2 (List.mem_range.2 (by omega)))).1

/-- `p_mod` after the loop. -/
def pmList (N2 t m : Nat) : List Nat :=
  if N2 > 1 ∧ m > 0 then ((interleave (ceilDiv N2 m) m).filter (· < N2)).map fun x => (x + t + 1) % N2 else List.range N2

theorem pmList_perm (N2 t m : Nat) : (pmList N2 t m).Perm (List.range N2) := by
  unfold pmList
  split_ifs with h
  swap
  · exact List.Perm.refl _
  have hp := interleave_perm (ceilDiv_ge (a := N2) (b := m) h.2)
  have hnd : (((interleave (ceilDiv N2 m) m).filter (· < N2)).map fun x => (x + t + 1) % N2).Nodup := by
    refine (List.nodup_map_iff_inj_on (hp.nodup_iff.2 List.nodup_range)).2 ?_
    intro x hx y hy hxy
    have hx := List.mem_range.1 (hp.mem_iff.1 hx)
    have hy := List.mem_range.1 (hp.mem_iff.1 hy)
    have : x ≡ y [MOD N2] := Nat.ModEq.add_right_cancel' (t + 1) (by rw [← add_assoc, ← add_assoc]; exact hxy)
    exact Nat.ModEq.eq_of_lt_of_lt this hx hy
  have hlen : (((interleave (ceilDiv N2 m) m).filter (· < N2)).map fun x => (x + t + 1) % N2).length = N2 := by
    rw [List.length_map, hp.length_eq, List.length_range]
  refine List.Subperm.perm_of_length_le (List.subperm_of_subset hnd ?_) (by rw [hlen, List.length_range])
  intro x hx
  obtain ⟨y, -, rfl⟩ := List.mem_map.1 hx
  exact List.mem_range.2 (Nat.mod_lt _ (by omega))

theorem pMod_ok (N2 t m : Nat) (pm : List Nat) (hpm : pm.length = N2) : pMod N2 t m pm = .ok (pmList N2 t m) := by
  unfold pMod pmList
  split_ifs with h
  swap
  · rfl
  have hp := interleave_perm (ceilDiv_ge (a := N2) (b := m) h.2)
  set L := interleave (ceilDiv N2 m) m with hL
  obtain ⟨s, hs, hi⟩ := foldlM_inv (pModStep N2 t)
    (fun pre s => s.1.length = N2 ∧ s.2 = (pre.filter (· < N2)).length ∧ s.1.take s.2 = (pre.filter (· < N2)).map fun x => (x + t + 1) % N2) L (pm, 0)
    (by simpa using hpm) (by
    intro pre x post s hl hinv
    obtain ⟨q, cnt⟩ := s
    obtain ⟨i1, i2, i3⟩ := hinv
    simp only at i1 i2 i3
    by_cases hx : x < N2
    · have hlen : (L.filter (· < N2)).length = N2 := by rw [hp.length_eq, List.length_range]
      have hfl : L.filter (· < N2) = pre.filter (· < N2) ++ x :: post.filter (· < N2) := by
        rw [hl, List.filter_append, List.filter_cons_of_pos (by simpa using hx)]
      have hcnt : cnt < N2 := by
        rw [hfl, List.length_append, List.length_cons] at hlen
        omega
      refine ⟨(q.set cnt ((x + t + 1) % N2), cnt + 1), ?_, ?_, ?_, ?_⟩
      · unfold pModStep
        rw [if_pos ⟨hx, hcnt⟩, if_pos (by simp only; omega)]
      · simpa using i1
      · simp only
        rw [List.filter_append, List.length_append, i2, List.filter_cons_of_pos (by simpa using hx)]
        simp
      · simp only
        rw [List.filter_append, List.filter_cons_of_pos (by simpa using hx), List.filter_nil, List.map_append, ← i3, List.map_singleton,
          List.take_add_one, List.getElem?_set_self (by omega), List.take_set_of_le le_rfl]
        rfl
    · refine ⟨(q, cnt), ?_, i1, ?_, ?_⟩
      · unfold pModStep
        rw [if_neg (by omega)]
      · simp only
        rw [List.filter_append, List.filter_cons_of_neg (by simpa using hx), List.filter_nil, List.append_nil]
        exact i2
      · simp only
        rw [List.filter_append, List.filter_cons_of_neg (by simpa using hx), List.filter_nil, List.append_nil]
        exact i3)
  obtain ⟨i1, i2, i3⟩ := hi
  rw [hs, except_ok_bind]
  rw [hp.length_eq, List.length_range] at i2
  rw [i2, List.take_of_length_le i1.le] at i3
  rw [i3]

theorem edgeIds_get (N1 a i : Nat) (h : i < N1) : (edgeIds N1 a)[i]? = some (i + a) := by
  simp [edgeIds, h]

theorem edgeIds_length (N1 a : Nat) : (edgeIds N1 a).length = N1 := by simp [edgeIds]

theorem put_ok (M : IMat) (t c : Nat) (l : List Nat) (ht : t < M.rows) (hc : c + l.length ≤ M.cols) :
    M.put t c l = .ok ⟨M.rows, M.cols, fun i j => if i = t ∧ c ≤ j ∧ j < c + l.length then l[j - c]? else M.ent i j⟩ := by
  unfold IMat.put
  rw [if_pos ⟨ht, hc⟩]

/-- A loop over the rows in which pass `t` only changes row `t`. -/
theorem fold_rows {n C : Nat} {step : IMat → Nat → Except Fault IMat} {h : Nat → Nat → Option Nat → Option Nat}
    (hs : ∀ (e : Nat → Nat → Option Nat) (t : Nat), t < n → step ⟨n, C, e⟩ t = .ok ⟨n, C, fun i j => if i = t then h t j (e i j) else e i j⟩)
    (e : Nat → Nat → Option Nat) :
    (List.range n).foldlM step ⟨n, C, e⟩ = .ok ⟨n, C, fun i j => if i < n then h i j (e i j) else e i j⟩ := by
  have := foldlM_eq step (fun pre => ⟨n, C, fun i j => if i < pre.length then h i j (e i j) else e i j⟩) (List.range n) (by
    intro pre a post hl
    have hlen := congrArg List.length hl
    rw [List.length_range, List.length_append, List.length_cons] at hlen
    have ha : a = pre.length := by
      have : (List.range n)[pre.length]? = some a := by rw [hl]; simp
      rw [List.getElem?_range (by omega)] at this
      exact (Option.some.inj this).symm
    subst ha
    rw [hs _ _ (by omega)]
    congr 2
    funext i j
    rw [List.length_append, List.length_singleton]
    by_cases h1 : i = pre.length
    · subst h1
      simp
    · rw [if_neg h1]
      by_cases h2 : i < pre.length
      · rw [if_pos h2, if_pos (by omega)]
      · rw [if_neg h2, if_neg (by omega)])
  simpa using this

/-- The two spokes. -/
def spokeRow (n N1 a t j : Nat) (x : Option Nat) : Option Nat :=
  if 3 ≤ j ∧ j < 3 + N1 then some (a + t * N1 + (j - 3))
  else if 3 + 2 * N1 ≤ j ∧ j < 3 + 3 * N1 then some (a + (t + 1) % n * N1 + (j - (3 + 2 * N1))) else x

theorem putSpokes_ok {n C N1 : Nat} (hC : 3 + 3 * N1 ≤ C) (a t : Nat) (ht : t < n) (e : Nat → Nat → Option Nat) :
    putSpokes n N1 a t ⟨n, C, e⟩ = .ok ⟨n, C, fun i j => if i = t then spokeRow n N1 a t j (e i j) else e i j⟩ := by
  unfold putSpokes
  rw [put_ok _ _ _ _ ht (by rw [edgeIds_length]; show _ ≤ C; omega), except_ok_bind, put_ok _ _ _ _ ht (by rw [edgeIds_length]; show _ ≤ C; omega)]
  congr 2
  funext i j
  simp only [edgeIds_length, spokeRow]
  by_cases hi : i = t
  swap
  · simp [hi]
  simp only [hi, true_and, if_true]
  by_cases h1 : 3 ≤ j ∧ j < 3 + N1
  · rw [if_neg (by omega), if_pos h1, if_pos h1, edgeIds_get _ _ _ (by omega), add_comm]
  · rw [if_neg h1, if_neg h1]
    by_cases h2 : 3 + 2 * N1 ≤ j ∧ j < 3 + 3 * N1
    · rw [if_pos h2, if_pos (by omega), edgeIds_get _ _ _ (by omega), add_comm]
    · rw [if_neg h2, if_neg (by omega)]

/-- Vertices and edge of the polygon. -/
def rimRow (n N1 t j : Nat) (x : Option Nat) : Option Nat :=
  if j = 1 then some t else if j = 2 then some ((t + 1) % n) else if 3 + N1 ≤ j ∧ j < 3 + 2 * N1 then some (t * N1 + n + (j - (3 + N1))) else x

theorem putRim_ok {n C N1 : Nat} (hC : 3 + 3 * N1 ≤ C) (t : Nat) (ht : t < n) (e : Nat → Nat → Option Nat) :
    (do
      let M ← IMat.put ⟨n, C, e⟩ t 1 [t]
      let M ← M.put t 2 [(t + 1) % n]
      M.put t (3 + N1) (edgeIds N1 (t * N1 + n))) = .ok ⟨n, C, fun i j => if i = t then rimRow n N1 t j (e i j) else e i j⟩ := by
  rw [put_ok _ _ _ _ ht (by show 1 + 1 ≤ C; omega), except_ok_bind, put_ok _ _ _ _ ht (by show 2 + 1 ≤ C; omega), except_ok_bind,
    put_ok _ _ _ _ ht (by rw [edgeIds_length]; show _ ≤ C; omega)]
  congr 2
  funext i j
  simp only [edgeIds_length, rimRow, List.length_singleton]
  by_cases hi : i = t
  swap
  · simp [hi]
  simp only [hi, true_and, if_true]
  by_cases h1 : j = 1
  · subst h1
    rw [if_neg (by omega), if_neg (by omega), if_pos (by omega), if_pos rfl]
    rfl
  by_cases h2 : j = 2
  · subst h2
    rw [if_neg (by omega), if_pos (by omega), if_neg h1, if_pos rfl]
    rfl
  rw [if_neg h1, if_neg h2]
  by_cases h3 : 3 + N1 ≤ j ∧ j < 3 + 2 * N1
  · rw [if_pos (by omega), if_pos h3, edgeIds_get _ _ _ (by omega), add_comm]
  · rw [if_neg (by omega), if_neg (by omega), if_neg (by omega), if_neg h3]

theorem putFirst_ok (n C v : Nat) (hC : 0 < C) (e : Nat → Nat → Option Nat) :
    IMat.putFirst ⟨n, C, e⟩ n v = .ok ⟨n, C, fun i j => if i < n ∧ j = 0 then some v else e i j⟩ := by
  unfold IMat.putFirst
  rw [if_pos ⟨rfl, hC⟩]

theorem putInner_ok {n C N2 t base lo hi : Nat} {pm : List Nat} (hpm : pm.Perm (List.range N2)) (ht : t < n) (hC : base + N2 ≤ C) (hlh : lo ≤ hi) (hh : hi ≤ N2)
    (e : Nat → Nat → Option Nat) (off : Nat) :
    putInner t base pm lo hi ⟨n, C, e⟩ off = .ok (⟨n, C, fun i j => if i = t ∧ base ≤ j ∧ lo ≤ pm.idxOf (j - base) ∧ pm.idxOf (j - base) < hi
      then some (off + (pm.idxOf (j - base) - lo)) else e i j⟩, off + (hi - lo)) := by
  have hlen : pm.length = N2 := by rw [hpm.length_eq, List.length_range]
  have hnd : pm.Nodup := hpm.nodup_iff.2 List.nodup_range
  unfold putInner
  have := foldlM_eq (fun (s : IMat × Nat) p => do
    let q ← unchecked pm p
    let M' ← s.1.put t (base + q) [s.2]
    .ok (M', s.2 + 1)) (fun pre => (⟨n, C, fun i j => if i = t ∧ base ≤ j ∧ lo ≤ pm.idxOf (j - base) ∧ pm.idxOf (j - base) < lo + pre.length
      then some (off + (pm.idxOf (j - base) - lo)) else e i j⟩, off + pre.length)) (List.range' lo (hi - lo)) (by
    intro pre a post hl
    have hlen' := congrArg List.length hl
    rw [List.length_range', List.length_append, List.length_cons] at hlen'
    have ha : a = lo + pre.length := by
      have : (List.range' lo (hi - lo))[pre.length]? = some a := by rw [hl]; simp
      rw [List.getElem?_range' (by omega)] at this
      have := Option.some.inj this
      omega
    have hal : a < pm.length := by omega
    have hq : pm[a] < N2 := List.mem_range.1 (hpm.mem_iff.1 (List.getElem_mem hal))
    have hidx : pm.idxOf pm[a] = a := hnd.idxOf_getElem a hal
    simp only []
    rw [(unchecked_ok_iff _ _ _).2 (List.getElem?_eq_getElem hal), except_ok_bind, put_ok _ _ _ _ ht (by show base + pm[a] + 1 ≤ C; omega), except_ok_bind]
    rw [List.length_append, List.length_singleton]
    refine congrArg Except.ok (Prod.ext (congrArg (IMat.mk n C) ?_) (add_assoc _ _ _))
    funext i j
    simp only [List.length_singleton]
    by_cases hi' : i = t
    swap
    · simp [hi']
    simp only [hi', true_and]
    by_cases hj : j = base + pm[a]
    · have hs : j - base = pm[a] := by omega
      rw [if_pos (by omega), hj, if_pos (by rw [← hj, hs, hidx]; omega), Nat.sub_self, ← hj, hs, hidx, ha, Nat.add_sub_cancel_left]
      rfl
    · rw [if_neg (by omega)]
      by_cases hb : base ≤ j
      swap
      · rw [if_neg (by omega), if_neg (by omega)]
      have hne : pm.idxOf (j - base) ≠ a := by
        intro h
        have h1 : pm[pm.idxOf (j - base)]? = pm[a]? := by rw [h]
        rw [List.getElem?_eq_getElem hal, List.getElem?_eq_getElem (by omega), List.getElem_idxOf] at h1
        have := Option.some.inj h1
        omega
      by_cases hc : lo ≤ pm.idxOf (j - base) ∧ pm.idxOf (j - base) < lo + pre.length
      · rw [if_pos (by omega), if_pos (by omega)]
      · rw [if_neg (by omega), if_neg (by omega)])
  simp only [List.length_nil, Nat.add_zero, List.length_range'] at this
  rw [show lo + (hi - lo) = hi by omega] at this
  rw [← this]
  congr 2
  congr 1
  funext i j
  rw [if_neg (by omega)]

theorem S_le {N2 : Nat} (nums : List Nat) (hb : ∀ m ∈ nums, m ≤ N2) (t : Nat) : (nums.take t).sum ≤ t * N2 := by
  induction nums generalizing t with
  | nil => simp
  | cons a l ih =>
    cases t with
    | zero => simp
    | succ t =>
      have h1 := ih (fun m hm => hb m (by simp [hm])) t
      have h2 := hb a (by simp)
      rw [List.take_succ_cons, List.sum_cons, Nat.add_mul, Nat.one_mul]
      omega

theorem S_succ (nums : List Nat) (t : Nat) (ht : t < nums.length) : (nums.take (t + 1)).sum = (nums.take t).sum + nums[t] := by
  rw [List.take_add_one, List.getElem?_eq_getElem ht, List.sum_append]
  rfl

/-- The number of inner node `j` of triangle `t`. -/
def innerNum (n N1 N2 nb : Nat) (nums : List Nat) (t j : Nat) : Nat :=
  let p := (pmList N2 t (nums.getD t 0)).idxOf j
  if p < nums.getD t 0 then nb - N2 + 1 + (nums.take t).sum + p else nb + n * N1 + (t * N2 - (nums.take t).sum) + (p - nums.getD t 0)

/-- A row after the loop for order at least 4. -/
def fullRow (n N1 N2 nb : Nat) (nums : List Nat) (t j : Nat) (x : Option Nat) : Option Nat :=
  if 3 * (N1 + 1) ≤ j ∧ (pmList N2 t (nums.getD t 0)).idxOf (j - 3 * (N1 + 1)) < N2 then some (innerNum n N1 N2 nb nums t (j - 3 * (N1 + 1)))
  else spokeRow n N1 nb t j x

theorem mapFold_ok {n N1 N2 nb : Nat} {nums : List Nat} (hn : nums.length = n) (hb : ∀ m ∈ nums, m ≤ N2) (e : Nat → Nat → Option Nat) :
    ∃ s, (List.range n).foldlM (mapStep n N1 N2 nb nums) ⟨⟨n, 3 * (1 + N1) + N2, e⟩, nb + n * N1, nb - N2 + 1, List.replicate N2 0⟩ = .ok s ∧
      s.mat = ⟨n, 3 * (1 + N1) + N2, fun i j => if i < n then fullRow n N1 N2 nb nums i j (e i j) else e i j⟩ := by
  have := foldlM_eq (mapStep n N1 N2 nb nums) (fun pre => ⟨⟨n, 3 * (1 + N1) + N2, fun i j => if i < pre.length then fullRow n N1 N2 nb nums i j (e i j) else e i j⟩,
    nb + n * N1 + (pre.length * N2 - (nums.take pre.length).sum), nb - N2 + 1 + (nums.take pre.length).sum,
    if pre.length = 0 then List.replicate N2 0 else pmList N2 (pre.length - 1) (nums.getD (pre.length - 1) 0)⟩) (List.range n) (by
    intro pre a post hl
    have hlen := congrArg List.length hl
    rw [List.length_range, List.length_append, List.length_cons] at hlen
    have ha : a = pre.length := by
      have : (List.range n)[pre.length]? = some a := by rw [hl]; simp
      rw [List.getElem?_range (by omega)] at this
      exact (Option.some.inj this).symm
    subst ha
    have hal : pre.length < nums.length := by omega
    have hm : nums.getD pre.length 0 = nums[pre.length] := by simp [List.getD, hal]
    have hle := hb _ (List.getElem_mem hal)
    have hS := S_le nums hb pre.length
    have hperm := pmList_perm N2 pre.length nums[pre.length]
    unfold mapStep
    rw [putSpokes_ok (by omega) _ _ (by omega), except_ok_bind, (unchecked_ok_iff _ _ _).2 (List.getElem?_eq_getElem hal), except_ok_bind, pMod_ok, except_ok_bind,
      putInner_ok hperm (by omega) (by omega) (by omega) hle, except_ok_bind]
    dsimp only
    rw [putInner_ok hperm (by omega) (by omega) hle le_rfl, except_ok_bind]
    swap
    · split_ifs
      · simp
      · rw [(pmList_perm _ _ _).length_eq, List.length_range]
    have e1 : (pre ++ [pre.length]).length = pre.length + 1 := by simp
    rw [e1, S_succ nums _ hal, if_neg (by omega), Nat.add_sub_cancel, hm]
    refine congrArg Except.ok ?_
    rw [MapState.mk.injEq]
    refine ⟨congrArg (IMat.mk n _) ?_, ?_, ?_, rfl⟩
    · funext i j
      by_cases hi : i = pre.length
      · subst hi
        simp only [true_and, if_true, Nat.lt_irrefl, if_false, Nat.lt_succ_self, fullRow, hm, innerNum]
        by_cases h1 : 3 * (N1 + 1) ≤ j
        swap
        · rw [if_neg (by omega), if_neg (by omega), if_neg (by omega)]
        by_cases h2 : (pmList N2 pre.length nums[pre.length]).idxOf (j - 3 * (N1 + 1)) < N2
        swap
        · rw [if_neg (by omega), if_neg (by omega), if_neg (by omega)]
        by_cases h3 : (pmList N2 pre.length nums[pre.length]).idxOf (j - 3 * (N1 + 1)) < nums[pre.length]
        · rw [if_neg (by omega), if_pos (by omega), if_pos ⟨h1, h2⟩, if_pos h3]
          rfl
        · rw [if_pos (by omega), if_pos ⟨h1, h2⟩, if_neg h3]
      · simp only [hi, false_and, if_false]
        by_cases h2 : i < pre.length
        · rw [if_pos h2, if_pos (by omega)]
        · rw [if_neg h2, if_neg (by omega)]
    · rw [Nat.add_mul, Nat.one_mul]
      omega
    · omega)
  simp only [List.length_nil, List.length_range] at this
  refine ⟨_, Eq.trans ?_ this, rfl⟩
  congr 2
  simp

/-! ## The numbering is a bijection -/

theorem prefix_lt {m : Nat → Nat} {t u p : Nat} (htu : t < u) (hp : p < m t) : ∑ s ∈ Finset.range t, m s + p < ∑ s ∈ Finset.range u, m s := by
  have h1 : ∑ s ∈ Finset.range (t + 1), m s ≤ ∑ s ∈ Finset.range u, m s :=
    Finset.sum_le_sum_of_subset (Finset.range_subset_range.2 (by omega))
  rw [Finset.sum_range_succ] at h1
  omega

theorem prefix_inj {m : Nat → Nat} {t u p q : Nat} (hp : p < m t) (hq : q < m u)
    (h : ∑ s ∈ Finset.range t, m s + p = ∑ s ∈ Finset.range u, m s + q) : t = u ∧ p = q := by
  rcases lt_trichotomy t u with h1 | h1 | h1
  · have := prefix_lt h1 hp
    omega
  · subst h1
    exact ⟨rfl, by omega⟩
  · have := prefix_lt h1 hq
    omega

theorem prefix_surj {m : Nat → Nat} {n r : Nat} (h : r < ∑ s ∈ Finset.range n, m s) :
    ∃ t < n, ∃ p < m t, ∑ s ∈ Finset.range t, m s + p = r := by
  induction n with
  | zero => simp at h
  | succ n ih =>
    rw [Finset.sum_range_succ] at h
    by_cases h1 : r < ∑ s ∈ Finset.range n, m s
    · obtain ⟨t, ht, p, hp, he⟩ := ih h1
      exact ⟨t, by omega, p, hp, he⟩
    · exact ⟨n, by omega, r - ∑ s ∈ Finset.range n, m s, by omega, by omega⟩

theorem S_eq (nums : List Nat) (t : Nat) : (nums.take t).sum = ∑ s ∈ Finset.range t, nums.getD s 0 := by
  induction t with
  | zero => simp
  | succ t ih =>
    rw [Finset.sum_range_succ, ← ih]
    by_cases h : t < nums.length
    · rw [S_succ nums t h]
      simp [List.getD, h]
    · rw [List.take_of_length_le (by omega), List.take_of_length_le (by omega)]
      simp [List.getD, h]

theorem S_compl {nums : List Nat} {N2 : Nat} (hb : ∀ m ∈ nums, m ≤ N2) (t : Nat) :
    t * N2 - (nums.take t).sum = ∑ s ∈ Finset.range t, (N2 - nums.getD s 0) := by
  have hle : ∀ s, nums.getD s 0 ≤ N2 := by
    intro s
    by_cases h : s < nums.length
    · have := hb _ (List.getElem_mem h)
      simpa [List.getD, h] using this
    · simp [List.getD, h]
  have h1 : ∑ s ∈ Finset.range t, (N2 - nums.getD s 0) + ∑ s ∈ Finset.range t, nums.getD s 0 = t * N2 := by
    rw [← Finset.sum_add_distrib, Finset.sum_congr rfl fun s _ => Nat.sub_add_cancel (hle s)]
    simp
  rw [S_eq]
  omega

theorem block_inj {N a b j l : Nat} (hj : j < N) (hl : l < N) (h : a * N + j = b * N + l) : a = b ∧ j = l := by
  have := prefix_inj (m := fun _ => N) (t := a) (u := b) (p := j) (q := l) hj hl (by simpa using h)
  exact this

theorem block_lt {N n a j : Nat} (ha : a < n) (hj : j < N) : a * N + j < n * N := by
  have := prefix_lt (m := fun _ => N) (t := a) (u := n) (p := j) ha hj
  simpa using this

theorem block_surj {N n r : Nat} (h : r < n * N) : ∃ a < n, ∃ j < N, a * N + j = r := by
  have := prefix_surj (m := fun _ => N) (n := n) (r := r) (by simpa using h)
  simpa using this

/-- A numbering of the nodes of the fan. -/
def fanNum (n N1 c s : Nat) (g : Nat → Nat → Nat) : FanNode → Nat
  | .centre => c
  | .vertex v => v
  | .edge v j => n + v * N1 + j
  | .spoke v j => s + v * N1 + j
  | .inner t j => g t j

theorem fanNum_bij {n N1 N2 c s total : Nat} {g : Nat → Nat → Nat} (hc : n + n * N1 ≤ c ∧ c < total) (hs : n + n * N1 ≤ s ∧ s + n * N1 ≤ total)
    (hcs : c < s ∨ s + n * N1 ≤ c) (hg : ∀ t < n, ∀ j < N2, n + n * N1 ≤ g t j ∧ g t j < total ∧ g t j ≠ c ∧ (g t j < s ∨ s + n * N1 ≤ g t j))
    (hgi : ∀ t < n, ∀ j < N2, ∀ u < n, ∀ l < N2, g t j = g u l → t = u ∧ j = l)
    (hsur : ∀ i, n + n * N1 ≤ i → i < total → i = c ∨ (s ≤ i ∧ i < s + n * N1) ∨ ∃ t < n, ∃ j < N2, g t j = i) :
    Set.BijOn (fanNum n N1 c s g) {x | IsFanNode n N1 N2 x} {i | i < total} := by
  refine ⟨?_, ?_, ?_⟩
  · intro x hx
    simp only [Set.mem_ofPred_eq] at hx ⊢
    cases hx with
    | centre => exact hc.2
    | vertex v hv => simp only [fanNum]; omega
    | edge v j hv hj => have := block_lt hv hj; simp only [fanNum]; omega
    | spoke v j hv hj => have := block_lt hv hj; simp only [fanNum]; omega
    | inner t j ht hj => exact (hg t ht j hj).2.1
  · intro x hx y hy hxy
    simp only [Set.mem_ofPred_eq] at hx hy
    cases hx with
    | centre =>
      cases hy with
      | centre => rfl
      | vertex v hv => simp only [fanNum] at hxy; omega
      | edge v j hv hj => have := block_lt hv hj; simp only [fanNum] at hxy; omega
      | spoke v j hv hj => have := block_lt hv hj; simp only [fanNum] at hxy; omega
      | inner t j ht hj => have := hg t ht j hj; simp only [fanNum] at hxy; omega
    | vertex w hw =>
      cases hy with
      | centre => simp only [fanNum] at hxy; omega
      | vertex v hv => simp only [fanNum] at hxy; rw [hxy]
      | edge v j hv hj => have := block_lt hv hj; simp only [fanNum] at hxy; omega
      | spoke v j hv hj => have := block_lt hv hj; simp only [fanNum] at hxy; omega
      | inner t j ht hj => have := hg t ht j hj; simp only [fanNum] at hxy; omega
    | edge w l hw hl =>
      have := block_lt hw hl
      cases hy with
      | centre => simp only [fanNum] at hxy; omega
      | vertex v hv => simp only [fanNum] at hxy; omega
      | edge v j hv hj =>
        simp only [fanNum] at hxy
        obtain ⟨h1, h2⟩ := block_inj hl hj (a := w) (b := v) (by omega)
        rw [h1, h2]
      | spoke v j hv hj => have := block_lt hv hj; simp only [fanNum] at hxy; omega
      | inner t j ht hj => have := hg t ht j hj; simp only [fanNum] at hxy; omega
    | spoke w l hw hl =>
      have := block_lt hw hl
      cases hy with
      | centre => simp only [fanNum] at hxy; omega
      | vertex v hv => simp only [fanNum] at hxy; omega
      | edge v j hv hj => have := block_lt hv hj; simp only [fanNum] at hxy; omega
      | spoke v j hv hj =>
        simp only [fanNum] at hxy
        obtain ⟨h1, h2⟩ := block_inj hl hj (a := w) (b := v) (by omega)
        rw [h1, h2]
      | inner t j ht hj => have := hg t ht j hj; simp only [fanNum] at hxy; omega
    | inner u l hu hl =>
      have := hg u hu l hl
      cases hy with
      | centre => simp only [fanNum] at hxy; omega
      | vertex v hv => simp only [fanNum] at hxy; omega
      | edge v j hv hj => have := block_lt hv hj; simp only [fanNum] at hxy; omega
      | spoke v j hv hj => have := block_lt hv hj; simp only [fanNum] at hxy; omega
      | inner t j ht hj =>
        obtain ⟨h1, h2⟩ := hgi u hu l hl t ht j hj hxy
        rw [h1, h2]
  · intro i hi
    simp only [Set.mem_ofPred_eq] at hi
    by_cases h1 : i < n
    · exact ⟨.vertex i, .vertex i h1, rfl⟩
    by_cases h2 : i < n + n * N1
    · obtain ⟨v, hv, j, hj, he⟩ := block_surj (N := N1) (n := n) (r := i - n) (by omega)
      exact ⟨.edge v j, .edge v j hv hj, by simp only [fanNum]; omega⟩
    rcases hsur i (by omega) hi with h | h | ⟨t, ht, j, hj, h⟩
    · exact ⟨.centre, .centre, h.symm⟩
    · obtain ⟨v, hv, j, hj, he⟩ := block_surj (N := N1) (n := n) (r := i - s) (by omega)
      exact ⟨.spoke v j, .spoke v j hv hj, by simp only [fanNum]; omega⟩
    · exact ⟨.inner t j, .inner t j ht hj, h⟩

/-- What the numbering has to do with the map. -/
theorem fan_row {n N1 c s : Nat} {g : Nat → Nat → Nat} {t j : Nat} (x : Option Nat) :
    (if j < 3 + 3 * N1 then spokeRow n N1 s t j (if j = 0 then some c else rimRow n N1 t j x) else some (g t (j - (3 + 3 * N1)))) =
      some (fanNum n N1 c s g (fanNode n N1 t j)) := by
  unfold fanNode spokeRow rimRow
  by_cases h0 : j = 0
  · subst h0
    rw [if_pos (by omega), if_neg (by omega), if_neg (by omega), if_pos rfl, if_pos rfl]
    rfl
  by_cases h1 : j = 1
  · subst h1
    rw [if_pos (by omega), if_neg (by omega), if_neg (by omega), if_neg h0, if_pos rfl, if_neg h0, if_pos rfl]
    rfl
  by_cases h2 : j = 2
  · subst h2
    rw [if_pos (by omega), if_neg (by omega), if_neg (by omega), if_neg h0, if_neg h1, if_pos rfl, if_neg h0, if_neg h1, if_pos rfl]
    rfl
  rw [if_neg h0, if_neg h1, if_neg h2, if_neg h0, if_neg h1, if_neg h2]
  by_cases h3 : j < 3 + N1
  · rw [if_pos (by omega), if_pos (by omega), if_pos h3]
    rfl
  rw [if_neg h3]
  by_cases h4 : j < 3 + 2 * N1
  · rw [if_pos (by omega), if_neg (by omega), if_neg (by omega), if_pos (by omega), if_pos h4]
    simp only [fanNum, Option.some.injEq]
    omega
  rw [if_neg h4]
  by_cases h5 : j < 3 + 3 * N1
  · rw [if_pos h5, if_neg (by omega), if_pos (by omega), if_pos h5]
    rfl
  · rw [if_neg h5, if_neg h5]
    rfl

theorem rimFold_ok (n N1 N2 : Nat) : (List.range n).foldlM (fun (M : IMat) t => do
      let M ← M.put t 1 [t]
      let M ← M.put t 2 [(t + 1) % n]
      M.put t (3 + N1) (edgeIds N1 (t * N1 + n))) ⟨n, 3 * (1 + N1) + N2, fun _ _ => none⟩ =
    .ok ⟨n, 3 * (1 + N1) + N2, fun i j => if i < n then rimRow n N1 i j none else none⟩ :=
  fold_rows (h := fun t j x => rimRow n N1 t j x) (fun e t ht => putRim_ok (by omega) t ht e) _

theorem createMaps_low {n N1 nb : Nat} {k : Nat} (hk : k ≤ 2) :
    ∃ e, createMaps k n N1 0 nb = .ok ⟨n, 3 * (1 + N1) + 0, e⟩ ∧ ∀ t < n, ∀ j < 3 * (1 + N1) + 0,
      e t j = some (fanNum n N1 nb (nb + 1) (fun _ _ => 0) (fanNode n N1 t j)) := by
  unfold createMaps
  rw [rimFold_ok, except_ok_bind, if_pos hk, putFirst_ok _ _ _ (by omega), except_ok_bind,
    fold_rows (h := fun t j x => spokeRow n N1 (nb + 1) t j x) (fun e t ht => putSpokes_ok (by omega) _ t ht e)]
  refine ⟨_, rfl, fun t ht j hj => ?_⟩
  rw [← fan_row none, if_pos ht, if_pos (show j < 3 + 3 * N1 by omega)]
  congr 1
  simp only [ht, true_and, if_true]

theorem createMaps_three {n N1 nb : Nat} :
    ∃ e, createMaps 3 n N1 1 nb = .ok ⟨n, 3 * (1 + N1) + 1, e⟩ ∧ ∀ t < n, ∀ j < 3 * (1 + N1) + 1,
      e t j = some (fanNum n N1 (nb - 1) nb (fun t _ => nb + n * N1 + t) (fanNode n N1 t j)) := by
  unfold createMaps
  rw [rimFold_ok, except_ok_bind, if_neg (by omega), if_pos rfl, putFirst_ok _ _ _ (by omega), except_ok_bind,
    fold_rows (h := fun t j x => if j = 3 + 3 * N1 then some (nb + n * N1 + t) else spokeRow n N1 nb t j x) (fun e t ht => by
      rw [putSpokes_ok (by omega) _ t ht e, except_ok_bind, put_ok _ _ _ _ ht (by show 3 + 3 * N1 + 1 ≤ 3 * (1 + N1) + 1; omega)]
      refine congrArg Except.ok (congrArg (IMat.mk n _) ?_)
      funext i j
      by_cases hi : i = t
      swap
      · simp [hi]
      simp only [hi, true_and, if_true, List.length_singleton]
      by_cases hj : j = 3 + 3 * N1
      · rw [if_pos (by omega), if_pos hj, hj, Nat.sub_self]
        rfl
      · rw [if_neg (by omega), if_neg hj])]
  refine ⟨_, rfl, fun t ht j hj => ?_⟩
  rw [← fan_row none, if_pos ht]
  by_cases hj' : j = 3 + 3 * N1
  · rw [if_pos hj', if_neg (show ¬ j < 3 + 3 * N1 by omega)]
  · rw [if_neg hj', if_pos (show j < 3 + 3 * N1 by omega)]
    congr 1
    simp only [ht, true_and, if_true]

theorem idx_lt {N2 t m j : Nat} (hj : j < N2) : (pmList N2 t m).idxOf j < N2 := by
  have h := List.idxOf_lt_length_of_mem ((pmList_perm N2 t m).mem_iff.2 (List.mem_range.2 hj))
  rwa [(pmList_perm N2 t m).length_eq, List.length_range] at h

theorem createMaps_high {n N1 N2 nb k : Nat} (hk : 4 ≤ k) (hn : 0 < n) (h2 : 2 ≤ N2) :
    ∃ nums e, nums.length = n ∧ nums.sum = N2 - 1 ∧ (∀ m ∈ nums, m ≤ N2) ∧ (∀ m ∈ nums, (N2 - 1) / n ≤ m ∧ m ≤ (N2 - 1) / n + 1) ∧
      createMaps k n N1 N2 nb = .ok ⟨n, 3 * (1 + N1) + N2, e⟩ ∧ ∀ t < n, ∀ j < 3 * (1 + N1) + N2,
      e t j = some (fanNum n N1 (nb - N2) nb (innerNum n N1 N2 nb nums) (fanNode n N1 t j)) := by
  obtain ⟨nums, h0, h1, hs, hb, hd⟩ := numPt_ok hn h2
  unfold createMaps
  rw [rimFold_ok, except_ok_bind, if_neg (by omega), if_neg (by omega), putFirst_ok _ _ _ (by omega), except_ok_bind, h0, except_ok_bind]
  obtain ⟨s, hs1, hs2⟩ := mapFold_ok (N1 := N1) (N2 := N2) (nb := nb) h1 hb
    (fun i j => if i < n ∧ j = 0 then some (nb - N2) else if i < n then rimRow n N1 i j none else none)
  rw [hs1, except_ok_bind, hs2]
  refine ⟨nums, _, h1, hs, hb, hd, rfl, fun t ht j hj => ?_⟩
  rw [← fan_row none, if_pos ht]
  unfold fullRow
  by_cases hj' : j < 3 + 3 * N1
  · rw [if_neg (by omega), if_pos hj']
    congr 1
    simp only [ht, true_and, if_true]
  · rw [if_pos ⟨by omega, idx_lt (by omega)⟩, if_neg hj']
    congr 2
    omega

theorem innerNum_bij {n N1 N2 : Nat} {nums : List Nat} (hl : nums.length = n) (hs : nums.sum = N2 - 1) (hb : ∀ m ∈ nums, m ≤ N2) (h2 : 1 ≤ N2) :
    Set.BijOn (fanNum n N1 (n + n * N1 + N2 - N2) (n + n * N1 + N2) (innerNum n N1 N2 (n + n * N1 + N2) nums)) {x | IsFanNode n N1 N2 x}
      {i | i < n + n * N1 + 1 + n * (N1 + N2)} := by
  have hSn : ∑ s ∈ Finset.range n, nums.getD s 0 = N2 - 1 := by rw [← S_eq, List.take_of_length_le hl.le, hs]
  have hCn := S_compl hb n
  rw [List.take_of_length_le hl.le, hs] at hCn
  have hmul : n * (N1 + N2) = n * N1 + n * N2 := by ring
  have hnN : N2 - 1 ≤ n * N2 := by
    have := S_le nums hb n
    rwa [List.take_of_length_le hl.le, hs] at this
  have key : ∀ t < n, ∀ j < N2,
      (∃ p < nums.getD t 0, (pmList N2 t (nums.getD t 0)).idxOf j = p ∧
        innerNum n N1 N2 (n + n * N1 + N2) nums t j = n + n * N1 + 1 + (∑ s ∈ Finset.range t, nums.getD s 0 + p)) ∨
      ∃ p < N2 - nums.getD t 0, (pmList N2 t (nums.getD t 0)).idxOf j = nums.getD t 0 + p ∧
        innerNum n N1 N2 (n + n * N1 + N2) nums t j = n + n * N1 + N2 + n * N1 + (∑ s ∈ Finset.range t, (N2 - nums.getD s 0) + p) := by
    intro t ht j hj
    have hi := idx_lt (t := t) (m := nums.getD t 0) hj
    unfold innerNum
    simp only
    rw [S_compl hb, S_eq]
    split_ifs with h
    · exact Or.inl ⟨_, h, rfl, by omega⟩
    · exact Or.inr ⟨(pmList N2 t (nums.getD t 0)).idxOf j - nums.getD t 0, by omega, by omega, by omega⟩
  have hidx : ∀ t j l, j < N2 → l < N2 → (pmList N2 t (nums.getD t 0)).idxOf j = (pmList N2 t (nums.getD t 0)).idxOf l → j = l := by
    intro t j l hj hl' h
    exact (List.idxOf_inj ((pmList_perm _ _ _).mem_iff.2 (List.mem_range.2 hj))).1 h
  have hget : ∀ t p, p < N2 → ∃ j < N2, (pmList N2 t (nums.getD t 0)).idxOf j = p := by
    intro t p hp
    have hlen : (pmList N2 t (nums.getD t 0)).length = N2 := by rw [(pmList_perm _ _ _).length_eq, List.length_range]
    have hp' : p < (pmList N2 t (nums.getD t 0)).length := by omega
    exact ⟨_, List.mem_range.1 ((pmList_perm N2 t _).mem_iff.1 (List.getElem_mem hp')),
      ((pmList_perm N2 t (nums.getD t 0)).nodup_iff.2 List.nodup_range).idxOf_getElem p hp'⟩
  refine fanNum_bij (by omega) (by omega) (by omega) ?_ ?_ ?_
  · intro t ht j hj
    rcases key t ht j hj with ⟨p, hp, -, he⟩ | ⟨p, hp, -, he⟩
    · have := prefix_lt (m := fun s => nums.getD s 0) ht hp
      omega
    · have := prefix_lt (m := fun s => N2 - nums.getD s 0) ht hp
      omega
  · intro t ht j hj u hu l hl' h
    rcases key t ht j hj with ⟨p, hp, ei, he⟩ | ⟨p, hp, ei, he⟩ <;> rcases key u hu l hl' with ⟨q, hq, fi, hf⟩ | ⟨q, hq, fi, hf⟩
    · obtain ⟨h1, h3⟩ := prefix_inj (m := fun s => nums.getD s 0) hp hq (by omega)
      subst h1
      exact ⟨rfl, hidx t j l hj hl' (by omega)⟩
    · have := prefix_lt (m := fun s => nums.getD s 0) ht hp
      omega
    · have := prefix_lt (m := fun s => nums.getD s 0) hu hq
      omega
    · obtain ⟨h1, h3⟩ := prefix_inj (m := fun s => N2 - nums.getD s 0) hp hq (by omega)
      subst h1
      exact ⟨rfl, hidx t j l hj hl' (by omega)⟩
  · intro i hi1 hi2
    by_cases hc : i = n + n * N1
    · exact Or.inl (by omega)
    by_cases hlow : i < n + n * N1 + N2
    · obtain ⟨t, ht, p, hp, he⟩ := prefix_surj (m := fun s => nums.getD s 0) (n := n) (r := i - (n + n * N1 + 1)) (by omega)
      have hm : nums.getD t 0 ≤ N2 := by
        have := hb _ (List.getElem_mem (show t < nums.length by omega))
        simpa [List.getD, show t < nums.length by omega] using this
      obtain ⟨j, hj, hji⟩ := hget t p (by omega)
      refine Or.inr (Or.inr ⟨t, ht, j, hj, ?_⟩)
      rcases key t ht j hj with ⟨q, hq, ei, hf⟩ | ⟨q, hq, ei, hf⟩
      · rw [hf]
        omega
      · omega
    · by_cases hsp : i < n + n * N1 + N2 + n * N1
      · exact Or.inr (Or.inl ⟨by omega, hsp⟩)
      · obtain ⟨t, ht, p, hp, he⟩ := prefix_surj (m := fun s => N2 - nums.getD s 0) (n := n) (r := i - (n + n * N1 + N2 + n * N1)) (by omega)
        have hm : nums.getD t 0 ≤ N2 := by
          have := hb _ (List.getElem_mem (show t < nums.length by omega))
          simpa [List.getD, show t < nums.length by omega] using this
        obtain ⟨j, hj, hji⟩ := hget t (nums.getD t 0 + p) (by omega)
        refine Or.inr (Or.inr ⟨t, ht, j, hj, ?_⟩)
        rcases key t ht j hj with ⟨q, hq, ei, hf⟩ | ⟨q, hq, ei, hf⟩
        · omega
        · rw [hf]
          omega

/-- The inner nodes of triangle `t` among the first `nb` nodes. -/
theorem innerNum_count {n N1 N2 : Nat} {nums : List Nat} (hl : nums.length = n) (hs : nums.sum = N2 - 1) (hb : ∀ m ∈ nums, m ≤ N2) (h2 : 1 ≤ N2)
    {t : Nat} (ht : t < n) :
    (List.range N2).countP (fun j => innerNum n N1 N2 (n + n * N1 + N2) nums t j < n + n * N1 + N2) = nums.getD t 0 := by
  have hm : nums.getD t 0 ≤ N2 := by
    have := hb _ (List.getElem_mem (show t < nums.length by omega))
    simpa [List.getD, show t < nums.length by omega] using this
  have hSn : ∑ s ∈ Finset.range n, nums.getD s 0 = N2 - 1 := by rw [← S_eq, List.take_of_length_le hl.le, hs]
  have hnd := (pmList_perm N2 t (nums.getD t 0)).nodup_iff.2 List.nodup_range
  have hlen : (pmList N2 t (nums.getD t 0)).length = N2 := by rw [(pmList_perm _ _ _).length_eq, List.length_range]
  rw [← (pmList_perm N2 t (nums.getD t 0)).countP_eq]
  have hgen : ∀ (pm : List Nat), pm.length = N2 → pm = (List.range N2).map fun p => pm.getD p 0 := by
    intro pm hpm
    apply List.ext_getElem
    · simp [hpm]
    · intro i h1 h3
      simp [List.getD, h1]
  have h1 := hgen _ hlen
  have h3 : ∀ p < N2, (pmList N2 t (nums.getD t 0)).idxOf ((pmList N2 t (nums.getD t 0)).getD p 0) = p := by
    intro p hp
    have hp' : p < (pmList N2 t (nums.getD t 0)).length := by omega
    have := hnd.idxOf_getElem p hp'
    rwa [show (pmList N2 t (nums.getD t 0)).getD p 0 = (pmList N2 t (nums.getD t 0))[p] from (List.getElem_eq_getD 0).symm]
  rw [h1, List.countP_map]
  have h4 : (List.range N2).countP ((fun j => decide (innerNum n N1 N2 (n + n * N1 + N2) nums t j < n + n * N1 + N2)) ∘
      fun p => (pmList N2 t (nums.getD t 0)).getD p 0) = (List.range N2).countP fun p => decide (p < nums.getD t 0) := by
    refine List.countP_congr fun p hp => ?_
    have hp := List.mem_range.1 hp
    simp only [Function.comp, decide_eq_true_eq]
    unfold innerNum
    simp only
    rw [h3 p hp, S_eq]
    split_ifs with h
    · have := prefix_lt (m := fun s => nums.getD s 0) ht h
      constructor
      · intro; exact h
      · intro; omega
    · constructor
      · intro; omega
      · intro h'; exact absurd h' h
  rw [h4]
  have h5 : ∀ N m, m ≤ N → (List.range N).countP (fun p => decide (p < m)) = m := by
    intro N m hN
    obtain ⟨d, rfl⟩ := Nat.exists_eq_add_of_le hN
    rw [List.range_add, List.countP_append, List.countP_eq_length.2 (fun a ha => by simpa using List.mem_range.1 ha), List.countP_eq_zero.2]
    · simp
    · intro a ha
      obtain ⟨x, -, rfl⟩ := List.mem_map.1 ha
      simp
  exact h5 _ _ hm

end PolyDiM
