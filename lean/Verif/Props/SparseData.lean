import Verif.Spec.SparseData
import Verif.Lemmas.Assembler
import Verif.Lemmas.MonomialsFinal
import Mathlib.Algebra.Field.Rat
import Mathlib.Tactic.NormNum

/-!
# C166: the conversions of sparse matrices keep the entries
-/

namespace PolyDiM

open Spec

variable {K : Type} [Field K] [DecidableEq K]

theorem sum_filterMap {α : Type} (l : List Nat) (f : Nat → Option α) (g : α → K) : ((l.filterMap f).map g).sum = (l.map fun i => (f i).elim 0 g).sum := by
  induction l with
  | nil => rfl
  | cons a l ih =>
    rw [List.filterMap_cons]
    cases h : f a <;> simp [h, ih]

theorem sum_pick (r : Nat) (i : Nat) (g : Nat → K) : ((List.range r).map fun i' => if i' = i then g i' else 0).sum = if i < r then g i else 0 := by
  induction r with
  | zero => simp
  | succ r ih =>
    rw [List.range_succ, List.map_append, List.sum_append, ih]
    by_cases h : r = i
    · subst h; simp
    · by_cases h' : i < r
      · simp [h, h', Nat.lt_succ_of_lt h']
      · simp [h, h', show ¬ i < r + 1 by omega]

theorem filter_entry (T : List (Nat × Nat × K)) (i j : Nat) : ((T.filter fun t => t.1 = i ∧ t.2.1 = j).map fun t => t.2.2).sum = entry T i j := by
  unfold entry
  induction T with
  | nil => rfl
  | cons t T ih =>
    by_cases h : t.1 = i ∧ t.2.1 = j
    · rw [List.filter_cons_of_pos (by simpa using h), List.map_cons, List.sum_cons, ih, List.map_cons, List.sum_cons, if_pos h]
    · rw [List.filter_cons_of_neg (by simpa using h), ih, List.map_cons, List.sum_cons, if_neg h, zero_add]

theorem entry_absent {T : List (Nat × Nat × K)} {i j : Nat} (h : ∀ t ∈ T, ¬(t.1 = i ∧ t.2.1 = j)) : entry T i j = 0 := by
  unfold entry
  refine List.sum_eq_zero fun x hx => ?_
  obtain ⟨t, ht, rfl⟩ := List.mem_map.1 hx
  rw [if_neg (h t ht)]

/-- The compressed matrix made from triplets. -/
theorem compress_ok {r c : Nat} {T : List (Nat × Nat × K)} (h : ∀ t ∈ T, t.1 < r ∧ t.2.1 < c) :
    ∃ M, compressTriplets r c T = .ok M ∧ IsCompressed M ∧ M.rows = r ∧ M.outer.length = c ∧ ∀ i j, coefficient M i j = entry T i j := by
  refine ⟨_, if_pos h, ?_, rfl, by simp, fun i j => ?_⟩
  · intro col hcol
    obtain ⟨j, -, rfl⟩ := List.mem_map.1 hcol
    constructor
    · rw [List.pairwise_map, List.pairwise_filterMap]
      refine List.pairwise_lt_range.imp fun {a b} hab x hx y hy => ?_
      split_ifs at hx hy
      obtain rfl := Option.some.inj hx
      obtain rfl := Option.some.inj hy
      exact hab
    · intro e he
      obtain ⟨i, hi, hx⟩ := List.mem_filterMap.1 he
      split_ifs at hx
      obtain rfl := Option.some.inj hx
      exact List.mem_range.1 hi
  · unfold coefficient
    dsimp only
    by_cases hj : j < c
    · rw [List.getD_eq_getElem?_getD, List.getElem?_map, List.getElem?_range hj, Option.map_some, Option.getD_some, sum_filterMap]
      have e : ((List.range r).map fun i' => (if T.any fun t => t.1 = i' ∧ t.2.1 = j then
            some (i', ((T.filter fun t => t.1 = i' ∧ t.2.1 = j).map fun t => t.2.2).sum) else none).elim 0 fun e : Nat × K => if e.1 = i then e.2 else 0)
          = (List.range r).map fun i' => if i' = i then entry T i' j else 0 := by
        refine List.map_congr_left fun i' _ => ?_
        split_ifs with h1 h2 h2
        · simp only [Option.elim_some, h2, if_true, filter_entry]
        · simp only [Option.elim_some, h2, if_false]
        · rw [Option.elim_none, entry_absent]
          intro t ht hc
          exact h1 (List.any_eq_true.2 ⟨t, ht, by simpa using hc⟩)
        · rfl
      rw [e, sum_pick]
      split_ifs with hi
      · rfl
      · rw [entry_absent]
        intro t ht hc
        have := (h t ht).1
        omega
    · rw [List.getD_eq_getElem?_getD, List.getElem?_eq_none (by simpa using hj), Option.getD_none, entry_absent]
      · rfl
      · intro t ht hc
        have := (h t ht).2
        omega

/-- The sum of the values of a column at row `i`. -/
def colValue (c : List (Nat × K)) (i : Nat) : K := (c.map fun e => if e.1 = i then e.2 else 0).sum

theorem colValue_absent {c : List (Nat × K)} {i : Nat} (h : ∀ e ∈ c, e.1 ≠ i) : colValue c i = 0 := by
  unfold colValue
  refine List.sum_eq_zero fun x hx => ?_
  obtain ⟨t, ht, rfl⟩ := List.mem_map.1 hx
  rw [if_neg (h t ht)]

theorem colValue_cons (e : Nat × K) (c : List (Nat × K)) (i : Nat) : colValue (e :: c) i = (if e.1 = i then e.2 else 0) + colValue c i := by simp [colValue]

/-- A column in the order of the rows: the stored values different from zero are the entries different from zero. -/
theorem column_nonzeros (j : Nat) : ∀ (m s : Nat) (c : List (Nat × K)), (c.map Prod.fst).Pairwise (· < ·) → (∀ e ∈ c, s ≤ e.1 ∧ e.1 < s + m) →
    (c.filter fun e => e.2 ≠ 0).map (fun e => (e.1, j, e.2)) = (List.range' s m).filterMap fun i => if colValue c i ≠ 0 then some (i, j, colValue c i) else none := by
  intro m
  induction m with
  | zero =>
    intro s c _ hc
    cases c with
    | nil => rfl
    | cons e c =>
      have := hc e List.mem_cons_self
      omega
  | succ m ih =>
    intro s c hp hc
    rw [List.range'_succ, List.filterMap_cons]
    cases c with
    | nil =>
      have h := ih (s + 1) [] hp (by simp)
      rw [colValue_absent (by simp), if_neg (by simp)]
      exact h
    | cons e c =>
      rw [List.map_cons, List.pairwise_cons] at hp
      obtain ⟨h1, h2⟩ := hc e List.mem_cons_self
      have hgt : ∀ x ∈ c, e.1 < x.1 := fun x hx => hp.1 x.1 (List.mem_map_of_mem hx)
      by_cases hs : e.1 = s
      · have h := ih (s + 1) c hp.2 fun x hx => ⟨by have := hgt x hx; omega, by have := (hc x (List.mem_cons_of_mem _ hx)).2; omega⟩
        have hv : colValue (e :: c) s = e.2 := by
          rw [colValue_cons, if_pos hs, colValue_absent fun x hx => by have := hgt x hx; omega, add_zero]
        have hrest : (List.range' (s + 1) m).filterMap (fun i => if colValue (e :: c) i ≠ 0 then some (i, j, colValue (e :: c) i) else none)
            = (List.range' (s + 1) m).filterMap fun i => if colValue c i ≠ 0 then some (i, j, colValue c i) else none := by
          refine List.filterMap_congr fun i hi => ?_
          have := (List.mem_range'_1.1 hi).1
          have hne : ¬e.1 = i := by omega
          rw [colValue_cons, if_neg hne, zero_add]
        rw [hv, hrest, ← h]
        by_cases he : e.2 = 0
        · simp [he]
        · simp [he, hs]
      · have h := ih (s + 1) (e :: c) (by rw [List.map_cons, List.pairwise_cons]; exact hp) fun x hx => by
          have h3 := hc x hx
          refine ⟨?_, by omega⟩
          rcases List.mem_cons.1 hx with rfl | hx
          · omega
          · have := hgt x hx
            omega
        rw [colValue_absent (i := s) fun x hx => by
          rcases List.mem_cons.1 hx with rfl | hx
          · exact hs
          · have := hgt x hx
            omega, if_neg (by simp)]
        exact h

theorem zipIdx_flatMap {α β : Type} (l : List α) (d : α) (f : α → Nat → List β) : (l.zipIdx.flatMap fun c => f c.1 c.2) = (List.range l.length).flatMap fun j => f (l.getD j d) j := by
  have h : l.zipIdx = (List.range l.length).map fun j => (l.getD j d, j) := by
    refine List.ext_getElem? fun i => ?_
    rw [List.getElem?_zipIdx, List.getElem?_map]
    by_cases hi : i < l.length
    · rw [List.getElem?_range hi]
      simp [List.getD_eq_getElem?_getD, hi]
    · rw [List.getElem?_eq_none (by omega), List.getElem?_eq_none (by simpa using hi)]
      rfl
  rw [h, List.flatMap_map]

/-- C166, the triplets: `to_triplets` lists the entries different from zero, column by column. -/
theorem C166_triplets {M : Compressed K} (h : IsCompressed M) :
    toTriplets M = nonzeros M.rows M.outer.length (coefficient M) ∧ ∀ i j, entry (toTriplets M) i j = coefficient M i j := by
  have h1 : toTriplets M = nonzeros M.rows M.outer.length (coefficient M) := by
    unfold toTriplets nonzeros
    rw [zipIdx_flatMap M.outer [] fun c j => (c.filter fun e => e.2 ≠ 0).map fun e => (e.1, j, e.2)]
    refine List.flatMap_congr fun j hj => ?_
    have hj := List.mem_range.1 hj
    have hmem : M.outer.getD j [] ∈ M.outer := by
      rw [List.getD_eq_getElem?_getD, List.getElem?_eq_getElem hj, Option.getD_some]
      exact List.getElem_mem hj
    rw [List.range_eq_range']
    exact column_nonzeros j M.rows 0 _ (h _ hmem).1 fun e he => ⟨Nat.zero_le _, by have := (h _ hmem).2 e he; omega⟩
  refine ⟨h1, fun i j => ?_⟩
  have hout : ¬(i < M.rows ∧ j < M.outer.length) → coefficient M i j = 0 := by
    intro hn
    by_cases hj : j < M.outer.length
    · have hmem : M.outer.getD j [] ∈ M.outer := by
        rw [List.getD_eq_getElem?_getD, List.getElem?_eq_getElem hj, Option.getD_some]
        exact List.getElem_mem hj
      exact colValue_absent fun e he => by have := (h _ hmem).2 e he; omega
    · rw [coefficient, List.getD_eq_getElem?_getD, List.getElem?_eq_none (by omega)]
      rfl
  rw [h1, entry, nonzeros]
  have inner : ∀ j', (((List.range M.rows).filterMap fun i => if coefficient M i j' ≠ 0 then some (i, j', coefficient M i j') else none).map
      fun t : Nat × Nat × K => if t.1 = i ∧ t.2.1 = j then t.2.2 else 0).sum = if j' = j then (if i < M.rows then coefficient M i j' else 0) else 0 := by
    intro j'
    rw [sum_filterMap]
    by_cases hj : j' = j
    · rw [if_pos hj, ← sum_pick M.rows i fun i' => coefficient M i' j']
      refine congrArg List.sum (List.map_congr_left fun i' _ => ?_)
      by_cases h0 : coefficient M i' j' = 0
      · simp [h0]
      · subst hj
        simp [h0]
    · rw [if_neg hj]
      refine List.sum_eq_zero fun x hx => ?_
      obtain ⟨i', -, rfl⟩ := List.mem_map.1 hx
      by_cases h0 : coefficient M i' j' = 0
      · simp [h0]
      · simp [h0, hj]
  rw [List.map_flatMap, List.flatMap_def, List.sum_flatten, List.map_map]
  have e : ((List.range M.outer.length).map (List.sum ∘ fun j' => ((List.range M.rows).filterMap fun i => if coefficient M i j' ≠ 0 then some (i, j', coefficient M i j') else none).map
      fun t : Nat × Nat × K => if t.1 = i ∧ t.2.1 = j then t.2.2 else 0))
      = (List.range M.outer.length).map fun j' => if j' = j then (if i < M.rows then coefficient M i j' else 0) else 0 := List.map_congr_left fun j' _ => inner j'
  rw [e, sum_pick]
  by_cases hij : i < M.rows ∧ j < M.outer.length
  · rw [if_pos hij.2, if_pos hij.1]
  · rw [hout hij]
    split_ifs <;> rfl

theorem nonzeros_range {r c : Nat} {a : Nat → Nat → K} : ∀ t ∈ nonzeros r c a, t.1 < r ∧ t.2.1 < c ∧ t.2.2 ≠ 0 := by
  intro t ht
  obtain ⟨j, hj, ht⟩ := List.mem_flatMap.1 ht
  obtain ⟨i, hi, hx⟩ := List.mem_filterMap.1 ht
  split_ifs at hx with h0
  obtain rfl := Option.some.inj hx
  exact ⟨List.mem_range.1 hi, List.mem_range.1 hj, h0⟩

/-- C166, there and back: `to_Sparse_Matrix_Data` followed by `to_Eigen_SparseArray` gives a matrix of the same size with the same entries, and the same triplets. -/
theorem C166_round {M : Compressed K} (h : IsCompressed M) (hr : M.rows < 2 ^ 32) (hc : M.outer.length < 2 ^ 32) :
    ∃ M', toArray (toSparseData M) = .ok M' ∧ IsCompressed M' ∧ M'.rows = M.rows ∧ M'.outer.length = M.outer.length ∧ (∀ i j, coefficient M' i j = coefficient M i j) ∧
      toTriplets M' = toTriplets M := by
  obtain ⟨h1, h2⟩ := C166_triplets h
  have hrange : ∀ t ∈ toTriplets M, t.1 < M.rows ∧ t.2.1 < M.outer.length := fun t ht => by
    rw [h1] at ht
    exact ⟨(nonzeros_range t ht).1, (nonzeros_range t ht).2.1⟩
  have hu : ∀ m, m < 2 ^ 32 → u32 m = m := fun m hm => by rw [u32]; exact Nat.mod_eq_of_lt hm
  obtain ⟨M', hM', hw, e1, e2, e3⟩ := compress_ok hrange
  have hz : zipTriplets ((toTriplets M).map fun t => u32 t.1) ((toTriplets M).map fun t => u32 t.2.1) ((toTriplets M).map fun t => t.2.2) = .ok (toTriplets M) := by
    rw [zipTriplets, if_pos (by simp)]
    congr 1
    rw [List.zip_map', List.zip_map']
    conv_rhs => rw [← List.map_id (toTriplets M)]
    refine List.map_congr_left fun t ht => ?_
    have := hrange t ht
    rw [hu _ (by omega), hu _ (by omega)]
    rfl
  have hco : ∀ i j, coefficient M' i j = coefficient M i j := fun i j => by rw [e3, h2]
  refine ⟨M', ?_, hw, e1, e2, hco, ?_⟩
  · rw [toArray, toSparseData]
    dsimp only
    rw [hz, except_ok_bind, hu _ hr, hu _ hc, hM']
  · rw [(C166_triplets hw).1, h1, e1, e2]
    congr 1
    funext i j
    exact hco i j

/-- C166, shifts: `to_Eigen_SparseArray` with a new size and shifts succeeds if the shifted block is inside, and puts the entry `(i, j)` of the matrix at `(i + s₀, j + s₁)`, with the flag at
`(j + s₁, i + s₀)`; all other entries are zero. -/
theorem C166_shift {M : Compressed K} (h : IsCompressed M) {n₀ n₁ s₀ s₁ : Nat} (transpose : Bool) (h0 : M.rows + s₀ < 2 ^ 32) (h1 : M.outer.length + s₁ < 2 ^ 32)
    (hfit : if transpose then M.outer.length + s₁ ≤ n₀ ∧ M.rows + s₀ ≤ n₁ else M.rows + s₀ ≤ n₀ ∧ M.outer.length + s₁ ≤ n₁) :
    ∃ M', toArrayShifted (toSparseData M) n₀ n₁ s₀ s₁ transpose = .ok M' ∧ IsCompressed M' ∧ M'.rows = n₀ ∧ M'.outer.length = n₁ ∧
      (∀ i j, i < M.rows → j < M.outer.length → (if transpose then coefficient M' (j + s₁) (i + s₀) else coefficient M' (i + s₀) (j + s₁)) = coefficient M i j) ∧
      ∀ i j, ¬(if transpose then s₁ ≤ i ∧ i < M.outer.length + s₁ ∧ s₀ ≤ j ∧ j < M.rows + s₀ else s₀ ≤ i ∧ i < M.rows + s₀ ∧ s₁ ≤ j ∧ j < M.outer.length + s₁) → coefficient M' i j = 0 := by
  obtain ⟨g1, g2⟩ := C166_triplets h
  have hrange : ∀ t ∈ toTriplets M, t.1 < M.rows ∧ t.2.1 < M.outer.length := fun t ht => by
    rw [g1] at ht
    exact ⟨(nonzeros_range t ht).1, (nonzeros_range t ht).2.1⟩
  have hu : ∀ m, m < 2 ^ 32 → u32 m = m := fun m hm => by rw [u32]; exact Nat.mod_eq_of_lt hm
  have hrows : ((toTriplets M).map fun t => u32 t.1).map (fun i => u32 (i + s₀)) = (toTriplets M).map fun t => t.1 + s₀ := by
    rw [List.map_map]
    refine List.map_congr_left fun t ht => ?_
    have := hrange t ht
    rw [Function.comp_apply, hu t.1 (by omega), hu _ (by omega)]
  have hcols : (((toTriplets M).map fun t => u32 t.2.1).take ((toTriplets M).map fun t => u32 t.1).length).map (fun j => u32 (j + s₁))
      ++ List.replicate (((toTriplets M).map fun t => u32 t.2.1).length - ((toTriplets M).map fun t => u32 t.1).length) 0 = (toTriplets M).map fun t => t.2.1 + s₁ := by
    simp only [List.length_map, Nat.sub_self, List.replicate_zero, List.append_nil]
    rw [List.take_of_length_le (by simp), List.map_map]
    refine List.map_congr_left fun t ht => ?_
    have := hrange t ht
    rw [Function.comp_apply, hu t.2.1 (by omega), hu _ (by omega)]
  cases transpose with
  | false =>
    simp only [Bool.false_eq_true, if_false] at hfit ⊢
    obtain ⟨M', hM', hw, e1, e2, e3⟩ := compress_ok (r := n₀) (c := n₁) (T := (toTriplets M).map fun t => (t.1 + s₀, t.2.1 + s₁, t.2.2)) (by
      intro t ht
      obtain ⟨t', ht', rfl⟩ := List.mem_map.1 ht
      have := hrange t' ht'
      dsimp only
      omega)
    refine ⟨M', ?_, hw, e1, e2, fun i j hi hj => ?_, fun i j hn => ?_⟩
    · unfold toArrayShifted toSparseData
      dsimp only
      have hz : zipTriplets ((toTriplets M).map fun t => t.1 + s₀) ((toTriplets M).map fun t => t.2.1 + s₁) ((toTriplets M).map fun t => t.2.2) = .ok _ := if_pos (by simp)
      rw [if_neg (by simp), hrows, hcols]
      simp only [Bool.false_eq_true, if_false]
      rw [hz, List.zip_map', List.zip_map', except_ok_bind, hM']
    · rw [e3, ← g2]
      unfold entry
      rw [List.map_map]
      refine congrArg List.sum (List.map_congr_left fun t _ => ?_)
      simp only [Function.comp_apply, Nat.add_right_cancel_iff]
    · rw [e3]
      refine entry_absent fun t ht hc => hn ?_
      obtain ⟨t', ht', rfl⟩ := List.mem_map.1 ht
      have := hrange t' ht'
      dsimp only at hc
      omega
  | true =>
    simp only [if_true] at hfit ⊢
    obtain ⟨M', hM', hw, e1, e2, e3⟩ := compress_ok (r := n₀) (c := n₁) (T := (toTriplets M).map fun t => (t.2.1 + s₁, t.1 + s₀, t.2.2)) (by
      intro t ht
      obtain ⟨t', ht', rfl⟩ := List.mem_map.1 ht
      have := hrange t' ht'
      dsimp only
      omega)
    refine ⟨M', ?_, hw, e1, e2, fun i j hi hj => ?_, fun i j hn => ?_⟩
    · unfold toArrayShifted toSparseData
      dsimp only
      have hz : zipTriplets ((toTriplets M).map fun t => t.2.1 + s₁) ((toTriplets M).map fun t => t.1 + s₀) ((toTriplets M).map fun t => t.2.2) = .ok _ := if_pos (by simp)
      rw [if_neg (by simp), hrows, hcols]
      simp only [if_true]
      rw [hz, List.zip_map', List.zip_map', except_ok_bind, hM']
    · rw [e3, ← g2]
      unfold entry
      rw [List.map_map]
      refine congrArg List.sum (List.map_congr_left fun t _ => ?_)
      simp only [Function.comp_apply, Nat.add_right_cancel_iff, and_comm]
    · rw [e3]
      refine entry_absent fun t ht hc => hn ?_
      obtain ⟨t', ht', rfl⟩ := List.mem_map.1 ht
      have := hrange t' ht'
      dsimp only at hc
      omega

-- C166: a matrix of two rows and three columns, one stored zero
example : IsCompressed (⟨2, [[(0, 1), (1, 2)], [(1, 0)], [(0, 3)]]⟩ : Compressed ℚ) ∧
    toTriplets (⟨2, [[(0, 1), (1, 2)], [(1, 0)], [(0, 3)]]⟩ : Compressed ℚ) = [(0, 0, 1), (1, 0, 2), (0, 2, 3)] ∧
    ∃ M', toArrayShifted (toSparseData (⟨2, [[(0, 1), (1, 2)], [(1, 0)], [(0, 3)]]⟩ : Compressed ℚ)) 5 6 1 2 true = .ok M' ∧ coefficient M' 4 1 = 3 := by
  have h : IsCompressed (⟨2, [[(0, 1), (1, 2)], [(1, 0)], [(0, 3)]]⟩ : Compressed ℚ) := by
    intro c hc
    simp only [List.mem_cons, List.not_mem_nil, or_false] at hc
    rcases hc with rfl | rfl | rfl <;> simp
  refine ⟨h, by simp [toTriplets, List.zipIdx, List.flatMap], ?_⟩
  obtain ⟨M', h1, -, -, -, h2, -⟩ := C166_shift h (n₀ := 5) (n₁ := 6) (s₀ := 1) (s₁ := 2) true (by norm_num) (by norm_num) (by simp)
  have := h2 0 2 (by norm_num) (by norm_num)
  exact ⟨M', h1, this.trans (by simp [coefficient])⟩

end PolyDiM
