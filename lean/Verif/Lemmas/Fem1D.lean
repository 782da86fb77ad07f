import Verif.Model.Fem1D
import Verif.Lemmas.Lagrange
import Verif.Props.Lagrange

/-! Helper lemmas: the one-dimensional finite element. -/

namespace PolyDiM

theorem fem1Loop_eq (k : Nat) : fem1Loop (k + 2) = ⟨[0, k + 1], List.range' 1 k, 1, 1, k + 2⟩ := by
  have h : ∀ m, m ≤ k → (List.range (m + 1)).foldl (fem1Step (k + 2)) ⟨[], [], 0, 0, 0⟩ = ⟨[0], List.range' 1 m, 1, 0, m + 1⟩ := by
    intro m
    induction m with
    | zero => intro _; rfl
    | succ m ih =>
      intro hm
      rw [List.range_succ, List.foldl_append, ih (by omega)]
      show fem1Step (k + 2) _ (m + 1) = _
      unfold fem1Step
      rw [if_neg (by omega), if_neg (by omega), List.range'_1_concat, Nat.add_comm 1 m]
  unfold fem1Loop
  rw [List.range_succ, List.foldl_append, h k (le_refl k)]
  show fem1Step (k + 2) _ (k + 1) = _
  unfold fem1Step
  rw [if_neg (by omega), if_pos (by omega)]
  rfl

theorem mapM_unchecked {α : Type} (pts : List α) (z : α) (l : List Nat) (h : ∀ i ∈ l, i < pts.length) :
    l.mapM (unchecked pts) = .ok (l.map fun i => pts.getD i z) := by
  induction l with
  | nil => rfl
  | cons a l ih =>
    have ha := h a (by simp)
    have : unchecked pts a = .ok (pts.getD a z) := by
      rw [unchecked_ok_iff]
      simp [ha]
    rw [List.mapM_cons, this, except_ok_bind, ih (fun i hi => h i (by simp [hi])), except_ok_bind]
    rfl

variable {K : Type} [Field K]

/-- The reordered points. -/
def fem1Pos (pts : List K) (k : Nat) : List K :=
  ([0, k + 1] ++ List.range' 1 k).map fun i => pts.getD i 0

theorem fem1Create_ok (k : Nat) (ty : Fem1Type) (lob pts : List K) (h : fem1Points (k + 1) ty lob = .ok pts)
    (hl : pts.length = k + 2) :
    fem1Create (k + 1) ty lob = .ok ⟨k + 1, 1, k, k + 2, fem1Pos pts k, lagCoefficients (fem1Pos pts k)⟩ := by
  unfold fem1Create
  rw [if_neg (by omega), h, except_ok_bind]
  show (if (fem1Loop (k + 2)).vertexCount ≠ k + 1 + 1 ∨ _ then _ else _) = _
  rw [fem1Loop_eq, if_neg (by simp)]
  show (do
    let nodes ← fem1Copy pts [0, k + 1]
    let cells ← fem1Copy pts (List.range' 1 k)
    Except.ok (Fem1Data.mk (k + 1) 1 (k + 1 - 1) (k + 1 + 1) (nodes ++ cells) (lagCoefficients (nodes ++ cells)))) = _
  unfold fem1Copy
  rw [mapM_unchecked pts 0 _ (by intro i hi; simp at hi; omega), except_ok_bind,
    mapM_unchecked pts 0 _ (by intro i hi; simp [List.mem_range'_1] at hi; omega), except_ok_bind]
  simp [fem1Pos]

theorem fem1Points_length {k : Nat} {ty : Fem1Type} {lob pts : List K} (h : fem1Points (k + 1) ty lob = .ok pts) :
    pts.length = k + 2 := by
  unfold fem1Points at h
  cases ty with
  | equispaced => simp at h; rw [← h]; simp [linSpaced]
  | gaussLobatto =>
    simp only at h
    split at h
    · injection h with h; subst h; assumption
    · cases h
  | other => cases h

theorem fem1Pos_nodup {pts : List K} {k : Nat} (hl : pts.length = k + 2) (hd : pts.Nodup) : (fem1Pos pts k).Nodup := by
  unfold fem1Pos
  apply List.Nodup.map_on
  · intro i hi j hj hij
    have hi' : i < k + 2 := by simp [List.mem_range'_1] at hi; omega
    have hj' : j < k + 2 := by simp [List.mem_range'_1] at hj; omega
    exact nodes_injOn hd (by simpa [hl] using hi') (by simpa [hl] using hj') hij
  · rw [List.nodup_append]
    refine ⟨by simp, List.nodup_range', ?_⟩
    intro a ha b hb
    simp [List.mem_range'_1] at ha hb
    omega

theorem linSpaced_nodup [CharZero K] (k : Nat) : (linSpaced K (k + 2)).Nodup := by
  unfold linSpaced
  apply List.Nodup.map _ List.nodup_range
  intro i j hij
  have hk : ((k + 2 - 1 : Nat) : K) ≠ 0 := Nat.cast_ne_zero.2 (by omega)
  have := (div_left_inj' hk).1 hij
  exact_mod_cast this

theorem linSpaced_getD (n i : Nat) (hi : i < n) : (linSpaced K n).getD i 0 = (i : K) / ((n - 1 : Nat) : K) := by
  simp [linSpaced, hi]

theorem fem1Pos_linSpaced [CharZero K] (k : Nat) :
    fem1Pos (linSpaced K (k + 2)) k = [0, 1] ++ (List.range k).map fun (j : Nat) => ((j : K) + 1) / ((k : K) + 1) := by
  have hk : (k : K) + 1 ≠ 0 := by exact_mod_cast Nat.succ_ne_zero k
  unfold fem1Pos
  rw [List.map_append]
  congr 1
  · simp only [List.map_cons, List.map_nil]
    rw [linSpaced_getD _ _ (by omega), linSpaced_getD _ _ (by omega)]
    simp [div_self hk]
  · rw [List.range'_eq_map_range, List.map_map]
    apply List.map_congr_left
    intro j hj
    simp only [List.mem_range] at hj
    show (linSpaced K (k + 2)).getD (1 + j) 0 = _
    rw [linSpaced_getD _ _ (by omega)]
    push_cast
    rw [add_comm 1 (j : K)]

theorem scatter_id (n c : Nat) (hc : c < n) : scatterCol (List.range n) (fun i => i) c = some c := by
  have h : ∀ m, m ≤ n → (List.range m).foldl (fun (acc : Option Nat) d => if (List.range n)[d]? = some c then some d else acc) none =
      if c < m then some c else none := by
    intro m
    induction m with
    | zero => intro _; simp
    | succ m ih =>
      intro hm
      rw [List.range_succ, List.foldl_append, ih (by omega)]
      show (if (List.range n)[m]? = some c then some m else _) = _
      rw [List.getElem?_range (by omega)]
      by_cases h : m = c
      · subst h; simp
      · rw [if_neg (by simpa using h)]
        by_cases h2 : c < m
        · rw [if_pos h2, if_pos (by omega)]
        · rw [if_neg h2, if_neg (by omega)]
  unfold scatterCol
  rw [List.length_range, h n (le_refl n), if_pos hc]

theorem fem1Order_eq (d : Fem1Data K) : fem1Order d = List.range (2 * d.num0D + d.num1D) := by
  unfold fem1Order
  have h1 : List.range' 0 d.num0D ++ List.range' d.num0D d.num0D = List.range' 0 (2 * d.num0D) := by
    have := @List.range'_append_1 0 d.num0D d.num0D
    rw [Nat.zero_add] at this
    rw [this, two_mul]
  have h2 := @List.range'_append_1 0 (2 * d.num0D) d.num1D
  rw [Nat.zero_add] at h2
  rw [h1, h2, List.range_eq_range']

end PolyDiM
