import Verif.Model.FemTriangle
import Verif.Lemmas.Fem1D

/-! Helper lemmas: the DOF layout of the triangle. -/

namespace PolyDiM

/-! ### Collecting indices in a loop -/

/-- Positions of the elements of `L` satisfying `c`. -/
def idxs {α : Type} (z : α) (c : α → Bool) (L : List α) : List Nat := (List.range L.length).filter fun d => c (L.getD d z)

theorem getD_append_last {α : Type} (z : α) (L : List α) (a : α) : (L ++ [a]).getD L.length z = a := by simp

theorem getD_append_lt {α : Type} (z : α) (L M : List α) {d : Nat} (h : d < L.length) : (L ++ M).getD d z = L.getD d z := by
  simp [List.getElem?_append_left h]

theorem idxs_append {α : Type} (z : α) (c : α → Bool) (L : List α) (a : α) :
    idxs z c (L ++ [a]) = idxs z c L ++ if c a then [L.length] else [] := by
  unfold idxs
  rw [List.length_append, List.length_singleton, List.range_succ, List.filter_append]
  congr 1
  · apply List.filter_congr
    intro d hd
    rw [getD_append_lt z L _ (List.mem_range.1 hd)]
  · rw [List.filter_singleton, getD_append_last]
    cases c a <;> rfl

theorem idxs_map {α β : Type} (z : α) (w : β) (c : α → Bool) (f : α → β) (L : List α) :
    (idxs z c L).map (fun d => (L.map f).getD d w) = (L.filter c).map f := by
  induction L using List.reverseRecOn with
  | nil => rfl
  | append_singleton L a ih =>
    have e : ((L ++ [a]).filter c).map f = (L.filter c).map f ++ ([a].filter c).map f := by rw [List.filter_append, List.map_append]
    rw [e, idxs_append, List.map_append, ← ih]
    congr 1
    · apply List.map_congr_left
      intro d hd
      have hd : d < L.length := by
        have := (List.mem_filter.1 hd).1
        exact List.mem_range.1 this
      rw [List.map_append, getD_append_lt w _ _ (by simpa using hd)]
    · rw [List.filter_singleton]
      cases c a
      · rfl
      · simp

theorem mem_idxs_lt {α : Type} {z : α} {c : α → Bool} {L : List α} {d : Nat} (h : d ∈ idxs z c L) : d < L.length :=
  List.mem_range.1 (List.mem_filter.1 h).1

/-! ### The lattice loop -/

/-- First edge. -/
def c0 (k : Nat) (p : Nat × Nat) : Bool := p.1 = 0 ∧ 0 < p.2 ∧ p.2 < k
/-- Second edge. -/
def c1 (k : Nat) (p : Nat × Nat) : Bool := p.1 ≠ 0 ∧ p.1 < k ∧ p.2 ≠ 0 ∧ p.2 = k - p.1
/-- Third edge. -/
def c2 (k : Nat) (p : Nat × Nat) : Bool := p.1 ≠ 0 ∧ p.1 < k ∧ p.2 = 0
/-- Interior. -/
def cc (k : Nat) (p : Nat × Nat) : Bool := p.1 ≠ 0 ∧ p.1 < k ∧ p.2 ≠ 0 ∧ p.2 ≠ k - p.1
/-- Type of a lattice point. -/
def tyOf (k : Nat) (p : Nat × Nat) : TriType := (k - p.1 - p.2, p.2, p.1)
/-- Position of a lattice point. -/
def psOf (K : Type) [Field K] (k : Nat) (p : Nat × Nat) : K × K := ((p.2 : K) * (1 / (k : K)), (p.1 : K) * (1 / (k : K)))

theorem triLoop_list (K : Type) [Field K] (k : Nat) (L : List (Nat × Nat)) :
    L.foldl (triStep (K := K) k) ⟨0, [], [], [], [], [], []⟩ =
      ⟨L.length, idxs (0, 0) (c0 k) L, idxs (0, 0) (c1 k) L, (idxs (0, 0) (c2 k) L).reverse, idxs (0, 0) (cc k) L,
        L.map (psOf K k), L.map (tyOf k)⟩ := by
  induction L using List.reverseRecOn with
  | nil => rfl
  | append_singleton L a ih =>
    obtain ⟨i, j⟩ := a
    rw [List.foldl_append, ih]
    show triStep k _ (i, j) = _
    unfold triStep
    simp only [idxs_append, List.reverse_append, List.map_append, List.length_append, List.length_singleton]
    congr 1
    · by_cases hi : i = 0
      · subst hi
        rw [if_pos rfl]
        by_cases hj : 0 < j ∧ j < k - 0
        · rw [if_pos hj, if_pos (by simpa [c0] using hj)]
        · rw [if_neg hj, if_neg (by simpa [c0] using hj), List.append_nil]
      · rw [if_neg hi, if_neg (by simp [c0, hi]), List.append_nil]
    · by_cases hi : i = 0
      · rw [if_pos hi, if_neg (by simp [c1, hi]), List.append_nil]
      · rw [if_neg hi]
        by_cases h1 : i < k ∧ (j = 0 ∨ j = k - i)
        · rw [if_pos h1]
          by_cases h2 : j = 0
          · rw [if_pos h2, if_neg (by simp [c1, h2]), List.append_nil]
          · rw [if_neg h2, if_pos (by simp [c1, hi, h1.1, h2]; tauto)]
        · rw [if_neg h1, if_neg (by simp [c1]; tauto), List.append_nil]
    · by_cases hi : i = 0
      · rw [if_pos hi, if_neg (by simp [c2, hi])]; rfl
      · rw [if_neg hi]
        by_cases h1 : i < k ∧ (j = 0 ∨ j = k - i)
        · rw [if_pos h1]
          by_cases h2 : j = 0
          · rw [if_pos h2, if_pos (by simp [c2, hi, h1.1, h2])]; rfl
          · rw [if_neg h2, if_neg (by simp [c2, h2])]; rfl
        · rw [if_neg h1, if_neg (by simp [c2]; tauto)]; rfl
    · by_cases hi : i = 0
      · rw [if_pos hi, if_neg (by simp [cc, hi]), List.append_nil]
      · rw [if_neg hi]
        by_cases h1 : i < k ∧ (j = 0 ∨ j = k - i)
        · rw [if_pos h1, if_neg (by simp [cc]; tauto), List.append_nil]
        · rw [if_neg h1]
          by_cases h2 : i < k
          · rw [if_pos h2, if_pos (by simp [cc, hi]; tauto)]
          · rw [if_neg h2, if_neg (by simp [cc]; tauto), List.append_nil]

theorem mem_triLattice {k i j : Nat} : (i, j) ∈ triLattice k ↔ i + j ≤ k := by
  unfold triLattice
  simp only [List.mem_flatMap, List.mem_range, List.mem_map, Prod.mk.injEq]
  constructor
  · rintro ⟨a, ha, b, hb, rfl, rfl⟩; omega
  · intro h; exact ⟨i, by omega, j, by omega, rfl, rfl⟩

theorem triLattice_nodup (k : Nat) : (triLattice k).Nodup := by
  unfold triLattice
  rw [List.nodup_flatMap]
  constructor
  · intro i _
    exact List.Nodup.map (fun a b h => by simpa using h) List.nodup_range
  · refine List.Pairwise.imp ?_ List.nodup_range
    intro a b hab x hx hy
    simp only [List.mem_map] at hx hy
    obtain ⟨_, _, rfl⟩ := hx
    obtain ⟨_, _, h⟩ := hy
    simp at h
    exact hab h.1.symm

theorem triLattice_length (k : Nat) : (triLattice k).length = tri (k + 1) := by
  unfold triLattice
  rw [List.length_flatMap]
  simp only [List.length_map, List.length_range]
  induction k with
  | zero => rfl
  | succ k ih =>
    rw [List.range_succ_eq_map, List.map_cons, List.sum_cons, List.map_map]
    have : (List.map ((fun i => k + 1 + 1 - i) ∘ Nat.succ) (List.range (k + 1))) = List.map (fun i => k + 1 - i) (List.range (k + 1)) := by
      apply List.map_congr_left
      intro i _
      simp
    rw [this, ih]
    simp only [tri]
    omega

theorem filter_c0 (k : Nat) : (triLattice (k + 1)).filter (c0 (k + 1)) = (List.range' 1 k).map fun j => (0, j) := by
  unfold triLattice
  rw [List.filter_flatMap, List.range_succ_eq_map, List.flatMap_cons]
  have h2 : (List.map Nat.succ (List.range (k + 1))).flatMap
      (fun i => ((List.range (k + 1 + 1 - i)).map fun j => (i, j)).filter (c0 (k + 1))) = [] := by
    rw [List.flatMap_eq_nil_iff]
    intro i hi
    rw [List.filter_eq_nil_iff]
    intro p hp
    simp only [List.mem_map, List.mem_range] at hi hp
    obtain ⟨i', _, rfl⟩ := hi
    obtain ⟨j, _, rfl⟩ := hp
    simp [c0]
  rw [h2, List.append_nil, List.filter_map]
  congr 1
  have h3 : List.range (k + 1 + 1 - 0) = [0] ++ List.range' 1 k ++ [k + 1] := by
    rw [Nat.sub_zero, List.range_succ, List.range_eq_range', Nat.add_comm k 1, ← List.range'_append_1]
    rfl
  rw [h3, List.filter_append, List.filter_append]
  have h4 : (List.range' 1 k).filter (c0 (k + 1) ∘ fun j => (0, j)) = List.range' 1 k := by
    rw [List.filter_eq_self]
    intro j hj
    rw [List.mem_range'_1] at hj
    simp [c0]
    omega
  rw [h4]
  simp [c0]

theorem filter_row (c : Nat → Bool) (n j : Nat) (hj : j < n) (h : ∀ a, a < n → (c a = true ↔ a = j)) : (List.range n).filter c = [j] := by
  have h1 : (List.range n).filter c = (List.range n).filter (fun a => a == j) := by
    apply List.filter_congr
    intro a ha
    have := h a (List.mem_range.1 ha)
    by_cases hc : c a = true
    · rw [hc]; simpa using (this.1 hc)
    · have h3 : ¬ a = j := fun he => hc (this.2 he)
      simp only [Bool.not_eq_true] at hc
      rw [hc]; symm; simpa using h3
  rw [h1, List.filter_beq, List.count_eq_one_of_mem List.nodup_range (List.mem_range.2 hj)]
  rfl

/-- Filtering the lattice by a condition met exactly at `(i, g i)` for `1 ≤ i ≤ k`. -/
theorem filter_col (k : Nat) (c : Nat × Nat → Bool) (g : Nat → Nat)
    (h : ∀ i j, i + j ≤ k + 1 → (c (i, j) = true ↔ 1 ≤ i ∧ i ≤ k ∧ j = g i)) (hg : ∀ i, 1 ≤ i → i ≤ k → i + g i ≤ k + 1) :
    (triLattice (k + 1)).filter c = (List.range' 1 k).map fun i => (i, g i) := by
  unfold triLattice
  have h3 : List.range (k + 1 + 1) = [0] ++ List.range' 1 k ++ [k + 1] := by
    rw [List.range_succ, List.range_eq_range', Nat.add_comm k 1, ← List.range'_append_1]
    rfl
  rw [List.filter_flatMap, h3, List.flatMap_append, List.flatMap_append]
  have e : ∀ i, (i = 0 ∨ i = k + 1) → ((List.range (k + 1 + 1 - i)).map fun j => (i, j)).filter c = [] := by
    intro i hi
    rw [List.filter_eq_nil_iff]
    intro p hp
    simp only [List.mem_map, List.mem_range] at hp
    obtain ⟨j, hj, rfl⟩ := hp
    rw [h i j (by omega)]
    omega
  have e0 : [0].flatMap (fun i => ((List.range (k + 1 + 1 - i)).map fun j => (i, j)).filter c) = [] := by
    rw [List.flatMap_singleton]; exact e 0 (Or.inl rfl)
  have e1 : [k + 1].flatMap (fun i => ((List.range (k + 1 + 1 - i)).map fun j => (i, j)).filter c) = [] := by
    rw [List.flatMap_singleton]; exact e (k + 1) (Or.inr rfl)
  rw [e0, e1, List.append_nil, List.nil_append, List.map_eq_flatMap]
  apply List.flatMap_congr
  intro i hi
  rw [List.mem_range'_1] at hi
  rw [List.filter_map, filter_row _ _ (g i)]
  · rfl
  · have := hg i (by omega) (by omega); omega
  · intro a ha
    show c (i, a) = true ↔ _
    rw [h i a (by omega)]
    omega

theorem filter_c1 (k : Nat) : (triLattice (k + 1)).filter (c1 (k + 1)) = (List.range' 1 k).map fun i => (i, k + 1 - i) := by
  apply filter_col
  · intro i j hij
    simp [c1]
    omega
  · intro i _ _; omega

theorem filter_c2 (k : Nat) : (triLattice (k + 1)).filter (c2 (k + 1)) = (List.range' 1 k).map fun i => (i, 0) := by
  apply filter_col
  · intro i j hij
    simp [c2]
    omega
  · intro i _ _; omega

/-- The final list of types. -/
def triTypes (k : Nat) : List TriType :=
  [(k + 1, 0, 0), (0, k + 1, 0), (0, 0, k + 1)] ++
    (((List.range k).map fun d => (k - d, d + 1, 0)) ++ ((List.range k).map fun d => (0, k - d, d + 1)) ++
      ((List.range k).map fun d => (d + 1, 0, k - d))) ++
    ((triLattice (k + 1)).filter (cc (k + 1))).map (tyOf (k + 1))

theorem mem_triTypes (k : Nat) (t : TriType) : t ∈ triTypes k ↔ t.1 + t.2.1 + t.2.2 = k + 1 := by
  obtain ⟨a, b, c⟩ := t
  unfold triTypes
  simp only [List.mem_append, List.mem_cons, List.mem_map, List.mem_range, List.mem_filter, Prod.mk.injEq, List.not_mem_nil, or_false,
    Prod.exists, mem_triLattice, tyOf, cc, decide_eq_true_eq]
  constructor
  · rintro ((h | ((⟨d, h1, h2⟩ | ⟨d, h1, h2⟩) | ⟨d, h1, h2⟩)) | ⟨i, j, h1, h2⟩) <;> omega
  · intro h
    by_cases ha : a = 0
    · by_cases hb : b = 0
      · left; left; omega
      · by_cases hc : c = 0
        · left; left; omega
        · left; right; left; right; exact ⟨c - 1, by omega, by omega⟩
    · by_cases hb : b = 0
      · by_cases hc : c = 0
        · left; left; omega
        · left; right; right; exact ⟨a - 1, by omega, by omega⟩
      · by_cases hc : c = 0
        · left; right; left; left; exact ⟨b - 1, by omega, by omega⟩
        · right; exact ⟨c, b, by omega, by omega⟩

theorem triTypes_nodup (k : Nat) : (triTypes k).Nodup := by
  have hm : ∀ f : Nat → TriType, (∀ a b, f a = f b → a = b) → ((List.range k).map f).Nodup :=
    fun f hf => List.Nodup.map (fun a b h => hf a b h) List.nodup_range
  unfold triTypes
  rw [List.nodup_append, List.nodup_append, List.nodup_append, List.nodup_append]
  refine ⟨⟨by simp, ⟨⟨hm _ (by simp), hm _ (by simp), ?_⟩, hm _ (by simp), ?_⟩, ?_⟩, ?_, ?_⟩
  · intro a ha b hb
    simp only [List.mem_map, List.mem_range] at ha hb
    obtain ⟨d, _, rfl⟩ := ha
    obtain ⟨d', _, rfl⟩ := hb
    simp
  · intro a ha b hb
    simp only [List.mem_append, List.mem_map, List.mem_range] at ha hb
    obtain ⟨d', _, rfl⟩ := hb
    rcases ha with ⟨d, _, rfl⟩ | ⟨d, _, rfl⟩ <;> simp
  · intro a ha b hb
    simp only [List.mem_append, List.mem_map, List.mem_range] at hb
    simp only [List.mem_cons, List.not_mem_nil, or_false] at ha
    rcases hb with (⟨d, _, rfl⟩ | ⟨d, _, rfl⟩) | ⟨d, _, rfl⟩ <;> rcases ha with rfl | rfl | rfl <;> simp <;> omega
  · apply List.Nodup.map_on
    · rintro ⟨i, j⟩ _ ⟨i', j'⟩ _ h
      simp [tyOf] at h
      simp; omega
    · exact (triLattice_nodup _).filter _
  · intro a ha b hb
    simp only [List.mem_map, List.mem_filter, Prod.exists, mem_triLattice, tyOf, cc, decide_eq_true_eq] at hb
    obtain ⟨i, j, ⟨h1, h2⟩, rfl⟩ := hb
    simp only [List.mem_append, List.mem_map, List.mem_range, List.mem_cons, List.not_mem_nil, or_false] at ha
    rcases ha with (rfl | rfl | rfl) | ((⟨d, _, rfl⟩ | ⟨d, _, rfl⟩) | ⟨d, _, rfl⟩) <;> simp <;> omega

theorem triTypes_length (k : Nat) : (triTypes k).length = tri (k + 2) := by
  have h : ((triLattice (k + 1)).map (tyOf (k + 1))).Nodup := by
    apply List.Nodup.map_on _ (triLattice_nodup _)
    rintro ⟨i, j⟩ _ ⟨i', j'⟩ _ h
    simp [tyOf] at h
    simp; omega
  have hp : (triTypes k).Perm ((triLattice (k + 1)).map (tyOf (k + 1))) := by
    rw [List.perm_ext_iff_of_nodup (triTypes_nodup k) h]
    rintro ⟨a, b, c⟩
    rw [mem_triTypes]
    simp only [List.mem_map, Prod.exists, mem_triLattice, tyOf, Prod.mk.injEq]
    constructor
    · intro h; exact ⟨c, b, by omega, by omega⟩
    · rintro ⟨i, j, h1, h2⟩; omega
  rw [hp.length_eq, List.length_map, triLattice_length]

theorem padCols_ok {α : Type} {N : Nat} (z : α) {l : List α} (h : l.length = N) : padCols N z l = .ok l := by
  unfold padCols
  rw [if_pos (by omega), show N - l.length = 0 by omega]
  simp

theorem reverse_range' (k : Nat) {α : Type} (f : Nat → α) :
    ((List.range' 1 k).map f).reverse = (List.range k).map fun d => f (k - d) := by
  apply List.ext_getElem
  · simp
  · intro i h1 h2
    simp at h1 h2
    simp
    congr 1
    omega

theorem triCreate_ok (K : Type) [Field K] (k : Nat) :
    triCreate K (k + 1) = .ok ⟨k + 1, 1, k, ((triLattice (k + 1)).filter (cc (k + 1))).length, tri (k + 2),
      (triTypes k).map (fun t => ((t.2.1 : K) * (1 / ((k + 1 : Nat) : K)), (t.2.2 : K) * (1 / ((k + 1 : Nat) : K)))), triTypes k⟩ := by
  have hN : (k + 1 + 1) * (k + 1 + 2) / 2 = tri (k + 2) := tri_div (k + 1)
  have hL := triLattice_length (k + 1)
  have hlen0 : ∀ {c : Nat × Nat → Bool}, (idxs (0, 0) c (triLattice (k + 1))).length = ((triLattice (k + 1)).filter c).length := by
    intro c
    have := congrArg List.length (idxs_map (0, 0) (0, 0) c id (triLattice (k + 1)))
    simpa using this
  -- the first three positions
  have g0 : ∀ {β : Type} (w : β) (f : Nat × Nat → β), ((triLattice (k + 1)).map f).getD 0 w = f (0, 0) := by
    intro β w f
    simp [triLattice, List.range_succ_eq_map]
  have g1 : ∀ {β : Type} (w : β) (f : Nat × Nat → β), ((triLattice (k + 1)).map f).getD (k + 1) w = f (0, k + 1) := by
    intro β w f
    have h : triLattice (k + 1) = (List.range (k + 2)).map (fun j => (0, j)) ++
        ((List.range (k + 1)).map Nat.succ).flatMap fun i => (List.range (k + 1 + 1 - i)).map fun j => (i, j) := by
      unfold triLattice
      rw [show List.range (k + 1 + 1) = 0 :: (List.range (k + 1)).map Nat.succ from List.range_succ_eq_map, List.flatMap_cons]
      rw [← List.range_succ_eq_map]
      rfl
    rw [h, List.map_append, getD_append_lt w _ _ (by simp)]
    simp
  have g2 : ∀ {β : Type} (w : β) (f : Nat × Nat → β), ((triLattice (k + 1)).map f).getD (tri (k + 2) - 1) w = f (k + 1, 0) := by
    intro β w f
    have h : triLattice (k + 1) = ((List.range (k + 1)).flatMap fun i => (List.range (k + 1 + 1 - i)).map fun j => (i, j)) ++ [(k + 1, 0)] := by
      unfold triLattice
      rw [List.range_succ, List.flatMap_append, List.flatMap_singleton, show k + 1 + 1 - (k + 1) = 1 by omega]
      rfl
    have h2 : ((List.range (k + 1)).flatMap fun i => (List.range (k + 1 + 1 - i)).map fun j => (i, j)).length = tri (k + 2) - 1 := by
      rw [h] at hL
      rw [List.length_append, List.length_singleton] at hL
      have : tri (k + 1 + 1) = tri (k + 2) := rfl
      omega
    rw [h, List.map_append, ← h2]
    have := getD_append_last w (((List.range (k + 1)).flatMap fun i => (List.range (k + 1 + 1 - i)).map fun j => (i, j)).map f) (f (k + 1, 0))
    rw [List.length_map] at this
    exact this
  have hcopy : ∀ {β : Type} (w : β) (f : Nat × Nat → β),
      copyCols ((triLattice (k + 1)).map f) ([0, k + 1, tri (k + 2) - 1] ++
        (idxs (0, 0) (c0 (k + 1)) (triLattice (k + 1)) ++ idxs (0, 0) (c1 (k + 1)) (triLattice (k + 1)) ++
          (idxs (0, 0) (c2 (k + 1)) (triLattice (k + 1))).reverse) ++ idxs (0, 0) (cc (k + 1)) (triLattice (k + 1))) =
      .ok ([f (0, 0), f (0, k + 1), f (k + 1, 0)] ++
        (((List.range k).map fun d => f (0, d + 1)) ++ ((List.range k).map fun d => f (d + 1, k - d)) ++
          ((List.range k).map fun d => f (k - d, 0))) ++ ((triLattice (k + 1)).filter (cc (k + 1))).map f) := by
    intro β w f
    unfold copyCols
    rw [mapM_unchecked _ w]
    · congr 1
      simp only [List.map_append, List.map_cons, List.map_nil, g0, g1, g2, List.map_reverse, idxs_map, filter_c0, filter_c1, filter_c2,
        List.map_map]
      rw [reverse_range']
      rw [List.range'_eq_map_range]
      simp only [List.map_map]
      congr 1
      congr 1
      congr 1
      congr 1
      · apply List.map_congr_left
        intro d _
        simp [Nat.add_comm]
      · apply List.map_congr_left
        intro d _
        simp only [Function.comp]
        rw [Nat.add_comm 1 d, Nat.add_sub_add_right]
    · intro i hi
      rw [List.length_map, hL]
      have e2 : tri (k + 1 + 1) = tri (k + 1) + (k + 2) := tri_succ (k + 1)
      have e3 : tri (k + 2) = tri (k + 1) + (k + 2) := tri_succ (k + 1)
      simp only [List.mem_append, List.mem_cons, List.not_mem_nil, or_false, List.mem_reverse] at hi
      rcases hi with (h | ((h | h) | h)) | h
      · omega
      · have := mem_idxs_lt h; omega
      · have := mem_idxs_lt h; omega
      · have := mem_idxs_lt h; omega
      · have := mem_idxs_lt h; omega
  have hty : [tyOf (k + 1) (0, 0), tyOf (k + 1) (0, k + 1), tyOf (k + 1) (k + 1, 0)] ++
        (((List.range k).map fun d => tyOf (k + 1) (0, d + 1)) ++ ((List.range k).map fun d => tyOf (k + 1) (d + 1, k - d)) ++
          ((List.range k).map fun d => tyOf (k + 1) (k - d, 0))) ++ ((triLattice (k + 1)).filter (cc (k + 1))).map (tyOf (k + 1)) =
        triTypes k := by
    unfold triTypes
    congr 1
    congr 1
    · simp [tyOf]
    · congr 1
      · congr 1
        · apply List.map_congr_left
          intro d hd
          simp [tyOf]
        · apply List.map_congr_left
          intro d hd
          simp at hd
          simp [tyOf]
      · apply List.map_congr_left
        intro d hd
        simp at hd
        simp [tyOf]
        omega
  have hps : [psOf K (k + 1) (0, 0), psOf K (k + 1) (0, k + 1), psOf K (k + 1) (k + 1, 0)] ++
        (((List.range k).map fun d => psOf K (k + 1) (0, d + 1)) ++ ((List.range k).map fun d => psOf K (k + 1) (d + 1, k - d)) ++
          ((List.range k).map fun d => psOf K (k + 1) (k - d, 0))) ++ ((triLattice (k + 1)).filter (cc (k + 1))).map (psOf K (k + 1)) =
        (triTypes k).map (fun t => ((t.2.1 : K) * (1 / ((k + 1 : Nat) : K)), (t.2.2 : K) * (1 / ((k + 1 : Nat) : K)))) := by
    rw [← hty]
    simp only [List.map_append, List.map_cons, List.map_nil, List.map_map]
    rfl
  unfold triCreate
  rw [if_neg (by omega)]
  unfold triLoop
  rw [triLoop_list]
  simp only [hN]
  rw [padCols_ok _ (by rw [List.length_map, hL]), except_ok_bind, padCols_ok _ (by rw [List.length_map, hL]), except_ok_bind,
    hcopy (0, 0), except_ok_bind, hcopy (0, 0, 0), except_ok_bind, hty, hps,
    padCols_ok _ (by rw [List.length_map, triTypes_length]), except_ok_bind, padCols_ok _ (triTypes_length k), except_ok_bind]
  simp only [hlen0, filter_c0]
  simp

end PolyDiM
