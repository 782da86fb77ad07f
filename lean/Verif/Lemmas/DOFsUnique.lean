import Verif.Lemmas.DOFsGlobal

/-! Helper lemmas: from "the indices in storage order are `0,1,2,…`" to "every index is used exactly once". -/

namespace PolyDiM

theorem filterMap_nodup_inj {α β : Type _} {f : α → Option β} {l : List α} (h : (l.filterMap f).Nodup)
    {p q : α} (hp : p ∈ l) (hq : q ∈ l) {i : β} (fp : f p = some i) (fq : f q = some i) : p = q := by
  induction l with
  | nil => simp at hp
  | cons a l ih =>
    rw [List.filterMap_cons] at h
    have hmem : ∀ x ∈ l, f x = some i → i ∈ l.filterMap f := fun x hx hf => List.mem_filterMap.2 ⟨x, hx, hf⟩
    rcases List.mem_cons.1 hp with rfl | hp'
    · rcases List.mem_cons.1 hq with rfl | hq'
      · rfl
      · rw [fp] at h
        exact absurd (hmem q hq' fq) (List.nodup_cons.1 h).1
    · rcases List.mem_cons.1 hq with rfl | hq'
      · rw [fq] at h
        exact absurd (hmem p hp' fp) (List.nodup_cons.1 h).1
      · refine ih ?_ hp' hq'
        cases hfa : f a with
        | none => simpa [hfa] using h
        | some b => simp only [hfa] at h; exact (List.nodup_cons.1 h).2

/-- DOFs with their place of storage. -/
def locs (data : DOFsData) (n : Nat) : List ((Nat × Nat × Nat) × DOF) :=
  (List.range n).flatMap fun d => (data.dims d).cells.zipIdx.flatMap fun xc =>
    xc.1.dofs.zipIdx.map fun yk => ((d, xc.2, yk.2), yk.1)

theorem locs_snd (data : DOFsData) (n : Nat) : (locs data n).map Prod.snd = allDOFs data n := by
  unfold locs allDOFs
  rw [List.map_flatMap]
  congr 1
  funext d
  rw [List.map_flatMap]
  have : ∀ (l : List CellDOFs) (k : Nat),
      ((l.zipIdx k).flatMap fun xc => (xc.1.dofs.zipIdx.map fun yk => ((d, xc.2, yk.2), yk.1)).map Prod.snd) =
        l.flatMap CellDOFs.dofs := by
    intro l
    induction l with
    | nil => simp
    | cons x l ih =>
      intro k
      rw [List.zipIdx_cons, List.flatMap_cons, ih (k + 1)]
      simp [Function.comp_def]
  exact this _ 0

theorem mem_locs (data : DOFsData) (n d c k : Nat) (y : DOF) :
    ((d, c, k), y) ∈ locs data n ↔ d < n ∧ Spec.dofAt data d c k = some y := by
  unfold locs Spec.dofAt
  simp only [List.mem_flatMap, List.mem_range, List.mem_map, Prod.mk.injEq, Prod.exists,
    List.mem_zipIdx_iff_getElem?, Option.bind_eq_some_iff]
  constructor
  · rintro ⟨d', hd', x, c', hx, y', k', hy, ⟨rfl, rfl, rfl⟩, rfl⟩
    exact ⟨hd', x, hx, hy⟩
  · rintro ⟨hd, x, hx, hy⟩
    exact ⟨d, hd, x, c, hx, y, k, hy, ⟨rfl, rfl, rfl⟩, rfl⟩

theorem existsUnique_of_range (data : DOFsData) (n : Nat) (f : DOF → Option Nat) (t : DType) (N : Nat)
    (hf : ∀ x i, f x = some i ↔ x = ⟨t, i⟩)
    (h : (allDOFs data n).filterMap f = List.range N)
    (hlate : ∀ d, n ≤ d → data.dims d = ⟨[], []⟩) :
    (∀ i, i < N → ∃! p : Nat × Nat × Nat, Spec.dofAt data p.1 p.2.1 p.2.2 = some ⟨t, i⟩) ∧
    (∀ d c k i, Spec.dofAt data d c k = some ⟨t, i⟩ → d < n ∧ i < N) := by
  have hlt : ∀ d c k y, Spec.dofAt data d c k = some y → d < n := by
    intro d c k y hy
    by_contra hd
    rw [Spec.dofAt, hlate d (by omega)] at hy
    simp at hy
  rw [← locs_snd, List.filterMap_map] at h
  constructor
  · intro i hi
    have hmem : i ∈ (locs data n).filterMap (f ∘ Prod.snd) := by rw [h]; simpa using hi
    obtain ⟨⟨p, y⟩, hp, hfy⟩ := List.mem_filterMap.1 hmem
    have hy := (hf y i).1 hfy
    subst hy
    refine ⟨p, ((mem_locs data n p.1 p.2.1 p.2.2 _).1 hp).2, ?_⟩
    intro q hq
    have hq' : (q, (⟨t, i⟩ : DOF)) ∈ locs data n := (mem_locs data n q.1 q.2.1 q.2.2 _).2 ⟨hlt _ _ _ _ hq, hq⟩
    have := filterMap_nodup_inj (by rw [h]; exact List.nodup_range) hq' hp (i := i) hfy hfy
    exact congrArg Prod.fst this
  · intro d c k i hx
    have hd := hlt _ _ _ _ hx
    refine ⟨hd, ?_⟩
    have hm := (mem_locs data n d c k _).2 ⟨hd, hx⟩
    have : i ∈ (locs data n).filterMap (f ∘ Prod.snd) := List.mem_filterMap.2 ⟨_, hm, (hf _ _).2 rfl⟩
    rw [h] at this
    simpa using this

theorem freeIdx_iff (x : DOF) (i : Nat) : freeIdx x = some i ↔ x = ⟨.dof, i⟩ := by
  cases x; simp [freeIdx]

theorem strongIdx_iff (x : DOF) (i : Nat) : strongIdx x = some i ↔ x = ⟨.strong, i⟩ := by
  cases x; simp [strongIdx]

end PolyDiM
