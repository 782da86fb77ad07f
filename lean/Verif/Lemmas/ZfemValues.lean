import Verif.Lemmas.ZfemTriPoly
import Verif.Lemmas.Mat
import Verif.Lemmas.Vem

/-! Helper lemmas: the nodes and the piecewise polynomial functions of a ZFEM element. -/

namespace PolyDiM

open Spec

theorem fanNode_valid {n N1 N2 t c : Nat} (hn : 1 ≤ n) (ht : t < n) (hc : c < 3 * (1 + N1) + N2) : IsFanNode n N1 N2 (fanNode n N1 t c) := by
  have hm : (t + 1) % n < n := Nat.mod_lt _ (by omega)
  unfold fanNode
  split_ifs
  · exact .centre
  · exact .vertex _ ht
  · exact .vertex _ hm
  · exact .spoke _ _ ht (by omega)
  · exact .edge _ _ ht (by omega)
  · exact .spoke _ _ hm (by omega)
  · exact .inner _ _ ht (by omega)

theorem fanNode_inj {n N1 t c c' : Nat} (hn : 2 ≤ n) (ht : t < n) (h : fanNode n N1 t c = fanNode n N1 t c') : c = c' := by
  have hm : (t + 1) % n ≠ t := by
    by_cases h1 : t + 1 < n
    · rw [Nat.mod_eq_of_lt h1]
      omega
    · rw [show t + 1 = n by omega, Nat.mod_self]
      omega
  unfold fanNode at h
  split_ifs at h <;> first | omega | (simp only [FanNode.vertex.injEq, FanNode.spoke.injEq, FanNode.edge.injEq, FanNode.inner.injEq] at h; try omega)

theorem fanNode_surj {n N1 N2 : Nat} (hn : 1 ≤ n) {x : FanNode} (hx : IsFanNode n N1 N2 x) : ∃ t < n, ∃ c < 3 * (1 + N1) + N2, fanNode n N1 t c = x := by
  cases hx with
  | centre => exact ⟨0, by omega, 0, by omega, rfl⟩
  | vertex v hv => exact ⟨v, hv, 1, by omega, rfl⟩
  | edge v j hv hj =>
    refine ⟨v, hv, 3 + N1 + j, by omega, ?_⟩
    unfold fanNode
    rw [if_neg (by omega), if_neg (by omega), if_neg (by omega), if_neg (by omega), if_pos (by omega)]
    congr 1
    omega
  | spoke v j hv hj =>
    refine ⟨v, hv, 3 + j, by omega, ?_⟩
    unfold fanNode
    rw [if_neg (by omega), if_neg (by omega), if_neg (by omega), if_pos (by omega)]
    congr 1
    omega
  | inner t j ht hj =>
    refine ⟨t, ht, 3 + 3 * N1 + j, by omega, ?_⟩
    unfold fanNode
    rw [if_neg (by omega), if_neg (by omega), if_neg (by omega), if_neg (by omega), if_neg (by omega), if_neg (by omega)]
    congr 1
    omega

/-- The map holds the numbers of the nodes. -/
structure IsMap (n N1 N2 total : Nat) (M : IMat) (num : FanNode → Nat) : Prop where
  rows : M.rows = n
  cols : M.cols = 3 * (1 + N1) + N2
  ent : ∀ t < n, ∀ c < M.cols, M.ent t c = some (num (fanNode n N1 t c))
  bij : Set.BijOn num {x | IsFanNode n N1 N2 x} {i | i < total}

theorem IsMap.get {n N1 N2 total : Nat} {M : IMat} {num : FanNode → Nat} (h : IsMap n N1 N2 total M num) {t c : Nat} (ht : t < n) (hc : c < 3 * (1 + N1) + N2) :
    M.get t c = .ok (num (fanNode n N1 t c)) := by
  have hc' : c < M.cols := by rw [h.cols]; exact hc
  unfold IMat.get
  rw [if_pos ⟨by rw [h.rows]; exact ht, hc'⟩, h.ent t ht c hc']

theorem IsMap.lt {n N1 N2 total : Nat} {M : IMat} {num : FanNode → Nat} (h : IsMap n N1 N2 total M num) {x : FanNode} (hx : IsFanNode n N1 N2 x) : num x < total :=
  h.bij.1 hx

theorem IsMap.inj {n N1 N2 total : Nat} {M : IMat} {num : FanNode → Nat} (h : IsMap n N1 N2 total M num) {x y : FanNode} (hx : IsFanNode n N1 N2 x)
    (hy : IsFanNode n N1 N2 y) (hxy : num x = num y) : x = y :=
  h.bij.2.1 hx hy hxy

theorem range_split {n a : Nat} {pre post : List Nat} (h : List.range n = pre ++ a :: post) : a = pre.length ∧ a < n ∧ pre = List.range a := by
  have hlen := congrArg List.length h
  rw [List.length_range, List.length_append, List.length_cons] at hlen
  have ha : a = pre.length := by
    have : (List.range n)[pre.length]? = some a := by rw [h]; simp
    rw [List.getElem?_range (by omega)] at this
    exact (Option.some.inj this).symm
  refine ⟨ha, by omega, ?_⟩
  have h1 := congrArg (List.take pre.length) h
  rw [List.take_left, List.take_range, ← ha] at h1
  rw [← h1]
  congr 1
  omega

section Nodes

variable {K : Type} [Field K]

/-- One triangle of `PolygonFineNodes`. -/
theorem nodes_step {n N1 N2 total : Nat} {M : IMat} {num : FanNode → Nat} (hM : IsMap n N1 N2 total M num) (hn : 1 ≤ n) {pt : FanNode → K × K} {t : Nat} (ht : t < n)
    {s : TriSpace K} (hs : ∀ c < 3 * (1 + N1) + N2, triDof s c = .ok (pt (fanNode n N1 t c))) (nodes : List (K × K)) (hl : nodes.length = total) :
    ∃ nodes', (List.range M.cols).foldlM (fun nodes c => do
        let i ← M.get t c
        let p ← triDof s c
        setCol nodes i p) nodes = .ok nodes' ∧ nodes'.length = total ∧
      (∀ c < 3 * (1 + N1) + N2, nodes'[num (fanNode n N1 t c)]? = some (pt (fanNode n N1 t c))) ∧
      ∀ x, IsFanNode n N1 N2 x → nodes[num x]? = some (pt x) → nodes'[num x]? = some (pt x) := by
  obtain ⟨r, hr, h1, h2, h3⟩ := foldlM_inv (fun nodes c => do
        let i ← M.get t c
        let p ← triDof s c
        setCol nodes i p) (fun pre nodes' => nodes'.length = total ∧ (∀ c ∈ pre, nodes'[num (fanNode n N1 t c)]? = some (pt (fanNode n N1 t c))) ∧
      ∀ x, IsFanNode n N1 N2 x → nodes[num x]? = some (pt x) → nodes'[num x]? = some (pt x)) (List.range M.cols) nodes ⟨hl, by simp, fun _ _ h => h⟩ (by
    intro pre a post nodes' hL hinv
    obtain ⟨i1, i2, i3⟩ := hinv
    obtain ⟨hap, hac, hpre⟩ := range_split hL
    rw [hM.cols] at hac
    have hva := fanNode_valid hn ht hac
    have hkey : ∀ x, IsFanNode n N1 N2 x → nodes'[num x]? = some (pt x) → (nodes'.set (num (fanNode n N1 t a)) (pt (fanNode n N1 t a)))[num x]? = some (pt x) := by
      intro x hx hx'
      by_cases he : num (fanNode n N1 t a) = num x
      · have := hM.inj hva hx he
        subst this
        rw [List.getElem?_set_self (by rw [i1]; exact hM.lt hva)]
      · rw [List.getElem?_set_ne he]
        exact hx'
    refine ⟨nodes'.set (num (fanNode n N1 t a)) (pt (fanNode n N1 t a)), ?_, ?_, ?_, ?_⟩
    · rw [hM.get ht hac, except_ok_bind, hs a hac, except_ok_bind]
      unfold setCol
      rw [if_pos (by rw [i1]; exact hM.lt hva)]
    · simpa using i1
    · intro c hc
      rcases List.mem_append.1 hc with h | h
      · have hcl : c < 3 * (1 + N1) + N2 := by
          rw [hpre] at h
          have := List.mem_range.1 h
          omega
        exact hkey _ (fanNode_valid hn ht hcl) (i2 c h)
      · rw [List.mem_singleton.1 h, List.getElem?_set_self (by rw [i1]; exact hM.lt hva)]
    · intro x hx h
      exact hkey x hx (i3 x hx h))
  exact ⟨r, hr, h1, fun c hc => h2 c (List.mem_range.2 (by rw [hM.cols]; exact hc)), h3⟩

theorem zfemNodes_ok {n N1 N2 total : Nat} {M : IMat} {num : FanNode → Nat} (hM : IsMap n N1 N2 total M num) (hn : 1 ≤ n) {pt : FanNode → K × K} {tris : List (TriSpace K)}
    (hs : ∀ t < n, ∃ s, tris[t]? = some s ∧ s.order.length = M.cols ∧ ∀ c < 3 * (1 + N1) + N2, triDof s c = .ok (pt (fanNode n N1 t c))) :
    ∃ nodes, zfemNodes n total tris M = .ok nodes ∧ nodes.length = total ∧ ∀ x, IsFanNode n N1 N2 x → nodes[num x]? = some (pt x) := by
  unfold zfemNodes
  obtain ⟨r, hr, h1, h2⟩ := foldlM_inv (fun nodes t => do
      let s ← unchecked tris t
      if s.order.length = M.cols then
        (List.range M.cols).foldlM (fun nodes c => do
          let i ← M.get t c
          let p ← triDof s c
          setCol nodes i p) nodes
      else .error .undefinedBehaviour) (fun pre nodes => nodes.length = total ∧
      ∀ t ∈ pre, ∀ c < 3 * (1 + N1) + N2, nodes[num (fanNode n N1 t c)]? = some (pt (fanNode n N1 t c))) (List.range n) (List.replicate total ((0 : K), (0 : K)))
    (by simp) (by
    intro pre a post nodes hL hinv
    obtain ⟨i1, i2⟩ := hinv
    obtain ⟨hap, han, hpre⟩ := range_split hL
    obtain ⟨s, hs1, hs2, hs3⟩ := hs a han
    obtain ⟨nodes', hf, j1, j2, j3⟩ := nodes_step hM hn han hs3 nodes i1
    refine ⟨nodes', ?_, j1, ?_⟩
    · rw [(unchecked_ok_iff _ _ _).2 hs1, except_ok_bind, if_pos hs2]
      exact hf
    · intro t ht c hc
      rcases List.mem_append.1 ht with h | h
      · have htn : t < n := by
          rw [hpre] at h
          have := List.mem_range.1 h
          omega
        exact j3 _ (fanNode_valid hn htn hc) (i2 t h c hc)
      · rw [List.mem_singleton.1 h]
        exact j2 c hc)
  refine ⟨r, hr, h1, fun x hx => ?_⟩
  obtain ⟨t, ht, c, hc, rfl⟩ := fanNode_surj hn hx
  exact h2 t (List.mem_range.2 ht) c hc

end Nodes

/-! ## The matrices of values of the triangles -/

section Scatter

variable {K : Type} [Field K]

/-- `F'` is `F` with the values `v` of one triangle in the rows `off, …, off + l - 1`. -/
structure Scattered (C : Nat) (idx : Nat → Nat) (off l : Nat) (v F F' : DMat K) : Prop where
  rows : F'.rows = F.rows
  cols : F'.cols = F.cols
  hit : ∀ q < l, ∀ p < C, F'.ent (off + q) (idx p) = v.ent q p
  miss : ∀ q < l, ∀ i, (∀ p < C, idx p ≠ i) → F'.ent (off + q) i = F.ent (off + q) i
  other : ∀ r, (r < off ∨ off + l ≤ r) → ∀ i, F'.ent r i = F.ent r i

theorem scatter_ok {n N1 N2 total : Nat} {M : IMat} {num : FanNode → Nat} (hM : IsMap n N1 N2 total M num) (hn : 2 ≤ n) {t : Nat} (ht : t < n) {off l : Nat}
    {v F : DMat K} (hv : v.rows = l) (hvc : v.cols = 3 * (1 + N1) + N2) (hF : F.cols = total) (hr : off + l ≤ F.rows) :
    ∃ F', zfemScatter M t off l v F = .ok F' ∧ Scattered (3 * (1 + N1) + N2) (fun p => num (fanNode n N1 t p)) off l v F F' := by
  unfold zfemScatter
  have hfi := fun {p q : Nat} (hp : p < 3 * (1 + N1) + N2) (hq : q < 3 * (1 + N1) + N2) (h : num (fanNode n N1 t p) = num (fanNode n N1 t q)) =>
    fanNode_inj hn ht (hM.inj (fanNode_valid (by omega) ht hp) (fanNode_valid (by omega) ht hq) h)
  obtain ⟨r, hr', h1⟩ := foldlM_inv (fun (F : DMat K) p => do
    let i ← M.get t p
    let col ← v.block 0 p v.rows 1
    F.assign off i l 1 col) (fun pre F' => Scattered pre.length (fun p => num (fanNode n N1 t p)) off l v F F') (List.range M.cols) F
    ⟨rfl, rfl, by simp, fun _ _ _ _ => rfl, fun _ _ _ => rfl⟩ (by
    intro pre a post F' hL hinv
    obtain ⟨hap, hac, hpre⟩ := range_split hL
    rw [hM.cols] at hac
    have hlt := hM.lt (fanNode_valid (by omega) ht hac)
    refine ⟨⟨F'.rows, F'.cols, fun i j => if off ≤ i ∧ i < off + l ∧ num (fanNode n N1 t a) ≤ j ∧ j < num (fanNode n N1 t a) + 1 then
      v.ent (0 + (i - off)) (a + (j - num (fanNode n N1 t a))) else F'.ent i j⟩, ?_, hinv.rows, hinv.cols, ?_, ?_, ?_⟩
    · rw [hM.get ht hac, except_ok_bind, DMat.block_ok _ _ _ _ _ (by omega) (by omega), except_ok_bind,
        DMat.assign_ok _ _ _ _ _ ⟨v.rows, 1, fun i j => v.ent (0 + i) (a + j)⟩ hv rfl (by rw [hinv.rows]; exact hr) (by rw [hinv.cols, hF]; exact hlt)]
    · intro q hq p hp
      rw [List.length_append, List.length_singleton] at hp
      dsimp only
      by_cases hpa : p = a
      · subst hpa
        rw [if_pos (by omega)]
        congr 1 <;> omega
      · rw [if_neg, hinv.hit q hq p (by omega)]
        intro h
        exact hpa (hfi (by omega) hac (by omega))
    · intro q hq i hi
      dsimp only
      rw [if_neg, hinv.miss q hq i fun p hp => hi p (by rw [List.length_append]; omega)]
      intro h
      exact hi a (by rw [List.length_append, List.length_singleton]; omega) (by omega)
    · intro q hq i
      dsimp only
      rw [if_neg (by omega), hinv.other q hq i])
  refine ⟨r, hr', ?_⟩
  rw [List.length_range, hM.cols] at h1
  exact h1

/-- A loop over triangles that scatters the values of each of them. -/
theorem fold_jobs {α : Type} {step : DMat K × Nat → α → Except Fault (DMat K × Nat)} {L : List α} {l : Nat → Nat} {v : Nat → DMat K} {idx : Nat → Nat → Nat} {C R N : Nat}
    (hstep : ∀ (t : Nat) (a : α) (F : DMat K) (off : Nat), L[t]? = some a → F.rows = R → F.cols = N → off + l t ≤ R →
      ∃ F', step (F, off) a = .ok (F', off + l t) ∧ Scattered C (idx t) off (l t) (v t) F F')
    (hR : ∑ t ∈ Finset.range L.length, l t = R) :
    ∃ F, L.foldlM step (DMat.zero R N, 0) = .ok (F, R) ∧ F.rows = R ∧ F.cols = N ∧ ∀ t < L.length, ∀ q < l t,
      (∀ p < C, F.ent (∑ s ∈ Finset.range t, l s + q) (idx t p) = (v t).ent q p) ∧
      ∀ i, (∀ p < C, idx t p ≠ i) → F.ent (∑ s ∈ Finset.range t, l s + q) i = 0 := by
  obtain ⟨⟨F, o⟩, hf, h0, h1, h2, h3, h4⟩ := foldlM_inv step (fun pre s => s.2 = ∑ t ∈ Finset.range pre.length, l t ∧ s.1.rows = R ∧ s.1.cols = N ∧
      (∀ r, s.2 ≤ r → ∀ i, s.1.ent r i = 0) ∧ ∀ t < pre.length, ∀ q < l t,
      (∀ p < C, s.1.ent (∑ s ∈ Finset.range t, l s + q) (idx t p) = (v t).ent q p) ∧
      ∀ i, (∀ p < C, idx t p ≠ i) → s.1.ent (∑ s ∈ Finset.range t, l s + q) i = 0) L (DMat.zero R N, 0)
    ⟨by simp, rfl, rfl, fun _ _ _ => rfl, by simp⟩ (by
    rintro pre a post ⟨F, o⟩ hL ⟨i0, i1, i2, i3, i4⟩
    dsimp only at i0 i1 i2 i3 i4
    have hget : L[pre.length]? = some a := by rw [hL]; simp
    have hle : o + l pre.length ≤ R := by
      rw [i0, ← Finset.sum_range_succ, ← hR, hL]
      refine Finset.sum_le_sum_of_subset (Finset.range_subset_range.2 ?_)
      rw [List.length_append, List.length_cons]
      omega
    obtain ⟨F', hs, hS⟩ := hstep pre.length a F o hget i1 i2 hle
    refine ⟨(F', o + l pre.length), hs, ?_, by rw [hS.rows, i1], by rw [hS.cols, i2], ?_, ?_⟩
    · dsimp only
      rw [List.length_append, List.length_singleton, Finset.sum_range_succ, i0]
    · intro r hr i
      dsimp only at hr ⊢
      rw [hS.other r (Or.inr hr), i3 r (by omega)]
    · intro t ht q hq
      dsimp only
      rw [List.length_append, List.length_singleton] at ht
      by_cases htp : t = pre.length
      · subst htp
        rw [← i0]
        exact ⟨fun p hp => hS.hit q hq p hp, fun i hi => by rw [hS.miss q hq i hi, i3 _ (by omega)]⟩
      · have hlt : ∑ s ∈ Finset.range t, l s + q < o := by
          rw [i0]
          exact prefix_lt (by omega) hq
        obtain ⟨j1, j2⟩ := i4 t (by omega) q hq
        exact ⟨fun p hp => by rw [hS.other _ (Or.inl hlt), j1 p hp], fun i hi => by rw [hS.other _ (Or.inl hlt), j2 i hi]⟩)
  dsimp only at h0 h1 h2 h3 h4
  rw [hR] at h0
  subst h0
  exact ⟨F, hf, h1, h2, h4⟩

end Scatter

end PolyDiM
