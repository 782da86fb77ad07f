import Verif.Lemmas.PlaneDofs
import Verif.Lemmas.PatchLocal

/-!
# Lemmas: the writes of the assembler to the global vectors
-/

namespace PolyDiM

open Spec MvPolynomial MeasureTheory

/-- The writes of a log are the values `val` of the references `refs`; every DOF of these references that satisfies `P` is written. -/
structure Good (data : DOFsData) (P : DOF → Prop) (val : GDOF → ℝ) (log : List (DOF × ℝ)) (refs : List GDOF) : Prop where
  sound : ∀ p ∈ log, ∃ r ∈ refs, lookup data r = some p.1 ∧ p.2 = val r
  cover : ∀ r ∈ refs, ∀ x, lookup data r = some x → P x → ∃ y, (x, y) ∈ log

namespace Good

variable {data : DOFsData} {P : DOF → Prop} {val : GDOF → ℝ}

theorem nil : Good data P val [] [] := ⟨by simp, by simp⟩

theorem append {l l' : List (DOF × ℝ)} {r r' : List GDOF} (h : Good data P val l r) (h' : Good data P val l' r') : Good data P val (l ++ l') (r ++ r') := by
  refine ⟨fun p hp => ?_, fun x hx y hy hP => ?_⟩
  · rcases List.mem_append.1 hp with hp | hp
    · obtain ⟨r, hr, h⟩ := h.sound p hp
      exact ⟨r, List.mem_append_left _ hr, h⟩
    · obtain ⟨r, hr, h⟩ := h'.sound p hp
      exact ⟨r, List.mem_append_right _ hr, h⟩
  · rcases List.mem_append.1 hx with hx | hx
    · obtain ⟨z, hz⟩ := h.cover x hx y hy hP
      exact ⟨z, List.mem_append_left _ hz⟩
    · obtain ⟨z, hz⟩ := h'.cover x hx y hy hP
      exact ⟨z, List.mem_append_right _ hz⟩

theorem flatten {α : Type} (l : List α) (f : α → Except Fault (List (DOF × ℝ))) (g : α → List GDOF)
    (h : ∀ a ∈ l, ∃ log, f a = .ok log ∧ Good data P val log (g a)) : ∃ logs, l.mapM f = .ok logs ∧ Good data P val logs.flatten (l.flatMap g) := by
  induction l with
  | nil => exact ⟨[], rfl, nil⟩
  | cons a l ih =>
    obtain ⟨log, h1, h2⟩ := h a List.mem_cons_self
    obtain ⟨logs, h3, h4⟩ := ih fun a ha => h a (List.mem_cons_of_mem _ ha)
    refine ⟨log :: logs, ?_, ?_⟩
    · rw [List.mapM_cons, h1, except_ok_bind, h3, except_ok_bind]
      rfl
    · rw [List.flatten_cons, List.flatMap_cons]
      exact h2.append h4

end Good

theorem dofWrites_ok (values : List ℝ) (xs : List DOF) : ∀ k, (∀ x ∈ xs, x.type ≠ .unknwon) → k + xs.length ≤ values.length →
    ∃ log, dofWrites values k xs = .ok log ∧ (∀ p ∈ log, ∃ i, xs[i]? = some p.1 ∧ values[k + i]? = some p.2) ∧ ∀ x ∈ xs, ∃ y, (x, y) ∈ log := by
  induction xs with
  | nil => exact fun k _ _ => ⟨[], rfl, by simp, by simp⟩
  | cons x xs ih =>
    intro k ht hl
    obtain ⟨log, h1, h2, h3⟩ := ih (k + 1) (fun y hy => ht y (List.mem_cons_of_mem _ hy)) (by rw [List.length_cons] at hl; omega)
    have hk : k < values.length := by rw [List.length_cons] at hl; omega
    have hu : unchecked values k = .ok values[k] := (unchecked_ok_iff _ _ _).2 (List.getElem?_eq_getElem hk)
    refine ⟨(x, values[k]) :: log, ?_, ?_, ?_⟩
    · rw [dofWrites, if_neg (ht x List.mem_cons_self), hu, except_ok_bind, h1, except_ok_bind]
    · intro p hp
      rcases List.mem_cons.1 hp with rfl | hp
      · exact ⟨0, rfl, List.getElem?_eq_getElem hk⟩
      · obtain ⟨i, hi, hv⟩ := h2 p hp
        exact ⟨i + 1, hi, by rw [← hv]; congr 1; omega⟩
    · intro y hy
      rcases List.mem_cons.1 hy with rfl | hy
      · exact ⟨_, List.mem_cons_self⟩
      · obtain ⟨z, hz⟩ := h3 y hy
        exact ⟨z, List.mem_cons_of_mem _ hz⟩

theorem strongWrites_ok (values : List ℝ) (xs : List DOF) : ∀ k, (∀ x ∈ xs, x.type ≠ .unknwon) → k + xs.length ≤ values.length →
    ∃ log, strongWrites values k xs = .ok log ∧ (∀ p ∈ log, ∃ i, xs[i]? = some ⟨.strong, p.1⟩ ∧ values[k + i]? = some p.2) ∧
      ∀ x ∈ xs, x.type = .strong → ∃ y, (x.globalIndex, y) ∈ log := by
  induction xs with
  | nil => exact fun k _ _ => ⟨[], rfl, by simp, by simp⟩
  | cons x xs ih =>
    intro k ht hl
    obtain ⟨log, h1, h2, h3⟩ := ih (k + 1) (fun y hy => ht y (List.mem_cons_of_mem _ hy)) (by rw [List.length_cons] at hl; omega)
    have hk : k < values.length := by rw [List.length_cons] at hl; omega
    have hu : unchecked values k = .ok values[k] := (unchecked_ok_iff _ _ _).2 (List.getElem?_eq_getElem hk)
    have hx := ht x List.mem_cons_self
    obtain ⟨t, j⟩ := x
    cases t with
    | unknwon => exact absurd rfl hx
    | dof =>
      refine ⟨log, h1, ?_, ?_⟩
      · intro p hp
        obtain ⟨i, hi, hv⟩ := h2 p hp
        exact ⟨i + 1, hi, by rw [← hv]; congr 1; omega⟩
      · intro y hy hs
        rcases List.mem_cons.1 hy with rfl | hy
        · exact absurd hs (by simp)
        · exact h3 y hy hs
    | strong =>
      refine ⟨(j, values[k]) :: log, ?_, ?_, ?_⟩
      · show (do let y ← unchecked values k; let rest ← strongWrites values (k + 1) xs; Except.ok ((j, y) :: rest)) = _
        rw [hu, except_ok_bind, h1, except_ok_bind]
      · intro p hp
        rcases List.mem_cons.1 hp with rfl | hp
        · exact ⟨0, rfl, List.getElem?_eq_getElem hk⟩
        · obtain ⟨i, hi, hv⟩ := h2 p hp
          exact ⟨i + 1, hi, by rw [← hv]; congr 1; omega⟩
      · intro y hy hs
        rcases List.mem_cons.1 hy with rfl | hy
        · exact ⟨_, List.mem_cons_self⟩
        · obtain ⟨z, hz⟩ := h3 y hy hs
          exact ⟨z, List.mem_cons_of_mem _ hz⟩

variable {k : Nat} {mesh : Mesh} {info : MeshInfo} {data : DOFsData}

namespace Handler

/-- All references to the DOFs of one entity. -/
def refs (k d c : Nat) : List GDOF := (List.range (numOf k d)).map fun j => ⟨d, c, j⟩

theorem lookup_cell {d c : Nat} {x : CellDOFs} (hx : (data.dims d).cells[c]? = some x) (j : Nat) : lookup data ⟨d, c, j⟩ = x.dofs[j]? := by
  show ((data.dims d).cells[c]?).bind (fun x => x.dofs[j]?) = _
  rw [hx, Option.bind_some]

/-- The writes to one entity. -/
theorem entity (H : Handler k mesh info data) {d c : Nat} (hd : d ≤ 2) (hc : c < (mesh.markers d).length) (val : GDOF → ℝ) :
    ∃ x, atIdx (data.dims d).cells c = .ok x ∧ x.dofs.length = numOf k d ∧ ∀ (values : List ℝ) (o : Nat), o + numOf k d ≤ values.length →
      (∀ j < numOf k d, values[o + j]? = some (val ⟨d, c, j⟩)) →
      (∃ log, dofWrites values o x.dofs = .ok log ∧ Good data (fun _ => True) val log (refs k d c)) ∧
      ∃ log, strongWrites values o x.dofs = .ok log ∧ Good data (fun x => x.type = .strong) val (log.map fun p => (⟨.strong, p.1⟩, p.2)) (refs k d c) := by
  obtain ⟨x, b, hx, -, -, hl, ht⟩ := H.cell d hd c hc
  have hknown : ∀ y ∈ x.dofs, y.type ≠ .unknwon := by
    intro y hy
    obtain ⟨j, hj⟩ := List.mem_iff_getElem?.1 hy
    exact H.known ⟨d, c, j⟩ y (by rw [lookup_cell hx, hj])
  have hmem : ∀ j y, x.dofs[j]? = some y → (⟨d, c, j⟩ : GDOF) ∈ refs k d c := by
    intro j y hy
    have := (List.getElem?_eq_some_iff.1 hy).1
    exact List.mem_map.2 ⟨j, List.mem_range.2 (by omega), rfl⟩
  have hin : ∀ r ∈ refs k d c, ∀ y, lookup data r = some y → y ∈ x.dofs := by
    intro r hr y hy
    obtain ⟨j, -, rfl⟩ := List.mem_map.1 hr
    rw [lookup_cell hx] at hy
    exact List.mem_of_getElem? hy
  refine ⟨x, (atIdx_ok_iff _ _ _).2 hx, hl, fun values o hlen hval => ⟨?_, ?_⟩⟩
  · obtain ⟨log, h1, h2, h3⟩ := dofWrites_ok values x.dofs o hknown (by omega)
    refine ⟨log, h1, fun p hp => ?_, fun r hr y hy _ => h3 y (hin r hr y hy)⟩
    obtain ⟨i, hi, hv⟩ := h2 p hp
    have hlt := (List.getElem?_eq_some_iff.1 hi).1
    rw [hval i (by omega)] at hv
    exact ⟨_, hmem i _ hi, by rw [lookup_cell hx, hi], (Option.some.inj hv).symm⟩
  · obtain ⟨log, h1, h2, h3⟩ := strongWrites_ok values x.dofs o hknown (by omega)
    refine ⟨log, h1, fun p hp => ?_, fun r hr y hy hs => ?_⟩
    · obtain ⟨p, hq, rfl⟩ := List.mem_map.1 hp
      obtain ⟨i, hi, hv⟩ := h2 p hq
      have hlt := (List.getElem?_eq_some_iff.1 hi).1
      rw [hval i (by omega)] at hv
      exact ⟨_, hmem i _ hi, by rw [lookup_cell hx, hi], (Option.some.inj hv).symm⟩
    · obtain ⟨z, hz⟩ := h3 y (hin r hr y hy) hs
      refine ⟨z, List.mem_map.2 ⟨_, hz, ?_⟩⟩
      obtain ⟨t, i⟩ := y
      dsimp only at hs
      rw [hs]

theorem vertices (H : Handler k mesh info data) (val : GDOF → ℝ) (values : List ℝ) (vs : List Nat) (hvs : ∀ v ∈ vs, v < (mesh.markers 0).length) :
    ∀ o, o + vs.length ≤ values.length → (∀ i v, vs[i]? = some v → values[o + i]? = some (val ⟨0, v, 0⟩)) →
    ∃ log, vertexWrites data values o vs = .ok log ∧ Good data (fun _ => True) val log (vs.map fun v => ⟨0, v, 0⟩) := by
  induction vs with
  | nil => exact fun o _ _ => ⟨[], rfl, Good.nil⟩
  | cons v vs ih =>
    intro o hlen hval
    obtain ⟨x, hx, hl, h⟩ := H.entity (Nat.zero_le 2) (hvs v List.mem_cons_self) val
    have h1 : numOf k 0 = 1 := rfl
    rw [List.length_cons] at hlen
    obtain ⟨⟨log, hlog, hgood⟩, -⟩ := h values o (by omega) (by
      intro j hj
      obtain rfl : j = 0 := by omega
      exact hval 0 v rfl)
    obtain ⟨rest, hrest, hgood'⟩ := ih (fun v hv => hvs v (List.mem_cons_of_mem _ hv)) (o + 1) (by omega) (by
      intro i v hv
      rw [← hval (i + 1) v hv]
      congr 1
      omega)
    refine ⟨log ++ rest, ?_, ?_⟩
    · show (do
          let x ← atIdx (data.dims 0).cells v
          let w ← dofWrites values o x.dofs
          let rest ← vertexWrites data values (o + x.dofs.length) vs
          Except.ok (w ++ rest)) = _
      rw [hx, except_ok_bind, hlog, except_ok_bind, hl, h1, hrest, except_ok_bind]
    · exact hgood.append hgood'

/-- The write of one DOF. -/
theorem write (H : Handler k mesh info data) (v : OnDofs ℝ) (hf : v.free.length = data.counters.dofs) (hs : v.strong.length = data.counters.strongs)
    {r : GDOF} {x : DOF} (hr : lookup data r = some x) (y : ℝ) :
    ∃ v', writeDof v (x, y) = .ok v' ∧ v'.free.length = data.counters.dofs ∧ v'.strong.length = data.counters.strongs ∧
      (∀ r' x', lookup data r' = some x' → valueOf data v'.free v'.strong r' = if x' = x then y else valueOf data v.free v.strong r') ∧
      (x.type = .strong → v'.free = v.free) := by
  have ht := H.known r x hr
  obtain ⟨t, i⟩ := x
  cases t with
  | unknwon => exact absurd rfl ht
  | dof =>
    have hi := H.free r i hr
    have hw : writeAt v.free i y = .ok (v.free.set i y) := if_pos (by omega)
    refine ⟨⟨v.free.set i y, v.strong⟩, ?_, by simpa using hf, hs, ?_, fun h => absurd h (by simp)⟩
    · show (do let x ← writeAt v.free i y; Except.ok (⟨x, v.strong⟩ : OnDofs ℝ)) = _
      rw [hw, except_ok_bind]
    · intro r' x' hx'
      rw [valueOf, valueOf, hx']
      obtain ⟨t', i'⟩ := x'
      cases t' with
      | unknwon => simp
      | strong => simp
      | dof =>
        simp only [DOF.mk.injEq, true_and, List.getD_eq_getElem?_getD, List.getElem?_set]
        by_cases h : i = i'
        · subst h; simp [hf, hi]
        · simp [h, Ne.symm h]
  | strong =>
    have hi := H.strong r i hr
    have hw : writeAt v.strong i y = .ok (v.strong.set i y) := if_pos (by omega)
    refine ⟨⟨v.free, v.strong.set i y⟩, ?_, hf, by simpa using hs, ?_, fun _ => rfl⟩
    · show (do let x ← writeAt v.strong i y; Except.ok (⟨v.free, x⟩ : OnDofs ℝ)) = _
      rw [hw, except_ok_bind]
    · intro r' x' hx'
      rw [valueOf, valueOf, hx']
      obtain ⟨t', i'⟩ := x'
      cases t' with
      | unknwon => simp
      | dof => simp
      | strong =>
        simp only [DOF.mk.injEq, true_and, List.getD_eq_getElem?_getD, List.getElem?_set]
        by_cases h : i = i'
        · subst h; simp [hs, hi]
        · simp [h, Ne.symm h]

/-- The writes of a whole log. -/
theorem writes (H : Handler k mesh info data) {val : GDOF → ℝ} (log : List (DOF × ℝ)) :
    ∀ v : OnDofs ℝ, v.free.length = data.counters.dofs → v.strong.length = data.counters.strongs → (∀ p ∈ log, ∃ r, lookup data r = some p.1 ∧ p.2 = val r) →
    ∃ v', log.foldlM writeDof v = .ok v' ∧ v'.free.length = data.counters.dofs ∧ v'.strong.length = data.counters.strongs ∧
      (∀ r x y, lookup data r = some x → (x, y) ∈ log → valueOf data v'.free v'.strong r = val r) ∧
      ∀ r x, lookup data r = some x → (∀ y, (x, y) ∉ log) → valueOf data v'.free v'.strong r = valueOf data v.free v.strong r := by
  induction log with
  | nil => exact fun v hf hs _ => ⟨v, rfl, hf, hs, by simp, fun _ _ _ _ => rfl⟩
  | cons p log ih =>
    intro v hf hs hlog
    obtain ⟨x, y⟩ := p
    obtain ⟨r, hr, hy⟩ := hlog (x, y) List.mem_cons_self
    dsimp only at hr hy
    obtain ⟨v1, hw, hf1, hs1, hv1, -⟩ := H.write v hf hs hr y
    obtain ⟨v', h1, h2, h3, h4, h5⟩ := ih v1 hf1 hs1 fun p hp => hlog p (List.mem_cons_of_mem _ hp)
    refine ⟨v', ?_, h2, h3, ?_, ?_⟩
    · rw [List.foldlM_cons, hw, except_ok_bind, h1]
    · intro r' x' y' hr' hmem
      by_cases hin : ∃ z, (x', z) ∈ log
      · obtain ⟨z, hz⟩ := hin
        exact h4 r' x' z hr' hz
      · push Not at hin
        rcases List.mem_cons.1 hmem with heq | hmem
        · obtain rfl : x' = x := congrArg Prod.fst heq
          rw [h5 r' x' hr' hin, hv1 r' x' hr', if_pos rfl, hy, H.inj r r' x' hr hr' (H.known r x' hr)]
        · exact absurd hmem (hin _)
    · intro r' x' hr' hnot
      rw [h5 r' x' hr' fun z hz => hnot z (List.mem_cons_of_mem _ hz), hv1 r' x' hr', if_neg]
      rintro rfl
      exact hnot y List.mem_cons_self

end Handler

theorem fold_strong (F : List ℝ) (log : List (Nat × ℝ)) : ∀ v : List ℝ,
    (log.map fun p => ((⟨.strong, p.1⟩, p.2) : DOF × ℝ)).foldlM writeDof ⟨F, v⟩
      = log.foldlM (fun v w => writeAt v w.1 w.2) v >>= fun x => .ok ⟨F, x⟩ := by
  induction log with
  | nil => intro v; rfl
  | cons p log ih =>
    intro v
    rw [List.map_cons, List.foldlM_cons, List.foldlM_cons]
    show ((writeAt v p.1 p.2 >>= fun x => Except.ok (⟨F, x⟩ : OnDofs ℝ)) >>= _) = _
    cases h : writeAt v p.1 p.2 with
    | error e => rfl
    | ok x =>
      rw [except_ok_bind, except_ok_bind, except_ok_bind]
      exact ih x

section
variable {n : Nat} {V : Nat → ℝ × ℝ} {len : Nat → ℝ} {dir : Nat → Bool} {nrm : Nat → ℝ × ℝ} {poly : VemPolygon ℝ}
  {triangle : Nat → Rule (ℝ × ℝ) ℝ} {edge : Nat → Rule ℝ ℝ} {ts ws : List ℝ} {w : ℝ} {lu llt : Solver ℝ}

theorem ref_ts (hT : IsTables k triangle edge ts ws w) {ref : VemRef2D ℝ} (hr : vemRef2D triangle edge k = .ok ref) : ref.ts = ts := by
  rw [vemRef_ok hT] at hr
  cases hr
  rfl

theorem vemEdgeCoords_ok (hE : IsElement poly n V len dir nrm) (ts : List ℝ) {e : Nat} (he : e < n) :
    vemEdgeCoords ts poly.edges e = .ok (ts.map (segPoint (polyEdge n V (dir e) e).1 (polyEdge n V (dir e) e).2)) := by
  unfold vemEdgeCoords
  split_ifs with h
  · rw [List.length_eq_zero_iff.1 h]; rfl
  · have hn : (e + 1) % n < n := Nat.mod_lt _ (by omega)
    have h1 : atIdx poly.edges.dirs e = .ok (dir e) := by
      rw [hE.edges.dirs, atIdx_ok_iff]; simp [he]
    rw [h1, except_ok_bind, hE.edges.vertices, List.length_map, List.length_range, hE.edges.tangents]
    have h2 : ∀ i < n, unchecked ((List.range n).map V) i = .ok (V i) := fun i hi => unchecked_map_range V n i hi
    rw [h2 _ (by split_ifs <;> omega), except_ok_bind, unchecked_map_range _ n e he, except_ok_bind]
    refine congrArg Except.ok (List.map_congr_left fun t _ => ?_)
    unfold polyEdge segPoint
    split_ifs
    · ext <;> simp <;> ring
    · ext <;> simp <;> ring

theorem create_init {ref : VemRef2D ℝ} {s : VemSpace2D ℝ} (h : vemCreate2D lu llt ref poly = .ok s) : s.init.nkm2 = (ref.order - 1) * ref.order / 2 := by
  unfold vemCreate2D at h
  obtain ⟨i, -, h⟩ := (bind_ok_iff _ _ _).1 h
  obtain ⟨b, hb, h⟩ := (bind_ok_iff _ _ _).1 h
  obtain ⟨x0, hx, h⟩ := (bind_ok_iff _ _ _).1 h
  obtain ⟨x, -, h⟩ := (bind_ok_iff _ _ _).1 h
  obtain ⟨x, -, h⟩ := (bind_ok_iff _ _ _).1 h
  obtain ⟨x, -, h⟩ := (bind_ok_iff _ _ _).1 h
  obtain ⟨x, -, h⟩ := (bind_ok_iff _ _ _).1 h
  obtain ⟨x, -, h⟩ := (bind_ok_iff _ _ _).1 h
  cases h
  dsimp only
  unfold vemInit2D at hx
  obtain ⟨x, -, hx⟩ := (bind_ok_iff _ _ _).1 hx
  obtain ⟨x, -, hx⟩ := (bind_ok_iff _ _ _).1 hx
  obtain ⟨x, -, hx⟩ := (bind_ok_iff _ _ _).1 hx
  obtain ⟨x, -, hx⟩ := (bind_ok_iff _ _ _).1 hx
  obtain ⟨x, -, hx⟩ := (bind_ok_iff _ _ _).1 hx
  obtain ⟨x, -, hx⟩ := (bind_ok_iff _ _ _).1 hx
  obtain ⟨x, -, hx⟩ := (bind_ok_iff _ _ _).1 hx
  obtain ⟨x, -, hx⟩ := (bind_ok_iff _ _ _).1 hx
  cases hx
  rfl

/-- The moments of a function. -/
theorem vemInternalDofs_ok (hT : IsTables k triangle edge ts ws w) {ref : VemRef2D ℝ} {s : VemSpace2D ℝ}
    (hr : vemRef2D triangle edge k = .ok ref) (hc : vemCreate2D lu llt ref poly = .ok s) (hs : SpaceOk k n V len dir ts ws w poly s) (f : ℝ × ℝ → ℝ) :
    ∃ l, vemInternalDofs poly s (evalScalar s.internal.points f) s.internal = .ok l ∧ l.length = k * (k - 1) / 2 ∧
      ∀ a b, a + b + 2 ≤ k → l.getD (position a b) 0
        = 1 / poly.measure * quadSum s.internal.points s.internal.weights fun p => scaledMonomial poly.centroid poly.diameter a b p * f p := by
  have hnk : s.init.nkm2 = tri (k - 1) := by
    rw [create_init hc]
    rw [vemRef_ok hT] at hr
    cases hr
    dsimp only
    rw [mul_comm, half_tri]
  have hle : tri (k - 1) ≤ tri (k + 1) := tri_le (by omega)
  have hV := hs.init.vanderInt
  unfold vemInternalDofs
  rw [hnk, DMat.block_ok _ _ _ _ _ (by omega) (by rw [hV.cols]; omega), except_ok_bind,
    DMat.mulDiag_ok _ _ (by show s.init.vanderInt.rows = _; rw [hV.rows, hs.rules.wlen]), except_ok_bind,
    DMat.mul_ok _ _ (by show s.init.vanderInt.rows = (evalScalar _ _).length; rw [hV.rows, evalScalar, List.length_map]), except_ok_bind]
  refine ⟨_, rfl, ?_, ?_⟩
  · simp [DMat.toList, DMat.tr, DMat.smul, half_tri]
  · intro a b hab
    have hp : position a b < tri (k - 1) := by
      have := (position_lt (k := k - 2) (a := a) (b := b)).2 (by omega)
      rwa [show k - 2 + 1 = k - 1 by omega] at this
    rw [DMat.toList, List.getD_eq_getElem?_getD, List.getElem?_map, List.getElem?_range (by exact hp), Option.map_some, Option.getD_some]
    show ∑ i ∈ Finset.range s.init.vanderInt.rows, (1 / poly.measure * s.init.vanderInt.ent (0 + i) (0 + position a b)) * s.internal.weights.getD i 0
      * (evalScalar s.internal.points f).getD i 0 = _
    rw [hV.rows, ← sum_quadSum s.internal.points s.internal.weights hs.rules.wlen
      (fun i => s.init.vanderInt.ent i (position a b) * (evalScalar s.internal.points f).getD i 0), Finset.mul_sum]
    · refine Finset.sum_congr rfl fun i _ => ?_
      rw [zero_add, zero_add]
      ring
    · intro i p hip
      rw [hV.ent i p hip _ (by omega), ev2_basis_position k _ _ (by omega), evalScalar, List.getD_eq_getElem?_getD, List.getElem?_map, hip]
      rfl

end

end PolyDiM
