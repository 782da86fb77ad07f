import Verif.Props.AssemblerElliptic2D
import Verif.Props.PatchTest2D
import Verif.Lemmas.MixedGlobal

/-!
# Lemmas: the global system of the advection-diffusion example
-/

namespace PolyDiM

open Spec MvPolynomial

/-- Matrix and right-hand side assembled in the same calls. -/
theorem assembleAll_split {data : DOFsData} (cells : List Nat) (A b : Nat → DMat ℝ) {S R : Sys ℝ}
    (hS : assembleAll 2 .empty (cells.map fun c => (⟨c, oneField data, some (oneField data, (A c).toLMat), none⟩ : Call ℝ)) = .ok S)
    (hR : assembleAll 2 .empty (cells.map fun c => (⟨c, oneField data, none, some (b c).toList⟩ : Call ℝ)) = .ok R) :
    assembleAll 2 .empty (cells.map fun c => (⟨c, oneField data, some (oneField data, (A c).toLMat), some (b c).toList⟩ : Call ℝ)) = .ok ⟨S.lhsDOFs, S.lhsStrongs, R.rhs⟩ := by
  rw [assembleAll_iff] at hS hR ⊢
  obtain ⟨h1, rfl⟩ := hS
  obtain ⟨h2, rfl⟩ := hR
  refine ⟨?_, ?_⟩
  · intro q hq
    obtain ⟨c, hc, rfl⟩ := List.mem_map.1 hq
    obtain ⟨t1, r1⟩ := h1 _ (List.mem_map.2 ⟨c, hc, rfl⟩)
    obtain ⟨-, r2⟩ := h2 _ (List.mem_map.2 ⟨c, hc, rfl⟩)
    exact ⟨t1, fun a ha => ⟨(r1 a ha).1, fun hd => ⟨((r2 a ha).2 hd).1, ((r1 a ha).2 hd).2⟩⟩⟩
  · have key : ∀ (l : List Nat) (a c : Sys ℝ),
        (⟨((l.map fun c => (⟨c, oneField data, some (oneField data, (A c).toLMat), none⟩ : Call ℝ)).map (cellSys 2)).foldl Sys.app a |>.lhsDOFs,
          ((l.map fun c => (⟨c, oneField data, some (oneField data, (A c).toLMat), none⟩ : Call ℝ)).map (cellSys 2)).foldl Sys.app a |>.lhsStrongs,
          ((l.map fun c => (⟨c, oneField data, none, some (b c).toList⟩ : Call ℝ)).map (cellSys 2)).foldl Sys.app c |>.rhs⟩ : Sys ℝ)
        = ((l.map fun c => (⟨c, oneField data, some (oneField data, (A c).toLMat), some (b c).toList⟩ : Call ℝ)).map (cellSys 2)).foldl Sys.app ⟨a.lhsDOFs, a.lhsStrongs, c.rhs⟩ := by
      intro l
      induction l with
      | nil => intro a c; rfl
      | cons d l ih =>
        intro a c
        simp only [List.map_cons, List.foldl_cons]
        rw [ih]
        congr 1
        simp only [Sys.app, Sys.mk.injEq, List.append_cancel_left_eq]
        unfold cellSys rowsSys
        refine ⟨List.flatMap_congr fun x _ => ?_, List.flatMap_congr fun x _ => ?_, List.flatMap_congr fun x _ => ?_⟩ <;>
        · unfold rowSys
          split_ifs <;> rfl
    exact key cells .empty .empty

theorem mapM_inv {α β : Type} [Inhabited β] {f : α → Except Fault β} : ∀ {l : List α} {r : List β}, l.mapM f = .ok r → ∃ g : α → β, (∀ a ∈ l, f a = .ok (g a)) ∧ r = l.map g := by
  intro l r h
  have hex : ∀ (l : List α) (r : List β), l.mapM f = .ok r → ∀ a ∈ l, ∃ b, f a = .ok b := by
    intro l
    induction l with
    | nil => intro r _ a ha; simp at ha
    | cons x l ih =>
      intro r h a ha
      rw [List.mapM_cons] at h
      obtain ⟨b, hb, h⟩ := (bind_ok_iff _ _ _).1 h
      obtain ⟨bs, hbs, -⟩ := (bind_ok_iff _ _ _).1 h
      rcases List.mem_cons.1 ha with rfl | ha
      · exact ⟨b, hb⟩
      · exact ih bs hbs a ha
  choose! g hg using hex l r h
  exact ⟨g, hg, Except.ok.inj (h.symm.trans (mapM_ok f g l hg))⟩

section

variable {k : Nat} {mesh : PlaneMesh ℝ} {lu llt : Solver ℝ} {ref : VemRef2D ℝ} {poly : Nat → VemPolygon ℝ} {info : MeshInfo} {data : DOFsData}

theorem flatten_nil {α β : Type} (l : List α) (g : α → List β) (h : ∀ a ∈ l, g a = []) : (l.map g).flatten = [] := by
  induction l with
  | nil => rfl
  | cons a l ih =>
    rw [List.map_cons, List.flatten_cons, h a (by simp), List.nil_append, ih fun b hb => h b (by simp [hb])]

/-- The strong term of one cell is that of `assemble_strong_solution`. -/
theorem strong_same (H : Handler k mesh.topo info data) (hdata : createDOFs 2 info mesh.topo = .ok data) {test : EllipticTest ℝ} {c : Nat} (hc : c < mesh.num2D) {s : VemSpace2D ℝ}
    (hs : vemCreate2D lu llt ref (poly c) = .ok s) {l : List (Nat × ℝ)} (hl : strongCell info data k (vemSpaces lu llt ref poly) mesh test.strong c = .ok l) :
    ellipticStrong info data (vemEllipticCell ref (poly c) s) mesh test c = .ok l := by
  have hsp : vemSpaces lu llt ref poly c = .ok (vemCell2D ref (poly c) s) := by rw [vemSpaces, hs, except_ok_bind]
  obtain ⟨vs, hvs, hl⟩ := (bind_ok_iff _ _ _).1 hl
  have hes : ∃ es, (mesh.topo.cell2DEdges c).zipIdx.mapM (strongEdge info data (vemCell2D ref (poly c) s) test.strong) = .ok es ∧ l = vs.flatten ++ es.flatten := by
    split_ifs at hl with hk
    · rw [hsp, except_ok_bind] at hl
      obtain ⟨es, hes, hl⟩ := (bind_ok_iff _ _ _).1 hl
      exact ⟨es, hes, (Except.ok.inj hl).symm⟩
    · refine ⟨_, mapM_ok _ (fun _ => []) _ fun e he => ?_, ?_⟩
      · obtain ⟨x, b, hx, hb, -, hlen, -⟩ := H.cell 1 (by norm_num) e.1 (H.edges c hc _ (List.fst_mem_of_mem_zipIdx he))
        rw [strongEdge, atIdx, hb]
        simp only [except_ok_bind]
        rw [atIdx, hx]
        simp only [except_ok_bind]
        rw [if_pos (Or.inr (by rw [hlen]; simp only [numOf, one_ne_zero, if_false, if_true]; omega))]
      · rw [flatten_nil _ _ fun _ _ => rfl, List.append_nil]
        exact (Except.ok.inj hl).symm
  obtain ⟨es, hes, rfl⟩ := hes
  obtain ⟨g, hg⟩ := Option.isSome_iff_exists.1 (H.exist c hc)
  unfold ellipticStrong
  have hg' : (data.dims 2).globals[c]? = some g := hg
  rw [atIdx, hg']
  simp only [except_ok_bind]
  split_ifs with h0
  · -- no strong DOF in the closure of the cell
    obtain ⟨gv, hgv, rfl⟩ := mapM_inv hvs
    obtain ⟨ge, hge, rfl⟩ := mapM_inv hes
    have hlist : g.gdofs = vemList k mesh.topo c := by
      have := H.list c hc
      rw [cellList, hg] at this
      simpa using this
    have hcount := (((C06_cell_list 2 info mesh.topo data hdata 2 c).2 g hg).2.2.2)
    rw [h0, hlist] at hcount
    have hno : ∀ r ∈ vemList k mesh.topo c, (lookup data r).map DOF.type ≠ some .strong := by
      intro r hr h
      have := List.countP_eq_zero.1 hcount.symm r hr
      simp [h] at this
    rw [flatten_nil, flatten_nil, List.append_nil]
    · intro e he
      have hem := List.fst_mem_of_mem_zipIdx he
      have h1 := hge e he
      obtain ⟨x, b, hx, hb, -, hlen, hty⟩ := H.cell 1 (by norm_num) e.1 (H.edges c hc _ hem)
      rw [strongEdge, atIdx, hb] at h1
      simp only [except_ok_bind] at h1
      rw [atIdx, hx] at h1
      simp only [except_ok_bind] at h1
      split_ifs at h1 with h2
      · exact (Except.ok.inj h1).symm
      · exfalso
        push Not at h2
        have hpos : 0 < x.dofs.length := Nat.pos_of_ne_zero h2.2
        refine hno ⟨1, e.1, 0⟩ ?_ ?_
        · refine List.mem_append_left _ (List.mem_append_right _ (List.mem_flatMap.2 ⟨e.1, hem, List.mem_map.2 ⟨0, ?_, rfl⟩⟩))
          rw [hlen] at hpos
          exact List.mem_range.2 (by simpa [numOf] using hpos)
        · rw [lookup, dofAt, hx]
          have h3 := List.getElem?_eq_getElem hpos
          simp only [Option.bind_some, h3, Option.map_some]
          rw [hty _ (List.getElem_mem hpos), h2.1]
          rfl
    · intro v hv
      have h1 := hgv v hv
      obtain ⟨x, b, hx, hb, -, hlen, hty⟩ := H.cell 0 (by norm_num) v (H.verts c hc _ hv)
      rw [strongVertex, atIdx, hb] at h1
      simp only [except_ok_bind] at h1
      split_ifs at h1 with h2
      · exact (Except.ok.inj h1).symm
      · exfalso
        push Not at h2
        have hpos : 0 < x.dofs.length := by rw [hlen]; simp [numOf]
        refine hno ⟨0, v, 0⟩ (List.mem_append_left _ (List.mem_append_left _ (List.mem_map.2 ⟨v, hv, rfl⟩))) ?_
        rw [lookup, dofAt, hx]
        have h3 := List.getElem?_eq_getElem hpos
        simp only [Option.bind_some, h3, Option.map_some]
        rw [hty _ (List.getElem_mem hpos), h2]
        rfl
  · rw [hvs, except_ok_bind]
    show (do let es ← (mesh.topo.cell2DEdges c).zipIdx.mapM (strongEdge info data (vemCell2D ref (poly c) s) test.strong); Except.ok (vs.flatten ++ es.flatten)) = _
    rw [hes, except_ok_bind]

/-- The weak term of one cell is that of `assemble_weak_term`. -/
theorem weak_same (H : Handler k mesh.topo info data) (hdata : createDOFs 2 info mesh.topo = .ok data) {gauss : Nat → Rule ℝ ℝ} {g : PolyEdges ℝ} {test : EllipticTest ℝ} {c : Nat}
    (hc : c < mesh.num2D) {s : VemSpace2D ℝ} {es : List (List (Nat × ℝ))}
    (hes : (List.range g.vertices.length).mapM (weakEdge info data (gauss (u32 (2 * k))) g (vemCell2D ref (poly c) s) mesh test.weak c) = .ok es) :
    ellipticWeak info data k gauss g (vemEllipticCell ref (poly c) s) mesh test c = .ok es.flatten := by
  obtain ⟨x, hx⟩ := Option.isSome_iff_exists.1 (H.exist c hc)
  have hx' : (data.dims 2).globals[c]? = some x := hx
  unfold ellipticWeak
  rw [atIdx, hx']
  simp only [except_ok_bind]
  split_ifs with hb
  · show (do let es ← (List.range g.vertices.length).mapM (weakEdge info data (gauss (u32 (2 * k))) g (vemCell2D ref (poly c) s) mesh test.weak c); Except.ok es.flatten) = _
    rw [hes, except_ok_bind]
  · have hno := fun h => hb (((C08_flags_partial 2 info mesh.topo data hdata 2 c x hx).2).2 h)
    obtain ⟨ge, hge, rfl⟩ := mapM_inv hes
    rw [flatten_nil]
    intro e he
    have h1 := hge e he
    obtain ⟨E, hE, h1⟩ := (bind_ok_iff _ _ _).1 h1
    have hE' := (unchecked_ok_iff _ _ _).1 hE
    have hEm := List.mem_of_getElem? hE'
    obtain ⟨-, b, -, hbi, -⟩ := H.cell 1 (by norm_num) E (H.edges c hc _ hEm)
    rw [atIdx, hbi] at h1
    simp only [except_ok_bind] at h1
    split_ifs at h1 with h2
    · exact (Except.ok.inj h1).symm
    · exfalso
      push Not at h2
      exact hno ⟨(1, E), by simp [Spec.closure, hEm], rfl, Or.inl (by rw [bTypeOf, hbi, Option.map_some, h2])⟩

end

section

variable {k n : Nat} {poly : VemPolygon ℝ} {V : Nat → ℝ × ℝ} {len : Nat → ℝ} {dir : Nat → Bool} {nrm : Nat → ℝ × ℝ} {triangle : Nat → Rule (ℝ × ℝ) ℝ} {edge : Nat → Rule ℝ ℝ}
  {ts ws : List ℝ} {w : ℝ} {lu llt : Solver ℝ}

/-- The residual of a polynomial on one cell, for a constant diffusion: only the boundary terms of the flux remain. -/
theorem elliptic_residual (hE : IsElement poly n V len dir nrm) (hT : IsTables k triangle edge ts ws w) (hlu : SolvesRegular lu) (hllt : SolvesPosDef llt) (hpos : 0 < poly.measure)
    (config : EllipticConfig ℝ) (h κ : ℝ) {test : EllipticTest ℝ} {q F₁ F₂ : MvPolynomial (Fin 2) ℝ} (hq : q.totalDegree ≤ k) (hF₁ : F₁ = C κ * pderiv 0 q) (hF₂ : F₂ = C κ * pderiv 1 q)
    (hdiff : ∀ p, test.diffusion p = κ) (hsrc : ∀ p, test.source p = -(κ * eval ![p.1, p.2] (pderiv 0 (pderiv 0 q) + pderiv 1 (pderiv 1 q)))
      + (test.advection p 0 * eval ![p.1, p.2] (pderiv 0 q) + test.advection p 1 * eval ![p.1, p.2] (pderiv 1 q))) :
    ∃ ref s, vemRef2D triangle edge k = .ok ref ∧ vemCreate2D lu llt ref poly = .ok s ∧
      ((config.supg = true → advectionSquare s.internal test.advection ≠ 0) →
        ∃ l, ellipticLocal config (vemEllipticCell ref poly s) h test = .ok l ∧ l.matrix.rows = n + n * (k - 1) + k * (k - 1) / 2 ∧
          l.matrix.cols = n + n * (k - 1) + k * (k - 1) / 2 ∧ l.rhs.rows = n + n * (k - 1) + k * (k - 1) / 2 ∧
          ∀ y, IsDofVector k poly n V dir ts (fun p => eval ![p.1, p.2] q) y → ∀ v : Nat → ℝ,
            ∑ i ∈ Finset.range (n + n * (k - 1) + k * (k - 1) / 2), v i * (apply l.matrix y i - l.rhs.ent i 0)
              = ∑ e ∈ Finset.range n, ((clockwise (V ((e + 1) % n) - V e)).1 *
                  nodeSum ts ws w (fun t => eval ![(segPoint (polyEdge n V (dir e) e).1 (polyEdge n V (dir e) e).2 t).1, (segPoint (polyEdge n V (dir e) e).1 (polyEdge n V (dir e) e).2 t).2] F₁)
                    (v (startOf n (dir e) e)) (v (stopOf n (dir e) e)) (fun r => v (n + e * (k - 1) + r))
                + (clockwise (V ((e + 1) % n) - V e)).2 *
                  nodeSum ts ws w (fun t => eval ![(segPoint (polyEdge n V (dir e) e).1 (polyEdge n V (dir e) e).2 t).1, (segPoint (polyEdge n V (dir e) e).1 (polyEdge n V (dir e) e).2 t).2] F₂)
                    (v (startOf n (dir e) e)) (v (stopOf n (dir e) e)) (fun r => v (n + e * (k - 1) + r)))) := by
  set K : Nat → ℝ := fun c => if c = 0 ∨ c = 4 then κ else 0 with hK
  have hF₁' : F₁ = C (K 0) * pderiv 0 q + C (K 3) * pderiv 1 q := by simp [hK, hF₁]
  have hF₂' : F₂ = C (K 1) * pderiv 0 q + C (K 4) * pderiv 1 q := by simp [hK, hF₂]
  obtain ⟨ref, s, hr, hc, hs, hl⟩ := vem_residual hE hT hlu hllt hpos
  obtain ⟨r1, s1, A, b, hr1, hc1, hA, hb, hAr, -, -, -, hres⟩ := local_residual hE hT hlu hllt hpos K hq hF₁' hF₂'
  obtain ⟨r2, s2, A', S, K', hr2, hc2, -, hA', -, -, hS, -, hSr, -, he⟩ := vem_energy hE hT hlu hllt hpos fun _ => K
  obtain ⟨r3, s3, b', hr3, hc3, hb', -, -, hbe⟩ := source_form hE hT hlu hllt fun p => -(eval ![p.1, p.2] (pderiv 0 F₁) + eval ![p.1, p.2] (pderiv 1 F₂))
  obtain ⟨r4, s4, hr4, hc4, -, -, -, -, hex⟩ := C71_derivatives hE hT hlu hllt
  obtain rfl : r1 = ref := Except.ok.inj (hr1.symm.trans hr)
  obtain rfl : r2 = r1 := Except.ok.inj (hr2.symm.trans hr)
  obtain rfl : r3 = r2 := Except.ok.inj (hr3.symm.trans hr)
  obtain rfl : r4 = r3 := Except.ok.inj (hr4.symm.trans hr)
  obtain rfl : s1 = s := Except.ok.inj (hc1.symm.trans hc)
  obtain rfl : s2 = s1 := Except.ok.inj (hc2.symm.trans hc)
  obtain rfl : s3 = s2 := Except.ok.inj (hc3.symm.trans hc)
  obtain rfl : s4 = s3 := Except.ok.inj (hc4.symm.trans hc)
  obtain rfl : A' = A := Except.ok.inj (hA'.symm.trans hA)
  obtain rfl : b' = b := Except.ok.inj (hb'.symm.trans hb)
  refine ⟨r4, s4, hr, hc, fun hsupg => ?_⟩
  obtain ⟨l, hl1, hl2, hl3, hl4, -, hl5⟩ := hl config h test hsupg
  refine ⟨l, hl1, hl2, hl3, hl4, fun y hy v => ?_⟩
  rw [hl5 q hq y hy (fun p _ => by rw [hsrc, hdiff]) v, ← hres y hy v]
  simp only [mul_sub, Finset.sum_sub_distrib]
  have h1 := he v y
  rw [stab_null hE hT hlu hllt hpos hr hc hS hq hy v, mul_zero, add_zero, hAr] at h1
  have hsub : ∀ f g : ℝ × ℝ → ℝ, quadSum s4.internal.points s4.internal.weights f - quadSum s4.internal.points s4.internal.weights g
      = quadSum s4.internal.points s4.internal.weights fun p => f p - g p := by
    intro f g
    rw [← sum_quadSum _ _ hs.rules.wlen (fun i => f (s4.internal.points.getD i 0)) f (fun i p hi => by simp [List.getD_eq_getElem?_getD, hi]),
      ← sum_quadSum _ _ hs.rules.wlen (fun i => g (s4.internal.points.getD i 0)) g (fun i p hi => by simp [List.getD_eq_getElem?_getD, hi]),
      ← sum_quadSum _ _ hs.rules.wlen (fun i => f (s4.internal.points.getD i 0) - g (s4.internal.points.getD i 0)) _ (fun i p hi => by simp [List.getD_eq_getElem?_getD, hi]),
      ← Finset.sum_sub_distrib]
    exact Finset.sum_congr rfl fun i _ => by ring
  rw [h1, hbe v, hsub]
  congr 1
  funext p
  rw [(hex q hq y hy p).1, (hex q hq y hy p).2, hdiff, hF₁, hF₂]
  simp only [hK, pderiv_C_mul, map_mul, eval_C, map_add, true_or, or_true, if_true]
  norm_num
  ring

end

end PolyDiM
