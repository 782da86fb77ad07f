import Verif.Lemmas.Fem1D
import Mathlib.Analysis.Calculus.Deriv.Comp

/-!
# C55: the one-dimensional finite element

About `fem1Create`, `fem1Value`, `fem1Derivative`, `segF`, `segFInv`, `fem1PhysValue`, `fem1PhysDerivative`, `fem1Dof` of
`Verif/Model/Fem1D.lean`.
-/

namespace PolyDiM

/-- **C55, layout (equispaced).** Order `k ≥ 1`: `k + 1` DOFs, first end, last end, then the interior lattice points in order. -/
theorem C55_layout {K : Type} [Field K] [CharZero K] (k : Nat) (hk : 1 ≤ k) (lob : List K) :
    ∃ d, fem1Create k .equispaced lob = .ok d ∧ d.order = k ∧ d.num0D = 1 ∧ d.num1D = k - 1 ∧ d.numBasis = k + 1 ∧
      d.positions = [0, 1] ++ (List.range (k - 1)).map fun (j : Nat) => ((j : K) + 1) / (k : K) := by
  obtain ⟨k, rfl⟩ : ∃ m, k = m + 1 := ⟨k - 1, by omega⟩
  refine ⟨_, fem1Create_ok k .equispaced lob _ rfl (by simp [linSpaced]), rfl, rfl, rfl, rfl, ?_⟩
  show fem1Pos (linSpaced K (k + 2)) k = _
  rw [fem1Pos_linSpaced]
  push_cast
  rfl

example : ∃ d, fem1Create 3 .equispaced ([] : List ℚ) = .ok d ∧ d.positions = [0, 1, 1 / 3, 2 / 3] := by
  obtain ⟨d, h, -, -, -, -, hp⟩ := C55_layout (K := ℚ) 3 (by norm_num) []
  refine ⟨d, h, ?_⟩
  rw [hp]
  norm_num [List.range_succ]

/-- **C55, layout (given points).** With the Gauss-Lobatto type the `k + 1` given points are reordered as first, last, interior. -/
theorem C55_layout_lobatto {K : Type} [Field K] (k : Nat) (hk : 1 ≤ k) (a b : K) (mid : List K) (hm : mid.length = k - 1) :
    ∃ d, fem1Create k .gaussLobatto (a :: mid ++ [b]) = .ok d ∧ d.positions = a :: b :: mid := by
  obtain ⟨k, rfl⟩ : ∃ m, k = m + 1 := ⟨k - 1, by omega⟩
  have hm : mid.length = k := by simpa using hm
  have hp : fem1Points (k + 1) .gaussLobatto (a :: mid ++ [b]) = .ok (a :: mid ++ [b]) := by
    unfold fem1Points
    simp [hm]
  refine ⟨_, fem1Create_ok k .gaussLobatto _ _ hp (by simp [hm]), ?_⟩
  show fem1Pos _ k = _
  unfold fem1Pos
  rw [List.map_append, List.range'_eq_map_range, List.map_map]
  show a :: (a :: (mid ++ [b])).getD (k + 1) 0 :: _ = _
  congr 1
  rw [List.getD_cons_succ]
  congr 1
  · simp [← hm]
  · apply List.ext_getElem
    · simp [hm]
    · intro i h1 h2
      simp [Nat.add_comm 1 i, List.getElem?_append_left h2, List.getElem?_eq_getElem h2]

example : ∃ d, fem1Create 2 .gaussLobatto ([0, 1 / 2, 1] : List ℚ) = .ok d ∧ d.positions = [0, 1, 1 / 2] :=
  C55_layout_lobatto 2 (by norm_num) 0 1 [1 / 2] rfl

/-- **C55, basis.** For every order and type accepted by `Create`, with distinct Gauss-Lobatto points: the basis is nodal, sums to
one, and the derivative routine returns derivatives. -/
theorem C55_basis (k : Nat) (ty : Fem1Type) (lob : List ℝ) (hlob : lob.Nodup) (d : Fem1Data ℝ)
    (hd : fem1Create k ty lob = .ok d) :
    d.positions.length = d.numBasis ∧ d.numBasis = k + 1 ∧
    (∀ (i j : Nat) (x : ℝ), i < d.numBasis → d.positions[j]? = some x → fem1Value d x i = .ok (if i = j then 1 else 0)) ∧
    ∃ f f' : Nat → ℝ → ℝ,
      (∀ i x, i < d.numBasis → fem1Value d x i = .ok (f i x) ∧ fem1Derivative d x i = .ok (f' i x) ∧ HasDerivAt (f i) (f' i x) x) ∧
      ∀ x, ∑ i ∈ Finset.range d.numBasis, f i x = 1 := by
  by_cases hk : k = 0
  · subst hk
    simp only [fem1Create, if_true, Except.ok.injEq] at hd
    subst hd
    refine ⟨rfl, rfl, ?_, fun _ _ => 1, fun _ _ => 0, ?_, ?_⟩
    · intro i j x hi hx
      obtain ⟨hj, -⟩ := List.getElem?_eq_some_iff.1 hx
      simp at hi hj
      subst hi; subst hj
      rfl
    · intro i x _
      exact ⟨rfl, rfl, hasDerivAt_const x 1⟩
    · intro x; simp
  · obtain ⟨k, rfl⟩ : ∃ m, k = m + 1 := ⟨k - 1, by omega⟩
    obtain ⟨pts, hp⟩ : ∃ pts, fem1Points (k + 1) ty lob = .ok pts := by
      rcases h : fem1Points (k + 1) ty lob with e | pts
      · exfalso
        unfold fem1Create at hd
        rw [if_neg hk, h] at hd
        cases hd
      · exact ⟨pts, rfl⟩
    have hl := fem1Points_length hp
    have hnd : pts.Nodup := by
      cases ty with
      | equispaced => injection hp with hp; subst hp; exact linSpaced_nodup k
      | gaussLobatto =>
        unfold fem1Points at hp
        simp only at hp
        split at hp
        · injection hp with hp; subst hp; exact hlob
        · cases hp
      | other => cases hp
    rw [fem1Create_ok k ty lob pts hp hl] at hd
    injection hd with hd
    subst hd
    have hpn := fem1Pos_nodup hl hnd
    have hpl : (fem1Pos pts k).length = k + 2 := by simp [fem1Pos]
    have hcl : (lagCoefficients (fem1Pos pts k)).length = (fem1Pos pts k).length := by simp [lagCoefficients]
    refine ⟨hpl, rfl, ?_, ?_⟩
    · intro i j x hi hx
      exact C29_nodal _ hpn i j (by rw [hpl]; exact hi) x hx
    · have h31 := fun i (hi : i < k + 2) => C31_derivative (fem1Pos pts k) _ hcl i (by omega)
      choose! f f' h1 h2 h3 using h31
      refine ⟨f, f', fun i x hi => ⟨h1 i hi x, h2 i hi x, h3 i hi x⟩, fun x => ?_⟩
      obtain ⟨ℓ, hℓ, hs, -⟩ := C30_reproduction (fem1Pos pts k) hpn x
      rw [hpl] at hℓ hs
      rw [← hs (by intro h; rw [h] at hpl; simp at hpl)]
      apply Finset.sum_congr rfl
      intro i hi
      have hi := Finset.mem_range.1 hi
      have := hℓ i hi
      rw [h1 i hi x] at this
      injection this

example : ([] : List ℝ).Nodup ∧ ∃ d, fem1Create 4 .equispaced ([] : List ℝ) = .ok d := by
  refine ⟨by simp, ?_⟩
  obtain ⟨d, h, -⟩ := C55_layout (K := ℝ) 4 (by norm_num) []
  exact ⟨d, h⟩

/-- The data of a non-degenerate segment: the stored length is the norm of the tangent. -/
def Spec.IsSegment {K : Type} [Field K] (tangent : Nat → K) (length : K) : Prop :=
  length ≠ 0 ∧ length * length = tangent 0 * tangent 0 + tangent 1 * tangent 1 + tangent 2 * tangent 2

/-- **C55, map.** `FInv` inverts `F`, and `F` inverts `FInv` on the line through the segment. -/
theorem C55_map {K : Type} [Field K] (o t : Nat → K) (len : K) (hs : Spec.IsSegment t len) :
    (∀ s, segFInv (fem1Map o t len) (segF (fem1Map o t len) s) = s) ∧
    ∀ x : Nat → K, (∃ s, ∀ c, x c = o c + t c * s) → ∀ c, segF (fem1Map o t len) (segFInv (fem1Map o t len) x) c = x c := by
  have h1 : ∀ (x : Nat → K) s, (∀ c, x c = o c + t c * s) → segFInv (fem1Map o t len) x = s := by
    intro x s hx
    unfold segFInv fem1Map
    simp only [hx]
    rw [div_eq_iff (mul_ne_zero hs.1 hs.1), hs.2]
    ring
  refine ⟨fun s => h1 _ s fun c => rfl, ?_⟩
  rintro x ⟨s, hx⟩ c
  rw [h1 x s hx, hx c]
  rfl

example : Spec.IsSegment (fun c => if c = 0 then (3 : ℚ) else if c = 1 then 4 else 0) 5 := by
  constructor <;> norm_num

/-- **C55, physical functions.** The functions on a segment are nodal at the physical DOFs, and the reported derivative is the
derivative with respect to arc length in the direction of the tangent. -/
theorem C55_physical (k : Nat) (hk : 1 ≤ k) (ty : Fem1Type) (lob : List ℝ) (hlob : lob.Nodup) (d : Fem1Data ℝ)
    (hd : fem1Create k ty lob = .ok d) (o t : Nat → ℝ) (len : ℝ) (hs : Spec.IsSegment t len) :
    (∀ i j, i < k + 1 → j < k + 1 → ∃ x, fem1Dof d (fem1Map o t len) j = .ok x ∧
      fem1PhysValue d (fem1Map o t len) x i = .ok (if i = j then 1 else 0)) ∧
    ∀ i, i < k + 1 → ∃ f f' : (Nat → ℝ) → ℝ, (∀ x, fem1PhysValue d (fem1Map o t len) x i = .ok (f x)) ∧
      (∀ x, fem1PhysDerivative d (fem1Map o t len) x i = .ok (f' x)) ∧
      ∀ (x : Nat → ℝ) (s : ℝ), HasDerivAt (fun s => f fun c => x c + s * (t c / len)) (f' fun c => x c + s * (t c / len)) s := by
  obtain ⟨hpl, hn, hnod, f, f', hff, -⟩ := C55_basis k ty lob hlob d hd
  have hord : 2 * d.num0D + d.num1D = k + 1 := by
    obtain ⟨k, rfl⟩ : ∃ m, k = m + 1 := ⟨k - 1, by omega⟩
    rcases h : fem1Points (k + 1) ty lob with e | pts
    · unfold fem1Create at hd
      rw [if_neg (by omega), h] at hd
      cases hd
    · rw [fem1Create_ok k ty lob pts h (fem1Points_length h)] at hd
      injection hd with hd
      subst hd
      show 2 * 1 + k = _
      omega
  have hsc : ∀ c, c < k + 1 → scatterCol (fem1Order d) (fun i => i) c = some c := by
    intro c hc
    rw [fem1Order_eq, hord]
    exact scatter_id _ _ hc
  have hv : ∀ x i, i < k + 1 → fem1PhysValue d (fem1Map o t len) x i = fem1Value d (segFInv (fem1Map o t len) x) i := by
    intro x i hi
    unfold fem1PhysValue
    rw [hsc i hi]
  constructor
  · intro i j hi hj
    obtain ⟨p, hp⟩ : ∃ p, d.positions[j]? = some p := ⟨_, List.getElem?_eq_getElem (by omega)⟩
    refine ⟨segF (fem1Map o t len) p, ?_, ?_⟩
    · unfold fem1Dof
      rw [hsc j hj]
      show (do let t' ← unchecked d.positions j; Except.ok (segF (fem1Map o t len) t')) = _
      rw [(unchecked_ok_iff _ _ _).2 hp, except_ok_bind]
    · rw [hv _ _ hi, (C55_map o t len hs).1]
      exact hnod i j p (by omega) hp
  · intro i hi
    refine ⟨fun x => f i (segFInv (fem1Map o t len) x), fun x => f' i (segFInv (fem1Map o t len) x) / len, fun x => ?_, fun x => ?_,
      fun x s => ?_⟩
    · rw [hv _ _ hi]
      exact (hff i _ (by omega)).1
    · unfold fem1PhysDerivative
      rw [hsc i hi]
      show (do let v ← fem1Derivative d _ i; Except.ok (v / len)) = _
      rw [(hff i _ (by omega)).2.1, except_ok_bind]
    · have hlin : ∀ s, segFInv (fem1Map o t len) (fun c => x c + s * (t c / len)) = segFInv (fem1Map o t len) x + s / len := by
        intro s
        have h0 := hs.1
        have h2 := hs.2
        have e1 : segFInv (fem1Map o t len) x + s / len = segFInv (fem1Map o t len) x + s * (len * len) / (len * (len * len)) := by
          field_simp
        rw [e1, h2]
        unfold segFInv fem1Map
        simp only
        rw [h2]
        have : t 0 * t 0 + t 1 * t 1 + t 2 * t 2 ≠ 0 := by rw [← h2]; exact mul_ne_zero h0 h0
        field_simp
        ring
      have hin : HasDerivAt (fun s => segFInv (fem1Map o t len) (fun c => x c + s * (t c / len))) (1 / len) s := by
        simp only [hlin]
        exact ((hasDerivAt_id s).div_const len).const_add _
      have := HasDerivAt.comp s ((hff i (segFInv (fem1Map o t len) (fun c => x c + s * (t c / len))) (by omega)).2.2) hin
      refine this.congr_deriv ?_
      ring

example : ([] : List ℝ).Nodup ∧ (∃ d, fem1Create 2 .equispaced ([] : List ℝ) = .ok d) ∧
    Spec.IsSegment (fun c => if c = 0 then (3 : ℝ) else if c = 1 then 4 else 0) 5 := by
  refine ⟨by simp, ?_, by constructor <;> norm_num⟩
  obtain ⟨d, h, -⟩ := C55_layout (K := ℝ) 2 (by norm_num) []
  exact ⟨d, h⟩

end PolyDiM
