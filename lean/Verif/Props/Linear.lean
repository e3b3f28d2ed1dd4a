import Verif.Proofs.Dense
import Mathlib.LinearAlgebra.Matrix.ToLinearEquiv

/-!
# Properties C01 - C05: the dense linear solver

`A` is the matrix handed to `Dense::setup`, `M`/`p` the storage and the pivots it leaves behind.
Exact arithmetic in any linearly ordered field, except C05, which holds for every scalar type.
-/

set_option autoImplicit false
set_option linter.unusedSectionVars false

namespace Verif.Props
open Finset Spec

universe u

section exact
variable {K : Type u} [Field K] [LinearOrder K] [IsStrictOrderedRing K] [ExactParams K]

/-- **C01.**  After a successful `Dense::setup` of the `n` by `n` matrix `A`, `Dense::solve` with the stored factors
returns, for every right-hand side, an `x` with `A x = b`. -/
theorem c01_dense_solve_correct {n : Nat} (hn : 0 < n) (A : Mat K) (p0 : Nat → Nat) {M : Mat K} {p : Nat → Nat}
    (h : denseSetup n A p0 = .ok M p) (b : Nat → K) :
    ∃ x, denseSolve n M p b = some x ∧ Solves n A x b := by
  unfold denseSetup denseGetRf at h
  rw [if_neg (lt_irrefl n)] at h
  have hlu := rfLoop_ok A p0 n (le_refl n) h
  have hp : ∀ t, t < n → p t < n := fun t ht => (hlu.piv t ht).2
  refine ⟨backwardSub n M (forwardSub n M (fun i => b (rowPerm p n i))), ?_, ?_⟩
  · unfold denseSolve denseGetRs
    rw [permuteB_eq p b n (le_refl n) hp]
    dsimp only
    rw [if_neg (by omega)]
  · intro i hi
    obtain ⟨i', hi', rfl⟩ := rowPerm_surj (le_refl n) hp hi
    have hf := forwardSub_spec n M (fun i => b (rowPerm p n i)) i' hi'
    rw [hf]
    generalize hy : forwardSub n M (fun i => b (rowPerm p n i)) = y
    have hb := backwardSub_spec n hn M y hlu.diag
    generalize backwardSub n M y = x at *
    unfold mulVec
    have : ∀ j ∈ range n, A (rowPerm p n i') j * x j
        = ∑ t ∈ range n, lowerUnit M i' t * (upperTri M t j * x j) := by
      intro j hj
      rw [mem_range] at hj
      rw [hlu.factor (le_refl n) (le_refl n) i' hi' j hj, sum_mul]
      apply sum_congr rfl
      intro t _
      ring
    rw [sum_congr rfl this, sum_comm]
    have : ∀ t ∈ range n, ∑ j ∈ range n, lowerUnit M i' t * (upperTri M t j * x j) = lowerUnit M i' t * y t := by
      intro t ht
      rw [mem_range] at ht
      rw [← mul_sum, hb t ht]
    rw [sum_congr rfl this, ← Finset.sum_subset (s₁ := range (i' + 1)) (s₂ := range n)]
    · rw [sum_range_succ]
      congr 1
      · apply sum_congr rfl
        intro t ht
        rw [mem_range] at ht
        simp only [lowerUnit]
        rw [if_pos ht]
      · simp [lowerUnit]
    · intro t ht; rw [mem_range] at *; omega
    · intro t ht ht'
      rw [mem_range] at *
      simp only [lowerUnit]
      rw [if_neg (by omega), if_neg (by omega), zero_mul]

/-- The outcome of a factorization is never a panic when `n ≤ m` (used below; see C05). -/
theorem rf_cases {m n : Nat} (hmn : n ≤ m) (A : Mat K) (p0 : Nat → Nat) :
    (∃ M p, denseGetRf m n A p0 = .ok M p) ∨ (∃ col M p, denseGetRf m n A p0 = .err col M p) := by
  unfold denseGetRf
  rw [if_neg (by omega)]
  have : ∀ c, c ≤ n → (∃ M p, rfLoop m n A p0 c = .ok M p) ∨ (∃ col M p, rfLoop m n A p0 c = .err col M p) := by
    intro c
    induction c with
    | zero => intro _; left; exact ⟨A, p0, rfl⟩
    | succ c ih =>
      intro hc
      simp only [rfLoop]
      rcases ih (by omega) with ⟨M, p, h⟩ | ⟨col, M, p, h⟩
      · rw [h]
        simp only [rfStep]
        have := pivotSearch_range M m c (by omega)
        rw [if_neg (by simp; omega)]
        split
        · right; exact ⟨_, _, _, rfl⟩
        · left; exact ⟨_, _, rfl⟩
      · rw [h]; right; exact ⟨col, M, p, rfl⟩
  exact this n (le_refl n)

/-- **C03.**  If the factorization of an `m` by `n` matrix (`m ≥ n`) fails with column number `col`, then
`1 ≤ col ≤ n`, the first `col` columns of `A` are linearly dependent and the first `col - 1` are independent. -/
theorem c03_dense_setup_error_column {m n : Nat} (hmn : n ≤ m) (A : Mat K) (p0 : Nat → Nat) {col : Nat} {M : Mat K}
    {p : Nat → Nat} (h : denseGetRf m n A p0 = .err col M p) :
    1 ≤ col ∧ col ≤ n ∧ ColsDependent m A col ∧ ¬ ColsDependent m A (col - 1) := by
  unfold denseGetRf at h
  rw [if_neg (by omega)] at h
  obtain ⟨k, hk, rfl, hlu, h0⟩ := rfLoop_err A p0 n (le_refl n) h
  refine ⟨by omega, by omega, hlu.dependent (by omega) hk h0, ?_⟩
  rintro ⟨v, ⟨j, hj, hvj⟩, hv⟩
  rw [Nat.add_sub_cancel] at hj hv
  exact hvj (hlu.independent (by omega) (by omega) v hv j hj)

/-- **C04.**  A successful factorization of an `m` by `n` matrix (`m ≥ n`) leaves pivots `k ≤ p k < m` and storage
whose strict lower part (multipliers, all at most one in absolute value, completed by a unit diagonal) and upper
part (nonzero diagonal) multiply to the row-permuted matrix. -/
theorem c04_lu_factorization {m n : Nat} (hmn : n ≤ m) (A : Mat K) (p0 : Nat → Nat) {M : Mat K}
    {p : Nat → Nat} (h : denseGetRf m n A p0 = .ok M p) :
    (∀ k, k < n → k ≤ p k ∧ p k < m) ∧
    (∀ i, i < m → ∀ j, j < n → A (rowPerm p n i) j = ∑ t ∈ range n, lowerUnit M i t * upperTri M t j) ∧
    (∀ i, i < m → ∀ t, t < n → t < i → |lowerUnit M i t| ≤ 1) ∧
    (∀ t, t < n → upperTri M t t ≠ 0) := by
  unfold denseGetRf at h
  rw [if_neg (by omega)] at h
  have hlu := rfLoop_ok A p0 n (le_refl n) h
  refine ⟨hlu.piv, fun i hi j hj => hlu.factor hmn (le_refl n) i hi j hj, ?_, ?_⟩
  · intro i hi t ht hti
    simp only [lowerUnit]
    rw [if_pos hti]
    exact hlu.mult t ht i hti hi
  · intro t ht
    simp only [upperTri]
    rw [if_pos (le_refl t)]
    exact hlu.diag t ht

/-- The square matrix `A` as a Mathlib matrix. -/
def asMatrix (n : Nat) (A : Mat K) : Matrix (Fin n) (Fin n) K := Matrix.of fun i j => A i j

theorem colsDependent_iff_det (n : Nat) (A : Mat K) : ColsDependent n A n ↔ (asMatrix n A).det = 0 := by
  rw [← Matrix.exists_mulVec_eq_zero_iff]
  constructor
  · rintro ⟨v, ⟨j, hj, hvj⟩, hv⟩
    refine ⟨fun i => v i, ?_, ?_⟩
    · intro h
      exact hvj (by simpa using congrFun h ⟨j, hj⟩)
    · funext i
      have := hv i i.2
      unfold mulVec at this
      rw [Finset.sum_range] at this
      simpa [Matrix.mulVec, dotProduct, asMatrix] using this
  · rintro ⟨v, hv0, hv⟩
    refine ⟨fun j => if h : j < n then v ⟨j, h⟩ else 0, ?_, ?_⟩
    · by_contra hcon
      push Not at hcon
      apply hv0
      funext i
      simpa using hcon i i.2
    · intro i hi
      have := congrFun hv ⟨i, hi⟩
      unfold mulVec
      rw [Finset.sum_range]
      simpa [Matrix.mulVec, dotProduct, asMatrix] using this

/-- **C02.**  `Dense::setup` succeeds exactly on nonsingular matrices and fails (with `LUFactFail`) exactly on
singular ones. -/
theorem c02_dense_setup_ok_iff (n : Nat) (A : Mat K) (p0 : Nat → Nat) :
    ((∃ M p, denseSetup n A p0 = .ok M p) ↔ (asMatrix n A).det ≠ 0) ∧
    ((∃ col M p, denseSetup n A p0 = .err col M p) ↔ (asMatrix n A).det = 0) := by
  have hok : (∃ M p, denseSetup n A p0 = .ok M p) → ¬ ColsDependent n A n := by
    rintro ⟨M, p, h⟩ ⟨v, ⟨j, hj, hvj⟩, hv⟩
    unfold denseSetup denseGetRf at h
    rw [if_neg (by omega)] at h
    exact hvj ((rfLoop_ok A p0 n (le_refl n) h).independent (le_refl n) (le_refl n) v hv j hj)
  have herr : (∃ col M p, denseSetup n A p0 = .err col M p) → ColsDependent n A n := by
    rintro ⟨col, M, p, h⟩
    obtain ⟨h1, h2, ⟨v, ⟨j, hj, hvj⟩, hv⟩, _⟩ := c03_dense_setup_error_column (le_refl n) A p0 h
    refine ⟨fun j => if j < col then v j else 0, ⟨j, by omega, by simp [hj, hvj]⟩, ?_⟩
    intro i hi
    refine Eq.trans ?_ (hv i hi)
    unfold mulVec
    rw [← Finset.sum_subset (s₁ := range col) (s₂ := range n)]
    · apply sum_congr rfl
      intro t ht
      rw [mem_range] at ht
      simp only [if_pos ht]
    · intro t ht; rw [mem_range] at *; omega
    · intro t ht ht'
      rw [mem_range] at *
      simp only [if_neg ht', mul_zero]
  have hc := rf_cases (le_refl n) A p0
  rw [← colsDependent_iff_det]
  change (_ ↔ ¬ ((asMatrix n A).det = 0)) ∧ _
  rw [← colsDependent_iff_det]
  refine ⟨⟨hok, fun hd => ?_⟩, ⟨herr, fun hd => ?_⟩⟩
  · rcases hc with h | h
    · exact h
    · exact absurd (herr h) hd
  · rcases hc with h | h
    · exact absurd hd (hok h)
    · exact h

end exact

section lawfree
variable {K : Type u} [Scalar K]

/-- **C05.**  For every scalar type and every content (no laws on the operations, so NaN and infinities included):
factorization of an `m` by `n` matrix with `m ≥ n` never panics, all recorded pivots satisfy `k ≤ p k < m`; for
`n ≥ 1` a subsequent `solve` never panics; for `n = 0` `solve` always panics (`n - 1` underflows). -/
theorem c05_dense_no_panic {m n : Nat} (hmn : n ≤ m) (A : Mat K) (p0 : Nat → Nat) :
    denseGetRf m n A p0 ≠ .panic ∧
    (∀ M p, denseGetRf m n A p0 = .ok M p → ∀ k, k < n → k ≤ p k ∧ p k < m) ∧
    (0 < n → ∀ M p, denseSetup n A p0 = .ok M p → ∀ b, ∃ x, denseSolve n M p b = some x) ∧
    (∀ (M : Mat K) p b, denseSolve 0 M p b = none) := by
  have key : ∀ m n, n ≤ m → ∀ c, c ≤ n → rfLoop m n A p0 c ≠ .panic ∧
      ∀ M p, rfLoop m n A p0 c = .ok M p → ∀ k, k < c → k ≤ p k ∧ p k < m := by
    intro m n hmn c
    induction c with
    | zero =>
      intro _
      refine ⟨by simp [rfLoop], ?_⟩
      intro M p _ k hk; omega
    | succ c ih =>
      intro hc
      obtain ⟨h1, h2⟩ := ih (by omega)
      simp only [rfLoop]
      cases hr : rfLoop m n A p0 c with
      | ok M p =>
        have := pivotSearch_range M m c (by omega)
        simp only [rfStep]
        rw [if_neg (by simp; omega)]
        refine ⟨by split <;> simp, ?_⟩
        intro M' p' h k hk
        split at h
        · cases h
        · cases h
          by_cases hkc : k = c
          · subst hkc; rw [upd_same]; exact this
          · rw [upd_ne _ _ hkc]; exact h2 M p hr k (by omega)
      | err col M p => simp
      | panic => exact absurd hr h1
  refine ⟨?_, ?_, ?_, ?_⟩
  · unfold denseGetRf
    rw [if_neg (by omega)]
    exact (key m n hmn n (le_refl n)).1
  · intro M p h
    unfold denseGetRf at h
    rw [if_neg (by omega)] at h
    exact (key m n hmn n (le_refl n)).2 M p h
  · intro hn M p h b
    unfold denseSetup denseGetRf at h
    rw [if_neg (by omega)] at h
    have hp := (key n n (le_refl n) n (le_refl n)).2 M p h
    have hperm : ∀ c, c ≤ n → ∃ b', permuteB n p b c = some b' := by
      intro c
      induction c with
      | zero => intro _; exact ⟨b, rfl⟩
      | succ c ih =>
        intro hc
        obtain ⟨b', hb'⟩ := ih (by omega)
        simp only [permuteB, hb']
        split
        · rw [if_pos (hp c (by omega)).2]; exact ⟨_, rfl⟩
        · exact ⟨_, rfl⟩
    obtain ⟨b', hb'⟩ := hperm n (le_refl n)
    unfold denseSolve denseGetRs
    rw [hb']
    dsimp only
    rw [if_neg (by omega)]
    exact ⟨_, rfl⟩
  · intro M p b
    simp [denseSolve, denseGetRs, permuteB]

end lawfree

/-! ## Non-vacuity: concrete cases that meet the hypotheses -/

/-- A 3 by 3 matrix that needs a row interchange. -/
def exA : Mat ℚ := fun i j => ([[0, 2, 1], [4, 1, 0], [2, 3, 5]].getD i []).getD j 0
/-- A singular 3 by 3 matrix: column 1 is twice column 0. -/
def exS : Mat ℚ := fun i j => ([[1, 2, 1], [4, 8, 0], [2, 4, 5]].getD i []).getD j 0

/-- setup succeeds on `exA` with a nontrivial pivot, and solving `A x = (7, 6, 23)` gives `(1, 2, 3)` -/
example : (match denseSetup 3 exA (fun _ => 0) with
    | .ok M p => decide (p 0 = 1) && (match denseSolve 3 M p (fun i => [7, 6, 23].getD i 0) with
        | some x => decide (x 0 = 1) && decide (x 1 = 2) && decide (x 2 = 3)
        | none => false)
    | _ => false) = true := by decide +kernel

/-- setup fails on `exS` at column 2 -/
example : (match denseSetup 3 exS (fun _ => 0) with
    | .err col _ _ => decide (col = 2)
    | _ => false) = true := by decide +kernel

end Verif.Props
