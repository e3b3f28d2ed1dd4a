import Verif.Proofs.RoundSolve
import Verif.FlInst

/-!
# Property C80: the dense solver is backward stable in floating-point arithmetic

The theorems of `Props/Linear.lean` are about exact arithmetic.  Here every operation rounds (`Spec/Rounding.lean`).
`A` is the matrix handed to `Dense::setup`, `M`/`p` the storage and the pivots it leaves behind.
-/

set_option autoImplicit false
set_option linter.unusedSectionVars false
set_option linter.unusedVariables false

namespace Verif.Props
open Finset Spec Verif.Proofs

universe u v

section
variable {F : Type u} {K : Type v} [Scalar F] [Field K] [LinearOrder K] [IsStrictOrderedRing K] [S : StdModel F K]

local notation "μ" => (StdModel.u (F := F) (K := K))

/-- **C80 (componentwise).**  After a successful `Dense::setup` of the `n` by `n` matrix `A`, what `Dense::solve` returns
for the right-hand side `b` solves, exactly, a system with the same right-hand side and a matrix `A + E`.  Entry by entry
`E` is bounded by `γ(2n+1) + γ(n+2)` times the product of the absolute values of the stored factors. -/
theorem c80_backward_error {n : Nat} (hn : 0 < n) (A : Mat F) (p0 : Nat → Nat) {M : Mat F} {p : Nat → Nat}
    (h : denseSetup n A p0 = .ok M p) (b : Nat → F) :
    ∃ x, denseSolve n M p b = some x ∧ ∃ E : Nat → Nat → K,
      (∀ i, i < n → ∑ j ∈ range n, (S.val (A i j) + E i j) * S.val (x j) = S.val (b i)) ∧
      ∀ i, i < n → ∀ j, j < n → |E (rowPerm p n i) j| ≤ (gamma μ (2 * n + 1) + gamma μ (n + 2)) *
        ∑ t ∈ range n, |lowerUnit (fun i j => S.val (M i j)) i t| * |upperTri (fun i j => S.val (M i j)) t j| := by
  unfold denseSetup denseGetRf at h
  rw [if_neg (lt_irrefl n)] at h
  have hlu := rfLoop_ok_fl (K := K) A p0 n (le_refl n) h
  have hp : ∀ t, t < n → p t < n := fun t ht => (hlu.piv t ht).2
  refine ⟨backwardSub n M (forwardSub n M (fun i => b (rowPerm p n i))), ?_, ?_⟩
  · unfold denseSolve denseGetRs
    rw [permuteB_eq' p b n (le_refl n) hp]
    dsimp only
    rw [if_neg (by omega)]
  have hf := forwardSub_fl (K := K) n M (fun i => b (rowPerm p n i))
  generalize forwardSub n M (fun i => b (rowPerm p n i)) = y at *
  have hb := backwardSub_fl (K := K) n hn M y hlu.diag
  generalize backwardSub n M y = x at *
  have hA := hlu.factor
  -- name the rounding factors
  choose! c hc hcb using hf
  choose! e he hey using hb
  choose! f hff hfA using hA
  -- the original position of a row
  have hsurj : ∀ i, i < n → ∃ i', i' < n ∧ rowPerm p n i' = i := fun i hi => by
    obtain ⟨i', hi', h⟩ := rowPerm_surj (le_refl n) hp hi
    exact ⟨i', hi', h⟩
  let L := lowerUnit (fun i j => S.val (M i j))
  let U := upperTri (fun i j => S.val (M i j))
  let E0 : Nat → Nat → K := fun i j => ∑ t ∈ range n, L i t * U t j * (c i t * e t j - f i j t)
  refine ⟨fun r j => E0 ((rowPerm p n).symm r) j, ?_, ?_⟩
  · intro r hr
    obtain ⟨i, hi, rfl⟩ := hsurj r hr
    dsimp only
    rw [Equiv.symm_apply_apply]
    have h1 : ∀ j ∈ range n, (S.val (A (rowPerm p n i) j) + E0 i j) * S.val (x j) =
        ∑ t ∈ range n, L i t * c i t * (U t j * S.val (x j) * e t j) := by
      intro j hj
      rw [mem_range] at hj
      rw [hfA i hi j hj]
      simp only [E0]
      rw [← sum_add_distrib, sum_mul]
      apply sum_congr rfl
      intro t _
      simp only [L, U]
      ring
    rw [sum_congr rfl h1, sum_comm]
    have h2 : ∀ t ∈ range n, ∑ j ∈ range n, L i t * c i t * (U t j * S.val (x j) * e t j) = L i t * S.val (y t) * c i t := by
      intro t ht
      rw [mem_range] at ht
      rw [← mul_sum, hey t ht]
      simp only [Nat.zero_le, if_true, Nat.not_lt_zero, if_false, add_zero]
      ring
    rw [sum_congr rfl h2, hcb i hi]
    rw [← Finset.sum_subset (s₁ := range (i + 1)) (s₂ := range n)]
    · rw [sum_range_succ]
      congr 1
      · apply sum_congr rfl
        intro t ht
        rw [mem_range] at ht
        simp only [L, lowerUnit]
        rw [if_pos ht]
      · simp [L, lowerUnit]
    · intro t ht; rw [mem_range] at *; omega
    · intro t ht ht'
      rw [mem_range] at *
      simp only [L, lowerUnit]
      rw [if_neg (by omega), if_neg (by omega), zero_mul, zero_mul]
  · intro i hi j hj
    dsimp only
    rw [Equiv.symm_apply_apply]
    simp only [E0]
    refine le_trans (abs_sum_le_sum_abs _ _) ?_
    rw [mul_sum]
    apply sum_le_sum
    intro t ht
    rw [mem_range] at ht
    rw [abs_mul, abs_mul, mul_comm]
    refine mul_le_mul_of_nonneg_right ?_ (mul_nonneg (abs_nonneg _) (abs_nonneg _))
    have h1 : |c i t * e t j - 1| ≤ gamma μ (2 * n + 1) := by
      have := ((hc i hi t).mul u0 u1 (he t ht j)).err u0 u1
      rwa [show n + (n + 1) = 2 * n + 1 by omega] at this
    have h2 : |f i j t - 1| ≤ gamma μ (n + 2) := (hff i hi j hj t).err u0 u1
    calc |c i t * e t j - f i j t| = |(c i t * e t j - 1) - (f i j t - 1)| := by congr 1; ring
      _ ≤ |c i t * e t j - 1| + |f i j t - 1| := abs_sub _ _
      _ ≤ _ := add_le_add h1 h2

/-- **C80.**  Backward stability with an a-priori bound: the perturbation of the matrix is at most a constant, depending only on
the dimension and the unit roundoff, times the largest entry of the matrix.  `(1-u)⁻¹ (1 + (1-u)⁻³)` is two plus rounding;
its `n`-th power bounds the growth of the entries under partial pivoting. -/
theorem c80_backward_stable {n : Nat} (hn : 0 < n) (A : Mat F) (p0 : Nat → Nat) {M : Mat F} {p : Nat → Nat}
    (h : denseSetup n A p0 = .ok M p) (b : Nat → F) (B : K) (hB : ∀ i, i < n → ∀ j, j < n → |S.val (A i j)| ≤ B) :
    ∃ x, denseSolve n M p b = some x ∧ ∃ E : Nat → Nat → K,
      (∀ i, i < n → ∑ j ∈ range n, (S.val (A i j) + E i j) * S.val (x j) = S.val (b i)) ∧
      ∀ i, i < n → ∀ j, j < n → |E i j| ≤ (gamma μ (2 * n + 1) + gamma μ (n + 2)) *
        (n * (((1 - μ) ^ 2)⁻¹ * (((1 - μ)⁻¹ * (1 + ((1 - μ) ^ 3)⁻¹)) ^ n * B))) := by
  obtain ⟨x, hx, E, h1, h2⟩ := c80_backward_error (K := K) hn A p0 h b
  refine ⟨x, hx, E, h1, fun r hr j hj => ?_⟩
  unfold denseSetup denseGetRf at h
  rw [if_neg (lt_irrefl n)] at h
  have hlu := rfLoop_ok_fl (K := K) A p0 n (le_refl n) h
  have hp : ∀ t, t < n → p t < n := fun t ht => (hlu.piv t ht).2
  obtain ⟨i, hi, rfl⟩ := rowPerm_surj (le_refl n) hp hr
  refine le_trans (h2 i hi j hj) ?_
  refine mul_le_mul_of_nonneg_left ?_ (add_nonneg (gamma_nonneg u0 u1 _) (gamma_nonneg u0 u1 _))
  have hB0 : 0 ≤ B := le_trans (abs_nonneg _) (hB 0 hn 0 hn)
  have hg : (0 : K) ≤ growth (K := K) F ^ n * B := mul_nonneg (pow_nonneg (le_trans zero_le_one growth_ge) _) hB0
  have hone : (1 : K) ≤ ((1 - μ) ^ 2)⁻¹ := (Fac.one (u := μ) u0 u1 2).le u0 u1
  have key : ∀ t ∈ range n, |lowerUnit (fun i j => S.val (M i j)) i t| * |upperTri (fun i j => S.val (M i j)) t j| ≤
      ((1 - μ) ^ 2)⁻¹ * (growth (K := K) F ^ n * B) := by
    intro t ht
    rw [mem_range] at ht
    refine mul_le_mul ?_ ?_ (abs_nonneg _) (le_trans zero_le_one hone)
    · simp only [lowerUnit]
      split
      · exact hlu.mult t ht i (by assumption) hi
      · split
        · rw [abs_one]; exact hone
        · rw [abs_zero]; exact le_trans zero_le_one hone
    · simp only [upperTri]
      split
      · exact hlu.grow B hB t ht j hj (Or.inl (by assumption))
      · rw [abs_zero]; exact hg
  have := sum_le_sum key
  rw [sum_const, card_range, nsmul_eq_mul] at this
  exact this

end

/-- `γ(m)` is about `m u`. -/
theorem c80_gamma {K : Type v} [Field K] [LinearOrder K] [IsStrictOrderedRing K] (u : K) (h0 : 0 ≤ u) (h1 : u < 1) (m : Nat)
    (h : m * u < 1) : gamma u m ≤ m * u / (1 - m * u) := gamma_le h0 h1 m h

/-- For three equations in binary64 (`u = 2^-53`) the perturbation is below `4e-14` times the largest entry. -/
theorem c80_three_binary64 {F : Type u} {K : Type v} [Scalar F] [Field K] [LinearOrder K] [IsStrictOrderedRing K]
    [S : StdModel F K] (hu : S.u = 1 / 2 ^ 53) (A : Mat F) (p0 : Nat → Nat) {M : Mat F} {p : Nat → Nat}
    (h : denseSetup 3 A p0 = .ok M p) (b : Nat → F) (B : K) (hB : ∀ i, i < 3 → ∀ j, j < 3 → |S.val (A i j)| ≤ B) :
    ∃ x, denseSolve 3 M p b = some x ∧ ∃ E : Nat → Nat → K,
      (∀ i, i < 3 → ∑ j ∈ range 3, (S.val (A i j) + E i j) * S.val (x j) = S.val (b i)) ∧
      ∀ i, i < 3 → ∀ j, j < 3 → |E i j| ≤ 4 / 10 ^ 14 * B := by
  obtain ⟨x, hx, E, h1, h2⟩ := c80_backward_stable (K := K) (by norm_num) A p0 h b B hB
  refine ⟨x, hx, E, h1, fun i hi j hj => le_trans (h2 i hi j hj) ?_⟩
  have hB0 : 0 ≤ B := le_trans (abs_nonneg _) (hB 0 (by norm_num) 0 (by norm_num))
  rw [hu]
  simp only [gamma]
  rw [← mul_assoc, ← mul_assoc, ← mul_assoc]
  refine mul_le_mul_of_nonneg_right ?_ hB0
  norm_num

section witness

/-- The matrix `1 2 / 3 5` and the right-hand side `1, 4`, whose exact solution is `3, -1`. -/
def flA : Mat Fl := fun i j => if i = 0 then (if j = 0 then ⟨1⟩ else ⟨2⟩) else (if j = 0 then ⟨3⟩ else ⟨5⟩)
def flB : Nat → Fl := fun i => if i = 0 then ⟨1⟩ else ⟨4⟩

/-- Factorize and solve. -/
def flRun : Option (ℚ × ℚ) :=
  match denseSetup 2 flA id with
  | .ok M p => (denseSolve 2 M p flB).map fun x => ((x 0).v, (x 1).v)
  | _ => none

/-- The run succeeds (the hypotheses of C80 hold) and rounds: the answer is off by more than one percent. -/
theorem flRun_eq : flRun = some (195 / 64, -131 / 128) := by decide +kernel

/-- For this run C80 gives the matrix of which `195/64, -131/128` is the exact solution. -/
example : ∃ E : Nat → Nat → ℚ, ((1 + E 0 0) * (195 / 64) + (2 + E 0 1) * (-131 / 128) = 1) ∧
    ((3 + E 1 0) * (195 / 64) + (5 + E 1 1) * (-131 / 128) = 4) ∧ ∀ i, i < 2 → ∀ j, j < 2 → |E i j| ≤ 2 := by
  have h := flRun_eq
  unfold flRun at h
  split at h
  case h_2 => cases h
  case h_1 M p hs =>
    obtain ⟨x, hx, E, h1, h2⟩ := c80_backward_stable (K := ℚ) (by norm_num) flA id hs flB 5
      (by
        intro i hi j hj
        have hi' : i = 0 ∨ i = 1 := by omega
        have hj' : j = 0 ∨ j = 1 := by omega
        rcases hi' with rfl | rfl <;> rcases hj' with rfl | rfl <;> simp [flA, StdModel.val] <;> norm_num)
    rw [hx] at h
    simp only [Option.map_some, Option.some.injEq, Prod.mk.injEq] at h
    refine ⟨E, ?_, ?_, fun i hi j hj => le_trans (h2 i hi j hj) ?_⟩
    · have := h1 0 (by norm_num)
      simpa [sum_range_succ, StdModel.val, flA, flB, h.1, h.2] using this
    · have := h1 1 (by norm_num)
      simpa [sum_range_succ, StdModel.val, flA, flB, h.1, h.2] using this
    · simp only [gamma, StdModel.u]
      norm_num

end witness

end Verif.Props
