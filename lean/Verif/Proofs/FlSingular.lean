import Verif.Proofs.RoundSolve
import Mathlib.LinearAlgebra.FiniteDimensional.Lemmas

/-! # What a failed factorization says about the matrix in floating point -/

set_option autoImplicit false
set_option linter.unusedSectionVars false
set_option linter.unusedSimpArgs false
set_option linter.unusedVariables false

namespace Verif.Proofs
open Finset Spec

universe u v

section
variable {K : Type v} [Field K]

/-- A matrix with more columns than rows has a nontrivial kernel. -/
theorem wide_kernel (k : Nat) (U : Nat → Nat → K) :
    ∃ v : Nat → K, (∃ j, j < k + 1 ∧ v j ≠ 0) ∧ ∀ t, t < k → ∑ j ∈ range (k + 1), U t j * v j = 0 := by
  let f : (Fin (k + 1) → K) →ₗ[K] (Fin k → K) := Matrix.mulVecLin (Matrix.of fun t j => U t j)
  have hk : LinearMap.ker f ≠ ⊥ := LinearMap.ker_ne_bot_of_finrank_lt (by simp)
  obtain ⟨x, hx, hx0⟩ := (Submodule.ne_bot_iff _).1 hk
  rw [LinearMap.mem_ker] at hx
  refine ⟨fun j => if h : j < k + 1 then x ⟨j, h⟩ else 0, ?_, fun t ht => ?_⟩
  · by_contra hcon
    push Not at hcon
    apply hx0
    funext i
    have := hcon i i.2
    rw [dif_pos i.2] at this
    exact this
  · have := congrFun hx ⟨t, ht⟩
    rw [Finset.sum_range]
    refine Eq.trans (sum_congr rfl fun i _ => ?_) this
    show U t i * (if h : (i : Nat) < k + 1 then x ⟨i, h⟩ else 0) = U t i * x i
    rw [dif_pos i.2]

end

section
variable {F : Type u} {K : Type v} [Scalar F] [Field K] [LinearOrder K] [IsStrictOrderedRing K] [S : StdModel F K]

local notation "μ" => (StdModel.u (F := F) (K := K))
local notation "u0" => (StdModel.u_nonneg (F := F) (K := K))
local notation "u1" => (StdModel.u_lt (F := F) (K := K))

theorem rfLoop_err_fl {m n : Nat} (A : Mat F) (p0 : Nat → Nat) (c : Nat) (hc : c ≤ n) {M : Mat F}
    {p : Nat → Nat} {col : Nat} (h : rfLoop m n A p0 c = .err col M p) :
    ∃ k p', k < c ∧ col = k + 1 ∧ FlInv (K := K) m n A M p' k ∧ ∀ i, k ≤ i → i < m → S.val (M i k) = 0 := by
  induction c generalizing M p col with
  | zero => simp only [rfLoop] at h; cases h
  | succ c ih =>
    simp only [rfLoop] at h
    cases hr : rfLoop m n A p0 c with
    | ok M1 p1 =>
      rw [hr] at h
      have hi := rfLoop_ok_fl (K := K) A p0 c (by omega) hr
      simp only [rfStep] at h
      split at h
      · cases h
      split at h
      · rename_i h1 h2
        rw [S.eq_iff, S.val_zero] at h2
        cases h
        refine ⟨c, p1, by omega, rfl, hi, fun i hci him => ?_⟩
        have := pivotSearch_max_fl (K := K) M m c i hci him
        rw [h2, abs_zero] at this
        exact abs_eq_zero.mp (le_antisymm this (abs_nonneg _))
      · cases h
    | err col M1 p1 =>
      rw [hr] at h
      cases h
      obtain ⟨k, p', hk, h1, h2, h3⟩ := ih (by omega) hr
      exact ⟨k, p', by omega, h1, h2, h3⟩
    | panic => rw [hr] at h; cases h

/-- At a zero column, the leading columns are a product of matrices of rank `k`, up to factors close to one. -/
theorem FlInv.short {m n : Nat} {A M : Mat F} {p : Nat → Nat} {k : Nat} (h : FlInv (K := K) m n A M p k) (hkn : k < n)
    (h0 : ∀ i, k ≤ i → i < m → S.val (M i k) = 0) (i : Nat) (hi : i < m) (j : Nat) (hj : j ≤ k) :
    ∃ c : Nat → K, (∀ t, Fac μ (k + 2) (c t)) ∧ S.val (A (rowPerm p k i) j) =
      ∑ t ∈ range k, lowerUnit (fun i j => S.val (M i j)) i t * upperTri (fun i j => S.val (M i j)) t j * c t := by
  have hcut : ∀ (r : Nat) (c : Nat → K), r < k → (r = i ∨ r = j) → r ≤ i → r ≤ j →
      ∑ t ∈ range k, lowerUnit (fun i j => S.val (M i j)) i t * upperTri (fun i j => S.val (M i j)) t j * c t =
      ∑ t ∈ range (r + 1), lowerUnit (fun i j => S.val (M i j)) i t * upperTri (fun i j => S.val (M i j)) t j * c t := by
    intro r c hr hor h1 h2
    symm
    refine sum_subset (fun t ht => ?_) (fun t ht ht' => ?_)
    · rw [mem_range] at ht ⊢; omega
    · rw [mem_range] at ht ht'
      rcases hor with rfl | rfl
      · simp only [lowerUnit]
        rw [if_neg (by omega), if_neg (by omega)]; ring
      · simp only [upperTri]
        rw [if_neg (by omega)]; ring
  by_cases hji : j < i ∧ j < k
  · obtain ⟨c, h1, h2⟩ := h.low j hji.2 i hji.1 hi
    refine ⟨c, fun t => (h1 t).mono u0 u1 (by omega), ?_⟩
    rw [hcut j c hji.2 (Or.inr rfl) hji.1.le (le_refl _), sum_range_succ, h2]
    congr 1
    · apply sum_congr rfl
      intro t ht
      rw [mem_range] at ht
      simp only [lowerUnit, upperTri]
      rw [if_pos (by omega), if_pos (by omega)]
    · simp only [lowerUnit, upperTri]
      rw [if_pos hji.1, if_pos (le_refl _)]
  · obtain ⟨c, h1, h2⟩ := h.up i hi j (by omega) (by omega)
    refine ⟨c, fun t => (h1 t).mono u0 u1 (by omega), ?_⟩
    by_cases hik : i < k
    · rw [Nat.min_eq_left (by omega : i ≤ k)] at h2
      rw [hcut i c hik (Or.inl rfl) (le_refl _) (by omega), sum_range_succ, h2]
      congr 1
      · apply sum_congr rfl
        intro t ht
        rw [mem_range] at ht
        simp only [lowerUnit, upperTri]
        rw [if_pos (by omega), if_pos (by omega)]
      · simp only [lowerUnit, upperTri]
        rw [if_neg (lt_irrefl _), if_pos (by omega : i ≤ j), if_true, one_mul]
    · have hjk : j = k := by omega
      subst hjk
      rw [Nat.min_eq_right (by omega : j ≤ i), h0 i (by omega) hi, zero_mul, add_zero] at h2
      rw [h2]
      apply sum_congr rfl
      intro t ht
      rw [mem_range] at ht
      simp only [lowerUnit, upperTri]
      rw [if_pos (by omega), if_pos (by omega)]

/-- At a zero column, a small perturbation makes the leading columns dependent. -/
theorem FlInv.nearDependent {m n : Nat} {A M : Mat F} {p : Nat → Nat} {k : Nat} (h : FlInv (K := K) m n A M p k)
    (hkm : k < m) (hkn : k < n) (h0 : ∀ i, k ≤ i → i < m → S.val (M i k) = 0) :
    ∃ E : Nat → Nat → K, ColsDependent m (fun i j => S.val (A i j) + E i j) (k + 1) ∧
      ∀ i, i < m → ∀ j, j ≤ k → |E (rowPerm p k i) j| ≤ gamma μ (k + 2) *
        ∑ t ∈ range k, |lowerUnit (fun i j => S.val (M i j)) i t| * |upperTri (fun i j => S.val (M i j)) t j| := by
  have hf := h.short hkn h0
  choose! f hff hfA using hf
  have hp : ∀ t, t < k → p t < m := fun t ht => (h.piv t ht).2
  let L := lowerUnit (fun i j => S.val (M i j))
  let U := upperTri (fun i j => S.val (M i j))
  let E0 : Nat → Nat → K := fun i j => ∑ t ∈ range k, L i t * U t j * (1 - f i j t)
  refine ⟨fun r j => E0 ((rowPerm p k).symm r) j, ?_, ?_⟩
  · obtain ⟨v, hv, hU⟩ := wide_kernel k U
    refine ⟨v, hv, fun r hr => ?_⟩
    obtain ⟨i, hi, rfl⟩ := rowPerm_surj (by omega : k ≤ m) hp hr
    unfold mulVec
    dsimp only
    rw [Equiv.symm_apply_apply]
    have h1 : ∀ j ∈ range (k + 1), (S.val (A (rowPerm p k i) j) + E0 i j) * v j = ∑ t ∈ range k, L i t * (U t j * v j) := by
      intro j hj
      rw [mem_range] at hj
      rw [hfA i hi j (by omega)]
      simp only [E0]
      rw [← sum_add_distrib, sum_mul]
      apply sum_congr rfl
      intro t _
      simp only [L, U]
      ring
    rw [sum_congr rfl h1, sum_comm]
    refine sum_eq_zero fun t ht => ?_
    rw [← mul_sum, hU t (mem_range.1 ht), mul_zero]
  · intro i hi j hj
    dsimp only
    rw [Equiv.symm_apply_apply]
    simp only [E0]
    refine le_trans (abs_sum_le_sum_abs _ _) ?_
    rw [mul_sum]
    apply sum_le_sum
    intro t ht
    rw [abs_mul, abs_mul, mul_comm]
    refine mul_le_mul_of_nonneg_right ?_ (mul_nonneg (abs_nonneg _) (abs_nonneg _))
    rw [abs_sub_comm]
    exact (hff i hi j hj t).err u0 u1

end
end Verif.Proofs
