import Verif.Proofs.Rounding
import Verif.Model.Norm
import Mathlib.Algebra.BigOperators.Fin

/-!
# Rounding errors of the weighted norm and of the weights
-/

set_option autoImplicit false
set_option linter.unusedSectionVars false
set_option linter.unusedSimpArgs false
set_option linter.unusedVariables false

namespace Verif.Proofs

open Verif Verif.Spec Finset

universe u v

section
variable {K : Type v} [Field K] [LinearOrder K] [IsStrictOrderedRing K]

/-- `a` is `b` up to `N` roundings (for nonnegative numbers). -/
structure Near (u : K) (N : Nat) (a b : K) : Prop where
  lo : (1 - u) ^ N * b ≤ a
  hi : (1 - u) ^ N * a ≤ b

variable {u : K} (h0 : 0 ≤ u) (h1 : u < 1)
include h0 h1

theorem Near.nonneg_right {N : Nat} {a b : K} (h : Near u N a b) (ha : 0 ≤ a) : 0 ≤ b :=
  le_trans (mul_nonneg (pow_fac_pos h0 h1 N).le ha) h.hi

theorem Near.ofFac {N : Nat} {b c : K} (hb : 0 ≤ b) (hc : Fac u N c) : Near u N (b * c) b where
  lo := by rw [mul_comm]; exact mul_le_mul_of_nonneg_left hc.lo hb
  hi := by
    rw [show (1 - u) ^ N * (b * c) = b * (c * (1 - u) ^ N) by ring]
    exact mul_le_of_le_one_right hb hc.hi

theorem Near.trans {N M : Nat} {a b c : K} (h : Near u N a b) (h' : Near u M b c) : Near u (N + M) a c where
  lo := by
    rw [pow_add, mul_assoc]
    exact le_trans (mul_le_mul_of_nonneg_left h'.lo (pow_fac_pos h0 h1 N).le) h.lo
  hi := by
    rw [add_comm, pow_add, mul_assoc]
    exact le_trans (mul_le_mul_of_nonneg_left h.hi (pow_fac_pos h0 h1 M).le) h'.hi

theorem Near.mono {N M : Nat} {a b : K} (h : Near u N a b) (ha : 0 ≤ a) (hNM : N ≤ M) : Near u M a b := by
  have hb := h.nonneg_right h0 h1 ha
  have hp : (1 - u) ^ M ≤ (1 - u) ^ N := pow_le_pow_of_le_one (by linarith) (by linarith) hNM
  exact ⟨le_trans (mul_le_mul_of_nonneg_right hp hb) h.lo, le_trans (mul_le_mul_of_nonneg_right hp ha) h.hi⟩

theorem Near.mul {N M : Nat} {a b c d : K} (h : Near u N a b) (h' : Near u M c d) (ha : 0 ≤ a) (hc : 0 ≤ c) :
    Near u (N + M) (a * c) (b * d) where
  lo := by
    rw [pow_add, show (1 - u) ^ N * (1 - u) ^ M * (b * d) = (1 - u) ^ N * b * ((1 - u) ^ M * d) by ring]
    exact mul_le_mul h.lo h'.lo (mul_nonneg (pow_fac_pos h0 h1 M).le (h'.nonneg_right h0 h1 hc)) ha
  hi := by
    rw [pow_add, show (1 - u) ^ N * (1 - u) ^ M * (a * c) = (1 - u) ^ N * a * ((1 - u) ^ M * c) by ring]
    exact mul_le_mul h.hi h'.hi (mul_nonneg (pow_fac_pos h0 h1 M).le hc) (h.nonneg_right h0 h1 ha)

omit h0 h1 in
theorem Near.add {N : Nat} {a b c d : K} (h : Near u N a b) (h' : Near u N c d) : Near u N (a + c) (b + d) where
  lo := by rw [mul_add]; exact add_le_add h.lo h'.lo
  hi := by rw [mul_add]; exact add_le_add h.hi h'.hi

omit h0 h1 in
theorem Near.sum {ι : Type} (s : Finset ι) {N : Nat} {a b : ι → K} (h : ∀ i ∈ s, Near u N (a i) (b i)) :
    Near u N (∑ i ∈ s, a i) (∑ i ∈ s, b i) where
  lo := by rw [mul_sum]; exact sum_le_sum fun i hi => (h i hi).lo
  hi := by rw [mul_sum]; exact sum_le_sum fun i hi => (h i hi).hi

theorem Near.inv {N : Nat} {a b : K} (h : Near u N a b) (ha : 0 < a) (hb : 0 < b) : Near u N a⁻¹ b⁻¹ where
  lo := by
    rw [← div_eq_mul_inv, div_le_iff₀ hb, ← div_eq_inv_mul, le_div_iff₀ ha]
    exact h.hi
  hi := by
    rw [← div_eq_mul_inv, div_le_iff₀ ha, ← div_eq_inv_mul, le_div_iff₀ hb]
    exact h.lo

theorem Near.pos {N : Nat} {a b : K} (h : Near u N a b) (hb : 0 < b) : 0 < a :=
  lt_of_lt_of_le (mul_pos (pow_fac_pos h0 h1 N) hb) h.lo

theorem Near.refl {a : K} (N : Nat) (ha : 0 ≤ a) : Near u N a a := by
  have := Near.ofFac h0 h1 ha (Fac.one h0 h1 N)
  rwa [mul_one] at this

end

section
variable {F : Type u} {K : Type v} [Scalar F] [Field K] [LinearOrder K] [IsStrictOrderedRing K] [S : StdModel F K]

local notation "μ" => (StdModel.u (F := F) (K := K))

/-- A computed sum of `n` nonnegative numbers. -/
theorem vsum_fl {n : Nat} (f : Vec n F) (hf : ∀ i, 0 ≤ S.val (f i)) :
    0 ≤ S.val (vsum f) ∧ Near μ n (S.val (vsum f)) (∑ i, S.val (f i)) := by
  unfold vsum
  induction n with
  | zero => simp only [Fin.foldl_zero, S.val_zero, Fin.sum_univ_zero]; exact ⟨le_refl _, .refl u0 u1 _ (le_refl _)⟩
  | succ n ih =>
    rw [Fin.foldl_succ_last, Fin.sum_univ_castSucc]
    obtain ⟨h1, h2⟩ := ih (fun i => f i.castSucc) (fun i => hf _)
    generalize Fin.foldl n (fun x i => x + f i.castSucc) 0 = a at *
    obtain ⟨c, hc, hv⟩ := fl_add (K := K) a (f (Fin.last n))
    have hs : 0 ≤ S.val a + S.val (f (Fin.last n)) := add_nonneg h1 (hf _)
    rw [hv]
    refine ⟨mul_nonneg hs (hc.pos u0 u1).le, ?_⟩
    rw [Nat.add_comm n 1]
    exact (Near.ofFac u0 u1 hs hc).trans u0 u1 (h2.add (.refl u0 u1 _ (hf _)))

/-- From the mean square to the norm: conversion of `n`, division and square root. -/
theorem norm_fl {n N : Nat} (hn : 0 < n) (a : F) (b : K) (ha : 0 ≤ S.val a) (h : Near μ N (S.val a) b) :
    0 ≤ S.val (Scalar.sqrt (a / Scalar.ofNat n)) ∧
      Near μ (N + 4) (S.val (Scalar.sqrt (a / Scalar.ofNat n)) ^ 2) (b / n) := by
  have hn' : (0 : K) < n := by exact_mod_cast hn
  obtain ⟨c, hc, hv⟩ := fl_ofNat (F := F) (K := K) n
  have hc0 := hc.pos u0 u1
  have hpos : 0 < S.val (Scalar.ofNat n : F) := by rw [hv]; exact mul_pos hn' hc0
  obtain ⟨d, hd, hw⟩ := fl_div (K := K) a (Scalar.ofNat n) hpos.ne'
  have hd0 := hd.pos u0 u1
  have hq : 0 ≤ S.val a / S.val (Scalar.ofNat n : F) := div_nonneg ha hpos.le
  have hq' : 0 ≤ S.val (a / Scalar.ofNat n) := by rw [hw]; exact mul_nonneg hq hd0.le
  have h2 : Near μ 1 (S.val (a / Scalar.ofNat n)) (S.val a / S.val (Scalar.ofNat n : F)) := by
    rw [hw]; exact .ofFac u0 u1 hq hd
  have h3 : Near μ (N + 1) (S.val a / S.val (Scalar.ofNat n : F)) (b / n) := by
    rw [div_eq_mul_inv, div_eq_mul_inv]
    refine h.mul u0 u1 ?_ ha (inv_nonneg.2 hpos.le)
    refine Near.inv u0 u1 ?_ hpos hn'
    rw [hv]; exact .ofFac u0 u1 hn'.le hc
  obtain ⟨h4, h5, h6⟩ := S.val_sqrt (a / Scalar.ofNat n) hq'
  have h7 : Near μ 2 (S.val (Scalar.sqrt (a / Scalar.ofNat n)) ^ 2) (S.val (a / Scalar.ofNat n)) := by
    refine ⟨by rw [mul_comm]; exact h5, ?_⟩
    have hu0 := u0 (F := F) (K := K)
    have hu1 := u1 (F := F) (K := K)
    have h8 : (1 - μ) ^ 2 * (1 + μ) ^ 2 ≤ 1 := by
      rw [← mul_pow]
      exact pow_le_one₀ (mul_nonneg (by linarith) (by linarith)) (by nlinarith)
    calc (1 - μ) ^ 2 * S.val (Scalar.sqrt (a / Scalar.ofNat n)) ^ 2
        ≤ (1 - μ) ^ 2 * (S.val (a / Scalar.ofNat n) * (1 + μ) ^ 2) := mul_le_mul_of_nonneg_left h6 (sq_nonneg _)
      _ = S.val (a / Scalar.ofNat n) * ((1 - μ) ^ 2 * (1 + μ) ^ 2) := by ring
      _ ≤ _ := mul_le_of_le_one_right hq' h8
  refine ⟨h4, ?_⟩
  have := h7.trans u0 u1 (h2.trans u0 u1 h3)
  rwa [show 2 + (1 + (N + 1)) = N + 4 by omega] at this

theorem sq_fl {N : Nat} {a : F} {b c : K} (hc : Fac μ N c) (h : S.val a = b * c) :
    0 ≤ S.val (a * a) ∧ Near μ (2 * N + 1) (S.val (a * a)) (b ^ 2) := by
  obtain ⟨d, hd, hv⟩ := fl_mul (K := K) a a
  have hd0 := hd.pos u0 u1
  refine ⟨by rw [hv]; exact mul_nonneg (mul_self_nonneg _) hd0.le, ?_⟩
  rw [hv, h, show b * c * (b * c) * d = b ^ 2 * (c * c * d) by ring]
  rw [show 2 * N + 1 = N + N + 1 by omega]
  exact .ofFac u0 u1 (sq_nonneg _) ((hc.mul u0 u1 hc).mul u0 u1 hd)

end
end Verif.Proofs
