import Verif.Model.Dense
import Verif.Spec.Linear
import Mathlib.Algebra.BigOperators.Intervals
import Mathlib.Algebra.BigOperators.Ring.Finset
import Mathlib.Logic.Equiv.Basic
import Mathlib.Tactic.Ring
import Mathlib.Tactic.FieldSimp
import Mathlib.Tactic.Linarith
import Mathlib.Tactic.SplitIfs

set_option autoImplicit false
set_option linter.unusedVariables false
set_option linter.unusedSectionVars false
set_option linter.unusedSimpArgs false

namespace Verif

universe u

/-! ## Closed forms of the loops (law-free) -/
section lawfree
variable {K : Type u} [Scalar K]

theorem upd2_apply (a : Mat K) (i j : Nat) (v : K) (i' j' : Nat) :
    upd2 a i j v i' j' = if i' = i ∧ j' = j then v else a i' j' := rfl

theorem pivotSearch_range (a : Mat K) (m k : Nat) (hk : k < m) :
    k ≤ pivotSearch a m k ∧ pivotSearch a m k < m := by
  have := forUp_inv (n := m - (k + 1)) (s := k)
    (f := fun d l => if Scalar.gt (Scalar.abs (a (k + 1 + d) k)) (Scalar.abs (a l k)) then k + 1 + d else l)
    (P := fun _ l => k ≤ l ∧ l < m) ⟨Nat.le_refl k, hk⟩
    (by
      intro d l hd hl
      split
      · omega
      · exact hl)
  exact this

theorem swapRows_apply (a : Mat K) (n k l i j : Nat) (hj : j < n) :
    swapRows a n k l i j = a (if i = k then l else if i = l then k else i) j := by
  unfold swapRows
  split
  case isFalse h =>
    have h : l = k := by simpa using h
    subst h
    split
    · rename_i h; rw [h]
    · rfl
  case isTrue h =>
    have key : ∀ c, ∀ i j, forUp c (fun i a => let x := a k i; let y := a l i; upd2 (upd2 a k i y) l i x) a i j
        = if j < c then a (if i = k then l else if i = l then k else i) j else a i j := by
      intro c
      induction c with
      | zero => intro i j; simp
      | succ c ih =>
        intro i j
        rw [forUp_succ]
        simp only [upd2_apply]
        rw [ih l c, ih k c, ih i j]
        by_cases hjc : j = c
        · subst hjc
          by_cases hil : i = l
          · subst hil; simp [h]
          · by_cases hik : i = k
            · subst hik; simp [hil]
            · simp [hil, hik]
        · have : (j < c + 1) = (j < c) := by simp; omega
          simp [hjc, this]
    rw [key n i j, if_pos hj]

theorem scaleCol_apply (a : Mat K) (m k i j : Nat) :
    scaleCol a m k i j = if k < i ∧ i < m ∧ j = k then a i k * Scalar.recip (a k k) else a i j := by
  unfold scaleCol
  have key : ∀ c, ∀ i j, forUp c (fun d a' => let i := k + 1 + d; upd2 a' i k (a' i k * Scalar.recip (a k k))) a i j
      = if k < i ∧ i < k + 1 + c ∧ j = k then a i k * Scalar.recip (a k k) else a i j := by
    intro c
    induction c with
    | zero => intro i j; rw [if_neg (by omega)]; rfl
    | succ c ih =>
      intro i j
      rw [forUp_succ]
      simp only [upd2_apply]
      rw [ih, ih]
      by_cases h1 : i = k + 1 + c
      · by_cases h2 : j = k
        · subst h1 h2; simp
          intro h; omega
        · simp [h2]
      · simp only [h1, false_and, if_false]
        have : (i < k + 1 + (c + 1)) = (i < k + 1 + c) := by simp; omega
        simp [this]
  dsimp only
  rw [key]
  congr 1
  simp
  omega

theorem elimCol_apply (a : Mat K) (m k j i' j' : Nat) (hj : k < j) :
    elimCol a m k j i' j' =
      if k < i' ∧ i' < m ∧ j' = j ∧ Scalar.neb (a k j) 0 = true then a i' j - a k j * a i' k else a i' j' := by
  unfold elimCol
  have key : ∀ c, ∀ i' j', forUp c (fun d a' => let i := k + 1 + d; let aik := a' i k;
        upd2 a' i j (a' i j - a k j * aik)) a i' j'
      = if k < i' ∧ i' < k + 1 + c ∧ j' = j then a i' j - a k j * a i' k else a i' j' := by
    intro c
    induction c with
    | zero => intro i' j'; rw [if_neg (by omega)]; rfl
    | succ c ih =>
      intro i' j'
      rw [forUp_succ]
      simp only [upd2_apply]
      rw [ih, ih, ih]
      by_cases h1 : i' = k + 1 + c
      · by_cases h2 : j' = j
        · subst h1 h2
          have : ¬ k = j' := by omega
          simp [this]
          intro h; omega
        · simp [h2]
      · simp only [h1, false_and, if_false]
        have : (i' < k + 1 + (c + 1)) = (i' < k + 1 + c) := by simp; omega
        simp [this]
  dsimp only
  split
  case isTrue h =>
    rw [key]
    congr 1
    simp [h]
    omega
  case isFalse h =>
    rw [if_neg]
    intro h'
    exact h h'.2.2.2

theorem elim_apply (a : Mat K) (m n k i j : Nat) :
    elim a m n k i j =
      if k < i ∧ i < m ∧ k < j ∧ j < n ∧ Scalar.neb (a k j) 0 = true then a i j - a k j * a i k else a i j := by
  unfold elim
  have key : ∀ c, ∀ i j, forUp c (fun d a => elimCol a m k (k + 1 + d)) a i j =
      if k < i ∧ i < m ∧ k < j ∧ j < k + 1 + c ∧ Scalar.neb (a k j) 0 = true then a i j - a k j * a i k
      else a i j := by
    intro c
    induction c with
    | zero => intro i j; rw [if_neg (by omega)]; rfl
    | succ c ih =>
      intro i j
      rw [forUp_succ, elimCol_apply _ _ _ _ _ _ (by omega)]
      rw [ih k, ih i k, ih i]
      simp only [Nat.lt_irrefl, false_and, if_false, and_false]
      by_cases h2 : j = k + 1 + c
      · subst h2
        have h3 : ¬ (k + 1 + c < k + 1 + c) := by omega
        have h4 : k < k + 1 + c := by omega
        simp [h3, h4]
        rw [ih]
        simp
      · have h3 : (j < k + 1 + (c + 1)) = (j < k + 1 + c) := by simp; omega
        rw [if_neg (by simp [h2]), ih]
        simp only [h3]
  rw [key]
  congr 1
  simp
  omega

end lawfree

/-! ## The LU invariant (exact arithmetic) -/
section exact
variable {K : Type u} [Field K] [LinearOrder K] [IsStrictOrderedRing K] [ExactParams K]
open Finset Spec

theorem pivotSearch_max (a : Mat K) (m k : Nat) (i : Nat) (hki : k ≤ i) (him : i < m) :
    |a i k| ≤ |a (pivotSearch a m k) k| := by
  have := forUp_inv (n := m - (k + 1)) (s := k)
    (f := fun d l => if Scalar.gt (Scalar.abs (a (k + 1 + d) k)) (Scalar.abs (a l k)) then k + 1 + d else l)
    (P := fun d l => ∀ i, k ≤ i → i < k + 1 + d → |a i k| ≤ |a l k|)
    (by intro i h1 h2; have : i = k := by omega
        subst this; exact le_refl _)
    (by
      intro d l hd hl
      simp only [Scalar.gt, ex_lt, ex_abs, decide_eq_true_eq]
      split
      case isTrue h =>
        intro i h1 h2
        by_cases h3 : i = k + 1 + d
        · rw [h3]
        · exact le_trans (hl i h1 (by omega)) (le_of_lt h)
      case isFalse h =>
        intro i h1 h2
        by_cases h3 : i = k + 1 + d
        · rw [h3]; exact not_lt.mp h
        · exact hl i h1 (by omega))
  exact this i hki (by omega)

theorem rowPerm_congr {p q : Nat → Nat} {k : Nat} (h : ∀ t, t < k → p t = q t) : rowPerm p k = rowPerm q k := by
  induction k with
  | zero => rfl
  | succ k ih =>
    simp only [rowPerm]
    rw [ih (fun t ht => h t (by omega)), h k (by omega)]

theorem swap_lt {k l m i : Nat} (hk : k < m) (hl : l < m) (hi : i < m) : Equiv.swap k l i < m := by
  rw [Equiv.swap_apply_def]
  split_ifs <;> omega

theorem rowPerm_lt {p : Nat → Nat} {k m : Nat} (hk : k ≤ m) (h : ∀ t, t < k → p t < m) {i : Nat} (hi : i < m) :
    rowPerm p k i < m := by
  induction k generalizing i with
  | zero => exact hi
  | succ k ih =>
    simp only [rowPerm, Equiv.Perm.mul_apply]
    exact ih (by omega) (fun t ht => h t (by omega)) (swap_lt (by omega) (h k (by omega)) hi)

theorem rowPerm_surj {p : Nat → Nat} {k m : Nat} (hk : k ≤ m) (h : ∀ t, t < k → p t < m) {i : Nat} (hi : i < m) :
    ∃ i', i' < m ∧ rowPerm p k i' = i := by
  induction k generalizing i with
  | zero => exact ⟨i, hi, rfl⟩
  | succ k ih =>
    obtain ⟨i', h1, h2⟩ := ih (by omega) (fun t ht => h t (by omega)) hi
    refine ⟨Equiv.swap k (p k) i', swap_lt (by omega) (h k (by omega)) h1, ?_⟩
    simp only [rowPerm, Equiv.Perm.mul_apply, Equiv.swap_apply_self]
    exact h2

/-- What holds after `k` elimination passes: `M` is the storage, `A` the original matrix. -/
structure LUInv (m n : Nat) (A M : Mat K) (p : Nat → Nat) (k : Nat) : Prop where
  piv : ∀ t, t < k → t ≤ p t ∧ p t < m
  diag : ∀ t, t < k → M t t ≠ 0
  mult : ∀ t, t < k → ∀ i, t < i → i < m → |M i t| ≤ 1
  low : ∀ j, j < k → ∀ i, j < i → i < m → A (rowPerm p k i) j = ∑ t ∈ range (j + 1), M i t * M t j
  up : ∀ i, i < m → ∀ j, j < n → (i ≤ j ∨ k ≤ j) →
    A (rowPerm p k i) j = (∑ t ∈ range (min i k), M i t * M t j) + M i j

theorem LUInv.init (m n : Nat) (A : Mat K) (p : Nat → Nat) : LUInv m n A A p 0 where
  piv := by intro t ht; omega
  diag := by intro t ht; omega
  mult := by intro t ht; omega
  low := by intro t ht; omega
  up := by intro i hi j hj _; simp [rowPerm]

theorem LUInv.congr {m n : Nat} {A M : Mat K} {p q : Nat → Nat} {k : Nat} (h : LUInv m n A M p k)
    (hpq : ∀ t, t < k → p t = q t) : LUInv m n A M q k := by
  have hr := rowPerm_congr hpq
  refine ⟨?_, h.diag, h.mult, ?_, ?_⟩
  · intro t ht; rw [← hpq t ht]; exact h.piv t ht
  · rw [← hr]; exact h.low
  · rw [← hr]; exact h.up

/-- The storage after the swap, entry by entry. -/
theorem LUInv.swap {m n : Nat} {A M : Mat K} {p : Nat → Nat} {k l : Nat} (h : LUInv m n A M p k) (hkl : k ≤ l)
    (hlm : l < m) (hkn : k < n) (M' : Mat K) (hM' : ∀ i j, j < n → M' i j = M (Equiv.swap k l i) j) :
    (∀ t, t < k → M' t t ≠ 0) ∧ (∀ t, t < k → ∀ i, t < i → i < m → |M' i t| ≤ 1) ∧
    (∀ j, j < k → ∀ i, j < i → i < m → A (rowPerm p k (Equiv.swap k l i)) j = ∑ t ∈ range (j + 1), M' i t * M' t j) ∧
    (∀ i, i < m → ∀ j, j < n → (i ≤ j ∨ k ≤ j) →
      A (rowPerm p k (Equiv.swap k l i)) j = (∑ t ∈ range (min i k), M' i t * M' t j) + M' i j) := by
  have hlow : ∀ t, t < k → Equiv.swap k l t = t := by
    intro t ht; exact Equiv.swap_apply_of_ne_of_ne (by omega) (by omega)
  have hsw : ∀ i, i < m → Equiv.swap k l i < m := fun i hi => swap_lt (by omega) hlm hi
  have hge : ∀ i, k ≤ i → k ≤ Equiv.swap k l i := by
    intro i hi; rw [Equiv.swap_apply_def]; split_ifs <;> omega
  refine ⟨?_, ?_, ?_, ?_⟩
  · intro t ht; rw [hM' t t (by omega), hlow t ht]; exact h.diag t ht
  · intro t ht i hti him
    rw [hM' i t (by omega)]
    by_cases hik : i < k
    · rw [hlow i hik]; exact h.mult t ht i hti him
    · exact h.mult t ht _ (lt_of_lt_of_le ht (hge i (by omega))) (hsw i him)
  · intro j hj i hji him
    have hij : j < Equiv.swap k l i := by
      by_cases hik : i < k
      · rw [hlow i hik]; exact hji
      · exact lt_of_lt_of_le hj (hge i (by omega))
    rw [h.low j hj _ hij (hsw i him)]
    apply sum_congr rfl
    intro t ht
    rw [mem_range] at ht
    rw [hM' i t (by omega), hM' t j (by omega), hlow t (by omega)]
  · intro i him j hj hij
    have hcase : Equiv.swap k l i ≤ j ∨ k ≤ j := by
      by_cases hik : i < k
      · rw [hlow i hik]; exact hij
      · right; omega
    rw [h.up _ (hsw i him) j hj hcase, hM' i j hj]
    congr 1
    have hmin : min (Equiv.swap k l i) k = min i k := by
      by_cases hik : i < k
      · rw [hlow i hik]
      · have := hge i (by omega); omega
    rw [hmin]
    apply sum_congr rfl
    intro t ht
    rw [mem_range] at ht
    rw [hM' i t (by omega), hM' t j hj, hlow t (by omega)]

theorem LUInv.step {m n : Nat} {A M M' : Mat K} {p : Nat → Nat} {k l : Nat} (h : LUInv m n A M p k)
    (hl : pivotSearch M m k = l) (hkm : k < m) (hkn : k < n) (hnz : M l k ≠ 0)
    (hM' : M' = elim (scaleCol (swapRows M n k l) m k) m n k) : LUInv m n A M' (upd p k l) (k + 1) := by
  obtain ⟨hkl, hlm⟩ := pivotSearch_range M m k hkm
  rw [hl] at hkl hlm
  have hmax := pivotSearch_max M m k
  rw [hl] at hmax
  -- after the swap
  obtain ⟨s1, s2, s3, s4⟩ := h.swap hkl hlm hkn (swapRows M n k l) (by
    intro i j hj
    rw [swapRows_apply _ _ _ _ _ _ hj, Equiv.swap_apply_def])
  generalize hS : swapRows M n k l = S at *
  have hSkk : S k k = M l k := by
    rw [← hS, swapRows_apply _ _ _ _ _ _ hkn]; simp
  have hSik : ∀ i, k < i → i < m → |S i k| ≤ |S k k| := by
    intro i hi him
    rw [hSkk, ← hS, swapRows_apply _ _ _ _ _ _ hkn]
    split_ifs
    · exact le_refl _
    · exact hmax k (le_refl _) hkm
    · exact hmax i (by omega) him
  have hSkk0 : S k k ≠ 0 := by rw [hSkk]; exact hnz
  have hM'e : ∀ i j, i < m → j < n → M' i j =
      if k < i then (if j = k then S i k * (S k k)⁻¹ else if k < j then S i j - S k j * (S i k * (S k k)⁻¹) else S i j)
      else S i j := by
    intro i j him hj
    rw [hM', elim_apply]
    simp only [scaleCol_apply, Scalar.neb, ex_eqb, ex_recip]
    by_cases hki : k < i
    · by_cases hjk : j = k
      · subst hjk; simp [hki, him]
      · by_cases hkj : k < j
        · by_cases h0 : S k j = 0
          · simp [hki, him, hjk, hkj, hj, h0]
          · simp [hki, him, hjk, hkj, hj, h0]
        · simp [hki, hjk, hkj]
    · simp [hki]
  have hperm : rowPerm (upd p k l) (k + 1) = rowPerm p k * Equiv.swap k l := by
    simp only [rowPerm, upd_same]
    rw [rowPerm_congr (q := p) (fun t ht => upd_ne _ _ (by omega))]
  refine ⟨?_, ?_, ?_, ?_, ?_⟩
  · intro t ht
    by_cases htk : t = k
    · subst htk; simp [hkl, hlm]
    · rw [upd_ne _ _ htk]; exact h.piv t (by omega)
  · intro t ht
    rw [hM'e t t (by omega) (by omega), if_neg (by omega)]
    by_cases htk : t = k
    · subst htk; exact hSkk0
    · exact s1 t (by omega)
  · intro t ht i hti him
    rw [hM'e i t him (by omega)]
    by_cases htk : t = k
    · subst htk
      rw [if_pos hti, if_pos rfl, abs_mul, abs_inv]
      have hpos : 0 < |S t t| := abs_pos.mpr hSkk0
      rw [← div_eq_mul_inv, div_le_one hpos]
      exact hSik i hti him
    · rw [if_neg htk, if_neg (by omega : ¬ k < t), ite_self]
      exact s2 t (by omega) i hti him
  · intro j hj i hji him
    rw [hperm, Equiv.Perm.mul_apply]
    by_cases hjk : j = k
    · subst hjk
      rw [s4 i him j hkn (Or.inr (le_refl _)), sum_range_succ, Nat.min_eq_right (by omega : j ≤ i)]
      congr 1
      · apply sum_congr rfl
        intro t ht
        rw [mem_range] at ht
        rw [hM'e i t him (by omega), hM'e t j (by omega) hkn, if_pos hji, if_neg (by omega), if_neg (by omega),
          if_neg (by omega)]
      · rw [hM'e i j him hkn, hM'e j j (by omega) hkn, if_pos hji, if_pos rfl, if_neg (by omega)]
        field_simp
    · rw [s3 j (by omega) i hji him]
      apply sum_congr rfl
      intro t ht
      rw [mem_range] at ht
      rw [hM'e i t him (by omega), hM'e t j (by omega) (by omega), if_neg (by omega : ¬ k < t)]
      rw [if_neg (by omega : ¬ t = k), if_neg (by omega : ¬ k < t), ite_self]
  · intro i him j hj hij
    rw [hperm, Equiv.Perm.mul_apply, s4 i him j hj (by omega)]
    by_cases hki : k < i
    · have hkj : k < j := by omega
      rw [Nat.min_eq_right (by omega : k ≤ i), Nat.min_eq_right (by omega : k + 1 ≤ i), sum_range_succ]
      rw [hM'e i j him hj, hM'e i k him hkn, hM'e k j (by omega) hj]
      have hjk : ¬ j = k := by omega
      simp only [hki, hkj, hjk, if_true, if_false, lt_irrefl]
      have : ∑ t ∈ range k, M' i t * M' t j = ∑ t ∈ range k, S i t * S t j := by
        apply sum_congr rfl
        intro t ht
        rw [mem_range] at ht
        rw [hM'e i t him (by omega), hM'e t j (by omega) hj, if_pos hki, if_neg (by omega), if_neg (by omega),
          if_neg (by omega)]
      rw [this]
      ring
    · rw [hM'e i j him hj, if_neg hki, Nat.min_eq_left (by omega : i ≤ k), Nat.min_eq_left (by omega : i ≤ k + 1)]
      congr 1
      apply sum_congr rfl
      intro t ht
      rw [mem_range] at ht
      rw [hM'e i t him (by omega), hM'e t j (by omega) hj, if_neg hki, if_neg (by omega)]

theorem rfLoop_ok {m n : Nat} (A : Mat K) (p0 : Nat → Nat) (c : Nat) (hc : c ≤ n) {M : Mat K}
    {p : Nat → Nat} (h : rfLoop m n A p0 c = .ok M p) : LUInv m n A M p c := by
  induction c generalizing M p with
  | zero =>
    simp only [rfLoop] at h
    cases h
    exact LUInv.init m n A p0
  | succ c ih =>
    simp only [rfLoop] at h
    cases hr : rfLoop m n A p0 c with
    | ok M1 p1 =>
      rw [hr] at h
      have hi := ih (by omega) hr
      simp only [rfStep] at h
      split at h
      · cases h
      split at h
      · cases h
      rename_i h1 h2
      simp at h2
      cases h
      exact hi.step rfl (by omega) (by omega) h2 rfl
    | err col M1 p1 => rw [hr] at h; cases h
    | panic => rw [hr] at h; cases h

theorem rfLoop_err {m n : Nat} (A : Mat K) (p0 : Nat → Nat) (c : Nat) (hc : c ≤ n) {M : Mat K}
    {p : Nat → Nat} {col : Nat} (h : rfLoop m n A p0 c = .err col M p) :
    ∃ k, k < c ∧ col = k + 1 ∧ LUInv m n A M p k ∧ ∀ i, k ≤ i → i < m → M i k = 0 := by
  induction c generalizing M p col with
  | zero => simp only [rfLoop] at h; cases h
  | succ c ih =>
    simp only [rfLoop] at h
    cases hr : rfLoop m n A p0 c with
    | ok M1 p1 =>
      rw [hr] at h
      have hi := rfLoop_ok A p0 c (by omega) hr
      simp only [rfStep] at h
      split at h
      · cases h
      split at h
      · rename_i h1 h2
        simp at h2
        cases h
        refine ⟨c, by omega, rfl, ?_, ?_⟩
        · exact hi.congr (fun t ht => (upd_ne _ _ (by omega)).symm)
        · intro i hci him
          have := pivotSearch_max M m c i hci him
          rw [h2, abs_zero] at this
          exact abs_eq_zero.mp (le_antisymm this (abs_nonneg _))
      · cases h
    | err col M1 p1 =>
      rw [hr] at h
      cases h
      obtain ⟨k, hk, h1, h2, h3⟩ := ih (by omega) hr
      exact ⟨k, by omega, h1, h2, h3⟩
    | panic => rw [hr] at h; cases h


/-! ## Solving with the factors -/

theorem permuteB_eq {n : Nat} (p : Nat → Nat) (b : Nat → K) (c : Nat) (hc : c ≤ n) (h : ∀ t, t < c → p t < n) :
    permuteB n p b c = some (fun i => b (rowPerm p c i)) := by
  induction c with
  | zero => rfl
  | succ c ih =>
    simp only [permuteB]
    rw [ih (by omega) (fun t ht => h t (by omega))]
    dsimp only
    split
    case isTrue hne =>
      rw [if_pos (h c (by omega))]
      congr 1
      funext i
      simp only [upd, rowPerm, Equiv.Perm.mul_apply, Equiv.swap_apply_def]
      by_cases h1 : i = p c
      · have h2 : ¬ i = c := fun h => hne (by omega)
        simp only [h1, if_true]
        rw [if_neg (fun h => hne h)]
      · by_cases h2 : i = c
        · simp [h2, h1]
          intro h3; omega
        · simp [h1, h2]
    case isFalse he =>
      have he : p c = c := by simpa using he
      congr 1
      funext i
      simp [rowPerm, he]

/-- Forward substitution computes the solution of `L y = b`. -/
theorem forwardSub_spec (n : Nat) (M : Mat K) (b : Nat → K) (i : Nat) (hi : i < n) :
    b i = (∑ t ∈ range i, M i t * forwardSub n M b t) + forwardSub n M b i := by
  unfold forwardSub
  have inner : ∀ (k : Nat) (b : Nat → K) (bk : K) (c i : Nat),
      forUp c (fun d b => let i := k + 1 + d; upd b i (b i - M i k * bk)) b i =
        if k < i ∧ i < k + 1 + c then b i - M i k * bk else b i := by
    intro k b bk c
    induction c with
    | zero => intro i; rw [if_neg (by omega)]; rfl
    | succ c ih =>
      intro i
      rw [forUp_succ]
      simp only [upd]
      rw [ih, ih]
      by_cases h : i = k + 1 + c
      · subst h; simp
        intro h; omega
      · have : (i < k + 1 + (c + 1)) = (i < k + 1 + c) := by simp; omega
        simp [h, this]
  have key := forUp_inv (n := n - 1) (s := b)
    (f := fun k b =>
      let bk := b k
      forUp (n - (k + 1)) (fun d b => let i := k + 1 + d; upd b i (b i - M i k * bk)) b)
    (P := fun k y => ∀ i, i < n → b i = (∑ t ∈ range (min i k), M i t * y t) + y i)
    (by intro i hi; simp)
    (by
      intro k y hk hy i hi
      dsimp only
      have hin := inner k y (y k) (n - (k + 1))
      have hlow : ∀ t, t ≤ k → forUp (n - (k + 1)) (fun d b => let i := k + 1 + d; upd b i (b i - M i k * y k)) y t
          = y t := by
        intro t ht; rw [hin, if_neg (by omega)]
      by_cases hik : k < i
      · rw [Nat.min_eq_right (by omega : k + 1 ≤ i), sum_range_succ, hin i, if_pos (by omega), hlow k (le_refl _)]
        rw [sum_congr rfl (g := fun t => M i t * y t)
          (by intro t ht; rw [mem_range] at ht; rw [hlow t (by omega)])]
        have := hy i hi
        rw [Nat.min_eq_right (by omega : k ≤ i)] at this
        rw [this]; ring
      · rw [hlow i (by omega)]
        rw [hy i hi, Nat.min_eq_left (by omega : i ≤ k), Nat.min_eq_left (by omega : i ≤ k + 1)]
        congr 1
        apply sum_congr rfl
        intro t ht; rw [mem_range] at ht; rw [hlow t (by omega)])
  have := key i hi
  rw [Nat.min_eq_left (by omega : i ≤ n - 1)] at this
  exact this

/-- Backward substitution computes the solution of `U x = y`. -/
theorem backwardSub_spec (n : Nat) (hn : 0 < n) (M : Mat K) (b : Nat → K) (hd : ∀ t, t < n → M t t ≠ 0) (i : Nat)
    (hi : i < n) : ∑ j ∈ range n, upperTri M i j * backwardSub n M b j = b i := by
  unfold backwardSub
  have inner : ∀ (k : Nat) (b : Nat → K) (bk : K) (c i : Nat),
      forUp c (fun i b => upd b i (b i - M i k * bk)) b i = if i < c then b i - M i k * bk else b i := by
    intro k b bk c
    induction c with
    | zero => intro i; rw [if_neg (by omega)]; rfl
    | succ c ih =>
      intro i
      rw [forUp_succ]
      simp only [upd]
      rw [ih, ih]
      by_cases h : i = c
      · subst h; simp
      · have : (i < c + 1) = (i < c) := by simp; omega
        simp [h, this]
  -- after `d` passes: the columns `n - d ..< n` have been eliminated
  have key := forUp_inv (n := n - 1) (s := b)
    (f := fun d b =>
        let k := n - 1 - d
        let b := upd b k (b k / M k k)
        let bk := b k
        forUp k (fun i b => upd b i (b i - M i k * bk)) b)
    (P := fun d x => ∀ i, i < n →
      b i = (∑ j ∈ range n, if n - d ≤ j then upperTri M i j * x j else 0) + if i < n - d then x i else 0)
    (by
      intro i hi
      rw [sum_eq_zero]
      · simp [hi]
      · intro j hj; rw [mem_range] at hj; rw [if_neg (by omega)])
    (by
      intro d x hd' hx i hi
      dsimp only
      rw [upd_same]
      have hk : n - 1 - d + 1 = n - d := by omega
      generalize hkk : n - 1 - d = k at *
      have hnk : n - (d + 1) = k := by omega
      rw [hnk]
      have hin := inner k (upd x k (x k / M k k)) (x k / M k k) k
      have hgt : ∀ t, k < t → forUp k (fun i b => upd b i (b i - M i k * (x k / M k k))) (upd x k (x k / M k k)) t
          = x t := by
        intro t ht; rw [hin, if_neg (by omega), upd_ne _ _ (by omega)]
      have heq : forUp k (fun i b => upd b i (b i - M i k * (x k / M k k))) (upd x k (x k / M k k)) k
          = x k / M k k := by
        rw [hin, if_neg (by omega), upd_same]
      have hlt : ∀ t, t < k → forUp k (fun i b => upd b i (b i - M i k * (x k / M k k))) (upd x k (x k / M k k)) t
          = x t - M t k * (x k / M k k) := by
        intro t ht; rw [hin, if_pos ht, upd_ne _ _ (by omega)]
      generalize forUp k (fun i b => upd b i (b i - M i k * (x k / M k k))) (upd x k (x k / M k k)) = x' at *
      have hsum : (∑ j ∈ range n, if k ≤ j then upperTri M i j * x' j else 0) =
          (∑ j ∈ range n, if n - d ≤ j then upperTri M i j * x j else 0) + upperTri M i k * x' k := by
        have hkn : k ∈ range n := by rw [mem_range]; omega
        rw [← Finset.add_sum_erase _ _ hkn, ← Finset.add_sum_erase (range n)
          (fun j => if n - d ≤ j then upperTri M i j * x j else 0) hkn]
        rw [if_pos (le_refl k), if_neg (by omega), zero_add, add_comm]
        congr 1
        apply sum_congr rfl
        intro j hj
        rw [mem_erase, mem_range] at hj
        by_cases hkj : k < j
        · rw [if_pos (by omega), if_pos (by omega), hgt j hkj]
        · rw [if_neg (by omega), if_neg (by omega)]
      rw [hsum, heq]
      have hM : M k k ≠ 0 := hd k (by omega)
      rw [hx i hi]
      by_cases hik : i < k
      · rw [if_pos (by omega), if_pos hik, hlt i hik]
        simp only [upperTri]
        rw [if_pos (by omega : i ≤ k)]
        ring
      · by_cases hik' : i = k
        · subst hik'
          rw [if_pos (by omega), if_neg (by omega)]
          simp only [upperTri]
          rw [if_pos (le_refl _)]
          field_simp
          ring
        · rw [if_neg (by omega), if_neg hik]
          simp only [upperTri]
          rw [if_neg (by omega : ¬ i ≤ k)]
          ring)
  dsimp only
  generalize forUp (n - 1) (fun d b =>
        let k := n - 1 - d
        let b := upd b k (b k / M k k)
        let bk := b k
        forUp k (fun i b => upd b i (b i - M i k * bk)) b) b = x at *
  have h1 := key i hi
  have hn1 : n - (n - 1) = 1 := by omega
  rw [hn1] at h1
  rw [h1]
  have h0 : (0 : Nat) ∈ range n := by rw [mem_range]; exact hn
  rw [← Finset.add_sum_erase _ _ h0, ← Finset.add_sum_erase (range n)
    (fun j => if 1 ≤ j then upperTri M i j * x j else 0) h0]
  rw [if_neg (by omega), zero_add, upd_same, add_comm]
  congr 1
  · apply sum_congr rfl
    intro j hj
    rw [mem_erase, mem_range] at hj
    rw [if_pos (by omega), upd_ne _ _ hj.1]
  · simp only [upperTri]
    by_cases hi0 : i = 0
    · subst hi0
      simp
      have := hd 0 hn
      field_simp
    · rw [if_neg (by omega), if_neg (by omega), zero_mul]

/-! ## Consequences of the invariant -/

/-- `P A = L U` on the first `c` columns (any `c ≤ k`). -/
theorem LUInv.factor {m n : Nat} {A M : Mat K} {p : Nat → Nat} {k : Nat} (h : LUInv m n A M p k) (hkm : k ≤ m)
    (hkn : k ≤ n) (i : Nat) (hi : i < m) (j : Nat) (hj : j < k) :
    A (rowPerm p k i) j = ∑ t ∈ range k, lowerUnit M i t * upperTri M t j := by
  by_cases hji : j < i
  · rw [h.low j hj i hji hi]
    rw [← Finset.sum_subset (s₁ := range (j + 1)) (s₂ := range k)]
    · apply sum_congr rfl
      intro t ht
      rw [mem_range] at ht
      simp only [lowerUnit, upperTri]
      rw [if_pos (by omega), if_pos (by omega)]
    · intro t ht; rw [mem_range] at *; omega
    · intro t ht ht'
      rw [mem_range] at *
      simp only [upperTri]
      rw [if_neg (by omega), mul_zero]
  · rw [h.up i hi j (by omega) (Or.inl (by omega)), Nat.min_eq_left (by omega : i ≤ k), ]
    rw [← Finset.sum_subset (s₁ := range (i + 1)) (s₂ := range k)]
    · rw [sum_range_succ]
      congr 1
      · apply sum_congr rfl
        intro t ht
        rw [mem_range] at ht
        simp only [lowerUnit, upperTri]
        rw [if_pos (by omega), if_pos (by omega)]
      · simp only [lowerUnit, upperTri]
        rw [if_neg (by omega), if_pos trivial, if_pos (by omega), one_mul]
    · intro t ht; rw [mem_range] at *; omega
    · intro t ht ht'
      rw [mem_range] at *
      simp only [lowerUnit]
      rw [if_neg (by omega), if_neg (by omega), zero_mul]

/-- If `L U v = 0` with nonzero diagonal of `U`, then `v = 0` on the first `k` entries. -/
theorem LUInv.independent {m n : Nat} {A M : Mat K} {p : Nat → Nat} {k : Nat} (h : LUInv m n A M p k) (hkm : k ≤ m)
    (hkn : k ≤ n) (v : Nat → K) (hv : ∀ i, i < m → mulVec k A v i = 0) : ∀ j, j < k → v j = 0 := by
  -- w = U v
  have hLw : ∀ i, i < m → ∑ t ∈ range k, lowerUnit M i t * (∑ j ∈ range k, upperTri M t j * v j) = 0 := by
    intro i hi
    have := hv _ (rowPerm_lt hkm (fun t ht => (h.piv t ht).2) hi)
    unfold mulVec at this
    rw [← this]
    simp only [mul_sum]
    rw [sum_comm]
    apply sum_congr rfl
    intro j hj
    rw [mem_range] at hj
    rw [h.factor hkm hkn i hi j hj, sum_mul]
    apply sum_congr rfl
    intro t _
    ring
  generalize hw : (fun t => ∑ j ∈ range k, upperTri M t j * v j) = w at *
  have hwt : ∀ t, (∑ j ∈ range k, upperTri M t j * v j) = w t := fun t => by rw [← hw]
  simp only [hwt] at hLw
  have hw0 : ∀ i, i < k → w i = 0 := by
    intro i
    induction i using Nat.strong_induction_on with
    | _ i ih =>
      intro hi
      have := hLw i (by omega)
      rw [sum_eq_single i] at this
      · simpa [lowerUnit] using this
      · intro t ht hti
        rw [mem_range] at ht
        by_cases htlt : t < i
        · rw [ih t htlt ht, mul_zero]
        · simp only [lowerUnit]
          rw [if_neg htlt, if_neg hti, zero_mul]
      · intro hn; rw [mem_range] at hn; omega
  -- back substitution
  have : ∀ d j, j < k → k - 1 - j = d → v j = 0 := by
    intro d
    induction d using Nat.strong_induction_on with
    | _ d ih =>
      intro j hj hd
      have h1 := hw0 j hj
      rw [← hwt j, sum_eq_single j] at h1
      · simp only [upperTri, le_refl, if_true] at h1
        rcases mul_eq_zero.mp h1 with h2 | h2
        · exact absurd h2 (h.diag j hj)
        · exact h2
      · intro t ht htj
        rw [mem_range] at ht
        simp only [upperTri]
        split_ifs with hjt
        · rw [ih (k - 1 - t) (by omega) t ht rfl, mul_zero]
        · rw [zero_mul]
      · intro hn; rw [mem_range] at hn; omega
  intro j hj
  exact this _ j hj rfl

/-- At a zero pivot column the first `k + 1` columns are dependent. -/
theorem LUInv.dependent {m n : Nat} {A M : Mat K} {p : Nat → Nat} {k : Nat} (h : LUInv m n A M p k) (hkm : k < m)
    (hkn : k < n) (h0 : ∀ i, k ≤ i → i < m → M i k = 0) : ColsDependent m A (k + 1) := by
  -- solve U v = -M[.., k] on the leading block
  let v0 : Nat → K := fun i => if i < k then backwardSub k M (fun i => - M i k) i else 0
  have hv0 : ∀ i, i < k → ∑ j ∈ range k, upperTri M i j * v0 j = - M i k := by
    intro i hi
    rw [← backwardSub_spec k (by omega) M (fun i => - M i k) h.diag i hi]
    apply sum_congr rfl
    intro j hj
    rw [mem_range] at hj
    simp only [v0]
    rw [if_pos hj]
  refine ⟨fun j => if j = k then 1 else v0 j, ⟨k, by omega, by simp⟩, ?_⟩
  intro i hi
  obtain ⟨i', hi', rfl⟩ := rowPerm_surj (k := k) (by omega) (fun t ht => (h.piv t ht).2) hi
  unfold mulVec
  rw [sum_range_succ]
  simp only [if_true, mul_one]
  rw [h.up i' hi' k hkn (Or.inr (le_refl _))]
  have h1 : ∑ j ∈ range k, A (rowPerm p k i') j * (if j = k then 1 else v0 j)
      = - ∑ t ∈ range k, lowerUnit M i' t * M t k := by
    rw [← sum_neg_distrib]
    have : ∀ j ∈ range k, A (rowPerm p k i') j * (if j = k then 1 else v0 j)
        = ∑ t ∈ range k, lowerUnit M i' t * (upperTri M t j * v0 j) := by
      intro j hj
      rw [mem_range] at hj
      rw [if_neg (by omega), h.factor (by omega) (by omega) i' hi' j hj, sum_mul]
      apply sum_congr rfl
      intro t _
      ring
    rw [sum_congr rfl this, sum_comm]
    apply sum_congr rfl
    intro t ht
    rw [mem_range] at ht
    rw [← mul_sum, hv0 t ht]
    ring
  rw [h1]
  by_cases hik : i' < k
  · rw [Nat.min_eq_left (by omega : i' ≤ k)]
    rw [← Finset.sum_subset (s₁ := range (i' + 1)) (s₂ := range k)]
    · rw [sum_range_succ]
      have : ∑ t ∈ range i', lowerUnit M i' t * M t k = ∑ t ∈ range i', M i' t * M t k := by
        apply sum_congr rfl
        intro t ht
        rw [mem_range] at ht
        simp only [lowerUnit]
        rw [if_pos ht]
      rw [this]
      simp [lowerUnit]
    · intro t ht; rw [mem_range] at *; omega
    · intro t ht ht'
      rw [mem_range] at *
      simp only [lowerUnit]
      rw [if_neg (by omega), if_neg (by omega), zero_mul]
  · rw [Nat.min_eq_right (by omega : k ≤ i'), h0 i' (by omega) hi', add_zero]
    have : ∑ t ∈ range k, lowerUnit M i' t * M t k = ∑ t ∈ range k, M i' t * M t k := by
      apply sum_congr rfl
      intro t ht
      rw [mem_range] at ht
      simp only [lowerUnit]
      rw [if_pos (by omega)]
    rw [this]
    ring

end exact
end Verif
