import Verif.Spec.Rounding
import Verif.Spec.Linear
import Verif.Proofs.Dense
import Mathlib.Algebra.Order.Field.Basic
import Mathlib.Tactic.Positivity
import Mathlib.Tactic.FieldSimp
import Mathlib.Tactic.GCongr
import Mathlib.Algebra.Order.Ring.Pow

/-!
# Rounding errors of the dense solver
-/

set_option autoImplicit false
set_option linter.unusedSectionVars false
set_option linter.unusedSimpArgs false
set_option linter.unusedVariables false

namespace Verif.Proofs

open Verif Verif.Spec Finset

universe u v

section factors
variable {K : Type v} [Field K] [LinearOrder K] [IsStrictOrderedRing K]

/-- A product of `m` factors between `1 - u` and `1 / (1 - u)`. -/
structure Fac (u : K) (m : Nat) (c : K) : Prop where
  lo : (1 - u) ^ m ≤ c
  hi : c * (1 - u) ^ m ≤ 1

variable {u : K} (h0 : 0 ≤ u) (h1 : u < 1)
include h0 h1

theorem pow_fac_pos (m : Nat) : 0 < (1 - u) ^ m := pow_pos (by linarith) m

theorem Fac.pos {m : Nat} {c : K} (h : Fac u m c) : 0 < c := lt_of_lt_of_le (pow_fac_pos h0 h1 m) h.lo

theorem Fac.one (m : Nat) : Fac u m 1 := by
  have : (1 - u) ^ m ≤ 1 := pow_le_one₀ (by linarith) (by linarith)
  exact ⟨this, by linarith⟩

theorem Fac.mul {m k : Nat} {c d : K} (hc : Fac u m c) (hd : Fac u k d) : Fac u (m + k) (c * d) := by
  have p1 := pow_fac_pos h0 h1 m
  have p2 := pow_fac_pos h0 h1 k
  constructor
  · rw [pow_add]
    exact mul_le_mul hc.lo hd.lo p2.le (hc.pos h0 h1).le
  · have := mul_le_mul hc.hi hd.hi (mul_nonneg (hd.pos h0 h1).le p2.le) zero_le_one
    rw [pow_add]
    calc c * d * ((1 - u) ^ m * (1 - u) ^ k) = c * (1 - u) ^ m * (d * (1 - u) ^ k) := by ring
      _ ≤ 1 := by simpa using this

theorem Fac.inv {m : Nat} {c : K} (hc : Fac u m c) : Fac u m c⁻¹ := by
  have p1 := pow_fac_pos h0 h1 m
  have p2 := hc.pos h0 h1
  constructor
  · rw [le_inv_comm₀ p1 p2, ← one_div, le_div_iff₀ p1]
    exact hc.hi
  · rw [inv_mul_le_iff₀ p2, mul_one]
    exact hc.lo

theorem Fac.mono {m k : Nat} {c : K} (hc : Fac u m c) (h : m ≤ k) : Fac u k c := by
  have := hc.mul h0 h1 (Fac.one h0 h1 (k - m))
  rwa [mul_one, Nat.add_sub_cancel' h] at this

theorem Fac.ofErr {d : K} (hd : |d| ≤ u) : Fac u 1 (1 + d) := by
  obtain ⟨a, b⟩ := abs_le.1 hd
  constructor
  · rw [pow_one]; linarith
  · rw [pow_one]
    nlinarith

theorem Fac.le {m : Nat} {c : K} (hc : Fac u m c) : c ≤ ((1 - u) ^ m)⁻¹ := by
  rw [← one_div, le_div_iff₀ (pow_fac_pos h0 h1 m)]; exact hc.hi

theorem Fac.err {m : Nat} {c : K} (hc : Fac u m c) : |c - 1| ≤ gamma u m := by
  have p1 := pow_fac_pos h0 h1 m
  have hle : (1 - u) ^ m ≤ 1 := pow_le_one₀ (by linarith) (by linarith)
  unfold gamma
  have hc2 : c ≤ ((1 - u) ^ m)⁻¹ := by rw [← one_div, le_div_iff₀ p1]; exact hc.hi
  have h2 : 2 - (1 - u) ^ m ≤ ((1 - u) ^ m)⁻¹ := by
    rw [← one_div, le_div_iff₀ p1]
    nlinarith [sq_nonneg ((1 - u) ^ m - 1)]
  rw [abs_le]
  constructor
  · have := hc.lo
    linarith
  · linarith

theorem gamma_nonneg (m : Nat) : 0 ≤ gamma u m := le_trans (abs_nonneg _) (Fac.err h0 h1 (Fac.one h0 h1 m))

/-- The textbook form of the bound. -/
theorem gamma_le (m : Nat) (h : m * u < 1) : gamma u m ≤ m * u / (1 - m * u) := by
  have p1 := pow_fac_pos h0 h1 m
  have hb : 1 - m * u ≤ (1 - u) ^ m := by
    have := one_add_mul_le_pow (a := -u) (by linarith) m
    rw [show (1 : K) + -u = 1 - u by ring] at this
    linarith
  have hp : 0 < 1 - m * u := by linarith
  unfold gamma
  rw [sub_le_iff_le_add, show m * u / (1 - m * u) + 1 = (1 - m * u)⁻¹ by field_simp; ring]
  exact inv_anti₀ hp hb

end factors

section ops
variable {F : Type u} {K : Type v} [Scalar F] [Field K] [LinearOrder K] [IsStrictOrderedRing K] [S : StdModel F K]

local notation "μ" => (StdModel.u (F := F) (K := K))

theorem u0 : 0 ≤ μ := S.u_nonneg
theorem u1 : μ < 1 := S.u_lt

theorem fl_mul (a b : F) : ∃ c, Fac μ 1 c ∧ S.val (a * b) = S.val a * S.val b * c := by
  obtain ⟨d, h1, h2⟩ := S.val_mul a b
  exact ⟨1 + d, .ofErr S.u_nonneg S.u_lt h1, h2⟩

theorem fl_add (a b : F) : ∃ c, Fac μ 1 c ∧ S.val (a + b) = (S.val a + S.val b) * c := by
  obtain ⟨d, h1, h2⟩ := S.val_add a b
  exact ⟨1 + d, .ofErr S.u_nonneg S.u_lt h1, h2⟩

theorem fl_sub (a b : F) : ∃ c, Fac μ 1 c ∧ S.val (a - b) = (S.val a - S.val b) * c := by
  obtain ⟨d, h1, h2⟩ := S.val_sub a b
  exact ⟨1 + d, .ofErr S.u_nonneg S.u_lt h1, h2⟩

theorem fl_div (a b : F) (hb : S.val b ≠ 0) : ∃ c, Fac μ 1 c ∧ S.val (a / b) = S.val a / S.val b * c := by
  obtain ⟨d, h1, h2⟩ := S.val_div a b hb
  exact ⟨1 + d, .ofErr S.u_nonneg S.u_lt h1, h2⟩

theorem fl_recip (a : F) (ha : S.val a ≠ 0) : ∃ c, Fac μ 1 c ∧ S.val (Scalar.recip a) = (S.val a)⁻¹ * c := by
  obtain ⟨d, h1, h2⟩ := S.val_recip a ha
  exact ⟨1 + d, .ofErr S.u_nonneg S.u_lt h1, h2⟩

theorem fl_ofNat (n : Nat) : ∃ c, Fac μ 1 c ∧ S.val ((Scalar.ofNat n : F)) = n * c := by
  obtain ⟨d, h1, h2⟩ := S.val_ofNat n
  exact ⟨1 + d, .ofErr S.u_nonneg S.u_lt h1, h2⟩

/-- The elementary operation of the elimination: what was in the place before, in terms of what is there after. -/
theorem fl_elim (a l v : F) : ∃ c d, Fac μ 1 c ∧ Fac μ 1 d ∧ S.val a = S.val l * S.val v * c + S.val (a - l * v) * d := by
  obtain ⟨c, hc, h1⟩ := fl_mul (K := K) l v
  obtain ⟨d, hd, h2⟩ := fl_sub (K := K) a (l * v)
  refine ⟨c, d⁻¹, hc, hd.inv u0 u1, ?_⟩
  have := (hd.pos u0 u1).ne'
  rw [h2, h1]
  field_simp
  ring

theorem neb_zero (a : F) : Scalar.neb a 0 = true ↔ S.val a ≠ 0 := by
  unfold Scalar.neb
  rw [Bool.not_eq_true', ← Bool.not_eq_true, S.eq_iff, S.val_zero]


/-- `a = Σ_{t < r} l t * w t * c t + z * c r` with factors `c` close to one. -/
def Expand (r N : Nat) (a : K) (l w : Nat → K) (z : K) : Prop :=
  ∃ c : Nat → K, (∀ t, Fac μ N (c t)) ∧ a = (∑ t ∈ range r, l t * w t * c t) + z * c r

theorem Expand.congr {r N : Nat} {a : K} {l w l' w' : Nat → K} {z z' : K} (h : Expand (F := F) r N a l w z)
    (hl : ∀ t, t < r → l' t = l t) (hw : ∀ t, t < r → w' t = w t) (hz : z' = z) : Expand (F := F) r N a l' w' z' := by
  obtain ⟨c, h1, h2⟩ := h
  refine ⟨c, h1, ?_⟩
  rw [h2, hz]
  congr 1
  apply sum_congr rfl
  intro t ht
  rw [mem_range] at ht
  rw [hl t ht, hw t ht]

theorem Expand.mono {r N N' : Nat} {a : K} {l w : Nat → K} {z : K} (h : Expand (F := F) r N a l w z) (hN : N ≤ N') :
    Expand (F := F) r N' a l w z := by
  obtain ⟨c, h1, h2⟩ := h
  exact ⟨c, fun t => (h1 t).mono u0 u1 hN, h2⟩

theorem Expand.zero (a : K) (l w : Nat → K) (N : Nat) : Expand (F := F) 0 N a l w a :=
  ⟨fun _ => 1, fun _ => .one u0 u1 N, by simp⟩

/-- The last term is replaced. -/
theorem Expand.last {r N e : Nat} {a : K} {l w : Nat → K} {z z' f : K} (h : Expand (F := F) r N a l w z)
    (hz : z = z' * f) (hf : Fac μ e f) : Expand (F := F) r (N + e) a l w z' := by
  obtain ⟨c, h1, h2⟩ := h
  refine ⟨fun t => if t = r then f * c t else c t, fun t => ?_, ?_⟩
  · simp only
    split
    · rw [Nat.add_comm]; exact hf.mul u0 u1 (h1 t)
    · exact (h1 t).mono u0 u1 (by omega)
  · simp only [if_true]
    rw [h2, hz, mul_assoc]
    congr 1
    apply sum_congr rfl
    intro t ht
    rw [mem_range] at ht
    rw [if_neg (by omega)]

/-- The last term is split. -/
theorem Expand.split {r N e : Nat} {a : K} {l w : Nat → K} {z z' f g : K} (h : Expand (F := F) r N a l w z)
    (hz : z = l r * w r * f + z' * g) (hf : Fac μ e f) (hg : Fac μ e g) : Expand (F := F) (r + 1) (N + e) a l w z' := by
  obtain ⟨c, h1, h2⟩ := h
  refine ⟨fun t => if t = r then f * c r else if t = r + 1 then g * c r else c t, fun t => ?_, ?_⟩
  · simp only
    rw [Nat.add_comm]
    split
    · exact hf.mul u0 u1 (h1 r)
    · split
      · exact hg.mul u0 u1 (h1 r)
      · exact (h1 t).mono u0 u1 (by omega)
  · simp only [if_true, if_neg (Nat.succ_ne_self r)]
    rw [sum_range_succ, h2, hz]
    simp only [if_true]
    have : ∑ t ∈ range r, l t * w t * (if t = r then f * c r else if t = r + 1 then g * c r else c t) =
        ∑ t ∈ range r, l t * w t * c t := by
      apply sum_congr rfl
      intro t ht
      rw [mem_range] at ht
      rw [if_neg (by omega), if_neg (by omega)]
    rw [this]
    ring

variable (F) in
/-- Growth of the elements in one step of the elimination. -/
def growth : K := (1 - μ)⁻¹ * (1 + ((1 - μ) ^ 3)⁻¹)

theorem growth_ge : 1 ≤ growth (K := K) F := by
  have h : ((1 - μ) ^ 3)⁻¹ > 0 := inv_pos.2 (pow_fac_pos u0 u1 3)
  have h2 : 1 ≤ (1 - μ)⁻¹ := by
    have := (Fac.one (u := μ) u0 u1 1).le u0 u1
    simpa using this
  unfold growth
  nlinarith

/-- Largest-element property of the pivot search. -/
theorem pivotSearch_max_fl (a : Mat F) (m k : Nat) (i : Nat) (hki : k ≤ i) (him : i < m) :
    |S.val (a i k)| ≤ |S.val (a (pivotSearch a m k) k)| := by
  have := forUp_inv (n := m - (k + 1)) (s := k)
    (f := fun d l => if Scalar.gt (Scalar.abs (a (k + 1 + d) k)) (Scalar.abs (a l k)) then k + 1 + d else l)
    (P := fun d l => ∀ i, k ≤ i → i < k + 1 + d → |S.val (a i k)| ≤ |S.val (a l k)|)
    (by intro i h1 h2; rw [show i = k by omega])
    (by
      intro d l hd h i h1 h2
      split
      · rename_i hg
        unfold Scalar.gt at hg
        rw [S.lt_iff, S.val_abs, S.val_abs] at hg
        by_cases hi : i = k + 1 + d
        · rw [hi]
        · exact le_trans (h i h1 (by omega)) hg.le
      · rename_i hg
        unfold Scalar.gt at hg
        rw [S.lt_iff, S.val_abs, S.val_abs, not_lt] at hg
        by_cases hi : i = k + 1 + d
        · rw [hi]; exact hg
        · exact h i h1 (by omega))
  exact this i hki (by omega)

/-- The state of the factorization after `k` columns, in floating point. -/
structure FlInv (m n : Nat) (A M : Mat F) (p : Nat → Nat) (k : Nat) : Prop where
  piv : ∀ t, t < k → t ≤ p t ∧ p t < m
  diag : ∀ t, t < k → S.val (M t t) ≠ 0
  mult : ∀ t, t < k → ∀ i, t < i → i < m → |S.val (M i t)| ≤ ((1 - μ) ^ 2)⁻¹
  low : ∀ j, j < k → ∀ i, j < i → i < m → Expand (F := F) j (j + 3) (S.val (A (rowPerm p k i) j)) (fun t => S.val (M i t))
    (fun t => S.val (M t j)) (S.val (M i j) * S.val (M j j))
  up : ∀ i, i < m → ∀ j, j < n → (i ≤ j ∨ k ≤ j) → Expand (F := F) (min i k) (k + 1) (S.val (A (rowPerm p k i) j))
    (fun t => S.val (M i t)) (fun t => S.val (M t j)) (S.val (M i j))
  grow : ∀ B : K, (∀ i, i < m → ∀ j, j < n → |S.val (A i j)| ≤ B) →
    ∀ i, i < m → ∀ j, j < n → (i ≤ j ∨ k ≤ j) → |S.val (M i j)| ≤ growth (K := K) F ^ k * B

theorem FlInv.init (m n : Nat) (A : Mat F) (p : Nat → Nat) : FlInv m n A A p 0 where
  piv := by intro t ht; omega
  diag := by intro t ht; omega
  mult := by intro t ht; omega
  low := by intro t ht; omega
  up := by intro i hi j hj _; rw [Nat.min_zero]; exact .zero _ _ _ _
  grow := by intro B hB i hi j hj _; rw [pow_zero, one_mul]; exact hB i hi j hj

theorem FlInv.swap {m n : Nat} {A M : Mat F} {p : Nat → Nat} {k l : Nat} (h : FlInv m n A M p k) (hkl : k ≤ l)
    (hlm : l < m) (hkn : k < n) (M' : Mat F) (hM' : ∀ i j, j < n → M' i j = M (Equiv.swap k l i) j) :
    (∀ t, t < k → S.val (M' t t) ≠ 0) ∧ (∀ t, t < k → ∀ i, t < i → i < m → |S.val (M' i t)| ≤ ((1 - μ) ^ 2)⁻¹) ∧
    (∀ j, j < k → ∀ i, j < i → i < m → Expand (F := F) j (j + 3) (S.val (A (rowPerm p k (Equiv.swap k l i)) j))
      (fun t => S.val (M' i t)) (fun t => S.val (M' t j)) (S.val (M' i j) * S.val (M' j j))) ∧
    (∀ i, i < m → ∀ j, j < n → (i ≤ j ∨ k ≤ j) → Expand (F := F) (min i k) (k + 1)
      (S.val (A (rowPerm p k (Equiv.swap k l i)) j)) (fun t => S.val (M' i t)) (fun t => S.val (M' t j)) (S.val (M' i j))) ∧
    (∀ B : K, (∀ i, i < m → ∀ j, j < n → |S.val (A i j)| ≤ B) →
      ∀ i, i < m → ∀ j, j < n → (i ≤ j ∨ k ≤ j) → |S.val (M' i j)| ≤ growth (K := K) F ^ k * B) := by
  have hlow : ∀ t, t < k → Equiv.swap k l t = t := by
    intro t ht; exact Equiv.swap_apply_of_ne_of_ne (by omega) (by omega)
  have hsw : ∀ i, i < m → Equiv.swap k l i < m := fun i hi => swap_lt (by omega) hlm hi
  have hge : ∀ i, k ≤ i → k ≤ Equiv.swap k l i := by
    intro i hi; rw [Equiv.swap_apply_def]; split_ifs <;> omega
  refine ⟨?_, ?_, ?_, ?_, ?_⟩
  · intro t ht; rw [hM' t t (by omega), hlow t ht]; exact h.diag t ht
  · intro t ht i hti him
    rw [hM' i t (by omega)]
    by_cases hik : i < k
    · rw [hlow i hik]; exact h.mult t ht i hti him
    · exact h.mult t ht _ (lt_of_lt_of_le ht (hge i (by omega))) (hsw i him)
  · intro j hj i hji him
    have hij : j < Equiv.swap k l i := by
      by_cases hik : i < k
      · rw [hlow i hik]; exact hji
      · exact lt_of_lt_of_le hj (hge i (by omega))
    refine (h.low j hj _ hij (hsw i him)).congr (fun t ht => ?_) (fun t ht => ?_) ?_
    · rw [hM' i t (by omega)]
    · rw [hM' t j (by omega), hlow t (by omega)]
    · rw [hM' i j (by omega), hM' j j (by omega), hlow j (by omega)]
  · intro i him j hj hij
    have hcase : Equiv.swap k l i ≤ j ∨ k ≤ j := by
      by_cases hik : i < k
      · rw [hlow i hik]; exact hij
      · right; omega
    have hmin : min (Equiv.swap k l i) k = min i k := by
      by_cases hik : i < k
      · rw [hlow i hik]
      · have := hge i (by omega); omega
    have := h.up _ (hsw i him) j hj hcase
    rw [hmin] at this
    refine this.congr (fun t ht => ?_) (fun t ht => ?_) ?_
    · rw [hM' i t (by omega)]
    · rw [hM' t j (by omega), hlow t (by omega)]
    · rw [hM' i j (by omega)]
  · intro B hB i him j hj hij
    rw [hM' i j hj]
    refine h.grow B hB _ (hsw i him) j hj ?_
    by_cases hik : i < k
    · rw [hlow i hik]; exact hij
    · right; omega

theorem FlInv.step {m n : Nat} {A M M' : Mat F} {p : Nat → Nat} {k l : Nat} (h : FlInv m n A M p k)
    (hl : pivotSearch M m k = l) (hkm : k < m) (hkn : k < n) (hnz : S.val (M l k) ≠ 0)
    (hM' : M' = elim (scaleCol (swapRows M n k l) m k) m n k) : FlInv m n A M' (upd p k l) (k + 1) := by
  obtain ⟨hkl, hlm⟩ := pivotSearch_range M m k hkm
  rw [hl] at hkl hlm
  have hmax := pivotSearch_max_fl M m k
  rw [hl] at hmax
  obtain ⟨s1, s2, s3, s4, s5⟩ := h.swap hkl hlm hkn (swapRows M n k l) (by
    intro i j hj
    rw [swapRows_apply _ _ _ _ _ _ hj, Equiv.swap_apply_def])
  generalize hT : swapRows M n k l = T at *
  have hTkk : T k k = M l k := by
    rw [← hT, swapRows_apply _ _ _ _ _ _ hkn]; simp
  have hTik : ∀ i, k < i → i < m → |S.val (T i k)| ≤ |S.val (T k k)| := by
    intro i hi him
    rw [hTkk, ← hT, swapRows_apply _ _ _ _ _ _ hkn]
    split_ifs
    · exact le_refl _
    · exact hmax k (le_refl _) hkm
    · exact hmax i (by omega) him
  have hTkk0 : S.val (T k k) ≠ 0 := by rw [hTkk]; exact hnz
  have hM'e : ∀ i j, i < m → j < n → M' i j =
      if k < i then (if j = k then T i k * Scalar.recip (T k k) else
        if k < j ∧ Scalar.neb (T k j) 0 = true then T i j - T k j * (T i k * Scalar.recip (T k k)) else T i j)
      else T i j := by
    intro i j him hj
    rw [hM', elim_apply]
    simp only [scaleCol_apply]
    by_cases hki : k < i
    · by_cases hjk : j = k
      · subst hjk; simp [hki, him]
      · by_cases hkj : k < j
        · simp [hki, him, hjk, hkj, hj]
        · simp [hki, hjk, hkj]
    · simp [hki]
  have hperm : rowPerm (upd p k l) (k + 1) = rowPerm p k * Equiv.swap k l := by
    simp only [rowPerm, upd_same]
    rw [rowPerm_congr (q := p) (fun t ht => upd_ne _ _ (by omega))]
  -- the multipliers
  have hmul : ∀ i, ∃ c, Fac μ 2 c ∧ S.val (T i k * Scalar.recip (T k k)) = S.val (T i k) * (S.val (T k k))⁻¹ * c := by
    intro i
    obtain ⟨c, hc, h1⟩ := fl_recip (K := K) (T k k) hTkk0
    obtain ⟨d, hd, h2⟩ := fl_mul (K := K) (T i k) (Scalar.recip (T k k))
    refine ⟨c * d, hc.mul u0 u1 hd, ?_⟩
    rw [h2, h1]
    ring
  have hmb : ∀ i, k < i → i < m → |S.val (T i k * Scalar.recip (T k k))| ≤ ((1 - μ) ^ 2)⁻¹ := by
    intro i hi him
    obtain ⟨c, hc, h1⟩ := hmul i
    have hpos : 0 < |S.val (T k k)| := abs_pos.mpr hTkk0
    have hle : |S.val (T i k)| * |S.val (T k k)|⁻¹ ≤ 1 := by
      rw [← div_eq_mul_inv, div_le_one hpos]; exact hTik i hi him
    rw [h1, abs_mul, abs_mul, abs_inv, abs_of_pos (hc.pos u0 u1)]
    calc _ ≤ 1 * c := mul_le_mul_of_nonneg_right hle (hc.pos u0 u1).le
      _ ≤ _ := by rw [one_mul]; exact hc.le u0 u1
  -- entries that are not changed
  have hle : ∀ i t, i < m → t < k → M' i t = T i t := by
    intro i t him ht
    rw [hM'e i t him (by omega), if_neg (by omega : ¬ t = k), if_neg (by omega : ¬ (k < t ∧ _)), ite_self]
  have htop : ∀ t j, t ≤ k → j < n → M' t j = T t j := by
    intro t j ht hj
    rw [hM'e t j (by omega) hj, if_neg (by omega)]
  refine ⟨?_, ?_, ?_, ?_, ?_, ?_⟩
  · intro t ht
    by_cases htk : t = k
    · subst htk; simp [hkl, hlm]
    · rw [upd_ne _ _ htk]; exact h.piv t (by omega)
  · intro t ht
    rw [htop t t (by omega) (by omega)]
    by_cases htk : t = k
    · subst htk; exact hTkk0
    · exact s1 t (by omega)
  · intro t ht i hti him
    by_cases htk : t = k
    · subst htk
      rw [hM'e i t him hkn, if_pos hti, if_pos rfl]
      exact hmb i hti him
    · rw [hle i t him (by omega)]
      exact s2 t (by omega) i hti him
  · intro j hj i hji him
    rw [hperm, Equiv.Perm.mul_apply]
    by_cases hjk : j = k
    · subst hjk
      have h4 := s4 i him j hkn (Or.inr (le_refl _))
      rw [Nat.min_eq_right (by omega : j ≤ i)] at h4
      obtain ⟨c, hc, h1⟩ := hmul i
      have hc0 := (hc.pos u0 u1).ne'
      have h5 : Expand (F := F) j (j + 1) (S.val (A (rowPerm p j (Equiv.swap j l i)) j)) (fun t => S.val (M' i t))
          (fun t => S.val (M' t j)) (S.val (T i j)) :=
        h4.congr (fun t ht => by rw [hle i t him ht]) (fun t ht => by rw [htop t j (by omega) hkn]) rfl
      refine h5.last (e := 2) (f := c⁻¹) ?_ (hc.inv u0 u1)
      rw [hM'e i j him hkn, if_pos hji, if_pos rfl, htop j j (le_refl _) hkn, h1]
      field_simp
    · refine (s3 j (by omega) i hji him).congr (fun t ht => ?_) (fun t ht => ?_) ?_
      · rw [hle i t him (by omega)]
      · rw [hle t j (by omega) (by omega)]
      · rw [hle i j him (by omega), hle j j (by omega) (by omega)]
  · intro i him j hj hij
    rw [hperm, Equiv.Perm.mul_apply]
    have h4 := s4 i him j hj (by omega)
    by_cases hki : k < i
    · have hkj : k < j := by omega
      rw [Nat.min_eq_right (by omega : k ≤ i)] at h4
      rw [Nat.min_eq_right (by omega : k + 1 ≤ i)]
      have h5 : Expand (F := F) k (k + 1) (S.val (A (rowPerm p k (Equiv.swap k l i)) j)) (fun t => S.val (M' i t))
          (fun t => S.val (M' t j)) (S.val (T i j)) :=
        h4.congr (fun t ht => by rw [hle i t him ht]) (fun t ht => by rw [htop t j (by omega) hj]) rfl
      have hik : M' i k = T i k * Scalar.recip (T k k) := by rw [hM'e i k him hkn, if_pos hki, if_pos rfl]
      by_cases hz : Scalar.neb (T k j) 0 = true
      · obtain ⟨c, d, hc, hd, h6⟩ := fl_elim (K := K) (T i j) (T k j) (T i k * Scalar.recip (T k k))
        refine h5.split (e := 1) (f := c) (g := d) ?_ hc hd
        rw [hik, htop k j (le_refl _) hj, hM'e i j him hj, if_pos hki, if_neg (by omega : ¬ j = k), if_pos ⟨hkj, hz⟩, h6]
        ring
      · refine h5.split (e := 1) (f := 1) (g := 1) ?_ (.one u0 u1 1) (.one u0 u1 1)
        rw [neb_zero (K := K), not_not] at hz
        rw [hik, htop k j (le_refl _) hj, hM'e i j him hj, if_pos hki, if_neg (by omega : ¬ j = k), if_neg, hz]
        · ring
        · rintro ⟨_, h7⟩
          rw [neb_zero (K := K)] at h7
          exact h7 hz
    · rw [Nat.min_eq_left (by omega : i ≤ k)] at h4
      rw [Nat.min_eq_left (by omega : i ≤ k + 1)]
      exact (h4.mono (by omega)).congr (fun t ht => by rw [hle i t him (by omega)])
        (fun t ht => by rw [htop t j (by omega) hj]) (by rw [htop i j (by omega) hj])
  · intro B hB i him j hj hij
    have hG := growth_ge (F := F) (K := K)
    have g5 := s5 B hB
    have hnn : 0 ≤ growth (K := K) F ^ k * B := le_trans (abs_nonneg _) (g5 k hkm k hkn (Or.inl (le_refl _)))
    have hstep : growth (K := K) F ^ k * B ≤ growth (K := K) F ^ (k + 1) * B := by
      rw [pow_succ, mul_assoc, mul_comm (growth F) B, ← mul_assoc]
      exact le_mul_of_one_le_right hnn hG
    by_cases hki : k < i
    · have hkj : k < j := by omega
      rw [hM'e i j him hj, if_pos hki, if_neg (by omega : ¬ j = k)]
      split
      · obtain ⟨c, hc, h1⟩ := fl_mul (K := K) (T k j) (T i k * Scalar.recip (T k k))
        obtain ⟨d, hd, h2⟩ := fl_sub (K := K) (T i j) (T k j * (T i k * Scalar.recip (T k k)))
        have b1 := g5 i him j hj (Or.inr (by omega))
        have b2 := g5 k hkm j hj (Or.inl (by omega))
        have b3 := hmb i hki him
        have q1 := hc.le u0 u1
        have q2 := hd.le u0 u1
        have q1p := hc.pos u0 u1
        have q2p := hd.pos u0 u1
        rw [pow_one] at q1 q2
        have e3 : ((1 - μ) ^ 3)⁻¹ = ((1 - μ) ^ 2)⁻¹ * (1 - μ)⁻¹ := by
          rw [← mul_inv, ← pow_succ]
        have hi2 : 0 ≤ ((1 - μ) ^ 2)⁻¹ := (inv_pos.2 (pow_fac_pos u0 u1 2)).le
        have b4 : |S.val (T k j) * S.val (T i k * Scalar.recip (T k k)) * c| ≤
            growth (K := K) F ^ k * B * ((1 - μ) ^ 3)⁻¹ := by
          rw [abs_mul, abs_mul, abs_of_pos q1p, e3, ← mul_assoc]
          exact mul_le_mul (mul_le_mul b2 b3 (abs_nonneg _) hnn) q1 q1p.le (mul_nonneg hnn hi2)
        rw [h2, h1, abs_mul, abs_of_pos q2p, pow_succ]
        have b5 : |S.val (T i j) - S.val (T k j) * S.val (T i k * Scalar.recip (T k k)) * c| ≤
            growth (K := K) F ^ k * B * (1 + ((1 - μ) ^ 3)⁻¹) := by
          refine le_trans (abs_sub _ _) ?_
          rw [mul_add, mul_one]
          exact add_le_add b1 b4
        have hi3 : 0 ≤ ((1 - μ) ^ 3)⁻¹ := (inv_pos.2 (pow_fac_pos u0 u1 3)).le
        calc _ ≤ growth (K := K) F ^ k * B * (1 + ((1 - μ) ^ 3)⁻¹) * (1 - μ)⁻¹ :=
              mul_le_mul b5 q2 q2p.le (mul_nonneg hnn (by linarith))
          _ = growth (K := K) F ^ k * growth (K := K) F * B := by
              conv_rhs => rw [show growth (K := K) F ^ k * growth (K := K) F * B =
                growth (K := K) F ^ k * B * growth (K := K) F by ring]
              rw [show growth (K := K) F ^ k * B * growth (K := K) F =
                growth (K := K) F ^ k * B * ((1 - μ)⁻¹ * (1 + ((1 - μ) ^ 3)⁻¹)) from rfl]
              ring
      · exact le_trans (g5 i him j hj (Or.inr (by omega))) hstep
    · rw [htop i j (by omega) hj]
      exact le_trans (g5 i him j hj (by omega)) hstep

theorem rfLoop_ok_fl {m n : Nat} (A : Mat F) (p0 : Nat → Nat) (c : Nat) (hc : c ≤ n) {M : Mat F}
    {p : Nat → Nat} (h : rfLoop m n A p0 c = .ok M p) : FlInv m n A M p c := by
  induction c generalizing M p with
  | zero =>
    simp only [rfLoop] at h
    cases h
    exact FlInv.init m n A p0
  | succ c ih =>
    simp only [rfLoop] at h
    cases hr : rfLoop m n A p0 c with
    | ok M1 p1 =>
      rw [hr] at h
      have hi := ih (by omega) hr
      simp only [rfStep] at h
      split at h
      · cases h
      split at h
      · cases h
      rename_i h1 h2
      rw [S.eq_iff, S.val_zero] at h2
      cases h
      exact hi.step rfl (by omega) (by omega) h2 rfl
    | err col M1 p1 => rw [hr] at h; cases h
    | panic => rw [hr] at h; cases h

end ops
end Verif.Proofs
