import Verif.Spec.Correct
import Verif.Proofs.Rounding
import Verif.Model.Step
import Verif.Proofs.StepRules
import Mathlib.Algebra.Order.BigOperators.Group.Finset
import Mathlib.Tactic.LinearCombination
import Mathlib.Tactic.IntervalCases

/-! # Rounding errors of the coefficients of a step -/

set_option autoImplicit false
set_option linter.unusedSectionVars false
set_option linter.unusedSimpArgs false
set_option linter.unusedVariables false

namespace Verif.FlCoef

open Verif Verif.Spec Verif.Proofs Finset

universe u v w

section
variable {F : Type u} {K : Type v} [Scalar F] [Field K] [LinearOrder K] [IsStrictOrderedRing K] [S : StdModel F K]

local prefix:max "♯" => StdModel.val (F := F) (K := K)
local notation "μ" => (StdModel.u (F := F) (K := K))

theorem alphaSums_fst (alpha : Nat → F) (k : Nat) : ∃ f : Nat → K, (∀ j, Fac μ (k + 2) (f j)) ∧
    ♯(alphaSums alpha k).1 = -∑ i ∈ range k, ((i : K) + 1)⁻¹ * f i := by
  have U0 := u0 (F := F) (K := K); have U1 := u1 (F := F) (K := K)
  unfold alphaSums
  induction k with
  | zero => exact ⟨fun _ => 1, fun _ => .one U0 U1 _, by simp [forUp, S.val_zero]⟩
  | succ k ih =>
    obtain ⟨f, hf, e⟩ := ih
    rw [forUp_succ]
    set y := forUp k (fun i (a : F × F) => (a.1 - 1 / Scalar.ofNat (i + 1), a.2 - alpha i)) (0, 0)
    obtain ⟨a0, h0, e0⟩ := fl_ofNat (F := F) (K := K) (k + 1)
    have hk : ((k + 1 : ℕ) : K) ≠ 0 := by positivity
    have hne : ♯(Scalar.ofNat (k + 1) : F) ≠ 0 := by rw [e0]; exact mul_ne_zero hk (h0.pos U0 U1).ne'
    obtain ⟨a1, h1, e1⟩ := fl_div (1 : F) (Scalar.ofNat (k + 1)) hne
    obtain ⟨a2, h2, e2⟩ := fl_sub y.1 (1 / Scalar.ofNat (k + 1))
    refine ⟨fun j => if j < k then f j * a2 else a0⁻¹ * a1 * a2, fun j => ?_, ?_⟩
    · dsimp only
      split
      · exact ((hf j).mul U0 U1 h2).mono U0 U1 (by omega)
      · exact (((h0.inv U0 U1).mul U0 U1 h1).mul U0 U1 h2).mono U0 U1 (by omega)
    · show ♯(y.1 - 1 / Scalar.ofNat (k + 1)) = _
      rw [e2, e1, e, e0, sum_range_succ, S.val_one]
      dsimp only
      rw [if_neg (lt_irrefl k), show ∑ x ∈ range k, ((x : K) + 1)⁻¹ * (if x < k then f x * a2 else a0⁻¹ * a1 * a2) =
        (∑ x ∈ range k, ((x : K) + 1)⁻¹ * f x) * a2 from ?_]
      · rw [one_div, mul_inv]; push_cast; ring
      · rw [sum_mul]
        refine sum_congr rfl fun p hp => ?_
        rw [if_pos (by simpa using hp)]; ring

theorem alphaSums_snd (alpha : Nat → F) (k : Nat) : ∃ f : Nat → K, (∀ j, Fac μ k (f j)) ∧
    ♯(alphaSums alpha k).2 = -∑ i ∈ range k, ♯(alpha i) * f i := by
  have U0 := u0 (F := F) (K := K); have U1 := u1 (F := F) (K := K)
  unfold alphaSums
  induction k with
  | zero => exact ⟨fun _ => 1, fun _ => .one U0 U1 _, by simp [forUp, S.val_zero]⟩
  | succ k ih =>
    obtain ⟨f, hf, e⟩ := ih
    rw [forUp_succ]
    set y := forUp k (fun i (a : F × F) => (a.1 - 1 / Scalar.ofNat (i + 1), a.2 - alpha i)) (0, 0)
    obtain ⟨a2, h2, e2⟩ := fl_sub y.2 (alpha k)
    refine ⟨fun j => if j < k then f j * a2 else a2, fun j => ?_, ?_⟩
    · dsimp only
      split
      · exact ((hf j).mul U0 U1 h2).mono U0 U1 (by omega)
      · exact h2.mono U0 U1 (by omega)
    · show ♯(y.2 - alpha k) = _
      rw [e2, e, sum_range_succ]
      dsimp only
      rw [if_neg (lt_irrefl k), show ∑ x ∈ range k, ♯(alpha x) * (if x < k then f x * a2 else a2) =
        (∑ x ∈ range k, ♯(alpha x) * f x) * a2 from ?_]
      · ring
      · rw [sum_mul]
        refine sum_congr rfl fun p hp => ?_
        rw [if_pos (by simpa using hp)]; ring

/-- A sum of non-negative terms, each with its own factor. -/
theorem sum_fac {m k : Nat} (c f : Nat → K) (hc : ∀ i, i < k → 0 ≤ c i) (hf : ∀ i, Fac μ m (f i)) :
    |∑ i ∈ range k, c i * f i - ∑ i ∈ range k, c i| ≤ gamma μ m * ∑ i ∈ range k, c i := by
  have U0 := u0 (F := F) (K := K); have U1 := u1 (F := F) (K := K)
  rw [← sum_sub_distrib, mul_sum]
  refine (abs_sum_le_sum_abs _ _).trans (sum_le_sum fun i hi => ?_)
  rw [show c i * f i - c i = (f i - 1) * c i by ring, abs_mul, abs_of_nonneg (hc i (by simpa using hi))]
  exact mul_le_mul_of_nonneg_right ((hf i).err U0 U1) (hc i (by simpa using hi))

/-- The leading coefficient. -/
theorem lead_val (alpha : Nat → F) (k : Nat) (hh : F) (h0 : ♯hh ≠ 0) :
    |♯(-(alphaSums alpha k).1 / hh) * ♯hh - ∑ i ∈ range k, ((i : K) + 1)⁻¹| ≤
      gamma μ (k + 3) * ∑ i ∈ range k, ((i : K) + 1)⁻¹ := by
  have U0 := u0 (F := F) (K := K); have U1 := u1 (F := F) (K := K)
  obtain ⟨f, hf, e⟩ := alphaSums_fst (K := K) alpha k
  obtain ⟨a1, h1, e1⟩ := fl_div (-(alphaSums alpha k).1) hh h0
  rw [e1, S.val_neg, e, neg_neg]
  rw [show (∑ i ∈ range k, ((i : K) + 1)⁻¹ * f i) / ♯hh * a1 * ♯hh = ∑ i ∈ range k, ((i : K) + 1)⁻¹ * (f i * a1) from ?_]
  · exact sum_fac (F := F) _ _ (fun i _ => by positivity) fun i => ((hf i).mul U0 U1 h1).mono U0 U1 (by omega)
  · rw [div_mul_eq_mul_div, div_mul_cancel₀ _ h0, sum_mul]
    exact sum_congr rfl fun i _ => by ring

/-- The same as a factor. -/
theorem lead_fac (alpha : Nat → F) (k : Nat) (hk : 1 ≤ k) (hh : F) (h0 : ♯hh ≠ 0) :
    ∃ c : K, Fac μ (k + 3) c ∧ ♯(-(alphaSums alpha k).1 / hh) = (∑ i ∈ range k, ((i : K) + 1)⁻¹) / ♯hh * c := by
  have U0 := u0 (F := F) (K := K); have U1 := u1 (F := F) (K := K)
  obtain ⟨f, hf, e⟩ := alphaSums_fst (K := K) alpha k
  obtain ⟨a1, h1, e1⟩ := fl_div (-(alphaSums alpha k).1) hh h0
  have hp : (0 : K) < ∑ i ∈ range k, ((i : K) + 1)⁻¹ :=
    sum_pos (fun i _ => by positivity) ⟨0, by simp; omega⟩
  set H := ∑ i ∈ range k, ((i : K) + 1)⁻¹ with hH
  have hlo : (1 - (μ : K)) ^ (k + 2) * H ≤ ∑ i ∈ range k, ((i : K) + 1)⁻¹ * f i := by
    rw [hH, mul_sum]
    refine sum_le_sum fun i _ => ?_
    rw [mul_comm]
    exact mul_le_mul_of_nonneg_left (hf i).lo (by positivity)
  have hhi : (∑ i ∈ range k, ((i : K) + 1)⁻¹ * f i) * (1 - (μ : K)) ^ (k + 2) ≤ H := by
    rw [hH, sum_mul]
    refine sum_le_sum fun i _ => ?_
    rw [mul_assoc]
    exact mul_le_of_le_one_right (by positivity) (hf i).hi
  have hc : Fac μ (k + 2) ((∑ i ∈ range k, ((i : K) + 1)⁻¹ * f i) / H) :=
    ⟨by rw [le_div_iff₀ hp]; exact hlo, by rw [div_mul_eq_mul_div, div_le_one hp]; exact hhi⟩
  refine ⟨_, (hc.mul U0 U1 h1).mono U0 U1 (by omega), ?_⟩
  rw [e1, StdModel.val_neg, e, neg_neg]
  field_simp

theorem fac_num {m : Nat} {c : K} (hu : 1000 * (μ : K) ≤ 1) (hm : m ≤ 8) (h : Fac μ m c) : 99 / 100 ≤ c ∧ c ≤ 101 / 100 := by
  have U0 := u0 (F := F) (K := K); have U1 := u1 (F := F) (K := K)
  have h8 := h.mono U0 U1 hm
  have hp : 992 / 1000 ≤ (1 - (μ : K)) ^ 8 := by
    have := one_add_mul_le_pow (a := -(μ : K)) (by linarith) 8
    have h2 : (1 : K) + 8 * -μ ≤ (1 + -μ) ^ 8 := by exact_mod_cast this
    rw [← sub_eq_add_neg] at h2
    linarith
  have h1 := h8.lo
  have h2 := h8.hi
  refine ⟨by linarith, ?_⟩
  have hc : 0 ≤ c := by linarith
  nlinarith

end

section
variable {F : Type u} {K : Type v} [Scalar F] [Field K] [LinearOrder K] [IsStrictOrderedRing K] [S : Correct F K]

local prefix:max "♯" => StdModel.val (F := F) (K := K)
local notation "μ" => (StdModel.u (F := F) (K := K))

/-- The error constant. -/
theorem ck_val (alpha : Nat → F) (k : Nat) (hu : 1000 * (μ : K) ≤ 1) (hk1 : 1 ≤ k) (hk : k ≤ 5)
    (ha : ∀ i, i ≤ k → 0 < ♯(alpha i) ∧ ♯(alpha i) ≤ 1) :
    0 < ♯(Scalar.max (Scalar.abs (alpha k + (alphaSums alpha k).1 - (alphaSums alpha k).2)) (alpha k)) ∧
    ♯(Scalar.max (Scalar.abs (alpha k + (alphaSums alpha k).1 - (alphaSums alpha k).2)) (alpha k)) ≤ 6 := by
  have U0 := u0 (F := F) (K := K); have U1 := u1 (F := F) (K := K)
  rw [S.val_max, StdModel.val_abs]
  obtain ⟨p1, p2⟩ := ha k le_rfl
  refine ⟨lt_max_of_lt_right p1, max_le ?_ (by linarith)⟩
  obtain ⟨f, hf, e1⟩ := alphaSums_fst (K := K) alpha k
  obtain ⟨g, hg, e2⟩ := alphaSums_snd (K := K) alpha k
  set a1 := (alphaSums alpha k).1
  set a2 := (alphaSums alpha k).2
  have hH : 99 / 100 ≤ -♯a1 ∧ -♯a1 ≤ 24 / 10 := by
    rw [e1, neg_neg]
    have hb : ∀ i ∈ range k, ((i : K) + 1)⁻¹ * (99 / 100) ≤ ((i : K) + 1)⁻¹ * f i ∧
        ((i : K) + 1)⁻¹ * f i ≤ ((i : K) + 1)⁻¹ * (101 / 100) := by
      intro i _
      have hp : (0 : K) ≤ ((i : K) + 1)⁻¹ := by positivity
      obtain ⟨q1, q2⟩ := fac_num (F := F) hu (by omega) (hf i)
      exact ⟨mul_le_mul_of_nonneg_left q1 hp, mul_le_mul_of_nonneg_left q2 hp⟩
    have l1 := sum_le_sum fun i hi => (hb i hi).1
    have l2 := sum_le_sum fun i hi => (hb i hi).2
    rw [← sum_mul] at l1 l2
    have hs : (1 : K) ≤ ∑ i ∈ range k, ((i : K) + 1)⁻¹ ∧ ∑ i ∈ range k, ((i : K) + 1)⁻¹ ≤ (23 / 10 : K) := by
      interval_cases k <;> simp only [sum_range_succ, sum_range_zero] <;> norm_num
    constructor <;> linarith [hs.1, hs.2]
  have hA : 0 ≤ -♯a2 ∧ -♯a2 ≤ 51 / 10 := by
    rw [e2, neg_neg]
    have hb : ∀ i ∈ range k, 0 ≤ ♯(alpha i) * g i ∧ ♯(alpha i) * g i ≤ 101 / 100 := by
      intro i hi
      obtain ⟨r1, r2⟩ := ha i (by have := mem_range.1 hi; omega)
      obtain ⟨q1, q2⟩ := fac_num (F := F) hu (by omega) (hg i)
      refine ⟨mul_nonneg r1.le (by linarith), ?_⟩
      have := mul_le_mul r2 q2 (by linarith) (by norm_num)
      linarith
    refine ⟨sum_nonneg fun i hi => (hb i hi).1, ?_⟩
    refine (sum_le_sum fun i hi => (hb i hi).2).trans ?_
    rw [sum_const, card_range, nsmul_eq_mul]
    have : (k : K) ≤ 5 := by exact_mod_cast hk
    linarith
  obtain ⟨d1, m1, v1⟩ := StdModel.val_add (K := K) (alpha k) a1
  obtain ⟨d2, m2, v2⟩ := StdModel.val_sub (K := K) (alpha k + a1) a2
  obtain ⟨x1, x2⟩ := abs_le.1 m1
  obtain ⟨y1, y2⟩ := abs_le.1 m2
  have w1 : -(245 / 100) ≤ ♯(alpha k + a1) ∧ ♯(alpha k + a1) ≤ 2 / 100 := by
    rw [v1]
    constructor <;> nlinarith [hH.1, hH.2]
  rw [v2, abs_le]
  constructor <;> nlinarith [hA.1, hA.2, w1.1, w1.2]

end

end Verif.FlCoef
