import Verif.Spec.Correct
import Mathlib.Algebra.Order.Round
import Mathlib.Data.Rat.Floor
import Mathlib.Data.Nat.Sqrt
import Mathlib.Tactic.FieldSimp
import Mathlib.Tactic.Positivity

/-!
# Binary floating-point numbers

Binary floating-point numbers with `p` bits after the leading one and unlimited exponents, every operation rounded to nearest
(ties to even).  They satisfy `Spec.Correct`; `p = 52` is the precision of binary64.  The kernel can run them.
-/

set_option autoImplicit false

namespace Verif

open Verif.Spec

namespace Bin

/-- First guess of the binary exponent, at most one too large. -/
def expo0 (x : ℚ) : ℤ := (Nat.log2 x.num.natAbs : ℤ) - (Nat.log2 x.den : ℤ)

/-- The binary exponent: `2 ^ expo x ≤ |x| < 2 ^ (expo x + 1)`. -/
def expo (x : ℚ) : ℤ := if |x| < (2 : ℚ) ^ expo0 x then expo0 x - 1 else expo0 x

theorem expo_spec {x : ℚ} (hx : x ≠ 0) : (2 : ℚ) ^ expo x ≤ |x| ∧ |x| < (2 : ℚ) ^ (expo x + 1) := by
  have hn : x.num.natAbs ≠ 0 := by rw [Int.natAbs_ne_zero]; exact Rat.num_ne_zero.2 hx
  have h1 : 2 ^ Nat.log2 x.num.natAbs ≤ x.num.natAbs := Nat.log2_self_le hn
  have h2 : x.den < 2 ^ (Nat.log2 x.den + 1) := Nat.lt_log2_self
  have h1b : x.num.natAbs < 2 ^ (Nat.log2 x.num.natAbs + 1) := Nat.lt_log2_self
  have h2b : 2 ^ Nat.log2 x.den ≤ x.den := Nat.log2_self_le x.den_nz
  have h3 : |x| = (x.num.natAbs : ℚ) / x.den := by
    conv_lhs => rw [← Rat.num_div_den x]
    rw [abs_div, abs_of_pos (show (0 : ℚ) < x.den by exact_mod_cast x.den_pos), Nat.cast_natAbs, Int.cast_abs]
  have hd : (0 : ℚ) < x.den := by exact_mod_cast x.den_pos
  have h1' : (2 : ℚ) ^ Nat.log2 x.num.natAbs ≤ x.num.natAbs := by exact_mod_cast h1
  have h2' : (x.den : ℚ) < 2 ^ (Nat.log2 x.den + 1) := by exact_mod_cast h2
  have h1b' : (x.num.natAbs : ℚ) < 2 ^ (Nat.log2 x.num.natAbs + 1) := by exact_mod_cast h1b
  have h2b' : (2 : ℚ) ^ Nat.log2 x.den ≤ x.den := by exact_mod_cast h2b
  have hp : (0 : ℚ) < 2 ^ Nat.log2 x.num.natAbs := by positivity
  have hq : (0 : ℚ) < 2 ^ Nat.log2 x.den := by positivity
  have he : (2 : ℚ) ^ expo0 x = 2 ^ Nat.log2 x.num.natAbs / 2 ^ Nat.log2 x.den := by
    unfold expo0
    rw [zpow_sub₀ (by norm_num), zpow_natCast, zpow_natCast]
  have hup : |x| < (2 : ℚ) ^ (expo0 x + 1) := by
    rw [zpow_add_one₀ (by norm_num), he, h3, div_mul_eq_mul_div, ← pow_succ]
    exact div_lt_div₀ h1b' h2b' (by positivity) hq
  have hlo : (2 : ℚ) ^ (expo0 x - 1) ≤ |x| := by
    rw [zpow_sub_one₀ (by norm_num), he, h3, ← div_eq_mul_inv, div_div, ← pow_succ]
    exact div_le_div₀ (by positivity) h1' hd h2'.le
  unfold expo
  split
  · rename_i h
    exact ⟨hlo, by rw [sub_add_cancel]; exact h⟩
  · rename_i h
    exact ⟨not_lt.1 h, hup⟩

/-- The nearest integer, ties to even. -/
def rne (x : ℚ) : ℤ :=
  let f := ⌊x⌋
  if x - f < 1 / 2 then f else if 1 / 2 < x - f then f + 1 else if f % 2 = 0 then f else f + 1

theorem rne_cases (x : ℚ) : (rne x = ⌊x⌋ ∧ x - ⌊x⌋ ≤ 1 / 2 ∧ (x - ⌊x⌋ = 1 / 2 → ⌊x⌋ % 2 = 0)) ∨
    (rne x = ⌊x⌋ + 1 ∧ 1 / 2 ≤ x - ⌊x⌋ ∧ (x - ⌊x⌋ = 1 / 2 → ⌊x⌋ % 2 ≠ 0)) := by
  unfold rne
  simp only
  split
  · rename_i h; exact Or.inl ⟨rfl, h.le, fun he => by rw [he] at h; exact absurd h (lt_irrefl _)⟩
  · rename_i h
    split
    · rename_i h2; exact Or.inr ⟨rfl, h2.le, fun he => by rw [he] at h2; exact absurd h2 (lt_irrefl _)⟩
    · rename_i h2
      split
      · rename_i h3; exact Or.inl ⟨rfl, not_lt.1 h2, fun _ => h3⟩
      · rename_i h3; exact Or.inr ⟨rfl, not_lt.1 h, fun _ => h3⟩

theorem abs_sub_rne (x : ℚ) : |x - rne x| ≤ 1 / 2 := by
  have h1 := Int.floor_le x
  have h2 := Int.lt_floor_add_one x
  rcases rne_cases x with ⟨e, h, -⟩ | ⟨e, h, -⟩
  · rw [e, abs_le]; constructor <;> linarith
  · rw [e, abs_le]; push_cast; constructor <;> linarith

theorem rne_intCast (m : ℤ) : rne m = m := by
  rcases rne_cases (m : ℚ) with ⟨e, h, -⟩ | ⟨e, h, -⟩
  · rw [e, Int.floor_intCast]
  · rw [Int.floor_intCast, sub_self] at h; norm_num at h

theorem rne_mono {a b : ℚ} (h : a ≤ b) : rne a ≤ rne b := by
  have hf := Int.floor_le_floor h
  rcases lt_or_eq_of_le hf with hl | he
  · have h1 : rne a ≤ ⌊a⌋ + 1 := by rcases rne_cases a with ⟨e, -⟩ | ⟨e, -⟩ <;> omega
    have h2 : ⌊b⌋ ≤ rne b := by rcases rne_cases b with ⟨e, -⟩ | ⟨e, -⟩ <;> omega
    omega
  · rcases rne_cases a with ⟨ea, -⟩ | ⟨ea, ha, ta⟩
    · rcases rne_cases b with ⟨eb, -⟩ | ⟨eb, -⟩ <;> omega
    · rcases rne_cases b with ⟨eb, hb, tb⟩ | ⟨eb, -⟩
      · exfalso
        rw [he] at ha ta
        have h1 : a - ⌊b⌋ = 1 / 2 := le_antisymm (by linarith) ha
        have h2 : b - ⌊b⌋ = 1 / 2 := le_antisymm hb (by linarith)
        exact ta h1 (tb h2)
      · omega

/-- Rounding to `p` bits after the leading one. -/
def rnd (p : ℕ) (x : ℚ) : ℚ :=
  if x = 0 then 0 else (rne (x * (2 : ℚ) ^ ((p : ℤ) - expo x)) : ℤ) * (2 : ℚ) ^ (expo x - (p : ℤ))

theorem two_zpow_pos (k : ℤ) : (0 : ℚ) < 2 ^ k := zpow_pos (by norm_num) _

theorem two_zpow_inv (k l : ℤ) : (2 : ℚ) ^ (k - l) * 2 ^ (l - k) = 1 := by
  rw [← zpow_add₀ (by norm_num)]; simp

theorem rnd_zero (p : ℕ) : rnd p 0 = 0 := if_pos rfl

theorem scaled {p : ℕ} {x : ℚ} (hx : x ≠ 0) :
    (2 : ℚ) ^ p ≤ |x * (2 : ℚ) ^ ((p : ℤ) - expo x)| ∧ |x * (2 : ℚ) ^ ((p : ℤ) - expo x)| < 2 ^ (p + 1) := by
  obtain ⟨h1, h2⟩ := expo_spec hx
  have hs := two_zpow_pos ((p : ℤ) - expo x)
  rw [abs_mul, abs_of_pos hs]
  have e1 : (2 : ℚ) ^ p = 2 ^ expo x * 2 ^ ((p : ℤ) - expo x) := by
    rw [← zpow_add₀ (by norm_num), add_sub_cancel, zpow_natCast]
  have e2 : (2 : ℚ) ^ (p + 1) = 2 ^ (expo x + 1) * 2 ^ ((p : ℤ) - expo x) := by
    rw [← zpow_add₀ (by norm_num), ← zpow_natCast]; congr 1; push_cast; ring
  rw [e1, e2]
  exact ⟨mul_le_mul_of_nonneg_right h1 hs.le, mul_lt_mul_of_pos_right h2 hs⟩

/-- Rounding to nearest: the relative error is at most half a unit. -/
theorem rnd_err_half (p : ℕ) (x : ℚ) : ∃ d : ℚ, |d| ≤ (1 / 2) ^ p / 2 ∧ rnd p x = x * (1 + d) := by
  by_cases hx : x = 0
  · exact ⟨0, by rw [abs_zero]; positivity, by simp [rnd, hx]⟩
  · have hs := two_zpow_pos ((p : ℤ) - expo x)
    have hb := (scaled (p := p) hx).1
    have hi := two_zpow_inv (expo x) p
    refine ⟨rnd p x / x - 1, ?_, by field_simp; ring⟩
    have h1 := abs_sub_rne (x * (2 : ℚ) ^ ((p : ℤ) - expo x))
    have hy0 : x * (2 : ℚ) ^ ((p : ℤ) - expo x) ≠ 0 := mul_ne_zero hx hs.ne'
    have h2 : rnd p x / x - 1 = -((x * (2 : ℚ) ^ ((p : ℤ) - expo x) - rne (x * (2 : ℚ) ^ ((p : ℤ) - expo x)))
        / (x * (2 : ℚ) ^ ((p : ℤ) - expo x))) := by
      rw [rnd, if_neg hx]
      generalize (rne (x * (2 : ℚ) ^ ((p : ℤ) - expo x)) : ℤ) = m
      have : (2 : ℚ) ^ (expo x - (p : ℤ)) = ((2 : ℚ) ^ ((p : ℤ) - expo x))⁻¹ := eq_inv_of_mul_eq_one_left hi
      rw [this]
      field_simp
      ring
    rw [h2, abs_neg, abs_div, div_le_iff₀ (abs_pos.2 hy0)]
    have hp : ((1 : ℚ) / 2) ^ p * 2 ^ p = 1 := by rw [← mul_pow]; norm_num
    have : ((1 : ℚ) / 2) ^ p * 2 ^ p ≤ (1 / 2) ^ p * |x * (2 : ℚ) ^ ((p : ℤ) - expo x)| :=
      mul_le_mul_of_nonneg_left hb (by positivity)
    linarith

theorem rnd_err (p : ℕ) (x : ℚ) : ∃ d : ℚ, |d| ≤ (1 / 2) ^ p ∧ rnd p x = x * (1 + d) := by
  obtain ⟨d, h1, h2⟩ := rnd_err_half p x
  exact ⟨d, h1.trans (by have : (0 : ℚ) ≤ (1 / 2) ^ p := by positivity
                         linarith), h2⟩

/-- Numbers `m * 2 ^ k` with at most `p + 1` bits are not changed by rounding. -/
theorem rnd_of_lt {p : ℕ} {m k : ℤ} (h : |m| < 2 ^ (p + 1)) : rnd p (m * (2 : ℚ) ^ k) = m * (2 : ℚ) ^ k := by
  by_cases h0 : (m : ℚ) * (2 : ℚ) ^ k = 0
  · rw [h0, rnd_zero]
  · obtain ⟨h1, -⟩ := expo_spec h0
    rw [rnd, if_neg h0]
    generalize expo (m * (2 : ℚ) ^ k) = e at h1 ⊢
    rw [abs_mul, abs_of_pos (two_zpow_pos k)] at h1
    have hm : |(m : ℚ)| < 2 ^ (p + 1) := by exact_mod_cast h
    have h2 : (2 : ℚ) ^ e < 2 ^ ((p : ℤ) + 1 + k) := by
      refine h1.trans_lt ?_
      rw [zpow_add₀ (by norm_num), show (p : ℤ) + 1 = ((p + 1 : ℕ) : ℤ) by push_cast; rfl, zpow_natCast]
      exact mul_lt_mul_of_pos_right hm (two_zpow_pos k)
    have h3 : e < (p : ℤ) + 1 + k := (zpow_lt_zpow_iff_right₀ (by norm_num)).1 h2
    obtain ⟨j, hj⟩ : ∃ j : ℕ, (j : ℤ) = (p : ℤ) - e + k := ⟨((p : ℤ) - e + k).toNat, Int.toNat_of_nonneg (by omega)⟩
    have h4 : (m : ℚ) * (2 : ℚ) ^ k * (2 : ℚ) ^ ((p : ℤ) - e) = ((m * 2 ^ j : ℤ) : ℚ) := by
      push_cast
      rw [mul_assoc, ← zpow_add₀ (by norm_num), ← zpow_natCast, hj]
      congr 2; ring
    rw [h4, rne_intCast, ← h4, mul_assoc, two_zpow_inv, mul_one]

theorem rnd_repr {p : ℕ} {m k : ℤ} (h : |m| ≤ 2 ^ (p + 1)) : rnd p (m * (2 : ℚ) ^ k) = m * (2 : ℚ) ^ k := by
  rcases lt_or_eq_of_le h with h | h
  · exact rnd_of_lt h
  · obtain ⟨m', hm', hb⟩ : ∃ m' : ℤ, m = m' * 2 ∧ |m'| < 2 ^ (p + 1) := by
      rcases abs_eq (by positivity) |>.1 h with h | h
      · exact ⟨2 ^ p, by rw [h, pow_succ], by
          rw [abs_of_pos (by positivity)]; exact pow_lt_pow_right₀ (by norm_num) (by omega)⟩
      · exact ⟨-2 ^ p, by rw [h, pow_succ]; ring, by
          rw [abs_neg, abs_of_pos (by positivity)]; exact pow_lt_pow_right₀ (by norm_num) (by omega)⟩
    have e : (m : ℚ) * (2 : ℚ) ^ k = m' * (2 : ℚ) ^ (k + 1) := by
      rw [hm', zpow_add_one₀ (by norm_num)]; push_cast; ring
    rw [e]; exact rnd_of_lt hb

/-- Powers of two are not changed by rounding. -/
theorem rnd_pow2 (p : ℕ) (k : ℤ) : rnd p ((2 : ℚ) ^ k) = 2 ^ k := by
  have := rnd_repr (p := p) (m := 1) (k := k) (by rw [abs_one]; exact one_le_pow₀ (by norm_num))
  simpa using this

theorem rne_le_int {a : ℚ} {m : ℤ} (h : a ≤ m) : rne a ≤ m := by
  have := rne_mono h; rwa [rne_intCast] at this

theorem int_le_rne {a : ℚ} {m : ℤ} (h : (m : ℚ) ≤ a) : m ≤ rne a := by
  have := rne_mono h; rwa [rne_intCast] at this

theorem rne_scaled (p : ℕ) {x : ℚ} (hx : x ≠ 0) : |rne (x * (2 : ℚ) ^ ((p : ℤ) - expo x))| ≤ 2 ^ (p + 1) := by
  obtain ⟨-, h⟩ := scaled (p := p) hx
  obtain ⟨h1, h2⟩ := abs_lt.1 h
  rw [abs_le]
  constructor
  · exact int_le_rne (by push_cast; exact h1.le)
  · exact rne_le_int (by push_cast; exact h2.le)

/-- Rounding twice is rounding once. -/
theorem rnd_rnd (p : ℕ) (x : ℚ) : rnd p (rnd p x) = rnd p x := by
  by_cases hx : x = 0
  · rw [hx, rnd_zero, rnd_zero]
  · conv_lhs => rw [rnd.eq_1 p x, if_neg hx]
    conv_rhs => rw [rnd.eq_1 p x, if_neg hx]
    exact rnd_repr (rne_scaled p hx)

theorem rnd_neg_fix {p : ℕ} {x : ℚ} (h : rnd p x = x) : rnd p (-x) = -x := by
  by_cases hx : x = 0
  · rw [hx, neg_zero, rnd_zero]
  · have h2 := rne_scaled p hx
    rw [rnd, if_neg hx] at h
    generalize rne (x * (2 : ℚ) ^ ((p : ℤ) - expo x)) = m at h h2
    have e : -x = ((-m : ℤ) : ℚ) * (2 : ℚ) ^ (expo x - (p : ℤ)) := by push_cast; rw [neg_mul, h]
    rw [e]
    exact rnd_repr (by rw [abs_neg]; exact h2)

theorem rnd_pos_bounds {p : ℕ} {x : ℚ} (hx : 0 < x) : (2 : ℚ) ^ expo x ≤ rnd p x ∧ rnd p x ≤ 2 ^ (expo x + 1) := by
  obtain ⟨h1, h2⟩ := scaled (p := p) hx.ne'
  rw [abs_of_pos (mul_pos hx (two_zpow_pos _))] at h1 h2
  rw [rnd, if_neg hx.ne']
  have a1 : (2 : ℤ) ^ p ≤ rne (x * (2 : ℚ) ^ ((p : ℤ) - expo x)) := int_le_rne (by push_cast; exact h1)
  have a2 : rne (x * (2 : ℚ) ^ ((p : ℤ) - expo x)) ≤ 2 ^ (p + 1) := rne_le_int (by push_cast; exact h2.le)
  generalize rne (x * (2 : ℚ) ^ ((p : ℤ) - expo x)) = m at a1 a2
  have b1 : (2 : ℚ) ^ p ≤ m := by exact_mod_cast a1
  have b2 : (m : ℚ) ≤ 2 ^ (p + 1) := by exact_mod_cast a2
  have hs := two_zpow_pos (expo x - (p : ℤ))
  constructor
  · have e : (2 : ℚ) ^ expo x = 2 ^ p * 2 ^ (expo x - (p : ℤ)) := by
      rw [← zpow_natCast, ← zpow_add₀ (by norm_num)]; congr 1; ring
    rw [e]; exact mul_le_mul_of_nonneg_right b1 hs.le
  · have e : (2 : ℚ) ^ (expo x + 1) = 2 ^ (p + 1) * 2 ^ (expo x - (p : ℤ)) := by
      rw [← zpow_natCast, ← zpow_add₀ (by norm_num)]; congr 1; push_cast; ring
    rw [e]; exact mul_le_mul_of_nonneg_right b2 hs.le

theorem rnd_neg_bounds {p : ℕ} {x : ℚ} (hx : x < 0) : -(2 : ℚ) ^ (expo x + 1) ≤ rnd p x ∧ rnd p x ≤ -2 ^ expo x := by
  obtain ⟨h1, h2⟩ := scaled (p := p) hx.ne
  rw [abs_of_neg (mul_neg_of_neg_of_pos hx (two_zpow_pos _))] at h1 h2
  rw [rnd, if_neg hx.ne]
  have a1 : -(2 : ℤ) ^ (p + 1) ≤ rne (x * (2 : ℚ) ^ ((p : ℤ) - expo x)) := int_le_rne (by push_cast; linarith)
  have a2 : rne (x * (2 : ℚ) ^ ((p : ℤ) - expo x)) ≤ -2 ^ p := rne_le_int (by push_cast; linarith)
  generalize rne (x * (2 : ℚ) ^ ((p : ℤ) - expo x)) = m at a1 a2
  have b1 : -(2 : ℚ) ^ (p + 1) ≤ m := by exact_mod_cast a1
  have b2 : (m : ℚ) ≤ -2 ^ p := by exact_mod_cast a2
  have hs := two_zpow_pos (expo x - (p : ℤ))
  constructor
  · have e : (2 : ℚ) ^ (expo x + 1) = 2 ^ (p + 1) * 2 ^ (expo x - (p : ℤ)) := by
      rw [← zpow_natCast, ← zpow_add₀ (by norm_num)]; congr 1; push_cast; ring
    rw [e, ← neg_mul]; exact mul_le_mul_of_nonneg_right b1 hs.le
  · have e : (2 : ℚ) ^ expo x = 2 ^ p * 2 ^ (expo x - (p : ℤ)) := by
      rw [← zpow_natCast, ← zpow_add₀ (by norm_num)]; congr 1; ring
    rw [e, ← neg_mul]; exact mul_le_mul_of_nonneg_right b2 hs.le

theorem expo_mono {x y : ℚ} (hx : x ≠ 0) (h : |x| ≤ |y|) : expo x ≤ expo y := by
  have hy : y ≠ 0 := by
    rintro rfl; rw [abs_zero] at h; exact hx (abs_eq_zero.1 (le_antisymm h (abs_nonneg _)))
  have h1 := (expo_spec hx).1
  have h2 := (expo_spec hy).2
  have : (2 : ℚ) ^ expo x < 2 ^ (expo y + 1) := (h1.trans h).trans_lt h2
  have := (zpow_lt_zpow_iff_right₀ (by norm_num : (1 : ℚ) < 2)).1 this
  omega

/-- Rounding is monotone. -/
theorem rnd_mono (p : ℕ) {x y : ℚ} (h : x ≤ y) : rnd p x ≤ rnd p y := by
  have same : expo x = expo y → x ≠ 0 → y ≠ 0 → rnd p x ≤ rnd p y := by
    intro he hx hy
    rw [rnd, rnd, if_neg hx, if_neg hy, he]
    apply mul_le_mul_of_nonneg_right _ (two_zpow_pos _).le
    exact_mod_cast rne_mono (mul_le_mul_of_nonneg_right h (two_zpow_pos _).le)
  have step : ∀ a b : ℤ, a < b → (2 : ℚ) ^ (a + 1) ≤ 2 ^ b := fun a b hab =>
    zpow_le_zpow_right₀ (by norm_num) (by omega)
  rcases lt_trichotomy x 0 with hx | hx | hx
  · rcases lt_trichotomy y 0 with hy | hy | hy
    · have he := expo_mono (y := x) hy.ne (by rw [abs_of_neg hx, abs_of_neg hy]; linarith)
      rcases lt_or_eq_of_le he with he | he
      · have := (rnd_neg_bounds (p := p) hx).2
        have := (rnd_neg_bounds (p := p) hy).1
        have := step _ _ he
        linarith
      · exact same he.symm hx.ne hy.ne
    · rw [hy, rnd_zero]
      have := (rnd_neg_bounds (p := p) hx).2
      have := two_zpow_pos (expo x)
      linarith
    · have := (rnd_neg_bounds (p := p) hx).2
      have := two_zpow_pos (expo x)
      have := (rnd_pos_bounds (p := p) hy).1
      have := two_zpow_pos (expo y)
      linarith
  · rw [hx, rnd_zero]
    rcases lt_or_eq_of_le (hx ▸ h) with hy | hy
    · have := (rnd_pos_bounds (p := p) hy).1
      have := two_zpow_pos (expo y)
      linarith
    · rw [← hy, rnd_zero]
  · have hy := hx.trans_le h
    have he := expo_mono (y := y) hx.ne' (by rw [abs_of_pos hx, abs_of_pos hy]; exact h)
    rcases lt_or_eq_of_le he with he | he
    · have := (rnd_pos_bounds (p := p) hx).2
      have := (rnd_pos_bounds (p := p) hy).1
      have := step _ _ he
      linarith
    · exact same he hx.ne' hy.ne'

/-- The square root of `x`, with three bits more than needed; if it is not exact, then it is put halfway to the next such number,
so that rounding it is the same as rounding the square root itself (`sqrtQ_lt`). -/
def sqrtQ (p : ℕ) (x : ℚ) : ℚ :=
  let e := expo x / 2
  let z := x * 4 ^ ((p : ℤ) + 3 - e)
  let r := Nat.sqrt ⌊z⌋.toNat
  if x ≤ 0 then 0 else (if (r : ℚ) * r = z then (r : ℚ) else r + 1 / 2) * 2 ^ (e - ((p : ℤ) + 3))

theorem four_zpow (k : ℤ) : (4 : ℚ) ^ k = 2 ^ k * 2 ^ k := by
  rw [← mul_zpow]; norm_num

theorem sqrtQ_zero (p : ℕ) : sqrtQ p 0 = 0 := by
  unfold sqrtQ
  simp

/-- The parts of the definition: the scaled square root lies between `r` and `r + 1`. -/
theorem sqrtQ_parts (p : ℕ) {x : ℚ} (hx : 0 < x) : ∃ (e : ℤ) (r : ℕ) (z v : ℚ), x = z * 4 ^ (e - ((p : ℤ) + 3)) ∧
    sqrtQ p x = v * 2 ^ (e - ((p : ℤ) + 3)) ∧ 2 ^ (p + 3) ≤ r ∧ r < 2 ^ (p + 4) ∧
    ((v = r ∧ z = (r : ℚ) * r) ∨ (v = r + 1 / 2 ∧ (r : ℚ) * r < z ∧ z < (r + 1) * (r + 1))) := by
  obtain ⟨g1, g2⟩ := expo_spec hx.ne'
  rw [abs_of_pos hx] at g1 g2
  set e := expo x / 2 with he
  set z := x * 4 ^ ((p : ℤ) + 3 - e) with hz
  set r := Nat.sqrt ⌊z⌋.toNat with hr
  have h4 : (4 : ℚ) ^ ((p : ℤ) + 3 - e) * 4 ^ (e - ((p : ℤ) + 3)) = 1 := by
    rw [← zpow_add₀ (by norm_num)]; simp
  have h22 : ∀ k : ℤ, (4 : ℚ) ^ k = 2 ^ (2 * k) := fun k => by rw [zpow_mul]; norm_num
  have hz1 : (2 : ℚ) ^ (2 * (p + 3)) ≤ z := by
    rw [hz, h22]
    calc (2 : ℚ) ^ (2 * (p + 3)) = 2 ^ (2 * e) * 2 ^ (2 * ((p : ℤ) + 3 - e)) := by
          rw [← zpow_add₀ (by norm_num), ← zpow_natCast]; congr 1; push_cast; ring
      _ ≤ x * 2 ^ (2 * ((p : ℤ) + 3 - e)) := by
          refine mul_le_mul_of_nonneg_right (le_trans ?_ g1) (two_zpow_pos _).le
          exact zpow_le_zpow_right₀ (by norm_num) (by omega)
  have hz2 : z < (2 : ℚ) ^ (2 * (p + 4)) := by
    rw [hz, h22]
    calc x * 2 ^ (2 * ((p : ℤ) + 3 - e)) < 2 ^ (2 * e + 2) * 2 ^ (2 * ((p : ℤ) + 3 - e)) := by
          refine mul_lt_mul_of_pos_right (lt_of_lt_of_le g2 ?_) (two_zpow_pos _)
          exact zpow_le_zpow_right₀ (by norm_num) (by omega)
      _ = (2 : ℚ) ^ (2 * (p + 4)) := by
          rw [← zpow_add₀ (by norm_num), ← zpow_natCast]; congr 1; push_cast; ring
  have hz0 : 0 ≤ z := le_trans (by positivity) hz1
  have hf0 : 0 ≤ ⌊z⌋ := Int.floor_nonneg.2 hz0
  obtain ⟨m, hm⟩ : ∃ m : ℕ, ⌊z⌋ = m := ⟨⌊z⌋.toNat, (Int.toNat_of_nonneg hf0).symm⟩
  have hmr : r = Nat.sqrt m := by rw [hr, hm]; rfl
  have b1 : r * r ≤ m := by rw [hmr]; exact Nat.sqrt_le _
  have b2 : m < (r + 1) * (r + 1) := by rw [hmr]; exact Nat.lt_succ_sqrt _
  have f1 : (m : ℚ) ≤ z := by have := Int.floor_le z; rwa [hm, Int.cast_natCast] at this
  have f2 : z < (m : ℚ) + 1 := by have := Int.lt_floor_add_one z; rwa [hm, Int.cast_natCast] at this
  have c1 : (r : ℚ) * r ≤ z := le_trans (by exact_mod_cast b1) f1
  have c2 : z < ((r : ℚ) + 1) * (r + 1) := lt_of_lt_of_le f2 (by exact_mod_cast b2)
  have d1 : 2 ^ (p + 3) ≤ r := by
    rw [hmr, Nat.le_sqrt, ← pow_add]
    have : ((2 ^ (2 * (p + 3)) : ℤ)) ≤ ⌊z⌋ := Int.le_floor.2 (by push_cast; exact hz1)
    rw [hm] at this
    have : 2 ^ (2 * (p + 3)) ≤ m := by exact_mod_cast this
    rwa [show p + 3 + (p + 3) = 2 * (p + 3) by ring]
  have d2 : r < 2 ^ (p + 4) := by
    rw [hmr, Nat.sqrt_lt, ← pow_add]
    have : (m : ℚ) < 2 ^ (2 * (p + 4)) := lt_of_le_of_lt f1 hz2
    have : m < 2 ^ (2 * (p + 4)) := by exact_mod_cast this
    rwa [show p + 4 + (p + 4) = 2 * (p + 4) by ring]
  refine ⟨e, r, z, if (r : ℚ) * r = z then (r : ℚ) else r + 1 / 2, by rw [hz, mul_assoc, h4, mul_one], if_neg (not_le.2 hx), d1, d2, ?_⟩
  by_cases h : (r : ℚ) * r = z
  · rw [if_pos h]; exact .inl ⟨rfl, h.symm⟩
  · rw [if_neg h]; exact .inr ⟨rfl, lt_of_le_of_ne c1 h, c2⟩

theorem sqrtQ_spec (p : ℕ) (x : ℚ) (hx : 0 ≤ x) :
    0 ≤ sqrtQ p x ∧ x ≤ sqrtQ p x ^ 2 * (1 + (1 / 2) ^ p / 16) ^ 2 ∧ sqrtQ p x ^ 2 ≤ x * (1 + (1 / 2) ^ p / 16) ^ 2 := by
  rcases hx.eq_or_lt with rfl | hx
  · rw [sqrtQ_zero]; simp
  obtain ⟨e, r, z, v, h1, h2, h3, -, h5⟩ := sqrtQ_parts p hx
  have hr' : (2 : ℚ) ^ (p + 3) ≤ r := by exact_mod_cast h3
  have hv : ((1 : ℚ) / 2) ^ p / 16 * 2 ^ (p + 3) = 1 / 2 := by
    rw [pow_add, div_mul_eq_mul_div, ← mul_assoc, ← mul_pow]; norm_num
  have hη0 : (0 : ℚ) < (1 / 2) ^ p / 16 := by positivity
  generalize ((1 : ℚ) / 2) ^ p / 16 = η at hv hη0 ⊢
  have hηr : 1 / 2 ≤ η * r := by rw [← hv]; exact mul_le_mul_of_nonneg_left hr' hη0.le
  have hr0 : (0 : ℚ) < r := lt_of_lt_of_le (by positivity) hr'
  have hs := two_zpow_pos (e - ((p : ℤ) + 3))
  rw [h2, h1, four_zpow]
  generalize (2 : ℚ) ^ (e - ((p : ℤ) + 3)) = w at hs
  have key : 0 ≤ v ∧ z ≤ v ^ 2 * (1 + η) ^ 2 ∧ v ^ 2 ≤ z * (1 + η) ^ 2 := by
    have h1e : 1 ≤ (1 + η) ^ 2 := one_le_pow₀ (by linarith)
    rcases h5 with ⟨rfl, rfl⟩ | ⟨rfl, h6, h7⟩
    · refine ⟨hr0.le, ?_, ?_⟩
      · rw [sq (r : ℚ)]; exact le_mul_of_one_le_right (by positivity) h1e
      · rw [sq (r : ℚ)]; exact le_mul_of_one_le_right (by positivity) h1e
    · refine ⟨by linarith, ?_, ?_⟩
      · rw [← mul_pow]
        have : (r : ℚ) + 1 ≤ (r + 1 / 2) * (1 + η) := by nlinarith
        calc z ≤ ((r : ℚ) + 1) ^ 2 := by rw [sq]; exact h7.le
          _ ≤ _ := pow_le_pow_left₀ (by linarith) this 2
      · have : (r : ℚ) + 1 / 2 ≤ r * (1 + η) := by nlinarith
        calc ((r : ℚ) + 1 / 2) ^ 2 ≤ (r * (1 + η)) ^ 2 := pow_le_pow_left₀ (by linarith) this 2
          _ = r * r * (1 + η) ^ 2 := by ring
          _ ≤ z * (1 + η) ^ 2 := mul_le_mul_of_nonneg_right h6.le (by positivity)
  obtain ⟨k1, k2, k3⟩ := key
  refine ⟨mul_nonneg k1 hs.le, ?_, ?_⟩
  · calc z * (w * w) ≤ v ^ 2 * (1 + η) ^ 2 * (w * w) := mul_le_mul_of_nonneg_right k2 (by positivity)
      _ = _ := by ring
  · calc (v * w) ^ 2 = v ^ 2 * (w * w) := by ring
      _ ≤ z * (1 + η) ^ 2 * (w * w) := mul_le_mul_of_nonneg_right k3 (by positivity)
      _ = _ := by ring

/-- Every number with at most `p + 3` bits (so every number with `p + 1` bits and every number halfway between two of them) is
on the same side of `sqrtQ p x` as of the square root of `x`. -/
theorem sqrtQ_lt (p : ℕ) {x : ℚ} (hx : 0 < x) (m : ℕ) (k : ℤ) (hm : m < 2 ^ (p + 3)) :
    (sqrtQ p x < m * 2 ^ k ↔ x < (m * 2 ^ k) ^ 2) ∧ (m * 2 ^ k < sqrtQ p x ↔ (m * 2 ^ k) ^ 2 < x) := by
  obtain ⟨e, r, z, v, h1, h2, h3, -, h5⟩ := sqrtQ_parts p hx
  have hs := two_zpow_pos (e - ((p : ℤ) + 3))
  have hw : (m : ℚ) * 2 ^ k = (m * 2 ^ (k - (e - ((p : ℤ) + 3)))) * 2 ^ (e - ((p : ℤ) + 3)) := by
    rw [mul_assoc, ← zpow_add₀ (by norm_num), sub_add_cancel]
  rw [hw, h2, h1, four_zpow]
  generalize (2 : ℚ) ^ (e - ((p : ℤ) + 3)) = w at hs
  generalize k - (e - ((p : ℤ) + 3)) = j
  have e1 : ∀ a : ℚ, (a * w) ^ 2 = a ^ 2 * (w * w) := fun a => by ring
  rw [e1, mul_lt_mul_iff_left₀ hs, mul_lt_mul_iff_left₀ hs, mul_lt_mul_iff_left₀ (mul_pos hs hs), mul_lt_mul_iff_left₀ (mul_pos hs hs)]
  have hr0 : (0 : ℚ) ≤ r := Nat.cast_nonneg r
  by_cases hj : 0 ≤ j
  · obtain ⟨i, rfl⟩ := Int.eq_ofNat_of_zero_le hj
    have e2 : (m : ℚ) * 2 ^ (i : ℤ) = ((m * 2 ^ i : ℕ) : ℚ) := by push_cast; rw [zpow_natCast]
    rw [e2]
    generalize m * 2 ^ i = M
    have hM0 : (0 : ℚ) ≤ M := Nat.cast_nonneg M
    rcases h5 with ⟨rfl, rfl⟩ | ⟨rfl, h6, h7⟩
    · rw [← sq, sq_lt_sq₀ hr0 hM0, sq_lt_sq₀ hM0 hr0]
      exact ⟨Iff.rfl, Iff.rfl⟩
    · rcases Nat.lt_or_ge r M with h | h
      · have h' : (r : ℚ) + 1 ≤ M := by exact_mod_cast h
        have h8 : z < (M : ℚ) ^ 2 := by nlinarith
        exact ⟨⟨fun _ => h8, fun _ => by linarith⟩, ⟨fun g => by linarith, fun g => by linarith⟩⟩
      · have h' : (M : ℚ) ≤ r := by exact_mod_cast h
        have h8 : (M : ℚ) ^ 2 < z := by nlinarith
        exact ⟨⟨fun g => by linarith, fun g => by linarith⟩, ⟨fun _ => h8, fun _ => by linarith⟩⟩
  · have hm' : (m : ℚ) < 2 ^ (p + 3) := by exact_mod_cast hm
    have hr' : (2 : ℚ) ^ (p + 3) ≤ r := by exact_mod_cast h3
    have h2j : (2 : ℚ) ^ j ≤ 1 := zpow_le_one_of_nonpos₀ (by norm_num) (by omega)
    have h2j0 := two_zpow_pos j
    have hM0 : (0 : ℚ) ≤ m * 2 ^ j := by positivity
    have hM : (m : ℚ) * 2 ^ j < r := by
      have : (m : ℚ) * 2 ^ j ≤ m := mul_le_of_le_one_right (Nat.cast_nonneg m) h2j
      linarith
    generalize (m : ℚ) * 2 ^ j = M at hM hM0
    have h8 : M ^ 2 < z := by
      have : M ^ 2 < (r : ℚ) * r := by nlinarith
      rcases h5 with ⟨rfl, rfl⟩ | ⟨rfl, h6, h7⟩
      · exact this
      · linarith
    have h9 : M < v := by
      rcases h5 with ⟨rfl, rfl⟩ | ⟨rfl, h6, h7⟩
      · exact hM
      · linarith
    exact ⟨⟨fun g => by linarith, fun g => by linarith⟩, ⟨fun _ => h8, fun _ => h9⟩⟩

theorem sqrt_rnd (p : ℕ) (x : ℚ) (hx : 0 ≤ x) : 0 ≤ rnd p (sqrtQ p x) ∧
    x * (1 - (1 / 2) ^ p) ^ 2 ≤ rnd p (sqrtQ p x) ^ 2 ∧ rnd p (sqrtQ p x) ^ 2 ≤ x * (1 + (1 / 2) ^ p) ^ 2 := by
  obtain ⟨h0, h1, h2⟩ := sqrtQ_spec p x hx
  obtain ⟨d, hd, e⟩ := rnd_err_half p (sqrtQ p x)
  have hv0 : (0 : ℚ) < (1 / 2) ^ p := by positivity
  have hv1 : ((1 : ℚ) / 2) ^ p ≤ 1 := pow_le_one₀ (by norm_num) (by norm_num)
  generalize ((1 : ℚ) / 2) ^ p = v at *
  obtain ⟨d1, d2⟩ := abs_le.1 hd
  refine ⟨?_, ?_, ?_⟩
  · have := rnd_mono p h0
    rwa [rnd_zero] at this
  · rw [e, mul_pow]
    calc x * (1 - v) ^ 2 ≤ sqrtQ p x ^ 2 * (1 + v / 16) ^ 2 * (1 - v) ^ 2 := mul_le_mul_of_nonneg_right h1 (sq_nonneg _)
      _ = sqrtQ p x ^ 2 * ((1 + v / 16) * (1 - v)) ^ 2 := by ring
      _ ≤ _ := mul_le_mul_of_nonneg_left (pow_le_pow_left₀ (mul_nonneg (by linarith) (by linarith)) (by nlinarith) 2) (sq_nonneg _)
  · rw [e, mul_pow]
    calc sqrtQ p x ^ 2 * (1 + d) ^ 2 ≤ x * (1 + v / 16) ^ 2 * (1 + d) ^ 2 := mul_le_mul_of_nonneg_right h2 (sq_nonneg _)
      _ = x * ((1 + v / 16) * (1 + d)) ^ 2 := by ring
      _ ≤ _ := mul_le_mul_of_nonneg_left (pow_le_pow_left₀ (mul_nonneg (by linarith) (by linarith)) (by nlinarith) 2) hx

/-- `b ^ r`, where `r` is taken to be the nearest number of the form `1/m` (the code uses only such exponents). -/
def powQ (b r : ℚ) : ℚ := ratPow b ((round r⁻¹ : ℤ) : ℚ)⁻¹

end Bin

/-- Binary floating-point numbers with `p` bits after the leading one. -/
structure Bin (p : ℕ) where
  v : ℚ
  fix : Bin.rnd p v = v

namespace Bin

variable {p : ℕ}

/-- The number nearest to `x`. -/
def of (x : ℚ) : Bin p := ⟨rnd p x, rnd_rnd p x⟩

instance : Scalar (Bin p) where
  zero := of 0
  one := of 1
  add a b := of (a.v + b.v)
  sub a b := of (a.v - b.v)
  mul a b := of (a.v * b.v)
  div a b := of (a.v / b.v)
  neg a := ⟨-a.v, rnd_neg_fix a.fix⟩
  lt a b := decide (a.v < b.v)
  le a b := decide (a.v ≤ b.v)
  eqb a b := decide (a.v = b.v)
  abs a := if a.v < 0 then ⟨-a.v, rnd_neg_fix a.fix⟩ else a
  max a b := if a.v < b.v then b else a
  min a b := if a.v < b.v then a else b
  sqrt a := of (sqrtQ p a.v)
  powf a b := of (powQ a.v b.v)
  signum a := if a.v < 0 then of (-1) else of 1
  recip a := of (a.v)⁻¹
  eps := of ((1 / 2) ^ p)
  ofNat n := of n
  half := of (1 / 2)
  quarter := of (1 / 4)
  two := of 2
  four := of 4
  five := of 5
  ten := of 10
  twenty := of 20
  hundred := of 100
  pt9 := of (9 / 10)
  pt1 := of (1 / 10)
  pt001 := of (1 / 1000)
  pt0001 := of (1 / 10000)
  xrateLo := of (3 / 5)
  epcon := of (33 / 100)

theorem of_pow2 (k : ℤ) (x : ℚ) (h : x = 2 ^ k) : (of x : Bin p).v = x := by
  rw [h]; exact rnd_pow2 p k

theorem of_pos {x : ℚ} (h : 0 < x) : 0 < (of x : Bin p).v :=
  lt_of_lt_of_le (two_zpow_pos _) (rnd_pos_bounds h).1

instance [hp : Fact (4 ≤ p)] : StdModel (Bin p) ℚ where
  val a := a.v
  u := (1 / 2) ^ p
  u_nonneg := by positivity
  u_lt := pow_lt_one₀ (by norm_num) (by norm_num) (by have := hp.out; omega)
  val_zero := rnd_zero p
  val_one := of_pow2 0 1 (by norm_num)
  val_neg _ := rfl
  val_abs a := by
    show (if a.v < 0 then (⟨-a.v, rnd_neg_fix a.fix⟩ : Bin p) else a).v = _
    split
    · rename_i h; exact (abs_of_neg h).symm
    · rename_i h; exact (abs_of_nonneg (not_lt.1 h)).symm
  lt_iff a b := decide_eq_true_iff
  le_iff a b := decide_eq_true_iff
  eq_iff a b := decide_eq_true_iff
  val_add a b := rnd_err p _
  val_sub a b := rnd_err p _
  val_mul a b := rnd_err p _
  val_div a b _ := rnd_err p _
  val_recip a _ := rnd_err p _
  val_sqrt a h := sqrt_rnd p _ h
  val_ofNat n := rnd_err p _

instance [hp : Fact (4 ≤ p)] : Correct (Bin p) ℚ where
  rd := rnd p
  rd_mono _ _ h := rnd_mono p h
  rd_val a := a.fix
  add_rd _ _ := rfl
  sub_rd _ _ := rfl
  mul_rd _ _ := rfl
  val_max a b := by
    show (if a.v < b.v then b else a).v = max a.v b.v
    split
    · rename_i h; exact (max_eq_right h.le).symm
    · rename_i h; exact (max_eq_left (not_lt.1 h)).symm
  val_min a b := by
    show (if a.v < b.v then a else b).v = min a.v b.v
    split
    · rename_i h; exact (min_eq_left h.le).symm
    · rename_i h; exact (min_eq_right (not_lt.1 h)).symm
  val_two := of_pow2 1 2 (by norm_num)
  val_four := of_pow2 2 4 (by norm_num)
  val_half := of_pow2 (-1) (1 / 2) (by norm_num)
  val_quarter := of_pow2 (-2) (1 / 4) (by norm_num)
  pt9_lo := by
    have := rnd_mono p (show (2 : ℚ) ^ (-1 : ℤ) ≤ 9 / 10 by norm_num)
    rw [rnd_pow2] at this
    show 1 / 2 ≤ rnd p (9 / 10)
    norm_num at this ⊢; exact this
  pt9_hi := by
    have := rnd_mono p (show 9 / 10 ≤ (2 : ℚ) ^ (0 : ℤ) by norm_num)
    rw [rnd_pow2] at this
    show rnd p (9 / 10) ≤ 1
    norm_num at this ⊢; exact this
  pt001_pos := of_pos (by norm_num)
  hundred_pos := of_pos (by norm_num)
  eps_ge := by
    show (1 / 2) ^ p ≤ (of ((1 / 2) ^ p) : Bin p).v
    rw [of_pow2 (-p) _ (by rw [zpow_neg, zpow_natCast, one_div, inv_pow])]
  eps_le := by
    show 16 * (of ((1 / 2) ^ p) : Bin p).v ≤ 1
    rw [of_pow2 (-p) _ (by rw [zpow_neg, zpow_natCast, one_div, inv_pow])]
    have : ((1 : ℚ) / 2) ^ p ≤ (1 / 2) ^ 4 := pow_le_pow_of_le_one (by norm_num) (by norm_num) hp.out
    norm_num at this ⊢
    linarith

end Bin

end Verif
