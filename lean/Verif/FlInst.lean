import Verif.Spec.Rounding
import Mathlib.Algebra.Order.Round
import Mathlib.Data.Rat.Floor
import Mathlib.Data.Nat.Sqrt
import Mathlib.Tactic.FieldSimp
import Mathlib.Tactic.Positivity

/-!
# A floating-point arithmetic that the kernel can run

Numbers `m * 2^e`, rounded to nearest after every operation, with about eight significant bits and unlimited exponents.  It
satisfies the standard model with unit roundoff `1/256`; the witnesses of the rounding theorems compute with it.
-/

set_option autoImplicit false

namespace Verif

open Verif.Spec

/-- A number of the arithmetic.  (All results of operations lie on the grid; the type does not enforce it.) -/
structure Fl where
  v : ℚ
deriving DecidableEq

namespace Fl

/-- The power of two by which the value is scaled before it is rounded to an integer. -/
def scale (x : ℚ) : ℚ := (2 : ℚ) ^ ((8 : ℤ) - (Nat.log2 x.num.natAbs : ℤ) + (Nat.log2 x.den : ℤ))

/-- Rounding to nearest. -/
def rnd (x : ℚ) : ℚ := if x = 0 then 0 else (round (x * scale x) : ℤ) / scale x

theorem scale_pos (x : ℚ) : 0 < scale x := zpow_pos (by norm_num) _

theorem scale_big {x : ℚ} (hx : x ≠ 0) : 128 ≤ |x| * scale x := by
  have hn : x.num.natAbs ≠ 0 := by rw [Int.natAbs_ne_zero]; exact Rat.num_ne_zero.2 hx
  have h1 : 2 ^ Nat.log2 x.num.natAbs ≤ x.num.natAbs := Nat.log2_self_le hn
  have h2 : x.den < 2 ^ (Nat.log2 x.den + 1) := Nat.lt_log2_self
  have h3 : |x| = (x.num.natAbs : ℚ) / x.den := by
    conv_lhs => rw [← Rat.num_div_den x]
    rw [abs_div, abs_of_pos (show (0 : ℚ) < x.den by exact_mod_cast x.den_pos), Nat.cast_natAbs, Int.cast_abs]
  have hd : (0 : ℚ) < x.den := by exact_mod_cast x.den_pos
  have h1' : (2 : ℚ) ^ Nat.log2 x.num.natAbs ≤ x.num.natAbs := by exact_mod_cast h1
  have h2' : (x.den : ℚ) < 2 ^ (Nat.log2 x.den + 1) := by exact_mod_cast h2
  have h4 : scale x = 256 * 2 ^ Nat.log2 x.den / 2 ^ Nat.log2 x.num.natAbs := by
    unfold scale
    rw [zpow_add₀ (by norm_num), zpow_sub₀ (by norm_num), zpow_natCast, zpow_natCast]
    norm_num
    ring
  rw [h3, h4]
  have hp : (0 : ℚ) < 2 ^ Nat.log2 x.num.natAbs := by positivity
  rw [div_mul_div_comm, le_div_iff₀ (by positivity)]
  rw [pow_succ] at h2'
  have hq : (0 : ℚ) < 2 ^ Nat.log2 x.den := by positivity
  calc 128 * ((x.den : ℚ) * 2 ^ Nat.log2 x.num.natAbs)
      ≤ 128 * ((2 ^ Nat.log2 x.den * 2) * x.num.natAbs) := by
        apply mul_le_mul_of_nonneg_left _ (by norm_num)
        exact mul_le_mul h2'.le h1' hp.le (by positivity)
    _ = x.num.natAbs * (256 * 2 ^ Nat.log2 x.den) := by ring

theorem rnd_err (x : ℚ) : ∃ d : ℚ, |d| ≤ 1 / 256 ∧ rnd x = x * (1 + d) := by
  by_cases hx : x = 0
  · exact ⟨0, by norm_num, by simp [rnd, hx]⟩
  · have hs := scale_pos x
    have hb := scale_big hx
    refine ⟨rnd x / x - 1, ?_, by field_simp; ring⟩
    have h1 := abs_sub_round (x * scale x)
    have h2 : rnd x / x - 1 = -((x * scale x - round (x * scale x)) / (x * scale x)) := by
      rw [rnd, if_neg hx]
      field_simp
      ring
    rw [h2, abs_neg, abs_div, abs_mul, abs_of_pos hs, div_le_iff₀ (by linarith)]
    linarith

/-- Square root to about eight bits. -/
def sqrtQ (x : ℚ) : ℚ := (Nat.sqrt (x.num.toNat * x.den * 65536) : ℚ) / (x.den * 256)

theorem sqrtQ_spec (x : ℚ) (hx : 0 ≤ x) :
    0 ≤ sqrtQ x ∧ x * (1 - 1 / 256) ^ 2 ≤ sqrtQ x ^ 2 ∧ sqrtQ x ^ 2 ≤ x * (1 + 1 / 256) ^ 2 := by
  have hd : (0 : ℚ) < x.den := by exact_mod_cast x.den_pos
  obtain ⟨n, hn⟩ : ∃ n : Nat, x.num = n := ⟨x.num.toNat, by rw [Int.toNat_of_nonneg (Rat.num_nonneg.2 hx)]⟩
  have hxe : x = (n : ℚ) / x.den := by
    conv_lhs => rw [← Rat.num_div_den x, hn, Int.cast_natCast]
  have hs : sqrtQ x = (Nat.sqrt (n * x.den * 65536) : ℚ) / (x.den * 256) := by unfold sqrtQ; rw [hn]; rfl
  generalize hr : Nat.sqrt (n * x.den * 65536) = r at hs
  have h1 : r * r ≤ n * x.den * 65536 := by rw [← hr]; exact Nat.sqrt_le _
  have h2 : n * x.den * 65536 < (r + 1) * (r + 1) := by rw [← hr]; exact Nat.lt_succ_sqrt _
  have h1' : (r : ℚ) * r ≤ n * x.den * 65536 := by exact_mod_cast h1
  have h2' : (n : ℚ) * x.den * 65536 < (r + 1) * (r + 1) := by exact_mod_cast h2
  have hsq : sqrtQ x ^ 2 = (r : ℚ) * r / (x.den * x.den * 65536) := by rw [hs]; field_simp; norm_num
  have hx2 : x = n * x.den * 65536 / (x.den * x.den * 65536) := by
    conv_lhs => rw [hxe]
    field_simp
  have hD : (0 : ℚ) < x.den * x.den * 65536 := by positivity
  refine ⟨by rw [hs]; positivity, ?_, ?_⟩
  · rw [hsq]
    conv_lhs => rw [hx2]
    rw [div_mul_eq_mul_div, div_le_div_iff_of_pos_right hD]
    by_cases hn0 : n = 0
    · subst hn0
      have : (0 : ℚ) ≤ r * r := by positivity
      simpa using this
    · have hr256 : 256 ≤ r := by
        rw [← hr, Nat.le_sqrt]
        have : 1 ≤ n * x.den := Nat.one_le_iff_ne_zero.2 (by
          rw [Nat.mul_ne_zero_iff]; exact ⟨hn0, x.den_nz⟩)
        omega
      have hr256' : (256 : ℚ) ≤ r := by exact_mod_cast hr256
      nlinarith
  · rw [hsq]
    conv_rhs => rw [hx2]
    rw [div_mul_eq_mul_div, div_le_div_iff_of_pos_right hD]
    have : (0 : ℚ) ≤ n * x.den * 65536 := by positivity
    nlinarith

/-- `b ^ p`, where `p` is taken to be the nearest number of the form `1/m` (the code uses only such exponents). -/
def powQ (b p : ℚ) : ℚ := rnd (ratPow b ((round p⁻¹ : ℤ) : ℚ)⁻¹)

instance : Scalar Fl where
  zero := ⟨0⟩
  one := ⟨1⟩
  add a b := ⟨rnd (a.v + b.v)⟩
  sub a b := ⟨rnd (a.v - b.v)⟩
  mul a b := ⟨rnd (a.v * b.v)⟩
  div a b := ⟨rnd (a.v / b.v)⟩
  neg a := ⟨-a.v⟩
  lt a b := decide (a.v < b.v)
  le a b := decide (a.v ≤ b.v)
  eqb a b := decide (a.v = b.v)
  abs a := ⟨|a.v|⟩
  max a b := ⟨Max.max a.v b.v⟩
  min a b := ⟨Min.min a.v b.v⟩
  sqrt a := ⟨sqrtQ a.v⟩
  powf a b := ⟨powQ a.v b.v⟩
  signum a := ⟨if a.v < 0 then -1 else 1⟩
  recip a := ⟨rnd (a.v)⁻¹⟩
  eps := ⟨1 / 128⟩
  ofNat n := ⟨rnd n⟩
  half := ⟨1 / 2⟩
  quarter := ⟨1 / 4⟩
  two := ⟨2⟩
  four := ⟨4⟩
  five := ⟨5⟩
  ten := ⟨10⟩
  twenty := ⟨20⟩
  hundred := ⟨100⟩
  pt9 := ⟨rnd (9 / 10)⟩
  pt1 := ⟨rnd (1 / 10)⟩
  pt001 := ⟨rnd (1 / 1000)⟩
  pt0001 := ⟨rnd (1 / 10000)⟩
  xrateLo := ⟨rnd (3 / 5)⟩
  epcon := ⟨rnd (33 / 100)⟩

instance : StdModel Fl ℚ where
  val a := a.v
  u := 1 / 256
  u_nonneg := by norm_num
  u_lt := by norm_num
  val_zero := rfl
  val_one := rfl
  val_neg _ := rfl
  val_abs _ := rfl
  lt_iff a b := decide_eq_true_iff
  le_iff a b := decide_eq_true_iff
  eq_iff a b := decide_eq_true_iff
  val_add a b := rnd_err _
  val_sub a b := rnd_err _
  val_mul a b := rnd_err _
  val_div a b _ := rnd_err _
  val_recip a _ := rnd_err _
  val_sqrt a h := sqrtQ_spec _ h
  val_ofNat n := rnd_err _

end Fl

/-- Exact arithmetic is floating-point arithmetic with unit roundoff zero. -/
@[reducible] def exactStdModel {K : Type} [Field K] [LinearOrder K] [IsStrictOrderedRing K] [ExactParams K] [ExactLaws K] :
    StdModel K K where
  val a := a
  u := 0
  u_nonneg := le_refl _
  u_lt := by norm_num
  val_zero := rfl
  val_one := rfl
  val_neg _ := rfl
  val_abs _ := rfl
  lt_iff a b := decide_eq_true_iff
  le_iff a b := decide_eq_true_iff
  eq_iff a b := decide_eq_true_iff
  val_add a b := ⟨0, by simp, by simp⟩
  val_sub a b := ⟨0, by simp, by simp⟩
  val_mul a b := ⟨0, by simp, by simp⟩
  val_div a b _ := ⟨0, by simp, by simp⟩
  val_recip a _ := ⟨0, by simp, by simp⟩
  val_sqrt a h := ⟨ExactLaws.sqrt_nonneg a, by
    have := ExactLaws.sqrt_sq a h
    constructor <;> · simp only [sub_zero, add_zero, mul_one, pow_two]; exact le_of_eq (by first | exact this | exact this.symm)⟩
  val_ofNat n := ⟨0, by simp, by simp⟩

end Verif
