import Mathlib.Algebra.Order.Field.Basic
import Mathlib.Algebra.Order.Ring.Rat
import Mathlib.Tactic.Ring
import Mathlib.Tactic.Linarith

/-!
# Scalars

The Rust code is generic over `num_traits::Float` (root crate) or `nalgebra::RealField` (crates/linear,
crates/nonlinear).  `Scalar K` is the list of the operations it uses, **without any law**: everything proved about
the model for an arbitrary `[Scalar K]` therefore also holds for IEEE-754 binary64 (rounding, NaN, infinities).

`ExactParams` turns a linearly ordered field with a chosen `epsilon`, `sqrt` and `powf` into a `Scalar`; it is used
for the exact-arithmetic theorems (over any such field, in particular `ℝ`) and for kernel-evaluated witnesses over
`ℚ`.
-/

namespace Verif

universe u

/-- Raw operations of the scalar type (`num_traits::Float + IdaConst`, /repo/src/constants.rs:41-120, and the
methods `abs max min sqrt powf signum recip epsilon`, `NumCast::from`).  No laws. Comparisons are Boolean, as in
Rust, so that a NaN-like element (incomparable with itself) is a possible instance. -/
class Scalar (K : Type u) extends Zero K, One K, Add K, Sub K, Mul K, Div K, Neg K where
  /-- `a < b` -/
  lt : K → K → Bool
  /-- `a <= b` -/
  le : K → K → Bool
  /-- `a == b` -/
  eqb : K → K → Bool
  abs : K → K
  /-- `Float::max` -/
  max : K → K → K
  /-- `Float::min` -/
  min : K → K → K
  sqrt : K → K
  powf : K → K → K
  /-- `Float::signum` -/
  signum : K → K
  recip : K → K
  /-- `Float::epsilon()` -/
  eps : K
  /-- `NumCast::from(n: usize)` (also used for u8) -/
  ofNat : Nat → K
  half : K
  quarter : K
  two : K
  four : K
  five : K
  ten : K
  twenty : K
  hundred : K
  pt9 : K
  pt1 : K
  pt001 : K
  pt0001 : K
  /-- `NumCast::from((1.0 - XRATE)/(1.0 + XRATE))`, XRATE = 0.25 (/repo/src/lib.rs:805) -/
  xrateLo : K
  /-- `EPCON = 0.33` (/repo/src/constants.rs:29) -/
  epcon : K

namespace Scalar
variable {K : Type u} [Scalar K]
/-- `a > b` -/
@[reducible] def gt (a b : K) : Bool := lt b a
/-- `a >= b` -/
@[reducible] def ge (a b : K) : Bool := le b a
/-- `a != b` -/
@[reducible] def neb (a b : K) : Bool := !(eqb a b)
end Scalar

/-- The parameters that are not determined by the ordered field structure. -/
class ExactParams (K : Type u) where
  eps : K
  sqrt : K → K
  powf : K → K → K

/-- The exact-arithmetic instance: all operations are the field operations, comparisons are those of the linear
order; `signum` follows Rust (`signum(0.0) = 1.0`). -/
@[reducible] instance (priority := 50) exactScalar {K : Type u} [Field K] [LinearOrder K] [ExactParams K] :
    Scalar K where
  lt a b := decide (a < b)
  le a b := decide (a ≤ b)
  eqb a b := decide (a = b)
  abs a := Max.max a (-a)
  max a b := Max.max a b
  min a b := Min.min a b
  sqrt := ExactParams.sqrt
  powf := ExactParams.powf
  signum a := if a < 0 then -1 else 1
  recip a := a⁻¹
  eps := ExactParams.eps
  ofNat n := (n : K)
  half := 1 / 2
  quarter := 1 / 4
  two := 2
  four := 4
  five := 5
  ten := 10
  twenty := 20
  hundred := 100
  pt9 := 9 / 10
  pt1 := 1 / 10
  pt001 := 1 / 1000
  pt0001 := 1 / 10000
  xrateLo := (1 - 1 / 4) / (1 + 1 / 4)
  epcon := 33 / 100

/-- Laws of the unit roundoff of an exact instance. -/
class EpsLaws (K : Type u) [Field K] [LinearOrder K] [ExactParams K] : Prop where
  eps_pos : (0 : K) < ExactParams.eps
  eps_small : (1000 : K) * ExactParams.eps < 1

/-- Laws of all parameters of an exact instance that numeric theorems may use. -/
class ExactLaws (K : Type u) [Field K] [LinearOrder K] [ExactParams K] : Prop extends EpsLaws K where
  sqrt_nonneg : ∀ x : K, 0 ≤ ExactParams.sqrt x
  sqrt_sq : ∀ x : K, 0 ≤ x → ExactParams.sqrt x * ExactParams.sqrt x = x
  powf_pos : ∀ b e : K, 0 < b → 0 < ExactParams.powf b e

section simp_lemmas
variable {K : Type u} [Field K] [LinearOrder K] [ExactParams K]
@[simp] theorem ex_lt (a b : K) : Scalar.lt a b = decide (a < b) := rfl
@[simp] theorem ex_le (a b : K) : Scalar.le a b = decide (a ≤ b) := rfl
@[simp] theorem ex_eqb (a b : K) : Scalar.eqb a b = decide (a = b) := rfl
theorem ex_abs (a : K) : Scalar.abs a = |a| := rfl
@[simp] theorem ex_max (a b : K) : Scalar.max a b = Max.max a b := rfl
@[simp] theorem ex_min (a b : K) : Scalar.min a b = Min.min a b := rfl
@[simp] theorem ex_sqrt (a : K) : Scalar.sqrt a = ExactParams.sqrt a := rfl
@[simp] theorem ex_powf (a b : K) : Scalar.powf a b = ExactParams.powf a b := rfl
@[simp] theorem ex_signum (a : K) : Scalar.signum a = if a < 0 then -1 else 1 := rfl
@[simp] theorem ex_recip (a : K) : Scalar.recip a = a⁻¹ := rfl
@[simp] theorem ex_eps : (Scalar.eps : K) = ExactParams.eps := rfl
@[simp] theorem ex_ofNat (n : Nat) : (Scalar.ofNat n : K) = (n : K) := rfl
@[simp] theorem ex_half : (Scalar.half : K) = 1 / 2 := rfl
@[simp] theorem ex_quarter : (Scalar.quarter : K) = 1 / 4 := rfl
@[simp] theorem ex_two : (Scalar.two : K) = 2 := rfl
@[simp] theorem ex_four : (Scalar.four : K) = 4 := rfl
@[simp] theorem ex_five : (Scalar.five : K) = 5 := rfl
@[simp] theorem ex_ten : (Scalar.ten : K) = 10 := rfl
@[simp] theorem ex_twenty : (Scalar.twenty : K) = 20 := rfl
@[simp] theorem ex_hundred : (Scalar.hundred : K) = 100 := rfl
@[simp] theorem ex_pt9 : (Scalar.pt9 : K) = 9 / 10 := rfl
@[simp] theorem ex_pt1 : (Scalar.pt1 : K) = 1 / 10 := rfl
@[simp] theorem ex_pt001 : (Scalar.pt001 : K) = 1 / 1000 := rfl
@[simp] theorem ex_pt0001 : (Scalar.pt0001 : K) = 1 / 10000 := rfl
@[simp] theorem ex_epcon : (Scalar.epcon : K) = 33 / 100 := rfl
end simp_lemmas

attribute [simp] ex_abs

/-- `⌊a ^ (1/m)⌋`, by bits from `2 ^ b` downwards. -/
def rootNat (m a : Nat) : Nat → Nat → Nat
  | 0, r => r
  | b + 1, r => rootNat m a b (if (r + 2 ^ b) ^ m ≤ a then r + 2 ^ b else r)

/-- Square root of a rational: exact for squares, otherwise a crude approximation. -/
def ratSqrt (x : ℚ) : ℚ :=
  let n := x.num.toNat
  mkRat (rootNat 2 n (Nat.log2 n + 1) 0) (rootNat 2 x.den (Nat.log2 x.den + 1) 0)

/-- `b ^ p` for `p = 1/m` or `p = -1/m`, rounded down to a multiple of 1/1000. -/
def ratPow (b p : ℚ) : ℚ :=
  let m := p.den
  let c := if p < 0 then 1 / b else b
  let a := (c.num.toNat * 1000 ^ m) / c.den
  mkRat (rootNat m a (Nat.log2 a / m + 1) 0) 1000

/-- Witness instance over `ℚ` (used only in `example`s and refutations): epsilon is the binary64 one; `sqrt` is exact
for squares and `powf` is rounded to three decimals, so that the step sizes in the witness runs are those of the real
program up to this rounding.  No theorem uses a law of this instance other than `ratEps`. -/
instance ratParams : ExactParams ℚ where
  eps := 1 / 4503599627370496
  sqrt := ratSqrt
  powf := ratPow

instance ratEps : EpsLaws ℚ := ⟨by decide +kernel, by decide +kernel⟩

/-- `for k in 0..n { f(k) }` -/
def forUp {σ : Type u} : Nat → (Nat → σ → σ) → σ → σ
  | 0, _, s => s
  | k + 1, f, s => f k (forUp k f s)

/-- `a[i] = v` -/
def upd {α : Type u} (a : Nat → α) (i : Nat) (v : α) : Nat → α := fun j => if j = i then v else a j

@[simp] theorem upd_same {α : Type u} (a : Nat → α) (i : Nat) (v : α) : upd a i v i = v := by simp [upd]
theorem upd_ne {α : Type u} (a : Nat → α) {i j : Nat} (v : α) (h : j ≠ i) : upd a i v j = a j := by simp [upd, h]
@[simp] theorem forUp_zero {σ : Type u} (f : Nat → σ → σ) (s : σ) : forUp 0 f s = s := rfl
theorem forUp_succ {σ : Type u} (k : Nat) (f : Nat → σ → σ) (s : σ) : forUp (k + 1) f s = f k (forUp k f s) := rfl

/-- Rule for `for` loops: an invariant that holds before and is preserved by each pass holds after. -/
theorem forUp_inv {σ : Type u} {f : Nat → σ → σ} {s : σ} {n : Nat} (P : Nat → σ → Prop) (h0 : P 0 s)
    (hs : ∀ k a, k < n → P k a → P (k + 1) (f k a)) : P n (forUp n f s) := by
  induction n with
  | zero => exact h0
  | succ n ih => exact hs n _ (Nat.lt_succ_self n) (ih fun k a hk => hs k a (Nat.lt_succ_of_lt hk))

end Verif
