import Verif.Spec.Nan

/-!
# An arithmetic with NaN that the kernel can run

Rational numbers and NaN; division by zero and the square root of a negative number yield NaN.
-/

set_option autoImplicit false

namespace Verif

open Verif.Spec

/-- A rational number, or NaN (`none`). -/
structure NQ where
  v : Option ℚ
deriving DecidableEq

namespace NQ

def lift (f : ℚ → ℚ) (a : NQ) : NQ := ⟨a.v.map f⟩

def lift2 (f : ℚ → ℚ → ℚ) (a b : NQ) : NQ :=
  match a.v, b.v with
  | some x, some y => ⟨some (f x y)⟩
  | _, _ => ⟨none⟩

def cmp (f : ℚ → ℚ → Bool) (a b : NQ) : Bool :=
  match a.v, b.v with
  | some x, some y => f x y
  | _, _ => false

/-- The other operand, if one is NaN (as `f64::max`). -/
def pick (f : ℚ → ℚ → ℚ) (a b : NQ) : NQ :=
  match a.v, b.v with
  | some x, some y => ⟨some (f x y)⟩
  | some x, none => ⟨some x⟩
  | none, y => ⟨y⟩

def div (a b : NQ) : NQ := if b.v = some 0 then ⟨none⟩ else lift2 (· / ·) a b

def of (x : ℚ) : NQ := ⟨some x⟩

instance : Scalar NQ where
  zero := of 0
  one := of 1
  add := lift2 (· + ·)
  sub := lift2 (· - ·)
  mul := lift2 (· * ·)
  div := div
  neg := lift (fun x => -x)
  lt := cmp (fun x y => decide (x < y))
  le := cmp (fun x y => decide (x ≤ y))
  eqb := cmp (fun x y => decide (x = y))
  abs := lift (fun x => |x|)
  max := pick Max.max
  min := pick Min.min
  sqrt a := if cmp (fun x y => decide (x < y)) a (of 0) then ⟨none⟩ else lift ratSqrt a
  powf := lift2 ratPow
  signum := lift (fun x => if x < 0 then -1 else 1)
  recip a := div (of 1) a
  eps := of (1 / 4503599627370496)
  ofNat n := of n
  half := of (1 / 2)
  quarter := of (1 / 4)
  two := of 2
  four := of 4
  five := of 5
  ten := of 10
  twenty := of 20
  hundred := of 100
  pt9 := of (9 / 10)
  pt1 := of (1 / 10)
  pt001 := of (1 / 1000)
  pt0001 := of (1 / 10000)
  xrateLo := of (3 / 5)
  epcon := of (33 / 100)

theorem lift2_left {f : ℚ → ℚ → ℚ} {a b : NQ} (h : a.v = none) : (lift2 f a b).v = none := by
  unfold lift2; rw [h]

theorem lift2_right {f : ℚ → ℚ → ℚ} {a b : NQ} (h : b.v = none) : (lift2 f a b).v = none := by
  unfold lift2; rw [h]; cases a.v <;> rfl

theorem cmp_nan {f : ℚ → ℚ → Bool} {a b : NQ} (h : a.v = none ∨ b.v = none) : cmp f a b = false := by
  unfold cmp
  rcases h with h | h
  · rw [h]
  · rw [h]; cases a.v <;> rfl

theorem lift_nan {f : ℚ → ℚ} {a : NQ} (h : a.v = none) : (lift f a).v = none := by
  unfold lift; rw [h]; rfl

instance : NanLaws NQ where
  nan a := a.v = none
  add_left _ _ h := lift2_left h
  add_right _ _ h := lift2_right h
  sub_left _ _ h := lift2_left h
  sub_right _ _ h := lift2_right h
  mul_left _ _ h := lift2_left h
  mul_right _ _ h := lift2_right h
  div_left a b h := by
    show (div a b).v = none
    unfold div; split
    · rfl
    · exact lift2_left h
  div_right a b h := by
    show (div a b).v = none
    unfold div; split
    · rfl
    · exact lift2_right h
  neg _ h := lift_nan h
  sqrt a h := by
    show (if _ then _ else _ : NQ).v = none
    rw [cmp_nan (Or.inl h)]
    exact lift_nan h
  abs _ h := lift_nan h
  root _ _ h := lift2_left h
  le _ _ h := cmp_nan h
  lt _ _ h := cmp_nan h
  eqb _ _ h := cmp_nan h

instance (a : NQ) : Decidable (NanLaws.nan a) := inferInstanceAs (Decidable (a.v = none))

end NQ

end Verif
