import Verif.BinInst

/-!
# Binary64 with gradual underflow

The numbers of `Bin 52` with a smallest exponent: results below `2 ^ -1022` in magnitude are rounded to a multiple of
`2 ^ -1074`, as in IEEE 754 binary64.  Overflow is not modelled (no finite result is too large) and neither are NaN, infinities
and the sign of zero.  No laws are proved for this arithmetic; it is used to run the model.
-/

set_option autoImplicit false

namespace Verif

/-- A rational number, meant to be one of the finite binary64 numbers. -/
structure B64 where
  v : ℚ

namespace B64

/-- Rounding to binary64: 53 significant bits, and no finer than `2 ^ -1074`. -/
def rnd (x : ℚ) : ℚ :=
  if |x| < 1 / 2 ^ 1022 then (Bin.rne (x * 2 ^ 1074) : ℤ) / 2 ^ 1074 else Bin.rnd 52 x

/-- The binary64 number nearest to `x`. -/
def of (x : ℚ) : B64 := ⟨rnd x⟩

/-- `b ^ r` to 200 binary digits, where `r` is taken to be the nearest number of the form `1/m`, `m` an integer (the code uses
only such exponents). -/
def powQ (b r : ℚ) : ℚ :=
  let m : ℤ := round r⁻¹
  let k := m.natAbs
  let c := if m < 0 then 1 / b else b
  let a := (c.num.toNat * 2 ^ (200 * k)) / c.den
  (rootNat k a (Nat.log2 a / k + 1) 0 : ℚ) / 2 ^ 200

instance : Scalar B64 where
  zero := of 0
  one := of 1
  add a b := of (a.v + b.v)
  sub a b := of (a.v - b.v)
  mul a b := of (a.v * b.v)
  div a b := of (a.v / b.v)
  neg a := ⟨-a.v⟩
  lt a b := decide (a.v < b.v)
  le a b := decide (a.v ≤ b.v)
  eqb a b := decide (a.v = b.v)
  abs a := if a.v < 0 then ⟨-a.v⟩ else a
  max a b := if a.v < b.v then b else a
  min a b := if a.v < b.v then a else b
  sqrt a := of (Bin.sqrtQ 52 a.v)
  powf a b := of (powQ a.v b.v)
  signum a := if a.v < 0 then of (-1) else of 1
  recip a := of (a.v)⁻¹
  eps := of ((1 / 2) ^ 52)
  ofNat n := of n
  half := of (1 / 2)
  quarter := of (1 / 4)
  two := of 2
  four := of 4
  five := of 5
  ten := of 10
  twenty := of 20
  hundred := of 100
  pt9 := of (9 / 10)
  pt1 := of (1 / 10)
  pt001 := of (1 / 1000)
  pt0001 := of (1 / 10000)
  xrateLo := of (3 / 5)
  epcon := of (33 / 100)

end B64

end Verif
