import Verif.Scalar

/-!
# Weighted norms and tolerances

Vectors (`ArrayBase<_, Ix1>`) of length `n` are functions `Fin n → K`; equality of the lengths of two operands, which
ndarray checks at run time, is built into the type.
-/

set_option autoImplicit false

namespace Verif

universe u

/-- Vectors of length `n`. -/
abbrev Vec (n : Nat) (K : Type u) := Fin n → K

section
variable {K : Type u} [Scalar K] {n : Nat}

/-- `iter().fold(zero, |acc, x| acc + x)` (/repo/src/norm_rms.rs:34-35). -/
def vsum (f : Vec n K) : K := Fin.foldl n (fun acc i => acc + f i) 0

/-- `norm_wrms` (/repo/src/norm_rms.rs:31-39; the nalgebra version /repo/crates/nonlinear/src/norm_wrms.rs:24-33 is
the same formula).  `powi(2)` is modelled as the product `x * x`. -/
def normWrms (x w : Vec n K) : K :=
  Scalar.sqrt (vsum (fun i => (x i * w i) * (x i * w i)) / Scalar.ofNat n)

/-- `norm_wrms_masked` (/repo/src/norm_rms.rs:49-58). -/
def normWrmsMasked (x w : Vec n K) (id : Fin n → Bool) : K :=
  let mask : Vec n K := fun i => if id i then 1 else 0
  Scalar.sqrt (vsum (fun i => (x i * w i * mask i) * (x i * w i * mask i)) / Scalar.ofNat n)

/-- `Ida::wrms_norm` (/repo/src/lib.rs:1353-1370). -/
def wrmsNorm (id : Fin n → Bool) (x w : Vec n K) (mask : Bool) : K :=
  if mask then normWrmsMasked x w id else normWrms x w

/-- `TolControlSS` and `TolControlSV` (/repo/src/tol_control.rs:15-61). -/
inductive TolControl (n : Nat) (K : Type u) where
  | ss (rtol atol : K)
  | sv (rtol : K) (atol : Vec n K)

/-- `ewt_set` (/repo/src/tol_control.rs:36-44, 71-82). -/
def TolControl.ewtSet : TolControl n K → Vec n K → Vec n K
  | .ss rtol atol, ycur => fun i => Scalar.recip (rtol * Scalar.abs (ycur i) + atol)
  | .sv rtol atol, ycur => fun i => Scalar.recip (rtol * Scalar.abs (ycur i) + atol i)

/-- Componentwise operations of ndarray. -/
def vadd (a b : Vec n K) : Vec n K := fun i => a i + b i
def vsub (a b : Vec n K) : Vec n K := fun i => a i - b i
def vneg (a : Vec n K) : Vec n K := fun i => -(a i)
def vscale (c : K) (a : Vec n K) : Vec n K := fun i => a i * c
def vzero : Vec n K := fun _ => 0

end

end Verif
