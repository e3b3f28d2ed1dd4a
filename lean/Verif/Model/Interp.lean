import Verif.Model.State

/-! # Interpolated output: `get_solution` and `get_dky` -/

set_option autoImplicit false
set_option linter.unusedVariables false

namespace Verif

universe u v

variable {ν : Type v} {n q : Nat} {K : Type u} [Scalar K]

/-- `y.scaled_add(c, x)`: `y[i] = y[i] + c * x[i]`. -/
def scaledAdd (y : Vec n K) (c : K) (x : Vec n K) : Vec n K := fun i => y i + c * x i

/-- The legality test on `t` shared by `get_solution` (/repo/src/lib.rs:1279-1291) and `get_dky`
(/repo/src/lib.rs:449-463); `true` means that the call is rejected. -/
def badTime (s : State ν n q K) (t : K) : Bool :=
  let tfuzz := Scalar.hundred * Scalar.eps * (Scalar.abs s.e.tn + Scalar.abs s.c.hh) * Scalar.signum s.c.hh
  let tp := s.e.tn - s.c.hused - tfuzz
  Scalar.lt ((t - tp) * s.c.hh) 0

/-- `kord` (/repo/src/lib.rs:1294-1298). -/
def kordOf (kused : Nat) : Nat := if kused = 0 then 1 else kused

/-- Local variables of the coefficient loop of `get_solution`. -/
structure SolCoef (K : Type u) where
  c : K
  d : K
  gam : K
  cvals : Nat → K
  dvals : Nat → K

/-- The coefficient loop of `get_solution` (/repo/src/lib.rs:1301-1314) for `j = 1 ..= kord`. -/
def solCoefs (psi : Nat → K) (delt : K) (kord : Nat) : SolCoef K :=
  forUp kord (fun j0 (l : SolCoef K) =>
      let j := j0 + 1
      let d := l.d * l.gam + l.c / psi (j - 1)
      let c := l.c * l.gam
      let gam := (delt + psi (j - 1)) / psi j
      { c := c, d := d, gam := gam, cvals := upd l.cvals j c, dvals := upd l.dvals (j - 1) d })
    { c := 1, d := 0, gam := delt / psi 0, cvals := upd (fun _ => 0) 0 1, dvals := fun _ => 0 }

/-- The interpolated `yy` and `yp` (/repo/src/lib.rs:1317-1340). -/
def solEval (h : Hist n K) (delt : K) (kord : Nat) : Vec n K × Vec n K :=
  let l := solCoefs h.psi delt kord
  (forUp (kord + 1) (fun j y => scaledAdd y (l.cvals j) (h.phi j)) vzero,
   forUp kord (fun j y => scaledAdd y (l.dvals j) (h.phi (j + 1))) vzero)

/-- `get_solution` (/repo/src/lib.rs:1274-1343).  On success the results are in `yy`, `yp`.  Panics if an index of
`psi`, `cvals` (length 6) or `dvals` (length 5) is out of bounds. -/
def getSolution (s : State ν n q K) (t : K) : Out (State ν n q K) Unit :=
  if badTime s t then .ret s (.error (.ida .badTimeValue))
  else
    let kord := kordOf s.c.kused
    if kord < mxordp1 then
      let r := solEval s.h (t - s.e.tn) kord
      .ret { s with m.yy := r.1, m.yp := r.2 } (.ok ())
    else .panic

/-- Local variables of the loops of `get_dky`. -/
structure DkyCoef (K : Type u) where
  cjk : Nat → K
  cjk1 : Nat → K
  psij1 : K

/-- One pass `i` of the outer loop of `get_dky` (/repo/src/lib.rs:471-510); `hi` is the upper bound `kused - k + 1 + 1`
of the inner loops, which run over `j` in `i+1 .. hi`. -/
def dkyPass (psi : Nat → K) (delt : K) (hi i : Nat) (l : DkyCoef K) : DkyCoef K :=
  let l := if i = 0 then { l with cjk := upd l.cjk 0 1 }
    else { l with cjk := upd l.cjk i (l.cjk (i - 1) * Scalar.ofNat i / psi (i - 1)), psij1 := psi (i - 1) }
  let l := forUp (hi - (i + 1)) (fun j0 (l : DkyCoef K) =>
      let j := i + 1 + j0
      { l with cjk := upd l.cjk j ((Scalar.ofNat i * l.cjk1 (j - 1) + l.cjk (j - 1) * (delt + l.psij1)) / psi (j - 1))
               psij1 := psi (j - 1) }) l
  { l with cjk1 := forUp (hi - (i + 1)) (fun j0 a => upd a (i + 1 + j0) (l.cjk (i + 1 + j0))) l.cjk1 }

/-- The coefficients `cjk` computed by `get_dky` (/repo/src/lib.rs:465-510). -/
def dkyCoefs (psi : Nat → K) (delt : K) (kused k : Nat) : DkyCoef K :=
  forUp (k + 1) (fun i l => dkyPass psi delt (kused - k + 1 + 1) i l)
    { cjk := fun _ => 0, cjk1 := fun _ => 0, psij1 := 0 }

/-- `get_dky` (/repo/src/lib.rs:424-529).  The result of a successful call is the new contents of `dky`.  Panics if an
index of `cjk`/`psi` (length 6) is out of bounds: `cjk[j]` for `j ≤ kused - k + 1` (the inner loop is entered as soon as
`kused - k + 2 > 1`, i.e. always, for `i = 0`), and the slices `k ..= kused`. -/
def getDky (s : State ν n q K) (t : K) (k : Nat) : Out (State ν n q K) (Vec n K) :=
  if s.c.kused < k then .ret s (.error (.ida .badK))
  else if badTime s t then .ret s (.error (.ida .badTimeValue))
  else if s.c.kused - k + 1 < mxordp1 ∧ s.c.kused < mxordp1 then
    let l := dkyCoefs s.h.psi (t - s.e.tn) s.c.kused k
    .ret s (.ok (forUp (s.c.kused - k + 1) (fun j0 y => fun i => y i + s.h.phi (k + j0) i * l.cjk (k + j0)) vzero))
  else .panic

end Verif
