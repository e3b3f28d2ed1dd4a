import Verif.Model.Nls
import Verif.Spec.Ls
import Mathlib.Logic.Equiv.Fin.Basic

/-!
# Several copies of a system side by side

A user integrates `c` copies of a system with `n` unknowns at once, as one system with `m = c n` unknowns, numbered in any
order: `e i = (j, k)` if the unknown `i` of the large system is the unknown `j` of copy `k`.
-/

set_option autoImplicit false

namespace Verif.Spec

universe u v

/-- Which unknown of which copy the unknowns of the large system are. -/
structure Copies (n m : Nat) where
  c : Nat
  pos : 0 < c
  e : Fin m ≃ Fin n × Fin c

namespace Copies

variable {n m q : Nat} {K : Type u} [Scalar K] (C : Copies n m)

/-- The vector with the same values in all copies. -/
def vec (v : Vec n K) : Vec m K := fun i => v (C.e i).1

/-- What copy `k` contributes to a vector. -/
def part (k : Fin C.c) (v : Vec m K) : Vec n K := fun i => v (C.e.symm (i, k))

/-- The tolerances, the same for all copies. -/
def tol : TolControl n K → TolControl m K
  | .ss rtol atol => .ss rtol atol
  | .sv rtol atol => .sv rtol (C.vec atol)

/-- The matrix with `A` in the block of each copy, and zeros where two copies meet. -/
def block (A : Mat K) : Mat K := fun i j =>
  if h : i < m ∧ j < m then
    if (C.e ⟨i, h.1⟩).2 = (C.e ⟨j, h.2⟩).2 then A (C.e ⟨i, h.1⟩).1 (C.e ⟨j, h.2⟩).1 else 0
  else 0

/-- The block of copy `k` of a matrix. -/
def blockOf (k : Fin C.c) (A : Mat K) : Mat K := fun i j =>
  if h : i < n ∧ j < n then A (C.e.symm (⟨i, h.1⟩, k)) (C.e.symm (⟨j, h.2⟩, k)) else 0

/-- The copies of the problem `P` side by side; the root functions watch one of the copies. -/
def sideBySide (P : Problem n q K) (k0 : Fin C.c) : Problem m q K where
  res t y yp b := fun i => P.res t (C.part (C.e i).2 y) (C.part (C.e i).2 yp) (C.part (C.e i).2 b) (C.e i).1
  jac t cj y yp r A := fun i j =>
    if h : i < m ∧ j < m then
      let k := (C.e ⟨i, h.1⟩).2
      if k = (C.e ⟨j, h.2⟩).2 then
        P.jac t cj (C.part k y) (C.part k yp) (C.part k r) (C.blockOf k A) (C.e ⟨i, h.1⟩).1 (C.e ⟨j, h.2⟩).1
      else 0
    else 0
  root t y yp b := P.root t (C.part k0 y) (C.part k0 yp) b

/-- `P'` behaves like copies of `P` as long as all copies agree (they may be coupled otherwise).  The residual and the root
functions write all of their output (`b`, `b'` are the previous contents of the buffers). -/
structure Copied (P : Problem n q K) (P' : Problem m q K) : Prop where
  res : ∀ t y yp b b', P'.res t (C.vec y) (C.vec yp) b' = C.vec (P.res t y yp b)
  jac : ∀ t cj y yp r, P'.jac t cj (C.vec y) (C.vec yp) (C.vec r) (fun _ _ => 0) = C.block (P.jac t cj y yp r fun _ _ => 0)
  root : ∀ t y yp b b', P'.root t (C.vec y) (C.vec yp) b' = P.root t y yp b

/-- A call of a user function, for the large system. -/
def call : UCall n K → UCall m K
  | .res t yy yp => .res t (C.vec yy) (C.vec yp)
  | .jac t cj yy yp rr => .jac t cj (C.vec yy) (C.vec yp) (C.vec rr)
  | .root t yy yp => .root t (C.vec yy) (C.vec yp)

/-- The result of a call, for the large system. -/
def res : Res n K → Res m K
  | .solved r => .solved r
  | .solution r => .solution r
  | .dky r => .dky (r.map C.vec)

/-- All that is seen of a call, for the large system: the same values in all copies; the times, step sizes, orders, counters and
root directions are those of a single copy. -/
def seen : Option (Res n K × Snapshot n q K × List (UCall n K)) → Option (Res m K × Snapshot m q K × List (UCall m K))
  | some (r, v, log) => some (C.res r, { v with yy := C.vec v.yy, yp := C.vec v.yp }, log.map C.call)
  | none => none

end Copies

end Verif.Spec
