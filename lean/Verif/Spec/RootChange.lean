import Verif.Spec.WithRoots
import Mathlib.Algebra.Field.Defs
import Mathlib.Order.Defs.LinearOrder

/-!
# Rescaling root functions and adding root functions without zeros

`C : RootChange q q' K` says how `q'` root functions come from `q` ones: the `i`-th of them becomes the one with number
`C.e i`, in the same order, multiplied by the factor `C.d i`, which is not zero; the remaining ones are new.
-/

set_option autoImplicit false

namespace Verif.Spec

universe u v

/-- A change of root functions. -/
structure RootChange (q q' : Nat) (K : Type u) [Field K] where
  /-- the new number of each root function -/
  e : Fin q → Fin q'
  mono : ∀ i j, i < j → e i < e j
  /-- the factor by which it is multiplied -/
  d : Fin q → K
  ne : ∀ i, d i ≠ 0

/-- The root function number `j` is new. -/
def RootChange.New {q q' : Nat} {K : Type u} [Field K] (C : RootChange q q' K) (j : Fin q') : Prop := ∀ i, C.e i ≠ j

/-- The root functions `root'` with directions `dir'` come from `root`, `dir` by the change `C`; the new ones have no zeros and
do not change sign.  (`b`, `b'` are the arrays the functions write to.)  A factor is positive if the crossing direction is
restricted. -/
structure RootChange.Fits {n q q' : Nat} {K : Type u} [Field K] [LinearOrder K] (C : RootChange q q' K)
    (root : K → Vec n K → Vec n K → Vec q K → Vec q K) (root' : K → Vec n K → Vec n K → Vec q' K → Vec q' K)
    (dir : Fin q → Nat) (dir' : Fin q' → Nat) : Prop where
  old : ∀ t y yp b b', (∀ i, b' (C.e i) = C.d i * b i) → ∀ i, root' t y yp b' (C.e i) = C.d i * root t y yp b i
  dirs : ∀ i, dir' (C.e i) = dir i
  sign : ∀ i, 0 < C.d i ∨ dir i = 0
  new : ∀ j, C.New j → (∀ t y yp b, 0 < root' t y yp b j) ∨ ∀ t y yp b, root' t y yp b j < 0

end Verif.Spec
