import Verif.Scalar

/-!
# Model of `crates/linear/src/dense.rs`

Matrices are functions of two natural indices; only the entries `i < m`, `j < n` correspond to storage.  The index
`l` chosen by the pivot search and the stored pivots are data dependent, so swaps with them are guarded: an
out-of-range index is the outcome `panic`.  All other indices are the loop variables of loops bounded by the
dimensions of the matrix they index.
-/

namespace Verif

universe u
variable {K : Type u} [Scalar K]

/-- A matrix (`nalgebra::Matrix`), entry `(i, j)`. -/
abbrev Mat (K : Type u) := Nat → Nat → K

/-- `a[(i, j)] = v` -/
def upd2 (a : Mat K) (i j : Nat) (v : K) : Mat K := fun i' j' => if i' = i ∧ j' = j then v else a i' j'

/-- Outcome of `dense_get_rf`: `Ok(())`, `Err(col)`, or a panic. The matrix and the pivots are the contents of the
`&mut` arguments afterwards. -/
inductive RfRes (K : Type u) where
  | ok (a : Mat K) (p : Nat → Nat)
  | err (col : Nat) (a : Mat K) (p : Nat → Nat)
  | panic

/-- Pivot search, /repo/crates/linear/src/dense.rs:111-117. -/
def pivotSearch (a : Mat K) (m k : Nat) : Nat :=
  forUp (m - (k + 1))
    (fun d l => let i := k + 1 + d; if Scalar.gt (Scalar.abs (a i k)) (Scalar.abs (a l k)) then i else l) k

/-- Row swap, dense.rs:127-131 (`mat_a.swap((k,i),(l,i))` for every column). -/
def swapRows (a : Mat K) (n k l : Nat) : Mat K :=
  if l ≠ k then
    forUp n (fun i a => let x := a k i; let y := a l i; upd2 (upd2 a k i y) l i x) a
  else a

/-- Scaling of column `k` below the diagonal, dense.rs:135-138. -/
def scaleCol (a : Mat K) (m k : Nat) : Mat K :=
  let mult := Scalar.recip (a k k)
  forUp (m - (k + 1)) (fun d a => let i := k + 1 + d; upd2 a i k (a i k * mult)) a

/-- Inner loop of the elimination for column `j`, dense.rs:149-154. -/
def elimCol (a : Mat K) (m k j : Nat) : Mat K :=
  let akj := a k j
  if Scalar.neb akj 0 then
    forUp (m - (k + 1))
      (fun d a => let i := k + 1 + d; let aik := a i k; upd2 a i j (a i j - akj * aik)) a
  else a

/-- Elimination, dense.rs:143-155. -/
def elim (a : Mat K) (m n k : Nat) : Mat K :=
  forUp (n - (k + 1)) (fun d a => elimCol a m k (k + 1 + d)) a

/-- One pass of the main loop of `dense_get_rf`, dense.rs:107-156. -/
def rfStep (m n k : Nat) (a : Mat K) (p : Nat → Nat) : RfRes K :=
  let l := pivotSearch a m k
  let p := upd p k l
  if ¬ (l < m ∧ k < m) then .panic
  else if Scalar.eqb (a l k) 0 then .err (k + 1) a p
  else .ok (elim (scaleCol (swapRows a n k l) m k) m n k) p

/-- The first `c` passes of the main loop (early return on `Err`). -/
def rfLoop (m n : Nat) (a : Mat K) (p : Nat → Nat) : Nat → RfRes K
  | 0 => .ok a p
  | k + 1 =>
    match rfLoop m n a p k with
    | .ok a p => rfStep m n k a p
    | r => r

/-- `dense_get_rf`, dense.rs:86-158: LU factorization with partial pivoting of the `m` by `n` matrix `a`. The
`assert!(R >= C)` is the first branch. -/
def denseGetRf (m n : Nat) (a : Mat K) (p : Nat → Nat) : RfRes K :=
  if m < n then .panic else rfLoop m n a p n

/-- Permutation of the right-hand side, dense.rs:184-188; `none` is an out-of-range index. -/
def permuteB (n : Nat) (p : Nat → Nat) (b : Nat → K) : Nat → Option (Nat → K)
  | 0 => some b
  | k + 1 =>
    match permuteB n p b k with
    | none => none
    | some b =>
      if p k ≠ k then
        if p k < n then some (let x := b k; let y := b (p k); upd (upd b k y) (p k) x) else none
      else some b

/-- Forward substitution, dense.rs:191-197. -/
def forwardSub (n : Nat) (a : Mat K) (b : Nat → K) : Nat → K :=
  forUp (n - 1)
    (fun k b =>
      let bk := b k
      forUp (n - (k + 1)) (fun d b => let i := k + 1 + d; upd b i (b i - a i k * bk)) b) b

/-- Backward substitution, dense.rs:200-208. -/
def backwardSub (n : Nat) (a : Mat K) (b : Nat → K) : Nat → K :=
  let b :=
    forUp (n - 1)
      (fun d b =>
        let k := n - 1 - d
        let b := upd b k (b k / a k k)
        let bk := b k
        forUp k (fun i b => upd b i (b i - a i k * bk)) b) b
  upd b 0 (b 0 / a 0 0)

/-- `dense_get_rs`, dense.rs:165-209.  `none` is a panic: `n - 1` underflows for `n = 0`, or a pivot is out of
range. -/
def denseGetRs (n : Nat) (a : Mat K) (p : Nat → Nat) (b : Nat → K) : Option (Nat → K) :=
  match permuteB n p b n with
  | none => none
  | some b => if n = 0 then none else some (backwardSub n a (forwardSub n a b))

/-- `Dense::setup`, dense.rs:38-44 (square matrices; the pivots are those of the `Dense` object). -/
def denseSetup (n : Nat) (a : Mat K) (p : Nat → Nat) : RfRes K := denseGetRf n n a p

/-- `Dense::solve`, dense.rs:46-63: copies `b` into `x` and calls `dense_get_rs`. -/
def denseSolve (n : Nat) (a : Mat K) (p : Nat → Nat) (b : Nat → K) : Option (Nat → K) := denseGetRs n a p b

end Verif
