import Verif.Model.Ls
import Verif.Model.Io
import Verif.Spec.Calls

/-! # What a user sees of a session, and what is required of a linear solver -/

set_option autoImplicit false

namespace Verif.Spec

universe u v

section
variable {ν : Type v} {n q : Nat} {K : Type u} [Scalar K]

/-- Everything the getters return, and the caller's variable `tret`. -/
structure Snapshot (n q : Nat) (K : Type u) where
  yy : Vec n K
  yp : Vec n K
  tret : K
  lastOrder : Nat
  currentOrder : Nat
  actualInitStep : K
  lastStep : K
  currentStep : K
  currentTime : K
  tolScaleFactor : K
  numSteps : Nat
  numResEvals : Nat
  numLinSolvSetups : Nat
  numErrTestFails : Nat
  numJacEvals : Nat
  numNonlinSolvIters : Nat
  numNonlinSolvConvFails : Nat
  numLinIters : Nat
  numGEvals : Nat
  rootInfo : Vec q K

def snapshot (cfg : Cfg ν n q K) (s : State ν n q K) : Snapshot n q K where
  yy := getYy s
  yp := getYp s
  tret := s.tret
  lastOrder := getLastOrder s
  currentOrder := getCurrentOrder s
  actualInitStep := getActualInitStep s
  lastStep := getLastStep s
  currentStep := getCurrentStep s
  currentTime := getCurrentTime s
  tolScaleFactor := getTolScaleFactor s
  numSteps := getNumSteps s
  numResEvals := getNumResEvals s
  numLinSolvSetups := getNumLinSolvSetups s
  numErrTestFails := getNumErrTestFails s
  numJacEvals := getNumJacEvals s
  numNonlinSolvIters := getNumNonlinSolvIters cfg s
  numNonlinSolvConvFails := getNumNonlinSolvConvFails s
  numLinIters := getNumLinIters s
  numGEvals := getNumGEvals s
  rootInfo := getRootInfo s

/-- A session: the public calls `ops` one after the other, up to the first that does not return (`none`).  For each call its
result, what all getters return afterwards, and all calls made of the user's functions so far. -/
def session (cfg : Cfg ν n q K) (rf sf : Nat) :
    State ν n q K → List (Op K) → List (Option (Res n K × Snapshot n q K × List (UCall n K)))
  | _, [] => []
  | s, op :: ops =>
    match exec cfg rf sf s op with
    | none => [none]
    | some (s', r) => some (r, snapshot cfg s', s'.m.log) :: session cfg rf sf s' ops

end

section
variable {n : Nat} {K : Type u} [Field K] {L : Type v}

/-- A correct direct linear solver.  `Ok l`: the object `l` is usable; `Holds l a A`: the object `l` together with the stored
matrix `a` represents the matrix `A`.

* `setup` succeeds on regular matrices, and only on these;
* `solve` then solves the system, whatever the initial guess and the tolerance, any number of times;
* setting the scaling vectors does no harm;
* the solver does not call itself matrix-free iterative, and if it calls itself matrix-iterative it reports at least one
  iteration for every solve. -/
structure ExactLs (S : LSolver L n K) (Ok : L → Prop) (Holds : L → Mat K → Mat K → Prop) : Prop where
  kind : ∀ l, Ok l → S.kind l ≠ .iterative
  setup : ∀ l A, Ok l → Regular A n → ∃ l' a, S.setup l A = (l', a, .ok) ∧ Ok l' ∧ Holds l' a A
  singular : ∀ l A, Ok l → ¬ Regular A n → (S.setup l A).2.2 ≠ .ok
  scaling : ∀ l w w', Ok l → Ok (S.setScaling l w w') ∧ S.kind (S.setScaling l w w') = S.kind l ∧
    ∀ a A, Holds l a A → Holds (S.setScaling l w w') a A
  solve : ∀ l a A x b tol, Ok l → Holds l a A → ∃ l' x', S.solve l a x b tol = (l', x', .ok) ∧ Ok l' ∧ Holds l' a A ∧
    (∀ i : Fin n, ∑ j : Fin n, A i j * x' j = b i) ∧ (S.kind l = .matrixIterative → 0 < S.numIters l')

end

end Verif.Spec
