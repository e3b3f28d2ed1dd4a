import Verif.Proofs.CopyRun
import Verif.Props.Units
import Mathlib.Logic.Equiv.Fin.Basic

/-!
# Copies of a system side by side (C105)

A user integrates several copies of a system at once, as one larger system, from the same initial values and with the same
tolerances.  In exact arithmetic the session goes like the session for a single copy: the same results of all calls, the same
times, step sizes, orders, statistics and roots, the same number of calls of the user's functions with the same arguments, and
each copy has the solution which the system has alone.  The size of a system enters the tests of the integrator only through
averages.  The unknowns may be numbered in any order, and the copies may be coupled by terms that vanish, together with their
derivatives, where the copies agree.
-/

set_option autoImplicit false
set_option linter.unusedSectionVars false
set_option linter.unusedVariables false

namespace Verif.Props

open Verif Verif.Spec

universe u v

section
variable {n m q : Nat} {K : Type u} [Scalar K] [Averages K] (C : Copies n m)

theorem session_copies {ν ν' : Type v} (nm : ν → ν') (cfg : Cfg ν n q K) {P' : Problem m q K} {E' : Vec m K → Vec m K → Vec m K}
    {S' : NlSolver ν' m K} (H : C.Fits nm cfg P' E' S') (hi : ∀ N, S'.numIters (nm N) = cfg.nls.numIters N) (rf sf : Nat)
    (ops : List (Op K)) : ∀ s : State ν n q K,
    session (cfg.beside C P' E' S') rf sf (C.state nm s) ops = (session cfg rf sf s ops).map C.seen := by
  induction ops with
  | nil => intro s; rfl
  | cons op ops ih =>
    intro s
    unfold session
    rw [C.exec_conv nm cfg H]
    cases exec cfg rf sf s op with
    | none => rfl
    | some p =>
      obtain ⟨s1, r⟩ := p
      simp only [Option.map_some, List.map_cons]
      rw [ih]
      congr 1
      unfold Copies.seen
      congr 3
      unfold snapshot
      rw [show getNumNonlinSolvIters (cfg.beside C P' E' S') (C.state nm s1) = getNumNonlinSolvIters cfg s1 from
        congrArg (s1.cnt.nni + ·) (hi s1.nls)]
      rfl

end

section
variable {n m q : Nat} {K : Type u} [Field K] [LinearOrder K] [IsStrictOrderedRing K] [ExactParams K] (C : Copies n m)

/-- **C105.** Any session with the large system is the session with a single copy, seen in all copies. -/
theorem c105_sessions {P : Problem n q K} {P' : Problem m q K} (hn : 0 < n) (hP : C.Copied P P') (tol : TolControl n K) (fuel : Nat)
    (yy0 yp0 : Vec n K) (T : Option K) (rf sf : Nat) (ops : List (Op K)) :
    session (Cfg.newton P' (C.tol tol) fuel) rf sf { State.new newton0 (C.vec yy0) (C.vec yp0) with tstop := T } ops =
      (session (Cfg.newton P tol fuel) rf sf { State.new newton0 yy0 yp0 with tstop := T } ops).map C.seen := by
  have hm : m ≠ 0 := by rw [C.card_eq]; exact Nat.mul_ne_zero hn.ne' C.pos.ne'
  rw [← c70_like_dense hm inverse_exact P' (C.tol tol) fuel rf sf (C.vec yy0) (C.vec yp0) T 0 trivial ops,
    ← c70_like_dense hn.ne' inverse_exact P tol fuel rf sf yy0 yp0 T 0 trivial ops, ← C.beside_newton P P' tol fuel,
    ← session_copies C C.gear _ (C.fits_newton hn.ne' hP tol fuel) (fun _ => rfl)]
  congr 1
  rw [← C.new_conv C.gear (newtonWith0 0) yy0 yp0 T, C.gear0]

theorem Copies.part_vec (k : Fin C.c) (v : Vec n K) : C.part k (C.vec v) = v := by
  funext i
  show v (C.e (C.e.symm (i, k))).1 = v i
  rw [Equiv.apply_symm_apply]

/-- The copies of a problem, each with its own equations, are such a system.  (The residual and the root functions of the problem
have to write all of their output.) -/
theorem c105_side_by_side (P : Problem n q K) (h1 : ∀ t y yp b b', P.res t y yp b = P.res t y yp b')
    (h2 : ∀ t y yp b b', P.root t y yp b = P.root t y yp b') (k0 : Fin C.c) : C.Copied P (C.sideBySide P k0) where
  res t y yp b b' := by
    funext i
    show P.res t (C.part (C.e i).2 (C.vec y)) (C.part (C.e i).2 (C.vec yp)) (C.part (C.e i).2 b') (C.e i).1 = _
    rw [Copies.part_vec, Copies.part_vec, h1 t y yp _ b]
    rfl
  jac t cj y yp r := by
    have h0 : ∀ k : Fin C.c, C.blockOf k (fun _ _ => (0 : K)) = fun _ _ => 0 := by
      intro k
      funext i j
      unfold Copies.blockOf
      split <;> rfl
    funext i j
    simp only [Copies.sideBySide, Copies.block, Copies.part_vec, h0]
  root t y yp b b' := by
    show P.root t (C.part k0 (C.vec y)) (C.part k0 (C.vec yp)) b' = _
    rw [Copies.part_vec, Copies.part_vec]
    exact h2 _ _ _ _ _

/-- **C105, for the user of the copies.** After the same calls, the solution of each copy is the solution of the system alone, at the
same time, after the same number of steps and of evaluations. -/
theorem c105_each_copy (P : Problem n q K) (hn : 0 < n) (h1 : ∀ t y yp b b', P.res t y yp b = P.res t y yp b')
    (h2 : ∀ t y yp b b', P.root t y yp b = P.root t y yp b') (k0 : Fin C.c) (tol : TolControl n K) (fuel : Nat) (yy0 yp0 : Vec n K)
    (T : Option K) (rf sf : Nat) (ops : List (Op K)) (i : Nat) :
    ((session (Cfg.newton (C.sideBySide P k0) (C.tol tol) fuel) rf sf
        { State.new newton0 (C.vec yy0) (C.vec yp0) with tstop := T } ops)[i]? = none ∧
      (session (Cfg.newton P tol fuel) rf sf { State.new newton0 yy0 yp0 with tstop := T } ops)[i]? = none) ∨
    ((session (Cfg.newton (C.sideBySide P k0) (C.tol tol) fuel) rf sf
        { State.new newton0 (C.vec yy0) (C.vec yp0) with tstop := T } ops)[i]? = some none ∧
      (session (Cfg.newton P tol fuel) rf sf { State.new newton0 yy0 yp0 with tstop := T } ops)[i]? = some none) ∨
    ∃ r' v' log' r v log,
      (session (Cfg.newton (C.sideBySide P k0) (C.tol tol) fuel) rf sf
        { State.new newton0 (C.vec yy0) (C.vec yp0) with tstop := T } ops)[i]? = some (some (r', v', log')) ∧
      (session (Cfg.newton P tol fuel) rf sf { State.new newton0 yy0 yp0 with tstop := T } ops)[i]? = some (some (r, v, log)) ∧
      r' = C.res r ∧ (∀ k, C.part k v'.yy = v.yy ∧ C.part k v'.yp = v.yp) ∧ v'.tret = v.tret ∧ v'.currentTime = v.currentTime ∧
      v'.lastStep = v.lastStep ∧ v'.currentStep = v.currentStep ∧ v'.lastOrder = v.lastOrder ∧ v'.currentOrder = v.currentOrder ∧
      v'.numSteps = v.numSteps ∧ v'.numResEvals = v.numResEvals ∧ v'.numJacEvals = v.numJacEvals ∧
      v'.numErrTestFails = v.numErrTestFails ∧ v'.numNonlinSolvIters = v.numNonlinSolvIters ∧
      v'.numNonlinSolvConvFails = v.numNonlinSolvConvFails ∧ v'.rootInfo = v.rootInfo ∧ log' = log.map C.call := by
  rw [c105_sessions C hn (c105_side_by_side C P h1 h2 k0) tol fuel yy0 yp0 T rf sf ops, List.getElem?_map]
  generalize (session (Cfg.newton P tol fuel) rf sf { State.new newton0 yy0 yp0 with tstop := T } ops)[i]? = o
  cases o with
  | none => exact Or.inl ⟨rfl, rfl⟩
  | some o =>
    cases o with
    | none => exact Or.inr (Or.inl ⟨rfl, rfl⟩)
    | some p =>
      obtain ⟨r, v, log⟩ := p
      exact Or.inr (Or.inr ⟨_, _, _, r, v, log, rfl, rfl, rfl, fun k => ⟨Copies.part_vec C k _, Copies.part_vec C k _⟩, rfl, rfl,
        rfl, rfl, rfl, rfl, rfl, rfl, rfl, rfl, rfl, rfl, rfl, rfl⟩)

end

/-! ## Witnesses -/

/-- Three copies of a system with two unknowns; the unknowns are numbered `a a a b b b`. -/
def three : Copies 2 6 where
  c := 3
  pos := by decide
  e := (finProdFinEquiv (m := 2) (n := 3)).symm

/-- Three copies of the chain of two reactions of `Props/Units.lean`: the session with six unknowns is the one with two, and it has
three successful steps. -/
example :
    session (Cfg.newton (three.sideBySide chain ⟨0, three.pos⟩) (.ss (1 / 100) (1 / 100)) 3) 10 10
        (State.new newton0 ![1, 1, 1, 0, 0, 0] ![-1, -1, -1, 1, 1, 1]) [.solve 1 0 .oneStep, .solve 1 0 .oneStep, .solve 1 0 .oneStep] =
      (session (Cfg.newton chain (.ss (1 / 100) (1 / 100)) 3) 10 10 (State.new newton0 ![1, 0] ![-1, 1])
        [.solve 1 0 .oneStep, .solve 1 0 .oneStep, .solve 1 0 .oneStep]).map three.seen ∧
    (session (Cfg.newton chain (.ss (1 / 100) (1 / 100)) 3) 10 10 (State.new newton0 ![1, 0] ![-1, 1])
        [.solve 1 0 .oneStep, .solve 1 0 .oneStep, .solve 1 0 .oneStep]).map (fun o => o.map fun p => p.2.1.numSteps) =
      [some 1, some 2, some 3] := by
  have e1 : (![1, 1, 1, 0, 0, 0] : Vec 6 ℚ) = three.vec ![1, 0] := by decide +kernel
  have e2 : (![-1, -1, -1, 1, 1, 1] : Vec 6 ℚ) = three.vec ![-1, 1] := by decide +kernel
  refine ⟨?_, by decide +kernel⟩
  rw [e1, e2]
  exact c105_sessions three (by decide) (c105_side_by_side three chain (fun _ _ _ _ _ => rfl) (fun _ _ _ b b' => funext fun i => i.elim0) ⟨0, three.pos⟩)
    (.ss (1 / 100) (1 / 100)) 3 ![1, 0] ![-1, 1] none 10 10 _

/-- Two copies of a system with one unknown. -/
def pair : Copies 1 2 where
  c := 2
  pos := by decide
  e := (finProdFinEquiv (m := 1) (n := 2)).symm

/-- `y' + y = 0`. -/
def single : Problem 1 0 ℚ where
  res _ y yp _ := fun i => yp i + y i
  jac _ cj _ _ _ _ := fun i j => if i = 0 ∧ j = 0 then cj + 1 else 0
  root _ _ _ b := b

/-- Two copies that repel each other: `y₀' + y₀ = (y₀ - y₁)²` and `y₁' + y₁ = -(y₀ - y₁)²`. -/
def coupled : Problem 2 0 ℚ where
  res _ y yp _ := ![yp 0 + y 0 - (y 0 - y 1) ^ 2, yp 1 + y 1 + (y 0 - y 1) ^ 2]
  jac _ cj y _ _ _ := fun i j =>
    if i = 0 ∧ j = 0 then cj + 1 - 2 * (y 0 - y 1) else if i = 0 ∧ j = 1 then 2 * (y 0 - y 1)
    else if i = 1 ∧ j = 0 then 2 * (y 0 - y 1) else if i = 1 ∧ j = 1 then cj + 1 - 2 * (y 0 - y 1) else 0
  root _ _ _ b := b

/-- The coupling is not felt as long as the copies agree. -/
theorem coupled_copied : pair.Copied single coupled where
  res t y yp b b' := by
    funext i
    have h0 : pair.vec y 0 = y 0 := rfl
    have h1 : pair.vec y 1 = y 0 := rfl
    have h2 : pair.vec yp 0 = yp 0 := rfl
    have h3 : pair.vec yp 1 = yp 0 := rfl
    fin_cases i
    · show pair.vec yp 0 + pair.vec y 0 - (pair.vec y 0 - pair.vec y 1) ^ 2 = yp 0 + y 0
      rw [h0, h1, h2]; ring
    · show pair.vec yp 1 + pair.vec y 1 + (pair.vec y 0 - pair.vec y 1) ^ 2 = yp 0 + y 0
      rw [h0, h1, h3]; ring
  jac t cj y yp r := by
    funext i j
    have h0 : pair.vec y 0 = y 0 := rfl
    have h1 : pair.vec y 1 = y 0 := rfl
    show (if i = 0 ∧ j = 0 then cj + 1 - 2 * (pair.vec y 0 - pair.vec y 1) else if i = 0 ∧ j = 1 then 2 * (pair.vec y 0 - pair.vec y 1)
      else if i = 1 ∧ j = 0 then 2 * (pair.vec y 0 - pair.vec y 1) else if i = 1 ∧ j = 1 then cj + 1 - 2 * (pair.vec y 0 - pair.vec y 1)
      else 0) = _
    rw [h0, h1, sub_self, mul_zero, sub_zero]
    unfold Copies.block
    by_cases h : i < 2 ∧ j < 2
    · rw [dif_pos h]
      have z : ∀ k : Fin 2, ((pair.e k).1 : Nat) = 0 := by decide +kernel
      have w : ∀ k l : Fin 2, (pair.e k).2 = (pair.e l).2 ↔ k = l := by decide +kernel
      rw [z, z]
      simp only [w, Fin.mk.injEq, single]
      obtain ⟨hi, hj⟩ := h
      interval_cases i <;> interval_cases j <;> simp
    · rw [dif_neg h, if_neg (by omega), if_neg (by omega), if_neg (by omega), if_neg (by omega)]
  root t y yp b b' := funext fun i => i.elim0

/-- The session with the coupled copies is the session with a single one. -/
example (rf sf : Nat) (ops : List (Op ℚ)) :
    session (Cfg.newton coupled (.ss (1 / 100) (1 / 100)) 3) rf sf (State.new newton0 (pair.vec fun _ => 1) (pair.vec fun _ => -1)) ops =
      (session (Cfg.newton single (.ss (1 / 100) (1 / 100)) 3) rf sf (State.new newton0 (fun _ => 1) (fun _ => -1)) ops).map pair.seen :=
  c105_sessions pair (by decide) coupled_copied (.ss (1 / 100) (1 / 100)) 3 (fun _ => 1) (fun _ => -1) none rf sf ops

end Verif.Props
