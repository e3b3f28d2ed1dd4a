import Verif.Proofs.WithRoots
import Verif.Props.Outputs

/-!
# The integration does not depend on the root functions (C97)

Two solvers are constructed from the same equations, tolerances and initial values; the second one watches other root
functions (more, fewer, or none).  Both are first called with the same `tout`, and both have then taken a step.  After that
their users call what they like, the one at the roots reported and the other one without knowing of them.

All but the last theorem hold for any scalar type, in particular for floating-point numbers: bit for bit.
-/

set_option autoImplicit false
set_option linter.unusedSectionVars false

namespace Verif.Props

open Verif Verif.Spec

universe u v

/-- Nothing the users can ask about the integration distinguishes the two states, of solvers with different root functions:
all statistics but the number of calls of the root functions, the dense output and the derivatives of the interpolant at
every time, the points accepted and the attempts made. -/
structure SameIntegration {ν : Type v} {n q q' : Nat} {K : Type u} [Scalar K] (cfg : Cfg ν n q K) (cfg' : Cfg ν n q' K)
    (s1 : State ν n q K) (s2 : State ν n q' K) : Prop where
  time : getCurrentTime s2 = getCurrentTime s1
  lastStep : getLastStep s2 = getLastStep s1
  currentStep : getCurrentStep s2 = getCurrentStep s1
  initStep : getActualInitStep s2 = getActualInitStep s1
  lastOrder : getLastOrder s2 = getLastOrder s1
  currentOrder : getCurrentOrder s2 = getCurrentOrder s1
  steps : getNumSteps s2 = getNumSteps s1
  resEvals : getNumResEvals s2 = getNumResEvals s1
  setups : getNumLinSolvSetups s2 = getNumLinSolvSetups s1
  jacEvals : getNumJacEvals s2 = getNumJacEvals s1
  errTestFails : getNumErrTestFails s2 = getNumErrTestFails s1
  nonlinIters : getNumNonlinSolvIters cfg' s2 = getNumNonlinSolvIters cfg s1
  convFails : getNumNonlinSolvConvFails s2 = getNumNonlinSolvConvFails s1
  solution : ∀ t, solutionAt s2 t = solutionAt s1 t
  dky : ∀ t k, dkyAt s2 t k = dkyAt s1 t k
  points : s2.g.acc = s1.g.acc
  attempts : s2.g.atts = s1.g.atts

section
variable {ν : Type v} {n q q' : Nat} {K : Type u} [Scalar K]

theorem solutionAt_reroot (s : State ν n q K) (r : RootSt q' K) (t : K) : solutionAt (s.reroot r) t = solutionAt s t := by
  unfold solutionAt
  rw [getSolution_eq, getSolution_eq]
  by_cases h1 : badTime s t = true
  · rw [if_pos h1, if_pos (show badTime (s.reroot r) t = true from h1)]
  · rw [if_neg h1, if_neg (show ¬ badTime (s.reroot r) t = true from h1)]
    by_cases h2 : kordOf s.c.kused < mxordp1
    · rw [if_pos h2, if_pos (show kordOf (s.reroot r).c.kused < mxordp1 from h2)]; rfl
    · rw [if_neg h2, if_neg (show ¬ kordOf (s.reroot r).c.kused < mxordp1 from h2)]

theorem dkyAt_reroot (s : State ν n q K) (r : RootSt q' K) (t : K) (k : Nat) : dkyAt (s.reroot r) t k = dkyAt s t k := by
  unfold dkyAt getDky
  by_cases h0 : s.c.kused < k
  · rw [if_pos h0, if_pos (show (s.reroot r).c.kused < k from h0)]
  · rw [if_neg h0, if_neg (show ¬ (s.reroot r).c.kused < k from h0)]
    by_cases h1 : badTime s t = true
    · rw [if_pos h1, if_pos (show badTime (s.reroot r) t = true from h1)]
    · rw [if_neg h1, if_neg (show ¬ badTime (s.reroot r) t = true from h1)]
      by_cases h2 : s.c.kused - k + 1 < mxordp1 ∧ s.c.kused < mxordp1
      · rw [if_pos h2, if_pos (show (s.reroot r).c.kused - k + 1 < mxordp1 ∧ (s.reroot r).c.kused < mxordp1 from h2)]
        rfl
      · rw [if_neg h2, if_neg (show ¬ ((s.reroot r).c.kused - k + 1 < mxordp1 ∧ (s.reroot r).c.kused < mxordp1) from h2)]

theorem sameIntegration_of_simR {cfg : Cfg ν n q K} {root : K → Vec n K → Vec n K → Vec q' K → Vec q' K} {dir : Fin q' → Nat}
    {s1 : State ν n q K} {s2 : State ν n q' K} (h : SimR s1 s2) : SameIntegration cfg (cfg.withRoots root dir) s1 s2 := by
  obtain ⟨r, h⟩ := h
  have H := samePoint_of_simW (cfg := cfg.withRoots root dir) h
  exact ⟨H.time, H.lastStep, H.currentStep, H.initStep, H.lastOrder, H.currentOrder, H.steps, H.resEvals, H.setups,
    H.jacEvals, H.errTestFails, H.nonlinIters, H.convFails, fun t => (H.solution t).trans (solutionAt_reroot s1 r t),
    fun t k => (H.dky t k).trans (dkyAt_reroot s1 r t k), H.points, H.attempts⟩

section
variable (cfg : Cfg ν n q K) (hb : NlsBlind cfg) (hw : FreshWeights cfg)
  (root : K → Vec n K → Vec n K → Vec q' K → Vec q' K) (dir : Fin q' → Nat)
  (nls0 : ν) (yy0 yp0 : Vec n K) (tout tr tr' : K) (task task' : Task) (rf sf rf' sf' : Nat)
  (a s1 : State ν n q K) (b s2 : State ν n q' K) (r r' : Res n K)
  (ha : exec cfg rf sf (State.new nls0 yy0 yp0) (.solve tout tr task) = some (a, r))
  (hb' : exec (cfg.withRoots root dir) rf' sf' (State.new nls0 yy0 yp0) (.solve tout tr' task') = some (b, r'))
  (na : 0 < getNumSteps a) (nb : 0 < getNumSteps b)
include hb hw ha hb' na nb

/-- **C97.** There is one integration, of which the two users see longer or shorter parts: the attempts made (with all
their data: times, sizes, orders, coefficients, predictions, weights, corrections, computed values, outcomes) and the
accepted points of the one are those of the other with the most recent ones left out. -/
theorem c97_one_integration (h1 : Later cfg a s1) (h2 : Later (cfg.withRoots root dir) b s2) :
    (s1.g.atts <:+ s2.g.atts ∧ s1.g.acc <:+ s2.g.acc) ∨ (s2.g.atts <:+ s1.g.atts ∧ s2.g.acc <:+ s1.g.acc) := by
  obtain ⟨t, w, e1, e2, e3, ⟨j, e4⟩, ⟨k, e5⟩, -, -⟩ := first_common hb hw ha hb' na nb
  obtain ⟨j', g1⟩ := later_nth_from hb hw e4 na e2 h1
  obtain ⟨k', g2⟩ := later_nth_from (cfg := cfg.withRoots root dir) hb hw e5 nb e3 h2
  rcases nth_total hb hw (by omega) g1 g2 with ⟨x, h⟩ | ⟨l, -, h, h'⟩ | ⟨l, -, h, h'⟩
  · left
    have : s2.g = s1.g := h.g
    rw [this]; exact ⟨List.suffix_refl _, List.suffix_refl _⟩
  · exact Or.inl ⟨⟨l, h.symm⟩, h'⟩
  · exact Or.inr ⟨⟨l, h.symm⟩, h'⟩

/-- **C97, same number of attempts.** When both have made the same number of attempts, they are at the same point of the
integration. -/
theorem c97_same_attempts (h1 : Later cfg a s1) (h2 : Later (cfg.withRoots root dir) b s2)
    (he : s1.g.atts.length = s2.g.atts.length) : SameIntegration cfg (cfg.withRoots root dir) s1 s2 := by
  obtain ⟨t, w, e1, e2, e3, ⟨j, e4⟩, ⟨k, e5⟩, -, -⟩ := first_common hb hw ha hb' na nb
  obtain ⟨j', g1⟩ := later_nth_from hb hw e4 na e2 h1
  obtain ⟨k', g2⟩ := later_nth_from (cfg := cfg.withRoots root dir) hb hw e5 nb e3 h2
  rcases nth_total hb hw (by omega) g1 g2 with h | ⟨l, hl, h, h'⟩ | ⟨l, hl, h, h'⟩
  · exact sameIntegration_of_simR h
  · rw [h, List.length_append] at he
    exact absurd (List.length_eq_zero_iff.1 (by omega)) hl
  · rw [h, List.length_append] at he
    exact absurd (List.length_eq_zero_iff.1 (by omega)) hl

/-- **C97, same number of steps.** Without reported step failures, equal values of `get_num_steps` mean the same point of
the integration. -/
theorem c97_same_steps (fa : ∀ e, r = .solved (.error e) → e.isStepFailure = false)
    (fb : ∀ e, r' = .solved (.error e) → e.isStepFailure = false) (h1 : LaterOk cfg a s1)
    (h2 : LaterOk (cfg.withRoots root dir) b s2) (he : getNumSteps s1 = getNumSteps s2) :
    SameIntegration cfg (cfg.withRoots root dir) s1 s2 := by
  obtain ⟨t, w, e1, e2, e3, -, -, e4, e5⟩ := first_common hb hw ha hb' na nb
  obtain ⟨j, e4⟩ := e4 fa
  obtain ⟨k, e5⟩ := e5 fb
  obtain ⟨⟨j', g1⟩, -, -⟩ := laterOk_nth_from hb hw e4 na e2 h1
  obtain ⟨⟨k', g2⟩, -, -⟩ := laterOk_nth_from (cfg := cfg.withRoots root dir) hb hw e5 nb e3 h2
  exact sameIntegration_of_simR (nthOk_same hb hw g1 g2 he)

end

/-- **C97 for the crate's solver.** With `Newton` and the crate's tolerance controls, the two hypotheses hold, and the
solver of a problem with other root functions is the one meant. -/
theorem c97_newton (P : Problem n q K) (tol : TolControl n K) (fuel : Nat)
    (root : K → Vec n K → Vec n K → Vec q' K → Vec q' K) :
    NlsBlind (Cfg.newton P tol fuel) ∧ FreshWeights (Cfg.newton P tol fuel) ∧
    (Cfg.newton P tol fuel).withRoots root (fun _ => 0) =
      Cfg.newton { res := P.res, jac := P.jac, root := root } tol fuel :=
  ⟨newton_nlsBlind P tol fuel, fun _ _ _ => rfl, rfl⟩

end

section
variable {ν : Type v} {n q q' : Nat} {K : Type u} [Field K] [LinearOrder K] [IsStrictOrderedRing K] [ExactParams K]
  [EpsLaws K]

/-- **C97, same answer** (exact arithmetic).  Whatever roots have been reported in between, if both users finally call
`solve(t, Normal)`, which takes at least one step and returns `Success`, both get the same solution vectors. -/
theorem c97_same_answer (cfg : Cfg ν n q K) (hb : NlsBlind cfg) (hw : FreshWeights cfg) (hl : NlsLegal cfg)
    (hm1 : 1 ≤ cfg.maxord) (hm : 0 ≤ cfg.hmaxInv) (root : K → Vec n K → Vec n K → Vec q' K → Vec q' K) (dir : Fin q' → Nat)
    (nls0 : ν) (yy0 yp0 : Vec n K) (tout tr tr' : K) (task task' : Task) (rf sf rf' sf' : Nat)
    (a s1 s1' : State ν n q K) (b s2 s2' : State ν n q' K) (r r' : Res n K)
    (ha : exec cfg rf sf (State.new nls0 yy0 yp0) (.solve tout tr task) = some (a, r))
    (hb' : exec (cfg.withRoots root dir) rf' sf' (State.new nls0 yy0 yp0) (.solve tout tr' task') = some (b, r'))
    (na : 0 < getNumSteps a) (nb : 0 < getNumSteps b)
    (fa : ∀ e, r = .solved (.error e) → e.isStepFailure = false)
    (fb : ∀ e, r' = .solved (.error e) → e.isStepFailure = false)
    (h1 : LaterOk cfg a s1) (h2 : LaterOk (cfg.withRoots root dir) b s2) (t x x' : K)
    (c1 : exec cfg rf sf s1 (.solve t x .normal) = some (s1', .solved (.ok .success)))
    (c2 : exec (cfg.withRoots root dir) rf' sf' s2 (.solve t x' .normal) = some (s2', .solved (.ok .success)))
    (n1 : getNumSteps s1 < getNumSteps s1') (n2 : getNumSteps s2 < getNumSteps s2') :
    getYy s2' = getYy s1' ∧ getYp s2' = getYp s1' ∧ SameIntegration cfg (cfg.withRoots root dir) s1' s2' := by
  have hl' : NlsLegal (cfg.withRoots root dir) := hl
  have ra : ReachOk cfg a := .call rf sf _ _ (.new nls0 yy0 yp0 none) ha fa
  have rb : ReachOk (cfg.withRoots root dir) b := .call rf' sf' _ _ (.new nls0 yy0 yp0 none) hb' fb
  obtain ⟨i1, y1⟩ := normal_in_last_step hl hm (h1.reachOk ra).reach c1 n1
  obtain ⟨i2, y2⟩ := normal_in_last_step hl' hm (h2.reachOk rb).reach c2 n2
  have L1 : LaterOk cfg a s1' := .call rf sf _ _ h1 c1 (by intro e he; cases he)
  have L2 : LaterOk (cfg.withRoots root dir) b s2' := .call rf' sf' _ _ h2 c2 (by intro e he; cases he)
  have R1 := L1.reachOk ra
  have R2 := L2.reachOk rb
  have p1 : 0 < s1'.cnt.nst := Nat.lt_of_le_of_lt (Nat.zero_le _) n1
  have p2 : 0 < s2'.cnt.nst := Nat.lt_of_le_of_lt (Nat.zero_le _) n2
  have l1 := (R1.full hl hm1 hm).ok.ctl.len p1
  have l2 := (R2.full hl' hm1 hm).ok.ctl.len p2
  have hS : SameIntegration cfg (cfg.withRoots root dir) s1' s2' := by
    refine c97_same_steps cfg hb hw root dir nls0 yy0 yp0 tout tr tr' task task' rf sf rf' sf' a s1' b s2' r r' ha hb' na nb
      fa fb L1 L2 ?_
    by_contra hne
    have hne : s1'.cnt.nst ≠ s2'.cnt.nst := hne
    rcases c97_one_integration cfg hb hw root dir nls0 yy0 yp0 tout tr tr' task task' rf sf rf' sf' a s1' b s2' r r' ha hb' na nb
      L1.later L2.later with ⟨-, h⟩ | ⟨-, h⟩
    · have := h.length_le
      exact ahead_not hl hm1 hm hl' hm1 hm R1 R2 p1 p2 h (by omega) i1 i2
    · have := h.length_le
      exact ahead_not hl' hm1 hm hl hm1 hm R2 R1 p2 p1 h (by omega) i2 i1
  have := hS.solution t
  rw [y1, y2] at this
  have := Prod.mk.inj (Option.some.inj this)
  exact ⟨this.1, this.2, hS⟩

end

/-! ## A concrete case

`y' = -y` with the crate's Newton solver.  One user has no root function, and takes a single step; the other one watches
`t - 3/2000`, and gets a `Root` in the second step.  Then both call `solve(1/200, Normal)`, and get the same answer. -/

section
open Witness

/-- The root function. -/
def alarm : ℚ → Vec 1 ℚ → Vec 1 ℚ → Vec 1 ℚ → Vec 1 ℚ := fun t _ _ _ _ => t - 3 / 2000

def alarmCfg : Cfg (Newton (Vec 1 ℚ)) 1 1 ℚ := decayCfg.withRoots alarm (fun _ => 0)

def alarm0 : State (Newton (Vec 1 ℚ)) 1 1 ℚ := State.new newton0 (fun _ => 1) (fun _ => -1)

def reachesEnd {q : Nat} (cfg : Cfg (Newton (Vec 1 ℚ)) 1 q ℚ) (k : Nat) (st : Status) (s : State (Newton (Vec 1 ℚ)) 1 q ℚ)
    (r : Res 1 ℚ) : Bool :=
  Res.isStatus st r && decide (getNumSteps s = k) &&
    ((exec cfg 100 10 s lastCall).map fun x => Res.isStatus .success x.2 && decide (getNumSteps x.1 = 4)) == some true

example : ∃ (a a' : State (Newton (Vec 1 ℚ)) 1 0 ℚ) (b b' : State (Newton (Vec 1 ℚ)) 1 1 ℚ),
    exec decayCfg 100 10 decay0 (.solve 1 0 .oneStep) = some (a, .solved (.ok .success)) ∧ getNumSteps a = 1 ∧
    exec alarmCfg 100 10 alarm0 (.solve 1 0 .normal) = some (b, .solved (.ok .root)) ∧ getNumSteps b = 2 ∧
    exec decayCfg 100 10 a lastCall = some (a', .solved (.ok .success)) ∧ getNumSteps a' = 4 ∧
    exec alarmCfg 100 10 b lastCall = some (b', .solved (.ok .success)) ∧ getNumSteps b' = 4 ∧
    getYy b' = getYy a' ∧ getYp b' = getYp a' := by
  obtain ⟨a, ra, ha, pa⟩ := exec_one (cfg := decayCfg) (rf := 100) (sf := 10) (s := decay0) (a := .solve 1 0 .oneStep)
    (P := reachesEnd decayCfg 1 .success) (by decide +kernel)
  obtain ⟨b, rb, hb, pb⟩ := exec_one (cfg := alarmCfg) (rf := 100) (sf := 10) (s := alarm0) (a := .solve 1 0 .normal)
    (P := reachesEnd alarmCfg 2 .root) (by decide +kernel)
  simp only [reachesEnd, Bool.and_eq_true, decide_eq_true_eq, beq_iff_eq, Res.isStatus_iff] at pa pb
  obtain ⟨⟨rfl, na⟩, ea⟩ := pa
  obtain ⟨⟨rfl, nb⟩, eb⟩ := pb
  obtain ⟨a', ra', ca, qa⟩ := exec_one (P := fun s r => Res.isStatus .success r && decide (getNumSteps s = 4)) ea
  obtain ⟨b', rb', cb, qb⟩ := exec_one (P := fun s r => Res.isStatus .success r && decide (getNumSteps s = 4)) eb
  simp only [Bool.and_eq_true, decide_eq_true_eq, Res.isStatus_iff] at qa qb
  obtain ⟨rfl, ma⟩ := qa
  obtain ⟨rfl, mb⟩ := qb
  obtain ⟨hB, hW, -⟩ := c97_newton decay (.ss (1 / 100) (1 / 100)) 3 alarm
  obtain ⟨e1, e2, -⟩ := c97_same_answer decayCfg hB hW (newton_legal _ _ _) (by decide) (by decide +kernel) alarm (fun _ => 0)
    newton0 (fun _ => 1) (fun _ => -1) 1 0 0 .oneStep .normal 100 10 100 10 a a a' b b b' _ _ ha hb (by omega) (by omega)
    (by intro e h; cases h) (by intro e h; cases h) .refl .refl (1 / 200) 0 0 ca cb (by omega) (by omega)
  exact ⟨a, a', b, b', ha, na, hb, nb, ca, ma, cb, mb, e1, e2⟩

end

end Verif.Props
