import Verif.Proofs.RootChangeRun
import Verif.Props.WithRoots
import Verif.Spec.Ls

/-!
# Rescaled root functions and root functions without zeros (C100)

A user multiplies root functions by factors (any but zero, each function by its own), and adds root functions that have no
zeros and do not change sign, anywhere between the others.  Every session goes as before: the same results, the same values
of all getters, and the same calls of the user's functions with the same arguments; in particular the same roots, at the same
times.  Only `get_root_info` has more entries (zero for the new functions), and may report the opposite direction for a
function multiplied by a negative factor.

(The order of the root functions, in contrast, does matter: `c100_order_matters`.)
-/

set_option autoImplicit false
set_option linter.unusedSectionVars false
set_option linter.unusedVariables false

namespace Verif.Props

open Verif Verif.Spec

universe u v

/-- What the getters return before and after the change `C` of the root functions. -/
structure Relabelled {n q q' : Nat} {K : Type u} [Field K] [LinearOrder K] (C : RootChange q q' K) (a : Snapshot n q K)
    (b : Snapshot n q' K) : Prop where
  yy : b.yy = a.yy
  yp : b.yp = a.yp
  tret : b.tret = a.tret
  lastOrder : b.lastOrder = a.lastOrder
  currentOrder : b.currentOrder = a.currentOrder
  actualInitStep : b.actualInitStep = a.actualInitStep
  lastStep : b.lastStep = a.lastStep
  currentStep : b.currentStep = a.currentStep
  currentTime : b.currentTime = a.currentTime
  tolScaleFactor : b.tolScaleFactor = a.tolScaleFactor
  numSteps : b.numSteps = a.numSteps
  numResEvals : b.numResEvals = a.numResEvals
  numLinSolvSetups : b.numLinSolvSetups = a.numLinSolvSetups
  numErrTestFails : b.numErrTestFails = a.numErrTestFails
  numJacEvals : b.numJacEvals = a.numJacEvals
  numNonlinSolvIters : b.numNonlinSolvIters = a.numNonlinSolvIters
  numNonlinSolvConvFails : b.numNonlinSolvConvFails = a.numNonlinSolvConvFails
  numLinIters : b.numLinIters = a.numLinIters
  numGEvals : b.numGEvals = a.numGEvals
  /-- an old function: the same entry, or the opposite one if it has been multiplied by a negative factor -/
  rootInfo : ∀ i, b.rootInfo (C.e i) = a.rootInfo i ∨ (C.d i < 0 ∧ b.rootInfo (C.e i) = -a.rootInfo i)
  /-- a new function is never reported -/
  rootInfoNew : ∀ j, C.New j → b.rootInfo j = 0

/-- What is seen of a call before and after the change. -/
def SeenAlike {n q q' : Nat} {K : Type u} [Field K] [LinearOrder K] (C : RootChange q q' K) :
    Option (Res n K × Snapshot n q K × List (UCall n K)) → Option (Res n K × Snapshot n q' K × List (UCall n K)) → Prop
  | none, none => True
  | some (r, a, log), some (r', b, log') => r' = r ∧ Relabelled C a b ∧ log' = log
  | _, _ => False

section
variable {ν : Type v} {n q q' : Nat} {K : Type u} [Field K] [LinearOrder K] [IsStrictOrderedRing K] [ExactParams K]

theorem relabelled_of_rr {C : RootChange q q' K} {cfg : Cfg ν n q K} {ρ : K → Vec n K → Vec n K → Vec q' K → Vec q' K}
    {dir : Fin q' → Nat} {pos : Prop} {s : State ν n q K} {s' : State ν n q' K} (h : RR C ρ pos s s') :
    Relabelled C (snapshot cfg s) (snapshot (cfg.withRoots ρ dir) s') ∧ s'.m.log = s.m.log := by
  obtain ⟨r', rfl, hr⟩ := h
  exact ⟨⟨rfl, rfl, rfl, rfl, rfl, rfl, rfl, rfl, rfl, rfl, rfl, rfl, rfl, rfl, rfl, rfl, rfl, rfl, hr.nge, hr.iroots, hr.inew⟩, rfl⟩

theorem session_alike {C : RootChange q q' K} {cfg : Cfg ν n q K} {ρ : K → Vec n K → Vec n K → Vec q' K → Vec q' K}
    {dir : Fin q' → Nat} (hF : C.Fits cfg.prob.root ρ cfg.rootdir dir) (hq : 0 < q) (rf sf : Nat) (ops : List (Op K)) :
    ∀ {s : State ν n q K} {s' : State ν n q' K}, RR C ρ (0 < s.cnt.nst) s s' →
    List.Forall₂ (SeenAlike C) (session cfg rf sf s ops) (session (cfg.withRoots ρ dir) rf sf s' ops) := by
  induction ops with
  | nil => intro s s' h; exact .nil
  | cons op ops ih =>
    intro s s' h
    unfold session
    rcases exec_rel hF hq rf sf h op with ⟨e1, e2⟩ | ⟨x, x', r, e1, e2, h1⟩
    · rw [e1, e2]; exact .cons trivial .nil
    · rw [e1, e2]
      obtain ⟨h2, h3⟩ := relabelled_of_rr (cfg := cfg) (dir := dir) h1
      exact .cons ⟨rfl, h2, h3⟩ (ih h1)

/-- **C100.** Any session goes as before after any such change of the root functions. -/
theorem c100_sessions (C : RootChange q q' K) (cfg : Cfg ν n q K) (root' : K → Vec n K → Vec n K → Vec q' K → Vec q' K)
    (dir' : Fin q' → Nat) (hF : C.Fits cfg.prob.root root' cfg.rootdir dir') (hq : 0 < q) (nls0 : ν) (yy0 yp0 : Vec n K)
    (T : Option K) (rf sf : Nat) (ops : List (Op K)) :
    List.Forall₂ (SeenAlike C) (session cfg rf sf { State.new nls0 yy0 yp0 with tstop := T } ops)
      (session (cfg.withRoots root' dir') rf sf { State.new nls0 yy0 yp0 with tstop := T } ops) := by
  refine session_alike hF hq rf sf ops ?_
  obtain ⟨r', e, h⟩ := new_rel (C := C) (ρ := root') nls0 yy0 yp0
  exact ⟨r', by rw [e]; rfl, h⟩

/-- **C100, positive factors.** If no factor is negative, `get_root_info` reports the same for the old functions. -/
theorem c100_positive (C : RootChange q q' K) (hd : ∀ i, 0 < C.d i) (a : Snapshot n q K) (b : Snapshot n q' K)
    (h : Relabelled C a b) (i : Fin q) : b.rootInfo (C.e i) = a.rootInfo i := by
  rcases h.rootInfo i with e | ⟨e, -⟩
  · exact e
  · exact absurd e (not_lt.2 (hd i).le)

end

/-! ## A concrete case

The solver of C97 that watches `t - 3/2000`.  The function is multiplied by `-3`; before it comes the function `y² + 1`, after
it the constant `-1`.  The first call returns `Root` at `t = 3/2000` in both cases. -/

section
open Witness

def alarmChange : RootChange 1 3 ℚ where
  e := fun _ => 1
  mono := by decide
  d := fun _ => -3
  ne := by intro i; norm_num

def alarms : ℚ → Vec 1 ℚ → Vec 1 ℚ → Vec 3 ℚ → Vec 3 ℚ :=
  fun t y _ _ i => if i = 0 then y 0 * y 0 + 1 else if i = 1 then -3 * (t - 3 / 2000) else -1

theorem alarms_fit : alarmChange.Fits alarmCfg.prob.root alarms alarmCfg.rootdir (fun _ => 0) where
  old := fun t y yp b b' _ i => rfl
  dirs := fun i => rfl
  sign := fun i => Or.inr rfl
  new := by
    intro j hj
    fin_cases j
    · refine Or.inl fun t y yp b => ?_
      show (0 : ℚ) < y 0 * y 0 + 1
      have := mul_self_nonneg (y 0)
      linarith
    · exact absurd rfl (hj 0)
    · refine Or.inr fun t y yp b => ?_
      show (-1 : ℚ) < 0
      norm_num

/-- A root found at `3/2000`, with the given entries of `get_root_info`. -/
def isAlarm {q : Nat} (info : List ℚ) : Option (Res 1 ℚ × Snapshot 1 q ℚ × List (UCall 1 ℚ)) → Bool
  | some (r, v, _) => Res.isStatus .root r && decide (v.tret = 3 / 2000) && decide ((List.finRange q).map v.rootInfo = info)
  | none => false

example : List.Forall₂ (SeenAlike alarmChange) (session alarmCfg 100 10 alarm0 [.solve 1 0 .normal, lastCall])
    (session (alarmCfg.withRoots alarms (fun _ => 0)) 100 10 (State.new newton0 (fun _ => 1) (fun _ => -1))
      [.solve 1 0 .normal, lastCall]) ∧
    (session alarmCfg 100 10 alarm0 [.solve 1 0 .normal, lastCall]).map (isAlarm [-1]) = [true, false] ∧
    (session (alarmCfg.withRoots alarms (fun _ => 0)) 100 10 (State.new newton0 (fun _ => 1) (fun _ => -1))
      [.solve 1 0 .normal, lastCall]).map (isAlarm [0, 1, 0]) = [true, false] :=
  ⟨c100_sessions alarmChange alarmCfg alarms (fun _ => 0) alarms_fit (by decide) newton0 (fun _ => 1) (fun _ => -1) none 100 10 _,
    by decide +kernel, by decide +kernel⟩

/-! ## The order of the root functions -/

/-- Two functions with the same values at both ends of the second step, but different ones in between. -/
def bent (c t : ℚ) : ℚ := t - 3 / 2000 + c * (t - 1 / 1000) * (t - 1 / 500)

def bents (c d : ℚ) : ℚ → Vec 1 ℚ → Vec 1 ℚ → Vec 2 ℚ → Vec 2 ℚ := fun t _ _ _ i => if i = 0 then bent c t else bent d t

def bentCfg (c d : ℚ) : Cfg (Newton (Vec 1 ℚ)) 1 2 ℚ := decayCfg.withRoots (bents c d) (fun _ => 0)

def bent0 : State (Newton (Vec 1 ℚ)) 1 2 ℚ := State.new newton0 (fun _ => 1) (fun _ => -1)

/-- Listing the root functions in another order can change the time at which the first root is reported (by less than the root
tolerance): of two functions whose fractions `g/(g - g_lo)` are equal, the first one determines the trial point. -/
theorem c100_order_matters : ∃ (a b : State (Newton (Vec 1 ℚ)) 1 2 ℚ) (rf sf : Nat),
    exec (bentCfg 100 200) rf sf bent0 (.solve 1 0 .normal) = some (a, .solved (.ok .root)) ∧
    exec (bentCfg 200 100) rf sf bent0 (.solve 1 0 .normal) = some (b, .solved (.ok .root)) ∧
    getRootInfo a 0 = getRootInfo b 1 ∧ getRootInfo a 1 = getRootInfo b 0 ∧ a.tret ≠ b.tret := by
  have h1 : ((exec (bentCfg 100 200) 100 10 bent0 (.solve 1 0 .normal)).map fun x => Res.isStatus .root x.2 &&
      decide (getRootInfo x.1 0 = (-1 : ℚ) ∧ getRootInfo x.1 1 = (0 : ℚ) ∧
        x.1.tret = (311182784502880704734158777041153009920283 / 204062606584924107439947433735369904881664000 : ℚ))) = some true := by
    decide +kernel
  have h2 : ((exec (bentCfg 200 100) 100 10 bent0 (.solve 1 0 .normal)).map fun x => Res.isStatus .root x.2 &&
      decide (getRootInfo x.1 1 = (-1 : ℚ) ∧ getRootInfo x.1 0 = (0 : ℚ) ∧
        x.1.tret = (126582728591205515252627152499 / 83008453010080610335370248192000 : ℚ))) = some true := by
    decide +kernel
  obtain ⟨a, ra, ha, pa⟩ := exec_one (P := fun s r => Res.isStatus .root r &&
      decide (getRootInfo s 0 = (-1 : ℚ) ∧ getRootInfo s 1 = (0 : ℚ) ∧
        s.tret = (311182784502880704734158777041153009920283 / 204062606584924107439947433735369904881664000 : ℚ))) h1
  obtain ⟨b, rb, hb, pb⟩ := exec_one (P := fun s r => Res.isStatus .root r &&
      decide (getRootInfo s 1 = (-1 : ℚ) ∧ getRootInfo s 0 = (0 : ℚ) ∧
        s.tret = (126582728591205515252627152499 / 83008453010080610335370248192000 : ℚ))) h2
  simp only [Bool.and_eq_true, decide_eq_true_eq, Res.isStatus_iff] at pa pb
  obtain ⟨rfl, pa1, pa2, pa3⟩ := pa
  obtain ⟨rfl, pb1, pb2, pb3⟩ := pb
  refine ⟨a, b, 100, 10, ha, hb, by rw [pa1, pb1], by rw [pa2, pb2], ?_⟩
  rw [pa3, pb3]
  norm_num

end

end Verif.Props
