import Verif.Model.Nls
import Verif.Spec.Reach

/-!
# Concrete runs

Small problems and nonlinear solvers over `ℚ`, and complete runs of the model on them, evaluated by the kernel.  They
show that the hypotheses of the theorems are met by reachable states, and serve as counterexamples.
-/

set_option autoImplicit false
set_option linter.unusedVariables false

namespace Verif.Witness

open Verif

universe u v

section
variable {ν : Type v} {n q : Nat} {K : Type u} [Scalar K]

/-- Execute a list of calls; `none` if one of them does not return. -/
def run (cfg : Cfg ν n q K) (rf sf : Nat) : List (Op K) → State ν n q K → Option (State ν n q K × List (Res n K))
  | [], s => some (s, [])
  | op :: ops, s =>
    match exec cfg rf sf s op with
    | none => none
    | some (s, r) => (run cfg rf sf ops s).map fun p => (p.1, r :: p.2)

theorem run_reach {cfg : Cfg ν n q K} {rf sf : Nat} (ops : List (Op K)) {s s' : State ν n q K} {l : List (Res n K)}
    (hs : Reach cfg s) (h : run cfg rf sf ops s = some (s', l)) : Reach cfg s' := by
  induction ops generalizing s l with
  | nil => cases h; exact hs
  | cons op ops ih =>
    unfold run at h
    split at h
    · cases h
    · rename_i s1 r h1
      cases h2 : run cfg rf sf ops s1 with
      | none => rw [h2] at h; cases h
      | some p =>
        rw [h2] at h
        simp only [Option.map_some, Option.some.injEq, Prod.mk.injEq] at h
        obtain ⟨rfl, -⟩ := h
        exact ih (.call rf sf op r hs h1) h2

theorem run_reachFrom {cfg : Cfg ν n q K} {rf sf : Nat} (ops : List (Op K)) {y0 yp0 : Vec n K} {s s' : State ν n q K}
    {l : List (Res n K)} (hs : ReachFrom cfg y0 yp0 s) (h : run cfg rf sf ops s = some (s', l)) : ReachFrom cfg y0 yp0 s' := by
  induction ops generalizing s l with
  | nil => cases h; exact hs
  | cons op ops ih =>
    unfold run at h
    split at h
    · cases h
    · rename_i s1 r h1
      cases h2 : run cfg rf sf ops s1 with
      | none => rw [h2] at h; cases h
      | some p =>
        rw [h2] at h
        simp only [Option.map_some, Option.some.injEq, Prod.mk.injEq] at h
        obtain ⟨rfl, -⟩ := h
        exact ih (.call rf sf op r hs h1) h2

/-- The call reported a failed internal step. -/
def Res.stepFailed : Res n K → Bool
  | .solved (.error e) => e.isStepFailure
  | _ => false

theorem run_reachOk {cfg : Cfg ν n q K} {rf sf : Nat} (ops : List (Op K)) {s s' : State ν n q K} {l : List (Res n K)}
    (hs : ReachOk cfg s) (h : run cfg rf sf ops s = some (s', l)) (hl : l.any Res.stepFailed = false) :
    ReachOk cfg s' := by
  induction ops generalizing s l with
  | nil => cases h; exact hs
  | cons op ops ih =>
    unfold run at h
    split at h
    · cases h
    · rename_i s1 r h1
      cases h2 : run cfg rf sf ops s1 with
      | none => rw [h2] at h; cases h
      | some p =>
        rw [h2] at h
        simp only [Option.map_some, Option.some.injEq, Prod.mk.injEq] at h
        obtain ⟨rfl, rfl⟩ := h
        simp only [List.any_cons, Bool.or_eq_false_iff] at hl
        refine ih (.call rf sf op r hs h1 ?_) h2 hl.2
        rintro e rfl
        exact hl.1

end

/-- Extract a witness from an evaluated run. -/
theorem run_witness {ν : Type v} {n q : Nat} {K : Type u} [Scalar K] {cfg : Cfg ν n q K} {rf sf : Nat} {ops : List (Op K)}
    {s : State ν n q K} {P : State ν n q K → List (Res n K) → Bool}
    (h : ((run cfg rf sf ops s).map fun p => P p.1 p.2) = some true) :
    ∃ s' l, run cfg rf sf ops s = some (s', l) ∧ P s' l = true := by
  cases hr : run cfg rf sf ops s with
  | none => rw [hr] at h; cases h
  | some p =>
    rw [hr] at h
    simp only [Option.map_some, Option.some.injEq] at h
    exact ⟨p.1, p.2, rfl, h⟩

/-- A run of one call. -/
theorem run_one {ν : Type v} {n q : Nat} {K : Type u} [Scalar K] {cfg : Cfg ν n q K} {rf sf : Nat} {op : Op K}
    {s s' : State ν n q K} {l : List (Res n K)} (h : run cfg rf sf [op] s = some (s', l)) :
    ∃ r, exec cfg rf sf s op = some (s', r) := by
  unfold run at h
  split at h
  · cases h
  · rename_i s1 r h1
    cases h
    exact ⟨r, h1⟩

/-- The result of a call is a given status of `solve`. -/
def Res.isStatus {n : Nat} {K : Type u} (st : Status) : Res n K → Bool
  | .solved (.ok x) => decide (x = st)
  | _ => false

theorem Res.isStatus_iff {n : Nat} {K : Type u} {st : Status} {r : Res n K} :
    Res.isStatus st r = true ↔ r = .solved (.ok st) := by
  unfold Res.isStatus
  split
  · simp
  · rename_i h
    simp only [Bool.false_eq_true, false_iff]
    intro he; exact h _ he

/-- The result of a call is a given error of `solve`. -/
def Res.isError {n : Nat} {K : Type u} (e : IdaErr) : Res n K → Bool
  | .solved (.error x) => decide (x = .ida e)
  | _ => false

theorem Res.isError_iff {n : Nat} {K : Type u} {e : IdaErr} {r : Res n K} :
    Res.isError e r = true ↔ r = .solved (.error (.ida e)) := by
  unfold Res.isError
  split
  · simp
  · rename_i h
    simp only [Bool.false_eq_true, false_iff]
    rintro rfl
    exact h _ rfl

/-- One call evaluated. -/
theorem exec_one {ν : Type v} {n q : Nat} {K : Type u} [Scalar K] {cfg : Cfg ν n q K} {rf sf : Nat} {a : Op K}
    {s : State ν n q K} {P : State ν n q K → Res n K → Bool}
    (h : ((exec cfg rf sf s a).map fun x => P x.1 x.2) = some true) :
    ∃ s1 r1, exec cfg rf sf s a = some (s1, r1) ∧ P s1 r1 = true := by
  cases h1 : exec cfg rf sf s a with
  | none => rw [h1] at h; cases h
  | some x =>
    rw [h1] at h
    simp only [Option.map_some, Option.some.injEq] at h
    exact ⟨x.1, x.2, rfl, h⟩

/-- Three calls evaluated together. -/
theorem exec_three {ν : Type v} {n q : Nat} {K : Type u} [Scalar K] {cfg : Cfg ν n q K} {rf sf : Nat} {a b c : Op K}
    {s : State ν n q K}
    {P : State ν n q K → Res n K → State ν n q K → Res n K → State ν n q K → Res n K → Bool}
    (h : ((exec cfg rf sf s a).bind fun x => (exec cfg rf sf x.1 b).bind fun y => (exec cfg rf sf y.1 c).map fun z =>
      P x.1 x.2 y.1 y.2 z.1 z.2) = some true) :
    ∃ s1 r1 s2 r2 s3 r3, exec cfg rf sf s a = some (s1, r1) ∧ exec cfg rf sf s1 b = some (s2, r2) ∧
      exec cfg rf sf s2 c = some (s3, r3) ∧ P s1 r1 s2 r2 s3 r3 = true := by
  cases h1 : exec cfg rf sf s a with
  | none => rw [h1] at h; cases h
  | some x =>
    rw [h1] at h
    simp only [Option.bind_some] at h
    cases h2 : exec cfg rf sf x.1 b with
    | none => rw [h2] at h; cases h
    | some y =>
      rw [h2] at h
      simp only [Option.bind_some] at h
      cases h3 : exec cfg rf sf y.1 c with
      | none => rw [h3] at h; cases h
      | some z =>
        rw [h3] at h
        simp only [Option.map_some, Option.some.injEq] at h
        exact ⟨x.1, x.2, y.1, y.2, z.1, z.2, rfl, h2, h3, h⟩

/-- The scalar problem `y' + y = 0` without root functions. -/
def decay : Problem 1 0 ℚ where
  res _ y yp _ := fun i => yp i + y i
  jac _ cj _ _ _ _ := fun _ _ => cj + 1
  root _ _ _ b := b

/-- `Ida<_, Dense, Newton, TolControlSS>` for it. -/
def decayCfg : Cfg (Newton (Vec 1 ℚ)) 1 0 ℚ := Cfg.newton decay (.ss (1 / 100) (1 / 100)) 3

/-- `Ida::new` with `y(0) = 1`, `y'(0) = -1`. -/
def decay0 : State (Newton (Vec 1 ℚ)) 1 0 ℚ := State.new newton0 (fun _ => 1) (fun _ => -1)

/-- Three internal steps. -/
def decayRun : Option (State (Newton (Vec 1 ℚ)) 1 0 ℚ × List (Res 1 ℚ)) :=
  run decayCfg 10 10 [.solve 1 0 .oneStep, .solve 1 0 .oneStep, .solve 1 0 .oneStep] decay0

/-- A nonlinear solver that returns the corrections and results of a table and leaves the problem memory alone: "every
nonlinear-solver behaviour" in the claims includes these. -/
def script (tab : Nat → ℚ × Except Err Unit) : NlSolver Nat 1 ℚ where
  solve N _ m _ _ _ _ _ := .ret (N + 1) m (fun _ => (tab N).1) (tab N).2
  numIters N := N

/-- A table given by its first entries; afterwards the solver returns the correction `0`. -/
def table (l : List (ℚ × Except Err Unit)) (i : Nat) : ℚ × Except Err Unit := (l[i]?).getD (0, .ok ())

/-- Configuration with a table-driven nonlinear solver, constant weights `1` and no root functions. -/
def scriptCfg (l : List (ℚ × Except Err Unit)) : Cfg Nat 1 0 ℚ := Cfg.std decay (fun _ _ _ => 1) (script (table l))

/-- `Ida::new` with `y(0) = 1`, `y'(0) = -1`. -/
def script0 : State Nat 1 0 ℚ := State.new 0 (fun _ => 1) (fun _ => -1)

/-- `k` calls of `solve` in one-step mode toward `tout = 1000`: the first step has size 1. -/
def steps (k : Nat) : List (Op ℚ) := List.replicate k (.solve 1000 0 .oneStep)

end Verif.Witness
