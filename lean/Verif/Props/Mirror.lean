import Verif.Proofs.MirrorRun
import Verif.Proofs.Attempts
import Verif.Proofs.FlDirection
import Verif.Props.Rescale

/-!
# The other direction of time, to the last bit (C102)

A user lets the time run the other way: `t` becomes `-t` and `y'` becomes `-y'`.  Every session goes as before, to the last
bit: times, step sizes and first derivatives change their signs, and the `k`-th derivatives are multiplied by `(-1)^k`; the
solutions, the orders, the counters, the root directions and the calls of the user's functions are the same.  So integrating
backward is as good as integrating forward, in floating-point arithmetic, too.
-/

set_option autoImplicit false
set_option linter.unusedSectionVars false
set_option linter.unusedVariables false

namespace Verif.Props

open Verif Verif.Spec

universe u v w

section
variable {n q : Nat} {K : Type u} [Scalar K] (L : TwoWay K)

/-- How the states of the two sessions are related: before the first step the second column of the history is `y'`, afterwards
it is `h y'`. -/
def Facing {ν : Type v} (s s' : State ν n q K) : Prop :=
  (s.cnt.nst = 0 ∧ s' = Mirror.fresh s) ∨ (s.cnt.nst ≠ 0 ∧ Scalar.eqb s.c.hh 0 = false ∧ s' = Mirror.state s)

include L in
theorem session_mirror {ν : Type v} (cfg : Cfg ν n q K) {P' : Problem n q K} {S' : NlSolver ν n K} (H : Mirror.Fits cfg P' S')
    (hl : NlsLegal cfg) (hi : ∀ N, S'.numIters N = cfg.nls.numIters N) (rf sf : Nat) (ops : List (Op K)) :
    ∀ s s' : State ν n q K, Facing s s' → Mirror.Regular s.cnt.nst ops (session cfg rf sf s ops) →
      session (Mirror.conf cfg P' S') rf sf s' (ops.map Mirror.op) = List.zipWith Mirror.seen ops (session cfg rf sf s ops) := by
  induction ops with
  | nil => intro s s' _ _; rfl
  | cons o ops ih =>
    intro s s' hs hr
    have hshot : ∀ s1 s1' : State ν n q K, (s1' = Mirror.state s1 ∨ s1' = Mirror.fresh s1) →
        snapshot (Mirror.conf cfg P' S') s1' = Mirror.shot (snapshot cfg s1) ∧ s1'.m.log = s1.m.log.map Mirror.call := by
      rintro s1 s1' (rfl | rfl)
      · refine ⟨?_, rfl⟩
        unfold snapshot
        rw [show getNumNonlinSolvIters (Mirror.conf cfg P' S') (Mirror.state s1) = getNumNonlinSolvIters cfg s1 from
          congrArg (s1.cnt.nni + ·) (hi s1.nls)]
        rfl
      · refine ⟨?_, rfl⟩
        unfold snapshot
        rw [show getNumNonlinSolvIters (Mirror.conf cfg P' S') (Mirror.fresh s1) = getNumNonlinSolvIters cfg s1 from
          congrArg (s1.cnt.nni + ·) (hi s1.nls)]
        rfl
    have hkey : (exec cfg rf sf s o = none ∧ exec (Mirror.conf cfg P' S') rf sf s' (Mirror.op o) = none) ∨
        ∃ s1 s1' r, exec cfg rf sf s o = some (s1, r) ∧
          exec (Mirror.conf cfg P' S') rf sf s' (Mirror.op o) = some (s1', Mirror.res o r) ∧
          (s1' = Mirror.state s1 ∨ s1' = Mirror.fresh s1) ∧ (s1.cnt.nst ≠ 0 → s1' = Mirror.state s1) ∧
          (s1.cnt.nst = 0 → r = .solved (.error (.ida .illegalInput)) → s1' = Mirror.fresh s1) := by
      rcases hs with ⟨hn, rfl⟩ | ⟨hn, hh, rfl⟩
      · have ho : ∃ tout tret task, o = .solve tout tret task := by
          unfold session at hr
          cases he : exec cfg rf sf s o with
          | none => rw [he] at hr; exact hr.1 hn
          | some p => rw [he] at hr; exact hr.1 hn
        obtain ⟨tout, tret, task, rfl⟩ := ho
        exact Mirror.exec_first_mirror L cfg H s hn rf sf tout tret task
      · have e := Mirror.exec_mirror L cfg H s hn hh rf sf o
        cases he : exec cfg rf sf s o with
        | none => rw [he] at e; exact .inl ⟨rfl, e⟩
        | some p =>
          rw [he] at e
          obtain ⟨s1, r⟩ := p
          have hle := (exec_cntLe hl he).nst
          exact .inr ⟨s1, _, r, rfl, e, .inl rfl, fun _ => rfl, fun h0 _ => absurd h0 (by omega)⟩
    rcases hkey with ⟨h1, h2⟩ | ⟨s1, s1', r, h1, h2, h3, h4, h5⟩
    · rw [List.map_cons]
      unfold session
      rw [h1, h2]
      simp [Mirror.seen]
    · obtain ⟨g1, g2⟩ := hshot s1 s1' h3
      unfold session at hr
      rw [h1] at hr
      rw [List.map_cons]
      unfold session
      rw [h1, h2]
      simp only [List.zipWith_cons_cons]
      rw [g1, g2]
      refine congrArg₂ List.cons rfl ?_
      rcases hr.2 with rfl | ⟨a1, a2, a3⟩
      · rfl
      · refine ih s1 s1' ?_ a3
        by_cases h0 : s1.cnt.nst = 0
        · exact .inl ⟨h0, h5 h0 (a1 h0)⟩
        · exact .inr ⟨h0, a2 (Nat.pos_of_ne_zero h0), h4 h0⟩

include L in
/-- **C102.** Any session with the time running the other way is the session with the time running forward, seen with the time
running the other way. -/
theorem c102_sessions {P P' : Problem n q K} (hP : Mirror.Same P P') (tol : TolControl n K) (fuel : Nat) (yy0 yp0 : Vec n K)
    (T : Option K) (rf sf : Nat) (ops : List (Op K))
    (hr : Mirror.Regular 0 ops (session (Cfg.newton P tol fuel) rf sf { State.new newton0 yy0 yp0 with tstop := T } ops)) :
    session (Cfg.newton P' tol fuel) rf sf { State.new newton0 yy0 (-yp0) with tstop := T.map fun T => -T } (ops.map Mirror.op) =
      List.zipWith Mirror.seen ops (session (Cfg.newton P tol fuel) rf sf { State.new newton0 yy0 yp0 with tstop := T } ops) := by
  have e : Cfg.newton P' tol fuel = Mirror.conf (Cfg.newton P tol fuel) P' (newtonNls P' fuel) := by
    unfold Cfg.newton Cfg.std Mirror.conf
    simp only [L.zero]
  rw [e, Mirror.new_mirror L]
  exact session_mirror L _ (Mirror.fits_newton L hP tol fuel) (newton_legal P tol fuel) (fun _ => rfl) rf sf ops _ _
    (.inl ⟨rfl, rfl⟩) hr

include L in
/-- **C102, with other parameters.** The same for any configuration with the standard nonlinear solver (maximal step, orders,
suppression of algebraic variables, …); the initial step changes its sign. -/
theorem c102_any_parameters {P P' : Problem n q K} (hP : Mirror.Same P P') (fuel : Nat) (cfg : Cfg (Newton (Vec n K)) n q K)
    (h1 : cfg.prob = P) (h3 : cfg.nls = newtonNls P fuel) (yy0 yp0 : Vec n K) (T : Option K) (rf sf : Nat) (ops : List (Op K))
    (hr : Mirror.Regular 0 ops (session cfg rf sf { State.new newton0 yy0 yp0 with tstop := T } ops)) :
    session { cfg with prob := P', nls := newtonNls P' fuel, hin := -cfg.hin } rf sf
        { State.new newton0 yy0 (-yp0) with tstop := T.map fun T => -T } (ops.map Mirror.op) =
      List.zipWith Mirror.seen ops (session cfg rf sf { State.new newton0 yy0 yp0 with tstop := T } ops) := by
  subst h1
  rw [Mirror.new_mirror L]
  have hl : NlsLegal cfg := by
    unfold NlsLegal
    rw [h3]
    exact newton_legal cfg.prob (.ss 0 0) fuel
  exact session_mirror L cfg ⟨hP.root, by rw [h3]; exact Mirror.newton_mirror L hP fuel⟩ hl (by rw [h3]; exact fun _ => rfl) rf sf ops _ _
    (.inl ⟨rfl, rfl⟩) hr

end

section
variable {ν : Type w} {n q : Nat} {F : Type u} {K : Type v} [Scalar F] [Field K] [LinearOrder K] [IsStrictOrderedRing K]
  [S : Correct F K]

/-- In correctly rounded arithmetic the step size is never zero after the first step. -/
theorem started_regular (cfg : Cfg ν n q F) (hl : NlsLegal cfg) (hm : 0 ≤ StdModel.val (K := K) cfg.hmaxInv) (rf sf : Nat)
    (ops : List (Op F)) : ∀ s, Reach cfg s → Mirror.Started s.cnt.nst ops (session cfg rf sf s ops) →
      Mirror.Regular s.cnt.nst ops (session cfg rf sf s ops) := by
  induction ops with
  | nil => intro s _ _; unfold session; trivial
  | cons o ops ih =>
    intro s hs h
    unfold session at h ⊢
    cases he : exec cfg rf sf s o with
    | none => rw [he] at h; exact ⟨h.1, trivial⟩
    | some p =>
      obtain ⟨s1, r⟩ := p
      rw [he] at h
      refine ⟨h.1, ?_⟩
      have hs1 : Reach cfg s1 := .call rf sf o r hs he
      rcases h.2 with h2 | ⟨h2, h3⟩
      · exact .inl h2
      · refine .inr ⟨h2, fun hn => ?_, ih s1 hs1 h3⟩
        have hne := (FlControl.reach_ctl (K := K) hl hm hs1).ne hn
        rw [← Bool.not_eq_true, StdModel.eq_iff (K := K), StdModel.val_zero]
        exact hne

/-- **C102 in correctly rounded arithmetic.** Only calls before the first step (other than `solve`) and calls after a failed first
step are excluded. -/
theorem c102_rounded (L : TwoWay F) {P P' : Problem n q F} (hP : Mirror.Same P P') (fuel : Nat)
    (cfg : Cfg (Newton (Vec n F)) n q F) (h1 : cfg.prob = P) (h3 : cfg.nls = newtonNls P fuel)
    (hm : 0 ≤ StdModel.val (K := K) cfg.hmaxInv) (yy0 yp0 : Vec n F) (T : Option F) (rf sf : Nat) (ops : List (Op F))
    (hr : Mirror.Started 0 ops (session cfg rf sf { State.new newton0 yy0 yp0 with tstop := T } ops)) :
    session { cfg with prob := P', nls := newtonNls P' fuel, hin := -cfg.hin } rf sf
        { State.new newton0 yy0 (-yp0) with tstop := T.map fun T => -T } (ops.map Mirror.op) =
      List.zipWith Mirror.seen ops (session cfg rf sf { State.new newton0 yy0 yp0 with tstop := T } ops) := by
  refine c102_any_parameters L hP fuel cfg h1 h3 yy0 yp0 T rf sf ops ?_
  have hl : NlsLegal cfg := by
    unfold NlsLegal
    rw [h3]
    exact newton_legal P (.ss 0 0) fuel
  exact started_regular cfg hl hm rf sf ops _ (.new newton0 yy0 yp0 T) hr

end

/-- Exact arithmetic. -/
theorem exactTwoWay {K : Type u} [Field K] [LinearOrder K] [IsStrictOrderedRing K] [ExactParams K] : TwoWay K where
  toSignFree := exactSign
  lt a b := by simp only [ex_lt, neg_lt_neg_iff]
  eq a b := by simp only [ex_eqb, neg_inj]
  signum a h := by
    simp only [ex_eqb, decide_eq_false_iff_not] at h
    simp only [ex_signum]
    rcases lt_or_gt_of_ne h with h | h
    · rw [if_neg (by linarith), if_pos h, neg_neg]
    · rw [if_pos (by linarith), if_neg (by linarith)]
  still a b h := by
    simp only [ex_eqb, decide_eq_true_eq] at h
    simp [h]
  apart a b h := by
    simp only [ex_eqb, ex_abs, abs_eq_zero, sub_eq_zero, decide_eq_false_iff_not] at h
    simp only [ex_lt]
    rcases lt_or_gt_of_ne h with h | h
    · simp [h, not_lt.2 h.le]
    · simp [h, not_lt.2 h.le]

end Verif.Props

namespace Verif.Bin

open Verif.Spec

/-- Binary floating-point arithmetic. -/
theorem twoWay (p : ℕ) : TwoWay (Bin p) where
  toSignFree := signFree p
  lt a b := by
    show decide (-a.v < -b.v) = decide (b.v < a.v)
    simp only [neg_lt_neg_iff]
  eq a b := by
    show decide (-a.v = -b.v) = decide (a.v = b.v)
    simp only [neg_inj]
  signum a h := ext_v (by
    have h : decide (a.v = rnd p 0) = false := h
    rw [rnd_zero, decide_eq_false_iff_not] at h
    show (if -a.v < 0 then of (-1) else of 1 : Bin p).v = -(if a.v < 0 then of (-1) else of 1 : Bin p).v
    have e : (of (-1) : Bin p).v = -(of 1 : Bin p).v := rnd_neg p 1
    rcases lt_or_gt_of_ne h with h | h
    · rw [if_neg (by linarith), if_pos h, e, neg_neg]
    · rw [if_pos (by linarith), if_neg (by linarith), e])
  still a b h := by
    have h : decide (a.v = rnd p 0) = true := h
    rw [rnd_zero, decide_eq_true_eq] at h
    show decide (rnd p (b.v * a.v) < rnd p 0) = false
    rw [h, mul_zero]
    simp
  apart a b h := by
    have hne : a.v ≠ b.v := by
      intro e
      have e1 : Scalar.abs (a - b) = (0 : Bin p) := ext_v (by
        show (if rnd p (a.v - b.v) < 0 then (⟨-rnd p (a.v - b.v), _⟩ : Bin p) else ⟨rnd p (a.v - b.v), _⟩).v = rnd p 0
        simp only [e, sub_self, rnd_zero]
        rfl)
      rw [e1] at h
      have h : decide (rnd p 0 = rnd p 0) = false := h
      simp at h
    show decide (b.v < a.v) = !decide (a.v < b.v)
    rcases lt_or_gt_of_ne hne with h | h
    · simp [h, not_lt.2 h.le]
    · simp [h, not_lt.2 h.le]

end Verif.Bin

namespace Verif.Props

open Verif Verif.Spec Verif.Witness

universe u

/-- **C102 in binary floating-point arithmetic**, with any precision of at least five bits. -/
theorem c102_binary {n q p : ℕ} [Fact (4 ≤ p)] {P P' : Problem n q (Bin p)} (hP : Mirror.Same P P') (fuel : Nat)
    (cfg : Cfg (Newton (Vec n (Bin p))) n q (Bin p)) (h1 : cfg.prob = P) (h3 : cfg.nls = newtonNls P fuel)
    (hm : 0 ≤ cfg.hmaxInv.v) (yy0 yp0 : Vec n (Bin p)) (T : Option (Bin p)) (rf sf : Nat) (ops : List (Op (Bin p)))
    (hr : Mirror.Started 0 ops (session cfg rf sf { State.new newton0 yy0 yp0 with tstop := T } ops)) :
    session { cfg with prob := P', nls := newtonNls P' fuel, hin := -cfg.hin } rf sf
        { State.new newton0 yy0 (-yp0) with tstop := T.map fun T => -T } (ops.map Mirror.op) =
      List.zipWith Mirror.seen ops (session cfg rf sf { State.new newton0 yy0 yp0 with tstop := T } ops) :=
  c102_rounded (Bin.twoWay p) hP fuel cfg h1 h3 hm yy0 yp0 T rf sf ops hr

/-! ## A concrete case

The nonlinear equation `y' + y² = 0` of C101 with 53-bit numbers and its root function, and `-y' + y² = 0`, which is integrated
backward. -/

def riccatiBack : Problem 1 1 (Bin 52) where
  res _ y yp _ := fun i => -yp i + y i * y i
  jac _ cj y _ _ _ := fun _ j => if j = 0 then -cj + (y 0 + y 0) else 0
  root _ y _ _ := fun _ => y 0 - Bin.of (999 / 1000)

theorem riccatiBack_same : Mirror.Same riccati riccatiBack where
  res t y yp b := by
    funext i
    show - -yp i + y i * y i = yp i + y i * y i
    rw [(Bin.signFree 52).neg]
  jac t cj y yp r m := by
    funext i j
    show (if j = 0 then - -cj + (y 0 + y 0) else 0) = if j = 0 then cj + (y 0 + y 0) else 0
    rw [(Bin.signFree 52).neg]
  root t y yp b := rfl

def backFromOne : State (Newton (Vec 1 (Bin 52))) 1 1 (Bin 52) := State.new newton0 (fun _ => 1) (fun _ => 1)

/-- A test for `Mirror.Started` for two calls. -/
def started2 {n q : Nat} {K : Type u} [Scalar K] : List (Option (Res n K × Snapshot n q K × List (UCall n K))) → Bool
  | some (_, v, _) :: _ => decide (0 < v.numSteps)
  | _ => true

theorem started2_ok {n q : Nat} {K : Type u} [Scalar K] {tout tret : K} {task : Task} {o : Op K}
    {xs : List (Option (Res n K × Snapshot n q K × List (UCall n K)))} (h : started2 xs = true) :
    Mirror.Started 0 [.solve tout tret task, o] xs := by
  rcases xs with - | ⟨x, xs⟩
  · trivial
  refine ⟨fun _ => ⟨_, _, _, rfl⟩, ?_⟩
  rcases x with - | ⟨r, v, log⟩
  · trivial
  unfold started2 at h
  simp only [decide_eq_true_eq] at h
  refine .inr ⟨fun h0 => absurd h0 (by omega), ?_⟩
  rcases xs with - | ⟨x, xs⟩
  · trivial
  refine ⟨fun h0 => absurd h0 (by omega), ?_⟩
  rcases x with - | ⟨r, v, log⟩
  · trivial
  exact .inl rfl

/-- Forward, the root is found at `t = 0.001002…` with `y = 0.99899…`; backward, at `-t` with the same `y` and the same reported
direction.  Then the derivative is asked for, and the sessions are the same in all. -/
example :
    (session (Cfg.newton riccatiBack tolY 3) 100 10 backFromOne [.solve (-Bin.of 1) (-0) .normal, .getDky (-Bin.of (1 / 1000)) 1]) =
      List.zipWith Mirror.seen [.solve (Bin.of 1) 0 .normal, .getDky (Bin.of (1 / 1000)) 1]
        (session (Cfg.newton riccati tolY 3) 100 10 fromOne [.solve (Bin.of 1) 0 .normal, .getDky (Bin.of (1 / 1000)) 1]) ∧
    (session (Cfg.newton riccati tolY 3) 100 10 fromOne [.solve (Bin.of 1) 0 .normal]).map
      (looks .root (2310461598958419 / 2 ^ 61) (8998192055486251 / 2 ^ 53)) = [true] ∧
    (session (Cfg.newton riccatiBack tolY 3) 100 10 backFromOne [.solve (-Bin.of 1) 0 .normal]).map
      (looks .root (-(2310461598958419 / 2 ^ 61)) (8998192055486251 / 2 ^ 53)) = [true] := by
  refine ⟨?_, by decide +kernel, by decide +kernel⟩
  haveI : Fact (4 ≤ 52) := ⟨by norm_num⟩
  have h := c102_binary riccatiBack_same 3 (Cfg.newton riccati tolY 3) rfl rfl (by decide +kernel) (fun _ => 1) (fun _ => -1) none 100 10
    [.solve (Bin.of 1) 0 .normal, .getDky (Bin.of (1 / 1000)) 1] (started2_ok (by decide +kernel))
  have e1 : -(fun _ => -1 : Vec 1 (Bin 52)) = fun _ => 1 := funext fun _ => (Bin.signFree 52).neg 1
  have e2 : -(0 : Bin 52) = 0 := (Bin.signFree 52).zero
  rw [e1, show -(Cfg.newton riccati tolY 3).hin = 0 from e2] at h
  exact h

end Verif.Props
