import Verif.Proofs.AnswersStop
import Verif.Proofs.AnswersLs
import Verif.Witness

/-!
# Property C99: only the answers to the calls made matter

The solver knows the user's equations only through the calls it makes.  Two problems that answer these calls in the same
way are treated in the same way, whatever they do elsewhere.  With a stop time `T` the residual is only called between the
initial time 0 and `T`: equations that change, or make no sense, beyond `T` can be integrated up to `T`.
-/

set_option autoImplicit false
set_option linter.unusedSectionVars false
set_option linter.unusedSimpArgs false
set_option linter.unusedVariables false

namespace Verif.Props

open Verif.Spec Verif.Witness

universe u v

section
variable {n q : Nat} {K : Type u} [Scalar K] {L : Type v}

/-- **C99.** If the problem `P'` answers all calls made in a session with `P` (those in the log of the last state) as `P`
does, then it gives the same session: the same results of all calls, and the same states. -/
theorem c99_answers (P P' : Problem n q K) (tol : TolControl n K) (fuel : Nat) (s0 s : State (Newton (Vec n K)) n q K)
    (l : List (Nat × Nat × Op K × Res n K)) (h : Session (Cfg.newton P tol fuel) s0 l s)
    (hP : SameAnswers (fun c => c ∈ s.m.log) P P') : Session (Cfg.newton P' tol fuel) s0 l s :=
  Session.swap (cfg := Cfg.newton P tol fuel) (P' := P') (S' := newtonNls P' fuel) hP.root
    (nlsUses_keepsLog (newton_uses_interface P tol fuel)) (newton_sameNls hP fuel) h (fun c hc => hc)

/-- **C99, any linear solver.** -/
theorem c99_answers_ls (S : LSolver L n K) (P P' : Problem n q K) (tol : TolControl n K) (fuel : Nat)
    (s0 s : State (Newton (Vec n K) × LsMem L) n q K)
    (l : List (Nat × Nat × Op K × Res n K)) (h : Session (Cfg.newtonWith S P tol fuel) s0 l s)
    (hP : SameAnswers (fun c => c ∈ s.m.log) P P') : Session (Cfg.newtonWith S P' tol fuel) s0 l s :=
  Session.swap (cfg := Cfg.newtonWith S P tol fuel) (P' := P') (S' := newtonNlsWith S P' fuel) hP.root
    (newtonWith_keepsLog S P tol fuel) (newtonWith_sameNls S hP fuel) h (fun c hc => hc)

/-- **C99, the stop time stays in force** until a call reports that it has been reached. -/
theorem c99_stop_in_force {ν : Type v} (cfg : Cfg ν n q K) (s0 s : State ν n q K) (l : List (Nat × Nat × Op K × Res n K))
    (h : Session cfg s0 l s) (hl : ∀ c ∈ l, c.2.2.2 ≠ .solved (.ok .tstop)) : s.tstop = s0.tstop := h.tstop hl

end

section
variable {n q : Nat} {K : Type u} [Field K] [LinearOrder K] [IsStrictOrderedRing K] [ExactParams K] [EpsLaws K]

/-- **C99, where the residual is called.** In a session of a solver with stop time `T`, up to and including the first call
that reports that `T` has been reached, the residual is only called for times from 0 to `T`. -/
theorem c99_times (P : Problem n q K) (tol : TolControl n K) (fuel : Nat) (T : K) (yy0 yp0 : Vec n K)
    (l : List (Nat × Nat × Op K × Res n K)) (s s' : State (Newton (Vec n K)) n q K) (rf sf : Nat) (op : Op K) (r : Res n K)
    (h : Session (Cfg.newton P tol fuel) { State.new newton0 yy0 yp0 with tstop := some T } l s)
    (hl : ∀ c ∈ l, c.2.2.2 ≠ .solved (.ok .tstop)) (he : exec (Cfg.newton P tol fuel) rf sf s op = some (s', r)) :
    ∀ t y yp, UCall.res t y yp ∈ s'.m.log → Between 0 t T :=
  calls_between (newton_legal P tol fuel) (newton_uses_interface P tol fuel) (le_refl _)
    (h.reach (.new newton0 yy0 yp0 (some T))) (h.tstop hl) he

/-- **C99, beyond the stop time.** Two problems whose residuals and Jacobians agree from the initial time 0 to the stop
time `T`, and that have the same root functions, give the same session, up to and including the first call that reports
that `T` has been reached. -/
theorem c99_beyond_stop (P P' : Problem n q K) (tol : TolControl n K) (fuel : Nat) (T : K)
    (hres : ∀ t y yp b, Between 0 t T → P'.res t y yp b = P.res t y yp b)
    (hjac : ∀ t cj y yp rr b, Between 0 t T → P'.jac t cj y yp rr b = P.jac t cj y yp rr b)
    (hroot : ∀ t y yp b, P'.root t y yp b = P.root t y yp b) (yy0 yp0 : Vec n K)
    (l : List (Nat × Nat × Op K × Res n K)) (s s' : State (Newton (Vec n K)) n q K) (rf sf : Nat) (op : Op K) (r : Res n K)
    (h : Session (Cfg.newton P tol fuel) { State.new newton0 yy0 yp0 with tstop := some T } l s)
    (hl : ∀ c ∈ l, c.2.2.2 ≠ .solved (.ok .tstop)) (he : exec (Cfg.newton P tol fuel) rf sf s op = some (s', r)) :
    Session (Cfg.newton P' tol fuel) { State.new newton0 yy0 yp0 with tstop := some T } ((rf, sf, op, r) :: l) s' := by
  have hs : Session (Cfg.newton P tol fuel) { State.new newton0 yy0 yp0 with tstop := some T } ((rf, sf, op, r) :: l) s' :=
    .call rf sf op r h he
  refine c99_answers P P' tol fuel _ s' _ hs ⟨fun t y yp b hc => ?_, fun t cj y yp rr b hc => ?_, fun t y yp b _ => hroot t y yp b⟩
  · exact hres t y yp b (c99_times P tol fuel T yy0 yp0 l s s' rf sf op r h hl he t y yp hc)
  · obtain ⟨l1, l2, hl12⟩ := List.append_of_mem hc
    obtain ⟨rfl, -⟩ := c50_jacobian_point_partial P tol fuel s' (hs.reach (.new newton0 yy0 yp0 (some T))) l1 l2 t cj y yp rr hl12
    refine hjac _ cj y yp rr b ?_
    rcases le_total 0 T with h0 | h0
    · exact Or.inl ⟨le_refl _, h0⟩
    · exact Or.inr ⟨h0, le_refl _⟩

end

/-! ## Concrete cases -/

/-- `y' + y = 0` up to the time 7/2000; from then on an equation without solution. -/
def broken : Problem 1 0 ℚ where
  res t y yp _ := fun i => if t ≤ 7 / 2000 then yp i + y i else 1
  jac t cj _ _ _ _ := fun _ _ => if t ≤ 7 / 2000 then cj + 1 else 0
  root _ _ _ b := b

/-- A user takes two internal steps of `y' + y = 0` with the stop time 7/2000 and then runs into it: with the equations
that break down beyond it they get the same results and states.  The residual has been called four times, and not beyond
the stop time, although the last internal step ends right before it. -/
example : ∃ s2 s3 : State (Newton (Vec 1 ℚ)) 1 0 ℚ, ∃ l,
    Session decayCfg { decay0 with tstop := some (7 / 2000) } l s2 ∧ (∀ c ∈ l, c.2.2.2 ≠ .solved (.ok .tstop)) ∧
    l.length = 2 ∧ exec decayCfg 10 10 s2 (.solve 1 0 .normal) = some (s3, .solved (.ok .tstop)) ∧
    s3.m.log.length = 4 ∧ s3.e.tn > 7 / 2000 - 1 / 1000000 ∧
    (∀ t y yp, UCall.res t y yp ∈ s3.m.log → Between 0 t (7 / 2000)) ∧
    Session (Cfg.newton broken (.ss (1 / 100) (1 / 100)) 3) { decay0 with tstop := some (7 / 2000) }
      ((10, 10, .solve 1 0 .normal, .solved (.ok .tstop)) :: l) s3 := by
  obtain ⟨s1, r1, s2, r2, s3, r3, e1, e2, e3, h⟩ := exec_three (cfg := decayCfg) (rf := 10) (sf := 10)
    (s := { decay0 with tstop := some (7 / 2000) }) (a := .solve 1 0 .oneStep) (b := .solve 1 0 .oneStep)
    (c := .solve 1 0 .normal)
    (P := fun s1 r1 s2 r2 s3 r3 => Res.isStatus .success r1 && Res.isStatus .success r2 && Res.isStatus .tstop r3 &&
      decide (s3.m.log.length = 4) && decide (s3.e.tn > (7 / 2000 - 1 / 1000000 : ℚ))) (by decide +kernel)
  simp only [Bool.and_eq_true, decide_eq_true_eq, Res.isStatus_iff] at h
  obtain ⟨⟨⟨⟨rfl, rfl⟩, rfl⟩, h4⟩, h5⟩ := h
  have hs : Session decayCfg { decay0 with tstop := some (7 / 2000) } _ s2 := .call _ _ _ _ (.call _ _ _ _ .nil e1) e2
  have hn : ∀ c ∈ ([(10, 10, .solve 1 0 .oneStep, .solved (.ok .success)), (10, 10, .solve 1 0 .oneStep, .solved (.ok .success))] :
      List (Nat × Nat × Op ℚ × Res 1 ℚ)), c.2.2.2 ≠ .solved (.ok .tstop) := by
    intro c hc
    rcases List.mem_cons.1 hc with rfl | hc
    · intro h; cases h
    · rcases List.mem_cons.1 hc with rfl | hc
      · intro h; cases h
      · cases hc
  have before : ∀ t : ℚ, Between 0 t (7 / 2000) → t ≤ 7 / 2000 := by
    rintro t (⟨_, h⟩ | ⟨h1, h2⟩)
    · exact h
    · exact absurd (le_trans h1 h2) (by norm_num)
  refine ⟨s2, s3, _, hs, hn, rfl, e3, h4, h5, ?_, ?_⟩
  · exact c99_times decay (.ss (1 / 100) (1 / 100)) 3 (7 / 2000) (fun _ => 1) (fun _ => -1) _ s2 s3 10 10 _ _ hs hn e3
  · refine c99_beyond_stop decay broken (.ss (1 / 100) (1 / 100)) 3 (7 / 2000) ?_ ?_ (fun _ _ _ _ => rfl) (fun _ => 1)
      (fun _ => -1) _ s2 s3 10 10 _ _ hs hn e3
    · intro t y yp b ht
      funext i
      exact if_pos (before t ht)
    · intro t cj y yp rr b ht
      funext i j
      exact if_pos (before t ht)

end Verif.Props
