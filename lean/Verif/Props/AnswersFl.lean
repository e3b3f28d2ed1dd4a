import Verif.Proofs.AnswersFl
import Verif.Props.Answers
import Verif.Props.FlControl

/-!
# Property C99 in floating-point arithmetic

`F` is any correctly rounded floating-point arithmetic (`Spec/Correct.lean`) and `♯a` is the number `a` represents.
-/

set_option autoImplicit false
set_option linter.unusedSectionVars false
set_option linter.unusedSimpArgs false
set_option linter.unusedVariables false

namespace Verif.Props

open Verif Verif.Spec Verif.Witness

universe u v w

section
variable {n q : Nat} {F : Type u} {K : Type v} [Scalar F] [Field K] [LinearOrder K] [IsStrictOrderedRing K] [S : Correct F K]

local prefix:max "♯" => StdModel.val (F := F) (K := K)

/-- **C99, where the residual is called, in floating-point arithmetic.** In a session of a solver with stop time `T`, up to
and including the first call that reports that `T` has been reached, the residual is only called for times from 0 to `T`:
no rounding leads beyond `T`. -/
theorem c99_times_fl (P : Problem n q F) (tol : TolControl n F) (fuel : Nat) (T : F) (yy0 yp0 : Vec n F)
    (l : List (Nat × Nat × Op F × Res n F)) (s s' : State (Newton (Vec n F)) n q F) (rf sf : Nat) (op : Op F) (r : Res n F)
    (h : Session (Cfg.newton P tol fuel) { State.new newton0 yy0 yp0 with tstop := some T } l s)
    (hl : ∀ c ∈ l, c.2.2.2 ≠ .solved (.ok .tstop)) (he : exec (Cfg.newton P tol fuel) rf sf s op = some (s', r)) :
    ∀ t y yp, UCall.res t y yp ∈ s'.m.log → Between 0 ♯t ♯T :=
  FlControl.calls_between (newton_legal P tol fuel) (newton_uses_interface P tol fuel) (StdModel.val_zero (F := F) (K := K)).ge
    (h.reach (.new newton0 yy0 yp0 (some T))) (h.tstop hl) he

/-- **C99, beyond the stop time, in floating-point arithmetic.** Two problems whose residuals and Jacobians agree from the
initial time 0 to the stop time `T`, and that have the same root functions, give the same session, bit for bit, up to and
including the first call that reports that `T` has been reached. -/
theorem c99_beyond_stop_fl (P P' : Problem n q F) (tol : TolControl n F) (fuel : Nat) (T : F)
    (hres : ∀ t y yp b, Between 0 ♯t ♯T → P'.res t y yp b = P.res t y yp b)
    (hjac : ∀ t cj y yp rr b, Between 0 ♯t ♯T → P'.jac t cj y yp rr b = P.jac t cj y yp rr b)
    (hroot : ∀ t y yp b, P'.root t y yp b = P.root t y yp b) (yy0 yp0 : Vec n F)
    (l : List (Nat × Nat × Op F × Res n F)) (s s' : State (Newton (Vec n F)) n q F) (rf sf : Nat) (op : Op F) (r : Res n F)
    (h : Session (Cfg.newton P tol fuel) { State.new newton0 yy0 yp0 with tstop := some T } l s)
    (hl : ∀ c ∈ l, c.2.2.2 ≠ .solved (.ok .tstop)) (he : exec (Cfg.newton P tol fuel) rf sf s op = some (s', r)) :
    Session (Cfg.newton P' tol fuel) { State.new newton0 yy0 yp0 with tstop := some T } ((rf, sf, op, r) :: l) s' := by
  have hs : Session (Cfg.newton P tol fuel) { State.new newton0 yy0 yp0 with tstop := some T } ((rf, sf, op, r) :: l) s' :=
    .call rf sf op r h he
  refine c99_answers P P' tol fuel _ s' _ hs ⟨fun t y yp b hc => ?_, fun t cj y yp rr b hc => ?_, fun t y yp b _ => hroot t y yp b⟩
  · exact hres t y yp b (c99_times_fl P tol fuel T yy0 yp0 l s s' rf sf op r h hl he t y yp hc)
  · obtain ⟨rfl, -⟩ := (callsOk_reach (newton_uses_interface P tol fuel) (hs.reach (.new newton0 yy0 yp0 (some T)))).jac
      t cj y yp rr hc
    refine hjac _ cj y yp rr b ?_
    rw [StdModel.val_zero]
    rcases le_total 0 ♯T with h0 | h0
    · exact Or.inl ⟨le_refl _, h0⟩
    · exact Or.inr ⟨h0, le_refl _⟩

end

/-! ## Concrete cases -/

/-- `y' + y = 0` up to the time 1/300 as a 53-bit number; from then on an equation without solution. -/
def brokenBin : Problem 1 0 (Bin 52) where
  res t y yp _ := fun i => if t.v ≤ (Bin.of (1 / 300) : Bin 52).v then yp i + y i else 1
  jac t cj _ _ _ _ := fun _ _ => if t.v ≤ (Bin.of (1 / 300) : Bin 52).v then cj + 1 else 0
  root _ _ _ b := b

def decayBinCfg : Cfg (Newton (Vec 1 (Bin 52))) 1 0 (Bin 52) :=
  Cfg.newton (decayBin 52) (.ss (Bin.of (1 / 100)) (Bin.of (1 / 100))) 3

def decayBin0 : State (Newton (Vec 1 (Bin 52))) 1 0 (Bin 52) :=
  { State.new newton0 (fun _ => 1) (fun _ => -1) with tstop := some (Bin.of (1 / 300)) }

/-- With 53 bits, and the stop time 1/300 rounded to 53 bits: a user takes two internal steps of `y' + y = 0` and then runs
into the stop time; with the equations that break down beyond it they get the same results and states. -/
example : ∃ s2 s3 : State (Newton (Vec 1 (Bin 52))) 1 0 (Bin 52), ∃ l,
    Session decayBinCfg decayBin0 l s2 ∧ (∀ c ∈ l, c.2.2.2 ≠ .solved (.ok .tstop)) ∧
    l.length = 2 ∧ exec decayBinCfg 10 10 s2 (.solve (Bin.of 1) 0 .normal) = some (s3, .solved (.ok .tstop)) ∧
    s3.m.log.length = 4 ∧ (∀ t y yp, UCall.res t y yp ∈ s3.m.log → Between 0 t.v (Bin.of (1 / 300) : Bin 52).v) ∧
    Session (Cfg.newton brokenBin (.ss (Bin.of (1 / 100)) (Bin.of (1 / 100))) 3) decayBin0
      ((10, 10, .solve (Bin.of 1) 0 .normal, .solved (.ok .tstop)) :: l) s3 := by
  obtain ⟨s1, r1, s2, r2, s3, r3, e1, e2, e3, h⟩ := exec_three (cfg := decayBinCfg) (rf := 10) (sf := 10)
    (s := decayBin0) (a := .solve (Bin.of 1) 0 .oneStep) (b := .solve (Bin.of 1) 0 .oneStep)
    (c := .solve (Bin.of 1) 0 .normal)
    (P := fun s1 r1 s2 r2 s3 r3 => Res.isStatus .success r1 && Res.isStatus .success r2 && Res.isStatus .tstop r3 &&
      decide (s3.m.log.length = 4)) (by decide +kernel)
  simp only [Bool.and_eq_true, decide_eq_true_eq, Res.isStatus_iff] at h
  obtain ⟨⟨⟨rfl, rfl⟩, rfl⟩, h4⟩ := h
  have hs : Session decayBinCfg decayBin0 _ s2 := .call _ _ _ _ (.call _ _ _ _ .nil e1) e2
  have hn : ∀ c ∈ ([(10, 10, .solve (Bin.of 1) 0 .oneStep, .solved (.ok .success)),
      (10, 10, .solve (Bin.of 1) 0 .oneStep, .solved (.ok .success))] :
      List (Nat × Nat × Op (Bin 52) × Res 1 (Bin 52))), c.2.2.2 ≠ .solved (.ok .tstop) := by
    intro c hc
    rcases List.mem_cons.1 hc with rfl | hc
    · intro h; cases h
    · rcases List.mem_cons.1 hc with rfl | hc
      · intro h; cases h
      · cases hc
  have before : ∀ t : Bin 52, Between 0 t.v (Bin.of (1 / 300) : Bin 52).v → t.v ≤ (Bin.of (1 / 300) : Bin 52).v := by
    rintro t (⟨_, h⟩ | ⟨h1, h2⟩)
    · exact h
    · exact absurd (le_trans h1 h2) (not_le.2 (Bin.of_pos (by norm_num)))
  refine ⟨s2, s3, _, hs, hn, rfl, e3, h4, ?_, ?_⟩
  · exact c99_times_fl (K := ℚ) (decayBin 52) (.ss (Bin.of (1 / 100)) (Bin.of (1 / 100))) 3 (Bin.of (1 / 300)) (fun _ => 1)
      (fun _ => -1) _ s2 s3 10 10 _ _ hs hn e3
  · refine c99_beyond_stop_fl (K := ℚ) (decayBin 52) brokenBin (.ss (Bin.of (1 / 100)) (Bin.of (1 / 100))) 3 (Bin.of (1 / 300))
      ?_ ?_ (fun _ _ _ _ => rfl) (fun _ => 1) (fun _ => -1) _ s2 s3 10 10 _ _ hs hn e3
    · intro t y yp b ht
      funext i
      exact if_pos (before t ht)
    · intro t cj y yp rr b ht
      funext i j
      exact if_pos (before t ht)

end Verif.Props
