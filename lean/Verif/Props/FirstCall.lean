import Verif.Proofs.InitStep
import Verif.Proofs.Outcome
import Verif.Props.History

/-!
# The first call of `solve` (C38, C39, C43)

A first call is a call made while no step has been accepted (`getNumSteps s = 0`).  The public constructor sets the
starting time to 0; the theorems of the first part hold for any state.
-/

set_option autoImplicit false
set_option linter.unusedSectionVars false
set_option linter.unusedSimpArgs false
set_option linter.unusedVariables false

namespace Verif.Props

open Verif Verif.Spec

universe u v

section
variable {ν : Type v} {n q : Nat} {K : Type u} [Scalar K]

/-- Nothing has been integrated or evaluated: the problem memory with the log of all user calls, all counters, the
record of attempts and accepted points, the history array, the internal time, the solution vectors (part of the problem
memory), the caller's variable, the time returned last and the stop time are as before. -/
structure NothingDone (s s' : State ν n q K) : Prop where
  log : s'.m = s.m
  cnt : s'.cnt = s.cnt
  nge : s'.r.nge = s.r.nge
  atts : s'.g = s.g
  history : s'.h = s.h
  time : getCurrentTime s' = getCurrentTime s
  tret : s'.tret = s.tret
  tretlast : s'.tretlast = s.tretlast
  tstop : s'.tstop = s.tstop

theorem begun_eq (s : State ν n q K) (tout : K) (task : Task) :
    begun s tout task = { s with r := { s.r with toutc := if task = .normal then tout else s.r.toutc, taskc := task } } := by
  unfold begun
  split <;> rfl

/-- The first-call block rejects: the whole call does. -/
theorem rejected_of {cfg : Cfg ν n q K} {rf sf : Nat} {s s' : State ν n q K} {tout : K} {task : Task} {e : Err}
    (h0 : s.cnt.nst = 0) (h : firstCall cfg (begun s tout task) tout = .ret s' (.error e)) :
    solve cfg rf sf s tout task = .ret s' (.error (.ida .illegalInput)) ∧ NothingDone s s' := by
  have he := firstCall_error h
  subst he
  refine ⟨by rw [solve_eq, if_pos h0, h]; rfl, ?_⟩
  have hi : ∀ s : State ν n q K, NothingDone s (initialSetup cfg s) := by
    intro s; unfold initialSetup; split <;> exact ⟨rfl, rfl, rfl, rfl, rfl, rfl, rfl, rfl, rfl⟩
  have hb : NothingDone s (initialSetup cfg (begun s tout task)) := by
    have := hi (begun s tout task)
    rw [begun_eq] at this ⊢
    exact ⟨this.1, this.2, this.3, this.4, this.5, this.6, this.7, this.8, this.9⟩
  rcases firstCall_cases h with ⟨-, h, -⟩ | ⟨-, h, -⟩ | ⟨hh, -, -, -, ⟨-, h, -⟩ | ⟨s1, -, -, h⟩⟩
  · subst h; exact hb
  · subst h; exact ⟨hb.1, hb.2, hb.3, hb.4, hb.5, hb.6, hb.7, hb.8, hb.9⟩
  · subst h; exact ⟨hb.1, hb.2, hb.3, hb.4, hb.5, hb.6, hb.7, hb.8, hb.9⟩
  · cases h

theorem tn_setup (cfg : Cfg ν n q K) (s : State ν n q K) (tout : K) (task : Task) :
    (initialSetup cfg (begun s tout task)).e.tn = s.e.tn := by
  rw [(initialSetup_same cfg _).tn, (begun_same s tout task).2.2.2.e]

/-- **C38, too close.** A first call whose `tout` equals the starting time or is within roundoff of it is rejected, and
nothing is done. -/
theorem c38_too_close (cfg : Cfg ν n q K) (rf sf : Nat) (s : State ν n q K) (tout : K) (task : Task)
    (h0 : getNumSteps s = 0)
    (h : Scalar.eqb (Scalar.abs (tout - getCurrentTime s)) 0 = true ∨
      Scalar.lt (Scalar.abs (tout - getCurrentTime s))
        (Scalar.two * Scalar.eps * (Scalar.abs (getCurrentTime s) + Scalar.abs tout)) = true) :
    ∃ s', solve cfg rf sf s tout task = .ret s' (.error (.ida .illegalInput)) ∧ NothingDone s s' := by
  have htc : tooClose (initialSetup cfg (begun s tout task)) tout = true := by
    unfold tooClose
    rw [tn_setup]
    simp only [Bool.or_eq_true]
    exact h
  refine ⟨initialSetup cfg (begun s tout task), rejected_of h0 (e := .ida .illegalInput) ?_⟩
  unfold firstCall
  simp only [htc, if_true]

/-- **C38, wrong way.** A first call with a user step that points away from `tout` is rejected, and nothing is done. -/
theorem c38_wrong_way (cfg : Cfg ν n q K) (rf sf : Nat) (s : State ν n q K) (tout : K) (task : Task)
    (h0 : getNumSteps s = 0) (hin : Scalar.eqb cfg.hin 0 = false)
    (h : Scalar.lt ((tout - getCurrentTime s) * cfg.hin) 0 = true) :
    ∃ s', solve cfg rf sf s tout task = .ret s' (.error (.ida .illegalInput)) ∧ NothingDone s s' := by
  cases htc : tooClose (initialSetup cfg (begun s tout task)) tout with
  | true =>
    refine ⟨initialSetup cfg (begun s tout task), rejected_of h0 (e := .ida .illegalInput) ?_⟩
    unfold firstCall
    simp only [htc, if_true]
  | false =>
    have hw : wrongWay cfg { initialSetup cfg (begun s tout task) with c.hh := cfg.hin } tout = true := by
      unfold wrongWay Scalar.neb
      show (!Scalar.eqb cfg.hin 0 && Scalar.lt ((tout - (initialSetup cfg (begun s tout task)).e.tn) * cfg.hin) 0) = true
      rw [tn_setup, hin]
      exact h
    refine ⟨{ initialSetup cfg (begun s tout task) with c.hh := cfg.hin }, rejected_of h0 (e := .ida .illegalInput) ?_⟩
    unfold firstCall
    simp only [htc, if_false, Bool.false_eq_true, hw, if_true]

end

section
variable {ν : Type v} {n q : Nat} {K : Type u} [Field K] [LinearOrder K] [IsStrictOrderedRing K] [ExactParams K]
  [EpsLaws K]

/-- **C38, stop time behind.** A first call with a stop time at the starting time or on the other side of it than `tout`
is rejected, and nothing is done. -/
theorem c38_stop_behind (cfg : Cfg ν n q K) (hm : 0 ≤ cfg.hmaxInv) (rf sf : Nat) (s : State ν n q K) (tout ts : K)
    (task : Task) (h0 : getNumSteps s = 0) (hts : s.tstop = some ts)
    (h : (ts - getCurrentTime s) * (tout - getCurrentTime s) ≤ 0) :
    ∃ s', solve cfg rf sf s tout task = .ret s' (.error (.ida .illegalInput)) ∧ NothingDone s s' := by
  cases htc : tooClose (initialSetup cfg (begun s tout task)) tout with
  | true =>
    refine ⟨initialSetup cfg (begun s tout task), rejected_of h0 (e := .ida .illegalInput) ?_⟩
    unfold firstCall
    simp only [htc, if_true]
  | false =>
    cases hw : wrongWay cfg (initialSetup cfg (begun s tout task)) tout with
    | true =>
      refine ⟨{ initialSetup cfg (begun s tout task) with c.hh := cfg.hin }, rejected_of h0 (e := .ida .illegalInput) ?_⟩
      have hw' : wrongWay cfg { initialSetup cfg (begun s tout task) with c.hh := cfg.hin } tout = true := hw
      unfold firstCall
      simp only [htc, if_false, Bool.false_eq_true, hw', if_true]
    | false =>
      have hw' : wrongWay cfg { initialSetup cfg (begun s tout task) with c.hh := cfg.hin } tout = false := hw
      have hts' : (initialSetup cfg (begun s tout task)).tstop = some ts := by
        rw [show (initialSetup cfg (begun s tout task)).tstop = (begun s tout task).tstop by
          unfold initialSetup; split <;> rfl, (begun_same s tout task).2.2.2.tstop, hts]
      obtain ⟨h3, -⟩ := firstStepSize_spec hm htc hw rfl
      have hstop : firstStop { initialSetup cfg (begun s tout task) with
          c.hh := firstStepSize cfg { initialSetup cfg (begun s tout task) with c.hh := cfg.hin } tout
            (Scalar.abs (tout - (initialSetup cfg (begun s tout task)).e.tn)) } = none := by
        have h3' : 0 < (tout - (initialSetup cfg (begun s tout task)).e.tn) *
            firstStepSize cfg { initialSetup cfg (begun s tout task) with c.hh := cfg.hin } tout
            (Scalar.abs (tout - (initialSetup cfg (begun s tout task)).e.tn)) := h3
        generalize firstStepSize cfg { initialSetup cfg (begun s tout task) with c.hh := cfg.hin } tout
            (Scalar.abs (tout - (initialSetup cfg (begun s tout task)).e.tn)) = hh at h3'
        unfold firstStop
        simp only [hts', ex_le]
        have htn := tn_setup cfg s tout task
        rw [htn] at h3'
        have : (ts - (initialSetup cfg (begun s tout task)).e.tn) * hh ≤ 0 := by
          rw [htn]
          have h' : (ts - s.e.tn) * (tout - s.e.tn) ≤ 0 := h
          by_contra hc
          push Not at hc
          have h5 : 0 < ((ts - s.e.tn) * hh) * ((tout - s.e.tn) * hh) := mul_pos hc h3'
          have h6 : ((ts - s.e.tn) * hh) * ((tout - s.e.tn) * hh) = ((ts - s.e.tn) * (tout - s.e.tn)) * (hh * hh) := by ring
          rw [h6] at h5
          exact absurd h5 (not_lt.2 (mul_nonpos_of_nonpos_of_nonneg h' (mul_self_nonneg hh)))
        simp only [this, decide_true, if_true]
      have hfc : ∃ s', firstCall cfg (begun s tout task) tout = .ret s' (.error (.ida .illegalInput)) := by
        refine ⟨{ initialSetup cfg (begun s tout task) with
          c.hh := firstStepSize cfg { initialSetup cfg (begun s tout task) with c.hh := cfg.hin } tout
            (Scalar.abs (tout - (initialSetup cfg (begun s tout task)).e.tn)) }, ?_⟩
        unfold firstCall
        simp only [htc, if_false, Bool.false_eq_true, hw', hstop]
      obtain ⟨s', hfc⟩ := hfc
      exact ⟨s', rejected_of h0 hfc⟩

/-- **C38, the others are not.** If none of the three conditions holds, the call goes on to the first step: whenever it
returns, it has recorded an initial step size, and this points toward `tout`. -/
theorem c38_accepted (cfg : Cfg ν n q K) (hm : 0 ≤ cfg.hmaxInv) (rf sf : Nat) (s s' : State ν n q K) (tout : K)
    (task : Task) (r : Except Err Status) (h0 : getNumSteps s = 0)
    (h1 : |tout - getCurrentTime s| ≠ 0)
    (h2 : ¬ |tout - getCurrentTime s| < 2 * ExactParams.eps * (|getCurrentTime s| + |tout|))
    (h3 : cfg.hin = 0 ∨ 0 ≤ (tout - getCurrentTime s) * cfg.hin)
    (h4 : ∀ ts, s.tstop = some ts → 0 < (ts - getCurrentTime s) * (tout - getCurrentTime s))
    (h : solve cfg rf sf s tout task = .ret s' r) :
    0 < (tout - getCurrentTime s) * getActualInitStep s' := by
  have htc : tooClose (initialSetup cfg (begun s tout task)) tout = false := by
    unfold tooClose
    rw [tn_setup]
    simp only [Bool.or_eq_false_iff, ex_eqb, ex_lt, ex_abs, ex_two, ex_eps, decide_eq_false_iff_not]
    exact ⟨h1, h2⟩
  have hw : wrongWay cfg (initialSetup cfg (begun s tout task)) tout = false := by
    unfold wrongWay Scalar.neb
    rw [tn_setup]
    simp only [ex_eqb, ex_lt, Bool.and_eq_false_iff, Bool.not_eq_false', decide_eq_true_eq, decide_eq_false_iff_not, not_lt]
    exact h3
  obtain ⟨s0, hf, hm', hfe⟩ := solve_first h0 h
  have htn : s0.e.tn = s.e.tn := by rw [hf.e]
  have hts : (initialSetup cfg s0).tstop = s.tstop := by
    rw [show (initialSetup cfg s0).tstop = s0.tstop by unfold initialSetup; split <;> rfl, hf.tstop]
  have htn1 : (initialSetup cfg s0).e.tn = s.e.tn := by rw [(initialSetup_same cfg s0).tn, htn]
  have e1 : tooClose (initialSetup cfg s0) tout = tooClose (initialSetup cfg (begun s tout task)) tout := by
    unfold tooClose; rw [tn_setup, htn1]
  have e2 : wrongWay cfg (initialSetup cfg s0) tout = wrongWay cfg (initialSetup cfg (begun s tout task)) tout := by
    unfold wrongWay; rw [tn_setup, htn1]
  rw [← e1] at htc
  rw [← e2] at hw
  have key : ∀ s1, firstCall cfg s0 tout = .ret s1 (.ok ()) → 0 < (tout - s.e.tn) * s1.h0u := by
    intro s1 hfc
    rcases firstCall_cases hfc with ⟨-, -, h⟩ | ⟨-, -, h⟩ | ⟨hh, hh1, g1, g2, ⟨-, -, h⟩ | ⟨s2, hs1, hs', -⟩⟩
    · cases h
    · cases h
    · cases h
    obtain ⟨g3, -⟩ := firstStepSize_spec hm g1 g2 hh1
    rw [htn1] at g3
    have h0u : s1.h0u = s2.c.hh := by
      rw [hs']
      unfold firstReady
      simp only
      split
      · exact (rCheck1_same cfg _).2.2.2.2.2.2.2.2.2.2.1
      · rfl
    rw [h0u]
    unfold firstStop at hs1
    split at hs1
    · rename_i ts _
      split at hs1
      · cases hs1
      · rename_i hc
        cases hs1
        simp only [ex_le, decide_eq_true_eq, not_le] at hc
        obtain ⟨c, c1, c2, c3⟩ := clamp_spec (s := { initialSetup cfg s0 with c.hh := hh }) hc
        rw [c3]
        show 0 < (tout - s.e.tn) * (c * hh)
        rw [mul_left_comm]; exact mul_pos c1 g3
    · cases hs1; exact g3
  cases hfe with
  | rejected e g1 _ =>
    exfalso
    rcases firstCall_cases g1 with ⟨g, -, -⟩ | ⟨g, -, -⟩ | ⟨hh, hh1, _, _, ⟨g, -, -⟩ | ⟨s1, -, -, g⟩⟩
    · rw [htc] at g; cases g
    · rw [hw] at g; cases g
    · obtain ⟨g3, -⟩ := firstStepSize_spec hm htc hw hh1
      rw [htn1] at g3
      unfold firstStop at g
      split at g
      · rename_i ts hts1
        have hts2 : s.tstop = some ts := hts.symm.trans hts1
        have h5 := h4 ts hts2
        split at g
        · rename_i hc
          simp only [ex_le, decide_eq_true_eq] at hc
          have hc : (ts - s.e.tn) * hh ≤ 0 := by rw [← htn1]; exact hc
          have h5' : 0 < (ts - s.e.tn) * (tout - s.e.tn) := h5
          have h6 := mul_pos h5' g3
          have h7 : (ts - s.e.tn) * (tout - s.e.tn) * ((tout - s.e.tn) * hh) = (ts - s.e.tn) * hh * ((tout - s.e.tn) * (tout - s.e.tn)) := by ring
          rw [h7] at h6
          exact absurd h6 (not_lt.2 (mul_nonpos_of_nonpos_of_nonneg hc (mul_self_nonneg _)))
        · cases g
      · cases g
    · cases g
  | noStep s1 e g1 g2 _ _ _ =>
    show 0 < (tout - s.e.tn) * s'.h0u
    rw [g2.h0u]; exact key s1 g1
  | failed s1 s2 s3 e g1 g2 g3 g4 _ =>
    show 0 < (tout - s.e.tn) * s'.h0u
    rw [g4.h0u, step_h0u g3, g2.h0u]; exact key s1 g1
  | stepped s1 s2 s3 g1 g2 g3 g4 =>
    show 0 < (tout - s.e.tn) * s'.h0u
    have hp : 0 < s3.cnt.nst := by
      rw [(step_quiet g3).2.1 rfl]; omega
    rw [ends_h0u hp g4, step_h0u g3, g2.h0u]; exact key s1 g1

/-! ## C39 -/

/-- The norm of the initial derivative, with the weights of the initial values: root mean square of `yp0 i / w i`. -/
def initialNorm (cfg : Cfg ν n q K) (yy0 yp0 : Vec n K) : K :=
  wrmsNorm cfg.id yp0 (cfg.ewtSet yy0 (fun _ => 0)) cfg.suppressalg

/-- **C39.** The first call on a new object, with no user step: if any step is attempted, then the first attempt has the
size reported by `get_actual_init_step`; it is nonzero and points from the starting time 0 toward `tout`; its size is at
most a thousandth of the distance, and at most 1/2 divided by the norm of `y'(0)` if this exceeds 2 divided by a
thousandth of the distance.  Without a maximum step and a stop time the applicable bound is attained. -/
theorem c39_initial_step (cfg : Cfg ν n q K) (hl : NlsLegal cfg) (hm1 : 1 ≤ cfg.maxord) (hm : 0 ≤ cfg.hmaxInv)
    (hin : cfg.hin = 0) (rf sf : Nat) (nls0 : ν) (yy0 yp0 : Vec n K) (tstop : Option K) (s' : State ν n q K)
    (tout tret : K) (task : Task) (r : Res n K)
    (h : exec cfg rf sf { State.new nls0 yy0 yp0 with tstop := tstop } (.solve tout tret task) = some (s', r))
    (l : Att n K) (p : List (Att n K)) (hat : s'.g.atts = p ++ [l]) :
    l.hh = getActualInitStep s' ∧ 0 < tout * l.hh ∧ |l.hh| ≤ |tout| / 1000 ∧
    (2 / (|tout| / 1000) < initialNorm cfg yy0 yp0 → |l.hh| ≤ 1 / 2 / initialNorm cfg yy0 yp0) ∧
    (cfg.hmaxInv = 0 → tstop = none →
      |l.hh| = if 2 / (|tout| / 1000) < initialNorm cfg yy0 yp0 then 1 / 2 / initialNorm cfg yy0 yp0 else |tout| / 1000) := by
  rcases first_call_atts hl hm1 hm h with h1 | ⟨later, first, l', h1, h2, -, s0, s1, hf, hfc, h3, h4⟩
  · rw [h1] at hat; simp at hat
  have hl' : l' = l := by
    rw [hat, ← List.append_assoc] at h1
    exact (List.append_inj' h1 rfl).2 |> fun h => by simpa using h.symm
  subst hl'
  obtain ⟨a1, a2, a3, a4⟩ := firstCall_auto hm hin hfc
  have htn : s0.e.tn = 0 := by rw [hf.e]; rfl
  have hnorm : ypNorm0 cfg s0 = initialNorm cfg yy0 yp0 := by
    unfold ypNorm0 initialNorm initialSetup
    have e1 : s0.setupDone = false := by rw [hf.setupDone]; rfl
    rw [if_neg (by rw [e1]; decide)]
    have e2 : s0.h = (State.new (q := q) nls0 yy0 yp0).h := hf.h
    have e3 : s0.e = (State.new (q := q) nls0 yy0 yp0).e := hf.e
    simp only [e2, e3]
    rfl
  obtain ⟨b1, b2, b3, b4⟩ := autoSize_spec (cfg := cfg) a2
  rw [htn, sub_zero] at b2 b3
  rw [hnorm] at b3
  have hst := firstStep_start hm (CtlInv.of_frame hm ((ReachOk.new (cfg := cfg) nls0 yy0 yp0 tstop).reach.ctl hl hm) hf)
    (by rw [hf.cnt]; rfl) hfc (Frame.refl _)
  have hpos : 0 < tout * l'.hh := by
    have := hst.2.1
    rw [hst.2.2.2.2.2, htn, sub_zero] at this
    rw [h3]; exact this
  refine ⟨by rw [h3]; exact a1.symm.trans h4.symm, hpos, by rw [h3]; exact a3.trans b2,
    fun hb => by rw [h3]; exact a3.trans (b3 hb).le, fun hm0 hts => ?_⟩
  have h5 := a4 hm0 (by rw [hf.tstop]; exact hts)
  rw [h3, h5]
  split
  · rename_i hb; exact b3 hb
  · rename_i hb
    unfold autoSize
    rw [htn, sub_zero, hnorm, if_neg hb]

end

/-! ## C43 -/

section
variable {ν : Type v} {n q : Nat} {K : Type u} [Scalar K]

theorem begun_begun (s : State ν n q K) (t1 t2 : K) (k1 k2 : Task) (h : k2 = .normal ∨ k1 = .oneStep) :
    begun (begun s t1 k1) t2 k2 = begun s t2 k2 := by
  rw [begun_eq, begun_eq, begun_eq]
  rcases h with rfl | rfl <;> simp

theorem initialSetup_done {cfg : Cfg ν n q K} {s : State ν n q K} (h : s.setupDone = true) : initialSetup cfg s = s := by
  unfold initialSetup; rw [if_pos h]

theorem initialSetup_setupDone (cfg : Cfg ν n q K) (s : State ν n q K) : (initialSetup cfg s).setupDone = true := by
  unfold initialSetup; split
  · assumption
  · rfl

/-- A first-call block that is not turned down for `tout` does not depend on the step size left behind, nor on whether the
setup has been done before. -/
theorem firstCall_again (cfg : Cfg ν n q K) (s : State ν n q K) (x tout : K) (hc : tooClose s tout = false) :
    firstCall cfg { initialSetup cfg s with c.hh := x } tout = firstCall cfg s tout := by
  have h1 : initialSetup cfg { initialSetup cfg s with c.hh := x } = { initialSetup cfg s with c.hh := x } :=
    initialSetup_done (initialSetup_setupDone cfg s)
  have htn : (initialSetup cfg s).e.tn = s.e.tn := (initialSetup_same cfg s).tn
  have h2 : tooClose { initialSetup cfg s with c.hh := x } tout = false := by
    unfold tooClose at hc ⊢
    show (Scalar.eqb (Scalar.abs (tout - (initialSetup cfg s).e.tn)) 0 || Scalar.lt (Scalar.abs (tout - (initialSetup cfg s).e.tn)) (Scalar.two * Scalar.eps * (Scalar.abs (initialSetup cfg s).e.tn + Scalar.abs tout))) = false
    rw [htn]; exact hc
  have h3 : tooClose (initialSetup cfg s) tout = false := h2
  unfold firstCall
  rw [h1]
  simp only [h2, h3, if_false, Bool.false_eq_true]

/-- **C43 (partial).** A first call that is rejected for its input (C38) can be repeated: a second call - with an
acceptable `tout` - does exactly what it would have done without the first one (same result, same state).

Missing: first calls that fail after the first-call block (`TooMuchAccuracy`, a failed step): there the claim is false
(`c43_refuted`).  (The restriction on the modes only excludes a normal-mode call followed by a one-step call, for which
the unused field `toutc` differs.) -/
theorem c43_rejected_partial (cfg : Cfg ν n q K) (rf sf : Nat) (s s1 : State ν n q K) (t1 t2 : K) (k1 k2 : Task)
    (hk : k2 = .normal ∨ k1 = .oneStep) (h0 : getNumSteps s = 0) (e : Err)
    (h1 : firstCall cfg (begun s t1 k1) t1 = .ret s1 (.error e))
    (h2 : Scalar.eqb (Scalar.abs (t2 - getCurrentTime s)) 0 = false)
    (h3 : Scalar.lt (Scalar.abs (t2 - getCurrentTime s))
        (Scalar.two * Scalar.eps * (Scalar.abs (getCurrentTime s) + Scalar.abs t2)) = false) :
    solve cfg rf sf s t1 k1 = .ret s1 (.error (.ida .illegalInput)) ∧
    solve cfg rf sf s1 t2 k2 = solve cfg rf sf s t2 k2 := by
  obtain ⟨h4, h5⟩ := rejected_of (rf := rf) (sf := sf) h0 h1
  refine ⟨h4, ?_⟩
  have h6 : ∃ x, s1 = { initialSetup cfg (begun s t1 k1) with c.hh := x } := by
    rcases firstCall_cases h1 with ⟨-, h, -⟩ | ⟨-, h, -⟩ | ⟨hh, -, -, -, ⟨-, h, -⟩ | ⟨s1, -, -, h⟩⟩
    · exact ⟨(initialSetup cfg (begun s t1 k1)).c.hh, h⟩
    · exact ⟨_, h⟩
    · exact ⟨_, h⟩
    · cases h
  obtain ⟨x, hx⟩ := h6
  have h7 : begun s1 t2 k2 = { initialSetup cfg (begun s t2 k2) with c.hh := x } := by
    have hb : ∀ s : State ν n q K, begun { initialSetup cfg s with c.hh := x } t2 k2 =
        { initialSetup cfg (begun s t2 k2) with c.hh := x } := by
      intro s
      rw [begun_eq, begun_eq]
      unfold initialSetup
      split <;> rfl
    rw [hx, hb, begun_begun _ _ _ _ _ hk]
  have hc : tooClose (begun s t2 k2) t2 = false := by
    have : (begun s t2 k2).e.tn = s.e.tn := by rw [(begun_same s t2 k2).2.2.2.e]
    unfold tooClose
    rw [this]
    simp only [Bool.or_eq_false_iff]
    exact ⟨h2, h3⟩
  have hn : s1.cnt.nst = 0 := by rw [h5.cnt]; exact h0
  rw [solve_eq, solve_eq, if_pos hn, if_pos (show s.cnt.nst = 0 from h0), h7, firstCall_again _ _ _ _ hc]

end

/-! ## Concrete calls -/

section
open Verif.Witness

/-- Two calls evaluated together. -/
theorem exec_two {ν : Type v} {n q : Nat} {K : Type u} [Scalar K] {cfg : Cfg ν n q K} {rf sf : Nat} {a b : Op K}
    {s : State ν n q K} {P : State ν n q K → Res n K → State ν n q K → Res n K → Bool}
    (h : ((exec cfg rf sf s a).bind fun x => (exec cfg rf sf x.1 b).map fun y => P x.1 x.2 y.1 y.2) = some true) :
    ∃ s1 r1 s2 r2, exec cfg rf sf s a = some (s1, r1) ∧ exec cfg rf sf s1 b = some (s2, r2) ∧ P s1 r1 s2 r2 = true := by
  cases h1 : exec cfg rf sf s a with
  | none => rw [h1] at h; cases h
  | some x =>
    rw [h1] at h
    simp only [Option.bind_some] at h
    cases h2 : exec cfg rf sf x.1 b with
    | none => rw [h2] at h; cases h
    | some y =>
      rw [h2] at h
      simp only [Option.map_some, Option.some.injEq] at h
      exact ⟨x.1, x.2, y.1, y.2, rfl, h2, h⟩

/-- **C43: refutation.** `y(0) = 1`, `y'(0) = -1`.  The first call fails (unrecoverable error of the nonlinear solver);
the same call again starts with the predicted derivative `-1/2` instead of `-1`, and with the predicted value `3/4`
instead of `1/2` (which is what the first one had predicted). -/
theorem c43_refuted : ∃ (s1 s2 : State Nat 1 0 ℚ) (r1 r2 : Res 1 ℚ),
    exec (scriptCfg [unrec]) 10 10 (State.new 0 (fun _ => 1) (fun _ => -1)) (.solve 500 0 .oneStep) = some (s1, r1) ∧
    getNumSteps s1 = 0 ∧ (s1.g.atts.map fun x => (x.hh, x.pred 0, x.predp 0)) = [(1 / 2, 1 / 2, -1)] ∧
    exec (scriptCfg [unrec]) 10 10 s1 (.solve 500 0 .oneStep) = some (s2, r2) ∧
    (s2.g.atts.map fun x => (x.hh, x.pred 0, x.predp 0)) = [(1 / 2, 3 / 4, -1 / 2), (1 / 2, 1 / 2, -1)] := by
  obtain ⟨s1, r1, s2, r2, h1, h2, h3⟩ := exec_two (cfg := scriptCfg [unrec]) (rf := 10) (sf := 10)
    (a := .solve 500 0 .oneStep) (b := .solve 500 0 .oneStep) (s := State.new 0 (fun _ => 1) (fun _ => -1))
    (P := fun (s1 : State Nat 1 0 ℚ) _ s2 _ => decide (getNumSteps s1 = 0) &&
      decide ((s1.g.atts.map fun x => (x.hh, x.pred 0, x.predp 0)) = [(1 / 2, 1 / 2, -1)]) &&
      decide ((s2.g.atts.map fun x => (x.hh, x.pred 0, x.predp 0)) = [(1 / 2, 3 / 4, -1 / 2), (1 / 2, 1 / 2, -1)]))
    (by decide +kernel)
  simp only [Bool.and_eq_true, decide_eq_true_eq] at h3
  exact ⟨s1, s2, r1, r2, h1, h3.1.1, h3.1.2, h2, h3.2⟩

/-- C38: `tout = 0` on a new object is rejected; the caller's variable keeps its 7 and the residual is not called. -/
example : ((run decayCfg 10 10 [.solve 0 7 .normal] decay0).map fun p =>
    (p.2.map fun | .solved (.error e) => decide (e = .ida .illegalInput) | _ => false, p.1.m.log.length, p.1.tret)) =
      some ([true], 0, 7) := by decide +kernel

/-- C38: stop time 1, `tout = -1`. -/
example : ((run decayCfg 10 10 [.solve (-1) 7 .normal] { decay0 with tstop := some 1 }).map fun p =>
    (p.2.map fun | .solved (.error e) => decide (e = .ida .illegalInput) | _ => false, p.1.m.log.length, p.1.tret)) =
      some ([true], 0, 7) := by decide +kernel

/-- C38: user step -1, `tout = 1`. -/
example : ((run { decayCfg with hin := -1 } 10 10 [.solve 1 7 .normal] decay0).map fun p =>
    (p.2.map fun | .solved (.error e) => decide (e = .ida .illegalInput) | _ => false, p.1.m.log.length, p.1.tret)) =
      some ([true], 0, 7) := by decide +kernel

/-- C39: the norm of `y'(0)` is 50, so the step toward 1 is 1/1000 of the distance and the step toward 100 is 1/2/50. -/
example : initialNorm decayCfg (fun _ => 1) (fun _ => -1) = 50 ∧
    ((run decayCfg 10 10 [.solve 1 0 .oneStep] decay0).map fun p => (p.1.g.atts.map fun x => x.hh, getActualInitStep p.1)) =
      some ([1 / 1000], 1 / 1000) ∧
    ((run decayCfg 10 10 [.solve 100 0 .oneStep] decay0).map fun p => (p.1.g.atts.map fun x => x.hh, getActualInitStep p.1)) =
      some ([1 / 100], 1 / 100) ∧
    ((run decayCfg 10 10 [.solve (-1) 0 .oneStep] decay0).map fun p => (p.1.g.atts.map fun x => x.hh, getActualInitStep p.1)) =
      some ([-1 / 1000], -1 / 1000) := by
  refine ⟨by decide +kernel, by decide +kernel, by decide +kernel, by decide +kernel⟩

/-- C43: a rejected call followed by a good one, and the good one alone. -/
example : ((run decayCfg 10 10 [.solve 0 7 .normal, .solve 1 0 .oneStep] decay0).map fun p => (p.1.g.atts.map fun x => (x.hh, x.pred 0, x.predp 0), p.1.tret)) =
    ((run decayCfg 10 10 [.solve 1 0 .oneStep] decay0).map fun p => (p.1.g.atts.map fun x => (x.hh, x.pred 0, x.predp 0), p.1.tret)) := by
  decide +kernel

end

end Verif.Props
