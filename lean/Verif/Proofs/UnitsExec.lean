import Verif.Proofs.UnitsFirst
import Verif.Proofs.UnitsDky
import Verif.Proofs.Nls
import Verif.Proofs.Reach

/-! # Change of units: histories -/

set_option autoImplicit false
set_option linter.unusedSectionVars false
set_option linter.unusedSimpArgs false
set_option linter.unusedVariables false

namespace Verif

universe u v

section
variable {n q : Nat} {K : Type u} [Field K] [LinearOrder K] [IsStrictOrderedRing K] [ExactParams K]

namespace Change

variable {C : Change n K} {cfg cfg' : Cfg (Newton (Vec n K)) n q K}

theorem begun_conv (J : Junk n K) (raw : Bool) (s : St n q K) (tout : K) (task : Task) :
    begun (C.st raw J s) (C.σ * tout) task = C.st raw J (begun s tout task) := by
  unfold begun
  split <;> rfl

theorem perfReset_conv (J : Junk n K) (raw : Bool) (s : St n q K) : perfReset (C.st raw J s) = C.st raw J (perfReset s) := rfl

/-- After a first call was accepted, `illegalInput` is returned only if steps have been taken. -/
theorem loop_illegal (hm : 0 < cfg.mxstep) {rf sf : Nat} {tout : K} {task : Task} {s s' : St n q K} (hn : s.cnt.nst = 0)
    (h : solveLoop cfg rf tout task sf s 0 = .ret s' (.error (.ida .illegalInput))) : 0 < s'.cnt.nst := by
  cases sf with
  | zero => cases h
  | succ sf =>
    unfold solveLoop Flow.andThen solvePass at h
    have hp := preStep_cases cfg s 0
    cases hpre : preStep cfg s 0 with
    | panic => rw [hpre] at h; cases h
    | diverge => rw [hpre] at h; cases h
    | ret s1 r1 =>
      rw [hpre] at h hp
      dsimp only at h
      cases h
      cases hp with
      | limit h1 h2 => omega
      | weights _ _ h3 => omega
    | go s1 =>
      rw [hpre] at h
      dsimp only at h
      cases hstep : step cfg s1 with
      | panic => rw [hstep] at h; cases h
      | diverge => rw [hstep] at h; cases h
      | ret s2 r2 =>
        rw [hstep] at h
        cases r2 with
        | error e =>
          dsimp only at h
          cases hsf : stepFailed s2 e with
          | go s4 => exact absurd hsf stepFailed_go
          | panic => rw [hsf] at h; cases h
          | diverge => rw [hsf] at h; cases h
          | ret s4 r4 =>
            rw [hsf] at h
            cases h
            obtain ⟨hfr, he⟩ := stepFailed_frame hsf
            have := step_error_isStepFailure hstep
            cases he
            exact absurd this (by decide)
        | ok u =>
          dsimp only at h
          have hn2 := step_nst hstep
          have hpo := postStep_ok (cfg := cfg) (rf := rf) (tout := tout) (task := task) hn2
          cases hps : postStep cfg rf s2 tout task with
          | panic => rw [hps] at h; cases h
          | diverge => rw [hps] at h; cases h
          | go s4 =>
            rw [hps] at h
            dsimp only at h
            obtain ⟨hm3, hr3⟩ := hpo.go s4 hps
            have hn4 := micros_nst_pos hm3 hn2
            cases solveLoop_ends sf hn4 hr3 h with
            | clean hm _ => exact micros_nst_pos hm hn4
            | failed s1 s2 e h1 h2 h3 he =>
              cases he
              exact absurd h2.isStepFailure (by decide)
          | ret s4 r4 =>
            rw [hps] at h
            cases h
            exact micros_nst_pos (hpo.ret _ _ hps).1 hn2

/-- A call of `solve` in a later state. -/
theorem solve_later (hc : C.Cfgs cfg cfg') (rf sf : Nat) {s s' : St n q K} (h : C.R s s') (hn : s.cnt.nst ≠ 0) (hh : s.c.hh ≠ 0)
    (tout : K) (task : Task) : ORel C.R (solve cfg rf sf s tout task) (solve cfg' rf sf s' (C.σ * tout) task) := by
  have hb : (begun s tout task).c = s.c ∧ (begun s tout task).cnt = s.cnt := by unfold begun; split <;> exact ⟨rfl, rfl⟩
  rw [solve_eq, solve_eq, h.cnt, if_neg hn, if_neg hn]
  refine FRel.andThen ?_ fun s s' h => solveLoop_conv hc rf tout task sf 0 h
  obtain ⟨J, rfl, ht, hL⟩ := h
  refine laterCall_conv hc rf ⟨J, ?_, ?_, ?_⟩ ?_ tout task
  · rw [begun_conv, perfReset_conv]
  · unfold perfReset begun; split <;> exact ht
  · intro _
    have := hL hn
    unfold perfReset begun; split <;> exact this
  · show (begun s tout task).c.hh ≠ 0
    rw [hb.1]; exact hh

/-- A call of `solve` before the first step. -/
theorem solve_first_conv (hc : C.Cfgs cfg cfg') (hm : 0 < cfg.mxstep) (hs : cfg.suppressalg = false) (hin : cfg.hin = 0)
    (hσ : |C.σ| = 1 ∨ ExactLaws K) (rf sf : Nat) {s s' : St n q K} (h : C.RawRel s s') (tout : K) (task : Task) :
    (∃ s1 s1', solve cfg rf sf s tout task = .ret s1 (.error (.ida .illegalInput)) ∧
      solve cfg' rf sf s' (C.σ * tout) task = .ret s1' (.error (.ida .illegalInput)) ∧ C.RawRel s1 s1') ∨
    (ORel C.R (solve cfg rf sf s tout task) (solve cfg' rf sf s' (C.σ * tout) task) ∧
      ∀ s1, solve cfg rf sf s tout task = .ret s1 (.error (.ida .illegalInput)) → s1.cnt.nst ≠ 0) := by
  obtain ⟨J, rfl, hr⟩ := h
  have hb : (begun s tout task).tstop = s.tstop ∧ (begun s tout task).cnt = s.cnt := by unfold begun; split <;> exact ⟨rfl, rfl⟩
  have h1 : C.RawRel (begun s tout task) (begun (C.st true J s) (C.σ * tout) task) :=
    ⟨J, begun_conv J true s tout task, by rw [hb.2]; exact hr.nst, by rw [hb.1]; exact hr.stop⟩
  have e0 : (C.st true J s).cnt.nst = 0 := hr.nst
  rw [solve_eq, solve_eq, if_pos hr.nst, if_pos e0]
  rcases firstCall_conv hc hs hin hσ h1 tout with ⟨s1, s1', k1, k2, hR⟩ | ⟨s1, s1', k1, k2, hR, hz⟩
  · left
    rw [k1, k2]
    exact ⟨s1, s1', rfl, rfl, hR⟩
  · right
    rw [k1, k2]
    have hR2 : C.R (perfReset s1) (perfReset s1') := by
      obtain ⟨J, rfl, ht, hL⟩ := hR
      exact ⟨J, rfl, ht, hL⟩
    refine ⟨solveLoop_conv hc rf tout task sf 0 hR2, ?_⟩
    intro s2 h2
    have := loop_illegal hm (s := perfReset s1) hz h2
    omega

/-- Corresponding states between calls. -/
def Pair (C : Change n K) (s s' : St n q K) : Prop := C.RawRel s s' ∨ (C.R s s' ∧ s.cnt.nst ≠ 0)

theorem setRet_raw {s s' : St n q K} (h : C.RawRel s s') (t : K) : C.RawRel { s with tret := t } { s' with tret := C.σ * t } := by
  obtain ⟨J, rfl, hr⟩ := h
  exact ⟨J, rfl, hr.nst, hr.stop⟩

theorem setRet_R {s s' : St n q K} (h : C.R s s') (t : K) : C.R { s with tret := t } { s' with tret := C.σ * t } :=
  h.map (f := fun s => { s with tret := t }) (g := fun s => { s with tret := C.σ * t }) (fun J => rfl) rfl rfl rfl rfl

/-- Corresponding observations. -/
def Near (C : Change n K) (s s' : St n q K) : Prop := C.RawRel s s' ∨ C.R s s'

theorem Near.same (hc : C.Cfgs cfg cfg') {s s' : St n q K} (h : C.Near s s') : C.Same cfg cfg' s s' := by
  have hi : ∀ raw J, getNumNonlinSolvIters cfg' (C.st raw J s) = getNumNonlinSolvIters cfg s := by
    intro raw J
    obtain ⟨fuel, e1, e2⟩ := hc.nls
    unfold getNumNonlinSolvIters
    rw [e1, e2]; rfl
  rcases h with ⟨J, rfl, _⟩ | ⟨J, rfl, _⟩
  · exact ⟨rfl, rfl, rfl, rfl, rfl, rfl, rfl, rfl, rfl, rfl, rfl, rfl, rfl, rfl, hi _ _, rfl, rfl, rfl, rfl⟩
  · exact ⟨rfl, rfl, rfl, rfl, rfl, rfl, rfl, rfl, rfl, rfl, rfl, rfl, rfl, rfl, hi _ _, rfl, rfl, rfl, rfl⟩

/-- One public call. -/
theorem exec_conv (hc : C.Cfgs cfg cfg') (hm : 0 < cfg.mxstep) (hs : cfg.suppressalg = false) (hin : cfg.hin = 0)
    (hσ : |C.σ| = 1 ∨ ExactLaws K) (rf sf : Nat) {s s' : St n q K} (h : C.Pair s s') (hh : s.cnt.nst ≠ 0 → s.c.hh ≠ 0)
    {op : Op K} (ho : legit s op) :
    (exec cfg rf sf s op = none ∧ exec cfg' rf sf s' (C.op op) = none) ∨
    (∃ s1 s1' r, exec cfg rf sf s op = some (s1, r) ∧ exec cfg' rf sf s' (C.op op) = some (s1', C.result op r) ∧
      C.Near s1 s1' ∧ ((s1.cnt.nst = 0 → r = .solved (.error (.ida .illegalInput))) → C.Pair s1 s1')) := by
  have fin : ∀ {s1 s1' : St n q K} {r : Except Err Status}, C.R s1 s1' →
      (r = .error (.ida .illegalInput) → s1.cnt.nst ≠ 0) →
      C.Near s1 s1' ∧ ((s1.cnt.nst = 0 → (Res.solved r : Res n K) = .solved (.error (.ida .illegalInput))) → C.Pair s1 s1') := by
    intro s1 s1' r hR hz
    refine ⟨Or.inr hR, fun h0 => Or.inr ⟨hR, fun hz0 => ?_⟩⟩
    have h1 := h0 hz0
    cases h1
    exact hz rfl hz0
  cases op with
  | solve tout tret task =>
    unfold exec
    simp only [Change.op]
    rcases h with h | ⟨h, hn⟩
    · rcases solve_first_conv hc hm hs hin hσ rf sf (setRet_raw h tret) tout task with ⟨s1, s1', k1, k2, hR⟩ | ⟨hO, hz⟩
      · rw [k1, k2]
        exact Or.inr ⟨s1, s1', _, rfl, rfl, Or.inl hR, fun _ => Or.inl hR⟩
      · revert hO hz
        generalize solve cfg rf sf { s with tret := tret } tout task = o
        generalize solve cfg' rf sf { s' with tret := C.σ * tret } (C.σ * tout) task = o'
        intro hO hz
        cases hO with
        | panic => exact Or.inl ⟨rfl, rfl⟩
        | diverge => exact Or.inl ⟨rfl, rfl⟩
        | @ret s1 s1' r hR => exact Or.inr ⟨s1, s1', _, rfl, rfl, fin hR fun hr => hz s1 (by rw [hr])⟩
    · have hO := solve_later hc rf sf (setRet_R h tret) hn (hh hn) tout task
      have hz : ∀ s1, solve cfg rf sf { s with tret := tret } tout task = .ret s1 (.error (.ida .illegalInput)) → s1.cnt.nst ≠ 0 := by
        intro s1 h1
        have hp : 0 < ({ s with tret := tret } : St n q K).cnt.nst := Nat.pos_of_ne_zero hn
        cases solve_ends h1 with
        | clean hm _ => exact (micros_nst_pos hm hp).ne'
        | failed s1 s2 e h1 h2 h3 he =>
          cases he
          exact absurd h2.isStepFailure (by decide)
      revert hO hz
      generalize solve cfg rf sf { s with tret := tret } tout task = o
      generalize solve cfg' rf sf { s' with tret := C.σ * tret } (C.σ * tout) task = o'
      intro hO hz
      cases hO with
      | panic => exact Or.inl ⟨rfl, rfl⟩
      | diverge => exact Or.inl ⟨rfl, rfl⟩
      | @ret s1 s1' r hR => exact Or.inr ⟨s1, s1', _, rfl, rfl, fin hR fun hr => hz s1 (by rw [hr])⟩
  | getSolution t =>
    rcases h with h | ⟨h, hn⟩
    · obtain ⟨J, rfl, hr⟩ := h
      obtain ⟨_, _, _, h⟩ := ho hr.nst
      cases h
    · unfold exec
      simp only [Change.op]
      have hO := getSolution_conv h t
      have hcnt : ∀ s1 r, getSolution s t = .ret s1 r → s1.cnt = s.cnt := by
        intro s1 r h1
        unfold getSolution at h1
        split at h1
        · cases h1; rfl
        · dsimp only at h1
          split at h1
          · cases h1; rfl
          · cases h1
      revert hO hcnt
      generalize getSolution s t = o
      generalize getSolution s' (C.σ * t) = o'
      intro hO hcnt
      cases hO with
      | panic => exact Or.inl ⟨rfl, rfl⟩
      | diverge => exact Or.inl ⟨rfl, rfl⟩
      | @ret s1 s1' r hR =>
        refine Or.inr ⟨s1, s1', _, rfl, rfl, Or.inr hR, fun _ => Or.inr ⟨hR, ?_⟩⟩
        rw [hcnt s1 r rfl]; exact hn
  | getDky t k =>
    rcases h with h | ⟨h, hn⟩
    · obtain ⟨J, rfl, hr⟩ := h
      obtain ⟨_, _, _, h⟩ := ho hr.nst
      cases h
    · unfold exec
      simp only [Change.op]
      rcases getDky_conv h t k with ⟨e, k1, k2⟩ | ⟨v, k1, k2⟩ | ⟨k1, k2⟩
      · rw [k1, k2]
        exact Or.inr ⟨s, s', _, rfl, rfl, Or.inr h, fun _ => Or.inr ⟨h, hn⟩⟩
      · rw [k1, k2]
        exact Or.inr ⟨s, s', _, rfl, rfl, Or.inr h, fun _ => Or.inr ⟨h, hn⟩⟩
      · rw [k1, k2]
        exact Or.inl ⟨rfl, rfl⟩

/-! ## The standard configuration -/

theorem tol_conv (tol : TolControl n K) (y : Vec n K) : (C.tol tol).ewtSet (C.vec y) = C.wt (tol.ewtSet y) := by
  have key : ∀ (i : Fin n) (r a : K), Scalar.recip (r * Scalar.abs (C.vec y i) + |C.d i| * a) =
      Scalar.recip (r * Scalar.abs (y (C.π i)) + a) / |C.d i| := by
    intro i r a
    have : r * Scalar.abs (C.vec y i) + |C.d i| * a = (r * Scalar.abs (y (C.π i)) + a) * |C.d i| := by
      have : Scalar.abs (C.vec y i) = |C.d i| * Scalar.abs (y (C.π i)) := abs_mul _ _
      rw [this]; ring
    rw [this]
    rw [ex_recip, ex_recip, mul_inv, div_eq_mul_inv]
  cases tol with
  | ss r a => funext i; exact key i r a
  | sv r a => funext i; exact key i r (a (C.π i))

theorem cfgs_newton {P P' : Problem n q K} (hP : C.Problems P P') (tol : TolControl n K) (fuel : Nat) :
    C.Cfgs (Cfg.newton P tol fuel) (Cfg.newton P' (C.tol tol) fuel) where
  prob := hP
  ewt y b b' := tol_conv tol y
  nls := ⟨fuel, rfl, rfl⟩
  maxord := rfl
  mxstep := rfl
  maxnef := rfl
  maxncf := rfl
  hmaxInv := (zero_div _).symm
  hin := (mul_zero _).symm
  epcon := rfl
  suppressalg := rfl
  constraintsSet := rfl
  id := rfl
  rootdir := rfl

theorem Twin.reach {P P' : Problem n q K} {tol tol' : TolControl n K} {fuel : Nat} {y0 yp0 : Vec n K} {s s' : St n q K}
    (h : C.Twin P P' tol tol' fuel y0 yp0 s s') : Reach (Cfg.newton P tol fuel) s := by
  induction h with
  | new => exact Reach.new newton0 y0 yp0 none
  | call _ _ h1 _ _ ih => exact .call _ _ _ _ ih h1

theorem Twin.pair [EpsLaws K] {P P' : Problem n q K} (hP : C.Problems P P') (hσ : |C.σ| = 1 ∨ ExactLaws K) {tol : TolControl n K}
    {fuel : Nat} {y0 yp0 : Vec n K} {s s' : St n q K} (h : C.Twin P P' tol (C.tol tol) fuel y0 yp0 s s') :
    C.Pair s s' ∧ (s.cnt.nst ≠ 0 → s.c.hh ≠ 0) := by
  have hctl := (h.reach).ctl (newton_legal P tol fuel) le_rfl
  refine ⟨?_, fun hn => left_ne_zero_of_mul (hctl.used (Nat.pos_of_ne_zero hn)).ne'⟩
  induction h with
  | new => exact Or.inl (raw_new y0 yp0)
  | @call s s1 s' s1' rf sf op r r' hT ho h1 h2 hr ih =>
    have hctl0 := (hT.reach).ctl (newton_legal P tol fuel) le_rfl
    have hh : s.cnt.nst ≠ 0 → s.c.hh ≠ 0 := fun hn => left_ne_zero_of_mul (hctl0.used (Nat.pos_of_ne_zero hn)).ne'
    rcases exec_conv (cfgs_newton hP tol fuel) (show 0 < 500 by decide) rfl rfl hσ rf sf (ih hctl0) hh ho with ⟨k1, k2⟩ | ⟨t1, t1', x, k1, k2, k3, k4⟩
    · rw [k1] at h1; cases h1
    · rw [k1] at h1
      rw [k2] at h2
      cases h1
      cases h2
      exact k4 hr

end Change

end

end Verif
