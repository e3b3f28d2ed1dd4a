import Verif.Proofs.CostHist

/-! # The work done in one call -/

set_option autoImplicit false
set_option linter.unusedSectionVars false
set_option linter.unusedSimpArgs false
set_option linter.unusedVariables false

namespace Verif

open Verif.Spec Verif.Props

universe u v

section
variable {n q : Nat} {K : Type u} [Scalar K] {P : Problem n q K} {tol : TolControl n K} {fuel : Nat}

/-- The work since `s0`, in terms of the attempts since then. -/
structure Since (P : Problem n q K) (s0 s : State (Newton (Vec n K)) n q K) : Prop where
  inv : WorkInv P s
  jac : s.m.nje + s0.g.atts.length ≤ s0.m.nje + s.g.atts.length
  res : s.m.nre + 8 * s0.g.atts.length ≤ s0.m.nre + 8 * s.g.atts.length

theorem Since.refl {s : State (Newton (Vec n K)) n q K} (h : WorkInv P s) : Since P s s := ⟨h, le_refl _, le_refl _⟩

theorem Since.congr {s0 s s' : State (Newton (Vec n K)) n q K} (h : Since P s0 s) (h1 : s'.nls = s.nls)
    (h2 : s'.m.core = s.m.core) (h3 : s'.g.atts.length = s.g.atts.length) : Since P s0 s' := by
  have e1 : s'.m.nre = s.m.nre := by have := congrArg Mem.nre h2; exact this
  have e2 : s'.m.nje = s.m.nje := by have := congrArg Mem.nje h2; exact this
  exact ⟨Work.congr h.inv h1 h2 h3, by rw [e2, h3]; exact h.jac, by rw [e1, h3]; exact h.res⟩

theorem Since.attempted (hn : n ≠ 0) (hP : ResIsFunction P) {s0 s s' : State (Newton (Vec n K)) n q K} (hI : Since P s0 s)
    (h : Attempted (Cfg.newton P tol fuel) s s') : Since P s0 s' ∧ s'.g.atts.length = s.g.atts.length + 1 := by
  have hw := Work.attempted hI.inv h
  obtain ⟨t0, m1, ee, r, out, h1, h2, h3, -⟩ := h
  have h4 := newtonNls_done (P := P) (fuel := fuel) h1
  obtain ⟨k1, k2, -⟩ := nlsPrepare_cnt (tried s)
  have k1' : (nlsPrepare (tried s)).1.nre = s.m.nre := k1
  have k2' : (nlsPrepare (tried s)).1.nje = s.m.nje := k2
  have hc := newtonOuter_pure hn hP _ hI.inv.jcur h4
  have e1 := hc.nje
  have e2 := hc.nre
  rw [k2'] at e1
  rw [k1', hI.inv.maxiters] at e2
  have hl : s'.g.atts.length = s.g.atts.length + 1 := by rw [h3]; rfl
  have m1' : s'.m.nje = m1.nje := by rw [h2]
  have m2' : s'.m.nre = m1.nre := by rw [h2]
  have := hI.jac
  have := hI.res
  exact ⟨⟨hw, by omega, by omega⟩, hl⟩

/-- With Newton's method only the error test makes a step be repeated. -/
theorem newton_again {t0 : K} {s s' : State (Newton (Vec n K)) n q K} {f f' : Fails}
    (h : attempt (Cfg.newton P tol fuel) t0 s f = .again s' f') : f'.nef = f.nef + 1 ∧ f.nef + 1 < 10 := by
  obtain ⟨s4, err, a, b, s6, h1, h2, rfl⟩ := attempt_again h
  obtain ⟨e1, -⟩ := newton_testFail h1
  have hh := handleNFlag_handled h2
  subst e1
  cases hh with
  | test1 _ h => exact ⟨rfl, by omega⟩
  | test2 h => exact ⟨rfl, by omega⟩
  | test3 _ h3 => exact ⟨rfl, h3⟩

/-- A step makes at most ten attempts. -/
theorem step_since (hn : n ≠ 0) (hP : ResIsFunction P) {s0 s s' : State (Newton (Vec n K)) n q K} {r : Except Err Unit}
    (hs : Since P s0 s) (h : step (Cfg.newton P tol fuel) s = .ret s' r) :
    Since P s0 s' ∧ s'.g.atts.length ≤ s.g.atts.length + 10 := by
  have hi := firstStepInit_cnt s
  have := step_rule (cfg := Cfg.newton P tol fuel)
    (fun s1 f => Since P s0 s1 ∧ s1.g.atts.length = s.g.atts.length + f.nef ∧ f.nef < 10)
    (fun s1 => Since P s0 s1 ∧ s1.g.atts.length ≤ s.g.atts.length + 10)
    (fun s1 _ => Since P s0 s1 ∧ s1.g.atts.length ≤ s.g.atts.length + 10)
    (by
      have : (firstStepInit s).nls = s.nls := by unfold firstStepInit; split <;> rfl
      exact ⟨hs.congr this (by rw [hi.2.2.2.2.2.2.2.2]) (by rw [hi.2.1]), by rw [hi.2.1]; rfl,
        by show 0 < 10; omega⟩)
    (fun s1 f s' f' hI h => by
      obtain ⟨h1, h2⟩ := Since.attempted hn hP hI.1 (attempt_again_attempted h)
      obtain ⟨h3, h4⟩ := newton_again h
      have := hI.2.1
      exact ⟨h1, by omega, by omega⟩)
    (fun s1 f s2 ck a b s' hI h hc => by
      have hC := completeStep_eq hc
      obtain ⟨h1, h2⟩ := Since.attempted hn hP hI.1 (attempt_done_attempted h)
      have h3 := hI.2
      refine ⟨h1.congr hC.nls (by show s'.m.core = _; rw [hC.m]) (by show s'.g.atts.length = _; rw [hC.g]), ?_⟩
      show s'.g.atts.length ≤ _
      rw [hC.g]; omega)
    (fun s1 f s' e hI h => by
      obtain ⟨h1, h2⟩ := Since.attempted hn hP hI.1 (attempt_fail_attempted h)
      have h3 := hI.2
      exact ⟨h1, by omega⟩) h
  rcases this with ⟨-, h⟩ | ⟨e, -, h⟩ <;> exact h

/-- The work since `s0`, in terms of the accepted steps since then. -/
structure Paced (P : Problem n q K) (s0 s : State (Newton (Vec n K)) n q K) : Prop where
  since : Since P s0 s
  atts : s.g.atts.length + 10 * s0.cnt.nst ≤ s0.g.atts.length + 10 * s.cnt.nst

theorem Paced.congr {s0 s s' : State (Newton (Vec n K)) n q K} (h : Paced P s0 s) (h1 : s'.nls = s.nls)
    (h2 : s'.m.core = s.m.core) (h3 : s'.g = s.g) (h4 : s'.cnt.nst = s.cnt.nst) : Paced P s0 s' :=
  ⟨h.since.congr h1 h2 (by rw [h3]), by rw [h3, h4]; exact h.atts⟩

theorem Paced.frame {s0 s s' : State (Newton (Vec n K)) n q K} (h : Paced P s0 s) (hf : Frame s s') : Paced P s0 s' :=
  h.congr hf.nls hf.m hf.g (by rw [hf.cnt])

theorem Paced.firstCall {s0 s s' : State (Newton (Vec n K)) n q K} {tout : K} {r : Except Err Unit} (h : Paced P s0 s)
    (hf : firstCall (Cfg.newton P tol fuel) s tout = .ret s' r) : Paced P s0 s' :=
  h.congr (firstCall_eps hf).1 (firstCall_log hf).1 (firstCall_same hf).2 (by rw [(firstCall_same hf).cnt])

theorem Paced.step (hn : n ≠ 0) (hP : ResIsFunction P) {s0 s s' : State (Newton (Vec n K)) n q K} (h : Paced P s0 s)
    (hs : step (Cfg.newton P tol fuel) s = .ret s' (.ok ())) : Paced P s0 s' := by
  obtain ⟨h1, h2⟩ := step_since hn hP h.since hs
  have h3 := (step_quiet hs).2.1 rfl
  have := h.atts
  exact ⟨h1, by omega⟩

theorem Paced.micro (hn : n ≠ 0) (hP : ResIsFunction P) {s0 s s' : State (Newton (Vec n K)) n q K} (h : Paced P s0 s)
    (hm : Micro (Cfg.newton P tol fuel) s s') : Paced P s0 s' := by
  cases hm with
  | frame hf => exact h.frame hf
  | perf => exact h.congr rfl rfl rfl rfl
  | clear => exact h.congr rfl rfl rfl rfl
  | clamp ts h1 h2 h3 => unfold clampToStop; split <;> exact h.congr rfl rfl rfl rfl
  | ewt h1 => exact h.congr rfl rfl rfl rfl
  | first tout r h1 h2 => exact h.firstCall h2
  | firstStep tout h1 h2 h3 h4 =>
    have h5 := h.firstCall h2
    exact ((h5.congr (s' := perfReset _) rfl rfl rfl rfl).frame h3).step hn hP h4
  | step h1 h2 h3 => exact h.step hn hP h3

/-- At most ten more attempts than ten for each accepted step, and none more unless a step failed. -/
theorem Paced.fail (hn : n ≠ 0) (hP : ResIsFunction P) {s0 s s' : State (Newton (Vec n K)) n q K} {e : Err} (h : Paced P s0 s)
    (hm : MicroFail (Cfg.newton P tol fuel) s e s') :
    Since P s0 s' ∧ s'.g.atts.length + 10 * s0.cnt.nst ≤ s0.g.atts.length + 10 * (s'.cnt.nst + 1) := by
  have key : ∀ {s : State (Newton (Vec n K)) n q K}, Paced P s0 s → Verif.step (Cfg.newton P tol fuel) s = .ret s' (.error e) →
      Since P s0 s' ∧ s'.g.atts.length + 10 * s0.cnt.nst ≤ s0.g.atts.length + 10 * (s'.cnt.nst + 1) := by
    intro s h hs
    obtain ⟨h1, h2⟩ := step_since hn hP h.since hs
    have h3 := ((step_quiet hs).2.2 e rfl).1
    have := h.atts
    exact ⟨h1, by omega⟩
  cases hm with
  | firstStep tout _ h1 h2 h3 h4 =>
    have h5 := h.firstCall h2
    exact key ((h5.congr (s' := perfReset _) rfl rfl rfl rfl).frame h3) h4
  | step _ h1 h2 h3 => exact key h h3

/-- The work of one call: `f` is one if the call ended with a failed step. -/
theorem solve_spent (hn : n ≠ 0) (hP : ResIsFunction P) {rf sf : Nat} {s s' : State (Newton (Vec n K)) n q K} {tout : K}
    {task : Task} {r : Except Err Status} (hs : WorkInv P s)
    (h : solve (Cfg.newton P tol fuel) rf sf s tout task = .ret s' r) :
    Since P s s' ∧ ∃ f, f ≤ 1 ∧ (f = 1 → ∃ e, r = .error e ∧ e.isStepFailure = true) ∧
      s'.g.atts.length + 10 * s.cnt.nst ≤ s.g.atts.length + 10 * (s'.cnt.nst + f) := by
  have h0 : Paced P s s := ⟨.refl hs, le_refl _⟩
  cases solve_ends h with
  | clean h1 hb =>
    have h2 : Paced P s s' := h1.inv (fun _ _ h h' => h.micro hn hP h') h0
    exact ⟨h2.since, 0, by omega, by omega, h2.atts⟩
  | failed s1 s2 e h1 h2 h3 h4 =>
    have h5 : Paced P s s1 := h1.inv (fun _ _ h h' => h.micro hn hP h') h0
    obtain ⟨h6, h7⟩ := h5.fail hn hP h2
    refine ⟨h6.congr h3.nls h3.m (by rw [h3.g]), 1, le_refl _, fun _ => ⟨e, h4, ?_⟩, by rw [h3.g, h3.cnt]; exact h7⟩
    cases h2 with
    | firstStep _ _ _ _ _ h8 => exact step_error_isStepFailure h8
    | step _ _ _ h8 _ => exact step_error_isStepFailure h8

end

end Verif
