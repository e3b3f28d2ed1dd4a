import Verif.Proofs.Returns
import Verif.Props.Refused
import Verif.Props.Nls
import Verif.Props.Outputs
import Verif.Props.Stop
import Verif.Proofs.NewtonLin

/-!
# Linear problems: every call returns (C67)

`Newton::solve` may repeat an attempt for ever, so that a call of `solve` never returns (`c10_newton_can_loop_forever`), and
a singular Jacobian makes it panic (`c53_singular_panics_refuted`).  For problems on which an iteration that begins with an
evaluation of the Jacobian converges, in particular for all linear problems, and with a regular Jacobian, neither can happen:
every call in every history of an `Ida` object returns.
-/

set_option autoImplicit false
set_option linter.unusedSectionVars false
set_option linter.unusedSimpArgs false
set_option linter.unusedVariables false

namespace Verif.Props

open Verif Verif.Spec Verif.Witness

universe u

section
variable {n q : Nat} {K : Type u} [Field K] [LinearOrder K] [IsStrictOrderedRing K] [ExactParams K] [EpsLaws K]
  [Archimedean K]

/-- **C67, the general form.**  `Ida::new` with `Newton::new(n, 0)`, and any calls in any order with any arguments.  If an
iteration with a current Jacobian converges, and the Jacobian is regular for all leading coefficients in the direction of the
integration, every call of `solve` returns.  The bounds on the loops of the model (two attempts in each call of
`Newton::solve`, 501 passes of the step loop, some number of turns in each root search) are sufficient; they are not
limits of the program. -/
theorem c67_returns_if (hn : 0 < n) (P : Problem n q K) (hP : FreshConverges P) (tol : TolControl n K) (fuel : Nat)
    (hf : 2 ≤ fuel) (y0 yp0 : Vec n K) (ts : Option K) (s : State (Newton (Vec n K)) n q K)
    (h : Later (Cfg.newton P tol fuel) { State.new newton0 y0 yp0 with tstop := ts } s) (tout tret : K) (task : Task)
    (hreg : ∀ cj y yp r, 0 < (if getNumSteps s = 0 then tout - getCurrentTime s else getCurrentStep s) * cj →
      (asMatrix n (P.jac 0 cj y yp r (fun _ _ => 0))).det ≠ 0) :
    ∃ rf0, ∀ rf, rf0 ≤ rf → ∀ sf, 500 < sf → ∃ s' r, exec (Cfg.newton P tol fuel) rf sf s (.solve tout tret task) =
      some (s', .solved r) := by
  have hl := newton_legal P tol fuel
  have hm : (0 : K) ≤ (Cfg.newton P tol fuel).hmaxInv := le_refl _
  have hk := nlsUses_keepsLog (newton_uses_interface P tol fuel)
  have hR : Reach (Cfg.newton P tol fuel) s := h.reach (.new newton0 y0 yp0 ts)
  have hF : Frame s { s with tret := tret } := by frame_rfl
  have hC := (hR.ctl hl hm).of_frame hm hF
  obtain ⟨rf0, hr⟩ := exists_enough hC tout
  refine ⟨rf0, fun rf hrf sf hsf => ?_⟩
  have hI0 : NlsInv Rested s := rested_later h
  have hI : NlsInv Rested { s with tret := tret } := hI0
  have h1 := solve_ends_root hl hm hk (show 0 < 500 by decide) hsf (task := task)
    (fun p hp => newton_step_returns hP hf (rested_micros hI hp)) hC (RootKeep.inv (s := s) (.of_eq rfl rfl rfl rfl rfl) (hR.root hl hm hk)) (hr rf hrf)
  have h2 := c53_regular_no_panic_partial hn P tol fuel s hR rf sf tout tret task hreg
  cases hs : solve (Cfg.newton P tol fuel) rf sf { s with tret := tret } tout task with
  | ret s' r => exact ⟨s', r, by simp only [exec, hs]⟩
  | panic => exact absurd hs h2
  | diverge => exact absurd hs h1

/-- **C67.**  For a linear problem `A y + B y' + f(t) = 0` with at least one unknown, whose Jacobian `A + cj B` is regular for
all `cj` in the direction of the integration (that from the current time to `tout` in the first call, that of the current
step size afterwards): every call of `solve` in every history returns. -/
theorem c67_linear_returns (hn : 0 < n) (h0 : ExactParams.sqrt (0 : K) = 0) (hp : ExactParams.powf (0 : K) 1 = 0)
    (P : Problem n q K) (A B : Matrix (Fin n) (Fin n) K) (f : K → Vec n K) (hP : LinearProblem P A B f)
    (tol : TolControl n K) (fuel : Nat) (hf : 2 ≤ fuel) (y0 yp0 : Vec n K) (ts : Option K)
    (s : State (Newton (Vec n K)) n q K)
    (h : Later (Cfg.newton P tol fuel) { State.new newton0 y0 yp0 with tstop := ts } s) (tout tret : K) (task : Task)
    (hreg : ∀ cj, 0 < (if getNumSteps s = 0 then tout - getCurrentTime s else getCurrentStep s) * cj →
      (A + cj • B).det ≠ 0) :
    ∃ rf0, ∀ rf, rf0 ≤ rf → ∀ sf, 500 < sf → ∃ s' r, exec (Cfg.newton P tol fuel) rf sf s (.solve tout tret task) =
      some (s', .solved r) := by
  refine c67_returns_if hn P (hP.fresh h0 hp) tol fuel hf y0 yp0 ts s h tout tret task fun cj y yp r hc => ?_
  have : asMatrix n (P.jac 0 cj y yp r (fun _ _ => 0)) = A + cj • B := by
    funext i j
    exact hP.jac 0 cj y yp r i j
  rw [this]
  exact hreg cj hc

end

theorem decay_linear : LinearProblem decay 1 1 (fun _ _ => 0) := by
  refine ⟨fun t y yp buf i => ?_, fun t cj y yp r i j => ?_⟩
  · show yp i + y i = _
    simp only [Fin.sum_univ_one, Matrix.one_apply, Subsingleton.elim i 0, if_true]
    ring
  · show cj + 1 = _
    simp only [Matrix.one_apply, Subsingleton.elim i 0, Subsingleton.elim j 0, if_true]
    ring

/-- `y' + y = 0` is a linear problem, and forward in time its Jacobian `1 + cj` is regular: for any number of calls, with any
outputs requested. -/
example (s : State (Newton (Vec 1 ℚ)) 1 0 ℚ) (h : Later decayCfg decay0 s) (hs : 0 < getNumSteps s → 0 < getCurrentStep s)
    (tout tret : ℚ) (ht : 0 < tout) (task : Task) :
    ∃ rf0, ∀ rf, rf0 ≤ rf → ∀ sf, 500 < sf → ∃ s' r, exec decayCfg rf sf s (.solve tout tret task) = some (s', .solved r) := by
  refine c67_linear_returns (by decide) (by decide +kernel) (by decide +kernel) decay 1 1 _ decay_linear _ 3 (by decide)
    (fun _ => 1) (fun _ => -1) none s h tout tret task fun cj hc => ?_
  have hcj : 0 < cj := by
    by_cases h0 : getNumSteps s = 0
    · rw [if_pos h0] at hc
      have : getCurrentTime s = 0 :=
        ((h.reach (.new newton0 (fun _ => 1) (fun _ => -1) none)).ctl (newton_legal _ _ _) (le_refl _)).zero h0 |>.1
      rw [this, sub_zero] at hc
      exact (pos_iff_pos_of_mul_pos hc).1 ht
    · rw [if_neg h0] at hc
      exact (pos_iff_pos_of_mul_pos hc).1 (hs (by omega))
  rw [Matrix.det_fin_one]
  show (1 : Matrix (Fin 1) (Fin 1) ℚ) 0 0 + cj * (1 : Matrix (Fin 1) (Fin 1) ℚ) 0 0 ≠ 0
  simp only [Matrix.one_apply, if_true]
  linarith

/-! ## The values satisfy the equations exactly -/

theorem LastJac.unique {n : Nat} {K : Type u} {t t' cj cj' : K} {y yp r y' yp' r' : Vec n K} {l : List (UCall n K)}
    (h : LastJac t cj y yp r l) (h' : LastJac t' cj' y' yp' r' l) : cj = cj' := by
  induction h with
  | here l => cases h' with
    | here => rfl
    | older x l hx _ => exact absurd trivial hx
  | older x l hx _ ih => cases h' with
    | here => exact absurd trivial hx
    | older _ _ _ h2 => exact ih h2

section
variable {n q : Nat} {K : Type u} [Field K] [LinearOrder K] [IsStrictOrderedRing K] [ExactParams K]

theorem linear_update {P : Problem n q K} {A B : Matrix (Fin n) (Fin n) K} {f : K → Vec n K} (hP : LinearProblem P A B f)
    {x : Att n K} {l calls : List (UCall n K)} {c : Vec n K} (h : NewtonCalls P x l calls (.has c)) {t : K}
    {y yp r : Vec n K} (hl : LastJac t x.cj y yp r (calls ++ l)) (buf : Vec n K) (i : Fin n) :
    P.res x.tnew (Att.y x c) (Att.y' x c) buf i = 0 := by
  generalize hp : NewtonAt.has c = p at h
  cases h with
  | start F _ => cases hp
  | restart _ _ _ _ _ => cases hp
  | jac _ _ _ _ _ _ _ => cases hp
  | next _ _ _ _ _ => cases hp
  | update _ c0 F d t1 cj1 y1 yp1 r1 h1 h2 h3 h4 =>
    cases hp
    have hcj : cj1 = x.cj := LastJac.unique h2 hl
    subst hcj
    obtain ⟨b, -, buf0, hF⟩ := (NewtonCalls.jacs h1).1 c0 F rfl
    have hs : staleFactor x.cj x.cj = 1 := if_pos rfl
    have h5 := h3 i
    rw [hF, hP.res] at h5
    rw [hP.res]
    simp only [hP.jac] at h5
    have e1 : (∑ j, A i j * Att.y x (fun i => c0 i + staleFactor x.cj x.cj * d i) j) =
        (∑ j, A i j * Att.y x c0 j) + ∑ j, A i j * d j := by
      rw [← Finset.sum_add_distrib]
      exact Finset.sum_congr rfl fun j _ => by unfold Att.y; rw [hs]; ring
    have e2 : (∑ j, B i j * Att.y' x (fun i => c0 i + staleFactor x.cj x.cj * d i) j) =
        (∑ j, B i j * Att.y' x c0 j) + ∑ j, x.cj * B i j * d j := by
      rw [← Finset.sum_add_distrib]
      exact Finset.sum_congr rfl fun j _ => by unfold Att.y'; rw [hs]; ring
    have e3 : (∑ j, (A i j + x.cj * B i j) * d j) = (∑ j, A i j * d j) + ∑ j, x.cj * B i j * d j := by
      rw [← Finset.sum_add_distrib]
      exact Finset.sum_congr rfl fun j _ => by ring
    rw [e3] at h5
    rw [e1, e2]
    linear_combination h5

/-- **C67, the equations hold.**  In every history for a linear problem: if the last Jacobian was evaluated for the leading
coefficient of the last attempted step, the values `y`, `y'` computed in this step satisfy the equations exactly, at the time
of the step: one linear solve is enough, whatever the convergence test says. -/
theorem c67_equations_hold (P : Problem n q K) (A B : Matrix (Fin n) (Fin n) K) (f : K → Vec n K)
    (hP : LinearProblem P A B f) (tol : TolControl n K) (fuel : Nat) (s : State (Newton (Vec n K)) n q K)
    (h : Reach (Cfg.newton P tol fuel) s) (x : Att n K) (l : List (Att n K)) (hx : s.g.atts = x :: l) (t : K)
    (y yp r : Vec n K) (hj : LastJac t x.cj y yp r s.m.log) (i : Fin n) :
    (∑ j, A i j * x.yy j) + (∑ j, B i j * x.yp j) + f x.tnew i = 0 := by
  have hyy := (c52_residuals_on_manifold _ (newton_uses_interface P tol fuel) s h).2.2.2 x (by rw [hx]; exact List.mem_cons_self)
  have hS := c51_jacobian_policy P tol fuel s h
  rw [hx] at hS
  have key : ∀ {lg : List (UCall n K)} {a : List (Att n K)}, Story P lg a → a = x :: l → LastJac t x.cj y yp r lg →
      P.res x.tnew (Att.y x x.ee) (Att.y' x x.ee) (fun _ => 0) i = 0 := by
    intro lg a hS
    induction hS with
    | new => intro h; cases h
    | root u lg a hu _ ih =>
      intro ha hj
      cases hj with
      | here => exact absurd hu (by simp [IsRoot])
      | older _ _ _ h2 => exact ih ha h2
    | attempt x' calls lg a _ hc _ _ =>
      intro ha hj
      cases ha
      exact linear_update hP hc hj _ i
  have h1 := key hS rfl hj
  rw [hP.res] at h1
  rw [show x.yy = Att.y x x.ee from funext hyy.1, show x.yp = Att.y' x x.ee from funext hyy.2]
  exact h1

/-- **C67, for the user.**  A call in one-step mode that makes a step (no root functions): the values left by `solve` satisfy
the equations at the returned time, provided that the last Jacobian was evaluated for the leading coefficient of the step. -/
theorem c67_one_step [EpsLaws K] {P : Problem n 0 K} (A B : Matrix (Fin n) (Fin n) K) (f : K → Vec n K)
    (hP : LinearProblem P A B f) (tol : TolControl n K) (fuel : Nat) (s s' : State (Newton (Vec n K)) n 0 K)
    (h : Reach (Cfg.newton P tol fuel) s) (rf sf : Nat) (tout tret : K)
    (hs : exec (Cfg.newton P tol fuel) rf sf s (.solve tout tret .oneStep) = some (s', .solved (.ok .success)))
    (hn : getNumSteps s' ≠ getNumSteps s) :
    ∃ x l, s'.g.atts = x :: l ∧ x.out = .accepted ∧ x.tnew = s'.tret ∧
      ∀ t y yp r, LastJac t x.cj y yp r s'.m.log → ∀ i, (∑ j, A i j * s'.m.yy j) + (∑ j, B i j * s'.m.yp j) + f s'.tret i = 0 := by
  obtain ⟨x, l, -, h1, h2, h3, h4, h5, -⟩ := c42_one_step _ rf sf s s' tout tret hs hn
  have h6 := (c36_not_returned _ rf sf s s' tout tret hs).1
  refine ⟨x, l, h1, h2, h5.trans h6.symm, fun t y yp r hj i => ?_⟩
  have := c67_equations_hold P A B f hP tol fuel s' (.call rf sf _ _ h hs) x l h1 t y yp r hj i
  rw [h3, h4, h6, ← h5]
  exact this

end

/-- The last call of a user function but one is a Jacobian evaluation for the leading coefficient of the last attempt, and
there have been two steps. -/
def jacForLast (s : State (Newton (Vec 1 ℚ)) 1 0 ℚ) : Bool :=
  match s.g.atts, s.m.log with
  | x :: _, .res _ _ _ :: .jac _ c _ _ _ :: _ => decide (c = x.cj) && decide (x.yy 0 ≠ 0) && decide (getNumSteps s = 2)
  | _, _ => false

/-- After two steps of `y' + y = 0` the last Jacobian was evaluated for the leading coefficient of the last attempt (in the
first step); the computed values are not zero and satisfy the equation. -/
example : ∃ s x l t y yp r, Reach decayCfg s ∧ getNumSteps s = 2 ∧ s.g.atts = x :: l ∧ LastJac t x.cj y yp r s.m.log ∧
    x.yy 0 ≠ 0 ∧ x.yp 0 + x.yy 0 = 0 := by
  have hd : ((run decayCfg 10 10 [.solve 1 0 .oneStep, .solve 1 0 .oneStep] decay0).map fun p => jacForLast p.1) = some true := by
    decide +kernel
  obtain ⟨s, l, hr, hp⟩ := run_witness (P := fun s _ => jacForLast s) hd
  have hR : Reach decayCfg s := run_reach _ (.new newton0 (fun _ => 1) (fun _ => -1) none) hr
  unfold jacForLast at hp
  split at hp
  · rename_i x l' t1 y1 yp1 t2 c y2 yp2 r2 l2 ha hlog
    simp only [Bool.and_eq_true, decide_eq_true_eq] at hp
    obtain ⟨⟨hc, hy⟩, hn⟩ := hp
    subst hc
    have hj : LastJac t2 x.cj y2 yp2 r2 s.m.log := by
      rw [hlog]; exact .older _ _ (by simp [IsJac]) (.here _)
    refine ⟨s, x, l', t2, y2, yp2, r2, hR, hn, ha, hj, hy, ?_⟩
    have := c67_equations_hold decay 1 1 _ decay_linear _ _ s hR x l' ha t2 y2 yp2 r2 hj 0
    simp only [Fin.sum_univ_one, Matrix.one_apply, if_true, one_mul, add_zero] at this
    linarith
  · cases hp

/-- The proviso is needed: in the third step the Jacobian of the first one is used again for another leading coefficient, and
the equation holds only approximately. -/
theorem c67_proviso_needed : ∃ s x l, Reach decayCfg s ∧ s.g.atts = x :: l ∧ x.out = .accepted ∧ x.yp 0 + x.yy 0 ≠ 0 := by
  have hd : (decayRun.map fun p => match p.1.g.atts with
      | x :: _ => decide (x.out = .accepted) && decide (x.yp 0 + x.yy 0 ≠ 0)
      | [] => false) = some true := by decide +kernel
  obtain ⟨s, l, hr, hp⟩ := run_witness (P := fun (s : State (Newton (Vec 1 ℚ)) 1 0 ℚ) (_ : List (Res 1 ℚ)) => match s.g.atts with
      | x :: _ => decide (x.out = .accepted) && decide (x.yp 0 + x.yy 0 ≠ 0)
      | [] => false) hd
  split at hp
  · rename_i x l' ha
    simp only [Bool.and_eq_true, decide_eq_true_eq] at hp
    exact ⟨s, x, l', run_reach _ (.new newton0 (fun _ => 1) (fun _ => -1) none) hr, ha, hp.1, hp.2⟩
  · cases hp

end Verif.Props
