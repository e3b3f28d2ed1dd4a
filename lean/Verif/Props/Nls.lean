import Verif.Proofs.NewtonPanic
import Verif.Witness

/-!
# Properties C50 - C53: the calls of the user's functions by the nonlinear solver

`s.m.log` lists all calls of the user's functions so far, `s.g.atts` all attempted steps, both most recent first.
-/

set_option autoImplicit false
set_option linter.unusedSectionVars false
set_option linter.unusedSimpArgs false
set_option linter.unusedVariables false

namespace Verif.Props

open Verif.Spec Verif.Witness

universe u v

/-! ## C52 -/

section
variable {ν : Type v} {n q : Nat} {K : Type u} [Scalar K]

/-- What C52 says about the calls `l` and the attempts `a`, and the evaluation counters. -/
structure CallsOk (m : Mem n K) (a : List (Att n K)) : Prop where
  res : ∀ t y yp, UCall.res t y yp ∈ m.log → ∃ x ∈ a, t = x.tnew ∧
    ∃ c : Vec n K, (∀ i, y i = x.pred i + c i) ∧ ∀ i, yp i = x.predp i + x.cj * c i
  jac : ∀ t cj y yp r, UCall.jac t cj y yp r ∈ m.log → t = 0 ∧ ∃ x ∈ a, cj = x.cj
  nre : m.nre = m.log.countP UCall.isRes
  nje : m.nje = m.log.countP UCall.isJac
  yy : ∀ x ∈ a, (∀ i, x.yy i = x.pred i + x.ee i) ∧ ∀ i, x.yp i = x.predp i + x.cj * x.ee i

theorem callsOk_reach {cfg : Cfg ν n q K} (hu : NlsUses cfg) {s : State ν n q K} (h : Reach cfg s) :
    CallsOk s.m s.g.atts := by
  refine Reach.logInv CallsOk ?_ ?_ ?_ h
  · intro a b c
    refine ⟨?_, ?_, rfl, rfl, ?_⟩
    · intro t y yp hx; cases hx
    · intro t cj y yp r hx; cases hx
    · intro x hx; cases hx
  · intro m m' a l hI h1 h2 h3
    have e1 : m'.nre = m.nre := by have := congrArg Mem.nre h1; exact this
    have e2 : m'.nje = m.nje := by have := congrArg Mem.nje h1; exact this
    have k1 : l.countP UCall.isRes = 0 := List.countP_eq_zero.2 fun x hx => by
      have := h3 x hx; cases x <;> simp_all [UCall.isRoot, UCall.isRes]
    have k2 : l.countP UCall.isJac = 0 := List.countP_eq_zero.2 fun x hx => by
      have := h3 x hx; cases x <;> simp_all [UCall.isRoot, UCall.isJac]
    refine ⟨?_, ?_, ?_, ?_, hI.yy⟩
    · intro t y yp hx
      rw [h2] at hx
      rcases List.mem_append.1 hx with hx | hx
      · exact absurd (h3 _ hx) (by simp [UCall.isRoot])
      · exact hI.res _ _ _ hx
    · intro t cj y yp r hx
      rw [h2] at hx
      rcases List.mem_append.1 hx with hx | hx
      · exact absurd (h3 _ hx) (by simp [UCall.isRoot])
      · exact hI.jac _ _ _ _ _ hx
    · rw [e1, h2, List.countP_append, k1, hI.nre, Nat.zero_add]
    · rw [e2, h2, List.countP_append, k2, hI.nje, Nat.zero_add]
  · intro s s' hI hn hA
    obtain ⟨t0, m1, ee, r, out, h1, h2, h3, -⟩ := hA
    obtain ⟨t, hc⟩ := hu _ _ _ _ _ _ _ _ _ _ _ _ h1
    obtain ⟨l, hl⟩ := calls_log hc
    have e0 : (nlsPrepare (tried s)).1.log = s.m.log := nlsPrepare_log _
    have e1 : (nlsPrepare (tried s)).1.nre = s.m.nre := by
      unfold nlsPrepare; simp only; split <;> split <;> rfl
    have e2 : (nlsPrepare (tried s)).1.nje = s.m.nje := by
      unfold nlsPrepare; simp only; split <;> split <;> rfl
    have hlog : s'.m.log = l ++ s.m.log := by rw [h2, ← e0]; exact hl.log
    rw [h3]
    refine ⟨?_, ?_, ?_, ?_, ?_⟩
    · intro t y yp hx
      rw [hlog] at hx
      rcases List.mem_append.1 hx with hx | hx
      · obtain ⟨g1, c, g2, g3⟩ := hl.res _ _ _ hx
        exact ⟨_, List.mem_cons_self, g1, c, fun i => congrFun g2 i, fun i => congrFun g3 i⟩
      · obtain ⟨x, g1, g2⟩ := hI.res _ _ _ hx
        exact ⟨x, List.mem_cons_of_mem _ g1, g2⟩
    · intro t cj y yp r hx
      rw [hlog] at hx
      rcases List.mem_append.1 hx with hx | hx
      · exact ⟨(hl.jac _ _ _ _ _ hx).1, _, List.mem_cons_self, (hl.jac _ _ _ _ _ hx).2⟩
      · obtain ⟨h0, x, g1, g2⟩ := hI.jac _ _ _ _ _ hx
        exact ⟨h0, x, List.mem_cons_of_mem _ g1, g2⟩
    · have := hl.nre
      rw [hlog, List.countP_append, h2]
      show m1.nre = _
      rw [this, e1, hI.nre, Nat.add_comm]
    · have := hl.nje
      rw [hlog, List.countP_append, h2]
      show m1.nje = _
      rw [this, e2, hI.nje, Nat.add_comm]
    · intro x hx
      rcases List.mem_cons.1 hx with rfl | hx
      · exact ⟨fun i => rfl, fun i => rfl⟩
      · exact hI.yy x hx

/-- **C52.** In every history, with every nonlinear solver that works through the problem interface: each call of the
residual function was made during an attempted step, at the time of that attempt and at a point
`y = ypred + c`, `y' = y'pred + cj c`; `get_num_res_evals` is the number of those calls (and `ida_nje` the number of
Jacobian calls); and the vectors left by each attempt satisfy the same relation with the returned correction. -/
theorem c52_residuals_on_manifold (cfg : Cfg ν n q K) (hu : NlsUses cfg) (s : State ν n q K) (h : Reach cfg s) :
    (∀ t y yp, UCall.res t y yp ∈ s.m.log → ∃ x ∈ s.g.atts, t = x.tnew ∧
      ∃ c : Vec n K, (∀ i, y i = x.pred i + c i) ∧ ∀ i, yp i = x.predp i + x.cj * c i) ∧
    getNumResEvals s = s.m.log.countP UCall.isRes ∧
    getNumJacEvals s = s.m.log.countP UCall.isJac ∧
    ∀ x ∈ s.g.atts, (∀ i, x.yy i = x.pred i + x.ee i) ∧ ∀ i, x.yp i = x.predp i + x.cj * x.ee i :=
  let H := callsOk_reach hu h
  ⟨H.res, H.nre, H.nje, H.yy⟩

end

/-- Newton's method works through the interface; after three steps of `y' + y = 0` there have been residual and
Jacobian evaluations. -/
example : ∃ s, Reach decayCfg s ∧ NlsUses decayCfg ∧ 3 ≤ getNumResEvals s ∧ 1 ≤ getNumJacEvals s := by
  have hd : (decayRun.map fun p => decide (3 ≤ getNumResEvals p.1) && decide (1 ≤ getNumJacEvals p.1)) = some true := by
    decide +kernel
  obtain ⟨s, l, hr, hp⟩ := run_witness (P := fun s _ => decide (3 ≤ getNumResEvals s) && decide (1 ≤ getNumJacEvals s)) hd
  simp only [Bool.and_eq_true, decide_eq_true_eq] at hp
  exact ⟨s, run_reach _ (.new newton0 (fun _ => 1) (fun _ => -1) none) hr, newton_uses_interface _ _ _, hp⟩

section exact
variable {n q : Nat} {K : Type u} [Field K] [LinearOrder K] [IsStrictOrderedRing K] [ExactParams K]

/-! ## C51 -/

/-- **C51.** In every history of the standard solver stack, all calls of the user's functions form a `Story`: the calls
made in an attempted step are those of a modified Newton iteration which either evaluates the Jacobian right at the
beginning or runs with the last Jacobian, evaluated for a leading coefficient `c` with `3/5 ≤ cj/c ≤ 5/3`; every update
of the correction is the solution of the linear system with the last Jacobian, times `2/(1 + cj/c)` if that was
evaluated for `c ≠ cj`. -/
theorem c51_jacobian_policy (P : Problem n q K) (tol : TolControl n K) (fuel : Nat)
    (s : State (Newton (Vec n K)) n q K) (h : Reach (Cfg.newton P tol fuel) s) : Story P s.m.log s.g.atts :=
  h.story.story

/-! ## C50 -/

theorem NewtonCalls.jacs {P : Problem n q K} {x : Att n K} {l calls : List (UCall n K)} {p : NewtonAt n K}
    (h : NewtonCalls P x l calls p) :
    (∀ c F, p = .residual c F → ∃ b, (calls = .res x.tnew (Att.y x c) (Att.y' x c) :: b ∨
      calls = .jac 0 x.cj (Att.y x c) (Att.y' x c) F :: .res x.tnew (Att.y x c) (Att.y' x c) :: b) ∧
      ResVal P x.tnew (Att.y x c) (Att.y' x c) F) ∧
    ∀ a b t cj y yp r, calls = a ++ .jac t cj y yp r :: b → t = 0 ∧ cj = x.cj ∧
      ∃ c b', y = Att.y x c ∧ yp = Att.y' x c ∧ b = .res x.tnew y yp :: b' ∧ ResVal P x.tnew y yp r := by
  have hy : Att.y x (fun _ => 0) = x.pred := by funext i; simp [Att.y]
  have hy' : Att.y' x (fun _ => 0) = x.predp := by funext i; simp [Att.y']
  have cons : ∀ {u : UCall n K} {calls : List (UCall n K)}, ¬ IsJac u →
      (∀ a b t cj y yp r, calls = a ++ .jac t cj y yp r :: b → t = 0 ∧ cj = x.cj ∧
        ∃ c b', y = Att.y x c ∧ yp = Att.y' x c ∧ b = .res x.tnew y yp :: b' ∧ ResVal P x.tnew y yp r) →
      ∀ a b t cj y yp r, u :: calls = a ++ .jac t cj y yp r :: b → t = 0 ∧ cj = x.cj ∧
        ∃ c b', y = Att.y x c ∧ yp = Att.y' x c ∧ b = .res x.tnew y yp :: b' ∧ ResVal P x.tnew y yp r := by
    intro u calls hu hc a b t cj y yp r he
    cases a with
    | nil =>
      simp only [List.nil_append, List.cons.injEq] at he
      rw [he.1] at hu
      exact absurd trivial hu
    | cons v a =>
      simp only [List.cons_append, List.cons.injEq] at he
      exact hc _ _ _ _ _ _ _ he.2
  induction h with
  | start F hF =>
    refine ⟨?_, cons (by simp [IsJac]) (fun a b t cj y yp r he => by simp at he)⟩
    intro c F' he
    cases he
    rw [hy, hy']
    exact ⟨[], Or.inl rfl, hF⟩
  | restart calls c F _ hF ih =>
    refine ⟨?_, cons (by simp [IsJac]) ih.2⟩
    intro c F' he
    cases he
    rw [hy, hy']
    exact ⟨calls, Or.inl rfl, hF⟩
  | jac calls t y yp c F _ ih =>
    obtain ⟨b0, h1, h2⟩ := ih.1 c F rfl
    have h3 : t = x.tnew ∧ y = Att.y x c ∧ yp = Att.y' x c ∧ calls = b0 := by
      rcases h1 with h1 | h1
      · simp only [List.cons.injEq, UCall.res.injEq] at h1
        exact ⟨h1.1.1, h1.1.2.1, h1.1.2.2, h1.2⟩
      · simp at h1
    obtain ⟨rfl, rfl, rfl, rfl⟩ := h3
    refine ⟨?_, ?_⟩
    · intro c' F' he
      cases he
      exact ⟨calls, Or.inr rfl, h2⟩
    · intro a b t' cj y yp r he
      cases a with
      | nil =>
        simp only [List.nil_append, List.cons.injEq, UCall.jac.injEq] at he
        obtain ⟨⟨rfl, rfl, rfl, rfl, rfl⟩, rfl⟩ := he
        exact ⟨rfl, rfl, c, calls, rfl, rfl, rfl, h2⟩
      | cons v a =>
        simp only [List.cons_append, List.cons.injEq] at he
        exact ih.2 _ _ _ _ _ _ _ he.2
  | update calls c F d t cj y yp r _ _ _ _ ih => exact ⟨fun c F h => (nomatch h), ih.2⟩
  | next calls c F _ hF ih =>
    refine ⟨?_, cons (by simp [IsJac]) ih.2⟩
    intro c' F' he
    cases he
    exact ⟨calls, Or.inl rfl, hF⟩

theorem Story.jacs {P : Problem n q K} {l : List (UCall n K)} {a : List (Att n K)} (h : Story P l a) :
    ∀ l1 l2 t cj y yp r, l = l1 ++ .jac t cj y yp r :: l2 → t = 0 ∧ ∃ x ∈ a, cj = x.cj ∧
      ∃ c l3, y = Att.y x c ∧ yp = Att.y' x c ∧ l2 = .res x.tnew y yp :: l3 ∧ ResVal P x.tnew y yp r := by
  induction h with
  | new => intro l1 l2 t cj y yp r he; simp at he
  | root x l a hx _ ih =>
    intro l1 l2 t cj y yp r he
    cases l1 with
    | nil =>
      simp only [List.nil_append, List.cons.injEq] at he
      rw [he.1] at hx
      exact absurd hx (by simp [IsRoot])
    | cons v l1 =>
      simp only [List.cons_append, List.cons.injEq] at he
      exact ih _ _ _ _ _ _ _ he.2
  | attempt x calls l a _ hc _ ih =>
    intro l1 l2 t cj y yp r he
    rcases List.append_eq_append_iff.1 he with ⟨b, h1, h2⟩ | ⟨b, h1, h2⟩
    · obtain ⟨h3, x', h4, h5⟩ := ih _ _ _ _ _ _ _ h2
      exact ⟨h3, x', List.mem_cons_of_mem _ h4, h5⟩
    · cases b with
      | nil =>
        simp only [List.nil_append] at h2
        obtain ⟨h3, x', h4, h5⟩ := ih [] _ _ _ _ _ _ h2.symm
        exact ⟨h3, x', List.mem_cons_of_mem _ h4, h5⟩
      | cons v b =>
        simp only [List.cons_append, List.cons.injEq] at h2
        obtain ⟨rfl, rfl⟩ := h2
        obtain ⟨h3, h4, c, b', h5, h6, h7, h8⟩ := (NewtonCalls.jacs hc).2 _ _ _ _ _ _ _ h1
        exact ⟨h3, x, List.mem_cons_self, h4, c, b' ++ l, h5, h6, by rw [h7]; rfl, h8⟩

/-- **C50, the part that holds.** Every call of the user's Jacobian gets the leading coefficient of an attempted step and
the point `(y, y')` and the value of the residual evaluation right before it, which was made for that attempt and at its
time.  The time passed to the Jacobian is always zero (see `c50_jacobian_time_refuted`). -/
theorem c50_jacobian_point_partial (P : Problem n q K) (tol : TolControl n K) (fuel : Nat)
    (s : State (Newton (Vec n K)) n q K) (h : Reach (Cfg.newton P tol fuel) s) (l1 l2 : List (UCall n K)) (t cj : K)
    (y yp r : Vec n K) (hl : s.m.log = l1 ++ .jac t cj y yp r :: l2) :
    t = 0 ∧ ∃ x ∈ s.g.atts, cj = x.cj ∧ ∃ (c : Vec n K) (l3 : List (UCall n K)), (∀ i, y i = x.pred i + c i) ∧ (∀ i, yp i = x.predp i + x.cj * c i) ∧
      l2 = .res x.tnew y yp :: l3 ∧ ∃ buf, r = P.res x.tnew y yp buf := by
  obtain ⟨h1, x, h2, h3, c, l3, h4, h5, h6, h7⟩ := Story.jacs (c51_jacobian_policy P tol fuel s h) _ _ _ _ _ _ _ hl
  exact ⟨h1, x, h2, h3, c, l3, congrFun h4, congrFun h5, h6, h7⟩

/-! ## C53 -/

variable [EpsLaws K]

/-- **C53, the part that holds.** In every history of the standard solver stack for a system with at least one
component: a call of `solve` panics only if the user's Jacobian is singular at some point, for a leading coefficient
`(1 + 1/2 + ... + 1/k)/h` with `1 ≤ k ≤ 5` and `h` in the direction of the integration (from the current time to `tout` in
the first call, that of the current step size afterwards).  The full claim, that a singular Jacobian is reported as an
error, fails: `c53_singular_panics_refuted`. -/
theorem c53_panic_needs_singular_partial (hn : 0 < n) (P : Problem n q K) (tol : TolControl n K) (fuel : Nat)
    (s : State (Newton (Vec n K)) n q K) (h : Reach (Cfg.newton P tol fuel) s) (rf sf : Nat) (tout tret : K) (task : Task)
    (hp : solve (Cfg.newton P tol fuel) rf sf { s with tret := tret } tout task = .panic) :
    ∃ (k : Nat) (hh : K) (y yp r : Vec n K), 1 ≤ k ∧ k ≤ 5 ∧
      0 < (if getNumSteps s = 0 then tout - getCurrentTime s else getCurrentStep s) * hh ∧
      (asMatrix n (P.jac 0 ((∑ i ∈ Finset.range k, ((i : K) + 1)⁻¹) / hh) y yp r (fun _ _ => 0))).det = 0 := by
  have hl := newton_legal P tol fuel
  have hm : (0 : K) ≤ (Cfg.newton P tol fuel).hmaxInv := le_refl _
  have hs := h.sane hl (show 1 ≤ 5 by decide)
  have hf : Frame s { s with tret := tret } := by frame_rfl
  obtain ⟨k, hh, h1, h2, h3, y, yp, r, h4⟩ := newton_solve_panic hn ((h.ctl hl hm).of_frame hm hf)
    (hs.micros hl (show 1 ≤ 5 by decide) (Micros.frame hf)) (h.story2.frame storyInv_root hf) hp
  exact ⟨k, hh, y, yp, r, h1, h2, h3, h4⟩

end exact

/-- The same as a guarantee: if the Jacobian is regular for all leading coefficients of the sign of the direction of
integration (and `n > 0`), no call of `solve` panics. -/
theorem c53_regular_no_panic_partial {n q : Nat} {K : Type u} [Field K] [LinearOrder K] [IsStrictOrderedRing K]
    [ExactParams K] [EpsLaws K] (hn : 0 < n) (P : Problem n q K) (tol : TolControl n K) (fuel : Nat)
    (s : State (Newton (Vec n K)) n q K) (h : Reach (Cfg.newton P tol fuel) s) (rf sf : Nat) (tout tret : K) (task : Task)
    (hreg : ∀ cj y yp r, 0 < (if getNumSteps s = 0 then tout - getCurrentTime s else getCurrentStep s) * cj →
      (asMatrix n (P.jac 0 cj y yp r (fun _ _ => 0))).det ≠ 0) :
    solve (Cfg.newton P tol fuel) rf sf { s with tret := tret } tout task ≠ .panic := by
  intro hp
  obtain ⟨k, hh, y, yp, r, h1, h2, h3, h4⟩ := c53_panic_needs_singular_partial hn P tol fuel s h rf sf tout tret task hp
  refine hreg _ y yp r ?_ h4
  have hH : (0 : K) < ∑ i ∈ Finset.range k, ((i : K) + 1)⁻¹ :=
    Finset.sum_pos (fun i _ => inv_pos.2 (by positivity)) ⟨0, Finset.mem_range.2 h1⟩
  have h0 : hh ≠ 0 := right_ne_zero_of_mul h3.ne'
  have e : (if getNumSteps s = 0 then tout - getCurrentTime s else getCurrentStep s) *
      ((∑ i ∈ Finset.range k, ((i : K) + 1)⁻¹) / hh) =
    (if getNumSteps s = 0 then tout - getCurrentTime s else getCurrentStep s) * hh *
      ((∑ i ∈ Finset.range k, ((i : K) + 1)⁻¹) / (hh * hh)) := by
    field_simp
  rw [e]
  exact mul_pos h3 (div_pos hH (mul_self_pos.2 h0))

/-- `y' + y = 0` forward in time meets the hypothesis, in the first call and after three steps. -/
example : (∀ rf sf task, solve decayCfg rf sf decay0 1 task ≠ .panic) ∧
    ∃ s, Reach decayCfg s ∧ getNumSteps s = 3 ∧ ∀ rf sf tout tret task,
      solve decayCfg rf sf { s with tret := tret } tout task ≠ .panic := by
  have reg : ∀ cj : ℚ, 0 < cj → ∀ y yp r : Vec 1 ℚ, (asMatrix 1 (decay.jac 0 cj y yp r (fun _ _ => 0))).det ≠ 0 := by
    intro cj hc y yp r
    rw [Matrix.det_fin_one]
    show cj + 1 ≠ 0
    positivity
  refine ⟨fun rf sf task => ?_, ?_⟩
  · refine c53_regular_no_panic_partial (by decide) decay _ 3 decay0
      (.new newton0 (fun _ => 1) (fun _ => -1) none) rf sf 1 0 task (fun cj y yp r hc => reg cj ?_ y yp r)
    have : (0 : ℚ) < (1 - 0) * cj := hc
    linarith
  · have hd : (decayRun.map fun p => decide (getNumSteps p.1 = 3) && decide (0 < getCurrentStep p.1)) = some true := by
      decide +kernel
    obtain ⟨s, l, hr, hp⟩ := run_witness (P := fun s _ => decide (getNumSteps s = 3) && decide (0 < getCurrentStep s)) hd
    simp only [Bool.and_eq_true, decide_eq_true_eq] at hp
    have hR : Reach decayCfg s := run_reach _ (.new newton0 (fun _ => 1) (fun _ => -1) none) hr
    refine ⟨s, hR, hp.1, fun rf sf tout tret task => ?_⟩
    refine c53_regular_no_panic_partial (by decide) decay _ 3 s hR rf sf tout tret task (fun cj y yp r hc => reg cj ?_ y yp r)
    rw [if_neg (by omega)] at hc
    exact (pos_iff_pos_of_mul_pos hc).1 hp.2

/-- The problem `(y')² = 0`, with its exact Jacobian `2 cj y'`. -/
def squareP : Problem 1 0 ℚ where
  res _ _ yp _ := fun i => yp i * yp i
  jac _ cj _ yp _ _ := fun _ _ => 2 * cj * yp 0
  root _ _ _ b := b

/-- **C53 is false.** `Ida::new` for `(y')² = 0` with the consistent initial values `y = 1`, `y' = 0`: the Jacobian is
singular at the start, and the first call of `solve` panics. -/
theorem c53_singular_panics_refuted :
    Reach (Cfg.newton squareP (.ss (1 / 100) (1 / 100)) 3) (State.new newton0 (fun _ => 1) (fun _ => 0)) ∧
    (asMatrix 1 (squareP.jac 0 1 (fun _ => 1) (fun _ => 0) (fun _ => 0) (fun _ _ => 0))).det = 0 ∧
    solve (Cfg.newton squareP (.ss (1 / 100) (1 / 100)) 3) 10 10 (State.new newton0 (fun _ => 1) (fun _ => 0)) 1 .normal =
      .panic := by
  refine ⟨.new newton0 (fun _ => 1) (fun _ => 0) none, ?_, ?_⟩
  · rw [Matrix.det_fin_one]; show (2 : ℚ) * 1 * 0 = 0; norm_num
  · have hd : (match solve (Cfg.newton squareP (.ss (1 / 100) (1 / 100)) 3) 10 10
        (State.new newton0 (fun _ => 1) (fun _ => 0)) 1 .normal with | .panic => true | _ => false) = true := by
      decide +kernel
    split at hd
    · assumption
    · cases hd

/-! ## C50: refutation -/

/-- The problem `y' + t y = 0`, with its exact Jacobian `cj + t`. -/
def driftP : Problem 1 0 ℚ where
  res t y yp _ := fun i => yp i + t * y i
  jac t cj _ _ _ _ := fun _ _ => cj + t
  root _ _ _ b := b

/-- Is the call a Jacobian evaluation at a time other than those of the attempts `a`? -/
def wrongTime (a : List (Att 1 ℚ)) : UCall 1 ℚ → Bool
  | .jac t _ _ _ _ => a.all fun x => decide (t ≠ x.tnew)
  | _ => false

/-- **C50 is false.** After three steps of `y' + t y = 0` the user's Jacobian has been called with a time at which no step
has been attempted. -/
theorem c50_jacobian_time_refuted : ∃ s t cj y yp r,
    Reach (Cfg.newton driftP (.ss (1 / 100) (1 / 100)) 3) s ∧ getNumSteps s = 3 ∧
    UCall.jac t cj y yp r ∈ s.m.log ∧ ∀ x ∈ s.g.atts, t ≠ x.tnew := by
  have hd : ((run (Cfg.newton driftP (.ss (1 / 100) (1 / 100)) 3) 10 10
      [.solve 1 0 .oneStep, .solve 1 0 .oneStep, .solve 1 0 .oneStep] (State.new newton0 (fun _ => 1) (fun _ => 0))).map
      fun p => decide (getNumSteps p.1 = 3) && p.1.m.log.any (wrongTime p.1.g.atts)) = some true := by decide +kernel
  obtain ⟨s, l, hr, hp⟩ := run_witness (P := fun s _ => decide (getNumSteps s = 3) && s.m.log.any (wrongTime s.g.atts)) hd
  simp only [Bool.and_eq_true, decide_eq_true_eq, List.any_eq_true] at hp
  obtain ⟨h3, u, hu, hw⟩ := hp
  cases u with
  | jac t cj y yp r =>
    simp only [wrongTime, List.all_eq_true, decide_eq_true_eq] at hw
    exact ⟨s, t, cj, y, yp, r, run_reach _ (.new newton0 (fun _ => 1) (fun _ => 0) none) hr, h3, hu, hw⟩
  | res t y yp => cases hw
  | root t y yp => cases hw

/-- The story of those steps contains a stale Jacobian and a refreshed one: fewer Jacobian evaluations than steps, but at
least one. -/
example : ∃ s, Reach (Cfg.newton driftP (.ss (1 / 100) (1 / 100)) 3) s ∧ Story driftP s.m.log s.g.atts ∧
    1 ≤ getNumJacEvals s ∧ getNumJacEvals s < getNumSteps s := by
  have hd : ((run (Cfg.newton driftP (.ss (1 / 100) (1 / 100)) 3) 10 10
      [.solve 1 0 .oneStep, .solve 1 0 .oneStep, .solve 1 0 .oneStep] (State.new newton0 (fun _ => 1) (fun _ => 0))).map
      fun p => decide (1 ≤ getNumJacEvals p.1) && decide (getNumJacEvals p.1 < getNumSteps p.1)) = some true := by
    decide +kernel
  obtain ⟨s, l, hr, hp⟩ := run_witness
    (P := fun s _ => decide (1 ≤ getNumJacEvals s) && decide (getNumJacEvals s < getNumSteps s)) hd
  simp only [Bool.and_eq_true, decide_eq_true_eq] at hp
  have hR := run_reach _ (.new newton0 (fun _ => 1) (fun _ => 0) none) hr
  exact ⟨s, hR, c51_jacobian_policy _ _ _ s hR, hp⟩

end Verif.Props
