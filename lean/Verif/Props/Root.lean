import Verif.Proofs.RootInv
import Verif.Props.Stop

/-!
# Rootfinding: C44 – C49

The values of the root function are those of the calls recorded in the log: `Seen cfg s t i x` says that in the execution
up to `s` the root function was called at time `t` and its component `i` was `x`; `SeenSol` says moreover that it was given
the solution at `t` (`Spec/Root.lean`).
-/

set_option autoImplicit false
set_option linter.unusedSectionVars false
set_option linter.unusedSimpArgs false
set_option linter.unusedVariables false

namespace Verif.Props

open Verif Verif.Spec

universe u v

section
variable {ν : Type v} {n q : Nat} {K : Type u} [Field K] [LinearOrder K] [IsStrictOrderedRing K] [ExactParams K]
  [EpsLaws K]

theorem rootTol_eq (s : State ν n q K) : rootTol s = rootTolerance s := by
  unfold rootTol rootTolerance
  simp only [ex_abs, ex_eps, ex_hundred]
  ring

/-- `solve_root` for a call in a history. -/
theorem exec_root {cfg : Cfg ν n q K} (hl : NlsLegal cfg) (hm : 0 ≤ cfg.hmaxInv) (hk : NlsKeepsLog cfg) {rf sf : Nat}
    {s s' : State ν n q K} (h : Reach cfg s) {tout tret : K} {task : Task} {r : Except Err Status}
    (hs : exec cfg rf sf s (.solve tout tret task) = some (s', .solved r)) :
    RootInv cfg s' ∧ RootOutcome cfg { s with tret := tret } tout task s' r :=
  solve_root hl hm hk (setTret_reach_ctl hl hm h tret)
    (RootKeep.inv (s := s) (.of_eq rfl rfl rfl rfl rfl) (h.root hl hm hk)) (exec_solve hs)

/-! ## C44 -/

/-- What a search that found a root says about the components it flags. -/
theorem searched_bracketed {cfg : Cfg ν n q K} {p s1 s' : State ν n q K} {fwd : Prop} (hL : RootLoop cfg p)
    (hS : Searched cfg p s1 .rootFound) (hlog : s'.m.log = s1.m.log) (hh : s'.h = s1.h) (hc : s'.c = s1.c)
    (he : s'.e = s1.e) (hi : s'.r.iroots = s1.r.iroots) (hf : fwd → 0 < (searchEnd p - p.r.tlo) * p.c.hh) :
    (∃ i, getRootInfo s' i ≠ 0) ∧ ∀ i, getRootInfo s' i ≠ 0 →
      BracketedAt cfg s' fwd s1.r.tlo i ∨ BracketedAfter cfg s' fwd s1.r.tlo i := by
  obtain ⟨tl, gl, h1, ⟨a, b, ha, hab, hb, e1, e2⟩, h3, h4, ⟨j, hj⟩, h6, -⟩ := hS.root rfl
  have hne : ∀ i, Reportable cfg p.r.gactive gl s1.r.glo i → getRootInfo s' i ≠ 0 := fun i hr => by
    unfold getRootInfo
    rw [hi, h3 i hr, ex_signum]
    split <;> norm_num
  refine ⟨⟨j, hne j hj⟩, fun i hr => ?_⟩
  have hrep : Reportable cfg p.r.gactive gl s1.r.glo i := by
    by_contra hx
    exact hr (by unfold getRootInfo; rw [hi]; exact h4 i hx)
  have hsub : ∀ c, c ∈ s1.m.log → c ∈ s'.m.log := by rw [hlog]; exact fun c h => h
  have hseen : SeenSol cfg s' s1.r.tlo i (s1.r.glo i) := (hS.seen i).mono hsub hh hc he
  rcases hrep with hcr | hz
  · have htol : |s1.r.tlo - tl| ≤ rootTolerance s' := by
      have := h6 i hcr
      rw [rootTol_eq] at this
      unfold rootTolerance at this ⊢
      rw [hc, he, hS.frame.c, hS.frame.e]; exact this
    have hfwd : fwd → 0 < (s1.r.tlo - tl) * s'.c.hh := fun hx => by
      have e3 : s1.r.tlo - tl = (b - a) * (searchEnd p - p.r.tlo) := by rw [e1, e2]; ring
      rw [e3, hc, hS.frame.c, mul_assoc]
      exact mul_pos (sub_pos.2 hab) (hf hx)
    rcases h1 with ⟨rfl, rfl⟩ | h1
    · have hpl : ∀ c, c ∈ p.m.log → c ∈ s'.m.log := fun c hc => hsub c (hS.frame.log_sub c hc)
      rcases hL.lo i with h7 | ⟨u, h7, h8, h9⟩
      · exact Or.inl ⟨_, hseen, Or.inr ⟨_, _, htol, hfwd, hcr.2.2, h7.mono hpl⟩⟩
      · exact Or.inr ⟨_, hseen, _, u, _, htol, hfwd, hcr.2.2, h8.mono hpl, by rw [hc, hS.frame.c]; exact h7,
          h9.imp id (fun h => h.mono hpl)⟩
    · exact Or.inl ⟨_, hseen, Or.inr ⟨tl, gl i, htol, hfwd, hcr.2.2, ((h1 i).mono hsub hh hc he).seen⟩⟩
  · exact Or.inl ⟨_, hseen, Or.inl hz.2.2⟩

/-- **C44, what holds of every root reported.** In every history: if `solve` returns `Root`, then `get_root_info` flags
some component, and every flagged component of the root function, called with the solution at the returned time `tret`, is
zero there or has the opposite sign at a point within the root tolerance of `tret` (before `tret`, if the call took an
internal step) — where the opposite sign was observed at that point, or
* *after* that point, which is the initial time or a zero of the component, or
* the component is zero one root tolerance after `tret`, and the previous search had already reported a root.

*Missing from the English claim:* the two exceptions; the first is real, see `c44_bracketed_refuted`. -/
theorem c44_bracketed_partial (cfg : Cfg ν n q K) (hl : NlsLegal cfg) (hm : 0 ≤ cfg.hmaxInv) (hk : NlsKeepsLog cfg)
    (rf sf : Nat) (s s' : State ν n q K) (h : Reach cfg s) (tout tret : K) (task : Task)
    (hs : exec cfg rf sf s (.solve tout tret task) = some (s', .solved (.ok .root))) :
    (∃ i, getRootInfo s' i ≠ 0) ∧ ∀ i, getRootInfo s' i ≠ 0 →
      BracketedAt cfg s' (getNumSteps s < getNumSteps s') s'.tret i ∨
      BracketedAfter cfg s' (getNumSteps s < getNumSteps s') s'.tret i ∨
      s.r.irfnd = true ∧ Seen cfg s' (s'.tret + rootTolerance s' * Scalar.signum s'.c.hh) i 0 := by
  obtain ⟨-, hO⟩ := exec_root hl hm hk h hs
  cases hO with
  | close e _ _ _ h5 => cases h5
  | recheck s1 hq hn h3 hf h4 h5 h6 =>
    subst h5
    obtain ⟨bk, bi, bc, be, -⟩ := beginLater_same { s with tret := tret } tout task
    cases h3 with
    | skip _ _ h7 => cases h7
    | plain _ _ _ _ h7 => cases h7
    | again g0 g1 i1 i2 i3 i4 i5 i6 =>
      rcases i6 with ⟨i6, -⟩ | ⟨-, i6, i7⟩
      · cases i6
      rcases i6 with ⟨-, j, j1, j2⟩ | ⟨i6, -⟩
      swap
      · cases i6
      have hp : plusPoint (beginLater { s with tret := tret } tout task) =
          s1.r.tlo + rootTolerance s1 * Scalar.signum s1.c.hh := by
        unfold plusPoint
        rw [rootTol_eq, h4, bk.r.1]
        unfold rootTolerance
        rw [hf.c, hf.e]
      refine ⟨⟨j, ?_⟩, fun i hi => ?_⟩
      · rcases i7 j with ⟨k1, -⟩ | ⟨-, k1⟩
        · show s1.r.iroots j ≠ 0
          rw [k1]; exact one_ne_zero
        · exact absurd ⟨j1, Or.inr j2⟩ k1
      · rcases i7 i with ⟨-, -, k1 | k1⟩ | ⟨k1, -⟩
        · refine Or.inl ⟨g0 i, ?_, Or.inl k1⟩
          have := i2 i
          rw [bk.r.1] at this
          have h4 : s1.r.tlo = s.r.tlo := h4
          show SeenSol cfg _ s1.r.tlo i _
          rw [h4]
          exact this.mono (fun c h => h) rfl rfl rfl
        · refine Or.inr (Or.inr ⟨by rw [bi] at i1; exact i1, ?_⟩)
          have := i3 i
          rw [hp, k1] at this
          exact this
        · exact absurd k1 hi
  | rest s1 s2 hq hn h3 hf hqt h4 h5 h6 h7 h8 h9 h10 h11 =>
    subst h10
    have hnst : ¬ getNumSteps s < getNumSteps (State.setTret { s2 with r.irfnd := true } s2.r.tlo) := by
      obtain ⟨bk, bi, bc, be, bn, -⟩ := beginLater_same { s with tret := tret } tout task
      show ¬ s.cnt.nst < s2.cnt.nst
      rw [h9.frame.cnt, hf.cnt, bn]
      exact lt_irrefl _
    obtain ⟨k1, k2⟩ := searched_bracketed (s' := State.setTret { s2 with r.irfnd := true } s2.r.tlo) h6 h9 rfl rfl rfl rfl rfl
      (fun hx => absurd hx hnst)
    exact ⟨k1, fun i hi => (k2 i hi).imp id Or.inl⟩
  | stepped p s1 hq hA h3 h4 h5 =>
    subst h4
    obtain ⟨k1, k2⟩ := searched_bracketed (s' := State.setTret { s1 with r.irfnd := true } s1.r.tlo) hA.loop h3 rfl rfl rfl rfl
      rfl (fun _ => hA.ahead hq)
    exact ⟨k1, fun i hi => (k2 i hi).imp id Or.inl⟩
  | none h1 _ => exact absurd rfl h1

/-! ## C45 -/

/-- **C45, one search.** The search (from the time and values stored as its start) ends with a call of the root function,
given the solution, at the end of the searched interval; it reports a root *if and only if* some monitored component whose
direction is not filtered out has the opposite sign there or is zero there. -/
theorem c45_search_reports (cfg : Cfg ν n q K) (rf : Nat) (s s' : State ν n q K) (hh : s.c.hh ≠ 0)
    (r : Except Err RootStatus) (h : rCheck3 cfg rf s = .ret s' r) :
    ∃ g : Vec q K, (∀ i, SeenSol cfg s' (searchEnd s) i (g i)) ∧
      ((∃ i, s.r.gactive i = true ∧ (cfg.rootdir i : K) * s.r.glo i ≤ 0 ∧ (s.r.glo i * g i < 0 ∨ g i = 0)) ↔
        r = .ok .rootFound) := by
  obtain ⟨st, rfl, hS⟩ := (rCheck3_spec hh rf).1 _ _ h
  obtain ⟨g, h1, h2, -⟩ := hS.atEnd
  refine ⟨g, h1, ?_⟩
  rw [Except.ok.injEq, h2]
  unfold Reportable Crosses Vanishes DirAllows
  constructor
  · rintro ⟨i, a, b, c | c⟩
    · exact ⟨i, Or.inl ⟨a, b, c⟩⟩
    · exact ⟨i, Or.inr ⟨a, b, c⟩⟩
  · rintro ⟨i, ⟨a, b, c⟩ | ⟨a, b, c⟩⟩
    · exact ⟨i, a, b, Or.inl c⟩
    · exact ⟨i, a, b, Or.inr c⟩

/-- The value `x` of component `i` at the start `a` of a search: observed there; or observed after `a`, and `a` is the
initial time or a zero of the component. -/
def StartValue (cfg : Cfg ν n q K) (s : State ν n q K) (a : K) (i : Fin q) (x : K) : Prop :=
  Seen cfg s a i x ∨ ∃ u, 0 < (u - a) * s.c.hh ∧ Seen cfg s u i x ∧ (a = 0 ∨ Seen cfg s a i 0)

/-- **C45, in every history.** If a call of `solve` takes an internal step and returns anything but `Root` or an error,
then its last search, over an interval from `a` to `e` — the internal time, or `tout` if that is before the internal time
— in the direction of integration, has called the root function at both ends, and no component that is monitored and
not filtered out by its direction changes sign between the ends or is zero at `e`. Every component is monitored that was
not seen to vanish at `a`, unless the step was the first one (see `c48_first_step_refuted`). -/
theorem c45_no_sign_change_missed (cfg : Cfg ν n q K) (hl : NlsLegal cfg) (hm : 0 ≤ cfg.hmaxInv) (hk : NlsKeepsLog cfg)
    (rf sf : Nat) (s s' : State ν n q K) (h : Reach cfg s) (tout tret : K) (task : Task) (st : Status)
    (hs : exec cfg rf sf s (.solve tout tret task) = some (s', .solved (.ok st))) (hst : st ≠ .root) (hq : 0 < q)
    (hn : getNumSteps s < getNumSteps s') :
    ∃ (a e : K) (act : Fin q → Bool) (ga ge : Vec q K),
      0 < (e - a) * s'.c.hh ∧
      (e = getCurrentTime s' ∨ task = .normal ∧ e = tout ∧ (tout - getCurrentTime s') * s'.c.hh < 0) ∧
      (∀ i, StartValue cfg s' a i (ga i)) ∧ (∀ i, Seen cfg s' e i (ge i)) ∧
      (∀ i, act i = true → (cfg.rootdir i : K) * ga i ≤ 0 → 0 ≤ ga i * ge i ∧ ge i ≠ 0) ∧
      (1 < getNumSteps s' → ∀ i, act i = true ∨ Seen cfg s' a i 0) := by
  obtain ⟨-, hO⟩ := exec_root hl hm hk h hs
  cases hO with
  | close e _ _ _ h5 => cases h5
  | recheck s1 _ _ _ _ _ _ h6 => cases h6; exact absurd rfl hst
  | rest s1 s2 _ _ _ _ _ _ _ _ _ _ _ _ h6 => cases h6; exact absurd rfl hst
  | stepped p s1 _ _ _ _ h6 => cases h6; exact absurd rfl hst
  | none _ h2 =>
    obtain ⟨p, s1, hA, hS, hK⟩ := h2 hq hn st rfl
    obtain ⟨c, c1, c2⟩ := hK.hh
    obtain ⟨ge, g1, g2, g3⟩ := hS.atEnd
    have hlog : ∀ x, x ∈ p.m.log → x ∈ s'.m.log := fun x hx => hK.log x (hS.frame.log_sub x hx)
    have hhs : s'.c.hh = c * p.c.hh := by rw [c2, hS.frame.c]
    have htn : s'.e.tn = p.e.tn := by rw [hK.tn, hS.frame.e]
    refine ⟨p.r.tlo, searchEnd p, p.r.gactive, p.r.glo, ge, ?_, ?_, fun i => ?_, fun i => ((g1 i).seen).mono hK.log, ?_, ?_⟩
    · rw [hhs, mul_left_comm]; exact mul_pos c1 (hA.ahead hq)
    · unfold searchEnd
      rw [hA.taskc]
      cases task with
      | oneStep => exact Or.inl htn.symm
      | normal =>
        simp only [Scalar.ge, ex_le, decide_eq_true_eq]
        split
        · exact Or.inl htn.symm
        · rename_i h5
          refine Or.inr ⟨trivial, hA.toutc rfl, ?_⟩
          show (tout - s'.e.tn) * _ < 0
          rw [htn, hhs, mul_left_comm, ← hA.toutc rfl]
          exact mul_neg_of_pos_of_neg c1 (not_le.1 h5)
    · rcases hA.loop.lo i with h5 | ⟨u, h5, h6, h7⟩
      · exact Or.inl (h5.mono hlog)
      · refine Or.inr ⟨u, ?_, h6.mono hlog, h7.imp id (fun h => h.mono hlog)⟩
        rw [hhs, mul_left_comm]; exact mul_pos c1 h5
    · intro i hi hd
      have hno : ¬ ∃ i, Reportable cfg p.r.gactive p.r.glo ge i := fun hx => absurd (g2.2 hx) (by simp)
      constructor
      · by_contra hx
        exact hno ⟨i, Or.inl ⟨hi, hd, not_le.1 hx⟩⟩
      · intro hx
        exact hno ⟨i, Or.inr ⟨hi, hd, hx⟩⟩
    · intro hn1 i
      have : 1 < p.cnt.nst := by
        have hn1 : 1 < s'.cnt.nst := hn1
        rw [hK.nst, hS.frame.cnt] at hn1; exact hn1
      exact (hA.mon this i).imp id (fun h => h.mono hlog)

/-! ## C46 -/

/-- **C46.** A search calls the root function at the end of the interval and then at trial points `ts`. Each of these lies
strictly inside the current bracket, and shrinks it by at least half the root tolerance; their number is at most
`2 |end - start| / tolerance`, and they are what the evaluation counter is increased by. The search ends: it takes no more
turns than that. -/
theorem c46_search_ends (cfg : Cfg ν n q K) (s : State ν n q K) (hh : s.c.hh ≠ 0) (rf : Nat) :
    (∀ s' r, rCheck3 cfg rf s = .ret s' r → ∃ (ts : List K) (a b : K), CallsAt s s' (searchEnd s :: ts) ∧
      Narrowing (rootTolerance s) s.r.tlo (searchEnd s) ts a b ∧
      (ts.length : K) * rootTolerance s ≤ 2 * |searchEnd s - s.r.tlo| ∧
      getNumGEvals s' = getNumGEvals s + (ts.length + 1)) ∧
    (2 * |searchEnd s - s.r.tlo| < rf * rootTolerance s → rCheck3 cfg rf s ≠ .diverge) := by
  obtain ⟨h1, h2⟩ := rCheck3_spec (cfg := cfg) hh rf
  rw [rootTol_eq] at h2
  refine ⟨fun s' r h => ?_, fun h => h2 (by linarith)⟩
  obtain ⟨st, rfl, hS⟩ := h1 _ _ h
  obtain ⟨ts, a, b, k1, k2⟩ := hS.calls
  rw [rootTol_eq] at k2
  refine ⟨ts, a, b, k1, k2, ?_, ?_⟩
  · have := k2.length
    have h0 := abs_nonneg (b - a)
    linarith
  · obtain ⟨l, -, -, -, h5⟩ := k1
    show s'.r.nge = s.r.nge + _
    rw [h5, List.length_cons]

/-! ## C47 -/

/-- **C47, what `get_root_info` reports.** After a call of `solve` that took an internal step and returned `Root`, each
entry is 0, or it is the sign of a value of the component *before* `tret`, where the value at `tret` is zero or of the
opposite sign. So it is `-1` for an increasing crossing and `+1` for a decreasing one.

*Missing from the English claim:* it is false; the signs are exchanged, see `c47_direction_refuted`. -/
theorem c47_direction_partial (cfg : Cfg ν n q K) (hl : NlsLegal cfg) (hm : 0 ≤ cfg.hmaxInv) (hk : NlsKeepsLog cfg)
    (rf sf : Nat) (s s' : State ν n q K) (h : Reach cfg s) (tout tret : K) (task : Task)
    (hs : exec cfg rf sf s (.solve tout tret task) = some (s', .solved (.ok .root)))
    (hn : getNumSteps s < getNumSteps s') (i : Fin q) :
    getRootInfo s' i = 0 ∨ ∃ a x g, StartValue cfg s' a i x ∧ 0 < (s'.tret - a) * s'.c.hh ∧ SeenSol cfg s' s'.tret i g ∧
      (x * g < 0 ∨ g = 0) ∧ (getRootInfo s' i = -1 ∧ x < 0 ∧ 0 ≤ g ∨ getRootInfo s' i = 1 ∧ 0 ≤ x ∧ g ≤ 0) := by
  obtain ⟨-, hO⟩ := exec_root hl hm hk h hs
  have hbn := (beginLater_same { s with tret := tret } tout task).2.2.2.2.1
  cases hO with
  | close e _ _ _ h5 => cases h5
  | recheck s1 hq hn1 h3 hf h4 h5 h6 =>
    subst h5
    have hn : s.cnt.nst < s1.cnt.nst := hn
    rw [hf.cnt, hbn] at hn
    exact absurd hn (lt_irrefl _)
  | rest s1 s2 hq hn1 h3 hf hqt h4 h5 h6 h7 h8 h9 h10 h11 =>
    subst h10
    have hn : s.cnt.nst < s2.cnt.nst := hn
    rw [h9.frame.cnt, hf.cnt, hbn] at hn
    exact absurd hn (lt_irrefl _)
  | stepped p s1 hq hA hS h4 h5 =>
    subst h4
    obtain ⟨tl, gl, h1, ⟨a, b, ha, hab, hb, e1, e2⟩, h3, h4, -, -, -⟩ := hS.root rfl
    by_cases hr : Reportable cfg p.r.gactive gl s1.r.glo i
    swap
    · exact Or.inl (h4 i hr)
    refine Or.inr ⟨tl, gl i, s1.r.glo i, ?_, ?_, (hS.seen i).mono (fun c h => h) rfl rfl rfl, ?_, ?_⟩
    · rcases h1 with ⟨rfl, rfl⟩ | h1
      · have hpl := hS.frame.log_sub
        rcases hA.loop.lo i with h7 | ⟨u, h7, h8, h9⟩
        · exact Or.inl (h7.mono hpl)
        · refine Or.inr ⟨u, ?_, h8.mono hpl, h9.imp id (fun h => h.mono hpl)⟩
          show 0 < (u - _) * s1.c.hh
          rw [hS.frame.c]; exact h7
      · exact Or.inl ((h1 i).seen.mono (fun c h => h))
    · show 0 < (s1.r.tlo - tl) * s1.c.hh
      have e3 : s1.r.tlo - tl = (b - a) * (searchEnd p - p.r.tlo) := by rw [e1, e2]; ring
      rw [e3, hS.frame.c, mul_assoc]
      exact mul_pos (sub_pos.2 hab) (hA.ahead hq)
    · exact hr.imp (fun h => h.2.2) (fun h => h.2.2)
    · have h5 : getRootInfo (State.setTret { s1 with r.irfnd := true } s1.r.tlo) i = Scalar.signum (gl i) := h3 i hr
      rw [h5, ex_signum]
      have h6 := hr.imp (fun h => h.2.2) (fun h => h.2.2)
      by_cases hx : gl i < 0
      · rw [if_pos hx]
        refine Or.inl ⟨rfl, hx, ?_⟩
        rcases h6 with h6 | h6
        · exact (pos_of_mul_neg_right h6 hx.le).le
        · exact h6.ge
      · rw [if_neg hx]
        refine Or.inr ⟨rfl, not_lt.1 hx, ?_⟩
        rcases h6 with h6 | h6
        · exact (neg_of_mul_neg_right h6 (not_lt.1 hx)).le
        · exact h6.le
  | none h1 _ => exact absurd rfl h1

/-! ## C48 -/

/-- **C48, monitoring after the first step.** In every history with at least one internal step, every component of the root
function is monitored, or vanished at the start of the next search.

*Missing from the English claim:* the first step, see `c48_first_step_refuted`. -/
theorem c48_monitored_partial (cfg : Cfg ν n q K) (hl : NlsLegal cfg) (hm : 0 ≤ cfg.hmaxInv) (hk : NlsKeepsLog cfg)
    (s : State ν n q K) (h : Reach cfg s) (hn : 0 < getNumSteps s) (i : Fin q) :
    s.r.gactive i = true ∨ Seen cfg s s.r.tlo i 0 :=
  (h.root hl hm hk).mon hn i

/-! ## C49 -/

/-- **C49.** If a call of `solve` takes an internal step and returns `Root`, then the returned time is strictly after the
start of the search before the call, in the direction of integration, and not after the internal time, nor after `tout` in
normal mode; the next search starts there. -/
theorem c49_root_times (cfg : Cfg ν n q K) (hl : NlsLegal cfg) (hm : 0 ≤ cfg.hmaxInv) (hk : NlsKeepsLog cfg)
    (rf sf : Nat) (s s' : State ν n q K) (h : Reach cfg s) (tout tret : K) (task : Task)
    (hs : exec cfg rf sf s (.solve tout tret task) = some (s', .solved (.ok .root)))
    (hn : getNumSteps s < getNumSteps s') :
    0 < (s'.tret - s.r.tlo) * s'.c.hh ∧ 0 ≤ (getCurrentTime s' - s'.tret) * s'.c.hh ∧
    (task = .normal → 0 ≤ (tout - s'.tret) * s'.c.hh) ∧ s'.r.tlo = s'.tret := by
  obtain ⟨-, hO⟩ := exec_root hl hm hk h hs
  have hbn := (beginLater_same { s with tret := tret } tout task).2.2.2.2.1
  cases hO with
  | close e _ _ _ h5 => cases h5
  | recheck s1 hq hn1 h3 hf h4 h5 h6 =>
    subst h5
    have hn : s.cnt.nst < s1.cnt.nst := hn
    rw [hf.cnt, hbn] at hn
    exact absurd hn (lt_irrefl _)
  | rest s1 s2 hq hn1 h3 hf hqt h4 h5 h6 h7 h8 h9 h10 h11 =>
    subst h10
    have hn : s.cnt.nst < s2.cnt.nst := hn
    rw [h9.frame.cnt, hf.cnt, hbn] at hn
    exact absurd hn (lt_irrefl _)
  | stepped p s1 hq hA hS h4 h5 =>
    subst h4
    obtain ⟨b, b1, b2, b3⟩ := hS.pos
    show 0 < (s1.r.tlo - s.r.tlo) * s1.c.hh ∧ 0 ≤ (s1.e.tn - s1.r.tlo) * s1.c.hh ∧
      (task = .normal → 0 ≤ (tout - s1.r.tlo) * s1.c.hh) ∧ s1.r.tlo = s1.r.tlo
    rw [hS.frame.c, hS.frame.e]
    have k1 := hA.ahead hq
    have k2 : 0 ≤ (p.r.tlo - s.r.tlo) * p.c.hh := hA.onward hq
    have k3 := searchEnd_le p
    have k4 : 0 ≤ (searchEnd p - s1.r.tlo) * p.c.hh := by
      have : searchEnd p - s1.r.tlo = (1 - b) * (searchEnd p - p.r.tlo) := by rw [b3]; ring
      rw [this, mul_assoc]
      exact mul_nonneg (sub_nonneg.2 b2) k1.le
    have k5 : 0 < (s1.r.tlo - p.r.tlo) * p.c.hh := by
      rw [b3, add_sub_cancel_left, mul_assoc]; exact mul_pos b1 k1
    refine ⟨by linarith, by linarith, fun ht => ?_, rfl⟩
    have k6 : 0 ≤ (tout - searchEnd p) * p.c.hh := by
      unfold searchEnd
      rw [hA.taskc, ht, hA.toutc ht]
      simp only [Scalar.ge, ex_le, decide_eq_true_eq]
      split
      · rename_i h6; exact h6
      · simp
    linarith
  | none h1 _ => exact absurd rfl h1

end

/-! ## Concrete runs -/

section
attribute [local instance] ratParams ratEps

/-- A problem with one root function, of the time only. -/
def timed (g : ℚ → ℚ) : Problem 1 1 ℚ where
  res _ y yp _ := fun i => yp i + y i
  jac _ cj _ _ _ _ := fun _ _ => cj + 1
  root t _ _ _ := fun _ => g t

/-- Its configuration, with a scripted nonlinear solver. -/
def timedCfg (g : ℚ → ℚ) (l : List (ℚ × Except Err Unit)) : Cfg Nat 1 1 ℚ :=
  Cfg.std (timed g) (fun _ _ _ => 1) (Witness.script (Witness.table l))

def timed0 : State Nat 1 1 ℚ := State.new 0 (fun _ => 1) (fun _ => -1)

theorem timed_legal (g : ℚ → ℚ) (l : List (ℚ × Except Err Unit)) (h : ∀ p ∈ l, ∀ e, p.2 = .error e → e.fromNls) :
    NlsLegal (timedCfg g l) := by
  intro N e m y0 y w tol call N' m' ee err hs
  have h2 : (Witness.table l N).2 = .error err := by
    have := congrArg (fun o : NlOut Nat 1 ℚ => match o with | .ret _ _ _ r => r | _ => .ok ()) hs
    exact this
  unfold Witness.table at h2
  cases hx : l[N]? with
  | none => rw [hx] at h2; cases h2
  | some p =>
    rw [hx] at h2
    exact h p (List.mem_of_getElem? hx) err h2

theorem timed_keepsLog (g : ℚ → ℚ) (l : List (ℚ × Except Err Unit)) : NlsKeepsLog (timedCfg g l) := by
  intro N e m y0 y w tol call N' m' ee r hs
  cases hs
  exact ⟨[], rfl⟩

/-- The first attempt fails in the nonlinear solver, and so does the second. -/
def twoFailures : List (ℚ × Except Err Unit) :=
  [(0, .error (.ida (.recoverableFail .lSolve))), (0, .error (.ida (.recoverableFail .lSolve)))]

/-- Zero at the initial time, then negative, and positive from `1/12` on. -/
def dip (t : ℚ) : ℚ := if t = 0 then 0 else if t < 1 / 12 then -1 else 1

/-- **C44: refutation.** A root function that is zero at the initial time is then monitored with its value at
`t0 + max(0.1, …) h`. If convergence failures shrink the first step below that point, a sign change is searched between
the initial time and the end of the step although the value used for the initial time belongs to neither. Here the first
step ends at `1/16`; the function is zero at 0 and `-1` up to `1/12`, and yet `Root` is returned at a time where the
function is `-1`, and never positive before. -/
theorem c44_bracketed_refuted : ∃ s' : State Nat 1 1 ℚ,
    exec (timedCfg dip twoFailures) 200 10 timed0 (.solve 1000 0 .oneStep) = some (s', .solved (.ok .root)) ∧
    0 < s'.tret ∧ s'.tret < getCurrentTime s' ∧ getRootInfo s' 0 = 1 ∧ dip s'.tret = -1 ∧
    ∀ t, t ≤ s'.tret → dip t ≤ 0 := by
  obtain ⟨s', r, h1, hP⟩ := Witness.exec_one (cfg := timedCfg dip twoFailures) (rf := 200) (sf := 10) (s := timed0)
    (a := .solve 1000 0 .oneStep) (P := fun p r => Witness.Res.isStatus .root r &&
      decide ((0 : ℚ) < p.tret ∧ p.tret < 1 / 12 ∧ p.tret < getCurrentTime p ∧ getRootInfo p 0 = 1)) (by decide +kernel)
  simp only [Bool.and_eq_true, decide_eq_true_eq] at hP
  obtain ⟨h2, h3, h4, h5, h6⟩ := hP
  rw [Witness.Res.isStatus_iff.1 h2] at h1
  refine ⟨s', h1, h3, h5, h6, ?_, fun t ht => ?_⟩
  · unfold dip; rw [if_neg h3.ne', if_pos h4]
  · unfold dip
    have : t < 1 / 12 := lt_of_le_of_lt ht h4
    rw [if_pos this]
    split <;> norm_num

/-- The time relative to `c`. -/
def ramp (c t : ℚ) : ℚ := t - c

theorem ramp_legal (c : ℚ) : NlsLegal (timedCfg (ramp c) []) := timed_legal _ _ (fun p h => by cases h)

/-- Two one-step calls; the internal steps end at 1 and 2. -/
theorem ramp_run : ∃ s1 s2 : State Nat 1 1 ℚ,
    exec (timedCfg (ramp (3 / 2)) []) 100 10 timed0 (.solve 1000 0 .oneStep) = some (s1, .solved (.ok .success)) ∧
    exec (timedCfg (ramp (3 / 2)) []) 100 10 s1 (.solve 1000 0 .oneStep) = some (s2, .solved (.ok .root)) ∧
    getNumSteps s1 = 1 ∧ getNumSteps s2 = 2 ∧ s2.tret = 3 / 2 ∧ getRootInfo s2 0 = -1 := by
  obtain ⟨s1, r1, s2, r2, h1, h2, hP⟩ := exec_two (cfg := timedCfg (ramp (3 / 2)) []) (rf := 100) (sf := 10) (s := timed0)
    (a := .solve 1000 0 .oneStep) (b := .solve 1000 0 .oneStep)
    (P := fun p r p' r' => Witness.Res.isStatus .success r && Witness.Res.isStatus .root r' &&
      decide (getNumSteps p = 1 ∧ getNumSteps p' = 2 ∧ p'.tret = (3 / 2 : ℚ) ∧ getRootInfo p' 0 = -1)) (by decide +kernel)
  simp only [Bool.and_eq_true, decide_eq_true_eq, Witness.Res.isStatus_iff] at hP
  obtain ⟨⟨rfl, rfl⟩, h3⟩ := hP
  exact ⟨s1, s2, h1, h2, h3⟩

/-- **C47: refutation.** The root function `t - 3/2` increases, and `get_root_info` reports `-1` (the documentation says `1`
for an increasing and `-1` for a decreasing function). -/
theorem c47_direction_refuted : ∃ s s' : State Nat 1 1 ℚ, Reach (timedCfg (ramp (3 / 2)) []) s ∧
    exec (timedCfg (ramp (3 / 2)) []) 100 10 s (.solve 1000 0 .oneStep) = some (s', .solved (.ok .root)) ∧
    s'.tret = 3 / 2 ∧ (∀ t t', t < t' → ramp (3 / 2) t < ramp (3 / 2) t') ∧ ramp (3 / 2) s'.tret = 0 ∧
    getRootInfo s' 0 = -1 := by
  obtain ⟨s1, s2, h1, h2, -, -, h3, h4⟩ := ramp_run
  exact ⟨s1, s2, .call _ _ _ _ (.new _ _ _ none) h1, h2, h3, fun t t' h => by unfold ramp; linarith, by rw [h3]; unfold ramp; norm_num, h4⟩

/-- **C48: refutation.** The root function `t - 1/2` is nonzero at the initial time, and changes sign during the first
step, from 0 to 1; the call that takes this step returns `Success` (and no later search covers the interval). -/
theorem c48_first_step_refuted : ∃ s' : State Nat 1 1 ℚ,
    exec (timedCfg (ramp (1 / 2)) []) 100 10 timed0 (.solve 1000 0 .oneStep) = some (s', .solved (.ok .success)) ∧
    getNumSteps s' = 1 ∧ s'.tret = 1 ∧ s'.r.tlo = 1 ∧ ramp (1 / 2) 0 < 0 ∧ 0 < ramp (1 / 2) s'.tret := by
  obtain ⟨s', r, h1, hP⟩ := Witness.exec_one (cfg := timedCfg (ramp (1 / 2)) []) (rf := 100) (sf := 10) (s := timed0)
    (a := .solve 1000 0 .oneStep) (P := fun p r => Witness.Res.isStatus .success r &&
      decide (getNumSteps p = 1 ∧ p.tret = (1 : ℚ) ∧ p.r.tlo = (1 : ℚ))) (by decide +kernel)
  simp only [Bool.and_eq_true, decide_eq_true_eq, Witness.Res.isStatus_iff] at hP
  obtain ⟨rfl, h2, h3, h4⟩ := hP
  exact ⟨s', h1, h2, h3, h4, by unfold ramp; norm_num, by rw [h3]; unfold ramp; norm_num⟩

/-- The hypotheses of `c44_bracketed_partial`, `c47_direction_partial` and `c49_root_times` are met by the second call of
`ramp_run`. -/
example : ∃ s s' : State Nat 1 1 ℚ, Reach (timedCfg (ramp (3 / 2)) []) s ∧
    exec (timedCfg (ramp (3 / 2)) []) 100 10 s (.solve 1000 0 .oneStep) = some (s', .solved (.ok .root)) ∧
    getNumSteps s < getNumSteps s' ∧ 0 < (s'.tret - s.r.tlo) * s'.c.hh := by
  obtain ⟨s1, s2, h1, h2, h3, h4, -⟩ := ramp_run
  have hr : Reach (timedCfg (ramp (3 / 2)) []) s1 := .call _ _ _ _ (.new _ _ _ none) h1
  have hn : getNumSteps s1 < getNumSteps s2 := by rw [h3, h4]; decide
  exact ⟨s1, s2, hr, h2, hn,
    (c49_root_times _ (ramp_legal _) (by show (0 : ℚ) ≤ 0; exact le_refl _) (timed_keepsLog _ _) _ _ _ _ hr _ _ _ h2 hn).1⟩

/-- The hypotheses of `c45_no_sign_change_missed` and `c48_monitored_partial` are met by its first call. -/
example : ∃ s s' : State Nat 1 1 ℚ, Reach (timedCfg (ramp (3 / 2)) []) s ∧
    exec (timedCfg (ramp (3 / 2)) []) 100 10 s (.solve 1000 0 .oneStep) = some (s', .solved (.ok .success)) ∧
    getNumSteps s < getNumSteps s' ∧ (s'.r.gactive 0 = true ∨ Seen (timedCfg (ramp (3 / 2)) []) s' s'.r.tlo 0 0) := by
  obtain ⟨s1, s2, h1, h2, h3, h4, -⟩ := ramp_run
  have hr : Reach (timedCfg (ramp (3 / 2)) []) s1 := .call _ _ _ _ (.new _ _ _ none) h1
  exact ⟨timed0, s1, .new _ _ _ none, h1, by rw [h3]; decide,
    c48_monitored_partial _ (ramp_legal _) (by show (0 : ℚ) ≤ 0; exact le_refl _) (timed_keepsLog _ _) _ hr (by rw [h3]; decide) 0⟩

/-- The hypotheses of `c45_search_reports` and `c46_search_ends`: a search over `[0, 1]` that finds the root of `t - 1/2`. -/
example : (match rCheck3 (timedCfg (ramp (1 / 2)) []) 100 { timed0 with
      e.tn := 1, c.hh := 1, r.taskc := .oneStep, r.glo := fun _ => -1 / 2, r.gactive := fun _ => true } with
    | .ret s' (.ok .rootFound) => decide (s'.r.tlo = (1 / 2 : ℚ))
    | _ => false) = true := by decide +kernel

end

end Verif.Props
