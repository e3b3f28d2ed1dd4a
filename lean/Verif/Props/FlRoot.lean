import Verif.Proofs.FlSide
import Verif.B64
import Verif.Witness
import Verif.Model.Io
import Verif.Props.Step
import Verif.Props.FlControl
import Verif.Props.FirstCall

/-!
# Rootfinding in floating-point arithmetic (C87, C88, C89)

`F` is any correctly rounded floating-point arithmetic whose unit roundoff is at most 1/200, `♯a` is the number `a`
represents.  The tolerance, the trial points, the products whose signs are tested and the times are all computed in `F`.
Histories are those of `ReachSide` (`Spec/FlRoot.lean`): all times asked for lie on the same side of the initial time 0.
-/

set_option autoImplicit false
set_option linter.unusedSectionVars false

namespace Verif.Props

open Verif Verif.Spec Verif.FlControl

universe u v w

section
variable {ν : Type w} {n q : Nat} {F : Type u} {K : Type v} [Scalar F] [Field K] [LinearOrder K] [IsStrictOrderedRing K]
  [S : Correct F K] [RootLits F K]

local prefix:max "♯" => StdModel.val (F := F) (K := K)
local notation "μ" => (StdModel.u (F := F) (K := K))

/-- Times asked for on one side of the initial time, and the next one too: what is known before the call. -/
theorem before_call {σ : K} (hu : 200 * μ ≤ 1) (hσ : σ = 1 ∨ σ = -1) {cfg : Cfg ν n q F} (hl : NlsLegal cfg)
    (hm : 0 ≤ ♯cfg.hmaxInv) (hk : NlsKeepsLog cfg) {s : State ν n q F} (h : ReachSide σ cfg s) (tret : F) :
    FlControl.CtlInv (K := K) cfg { s with tret := tret } ∧ SideInv σ cfg { s with tret := tret } :=
  ⟨(reach_ctl hl hm (reachSide_reach h)).of_frame hm (by frame_rfl),
    FKeep.inv (FKeep.of_eq (s := s) rfl rfl rfl rfl rfl) (reachSide_inv hu hσ hl hm hk h)⟩

/-! ## C87 -/

/-- **C87.** In floating-point arithmetic every call of `solve` ends, with root functions whatever their values: `rf` turns
in each search suffice if `39 rf epsilon ≥ 1`, and `mxstep + 1` internal steps. -/
theorem c87_call_ends (σ : K) (hu : 200 * μ ≤ 1) (hσ : σ = 1 ∨ σ = -1) (cfg : Cfg ν n q F) (hl : NlsLegal cfg)
    (hr : NlsReturns cfg) (hm : 0 ≤ ♯cfg.hmaxInv) (hk : NlsKeepsLog cfg) (hx : 0 < cfg.mxstep) (rf sf : Nat)
    (hrf : 1 ≤ (rf : K) * (39 * ♯Scalar.eps)) (hsf : cfg.mxstep < sf) (s : State ν n q F) (h : ReachSide σ cfg s)
    (tout tret : F) (task : Task) (ht : 0 ≤ σ * ♯tout) :
    solve cfg rf sf { s with tret := tret } tout task ≠ .diverge :=
  have hb := before_call hu hσ hl hm hk h tret
  solve_ends_side hu hσ hl hm hk hx hsf (fun p => (c30_attempts_bounded cfg hl p).1 hr) ht hb.1 hb.2 hrf

/-- **C87, one search.** A search calls the root function at the end of the interval and then at trial points `ts`; each of
these lies strictly inside the current bracket and shrinks it by at least 2/5 of the root tolerance, which is between
`98 epsilon (|t| + |h|)` and `103 epsilon (|t| + |h|)`. -/
theorem c87_search (hu : 200 * μ ≤ 1) (cfg : Cfg ν n q F) (s : State ν n q F) (hh : ♯s.c.hh ≠ 0)
    (hlo : |♯s.r.tlo| ≤ |♯s.e.tn| + |♯s.c.hh|) (hend : |♯(searchEnd s)| ≤ |♯s.e.tn| + |♯s.c.hh|) (rf : Nat)
    (s' : State ν n q F) (r : Except Err RootStatus) (h : rCheck3 cfg rf s = .ret s' r) :
    ∃ (ts : List F) (a : F) (tol : K), 98 * ♯Scalar.eps * (|♯s.e.tn| + |♯s.c.hh|) ≤ tol ∧
      tol ≤ 103 * ♯Scalar.eps * (|♯s.e.tn| + |♯s.c.hh|) ∧ CallsAt s s' (searchEnd s :: ts) ∧
      Narrowing (4 / 5 * tol) ♯s.r.tlo ♯(searchEnd s) (ts.map (StdModel.val (K := K))) ♯a ♯s'.r.tlo := by
  obtain ⟨st, -, h2⟩ := (rCheck3_fl hu hh hlo hend rf).1 _ _ h
  obtain ⟨ts, a, h3, h4, -⟩ := h2.calls
  exact ⟨ts, a, _, (rootTol_fl hu s).1, (rootTol_fl hu s).2, h3, h4⟩

/-! ## C88 -/

/-- **C88.** A call that returns `Root`, in floating-point arithmetic: unless it repeats the root that the call before it
reported (the first alternative: the function is zero right after it), there is a component of the root function that was
seen to be zero at the returned time, or to have opposite signs there and at a point at most
`104 epsilon (|t| + |h|)` away; and the returned time lies between the initial time and the internal time. -/
theorem c88_root_reported (σ : K) (hu : 200 * μ ≤ 1) (hσ : σ = 1 ∨ σ = -1) (cfg : Cfg ν n q F) (hl : NlsLegal cfg)
    (hm : 0 ≤ ♯cfg.hmaxInv) (hk : NlsKeepsLog cfg) (rf sf : Nat) (s s' : State ν n q F) (h : ReachSide σ cfg s)
    (tout tret : F) (task : Task) (ht : 0 ≤ σ * ♯tout)
    (hs : exec cfg rf sf s (.solve tout tret task) = some (s', .solved (.ok .root))) :
    (s.r.irfnd = true ∧ s'.tret = s.r.tlo ∧ ∃ i t g, 0 ≤ σ * (♯t - ♯s'.tret) ∧ SeenAt cfg s' t i g ∧ ♯g = 0) ∨
    ((∃ i, CrossesAt σ cfg s' (104 * ♯Scalar.eps * (|♯(getCurrentTime s')| + |♯(getCurrentStep s')|)) s'.tret i) ∧
      0 ≤ σ * ♯s'.tret ∧ 0 ≤ σ * (♯(getCurrentTime s') - ♯s'.tret)) := by
  obtain ⟨h1, h2⟩ := before_call hu hσ hl hm hk h tret
  unfold exec at hs
  simp only at hs
  split at hs
  · rename_i s1 r1 h3
    cases hs
    exact (solve_side hu hσ hl hm hk ht h1 h2 h3).2.1 rfl
  · cases hs

/-! ## C89 -/

/-- **C89, one search (partial).** In floating-point arithmetic with unlimited exponents a search reports a root *if and
only if* some monitored component whose direction is not filtered out has the opposite sign at the end of the interval or
is zero there.  Missing: underflow, with which it does not (`c89_underflow_refuted`). -/
theorem c89_search_reports_partial (hu : 200 * μ ≤ 1) (cfg : Cfg ν n q F) (s : State ν n q F) (hh : ♯s.c.hh ≠ 0)
    (hlo : |♯s.r.tlo| ≤ |♯s.e.tn| + |♯s.c.hh|) (hend : |♯(searchEnd s)| ≤ |♯s.e.tn| + |♯s.c.hh|) (rf : Nat)
    (s' : State ν n q F) (r : Except Err RootStatus) (h : rCheck3 cfg rf s = .ret s' r) :
    ∃ g : Vec q F, (∀ i, SeenAt cfg s' (searchEnd s) i (g i)) ∧
      ((∃ i, s.r.gactive i = true ∧ (cfg.rootdir i : K) * ♯(s.r.glo i) ≤ 0 ∧ (♯(s.r.glo i) * ♯(g i) < 0 ∨ ♯(g i) = 0)) ↔
        r = .ok .rootFound) := by
  obtain ⟨st, rfl, hS⟩ := (rCheck3_fl hu hh hlo hend rf).1 _ _ h
  obtain ⟨g, h1, h2, -⟩ := hS.atEnd
  refine ⟨g, h1, ?_⟩
  rw [Except.ok.injEq, h2]
  unfold FReport Changes IsZero Allowed
  constructor
  · rintro ⟨i, a, b, c | c⟩
    · exact ⟨i, Or.inl ⟨a, b, c⟩⟩
    · exact ⟨i, Or.inr ⟨a, b, c⟩⟩
  · rintro ⟨i, ⟨a, b, c⟩ | ⟨a, b, c⟩⟩
    · exact ⟨i, a, b, Or.inl c⟩
    · exact ⟨i, a, b, Or.inr c⟩

/-- **C89, in every history (partial).** If a call of `solve` takes an internal step and returns anything but `Root` or an
error, then its last search, from `a` to `e` — the internal time, or `tout` if that is before the internal time — has called
the root function at both ends, and no component that is monitored and not filtered out by its direction changes sign
between the ends or is zero at `e`; every component is monitored that was not seen to vanish at `a`, unless the step was
the first one.  Missing: underflow (`c89_underflow_refuted`). -/
theorem c89_no_sign_change_missed_partial (σ : K) (hu : 200 * μ ≤ 1) (hσ : σ = 1 ∨ σ = -1) (cfg : Cfg ν n q F)
    (hl : NlsLegal cfg) (hm : 0 ≤ ♯cfg.hmaxInv) (hk : NlsKeepsLog cfg) (rf sf : Nat) (s s' : State ν n q F)
    (h : ReachSide σ cfg s) (tout tret : F) (task : Task) (ht : 0 ≤ σ * ♯tout) (st : Status)
    (hs : exec cfg rf sf s (.solve tout tret task) = some (s', .solved (.ok st))) (hst : st ≠ .root) (hq : 0 < q)
    (hn : getNumSteps s < getNumSteps s') :
    ∃ (a e : F) (act : Fin q → Bool) (ga ge : Vec q F),
      0 ≤ σ * ♯a ∧ 0 ≤ σ * (♯(getCurrentTime s') - ♯a) ∧
      (e = getCurrentTime s' ∨ task = .normal ∧ e = tout ∧ 0 ≤ σ * (♯(getCurrentTime s') - ♯tout)) ∧
      (∀ i, StartsWith σ cfg s' a i (ga i)) ∧ (∀ i, SeenAt cfg s' e i (ge i)) ∧
      (∀ i, act i = true → (cfg.rootdir i : K) * ♯(ga i) ≤ 0 → 0 ≤ ♯(ga i) * ♯(ge i) ∧ ♯(ge i) ≠ 0) ∧
      (1 < getNumSteps s' → ∀ i, act i = true ∨ ∃ z, ♯z = 0 ∧ SeenAt cfg s' a i z) := by
  obtain ⟨h1, h2⟩ := before_call hu hσ hl hm hk h tret
  unfold exec at hs
  simp only at hs
  split at hs
  · rename_i s1 r1 h3
    cases hs
    obtain ⟨p, s1, hA, hS, hK⟩ := (solve_side hu hσ hl hm hk ht h1 h2 h3).2.2 st rfl hst hq hn
    obtain ⟨ge, g1, g2, -⟩ := hS.atEnd
    have hlog : ∀ x, x ∈ p.m.log → x ∈ s'.m.log := fun x hx => hK.log x (hS.frame.log_subF x hx)
    have htn : s'.e.tn = p.e.tn := by rw [hK.tn, hS.frame.e]
    have hE := searchEnd_side hq hA.side (fun hn => by rw [hA.toutc (hA.taskc.symm.trans hn)]; exact ht)
    refine ⟨p.r.tlo, searchEnd p, p.r.gactive, p.r.glo, ge, hA.side.lo hq, ?_, ?_, fun i => (hA.side.start i).mono hlog,
      fun i => (g1 i).mono hK.log, fun i ha hd => ?_, fun h1n i => ?_⟩
    · show 0 ≤ σ * (♯s'.e.tn - _)
      rw [htn]; exact hA.side.ahead hq
    · have hE2 := hE.2
      unfold searchEnd at hE2 ⊢
      unfold getCurrentTime
      rw [htn]
      split
      · exact Or.inl rfl
      · rename_i hn'
        have hnorm : task = .normal := hA.taskc.symm.trans hn'
        split
        · exact Or.inl rfl
        · rename_i hx
          simp only [hn', if_neg hx] at hE2
          rw [hA.toutc hnorm] at hE2 ⊢
          exact Or.inr ⟨hnorm, rfl, hE2⟩
    · have hno : ¬ ∃ i, FReport (K := K) cfg p.r.gactive i (p.r.glo i) (ge i) := fun hx => by
        have := g2.2 hx; cases this
      constructor
      · by_contra hneg
        exact hno ⟨i, Or.inl ⟨ha, hd, not_le.1 hneg⟩⟩
      · intro hz
        exact hno ⟨i, Or.inr ⟨ha, hd, hz⟩⟩
    · have h1n : 1 < s'.cnt.nst := h1n
      rw [hK.nst, hS.frame.cnt] at h1n
      refine (hA.side.mon h1n i).imp id ?_
      rintro ⟨z, z1, z2⟩
      exact ⟨z, z1, z2.mono hlog⟩
  · cases hs

end

/-! ## Witnesses -/

section witness

instance {p : ℕ} [hp : Fact (4 ≤ p)] : RootLits (Bin p) ℚ where
  half := Bin.of_pow2 (-1) (1 / 2) (by norm_num)
  two := Bin.of_pos (by norm_num)
  five := Bin.rnd_err p 5
  pt1 := Bin.rnd_err p (1 / 10)
  hundred := Bin.rnd_err p 100
  eps := Correct.eps_ge
  eps_pos := Bin.of_pos (by positivity)
  signum_pos a h := by
    have h : 0 < a.v := h
    show (if a.v < 0 then (Bin.of (-1) : Bin p) else Bin.of 1).v = 1
    rw [if_neg (not_lt.2 h.le)]
    exact Bin.of_pow2 0 1 (by norm_num)
  signum_neg a h := by
    have h : a.v < 0 := h
    show (if a.v < 0 then (Bin.of (-1) : Bin p) else Bin.of 1).v = -1
    rw [if_pos h]
    have := Bin.rnd_neg_fix (Bin.rnd_pow2 p 0)
    rw [zpow_zero] at this
    exact this
  max a b := by
    show b.v ≤ (if a.v < b.v then b else a).v
    split
    · exact le_refl _
    · rename_i h; exact not_lt.1 h

variable {F : Type} [Scalar F]

/-- A problem with one root function, of the time only. -/
def clock (g : F → F) : Problem 1 1 F where
  res _ y yp _ := fun i => yp i + y i
  jac _ cj _ _ _ _ := fun _ _ => cj + 1
  root t _ _ _ := fun _ => g t

/-- A nonlinear solver that always succeeds. -/
def always : NlSolver Nat 1 F where
  solve N _ m _ _ _ _ _ := .ret (N + 1) m (fun _ => 0) (.ok ())
  numIters N := N

def clockCfg (g : F → F) : Cfg Nat 1 1 F := Cfg.std (clock g) (fun _ _ _ => 1) always

def clock0 : State Nat 1 1 F := State.new 0 (fun _ => 1) (fun _ => -1)

theorem clock_legal (g : F → F) : NlsLegal (clockCfg g) := by
  intro N e m y0 y w tol call N' m' ee err h
  cases h

theorem clock_returns (g : F → F) : NlsReturns (clockCfg g) := by
  intro N e m y0 y w tol call
  intro h; cases h

theorem clock_keepsLog (g : F → F) : NlsKeepsLog (clockCfg g) := by
  intro N e m y0 y w tol call N' m' ee r h
  cases h
  exact ⟨[], rfl⟩

/-- `2 ^ -600 (t - 3/2)`, in 53-bit arithmetic with unlimited exponents. -/
def faint (t : Bin 52) : Bin 52 := (t - Bin.of (3 / 2)) * Bin.of (1 / 2 ^ 600)

/-- The same in binary64. -/
def faint64 (t : B64) : B64 := (t - B64.of (3 / 2)) * B64.of (1 / 2 ^ 600)

/-- Two one-step calls; the internal steps end at 1 and 2, and the second call returns the root at 3/2. -/
theorem faint_run : ∃ s1 s2 : State Nat 1 1 (Bin 52),
    exec (clockCfg faint) 100 10 clock0 (.solve (Bin.of 1000) 0 .oneStep) = some (s1, .solved (.ok .success)) ∧
    exec (clockCfg faint) 100 10 s1 (.solve (Bin.of 1000) 0 .oneStep) = some (s2, .solved (.ok .root)) ∧
    getNumSteps s1 = 1 ∧ getNumSteps s2 = 2 ∧ s2.tret.v = 3 / 2 ∧ s1.r.irfnd = false := by
  obtain ⟨s1, r1, s2, r2, h1, h2, hP⟩ := exec_two (cfg := clockCfg faint) (rf := 100) (sf := 10) (s := clock0)
    (a := .solve (Bin.of 1000) 0 .oneStep) (b := .solve (Bin.of 1000) 0 .oneStep)
    (P := fun p r p' r' => Witness.Res.isStatus .success r && Witness.Res.isStatus .root r' &&
      decide (getNumSteps p = 1 ∧ getNumSteps p' = 2 ∧ p'.tret.v = (3 / 2 : ℚ) ∧ p.r.irfnd = false)) (by decide +kernel)
  simp only [Bool.and_eq_true, decide_eq_true_eq, Witness.Res.isStatus_iff] at hP
  obtain ⟨⟨rfl, rfl⟩, h3⟩ := hP
  exact ⟨s1, s2, h1, h2, h3⟩

/-- **C89: refutation.** The root function `2 ^ -600 (t - 3/2)` in binary64: it is negative at 1, the end of the first
step, and positive at 2, the end of the second step; both values and their signs are exact.  The call that takes the
second step returns `Success`, at 2.  (The product of the two values underflows to zero.)  With unlimited exponents the same
run returns `Root` at 3/2 (`faint_run`). -/
theorem c89_underflow_refuted : ∃ s1 s2 : State Nat 1 1 B64,
    exec (clockCfg faint64) 100 10 clock0 (.solve (B64.of 1000) 0 .oneStep) = some (s1, .solved (.ok .success)) ∧
    exec (clockCfg faint64) 100 10 s1 (.solve (B64.of 1000) 0 .oneStep) = some (s2, .solved (.ok .success)) ∧
    getNumSteps s1 = 1 ∧ getNumSteps s2 = 2 ∧ s1.tret.v = 1 ∧ s2.tret.v = 2 ∧ s2.r.gactive 0 = true ∧
    (faint64 s1.tret).v = -1 / 2 ^ 601 ∧ (faint64 s2.tret).v = 1 / 2 ^ 601 ∧ getNumGEvals s2 = getNumGEvals s1 + 1 := by
  obtain ⟨s1, r1, s2, r2, h1, h2, hP⟩ := exec_two (cfg := clockCfg faint64) (rf := 100) (sf := 10) (s := clock0)
    (a := .solve (B64.of 1000) 0 .oneStep) (b := .solve (B64.of 1000) 0 .oneStep)
    (P := fun p r p' r' => Witness.Res.isStatus .success r && Witness.Res.isStatus .success r' &&
      decide (getNumSteps p = 1 ∧ getNumSteps p' = 2 ∧ p.tret.v = (1 : ℚ) ∧ p'.tret.v = (2 : ℚ) ∧ p'.r.gactive 0 = true ∧
        (faint64 p.tret).v = (-1 / 2 ^ 601 : ℚ) ∧ (faint64 p'.tret).v = (1 / 2 ^ 601 : ℚ) ∧
        getNumGEvals p' = getNumGEvals p + 1)) (by decide +kernel)
  simp only [Bool.and_eq_true, decide_eq_true_eq, Witness.Res.isStatus_iff] at hP
  obtain ⟨⟨rfl, rfl⟩, h3⟩ := hP
  exact ⟨s1, s2, h1, h2, h3⟩

/-- The hypotheses of `c88_root_reported` hold for the second call of `faint_run`, those of
`c89_no_sign_change_missed_partial` for the first, those of `c87_call_ends` for any call after it (with `2^52` turns). -/
example : ∃ s1 s2 : State Nat 1 1 (Bin 52), ReachSide (1 : ℚ) (clockCfg faint) s1 ∧
    (∃ (a e : Bin 52) (act : Fin 1 → Bool) (ga ge : Vec 1 (Bin 52)), (∀ i, StartsWith (1 : ℚ) (clockCfg faint) s1 a i (ga i)) ∧
      (∀ i, SeenAt (clockCfg faint) s1 e i (ge i)) ∧ ∀ i, act i = true → 0 ≤ (ga i).v * (ge i).v ∧ (ge i).v ≠ 0) ∧
    s2.tret.v = 3 / 2 ∧
    (∃ i, CrossesAt (1 : ℚ) (clockCfg faint) s2 (104 * StdModel.val (K := ℚ) (Scalar.eps : Bin 52) *
      (|(getCurrentTime s2).v| + |(getCurrentStep s2).v|)) s2.tret i) ∧
    ∀ tout : Bin 52, 0 ≤ tout.v → solve (clockCfg faint) (2 ^ 52) 501 { s1 with tret := 0 } tout .normal ≠ .diverge := by
  obtain ⟨s1, s2, h1, h2, h3, h4, h5, h6⟩ := faint_run
  have hu : 200 * (StdModel.u (F := Bin 52) (K := ℚ)) ≤ 1 := by
    show 200 * ((1 : ℚ) / 2) ^ 52 ≤ 1
    norm_num
  have hm : 0 ≤ StdModel.val (K := ℚ) (clockCfg faint).hmaxInv := by decide +kernel
  have ht : ∀ tout : Bin 52, 0 ≤ tout.v → 0 ≤ (1 : ℚ) * StdModel.val (K := ℚ) tout := fun t h => by rw [one_mul]; exact h
  have hp : (0 : ℚ) ≤ (Bin.of 1000 : Bin 52).v := by decide +kernel
  have hr : ReachSide (1 : ℚ) (clockCfg faint) s1 := .call _ _ _ _ (.new _ _ _ none)
    (fun tout tret task h => by cases h; exact ht _ hp) h1
  refine ⟨s1, s2, hr, ?_, h5, ?_, fun tout h => ?_⟩
  · obtain ⟨a, e, act, ga, ge, -, -, -, g1, g2, g3, -⟩ := c89_no_sign_change_missed_partial (1 : ℚ) hu (Or.inl rfl) _
      (clock_legal _) hm (clock_keepsLog _) _ _ _ _ (.new _ _ _ none) _ _ _ (ht _ hp) _ h1 (by decide) (by decide)
      (by rw [h3]; decide)
    refine ⟨a, e, act, ga, ge, g1, g2, fun i hi => g3 i hi ?_⟩
    show ((0 : ℤ) : ℚ) * _ ≤ 0
    simp
  · rcases c88_root_reported (1 : ℚ) hu (Or.inl rfl) _ (clock_legal _) hm (clock_keepsLog _) _ _ _ _ hr _ _ _ (ht _ hp) h2 with
      h | h
    · rw [h6] at h; cases h.1
    · exact h.1
  · refine c87_call_ends (1 : ℚ) hu (Or.inl rfl) _ (clock_legal _) (clock_returns _) hm (clock_keepsLog _) (by decide) _ _ ?_
      (by decide) s1 hr tout 0 .normal (ht _ h)
    show (1 : ℚ) ≤ ((2 ^ 52 : ℕ) : ℚ) * (39 * (Bin.of ((1 / 2) ^ 52) : Bin 52).v)
    rw [Bin.of_pow2 (-52) _ (by norm_num)]
    norm_num

/-- The hypotheses of `c87_search` and `c89_search_reports_partial`: a search over `[0, 1]` for the root of `t - 1/2`. -/
example : (match rCheck3 (clockCfg fun t : Bin 52 => t - Bin.of (1 / 2)) 100 { clock0 with
      e.tn := 1, c.hh := 1, r.taskc := .oneStep, r.glo := fun _ => Bin.of (-1 / 2), r.gactive := fun _ => true } with
    | .ret s' (.ok .rootFound) => decide (s'.r.tlo.v = (1 / 2 : ℚ))
    | _ => false) = true := by decide +kernel

end witness

end Verif.Props
