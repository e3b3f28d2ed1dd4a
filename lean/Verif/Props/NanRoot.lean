import Verif.Proofs.NanRoot
import Verif.Proofs.RootFuel
import Verif.NanInst
import Verif.Props.FlRoot
import Verif.Model.Io

/-!
# C90: root functions that return NaN

A NaN is never taken for a root, but it can trap the root search.
-/

set_option autoImplicit false
set_option linter.unusedSectionVars false
set_option linter.unusedSimpArgs false
set_option linter.unusedVariables false

namespace Verif.Props

open Verif Verif.Spec

universe u w

section
variable {ν : Type w} {n q : Nat} {K : Type u} [Scalar K] [NanLaws K]

/-- **C90 (a reported root is a number).** Any arithmetic in which operations hand on NaN and comparisons with NaN are false; any
state, any call of `solve` that returns `Root`.  Either the last call had returned a root and the root function was seen to
be a zero, not a NaN, in this execution; or the root function was called at the returned time, some component of its result
was not NaN, and `get_root_info` reports 0 for every component that was NaN. -/
theorem c90_root_is_number_partial (cfg : Cfg ν n q K) (rf sf : Nat) (s s' : State ν n q K) (tout tret : K) (task : Task)
    (h : exec cfg rf sf s (.solve tout tret task) = some (s', .solved (.ok .root))) :
    (s.r.irfnd = true ∧ ∃ (t : K) (i : Fin q) (x : K), SeenAt cfg s' t i x ∧ ¬ NanLaws.nan x ∧
        Scalar.eqb (Scalar.abs x) 0 = true) ∨
    ∃ g : Vec q K, (∀ i, SeenAt cfg s' s'.tret i (g i)) ∧ (∃ i, ¬ NanLaws.nan (g i)) ∧
      ∀ i, NanLaws.nan (g i) → getRootInfo s' i = 0 := by
  unfold exec at h
  simp only at h
  split at h
  · rename_i s1 r1 e1
    cases h
    rcases NanRoot.solve_root e1 with ⟨h1, t, i, x, h2, h3⟩ | ⟨g, h1, h2, h3⟩
    · exact Or.inl ⟨h1, t, i, x, h2, NanRoot.eqz_nan h3, h3⟩
    · exact Or.inr ⟨g, h1, h2, h3⟩
  · cases h

/-- **C90 (NaN everywhere).** If the root function always returns NaN in all components, no call of `solve` ever returns
`Root`. -/
theorem c90_all_nan_partial (cfg : Cfg ν n q K) (hN : ∀ t v vp b i, NanLaws.nan (cfg.prob.root t v vp b i)) (rf sf : Nat)
    (s s' : State ν n q K) (tout tret : K) (task : Task) :
    exec cfg rf sf s (.solve tout tret task) ≠ some (s', .solved (.ok .root)) := by
  intro h
  have hs : ∀ t i x, SeenAt cfg s' t i x → NanLaws.nan x := by
    rintro t i x ⟨v, vp, b, -, rfl⟩
    exact hN t v vp b i
  rcases c90_root_is_number_partial cfg rf sf s s' tout tret task h with ⟨-, t, i, x, h1, h2, -⟩ | ⟨g, h1, ⟨i, h2⟩, -⟩
  · exact h2 (hs _ _ _ h1)
  · exact h2 (hs _ _ _ (h1 i))

end

/-- NaN. -/
def NQ.none : NQ := ⟨Option.none⟩

/-- `t - 3/2`, but undefined (NaN) between 1 and 2. -/
def hole (t : NQ) : NQ := if Scalar.lt (NQ.of 1) t && Scalar.lt t (NQ.of 2) then NQ.none else t - NQ.of (3 / 2)

theorem hole_nan (t : NQ) (h : NanLaws.nan t) : NanLaws.nan (hole t) := by
  unfold hole
  rw [NanLaws.lt _ _ (Or.inr h)]
  exact NanLaws.sub_left _ _ h

/-- The second one-step call, up to its root search. -/
def secondSearch (cfg : Cfg Nat 1 1 NQ) (s : State Nat 1 1 NQ) : Option (State Nat 1 1 NQ × State Nat 1 1 NQ) :=
  match laterCall cfg 0 (perfReset (begun { s with tret := 0 } (NQ.of 1000) .oneStep)) (NQ.of 1000) .oneStep with
  | .go p1 =>
    match preStep cfg p1 0 with
    | .go p2 =>
      match step cfg p2 with
      | .ret p3 (.ok _) => some (p1, p3)
      | _ => Option.none
    | _ => Option.none
  | _ => Option.none

/-- The conditions of `rCheck3_hangs`. -/
def trapped (s : State Nat 1 1 NQ) : Bool :=
  let T := searchEnd s
  let a := scan1 (clockCfg hole) s.r.gactive s.r.glo (fun _ => hole T)
  let tm := trialPoint T s.r.tlo (rootTol s) (hole T) (s.r.glo 0) 1
  a.sgnchg && decide (a.imax = 0) && !Scalar.le (Scalar.abs (T - s.r.tlo)) (rootTol s) && decide ((hole tm).v = Option.none) &&
    !Scalar.le (Scalar.abs (T - tm)) (rootTol s)

/-- A call whose root search is trapped does not return, whatever the number of turns. -/
theorem trapped_call {s p1 p3 : State Nat 1 1 NQ} (h0 : s.cnt.nst ≠ 0) (h : secondSearch (clockCfg hole) s = some (p1, p3))
    (ht : trapped p3 = true) (rf sf : Nat) : exec (clockCfg hole) rf sf s (.solve (NQ.of 1000) 0 .oneStep) = Option.none := by
  unfold secondSearch at h
  cases hl : laterCall (clockCfg hole) 0 (perfReset (begun { s with tret := 0 } (NQ.of 1000) .oneStep)) (NQ.of 1000) .oneStep with
  | panic => rw [hl] at h; cases h
  | diverge => rw [hl] at h; cases h
  | ret a b => rw [hl] at h; cases h
  | go q1 =>
    rw [hl] at h
    simp only at h
    cases hp : preStep (clockCfg hole) q1 0 with
    | panic => rw [hp] at h; cases h
    | diverge => rw [hp] at h; cases h
    | ret a b => rw [hp] at h; cases h
    | go q2 =>
      rw [hp] at h
      simp only at h
      cases hs : step (clockCfg hole) q2 with
      | panic => rw [hs] at h; cases h
      | diverge => rw [hs] at h; cases h
      | ret q3 r3 =>
        rw [hs] at h
        cases r3 with
        | error e => cases h
        | ok u =>
          cases h
          have hrf : laterCall (clockCfg hole) rf (perfReset (begun { s with tret := 0 } (NQ.of 1000) .oneStep)) (NQ.of 1000) .oneStep
              = .go p1 := by
            have := laterCall_more rf 0 (cfg := clockCfg hole)
              (s := perfReset (begun { s with tret := 0 } (NQ.of 1000) .oneStep)) (tout := NQ.of 1000) (task := .oneStep)
              (by rw [hl]; simp)
            rw [Nat.zero_add] at this
            rw [this, hl]
          unfold trapped at ht
          simp only [Bool.and_eq_true, decide_eq_true_eq, Bool.not_eq_true'] at ht
          obtain ⟨⟨⟨⟨t1, t2⟩, t3⟩, t4⟩, t5⟩ := ht
          have key := NanRoot.rCheck3_hangs (cfg := clockCfg hole) (g := fun t _ => hole t) (fun _ _ _ _ => rfl)
            (fun t h _ => hole_nan t h) (s := p3) t1 0 t2 t3 _ rfl (fun _ => t4) t5 rf
          have hloop : ∀ s' r, solveLoop (clockCfg hole) rf (NQ.of 1000) .oneStep sf p1 0 ≠ .ret s' r := by
            intro s' r
            cases sf with
            | zero => intro h; cases h
            | succ sf =>
              unfold solveLoop solvePass
              rw [hp]
              simp only
              rw [hs]
              simp only
              unfold postStep
              rw [if_pos (by decide)]
              cases hc : rCheck3 (clockCfg hole) rf p3 with
              | panic => simp [Flow.andThen]
              | diverge => simp [Flow.andThen]
              | ret a b => exact absurd hc (key _ _)
          unfold exec
          simp only
          rw [solve_eq, if_neg h0, hrf]
          simp only [Flow.andThen]

/-- **C90: refutation of "every call returns".** The root function `t - 3/2` that is NaN for `1 < t < 2`: the first one-step
call returns `Success` at 1; the second one does not return, however many turns the root search and the step loop are
given. -/
theorem c90_search_returns_refuted : ∃ s1 : State Nat 1 1 NQ,
    (∀ rf, exec (clockCfg hole) rf 2 clock0 (.solve (NQ.of 1000) 0 .oneStep) = some (s1, .solved (.ok .success))) ∧
    s1.tret = NQ.of 1 ∧
    ∀ rf sf, exec (clockCfg hole) rf sf s1 (.solve (NQ.of 1000) 0 .oneStep) = Option.none := by
  obtain ⟨s1, r1, h1, hP⟩ := Witness.exec_one (cfg := clockCfg hole) (rf := 0) (sf := 2) (s := clock0)
    (a := .solve (NQ.of 1000) 0 .oneStep)
    (P := fun p r => Witness.Res.isStatus .success r && decide (p.tret = NQ.of 1 ∧ p.cnt.nst ≠ 0) &&
      decide ((secondSearch (clockCfg hole) p).map (fun y => trapped y.2) = some true)) (by decide +kernel)
  simp only [Bool.and_eq_true, decide_eq_true_eq, Witness.Res.isStatus_iff] at hP
  obtain ⟨⟨rfl, h2, h3⟩, h4⟩ := hP
  refine ⟨s1, fun rf => ?_, h2, fun rf sf => ?_⟩
  · have := exec_more rf 0 h1
    rwa [Nat.zero_add] at this
  · cases hs : secondSearch (clockCfg hole) s1 with
    | none => rw [hs] at h4; cases h4
    | some y =>
      rw [hs] at h4
      simp only [Option.map_some, Option.some.injEq] at h4
      exact trapped_call h3 (p1 := y.1) (p3 := y.2) hs h4 rf sf

/-- Small positive at 2, `-1/2` at 1, NaN between. -/
def brink (t : NQ) : NQ :=
  if Scalar.lt (NQ.of 1) t && Scalar.lt t (NQ.of 2) then NQ.none
  else if Scalar.lt t (NQ.of 2) then NQ.of (-1 / 2) else Scalar.eps * NQ.of (225 / 2)

/-- **C90: refutation of "`Root` comes with a component".** A call returns `Root` and `get_root_info` reports 0 for every
component: the trial point just before 2 yields NaN, so no sign change is left when the root information is written. -/
theorem c90_flagged_refuted : ∃ s1 s2 : State Nat 1 1 NQ,
    exec (clockCfg brink) 10 2 clock0 (.solve (NQ.of 1000) 0 .oneStep) = some (s1, .solved (.ok .success)) ∧
    exec (clockCfg brink) 10 2 s1 (.solve (NQ.of 1000) 0 .oneStep) = some (s2, .solved (.ok .root)) ∧
    s2.tret = NQ.of 2 ∧ ∀ i, getRootInfo s2 i = 0 := by
  obtain ⟨s1, r1, s2, r2, h1, h2, hP⟩ := exec_two (cfg := clockCfg brink) (rf := 10) (sf := 2) (s := clock0)
    (a := .solve (NQ.of 1000) 0 .oneStep) (b := .solve (NQ.of 1000) 0 .oneStep)
    (P := fun p r p' r' => Witness.Res.isStatus .success r && Witness.Res.isStatus .root r' &&
      decide (p'.tret = NQ.of 2 ∧ ∀ i, getRootInfo p' i = 0)) (by decide +kernel)
  simp only [Bool.and_eq_true, decide_eq_true_eq, Witness.Res.isStatus_iff] at hP
  obtain ⟨⟨rfl, rfl⟩, h3⟩ := hP
  exact ⟨s1, s2, h1, h2, h3⟩

/-- `t - 3/2`, and NaN after 2. -/
def torn (t : NQ) : NQ := if Scalar.lt (NQ.of 2) t then NQ.none else t - NQ.of (3 / 2)

/-- The hypothesis of `c90_root_is_number_partial`, with a root function that is NaN for later times: the second call returns the
root 3/2.  That of `c90_all_nan_partial`: the root function is NaN everywhere, and calls return `Success`. -/
example : ∃ s1 s2 s3 : State Nat 1 1 NQ,
    exec (clockCfg torn) 10 2 s1 (.solve (NQ.of 1000) 0 .oneStep) = some (s2, .solved (.ok .root)) ∧ s2.tret = NQ.of (3 / 2) ∧
    (∃ g : Vec 1 NQ, (∀ i, SeenAt (clockCfg torn) s2 s2.tret i (g i)) ∧ ∃ i, ¬ NanLaws.nan (g i)) ∧
    exec (clockCfg fun _ => NQ.none) 10 2 clock0 (.solve (NQ.of 1000) 0 .oneStep) = some (s3, .solved (.ok .success)) ∧
    ∀ rf sf tout tret task s', exec (clockCfg fun _ => NQ.none) rf sf s3 (.solve tout tret task) ≠ some (s', .solved (.ok .root)) := by
  obtain ⟨s1, r1, s2, r2, h1, h2, hP⟩ := exec_two (cfg := clockCfg torn) (rf := 10) (sf := 2) (s := clock0)
    (a := .solve (NQ.of 1000) 0 .oneStep) (b := .solve (NQ.of 1000) 0 .oneStep)
    (P := fun p r p' r' => Witness.Res.isStatus .success r && Witness.Res.isStatus .root r' &&
      decide (p'.tret = NQ.of (3 / 2) ∧ p.r.irfnd = false)) (by decide +kernel)
  simp only [Bool.and_eq_true, decide_eq_true_eq, Witness.Res.isStatus_iff] at hP
  obtain ⟨⟨rfl, rfl⟩, h3, h4⟩ := hP
  obtain ⟨s3, r3, h5, hP⟩ := Witness.exec_one (cfg := clockCfg fun _ => NQ.none) (rf := 10) (sf := 2) (s := clock0)
    (a := .solve (NQ.of 1000) 0 .oneStep) (P := fun p r => Witness.Res.isStatus .success r) (by decide +kernel)
  rw [Witness.Res.isStatus_iff] at hP
  subst hP
  refine ⟨s1, s2, s3, h2, h3, ?_, h5, fun rf sf tout tret task s' => ?_⟩
  · rcases c90_root_is_number_partial _ _ _ _ _ _ _ _ h2 with h | ⟨g, g1, g2, -⟩
    · rw [h4] at h; cases h.1
    · exact ⟨g, g1, g2⟩
  · exact c90_all_nan_partial _ (fun _ _ _ _ _ => (rfl : (NQ.none).v = Option.none)) rf sf s3 s' tout tret task

end Verif.Props
