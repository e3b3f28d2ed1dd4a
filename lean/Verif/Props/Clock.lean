import Verif.Proofs.ClockStop
import Verif.Proofs.Attempts
import Verif.Props.Mirror

/-!
# Another unit of time, to the last bit (C103)

A user measures the time in another unit: `t` becomes `c t` and `y'` becomes `y' / c`.  If the multiplications and divisions by
`c` are exact (`c` is a power of two in binary floating-point arithmetic) then every session goes as before, to the last bit: times
and step sizes are multiplied by `c`, the `k`-th derivatives are divided by `c^k`; the solutions, the orders, the counters, the root
directions and the calls of the user's functions are the same.  With a stop time this needs correctly rounded arithmetic.
-/

set_option autoImplicit false
set_option linter.unusedSectionVars false
set_option linter.unusedVariables false

namespace Verif.Props

open Verif Verif.Spec

universe u v w

section
variable {n q : Nat} {K : Type u} [Scalar K] (U : Clock K)

/-- How the states of the two sessions are related: before the first step the second column of the history is `y'`, afterwards
it is `h y'`. -/
def Ticking {ν : Type v} (s s' : State ν n q K) : Prop :=
  (s.cnt.nst = 0 ∧ s' = U.fresh s) ∨ (s.cnt.nst ≠ 0 ∧ s' = U.state s)

theorem session_clock {ν : Type v} (cfg : Cfg ν n q K) {P' : Problem n q K} {S' : NlSolver ν n K} (H : U.Fits cfg P' S')
    {L J : State ν n q K → Prop} (hS : U.Steady cfg L J) (hR : Scalar.eqb cfg.hin 0 = true → U.Roots) (hl : NlsLegal cfg) (hi : ∀ N, S'.numIters N = cfg.nls.numIters N) (rf sf : Nat)
    (ops : List (Op K)) :
    ∀ s s' : State ν n q K, Ticking U s s' → L s → Mirror.Started s.cnt.nst ops (session cfg rf sf s ops) →
      session (U.conf cfg P' S') rf sf s' (ops.map U.op) = List.zipWith U.seen ops (session cfg rf sf s ops) := by
  induction ops with
  | nil => intro s s' _ _ _; rfl
  | cons o ops ih =>
    intro s s' hs hT hr
    have hshot : ∀ s1 s1' : State ν n q K, (s1' = U.state s1 ∨ s1' = U.fresh s1) →
        snapshot (U.conf cfg P' S') s1' = U.shot (snapshot cfg s1) ∧ s1'.m.log = s1.m.log.map U.call := by
      rintro s1 s1' (rfl | rfl)
      · refine ⟨?_, rfl⟩
        unfold snapshot
        rw [show getNumNonlinSolvIters (U.conf cfg P' S') (U.state s1) = getNumNonlinSolvIters cfg s1 from
          congrArg (s1.cnt.nni + ·) (hi s1.nls)]
        rfl
      · refine ⟨?_, rfl⟩
        unfold snapshot
        rw [show getNumNonlinSolvIters (U.conf cfg P' S') (U.fresh s1) = getNumNonlinSolvIters cfg s1 from
          congrArg (s1.cnt.nni + ·) (hi s1.nls)]
        rfl
    have hkey : (exec cfg rf sf s o = none ∧ exec (U.conf cfg P' S') rf sf s' (U.op o) = none) ∨
        ∃ s1 s1' r, exec cfg rf sf s o = some (s1, r) ∧
          exec (U.conf cfg P' S') rf sf s' (U.op o) = some (s1', U.res o r) ∧
          (s1' = U.state s1 ∨ s1' = U.fresh s1) ∧ (s1.cnt.nst ≠ 0 → s1' = U.state s1) ∧
          (s1.cnt.nst = 0 → r = .solved (.error (.ida .illegalInput)) → s1' = U.fresh s1) := by
      rcases hs with ⟨hn, rfl⟩ | ⟨hn, rfl⟩
      · have ho : ∃ tout tret task, o = .solve tout tret task := by
          unfold session at hr
          cases he : exec cfg rf sf s o with
          | none => rw [he] at hr; exact hr.1 hn
          | some p => rw [he] at hr; exact hr.1 hn
        obtain ⟨tout, tret, task, rfl⟩ := ho
        exact Clock.exec_first_clock U cfg H s hS hR hn hT rf sf tout tret task
      · have e := Clock.exec_clock U cfg H s hS hn hT rf sf o
        cases he : exec cfg rf sf s o with
        | none => rw [he] at e; exact .inl ⟨rfl, e⟩
        | some p =>
          rw [he] at e
          obtain ⟨s1, r⟩ := p
          have hle := (exec_cntLe hl he).nst
          exact .inr ⟨s1, _, r, rfl, e, .inl rfl, fun _ => rfl, fun h0 _ => absurd h0 (by omega)⟩
    rcases hkey with ⟨h1, h2⟩ | ⟨s1, s1', r, h1, h2, h3, h4, h5⟩
    · rw [List.map_cons]
      unfold session
      rw [h1, h2]
      simp [Clock.seen]
    · obtain ⟨g1, g2⟩ := hshot s1 s1' h3
      unfold session at hr
      rw [h1] at hr
      rw [List.map_cons]
      unfold session
      rw [h1, h2]
      simp only [List.zipWith_cons_cons]
      rw [g1, g2]
      refine congrArg₂ List.cons rfl ?_
      rcases hr.2 with rfl | ⟨a1, a3⟩
      · rfl
      · refine ih s1 s1' ?_ (hS.exec _ _ _ _ _ _ hT h1) a3
        by_cases h0 : s1.cnt.nst = 0
        · exact .inl ⟨h0, h5 h0 (a1 h0)⟩
        · exact .inr ⟨h0, h4 h0⟩

/-- **C103.** Without a stop time, any session with the other unit of time is the session with the first one, seen with the other
unit.  The square root matters only if the first step size is left to the integrator. -/
theorem c103_sessions {P P' : Problem n q K} (hP : U.Same P P') (fuel : Nat) (cfg : Cfg (Newton (Vec n K)) n q K)
    (h1 : cfg.prob = P) (h3 : cfg.nls = newtonNls P fuel) (hR : Scalar.eqb cfg.hin 0 = true → U.Roots) (yy0 yp0 : Vec n K)
    (rf sf : Nat) (ops : List (Op K)) (hr : Mirror.Started 0 ops (session cfg rf sf (State.new newton0 yy0 yp0) ops)) :
    session { cfg with prob := P', nls := newtonNls P' fuel, hin := U.f cfg.hin, hmaxInv := U.g cfg.hmaxInv } rf sf
        (State.new newton0 yy0 (U.rate yp0)) (ops.map U.op) =
      List.zipWith U.seen ops (session cfg rf sf (State.new newton0 yy0 yp0) ops) := by
  subst h1
  have hnew : (State.new newton0 yy0 (U.rate yp0) : State (Newton (Vec n K)) n q K) = U.fresh (State.new newton0 yy0 yp0) :=
    Clock.new_clock U newton0 yy0 yp0 none
  rw [hnew]
  have hl : NlsLegal cfg := by
    unfold NlsLegal
    rw [h3]
    exact newton_legal cfg.prob (.ss 0 0) fuel
  exact session_clock U cfg ⟨hP.root, by rw [h3]; exact Clock.newton_clock U hP fuel⟩ (U.steady_free cfg) hR hl (by rw [h3]; exact fun _ => rfl) rf sf ops _ _
    (.inl ⟨rfl, rfl⟩) rfl hr

end

section
variable {n q : Nat} {F : Type u} {K : Type v} [Scalar F] [Field K] [LinearOrder K] [IsStrictOrderedRing K] [S : Correct F K]

/-- **C103 in correctly rounded arithmetic.** With or without a stop time. -/
theorem c103_rounded (U : Clock F) {P P' : Problem n q F} (hP : U.Same P P') (fuel : Nat) (cfg : Cfg (Newton (Vec n F)) n q F)
    (h1 : cfg.prob = P) (h3 : cfg.nls = newtonNls P fuel) (hm : 0 ≤ StdModel.val (K := K) cfg.hmaxInv)
    (hR : Scalar.eqb cfg.hin 0 = true → U.Roots) (yy0 yp0 : Vec n F) (T : Option F) (rf sf : Nat) (ops : List (Op F))
    (hr : Mirror.Started 0 ops (session cfg rf sf { State.new newton0 yy0 yp0 with tstop := T } ops)) :
    session { cfg with prob := P', nls := newtonNls P' fuel, hin := U.f cfg.hin, hmaxInv := U.g cfg.hmaxInv } rf sf
        { State.new newton0 yy0 (U.rate yp0) with tstop := T.map fun T => U.f T } (ops.map U.op) =
      List.zipWith U.seen ops (session cfg rf sf { State.new newton0 yy0 yp0 with tstop := T } ops) := by
  subst h1
  rw [Clock.new_clock U]
  have hl : NlsLegal cfg := by
    unfold NlsLegal
    rw [h3]
    exact newton_legal cfg.prob (.ss 0 0) fuel
  exact session_clock U cfg ⟨hP.root, by rw [h3]; exact Clock.newton_clock U hP fuel⟩ (FlControl.steady_rounded (K := K) hl hm U) hR hl
    (by rw [h3]; exact fun _ => rfl) rf sf ops _ _ (.inl ⟨rfl, rfl⟩) (FlControl.ctlInv_new cfg newton0 yy0 yp0 T) hr

end

end Verif.Props

namespace Verif.Bin

open Verif.Spec

theorem sqrtQ_two (p : ℕ) (k : ℤ) (x : ℚ) : sqrtQ p (2 ^ k * (2 ^ k * x)) = 2 ^ k * sqrtQ p x := by
  have hk := two_zpow_pos k
  by_cases hx : x ≤ 0
  · have : (2 : ℚ) ^ k * (2 ^ k * x) ≤ 0 := mul_nonpos_of_nonneg_of_nonpos hk.le (mul_nonpos_of_nonneg_of_nonpos hk.le hx)
    unfold sqrtQ
    simp only [hx, this, if_true, mul_zero]
  have hx' := not_le.1 hx
  have hy : ¬(2 : ℚ) ^ k * (2 ^ k * x) ≤ 0 := not_le.2 (mul_pos hk (mul_pos hk hx'))
  have e1 : expo (2 ^ k * (2 ^ k * x)) / 2 = expo x / 2 + k := by
    rw [expo_two k (mul_pos hk hx').ne', expo_two k hx'.ne']
    omega
  have e2 : (2 : ℚ) ^ k * (2 ^ k * x) * 4 ^ ((p : ℤ) + 3 - (expo x / 2 + k)) = x * 4 ^ ((p : ℤ) + 3 - expo x / 2) := by
    rw [show (p : ℤ) + 3 - expo x / 2 = ((p : ℤ) + 3 - (expo x / 2 + k)) + k by ring,
      zpow_add₀ (by norm_num : (4 : ℚ) ≠ 0), four_zpow k]
    ring
  have e3 : (2 : ℚ) ^ (expo x / 2 + k - ((p : ℤ) + 3)) = 2 ^ k * 2 ^ (expo x / 2 - ((p : ℤ) + 3)) := by
    rw [← zpow_add₀ (by norm_num)]; congr 1; ring
  unfold sqrtQ
  simp only [e1, e2, e3, hx, hy, if_false]
  ring

/-- A power of two as the unit of time. -/
def clock (p : ℕ) (k : ℤ) : Clock (Bin p) := ⟨unit p k⟩

theorem clock_roots (p : ℕ) (k : ℤ) : (clock p k).Roots := fun a => ext_v (by
  show rnd p (sqrtQ p (2 ^ k * (2 ^ k * a.v))) = 2 ^ k * rnd p (sqrtQ p a.v)
  rw [sqrtQ_two, rnd_two])

end Verif.Bin

namespace Verif.Props

open Verif Verif.Spec Verif.Witness

universe u

/-- **C103 in binary floating-point arithmetic**, with any precision of at least five bits and the unit of time changed by any power
of two; the first step size and the stop time may be given or not. -/
theorem c103_binary {n q p : ℕ} [Fact (4 ≤ p)] (k : ℤ) {P P' : Problem n q (Bin p)} (hP : (Bin.clock p k).Same P P') (fuel : Nat)
    (cfg : Cfg (Newton (Vec n (Bin p))) n q (Bin p)) (h1 : cfg.prob = P) (h3 : cfg.nls = newtonNls P fuel)
    (hm : 0 ≤ cfg.hmaxInv.v) (yy0 yp0 : Vec n (Bin p)) (T : Option (Bin p)) (rf sf : Nat) (ops : List (Op (Bin p)))
    (hr : Mirror.Started 0 ops (session cfg rf sf { State.new newton0 yy0 yp0 with tstop := T } ops)) :
    session { cfg with prob := P', nls := newtonNls P' fuel, hin := (Bin.clock p k).f cfg.hin, hmaxInv := (Bin.clock p k).g cfg.hmaxInv }
        rf sf { State.new newton0 yy0 ((Bin.clock p k).rate yp0) with tstop := T.map fun T => (Bin.clock p k).f T }
        (ops.map (Bin.clock p k).op) =
      List.zipWith (Bin.clock p k).seen ops (session cfg rf sf { State.new newton0 yy0 yp0 with tstop := T } ops) :=
  c103_rounded _ hP fuel cfg h1 h3 hm (fun _ => Bin.clock_roots p k) yy0 yp0 T rf sf ops hr

/-! ## Concrete cases

The nonlinear equation `y' + y² = 0` of C101 with 53-bit numbers and its root function, and the same with the time in units that are
1024 times smaller: `1024 y' + y² = 0`. -/

def riccatiFine : Problem 1 1 (Bin 52) where
  res _ y yp _ := fun i => Bin.two 10 (yp i) + y i * y i
  jac _ cj y _ _ _ := fun _ j => if j = 0 then Bin.two 10 cj + (y 0 + y 0) else 0
  root _ y _ _ := fun _ => y 0 - Bin.of (999 / 1000)

theorem riccatiFine_same : (Bin.clock 52 10).Same riccati riccatiFine where
  res t y yp b := by
    funext i
    show Bin.two 10 ((Bin.clock 52 10).g (yp i)) + y i * y i = yp i + y i * y i
    rw [show Bin.two 10 ((Bin.clock 52 10).g (yp i)) = yp i from (Bin.clock 52 10).fg _]
  jac t cj y yp r m := by
    funext i j
    show (if j = 0 then Bin.two 10 ((Bin.clock 52 10).g cj) + (y 0 + y 0) else 0) = if j = 0 then cj + (y 0 + y 0) else 0
    rw [show Bin.two 10 ((Bin.clock 52 10).g cj) = cj from (Bin.clock 52 10).fg _]
  root t y yp b := rfl

def fineFromOne : State (Newton (Vec 1 (Bin 52))) 1 1 (Bin 52) := State.new newton0 (fun _ => 1) (fun _ => Bin.of (-1 / 1024))

/-- In the first unit the root is found at `t = 0.001002…` with `y = 0.99899…`; in the other one, at `1024 t = 1.026…` with the same
`y` and the same reported direction.  Then the derivative is asked for, and the sessions are the same in all.  The first step size
is left to the integrator. -/
example :
    (session (Cfg.newton riccatiFine tolY 3) 100 10 fineFromOne [.solve (Bin.of 1024) 0 .normal, .getDky (Bin.of (1024 / 1000)) 1]) =
      List.zipWith (Bin.clock 52 10).seen [.solve (Bin.of 1) 0 .normal, .getDky (Bin.of (1 / 1000)) 1]
        (session (Cfg.newton riccati tolY 3) 100 10 fromOne [.solve (Bin.of 1) 0 .normal, .getDky (Bin.of (1 / 1000)) 1]) ∧
    (session (Cfg.newton riccati tolY 3) 100 10 fromOne [.solve (Bin.of 1) 0 .normal]).map
      (looks .root (2310461598958419 / 2 ^ 61) (8998192055486251 / 2 ^ 53)) = [true] ∧
    (session (Cfg.newton riccatiFine tolY 3) 100 10 fineFromOne [.solve (Bin.of 1024) 0 .normal]).map
      (looks .root (2310461598958419 / 2 ^ 51) (8998192055486251 / 2 ^ 53)) = [true] := by
  refine ⟨?_, by decide +kernel, by decide +kernel⟩
  haveI : Fact (4 ≤ 52) := ⟨by norm_num⟩
  have h := c103_binary 10 riccatiFine_same 3 (Cfg.newton riccati tolY 3) rfl rfl (by decide +kernel) (fun _ => 1) (fun _ => -1) none 100 10
    [.solve (Bin.of 1) 0 .normal, .getDky (Bin.of (1 / 1000)) 1] (started2_ok (by decide +kernel))
  have e0 : ∀ x : ℚ, (Bin.clock 52 10).f (Bin.of x) = Bin.of (2 ^ (10 : ℤ) * x) := fun x => Bin.ext_v (Bin.rnd_two 52 10 x).symm
  have e1 : (Bin.clock 52 10).rate (fun _ => -1 : Vec 1 (Bin 52)) = fun _ => Bin.of (-1 / 1024) := by
    funext i
    show (Bin.clock 52 10).g (-1) = _
    exact Bin.ext_v (by decide +kernel)
  have e2 : (Bin.clock 52 10).f (0 : Bin 52) = 0 := (Bin.clock 52 10).zero
  have e3 : (Bin.clock 52 10).g (0 : Bin 52) = 0 := Bin.ext_v (by decide +kernel)
  have e4 : [Op.solve (Bin.of 1) 0 .normal, .getDky (Bin.of (1 / 1000)) 1].map (Bin.clock 52 10).op =
      [.solve (Bin.of 1024) 0 .normal, .getDky (Bin.of (1024 / 1000)) 1] := by
    show [Op.solve ((Bin.clock 52 10).f (Bin.of 1)) ((Bin.clock 52 10).f 0) .normal,
      .getDky ((Bin.clock 52 10).f (Bin.of (1 / 1000))) 1] = _
    rw [e0, e0, e2]
    norm_num
  rw [e1, e4, show (Bin.clock 52 10).f (Cfg.newton riccati tolY 3).hin = 0 from e2,
    show (Bin.clock 52 10).g (Cfg.newton riccati tolY 3).hmaxInv = 0 from e3] at h
  exact h

/-- A single call of `solve` is no exception. -/
theorem started1 {n q : Nat} {K : Type u} [Scalar K] {tout tret : K} {task : Task}
    (xs : List (Option (Res n K × Snapshot n q K × List (UCall n K)))) : Mirror.Started 0 [.solve tout tret task] xs := by
  rcases xs with - | ⟨x, xs⟩
  · trivial
  refine ⟨fun _ => ⟨_, _, _, rfl⟩, ?_⟩
  rcases x with - | ⟨r, v, log⟩
  · trivial
  exact .inl rfl

/-- What is checked of a call that ends at the stop time. -/
def stopsAt (t y : ℚ) : Option (Res 1 (Bin 52) × Snapshot 1 1 (Bin 52) × List (UCall 1 (Bin 52))) → Bool
  | some (r, v, log) => Res.isStatus .tstop r && decide (v.tret.v = t) && decide ((v.yy 0).v = y) && decide (v.numSteps = 1) &&
      decide (log.length = 4)
  | none => false

/-- With the stop time `1 / 2000` (rounded) in the first unit, that is `1024 / 2000` in the other, both sessions end there. -/
example :
    (session (Cfg.newton riccatiFine tolY 3) 100 10 { fineFromOne with tstop := some (Bin.of (1024 / 2000)) }
        [.solve (Bin.of 1024) 0 .normal]) =
      List.zipWith (Bin.clock 52 10).seen [.solve (Bin.of 1) 0 .normal]
        (session (Cfg.newton riccati tolY 3) 100 10 { fromOne with tstop := some (Bin.of (1 / 2000)) } [.solve (Bin.of 1) 0 .normal]) ∧
    (session (Cfg.newton riccati tolY 3) 100 10 { fromOne with tstop := some (Bin.of (1 / 2000)) } [.solve (Bin.of 1) 0 .normal]).map
      (stopsAt (1152921504606847 / 2 ^ 61) (2250675038272905 / 2 ^ 51)) = [true] ∧
    (session (Cfg.newton riccatiFine tolY 3) 100 10 { fineFromOne with tstop := some (Bin.of (1024 / 2000)) }
      [.solve (Bin.of 1024) 0 .normal]).map (stopsAt (1152921504606847 / 2 ^ 51) (2250675038272905 / 2 ^ 51)) = [true] := by
  refine ⟨?_, by decide +kernel, by decide +kernel⟩
  haveI : Fact (4 ≤ 52) := ⟨by norm_num⟩
  have h := c103_binary 10 riccatiFine_same 3 (Cfg.newton riccati tolY 3) rfl rfl (by decide +kernel) (fun _ => 1) (fun _ => -1)
    (some (Bin.of (1 / 2000))) 100 10 [.solve (Bin.of 1) 0 .normal]
    (started1 _)
  have e0 : ∀ x : ℚ, (Bin.clock 52 10).f (Bin.of x) = Bin.of (2 ^ (10 : ℤ) * x) := fun x => Bin.ext_v (Bin.rnd_two 52 10 x).symm
  have e1 : (Bin.clock 52 10).rate (fun _ => -1 : Vec 1 (Bin 52)) = fun _ => Bin.of (-1 / 1024) := by
    funext i
    show (Bin.clock 52 10).g (-1) = _
    exact Bin.ext_v (by decide +kernel)
  have e2 : (Bin.clock 52 10).f (0 : Bin 52) = 0 := (Bin.clock 52 10).zero
  have e3 : (Bin.clock 52 10).g (0 : Bin 52) = 0 := Bin.ext_v (by decide +kernel)
  have e4 : [Op.solve (Bin.of 1) 0 .normal].map (Bin.clock 52 10).op = [.solve (Bin.of 1024) 0 .normal] := by
    show [Op.solve ((Bin.clock 52 10).f (Bin.of 1)) ((Bin.clock 52 10).f 0) .normal] = _
    rw [e0, e2]
    norm_num
  have e5 : (some (Bin.of (1 / 2000) : Bin 52)).map (fun T => (Bin.clock 52 10).f T) = some (Bin.of (1024 / 2000)) := by
    rw [Option.map_some, e0]
    norm_num
  rw [e1, e4, e5, show (Bin.clock 52 10).f (Cfg.newton riccati tolY 3).hin = 0 from e2,
    show (Bin.clock 52 10).g (Cfg.newton riccati tolY 3).hmaxInv = 0 from e3] at h
  exact h

end Verif.Props
