import Verif.Proofs.Weights
import Verif.Props.Norm
import Verif.Props.LocalErr

/-!
# C82: the tolerances the user asked for control the local error

`s.g.atts` is the list of step attempts, most recent first; `x.before` is the list of accepted points before the attempt,
most recent first; `x.ewt` is the vector of weights used by its error test.  Vocabulary: `Spec/LocalErr.lean`.
-/

set_option autoImplicit false
set_option linter.unusedSectionVars false
set_option linter.unusedVariables false

namespace Verif.Props

open Verif Verif.Spec Verif.Witness Polynomial Finset

universe u v

section
variable {ν : Type v} {n q : Nat} {K : Type u} [Field K] [LinearOrder K] [IsStrictOrderedRing K] [ExactParams K]
  [EpsLaws K]

/-- **C82, weights.** In every history without step failure, and in one more call, every attempt of every step but the
first is tested with the weights of the tolerances at the last accepted point `p` — not of an older point, not of a
rejected attempt, not of an interpolated value — and all of them are positive. -/
theorem c82_weights (cfg : Cfg ν n q K) (tol : TolControl n K) (ht : ∀ y w, cfg.ewtSet y w = tol.ewtSet y)
    (hl : NlsLegal cfg) (hm1 : 1 ≤ cfg.maxord) (hm : 0 ≤ cfg.hmaxInv)
    (rf sf : Nat) (s s' : State ν n q K) (op : Op K) (r : Res n K) (hs : ReachOk cfg s)
    (h : exec cfg rf sf s op = some (s', r)) (x : Att n K) (hx : x ∈ s'.g.atts) (h2 : 2 ≤ x.before.length) :
    ∃ p rest, x.before = p :: rest ∧ x.ewt = tol.ewtSet p.2 ∧ ∀ i, 0 < x.ewt i := by
  obtain ⟨p, rest, w, h3, h4, h5⟩ := exec_winv hl hm1 hm hs h x hx h2
  refine ⟨p, rest, h3, by rw [h4, ht], fun i => ?_⟩
  have := h5 i
  rw [ex_le, decide_eq_false_iff_not] at this
  exact not_le.1 this

end

section
variable {ν : Type v} {n q : Nat} {K : Type u} [Field K] [LinearOrder K] [IsStrictOrderedRing K] [ExactParams K]
  [ExactLaws K]

/-- The test norm of one bounds every component that takes part in the test. -/
theorem wrmsNorm_bounds (tol : TolControl n K) (y x : Vec n K) (hr : 0 ≤ rtolOf tol) (ha : ∀ i, 0 < atolOf tol i)
    (id : Fin n → Bool) (mask : Bool) (h : wrmsNorm id x (tol.ewtSet y) mask ≤ 1) (sq : K) (hsq0 : 0 ≤ sq)
    (hsq : sq * sq = n) (i : Fin n) (hi : mask = false ∨ id i = true) :
    |x i| ≤ sq * (rtolOf tol * |y i| + atolOf tol i) := by
  cases mask with
  | false => exact (c14_tolerance_weights tol y x hr ha).2.2 sq hsq0 hsq h i
  | true =>
    have hi : id i = true := by rcases hi with h | h <;> [cases h; exact h]
    have e : wrmsNorm id x (tol.ewtSet y) true = normWrms (fun i => if id i then x i else 0) (tol.ewtSet y) := by
      show normWrmsMasked _ _ _ = _
      unfold normWrmsMasked normWrms
      dsimp only
      congr 3
      funext j
      cases id j <;> simp
    rw [e] at h
    have := (c14_tolerance_weights tol y _ hr ha).2.2 sq hsq0 hsq h i
    rwa [if_pos hi] at this

/-- **C82.** In the same setting, with `rtol ≥ 0` and `atol > 0`: for every accepted attempt of every step but the first, and for the result `P` of the method of the next higher order with
the same derivative (it exists and is unique, `c74_next_order`), the computed solution satisfies in every component `i` that takes part in the error test

    |y_i - P_i| ≤ sqrt n * (rtol * |y^last_i| + atol_i)

where `y^last` is the last accepted solution. -/
theorem c82_local_error (cfg : Cfg ν n q K) (tol : TolControl n K) (ht : ∀ y w, cfg.ewtSet y w = tol.ewtSet y)
    (hr : 0 ≤ rtolOf tol) (ha : ∀ i, 0 < atolOf tol i) 
    (hl : NlsLegal cfg) (hm1 : 1 ≤ cfg.maxord) (hm : 0 ≤ cfg.hmaxInv)
    (rf sf : Nat) (s s' : State ν n q K) (op : Op K) (r : Res n K) (hs : ReachOk cfg s)
    (h : exec cfg rf sf s op = some (s', r)) (x : Att n K) (hx : x ∈ s'.g.atts) (h2 : 2 ≤ x.before.length)
    (ho : x.out = .accepted) (P : Fin n → K[X]) (hP : NextOrder x P) (sq : K) (hsq0 : 0 ≤ sq) (hsq : sq * sq = n) :
    ∃ p rest, x.before = p :: rest ∧
      ∀ i, cfg.suppressalg = false ∨ cfg.id i = true →
        |x.yy i - (P i).eval x.tnew| ≤ sq * (rtolOf tol * |p.2 i| + atolOf tol i) := by
  obtain ⟨p, rest, h3, h4, h5⟩ := c82_weights cfg tol ht hl hm1 hm rf sf s s' op r hs h x hx h2
  refine ⟨p, rest, h3, ?_⟩
  have := c74_accepted cfg hl hm1 hm rf sf s s' op r hs h x hx h2 ho P hP
  rw [h4] at this
  exact fun i hi => wrmsNorm_bounds tol p.2 _ hr ha _ _ this sq hsq0 hsq i hi

/-- **C82, polynomial solutions.** If the true solution `Y` has degree at most order + 1, the points the step was based
on are exact and the computed derivative is exact, the true error of an accepted step is within the tolerances. -/
theorem c82_true_error (cfg : Cfg ν n q K) (tol : TolControl n K) (ht : ∀ y w, cfg.ewtSet y w = tol.ewtSet y)
    (hr : 0 ≤ rtolOf tol) (ha : ∀ i, 0 < atolOf tol i) 
    (hl : NlsLegal cfg) (hm1 : 1 ≤ cfg.maxord) (hm : 0 ≤ cfg.hmaxInv)
    (rf sf : Nat) (s s' : State ν n q K) (op : Op K) (r : Res n K) (hs : ReachOk cfg s)
    (h : exec cfg rf sf s op = some (s', r)) (x : Att n K) (hx : x ∈ s'.g.atts) (h2 : 2 ≤ x.before.length)
    (ho : x.out = .accepted) (Y : Fin n → K[X]) (hd : ∀ i, (Y i).natDegree ≤ x.kk + 1)
    (hY : ∀ p ∈ x.before.take (x.kk + 1), ∀ i, p.2 i = (Y i).eval p.1)
    (hyp : ∀ i, x.yp i = (derivative (Y i)).eval x.tnew) (sq : K) (hsq0 : 0 ≤ sq) (hsq : sq * sq = n) (i : Fin n)
    (hsup : cfg.suppressalg = false ∨ cfg.id i = true) :
    |x.yy i - (Y i).eval x.tnew| ≤ sq * (rtolOf tol * |(Y i).eval x.t0| + atolOf tol i) := by
  obtain ⟨p, rest, h3, h4⟩ := c82_local_error cfg tol ht hr ha hl hm1 hm rf sf s s' op r hs h x hx h2 ho Y
    ⟨hd, fun m hm p hp i => (hY p (by
      refine List.mem_of_getElem? (i := m) ?_
      rw [List.getElem?_take, if_pos (by omega)]; exact hp) i).symm, fun i => (hyp i).symm⟩ sq hsq0 hsq
  have hp : p.2 i = (Y i).eval p.1 := hY p (by rw [h3]; exact List.mem_cons_self ..) i
  obtain ⟨y, l, h5⟩ := ((exec_attHist hl hm1 hm hs h).1 x hx).start
  have ht0 : p.1 = x.t0 := by
    rw [h3] at h5
    simp only [List.cons.injEq] at h5
    rw [h5.1]
  have := h4 i hsup
  rwa [hp, ht0] at this

/-- **C82, values between the steps.** In every history without step failure, after at least two steps: `y^last` is the
solution accepted before the last step; every value `get_solution` returns for a time in the last step differs from the
polynomial of the next higher degree through the accepted points by at most `sqrt n` times the tolerance at `y^last`, in
every component that takes part in the error test. -/
theorem c82_dense (cfg : Cfg ν n q K) (tol : TolControl n K) (ht : ∀ y w, cfg.ewtSet y w = tol.ewtSet y)
    (hr : 0 ≤ rtolOf tol) (ha : ∀ i, 0 < atolOf tol i) (hl : NlsLegal cfg) (hm1 : 1 ≤ cfg.maxord) (hm5 : cfg.maxord ≤ 5)
    (hm : 0 ≤ cfg.hmaxInv) (s : State ν n q K) (hs : ReachOk cfg s) (hn : 2 ≤ getNumSteps s) (sq : K) (hsq0 : 0 ≤ sq)
    (hsq : sq * sq = n) :
    ∃ pnew pold rest, s.g.acc = pnew :: pold :: rest ∧ getLastOrder s + 2 ≤ s.g.acc.length ∧
      ∀ U, Through (getLastOrder s + 1) s.g.acc U → ∀ t, 0 ≤ (t - (getCurrentTime s - getLastStep s)) * getLastStep s →
        0 ≤ (getCurrentTime s - t) * getLastStep s →
        ∃ y yp, solutionAt s t = some (y, yp) ∧ ∀ i, cfg.suppressalg = false ∨ cfg.id i = true →
          |y i - (U i).eval t| ≤ sq * (rtolOf tol * |pold.2 i| + atolOf tol i) := by
  obtain ⟨x, l, e1, e2, -, -, e4, e5, e6, -⟩ := c75_interpolation cfg hl hm1 hm5 hm s hs hn
  obtain ⟨x', l', f1, -, -, -, h⟩ := c75_norm cfg hl hm1 hm5 hm s hs hn
  rw [e1, List.cons.injEq] at f1
  obtain ⟨rfl, -⟩ := f1
  have hlen := (hs.full hl hm1 hm).ok.ctl.len (by have : 2 ≤ s.cnt.nst := hn; omega)
  have hb2 : 2 ≤ x.before.length := by
    rw [e5, List.length_cons] at hlen
    have : 2 ≤ s.cnt.nst := hn
    omega
  obtain ⟨p, rest, w, h3, h4, -⟩ := hs.winv hl hm1 hm x (by rw [e1]; exact List.mem_cons_self ..) hb2
  rw [ht] at h4
  refine ⟨(x.tnew, x.yy), p, rest, by rw [e5, h3], by rw [← e4]; exact e6, fun U hU t h1 h2 => ?_⟩
  obtain ⟨y, yp, h5, h6⟩ := h U (by rw [e4]; exact hU) t h1 h2
  rw [h4] at h6
  exact ⟨y, yp, h5, fun i hi => wrmsNorm_bounds tol p.2 _ hr ha _ _ h6 sq hsq0 hsq i hi⟩

end

/-! ## A non-trivial case

Five steps of the modelled Newton solver on `y' + y = 0`: the weights change from step to step. -/

section
attribute [local instance] ratParams ratEps

theorem weights_nontrivial : ∃ (s s' : State (Newton (Vec 1 ℚ)) 1 0 ℚ) (r : Res 1 ℚ) (x y : Att 1 ℚ),
    ReachOk decayCfg s ∧ 2 ≤ getNumSteps s ∧ exec decayCfg 10 10 s (.solve 1000 0 .oneStep) = some (s', r) ∧
    x ∈ s'.g.atts ∧ y ∈ s'.g.atts ∧ x.before.length = 5 ∧ y.before.length = 4 ∧ x.out = .accepted ∧
    x.ewt 0 = 50665051675 / 974464473 ∧ y.ewt 0 = 180302675 / 3535601 := by
  have hd : ((run decayCfg 10 10 (List.replicate 4 (.solve 1000 0 .oneStep)) decay0).map
      fun p => !p.2.any Res.stepFailed && decide (2 ≤ getNumSteps p.1) &&
        match exec decayCfg 10 10 p.1 (.solve 1000 0 .oneStep) with
        | some (s', _) => (s'.g.atts.any fun x => decide (x.before.length = 5) && decide (x.out = .accepted) &&
            decide (x.ewt 0 = 50665051675 / 974464473)) &&
            s'.g.atts.any fun y => decide (y.before.length = 4) && decide (y.ewt 0 = 180302675 / 3535601)
        | none => false) = some true := by decide +kernel
  obtain ⟨s, l, hr, hp⟩ := run_witness (P := fun (s : State (Newton (Vec 1 ℚ)) 1 0 ℚ) l =>
    !l.any Res.stepFailed && decide (2 ≤ getNumSteps s) &&
        match exec decayCfg 10 10 s (.solve 1000 0 .oneStep) with
        | some (s', _) => (s'.g.atts.any fun x => decide (x.before.length = 5) && decide (x.out = .accepted) &&
            decide (x.ewt 0 = 50665051675 / 974464473)) &&
            s'.g.atts.any fun y => decide (y.before.length = 4) && decide (y.ewt 0 = 180302675 / 3535601)
        | none => false) hd
  simp only [Bool.and_eq_true, Bool.not_eq_true', decide_eq_true_eq] at hp
  obtain ⟨⟨h1, h2⟩, h3⟩ := hp
  cases he : exec decayCfg 10 10 s (.solve 1000 0 .oneStep) with
  | none => rw [he] at h3; cases h3
  | some p =>
    obtain ⟨s', r⟩ := p
    rw [he] at h3
    simp only [List.any_eq_true, Bool.and_eq_true, decide_eq_true_eq] at h3
    obtain ⟨⟨x, hx, ⟨g1, g2⟩, g3⟩, y, hy, g4, g5⟩ := h3
    exact ⟨s, s', r, x, y, run_reachOk _ (.new _ _ _ none) hr h1, h2, he, hx, hy, g1, g4, g2, g3, g5⟩

/-- The theorem applies to this case. -/
example : ∃ x : Att 1 ℚ, ∃ p rest, x.before = p :: rest ∧ x.before.length = 5 ∧
    x.ewt = (TolControl.ss (1 / 100) (1 / 100)).ewtSet p.2 := by
  obtain ⟨s, s', r, x, y, h1, h2, h3, h4, h5, h6, -⟩ := weights_nontrivial
  obtain ⟨p, rest, g1, g2, -⟩ := c82_weights decayCfg (.ss (1 / 100) (1 / 100)) (fun _ _ => rfl) (newton_legal _ _ _)
    (by decide) (by decide +kernel) 10 10 s s' _ r h1 h3 x h4 (by omega)
  exact ⟨x, p, rest, g1, h6, g2⟩

end

end Verif.Props
