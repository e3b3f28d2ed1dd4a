import Verif.Proofs.NewtonPanic
import Verif.Proofs.RootEnd
import Verif.Proofs.FirstCall
import Verif.Proofs.Affine
import Verif.Spec.LinearProblem
import Verif.Spec.Later

/-! # When every call returns -/

set_option autoImplicit false
set_option linter.unusedSectionVars false
set_option linter.unusedSimpArgs false
set_option linter.unusedVariables false

namespace Verif

open Verif.Spec Verif.Props

universe u v

section
variable {ν : Type v} {n q : Nat} {K : Type u} [Scalar K]

/-- A step that does not return does not return from the nonlinear solver; `I` is any invariant of the attempts. -/
theorem stepLoop_diverge {cfg : Cfg ν n q K} {t0 : K} (I : State ν n q K → Prop) (hl : NlsLegal cfg)
    (hI : ∀ s f s' f', I s → attempt cfg t0 s f = .again s' f' → I s') (fuel : Nat)
    {s : State ν n q K} {f : Fails} (hf : FailsOk cfg f) (hs : I s)
    (hfuel : max cfg.maxnef 3 + max cfg.maxncf 1 - 1 ≤ fuel + f.nef + f.ncf) (h : stepLoop cfg t0 fuel s f = .diverge) :
    ∃ s1, I s1 ∧ nlsCall cfg s1 = .diverge := by
  induction fuel generalizing s f with
  | zero =>
    have := hf.nef
    have := hf.ncf
    omega
  | succ fuel ih =>
    unfold stepLoop at h
    split at h
    · cases h
    · rename_i h1
      exact ⟨s, hs, attempt_diverge hl h1⟩
    · cases h
    · rename_i s1 f1 h1
      obtain ⟨err, a, b, s5, s6, hR, hH, rfl⟩ := attempt_again' hl h1
      have hff := handled_fails hH
      exact ih (hff.2 rfl hf) (hI _ _ _ _ hs h1) (by omega) h
    · split at h <;> cases h

theorem step_diverge {cfg : Cfg ν n q K} (I : State ν n q K → Prop) (hl : NlsLegal cfg) {s : State ν n q K}
    (hI : ∀ p f p' f', I p → attempt cfg s.e.tn p f = .again p' f' → I p') (hs : I (firstStepInit s))
    (h : step cfg s = .diverge) : ∃ s1, I s1 ∧ nlsCall cfg s1 = .diverge :=
  stepLoop_diverge I hl hI _ ⟨by show 0 < _; omega, by show 0 < _; omega⟩ hs (by show _ ≤ _ + 0 + 0; omega) h

/-- An invariant of the continuations of a history. -/
theorem Spec.Later.inv {cfg : Cfg ν n q K} (P : State ν n q K → Prop) {s0 : State ν n q K} (h0 : P s0)
    (hm : ∀ s s', P s → Micro cfg s s' → P s') (hf : ∀ s e s', P s → MicroFail cfg s e s' → P s')
    {s : State ν n q K} (h : Later cfg s0 s) : P s := by
  induction h with
  | refl => exact h0
  | call rf sf op r _ he ih =>
    rcases exec_ends he with ⟨r', -, hend⟩ | ⟨-, hmic⟩
    · cases hend with
      | clean h1 _ => exact h1.inv hm ih
      | failed s1 s2 e h1 h2 h3 _ => exact hm _ _ (hf _ _ _ (h1.inv hm ih) h2) (.frame h3)
    · exact hmic.inv hm ih

theorem Spec.Later.reach {cfg : Cfg ν n q K} {s0 s : State ν n q K} (h : Later cfg s0 s) (h0 : Reach cfg s0) : Reach cfg s := by
  induction h with
  | refl => exact h0
  | call rf sf op r _ he ih => exact .call rf sf op r ih he

/-- Invariants of the solver object and the tolerance of the nonlinear solver: it suffices that they survive attempts and
the choice of the tolerance. -/
def NlsInv (I : ν → K → Prop) (s : State ν n q K) : Prop := I s.nls s.epsNewt

theorem step_nlsInv {cfg : Cfg ν n q K} (I : ν → K → Prop)
    (hatt : ∀ s : State ν n q K, I s.nls s.epsNewt → ∀ N' m ee r, nlsCall cfg s = .ret N' m ee r → I N' s.epsNewt)
    {s s' : State ν n q K} {r : Except Err Unit} (hs : NlsInv I s) (h : step cfg s = .ret s' r) : NlsInv I s' := by
  have key : ∀ {s1 s2 : State ν n q K}, NlsInv I s1 → MemAfter cfg s1 s2.nls s2.m ∧ s2.epsNewt = s1.epsNewt ∧ s2.r = s1.r →
      NlsInv I s2 := by
    rintro s1 s2 h1 ⟨⟨m1, ee, r, h2, -⟩, h3, -⟩
    unfold NlsInv
    rw [h3]
    exact hatt s1 h1 _ _ _ _ h2
  have := step_rule (cfg := cfg) (fun s1 _ => NlsInv I s1) (fun s1 => NlsInv I s1) (fun s1 _ => NlsInv I s1)
    (by
      have : (firstStepInit s).nls = s.nls ∧ (firstStepInit s).epsNewt = s.epsNewt := by
        unfold firstStepInit; split <;> exact ⟨rfl, rfl⟩
      unfold NlsInv
      rw [this.1, this.2]; exact hs)
    (fun s1 f s' f' hI h => key hI (attempt_again_m h))
    (fun s1 f s2 ck a b s' hI h hc => by
      have hC := completeStep_eq hc
      have h1 := key hI (attempt_done_m h)
      show I s'.nls s'.epsNewt
      rw [hC.nls, hC.epsNewt]; exact h1)
    (fun s1 f s' e hI h => key hI (attempt_fail_m h)) h
  rcases this with ⟨-, h⟩ | ⟨e, -, h⟩ <;> exact h

theorem firstCall_eps {cfg : Cfg ν n q K} {s s' : State ν n q K} {tout : K} {r : Except Err Unit}
    (h : firstCall cfg s tout = .ret s' r) : s'.nls = s.nls ∧ (s'.epsNewt = s.epsNewt ∨ s'.epsNewt = cfg.epcon) := by
  have h0 : (initialSetup cfg s).nls = s.nls ∧ (initialSetup cfg s).epsNewt = s.epsNewt := by
    unfold initialSetup; split <;> exact ⟨rfl, rfl⟩
  have hs : ∀ {s s' : State ν n q K}, firstStop s = some s' → s'.nls = s.nls := by
    intro s s' h
    unfold firstStop at h
    split at h
    · split at h
      · cases h
      · cases h; unfold clampToStop; split <;> rfl
    · cases h; rfl
  have hq : ∀ s : State ν n q K, (firstReady cfg s).nls = s.nls ∧ (firstReady cfg s).epsNewt = cfg.epcon := by
    intro s
    refine ⟨?_, rfl⟩
    unfold firstReady
    simp only
    split
    · unfold rCheck1 callRoot
      simp only
      split <;> rfl
    · rfl
  rcases firstCall_cases h with ⟨-, h, -⟩ | ⟨-, h, -⟩ | ⟨hh, -, -, -, ⟨-, h, -⟩ | ⟨s1, h1, h, -⟩⟩ <;> subst h
  · exact ⟨h0.1, Or.inl h0.2⟩
  · exact ⟨h0.1, Or.inl h0.2⟩
  · exact ⟨h0.1, Or.inl h0.2⟩
  · exact ⟨(hq s1).1.trans ((hs h1).trans h0.1), Or.inr (hq s1).2⟩

section
variable {cfg : Cfg ν n q K} {I : ν → K → Prop}
  (heps : ∀ N tol, I N tol → I N cfg.epcon)
  (hatt : ∀ s : State ν n q K, I s.nls s.epsNewt → ∀ N' m ee r, nlsCall cfg s = .ret N' m ee r → I N' s.epsNewt)
include heps hatt

theorem NlsInv.micro {s s' : State ν n q K} (hI : NlsInv I s) (hm : Micro cfg s s') : NlsInv I s' := by
  have hfr : ∀ {s s' : State ν n q K}, NlsInv I s → Frame s s' → NlsInv I s' := by
    intro s s' h hf
    unfold NlsInv
    rw [hf.nls, hf.epsNewt]; exact h
  have hfc : ∀ {s s' : State ν n q K} {tout : K} {r : Except Err Unit}, NlsInv I s → firstCall cfg s tout = .ret s' r →
      NlsInv I s' := by
    intro s s' tout r h hf
    obtain ⟨h1, h2⟩ := firstCall_eps hf
    unfold NlsInv
    rw [h1]
    rcases h2 with h2 | h2 <;> rw [h2]
    · exact h
    · exact heps _ _ h
  cases hm with
  | frame hf => exact hfr hI hf
  | perf => exact hI
  | clear => exact hI
  | clamp ts h1 h2 h3 =>
    have : (clampToStop s ts).nls = s.nls ∧ (clampToStop s ts).epsNewt = s.epsNewt := by
      unfold clampToStop; split <;> exact ⟨rfl, rfl⟩
    unfold NlsInv
    rw [this.1, this.2]; exact hI
  | ewt h => exact hI
  | first tout r h1 h2 => exact hfc hI h2
  | firstStep tout h1 h2 h3 h4 =>
    have h5 := hfc hI h2
    exact step_nlsInv I hatt (hfr (s := perfReset _) h5 h3) h4
  | step h1 h2 h3 => exact step_nlsInv I hatt hI h3

theorem NlsInv.fail {s s' : State ν n q K} {e : Err} (hI : NlsInv I s) (hm : MicroFail cfg s e s') : NlsInv I s' := by
  cases hm with
  | firstStep tout _ h1 h2 h3 h4 =>
    have h5 := NlsInv.micro heps hatt hI (.first tout _ h1 h2)
    have h6 := NlsInv.micro heps hatt (NlsInv.micro heps hatt h5 (.perf _)) (.frame h3)
    exact step_nlsInv I hatt h6 h4
  | step _ h1 h2 h3 => exact step_nlsInv I hatt hI h3

theorem NlsInv.later {s0 s : State ν n q K} (hI : NlsInv I s0) (h : Later cfg s0 s) : NlsInv I s :=
  Later.inv (NlsInv I) hI (fun _ _ h1 h2 => h1.micro heps hatt h2) (fun _ _ _ h1 h2 => h1.fail heps hatt h2) h

end

end

section
variable {n q : Nat} {K : Type u} [Field K] [LinearOrder K] [IsStrictOrderedRing K] [ExactParams K]

/-- The solver object between two calls of `Newton::solve`. -/
def Rested (N : Newton (Vec n K)) (tol : K) : Prop := N.jcur = false ∧ N.maxiters = 4 ∧ 0 ≤ tol

theorem newtonNls_ok {P : Problem n q K} {fuel : Nat} {N N' : Newton (Vec n K)} {e : Env n K} {m m' : Mem n K}
    {y0 y w ee : Vec n K} {tol : K} {c : Bool} {r : Except Err Unit}
    (h : (newtonNls P fuel).solve N e m y0 y w tol c = .ret N' m' ee r) :
    r = .ok () ∧ N'.jcur = false ∧ N'.maxiters = N.maxiters := by
  have hr : r = .ok () := by
    cases r with
    | ok u => rfl
    | error err => exact absurd h (newton_no_error P fuel)
  subst hr
  unfold newtonNls at h
  simp only at h
  split at h
  · rename_i N1 m1 y1 r1 h1
    cases h
    rw [← recorder_transparent (idaNLProblem P e) fuel N m [] y0 y w tol c] at h1
    rcases hq : newtonSolve (recorded (idaNLProblem P e)) fuel N (m, []) y0 y w tol c with ⟨N2, ⟨s2, l2⟩, y2, r2⟩ | _ | _
    · rw [hq] at h1
      simp only [NOut.done.injEq] at h1
      obtain ⟨rfl, rfl, rfl, rfl⟩ := h1
      obtain ⟨⟨t, k, -, -, -, -, h2⟩, h3⟩ := Proofs.Newton.outer_post (idaNLProblem P e) y0 tol w fuel c false N m [] y _ _ _ _ _ hq
      obtain ⟨pre, o, ds, d, -, -, -, h4⟩ := h2 rfl
      exact ⟨rfl, h4, h3⟩
    · rw [hq] at h1; cases h1
    · rw [hq] at h1; cases h1
  · cases h
  · cases h

theorem newtonNls_returns {P : Problem n q K} (hP : FreshConverges P) {fuel : Nat} (hf : 2 ≤ fuel) {N : Newton (Vec n K)}
    {e : Env n K} {m : Mem n K} {y w : Vec n K} {tol : K} {c : Bool} (hN : Rested N tol) :
    (newtonNls P fuel).solve N e m vzero y w tol c ≠ .diverge := by
  intro h
  unfold newtonNls at h
  simp only at h
  split at h
  · cases h
  · cases h
  · rename_i h1
    refine c10_newton_terminates_partial (idaNLProblem P e) N m vzero y w tol c hN.1 ?_ fuel hf h1
    intro jb N1 s y N' s' y' hmx
    exact hP e tol w jb N1 N' s s' y y' (hmx.trans hN.2.1) hN.2.2

section
variable {P : Problem n q K} {tol : TolControl n K} {fuel : Nat}

theorem rested_att (s : State (Newton (Vec n K)) n q K) (h : Rested s.nls s.epsNewt) (N' : Newton (Vec n K)) (m : Mem n K)
    (ee : Vec n K) (r : Except Err Unit) (hc : nlsCall (Cfg.newton P tol fuel) s = .ret N' m ee r) :
    Rested N' s.epsNewt := by
  obtain ⟨-, h1, h2⟩ := newtonNls_ok (P := P) (fuel := fuel) hc
  exact ⟨h1, h2.trans h.2.1, h.2.2⟩

theorem rested_eps (N : Newton (Vec n K)) (t : K) (h : Rested N t) : Rested N (Cfg.newton P tol fuel).epcon := by
  refine ⟨h.1, h.2.1, ?_⟩
  show (0 : K) ≤ Scalar.epcon
  rw [ex_epcon]
  norm_num

theorem newton_step_returns (hP : FreshConverges P) (hf : 2 ≤ fuel) {s : State (Newton (Vec n K)) n q K}
    (hI : NlsInv Rested s) : step (Cfg.newton P tol fuel) s ≠ .diverge := by
  intro h
  obtain ⟨s1, h1, h2⟩ := step_diverge (NlsInv Rested) (newton_legal P tol fuel)
    (fun p f p' f' hp ha => by
      obtain ⟨⟨m1, ee, r, h2, -⟩, h3, -⟩ := attempt_again_m ha
      unfold NlsInv
      rw [h3]
      exact rested_att p hp _ _ _ _ h2)
    (by
      have : (firstStepInit s).nls = s.nls ∧ (firstStepInit s).epsNewt = s.epsNewt := by
        unfold firstStepInit; split <;> exact ⟨rfl, rfl⟩
      unfold NlsInv
      rw [this.1, this.2]; exact hI) h
  exact newtonNls_returns hP hf h1 h2

/-- A new object and all its histories. -/
theorem rested_later {y0 yp0 : Vec n K} {ts : Option K} {s : State (Newton (Vec n K)) n q K}
    (h : Later (Cfg.newton P tol fuel) { State.new newton0 y0 yp0 with tstop := ts } s) : NlsInv Rested s :=
  NlsInv.later rested_eps rested_att (s0 := { State.new newton0 y0 yp0 with tstop := ts }) ⟨rfl, rfl, le_refl _⟩ h

theorem rested_micros {s s' : State (Newton (Vec n K)) n q K} (hI : NlsInv Rested s)
    (h : Micros (Cfg.newton P tol fuel) s s') : NlsInv Rested s' :=
  h.inv (fun _ _ h1 h2 => h1.micro rested_eps rested_att h2) hI

end

/-! ## Linear problems -/

/-- A linear solve with the factors of `J`. -/
theorem lsSolve_solves {m m' : Mem n K} {J : Mat K} {p0 : Nat → Nat} {b d : Vec n K}
    (hd : denseSetup n J p0 = .ok m.matJ m.piv) (hr : m.cjratio = 1) (h : lsSolve m b = some (m', d)) :
    (∀ i : Fin n, ∑ j : Fin n, J i j * d j = b i) ∧ m'.matJ = m.matJ ∧ m'.piv = m.piv ∧ m'.cjratio = m.cjratio := by
  unfold lsSolve at h
  split at h
  · cases h
  · rename_i y hy
    simp only [Option.some.injEq, Prod.mk.injEq] at h
    obtain ⟨hm, hd'⟩ := h
    have hn : 0 < n := by
      rcases Nat.eq_zero_or_pos n with h0 | h0
      · exfalso
        subst h0
        unfold denseSolve denseGetRs at hy
        split at hy
        · cases hy
        · simp at hy
      · exact h0
    obtain ⟨y', h1, h2⟩ := Props.c01_dense_solve_correct hn _ _ hd b.toFun
    rw [hy] at h1
    cases h1
    have hne : Scalar.neb m.cjratio (1 : K) = false := by rw [hr]; simp [Scalar.neb]
    rw [hne] at hd'
    simp only [Bool.false_eq_true, if_false] at hd'
    subst hm hd'
    refine ⟨fun i => ?_, rfl, rfl, rfl⟩
    have := h2 i i.2
    unfold mulVec at this
    rw [Finset.sum_range] at this
    rw [show (∑ j : Fin n, J i j * (Vec.ofFun y : Vec n K) j) = ∑ j : Fin n, J i j * y j from rfl, this]
    unfold Vec.toFun
    rw [dif_pos i.2]

theorem dense_kernel {m : Mem n K} {J : Mat K} {p0 : Nat → Nat} {d : Vec n K}
    (hd : denseSetup n J p0 = .ok m.matJ m.piv) (h : ∀ i : Fin n, ∑ j : Fin n, J i j * d j = 0) : d = fun _ => 0 := by
  have hdet := (Props.c02_dense_setup_ok_iff n _ p0).1.1 ⟨_, _, hd⟩
  refine Matrix.eq_zero_of_mulVec_eq_zero hdet (v := d) ?_
  funext i
  simpa [Matrix.mulVec, dotProduct, Props.asMatrix] using h i

theorem idaSetup_ok {P : Problem n q K} {e : Env n K} {m m' : Mem n K} {F : Vec n K} (h : idaSetup P e m F = some m')
    (hn : n ≠ 0) :
    denseSetup n (P.jac 0 e.cj m.yy m.yp F (fun _ _ => 0)) m.piv = .ok m'.matJ m'.piv ∧ m'.cjratio = 1 := by
  unfold idaSetup lsSetup at h
  simp only at h
  rw [if_neg hn] at h
  simp only at h
  cases hd : denseSetup n (P.jac 0 e.cj m.yy m.yp F (fun _ _ => 0)) m.piv with
  | ok a p =>
    rw [hd] at h
    simp only [Option.some.injEq] at h
    subst h
    exact ⟨rfl, rfl⟩
  | err c a p => rw [hd] at h; cases h
  | panic => rw [hd] at h; cases h

theorem idaCtest_mem (e : Env n K) (m : Mem n K) (vw : NlsView) (del : Vec n K) (tol : K) (w : Vec n K) :
    (idaCtest e m vw del tol w).1.matJ = m.matJ ∧ (idaCtest e m vw del tol w).1.piv = m.piv ∧
    (idaCtest e m vw del tol w).1.cjratio = m.cjratio := by
  obtain ⟨-, -, h1, h2, h3⟩ := idaCtest_keeps e m vw del tol w
  exact ⟨h2, h3, h1⟩

/-- The second iteration of a linear problem: the residual is zero. -/
theorem second_iteration {n q : Nat} {K : Type u} [Field K] [LinearOrder K] [IsStrictOrderedRing K] [ExactParams K] {P : Problem n q K} {e : Env n K} {tol : K} {w : Vec n K} {fuel : Nat} {N : Newton (Vec n K)}
    {m : Mem n K} {y : Vec n K} {J : Mat K} {p0 : Nat → Nat} (h0 : ExactParams.sqrt (0 : K) = 0)
    (hp : ExactParams.powf (0 : K) 1 = 0) (ht : 0 ≤ tol) (hd : denseSetup n J p0 = .ok m.matJ m.piv) (hr : m.cjratio = 1)
    (hc : N.curiter = 1) (hz : N.delta = fun _ => 0) {N' : Newton (Vec n K)} {m' : Mem n K} {y' : Vec n K} {er : Err} :
    newtonInner (idaNLProblem P e) tol w (fuel + 1) N m y ≠ .done N' m' y' (.error er) := by
  intro h
  unfold newtonInner at h
  simp only at h
  have hsol : (idaNLProblem P e).solve m y (-N.delta) = (match lsSolve m (-N.delta) with
        | none => (m, -N.delta, Cb.panic)
        | some (m, b) => (m, b, .ok ())) := rfl
  rw [hsol] at h
  cases hl : lsSolve m (-N.delta) with
  | none => rw [hl] at h; cases h
  | some md =>
    obtain ⟨m1, d⟩ := md
    rw [hl] at h
    simp only at h
    obtain ⟨h1, -, -, -⟩ := lsSolve_solves hd hr hl
    have hd0 : d = (fun _ => 0 : Vec n K) := dense_kernel hd fun i => by
      rw [h1 i, hz]; show -(0 : K) = 0; exact neg_zero
    subst hd0
    have hct : ∀ vw : NlsView, vw.curIter = 1 → ∃ m2, (idaNLProblem P e).ctest m1 vw (y + (fun _ => 0 : Vec n K)) (fun _ => 0 : Vec n K) tol w =
        (m2, .ok true) := by
      intro vw hv
      show ∃ m2, idaCtest e m1 vw (fun _ => 0 : Vec n K) tol w = (m2, .ok true)
      unfold idaCtest
      simp only
      rw [if_neg (by rw [hv]; decide)]
      have hn0 : normWrms (fun _ => 0 : Vec n K) w = 0 := by
        unfold normWrms
        rw [vsum_zero _ (fun i => by simp), ex_sqrt, zero_div, h0]
      have hrate : Scalar.powf (normWrms (fun _ => 0 : Vec n K) w / m1.oldnrm) (Scalar.recip (Scalar.ofNat vw.curIter)) = (0 : K) := by
        rw [hn0, hv, zero_div, ex_powf]
        have : Scalar.recip (Scalar.ofNat 1 : K) = 1 := by simp [Scalar.recip]
        rw [this, hp]
      rw [hrate]
      have h9 : Scalar.gt (0 : K) Scalar.pt9 = false := by
        simp only [Scalar.gt, ex_lt, ex_pt9, decide_eq_false_iff_not, not_lt]
        norm_num
      rw [h9]
      simp only [Bool.false_eq_true, if_false]
      have : Scalar.le ((0 : K) / (1 - 0) * normWrms (fun _ => 0 : Vec n K) w) tol = true := by
        rw [ex_le]; simp [ht]
      rw [this]
      exact ⟨_, rfl⟩
    obtain ⟨m2, h2⟩ := hct (Newton.view { N with niters := N.niters + 1, delta := (fun _ => 0 : Vec n K) }) hc
    rw [h2] at h
    cases h

/-- Linear problems: Newton's method with a current Jacobian converges. -/
theorem Spec.LinearProblem.fresh {P : Problem n q K} {A B : Matrix (Fin n) (Fin n) K} {f : K → Vec n K}
    (hL : LinearProblem P A B f) (h0 : ExactParams.sqrt (0 : K) = 0) (hp : ExactParams.powf (0 : K) 1 = 0) :
    FreshConverges P := by
  intro e tol w jb N N' m m' y y' hmx ht h
  rcases Nat.eq_zero_or_pos n with hn | hn
  · -- no unknowns: the linear solver panics
    subst hn
    unfold newtonAttempt at h
    simp only [idaNLProblem, if_true] at h
    cases hs : idaSetup P e (idaSys P e m vzero N.delta).1 (idaSys P e m vzero N.delta).2 with
    | none => rw [hs] at h; cases h
    | some m1 =>
      rw [hs] at h
      simp only at h
      unfold newtonInner at h
      simp only at h
      cases hl : lsSolve m1 (-(idaSys P e m vzero N.delta).2) with
      | none => rw [hl] at h; cases h
      | some md =>
        unfold lsSolve denseSolve denseGetRs at hl
        split at hl
        · cases hl
        · rename_i hy
          split at hy
          · cases hy
          · simp at hy
  have hn0 : n ≠ 0 := by omega
  unfold newtonAttempt at h
  simp only [idaNLProblem, if_true] at h
  cases hs : idaSetup P e (idaSys P e m vzero N.delta).1 (idaSys P e m vzero N.delta).2 with
  | none => rw [hs] at h; cases h
  | some m1 =>
    rw [hs] at h
    simp only at h
    obtain ⟨hd, hr⟩ := idaSetup_ok hs hn0
    set F := (idaSys P e m vzero N.delta).2 with hF
    set J := P.jac 0 e.cj (idaSys P e m vzero N.delta).1.yy (idaSys P e m vzero N.delta).1.yp F (fun _ _ => 0) with hJ
    rw [hmx] at h
    rw [show (4 + 1 : Nat) = 4 + 1 from rfl, newtonInner] at h
    simp only at h
    cases hl : lsSolve m1 (-F) with
    | none => rw [hl] at h; cases h
    | some md =>
      obtain ⟨m2, d⟩ := md
      rw [hl] at h
      simp only at h
      obtain ⟨g1, g2, g3, g4⟩ := lsSolve_solves hd hr hl
      -- the residual at the first iterate
      have hres : ∀ m buf, (idaSys P e m (vzero + d) buf).2 = fun _ => 0 := by
        intro m buf
        funext i
        show P.res e.tn (vadd e.yypredict (vzero + d)) (scaledAdd e.yppredict e.cj (vzero + d)) buf i = 0
        have hF0 : F i = (∑ j, A i j * e.yypredict j) + (∑ j, B i j * e.yppredict j) + f e.tn i := by
          show P.res e.tn (vadd e.yypredict vzero) (scaledAdd e.yppredict e.cj vzero) N.delta i = _
          rw [hL.res]
          congr 2
          · exact Finset.sum_congr rfl fun j _ => by show A i j * (e.yypredict j + 0) = _; rw [add_zero]
          · exact Finset.sum_congr rfl fun j _ => by show B i j * (e.yppredict j + e.cj * 0) = _; rw [mul_zero, add_zero]
        rw [hL.res]
        have e1 : (∑ j, A i j * vadd e.yypredict (vzero + d) j) = (∑ j, A i j * e.yypredict j) + ∑ j, A i j * d j := by
          rw [← Finset.sum_add_distrib]
          exact Finset.sum_congr rfl fun j _ => by
            show A i j * (e.yypredict j + (0 + d j)) = _
            ring
        have e2 : (∑ j, B i j * scaledAdd e.yppredict e.cj (vzero + d) j) =
            (∑ j, B i j * e.yppredict j) + ∑ j, e.cj * B i j * d j := by
          rw [← Finset.sum_add_distrib]
          exact Finset.sum_congr rfl fun j _ => by
            show B i j * (e.yppredict j + e.cj * (0 + d j)) = _
            ring
        have e3 : (∑ j, A i j * d j) + (∑ j, e.cj * B i j * d j) = -F i := by
          rw [← Finset.sum_add_distrib]
          have : ∀ j : Fin n, A i j * d j + e.cj * B i j * d j = J i j * d j := by
            intro j
            rw [hJ, hL.jac]; ring
          rw [Finset.sum_congr rfl fun j _ => this j]
          exact g1 i
        rw [e1, e2]
        linear_combination e3 - hF0
      cases hc : idaCtest e m2 { N with jcur := true, curiter := 0, niters := N.niters + 1, delta := d : Newton (Vec n K) }.view d tol w with
      | mk m3 c =>
        have hkeep := idaCtest_mem e m2 { N with jcur := true, curiter := 0, niters := N.niters + 1, delta := d : Newton (Vec n K) }.view d tol w
        rw [hc] at hkeep
        have hfirst : c ≠ .err (.nl .convergenceRecover) := by
          intro hcc
          subst hcc
          unfold idaCtest at hc
          simp only [Newton.view, if_true] at hc
          split at hc <;> cases hc
        simp only [Newton.view] at hc
        simp only [Newton.view] at h
        rw [hc] at h
        cases c with
        | panic => cases h
        | err er =>
          simp only [NOut.done.injEq, Except.error.injEq] at h
          exact hfirst (by rw [h.2.2.2])
        | ok b =>
          cases b with
          | true => cases h
          | false =>
            simp only at h
            rw [if_neg (by decide)] at h
            rw [show (4 : Nat) = 3 + 1 from rfl] at h
            refine second_iteration (J := J) (p0 := (idaSys P e m vzero N.delta).1.piv) h0 hp ht ?_ ?_ rfl ?_ h
            · show _ = RfRes.ok m3.matJ m3.piv
              rw [hkeep.1, hkeep.2.1, g2, g3]; exact hd
            · show m3.cjratio = 1
              rw [hkeep.2.2, g4, hr]
            · exact hres m3 d

end

end Verif
