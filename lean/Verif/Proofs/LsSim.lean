import Verif.Proofs.SwapExec
import Verif.Spec.Ls

/-!
# Newton's method with two linear solvers (any scalar type)
-/

set_option autoImplicit false
set_option linter.unusedSectionVars false
set_option linter.unusedSimpArgs false
set_option linter.unusedVariables false

namespace Verif

universe u v w u' v'

/-! ## Newton's method on two problem memories -/

section
variable {σ : Type u} {σ' : Type u'} {V : Type v} {K : Type w} [Add V] [Neg V]

/-- The same outcome, with problem memories in the relation `R`. -/
inductive NOut.Both (R : σ → σ' → Prop) : NOut σ V → NOut σ' V → Prop
  | done (N : Newton V) (s : σ) (s' : σ') (y : V) (r : Except Err Unit) : R s s' →
      NOut.Both R (.done N s y r) (.done N s' y r)
  | panic : NOut.Both R .panic .panic
  | diverge : NOut.Both R .diverge .diverge

/-- The problems give the same results: memories in the relation `R0` correspond; after the linear solver has been set up
they are in the relation `R`. -/
structure NLProblem.Pair (P : NLProblem σ V K) (P' : NLProblem σ' V K) (R0 R : σ → σ' → Prop) : Prop where
  weak : ∀ s s', R s s' → R0 s s'
  sys0 : ∀ s s' y b, R0 s s' → ∃ t t' d, P.sys s y b = (t, d, .ok ()) ∧ P'.sys s' y b = (t', d, .ok ()) ∧ R0 t t'
  sys : ∀ s s' y b, R s s' → ∃ t t' d, P.sys s y b = (t, d, .ok ()) ∧ P'.sys s' y b = (t', d, .ok ()) ∧ R t t'
  setup : ∀ s s' y f j, R0 s s' → ((P.setup s y f j).2 = .panic ∧ (P'.setup s' y f j).2 = .panic) ∨
    ∃ t t' c, P.setup s y f j = (t, c) ∧ P'.setup s' y f j = (t', c) ∧ R t t'
  solve : ∀ s s' y b, R s s' → ((P.solve s y b).2.2 = .panic ∧ (P'.solve s' y b).2.2 = .panic) ∨
    ∃ t t' d c, P.solve s y b = (t, d, c) ∧ P'.solve s' y b = (t', d, c) ∧ R t t'
  ctest : ∀ s s' v y d t e, R s s' → ∃ m m' c, P.ctest s v y d t e = (m, c) ∧ P'.ctest s' v y d t e = (m', c) ∧ R m m'

variable {P : NLProblem σ V K} {P' : NLProblem σ' V K} {R0 R : σ → σ' → Prop}

theorem newtonInner_pair (hP : P.Pair P' R0 R) (tol : K) (w : V) (fuel : Nat) :
    ∀ (N : Newton V) (s : σ) (s' : σ') (y : V), R s s' →
      NOut.Both R (newtonInner P tol w fuel N s y) (newtonInner P' tol w fuel N s' y) := by
  induction fuel with
  | zero => intro N s s' y h; exact .diverge
  | succ fuel ih =>
    intro N s s' y h
    unfold newtonInner
    simp only
    rcases hP.solve s s' y (-N.delta) h with ⟨h1, h2⟩ | ⟨m, m', d, c, h1, h2, h3⟩
    · generalize P.solve s y (-N.delta) = a at h1
      generalize P'.solve s' y (-N.delta) = a' at h2
      obtain ⟨m, d, c⟩ := a
      obtain ⟨m', d', c'⟩ := a'
      cases h1; cases h2
      exact .panic
    · rw [h1, h2]
      cases c with
      | panic => exact .panic
      | err e => exact .done _ _ _ _ _ h3
      | ok u =>
        simp only
        obtain ⟨t, t', c, h4, h5, h6⟩ := hP.ctest m m' (Newton.view { N with niters := N.niters + 1, delta := d }) (y + d) d tol w h3
        rw [show P.ctest m (Newton.view { N with niters := N.niters + 1, delta := d }) (y + d) d tol w = _ from h4]
        rw [show P'.ctest m' (Newton.view { N with niters := N.niters + 1, delta := d }) (y + d) d tol w = _ from h5]
        cases c with
        | panic => exact .panic
        | err e => exact .done _ _ _ _ _ h6
        | ok b =>
          cases b with
          | true => exact .done _ _ _ _ _ h6
          | false =>
            simp only
            split
            · exact .done _ _ _ _ _ h6
            · obtain ⟨t2, t2', d2, h7, h8, h9⟩ := hP.sys t t' (y + d) d h6
              rw [h7, h8]
              exact ih _ _ _ _ h9

theorem newtonAttempt_pair (hP : P.Pair P' R0 R) (y0 : V) (tol : K) (w : V) (call jbad : Bool) (N : Newton V) (s : σ) (s' : σ')
    (y : V) (h : R0 s s') (hc : call = false → R s s') :
    NOut.Both R (newtonAttempt P y0 tol w call jbad N s y) (newtonAttempt P' y0 tol w call jbad N s' y) := by
  unfold newtonAttempt
  cases call with
  | false =>
    obtain ⟨t, t', d, h7, h8, h9⟩ := hP.sys s s' y0 N.delta (hc rfl)
    rw [h7, h8]
    exact newtonInner_pair hP tol w _ _ _ _ _ h9
  | true =>
    obtain ⟨t, t', d, h7, h8, h9⟩ := hP.sys0 s s' y0 N.delta h
    rw [h7, h8]
    simp only [if_true]
    rcases hP.setup t t' y0 d jbad h9 with ⟨h1, h2⟩ | ⟨m, m', c, h1, h2, h3⟩
    · generalize P.setup t y0 d jbad = a at h1
      generalize P'.setup t' y0 d jbad = a' at h2
      obtain ⟨m, c⟩ := a
      obtain ⟨m', c'⟩ := a'
      cases h1; cases h2
      exact .panic
    · rw [h1, h2]
      cases c with
      | panic => exact .panic
      | err e => exact .done _ _ _ _ _ h3
      | ok b => exact newtonInner_pair hP tol w _ _ _ _ _ h3

theorem newtonOuter_pair (hP : P.Pair P' R0 R) (y0 : V) (tol : K) (w : V) (fuel : Nat) :
    ∀ (call jbad : Bool) (N : Newton V) (s : σ) (s' : σ') (y : V), R0 s s' → (call = false → R s s') →
      NOut.Both R (newtonOuter P y0 tol w fuel call jbad N s y) (newtonOuter P' y0 tol w fuel call jbad N s' y) := by
  induction fuel with
  | zero => intro call jbad N s s' y h hc; exact .diverge
  | succ fuel ih =>
    intro call jbad N s s' y h hc
    unfold newtonOuter
    have h1 := newtonAttempt_pair hP y0 tol w call jbad N s s' y h hc
    generalize newtonAttempt P y0 tol w call jbad N s y = a at h1 ⊢
    generalize newtonAttempt P' y0 tol w call jbad N s' y = a' at h1 ⊢
    cases h1 with
    | panic => exact .panic
    | diverge => exact .diverge
    | done N s s' y r hr =>
      cases r with
      | ok u => exact .done _ _ _ _ _ hr
      | error e =>
        simp only
        split
        · split
          · exact ih _ _ _ _ _ _ (hP.weak _ _ hr) fun _ => hr
          · exact ih _ _ _ _ _ _ (hP.weak _ _ hr) fun _ => hr
        · exact .done _ _ _ _ _ hr

end

/-! ## Sessions -/

section
variable {ν : Type v} {ν' : Type v'} {n q : Nat} {K : Type u} [Scalar K]

/-- Corresponding solvers give the same sessions. -/
theorem session_fit {cfg : Cfg ν n q K} {nls' : NlSolver ν' n K} {R0 R : Gear ν n K → Gear ν' n K → Prop}
    (hN : NlsSim cfg.nls nls' R0 R) (hi : ∀ g k, R0 g k → cfg.nls.numIters g.nls = nls'.numIters k.nls) (rf sf : Nat)
    (ops : List (Op K)) : ∀ (s : State ν n q K) (s' : State ν' n q K), FitSim R0 R s s' →
    Spec.session (cfg.withNls nls') rf sf s' ops = Spec.session cfg rf sf s ops := by
  induction ops with
  | nil => intro s s' h; rfl
  | cons op ops ih =>
    intro s s' h
    unfold Spec.session
    rcases exec_fit hN rf sf op h with ⟨h1, h2⟩ | ⟨s1, s1', r, h1, h2, h3⟩
    · rw [h1, h2]
    · rw [h1, h2]
      simp only
      rw [ih _ _ h3]
      obtain ⟨k, rfl, h4, -⟩ := h3
      have h5 : getNumNonlinSolvIters (cfg.withNls nls') (s1.fit k) = getNumNonlinSolvIters cfg s1 := by
        show s1.cnt.nni + nls'.numIters k.nls = s1.cnt.nni + cfg.nls.numIters s1.gear.nls
        rw [hi _ _ h4]
      have h6 : Spec.snapshot (cfg.withNls nls') (s1.fit k) = Spec.snapshot cfg s1 := by
        unfold Spec.snapshot
        rw [h5]
        rfl
      rw [h6]
      rfl

end

/-! ## The dense solver as a linear solver -/

section
variable {n q : Nat} {K : Type u} [Scalar K] {L : Type v} {L' : Type v'}

/-- The problem memories agree but for the scratch vector of the linear solver, whose object holds the pivots. -/
def DensePair (m : Mem n K) (p : Mem n K × LsMem (Nat → Nat)) : Prop :=
  ∃ piv x, p.1 = { m with piv := piv, x := x } ∧ p.2.ls = m.piv

theorem densePair (P : Problem n q K) (e : Env n K) :
    (idaNLProblem P e).Pair (idaNLProblemWith (denseLs n K) P e) DensePair DensePair := by
  have hs : ∀ (s : Mem n K) (s' : Mem n K × LsMem (Nat → Nat)) (y b : Vec n K), DensePair s s' →
      ∃ t t' d, (idaNLProblem P e).sys s y b = (t, d, .ok ()) ∧
        (idaNLProblemWith (denseLs n K) P e).sys s' y b = (t', d, .ok ()) ∧ DensePair t t' := by
    rintro s ⟨_, l⟩ y b ⟨piv, x, rfl, hl⟩
    exact ⟨_, _, _, rfl, rfl, piv, x, rfl, hl⟩
  refine ⟨fun _ _ h => h, hs, hs, ?_, ?_, ?_⟩
  · rintro s ⟨_, l⟩ y f j ⟨piv, x, rfl, hl⟩
    simp only [idaNLProblem, idaNLProblemWith, idaSetup, idaSetupWith, lsSetup, lsSetupWith, denseLs] at hl ⊢
    rw [hl]
    by_cases hn : n = 0
    · simp only [if_pos hn]
      cases denseSetup n s.matJ s.piv with
      | ok a p => exact .inr ⟨_, _, _, rfl, rfl, _, _, rfl, rfl⟩
      | err c a p => exact .inl ⟨rfl, rfl⟩
      | panic => exact .inl ⟨rfl, rfl⟩
    · simp only [if_neg hn]
      cases denseSetup n (P.jac 0 e.cj s.yy s.yp f fun _ _ => 0) s.piv with
      | ok a p => exact .inr ⟨_, _, _, rfl, rfl, _, _, rfl, rfl⟩
      | err c a p => exact .inl ⟨rfl, rfl⟩
      | panic => exact .inl ⟨rfl, rfl⟩
  · rintro s ⟨_, l⟩ y b ⟨piv, x, rfl, hl⟩
    simp only [idaNLProblem, idaNLProblemWith, lsSolve, lsSolveWith, denseLs, lsResult] at hl ⊢
    rw [hl]
    cases denseSolve n s.matJ s.piv b.toFun with
    | none => exact .inl ⟨rfl, rfl⟩
    | some x =>
      exact .inr ⟨_, ({ s with piv := piv, x := Vec.ofFun x }, { ls := s.piv, nli := l.nli }), _, _, rfl, by simp, _, _, rfl, rfl⟩
  · rintro s ⟨_, l⟩ vw y d t w ⟨piv, x, rfl, hl⟩
    simp only [idaNLProblem, idaNLProblemWith, idaCtest]
    by_cases h0 : vw.curIter = 0
    · simp only [if_pos h0]
      by_cases h1 : Scalar.le (normWrms d w) (Scalar.pt0001 * e.toldel) = true
      · simp only [if_pos h1]; exact ⟨_, _, _, rfl, rfl, _, _, rfl, hl⟩
      · simp only [if_neg h1]; exact ⟨_, _, _, rfl, rfl, _, _, rfl, hl⟩
    · simp only [if_neg h0]
      by_cases h1 : Scalar.gt (Scalar.powf (normWrms d w / s.oldnrm) (Scalar.recip (Scalar.ofNat vw.curIter))) Scalar.pt9 = true
      · simp only [if_pos h1]; exact ⟨_, _, _, rfl, rfl, _, _, rfl, hl⟩
      · simp only [if_neg h1]; exact ⟨_, _, _, rfl, rfl, _, _, rfl, hl⟩

/-- The same for the parts of the state. -/
def DenseGear (g : Gear (Newton (Vec n K)) n K) (k : Gear (Newton (Vec n K) × LsMem (Nat → Nat)) n K) : Prop :=
  k.nls.1 = g.nls ∧ k.nls.2.ls = g.piv ∧ k.matJ = g.matJ

theorem dense_nlsSim (P : Problem n q K) (fuel : Nat) :
    NlsSim (newtonNls P fuel) (newtonNlsWith (denseLs n K) P fuel) DenseGear DenseGear := by
  refine ⟨fun _ _ h => h, ?_⟩
  rintro N e m y0 y w tol call ⟨⟨N', l⟩, matJ, piv, x⟩ ⟨h1, h2, h3⟩ -
  simp only [Mem.gear] at h1 h2 h3
  subst h1
  simp only [newtonNls, newtonNlsWith, newtonSolve]
  have hp := newtonOuter_pair (densePair P e) y0 tol w fuel call false N' m (m.swap ⟨(N', l), matJ, piv, x⟩, l) y
    ⟨piv, x, by simp only [Mem.swap]; rw [h3], h2⟩ (fun _ => ⟨piv, x, by simp only [Mem.swap]; rw [h3], h2⟩)
  generalize newtonOuter (idaNLProblem P e) y0 tol w fuel call false N' m y = a at hp ⊢
  generalize newtonOuter (idaNLProblemWith (denseLs n K) P e) y0 tol w fuel call false N'
    (m.swap ⟨(N', l), matJ, piv, x⟩, l) y = a' at hp ⊢
  cases hp with
  | panic => exact .panic
  | diverge => exact .diverge
  | done N s s' y r hr =>
    obtain ⟨s1, l⟩ := s'
    obtain ⟨piv, x, h4, h5⟩ := hr
    simp only at h4 h5
    subst h4
    exact .ret N s ⟨(N, l), s.matJ, piv, x⟩ y r ⟨rfl, h5, rfl⟩

/-! ## Two linear solvers -/

/-- Two linear solvers give the same results: `Q0` relates the objects, `Q` the objects and stored matrices after `setup`. -/
structure LsSim (S : LSolver L n K) (S' : LSolver L' n K) (Q0 : L → L' → Prop) (Q : L → Mat K → L' → Mat K → Prop) : Prop where
  setup : ∀ l l' A, Q0 l l' → ((S.setup l A).2.2 ≠ .ok ∧ (S'.setup l' A).2.2 ≠ .ok) ∨
    ∃ l1 a l1' a', S.setup l A = (l1, a, .ok) ∧ S'.setup l' A = (l1', a', .ok) ∧ Q l1 a l1' a'
  weak : ∀ l a l' a', Q l a l' a' → Q0 l l'
  solve : ∀ l a l' a' w b, Q l a l' a' →
    ((S.solve (S.setScaling l w w) a vzero b (lsTol n (S.kind l))).2.2 = .panic ∧
      (S'.solve (S'.setScaling l' w w) a' vzero b (lsTol n (S'.kind l'))).2.2 = .panic) ∨
    ∃ l1 x l1' x' r, r ≠ .panic ∧ S.solve (S.setScaling l w w) a vzero b (lsTol n (S.kind l)) = (l1, x, r) ∧
      S'.solve (S'.setScaling l' w w) a' vzero b (lsTol n (S'.kind l')) = (l1', x', r) ∧ Q l1 a l1' a' ∧
      ∀ c, lsResult (S.kind l) (S.numIters l1) c x b = lsResult (S'.kind l') (S'.numIters l1') c x' b

/-- The problem memories agree but for the linear solver. -/
def LsPair0 (Q0 : L → L' → Prop) (p : Mem n K × LsMem L) (p' : Mem n K × LsMem L') : Prop :=
  (∃ matJ piv x, p'.1 = { p.1 with matJ := matJ, piv := piv, x := x }) ∧ Q0 p.2.ls p'.2.ls

def LsPair (Q : L → Mat K → L' → Mat K → Prop) (p : Mem n K × LsMem L) (p' : Mem n K × LsMem L') : Prop :=
  (∃ matJ piv x, p'.1 = { p.1 with matJ := matJ, piv := piv, x := x }) ∧ Q p.2.ls p.1.matJ p'.2.ls p'.1.matJ

theorem lsPair (hn : n ≠ 0) {S : LSolver L n K} {S' : LSolver L' n K} {Q0 : L → L' → Prop} {Q : L → Mat K → L' → Mat K → Prop}
    (hS : LsSim S S' Q0 Q) (P : Problem n q K) (e : Env n K) :
    (idaNLProblemWith S P e).Pair (idaNLProblemWith S' P e) (LsPair0 Q0) (LsPair Q) := by
  refine ⟨?_, ?_, ?_, ?_, ?_, ?_⟩
  · rintro s s' ⟨h1, h2⟩; exact ⟨h1, hS.weak _ _ _ _ h2⟩
  · rintro ⟨m, l⟩ ⟨m', l'⟩ y b ⟨⟨a, p, x, hm⟩, h2⟩
    simp only at hm
    subst hm
    exact ⟨_, _, _, rfl, rfl, ⟨_, _, _, rfl⟩, h2⟩
  · rintro ⟨m, l⟩ ⟨m', l'⟩ y b ⟨⟨a, p, x, hm⟩, h2⟩
    simp only at hm
    subst hm
    exact ⟨_, _, _, rfl, rfl, ⟨_, _, _, rfl⟩, h2⟩
  · rintro ⟨m, l⟩ ⟨m', l'⟩ y f j ⟨⟨a, p, x, hm⟩, h2⟩
    simp only at hm
    subst hm
    simp only [idaNLProblemWith, idaSetupWith, lsSetupWith, if_neg hn]
    rcases hS.setup l.ls l'.ls (P.jac 0 e.cj m.yy m.yp f fun _ _ => 0) h2 with ⟨h3, h4⟩ | ⟨l1, a1, l1', a1', h3, h4, h5⟩
    · generalize S.setup l.ls (P.jac 0 e.cj m.yy m.yp f fun _ _ => 0) = z at h3 ⊢
      generalize S'.setup l'.ls (P.jac 0 e.cj m.yy m.yp f fun _ _ => 0) = z' at h4 ⊢
      obtain ⟨l1, a1, r⟩ := z
      obtain ⟨l1', a1', r'⟩ := z'
      left
      cases r <;> cases r' <;> first | exact absurd rfl h3 | exact absurd rfl h4 | exact ⟨rfl, rfl⟩
    · rw [h3, h4]
      exact .inr ⟨_, _, _, rfl, rfl, ⟨_, _, _, rfl⟩, h5⟩
  · rintro ⟨m, l⟩ ⟨m', l'⟩ y b ⟨⟨a, p, x, hm⟩, h2⟩
    simp only at hm
    subst hm
    simp only [idaNLProblemWith, lsSolveWith]
    simp only at h2
    rcases hS.solve l.ls m.matJ l'.ls a e.ewt b h2 with ⟨h3, h4⟩ | ⟨l1, x1, l1', x1', r, hr, h3, h4, h5, h6⟩
    · generalize S.solve (S.setScaling l.ls e.ewt e.ewt) m.matJ vzero b (lsTol n (S.kind l.ls)) = z at h3 ⊢
      generalize S'.solve (S'.setScaling l'.ls e.ewt e.ewt) a vzero b (lsTol n (S'.kind l'.ls)) = z' at h4 ⊢
      obtain ⟨l1, a1, r⟩ := z
      obtain ⟨l1', a1', r'⟩ := z'
      cases h3; cases h4
      exact .inl ⟨rfl, rfl⟩
    · rw [h3, h4]
      cases r with
      | panic => exact absurd rfl hr
      | ok => exact .inr ⟨_, _, _, _, rfl, by rw [h6], ⟨_, _, _, rfl⟩, h5⟩
      | err => exact .inr ⟨_, _, _, _, rfl, by rw [h6], ⟨_, _, _, rfl⟩, h5⟩
  · rintro ⟨m, l⟩ ⟨m', l'⟩ vw y d t w ⟨⟨a, p, x, hm⟩, h2⟩
    simp only at hm
    subst hm
    simp only [idaNLProblemWith, idaCtest]
    by_cases h0 : vw.curIter = 0
    · simp only [if_pos h0]
      by_cases h1 : Scalar.le (normWrms d w) (Scalar.pt0001 * e.toldel) = true
      · simp only [if_pos h1]; exact ⟨_, _, _, rfl, rfl, ⟨_, _, _, rfl⟩, h2⟩
      · simp only [if_neg h1]; exact ⟨_, _, _, rfl, rfl, ⟨_, _, _, rfl⟩, h2⟩
    · simp only [if_neg h0]
      by_cases h1 : Scalar.gt (Scalar.powf (normWrms d w / m.oldnrm) (Scalar.recip (Scalar.ofNat vw.curIter))) Scalar.pt9 = true
      · simp only [if_pos h1]; exact ⟨_, _, _, rfl, rfl, ⟨_, _, _, rfl⟩, h2⟩
      · simp only [if_neg h1]; exact ⟨_, _, _, rfl, rfl, ⟨_, _, _, rfl⟩, h2⟩

def LsGear0 (Q0 : L → L' → Prop) (g : Gear (Newton (Vec n K) × LsMem L) n K) (k : Gear (Newton (Vec n K) × LsMem L') n K) : Prop :=
  k.nls.1 = g.nls.1 ∧ Q0 g.nls.2.ls k.nls.2.ls

def LsGear (Q : L → Mat K → L' → Mat K → Prop) (g : Gear (Newton (Vec n K) × LsMem L) n K)
    (k : Gear (Newton (Vec n K) × LsMem L') n K) : Prop :=
  k.nls.1 = g.nls.1 ∧ Q g.nls.2.ls g.matJ k.nls.2.ls k.matJ

theorem ls_nlsSim (hn : n ≠ 0) {S : LSolver L n K} {S' : LSolver L' n K} {Q0 : L → L' → Prop}
    {Q : L → Mat K → L' → Mat K → Prop} (hS : LsSim S S' Q0 Q) (P : Problem n q K) (fuel : Nat) :
    NlsSim (newtonNlsWith S P fuel) (newtonNlsWith S' P fuel) (LsGear0 Q0) (LsGear Q) := by
  refine ⟨fun g k h => ⟨h.1, hS.weak _ _ _ _ h.2⟩, ?_⟩
  rintro ⟨N, l⟩ e m y0 y w tol call ⟨⟨N', l'⟩, matJ, piv, x⟩ ⟨h1, h2⟩ hc
  simp only [Mem.gear] at h1 h2
  subst h1
  simp only [newtonNlsWith, newtonSolve]
  have hp := newtonOuter_pair (lsPair hn hS P e) y0 tol w fuel call false N' (m, l) (m.swap ⟨(N', l'), matJ, piv, x⟩, l') y
    ⟨⟨_, _, _, rfl⟩, h2⟩ (fun h => ⟨⟨_, _, _, rfl⟩, (hc h).2⟩)
  generalize newtonOuter (idaNLProblemWith S P e) y0 tol w fuel call false N' (m, l) y = a at hp ⊢
  generalize newtonOuter (idaNLProblemWith S' P e) y0 tol w fuel call false N'
    (m.swap ⟨(N', l'), matJ, piv, x⟩, l') y = a' at hp ⊢
  cases hp with
  | panic => exact .panic
  | diverge => exact .diverge
  | done N s s' y r hr =>
    obtain ⟨s, l⟩ := s
    obtain ⟨s', l'⟩ := s'
    obtain ⟨⟨matJ, piv, x, h4⟩, h5⟩ := hr
    simp only at h4 h5
    subst h4
    exact .ret (N, l) s ⟨(N, l'), matJ, piv, x⟩ y r ⟨rfl, h5⟩

end

end Verif
