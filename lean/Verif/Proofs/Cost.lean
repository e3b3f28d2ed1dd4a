import Verif.Proofs.Returns
import Verif.Proofs.NoPanic
import Verif.Spec.Cost

/-! # Work per attempt, and passes that repeat for ever -/

set_option autoImplicit false
set_option linter.unusedSectionVars false
set_option linter.unusedSimpArgs false
set_option linter.unusedVariables false

namespace Verif

open Verif.Spec Verif.Props

universe u v

section
variable {n q : Nat} {K : Type u} [Scalar K]

/-! ## Counting -/

theorem lsSolve_cnt {m m' : Mem n K} {b d : Vec n K} (h : lsSolve m b = some (m', d)) :
    m'.nre = m.nre ∧ m'.nje = m.nje ∧ m'.nsetups = m.nsetups := by
  unfold lsSolve at h
  split at h
  · cases h
  · simp only [Option.some.injEq, Prod.mk.injEq] at h
    rw [← h.1]; exact ⟨rfl, rfl, rfl⟩

theorem idaCtest_cnt (e : Env n K) (m : Mem n K) (vw : NlsView) (del : Vec n K) (tol : K) (w : Vec n K) :
    (idaCtest e m vw del tol w).1.nre = m.nre ∧ (idaCtest e m vw del tol w).1.nje = m.nje ∧
    (idaCtest e m vw del tol w).1.nsetups = m.nsetups := by
  unfold idaCtest
  simp only
  split
  · split <;> exact ⟨rfl, rfl, rfl⟩
  · split <;> exact ⟨rfl, rfl, rfl⟩

theorem idaCtest_res (e : Env n K) (m : Mem n K) (vw : NlsView) (del : Vec n K) (tol : K) (w : Vec n K) :
    (idaCtest e m vw del tol w).2 = .err (.nl .convergenceRecover) ∨ ∃ b, (idaCtest e m vw del tol w).2 = .ok b := by
  unfold idaCtest
  simp only
  split
  · split
    · exact .inr ⟨_, rfl⟩
    · exact .inr ⟨_, rfl⟩
  · split
    · exact .inl rfl
    · exact .inr ⟨_, rfl⟩

/-- What an inner loop has done. -/
structure InnerCost (N N' : Newton (Vec n K)) (m m' : Mem n K) (r : Except Err Unit) : Prop where
  niters : N'.niters + m.nre = N.niters + m'.nre + 1
  nje : m'.nje = m.nje
  nsetups : m'.nsetups = m.nsetups
  maxiters : N'.maxiters = N.maxiters
  le : m.nre ≤ m'.nre
  bound : m'.nre + N.curiter + 1 ≤ m.nre + max N.maxiters (N.curiter + 1)
  ok : r = .ok () → N'.jcur = false
  err : ∀ err, r = .error err → err = .nl .convergenceRecover ∧ N'.jcur = N.jcur

theorem newtonInner_cost {P : Problem n q K} {e : Env n K} {tol : K} {w : Vec n K} (fuel : Nat) {N N' : Newton (Vec n K)}
    {m m' : Mem n K} {y y' : Vec n K} {r : Except Err Unit}
    (h : newtonInner (idaNLProblem P e) tol w fuel N m y = .done N' m' y' r) : InnerCost N N' m m' r := by
  induction fuel generalizing N m y with
  | zero => cases h
  | succ fuel ih =>
    unfold newtonInner at h
    simp only [idaNLProblem] at h
    cases hs : lsSolve m (-N.delta) with
    | none => rw [hs] at h; cases h
    | some p =>
      obtain ⟨m1, d⟩ := p
      obtain ⟨c1, c2, c3⟩ := lsSolve_cnt hs
      rw [hs] at h
      simp only at h
      generalize hvw : Newton.view _ = vw at h
      obtain ⟨k1, k2, k3⟩ := idaCtest_cnt e m1 vw d tol w
      cases hc : idaCtest e m1 vw d tol w with
      | mk m2 b =>
        rw [hc] at k1 k2 k3
        simp only at k1 k2 k3
        have hres := idaCtest_res e m1 vw d tol w
        rw [hc] at hres h
        simp only at hres
        rcases hres with rfl | ⟨b, rfl⟩
        · simp only at h
          cases h
          exact ⟨by simp only; omega, by omega, by omega, rfl, by omega, by omega, (fun h => by cases h),
            (fun e he => by cases he; exact ⟨rfl, rfl⟩)⟩
        · cases b with
          | true =>
            simp only at h
            cases h
            exact ⟨by simp only; omega, by omega, by omega, rfl, by omega, by omega, (fun h => rfl),
              (fun e he => by cases he)⟩
          | false =>
            simp only at h
            split at h
            · cases h
              exact ⟨by simp only; omega, by omega, by omega, rfl, by omega, by omega, (fun h => by cases h),
                (fun e he => by cases he; exact ⟨rfl, rfl⟩)⟩
            · rename_i hlt
              have := ih h
              obtain ⟨a1, a2, a3, a4, a5, a6, a7, a8⟩ := this
              simp only [idaSys] at a1 a2 a3 a4 a5 a6 a8
              exact ⟨by omega, by omega, by omega, a4, by omega, by omega, a7, a8⟩

/-- What a pass of the outer loop has done. -/
structure PassCost (c : Bool) (N N' : Newton (Vec n K)) (m m' : Mem n K) (r : Except Err Unit) : Prop where
  niters : N'.niters + m.nre = N.niters + m'.nre
  nje : m'.nje = m.nje + if c = true ∧ n ≠ 0 then 1 else 0
  nsetups : m'.nsetups = m.nsetups + if c = true then 1 else 0
  maxiters : N'.maxiters = N.maxiters
  le : m.nre + 1 ≤ m'.nre
  bound : m'.nre ≤ m.nre + max N.maxiters 1
  ok : r = .ok () → N'.jcur = false
  err : ∀ err, r = .error err → err = .nl .convergenceRecover ∧ N'.jcur = (c || N.jcur)

theorem idaSetup_cnt {P : Problem n q K} {e : Env n K} {m m' : Mem n K} {F : Vec n K} (h : idaSetup P e m F = some m') :
    m'.nre = m.nre ∧ m'.nje = m.nje + (if n ≠ 0 then 1 else 0) ∧ m'.nsetups = m.nsetups + 1 := by
  unfold idaSetup lsSetup at h
  by_cases hn : n = 0
  · simp only [hn, if_true] at h
    split at h
    · cases h
    · rename_i m1 h1
      split at h1
      · cases h1; cases h; exact ⟨rfl, by simp [hn], rfl⟩
      · cases h1
      · cases h1
  · simp only [hn, if_false] at h
    split at h
    · cases h
    · rename_i m1 h1
      split at h1
      · cases h1; cases h; exact ⟨rfl, by simp [hn], rfl⟩
      · cases h1
      · cases h1

theorem newtonAttempt_cost {P : Problem n q K} {e : Env n K} {y0 : Vec n K} {tol : K} {w : Vec n K} {c jb : Bool}
    {N N' : Newton (Vec n K)} {m m' : Mem n K} {y y' : Vec n K} {r : Except Err Unit}
    (h : newtonAttempt (idaNLProblem P e) y0 tol w c jb N m y = .done N' m' y' r) : PassCost c N N' m m' r := by
  unfold newtonAttempt at h
  simp only [idaNLProblem] at h
  cases c with
  | false =>
    simp only [Bool.false_eq_true, if_false] at h
    obtain ⟨a1, a2, a3, a4, a5, a6, a7, a8⟩ := newtonInner_cost _ h
    simp only [idaSys] at a1 a2 a3 a4 a5 a6 a8
    exact ⟨by omega, by simpa using a2, by simpa using a3, a4, by omega, by omega, a7, by simpa using a8⟩
  | true =>
    simp only [if_true] at h
    cases hs : idaSetup P e (idaSys P e m y0 N.delta).1 (idaSys P e m y0 N.delta).2 with
    | none => rw [hs] at h; cases h
    | some m1 =>
      rw [hs] at h
      simp only at h
      obtain ⟨b1, b2, b3⟩ := idaSetup_cnt hs
      obtain ⟨a1, a2, a3, a4, a5, a6, a7, a8⟩ := newtonInner_cost _ h
      simp only [idaSys] at b1 b2 b3
      simp only at a1 a4 a6 a8
      refine ⟨by omega, ?_, ?_, a4, by omega, by omega, a7, by simpa using a8⟩
      · simp only [true_and]; omega
      · simp only [if_true]; omega

/-! ## A pass with a new Jacobian depends on nothing that is left in memory -/

theorem rfLoop_piv (m k : Nat) (a : Mat K) (p p' : Nat → Nat) (c : Nat) :
    (∃ a1 p1 p1', rfLoop m k a p c = .ok a1 p1 ∧ rfLoop m k a p' c = .ok a1 p1' ∧ ∀ i < c, p1 i = p1' i) ∨
    (∃ col a1 p1 p1', rfLoop m k a p c = .err col a1 p1 ∧ rfLoop m k a p' c = .err col a1 p1') ∨
    (rfLoop m k a p c = .panic ∧ rfLoop m k a p' c = .panic) := by
  induction c with
  | zero => exact .inl ⟨a, p, p', rfl, rfl, by omega⟩
  | succ c ih =>
    rcases ih with ⟨a1, p1, p1', h1, h2, h3⟩ | ⟨col, a1, p1, p1', h1, h2⟩ | ⟨h1, h2⟩
    · unfold rfLoop
      rw [h1, h2]
      simp only [rfStep]
      split
      · exact .inr (.inr ⟨rfl, rfl⟩)
      · split
        · exact .inr (.inl ⟨_, _, _, _, rfl, rfl⟩)
        · refine .inl ⟨_, _, _, rfl, rfl, fun i hi => ?_⟩
          unfold upd
          split
          · rfl
          · exact h3 i (by omega)
    · unfold rfLoop
      rw [h1, h2]
      exact .inr (.inl ⟨_, _, _, _, rfl, rfl⟩)
    · unfold rfLoop
      rw [h1, h2]
      exact .inr (.inr ⟨rfl, rfl⟩)

theorem permuteB_piv (k : Nat) (p p' : Nat → Nat) (b : Nat → K) (c : Nat) (h : ∀ i < c, p i = p' i) :
    permuteB k p b c = permuteB k p' b c := by
  induction c with
  | zero => rfl
  | succ c ih =>
    unfold permuteB
    rw [ih (fun i hi => h i (by omega)), h c (by omega)]

/-- The linear solver's memory is in the same state. -/
structure SameLs (m m' : Mem n K) : Prop where
  mat : m'.matJ = m.matJ
  piv : ∀ i < n, m'.piv i = m.piv i
  cjratio : m'.cjratio = m.cjratio
  ss : m'.ss = m.ss

theorem idaSetup_fresh (hn : n ≠ 0) {P : Problem n q K} {e : Env n K} {m m' : Mem n K} {F : Vec n K} (hy : m'.yy = m.yy)
    (hyp : m'.yp = m.yp) :
    idaSetup P e m F = none ∧ idaSetup P e m' F = none ∨
    ∃ m1 m1', idaSetup P e m F = some m1 ∧ idaSetup P e m' F = some m1' ∧ SameLs m1 m1' := by
  unfold idaSetup lsSetup
  simp only [hn, if_false, hy, hyp]
  have := rfLoop_piv n n (P.jac 0 e.cj m.yy m.yp F (fun _ _ => 0)) m.piv m'.piv n
  unfold denseSetup denseGetRf
  rw [if_neg (Nat.lt_irrefl n)]
  rcases this with ⟨a1, p1, p1', h1, h2, h3⟩ | ⟨col, a1, p1, p1', h1, h2⟩ | ⟨h1, h2⟩
  · right
    simp only [h1, if_neg (Nat.lt_irrefl n), h2]
    exact ⟨_, _, rfl, rfl, ⟨rfl, fun i hi => (h3 i hi).symm, rfl, rfl⟩⟩
  · left
    simp only [h1, if_neg (Nat.lt_irrefl n), h2, and_self]
  · left
    simp only [h1, if_neg (Nat.lt_irrefl n), h2, and_self]

theorem lsSolve_same {m m' : Mem n K} (h : SameLs m m') (b : Vec n K) :
    lsSolve m b = none ∧ lsSolve m' b = none ∨
    ∃ m1 m1' d, lsSolve m b = some (m1, d) ∧ lsSolve m' b = some (m1', d) ∧ m1.oldnrm = m.oldnrm ∧ m1'.oldnrm = m'.oldnrm ∧
      SameLs m1 m1' := by
  unfold lsSolve denseSolve denseGetRs
  rw [h.mat, permuteB_piv n m'.piv m.piv _ n h.piv, h.cjratio]
  split
  · exact .inl ⟨rfl, rfl⟩
  · exact .inr ⟨_, _, _, rfl, rfl, rfl, rfl, ⟨rfl, h.piv, rfl, h.ss⟩⟩

theorem idaCtest_same (e : Env n K) {m m' : Mem n K} (h : SameLs m m') {vw vw' : NlsView} (hv : vw'.curIter = vw.curIter)
    (ho : vw.curIter ≠ 0 → m'.oldnrm = m.oldnrm) (d : Vec n K) (tol : K) (w : Vec n K) :
    (idaCtest e m' vw' d tol w).2 = (idaCtest e m vw d tol w).2 ∧
    SameLs (idaCtest e m vw d tol w).1 (idaCtest e m' vw' d tol w).1 ∧
    (idaCtest e m' vw' d tol w).1.oldnrm = (idaCtest e m vw d tol w).1.oldnrm := by
  unfold idaCtest
  simp only [hv]
  by_cases h0 : vw.curIter = 0
  · simp only [h0, if_true]
    split
    · exact ⟨rfl, ⟨h.mat, h.piv, h.cjratio, h.ss⟩, rfl⟩
    · exact ⟨by rw [h.ss], ⟨h.mat, h.piv, h.cjratio, h.ss⟩, rfl⟩
  · simp only [h0, if_false, ho h0]
    split
    · exact ⟨rfl, h, ho h0⟩
    · exact ⟨rfl, ⟨h.mat, h.piv, h.cjratio, rfl⟩, rfl⟩

/-- The same outcome as far as the outer loop is concerned. -/
def SameEnd : NOut (Mem n K) (Vec n K) → NOut (Mem n K) (Vec n K) → Prop
  | .done _ _ _ r, .done _ _ _ r' => r' = r
  | .panic, .panic => True
  | .diverge, .diverge => True
  | _, _ => False

theorem newtonInner_same {P : Problem n q K} (hP : ResIsFunction P) {e : Env n K} {tol : K} {w : Vec n K} (fuel : Nat)
    {N N' : Newton (Vec n K)} {m m' : Mem n K} {y : Vec n K} (hd : N'.delta = N.delta) (hc : N'.curiter = N.curiter)
    (hm : N'.maxiters = N.maxiters) (hs : SameLs m m') (ho : N.curiter ≠ 0 → m'.oldnrm = m.oldnrm) :
    SameEnd (newtonInner (idaNLProblem P e) tol w fuel N m y) (newtonInner (idaNLProblem P e) tol w fuel N' m' y) := by
  induction fuel generalizing N N' m m' y with
  | zero => trivial
  | succ fuel ih =>
    unfold newtonInner
    simp only [idaNLProblem]
    rw [hd]
    rcases lsSolve_same hs (-N.delta) with ⟨h1, h2⟩ | ⟨m1, m1', d, h1, h2, h3, h4, h5⟩
    · rw [h1, h2]; trivial
    · rw [h1, h2]
      simp only
      generalize hvw : Newton.view { N with niters := N.niters + 1, delta := d } = vw
      generalize hvw' : Newton.view { N' with niters := N'.niters + 1, delta := d } = vw'
      have hv : vw.curIter = N.curiter := by rw [← hvw]; rfl
      have hv' : vw'.curIter = vw.curIter := by rw [hv, ← hvw']; exact hc
      obtain ⟨k1, k2, k3⟩ := idaCtest_same e h5 hv' (fun h0 => by
        rw [h3, h4]; exact ho (by rw [← hv]; exact h0)) d tol w
      have hres := idaCtest_res e m1 vw d tol w
      cases hc1 : idaCtest e m1 vw d tol w with
      | mk m2 b =>
        cases hc2 : idaCtest e m1' vw' d tol w with
        | mk m2' b' =>
          rw [hc1, hc2] at k1 k2 k3
          rw [hc1] at hres
          simp only at k1 k2 k3 hres
          subst k1
          rcases hres with rfl | ⟨b, rfl⟩
          · exact rfl
          · cases b with
            | true => exact rfl
            | false =>
              simp only [hc, hm]
              split
              · exact rfl
              · simp only [idaSys]
                exact ih rfl rfl rfl ⟨k2.mat, k2.piv, k2.cjratio, k2.ss⟩ (fun _ => k3)

theorem newtonAttempt_same (hn : n ≠ 0) {P : Problem n q K} (hP : ResIsFunction P) {e : Env n K} {tol : K} {w : Vec n K}
    {jb jb' : Bool} {N N' : Newton (Vec n K)} {m m' : Mem n K} {y0 y y' : Vec n K} (hm : N'.maxiters = N.maxiters) :
    SameEnd (newtonAttempt (idaNLProblem P e) y0 tol w true jb N m y)
      (newtonAttempt (idaNLProblem P e) y0 tol w true jb' N' m' y') := by
  unfold newtonAttempt
  simp only [idaNLProblem, if_true]
  have hF : (idaSys P e m' y0 N'.delta).2 = (idaSys P e m y0 N.delta).2 := hP _ _ _ _ _
  rcases idaSetup_fresh hn (P := P) (e := e) (m := (idaSys P e m y0 N.delta).1) (m' := (idaSys P e m' y0 N'.delta).1)
    (F := (idaSys P e m y0 N.delta).2) rfl rfl with ⟨h1, h2⟩ | ⟨m1, m1', h1, h2, h3⟩
  · rw [hF, h1, h2]; trivial
  · rw [hF, h1, h2, hm]
    exact newtonInner_same hP _ rfl rfl rfl h3 (fun h => absurd rfl h)

/-! ## The outer loop -/

/-- A pass with a new Jacobian that has failed fails again. -/
theorem fresh_repeats (hn : n ≠ 0) {P : Problem n q K} (hP : ResIsFunction P) {e : Env n K} {tol : K} {w : Vec n K}
    {jb : Bool} {N N1 : Newton (Vec n K)} {m m1 : Mem n K} {y0 y y1 : Vec n K}
    (h : newtonAttempt (idaNLProblem P e) y0 tol w true jb N m y = .done N1 m1 y1 (.error (.nl .convergenceRecover)))
    (jb' : Bool) (N' : Newton (Vec n K)) (m' : Mem n K) (y' : Vec n K) (hm : N'.maxiters = N.maxiters) :
    ∃ N2 m2 y2, newtonAttempt (idaNLProblem P e) y0 tol w true jb' N' m' y' =
      .done N2 m2 y2 (.error (.nl .convergenceRecover)) ∧ N2.maxiters = N.maxiters ∧ N2.jcur = true := by
  have := newtonAttempt_same hn hP (e := e) (tol := tol) (w := w) (jb := jb) (jb' := jb') (m := m) (m' := m') (y0 := y0)
    (y := y) (y' := y') hm
  rw [h] at this
  cases h2 : newtonAttempt (idaNLProblem P e) y0 tol w true jb' N' m' y' with
  | panic => rw [h2] at this; exact this.elim
  | diverge => rw [h2] at this; exact this.elim
  | done N2 m2 y2 r =>
    rw [h2] at this
    have hr : r = .error (.nl .convergenceRecover) := this
    subst hr
    have hc := newtonAttempt_cost h2
    exact ⟨N2, m2, y2, rfl, hc.maxiters.trans hm, (hc.err _ rfl).2⟩

/-- From there the outer loop never ends. -/
theorem outer_hangs (hn : n ≠ 0) {P : Problem n q K} (hP : ResIsFunction P) {e : Env n K} {tol : K} {w : Vec n K}
    {jb : Bool} {N N1 : Newton (Vec n K)} {m m1 : Mem n K} {y0 y y1 : Vec n K}
    (h : newtonAttempt (idaNLProblem P e) y0 tol w true jb N m y = .done N1 m1 y1 (.error (.nl .convergenceRecover)))
    (fuel : Nat) (jb' : Bool) (N' : Newton (Vec n K)) (m' : Mem n K) (y' : Vec n K) (hm : N'.maxiters = N.maxiters) :
    newtonOuter (idaNLProblem P e) y0 tol w fuel true jb' N' m' y' = .diverge := by
  induction fuel generalizing jb' N' m' y' with
  | zero => rfl
  | succ fuel ih =>
    obtain ⟨N2, m2, y2, h2, h3, h4⟩ := fresh_repeats hn hP h jb' N' m' y' hm
    unfold newtonOuter
    rw [h2]
    simp only [Err.isConvRecover, if_true, h4, Bool.not_true, Bool.false_eq_true, if_false]
    exact ih _ _ _ _ h3

/-- What a call of the outer loop that returns has done. -/
structure SolveCost (N N' : Newton (Vec n K)) (m m' : Mem n K) : Prop where
  niters : N'.niters + m.nre = N.niters + m'.nre
  nje : n ≠ 0 → m'.nje + m.nsetups = m.nje + m'.nsetups
  maxiters : N'.maxiters = N.maxiters
  le : m.nre + 1 ≤ m'.nre
  jac : m'.nje + m.nre ≤ m.nje + m'.nre
  jcur : N'.jcur = false

theorem newtonOuter_cost {P : Problem n q K} {e : Env n K} {y0 : Vec n K} {tol : K} {w : Vec n K} (fuel : Nat) {c jb : Bool}
    {N N' : Newton (Vec n K)} {m m' : Mem n K} {y y' : Vec n K} {r : Except Err Unit}
    (h : newtonOuter (idaNLProblem P e) y0 tol w fuel c jb N m y = .done N' m' y' r) : SolveCost N N' m m' := by
  induction fuel generalizing c jb N m y with
  | zero => cases h
  | succ fuel ih =>
    unfold newtonOuter at h
    cases ha : newtonAttempt (idaNLProblem P e) y0 tol w c jb N m y with
    | panic => rw [ha] at h; cases h
    | diverge => rw [ha] at h; cases h
    | done N1 m1 y1 r1 =>
      rw [ha] at h
      have hc := newtonAttempt_cost ha
      obtain ⟨a1, a2, a3, a4, a5, a6, a7, a8⟩ := hc
      have hb : n ≠ 0 → m1.nje + m.nsetups = m.nje + m1.nsetups := by
        intro hn
        rw [a2, a3]
        cases c <;> simp [hn] <;> omega
      have hj : m1.nje + m.nre ≤ m.nje + m1.nre := by
        rw [a2]
        split <;> omega
      cases r1 with
      | ok u =>
        simp only at h
        cases h
        exact ⟨a1, hb, a4, a5, hj, a7 rfl⟩
      | error err =>
        obtain ⟨rfl, hj1⟩ := a8 _ rfl
        simp only [Err.isConvRecover, if_true] at h
        split at h <;>
        · obtain ⟨b1, b2, b3, b4, b6, b5⟩ := ih h
          try simp only at b1 b3
          refine ⟨by omega, fun hn => ?_, b3.trans a4, by omega, by omega, b5⟩
          have := b2 hn
          have := hb hn
          omega

/-- What a call of the outer loop does when the residual is a function of its documented arguments, from a solver object with
no current Jacobian. -/
structure PureCost (N N' : Newton (Vec n K)) (m m' : Mem n K) : Prop where
  nje : m'.nje ≤ m.nje + 1
  nre : m'.nre ≤ m.nre + 2 * max N.maxiters 1

theorem newtonOuter_pure (hn : n ≠ 0) {P : Problem n q K} (hP : ResIsFunction P) {e : Env n K} {y0 : Vec n K} {tol : K}
    {w : Vec n K} (fuel : Nat) {c : Bool} {N N' : Newton (Vec n K)} {m m' : Mem n K} {y y' : Vec n K} {r : Except Err Unit}
    (hN : N.jcur = false) (h : newtonOuter (idaNLProblem P e) y0 tol w fuel c false N m y = .done N' m' y' r) :
    PureCost N N' m m' := by
  have fresh : ∀ (fuel : Nat) (jb : Bool) (N : Newton (Vec n K)) (m : Mem n K) (y : Vec n K),
      newtonOuter (idaNLProblem P e) y0 tol w fuel true jb N m y = .done N' m' y' r →
      m'.nje = m.nje + 1 ∧ m'.nre ≤ m.nre + max N.maxiters 1 := by
    intro fuel jb N m y h
    have h0 := h
    cases fuel with
    | zero => cases h
    | succ fuel =>
      unfold newtonOuter at h
      cases ha : newtonAttempt (idaNLProblem P e) y0 tol w true jb N m y with
      | panic => rw [ha] at h; cases h
      | diverge => rw [ha] at h; cases h
      | done N1 m1 y1 r1 =>
        rw [ha] at h
        have hc := newtonAttempt_cost ha
        cases r1 with
        | ok u =>
          simp only at h
          cases h
          exact ⟨by have := hc.nje; simpa [hn] using this, hc.bound⟩
        | error err =>
          obtain ⟨rfl, hj⟩ := hc.err _ rfl
          rw [outer_hangs hn hP ha _ _ _ _ _ rfl] at h0
          cases h0
  cases c with
  | true =>
    obtain ⟨h1, h2⟩ := fresh _ _ _ _ _ h
    exact ⟨by omega, by omega⟩
  | false =>
    cases fuel with
    | zero => cases h
    | succ fuel =>
      unfold newtonOuter at h
      cases ha : newtonAttempt (idaNLProblem P e) y0 tol w false false N m y with
      | panic => rw [ha] at h; cases h
      | diverge => rw [ha] at h; cases h
      | done N1 m1 y1 r1 =>
        rw [ha] at h
        have hc := newtonAttempt_cost ha
        have hj0 := hc.nje
        simp only [Bool.false_eq_true, false_and, if_false, Nat.add_zero] at hj0
        cases r1 with
        | ok u =>
          simp only at h
          cases h
          have := hc.bound
          exact ⟨by omega, by omega⟩
        | error err =>
          obtain ⟨rfl, hj⟩ := hc.err _ rfl
          rw [hN] at hj
          have hj' : N1.jcur = false := by simpa using hj
          simp only [Err.isConvRecover, if_true, hj', Bool.not_false] at h
          obtain ⟨h1, h2⟩ := fresh _ _ _ _ _ h
          have hb := hc.bound
          have hm : N1.maxiters = N.maxiters := hc.maxiters
          simp only [hm] at h2
          exact ⟨by omega, by omega⟩

/-- With two passes or more, the number of passes allowed makes no difference. -/
theorem newtonSolve_fuel (hn : n ≠ 0) {P : Problem n q K} (hP : ResIsFunction P) {e : Env n K} {y0 : Vec n K} {tol : K}
    {w : Vec n K} (fuel : Nat) (hf : 2 ≤ fuel) {c : Bool} {N : Newton (Vec n K)} {m : Mem n K} {y : Vec n K}
    (hN : N.jcur = false) :
    newtonSolve (idaNLProblem P e) fuel N m y0 y w tol c = newtonSolve (idaNLProblem P e) 2 N m y0 y w tol c := by
  obtain ⟨f, rfl⟩ : ∃ f, fuel = f + 2 := ⟨fuel - 2, by omega⟩
  unfold newtonSolve
  have fresh : ∀ (f g : Nat) (jb : Bool) (N : Newton (Vec n K)) (m : Mem n K) (y : Vec n K),
      newtonOuter (idaNLProblem P e) y0 tol w (f + 1) true jb N m y =
      newtonOuter (idaNLProblem P e) y0 tol w (g + 1) true jb N m y := by
    intro f g jb N m y
    cases ha : newtonAttempt (idaNLProblem P e) y0 tol w true jb N m y with
    | panic => unfold newtonOuter; rw [ha]
    | diverge => unfold newtonOuter; rw [ha]
    | done N1 m1 y1 r1 =>
      cases r1 with
      | ok u => unfold newtonOuter; rw [ha]
      | error err =>
        obtain ⟨rfl, -⟩ := (newtonAttempt_cost ha).err _ rfl
        rw [outer_hangs hn hP ha _ _ _ _ _ rfl, outer_hangs hn hP ha _ _ _ _ _ rfl]
  cases c with
  | true => exact fresh (f + 1) 1 _ _ _ _
  | false =>
    rw [newtonOuter, newtonOuter]
    cases ha : newtonAttempt (idaNLProblem P e) y0 tol w false false N m y with
    | panic => rfl
    | diverge => rfl
    | done N1 m1 y1 r1 =>
      cases r1 with
      | ok u => rfl
      | error err =>
        obtain ⟨rfl, hj⟩ := (newtonAttempt_cost ha).err _ rfl
        rw [hN] at hj
        have hj' : N1.jcur = false := by simpa using hj
        simp only [Err.isConvRecover, if_true, hj', Bool.not_false]
        exact fresh f 0 _ _ _ _

/-- The nonlinear solver does not return only if a pass with a new Jacobian fails. -/
theorem newtonSolve_diverge (hn : n ≠ 0) {P : Problem n q K} (hP : ResIsFunction P) {e : Env n K} {tol : K}
    {w : Vec n K} {fuel : Nat} (hf : 2 ≤ fuel) {c : Bool} {N : Newton (Vec n K)} {m : Mem n K} {y : Vec n K}
    (hN : N.jcur = false) (hmx : N.maxiters = 4)
    (h : newtonSolve (idaNLProblem P e) fuel N m vzero y w tol c = .diverge) : FreshFails P e tol w := by
  have inner : ∀ (c jb : Bool) (N : Newton (Vec n K)) (m : Mem n K) (y : Vec n K),
      newtonAttempt (idaNLProblem P e) vzero tol w c jb N m y ≠ .diverge :=
    fun c jb N m y => Proofs.Newton.attempt_no_diverge _ _ _ _ _ _ _ _ _
  have key : ∀ (f : Nat) (jb : Bool) (N : Newton (Vec n K)) (m : Mem n K) (y : Vec n K), N.maxiters = 4 →
      newtonOuter (idaNLProblem P e) vzero tol w (f + 1) true jb N m y = .diverge → FreshFails P e tol w := by
    intro f jb N m y hN h
    unfold newtonOuter at h
    cases ha : newtonAttempt (idaNLProblem P e) vzero tol w true jb N m y with
    | panic => rw [ha] at h; cases h
    | diverge => exact absurd ha (inner _ _ _ _ _)
    | done N1 m1 y1 r1 =>
      rw [ha] at h
      cases r1 with
      | ok u => cases h
      | error err =>
        obtain ⟨rfl, -⟩ := (newtonAttempt_cost ha).err _ rfl
        intro jb' N' m' y' hN'
        obtain ⟨N2, m2, y2, h2, -⟩ := fresh_repeats hn hP ha jb' N' m' y' (hN'.trans hN.symm)
        exact ⟨N2, m2, y2, h2⟩
  unfold newtonSolve at h
  obtain ⟨f, rfl⟩ : ∃ f, fuel = f + 2 := ⟨fuel - 2, by omega⟩
  cases c with
  | true => exact key _ _ _ _ _ hmx h
  | false =>
    rw [newtonOuter] at h
    cases ha : newtonAttempt (idaNLProblem P e) vzero tol w false false N m y with
    | panic => rw [ha] at h; cases h
    | diverge => exact absurd ha (inner _ _ _ _ _)
    | done N1 m1 y1 r1 =>
      rw [ha] at h
      cases r1 with
      | ok u => cases h
      | error err =>
        have hc := newtonAttempt_cost ha
        obtain ⟨rfl, hj⟩ := hc.err _ rfl
        rw [hN] at hj
        have hj' : N1.jcur = false := by simpa using hj
        simp only [Err.isConvRecover, if_true, hj', Bool.not_false] at h
        refine key f _ _ _ _ ?_ h
        exact hc.maxiters.trans hmx

end

end Verif
