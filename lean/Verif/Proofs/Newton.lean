import Verif.Spec.Newton

set_option autoImplicit false
set_option linter.unusedSectionVars false
set_option linter.unusedSimpArgs false
set_option linter.unusedVariables false

namespace Verif.Proofs.Newton

open Verif Verif.Spec

universe u v w
variable {σ : Type u} {V : Type v} {K : Type w} [Add V] [Neg V]

theorem isConv_iff (e : Err) : e.isConvRecover = true ↔ e = .nl .convergenceRecover := by
  cases e with
  | ida e => simp [Err.isConvRecover]
  | other m => simp [Err.isConvRecover]
  | nl e => cases e <;> simp [Err.isConvRecover]

theorem numSolves_append (a b : List (Event V)) : numSolves (a ++ b) = numSolves a + numSolves b := by
  simp [numSolves]

theorem numSolves_nil : numSolves ([] : List (Event V)) = 0 := rfl
theorem numSolves_sys (y : V) (r) (l : List (Event V)) : numSolves (.sys y r :: l) = numSolves l := by simp [numSolves]
theorem numSolves_setup (y : V) (b r) (l : List (Event V)) : numSolves (.setup y b r :: l) = numSolves l := by
  simp [numSolves]
theorem numSolves_ctest (y d : V) (r) (l : List (Event V)) : numSolves (.ctest y d r :: l) = numSolves l := by
  simp [numSolves]
theorem numSolves_solve (d : V) (r) (l : List (Event V)) : numSolves (.solve d r :: l) = numSolves l + 1 := by
  simp [numSolves]

theorem rec_sys (P : NLProblem σ V K) (s : σ) (l : List (Event V)) (y b : V) :
    (recorded P).sys (s, l) y b =
      (((P.sys s y b).1, l ++ [.sys y (P.sys s y b).2.2]), (P.sys s y b).2.1, (P.sys s y b).2.2) := rfl
theorem rec_setup (P : NLProblem σ V K) (s : σ) (l : List (Event V)) (y f : V) (j : Bool) :
    (recorded P).setup (s, l) y f j = (((P.setup s y f j).1, l ++ [.setup y j (P.setup s y f j).2]),
      (P.setup s y f j).2) := rfl
theorem rec_solve (P : NLProblem σ V K) (s : σ) (l : List (Event V)) (y b : V) :
    (recorded P).solve (s, l) y b = (((P.solve s y b).1, l ++ [.solve (P.solve s y b).2.1 (P.solve s y b).2.2]),
      (P.solve s y b).2.1, (P.solve s y b).2.2) := rfl
theorem rec_ctest (P : NLProblem σ V K) (s : σ) (l : List (Event V)) (vw : NlsView) (y d : V) (tol : K) (w : V) :
    (recorded P).ctest (s, l) vw y d tol w = (((P.ctest s vw y d tol w).1,
      l ++ [.ctest y d (P.ctest s vw y d tol w).2]), (P.ctest s vw y d tol w).2) := rfl

/-- What the inner loop guarantees when it returns. -/
structure InnerPost (N : Newton V) (l : List (Event V)) (y : V) (N' : Newton V) (l' : List (Event V)) (y' : V)
    (r : Except Err Unit) : Prop where
  tail : ∃ t, l' = l ++ t ∧ Iteration N.maxiters N.curiter y t r ∧ N'.niters = N.niters + numSolves t ∧
    N'.jcur = (match r with | .ok _ => false | .error _ => N.jcur) ∧
    jacCurrent N.jcur t = N.jcur ∧
    (r = .ok () → ∃ ds d, t = iterationLog y (ds ++ [d]) ∧ y' = (ds ++ [d]).foldl (· + ·) y ∧ N'.delta = d)
  maxiters : N'.maxiters = N.maxiters
  nconvfails : N'.nconvfails = N.nconvfails

theorem iterationLog_cons (y d : V) (l : List V) (hl : l ≠ []) :
    iterationLog y (d :: l) =
      [.solve d (.ok ()), .ctest (y + d) d (.ok false), .sys (y + d) (.ok ())] ++ iterationLog (y + d) l := by
  cases l with
  | nil => exact absurd rfl hl
  | cons a l => rfl

theorem inner_post (P : NLProblem σ V K) (tol : K) (w : V) : ∀ (fuel : Nat) (N : Newton V) (s : σ)
    (l : List (Event V)) (y : V) (N' : Newton V) (s' : σ) (l' : List (Event V)) (y' : V) (r : Except Err Unit),
    newtonInner (recorded P) tol w fuel N (s, l) y = .done N' (s', l') y' r → InnerPost N l y N' l' y' r := by
  intro fuel
  induction fuel with
  | zero => intro N s l y N' s' l' y' r h; simp [newtonInner] at h
  | succ fuel ih =>
    intro N s l y N' s' l' y' r h
    rw [newtonInner] at h
    simp only [rec_solve] at h
    rcases hs : P.solve s y (-N.delta) with ⟨s1, d, r1⟩
    simp only [hs] at h
    cases r1 with
    | panic => simp at h
    | err e =>
      simp only [NOut.done.injEq, Prod.mk.injEq] at h
      obtain ⟨rfl, ⟨rfl, rfl⟩, rfl, rfl⟩ := h
      exact ⟨⟨_, rfl, .solveErr .., by simp [numSolves], rfl, rfl, by simp⟩, rfl, rfl⟩
    | ok u =>
      simp only [rec_ctest] at h
      generalize Newton.view _ = vw at h
      rcases hc : P.ctest s1 vw (y + d) d tol w with ⟨s2, r2⟩
      simp only [hc] at h
      cases r2 with
      | panic => simp at h
      | err e =>
        simp only [NOut.done.injEq, Prod.mk.injEq] at h
        obtain ⟨rfl, ⟨rfl, rfl⟩, rfl, rfl⟩ := h
        exact ⟨⟨[.solve d (.ok ()), .ctest (y + d) d (.err e)], by simp, .ctestErr .., by simp [numSolves], rfl, rfl,
          by simp⟩, rfl, rfl⟩
      | ok b =>
        cases b with
        | true =>
          simp only [NOut.done.injEq, Prod.mk.injEq] at h
          obtain ⟨rfl, ⟨rfl, rfl⟩, rfl, rfl⟩ := h
          exact ⟨⟨[.solve d (.ok ()), .ctest (y + d) d (.ok true)], by simp, .converged .., by simp [numSolves], rfl,
            rfl, fun _ => ⟨[], d, rfl, rfl, rfl⟩⟩, rfl, rfl⟩
        | false =>
          simp only [] at h
          split at h
          · rename_i hge
            simp only [NOut.done.injEq, Prod.mk.injEq] at h
            obtain ⟨rfl, ⟨rfl, rfl⟩, rfl, rfl⟩ := h
            exact ⟨⟨[.solve d (.ok ()), .ctest (y + d) d (.ok false)], by simp, .cap _ _ _ hge, by simp [numSolves],
              rfl, rfl, by simp⟩, rfl, rfl⟩
          · rename_i hlt
            simp only [rec_sys] at h
            rcases hf : P.sys s2 (y + d) d with ⟨s3, d3, r3⟩
            simp only [hf] at h
            simp only [ge_iff_le, not_le] at hlt
            cases r3 with
            | panic => simp at h
            | err e =>
              simp only [NOut.done.injEq, Prod.mk.injEq] at h
              obtain ⟨rfl, ⟨rfl, rfl⟩, rfl, rfl⟩ := h
              exact ⟨⟨[.solve d (.ok ()), .ctest (y + d) d (.ok false), .sys (y + d) (.err e)], by simp,
                .sysErr _ _ _ _ hlt, by simp [numSolves], rfl, rfl, by simp⟩, rfl, rfl⟩
            | ok u3 =>
              simp only [] at h
              obtain ⟨⟨t, ht, hit, hni, hj, hjc, hok⟩, hm, hn⟩ := ih _ _ _ _ _ _ _ _ _ h
              simp only at hit hni hj hjc hok hm hn
              refine ⟨⟨[.solve d (.ok ()), .ctest (y + d) d (.ok false), .sys (y + d) (.ok ())] ++ t, ?_,
                .next _ _ _ _ _ hlt hit, ?_, hj, ?_, ?_⟩, hm, hn⟩
              · rw [ht]; simp
              · rw [hni, numSolves_append]
                simp [numSolves]; omega
              · simpa [jacCurrent] using hjc
              · intro hr
                obtain ⟨ds, d', ht', hy', hd'⟩ := hok hr
                refine ⟨d :: ds, d', ?_, ?_, hd'⟩
                · rw [ht']; exact (iterationLog_cons _ _ (ds ++ [d']) (by simp)).symm
                · rw [hy']; rfl

/-- The inner loop never runs out of its fuel. -/
theorem inner_no_diverge (P : NLProblem σ V K) (tol : K) (w : V) : ∀ (fuel : Nat) (N : Newton V) (s : σ) (y : V),
    0 < fuel → N.maxiters < fuel + N.curiter → newtonInner P tol w fuel N s y ≠ .diverge := by
  intro fuel
  induction fuel with
  | zero => intro N s y h0; omega
  | succ fuel ih =>
    intro N s y _ hm h
    rw [newtonInner] at h
    simp only at h
    split at h
    · simp at h
    · simp at h
    · split at h
      · simp at h
      · simp at h
      · simp at h
      · split at h
        · simp at h
        · rename_i hlt
          simp only [ge_iff_le, not_le] at hlt
          split at h
          · simp at h
          · simp at h
          · refine ih _ _ _ ?_ ?_ h
            · omega
            · show N.maxiters < fuel + (N.curiter + 1)
              omega

theorem attempt_no_diverge (P : NLProblem σ V K) (y0 : V) (tol : K) (w : V) (c jb : Bool) (N : Newton V) (s : σ)
    (y : V) : newtonAttempt P y0 tol w c jb N s y ≠ .diverge := by
  intro h
  unfold newtonAttempt at h
  split at h
  · simp at h
  · simp at h
  · simp only at h
    split at h
    · split at h
      · simp at h
      · simp at h
      · exact inner_no_diverge P tol w _ _ _ _ (by simp) (by simp) h
    · exact inner_no_diverge P tol w _ _ _ _ (by simp) (by simp) h

/-- The setup flag of an attempt as the protocol writes it. -/
def su (c jb : Bool) : Option Bool := if c then some jb else none

/-- What one attempt guarantees when it returns. -/
structure AttemptPost (y0 : V) (c jb : Bool) (N : Newton V) (l : List (Event V)) (N' : Newton V) (l' : List (Event V))
    (y' : V) (r : Except Err Unit) : Prop where
  tail : ∃ t, l' = l ++ t ∧ Attempt N.maxiters y0 (su c jb) t r ∧ N'.niters = N.niters + numSolves t ∧
    N'.jcur = (match r with | .ok _ => false | .error _ => jacCurrent N.jcur t) ∧
    (r = .ok () → ∃ o ds d, t = attemptLog y0 o (ds ++ [d]) ∧ y' = (ds ++ [d]).foldl (· + ·) y0 ∧ N'.delta = d)
  maxiters : N'.maxiters = N.maxiters
  nconvfails : N'.nconvfails = N.nconvfails

theorem attempt_post (P : NLProblem σ V K) (y0 : V) (tol : K) (w : V) (c jb : Bool) (N : Newton V) (s : σ)
    (l : List (Event V)) (y : V) (N' : Newton V) (s' : σ) (l' : List (Event V)) (y' : V) (r : Except Err Unit)
    (h : newtonAttempt (recorded P) y0 tol w c jb N (s, l) y = .done N' (s', l') y' r) :
    AttemptPost y0 c jb N l N' l' y' r := by
  unfold newtonAttempt at h
  simp only [rec_sys] at h
  rcases hf : P.sys s y0 N.delta with ⟨s1, d, r1⟩
  simp only [hf] at h
  cases r1 with
  | panic => simp at h
  | err e =>
    simp only [NOut.done.injEq, Prod.mk.injEq] at h
    obtain ⟨rfl, ⟨rfl, rfl⟩, rfl, rfl⟩ := h
    exact ⟨⟨_, rfl, .sysErr .., by simp [numSolves], rfl, by simp⟩, rfl, rfl⟩
  | ok u =>
    simp only at h
    split at h
    · rename_i hc
      subst hc
      simp only [rec_setup] at h
      rcases hg : P.setup s1 y0 d jb with ⟨s2, r2⟩
      simp only [hg] at h
      cases r2 with
      | panic => simp at h
      | err e =>
        simp only [NOut.done.injEq, Prod.mk.injEq] at h
        obtain ⟨rfl, ⟨rfl, rfl⟩, rfl, rfl⟩ := h
        exact ⟨⟨[.sys y0 (.ok ()), .setup y0 jb (.err e)], by simp, .setupErr .., by simp [numSolves], rfl, by simp⟩,
          rfl, rfl⟩
      | ok j =>
        simp only at h
        obtain ⟨⟨t, ht, hit, hni, hj, hjc, hok⟩, hm, hn⟩ := inner_post P tol w _ _ _ _ _ _ _ _ _ _ h
        simp only at hit hni hj hjc hok hm hn
        refine ⟨⟨.sys y0 (.ok ()) :: .setup y0 jb (.ok j) :: t, ?_, .withSetup _ _ _ _ hit, ?_, ?_, ?_⟩, hm, hn⟩
        · rw [ht]; simp
        · rw [hni]; simp [numSolves]
        · rw [hj]; cases r <;> simp [jacCurrent, hjc]
        · intro hr
          obtain ⟨ds, d', ht', hy', hd'⟩ := hok hr
          exact ⟨some (jb, j), ds, d', by simp [attemptLog, ht'], hy', hd'⟩
    · rename_i hc
      have hc : c = false := by simpa using hc
      subst hc
      obtain ⟨⟨t, ht, hit, hni, hj, hjc, hok⟩, hm, hn⟩ := inner_post P tol w _ _ _ _ _ _ _ _ _ _ h
      simp only at hit hni hj hjc hok hm hn
      refine ⟨⟨.sys y0 (.ok ()) :: t, ?_, .plain _ _ hit, ?_, ?_, ?_⟩, hm, hn⟩
      · rw [ht]; simp
      · rw [hni]; simp [numSolves]
      · rw [hj]; cases r <;> simp [jacCurrent, hjc]
      · intro hr
        obtain ⟨ds, d', ht', hy', hd'⟩ := hok hr
        exact ⟨none, ds, d', by simp [attemptLog, ht'], hy', hd'⟩

/-- What a whole solve guarantees when it returns. -/
structure SolvePost (y0 : V) (c jb : Bool) (N : Newton V) (l : List (Event V)) (N' : Newton V) (l' : List (Event V))
    (y' : V) (r : Except Err Unit) : Prop where
  tail : ∃ t n, l' = l ++ t ∧ Run N.maxiters y0 (su c jb) N.jcur t n r ∧ N'.niters = N.niters + numSolves t ∧
    N'.nconvfails = N.nconvfails + n ∧
    (r = .ok () → ∃ pre o ds d, t = pre ++ attemptLog y0 o (ds ++ [d]) ∧ y' = (ds ++ [d]).foldl (· + ·) y0 ∧
      N'.delta = d ∧ N'.jcur = false)
  maxiters : N'.maxiters = N.maxiters

theorem outer_post (P : NLProblem σ V K) (y0 : V) (tol : K) (w : V) : ∀ (fuel : Nat) (c jb : Bool) (N : Newton V)
    (s : σ) (l : List (Event V)) (y : V) (N' : Newton V) (s' : σ) (l' : List (Event V)) (y' : V)
    (r : Except Err Unit), newtonOuter (recorded P) y0 tol w fuel c jb N (s, l) y = .done N' (s', l') y' r →
    SolvePost y0 c jb N l N' l' y' r := by
  intro fuel
  induction fuel with
  | zero => intro c jb N s l y N' s' l' y' r h; simp [newtonOuter] at h
  | succ fuel ih =>
    intro c jb N s l y N' s' l' y' r h
    rw [newtonOuter] at h
    split at h
    · simp at h
    · simp at h
    · rename_i N1 s1 y1 _ ha
      obtain ⟨s1, l1⟩ := s1
      simp only [NOut.done.injEq, Prod.mk.injEq] at h
      obtain ⟨rfl, ⟨rfl, rfl⟩, rfl, rfl⟩ := h
      obtain ⟨⟨t, ht, hat, hni, hj, hok⟩, hm, hn⟩ := attempt_post P y0 tol w c jb N s l y _ _ _ _ _ ha
      refine ⟨⟨t, 0, ht, .success _ _ _ hat, hni, by simpa using hn, ?_⟩, hm⟩
      intro _
      obtain ⟨o, ds, d, h1, h2, h3⟩ := hok rfl
      exact ⟨[], o, ds, d, by simpa using h1, h2, h3, hj⟩
    · rename_i N1 s1 y1 e ha
      obtain ⟨s1, l1⟩ := s1
      obtain ⟨⟨t, ht, hat, hni, hj, hok⟩, hm, hn⟩ := attempt_post P y0 tol w c jb N s l y _ _ _ _ _ ha
      simp only at hj
      by_cases he : e.isConvRecover = true
      · rw [if_pos he] at h
        have hee := (isConv_iff e).1 he
        subst hee
        by_cases hjc : N1.jcur = false
        · rw [if_pos (by simp [hjc])] at h
          obtain ⟨⟨t2, n2, ht2, hrun, hni2, hn2, hok2⟩, hm2⟩ := ih _ _ _ _ _ _ _ _ _ _ _ h
          simp only at ht2 hrun hni2 hn2 hm2
          rw [hm, hjc] at hrun
          refine ⟨⟨t ++ t2, n2 + 1, ?_, .retryStale _ _ _ _ _ _ hat (by rw [← hj, hjc]) hrun, ?_, ?_, ?_⟩,
            by rw [hm2, hm]⟩
          · rw [ht2, ht, List.append_assoc]
          · rw [hni2, hni, numSolves_append]; omega
          · rw [hn2, hn]; omega
          · intro hr
            obtain ⟨pre, o, ds, d, h1, h2⟩ := hok2 hr
            exact ⟨t ++ pre, o, ds, d, by rw [h1, List.append_assoc], h2⟩
        · have hjc : N1.jcur = true := by simpa using hjc
          rw [if_neg (by simp [hjc])] at h
          obtain ⟨⟨t2, n2, ht2, hrun, hni2, hn2, hok2⟩, hm2⟩ := ih _ _ _ _ _ _ _ _ _ _ _ h
          rw [hm, hjc] at hrun
          refine ⟨⟨t ++ t2, n2, ?_, .retryCurrent _ _ _ _ _ _ hat (by rw [← hj, hjc]) hrun, ?_, ?_, ?_⟩,
            by rw [hm2, hm]⟩
          · rw [ht2, ht, List.append_assoc]
          · rw [hni2, hni, numSolves_append]; omega
          · rw [hn2, hn]
          · intro hr
            obtain ⟨pre, o, ds, d, h1, h2⟩ := hok2 hr
            exact ⟨t ++ pre, o, ds, d, by rw [h1, List.append_assoc], h2⟩
      · rw [if_neg he] at h
        simp only [NOut.done.injEq, Prod.mk.injEq] at h
        obtain ⟨rfl, ⟨rfl, rfl⟩, rfl, rfl⟩ := h
        refine ⟨⟨t, 1, ht, .hardError _ _ _ _ hat (fun h => he ((isConv_iff e).2 h)), hni, by simp [hn], by simp⟩, hm⟩

/-- A log in which no callback failed. -/
def Clean (l : List (Event V)) : Prop := ∀ ev ∈ l, ev.error? = none

theorem iteration_errors {maxit m : Nat} {y : V} {l : List (Event V)} {r : Except Err Unit}
    (h : Iteration maxit m y l r) :
    (Clean l ∧ (r = .ok () ∨ r = .error (.nl .convergenceRecover))) ∨
      ∃ init ev e, l = init ++ [ev] ∧ Clean init ∧ ev.error? = some e ∧ r = .error e := by
  induction h with
  | solveErr m y d e => exact .inr ⟨[], _, e, rfl, by simp [Clean], rfl, rfl⟩
  | ctestErr m y d e => exact .inr ⟨[_], _, e, rfl, by simp [Clean, Event.error?], rfl, rfl⟩
  | converged m y d => exact .inl ⟨by simp [Clean, Event.error?], .inl rfl⟩
  | cap m y d h => exact .inl ⟨by simp [Clean, Event.error?], .inr rfl⟩
  | sysErr m y d e h => exact .inr ⟨[_, _], _, e, rfl, by simp [Clean, Event.error?], rfl, rfl⟩
  | next m y d rest r h hi ih =>
    rcases ih with ⟨hc, hr⟩ | ⟨init, ev, e, hl, hc, he, hr⟩
    · refine .inl ⟨?_, hr⟩
      intro ev hev
      simp only [List.cons_append, List.nil_append, List.mem_cons] at hev
      rcases hev with rfl | rfl | rfl | hev
      · rfl
      · rfl
      · rfl
      · exact hc ev hev
    · refine .inr ⟨_ :: _ :: _ :: init, ev, e, by rw [hl]; rfl, ?_, he, hr⟩
      intro ev hev
      simp only [List.mem_cons] at hev
      rcases hev with rfl | rfl | rfl | hev
      · rfl
      · rfl
      · rfl
      · exact hc ev hev

theorem attempt_errors {maxit : Nat} {y0 : V} {o : Option Bool} {l : List (Event V)} {r : Except Err Unit}
    (h : Attempt maxit y0 o l r) :
    (Clean l ∧ (r = .ok () ∨ r = .error (.nl .convergenceRecover))) ∨
      ∃ init ev e, l = init ++ [ev] ∧ Clean init ∧ ev.error? = some e ∧ r = .error e := by
  cases h with
  | sysErr su e => exact .inr ⟨[], _, e, rfl, by simp [Clean], rfl, rfl⟩
  | setupErr jb e => exact .inr ⟨[_], _, e, rfl, by simp [Clean, Event.error?], rfl, rfl⟩
  | plain l r h =>
    rcases iteration_errors h with ⟨hc, hr⟩ | ⟨init, ev, e, hl, hc, he, hr⟩
    · exact .inl ⟨by
        intro ev hev
        rcases List.mem_cons.1 hev with rfl | hev
        · rfl
        · exact hc ev hev, hr⟩
    · exact .inr ⟨_ :: init, ev, e, by rw [hl]; rfl, by
        intro ev hev
        rcases List.mem_cons.1 hev with rfl | hev
        · rfl
        · exact hc ev hev, he, hr⟩
  | withSetup jb j l r h =>
    rcases iteration_errors h with ⟨hc, hr⟩ | ⟨init, ev, e, hl, hc, he, hr⟩
    · exact .inl ⟨by
        intro ev hev
        simp only [List.mem_cons] at hev
        rcases hev with rfl | rfl | hev
        · rfl
        · rfl
        · exact hc ev hev, hr⟩
    · exact .inr ⟨_ :: _ :: init, ev, e, by rw [hl]; rfl, by
        intro ev hev
        simp only [List.mem_cons] at hev
        rcases hev with rfl | rfl | hev
        · rfl
        · rfl
        · exact hc ev hev, he, hr⟩

/-- In the log of an attempt the only failing callback is the last one. -/
theorem attempt_soft {maxit : Nat} {y0 : V} {o : Option Bool} {l : List (Event V)}
    (h : Attempt maxit y0 o l (.error (.nl .convergenceRecover))) :
    ∀ ev ∈ l, ev.error? = none ∨ ev.error? = some (.nl .convergenceRecover) := by
  rcases attempt_errors h with ⟨hc, hr⟩ | ⟨init, ev, e, hl, hc, he, hr⟩
  · exact fun ev hev => .inl (hc ev hev)
  · intro ev' hev'
    rw [hl, List.mem_append, List.mem_singleton] at hev'
    rcases hev' with hev' | rfl
    · exact .inl (hc _ hev')
    · right
      rw [he]
      cases hr
      rfl

theorem run_errors {maxit : Nat} {y0 : V} {o : Option Bool} {j : Bool} {l : List (Event V)} {n : Nat}
    {r : Except Err Unit} (h : Run maxit y0 o j l n r) :
    match r with
    | .ok _ => ∀ ev ∈ l, ev.error? = none ∨ ev.error? = some (.nl .convergenceRecover)
    | .error e => e ≠ .nl .convergenceRecover ∧ ∃ init ev, l = init ++ [ev] ∧ ev.error? = some e ∧
        ∀ ev' ∈ init, ev'.error? = none ∨ ev'.error? = some (.nl .convergenceRecover) := by
  induction h with
  | success o j A hA =>
    rcases attempt_errors hA with ⟨hc, hr⟩ | ⟨init, ev, e, hl, hc, he, hr⟩
    · exact fun ev hev => .inl (hc ev hev)
    · cases hr
  | hardError o j A e hA hne =>
    refine ⟨hne, ?_⟩
    rcases attempt_errors hA with ⟨hc, hr⟩ | ⟨init, ev, e', hl, hc, he, hr⟩
    · rcases hr with hr | hr
      · cases hr
      · cases hr; exact absurd rfl hne
    · cases hr
      exact ⟨init, ev, hl, he, fun ev' h' => .inl (hc ev' h')⟩
  | retryStale o j A B n r hA hj hB ih =>
    have hs := attempt_soft hA
    cases r with
    | ok u =>
      intro ev hev
      rcases List.mem_append.1 hev with h | h
      · exact hs ev h
      · exact ih ev h
    | error e =>
      obtain ⟨hne, init, ev, hl, he, hi⟩ := ih
      refine ⟨hne, A ++ init, ev, by rw [hl, List.append_assoc], he, ?_⟩
      intro ev' h'
      rcases List.mem_append.1 h' with h | h
      · exact hs _ h
      · exact hi _ h
  | retryCurrent o j A B n r hA hj hB ih =>
    have hs := attempt_soft hA
    cases r with
    | ok u =>
      intro ev hev
      rcases List.mem_append.1 hev with h | h
      · exact hs ev h
      · exact ih ev h
    | error e =>
      obtain ⟨hne, init, ev, hl, he, hi⟩ := ih
      refine ⟨hne, A ++ init, ev, by rw [hl, List.append_assoc], he, ?_⟩
      intro ev' h'
      rcases List.mem_append.1 h' with h | h
      · exact hs _ h
      · exact hi _ h

theorem iteration_solves {maxit m : Nat} {y : V} {l : List (Event V)} {r : Except Err Unit}
    (h : Iteration maxit m y l r) : m + numSolves l ≤ max (m + 1) maxit := by
  induction h with
  | solveErr m y d e => simp [numSolves]
  | ctestErr m y d e => simp [numSolves]
  | converged m y d => simp [numSolves]
  | cap m y d h => simp [numSolves]
  | sysErr m y d e h => simp [numSolves]
  | next m y d rest r h hi ih =>
    rw [numSolves_append]
    simp only [numSolves_solve, numSolves_ctest, numSolves_sys, numSolves_nil]
    omega

theorem attempt_solves {maxit : Nat} {y0 : V} {o : Option Bool} {l : List (Event V)} {r : Except Err Unit}
    (h : Attempt maxit y0 o l r) : numSolves l ≤ max 1 maxit := by
  cases h with
  | sysErr su e => simp [numSolves]
  | setupErr jb e => simp [numSolves]
  | plain l r h => rw [numSolves_sys]; have := iteration_solves h; omega
  | withSetup jb j l r h => rw [numSolves_sys, numSolves_setup]; have := iteration_solves h; omega

theorem attempt_starts {maxit : Nat} {y0 : V} {o : Option Bool} {l : List (Event V)} {r : Except Err Unit}
    (h : Attempt maxit y0 o l r) : ∃ c rest, l = .sys y0 c :: rest := by
  cases h <;> exact ⟨_, _, rfl⟩

theorem run_solves {maxit : Nat} {y0 : V} {o : Option Bool} {j : Bool} {l : List (Event V)} {n : Nat}
    {r : Except Err Unit} (h : Run maxit y0 o j l n r) :
    ∃ As : List (List (Event V)), l = As.flatten ∧ n ≤ As.length ∧
      ∀ A ∈ As, (∃ c rest, A = .sys y0 c :: rest) ∧ numSolves A ≤ max 1 maxit := by
  induction h with
  | success o j A hA => exact ⟨[A], by simp, by simp, by
    intro A' h'; rw [List.mem_singleton] at h'; subst h'; exact ⟨attempt_starts hA, attempt_solves hA⟩⟩
  | hardError o j A e hA hne => exact ⟨[A], by simp, by simp, by
    intro A' h'; rw [List.mem_singleton] at h'; subst h'; exact ⟨attempt_starts hA, attempt_solves hA⟩⟩
  | retryStale o j A B n r hA hj hB ih =>
    obtain ⟨As, h1, h2, h3⟩ := ih
    refine ⟨A :: As, by simp [h1], by simpa using h2, ?_⟩
    intro A' h'
    rcases List.mem_cons.1 h' with rfl | h'
    · exact ⟨attempt_starts hA, attempt_solves hA⟩
    · exact h3 _ h'
  | retryCurrent o j A B n r hA hj hB ih =>
    obtain ⟨As, h1, h2, h3⟩ := ih
    refine ⟨A :: As, by simp [h1], by simp; omega, ?_⟩
    intro A' h'
    rcases List.mem_cons.1 h' with rfl | h'
    · exact ⟨attempt_starts hA, attempt_solves hA⟩
    · exact h3 _ h'

/-- The recorder does not change the behaviour of the solver. -/
def eraseOut : NOut (σ × List (Event V)) V → NOut σ V
  | .done N s y r => .done N s.1 y r
  | .panic => .panic
  | .diverge => .diverge

theorem inner_recorded (P : NLProblem σ V K) (tol : K) (w : V) : ∀ (fuel : Nat) (N : Newton V) (s : σ)
    (l : List (Event V)) (y : V),
    eraseOut (newtonInner (recorded P) tol w fuel N (s, l) y) = newtonInner P tol w fuel N s y := by
  intro fuel
  induction fuel with
  | zero => intros; rfl
  | succ fuel ih =>
    intro N s l y
    rw [newtonInner, newtonInner]
    simp only [rec_solve]
    rcases P.solve s y (-N.delta) with ⟨s1, d, r1⟩
    cases r1 with
    | panic => rfl
    | err e => rfl
    | ok u =>
      simp only [rec_ctest]
      generalize Newton.view _ = vw
      rcases P.ctest s1 vw (y + d) d tol w with ⟨s2, r2⟩
      cases r2 with
      | panic => rfl
      | err e => rfl
      | ok b =>
        cases b with
        | true => rfl
        | false =>
          simp only
          split
          · rfl
          · simp only [rec_sys]
            rcases P.sys s2 (y + d) d with ⟨s3, d3, r3⟩
            cases r3 with
            | panic => rfl
            | err e => rfl
            | ok u => exact ih _ _ _ _

theorem attempt_recorded (P : NLProblem σ V K) (y0 : V) (tol : K) (w : V) (c jb : Bool) (N : Newton V) (s : σ)
    (l : List (Event V)) (y : V) :
    eraseOut (newtonAttempt (recorded P) y0 tol w c jb N (s, l) y) = newtonAttempt P y0 tol w c jb N s y := by
  unfold newtonAttempt
  simp only [rec_sys]
  rcases P.sys s y0 N.delta with ⟨s1, d, r1⟩
  cases r1 with
  | panic => rfl
  | err e => rfl
  | ok u =>
    simp only
    split
    · simp only [rec_setup]
      rcases P.setup s1 y0 d jb with ⟨s2, r2⟩
      cases r2 with
      | panic => rfl
      | err e => rfl
      | ok j => exact inner_recorded P tol w _ _ _ _ _
    · exact inner_recorded P tol w _ _ _ _ _

theorem outer_recorded (P : NLProblem σ V K) (y0 : V) (tol : K) (w : V) : ∀ (fuel : Nat) (c jb : Bool) (N : Newton V)
    (s : σ) (l : List (Event V)) (y : V),
    eraseOut (newtonOuter (recorded P) y0 tol w fuel c jb N (s, l) y) = newtonOuter P y0 tol w fuel c jb N s y := by
  intro fuel
  induction fuel with
  | zero => intros; rfl
  | succ fuel ih =>
    intro c jb N s l y
    rw [newtonOuter, newtonOuter, ← attempt_recorded P y0 tol w c jb N s l y]
    rcases newtonAttempt (recorded P) y0 tol w c jb N (s, l) y with ⟨N1, ⟨s1, l1⟩, y1, r1⟩ | _ | _
    · cases r1 with
      | ok u => rfl
      | error e =>
        by_cases he : e.isConvRecover = true
        · by_cases hj : N1.jcur = true
          · simpa [eraseOut, he, hj] using ih c jb N1 s1 l1 y1
          · simpa [eraseOut, he, hj] using ih true true { N1 with nconvfails := N1.nconvfails + 1 } s1 l1 y1
        · simp [eraseOut, he]
    · rfl
    · rfl

end Verif.Proofs.Newton
