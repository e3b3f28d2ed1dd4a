import Verif.Spec.Errors
import Verif.Proofs.Outcome
import Verif.Proofs.Attempts
import Verif.Proofs.RootScan

/-! # The causes of errors -/

set_option autoImplicit false
set_option linter.unusedSectionVars false
set_option linter.unusedSimpArgs false
set_option linter.unusedVariables false

namespace Verif

open Spec

universe u v

section
variable {ν : Type v} {n q : Nat} {K : Type u} [Scalar K]

/-- The attempts at the present step while the loop runs: `l`, before it `l0`. -/
structure Trying (t0 : K) (l0 : List (Att n K)) (s : State ν n q K) (f : Fails) (l : List (Att n K)) : Prop where
  atts : s.g.atts = l ++ l0
  nef : l.countP (fun x => x.out = .testFail) = f.nef
  ncf : l.countP unsolved = f.ncf
  out : ∀ x ∈ l, x.out ≠ .accepted ∧ x.t0 = t0

theorem handled_g {cfg : Cfg ν n q K} {s s' : State ν n q K} {a b : K} {f f' : Fails} {err : Err} {r : Except Err Unit}
    (h : Handled cfg s a b f err s' f' r) : s'.g = s.g := by
  cases h <;> rfl

theorem trying_next {cfg : Cfg ν n q K} {t0 : K} {l0 l : List (Att n K)} {s s5 : State ν n q K} {f : Fails} {err : Err}
    (h : Trying t0 l0 s f l) (hr : Restored cfg t0 s s5 err) :
    ∃ x, s5.g.atts = x :: l ++ l0 ∧ x.out = (if err = .ida .testFail then .testFail else .nlsFail err) ∧ x.t0 = t0 := by
  obtain ⟨ee, hg⟩ := hr.ghost
  exact ⟨_, by rw [hg]; show _ :: s.g.atts = _; rw [h.atts]; rfl, rfl, rfl⟩

theorem trying_again {cfg : Cfg ν n q K} {t0 : K} {l0 l : List (Att n K)} {s s5 s6 : State ν n q K} {f f' : Fails}
    {err : Err} {a b : K} (h : Trying t0 l0 s f l) (hr : Restored cfg t0 s s5 err)
    (hh : Handled cfg s5 a b f err s6 f' (.ok ())) : ∃ l', Trying t0 l0 s6 f' l' := by
  obtain ⟨x, h1, h2, h3⟩ := trying_next h hr
  have ho : ∀ y ∈ x :: l, y.out ≠ .accepted ∧ y.t0 = t0 := by
    intro y hy
    rcases List.mem_cons.1 hy with rfl | hy
    · refine ⟨?_, h3⟩
      rw [h2]; split <;> simp
    · exact h.out y hy
  have ha : s6.g.atts = (x :: l) ++ l0 := by rw [handled_g hh]; exact h1
  refine ⟨x :: l, ha, ?_, ?_, ho⟩ <;> cases hh <;>
    simp [List.countP_cons, unsolved, h2, h.nef, h.ncf]

theorem trying_fail {cfg : Cfg ν n q K} {t0 : K} {l0 l : List (Att n K)} {s s5 s6 : State ν n q K} {f f' : Fails}
    {err e : Err} {a b : K} (h : Trying t0 l0 s f l) (hf : FailsOk cfg f) (hr : Restored cfg t0 s s5 err)
    (hn : err = .ida .testFail ∨ Returned cfg err) (hh : Handled cfg s5 a b f err s6 f' (.error e)) :
    ∃ x, s6.g.atts = x :: l ++ l0 ∧ (∀ y ∈ x :: l, y.out ≠ .accepted ∧ y.t0 = t0) ∧ GaveUp cfg x l e := by
  obtain ⟨x, h1, h2, h3⟩ := trying_next h hr
  have ho : ∀ y ∈ x :: l, y.out ≠ .accepted ∧ y.t0 = t0 := by
    intro y hy
    rcases List.mem_cons.1 hy with rfl | hy
    · refine ⟨?_, h3⟩
      rw [h2]; split <;> simp
    · exact h.out y hy
  refine ⟨x, by rw [handled_g hh]; exact h1, ho, ?_⟩
  have hnef := hf.nef
  have hncf := hf.ncf
  generalize hre : (Except.error e : Except Err Unit) = r at hh
  cases hh with
  | test1 => cases hre
  | test2 => cases hre
  | test3 => cases hre
  | conv => cases hre
  | testGiveUp g1 g2 =>
    cases hre
    refine .errorTest (by simpa using h2) ?_
    rw [List.countP_cons_of_pos (by simpa using h2), h.nef]
    omega
  | convGiveUp rec g1 =>
    have hc : (x :: l).countP unsolved = max cfg.maxncf 1 := by
      rw [List.countP_cons_of_pos (by simp [unsolved, h2]), h.ncf]
      omega
    have h2' : x.out = .nlsFail (.ida (.recoverableFail rec)) := by simpa using h2
    have hl := hr.legal
    have hn := hn.resolve_left (by simp)
    cases rec with
    | residual => cases hre; exact .residual hn h2' hc
    | constraint => rcases hl with hl | hl <;> simp [Err.fromNls] at hl
    | lSetup => cases hre; exact .convergence _ (by simp) hn h2' hc
    | lSolve => cases hre; exact .convergence _ (by simp) hn h2' hc
    | nlsSetup => cases hre; exact .convergence _ (by simp) hn h2' hc
  | hard e' g1 =>
    cases hre
    exact .solver _ g1 (hn.resolve_left (g1 _)) (by rw [h2, if_neg (g1 _)])

/-- A step that returns an error. -/
theorem step_error {cfg : Cfg ν n q K} (hl : NlsLegal cfg) {s s' : State ν n q K} {e : Err}
    (h : step cfg s = .ret s' (.error e)) :
    ∃ a l, s'.e.tn = s.e.tn ∧ s'.g.atts = a :: l ++ s.g.atts ∧ (∀ x ∈ a :: l, x.out ≠ .accepted ∧ x.t0 = s.e.tn) ∧ GaveUp cfg a l e := by
  have := step_rule (cfg := cfg) (fun s1 f => FailsOk cfg f ∧ ∃ l, Trying s.e.tn s.g.atts s1 f l) (fun _ => True)
    (fun s1 e => ∃ a l, s1.e.tn = s.e.tn ∧ s1.g.atts = a :: l ++ s.g.atts ∧ (∀ x ∈ a :: l, x.out ≠ .accepted ∧ x.t0 = s.e.tn) ∧ GaveUp cfg a l e)
    ⟨⟨by show 0 < _; omega, by show 0 < _; omega⟩, [], by rw [(firstStepInit_cnt s).2.1]; rfl, rfl, rfl, by simp⟩
    (fun s1 f s2 f' hI h => by
      obtain ⟨hf, l, ht⟩ := hI
      obtain ⟨err, a, b, s5, s6, h1, h2, rfl⟩ := attempt_again' hl h
      refine ⟨(handled_fails h2).2 rfl hf, ?_⟩
      obtain ⟨l', k1, k2, k3, k4⟩ := trying_again ht h1 h2
      refine ⟨l', ?_, k2, k3, k4⟩
      rw [← k1]; split <;> rfl)
    (fun _ _ _ _ _ _ _ _ _ _ => trivial)
    (fun s1 f s2 e hI h => by
      obtain ⟨hf, l, ht⟩ := hI
      obtain ⟨s4, err, a, b, f', hp, hh⟩ := attempt_fail h
      have h1 := hp.restored hl
      have h2 := handleNFlag_handled hh
      have hn : err = .ida .testFail ∨ Returned cfg err := by
        obtain ⟨s3, r, out, g1, g2, -, -⟩ := hp.tried
        obtain ⟨m', hm', -⟩ := g1.solve
        rcases g2 with ⟨hr, -⟩ | ⟨-, he, -⟩
        · subst hr
          exact Or.inr ⟨_, _, _, _, _, _, _, _, _, _, _, hm'⟩
        · exact Or.inl he
      obtain ⟨x, k1, k2, k3⟩ := trying_fail ht hf h1 hn h2
      have htn : s2.e.tn = s.e.tn := by
        have := h1.tn
        generalize hre : (Except.error e : Except Err Unit) = r at h2
        cases h2 <;> exact this
      exact ⟨x, l, htn, k1, k2, k3⟩) h
  rcases this with ⟨h1, -⟩ | ⟨e', h1, h2⟩
  · cases h1
  · cases h1; exact h2

theorem r2Fold_done (act : Fin q → Bool) (ghi iroots glo : Vec q K) (h : (r2Fold act ghi iroots glo).done = true) :
    ∃ i, Scalar.eqb (Scalar.abs (ghi i)) 0 = true ∧ Scalar.gt (iroots i) 0 = true := by
  have := fold_rule (fun (a : R2Fold q K) i =>
    if a.done then a
    else if act i then
      if Scalar.eqb (Scalar.abs (ghi i)) 0 then
        if Scalar.gt (a.iroots i) 0 then { a with done := true }
        else { a with zroot := true, iroots := fun j => if j = i then 1 else a.iroots j }
      else if Scalar.gt (a.iroots i) 0 then { a with glo := fun j => if j = i then ghi i else a.glo j }
      else a
    else a) { done := false, zroot := false, iroots := iroots, glo := glo }
    (fun k (a : R2Fold q K) => (∀ j : Fin q, k ≤ j.val → a.iroots j = iroots j) ∧
      (a.done = true → ∃ i, Scalar.eqb (Scalar.abs (ghi i)) 0 = true ∧ Scalar.gt (iroots i) 0 = true))
    ⟨fun _ _ => rfl, by simp⟩ (by
      intro a i ⟨h1, h2⟩
      have h1' : ∀ j : Fin q, i.val + 1 ≤ j.val → a.iroots j = iroots j := fun j hj => h1 j (by omega)
      split
      · exact ⟨h1', h2⟩
      · split
        · split
          · rename_i hz
            split
            · rename_i hg
              exact ⟨h1', fun _ => ⟨i, hz, by rw [← h1 i (le_refl _)]; exact hg⟩⟩
            · refine ⟨fun j hj => ?_, h2⟩
              have : j ≠ i := by rintro rfl; omega
              simp only [if_neg this]
              exact h1' j hj
          · split
            · exact ⟨h1', h2⟩
            · exact ⟨h1', h2⟩
        · exact ⟨h1', h2⟩)
  exact this.2 h

/-- `CloseRoots`: the root reported last is a zero of a component that is zero a little later too. -/
theorem rCheck2_close {cfg : Cfg ν n q K} {s s' : State ν n q K} {e : Err} (h : rCheck2 cfg s = .ret s' (.error e)) :
    s.r.irfnd = true ∧ ∃ (i j : Fin q) (t' x y : K), SeenAt cfg s' s.r.tlo j x ∧ Scalar.eqb (Scalar.abs x) 0 = true ∧
      SeenAt cfg s' t' i y ∧ Scalar.eqb (Scalar.abs y) 0 = true ∧ (∃ tt, t' = s.r.tlo + tt * Scalar.signum s.c.hh) ∧
      (Scalar.gt (0 : K) 0 = false → j = i) := by
  unfold rCheck2 callRoot at h
  split at h
  · cases h
  · rename_i hirf
    refine ⟨by simpa using hirf, ?_⟩
    split at h
    · cases h
    · rename_i s1 e1
      obtain ⟨hf1, yy1, yp1, q1⟩ := getSolution'_frame e1
      simp only at h
      split at h
      · rename_i hz
        split at h
        · cases h
        · rename_i s2 e2
          split at h
          · rename_i hd
            cases h
            obtain ⟨i, hi1, hi2⟩ := r2Fold_done _ _ _ _ hd
            have hs2 : s2.r.iroots = (fun i => if (s1.r.gactive i && Scalar.eqb (Scalar.abs (cfg.prob.root s1.r.tlo s1.m.yy s1.m.yp s1.r.glo i)) 0) = true then 1 else 0) ∧
                UCall.root s1.r.tlo s1.m.yy s1.m.yp ∈ s2.m.log := by
              split at e2
              · cases e2
                exact ⟨rfl, by simp⟩
              · obtain ⟨_, yy2, yp2, q2⟩ := getSolution'_frame e2
                subst q2
                exact ⟨rfl, by simp⟩
            obtain ⟨hir, hlog⟩ := hs2
            obtain ⟨j, hj⟩ := (foldl_or _).1 hz
            have ht1 : s1.r.tlo = s.r.tlo := by rw [q1]
            have hh1 : s1.c.hh = s.c.hh := by rw [q1]
            rw [Bool.and_eq_true] at hj
            have hk : ∃ k : Fin q, Scalar.eqb (Scalar.abs (cfg.prob.root s1.r.tlo s1.m.yy s1.m.yp s1.r.glo k)) 0 = true ∧
                (Scalar.gt (0 : K) 0 = false → k = i) := by
              rw [hir] at hi2
              simp only at hi2
              split at hi2
              · rename_i hc
                rw [Bool.and_eq_true] at hc
                exact ⟨i, hc.2, fun _ => rfl⟩
              · exact ⟨j, hj.2, fun h0 => by rw [h0] at hi2; cases hi2⟩
            obtain ⟨k, hk, hki⟩ := hk
            refine ⟨i, k, _, _, _, ⟨s1.m.yy, s1.m.yp, s1.r.glo, ?_, rfl⟩, ?_, ⟨_, _, _, List.mem_cons_self, rfl⟩, hi1,
              ⟨_, congrArg₂ (fun a b => a + _ * Scalar.signum b) ht1 hh1⟩, hki⟩
            · rw [← ht1]
              exact List.mem_cons_of_mem _ hlog
            · rw [← ht1]
              exact hk
          · split at h <;> cases h
      · cases h

/-- Every error of `solve` has a cause. -/
theorem solve_cause {cfg : Cfg ν n q K} (hl : NlsLegal cfg) {rf sf : Nat} {s s' : State ν n q K} {tout : K} {task : Task}
    {e : Err} (h : solve cfg rf sf s tout task = .ret s' (.error e)) : Cause cfg s s' tout task e := by
  obtain ⟨hb1, hb2, -, hb⟩ := begun_same s tout task
  have hi : (initialSetup cfg (begun s tout task)).e.tn = s.e.tn ∧ (initialSetup cfg (begun s tout task)).cnt = s.cnt ∧
      (initialSetup cfg (begun s tout task)).g = s.g ∧ (initialSetup cfg (begun s tout task)).tstop = s.tstop := by
    unfold initialSetup
    split
    · exact ⟨by rw [hb.e], hb.cnt, hb.g, hb.tstop⟩
    · exact ⟨by show (begun s tout task).e.tn = _; rw [hb.e], hb.cnt, hb.g, hb.tstop⟩
  obtain ⟨i1, i2, i3, i4⟩ := hi
  cases solve_outcome h with
  | rejected e' h0 h1 h2 =>
    cases h2
    rcases firstCall_cases h1 with ⟨k, rfl, k'⟩ | ⟨k, rfl, k'⟩ | ⟨hh, -, -, -, ⟨k, rfl, k'⟩ | ⟨s1, -, -, k'⟩⟩ <;> cases k'
    · refine .tooClose h0 ⟨by rw [i3], by unfold getNumSteps; rw [i2]⟩ ?_
      unfold tooClose at k
      simp only [Bool.or_eq_true] at k
      rw [i1] at k
      exact k
    · unfold wrongWay at k
      rw [Bool.and_eq_true, i1] at k
      exact .wrongWay h0 ⟨by show (initialSetup cfg (begun s tout task)).g.atts = _; rw [i3],
        by show (initialSetup cfg (begun s tout task)).cnt.nst = _; rw [i2]; rfl⟩ k.1 k.2
    · unfold firstStop at k
      simp only at k
      split at k
      · rename_i ts hts
        split at k
        · rename_i hle
          rw [i1] at hle
          exact .stopNotAhead ts h0 ⟨by show (initialSetup cfg (begun s tout task)).g.atts = _; rw [i3],
            by show (initialSetup cfg (begun s tout task)).cnt.nst = _; rw [i2]; rfl⟩ (by rw [← i4]; exact hts) hle
        · cases k
      · cases k
  | early h0 h1 =>
    cases h1 with
    | close e' hq k k' =>
      cases k'
      cases rCheck2_error k
      obtain ⟨k1, i, j, t', x, y, k2⟩ := rCheck2_close k
      have hf := rCheck2_frame k
      have hr : (perfReset (begun s tout task)).r.tlo = s.r.tlo := by
        show (begun s tout task).r.tlo = _; rw [hb2]
      have hirf : (perfReset (begun s tout task)).r.irfnd = s.r.irfnd := by
        show (begun s tout task).r.irfnd = _; rw [hb2]
      have hhh : (perfReset (begun s tout task)).c.hh = s.c.hh := by
        show (begun s tout task).c.hh = _; rw [hb.c]
      rw [hr, hhh] at k2
      exact .closeRoots i j t' x y (hirf ▸ k1) ⟨by rw [hf.g]; show (begun s tout task).g.atts = _; rw [hb.g],
        by unfold getNumSteps; rw [hf.cnt]; show (begun s tout task).cnt.nst = _; rw [hb.cnt]⟩
        k2.1 k2.2.1 k2.2.2.1 k2.2.2.2.1 k2.2.2.2.2.1 k2.2.2.2.2.2
    | root2 _ _ _ _ k => cases k
    | root3 _ _ _ _ _ _ _ k => cases k
    | pending _ _ _ _ _ _ _ _ k => cases k
    | stop s1 k1 k2 k3 =>
      obtain ⟨f1, -⟩ := noRootBefore_frame k1
      have g1 : s1.e = s.e ∧ s1.c = s.c ∧ s1.cnt = s.cnt ∧ s1.g = s.g ∧ s1.tstop = s.tstop :=
        ⟨f1.e.trans hb.e, f1.c.trans hb.c, f1.cnt.trans hb.cnt, f1.g.trans hb.g, f1.tstop.trans hb.tstop⟩
      obtain ⟨ge, gc, gn, gg, gt⟩ := g1
      have hna : NoAttempt s s1 := ⟨by rw [gg], by unfold getNumSteps; rw [gn]⟩
      have hbad : ∀ t, badTime s1 t = true → BeforeLast s t := by
        intro t ht
        unfold badTime at ht
        rw [ge, gc] at ht
        exact ht
      generalize hre : (Except.error e : Except Err Status) = r at k2
      cases stopTest1_cases k2 with
      | past _ g =>
        cases hre
        unfold pastStop at g
        split at g
        · rename_i ts hts
          rw [ge, gc] at g
          exact .stopPast ts h0 hna (by rw [← gt]; exact hts) g
        · cases g
      | same _ => cases hre
      | reached _ _ _ => cases hre
      | refused e' _ g =>
        cases hre
        obtain ⟨-, rfl, g'⟩ := getSolution_error g
        exact .past h0 hna rfl (hbad _ g')
      | pending _ _ _ => cases hre
      | stopNormal _ _ _ _ _ _ => cases hre
      | stopOne _ _ _ _ _ _ => cases hre
      | stopBad _ ts e' e'' hts _ g hor =>
        cases hre
        obtain ⟨-, rfl, g'⟩ := getSolution_error g
        exact .stopBefore ts _ h0 hna (by rw [← gt]; exact hts) (hbad _ g') hor
      | clamp _ _ _ _ _ _ => cases hre
      | free _ _ _ _ => cases hre
  | loop p k hI hp =>
    cases hp with
    | pre k1 =>
      have := preStep_cases cfg p k
      rw [k1] at this
      generalize hre : Flow.ret s' (.error e) = r at this
      cases this with
      | limit h1 h2 =>
        cases hre
        have h3 := hI.limit h1
        have h4 := hI.nst
        exact .stepLimit h1 (by show p.cnt.nst = s.cnt.nst + _; omega) rfl
      | weights s2 h1 h2 h3 h4 h5 h6 h7 h8 =>
        cases hre
        obtain ⟨i, h8⟩ := h8
        exact .weight i _ (by show 0 < s'.cnt.nst; rw [h3.cnt]; exact h2) (by rw [h3.h]; exact h7) h8 (by rw [h4]; exact h3.tn.symm)
      | accuracy s2 h1 h2 h3 h4 h5 h6 h7 =>
        cases hre
        exact .accuracy h6 (by rw [h4]; exact h2.tn.symm)
      | go _ _ _ _ _ _ _ _ _ _ _ => cases hre
      | panic => cases hre
    | failed p1 p2 e' k1 k2 k3 =>
      obtain ⟨f1, f2⟩ := stepFailed_frame k3
      cases f2
      obtain ⟨a, l, k4, k5, k6, k7⟩ := step_error hl k2
      refine .step a l p1.g.atts e (by rw [f1.g]; exact k5) ?_ k7
      intro x hx
      refine ⟨(k6 x hx).1, ?_⟩
      unfold getCurrentTime
      rw [f1.e, k4]
      exact (k6 x hx).2
    | post p1 p2 k1 k2 k3 =>
      cases k3 with
      | root _ _ _ _ k => cases k
      | stop s1 _ k4 _ =>
        generalize hre : (Except.error e : Except Err Status) = r at k4
        cases stopTest2_cases k4 <;> cases hre

end

end Verif
