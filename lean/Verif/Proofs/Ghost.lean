import Verif.Proofs.CallLog

/-! # The records of attempts and accepted points: an invariant rule for all histories (any scalar type) -/

set_option autoImplicit false
set_option linter.unusedSectionVars false
set_option linter.unusedSimpArgs false
set_option linter.unusedVariables false

namespace Verif

open Verif.Spec

universe u v

section
variable {ν : Type v} {n q : Nat} {K : Type u} [Scalar K]

/-- The nonlinear solve of the attempt that starts in `s` returned the correction `ee` and the result `r`. -/
def NlsRet (cfg : Cfg ν n q K) (s : State ν n q K) (ee : Vec n K) (r : Except Err Unit) : Prop :=
  ∃ N m, nlsCall cfg s = .ret N m ee r

/-- The outcome of the local error test. -/
def testPassed (cfg : Cfg ν n q K) (s : State ν n q K) (ee : Vec n K) : Bool :=
  Scalar.le (errCoef s * wrmsNorm cfg.id ee s.e.ewt cfg.suppressalg) 1

/-- A failed attempt: outcome. -/
def FailedOut (cfg : Cfg ν n q K) (s : State ν n q K) (ee : Vec n K) (r : Except Err Unit) (out : AttOut) : Prop :=
  (∃ e, r = .error e ∧ out = .nlsFail e) ∨ (r = .ok () ∧ out = .testFail ∧ testPassed cfg s ee = false)

variable {cfg : Cfg ν n q K} (I : Ghost n K → Prop)

/-- `I` survives a failed attempt. -/
def FailRule (cfg : Cfg ν n q K) (I : Ghost n K → Prop) : Prop :=
  ∀ (s : State ν n q K) t0 ee r out, I s.g → NlsRet cfg s ee r → FailedOut cfg s ee r out →
    I { s.g with atts := attRec s t0 ee out :: s.g.atts }

/-- `I` survives an accepted attempt. -/
def DoneRule (cfg : Cfg ν n q K) (I : Ghost n K → Prop) : Prop :=
  ∀ (s : State ν n q K) t0 ee, I s.g → (s.cnt.nst ≠ 0 → s.g.acc ≠ []) → NlsRet cfg s ee (.ok ()) →
    testPassed cfg s ee = true →
    I { atts := attRec s t0 ee .accepted :: s.g.atts
        acc := (newTime s, vadd (predY s) ee) :: (attRec s t0 ee .accepted).before }

/-- The invariant of a state. -/
def GhostInv (I : Ghost n K → Prop) (s : State ν n q K) : Prop := I s.g ∧ (s.cnt.nst ≠ 0 → s.g.acc ≠ [])

theorem GhostInv.of_eq {I : Ghost n K → Prop} {s s' : State ν n q K} (h : GhostInv I s) (hg : s'.g = s.g)
    (hc : s'.cnt.nst = s.cnt.nst) : GhostInv I s' := by
  unfold GhostInv; rw [hg, hc]; exact h

theorem passFailed_ghost {t0 : K} {s s4 : State ν n q K} {err : Err} {a b : K} (h : PassFailed cfg t0 s s4 err a b) :
    ∃ ee r out, NlsRet cfg s ee r ∧ FailedOut cfg s ee r out ∧
      s4.g = { s.g with atts := attRec s t0 ee out :: s.g.atts } := by
  obtain ⟨s3, r, out, h1, h2, h3, rfl⟩ := h.tried
  obtain ⟨m, h4, -⟩ := h1.solve
  refine ⟨s3.ee, r, out, ⟨_, _, h4⟩, ?_, by rw [h1.note_g]⟩
  rcases h2 with ⟨g1, -, -, g2⟩ | ⟨g1, -, g2⟩
  · exact Or.inl ⟨_, g1, g2⟩
  · exact Or.inr ⟨g1, g2, (h3 g1).1⟩

theorem step_ghost (hf : FailRule cfg I) (hd : DoneRule cfg I) {s s' : State ν n q K} {r : Except Err Unit}
    (hs : GhostInv I s) (h : step cfg s = .ret s' r) : GhostInv I s' := by
  have hi := firstStepInit_cnt s
  have fail : ∀ {s1 s4 s6 : State ν n q K} {err a b f f' r}, GhostInv I s1 → PassFailed cfg s.e.tn s1 s4 err a b →
      handleNFlag cfg (restored s4 s.e.tn) err a b f = some (s6, f', r) → GhostInv I s6 := by
    intro s1 s4 s6 err a b f f' r hI h1 h2
    obtain ⟨e1, e2, e3, e4⟩ := handleNFlag_same h2
    obtain ⟨ee, r, out, g1, g2, g3⟩ := passFailed_ghost h1
    have hn : s4.cnt.nst = s1.cnt.nst := by
      obtain ⟨s3, r, out, k1, -, -, rfl⟩ := h1.tried
      show s3.cnt.nst = _
      rw [k1.cnt]
    refine GhostInv.of_eq (s := s4) ⟨?_, ?_⟩ e3 e4
    · rw [g3]; exact hf _ _ _ _ _ hI.1 g1 g2
    · rw [g3, hn]; exact hI.2
  have := step_rule (cfg := cfg) (fun s1 _ => GhostInv I s1) (fun s1 => GhostInv I s1) (fun s1 _ => GhostInv I s1)
    (hs.of_eq hi.2.1 (by rw [hi.1]))
    (fun s1 f s' f' hI h => by
      obtain ⟨s4, err, a, b, s6, h1, h2, rfl⟩ := attempt_again h
      have := fail hI h1 h2
      split
      · exact this.of_eq rfl rfl
      · exact this)
    (fun s1 f s2 ck a b s' hI h hc => by
      obtain ⟨s3, h1, -, -, hp, -, rfl⟩ := attempt_done h
      obtain ⟨m, h2, -⟩ := h1.solve
      have hg : s'.g = _ := (completeStep_eq hc).g.trans (done_ghost h1)
      refine GhostInv.of_eq (s := s') ⟨?_, ?_⟩ rfl rfl
      · rw [hg]; exact hd _ _ _ hI.1 hI.2 ⟨_, _, h2⟩ hp
      · rw [hg]; simp)
    (fun s1 f s' e hI h => by
      obtain ⟨s4, err, a, b, f', h1, h2⟩ := attempt_fail h
      exact fail hI h1 h2) h
  rcases this with ⟨-, h⟩ | ⟨e, -, h⟩ <;> exact h

theorem micro_ghost (hf : FailRule cfg I) (hd : DoneRule cfg I) {s s' : State ν n q K} (hI : GhostInv I s)
    (hm : Micro cfg s s') : GhostInv I s' := by
  cases hm with
  | frame hf => exact hI.of_eq hf.g (by rw [hf.cnt])
  | perf => exact hI.of_eq rfl rfl
  | clear => exact hI.of_eq rfl rfl
  | clamp ts _ _ _ => exact hI.of_eq (clampToStop_same s ts).g (by rw [(clampToStop_same s ts).cnt])
  | ewt _ => exact hI.of_eq rfl rfl
  | first _ _ h0 hf => exact hI.of_eq (firstCall_same hf).g (by rw [(firstCall_same hf).cnt])
  | firstStep _ h0 hfc hfr hs =>
    refine step_ghost I hf hd (hI.of_eq ?_ ?_) hs
    · rw [hfr.g]; exact (firstCall_same hfc).g
    · rw [hfr.cnt]; exact congrArg _ (firstCall_same hfc).cnt
  | step _ _ hs => exact step_ghost I hf hd hI hs

theorem micros_ghost (hf : FailRule cfg I) (hd : DoneRule cfg I) {s s' : State ν n q K} (hI : GhostInv I s)
    (hm : Micros cfg s s') : GhostInv I s' := hm.inv (fun _ _ => micro_ghost I hf hd) hI

/-- **Invariant rule.** -/
theorem Reach.ghost (h0 : I { atts := [], acc := [] }) (hf : FailRule cfg I) (hd : DoneRule cfg I) {s : State ν n q K}
    (h : Reach cfg s) : GhostInv I s := by
  refine h.inv (GhostInv I) (fun _ _ _ _ => ⟨h0, fun h => absurd rfl h⟩) (fun _ _ => micro_ghost I hf hd) ?_
  intro s e s' hI hm
  cases hm with
  | firstStep _ _ h0 hfc hfr hs =>
    refine step_ghost I hf hd (hI.of_eq ?_ ?_) hs
    · rw [hfr.g]; exact (firstCall_same hfc).g
    · rw [hfr.cnt]; exact congrArg _ (firstCall_same hfc).cnt
  | step _ _ _ hs => exact step_ghost I hf hd hI hs

/-! ## Accepted points come from accepted attempts -/

/-- Every accepted point but the first was produced by an accepted attempt that started from the points before it; an
attempt is accepted only if it passes the error test, and rejected by the test only if it does not. -/
structure Linked (cfg : Cfg ν n q K) (g : Ghost n K) : Prop where
  link : ∀ pre p rest, g.acc = pre ++ p :: rest → rest ≠ [] →
    ∃ x ∈ g.atts, x.out = .accepted ∧ x.before = rest ∧ p = (x.tnew, x.yy)
  first : ∀ p, g.acc.getLast? = some p → ∃ x ∈ g.atts, x.out = .accepted ∧ x.before = [p]
  passed : ∀ x ∈ g.atts, x.out = .accepted → Scalar.le (x.ck * wrmsNorm cfg.id x.ee x.ewt cfg.suppressalg) 1 = true
  failed : ∀ x ∈ g.atts, x.out = .testFail → Scalar.le (x.ck * wrmsNorm cfg.id x.ee x.ewt cfg.suppressalg) 1 = false
  yy : ∀ x ∈ g.atts, x.yy = vadd x.pred x.ee ∧ x.yp = scaledAdd x.predp x.cj x.ee

theorem Reach.linked {s : State ν n q K} (h : Reach cfg s) : Linked cfg s.g := by
  refine (h.ghost (Linked cfg) ⟨?_, ?_, ?_, ?_, ?_⟩ ?_ ?_).1
  · intro pre p rest h; exact absurd h (by simp)
  · intro p h; cases h
  · intro x hx; cases hx
  · intro x hx; cases hx
  · intro x hx; cases hx
  · intro s t0 ee r out hI hr ho
    refine ⟨?_, ?_, ?_, ?_, ?_⟩
    · intro pre p rest h1 h2
      obtain ⟨x, hx, g⟩ := hI.link pre p rest h1 h2
      exact ⟨x, List.mem_cons_of_mem _ hx, g⟩
    · intro p h1
      obtain ⟨x, hx, g⟩ := hI.first p h1
      exact ⟨x, List.mem_cons_of_mem _ hx, g⟩
    · intro x hx hxo
      rcases List.mem_cons.1 hx with rfl | hx
      · rcases ho with ⟨e, -, rfl⟩ | ⟨-, rfl, -⟩ <;> cases hxo
      · exact hI.passed x hx hxo
    · intro x hx hxo
      rcases List.mem_cons.1 hx with rfl | hx
      · rcases ho with ⟨e, -, rfl⟩ | ⟨-, rfl, h3⟩
        · cases hxo
        · exact h3
      · exact hI.failed x hx hxo
    · intro x hx
      rcases List.mem_cons.1 hx with rfl | hx
      · exact ⟨rfl, rfl⟩
      · exact hI.yy x hx
  · intro s t0 ee hI hne hr hp
    have hb : (attRec s t0 ee .accepted).before = [(t0, (coefHist s).phi 0)] ∨
        ((attRec s t0 ee .accepted).before = s.g.acc ∧ s.g.acc ≠ []) := by
      unfold attRec; simp only; split
      · exact Or.inl rfl
      · rename_i h0
        exact Or.inr ⟨rfl, hne h0⟩
    refine ⟨?_, ?_, ?_, ?_, ?_⟩
    · intro pre p rest h1 h2
      cases pre with
      | nil =>
        simp only [List.nil_append, List.cons.injEq] at h1
        obtain ⟨rfl, rfl⟩ := h1
        exact ⟨_, List.mem_cons_self, rfl, rfl, rfl⟩
      | cons a pre =>
        simp only [List.cons_append, List.cons.injEq] at h1
        rcases hb with hb | hb
        · rw [hb] at h1
          cases pre with
          | nil => simp at h1; exact absurd h1.2.2 h2
          | cons a pre => simp at h1
        · rw [hb.1] at h1
          obtain ⟨x, hx, g⟩ := hI.link pre p rest h1.2 h2
          exact ⟨x, List.mem_cons_of_mem _ hx, g⟩
    · intro p h1
      rcases hb with hb | hb
      · refine ⟨_, List.mem_cons_self, rfl, ?_⟩
        simp only [hb] at h1 ⊢
        simpa using h1
      · simp only [hb.1] at h1
        cases ha : s.g.acc with
        | nil => exact absurd ha hb.2
        | cons a l =>
          rw [ha, List.getLast?_cons_cons, ← ha] at h1
          obtain ⟨x, hx, g⟩ := hI.first p h1
          exact ⟨x, List.mem_cons_of_mem _ hx, g⟩
    · intro x hx hxo
      rcases List.mem_cons.1 hx with rfl | hx
      · exact hp
      · exact hI.passed x hx hxo
    · intro x hx hxo
      rcases List.mem_cons.1 hx with rfl | hx
      · cases hxo
      · exact hI.failed x hx hxo
    · intro x hx
      rcases List.mem_cons.1 hx with rfl | hx
      · exact ⟨rfl, rfl⟩
      · exact hI.yy x hx

end

end Verif
