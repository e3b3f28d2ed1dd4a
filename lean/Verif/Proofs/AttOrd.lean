import Verif.Proofs.FirstCall

/-! # The order of every attempt (any scalar type) -/

set_option autoImplicit false
set_option linter.unusedSectionVars false
set_option linter.unusedSimpArgs false
set_option linter.unusedVariables false

namespace Verif

universe u v

section
variable {ν : Type v} {n q : Nat} {K : Type u} [Scalar K]

/-- Every attempt so far used an admissible order. -/
def AttOrd (cfg : Cfg ν n q K) (s : State ν n q K) : Prop := ∀ x ∈ s.g.atts, 1 ≤ x.kk ∧ x.kk ≤ cfg.maxord

theorem attOrd_cons {cfg : Cfg ν n q K} {s s' : State ν n q K} {x : Att n K} (hI : AttOrd cfg s)
    (hx : 1 ≤ x.kk ∧ x.kk ≤ cfg.maxord) (h : s'.g.atts = x :: s.g.atts) : AttOrd cfg s' := by
  intro y hy
  rw [h] at hy
  rcases List.mem_cons.1 hy with rfl | hy
  · exact hx
  · exact hI y hy

theorem attOrd_step {cfg : Cfg ν n q K} {s s' : State ν n q K} {r : Except Err Unit} (hl : NlsLegal cfg)
    (hm : 1 ≤ cfg.maxord) (hO : OrdInv cfg s) (hI : AttOrd cfg s) (h : step cfg s = .ret s' r) : AttOrd cfg s' := by
  have hi := firstStepInit_cnt s
  have := step_rule (cfg := cfg) (fun s1 _ => OrdLoop cfg s1 ∧ AttOrd cfg s1) (AttOrd cfg) (fun s1 _ => AttOrd cfg s1)
    ⟨ordLoop_init hm hO, by unfold AttOrd; rw [hi.2.1]; exact hI⟩
    (fun s1 f s' f' hI h => by
      refine ⟨ordLoop_again hl hm hI.1 h, ?_⟩
      obtain ⟨err, a, b, s5, s6, hR, hH, rfl⟩ := attempt_again' hl h
      obtain ⟨ee, hg⟩ := hR.ghost
      refine attOrd_cons (x := attRec s1 s.e.tn ee (if err = .ida .testFail then .testFail else .nlsFail err))
        hI.2 ⟨hI.1.kk1, hI.1.kkm⟩ ?_
      rw [(ite_reset_ctl s6 (s6.cnt.nst = 0)).2.2.2.1, (handled_ctl hH).2.2.2.2.2.2.2.1, hg])
    (fun s1 f s2 ck a b s' hI h hc => by
      obtain ⟨s3, h3, -, -, -, -, rfl⟩ := attempt_done h
      have hC := completeStep_eq hc
      refine attOrd_cons (x := attRec s1 s.e.tn s3.ee .accepted) hI.2 ⟨hI.1.kk1, hI.1.kkm⟩ ?_
      show s'.g.atts = _
      rw [hC.g, done_ghost h3])
    (fun s1 f s' e hI h => by
      obtain ⟨err, a, b, f', s5, hR, hH⟩ := attempt_fail' hl h
      obtain ⟨ee, hg⟩ := hR.ghost
      refine attOrd_cons (x := attRec s1 s.e.tn ee (if err = .ida .testFail then .testFail else .nlsFail err))
        hI.2 ⟨hI.1.kk1, hI.1.kkm⟩ ?_
      rw [(handled_ctl hH).2.2.2.2.2.2.2.1, hg]) h
  rcases this with ⟨-, h⟩ | ⟨e, -, h⟩ <;> exact h

theorem Reach.attOrd {cfg : Cfg ν n q K} (hl : NlsLegal cfg) (hm : 1 ≤ cfg.maxord) {s : State ν n q K}
    (h : Reach cfg s) : AttOrd cfg s := by
  refine (h.inv (fun s => OrdInv cfg s ∧ AttOrd cfg s) ?_ ?_ ?_).2
  · intro a b c d
    exact ⟨ordInv_new cfg a b c d, by intro x hx; cases hx⟩
  · intro s s' hI hmic
    refine ⟨ordInv_micro hl hm hI.1 hmic, ?_⟩
    have of_g : ∀ {a b : State ν n q K}, b.g = a.g → AttOrd cfg a → AttOrd cfg b := by
      intro a b hab ha; unfold AttOrd; rw [hab]; exact ha
    cases hmic with
    | frame hf => exact of_g hf.g hI.2
    | perf => exact hI.2
    | clear => exact hI.2
    | clamp ts _ _ _ => exact of_g (clampToStop_same s ts).g hI.2
    | ewt _ => exact hI.2
    | first _ _ h0 hf => exact of_g (firstCall_same hf).g hI.2
    | firstStep _ h0 hf hfr hs =>
      exact attOrd_step hl hm (ordInv_frame hfr (ordInv_perf (ordInv_first h0 hf hI.1)))
        (of_g hfr.g (of_g (firstCall_same hf).g hI.2)) hs
    | step _ _ hs => exact attOrd_step hl hm hI.1 hI.2 hs
  · intro s e s' hI hmf
    refine ⟨ordInv_fail hl hm hI.1 hmf, ?_⟩
    have of_g : ∀ {a b : State ν n q K}, b.g = a.g → AttOrd cfg a → AttOrd cfg b := by
      intro a b hab ha; unfold AttOrd; rw [hab]; exact ha
    cases hmf with
    | firstStep _ _ h0 hf hfr hs =>
      exact attOrd_step hl hm (ordInv_frame hfr (ordInv_perf (ordInv_first h0 hf hI.1)))
        (of_g hfr.g (of_g (firstCall_same hf).g hI.2)) hs
    | step _ _ _ hs => exact attOrd_step hl hm hI.1 hI.2 hs

end

end Verif
