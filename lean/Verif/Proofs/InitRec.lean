import Verif.Proofs.Outcome

/-! # The recorded initial step size -/

set_option autoImplicit false
set_option linter.unusedSectionVars false
set_option linter.unusedSimpArgs false
set_option linter.unusedVariables false

namespace Verif

universe u v

section
variable {ν : Type v} {n q : Nat} {K : Type u} [Scalar K]

theorem completeStep_h0u {cfg : Cfg ν n q K} {s s' : State ν n q K} {a b : K} (h : completeStep cfg s a b = some s') :
    s'.h0u = s.h0u := by
  unfold completeStep at h
  simp only at h
  split at h
  · cases h
  · split at h
    · cases h
    · rename_i s1 h1
      split at h
      · cases h
        obtain ⟨e1, -, -⟩ := chooseNext_eq h1
        rw [markPhase_eq] at e1
        show _ = _; simp only; rw [e1]
      · cases h

theorem handled_h0u {cfg : Cfg ν n q K} {s s' : State ν n q K} {err : Err} {a b : K} {f f' : Fails}
    {r : Except Err Unit} (h : Handled cfg s a b f err s' f' r) : s'.h0u = s.h0u := by
  cases h <;> rfl

theorem passFailed_h0u {cfg : Cfg ν n q K} {t0 : K} {s s4 : State ν n q K} {err : Err} {a b : K}
    (h : PassFailed cfg t0 s s4 err a b) : s4.h0u = s.h0u := by
  obtain ⟨s3, r, out, h1, -, -, rfl⟩ := h.tried
  exact h1.h0u

theorem step_h0u {cfg : Cfg ν n q K} {s s' : State ν n q K} {r : Except Err Unit} (h : step cfg s = .ret s' r) :
    s'.h0u = s.h0u := by
  have h0 : (firstStepInit s).h0u = s.h0u := by unfold firstStepInit; split <;> rfl
  have := step_rule (cfg := cfg) (fun s1 _ => s1.h0u = s.h0u) (fun s1 => s1.h0u = s.h0u) (fun s1 _ => s1.h0u = s.h0u) h0
    (fun s1 f s' f' hI h => by
      obtain ⟨s4, err, a, b, s6, hp, hh, rfl⟩ := attempt_again h
      have h7 : (if s6.cnt.nst = 0 then reset s6 else s6).h0u = s6.h0u := by split <;> rfl
      rw [h7, handled_h0u (handleNFlag_handled hh)]
      exact (passFailed_h0u hp).trans hI)
    (fun s1 f s2 ck a b s' hI h hc => by
      obtain ⟨s3, h3, -, -, -, -, rfl⟩ := attempt_done h
      rw [completeStep_h0u hc]
      exact h3.h0u.trans hI)
    (fun s1 f s' e hI h => by
      obtain ⟨s4, err, a, b, f', hp, hh⟩ := attempt_fail h
      rw [handled_h0u (handleNFlag_handled hh)]
      exact (passFailed_h0u hp).trans hI) h
  rcases this with ⟨-, hx⟩ | ⟨e, -, hx⟩ <;> exact hx

/-- After the first step the recorded initial step size stays. -/
theorem micros_h0u {cfg : Cfg ν n q K} {s s' : State ν n q K} (h0 : 0 < s.cnt.nst) (h : Micros cfg s s') :
    s'.h0u = s.h0u ∧ 0 < s'.cnt.nst := by
  induction h with
  | refl => exact ⟨rfl, h0⟩
  | tail _ hm ih =>
    obtain ⟨ih, hp⟩ := ih
    cases hm with
    | frame hf => exact ⟨hf.h0u.trans ih, by rw [hf.cnt]; exact hp⟩
    | perf => exact ⟨ih, hp⟩
    | clear => exact ⟨ih, hp⟩
    | clamp ts _ _ _ => unfold clampToStop; split <;> exact ⟨ih, hp⟩
    | ewt _ => exact ⟨ih, hp⟩
    | first _ _ hz _ => omega
    | firstStep _ hz _ _ _ => omega
    | step _ _ hs => exact ⟨(step_h0u hs).trans ih, by rw [(step_quiet hs).2.1 rfl]; omega⟩

theorem ends_h0u {cfg : Cfg ν n q K} {s s' : State ν n q K} {α : Type} {r : Except Err α} (h0 : 0 < s.cnt.nst)
    (h : Ends cfg s s' r) : s'.h0u = s.h0u := by
  cases h with
  | clean hM _ => exact (micros_h0u h0 hM).1
  | failed s1 s2 e hM hF hfr _ =>
    obtain ⟨h1, h2⟩ := micros_h0u h0 hM
    rw [hfr.h0u]
    cases hF with
    | firstStep tout e hz _ _ _ => omega
    | step e _ _ hs => exact (step_h0u hs).trans h1

end

end Verif
