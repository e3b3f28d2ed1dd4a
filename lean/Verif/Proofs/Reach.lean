import Verif.Proofs.StepRules

/-! # Induction over histories (any scalar type) -/

set_option autoImplicit false
set_option linter.unusedSectionVars false
set_option linter.unusedSimpArgs false
set_option linter.unusedVariables false

namespace Verif

open Relation

universe u v

section
variable {ν : Type v} {n q : Nat} {K : Type u} [Scalar K]

theorem Micros.inv {cfg : Cfg ν n q K} {P : State ν n q K → Prop} (hm : ∀ s s', P s → Micro cfg s s' → P s')
    {s s' : State ν n q K} (h : Micros cfg s s') (hs : P s) : P s' := by
  induction h with
  | refl => exact hs
  | tail _ h2 ih => exact hm _ _ ih h2

/-- An invariant of all histories. -/
theorem Reach.inv {cfg : Cfg ν n q K} (P : State ν n q K → Prop)
    (hnew : ∀ nls0 yy0 yp0 tstop, P { State.new nls0 yy0 yp0 with tstop := tstop })
    (hm : ∀ s s', P s → Micro cfg s s' → P s') (hf : ∀ s e s', P s → MicroFail cfg s e s' → P s')
    {s : State ν n q K} (h : Reach cfg s) : P s := by
  induction h with
  | new a b c d => exact hnew a b c d
  | call rf sf op r _ he ih =>
    rcases exec_ends he with ⟨r', -, hend⟩ | ⟨-, hmic⟩
    · cases hend with
      | clean h1 _ => exact h1.inv hm ih
      | failed s1 s2 e h1 h2 h3 _ => exact hm _ _ (hf _ _ _ (h1.inv hm ih) h2) (.frame h3)
    · exact hmic.inv hm ih

theorem ReachFrom.reach {cfg : Cfg ν n q K} {yy0 yp0 : Vec n K} {s : State ν n q K} (h : ReachFrom cfg yy0 yp0 s) :
    Reach cfg s := by
  induction h with
  | new a b => exact .new a _ _ b
  | call rf sf op r _ he ih => exact .call rf sf op r ih he

/-- The same for given initial values. -/
theorem ReachFrom.inv {cfg : Cfg ν n q K} (P : State ν n q K → Prop) {yy0 yp0 : Vec n K}
    (hnew : ∀ nls0 tstop, P { State.new nls0 yy0 yp0 with tstop := tstop })
    (hm : ∀ s s', P s → Micro cfg s s' → P s') (hf : ∀ s e s', P s → MicroFail cfg s e s' → P s')
    {s : State ν n q K} (h : ReachFrom cfg yy0 yp0 s) : P s := by
  induction h with
  | new a b => exact hnew a b
  | call rf sf op r _ he ih =>
    rcases exec_ends he with ⟨r', -, hend⟩ | ⟨-, hmic⟩
    · cases hend with
      | clean h1 _ => exact h1.inv hm ih
      | failed s1 s2 e h1 h2 h3 _ => exact hm _ _ (hf _ _ _ (h1.inv hm ih) h2) (.frame h3)
    · exact hmic.inv hm ih

theorem MicroFail.isStepFailure {cfg : Cfg ν n q K} {s s' : State ν n q K} {e : Err} (h : MicroFail cfg s e s') :
    e.isStepFailure = true := by
  cases h with
  | firstStep _ _ _ _ _ h => exact step_error_isStepFailure h
  | step _ _ _ h => exact step_error_isStepFailure h

/-- An invariant of the histories without step failure. -/
theorem ReachOk.inv {cfg : Cfg ν n q K} (P : State ν n q K → Prop)
    (hnew : ∀ nls0 yy0 yp0 tstop, P { State.new nls0 yy0 yp0 with tstop := tstop })
    (hm : ∀ s s', P s → Micro cfg s s' → P s') {s : State ν n q K} (h : ReachOk cfg s) : P s := by
  induction h with
  | new a b c d => exact hnew a b c d
  | call rf sf op r _ he hr ih =>
    rcases exec_ends he with ⟨r', hr', hend⟩ | ⟨-, hmic⟩
    · cases hend with
      | clean h1 _ => exact h1.inv hm ih
      | failed s1 s2 e h1 h2 h3 h4 =>
        subst hr' h4
        have := hr e rfl
        rw [h2.isStepFailure] at this
        cases this
    · exact hmic.inv hm ih

/-- A step taken somewhere in a history: the state at the beginning of `step`. -/
theorem step_rule {cfg : Cfg ν n q K} (I : State ν n q K → Fails → Prop) (Q : State ν n q K → Prop)
    (R : State ν n q K → Err → Prop) {s : State ν n q K} (h0 : I (firstStepInit s) { ncf := 0, nef := 0 })
    (hagain : ∀ s1 f s' f', I s1 f → attempt cfg s.e.tn s1 f = .again s' f' → I s' f')
    (hdone : ∀ s1 f s2 ck a b s', I s1 f → attempt cfg s.e.tn s1 f = .done s2 ck a b →
      completeStep cfg s2 a b = some s' → Q { s' with ee := vscale ck s'.ee })
    (hfail : ∀ s1 f s' e, I s1 f → attempt cfg s.e.tn s1 f = .fail s' e → R s' e) {s' : State ν n q K}
    {r : Except Err Unit} (h : step cfg s = .ret s' r) : (r = .ok () ∧ Q s') ∨ (∃ e, r = .error e ∧ R s' e) :=
  stepLoop_rule I Q R hagain hdone hfail _ _ _ h0 _ _ h

end

end Verif
