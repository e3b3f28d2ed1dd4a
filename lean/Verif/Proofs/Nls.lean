import Verif.Spec.Nls
import Verif.Spec.Reach
import Verif.Props.Newton

/-! # The problem interface between integrator and nonlinear solver (any scalar type) -/

set_option autoImplicit false
set_option linter.unusedSectionVars false
set_option linter.unusedSimpArgs false
set_option linter.unusedVariables false

namespace Verif

open Verif.Spec Verif.Proofs.Newton

universe u v w

section
variable {σ : Type u} {V : Type v} {K : Type w} [Add V] [Neg V]

/-- What every callback does to the memory and which errors it returns. -/
structure CbInv (P : NLProblem σ V K) (I : σ → Prop) (E : Err → Prop) : Prop where
  sys : ∀ s y b, I s → I (P.sys s y b).1 ∧ ∀ e, (P.sys s y b).2.2 = .err e → E e
  setup : ∀ s y f j, I s → I (P.setup s y f j).1 ∧ ∀ e, (P.setup s y f j).2 = .err e → E e
  solve : ∀ s y b, I s → I (P.solve s y b).1 ∧ ∀ e, (P.solve s y b).2.2 = .err e → E e
  ctest : ∀ s vw y d tol w, I s → I (P.ctest s vw y d tol w).1 ∧ ∀ e, (P.ctest s vw y d tol w).2 = .err e → E e

theorem CbInv.ctest' {P : NLProblem σ V K} {I : σ → Prop} {E : Err → Prop} (h : CbInv P I E) {s s' : σ} {vw : NlsView}
    {y d w : V} {tol : K} {r : Cb Bool} (hq : P.ctest s vw y d tol w = (s', r)) (hs : I s) :
    I s' ∧ ∀ e, r = .err e → E e := by
  have := h.ctest s vw y d tol w hs
  rwa [hq] at this

theorem CbInv.sys' {P : NLProblem σ V K} {I : σ → Prop} {E : Err → Prop} (h : CbInv P I E) {s s' : σ}
    {y b b' : V} {r : Cb Unit} (hq : P.sys s y b = (s', b', r)) (hs : I s) :
    I s' ∧ ∀ e, r = .err e → E e := by
  have := h.sys s y b hs
  rwa [hq] at this

theorem newtonInner_inv {P : NLProblem σ V K} {I : σ → Prop} {E : Err → Prop} (h : CbInv P I E)
    (hE : E (.nl .convergenceRecover)) (tol : K) (w : V) (fuel : Nat) {N N' : Newton V} {s s' : σ} {y y' : V}
    {r : Except Err Unit} (hs : I s) (hd : newtonInner P tol w fuel N s y = .done N' s' y' r) :
    I s' ∧ ∀ e, r = .error e → E e := by
  induction fuel generalizing N s y with
  | zero => cases hd
  | succ fuel ih =>
    unfold newtonInner at hd
    simp only at hd
    split at hd
    · cases hd
    · rename_i s1 d e h1
      have := h.solve s y (-N.delta) hs
      rw [h1] at this
      cases hd
      exact ⟨this.1, fun e' he => by cases he; exact this.2 e rfl⟩
    · rename_i s1 d _ h1
      have h2 := h.solve s y (-N.delta) hs
      rw [h1] at h2
      split at hd
      · cases hd
      · rename_i s2 e h3
        have h4 := h.ctest' h3 h2.1
        cases hd
        exact ⟨h4.1, fun e' he => by cases he; exact h4.2 e rfl⟩
      · rename_i s2 h3
        have h4 := h.ctest' h3 h2.1
        cases hd
        exact ⟨h4.1, fun e' he => by cases he⟩
      · rename_i s2 h3
        have h4 := h.ctest' h3 h2.1
        split at hd
        · cases hd
          exact ⟨h4.1, fun e' he => by cases he; exact hE⟩
        · split at hd
          · cases hd
          · rename_i s3 d3 e h5
            have h6 := h.sys' h5 h4.1
            cases hd
            exact ⟨h6.1, fun e' he => by cases he; exact h6.2 e rfl⟩
          · rename_i s3 d3 _ h5
            have h6 := h.sys' h5 h4.1
            exact ih h6.1 hd

theorem newtonAttempt_inv {P : NLProblem σ V K} {I : σ → Prop} {E : Err → Prop} (h : CbInv P I E)
    (hE : E (.nl .convergenceRecover)) (y0 : V) (tol : K) (w : V) (c jb : Bool) {N N' : Newton V} {s s' : σ} {y y' : V}
    {r : Except Err Unit} (hs : I s) (hd : newtonAttempt P y0 tol w c jb N s y = .done N' s' y' r) :
    I s' ∧ ∀ e, r = .error e → E e := by
  unfold newtonAttempt at hd
  split at hd
  · cases hd
  · rename_i s1 d e h1
    have h2 := h.sys s y0 N.delta hs
    rw [h1] at h2
    cases hd
    exact ⟨h2.1, fun e' he => by cases he; exact h2.2 e rfl⟩
  · rename_i s1 d _ h1
    have h2 := h.sys s y0 N.delta hs
    rw [h1] at h2
    simp only at hd
    split at hd
    · split at hd
      · cases hd
      · rename_i s2 e h3
        have h4 := h.setup s1 y0 d jb h2.1
        rw [h3] at h4
        cases hd
        exact ⟨h4.1, fun e' he => by cases he; exact h4.2 e rfl⟩
      · rename_i s2 j h3
        have h4 := h.setup s1 y0 d jb h2.1
        rw [h3] at h4
        exact newtonInner_inv h hE tol w _ h4.1 hd
    · exact newtonInner_inv h hE tol w _ h2.1 hd

/-- Invariant rule for `Newton::solve`. -/
theorem newtonSolve_inv {P : NLProblem σ V K} {I : σ → Prop} {E : Err → Prop} (h : CbInv P I E)
    (hE : E (.nl .convergenceRecover)) (fuel : Nat) {N N' : Newton V} {s s' : σ} {y0 y y' w : V} {tol : K} {c : Bool}
    {r : Except Err Unit} (hs : I s) (hd : newtonSolve P fuel N s y0 y w tol c = .done N' s' y' r) :
    I s' ∧ ∀ e, r = .error e → E e ∧ e ≠ .nl .convergenceRecover := by
  unfold newtonSolve at hd
  have key : ∀ (fuel : Nat) (c jb : Bool) (N : Newton V) (s : σ) (y : V), I s →
      newtonOuter P y0 tol w fuel c jb N s y = .done N' s' y' r →
      I s' ∧ ∀ e, r = .error e → E e ∧ e ≠ .nl .convergenceRecover := by
    intro fuel
    induction fuel with
    | zero => intro _ _ _ _ _ _ hd; cases hd
    | succ fuel ih =>
      intro c jb N s y hs hd
      unfold newtonOuter at hd
      split at hd
      · cases hd
      · cases hd
      · rename_i h1
        cases hd
        exact ⟨(newtonAttempt_inv h hE y0 tol w c jb hs h1).1, fun e he => by cases he⟩
      · rename_i N1 s1 y1 e h1
        have h2 := newtonAttempt_inv h hE y0 tol w c jb hs h1
        split at hd
        · split at hd
          · exact ih _ _ _ _ _ h2.1 hd
          · exact ih _ _ _ _ _ h2.1 hd
        · rename_i hne
          cases hd
          refine ⟨h2.1, fun e' he => ?_⟩
          cases he
          exact ⟨h2.2 _ rfl, fun hx => hne ((isConv_iff e).2 hx)⟩
  exact key fuel c false N s y hs hd

/-- `Newton::solve` works through the problem interface, and the calls it makes are those of the protocol of C09. -/
theorem newton_calls (P : NLProblem σ V K) (fuel : Nat) {N N' : Newton V} {s s' : σ} {y0 y y' w : V} {tol : K} {c : Bool}
    {r : Except Err Unit} (hd : newtonSolve P fuel N s y0 y w tol c = .done N' s' y' r) :
    ∃ t k, Calls P s t s' ∧ Run N.maxiters y0 (if c then some false else none) N.jcur t k r := by
  rw [← Props.recorder_transparent P fuel N s [] y0 y w tol c] at hd
  rcases hq : newtonSolve (recorded P) fuel N (s, []) y0 y w tol c with ⟨N1, ⟨s1, l1⟩, y1, r1⟩ | _ | _
  · rw [hq] at hd
    simp only [NOut.done.injEq] at hd
    obtain ⟨rfl, rfl, rfl, rfl⟩ := hd
    have hI : CbInv (recorded P) (fun x => Calls P s x.2 x.1) (fun _ => True) :=
      ⟨fun x y b h => ⟨.sys y b h, fun _ _ => trivial⟩, fun x y f j h => ⟨.setup y f j h, fun _ _ => trivial⟩,
       fun x y b h => ⟨.solve y b h, fun _ _ => trivial⟩,
       fun x vw y d tol w h => ⟨.ctest vw y d tol w h, fun _ _ => trivial⟩⟩
    have h1 := (newtonSolve_inv hI trivial fuel (s := (s, [])) .nil hq).1
    obtain ⟨t, k, ht, hrun, -⟩ := Props.c09_newton_retry_protocol P fuel N s [] y0 y w tol c _ _ _ _ _ hq
    simp only [List.nil_append] at ht
    subst ht
    exact ⟨l1, k, h1, hrun⟩
  · rw [hq] at hd; simp at hd
  · rw [hq] at hd; simp at hd

end

section
variable {n q : Nat} {K : Type u} [Scalar K]

/-- With `IdaNLProblem` on top of `Dense`, `Newton::solve` never returns an error: the only error any callback returns is
the `ConvergenceRecover` of the convergence test, which Newton never passes on (C10). -/
theorem newton_no_error (P : Problem n q K) (fuel : Nat) {N N' : Newton (Vec n K)} {e : Env n K} {m m' : Mem n K}
    {y0 y w ee : Vec n K} {tol : K} {c : Bool} {err : Err} :
    (newtonNls P fuel).solve N e m y0 y w tol c ≠ .ret N' m' ee (.error err) := by
  intro h
  unfold newtonNls at h
  simp only at h
  split at h
  · rename_i N1 m1 y1 r1 h1
    cases h
    have hI : CbInv (idaNLProblem P e) (fun _ => True) (fun e => e = .nl .convergenceRecover) := by
      refine ⟨fun s y b _ => ⟨trivial, fun e he => ?_⟩, fun s y f j _ => ⟨trivial, fun e' he => ?_⟩,
        fun s y b _ => ⟨trivial, fun e he => ?_⟩, fun s vw y d tol w _ => ⟨trivial, fun e' he => ?_⟩⟩
      · cases he
      · unfold idaNLProblem at he
        simp only at he
        split at he <;> cases he
      · unfold idaNLProblem at he
        simp only at he
        split at he <;> cases he
      · unfold idaNLProblem idaCtest at he
        simp only at he
        split at he
        · split at he <;> cases he
        · split at he
          · cases he; rfl
          · cases he
    obtain ⟨-, h2⟩ := newtonSolve_inv hI rfl fuel trivial h1
    have := h2 _ rfl
    exact this.2 this.1
  · cases h
  · cases h

theorem newton_uses_interface (P : Problem n q K) (tol : TolControl n K) (fuel : Nat) : NlsUses (Cfg.newton P tol fuel) := by
  intro N e m y0 y w tol' call N' m' ee r h
  have h' : (newtonNls P fuel).solve N e m y0 y w tol' call = .ret N' m' ee r := h
  unfold newtonNls at h'
  simp only at h'
  split at h'
  · rename_i h1
    cases h'
    obtain ⟨t, k, h2, -⟩ := newton_calls _ _ h1
    exact ⟨t, h2⟩
  · cases h'
  · cases h'

theorem newton_legal (P : Problem n q K) (tol : TolControl n K) (fuel : Nat) : NlsLegal (Cfg.newton P tol fuel) := by
  intro N e m y0 y w tol' call N' m' ee err h
  exact absurd h (newton_no_error P fuel)

end

end Verif
