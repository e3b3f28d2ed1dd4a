import Verif.Proofs.Answers
import Verif.Proofs.LsAny

/-! # The answers of the user's functions, with any linear solver -/

set_option autoImplicit false
set_option linter.unusedSectionVars false
set_option linter.unusedSimpArgs false
set_option linter.unusedVariables false

namespace Verif

open Verif.Spec

universe u v

section
variable {n q : Nat} {K : Type u} [Scalar K] {L : Type v} {A : UCall n K → Prop}

theorem idaWith_sameOps (S : LSolver L n K) {P P' : Problem n q K} (hP : SameAnswers A P P') (e : Env n K) :
    SameOps A (fun m : Mem n K × LsMem L => m.1.log) (idaNLProblemWith S P e) (idaNLProblemWith S P' e) := by
  refine ⟨?_, ?_, ?_, ?_⟩
  · intro m y b _
    refine ⟨fun _ hx => List.mem_cons_of_mem _ hx, fun ha => ?_⟩
    have h1 := hP.res e.tn (vadd e.yypredict y) (scaledAdd e.yppredict e.cj y) b (ha _ List.mem_cons_self)
    show (((idaSys P' e m.1 y b).1, m.2), (idaSys P' e m.1 y b).2, _) = (((idaSys P e m.1 y b).1, m.2), (idaSys P e m.1 y b).2, _)
    unfold idaSys
    simp only [h1]
  · rintro ⟨m, l⟩ y f j h
    have key : ∀ p, idaSetupWith S P e m l f = some p →
        m.log ⊆ p.1.log ∧ ((∀ c ∈ p.1.log, A c) → idaSetupWith S P' e m l f = some p) := by
      intro p h
      unfold idaSetupWith lsSetupWith at h ⊢
      simp only at h ⊢
      by_cases hn : n = 0
      · simp only [if_pos hn] at h ⊢
        refine ⟨?_, fun _ => h⟩
        split at h
        · cases h
        · rename_i h1
          split at h1
          · cases h1; cases h; exact fun _ hx => hx
          · cases h1
          · cases h1
      · simp only [if_neg hn] at h ⊢
        have hl : p.1.log = .jac 0 e.cj m.yy m.yp f :: m.log := by
          split at h
          · cases h
          · rename_i h1
            split at h1
            · cases h1; cases h; rfl
            · cases h1
            · cases h1
        refine ⟨by rw [hl]; exact fun _ hx => List.mem_cons_of_mem _ hx, fun ha => ?_⟩
        rw [hP.jac 0 e.cj m.yy m.yp f (fun _ _ => 0) (ha _ (by rw [hl]; exact List.mem_cons_self))]
        exact h
    unfold idaNLProblemWith at h ⊢
    simp only at h ⊢
    cases hs : idaSetupWith S P e m l f with
    | none => rw [hs] at h; exact absurd rfl h
    | some p =>
      obtain ⟨k1, k2⟩ := key p hs
      simp only
      exact ⟨k1, fun ha => by rw [k2 ha]⟩
  · rintro ⟨m, l⟩ y b h
    refine ⟨?_, rfl⟩
    unfold idaNLProblemWith at h ⊢
    simp only at h ⊢
    cases hs : lsSolveWith S e m l b with
    | none => rw [hs] at h; exact absurd rfl h
    | some p =>
      obtain ⟨m1, l1, b1⟩ := p
      simp only
      rw [lsSolveWith_log hs]
      exact fun _ hx => hx
  · rintro ⟨m, l⟩ v y d tol w h
    refine ⟨?_, rfl⟩
    show m.log ⊆ (idaCtest e m v d tol w).1.log
    rw [idaCtest_log]
    exact fun _ hx => hx

theorem newtonWith_sameNls (S : LSolver L n K) {P P' : Problem n q K} (hP : SameAnswers A P P') (fuel : Nat) :
    SameNls A (newtonNlsWith S P fuel) (newtonNlsWith S P' fuel) := by
  intro N e m y0 y w tol call N' m' ee r h ha
  unfold newtonNlsWith at h ⊢
  simp only at h ⊢
  split at h
  · rename_i h1
    cases h
    have h2 := (newtonOuter_answers (idaWith_sameOps S hP e) _ _ _ _ _ _ _ _ _ _ h1).2 ha
    unfold newtonSolve
    rw [h2]
  · cases h
  · cases h

end

end Verif
