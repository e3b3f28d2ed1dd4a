import Verif.Proofs.ClockRun
import Verif.Proofs.FlDirection

/-!
# Another unit of time: the stop time in correctly rounded arithmetic

The code compares `(tn + hh - tstop) * hh` with 1 after each increment of the time.  This depends on the unit of time.  In correctly
rounded arithmetic the product is never positive, so the result of the comparison is always the same.
-/

set_option autoImplicit false
set_option linter.unusedSectionVars false
set_option linter.unusedVariables false

namespace Verif.FlControl

open Verif Verif.Spec

universe u v w

section
variable {ν : Type w} {n q : Nat} {F : Type u} {K : Type v} [Scalar F] [Field K] [LinearOrder K] [IsStrictOrderedRing K]
  [S : Correct F K] (U : Clock F)

local prefix:max "♯" => StdModel.val (F := F) (K := K)

theorem clear_within {s : State ν n q F} (h : Within (K := K) s.tstop s.e.tn s.c.hh) : U.Clear s := by
  intro T hT
  have h1 := h T hT
  have h2 : Scalar.lt 0 ((s.e.tn + s.c.hh - T) * s.c.hh) = false := by
    rw [← Bool.not_eq_true]
    intro hc
    have := (gt_sign (K := K) _ _ _).1 hc
    linarith
  have h3 : Scalar.lt 0 (U.f (U.f ((s.e.tn + s.c.hh - T) * s.c.hh))) = false := by
    have e1 := U.lt 0 ((s.e.tn + s.c.hh - T) * s.c.hh)
    have e2 := U.lt 0 (U.f ((s.e.tn + s.c.hh - T) * s.c.hh))
    rw [U.zero] at e1 e2
    rw [e2, e1, h2]
  have h4 : ∀ x : F, Scalar.lt 0 x = false → Scalar.lt 1 x = false := by
    intro x hx
    rw [← Bool.not_eq_true, StdModel.lt_iff (K := K), StdModel.val_zero] at hx
    rw [← Bool.not_eq_true, StdModel.lt_iff (K := K), StdModel.val_one]
    linarith
  exact ⟨h4 _ h2, h4 _ h3⟩

/-- The state before a pass of the driver. -/
structure PassReady (cfg : Cfg ν n q F) (s : State ν n q F) : Prop where
  inv : CtlInv (K := K) cfg s
  ne : ♯s.c.hh ≠ 0
  max : |♯s.c.hh| * ♯cfg.hmaxInv ≤ hbound F
  within : Within (K := K) s.tstop s.e.tn s.c.hh

theorem safe_within {cfg : Cfg ν n q F} (hl : NlsLegal cfg) {s : State ν n q F} (h0 : ♯s.c.hh ≠ 0) (h : Within (K := K) s.tstop s.e.tn s.c.hh) : U.Safe cfg s :=
  ⟨CtlLoop (K := K) s, ctlLoop_init s h0, fun a ha => clear_within U (ha.within h), fun a f b f' hI h1 => by
    obtain ⟨err, x, y, s5, s6, hR, hH, rfl⟩ := attempt_again' hl h1
    exact (ctlLoop_handled h hI hR hH).of_reset _⟩

theorem ctlInv_all {cfg : Cfg ν n q F} (hl : NlsLegal cfg) (hm : 0 ≤ ♯cfg.hmaxInv) 
    {s s' : State ν n q F} (h : CtlInv (K := K) cfg s) (hM : Micros cfg s s') : CtlInv (K := K) cfg s' := by
  induction hM with
  | refl => exact h
  | tail _ h2 ih => exact ctlInv_micro hl hm ih h2

theorem ready_micros {cfg : Cfg ν n q F} (hl : NlsLegal cfg) (hm : 0 ≤ ♯cfg.hmaxInv) 
    {s s' : State ν n q F} (h : CtlInv (K := K) cfg s) (hn : 0 < s.cnt.nst) (hM : Micros cfg s s')
    (hs : StopReady s') : PassReady (K := K) cfg s' := by
  obtain ⟨i1, i2⟩ := onward_micros hl hm h hn hM
  exact ⟨i1, i1.ne i2.nst, i1.hmax i2.nst, stopReady_within hs⟩

theorem ready_pre {cfg : Cfg ν n q F} (hm : 0 ≤ ♯cfg.hmaxInv) 
    {s s' : State ν n q F} {k : Nat} (h : PassReady (K := K) cfg s) (hp : preStep cfg s k = .go s') :
    PassReady (K := K) cfg s' := by
  have hc := preStep_cases cfg s k
  rw [hp] at hc
  cases hc with
  | go _ _ h2 =>
    have e1 : s'.c = s.c := h2.c
    have e2 : s'.e.tn = s.e.tn := h2.tn
    exact ⟨h.inv.of_scale hm h2.g (by rw [h2.cnt]) e2 (by rw [e1]) (.inl h2.tstop) fun _ => by rw [e1]; exact .refl h.ne,
      by rw [e1]; exact h.ne, by rw [e1]; exact h.max, by rw [e1, e2, h2.tstop]; exact h.within⟩

theorem steady_rounded {cfg : Cfg ν n q F} (hl : NlsLegal cfg) (hm : 0 ≤ ♯cfg.hmaxInv) (U : Clock F) : U.Steady cfg (CtlInv (K := K) cfg) (PassReady (K := K) cfg) where
  pre s k s' hJ h := by
    have := ready_pre hm hJ h
    exact safe_within U hl this.ne this.within
  pass rf s tout task k s' hJ h := by
    unfold solvePass at h
    cases hpre : preStep cfg s k with
    | panic => rw [hpre] at h; cases h
    | diverge => rw [hpre] at h; cases h
    | ret s1 r1 => rw [hpre] at h; cases h
    | go s1 =>
      rw [hpre] at h
      dsimp only at h
      have h1 := ready_pre hm hJ hpre
      cases hstep : step cfg s1 with
      | panic => rw [hstep] at h; cases h
      | diverge => rw [hstep] at h; cases h
      | ret s2 r2 =>
        rw [hstep] at h
        cases r2 with
        | error e => exact absurd h stepFailed_go
        | ok u =>
          dsimp only at h
          rcases step_ctl hl hm h1.ne h1.max h1.within hstep with ⟨-, hD⟩ | ⟨e, he, -⟩
          · obtain ⟨h2, h3⟩ := (postStep_ok (step_nst hstep)).go s' h
            exact ready_micros hl hm (ctlInv_done hm h1.inv h1.max h1.within hD) (step_nst hstep) h2 h3
          · cases he
  later rf s tout task s' hL hn h := by
    obtain ⟨h2, h3⟩ := (laterCall_ok (s := perfReset s) (Nat.pos_of_ne_zero hn)).go s' h
    exact ready_micros hl hm (ctlInv_micro hl hm hL (.perf s)) (Nat.pos_of_ne_zero hn) h2 h3
  first s tout s' hL hn h := by
    obtain ⟨g1, g2, g3, g4, -, -⟩ := firstStep_start hm hL hn h (.refl _)
    exact ⟨g1, right_ne_zero_of_mul g2.ne', g3, g4⟩
  head s tout task hL := by
    have one : 0 < s.cnt.nst → Shrunk ♯s.c.hh ♯s.c.hh := fun h0 => .refl (hL.ne h0)
    cases task <;> exact hL.of_scale hm rfl rfl rfl rfl (.inl rfl) one
  tret s tret hL := hL.of_scale hm rfl rfl rfl rfl (.inl rfl) fun h0 => .refl (hL.ne h0)
  exec rf sf s o s' r hL h := by
    rcases exec_ends h with ⟨r', -, h2⟩ | ⟨-, h2⟩
    · cases h2 with
      | clean h3 _ => exact ctlInv_all hl hm hL h3
      | failed s1 s2 e h3 h4 h5 _ =>
        exact (ctlInv_microFail hl hm (ctlInv_all hl hm hL h3) h4).of_frame hm h5
    · exact ctlInv_all hl hm hL h2

end

end Verif.FlControl
