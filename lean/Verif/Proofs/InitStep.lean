import Verif.Proofs.FirstStep

/-! # The initial step size -/

set_option autoImplicit false
set_option linter.unusedSectionVars false
set_option linter.unusedSimpArgs false
set_option linter.unusedVariables false

namespace Verif

universe u v

section
variable {ν : Type v} {n q : Nat} {K : Type u} [Field K] [LinearOrder K] [IsStrictOrderedRing K] [ExactParams K]
  [EpsLaws K]

/-- The weighted norm of the initial derivative, with the weights of the initial values (or the given ones, if the setup
has been done). -/
def ypNorm0 (cfg : Cfg ν n q K) (s : State ν n q K) : K :=
  wrmsNorm cfg.id (s.h.phi 1) (initialSetup cfg s).e.ewt cfg.suppressalg

theorem clampToStop_hh_le {s : State ν n q K} {ts : K} (h : 0 < (ts - s.e.tn) * s.c.hh) :
    |(clampToStop s ts).c.hh| ≤ |s.c.hh| := by
  obtain ⟨c, h1, h2, h3⟩ := clamp_spec h
  rw [h3, abs_mul, abs_of_pos h1]
  calc c * |s.c.hh| ≤ 1 * |s.c.hh| := mul_le_mul_of_nonneg_right h2 (abs_nonneg _)
    _ = |s.c.hh| := one_mul _

/-- The automatic initial step. -/
theorem autoStep_spec {cfg : Cfg ν n q K} {s : State ν n q K} {tout : K} (hd : tout ≠ s.e.tn) :
    abs (autoStep cfg s tout (abs (tout - s.e.tn))) =
      if 2 / (|tout - s.e.tn| / 1000) < wrmsNorm cfg.id (s.h.phi 1) s.e.ewt cfg.suppressalg
      then 1 / (2 * wrmsNorm cfg.id (s.h.phi 1) s.e.ewt cfg.suppressalg) else |tout - s.e.tn| / 1000 := by
  have hd' : 0 < |tout - s.e.tn| := abs_pos.2 (sub_ne_zero.2 hd)
  unfold autoStep
  simp only [ex_pt001, ex_two, ex_half, ex_lt]
  have e : (1 / 1000 : K) * |tout - s.e.tn| = |tout - s.e.tn| / 1000 := by ring
  rw [e]
  generalize wrmsNorm cfg.id (s.h.phi 1) s.e.ewt cfg.suppressalg = w
  have hx : ∀ x : K, |if (decide (tout < s.e.tn)) = true then -x else x| = |x| := by
    intro x; split
    · rw [abs_neg]
    · rfl
  rw [hx]
  by_cases hw : 2 / (|tout - s.e.tn| / 1000) < w
  · rw [if_pos (by simpa using hw), if_pos hw]
    have : 0 < w := lt_trans (div_pos two_pos (div_pos hd' (by norm_num))) hw
    rw [abs_of_pos (div_pos (by norm_num) this)]
    field_simp
  · rw [if_neg (by simpa using hw), if_neg hw, abs_of_pos (div_pos hd' (by norm_num))]

/-- The size of the automatic initial step. -/
def autoSize (cfg : Cfg ν n q K) (s : State ν n q K) (tout : K) : K :=
  if 2 / (|tout - s.e.tn| / 1000) < ypNorm0 cfg s then 1 / (2 * ypNorm0 cfg s) else |tout - s.e.tn| / 1000

theorem autoSize_spec {cfg : Cfg ν n q K} {s : State ν n q K} {tout : K} (hd : tout ≠ s.e.tn) :
    0 < autoSize cfg s tout ∧ autoSize cfg s tout ≤ |tout - s.e.tn| / 1000 ∧
    (2 / (|tout - s.e.tn| / 1000) < ypNorm0 cfg s → autoSize cfg s tout = 1 / 2 / ypNorm0 cfg s) ∧
    autoSize cfg s tout * ypNorm0 cfg s ≤ 2 := by
  have hd' : 0 < |tout - s.e.tn| / 1000 := div_pos (abs_pos.2 (sub_ne_zero.2 hd)) (by norm_num)
  unfold autoSize
  generalize ypNorm0 cfg s = w
  generalize |tout - s.e.tn| / 1000 = d at hd'
  by_cases hw : 2 / d < w
  · rw [if_pos hw]
    have h0 : 0 < w := lt_trans (div_pos two_pos hd') hw
    rw [div_lt_iff₀ hd'] at hw
    refine ⟨by positivity, ?_, fun _ => by field_simp, ?_⟩
    · rw [div_le_iff₀ (by positivity)]; nlinarith
    · have : 1 / (2 * w) * w = 1 / 2 := by field_simp
      rw [this]; norm_num
  · rw [if_neg hw]
    refine ⟨hd', le_refl _, fun h => absurd h hw, ?_⟩
    rw [not_lt, le_div_iff₀ hd'] at hw
    linarith

/-- The step size after the first-call block with no user step. -/
theorem firstCall_auto {cfg : Cfg ν n q K} {s s' : State ν n q K} {tout : K} (hm : 0 ≤ cfg.hmaxInv) (hin : cfg.hin = 0)
    (h : firstCall cfg s tout = .ret s' (.ok ())) :
    s'.h0u = s'.c.hh ∧ tout ≠ s.e.tn ∧ |s'.c.hh| ≤ autoSize cfg s tout ∧
    (cfg.hmaxInv = 0 → s.tstop = none → |s'.c.hh| = autoSize cfg s tout) := by
  rcases firstCall_cases h with ⟨-, -, h⟩ | ⟨-, -, h⟩ | ⟨hh, hh1, h1, h2, ⟨-, -, h⟩ | ⟨s1, hs1, hs', -⟩⟩
  · cases h
  · cases h
  · cases h
  have htn : (initialSetup cfg s).e.tn = s.e.tn := (initialSetup_same cfg s).tn
  have hphi : (initialSetup cfg s).h = s.h := by unfold initialSetup; split <;> rfl
  have hts : (initialSetup cfg s).tstop = s.tstop := by unfold initialSetup; split <;> rfl
  have hd : tout ≠ s.e.tn := by
    unfold tooClose at h1
    simp only [Bool.or_eq_false_iff] at h1
    have := h1.1
    simp only [ex_eqb, ex_abs, decide_eq_false_iff_not, abs_eq_zero] at this
    rw [htn] at this
    exact sub_ne_zero.1 this
  obtain ⟨h3, h4⟩ := firstStepSize_spec hm h1 h2 hh1
  have hhh : s'.c.hh = s1.c.hh := by rw [hs']; exact firstReady_hh cfg s1
  have h0u : s'.h0u = s1.c.hh := by
    rw [hs']
    unfold firstReady
    simp only
    split
    · exact (rCheck1_same cfg _).2.2.2.2.2.2.2.2.2.2.1
    · rfl
  have hauto : |autoStep cfg (initialSetup cfg s) tout (Scalar.abs (tout - (initialSetup cfg s).e.tn))| = autoSize cfg s tout := by
    have := autoStep_spec (cfg := cfg) (s := initialSetup cfg s) (tout := tout) (by rw [htn]; exact hd)
    rw [hphi, htn] at this
    simp only [ex_abs]
    rw [htn]
    exact this
  have hsz : |hh| ≤ autoSize cfg s tout ∧ (cfg.hmaxInv = 0 → |hh| = autoSize cfg s tout) := by
    rw [hh1]
    unfold firstStepSize
    simp only [hin, ex_eqb, decide_true, if_true]
    rw [← hauto]
    generalize autoStep cfg (initialSetup cfg s) tout (Scalar.abs (tout - (initialSetup cfg s).e.tn)) = x
    simp only [ex_lt, ex_abs]
    by_cases hr : 1 < |x| * cfg.hmaxInv
    · simp only [hr, decide_true, if_true]
      have hp : 0 < |x| * cfg.hmaxInv := lt_trans one_pos hr
      refine ⟨?_, fun h0 => by rw [h0, mul_zero] at hr; linarith [one_pos (α := K)]⟩
      rw [abs_div, abs_of_pos hp]
      exact div_le_self (abs_nonneg _) hr.le
    · simp only [hr, decide_false, Bool.false_eq_true, if_false]
      exact ⟨le_refl _, fun _ => trivial⟩
  refine ⟨h0u.trans hhh.symm, hd, ?_, ?_⟩
  · rw [hhh]
    unfold firstStop at hs1
    split at hs1
    · rename_i ts hts
      split at hs1
      · cases hs1
      · rename_i hc
        cases hs1
        simp only [ex_le, decide_eq_true_eq, not_le] at hc
        exact (clampToStop_hh_le hc).trans hsz.1
    · cases hs1; exact hsz.1
  · intro hm0 hts0
    rw [hhh]
    unfold firstStop at hs1
    rw [show ({ initialSetup cfg s with c.hh := hh } : State ν n q K).tstop = none from hts.trans hts0] at hs1
    cases hs1
    exact hsz.2 hm0

end

end Verif
