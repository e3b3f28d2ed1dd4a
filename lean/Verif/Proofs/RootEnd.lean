import Verif.Proofs.RootInv
import Mathlib.Algebra.Order.Archimedean.Basic

/-!
# A call of `solve` with root functions ends

The searches of a call cover intervals whose length is bounded by the times known at the beginning of the call, and the
root tolerance is at least `100 eps` times the internal time; so a number of turns of the search loop that suffices for all
searches of the call is known in advance.
-/

set_option autoImplicit false
set_option linter.unusedSectionVars false
set_option linter.unusedSimpArgs false
set_option linter.unusedVariables false

namespace Verif

open Verif.Spec Verif.Props

universe u v

section
variable {ν : Type v} {n q : Nat} {K : Type u} [Field K] [LinearOrder K] [IsStrictOrderedRing K] [ExactParams K]
  [EpsLaws K]

/-- The internal time is ahead of the initial time. -/
theorem CtlInv.tn_pos {cfg : Cfg ν n q K} {s : State ν n q K} (h : CtlInv cfg s) (hn : 0 < s.cnt.nst) :
    0 < s.e.tn * s.c.hh := by
  obtain ⟨y, rest, h1⟩ := h.last hn
  obtain ⟨y0, h2⟩ := h.start hn
  have h3 := h.len hn
  have h4 := h.chain
  rw [h1] at h2 h3 h4
  cases rest with
  | nil => simp at h3; omega
  | cons b rest =>
    rw [List.getLast?_cons_cons] at h2
    have h5 := (List.pairwise_cons.1 h4).1 _ (List.mem_of_getLast? h2)
    simpa using h5

/-- The internal time advances. -/
theorem Onward.tn_le {cfg : Cfg ν n q K} {s s' : State ν n q K} (h : CtlInv cfg s) (hn : 0 < s.cnt.nst)
    (h' : CtlInv cfg s') (ho : Onward s s') : 0 ≤ (s'.e.tn - s.e.tn) * s'.c.hh ∧ |s.e.tn| ≤ |s'.e.tn| := by
  obtain ⟨l, hl⟩ := ho.acc
  obtain ⟨y, rest, h1⟩ := h.last hn
  obtain ⟨y', rest', h1'⟩ := h'.last ho.nst
  have hc := h'.chain
  have hle : 0 ≤ (s'.e.tn - s.e.tn) * s'.c.hh := by
    rw [h1'] at hl hc
    rw [h1] at hl
    cases l with
    | nil =>
      simp only [List.nil_append, List.cons.injEq, Prod.mk.injEq] at hl
      rw [hl.1.1]; simp
    | cons a l =>
      simp only [List.cons_append, List.cons.injEq] at hl
      have := (List.pairwise_cons.1 hc).1 (s.e.tn, y) (by rw [hl.2]; simp)
      exact this.le
  refine ⟨hle, ?_⟩
  have k1 := h.tn_pos hn
  have k2 := ho.dir
  rcases lt_or_gt_of_ne (left_ne_zero_of_mul k2.ne') with hs | hs
  · have hs' : s'.c.hh < 0 := by
      by_contra hx
      exact absurd k2 (not_lt.2 (mul_nonpos_of_nonpos_of_nonneg hs.le (not_lt.1 hx)))
    have t1 : s.e.tn < 0 := by
      by_contra hx
      exact absurd k1 (not_lt.2 (mul_nonpos_of_nonneg_of_nonpos (not_lt.1 hx) hs.le))
    have t2 : s'.e.tn - s.e.tn ≤ 0 := by
      by_contra hx
      exact absurd hle (not_le.2 (mul_neg_of_pos_of_neg (not_le.1 hx) hs'))
    rw [abs_of_neg t1, abs_of_neg (by linarith)]; linarith
  · have hs' : 0 < s'.c.hh := pos_of_mul_pos_right k2 hs.le
    have t1 : 0 < s.e.tn := pos_of_mul_pos_left k1 hs.le
    have t2 : 0 ≤ s'.e.tn - s.e.tn := nonneg_of_mul_nonneg_left hle hs'
    rw [abs_of_pos t1, abs_of_pos (by linarith)]; linarith

theorem abs_le_of_between {a b x h : K} (hh : h ≠ 0) (h1 : 0 ≤ (x - a) * h) (h2 : 0 ≤ (b - x) * h) :
    |x| ≤ |a| + |b| := by
  have ha := abs_nonneg a
  have hb := abs_nonneg b
  have la := le_abs_self a
  have lb := le_abs_self b
  have na := neg_abs_le a
  have nb := neg_abs_le b
  rcases lt_or_gt_of_ne hh with h | h
  · have t1 : x - a ≤ 0 := by
      by_contra hx
      exact absurd h1 (not_le.2 (mul_neg_of_pos_of_neg (not_le.1 hx) h))
    have t2 : b - x ≤ 0 := by
      by_contra hx
      exact absurd h2 (not_le.2 (mul_neg_of_pos_of_neg (not_le.1 hx) h))
    exact abs_le.2 ⟨by linarith, by linarith⟩
  · have t1 := nonneg_of_mul_nonneg_left h1 h
    have t2 := nonneg_of_mul_nonneg_left h2 h
    exact abs_le.2 ⟨by linarith, by linarith⟩

/-- No search of the call needs more than `rf` turns. -/
structure Enough (rf : Nat) (s : State ν n q K) (tout : K) : Prop where
  small : 4 ≤ (rf : K) * (50 * ExactParams.eps)
  start : 0 < s.cnt.nst → 2 * (|s.e.tn| + |tout| + |s.r.tlo|) < rf * (50 * ExactParams.eps) * |s.e.tn|

theorem solve_ends_root {cfg : Cfg ν n q K} (hl : NlsLegal cfg) (hm : 0 ≤ cfg.hmaxInv) (hk : NlsKeepsLog cfg)
    (hx : 0 < cfg.mxstep) {rf sf : Nat} (hsf : cfg.mxstep < sf) {s : State ν n q K}
    (hs : ∀ p, Micros cfg s p → step cfg p ≠ .diverge) {tout : K} {task : Task} (hC : CtlInv cfg s) (hR : RootInv cfg s) (hE : Enough rf s tout) :
    solve cfg rf sf s tout task ≠ .diverge := by
  have heps := EpsLaws.eps_pos (K := K)
  have hrf : (0 : K) < rf * (50 * ExactParams.eps) := lt_of_lt_of_le (by norm_num) hE.small
  have key : ∀ p, LoopAt cfg rf s tout task p 0 → RootAt cfg s p → solveLoop cfg rf tout task sf p 0 ≠ .diverge :=
    fun p hL hA => solveLoop_noDiverge (fun p k => LoopAt cfg rf s tout task p k ∧ RootAt cfg s p)
      (fun p k p1 hI hp => hs p1 (hI.1.micros.trans (preStep_micro.1 p1 hp).1))
      (fun p k hI => hI.1.limit hx)
      (fun p k p' hI hp => ⟨loopAt_next hI.1 hp, rootAt_next hl hm hk hC hI.1 hI.2 hp⟩)
      (fun p k p1 p2 hI h1 h2 hq => by
        obtain ⟨a1, a2⟩ := step_searchAt hl hm hk hC hI.1 h1 h2 hI.2
        obtain ⟨-, c2, c3, -⟩ := loopAt_step hI.1 h1 h2
        apply (rCheck3_spec a1.hh rf).2
        have htol : rootTol p2 = 100 * ExactParams.eps * (|p2.e.tn| + |p2.c.hh|) := by
          unfold rootTol
          simp only [ex_abs, ex_eps, ex_hundred]
          ring
        have hah := abs_pos.2 a1.hh
        have b1 : |p2.r.tlo| ≤ |s.r.tlo| + |p2.e.tn| :=
          abs_le_of_between a1.hh (a1.onward hq) (a1.loop.ahead hq)
        have b2 : |searchEnd p2| ≤ |p2.r.tlo| + |p2.e.tn| :=
          abs_le_of_between a1.hh (a1.ahead hq).le (searchEnd_le p2)
        have b3 : |searchEnd p2 - p2.r.tlo| ≤ |p2.e.tn - p2.r.tlo| := by
          have e1 := a1.ahead hq
          have e2 := searchEnd_le p2
          rcases lt_or_gt_of_ne a1.hh with h | h
          · have t1 : searchEnd p2 - p2.r.tlo < 0 := by
              by_contra hx
              exact absurd e1 (not_lt.2 (mul_nonpos_of_nonneg_of_nonpos (not_lt.1 hx) h.le))
            have t2 : p2.e.tn - searchEnd p2 ≤ 0 := by
              by_contra hx
              exact absurd e2 (not_le.2 (mul_neg_of_pos_of_neg (not_le.1 hx) h))
            rw [abs_of_neg t1, abs_of_neg (by linarith)]; linarith
          · have t1 := pos_of_mul_pos_left e1 h.le
            have t2 := nonneg_of_mul_nonneg_left e2 h
            rw [abs_of_pos t1, abs_of_pos (by linarith)]; linarith
        have b4 : |p2.e.tn - p2.r.tlo| ≤ 2 * |p2.e.tn| + |s.r.tlo| := by
          have := abs_sub p2.e.tn p2.r.tlo
          linarith
        have b5 : 2 * |s.r.tlo| ≤ rf * (50 * ExactParams.eps) * |p2.e.tn| := by
          rcases Nat.eq_zero_or_pos s.cnt.nst with h0 | h0
          · rw [hR.zero h0, abs_zero, mul_zero]; positivity
          · have := (Onward.tn_le hC h0 a2 (onward_micros hl hm hC h0 c3).2).2
            have h3 := hE.start h0
            have h4 := mul_le_mul_of_nonneg_left this hrf.le
            have := abs_nonneg tout
            have := abs_nonneg s.e.tn
            linarith
        have b6 := mul_le_mul_of_nonneg_right hE.small (abs_nonneg p2.e.tn)
        have b7 := mul_pos hrf hah
        rw [htol]
        linarith) sf p 0 ⟨hL, hA⟩ (by omega)
  rw [solve_eq]
  split
  · rename_i h0
    cases hf : firstCall cfg (begun s tout task) tout with
    | panic => simp [Out.bind]
    | diverge => exact absurd hf (firstCall_noDiverge _ _ _)
    | ret s1 r1 =>
      cases r1 with
      | error e => simp [Out.bind]
      | ok a => exact key _ (loopAt_first h0 hf) (rootAt_first hm hC hR h0 hf)
  · rename_i h0
    have h0 : 0 < s.cnt.nst := by omega
    obtain ⟨f1, f2, f3, f4, f5, f6, f7, f8, f9⟩ := beginLater_same s tout task
    have hh : s.c.hh ≠ 0 := left_ne_zero_of_mul (hC.used h0).ne'
    cases hl' : laterCall cfg rf (perfReset (begun s tout task)) tout task with
    | panic => simp [Flow.andThen]
    | diverge =>
      refine absurd hl' (laterCall_noDiverge (fun s1 hq h2 => ?_) _ _)
      have hf := rCheck2_frame h2
      have hqt := rCheck2_quiet h2
      have htlo : s1.r.tlo = s.r.tlo := (rCheck2_spec h2).2.1.trans f1.r.1
      have e1 : s1.c = s.c := hf.c.trans f3
      have e2 : s1.e = s.e := hf.e.trans f4
      have e3 : |searchEnd s1| ≤ |s.e.tn| + |tout| := by
        have t1 := abs_nonneg s.e.tn
        have t2 := abs_nonneg tout
        unfold searchEnd
        rw [hqt.taskc, hqt.toutc, e1, e2]
        rw [show (perfReset (begun s tout task)).r.taskc = task from f8]
        cases task with
        | oneStep => simp only; linarith
        | normal =>
          rw [show (perfReset (begun s tout .normal)).r.toutc = tout from f7 rfl]
          simp only
          split <;> linarith
      apply (rCheck3_spec (by rw [e1]; exact hh) rf).2
      have htol : rootTol s1 = 100 * ExactParams.eps * (|s.e.tn| + |s.c.hh|) := by
        unfold rootTol
        rw [e1, e2]
        simp only [ex_abs, ex_eps, ex_hundred]
        ring
      have h3 := hE.start h0
      have h4 := abs_sub (searchEnd s1) s1.r.tlo
      have h5 := mul_pos hrf (abs_pos.2 hh)
      have h6 := mul_nonneg hrf.le (abs_nonneg s.e.tn)
      rw [htol, htlo]
      rw [htlo] at h4
      linarith
    | ret s1 r1 => simp [Flow.andThen]
    | go s1 => exact key _ (loopAt_later h0 hl') (rootAt_later hl hm hC hR h0 hl')

/-- Such a number exists. -/
theorem exists_enough [Archimedean K] {cfg : Cfg ν n q K} {s : State ν n q K} (hC : CtlInv cfg s) (tout : K) :
    ∃ rf0, ∀ rf, rf0 ≤ rf → Enough rf s tout := by
  have heps := EpsLaws.eps_pos (K := K)
  obtain ⟨a, ha⟩ := exists_nat_gt (4 / (50 * ExactParams.eps : K))
  obtain ⟨b, hb⟩ := exists_nat_gt (2 * (|s.e.tn| + |tout| + |s.r.tlo|) / (50 * ExactParams.eps * |s.e.tn| : K))
  refine ⟨max a b, fun rf hrf => ⟨?_, fun h0 => ?_⟩⟩
  · have : (a : K) ≤ rf := by exact_mod_cast le_trans (le_max_left a b) hrf
    rw [div_lt_iff₀ (by positivity)] at ha
    have := mul_le_mul_of_nonneg_right this (by positivity : (0 : K) ≤ 50 * ExactParams.eps)
    linarith
  · have h1 : (b : K) ≤ rf := by exact_mod_cast le_trans (le_max_right a b) hrf
    have h2 : 0 < |s.e.tn| := abs_pos.2 (left_ne_zero_of_mul (hC.tn_pos h0).ne')
    rw [div_lt_iff₀ (by positivity)] at hb
    have := mul_le_mul_of_nonneg_right h1 (by positivity : (0 : K) ≤ 50 * ExactParams.eps * |s.e.tn|)
    linarith

end

end Verif
