import Verif.Proofs.Doubling
import Verif.Props.Affine
import Verif.Props.FirstCall
import Verif.Props.CasesB

/-!
# C107: an affine solution is followed with steps that double (exact scalars)

A problem with a solution `y(t) = y0 + t y0'` (`AffineSolution`; equilibria are the case `y0' = 0`), a solver of the
standard Newton stack constructed without stop time and started with `y0`, `y0'`; any sequence of calls (`Later`).
`PowerLarge` says that the power function of the arithmetic is not below 2 where the true power is `10000 ^ (1/(k+1))`,
`k = 1, ..., 5`.
-/

set_option autoImplicit false
set_option linter.unusedSectionVars false
set_option linter.unusedSimpArgs false
set_option linter.unusedVariables false

namespace Verif.Props

open Verif Verif.Spec Verif.Witness

universe u

section
variable {K : Type u} [Field K] [LinearOrder K] [IsStrictOrderedRing K] [ExactParams K] [EpsLaws K]
variable {n q : Nat}

/-- The hypothesis on the power function holds if it yields roots. -/
theorem powerLarge_of_roots (h : ∀ m : Nat, 2 ≤ m → m ≤ 6 → 0 ≤ ExactParams.powf (1 / 10000 : K) (-(m : K)⁻¹) ∧
    ExactParams.powf (1 / 10000 : K) (-(m : K)⁻¹) ^ m = 10000) : PowerLarge K := by
  intro k h1 h5
  obtain ⟨g1, g2⟩ := h (k + 1) (by omega) (by omega)
  by_contra hc
  have h2 := pow_le_pow_left₀ g1 (not_le.1 hc).le (k + 1)
  rw [g2] at h2
  have h3 : (2 : K) ^ (k + 1) ≤ 2 ^ 6 := pow_le_pow_right₀ (by norm_num) (by omega)
  have : (2 : K) ^ 6 = 64 := by norm_num
  rw [this] at h3
  have : (10000 : K) ≤ 64 := h2.trans h3
  norm_num at this

variable (P : Problem n q K) (tol : TolControl n K) (fuel : Nat) (y0 yp0 : Vec n K)

theorem plain_of {P : Problem n q K} {tol : TolControl n K} {fuel : Nat} {y0 yp0 : Vec n K}
    (h0 : ExactParams.sqrt (0 : K) = 0) (hP : AffineSolution P y0 yp0) (ha : EnoughAccuracy tol y0)
    {nls0 : Newton (Vec n K)} {s : State (Newton (Vec n K)) n q K}
    (h : Later (Cfg.newton P tol fuel) (State.new nls0 y0 yp0) s) : ∀ x ∈ s.g.atts, Plain y0 yp0 x := by
  have hl := newton_legal P tol fuel
  have hS := straight_of h0 hP ha (later_reachFrom h)
  have hF := hS.ok.full hl newton_m1 newton_hm
  have hU := later_unstopped hl newton_hm h
  intro x hx
  exact ⟨hS.atts x hx, hF.hist.atts x hx, hU.2 x hx,
    ((c25_order_in_range _ hl newton_m1 s (later_reachFrom h).reach).2 x hx).2⟩

/-- **C107, the steps.** In every history there is a size `h` such that the attempts, all accepted, have the sizes
`h, h, 2h, 4h, 8h, ...` and end at the times `h, 2h, 4h, 8h, ...`.  After `N` steps the internal time is `h 2^(N-1)`, and
so is the size planned for the next step. -/
theorem c107_sizes (h0 : ExactParams.sqrt (0 : K) = 0) (hp : PowerLarge K) (hP : AffineSolution P y0 yp0)
    (ha : EnoughAccuracy tol y0) (nls0 : Newton (Vec n K)) (s : State (Newton (Vec n K)) n q K)
    (h : Later (Cfg.newton P tol fuel) (State.new nls0 y0 yp0) s) :
    ∃ h : K, h ≠ 0 ∧ s.g.atts.length = getNumSteps s ∧
      (∀ p x l, s.g.atts = p ++ x :: l → x.out = .accepted ∧ x.hh = h * 2 ^ (l.length - 1) ∧ x.tnew = h * 2 ^ l.length) ∧
      (0 < getNumSteps s → getCurrentTime s = h * 2 ^ (getNumSteps s - 1) ∧ getLastStep s = h * 2 ^ (getNumSteps s - 2) ∧
        getCurrentStep s = h * 2 ^ (getNumSteps s - 1)) := by
  have hl := newton_legal P tol fuel
  have hPl := plain_of h0 hP ha h
  have hS := straight_of h0 hP ha (later_reachFrom h)
  have hF := hS.ok.full hl newton_m1 newton_hm
  have hSel := (hS.ok.selFull hl newton_m1 newton_hm).sel
  have hU := later_unstopped hl newton_hm h
  have hz : (Cfg.newton P tol fuel).hmaxInv = 0 := rfl
  have hm : (Cfg.newton P tol fuel).maxord = 5 := rfl
  have hlen : s.g.atts.length = getNumSteps s := by
    have hc := (hS.ok.reach.count hl).nst
    show _ = s.cnt.nst
    rw [hc]
    symm
    rw [List.countP_eq_length]
    intro x hx
    simp [(hPl x hx).line.out]
  rcases List.eq_nil_or_concat s.g.atts with hnil | ⟨L, z, hL⟩
  · refine ⟨1, one_ne_zero, hlen, fun p x l e => ?_, fun hn => ?_⟩
    · rw [hnil] at e; simp at e
    · rw [hnil] at hlen; simp at hlen; omega
  rw [List.concat_eq_append] at hL
  have hall : ∀ p x l, s.g.atts = p ++ x :: l →
      x.hh = z.hh * 2 ^ (l.length - 1) ∧ x.tnew = z.hh * 2 ^ l.length ∧ streak (x :: l) ≤ 2 := by
    intro p x l e
    obtain ⟨M, hM⟩ : ∃ M, x :: l = M ++ [z] := by
      rcases List.eq_nil_or_concat (x :: l) with h1 | ⟨M, z', h1⟩
      · cases h1
      · rw [List.concat_eq_append] at h1
        rw [h1, hL, ← List.append_assoc] at e
        exact ⟨M, by rw [h1, (List.cons.inj (List.append_inj' e rfl).2).1]⟩
    have hAC : AllChosen (Cfg.newton P tol fuel) (x :: l) := by
      have := hSel.law
      rw [e] at this
      clear e hM
      induction p with
      | nil => exact this
      | cons a p ih => exact ih this.2
    have hLW : Lawful (Cfg.newton P tol fuel) (x :: l) := by
      have := hF.ok.trace.lawful
      rw [e] at this
      clear e hM hAC
      induction p with
      | nil => exact this
      | cons a p ih => exact ih this.2
    have hsub : ∀ w ∈ x :: l, Plain y0 yp0 w := fun w hw => hPl w (by rw [e]; exact List.mem_append_right _ hw)
    rw [hM] at hAC hLW hsub
    exact sizes_of hz hm h0 hp M z hsub hAC hLW x l hM.symm
  have hzm : z ∈ s.g.atts := by rw [hL]; simp
  refine ⟨z.hh, (hPl z hzm).hist.hh, hlen, fun p x l e => ?_, fun hn => ?_⟩
  · obtain ⟨h1, h2, -⟩ := hall p x l e
    exact ⟨(hPl x (by rw [e]; simp)).line.out, h1, h2⟩
  · obtain ⟨x, l, h1, h2, h3, -, -, -⟩ := hF.ok.trace.last hn
    obtain ⟨g1, g2, g3⟩ := hall [] x l h1
    have hN : getNumSteps s = l.length + 1 := by rw [← hlen, h1]; rfl
    have hxP := hPl x (by rw [h1]; simp)
    have hnx := hSel.next hn
    have hfo := hF.ok.trace.next hn
    rw [h1] at hnx hfo
    have ht : getCurrentTime s = x.tnew := by
      unfold Follows at hfo
      simp only [hxP.line.out] at hfo
      exact hfo.t0
    have hsz : getCurrentStep s = (choice (Cfg.newton P tol fuel) l x).2 := by
      rcases hnx.2 with h | ⟨-, ts, h, -⟩
      · exact h
      · rw [hxP.stop] at h; cases h
    have hls : getLastStep s = x.hh := h3.symm
    rw [hN, Nat.add_sub_cancel, show l.length + 1 - 2 = l.length - 1 by omega]
    refine ⟨ht.trans g2, hls.trans g1, ?_⟩
    rw [hsz]
    by_cases hl0 : l = []
    · subst hl0
      have hk : x.kk = 1 := by have := hSel.law; rw [h1] at this; exact this.1
      rw [choice_first hm hxP hk, g1]
      simp
    · rw [choice_size hz h0 hp hxP hl0 g3, g1]
      have e2 : (2 : K) ^ l.length = 2 * 2 ^ (l.length - 1) := by
        rw [← pow_succ']; congr 1
        have := List.length_pos_iff.2 hl0
        omega
      rw [e2]; ring

/-- **C107, the cost.** If `solve` returns `Success` at `tout` in normal mode (`tout` other than the time returned last),
the number `N` of steps taken since the construction satisfies `|h| 2^(N-2) (1 - 400 eps) ≤ |tout|`, where `h` is the size
of the first step: it grows with the logarithm of the time only. -/
theorem c107_cost (h0 : ExactParams.sqrt (0 : K) = 0) (hp : PowerLarge K) (hP : AffineSolution P y0 yp0)
    (ha : EnoughAccuracy tol y0) (nls0 : Newton (Vec n K)) (rf sf : Nat) (s s' : State (Newton (Vec n K)) n q K) (tout tret : K)
    (h : Later (Cfg.newton P tol fuel) (State.new nls0 y0 yp0) s)
    (hx : exec (Cfg.newton P tol fuel) rf sf s (.solve tout tret .normal) = some (s', .solved (.ok .success)))
    (ht : tout ≠ s.tretlast) (hN : 2 ≤ getNumSteps s') (p : List (Att n K)) (z : Att n K) (hz : s'.g.atts = p ++ [z]) :
    |z.hh| * 2 ^ (getNumSteps s' - 2) * (1 - 400 * ExactParams.eps) ≤ |tout| := by
  obtain ⟨h1, -, hlen, hall, hcur⟩ := c107_sizes P tol fuel y0 yp0 h0 hp hP ha nls0 s' (.call rf sf _ _ h hx)
  obtain ⟨c1, c2, c3⟩ := hcur (by omega)
  obtain ⟨-, hzh, -⟩ := hall p z [] hz
  simp only [List.length_nil, Nat.zero_sub, pow_zero, mul_one] at hzh
  have hsol := c42_normal_partial _ (newton_legal P tol fuel) newton_hm rf sf s s' (later_reachFrom h).reach tout tret hx ht
  have hb : ¬ BeforeLastStep s' tout := by
    intro hb
    have : badTime s' tout = true := (badTime_iff s' tout).2 hb
    unfold solutionAt getSolution at hsol
    rw [if_pos this] at hsol
    cases hsol
  obtain ⟨m, hm⟩ : ∃ m, getNumSteps s' = m + 2 := ⟨getNumSteps s' - 2, by omega⟩
  rw [hm] at c1 c2 c3 ⊢
  simp only [Nat.add_sub_cancel, show m + 2 - 1 = m + 1 by omega] at c1 c2 c3 ⊢
  have c1 : s'.e.tn = h1 * 2 ^ (m + 1) := c1
  have c2 : s'.c.hused = h1 * 2 ^ m := c2
  have c3 : s'.c.hh = h1 * 2 ^ (m + 1) := c3
  have hpow : (0 : K) < 2 ^ m := pow_pos (by norm_num) m
  have heps : (0 : K) < ExactParams.eps := EpsLaws.eps_pos
  unfold BeforeLastStep at hb
  rw [c1, c2, c3, pow_succ] at hb
  rw [hzh]
  simp only [abs_mul, abs_of_pos hpow, abs_two] at hb
  rw [not_or] at hb
  obtain ⟨b1, b2⟩ := hb
  generalize (2 : K) ^ m = w at *
  rcases lt_trichotomy h1 0 with hneg | rfl | hpos
  · have hlt : h1 * (w * 2) < 0 := mul_neg_of_neg_of_pos hneg (by linarith)
    have hb := not_lt.1 fun h => b2 ⟨hlt, h⟩
    rw [abs_of_neg hneg] at hb ⊢
    have := neg_le_abs tout
    nlinarith
  · simp
  · have hlt : 0 < h1 * (w * 2) := mul_pos hpos (by linarith)
    have hb := not_lt.1 fun h => b1 ⟨hlt, h⟩
    rw [abs_of_pos hpos] at hb ⊢
    have := le_abs_self tout
    nlinarith

/-- **C107, the first call.** A first call `solve(tout)` on a new solver that returns `Success` has taken at most twelve
steps if the initial derivative is at most `2000 / |tout|` in the error norm, and otherwise `N` steps with
`2^N ≤ 14 |y0'| |tout|`. -/
theorem c107_first_call (h0 : ExactParams.sqrt (0 : K) = 0) (hp : PowerLarge K) (hP : AffineSolution P y0 yp0)
    (ha : EnoughAccuracy tol y0) (nls0 : Newton (Vec n K)) (rf sf : Nat) (s' : State (Newton (Vec n K)) n q K) (tout tret : K)
    (hx : exec (Cfg.newton P tol fuel) rf sf (State.new nls0 y0 yp0) (.solve tout tret .normal) = some (s', .solved (.ok .success))) :
    (initialNorm (Cfg.newton P tol fuel) y0 yp0 * |tout| ≤ 2000 → getNumSteps s' ≤ 12) ∧
    (2000 < initialNorm (Cfg.newton P tol fuel) y0 yp0 * |tout| →
      2 ^ getNumSteps s' ≤ 14 * (initialNorm (Cfg.newton P tol fuel) y0 yp0 * |tout|)) := by
  have hl := newton_legal P tol fuel
  have hpos := solved_steps hx
  have hL : Later (Cfg.newton P tol fuel) (State.new nls0 y0 yp0) s' := .call rf sf _ _ .refl hx
  obtain ⟨h1, -, hlen, hall, -⟩ := c107_sizes P tol fuel y0 yp0 h0 hp hP ha nls0 s' hL
  obtain ⟨p, z, hz⟩ : ∃ p z, s'.g.atts = p ++ [z] := by
    rcases List.eq_nil_or_concat s'.g.atts with h | ⟨p, z, h⟩
    · rw [h] at hlen; simp at hlen; omega
    · exact ⟨p, z, by rw [h, List.concat_eq_append]⟩
  obtain ⟨-, hd, -, -, hsz⟩ := c39_initial_step (Cfg.newton P tol fuel) hl newton_m1 newton_hm rfl rf sf nls0 y0 yp0 none s' tout tret
    .normal _ hx z p hz
  have hsz := hsz rfl rfl
  have ht0 : tout ≠ 0 := by rintro rfl; simp at hd
  have habs : 0 < |tout| := abs_pos.2 ht0
  have heps : (1000 : K) * ExactParams.eps < 1 := EpsLaws.eps_small
  have hcost : 2 ≤ getNumSteps s' → |z.hh| * 2 ^ (getNumSteps s' - 2) * (1 - 400 * ExactParams.eps) ≤ |tout| := fun h2 =>
    c107_cost P tol fuel y0 yp0 h0 hp hP ha nls0 rf sf _ s' tout tret .refl hx (show tout ≠ 0 from ht0) h2 p z hz
  generalize initialNorm (Cfg.newton P tol fuel) y0 yp0 = N0 at *
  have hcond : 2 / (|tout| / 1000) < N0 ↔ 2000 < N0 * |tout| := by
    rw [div_lt_iff₀ (by positivity)]
    constructor <;> intro h <;> linarith
  have hw : ∀ m : Nat, (0 : K) < 2 ^ m := fun m => pow_pos (by norm_num) m
  refine ⟨fun hN => ?_, fun hN => ?_⟩
  · rw [if_neg (by rw [hcond]; exact not_lt.2 hN)] at hsz
    by_contra hc
    have hg := hcost (by omega)
    rw [hsz] at hg
    have h11 : (2 : K) ^ 11 ≤ 2 ^ (getNumSteps s' - 2) := pow_le_pow_right₀ (by norm_num) (by omega)
    have e11 : (2 : K) ^ 11 = 2048 := by norm_num
    rw [e11] at h11
    have h3 : (3 / 5 : K) ≤ 1 - 400 * ExactParams.eps := by linarith
    have h4 : (2048 : K) * (3 / 5) ≤ 2 ^ (getNumSteps s' - 2) * (1 - 400 * ExactParams.eps) :=
      mul_le_mul h11 h3 (by norm_num) (hw _).le
    have h5 : |tout| / 1000 * (2048 * (3 / 5)) ≤ |tout| := by
      refine le_trans (mul_le_mul_of_nonneg_left h4 (by positivity)) ?_
      rw [← mul_assoc]; exact hg
    linarith
  · rw [if_pos (hcond.2 hN)] at hsz
    have hNpos : 0 < N0 := by
      by_contra hc
      have := mul_nonpos_of_nonpos_of_nonneg (not_lt.1 hc) habs.le
      linarith
    by_cases h2 : 2 ≤ getNumSteps s'
    · have hg := hcost h2
      rw [hsz] at hg
      obtain ⟨m, hm⟩ : ∃ m, getNumSteps s' = m + 2 := ⟨getNumSteps s' - 2, by omega⟩
      rw [hm] at hg ⊢
      rw [Nat.add_sub_cancel] at hg
      rw [pow_add]
      have h3 : (3 / 5 : K) ≤ 1 - 400 * ExactParams.eps := by linarith
      have h4 : (2 : K) ^ m * (3 / 5) ≤ 2 ^ m * (1 - 400 * ExactParams.eps) := mul_le_mul_of_nonneg_left h3 (hw m).le
      have h5 : 1 / 2 / N0 * (2 ^ m * (3 / 5)) ≤ |tout| := by
        refine le_trans (mul_le_mul_of_nonneg_left h4 (by positivity)) ?_
        rw [← mul_assoc]; exact hg
      have h6 : 2 ^ m * (3 / 5) ≤ |tout| * (2 * N0) := by
        have := mul_le_mul_of_nonneg_right h5 (show 0 ≤ 2 * N0 by linarith)
        have e : 1 / 2 / N0 * (2 ^ m * (3 / 5)) * (2 * N0) = 2 ^ m * (3 / 5) := by
          field_simp
        rw [e] at this; exact this
      nlinarith
    · have h1 : (2 : K) ^ getNumSteps s' ≤ 2 ^ 1 := pow_le_pow_right₀ (by norm_num) (by omega)
      rw [pow_one] at h1
      linarith

end

/-! ## Witness -/

theorem powerLarge_rat : PowerLarge ℚ := by
  intro k h1 h5
  interval_cases k <;> decide +kernel

/-- `drift` (C62): the hypotheses hold; two calls, eleven steps and two more, of the sizes `h, h, 2h, 4h, ...`. -/
example : ExactParams.sqrt (0 : ℚ) = 0 ∧ PowerLarge ℚ ∧ AffineSolution drift drift0 driftp ∧
    EnoughAccuracy (.ss (1 / 100) (1 / 100)) drift0 ∧
    ∃ s, Later (Cfg.newton drift (.ss (1 / 100) (1 / 100)) 3) (State.new newton0 drift0 driftp) s ∧ getNumSteps s = 13 ∧
      s.g.atts.map (fun x => x.hh * 2000) = [2048, 1024, 512, 256, 128, 64, 32, 16, 8, 4, 2, 1, 1] := by
  refine ⟨by decide +kernel, powerLarge_rat, drift_affine, ?_, ?_⟩
  · unfold EnoughAccuracy; decide +kernel
  have hd : ((run (Cfg.newton drift (.ss (1 / 100) (1 / 100)) 3) 10 100 [.solve (1 / 2) 0 .normal, .solve (7 / 6) 0 .normal]
      (State.new newton0 drift0 driftp)).map fun p => decide (getNumSteps p.1 = 13) &&
        decide (p.1.g.atts.map (fun x => x.hh * 2000) = [2048, 1024, 512, 256, 128, 64, 32, 16, 8, 4, 2, 1, 1])) = some true := by
    decide +kernel
  obtain ⟨s, l, hr, hp⟩ := run_witness (P := fun (s : State (Newton (Vec 2 ℚ)) 2 0 ℚ) _ => decide (getNumSteps s = 13) &&
    decide (s.g.atts.map (fun x => x.hh * 2000) = [2048, 1024, 512, 256, 128, 64, 32, 16, 8, 4, 2, 1, 1])) hd
  simp only [Bool.and_eq_true, decide_eq_true_eq] at hp
  exact ⟨s, run_later _ .refl hr, hp.1, hp.2⟩

/-- The first call takes eleven steps. -/
example : ((run (Cfg.newton drift (.ss (1 / 100) (1 / 100)) 3) 10 100 [.solve (1 / 2) 0 .normal]
    (State.new newton0 drift0 driftp)).map fun p => getNumSteps p.1) = some 11 := by decide +kernel

end Verif.Props
