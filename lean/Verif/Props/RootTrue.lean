import Verif.Proofs.RootTrue
import Verif.Props.RootValue
import Verif.Props.History
import Verif.RealInst
import Mathlib.Topology.Order.IntermediateValue
import Mathlib.Topology.Algebra.Polynomial

/-!
# C85: a reported root is close to a true zero

`c44_bracketed_partial` says what the root function was *seen* to do around a reported root.  Here the signs are turned
into a zero of the root function along the dense output.
-/

set_option autoImplicit false
set_option linter.unusedSectionVars false
set_option linter.unusedSimpArgs false
set_option linter.unusedVariables false

namespace Verif.Props

open Verif Verif.Spec Polynomial

universe u v

section
variable {ν : Type v} {n q : Nat} {K : Type u} [Field K] [LinearOrder K] [IsStrictOrderedRing K] [ExactParams K]
  [EpsLaws K]

/-- Along every polynomial solution the function `g` of `t`, `y`, `y'` has a zero between two times at which its signs are
opposite. (Over the real numbers: every continuous `g`, see `continuous_noJump`.) -/
def NoJump (g : K → Vec n K → Vec n K → K) : Prop :=
  ∀ (P : Fin n → K[X]) (a b : K),
    g a (fun i => (P i).eval a) (fun i => (derivative (P i)).eval a) *
      g b (fun i => (P i).eval b) (fun i => (derivative (P i)).eval b) < 0 →
    ∃ c, Between a c b ∧ g c (fun i => (P i).eval c) (fun i => (derivative (P i)).eval c) = 0

/-- `g` has a zero along the dense output (what `get_solution` yields in `s`) within `d` of `t`. -/
def ZeroNear (s : State ν n q K) (g : K → Vec n K → Vec n K → K) (t d : K) : Prop :=
  ∃ (c : K) (y yp : Vec n K), |c - t| ≤ d ∧ solutionAt s c = some (y, yp) ∧ g c y yp = 0

theorem between_abs {a c b d : K} (h : Between a c b) (hd : |b - a| ≤ d) : |c - b| ≤ d ∧ |c - a| ≤ d := by
  have h1 := abs_le.1 hd
  constructor <;> rw [abs_le] <;> rcases h with ⟨h2, h3⟩ | ⟨h2, h3⟩ <;> constructor <;> linarith

/-- Within the root tolerance of a time that is more than the root tolerance past the start of the last step,
`get_solution` does not reject. -/
theorem late_ok {s : State ν n q K} (hu : 0 < s.c.hh * s.c.hused) {t c : K}
    (hlate : rootTolerance s * |s.c.hused| < (t - (s.e.tn - s.c.hused)) * s.c.hused) (hc : |c - t| ≤ rootTolerance s) :
    0 < (c - (s.e.tn - s.c.hused)) * s.c.hh ∧ ¬ BeforeLastStep s c := by
  have h1 := abs_le.1 hc
  have he : 0 ≤ 100 * ExactParams.eps * (|s.e.tn| + |s.c.hh|) :=
    mul_nonneg (mul_nonneg (by norm_num) (EpsLaws.eps_pos (K := K)).le) (by positivity)
  unfold BeforeLastStep
  rcases mul_pos_iff.1 hu with ⟨a, b⟩ | ⟨a, b⟩
  · rw [abs_of_pos b] at hlate
    have h2 := lt_of_mul_lt_mul_right hlate b.le
    refine ⟨mul_pos (by linarith) a, ?_⟩
    rintro (⟨-, h3⟩ | ⟨h3, -⟩)
    · linarith
    · linarith
  · rw [abs_of_neg b] at hlate
    have h2 : rootTolerance s < -(t - (s.e.tn - s.c.hused)) := by
      by_contra hx
      have := mul_le_mul_of_nonneg_right (not_lt.1 hx) (neg_pos.2 b).le
      linarith
    refine ⟨mul_pos_of_neg_of_neg (by linarith) a, ?_⟩
    rintro (⟨h3, -⟩ | ⟨-, h3⟩)
    · linarith
    · linarith

/-- A search that found a root. -/
theorem searched_zero {cfg : Cfg ν n q K} {p s1 s' : State ν n q K} (g : Fin q → K → Vec n K → Vec n K → K)
    (hg : ∀ t y yp buf i, cfg.prob.root t y yp buf i = g i t y yp) (hj : ∀ i, NoJump (g i))
    (hS : Searched cfg p s1 .rootFound) (hs' : s' = State.setTret { s1 with r.irfnd := true } s1.r.tlo)
    (hlo : LoSol cfg p ∨ 0 ≤ (p.e.tn - p.c.hused - p.r.tlo) * p.c.hh) (hu : 0 < s'.c.hh * s'.c.hused)
    (hP : ∃ P : Fin n → K[X], ∀ t, ¬ BeforeLastStep s' t →
      solutionAt s' t = some (fun i => (P i).eval t, fun i => (derivative (P i)).eval t))
    (hlate : rootTolerance s' * |s'.c.hused| < (s'.tret - (s'.e.tn - s'.c.hused)) * s'.c.hused) :
    ∀ i, getRootInfo s' i ≠ 0 → ZeroNear s' (g i) s'.tret (rootTolerance s') := by
  have hmono : ∀ {t x i}, SeenSol cfg s1 t i x → SeenSol cfg s' t i x := fun h => by
    subst hs'; exact h.mono (fun c h => h) rfl rfl rfl
  have ht : s'.tret = s1.r.tlo := by subst hs'; rfl
  have hi : getRootInfo s' = s1.r.iroots := by subst hs'; rfl
  have hc : s'.c = p.c := by subst hs'; exact hS.frame.c
  have he : s'.e = p.e := by subst hs'; exact hS.frame.e
  have htol : rootTolerance s' = rootTol p := by
    rw [rootTol_eq]; unfold rootTolerance; rw [hc, he]
  have htol0 : 0 ≤ rootTolerance s' :=
    mul_nonneg (mul_nonneg (by norm_num) (EpsLaws.eps_pos (K := K)).le) (by positivity)
  obtain ⟨P, hP⟩ := hP
  obtain ⟨tl, gl, h1, -, h3, h4, -, h6, -⟩ := hS.root rfl
  -- a value seen at a time near `tret` is the value along the polynomial
  have val : ∀ {t x i}, |t - s'.tret| ≤ rootTolerance s' → SeenSol cfg s' t i x →
      g i t (fun i => (P i).eval t) (fun i => (derivative (P i)).eval t) = x := by
    rintro t x i hn ⟨v, vp, buf, -, h7, h8⟩
    have hb := (late_ok hu hlate hn).2
    have h9 := (hP t hb).symm.trans (h8 hb)
    rw [Option.some.injEq, Prod.mk.injEq] at h9
    rw [h9.1, h9.2, ← hg t v vp buf i, h7]
  have fin : ∀ {t i}, |t - s'.tret| ≤ rootTolerance s' →
      g i t (fun i => (P i).eval t) (fun i => (derivative (P i)).eval t) = 0 → ZeroNear s' (g i) s'.tret (rootTolerance s') :=
    fun hn hz => ⟨_, _, _, hn, hP _ (late_ok hu hlate hn).2, hz⟩
  have h0 : |s'.tret - s'.tret| ≤ rootTolerance s' := by rw [sub_self, abs_zero]; exact htol0
  intro i hr
  have hend : SeenSol cfg s' s'.tret i (s1.r.glo i) := by rw [ht]; exact hmono (hS.seen i)
  have hrep : Reportable cfg p.r.gactive gl s1.r.glo i := by
    by_contra hx
    exact hr (by rw [hi]; exact h4 i hx)
  rcases hrep with hcr | hz
  swap
  · exact fin h0 (by rw [val h0 hend]; exact hz.2.2)
  have hn : |tl - s'.tret| ≤ rootTolerance s' := by
    rw [htol, ht, abs_sub_comm]; exact h6 i hcr
  have cross : SeenSol cfg s' tl i (gl i) → ZeroNear s' (g i) s'.tret (rootTolerance s') := fun hsl => by
    obtain ⟨c, c1, c2⟩ := hj i P tl s'.tret (by rw [val hn hsl, val h0 hend]; exact hcr.2.2)
    exact fin (between_abs c1 (by rw [abs_sub_comm]; exact hn)).1 c2
  rcases h1 with ⟨rfl, rfl⟩ | h1
  · rcases hlo with hlo | hlo
    · rcases hlo i with h7 | h7
      · exact cross (hmono (h7.frame hS.frame))
      · exact fin hn (val hn (hmono (h7.frame hS.frame)))
    · have h7 := (late_ok hu hlate hn).1
      rw [hc, he] at h7
      have e : (p.r.tlo - (p.e.tn - p.c.hused)) * p.c.hh = -((p.e.tn - p.c.hused - p.r.tlo) * p.c.hh) := by ring
      rw [e] at h7
      linarith
  · exact cross (hmono (h1 i))

/-- **C85.** Let the root function be a function `g` of `t`, `y`, `y'` without jumps. In every history without a failed
internal step: if `solve` returns `Root` at a time `tret` more than the root tolerance past the start of the last internal
step, then every component flagged by `get_root_info` has a zero along the dense output within the root tolerance of
`tret` — or the root was found by the check right after the previous root, and the component was zero one root tolerance
after `tret`, where the root function was called. -/
theorem c85_true_zero (cfg : Cfg ν n q K) (hl : NlsLegal cfg) (hm1 : 1 ≤ cfg.maxord) (hm5 : cfg.maxord ≤ 5)
    (hm : 0 ≤ cfg.hmaxInv) (hk : NlsKeepsLog cfg) (g : Fin q → K → Vec n K → Vec n K → K)
    (hg : ∀ t y yp buf i, cfg.prob.root t y yp buf i = g i t y yp) (hj : ∀ i, NoJump (g i))
    (rf sf : Nat) (s s' : State ν n q K) (h : ReachOk cfg s) (tout tret : K) (task : Task)
    (hs : exec cfg rf sf s (.solve tout tret task) = some (s', .solved (.ok .root)))
    (hlate : rootTolerance s' * |getLastStep s'| < (s'.tret - (getCurrentTime s' - getLastStep s')) * getLastStep s') :
    ∀ i, getRootInfo s' i ≠ 0 → ZeroNear s' (g i) s'.tret (rootTolerance s') ∨
      s.r.irfnd = true ∧ Seen cfg s' (s'.tret + rootTolerance s' * Scalar.signum s'.c.hh) i 0 := by
  have hR : Reach cfg s' := .call rf sf _ _ h.reach hs
  have hfin : 0 < s'.cnt.nst → 0 < s'.c.hh * s'.c.hused ∧ ∃ P : Fin n → K[X], ∀ t, ¬ BeforeLastStep s' t →
      solutionAt s' t = some (fun i => (P i).eval t, fun i => (derivative (P i)).eval t) := fun hn => by
    obtain ⟨P, -, hP⟩ := c16_after_call cfg hl hm1 hm5 hm rf sf s s' _ _ h hs hn
    exact ⟨(hR.ctl hl hm).used hn, P, hP⟩
  obtain ⟨-, hO⟩ := exec_root hl hm hk h.reach hs
  obtain ⟨bk, bi, bc, be, bn, bh, -⟩ := beginLater_same { s with tret := tret } tout task
  cases hO with
  | close e _ _ _ h5 => cases h5
  | recheck s1 hq hn h3 hf h4 h5 h6 =>
    obtain ⟨hu, P, hP⟩ := hfin (by
      subst h5; show 0 < s1.cnt.nst; rw [hf.cnt, bn]; exact hn)
    have h0 : |s'.tret - s'.tret| ≤ rootTolerance s' := by
      rw [sub_self, abs_zero]
      exact mul_nonneg (mul_nonneg (by norm_num) (EpsLaws.eps_pos (K := K)).le) (by positivity)
    have hb := (late_ok hu hlate h0).2
    subst h5
    cases h3 with
    | skip _ _ h7 => cases h7
    | plain _ _ _ _ h7 => cases h7
    | again g0 g1 i1 i2 i3 i4 i5 i6 =>
      rcases i6 with ⟨i6, -⟩ | ⟨-, i6, i7⟩
      · cases i6
      intro i hi
      rcases i7 i with ⟨-, -, k1 | k1⟩ | ⟨k1, -⟩
      · left
        obtain ⟨v, vp, buf, -, j2, j3⟩ := ((i2 i).mono (s' := s1.setTret s1.r.tlo) (fun c h => h) rfl rfl rfl)
        have e : (beginLater { s with tret := tret } tout task).r.tlo = s1.r.tlo := bk.r.1.trans h4.symm
        rw [e] at j2 j3
        exact ⟨_, v, vp, h0, j3 hb, by rw [← hg _ _ _ buf, ← k1]; exact j2⟩
      · right
        refine ⟨by rw [bi] at i1; exact i1, ?_⟩
        have := i3 i
        have hp : plusPoint (beginLater { s with tret := tret } tout task) =
            s1.r.tlo + rootTolerance s1 * Scalar.signum s1.c.hh := by
          unfold plusPoint
          rw [rootTol_eq, h4, bk.r.1]
          unfold rootTolerance
          rw [hf.c, hf.e]
        rw [hp, k1] at this
        exact this
      · exact absurd k1 hi
  | rest s1 s2 hq hn h3 hf hqt h4 h5 h6 h7 h8 h9 h10 h11 =>
    obtain ⟨hu, hP⟩ := hfin (by
      subst h10; show 0 < s2.cnt.nst; rw [h9.frame.cnt, hf.cnt, bn]; exact hn)
    have hS : LoSol cfg (beginLater { s with tret := tret } tout task) := by
      refine SolKeep.loSol (s := s) ?_ (h.loAt hl hm hk hn)
      exact ⟨bk.log, ⟨bk.r.1, bk.r.2.1⟩, bh, by rw [be], by rw [bc]; exact ⟨rfl, rfl⟩,
        ⟨1, one_pos, le_refl _, by rw [bc, one_mul]⟩, by rw [bn]⟩
    exact fun i hi => Or.inl (searched_zero g hg hj h9 h10 (Or.inl (rechecked_loSol h3 (h4.trans bk.r.1.symm) hS)) hu hP hlate i hi)
  | stepped p s1 hq hA h3 h4 h5 =>
    obtain ⟨hu, hP⟩ := hfin (by
      subst h4; show 0 < s1.cnt.nst; rw [h3.frame.cnt]; exact lt_of_le_of_lt (Nat.zero_le _) hA.nst)
    exact fun i hi => Or.inl (searched_zero g hg hj h3 h4 (Or.inr (hA.past hq)) hu hP hlate i hi)
  | none h1 _ => exact absurd rfl h1

end

section

/-- Continuous functions of real variables have no jumps. -/
theorem continuous_noJump {n : Nat} (g : ℝ → Vec n ℝ → Vec n ℝ → ℝ)
    (hc : Continuous fun x : ℝ × Vec n ℝ × Vec n ℝ => g x.1 x.2.1 x.2.2) : NoJump g := by
  intro P a b hab
  have hf : Continuous fun t : ℝ => g t (fun i => (P i).eval t) (fun i => (derivative (P i)).eval t) := by
    have h1 : Continuous fun t : ℝ => ((t, (fun i => (P i).eval t), fun i => (derivative (P i)).eval t) : ℝ × Vec n ℝ × Vec n ℝ) :=
      continuous_id.prodMk ((continuous_pi fun i => (P i).continuous).prodMk (continuous_pi fun i => (derivative (P i)).continuous))
    exact hc.comp h1
  have h0 : (0 : ℝ) ∈ Set.uIcc (g a (fun i => (P i).eval a) (fun i => (derivative (P i)).eval a))
      (g b (fun i => (P i).eval b) (fun i => (derivative (P i)).eval b)) := by
    rw [Set.mem_uIcc]
    rcases mul_neg_iff.1 hab with ⟨h1, h2⟩ | ⟨h1, h2⟩
    · exact Or.inr ⟨h2.le, h1.le⟩
    · exact Or.inl ⟨h1.le, h2.le⟩
  obtain ⟨c, hc1, hc2⟩ := intermediate_value_uIcc (a := a) (b := b) hf.continuousOn h0
  exact ⟨c, Set.mem_uIcc.1 hc1, hc2⟩

/-- **C85 over the real numbers**, for continuous root functions. -/
theorem c85_true_zero_real {ν : Type v} {n q : Nat} (cfg : Cfg ν n q ℝ) (hl : NlsLegal cfg) (hm1 : 1 ≤ cfg.maxord) (hm5 : cfg.maxord ≤ 5)
    (hm : 0 ≤ cfg.hmaxInv) (hk : NlsKeepsLog cfg) (g : Fin q → ℝ → Vec n ℝ → Vec n ℝ → ℝ)
    (hg : ∀ t y yp buf i, cfg.prob.root t y yp buf i = g i t y yp)
    (hc : ∀ i, Continuous fun x : ℝ × Vec n ℝ × Vec n ℝ => g i x.1 x.2.1 x.2.2)
    (rf sf : Nat) (s s' : State ν n q ℝ) (h : ReachOk cfg s) (tout tret : ℝ) (task : Task)
    (hs : exec cfg rf sf s (.solve tout tret task) = some (s', .solved (.ok .root)))
    (hlate : rootTolerance s' * |getLastStep s'| < (s'.tret - (getCurrentTime s' - getLastStep s')) * getLastStep s') :
    ∀ i, getRootInfo s' i ≠ 0 → ZeroNear s' (g i) s'.tret (rootTolerance s') ∨
      s.r.irfnd = true ∧ Seen cfg s' (s'.tret + rootTolerance s' * Scalar.signum s'.c.hh) i 0 :=
  c85_true_zero cfg hl hm1 hm5 hm hk g hg (fun i => continuous_noJump _ (hc i)) rf sf s s' h tout tret task hs hlate

end

section
attribute [local instance] ratParams ratEps

/-- The hypotheses of `c85_true_zero` hold in the second call of the run of `c76_root_value_partial`: the root function is
`t - 3/2`. -/
example : ∃ s s' : State Nat 1 1 ℚ, ReachOk (timedCfg (ramp (3 / 2)) []) s ∧
    exec (timedCfg (ramp (3 / 2)) []) 100 10 s (.solve 1000 0 .oneStep) = some (s', .solved (.ok .root)) ∧
    NoJump (fun (t : ℚ) (_ _ : Vec 1 ℚ) => t - 3 / 2) ∧
    (∀ t y yp buf i, (timedCfg (ramp (3 / 2)) []).prob.root t y yp buf i = t - 3 / 2) ∧
    rootTolerance s' * |getLastStep s'| < (s'.tret - (getCurrentTime s' - getLastStep s')) * getLastStep s' ∧
    getRootInfo s' 0 ≠ 0 := by
  obtain ⟨s1, r1, s2, r2, h1, h2, hP⟩ := exec_two (cfg := timedCfg (ramp (3 / 2)) []) (rf := 100) (sf := 10) (s := timed0)
    (a := .solve 1000 0 .oneStep) (b := .solve 1000 0 .oneStep)
    (P := fun p r p' r' => Witness.Res.isStatus .success r && Witness.Res.isStatus .root r' &&
      decide (rootTolerance p' * |getLastStep p'| < (p'.tret - (getCurrentTime p' - getLastStep p')) * getLastStep p' ∧
        getRootInfo p' 0 ≠ 0)) (by decide +kernel)
  simp only [Bool.and_eq_true, decide_eq_true_eq, Witness.Res.isStatus_iff, Bool.not_eq_true'] at hP
  obtain ⟨⟨rfl, rfl⟩, h3, h4⟩ := hP
  refine ⟨s1, s2, .call _ _ _ _ (.new _ _ _ none) h1 (by simp), h2, ?_, fun t y yp buf i => rfl, h3, h4⟩
  intro P a b hab
  refine ⟨3 / 2, ?_, by norm_num⟩
  rcases mul_neg_iff.1 hab with ⟨h5, h6⟩ | ⟨h5, h6⟩
  · exact Or.inr ⟨by linarith, by linarith⟩
  · exact Or.inl ⟨by linarith, by linarith⟩

end
end Verif.Props
