import Verif.Proofs.Interp
import Mathlib.Algebra.CharZero.Infinite

/-!
# Interpolated output: properties C15 - C18 (for an arbitrary solver state)

The versions for states reached by an execution are in `Verif.Props.Reach`; here the state is arbitrary and the facts
it must satisfy are explicit hypotheses.
-/

set_option autoImplicit false
set_option linter.unusedSectionVars false
set_option linter.unusedSimpArgs false
set_option linter.unusedVariables false

namespace Verif.Props

open Polynomial Finset

universe u v

section
variable {K : Type u} [Scalar K] {ν : Type v} {n q : Nat}

/-- What the user sees of a successful `get_solution(t)`: the new `get_yy()` and `get_yp()`. -/
def solutionAt (s : State ν n q K) (t : K) : Option (Vec n K × Vec n K) :=
  match getSolution s t with
  | .ret s' (.ok ()) => some (s'.m.yy, s'.m.yp)
  | _ => none

/-- The vector a successful `get_dky(t, k)` returns. -/
def dkyAt (s : State ν n q K) (t : K) (k : Nat) : Option (Vec n K) :=
  match getDky s t k with
  | .ret _ (.ok d) => some d
  | _ => none

end

section
variable {K : Type u} [Field K] [LinearOrder K] [IsStrictOrderedRing K] [ExactParams K] [EpsLaws K]
variable {ν : Type v} {n q : Nat}

/-- `t` precedes the start of the last step by more than the roundoff allowance, in the direction of integration. -/
def BeforeLastStep (s : State ν n q K) (t : K) : Prop :=
  let fuzz := 100 * ExactParams.eps * (|s.e.tn| + |s.c.hh|)
  (0 < s.c.hh ∧ t < s.e.tn - s.c.hused - fuzz) ∨ (s.c.hh < 0 ∧ s.e.tn - s.c.hused + fuzz < t)

theorem badTime_iff (s : State ν n q K) (t : K) : badTime s t = true ↔ BeforeLastStep s t := by
  unfold badTime BeforeLastStep
  simp only [ex_hundred, ex_eps, ex_abs, ex_signum, ex_lt, decide_eq_true_eq]
  rcases lt_trichotomy s.c.hh 0 with h | h | h
  · rw [if_pos h]
    constructor
    · intro hm
      refine Or.inr ⟨h, ?_⟩
      have := (mul_neg_iff.1 hm).resolve_right (fun x => absurd x.2 (not_lt.2 h.le))
      linarith [this.1]
    · rintro (⟨h', -⟩ | ⟨-, h'⟩)
      · exact absurd h' (not_lt.2 h.le)
      · exact mul_neg_of_pos_of_neg (by linarith) h
  · rw [h]; simp
  · rw [if_neg (not_lt.2 h.le)]
    constructor
    · intro hm
      refine Or.inl ⟨h, ?_⟩
      have := (mul_neg_iff.1 hm).resolve_left (fun x => absurd x.2 (not_lt.2 h.le))
      linarith [this.1]
    · rintro (⟨-, h'⟩ | ⟨h', -⟩)
      · exact mul_neg_of_neg_of_pos (by linarith) h
      · exact absurd h' (not_lt.2 h.le)

/-- The current time is never rejected (the last step was in the direction of the next one). -/
theorem current_time_not_rejected (s : State ν n q K) (hdir : 0 ≤ s.c.hused * s.c.hh) : ¬ BeforeLastStep s s.e.tn := by
  unfold BeforeLastStep
  have he : 0 ≤ 100 * ExactParams.eps * (|s.e.tn| + |s.c.hh|) :=
    mul_nonneg (mul_nonneg (by norm_num) (EpsLaws.eps_pos (K := K)).le) (by positivity)
  rintro (⟨h, h'⟩ | ⟨h, h'⟩)
  · have : 0 ≤ s.c.hused := nonneg_of_mul_nonneg_left hdir h
    linarith
  · have : s.c.hused ≤ 0 := by
      by_contra hc
      exact absurd hdir (not_le.2 (mul_neg_of_pos_of_neg (not_le.1 hc) h))
    linarith

/-- Order used by dense output: the order of the last step, or one if there was none. -/
def outOrder (s : State ν n q K) : Nat := if s.c.kused = 0 then 1 else s.c.kused

/-- **C15 (state form).** `get_solution` at the current time succeeds and yields the leading history vector, which
`complete_step` sets to the accepted solution (`c15_current_solution` in `Props.Reach`). -/
theorem c15_at_current_time (s : State ν n q K) (hk : s.c.kused ≤ 5) (hdir : 0 ≤ s.c.hused * s.c.hh)
    (hpsi : ∀ i, i < outOrder s → s.h.psi i ≠ 0) :
    ∃ yp, solutionAt s s.e.tn = some (s.h.phi 0, yp) := by
  unfold solutionAt getSolution
  have hb : badTime s s.e.tn = false := by
    rw [← Bool.not_eq_true, badTime_iff]; exact current_time_not_rejected s hdir
  have ho : kordOf s.c.kused < mxordp1 := by unfold kordOf mxordp1; split <;> omega
  simp only [hb, Bool.false_eq_true, if_false, if_pos ho]
  refine ⟨_, congrArg some (Prod.ext ?_ rfl)⟩
  funext i
  show (solEval s.h (s.e.tn - s.e.tn) (kordOf s.c.kused)).1 i = _
  rw [solEval_fst s.e.tn s.h s.e.tn, interpPoly, eval_finsetSum, sum_range_succ']
  simp only [nb_zero, mul_one, eval_C]
  rw [sum_eq_zero, zero_add]
  intro j _
  rw [eval_mul, show (nb s.e.tn s.h.psi (j + 1)).eval s.e.tn = 0 from nb_eval_node _ _ 0 _ (Nat.succ_pos j), mul_zero]

/-- **C16.** There is, for each component, a polynomial of degree at most the order of the last step such that after
every successful `get_solution(t)`, `get_yy()` is its value and `get_yp()` is the value of its derivative at `t`. -/
theorem c16_yp_is_derivative (s : State ν n q K) (hk : s.c.kused ≤ 5) (hpsi : ∀ i, i < outOrder s → s.h.psi i ≠ 0) :
    ∃ P : Fin n → K[X], (∀ i, (P i).natDegree ≤ outOrder s) ∧
      ∀ t, ¬ BeforeLastStep s t →
        solutionAt s t = some (fun i => (P i).eval t, fun i => (derivative (P i)).eval t) := by
  refine ⟨fun i => interpPoly s.e.tn s.h (outOrder s) i, fun i => interpPoly_natDegree _ _ _ _, ?_⟩
  intro t ht
  unfold solutionAt getSolution
  have hb : badTime s t = false := by rw [← Bool.not_eq_true, badTime_iff]; exact ht
  have ho : kordOf s.c.kused < mxordp1 := by unfold kordOf mxordp1; split <;> omega
  simp only [hb, Bool.false_eq_true, if_false, if_pos ho]
  congr 1
  refine Prod.ext ?_ ?_
  · funext i; exact solEval_fst _ _ _ _ _
  · funext i; exact solEval_snd _ _ _ _ _

/-- **C17, rejection.** `get_solution(t)` returns `BadTimeValue` exactly when `t` lies before the start of the last
step beyond the roundoff allowance; then nothing changes. -/
theorem c17_rejects_before_last_step (s : State ν n q K) (hk : s.c.kused ≤ 5) (t : K) :
    (BeforeLastStep s t → getSolution s t = .ret s (.error (.ida .badTimeValue))) ∧
    (¬ BeforeLastStep s t → ∃ s', getSolution s t = .ret s' (.ok ())) := by
  unfold getSolution
  have ho : kordOf s.c.kused < mxordp1 := by unfold kordOf mxordp1; split <;> omega
  constructor
  · intro h; rw [if_pos ((badTime_iff s t).2 h)]
  · intro h
    rw [if_neg (fun hb => h ((badTime_iff s t).1 hb)), if_pos ho]
    exact ⟨_, rfl⟩

/-- **C17, errors leave everything unchanged** (any scalar type, any state): in particular `get_yy()`/`get_yp()`. -/
theorem c17_error_changes_nothing {K : Type u} [Scalar K] (s s' : State ν n q K) (t : K) (e : Err)
    (h : getSolution s t = .ret s' (.error e)) : s' = s ∧ e = .ida .badTimeValue := by
  rw [getSolution_eq] at h
  split at h
  · cases h; exact ⟨rfl, rfl⟩
  · split at h <;> simp at h

/-- A successful `get_solution` changes nothing but `get_yy()` and `get_yp()` (any scalar type). -/
theorem c17_success_changes_outputs_only {K : Type u} [Scalar K] (s s' : State ν n q K) (t : K)
    (h : getSolution s t = .ret s' (.ok ())) : ∃ yy yp, s' = { s with m.yy := yy, m.yp := yp } := by
  rw [getSolution_eq] at h
  split at h
  · simp at h
  · split at h
    · cases h; exact ⟨_, _, rfl⟩
    · simp at h

/-- **C17 is violated at the other end**: the documentation requires `tn - hu <= t <= tn`, but every time after the end
of the last step is accepted as well (with any state whose last step went in the direction of the next one). -/
theorem c17_after_end_refuted (s : State ν n q K) (hk : s.c.kused ≤ 5) (hdir : 0 ≤ s.c.hused * s.c.hh) (t : K)
    (ht : 0 ≤ (t - s.e.tn) * s.c.hh) : ∃ s', getSolution s t = .ret s' (.ok ()) := by
  refine (c17_rejects_before_last_step s hk t).2 ?_
  have hc := current_time_not_rejected s hdir
  unfold BeforeLastStep at hc ⊢
  rintro (⟨h, h'⟩ | ⟨h, h'⟩)
  · refine hc (Or.inl ⟨h, ?_⟩)
    have : 0 ≤ t - s.e.tn := nonneg_of_mul_nonneg_left ht h
    linarith
  · refine hc (Or.inr ⟨h, ?_⟩)
    have : t - s.e.tn ≤ 0 := by
      by_contra hx
      exact absurd ht (not_le.2 (mul_neg_of_pos_of_neg (not_le.1 hx) h))
    linarith

/-- **C18, the cases that work.**  For `k = 0` (order at most 4), `k = 1` and `k` = the order of the last step,
`get_dky(t, k)` is the `k`-th derivative of the polynomial that `get_solution` evaluates.  Missing: the other `k`, see
`c18_refuted` and `c18_panics`. -/
theorem c18_dky_partial (s : State ν n q K) (k : Nat) (hk : k ≤ s.c.kused) (hku : s.c.kused ≤ 5) (h0 : s.c.kused ≠ 0)
    (hk' : k = 0 ∧ s.c.kused ≤ 4 ∨ k = 1 ∨ k = s.c.kused) (hpsi : ∀ i, i < s.c.kused → s.h.psi i ≠ 0) :
    ∃ P : Fin n → K[X], (∀ i, (P i).natDegree ≤ s.c.kused) ∧
      (∀ t, ¬ BeforeLastStep s t →
        solutionAt s t = some (fun i => (P i).eval t, fun i => (derivative (P i)).eval t)) ∧
      ∀ t, ¬ BeforeLastStep s t → dkyAt s t k = some (fun i => (derivative^[k] (P i)).eval t) := by
  refine ⟨fun i => interpPoly s.e.tn s.h s.c.kused i, fun i => interpPoly_natDegree _ _ _ _, ?_, ?_⟩
  · intro t ht
    unfold solutionAt getSolution
    have hb : badTime s t = false := by rw [← Bool.not_eq_true, badTime_iff]; exact ht
    have ho : kordOf s.c.kused < mxordp1 := by unfold kordOf mxordp1; split <;> omega
    have e : kordOf s.c.kused = s.c.kused := by unfold kordOf; rw [if_neg h0]
    simp only [hb, Bool.false_eq_true, if_false, if_pos ho]
    rw [e]
    congr 1
    refine Prod.ext ?_ ?_
    · funext i; exact solEval_fst _ _ _ _ _
    · funext i; exact solEval_snd _ _ _ _ _
  · intro t ht
    unfold dkyAt getDky
    have hb : badTime s t = false := by rw [← Bool.not_eq_true, badTime_iff]; exact ht
    have ho : s.c.kused - k + 1 < mxordp1 ∧ s.c.kused < mxordp1 := by unfold mxordp1; omega
    simp only [hb, Bool.false_eq_true, if_false, if_pos ho, if_neg (Nat.not_lt.2 hk)]
    congr 1
    funext i
    rw [interpPoly_deriv _ _ _ _ _ hk, forUp_dky]
    simp only [vzero, zero_add]
    refine sum_congr rfl fun j hj => ?_
    rw [dkyCoefs_inv s.e.tn s.h.psi t s.c.kused k (k + j) (by omega), if_pos]
    have := mem_range.1 hj
    omega

/-- **C18, what `get_dky` computes in general**: the terms `j` with `max k (kused - k + 1) < j <= kused` of the `k`-th
derivative of the interpolating polynomial are missing. -/
theorem c18_dky_value (s : State ν n q K) (k : Nat) (hk : k ≤ s.c.kused) (hku : s.c.kused - k ≤ 4)
    (hku' : s.c.kused ≤ 5) (t : K) (ht : ¬ BeforeLastStep s t) :
    dkyAt s t k = some (fun i => (derivative^[k] (interpPoly s.e.tn s.h s.c.kused i)).eval t -
      ∑ j ∈ (range (s.c.kused + 1)).filter (fun j => k < j ∧ s.c.kused - k + 1 < j),
        s.h.phi j i * (derivative^[k] (nb s.e.tn s.h.psi j)).eval t) := by
  unfold dkyAt getDky
  have hb : badTime s t = false := by rw [← Bool.not_eq_true, badTime_iff]; exact ht
  have ho : s.c.kused - k + 1 < mxordp1 ∧ s.c.kused < mxordp1 := by unfold mxordp1; omega
  simp only [hb, Bool.false_eq_true, if_false, if_pos ho, if_neg (Nat.not_lt.2 hk)]
  congr 1
  funext i
  rw [interpPoly_deriv _ _ _ _ _ hk, forUp_dky]
  simp only [vzero, zero_add]
  rw [eq_sub_iff_add_eq, sum_filter]
  rw [show s.c.kused + 1 = k + (s.c.kused - k + 1) by omega, sum_range_add _ k]
  rw [sum_eq_zero (s := range k) (fun j hj => by
    rw [if_neg]; have := mem_range.1 hj; omega), zero_add, ← sum_add_distrib]
  refine sum_congr rfl fun j hj => ?_
  rw [dkyCoefs_inv s.e.tn s.h.psi t s.c.kused k (k + j) (by omega)]
  by_cases h : k + j = k ∨ k + j < s.c.kused - k + 2
  · rw [if_pos h, if_neg (by omega), add_zero]
  · rw [if_neg h, if_pos (by omega), mul_zero, zero_add]; rfl

/-- **C18, error**: `k` larger than the order of the last step gives `BadK` (any scalar type). -/
theorem c18_bad_k {K : Type u} [Scalar K] (s : State ν n q K) (t : K) (k : Nat) (hk : s.c.kused < k) :
    getDky s t k = .ret s (.error (.ida .badK)) := by
  unfold getDky; rw [if_pos hk]

/-- **C18 is violated: panic.**  With a last step of order 5, `get_dky(t, 0)` panics (any scalar type, any legal
time). -/
theorem c18_panics {K : Type u} [Scalar K] (s : State ν n q K) (t : K) (hk : s.c.kused = 5)
    (ht : badTime s t = false) : getDky s t 0 = .panic := by
  unfold getDky mxordp1; simp [ht, hk]

end

/-! ## Concrete states -/

/-- A state after three equidistant steps of size 1 and order 3, with the values of `t ↦ t (t+1) (t+2)` on the nodes
`1, 0, -1, -2`. -/
def exState : State Unit 1 0 ℚ :=
  let s : State Unit 1 0 ℚ := State.new () vzero vzero
  { s with
    h.phi := fun j _ => if j ≤ 3 then 6 else 0
    h.psi := fun i => (i : ℚ) + 1
    c.kused := 3, c.kk := 3, c.hh := 1, c.hused := 1, e.tn := 1 }

/-- The hypotheses of `c15_at_current_time`, `c16_yp_is_derivative`, `c17_*` and `c18_dky_partial` hold for it. -/
example : exState.c.kused ≤ 5 ∧ 0 ≤ exState.c.hused * exState.c.hh ∧
    (∀ i, i < 3 → exState.h.psi i ≠ 0) ∧ badTime exState (1 / 2) = false ∧ badTime exState (-1) = true := by
  decide +kernel

/-- The values at `t = 1/2`: `y = 15/8`, `y' = 23/4`, and `get_dky` agrees for `k = 0, 1`. -/
example : (solutionAt exState (1 / 2)).map (fun p => (p.1 0, p.2 0)) = some (15 / 8, 23 / 4) ∧
    (dkyAt exState (1 / 2) 0).map (· 0) = some (15 / 8) ∧ (dkyAt exState (1 / 2) 1).map (· 0) = some (23 / 4) ∧
    (dkyAt exState (1 / 2) 3).map (· 0) = some 6 := by
  decide +kernel

/-- **C18 is violated: wrong value.**  For this state the interpolating polynomial is `t (t+1) (t+2)`, whose second
derivative at `1` is `12`; `get_dky(1, 2)` returns `6`. -/
theorem c18_refuted :
    (interpPoly exState.e.tn exState.h exState.c.kused 0) = (X * (X + 1) * (X + 2) : ℚ[X]) ∧
    (derivative^[2] (X * (X + 1) * (X + 2) : ℚ[X])).eval 1 = 12 ∧
    (dkyAt exState 1 2).map (· 0) = some 6 := by
  refine ⟨?_, ?_, by decide +kernel⟩
  · have e : exState.c.kused = 3 := rfl
    have e1 : exState.e.tn = 1 := rfl
    rw [e, e1, interpPoly]
    simp only [sum_range_succ, range_zero, sum_empty, zero_add, nb_succ, nb_zero, node, one_mul]
    have p0 : exState.h.psi 0 = 1 := by decide +kernel
    have p1 : exState.h.psi 1 = 2 := by decide +kernel
    have p2 : exState.h.psi 2 = 3 := by decide +kernel
    have f0 : exState.h.phi 0 0 = 6 := by decide +kernel
    have f1 : exState.h.phi 1 0 = 6 := by decide +kernel
    have f2 : exState.h.phi 2 0 = 6 := by decide +kernel
    have f3 : exState.h.phi 3 0 = 6 := by decide +kernel
    rw [p0, p1, p2, f0, f1, f2, f3]
    refine Polynomial.funext fun r => ?_
    simp only [eval_add, eval_mul, eval_C, eval_sub, eval_X, eval_one, eval_ofNat]
    ring
  · simp [Function.iterate_succ, derivative_mul]
    norm_num

end Verif.Props
