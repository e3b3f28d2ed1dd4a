import Verif.Proofs.Driver
import Verif.Props.Conserve
import Verif.Props.Norm
import Verif.RealInst

/-!
# C78: the example program
-/

set_option autoImplicit false
set_option linter.unusedSectionVars false
set_option linter.unusedSimpArgs false
set_option linter.unusedVariables false

namespace Verif.Props

open Verif Verif.Spec Verif.Proofs

universe u v

section
variable {ν : Type v} {n q : Nat} {K : Type u} [Scalar K]

/-- **C78, the rows.** Any scalar type, problem, tolerances and solvers.  If the output loop of the example ends without
error, no row reports an error, the last row is a `Success`, and the `Success` rows are exactly at the `nout` output times.
If it ends with an error, this error is the result of the last row, no other row reports an error, and the `Success` rows are
exactly at the first `k` output times, `k < nout`. -/
theorem c78_rows (cfg : Cfg ν n q K) (rf sf nout fuel : Nat) (factor tout tret : K) (s : State ν n q K) (h0 : 0 < nout)
    (rows : List (Row ν n q K)) (r : Except Err Unit)
    (h : outputLoop cfg rf sf nout factor fuel s 0 tout tret = some (rows, r)) :
    (r = .ok () → (∀ x ∈ rows, Row.isError x = false) ∧ (∃ x, rows.getLast? = some x ∧ Row.isSuccess x = true) ∧
      (rows.filter Row.isSuccess).map Row.t = outputTimes factor nout tout) ∧
    (∀ e, r = .error e → (∃ l x, rows = l ++ [x] ∧ x.res = .error e ∧ ∀ y ∈ l, Row.isError y = false) ∧
      ∃ k < nout, (rows.filter Row.isSuccess).map Row.t = outputTimes factor k tout) := by
  obtain ⟨h1, h2, h3⟩ := outputLoop_rows fuel h0 h
  obtain ⟨h4, h5⟩ := h1.errors
  exact ⟨fun hr => ⟨(h4 hr).1, (h4 hr).2, h2 hr⟩, fun e hr => ⟨h5 e hr, h3 e hr⟩⟩

end

section
variable {ν : Type v} {n q : Nat} {K : Type u} [Field K] [LinearOrder K] [IsStrictOrderedRing K] [ExactParams K]
  [EpsLaws K]

/-- **C78, the times (partial).** Exact arithmetic.  In the table printed by the loop for a new object, no row is later than
a `Success` row that follows it.  From one row to the next the time does not go back, except that a `Root` may be before the
row above it by no more than the root tolerance.  The number of steps does not decrease.  Missing: the exception (C77). -/
theorem c78_times_partial (cfg : Cfg ν n q K) (hl : NlsLegal cfg) (hm : 0 ≤ cfg.hmaxInv) (hk : NlsKeepsLog cfg)
    (rf sf nout fuel : Nat) (factor tout tret : K) (N : ν) (y0 yp0 : Vec n K) (h0 : 0 < nout) (ht : 0 < tout)
    (hf : 1 ≤ factor) (rows : List (Row ν n q K)) (r : Except Err Unit)
    (h : outputLoop cfg rf sf nout factor fuel (State.new N y0 yp0) 0 tout tret = some (rows, r)) :
    rows.Pairwise (fun x y => Row.isSuccess y = true → x.t ≤ y.t) ∧
    rows.IsChain (fun x y => Row.isError y = false → x.t ≤ y.t ∨ y.res = .ok .root ∧ x.t - y.t ≤ rootTolerance x.obj) ∧
    rows.IsChain (fun x y => x.nst ≤ y.nst) := by
  obtain ⟨-, h2, -, h4, -⟩ := (outputLoop_rows fuel h0 h).1.good hl hm hk hf (.new N y0 yp0) ht (fun h => absurd h (lt_irrefl _))
  exact ⟨h2, h4.imp fun x y h => h.forward, h4.imp fun x y h => h.steps⟩

/-- **C78, the values (partial).** Exact arithmetic.  Every `Success` row shows the interpolated solution at its time, if the
row above it has another time.  Missing: a `Success` row right after a `Root` row at the same time, which shows the vectors
of the latter. -/
theorem c78_values_partial (cfg : Cfg ν n q K) (hl : NlsLegal cfg) (hm : 0 ≤ cfg.hmaxInv) (hk : NlsKeepsLog cfg)
    (rf sf nout fuel : Nat) (factor tout tret : K) (N : ν) (y0 yp0 : Vec n K) (h0 : 0 < nout) (ht : 0 < tout)
    (hf : 1 ≤ factor) (rows : List (Row ν n q K)) (r : Except Err Unit)
    (h : outputLoop cfg rf sf nout factor fuel (State.new N y0 yp0) 0 tout tret = some (rows, r))
    (above : List (Row ν n q K)) (x : Row ν n q K) (below : List (Row ν n q K)) (hx : rows = above ++ x :: below)
    (hs : Row.isSuccess x = true) (hne : ∀ p, above.getLast? = some p → x.t ≠ p.t) :
    solutionAt x.obj x.t = some (x.y, getYp x.obj) := by
  obtain ⟨-, -, -, h4, h5⟩ := (outputLoop_rows fuel h0 h).1.good hl hm hk hf (.new N y0 yp0) ht (fun h => absurd h (lt_irrefl _))
  subst hx
  rcases above.eq_nil_or_concat with rfl | ⟨l, p, rfl⟩
  · exact h5 x rfl hs ht.ne'
  · rw [List.concat_eq_append, List.append_assoc] at h4
    have := (List.isChain_append.1 h4).2.1
    exact (List.isChain_cons_cons.1 this).1.value hs (hne p (by simp))

end

section
variable {K : Type u} [Field K] [LinearOrder K] [IsStrictOrderedRing K] [ExactParams K] [EpsLaws K]

/-- **C78 for the program.** `Roberts` with the tolerances, initial values, 12 output times 0.4, 4, 40, … of the example: if
the loop ends without error, its `Success` rows are exactly at these times, in this order, the last row is the last of them;
if in addition the first step was not repeated, `y1 + y2 + y3` is exactly 1 in every row. -/
theorem c78_roberts (fuel newtonFuel rf sf : Nat) (N : Newton (Vec 3 K)) (rows : List (Row (Newton (Vec 3 K)) 3 2 K))
    (h : outputLoop (robertsMain newtonFuel) rf sf 12 10 fuel (State.new N robertsY0 robertsYp0) 0 (4 / 10) 0 =
      some (rows, .ok ())) :
    (rows.filter Row.isSuccess).map Row.t = [4 / 10, 4, 40, 400, 4000, 40000, 400000, 4000000, 40000000, 400000000,
      4000000000, 40000000000] ∧
    (∃ x, rows.getLast? = some x ∧ Row.isSuccess x = true ∧ x.t = 40000000000) ∧
    rows.Pairwise (fun x y => Row.isSuccess y = true → x.t ≤ y.t) ∧
    (∀ x ∈ rows, (∀ a ∈ x.obj.g.atts, a.before.length = 1 → a.out = .accepted) → x.y 0 + x.y 1 + x.y 2 = 1) := by
  have ht : (rows.filter Row.isSuccess).map Row.t = [4 / 10, 4, 40, 400, 4000, 40000, 400000, 4000000, 40000000, 400000000,
      4000000000, 40000000000] := by
    rw [(c78_rows _ rf sf 12 fuel 10 (4 / 10) 0 _ (by norm_num) rows _ h).1 rfl |>.2.2]
    norm_num [outputTimes]
  refine ⟨ht, ?_, ?_, ?_⟩
  · obtain ⟨x, h1, h2⟩ := ((c78_rows _ rf sf 12 fuel 10 (4 / 10) 0 _ (by norm_num) rows _ h).1 rfl).2.1
    refine ⟨x, h1, h2, ?_⟩
    obtain ⟨l, rfl⟩ := List.getLast?_eq_some_iff.1 h1
    have := congrArg List.getLast? ht
    rw [List.filter_append, List.filter_cons_of_pos h2] at this
    simpa using this
  · exact (c78_times_partial _ (newton_legal _ _ _) newton_hm (nlsUses_keepsLog (newton_uses_interface _ _ _)) rf sf 12 fuel 10
      (4 / 10) 0 N _ _ (by norm_num) (by norm_num) (by norm_num) rows _ h).1
  · intro x hx hb
    have hR := (outputLoop_rows fuel (show 0 < 12 by norm_num) h).1.reachFrom (.new N none) x hx
    have := (c63_roberts_mass_partial _ _ _ _ x.obj hR (by simp [robertsY0]) (by simp [robertsYp0]) hb).yy
    simpa [dot, Fin.sum_univ_three, Row.y] using this

end

section
variable {n : Nat} {K : Type u} [Field K] [LinearOrder K] [IsStrictOrderedRing K] [ExactParams K] [ExactLaws K]

/-- **C78, `check_ans`.** No warning if every component is within `rtol |ref| + 10 atol` of the reference; if there is no
warning, the sum of the squares of the errors relative to these bounds is less than the number of components. -/
theorem c78_check_ans (y reference : Vec n K) (rtol : K) (atol : Vec n K) (hr : 0 ≤ rtol) (ha : ∀ i, 0 < atol i)
    (hn : 0 < n) :
    ((∀ i, |y i - reference i| < rtol * |reference i| + 10 * atol i) → checkAns y reference rtol atol = false) ∧
    (checkAns y reference rtol atol = false ↔
      ∑ i, ((y i - reference i) / (rtol * |reference i| + 10 * atol i)) ^ 2 < (n : K)) := by
  have hn' : (0 : K) < n := by exact_mod_cast hn
  have key : checkAns y reference rtol atol = false ↔
      ∑ i, ((y i - reference i) / (rtol * |reference i| + 10 * atol i)) ^ 2 < (n : K) := by
    obtain ⟨h1, h2⟩ := c12_norm_formula (vsub y reference) (fun i => (rtol * |reference i| + 10 * atol i)⁻¹)
    have e : checkAns y reference rtol atol = false ↔
        normWrms (vsub y reference) (fun i => (rtol * |reference i| + 10 * atol i)⁻¹) < 1 := by
      unfold checkAns
      simp only [Scalar.ge, ex_le, decide_eq_false_iff_not, not_le]
      rfl
    rw [e]
    have e2 : ∑ i, ((y i - reference i) / (rtol * |reference i| + 10 * atol i)) ^ 2 =
        ∑ i, (vsub y reference i * (rtol * |reference i| + 10 * atol i)⁻¹) ^ 2 := by
      simp only [div_eq_mul_inv, vsub]
    rw [e2, ← div_lt_one hn', ← h2, sq_lt_one_iff₀ h1]
  refine ⟨fun h => key.2 ?_, key⟩
  have : Nonempty (Fin n) := ⟨⟨0, hn⟩⟩
  calc ∑ i, ((y i - reference i) / (rtol * |reference i| + 10 * atol i)) ^ 2 < ∑ i : Fin n, (1 : K) := by
        refine Finset.sum_lt_sum_of_nonempty Finset.univ_nonempty fun i _ => ?_
        have hp : 0 < rtol * |reference i| + 10 * atol i := by
          have := mul_nonneg hr (abs_nonneg (reference i))
          have := ha i
          linarith
        rw [sq_lt_one_iff_abs_lt_one, abs_div, abs_of_pos hp, div_lt_one hp]
        exact h i
    _ = (n : K) := by simp

end

section
attribute [local instance] ratParams ratEps

/-- The hypotheses of the theorems above are met: three output times 2/5, 4, 40 and a root function `t - 11/4`, whose `Root`
row is between the first two. -/
example : NlsLegal (timedCfg (ramp (11 / 4)) []) ∧ NlsKeepsLog (timedCfg (ramp (11 / 4)) []) ∧
    (outputLoop (timedCfg (ramp (11 / 4)) []) 200 100 3 10 20 timed0 0 (2 / 5) 0).map
      (fun p => (p.1.map fun x => (x.t, x.nst, Row.isSuccess x), match p.2 with | .ok _ => true | .error _ => false)) =
      some ([(2 / 5, 11, true), (11 / 4, 14, false), (4, 15, true), (40, 18, true)], true) :=
  ⟨ramp_legal _, timed_keepsLog _ _, by decide +kernel⟩

end

section
attribute [local instance] realParams realLaws

/-- Over the reals: a small error is not reported, a large one is. -/
example : checkAns (K := ℝ) ![1, 2] ![1 + 1 / 20000, 2] (1 / 10000) ![1 / 1000000, 1 / 1000000] = false ∧
    checkAns (K := ℝ) ![1, 2] ![2, 2] (1 / 10000) ![1 / 1000000, 1 / 1000000] = true := by
  have ha : ∀ i, (0 : ℝ) < (![1 / 1000000, 1 / 1000000] : Vec 2 ℝ) i := by intro i; fin_cases i <;> norm_num
  refine ⟨(c78_check_ans _ _ _ _ (by norm_num) ha (by norm_num)).1 ?_, ?_⟩
  · intro i
    fin_cases i <;> norm_num [abs_of_pos, abs_of_neg]
  · rw [← Bool.not_eq_false, (c78_check_ans _ _ _ _ (by norm_num) ha (by norm_num)).2]
    norm_num [Fin.sum_univ_two]

end

end Verif.Props
