import Verif.Props.Driver

/-!
# C79: the benchmark
-/

set_option autoImplicit false
set_option linter.unusedSectionVars false
set_option linter.unusedSimpArgs false
set_option linter.unusedVariables false

namespace Verif.Proofs

open Verif Verif.Spec Verif.Props

universe u v

section
variable {ν : Type v} {n q : Nat} {K : Type u} [Scalar K]

/-- The timed closure is the loop of the example program as long as no call fails; after it `iout = nout`. -/
theorem benchLoop_output {cfg : Cfg ν n q K} {rf sf nout : Nat} {factor : K} (fuel : Nat) {s : State ν n q K}
    {v v' : BenchVars K} {l : List (Row ν n q K)} (h : benchLoop cfg rf sf nout factor fuel s v = some (l, v')) :
    outputLoop cfg rf sf nout factor fuel s v.iout v.tout v.tret = some (l, .ok ()) ∧ v'.iout = nout := by
  induction fuel generalizing s v l with
  | zero => cases h
  | succ fuel ih =>
    unfold benchLoop at h
    split at h
    · rename_i s' st hx
      unfold outputLoop
      rw [hx]
      by_cases hst : st = .success
      · subst hst
        simp only [if_true] at h ⊢
        split at h
        · rename_i hio
          cases h
          rw [if_pos hio]
          exact ⟨rfl, hio⟩
        · rename_i hio
          rw [if_neg hio]
          obtain ⟨⟨l', r'⟩, h1, h2⟩ := Option.map_eq_some_iff.1 h
          cases h2
          obtain ⟨i1, i2⟩ := ih h1
          refine ⟨?_, i2⟩
          simp only at i1
          rw [i1]
          rfl
      · simp only [if_neg hst] at h ⊢
        split at h
        · rename_i hio
          cases h
          rw [if_pos hio]
          exact ⟨rfl, hio⟩
        · rename_i hio
          rw [if_neg hio]
          obtain ⟨⟨l', r'⟩, h1, h2⟩ := Option.map_eq_some_iff.1 h
          cases h2
          obtain ⟨i1, i2⟩ := ih h1
          refine ⟨?_, i2⟩
          simp only at i1
          rw [i1]
          rfl
    · cases h

/-- With more than `nout` counted, the loop does not end. -/
theorem benchLoop_over {cfg : Cfg ν n q K} {rf sf nout : Nat} {factor : K} (fuel : Nat) {s : State ν n q K}
    {v : BenchVars K} (hv : nout < v.iout) : benchLoop cfg rf sf nout factor fuel s v = none := by
  induction fuel generalizing s v with
  | zero => rfl
  | succ fuel ih =>
    unfold benchLoop
    split
    · rename_i s' st hx
      by_cases hst : st = .success
      · subst hst
        simp only [if_true]
        rw [if_neg (by omega), ih (by simp only; omega)]
        rfl
      · simp only [if_neg hst]
        rw [if_neg (by omega), ih (by simpa using hv)]
        rfl
    · rfl

/-- Entered with `iout = nout`, the closure makes one call. -/
theorem benchLoop_again {cfg : Cfg ν n q K} {rf sf nout : Nat} {factor : K} {fuel : Nat} {s : State ν n q K}
    {v v' : BenchVars K} {l : List (Row ν n q K)} (hv : v.iout = nout)
    (h : benchLoop cfg rf sf nout factor fuel s v = some (l, v')) :
    ∃ x, l = [x] ∧ Row.isSuccess x = false ∧ Row.isError x = false := by
  cases fuel with
  | zero => cases h
  | succ fuel =>
    unfold benchLoop at h
    split at h
    · rename_i s' st hx
      by_cases hst : st = .success
      · subst hst
        simp only [if_true] at h
        rw [if_neg (by omega), benchLoop_over fuel (by simp only; omega)] at h
        cases h
      · simp only [if_neg hst] at h
        rw [if_pos hv] at h
        cases h
        refine ⟨_, rfl, ?_, rfl⟩
        cases st <;> first | rfl | exact absurd rfl hst
    · cases h

end
end Verif.Proofs

namespace Verif.Props

open Verif Verif.Spec Verif.Proofs

universe u v

section
variable {ν : Type v} {n q : Nat} {K : Type u} [Scalar K]

/-- **C79, what an iteration of the benchmark does (partial).** Any scalar type, problem, tolerances and solvers.  The first
iteration reaches the `nout` output times `tout`, `10 tout`, …  Every later one that ends makes one call of `solve`, which
does not return `Success`: it reaches no output time. -/
theorem c79_iterations_partial (cfg : Cfg ν n q K) (rf sf nout fuel : Nat) (factor tout tret : K) (s0 : State ν n q K)
    (h0 : 0 < nout) (k : Nat) (first : List (Row ν n q K)) (later : List (List (Row ν n q K)))
    (h : benchRun cfg rf sf nout factor fuel s0 k { iout := 0, tout := tout, tret := tret } = some (first :: later)) :
    (first.filter Row.isSuccess).map Row.t = outputTimes factor nout tout ∧
    (∀ l ∈ later, ∃ x, l = [x] ∧ Row.isSuccess x = false ∧ Row.isError x = false) := by
  have key : ∀ (k : Nat) (v : BenchVars K) (ls : List (List (Row ν n q K))), v.iout = nout →
      benchRun cfg rf sf nout factor fuel s0 k v = some ls →
      ∀ l ∈ ls, ∃ x, l = [x] ∧ Row.isSuccess x = false ∧ Row.isError x = false := by
    intro k
    induction k with
    | zero => intro v ls _ h l hl; cases h; cases hl
    | succ k ih =>
      intro v ls hv h l hl
      unfold benchRun at h
      split at h
      · rename_i l1 v1 h1
        obtain ⟨ls', h2, h3⟩ := Option.map_eq_some_iff.1 h
        subst h3
        rcases List.mem_cons.1 hl with rfl | hl
        · exact benchLoop_again hv h1
        · exact ih v1 ls' (benchLoop_output fuel h1).2 h2 l hl
      · cases h
  cases k with
  | zero => cases h
  | succ k =>
    unfold benchRun at h
    split at h
    · rename_i l1 v1 h1
      obtain ⟨ls', h2, h3⟩ := Option.map_eq_some_iff.1 h
      cases h3
      obtain ⟨h4, h5⟩ := benchLoop_output fuel h1
      exact ⟨((c78_rows cfg rf sf nout fuel factor tout tret s0 h0 _ _ h4).1 rfl).2.2, key k v1 _ h5 h2⟩
    · cases h

end

section
attribute [local instance] ratParams ratEps

/-- **C79: refutation.** Three iterations with two output times: the first makes three calls and reaches 2/5 and 4; each
other one ends at the root `11/4` on its first call. -/
theorem c79_same_work_refuted :
    (benchRun (timedCfg (ramp (11 / 4)) []) 200 100 2 10 20 timed0 3 { iout := 0, tout := 2 / 5, tret := 0 }).map
      (fun ls => ls.map fun l => l.map fun x => (x.t, Row.isSuccess x)) =
      some [[(2 / 5, true), (11 / 4, false), (4, true)], [(11 / 4, false)], [(11 / 4, false)]] := by decide +kernel

/-- Without a root function the second iteration does not return, whatever the number of passes: here it makes at least 50. -/
example : (benchLoop (timedCfg (fun _ => 1) []) 200 100 2 10 20 timed0 { iout := 0, tout := 2 / 5, tret := 0 }).isSome = true ∧
    (benchRun (timedCfg (fun _ => 1) []) 200 100 2 10 50 timed0 2 { iout := 0, tout := 2 / 5, tret := 0 }).isSome = false := by
  decide +kernel

end

end Verif.Props
