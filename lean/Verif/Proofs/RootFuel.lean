import Verif.Proofs.Outcome

/-! # More turns for the root search change nothing, if it ends -/

set_option autoImplicit false
set_option linter.unusedSectionVars false
set_option linter.unusedSimpArgs false
set_option linter.unusedVariables false

namespace Verif

universe u w

section
variable {ν : Type w} {n q : Nat} {K : Type u} [Scalar K]

theorem rootLoop_more {cfg : Cfg ν n q K} (j : Nat) : ∀ (k : Nat) {s : State ν n q K} {l : RfLoc K},
    rootLoop cfg k s l ≠ .diverge → rootLoop cfg (k + j) s l = rootLoop cfg k s l
  | 0, s, l, h => absurd rfl h
  | k + 1, s, l, h => by
    rw [Nat.add_right_comm]
    unfold rootLoop at h ⊢
    split
    · rfl
    · rename_i hb
      rw [if_neg hb] at h
      cases hp : rootPass cfg s l with
      | panic => rfl
      | stop s1 => rfl
      | more s1 l1 =>
        rw [hp] at h
        exact rootLoop_more j k h

theorem rootFind_more {cfg : Cfg ν n q K} (j k : Nat) {s : State ν n q K} (h : rootFind cfg k s ≠ .diverge) :
    rootFind cfg (k + j) s = rootFind cfg k s := by
  unfold rootFind at h ⊢
  simp only at h ⊢
  split
  · rfl
  · rename_i hs
    rw [if_neg hs] at h
    rw [rootLoop_more j k]
    intro hd
    rw [hd] at h
    exact h rfl

theorem rCheck3_more {cfg : Cfg ν n q K} (j k : Nat) {s : State ν n q K} (h : rCheck3 cfg k s ≠ .diverge) :
    rCheck3 cfg (k + j) s = rCheck3 cfg k s := by
  unfold rCheck3 at h ⊢
  simp only at h ⊢
  split
  · rfl
  · rename_i s1 e1
    rw [e1] at h
    simp only at h
    rw [rootFind_more j k]
    intro hd
    rw [hd] at h
    exact h rfl

theorem rootChecks_more {cfg : Cfg ν n q K} (j k : Nat) {s : State ν n q K} {task : Task}
    (h : rootChecks cfg k s task ≠ .diverge) : rootChecks cfg (k + j) s task = rootChecks cfg k s task := by
  unfold rootChecks at h ⊢
  simp only at h ⊢
  cases h2 : rCheck2 cfg s with
  | panic => rfl
  | diverge => rfl
  | ret s1 r1 =>
    rw [h2] at h
    cases r1 with
    | error e => rfl
    | ok r =>
      cases r with
      | rootFound => rfl
      | continue_ =>
        simp only at h ⊢
        split
        · rename_i hg
          rw [if_pos hg] at h
          rw [rCheck3_more j k]
          intro hd
          rw [hd] at h
          exact h rfl
        · rfl

theorem laterCall_more {cfg : Cfg ν n q K} (j k : Nat) {s : State ν n q K} {tout : K} {task : Task}
    (h : laterCall cfg k s tout task ≠ .diverge) : laterCall cfg (k + j) s tout task = laterCall cfg k s tout task := by
  unfold laterCall at h ⊢
  by_cases hq : q > 0
  · rw [if_pos hq] at h ⊢
    rw [if_pos hq, rootChecks_more j k]
    intro hd
    rw [hd] at h
    exact h rfl
  · rw [if_neg hq, if_neg hq]

theorem postStep_more {cfg : Cfg ν n q K} (j k : Nat) {s : State ν n q K} {tout : K} {task : Task}
    (h : postStep cfg k s tout task ≠ .diverge) : postStep cfg (k + j) s tout task = postStep cfg k s tout task := by
  unfold postStep at h ⊢
  split
  · rename_i hq
    rw [if_pos hq] at h
    rw [rCheck3_more j k]
    intro hd
    rw [hd] at h
    exact h rfl
  · rfl

theorem solvePass_more {cfg : Cfg ν n q K} (j k : Nat) {s : State ν n q K} {tout : K} {task : Task} {m : Nat}
    (h : solvePass cfg k s tout task m ≠ .diverge) : solvePass cfg (k + j) s tout task m = solvePass cfg k s tout task m := by
  unfold solvePass at h ⊢
  cases hp : preStep cfg s m with
  | panic => rfl
  | diverge => rfl
  | ret s1 r1 => rfl
  | go s1 =>
    rw [hp] at h
    simp only at h ⊢
    cases hs : step cfg s1 with
    | panic => rfl
    | diverge => rfl
    | ret s2 r2 =>
      rw [hs] at h
      cases r2 with
      | error e => rfl
      | ok r => exact postStep_more j k h

theorem solveLoop_more {cfg : Cfg ν n q K} (j k : Nat) {tout : K} {task : Task} : ∀ (sf : Nat) {s : State ν n q K} {m : Nat},
    solveLoop cfg k tout task sf s m ≠ .diverge → solveLoop cfg (k + j) tout task sf s m = solveLoop cfg k tout task sf s m
  | 0, s, m, h => absurd rfl h
  | sf + 1, s, m, h => by
    unfold solveLoop at h ⊢
    rw [solvePass_more j k]
    · cases hp : solvePass cfg k s tout task m with
      | panic => rfl
      | diverge => rfl
      | ret s1 r1 => rfl
      | go s1 =>
        rw [hp] at h
        exact solveLoop_more j k sf h
    · intro hd
      rw [hd] at h
      exact h rfl

theorem solve_more {cfg : Cfg ν n q K} (j k : Nat) {sf : Nat} {s : State ν n q K} {tout : K} {task : Task}
    (h : solve cfg k sf s tout task ≠ .diverge) : solve cfg (k + j) sf s tout task = solve cfg k sf s tout task := by
  rw [solve_eq] at h ⊢
  rw [solve_eq]
  split
  · rename_i h0
    rw [if_pos h0] at h
    cases hf : firstCall cfg (begun s tout task) tout with
    | panic => rfl
    | diverge => rfl
    | ret s1 r1 =>
      rw [hf] at h
      cases r1 with
      | error e => rfl
      | ok a => exact solveLoop_more j k sf h
  · rename_i h0
    rw [if_neg h0] at h
    rw [laterCall_more j k]
    · cases hl : laterCall cfg k (perfReset (begun s tout task)) tout task with
      | panic => rfl
      | diverge => rfl
      | ret s1 r1 => rfl
      | go s1 =>
        rw [hl] at h
        exact solveLoop_more j k sf h
    · intro hd
      rw [hd] at h
      exact h rfl

/-- A call that returns with `k` turns for each root search returns the same with more. -/
theorem exec_more {cfg : Cfg ν n q K} (j k : Nat) {sf : Nat} {s : State ν n q K} {op : Op K} {x : State ν n q K × Res n K}
    (h : exec cfg k sf s op = some x) : exec cfg (k + j) sf s op = some x := by
  cases op with
  | solve tout tret task =>
    rw [← h]
    unfold exec at h ⊢
    simp only at h ⊢
    rw [solve_more j k]
    intro hd
    rw [hd] at h
    cases h
  | getSolution t => exact h
  | getDky t k => exact h

end

end Verif
