import Verif.Proofs.Monotone
import Verif.Spec.Forward
import Verif.Props.Refused
import Verif.Props.Affine

/-!
# C77: output times do not go back
-/

set_option autoImplicit false
set_option linter.unusedSectionVars false
set_option linter.unusedSimpArgs false
set_option linter.unusedVariables false

namespace Verif.Props

open Verif Verif.Spec Verif.Proofs

universe u v

section
variable {ν : Type v} {n q : Nat} {K : Type u} [Field K] [LinearOrder K] [IsStrictOrderedRing K] [ExactParams K]
  [EpsLaws K]

theorem look_same {cfg : Cfg ν n q K} {rf sf : Nat} {s s' : State ν n q K} {op : Op K} {r : Res n K}
    (hr : ∀ x, r ≠ .solved x) (h : exec cfg rf sf s op = some (s', r)) :
    s'.c = s.c ∧ s'.e = s.e ∧ s'.cnt = s.cnt ∧ s'.r = s.r ∧ s'.tretlast = s.tretlast ∧ s'.tstop = s.tstop := by
  cases op with
  | solve tout tret task =>
    unfold exec at h
    simp only at h
    split at h
    · cases h; exact absurd rfl (hr _)
    · cases h
  | getSolution t =>
    unfold exec at h
    simp only at h
    split at h
    · rename_i h1
      cases h
      obtain ⟨-, yy, yp, rfl⟩ := getSolution_frame h1
      exact ⟨rfl, rfl, rfl, rfl, rfl, rfl⟩
    · cases h
  | getDky t k =>
    unfold exec at h
    simp only at h
    split at h
    · rename_i h1
      cases h
      have : s' = s := by
        unfold getDky at h1
        repeat' split at h1
        all_goals first | (cases h1; rfl) | cases h1
      subst this
      exact ⟨rfl, rfl, rfl, rfl, rfl, rfl⟩
    · cases h

theorem forward_inv {cfg : Cfg ν n q K} (hl : NlsLegal cfg) (hm : 0 ≤ cfg.hmaxInv) (hk : NlsKeepsLog cfg)
    {s : State ν n q K} (h : Forward cfg s) : Reach cfg s ∧ TimeInv s := by
  induction h with
  | new N y0 yp0 =>
    exact ⟨.new _ _ _ none, rfl, fun h => absurd h (lt_irrefl _), fun _ h => absurd h (lt_irrefl _),
      fun _ h => absurd h (lt_irrefl _)⟩
  | solve rf sf tout tret task st _ hf hx ih =>
    exact ⟨.call _ _ _ _ ih.1 hx, (time_call hl hm hk ih.1 ih.2 hf hx).1⟩
  | look rf sf op r _ hr hx ih =>
    refine ⟨.call _ _ _ _ ih.1 hx, ?_⟩
    obtain ⟨h1, h2, h3, h4, h5, h6⟩ := look_same hr hx
    obtain ⟨a, b, c, d⟩ := ih.2
    refine ⟨h6.trans a, by rw [h1, h2, h3, h5]; exact b, by rw [h1, h3, h4, h5]; exact c, fun hq hn => ?_⟩
    unfold rootTolerance
    rw [h1, h2, h4, h5]
    exact d hq (by rw [← h3]; exact hn)

/-- **C77 (partial).** In every session that goes forward (`Spec.Forward`), one more call of `solve` that goes forward and
returns `Ok`: it returns `Success` or `Root`, never `TStop`; the returned time is not before the time returned last, except
that a `Root` may be before it by no more than the root tolerance; and it is never after the internal time.

Missing: the exception, which does occur (`c77_forward_refuted`). -/
theorem c77_forward_partial (cfg : Cfg ν n q K) (hl : NlsLegal cfg) (hm : 0 ≤ cfg.hmaxInv) (hk : NlsKeepsLog cfg)
    (rf sf : Nat) (s s' : State ν n q K) (h : Forward cfg s) (tout tret : K) (task : Task) (st : Status)
    (hf : 0 < getNumSteps s → task = .normal → 0 ≤ (tout - s.tretlast) * getCurrentStep s)
    (hs : exec cfg rf sf s (.solve tout tret task) = some (s', .solved (.ok st))) :
    (st = .success ∨ st = .root) ∧ s'.tretlast = s'.tret ∧
    (0 < getNumSteps s → 0 ≤ (s'.tret - s.tretlast) * getCurrentStep s' ∨
      st = .root ∧ |s'.tret - s.tretlast| ≤ rootTolerance s) ∧
    0 ≤ (getCurrentTime s' - s'.tret) * getCurrentStep s' := by
  obtain ⟨h1, h2⟩ := forward_inv hl hm hk h
  obtain ⟨g1, g2, g3, g4⟩ := time_call hl hm hk h1 h2 hf hs
  have hn : 0 < s'.cnt.nst := solved_steps hs
  refine ⟨?_, g2, g4, ?_⟩
  · cases st with
    | success => exact Or.inl rfl
    | root => exact Or.inr rfl
    | tstop => exact absurd rfl g3
    | continueSteps => exact absurd (exec_solve hs) (c35_no_continue _ _ _ _ _ _ _)
  · have := g1.past hn
    rw [g2] at this
    exact this

/-- **C77 for `Success`.** The time returned with `Success` is never before the time returned last. -/
theorem c77_success (cfg : Cfg ν n q K) (hl : NlsLegal cfg) (hm : 0 ≤ cfg.hmaxInv) (hk : NlsKeepsLog cfg)
    (rf sf : Nat) (s s' : State ν n q K) (h : Forward cfg s) (tout tret : K) (task : Task)
    (hf : 0 < getNumSteps s → task = .normal → 0 ≤ (tout - s.tretlast) * getCurrentStep s)
    (hs : exec cfg rf sf s (.solve tout tret task) = some (s', .solved (.ok .success))) (hn : 0 < getNumSteps s) :
    0 ≤ (s'.tret - s.tretlast) * getCurrentStep s' := by
  rcases (c77_forward_partial cfg hl hm hk rf sf s s' h tout tret task _ hf hs).2.2.1 hn with h1 | ⟨h1, -⟩
  · exact h1
  · cases h1

end

/-! ## Concrete runs -/

section
attribute [local instance] ratParams ratEps

/-- The machine epsilon of the rational instance. -/
def tiny : ℚ := 1 / 4503599627370496

/-- Calls of `solve` (time and task) made one after the other, each of them forward and returning `Ok`. -/
def forwardRun (cfg : Cfg Nat 1 1 ℚ) : List (ℚ × Task) → State Nat 1 1 ℚ → Option (State Nat 1 1 ℚ)
  | [], s => some s
  | (tout, task) :: l, s =>
    if 0 < getNumSteps s ∧ task = .normal ∧ (tout - s.tretlast) * getCurrentStep s < 0 then none
    else match exec cfg 200 10 s (.solve tout 0 task) with
      | some (s', .solved (.ok _)) => forwardRun cfg l s'
      | _ => none

theorem forwardRun_forward {cfg : Cfg Nat 1 1 ℚ} (l : List (ℚ × Task)) {s s' : State Nat 1 1 ℚ} (hs : Forward cfg s)
    (h : forwardRun cfg l s = some s') : Forward cfg s' := by
  induction l generalizing s with
  | nil => cases h; exact hs
  | cons a l ih =>
    obtain ⟨tout, task⟩ := a
    unfold forwardRun at h
    split at h
    · cases h
    · rename_i hc
      split at h
      · rename_i s1 st h1
        refine ih (.solve 200 10 tout 0 task st hs (fun h2 h3 => ?_) h1) h
        by_contra hn
        exact hc ⟨h2, h3, not_le.mp hn⟩
      · cases h

theorem forwardRun_witness {cfg : Cfg Nat 1 1 ℚ} {l : List (ℚ × Task)} {a : Op ℚ}
    {P : State Nat 1 1 ℚ → State Nat 1 1 ℚ → Res 1 ℚ → Bool}
    (h : ((forwardRun cfg l timed0).bind fun s => (exec cfg 200 10 s a).map fun x => P s x.1 x.2) = some true) :
    ∃ s s' r, Forward cfg s ∧ exec cfg 200 10 s a = some (s', r) ∧ P s s' r = true := by
  cases h1 : forwardRun cfg l timed0 with
  | none => rw [h1] at h; cases h
  | some s =>
    rw [h1] at h
    obtain ⟨s', r, h2, h3⟩ := Witness.exec_one (P := fun s' r => P s s' r) h
    exact ⟨s, s', r, forwardRun_forward l (.new _ _ _) h1, h2, h3⟩

/-- The third step is first tried with a convergence failure. -/
def oneFailure : List (ℚ × Except Err Unit) := [(0, .ok ()), (0, .ok ()), recov]

theorem oneFailure_legal (g : ℚ → ℚ) : NlsLegal (timedCfg g oneFailure) := timed_legal _ _ (by
  intro p hp e he
  unfold oneFailure at hp
  simp only [List.mem_cons, List.not_mem_nil, or_false] at hp
  rcases hp with rfl | rfl | rfl
  · cases he
  · cases he
  · cases he; show Rec.lSolve ≠ Rec.constraint; decide)

/-- **C77: refutation.** Requests for `2 - 399 eps`, then `2`, then `9/4` succeed; the internal time before the last is 2.
The second request is so close to the first that no search is made between them.  The last call finds a root there, and
returns a time before 2. -/
theorem c77_forward_refuted : ∃ s s' : State Nat 1 1 ℚ,
    Forward (timedCfg (ramp (2 - 199 * tiny)) oneFailure) s ∧ s.tret = 2 ∧ s.tretlast = 2 ∧ getCurrentStep s = 2 ∧
    exec (timedCfg (ramp (2 - 199 * tiny)) oneFailure) 200 10 s (.solve (9 / 4) 0 .normal) = some (s', .solved (.ok .root)) ∧
    s'.tret < 2 ∧ 0 < getCurrentStep s' := by
  obtain ⟨s, s', r, h1, h2, h3⟩ := forwardRun_witness (cfg := timedCfg (ramp (2 - 199 * tiny)) oneFailure)
    (l := [(1000, .oneStep), (2 - 399 * tiny, .normal), (2, .normal)]) (a := .solve (9 / 4) 0 .normal)
    (P := fun s s' r => decide (s.tret = 2 ∧ s.tretlast = 2 ∧ getCurrentStep s = 2 ∧ Witness.Res.isStatus .root r = true ∧
      s'.tret < 2 ∧ 0 < getCurrentStep s')) (by decide +kernel)
  obtain ⟨a, b, c, d, e, f⟩ := of_decide_eq_true h3
  exact ⟨s, s', h1, a, b, c, by rw [h2, Witness.Res.isStatus_iff.mp d], e, f⟩

/-- The hypotheses of the theorems above are met: after a request for `5/2` and an internal time of at least 3, a forward
session with a root at `11/4` returns `Root` at that time, after `5/2`. -/
example : ∃ s s' : State Nat 1 1 ℚ,
    NlsLegal (timedCfg (ramp (11 / 4)) oneFailure) ∧ NlsKeepsLog (timedCfg (ramp (11 / 4)) oneFailure) ∧
    Forward (timedCfg (ramp (11 / 4)) oneFailure) s ∧ s.tretlast = 5 / 2 ∧ 0 < getNumSteps s ∧ 0 < getCurrentStep s ∧
    exec (timedCfg (ramp (11 / 4)) oneFailure) 200 10 s (.solve 100 0 .normal) = some (s', .solved (.ok .root)) ∧
    5 / 2 < s'.tret ∧ |s'.tret - 11 / 4| < 1 / 1000000 := by
  obtain ⟨s, s', r, h1, h2, h3⟩ := forwardRun_witness (cfg := timedCfg (ramp (11 / 4)) oneFailure)
    (l := [(1000, .oneStep), (3 / 2, .normal), (5 / 2, .normal)]) (a := .solve 100 0 .normal)
    (P := fun s s' r => decide (s.tretlast = 5 / 2 ∧ 0 < getNumSteps s ∧ 0 < getCurrentStep s ∧ Witness.Res.isStatus .root r = true ∧
      5 / 2 < s'.tret ∧ |s'.tret - 11 / 4| < 1 / 1000000)) (by decide +kernel)
  obtain ⟨a, b, c, d, e, f⟩ := of_decide_eq_true h3
  exact ⟨s, s', oneFailure_legal _, timed_keepsLog _ _, h1, a, b, c, by rw [h2, Witness.Res.isStatus_iff.mp d], e, f⟩

end
end Verif.Props
