import Verif.Proofs.Monotone
import Verif.Spec.Forward
import Verif.Spec.Driver
import Verif.Props.Monotone

/-!
# The example program
-/

set_option autoImplicit false
set_option linter.unusedSectionVars false
set_option linter.unusedSimpArgs false
set_option linter.unusedVariables false

namespace Verif.Proofs

open Verif Verif.Spec Verif.Props

universe u v

section
variable {ν : Type v} {n q : Nat} {K : Type u} [Scalar K]

/-- The rows of the table as a chain of calls: `Rows s tout tret l r` if the loop, entered with this object and these
variables, prints the rows `l` and ends with `r`. -/
inductive Rows (cfg : Cfg ν n q K) (rf sf : Nat) (factor : K) : State ν n q K → K → K → List (Row ν n q K) →
    Except Err Unit → Prop
  | error (s s' : State ν n q K) (tout tret : K) (e : Err) :
      exec cfg rf sf s (.solve tout tret .normal) = some (s', .solved (.error e)) →
      Rows cfg rf sf factor s tout tret [⟨s', .error e⟩] (.error e)
  | last (s s' : State ν n q K) (tout tret : K) :
      exec cfg rf sf s (.solve tout tret .normal) = some (s', .solved (.ok .success)) →
      Rows cfg rf sf factor s tout tret [⟨s', .ok .success⟩] (.ok ())
  | success (s s' : State ν n q K) (tout tret : K) (l : List (Row ν n q K)) (r : Except Err Unit) :
      exec cfg rf sf s (.solve tout tret .normal) = some (s', .solved (.ok .success)) →
      Rows cfg rf sf factor s' (tout * factor) s'.tret l r → Rows cfg rf sf factor s tout tret (⟨s', .ok .success⟩ :: l) r
  | other (s s' : State ν n q K) (tout tret : K) (st : Status) (l : List (Row ν n q K)) (r : Except Err Unit) :
      st ≠ .success → exec cfg rf sf s (.solve tout tret .normal) = some (s', .solved (.ok st)) →
      Rows cfg rf sf factor s' tout s'.tret l r → Rows cfg rf sf factor s tout tret (⟨s', .ok st⟩ :: l) r

theorem exec_solved {cfg : Cfg ν n q K} {rf sf : Nat} {s s' : State ν n q K} {tout tret : K} {task : Task} {r : Res n K}
    (h : exec cfg rf sf s (.solve tout tret task) = some (s', r)) : ∃ x, r = .solved x := by
  unfold exec at h
  simp only at h
  split at h
  · cases h; exact ⟨_, rfl⟩
  · cases h

/-- The loop, and the number and times of the successful calls. -/
theorem outputLoop_rows {cfg : Cfg ν n q K} {rf sf nout : Nat} {factor : K} (fuel : Nat) {s : State ν n q K} {iout : Nat}
    {tout tret : K} {l : List (Row ν n q K)} {r : Except Err Unit} (hi : iout < nout)
    (h : outputLoop cfg rf sf nout factor fuel s iout tout tret = some (l, r)) :
    Rows cfg rf sf factor s tout tret l r ∧
    (r = .ok () → (l.filter Row.isSuccess).map Row.t = outputTimes factor (nout - iout) tout) ∧
    (∀ e, r = .error e → ∃ k < nout - iout, (l.filter Row.isSuccess).map Row.t = outputTimes factor k tout) := by
  induction fuel generalizing s iout tout tret l r with
  | zero => cases h
  | succ fuel ih =>
    unfold outputLoop at h
    split at h
    · rename_i s' e hx
      cases h
      exact ⟨.error _ _ _ _ _ hx, fun h => (by cases h), fun e _ => ⟨0, by omega, rfl⟩⟩
    · rename_i s' st hx
      by_cases hst : st = .success
      · subst hst
        have ht : s'.tret = tout := (c35_normal_success cfg rf sf _ s' tout (exec_solve hx)).1
        simp only [if_true] at h
        split at h
        · rename_i hio
          cases h
          refine ⟨.last _ _ _ _ hx, fun _ => ?_, fun e h => by cases h⟩
          rw [show nout - iout = 1 by omega]
          show [s'.tret] = [tout]
          rw [ht]
        · rename_i hio
          obtain ⟨⟨l', r'⟩, h1, h2⟩ := Option.map_eq_some_iff.1 h
          cases h2
          obtain ⟨i1, i2, i3⟩ := ih (by omega) h1
          have e1 : nout - iout = (nout - (iout + 1)) + 1 := by omega
          refine ⟨.success _ _ _ _ _ _ hx i1, fun hr => ?_, fun e hr => ?_⟩
          · rw [e1]
            show s'.tret :: _ = tout :: _
            rw [ht, ← i2 hr]
          · obtain ⟨k, k1, k2⟩ := i3 e hr
            refine ⟨k + 1, by omega, ?_⟩
            show s'.tret :: _ = tout :: _
            rw [ht, ← k2]
      · simp only [if_neg hst] at h
        rw [if_neg (by omega)] at h
        obtain ⟨⟨l', r'⟩, h1, h2⟩ := Option.map_eq_some_iff.1 h
        cases h2
        obtain ⟨i1, i2, i3⟩ := ih hi h1
        have hs : Row.isSuccess (⟨s', .ok st⟩ : Row ν n q K) = false := by
          unfold Row.isSuccess
          cases st <;> first | rfl | exact absurd rfl hst
        refine ⟨.other _ _ _ _ _ _ _ hst hx i1, fun hr => ?_, fun e hr => ?_⟩
        · rw [List.filter_cons_of_neg (by rw [hs]; simp)]; exact i2 hr
        · rw [List.filter_cons_of_neg (by rw [hs]; simp)]; exact i3 e hr
    · cases h

theorem Rows.errors {cfg : Cfg ν n q K} {rf sf : Nat} {factor : K} {s : State ν n q K} {tout tret : K}
    {l : List (Row ν n q K)} {r : Except Err Unit} (h : Rows cfg rf sf factor s tout tret l r) :
    (r = .ok () → (∀ x ∈ l, Row.isError x = false) ∧ ∃ x, l.getLast? = some x ∧ Row.isSuccess x = true) ∧
    (∀ e, r = .error e → ∃ l' x, l = l' ++ [x] ∧ x.res = .error e ∧ ∀ y ∈ l', Row.isError y = false) := by
  induction h with
  | error s s' tout tret e hx =>
    exact ⟨fun h => (by cases h), fun e h => ⟨[], _, rfl, by cases h; rfl, by simp⟩⟩
  | last s s' tout tret hx =>
    exact ⟨fun _ => ⟨by simp [Row.isError], _, rfl, rfl⟩, fun e h => by cases h⟩
  | success s s' tout tret l r hx hr ih =>
    refine ⟨fun h => ?_, fun e h => ?_⟩
    · obtain ⟨h1, x, h2, h3⟩ := ih.1 h
      refine ⟨by simp [Row.isError]; exact h1, x, ?_, h3⟩
      rw [List.getLast?_cons, h2]; rfl
    · obtain ⟨l', x, rfl, h2, h3⟩ := ih.2 e h
      exact ⟨_ :: l', x, rfl, h2, by simp [Row.isError]; exact h3⟩
  | other s s' tout tret st l r hst hx hr ih =>
    refine ⟨fun h => ?_, fun e h => ?_⟩
    · obtain ⟨h1, x, h2, h3⟩ := ih.1 h
      refine ⟨by simp [Row.isError]; exact h1, x, ?_, h3⟩
      rw [List.getLast?_cons, h2]; rfl
    · obtain ⟨l', x, rfl, h2, h3⟩ := ih.2 e h
      exact ⟨_ :: l', x, rfl, h2, by simp [Row.isError]; exact h3⟩

theorem Rows.reachFrom {cfg : Cfg ν n q K} {rf sf : Nat} {factor : K} {s : State ν n q K} {tout tret : K}
    {l : List (Row ν n q K)} {r : Except Err Unit} (h : Rows cfg rf sf factor s tout tret l r) {y0 yp0 : Vec n K}
    (hs : ReachFrom cfg y0 yp0 s) : ∀ x ∈ l, ReachFrom cfg y0 yp0 x.obj := by
  induction h with
  | error s s' tout tret e hx =>
    intro x h
    rw [List.mem_singleton] at h
    subst h
    exact .call _ _ _ _ hs hx
  | last s s' tout tret hx =>
    intro x h
    rw [List.mem_singleton] at h
    subst h
    exact .call _ _ _ _ hs hx
  | success s s' tout tret l r hx hr ih =>
    intro x h
    rcases List.mem_cons.1 h with rfl | h
    · exact .call _ _ _ _ hs hx
    · exact ih (.call _ _ _ _ hs hx) x h
  | other s s' tout tret st l r hst hx hr ih =>
    intro x h
    rcases List.mem_cons.1 h with rfl | h
    · exact .call _ _ _ _ hs hx
    · exact ih (.call _ _ _ _ hs hx) x h

end

section
variable {ν : Type v} {n q : Nat} {K : Type u} [Field K] [LinearOrder K] [IsStrictOrderedRing K] [ExactParams K]
  [EpsLaws K]

/-- A root is not returned after the time asked for. -/
theorem root_not_past {cfg : Cfg ν n q K} (hl : NlsLegal cfg) (hm : 0 ≤ cfg.hmaxInv) (hk : NlsKeepsLog cfg) {rf sf : Nat}
    {s s' : State ν n q K} (hs : Reach cfg s) (hI : TimeInv s) {tout tret : K}
    (hf : 0 < s.cnt.nst → 0 ≤ (tout - s.tretlast) * s.c.hh)
    (h : exec cfg rf sf s (.solve tout tret .normal) = some (s', .solved (.ok .root))) :
    0 ≤ (tout - s'.tret) * s'.c.hh := by
  by_cases hlt : s.cnt.nst < s'.cnt.nst
  · exact (c49_root_times cfg hl hm hk rf sf s s' hs tout tret .normal h hlt).2.2.1 rfl
  · have hn : 0 < s.cnt.nst := by
      have := solved_steps h
      unfold getNumSteps at this
      omega
    have hC := hs.ctl hl hm
    have h0' : s.c.hh ≠ 0 := left_ne_zero_of_mul (hC.used hn).ne'
    have hf := hf hn
    have hp := hI.past hn
    obtain ⟨f1, f2, f3, f4, f5, f6, f7, f8, f9⟩ := beginLater_same { s with tret := tret } tout .normal
    have hb : Pending { s with tret := tret } tout .normal (beginLater { s with tret := tret } tout .normal) :=
      (begun_pending _ tout .normal).quiet (by quiet_rfl)
    obtain ⟨-, hO⟩ := exec_root hl hm hk hs h
    cases hO with
    | close e _ _ _ h5 => cases h5
    | recheck s1 hq hn1 h3 hf' h4 h5 h6 =>
      subst h5
      have hlo := hI.lo hq hn
      show 0 ≤ (tout - s1.r.tlo) * s1.c.hh
      have e1 : s1.r.tlo = s.r.tlo := h4
      rw [hf'.c, f3, e1]
      show 0 ≤ (tout - s.r.tlo) * s.c.hh
      linarith
    | rest s1 s2 hq hn1 h3 hf' hqt h4 h5 h6 h7 h8 h9 h10 h11 =>
      subst h10
      have hlo := hI.lo hq hn
      obtain ⟨b, b1, b2, b3⟩ := h9.pos
      have c1 : s1.c.hh = s.c.hh := by rw [hf'.c, f3]
      have l1 : s1.r.tlo = s.r.tlo := h4
      show 0 ≤ (tout - s2.r.tlo) * s2.c.hh
      have k6 : 0 ≤ (tout - searchEnd s1) * s.c.hh := by
        unfold searchEnd
        rw [hqt.taskc, hqt.toutc, hb.taskc, hb.toutc rfl, c1]
        simp only [Scalar.ge, ex_le, decide_eq_true_eq]
        split
        · rename_i h6; exact h6
        · simp
      have k7 : 0 ≤ (tout - s.r.tlo) * s.c.hh := by linarith
      have : tout - s2.r.tlo = b * (tout - searchEnd s1) + (1 - b) * (tout - s.r.tlo) := by
        rw [b3, l1]; ring
      rw [h9.frame.c, c1, this, add_mul, mul_assoc, mul_assoc]
      exact add_nonneg (mul_nonneg b1.le k6) (mul_nonneg (sub_nonneg.2 b2) k7)
    | stepped p s1 hq hA hS h4 h5 =>
      exfalso
      apply hlt
      subst h4
      show s.cnt.nst < s1.cnt.nst
      rw [hS.frame.cnt]
      exact hA.nst
    | none h1 _ => exact absurd rfl h1

/-- One pass of the loop: the time returned is not after the one asked for, the integration goes forward. -/
theorem pass_forward {cfg : Cfg ν n q K} (hl : NlsLegal cfg) (hm : 0 ≤ cfg.hmaxInv) (hk : NlsKeepsLog cfg) {rf sf : Nat}
    {s s' : State ν n q K} (hF : Forward cfg s) {tout tret : K} (h0 : 0 < tout)
    (hs : 0 < s.cnt.nst → 0 < s.c.hh ∧ s.tretlast ≤ tout) {st : Status}
    (h : exec cfg rf sf s (.solve tout tret .normal) = some (s', .solved (.ok st))) :
    Forward cfg s' ∧ 0 < s'.c.hh ∧ s'.tretlast = s'.tret ∧ s'.tret ≤ tout ∧
    (0 < s.cnt.nst → s.tretlast ≤ s'.tret ∨ st = .root ∧ s.tretlast - s'.tret ≤ rootTolerance s) := by
  have hf : 0 < getNumSteps s → Task.normal = .normal → 0 ≤ (tout - s.tretlast) * getCurrentStep s := by
    intro hn _
    obtain ⟨h1, h2⟩ := hs hn
    exact mul_nonneg (sub_nonneg.2 h2) h1.le
  obtain ⟨hR, hI⟩ := forward_inv hl hm hk hF
  obtain ⟨g1, g2, g3, g4⟩ := c77_forward_partial cfg hl hm hk rf sf s s' hF tout tret .normal st hf h
  have hn' : 0 < s'.cnt.nst := solved_steps h
  have hh : 0 < s'.c.hh := by
    by_cases hn : 0 < s.cnt.nst
    · have := (exec_onward hl hm hR hn h).dir
      exact (pos_iff_pos_of_mul_pos this).1 (hs hn).1
    · have := c29_first_direction cfg hl hm rf sf s s' tout tret .normal _ hR (show s.cnt.nst = 0 by omega) hn' h
      exact (pos_iff_pos_of_mul_pos this).1 h0
  refine ⟨.solve rf sf tout tret .normal st hF hf h, hh, g2, ?_, fun hn => ?_⟩
  · rcases g1 with rfl | rfl
    · exact (c35_normal_success cfg rf sf _ s' tout (exec_solve h)).1.le
    · have := root_not_past hl hm hk hR hI (fun hn => hf hn rfl) h
      exact sub_nonneg.1 (nonneg_of_mul_nonneg_left this hh)
  · rcases g3 hn with h1 | ⟨h1, h2⟩
    · exact Or.inl (sub_nonneg.1 (nonneg_of_mul_nonneg_left h1 hh))
    · exact Or.inr ⟨h1, by rw [abs_sub_comm] at h2; exact (le_abs_self _).trans h2⟩

/-- Two rows in a row. -/
structure NextRow (x y : Row ν n q K) : Prop where
  forward : Row.isError y = false → x.t ≤ y.t ∨ y.res = .ok .root ∧ x.t - y.t ≤ rootTolerance x.obj
  value : Row.isSuccess y = true → y.t ≠ x.t → solutionAt y.obj y.t = some (y.y, getYp y.obj)
  steps : x.nst ≤ y.nst

theorem Rows.good {cfg : Cfg ν n q K} (hl : NlsLegal cfg) (hm : 0 ≤ cfg.hmaxInv) (hk : NlsKeepsLog cfg) {rf sf : Nat}
    {factor : K} (h1 : 1 ≤ factor) {s : State ν n q K} {tout tret : K} {l : List (Row ν n q K)} {r : Except Err Unit}
    (h : Rows cfg rf sf factor s tout tret l r) (hF : Forward cfg s) (h0 : 0 < tout)
    (hs : 0 < s.cnt.nst → 0 < s.c.hh ∧ s.tretlast ≤ tout) :
    (∀ x ∈ l, Row.isSuccess x = true → tout ≤ x.t) ∧
    l.Pairwise (fun x y => Row.isSuccess y = true → x.t ≤ y.t) ∧ (∀ st, s.tretlast = s.tret → 0 < s.cnt.nst → List.IsChain NextRow (⟨s, .ok st⟩ :: l)) ∧
    List.IsChain NextRow l ∧
    (∀ x, l.head? = some x → Row.isSuccess x = true → tout ≠ s.tretlast → solutionAt x.obj x.t = some (x.y, getYp x.obj)) := by
  have hR := (forward_inv hl hm hk hF).1
  have val : ∀ {s s' : State ν n q K} {tout tret : K}, Reach cfg s →
      exec cfg rf sf s (.solve tout tret .normal) = some (s', .solved (.ok .success)) → tout ≠ s.tretlast →
      solutionAt s' s'.tret = some (s'.m.yy, s'.m.yp) := by
    intro s s' tout tret hR hx ht
    rw [show s'.tret = tout from (c35_normal_success cfg rf sf _ s' tout (exec_solve hx)).1]
    exact c42_normal_partial cfg hl hm rf sf s s' hR tout tret hx ht
  induction h with
  | error s s' tout tret e hx =>
    refine ⟨by simp [Row.isSuccess], by simp, fun st _ _ => ?_, by simp, by simp [Row.isSuccess]⟩
    refine List.isChain_pair.2 ⟨fun h => ?_, fun h => ?_, (c31_counters_monotone cfg hl rf sf _ _ _ _ hx).1⟩
    · cases h
    · cases h
  | last s s' tout tret hx =>
    have ht : s'.tret = tout := (c35_normal_success cfg rf sf _ s' tout (exec_solve hx)).1
    obtain ⟨p1, p2, p3, p4, p5⟩ := pass_forward hl hm hk hF h0 hs hx
    refine ⟨by simp [Row.t, ht], by simp, fun st hst hn => ?_, by simp, ?_⟩
    · refine List.isChain_pair.2 ⟨fun _ => ?_, fun _ h => ?_, (c31_counters_monotone cfg hl rf sf _ _ _ _ hx).1⟩
      · rw [hst] at p5
        rcases p5 hn with h | ⟨h, -⟩
        · exact Or.inl h
        · cases h
      · exact val hR hx (by rw [← ht, hst]; exact h)
    · rintro x hx' _ hne
      cases hx'
      exact val hR hx hne
  | success s s' tout tret l r hx hr ih =>
    have ht : s'.tret = tout := (c35_normal_success cfg rf sf _ s' tout (exec_solve hx)).1
    obtain ⟨p1, p2, p3, p4, p5⟩ := pass_forward hl hm hk hF h0 hs hx
    have hle : tout ≤ tout * factor := by nlinarith
    obtain ⟨i1, i2, i3, i4, i5⟩ := ih p1 (by nlinarith) (fun _ => ⟨p2, by rw [p3]; linarith⟩) (forward_inv hl hm hk p1).1
    have hn' : 0 < s'.cnt.nst := solved_steps hx
    refine ⟨?_, ?_, fun st hst hn => ?_, i3 _ p3 hn', ?_⟩
    · intro x hx'
      rcases List.mem_cons.1 hx' with rfl | hx'
      · exact fun _ => ht.ge
      · exact fun h => hle.trans (i1 x hx' h)
    · refine List.pairwise_cons.2 ⟨fun y hy hs => ?_, i2⟩
      show s'.tret ≤ y.t
      rw [ht]
      exact hle.trans (i1 y hy hs)
    · refine List.isChain_cons_cons.2 ⟨⟨fun _ => ?_, fun _ h => ?_, (c31_counters_monotone cfg hl rf sf _ _ _ _ hx).1⟩, i3 _ p3 hn'⟩
      · rw [hst] at p5
        rcases p5 hn with h | ⟨h, -⟩
        · exact Or.inl h
        · cases h
      · exact val hR hx (by rw [← ht, hst]; exact h)
    · rintro x hx' _ hne
      cases hx'
      exact val hR hx hne
  | other s s' tout tret st l r hne hx hr ih =>
    obtain ⟨p1, p2, p3, p4, p5⟩ := pass_forward hl hm hk hF h0 hs hx
    obtain ⟨i1, i2, i3, i4, i5⟩ := ih p1 h0 (fun _ => ⟨p2, by rw [p3]; exact p4⟩) (forward_inv hl hm hk p1).1
    have hn' : 0 < s'.cnt.nst := solved_steps hx
    have hs' : Row.isSuccess (⟨s', .ok st⟩ : Row ν n q K) = false := by
      unfold Row.isSuccess
      cases st <;> first | rfl | exact absurd rfl hne
    refine ⟨?_, ?_, fun st' hst hn => ?_, i3 _ p3 hn', ?_⟩
    · intro x hx'
      rcases List.mem_cons.1 hx' with rfl | hx'
      · intro h; rw [hs'] at h; cases h
      · exact i1 x hx'
    · refine List.pairwise_cons.2 ⟨fun y hy hs => ?_, i2⟩
      exact p4.trans (i1 y hy hs)
    · refine List.isChain_cons_cons.2 ⟨⟨fun _ => ?_, fun h => ?_, (c31_counters_monotone cfg hl rf sf _ _ _ _ hx).1⟩, i3 _ p3 hn'⟩
      · rw [hst] at p5
        rcases p5 hn with h | ⟨h, h'⟩
        · exact Or.inl h
        · exact Or.inr ⟨by rw [h], h'⟩
      · rw [hs'] at h; cases h
    · rintro x hx' h
      cases hx'
      rw [hs'] at h; cases h

end
end Verif.Proofs
