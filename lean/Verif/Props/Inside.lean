import Verif.Props.Again

/-!
# Requests inside the last step (C110)

For a solver without root functions, `solve(tout, Normal)` with `tout` not beyond the internal time does what
`get_solution(tout)` does: it returns the same error, or stores the same values of the solution and its derivative.  No step
is taken and none of the user's functions is called.  The exception is `tout` equal to the time returned last: `solve` then
leaves `get_yy` as it is (C109, C42).
-/

set_option autoImplicit false
set_option linter.unusedSectionVars false
set_option linter.unusedSimpArgs false
set_option linter.unusedVariables false

namespace Verif.Props

open Verif Verif.Spec Verif.Witness

universe u v w

section
variable {ν : Type v} {n : Nat} {K : Type u} [Scalar K]

/-- `s'` is `s` with other values of `get_yy` and `get_yp`; the records of the last request (`tret`, `tretlast`, mode, requested
time, counter values for warnings) may differ, too. -/
def OnlyOutput {q : Nat} (s s' : State ν n q K) : Prop :=
  ∃ yy yp tl tr tc tk p, s' = { s with
    m.yy := yy, m.yp := yp, tretlast := tl, tret := tr, r.toutc := tc, r.taskc := tk, perf := p }

theorem inside_core (cfg : Cfg ν n 0 K) (rf sf : Nat) (s : State ν n 0 K) (tout tret : K) (hn : 0 < getNumSteps s)
    (hp : pastStop s = false) (hl : Scalar.eqb tout s.tretlast = false)
    (hi : Scalar.ge ((getCurrentTime s - tout) * getCurrentStep s) 0 = true) :
    (∀ s1, exec cfg rf sf s (.getSolution tout) = some (s1, .solution (.ok ())) →
      ∃ s2, exec cfg rf sf s (.solve tout tret .normal) = some (s2, .solved (.ok .success)) ∧ s2.tret = tout ∧
        s2.m.yy = s1.m.yy ∧ s2.m.yp = s1.m.yp ∧ OnlyOutput s s2) ∧
    (∀ s1 e, exec cfg rf sf s (.getSolution tout) = some (s1, .solution (.error e)) →
      ∃ s2, exec cfg rf sf s (.solve tout tret .normal) = some (s2, .solved (.error e)) ∧
        s2.m.yy = s.m.yy ∧ s2.m.yp = s.m.yp ∧ OnlyOutput s s2) := by
  have hn : s.cnt.nst ≠ 0 := Nat.pos_iff_ne_zero.1 hn
  have hstop : ∀ r, getSolution (perfReset (begun { s with tret := tret } tout .normal)) tout = r →
      stopTest1 (perfReset (begun { s with tret := tret } tout .normal)) tout .normal
      = r.bind fun s _ => .ret (s.setTret tout) (.ok .success) := by
    intro r hr
    unfold stopTest1
    rw [show pastStop (perfReset (begun { s with tret := tret } tout .normal)) = false from hp,
      show (perfReset (begun { s with tret := tret } tout .normal)).tretlast = s.tretlast from rfl, hl, hr]
    simp only [Bool.false_eq_true, if_false]
    rw [if_pos (show Scalar.ge (((perfReset (begun { s with tret := tret } tout .normal)).e.tn - tout)
      * (perfReset (begun { s with tret := tret } tout .normal)).c.hh) 0 = true from hi)]
  have hsolve : solve cfg rf sf { s with tret := tret } tout .normal
      = (Flow.ofStop (stopTest1 (perfReset (begun { s with tret := tret } tout .normal)) tout .normal)).andThen
        fun s1 => solveLoop cfg rf tout .normal sf s1 0 := by
    rw [solve_eq, if_neg hn]
    unfold laterCall
    rw [if_neg (by simp)]
  constructor
  · intro s1 h1
    have h1 : getSolution s tout = .ret s1 (.ok ()) := by
      unfold exec at h1
      simp only at h1
      split at h1
      · rename_i h2; cases h1; exact h2
      · cases h1
    rw [getSolution_eq] at h1
    split at h1
    · cases h1
    rename_i hb
    split at h1
    swap
    · cases h1
    rename_i hk
    cases h1
    have hg : getSolution (perfReset (begun { s with tret := tret } tout .normal)) tout
        = .ret (setSol (perfReset (begun { s with tret := tret } tout .normal)) tout) (.ok ()) := by
      have hb' : ¬ badTime (perfReset (begun { s with tret := tret } tout .normal)) tout = true := hb
      have hk' : kordOf (perfReset (begun { s with tret := tret } tout .normal)).c.kused < mxordp1 := hk
      rw [getSolution_eq, if_neg hb', if_pos hk']
    rw [hstop _ hg] at hsolve
    refine ⟨(setSol (perfReset (begun { s with tret := tret } tout .normal)) tout).setTret tout, ?_, rfl, rfl, rfl,
      (setSol s tout).m.yy, (setSol s tout).m.yp, tout, tout, tout, .normal, (perfReset s).perf, rfl⟩
    unfold exec
    simp only
    rw [hsolve]
    rfl
  · intro s1 e h1
    have h1 : getSolution s tout = .ret s1 (.error e) := by
      unfold exec at h1
      simp only at h1
      split at h1
      · rename_i h2; cases h1; exact h2
      · cases h1
    rw [getSolution_eq] at h1
    split at h1
    swap
    · split at h1 <;> cases h1
    rename_i hb
    cases h1
    have hg : getSolution (perfReset (begun { s with tret := tret } tout .normal)) tout
        = .ret (perfReset (begun { s with tret := tret } tout .normal)) (.error (.ida .badTimeValue)) := by
      have hb' : badTime (perfReset (begun { s with tret := tret } tout .normal)) tout = true := hb
      rw [getSolution_eq, if_pos hb']
    rw [hstop _ hg] at hsolve
    refine ⟨perfReset (begun { s with tret := tret } tout .normal), ?_, rfl, rfl, s.m.yy, s.m.yp, s.tretlast, tret, tout,
      .normal, (perfReset s).perf, rfl⟩
    unfold exec
    simp only
    rw [hsolve]
    rfl

/-- **C110, any arithmetic.** No root functions, no stop time; at least one step has been taken, `tout` is not beyond the
internal time and not the time returned last. -/
theorem c110_inside (cfg : Cfg ν n 0 K) (rf sf : Nat) (s : State ν n 0 K) (tout tret : K) (hn : 0 < getNumSteps s)
    (hs : s.tstop = none) (hl : Scalar.eqb tout s.tretlast = false)
    (hi : Scalar.ge ((getCurrentTime s - tout) * getCurrentStep s) 0 = true) :
    (∀ s1, exec cfg rf sf s (.getSolution tout) = some (s1, .solution (.ok ())) →
      ∃ s2, exec cfg rf sf s (.solve tout tret .normal) = some (s2, .solved (.ok .success)) ∧ s2.tret = tout ∧
        s2.m.yy = s1.m.yy ∧ s2.m.yp = s1.m.yp ∧ OnlyOutput s s2) ∧
    (∀ s1 e, exec cfg rf sf s (.getSolution tout) = some (s1, .solution (.error e)) →
      ∃ s2, exec cfg rf sf s (.solve tout tret .normal) = some (s2, .solved (.error e)) ∧
        s2.m.yy = s.m.yy ∧ s2.m.yp = s.m.yp ∧ OnlyOutput s s2) :=
  inside_core cfg rf sf s tout tret hn (by unfold pastStop; rw [hs]) hl hi

end

section
variable {ν : Type v} {n : Nat} {K : Type u} [Field K] [LinearOrder K] [IsStrictOrderedRing K] [ExactParams K]
  [EpsLaws K]

/-- **C110, exact arithmetic.** No root functions, with or without stop time, any history with at least one step. -/
theorem c110_inside_exact (cfg : Cfg ν n 0 K) (hl : NlsLegal cfg) (hm : 0 ≤ cfg.hmaxInv) (rf sf : Nat)
    (s : State ν n 0 K) (hs : Reach cfg s) (hn : 0 < getNumSteps s) (tout tret : K) (ht : tout ≠ s.tretlast)
    (hi : 0 ≤ (getCurrentTime s - tout) * getCurrentStep s) :
    (∀ s1, exec cfg rf sf s (.getSolution tout) = some (s1, .solution (.ok ())) →
      ∃ s2, exec cfg rf sf s (.solve tout tret .normal) = some (s2, .solved (.ok .success)) ∧ s2.tret = tout ∧
        s2.m.yy = s1.m.yy ∧ s2.m.yp = s1.m.yp ∧ OnlyOutput s s2) ∧
    (∀ s1 e, exec cfg rf sf s (.getSolution tout) = some (s1, .solution (.error e)) →
      ∃ s2, exec cfg rf sf s (.solve tout tret .normal) = some (s2, .solved (.error e)) ∧
        s2.m.yy = s.m.yy ∧ s2.m.yp = s.m.yp ∧ OnlyOutput s s2) := by
  refine inside_core cfg rf sf s tout tret hn ?_ (by simpa using ht) (by simpa using hi)
  unfold pastStop
  split
  · rename_i ts hts
    have := (c40_never_past cfg hl hm s hs).2 hn ts hts
    simp only [ex_lt, decide_eq_false_iff_not, not_lt]
    exact this
  · rfl

end

section
variable {ν : Type w} {n : Nat} {F : Type u} {K : Type v} [Scalar F] [Field K] [LinearOrder K] [IsStrictOrderedRing K]
  [S : Correct F K]

/-- **C110, floating-point arithmetic** (correctly rounded).  No root functions, with or without stop time, any history with
at least one step; `tout` is compared as a number, without rounding. -/
theorem c110_inside_float (cfg : Cfg ν n 0 F) (hl : NlsLegal cfg) (hm : 0 ≤ StdModel.val (K := K) cfg.hmaxInv)
    (rf sf : Nat) (s : State ν n 0 F) (hs : Reach cfg s) (hn : 0 < getNumSteps s) (tout tret : F)
    (ht : StdModel.val (K := K) tout ≠ StdModel.val (K := K) s.tretlast)
    (hi : 0 ≤ (StdModel.val (K := K) (getCurrentTime s) - StdModel.val (K := K) tout)
      * StdModel.val (K := K) (getCurrentStep s)) :
    (∀ s1, exec cfg rf sf s (.getSolution tout) = some (s1, .solution (.ok ())) →
      ∃ s2, exec cfg rf sf s (.solve tout tret .normal) = some (s2, .solved (.ok .success)) ∧ s2.tret = tout ∧
        s2.m.yy = s1.m.yy ∧ s2.m.yp = s1.m.yp ∧ OnlyOutput s s2) ∧
    (∀ s1 e, exec cfg rf sf s (.getSolution tout) = some (s1, .solution (.error e)) →
      ∃ s2, exec cfg rf sf s (.solve tout tret .normal) = some (s2, .solved (.error e)) ∧
        s2.m.yy = s.m.yy ∧ s2.m.yp = s.m.yp ∧ OnlyOutput s s2) := by
  have key : ∀ a b c : F, ∃ d : K, 0 < d ∧ StdModel.val (K := K) ((a - b) * c)
      = (StdModel.val (K := K) a - StdModel.val (K := K) b) * StdModel.val (K := K) c * d := by
    intro a b c
    obtain ⟨x, hx, -, e1⟩ := FlControl.sub_sign (K := K) a b
    obtain ⟨y, hy, -, -, e2⟩ := FlControl.mul_sign (K := K) (a - b) c
    exact ⟨x * y, mul_pos hx hy, by rw [e2, e1]; ring⟩
  refine inside_core cfg rf sf s tout tret hn ?_ ?_ ?_
  · unfold pastStop
    split
    · rename_i ts hts
      rw [← Bool.not_eq_true]
      intro h2
      have h2 : Scalar.lt 0 ((s.e.tn - ts) * s.c.hh) = true := h2
      rw [StdModel.lt_iff (K := K), StdModel.val_zero] at h2
      obtain ⟨d, hd, e⟩ := key s.e.tn ts s.c.hh
      rw [e] at h2
      exact absurd h2 (not_lt.2 (mul_nonpos_of_nonpos_of_nonneg
        ((c83_next_step (K := K) cfg hl hm s hs hn).2.2.2 ts hts) hd.le))
    · rfl
  · rw [← Bool.not_eq_true, StdModel.eq_iff (K := K)]
    exact ht
  · show Scalar.le 0 ((s.e.tn - tout) * s.c.hh) = true
    rw [StdModel.le_iff (K := K), StdModel.val_zero]
    obtain ⟨d, hd, e⟩ := key s.e.tn tout s.c.hh
    rw [e]
    exact mul_nonneg hi hd.le

end

/-! ## Witnesses -/

/-- Is the call of `get_solution` successful, with another first component than before? -/
def movesTo (s : State Nat 1 0 (Bin 21)) (t : Bin 21) : Bool :=
  match getSolution s t with
  | .ret s1 (.ok _) => decide ((s1.m.yy 0).v ≠ (s.m.yy 0).v)
  | _ => false

/-- Is the call of `get_solution` refused? -/
def refuses (s : State Nat 1 0 (Bin 21)) (t : Bin 21) : Bool :=
  match getSolution s t with
  | .ret _ (.error (.ida .badTimeValue)) => true
  | _ => false

/-- 22 bits, stop time 10, `solve(5, Normal)` goes to the internal time 7.  The request for 6 is answered without a step, with the
values `get_solution(6)` gives; the request for 1 is refused as `get_solution(1)` is. -/
example : ∃ s, Reach unitCfg s ∧ getNumSteps s = 4 ∧
    (∃ s1 s2, exec unitCfg 0 0 s (.getSolution (Bin.of 6)) = some (s1, .solution (.ok ())) ∧
      (s1.m.yy 0).v ≠ (s.m.yy 0).v ∧
      exec unitCfg 0 0 s (.solve (Bin.of 6) 0 .normal) = some (s2, .solved (.ok .success)) ∧ s2.m.yy = s1.m.yy ∧
      OnlyOutput s s2) ∧
    (∃ s2, exec unitCfg 0 0 s (.solve (Bin.of 1) 0 .normal) = some (s2, .solved (.error (.ida .badTimeValue)))) := by
  obtain ⟨s, r, h1, h4⟩ := exec_one (cfg := unitCfg) (rf := 10) (sf := 10) (a := .solve (Bin.of 5) 0 .normal)
    (s := { okBin0 21 with tstop := some (Bin.of 10) })
    (P := fun s1 r1 => Res.isStatus .success r1 &&
      decide (getNumSteps s1 = 4 ∧ (getCurrentTime s1).v = 7 ∧ (getCurrentStep s1).v = 3 ∧ s1.tretlast.v = 5 ∧
        (Bin.of 6 : Bin 21).v = 6 ∧ (Bin.of 1 : Bin 21).v = 1) &&
      movesTo s1 (Bin.of 6) && refuses s1 (Bin.of 1))
    (by decide +kernel)
  simp only [Bool.and_eq_true, decide_eq_true_eq, Res.isStatus_iff] at h4
  obtain ⟨⟨⟨rfl, g1, g2, g3, g4, g5, g6⟩, hm6⟩, hr1⟩ := h4
  have hR : Reach unitCfg s := .call 10 10 _ _ (.new 0 _ _ (some (Bin.of 10))) h1
  have hm : (0 : ℚ) ≤ unitCfg.hmaxInv.v := (Bin.of_pos (by norm_num)).le
  refine ⟨s, hR, g1, ?_, ?_⟩
  · unfold movesTo at hm6
    split at hm6
    · rename_i s1 _ hs1
      have he : exec unitCfg 0 0 s (.getSolution (Bin.of 6)) = some (s1, .solution (.ok ())) := by
        unfold exec; simp only [hs1]
      obtain ⟨s2, e1, -, e2, -, e3⟩ := (c110_inside_float (K := ℚ) unitCfg (okBin_legal 21 []) hm 0 0 s hR (by omega)
        (Bin.of 6) 0 (show (Bin.of 6 : Bin 21).v ≠ s.tretlast.v by rw [g4, g5]; norm_num)
        (show 0 ≤ ((getCurrentTime s).v - (Bin.of 6 : Bin 21).v) * (getCurrentStep s).v by
          rw [g2, g3, g5]; norm_num)).1 s1 he
      exact ⟨s1, s2, he, of_decide_eq_true hm6, e1, e2, e3⟩
    · cases hm6
  · unfold refuses at hr1
    split at hr1
    · rename_i s1 hs1
      have he : exec unitCfg 0 0 s (.getSolution (Bin.of 1)) = some (s1, .solution (.error (.ida .badTimeValue))) := by
        unfold exec; simp only [hs1]
      obtain ⟨s2, e1, -⟩ := (c110_inside_float (K := ℚ) unitCfg (okBin_legal 21 []) hm 0 0 s hR (by omega)
        (Bin.of 1) 0 (show (Bin.of 1 : Bin 21).v ≠ s.tretlast.v by rw [g4, g6]; norm_num)
        (show 0 ≤ ((getCurrentTime s).v - (Bin.of 1 : Bin 21).v) * (getCurrentStep s).v by
          rw [g2, g3, g6]; norm_num)).2 s1 _ he
      exact ⟨s2, e1⟩
    · cases hr1

end Verif.Props
