import Verif.Proofs.FarStop
import Verif.Props.WithRoots

/-!
# A stop time does not influence the integration before it is in reach (C98)

Two solvers are constructed from the same data, the second one with a stop time `T`.  Both are first called with the same
`tout`, and both have then taken a step.  The first one has reached the state `s1`, and none of its attempts so far started
with a step beyond `T` (`StaysBefore T s1`).

The first two theorems hold for any scalar type, in particular for floating-point numbers: bit for bit.
-/

set_option autoImplicit false
set_option linter.unusedSectionVars false

namespace Verif.Props

open Verif Verif.Spec

universe u v

section
variable {ν : Type v} {n q : Nat} {K : Type u} [Scalar K] (cfg : Cfg ν n q K) (hb : NlsBlind cfg) (hw : FreshWeights cfg) (T : K)
  (nls0 : ν) (yy0 yp0 : Vec n K) (tout tr tr' : K) (task task' : Task) (rf sf rf' sf' : Nat)
  (a s1 b s2 : State ν n q K) (r r' : Res n K)
  (ha : exec cfg rf sf (State.new nls0 yy0 yp0) (.solve tout tr task) = some (a, r))
  (hb' : exec cfg rf' sf' { State.new nls0 yy0 yp0 with tstop := some T } (.solve tout tr' task') = some (b, r'))
  (na : 0 < getNumSteps a) (nb : 0 < getNumSteps b)
include hb hw ha hb' na nb

/-- **C98.** The solver with the stop time makes the attempts of the other one (with all their data), accepts the same
points, and has made more, or fewer, of them. -/
theorem c98_one_integration (h1 : Later cfg a s1) (h2 : Later cfg b s2) (hT : StaysBefore T s1) :
    (s1.g.atts <:+ s2.forget.g.atts ∧ s1.g.acc <:+ s2.g.acc) ∨ (s2.forget.g.atts <:+ s1.g.atts ∧ s2.g.acc <:+ s1.g.acc) := by
  obtain ⟨x0, e1, e2, e3, ⟨i, e4⟩, e5, -⟩ := first_begins hb hw ha na
  obtain ⟨j, z, g1, g2⟩ := later_nth_from hb hw e4 na e5 h1
  have hg := g2.g
  have hz : StaysBefore T z := fun x hx => hT x (by rw [hg]; exact hx)
  have hA := along_later hb hw (by omega) g1 hz (first_along hb hw e1 g1 hz hb' nb (fun h => h.elim)) h2
  rw [hg]
  rcases hA.at_ with ⟨k, x, hk, hx, hsim⟩ | ⟨l, f1, f2, -⟩
  · right
    obtain ⟨-, -, ⟨l, f1, -⟩, f2⟩ := iter_grows (by omega) hx (b := j - k) (by rw [Nat.add_sub_cancel' hk]; exact g1)
    have f3 : s2.forget.g = x.g := hsim.g
    have f4 : s2.forget.g.acc = x.g.acc := congrArg Ghost.acc f3
    exact ⟨⟨l, by rw [f3]; exact f1.symm⟩, by rw [← f4] at f2; exact f2⟩
  · left
    exact ⟨⟨l, f1.symm⟩, f2⟩

/-- **C98, same number of attempts.** If moreover the next step planned by the first solver does not end beyond `T`, and
both have made the same number of attempts, they are at the same point: nothing the users can ask about the integration
distinguishes them.  (`s2.forget` is `s2` with the stop time removed.) -/
theorem c98_same_attempts (h1 : Later cfg a s1) (h2 : Later cfg b s2) (hT : StaysBefore T s1)
    (hp : beyond T (getCurrentTime s1) (getCurrentStep s1) = false) (he : s1.g.atts.length = s2.g.atts.length) :
    SamePoint cfg s1 s2.forget := by
  obtain ⟨x0, e1, e2, e3, ⟨i, e4⟩, e5, -⟩ := first_begins hb hw ha na
  obtain ⟨j, z, g1, g2⟩ := later_nth_from hb hw e4 na e5 h1
  have hg := g2.g
  have hz : StaysBefore T z := fun x hx => hT x (by rw [hg]; exact hx)
  have hA := along_later hb hw (by omega) g1 hz (first_along hb hw e1 g1 hz hb' nb (fun h => h.elim)) h2
  have he' : z.g.atts.length = s2.forget.g.atts.length := by
    rw [← hg, he]
    show _ = (s2.g.atts.map Att.forget).length
    rw [List.length_map]
  have hp' : beyond T z.e.tn z.c.hh = false := by
    have q1 := g2.tn; have q2 := g2.c
    rw [← q1, ← q2]; exact hp
  rcases hA.at_ with ⟨k, x, hk, hx, hsim⟩ | ⟨l, f1, -, f3, -⟩
  · obtain ⟨-, -, ⟨l, f1, f2⟩, -⟩ := iter_grows (by omega) hx (b := j - k) (by rw [Nat.add_sub_cancel' hk]; exact g1)
    rw [f1, List.length_append, hsim.g] at he'
    have : k = j := by omega
    subst this
    rw [g1] at hx; cases hx
    exact samePoint_of_simW (g2.symm.trans hsim)
  · rw [f1, List.length_append] at he'
    exact absurd (List.length_eq_zero_iff.1 (by omega)) (f3 hp')

end

section
variable {ν : Type v} {n q : Nat} {K : Type u} [Field K] [LinearOrder K] [IsStrictOrderedRing K] [ExactParams K]
  [EpsLaws K]

/-- **C98, same answer** (exact arithmetic).  Both users finally call `solve(t, Normal)`, which takes at least one step and
returns `Success`.  If the attempts of the solver without stop time and its next planned step do not end beyond `T`, both
get the same solution vectors. -/
theorem c98_same_answer (cfg : Cfg ν n q K) (hb : NlsBlind cfg) (hw : FreshWeights cfg) (hl : NlsLegal cfg)
    (hm1 : 1 ≤ cfg.maxord) (hm : 0 ≤ cfg.hmaxInv) (T : K)
    (nls0 : ν) (yy0 yp0 : Vec n K) (tout tr tr' : K) (task task' : Task) (rf sf rf' sf' : Nat)
    (a s1 s1' b s2 s2' : State ν n q K) (r r' : Res n K)
    (ha : exec cfg rf sf (State.new nls0 yy0 yp0) (.solve tout tr task) = some (a, r))
    (hb' : exec cfg rf' sf' { State.new nls0 yy0 yp0 with tstop := some T } (.solve tout tr' task') = some (b, r'))
    (na : 0 < getNumSteps a) (nb : 0 < getNumSteps b)
    (fa : ∀ e, r = .solved (.error e) → e.isStepFailure = false)
    (fb : ∀ e, r' = .solved (.error e) → e.isStepFailure = false)
    (h1 : LaterOk cfg a s1) (h2 : LaterOk cfg b s2) (t x x' : K)
    (c1 : exec cfg rf sf s1 (.solve t x .normal) = some (s1', .solved (.ok .success)))
    (c2 : exec cfg rf' sf' s2 (.solve t x' .normal) = some (s2', .solved (.ok .success)))
    (n1 : getNumSteps s1 < getNumSteps s1') (n2 : getNumSteps s2 < getNumSteps s2')
    (hT : ∀ y ∈ s1'.g.atts, (y.t0 + y.hh - T) * y.hh ≤ 0)
    (hp : (getCurrentTime s1' + getCurrentStep s1' - T) * getCurrentStep s1' ≤ 0) :
    getYy s2' = getYy s1' ∧ getYp s2' = getYp s1' ∧ SamePoint cfg s1' s2'.forget := by
  have hbey : ∀ p h : K, (p + h - T) * h ≤ 0 → beyond T p h = false := by
    intro p h h0
    unfold beyond
    simp only [Scalar.gt, ex_lt, Bool.or_eq_false_iff, decide_eq_false_iff_not, not_lt]
    exact ⟨h0, h0.trans zero_le_one⟩
  have ra : ReachOk cfg a := .call rf sf _ _ (.new nls0 yy0 yp0 none) ha fa
  have rb : ReachOk cfg b := .call rf' sf' _ _ (.new nls0 yy0 yp0 (some T)) hb' fb
  obtain ⟨i1, y1⟩ := normal_in_last_step hl hm (h1.reachOk ra).reach c1 n1
  obtain ⟨i2, y2⟩ := normal_in_last_step hl hm (h2.reachOk rb).reach c2 n2
  have L1 : LaterOk cfg a s1' := .call rf sf _ _ h1 c1 (by intro e he; cases he)
  have L2 : LaterOk cfg b s2' := .call rf' sf' _ _ h2 c2 (by intro e he; cases he)
  have R1 := L1.reachOk ra
  have R2 := L2.reachOk rb
  have p1 : 0 < s1'.cnt.nst := Nat.lt_of_le_of_lt (Nat.zero_le _) n1
  have p2 : 0 < s2'.cnt.nst := Nat.lt_of_le_of_lt (Nat.zero_le _) n2
  have hS : SamePoint cfg s1' s2'.forget := by
    obtain ⟨x0, e1, e2, e3, -, e5, e4⟩ := first_begins hb hw ha na
    obtain ⟨i, e4⟩ := e4 fa
    obtain ⟨⟨j, z, g0, g2⟩, -, -⟩ := laterOk_nth_from hb hw e4 na e5 L1
    have g1 := iter_ok g0
    have hg := g2.g
    have hz : StaysBefore T z := fun x hx => hbey _ _ (hT x (by rw [hg]; exact hx))
    have hp' : beyond T z.e.tn z.c.hh = false := by
      have q1 := g2.tn; have q2 := g2.c
      rw [← q1, ← q2]; exact hbey _ _ hp
    have hA := along_laterOk hb hw (by omega) g1 hz (first_along hb hw e1 g1 hz hb' nb (fun _ => fb)) L2
    have hzn := g2.nst
    rcases hA.at_ with ⟨k, x, hk, hx, hsim⟩ | ⟨l, f1, f2, -, -, f3⟩
    · rcases Nat.lt_or_eq_of_le hk with hlt | rfl
      · exfalso
        obtain ⟨-, -, -, f2⟩ := iter_grows (by omega) hx (b := j - k) (by rw [Nat.add_sub_cancel' hk]; exact g1)
        have g3 := g0
        rw [show j = k + (j - k) by omega, iter_add] at g3
        obtain ⟨x', hx', -⟩ := Option.bind_eq_some_iff.1 g3
        have := iter_ok hx'
        rw [hx] at this; cases this
        have m1 := iter_nst hx'
        have m2 := iter_nst g0
        have m3 : s2'.cnt.nst = x.cnt.nst := hsim.nst
        have f4 : s2'.forget.g.acc = x.g.acc := congrArg Ghost.acc hsim.g
        rw [← f4] at f2
        exact ahead_not hl hm1 hm hl hm1 hm R2 R1 p2 p1 (by rw [hg]; exact f2) (by omega) i2 i1
      · rw [g1] at hx; cases hx
        exact samePoint_of_simW (g2.symm.trans hsim)
    · exfalso
      have := f3 hp' trivial
      exact ahead_not hl hm1 hm hl hm1 hm R1 R2 p1 p2 (by rw [hg]; exact f2) (by omega) i1 i2
  have hsol : solutionAt s2' t = solutionAt s1' t := by
    rw [← hS.solution t]
    unfold solutionAt getSolution
    rw [show badTime s2'.forget t = badTime s2' t from rfl]
    cases badTime s2' t with
    | true => rfl
    | false =>
      simp only [Bool.false_eq_true, if_false]
      rw [show s2'.forget.c = s2'.c from rfl]
      split
      · rename_i h
        split at h
        · rename_i h'; cases h; rw [if_pos h']; rfl
        · cases h
      · rename_i h
        split at h
        · exact absurd rfl (h _)
        · rename_i h'; rw [if_neg h']
  rw [y1, y2] at hsol
  have := Prod.mk.inj (Option.some.inj hsol)
  exact ⟨this.1, this.2, hS⟩

end

/-! ## A concrete case

`y' = -y` with the crate's Newton solver, without stop time and with the stop time `1/50`.  The first user takes a single
step, and both then ask for the solution at `1/200`. -/

section
open Witness

def farStop : ℚ := 1 / 50

def stopped0 : State (Newton (Vec 1 ℚ)) 1 0 ℚ := { decay0 with tstop := some farStop }

def untouched (s : State (Newton (Vec 1 ℚ)) 1 0 ℚ) (r : Res 1 ℚ) : Bool :=
  Res.isStatus .success r && decide (getNumSteps s = 4) &&
    s.g.atts.all (fun y => decide ((y.t0 + y.hh - farStop) * y.hh ≤ (0 : ℚ))) &&
    decide ((getCurrentTime s + getCurrentStep s - farStop) * getCurrentStep s ≤ (0 : ℚ))

def atOne (s : State (Newton (Vec 1 ℚ)) 1 0 ℚ) (r : Res 1 ℚ) : Bool :=
  Res.isStatus .success r && decide (getNumSteps s = 1) && ((exec decayCfg 10 10 s lastCall).map fun x => untouched x.1 x.2) == some true

example : ∃ a a' b b' : State (Newton (Vec 1 ℚ)) 1 0 ℚ,
    exec decayCfg 10 10 decay0 (.solve 1 0 .oneStep) = some (a, .solved (.ok .success)) ∧ getNumSteps a = 1 ∧
    exec decayCfg 10 10 stopped0 (.solve 1 0 .oneStep) = some (b, .solved (.ok .success)) ∧ getNumSteps b = 1 ∧
    b.tstop = some (1 / 50) ∧
    exec decayCfg 10 10 a lastCall = some (a', .solved (.ok .success)) ∧ getNumSteps a' = 4 ∧
    exec decayCfg 10 10 b lastCall = some (b', .solved (.ok .success)) ∧ getNumSteps b' = 4 ∧
    getYy b' = getYy a' ∧ getYp b' = getYp a' := by
  obtain ⟨a, ra, ha, pa⟩ := exec_one (cfg := decayCfg) (rf := 10) (sf := 10) (s := decay0) (a := .solve 1 0 .oneStep)
    (P := atOne) (by decide +kernel)
  obtain ⟨b, rb, hb, pb⟩ := exec_one (cfg := decayCfg) (rf := 10) (sf := 10) (s := stopped0) (a := .solve 1 0 .oneStep)
    (P := fun s r => atOne s r && decide (s.tstop = some (1 / 50))) (by decide +kernel)
  simp only [atOne, Bool.and_eq_true, decide_eq_true_eq, beq_iff_eq, Res.isStatus_iff] at pa pb
  obtain ⟨⟨rfl, na⟩, ea⟩ := pa
  obtain ⟨⟨⟨rfl, nb⟩, eb⟩, hst⟩ := pb
  obtain ⟨a', ra', ca, qa⟩ := exec_one (P := untouched) ea
  obtain ⟨b', rb', cb, qb⟩ := exec_one (P := untouched) eb
  simp only [untouched, Bool.and_eq_true, decide_eq_true_eq, Res.isStatus_iff, List.all_eq_true] at qa qb
  obtain ⟨⟨⟨rfl, ma⟩, ua⟩, va⟩ := qa
  obtain ⟨⟨⟨rfl, mb⟩, -⟩, -⟩ := qb
  obtain ⟨hB, hW⟩ := c66_newton decay (.ss (1 / 100) (1 / 100)) 3
  obtain ⟨e1, e2, -⟩ := c98_same_answer decayCfg hB hW (newton_legal _ _ _) (by decide) (by decide +kernel) farStop
    newton0 (fun _ => 1) (fun _ => -1) 1 0 0 .oneStep .oneStep 10 10 10 10 a a a' b b b' _ _ ha hb (by omega) (by omega)
    (by intro e h; cases h) (by intro e h; cases h) .refl .refl (1 / 200) 0 0 ca cb (by omega) (by omega) ua va
  exact ⟨a, a', b, b', ha, na, hb, nb, hst, ca, ma, cb, mb, e1, e2⟩

end

end Verif.Props
