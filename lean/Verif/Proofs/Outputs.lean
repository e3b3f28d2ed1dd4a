import Verif.Proofs.Blind
import Verif.Proofs.Solve
import Verif.Proofs.CallLog
import Verif.Spec.Later

/-!
# The sequence of internal steps does not depend on the calls that cause it (any scalar type)

`advance` is one internal step from a state, with the weights of that state.  Every call from a state with at least one
step taken and no stop time leads to a state that is, up to the parts an internal step does not read, an iterate of
`advance`.
-/

set_option autoImplicit false
set_option linter.unusedSectionVars false
set_option linter.unusedSimpArgs false
set_option linter.unusedVariables false

namespace Verif

open Verif.Spec Relation

universe u v

section
variable {ν : Type v} {n q : Nat} {K : Type u} [Scalar K]

/-! ## What a step records -/

/-- What the record of an attempt that leads from `s` to `s'` adds. -/
theorem step_grows {cfg : Cfg ν n q K} {s s' : State ν n q K} {r : Except Err Unit} (hn : 0 < s.cnt.nst)
    (h : step cfg s = .ret s' r) : (∃ x l, s'.g.atts = x :: (l ++ s.g.atts)) ∧ s.g.acc <:+ s'.g.acc := by
  have hi := firstStepInit_cnt s
  have hfail : ∀ {t0 t1 : K} {s1 s4 s5 : State ν n q K} {err : Err} {a b : K} {f f' : Fails} {r : Except Err Unit},
      PassFailed cfg t0 s1 s4 err a b → handleNFlag cfg (restored s4 t1) err a b f = some (s5, f', r) → s5.g.acc = s1.g.acc := by
    intro t0 t1 s1 s4 s5 err a b f f' r h1 h2
    obtain ⟨-, -, e3, -⟩ := handleNFlag_same h2
    obtain ⟨s3, r, out, h3, -, -, h4⟩ := h1.tried
    rw [e3]
    show s4.g.acc = _
    rw [h4]
    show (s3.note t0 _ out).g.acc = _
    rw [h3.note_g]
  have key := step_rule (cfg := cfg)
    (fun s1 _ => (∃ l, s1.g.atts = l ++ s.g.atts) ∧ s1.g.acc = s.g.acc ∧ s1.cnt.nst = s.cnt.nst)
    (fun s1 => (∃ x l, s1.g.atts = x :: (l ++ s.g.atts)) ∧ s.g.acc <:+ s1.g.acc)
    (fun s1 _ => (∃ x l, s1.g.atts = x :: (l ++ s.g.atts)) ∧ s.g.acc <:+ s1.g.acc)
    ⟨⟨[], by rw [hi.2.1]; rfl⟩, by rw [hi.2.1], by rw [hi.1]⟩
    (fun s1 f s2 f' hI h => by
      obtain ⟨⟨l, e1⟩, e2, e3⟩ := hI
      obtain ⟨t0, m1, ee, r, out, -, -, e4, e5⟩ := attempt_again_attempted h
      obtain ⟨s4, err, a, b, s6, h1, h2, rfl⟩ := attempt_again h
      refine ⟨⟨_ :: l, by rw [e4, e1]; rfl⟩, ?_, by rw [e5, e3]⟩
      have h3 := hfail h1 h2
      split
      · exact h3.trans e2
      · exact h3.trans e2)
    (fun s1 f s2 ck a b s3 hI h hc => by
      obtain ⟨⟨l, e1⟩, e2, e3⟩ := hI
      obtain ⟨s4, h4, -, -, -, -, rfl⟩ := attempt_done h
      have hg := (completeStep_eq hc).g.trans (done_ghost h4)
      refine ⟨⟨attRec s1 s.e.tn s4.ee .accepted, l, ?_⟩, ?_⟩
      · show s3.g.atts = _
        rw [hg, e1]
      · show _ <:+ s3.g.acc
        rw [hg, if_neg (by omega), e2]
        exact List.suffix_cons _ _)
    (fun s1 f s2 e hI h => by
      obtain ⟨⟨l, e1⟩, e2, e3⟩ := hI
      obtain ⟨t0, m1, ee, r, out, -, -, e4, e5⟩ := attempt_fail_attempted h
      obtain ⟨s4, err, a, b, f', h1, h2⟩ := attempt_fail h
      exact ⟨⟨_, l, by rw [e4, e1]⟩, by rw [hfail h1 h2, e2]⟩) h
  rcases key with ⟨-, h⟩ | ⟨e, -, h⟩ <;> exact h

/-! ## States up to the parts a step does not read, and the weights -/

/-- The state with other weights. -/
def State.reweigh (s : State ν n q K) (w : Vec n K) : State ν n q K := { s with e.ewt := w }

/-- The states differ in the weights and in the parts a step does not read. -/
def SimW (s s' : State ν n q K) : Prop := ∃ w k, s' = (s.reweigh w).wear k

theorem SimW.refl (s : State ν n q K) : SimW s s := ⟨s.e.ewt, s.skin, rfl⟩
theorem SimW.symm {s s' : State ν n q K} (h : SimW s s') : SimW s' s := by
  obtain ⟨w, k, rfl⟩ := h; exact ⟨s.e.ewt, s.skin, rfl⟩
theorem SimW.trans {s s' s'' : State ν n q K} (h : SimW s s') (h' : SimW s' s'') : SimW s s'' := by
  obtain ⟨w, k, rfl⟩ := h; obtain ⟨w', k', rfl⟩ := h'; exact ⟨w', k', rfl⟩
theorem Sim.weaken {s s' : State ν n q K} (h : Sim s s') : SimW s s' := by
  obtain ⟨k, rfl⟩ := h; exact ⟨s.e.ewt, k, rfl⟩
theorem SimW.nst {s s' : State ν n q K} (h : SimW s s') : s'.cnt.nst = s.cnt.nst := by obtain ⟨w, k, rfl⟩ := h; rfl
theorem SimW.tstop {s s' : State ν n q K} (h : SimW s s') : s'.tstop = s.tstop := by obtain ⟨w, k, rfl⟩ := h; rfl
theorem SimW.g {s s' : State ν n q K} (h : SimW s s') : s'.g = s.g := by obtain ⟨w, k, rfl⟩ := h; rfl

theorem frame_wear {s s' : State ν n q K} (h : Frame s s') : SimW s s' := by
  refine ⟨s.e.ewt, s'.skin, ?_⟩
  have h1 := h.setupDone; have h2 := h.h; have h3 := h.c; have h4 := h.e; have h5 := h.m; have h6 := h.delta
  have h7 := h.ee; have h8 := h.cnt; have h9 := h.nls; have h10 := h.tstop; have h11 := h.epsNewt; have h12 := h.g; have h13 := h.h0u
  clear h
  rcases s with ⟨⟩
  rcases s' with ⟨⟩
  rename_i m _ _ _ _ _ _ _ _ _ _ _ _ _ _ _ _ _ m' _ _ _ _ _ _ _ _ _ _ _ _ _
  simp only at h1 h2 h3 h4 h5 h6 h7 h8 h9 h10 h11 h12 h13
  subst h1 h2 h3 h4 h6 h7 h8 h9 h10 h11 h12 h13
  have hm : m' = m.wear m'.yy m'.yp m'.log := by
    cases m; cases m'
    simp only [Mem.core, Mem.mk.injEq] at h5
    obtain ⟨-, -, a1, a2, a3, a4, a5, a6, a7, a8, a9, a10, a11, a12, -⟩ := h5
    subst a1 a2 a3 a4 a5 a6 a7 a8 a9 a10 a11 a12
    rfl
  simp only [State.wear, State.reweigh, State.skin]
  rw [← hm]

/-! ## The sequence of internal steps -/

/-- The weights are recomputed. -/
def State.fresh (cfg : Cfg ν n q K) (s : State ν n q K) : State ν n q K := s.reweigh (cfg.ewtSet (s.h.phi 0) s.e.ewt)

/-- One internal step, accepted or given up, with the weights of the state. -/
def advance (cfg : Cfg ν n q K) (s : State ν n q K) : Option (State ν n q K) :=
  match step cfg (s.fresh cfg) with
  | .ret s' _ => some s'
  | _ => none

/-- One accepted internal step. -/
def advanceOk (cfg : Cfg ν n q K) (s : State ν n q K) : Option (State ν n q K) :=
  match step cfg (s.fresh cfg) with
  | .ret s' (.ok _) => some s'
  | _ => none

/-- `k` applications. -/
def iter {S : Type u} (f : S → Option S) : Nat → S → Option S
  | 0, s => some s
  | k + 1, s => (iter f k s).bind f

theorem iter_add {S : Type u} (f : S → Option S) (a b : Nat) (s : S) : iter f (a + b) s = (iter f a s).bind (iter f b) := by
  induction b with
  | zero => simp [iter]
  | succ b ih =>
    rw [← Nat.add_assoc]
    simp only [iter]
    rw [ih, Option.bind_assoc]

theorem advanceOk_advance {cfg : Cfg ν n q K} {s s' : State ν n q K} (h : advanceOk cfg s = some s') : advance cfg s = some s' := by
  unfold advanceOk at h
  unfold advance
  split at h
  · rename_i h1
    cases h; rw [h1]
  · cases h

theorem iter_ok {cfg : Cfg ν n q K} {k : Nat} {s s' : State ν n q K} (h : iter (advanceOk cfg) k s = some s') :
    iter (advance cfg) k s = some s' := by
  induction k generalizing s' with
  | zero => exact h
  | succ k ih =>
    simp only [iter, Option.bind_eq_some_iff] at h ⊢
    obtain ⟨t, h1, h2⟩ := h
    exact ⟨t, ih h1, advanceOk_advance h2⟩

section
variable {cfg : Cfg ν n q K} (hb : NlsBlind cfg) (hw : FreshWeights cfg)
include hb hw

theorem step_simW {s s' : State ν n q K} (h : SimW s s') :
    Out.Rel Sim (step cfg (s.fresh cfg)) (step cfg (s'.fresh cfg)) := by
  obtain ⟨w, k, rfl⟩ := h
  have : State.fresh cfg ((s.reweigh w).wear k) = (s.fresh cfg).wear k := by
    unfold State.fresh
    show State.wear (s.reweigh (cfg.ewtSet (s.h.phi 0) w)) k = _
    rw [hw (s.h.phi 0) w s.e.ewt]
  rw [this]
  exact step_wear hb _ _

theorem advance_simW {s s' t : State ν n q K} (h : SimW s s') (ht : advance cfg s = some t) :
    ∃ t', advance cfg s' = some t' ∧ SimW t t' := by
  have h1 := step_simW hb hw h
  unfold advance at ht ⊢
  generalize step cfg (s.fresh cfg) = a at h1 ht ⊢
  generalize step cfg (s'.fresh cfg) = a' at h1 ⊢
  cases h1 with
  | panic => cases ht
  | diverge => cases ht
  | ret s s' r hr => cases ht; exact ⟨_, rfl, hr.weaken⟩

theorem iter_simW {k : Nat} {s s' t : State ν n q K} (h : SimW s s') (ht : iter (advance cfg) k s = some t) :
    ∃ t', iter (advance cfg) k s' = some t' ∧ SimW t t' := by
  induction k generalizing t with
  | zero => cases ht; exact ⟨_, rfl, h⟩
  | succ k ih =>
    simp only [iter, Option.bind_eq_some_iff] at ht ⊢
    obtain ⟨t1, h1, h2⟩ := ht
    obtain ⟨t1', h3, h4⟩ := ih h1
    obtain ⟨t', h5, h6⟩ := advance_simW hb hw h4 h2
    exact ⟨t', ⟨_, h3, h5⟩, h6⟩

theorem advanceOk_simW {s s' t : State ν n q K} (h : SimW s s') (ht : advanceOk cfg s = some t) :
    ∃ t', advanceOk cfg s' = some t' ∧ SimW t t' := by
  have h1 := step_simW hb hw h
  unfold advanceOk at ht ⊢
  generalize step cfg (s.fresh cfg) = a at h1 ht ⊢
  generalize step cfg (s'.fresh cfg) = a' at h1 ⊢
  cases h1 with
  | panic => cases ht
  | diverge => cases ht
  | ret s s' r hr =>
    cases r with
    | error e => cases ht
    | ok u => cases ht; exact ⟨_, rfl, hr.weaken⟩

/-- `s'` is, up to the parts a step does not read, the `k`-th iterate of accepted steps from `s`. -/
def Nth (cfg : Cfg ν n q K) (f : State ν n q K → Option (State ν n q K)) (k : Nat) (s s' : State ν n q K) : Prop :=
  ∃ t, iter f k s = some t ∧ SimW t s'

omit hb hw in
theorem weighed_fresh {s : State ν n q K} (hw : FreshWeights cfg) (h : Weighed cfg s) : s.fresh cfg = s := by
  obtain ⟨w, hw'⟩ := h.ewt
  unfold State.fresh
  rw [hw (s.h.phi 0) s.e.ewt w, ← hw']
  rfl

/-- A small transition from a state with a step taken and without stop time. -/
theorem micro_nth {s s0 s' : State ν n q K} {k : Nat} (hn : 0 < s.cnt.nst) (hs : s.tstop = none)
    (h0 : Nth cfg (advanceOk cfg) k s0 s) (h : Micro cfg s s') :
    (∃ k, Nth cfg (advanceOk cfg) k s0 s') ∧ 0 < s'.cnt.nst ∧ s'.tstop = none := by
  obtain ⟨t, ht, hsim⟩ := h0
  cases h with
  | frame hf =>
    have := frame_wear hf
    exact ⟨⟨k, t, ht, hsim.trans this⟩, by rw [this.nst]; exact hn, by rw [this.tstop]; exact hs⟩
  | perf => exact ⟨⟨k, t, ht, hsim.trans ⟨s.e.ewt, (perfReset s).skin, rfl⟩⟩, hn, hs⟩
  | clear =>
    have : ({ s with tstop := none } : State ν n q K) = s := by rw [← hs]
    rw [this]
    exact ⟨⟨k, t, ht, hsim⟩, hn, hs⟩
  | clamp ts _ h2 _ => rw [hs] at h2; cases h2
  | ewt => exact ⟨⟨k, t, ht, hsim.trans ⟨cfg.ewtSet (s.h.phi 0) s.e.ewt, s.skin, rfl⟩⟩, hn, hs⟩
  | first _ _ h1 _ => omega
  | firstStep _ h1 _ _ _ => omega
  | step _ _ h1 h2 =>
    have hq := step_quiet h1
    have h3 : advanceOk cfg s = some s' := by unfold advanceOk; rw [weighed_fresh hw h2, h1]
    obtain ⟨t', h4, h5⟩ := advanceOk_simW hb hw hsim.symm h3
    exact ⟨⟨k + 1, t', by simp only [iter]; rw [ht]; exact h4, h5.symm⟩, by rw [hq.2.1 rfl]; omega, by rw [hq.1.tstop]; exact hs⟩

theorem micros_nth {s s' s0 : State ν n q K} {k : Nat} (hn : 0 < s.cnt.nst) (hs : s.tstop = none)
    (h0 : Nth cfg (advanceOk cfg) k s0 s) (h : Micros cfg s s') :
    (∃ k, Nth cfg (advanceOk cfg) k s0 s') ∧ 0 < s'.cnt.nst ∧ s'.tstop = none := by
  induction h with
  | refl => exact ⟨⟨k, h0⟩, hn, hs⟩
  | tail _ h2 ih =>
    obtain ⟨⟨k, h3⟩, h4, h5⟩ := ih
    exact micro_nth hb hw h4 h5 h3 h2

/-- A call that does not report a failed step. -/
theorem exec_nthOk {s s' s0 : State ν n q K} {k rf sf : Nat} {op : Op K} {r : Res n K}
    (hn : 0 < s.cnt.nst) (hs : s.tstop = none)
    (h0 : Nth cfg (advanceOk cfg) k s0 s) (h : exec cfg rf sf s op = some (s', r))
    (hr : ∀ e, r = .solved (.error e) → e.isStepFailure = false) :
    (∃ k, Nth cfg (advanceOk cfg) k s0 s') ∧ 0 < s'.cnt.nst ∧ s'.tstop = none := by
  rcases exec_ends h with ⟨r', h1, h2⟩ | ⟨-, h2⟩
  · cases h2 with
    | clean h3 _ => exact micros_nth hb hw hn hs h0 h3
    | failed s1 s2 e h3 h4 _ h5 =>
      obtain ⟨-, h6, -⟩ := micros_nth hb hw hn hs h0 h3
      cases h4 with
      | firstStep _ _ h7 _ _ _ => omega
      | step _ _ _ h7 _ =>
        have := step_error_isStepFailure h7
        rw [hr e (by rw [h1, h5])] at this
        cases this
  · exact micros_nth hb hw hn hs h0 h2

omit hw in
theorem nth_trans {s s0 s' : State ν n q K} {k k' : Nat} (hw : FreshWeights cfg) (h : Nth cfg (advance cfg) k s0 s)
    (h' : Nth cfg (advance cfg) k' s s') : Nth cfg (advance cfg) (k + k') s0 s' := by
  obtain ⟨t, h1, h2⟩ := h
  obtain ⟨t', h3, h4⟩ := h'
  obtain ⟨t'', h5, h6⟩ := iter_simW hb hw h2.symm h3
  exact ⟨t'', by rw [iter_add, h1]; exact h5, h6.symm.trans h4⟩

theorem exec_nth {s s' s0 : State ν n q K} {k rf sf : Nat} {op : Op K} {r : Res n K} (hn : 0 < s.cnt.nst) (hs : s.tstop = none)
    (h0 : Nth cfg (advance cfg) k s0 s) (h : exec cfg rf sf s op = some (s', r)) :
    (∃ k, Nth cfg (advance cfg) k s0 s') ∧ 0 < s'.cnt.nst ∧ s'.tstop = none := by
  have hm : ∀ {s1 : State ν n q K}, Micros cfg s s1 → (∃ k, Nth cfg (advance cfg) k s0 s1) ∧ 0 < s1.cnt.nst ∧ s1.tstop = none := by
    intro s1 h1
    obtain ⟨⟨k', t, h2, h3⟩, h4, h5⟩ := micros_nth hb hw (k := 0) hn hs ⟨s, rfl, .refl s⟩ h1
    exact ⟨⟨k + k', nth_trans hb hw h0 ⟨t, iter_ok h2, h3⟩⟩, h4, h5⟩
  rcases exec_ends h with ⟨r', h1, h2⟩ | ⟨-, h2⟩
  · cases h2 with
    | clean h3 _ => exact hm h3
    | failed s1 s2 e h3 h4 h5 _ =>
      obtain ⟨⟨k, h6⟩, h7, h8⟩ := hm h3
      have h9 := frame_wear h5
      cases h4 with
      | firstStep _ _ h7 _ _ _ => omega
      | step _ _ _ h10 h11 =>
        have hq := step_quiet h10
        have h12 : advance cfg s1 = some s2 := by unfold advance; rw [weighed_fresh hw h11, h10]
        refine ⟨⟨k + 1, nth_trans hb hw h6 ⟨s2, ?_, h9⟩⟩, ?_, ?_⟩
        · simpa [iter] using h12
        · rw [h9.nst, (hq.2.2 e rfl).1]; exact h7
        · rw [h9.tstop, hq.1.tstop]; exact h8
  · exact hm h2

theorem later_nth {s0 s : State ν n q K} (hn : 0 < s0.cnt.nst) (hs : s0.tstop = none) (h : Later cfg s0 s) :
    (∃ k, Nth cfg (advance cfg) k s0 s) ∧ 0 < s.cnt.nst ∧ s.tstop = none := by
  induction h with
  | refl => exact ⟨⟨0, s0, rfl, .refl _⟩, hn, hs⟩
  | call rf sf op r _ he ih =>
    obtain ⟨⟨k, h1⟩, h2, h3⟩ := ih
    exact exec_nth hb hw h2 h3 h1 he

theorem laterOk_nth {s0 s : State ν n q K} (hn : 0 < s0.cnt.nst) (hs : s0.tstop = none)
    (h : LaterOk cfg s0 s) : (∃ k, Nth cfg (advanceOk cfg) k s0 s) ∧ 0 < s.cnt.nst ∧ s.tstop = none := by
  induction h with
  | refl => exact ⟨⟨0, s0, rfl, .refl _⟩, hn, hs⟩
  | call rf sf op r _ he hr ih =>
    obtain ⟨⟨k, h1⟩, h2, h3⟩ := ih
    exact exec_nthOk hb hw h2 h3 h1 he hr

omit hb hw in
/-- Later iterates have more attempts, and the accepted points of the earlier ones. -/
theorem iter_grows {s t t' : State ν n q K} {a b : Nat} (hn : 0 < s.cnt.nst) (ha : iter (advance cfg) a s = some t)
    (hb : iter (advance cfg) (a + b) s = some t') :
    0 < t.cnt.nst ∧ 0 < t'.cnt.nst ∧ (∃ l, t'.g.atts = l ++ t.g.atts ∧ b ≤ l.length) ∧ t.g.acc <:+ t'.g.acc := by
  have key : ∀ {s t : State ν n q K} {k : Nat}, 0 < s.cnt.nst → iter (advance cfg) k s = some t →
      0 < t.cnt.nst ∧ (∃ l, t.g.atts = l ++ s.g.atts ∧ k ≤ l.length) ∧ s.g.acc <:+ t.g.acc := by
    intro s t k hn h
    induction k generalizing t with
    | zero => cases h; exact ⟨hn, ⟨[], rfl, by simp⟩, List.suffix_refl _⟩
    | succ k ih =>
      simp only [iter, Option.bind_eq_some_iff] at h
      obtain ⟨t1, h1, h2⟩ := h
      obtain ⟨h3, ⟨l, h4, h5⟩, h6⟩ := ih h1
      unfold advance at h2
      split at h2
      · rename_i s2 r h7
        cases h2
        obtain ⟨⟨x, l', h8⟩, h9⟩ := step_grows (s := t1.fresh cfg) h3 h7
        have hq := step_quiet h7
        refine ⟨?_, ⟨x :: (l' ++ l), ?_, by simp; omega⟩, h6.trans h9⟩
        · cases r with
          | ok u => rw [hq.2.1 rfl]; omega
          | error e => rw [(hq.2.2 e rfl).1]; exact h3
        · rw [h8]
          show x :: (l' ++ t1.g.atts) = _
          rw [h4]; simp
      · cases h2
  rw [iter_add, ha] at hb
  obtain ⟨h1, -, -⟩ := key hn ha
  obtain ⟨h2, h3, h4⟩ := key h1 hb
  exact ⟨h1, h2, h3, h4⟩

omit hb hw in
theorem iter_nst {s t : State ν n q K} {k : Nat} (h : iter (advanceOk cfg) k s = some t) : t.cnt.nst = s.cnt.nst + k := by
  induction k generalizing t with
  | zero => cases h; rfl
  | succ k ih =>
    simp only [iter, Option.bind_eq_some_iff] at h
    obtain ⟨t1, h1, h2⟩ := h
    unfold advanceOk at h2
    split at h2
    · rename_i s2 u h7
      cases h2
      rw [(step_quiet h7).2.1 rfl]
      show t1.cnt.nst + 1 = _
      rw [ih h1]; omega
    · cases h2

/-- Two continuations of a state: one is ahead of the other. -/
theorem later_total {s s1 s2 : State ν n q K} (hn : 0 < s.cnt.nst) (hs : s.tstop = none) (h1 : Later cfg s s1)
    (h2 : Later cfg s s2) :
    (SimW s1 s2) ∨ (∃ l, l ≠ [] ∧ s2.g.atts = l ++ s1.g.atts ∧ s1.g.acc <:+ s2.g.acc) ∨
    (∃ l, l ≠ [] ∧ s1.g.atts = l ++ s2.g.atts ∧ s2.g.acc <:+ s1.g.acc) := by
  obtain ⟨⟨a, t1, e1, e2⟩, -, -⟩ := later_nth hb hw hn hs h1
  obtain ⟨⟨b, t2, f1, f2⟩, -, -⟩ := later_nth hb hw hn hs h2
  rcases Nat.lt_trichotomy a b with h | h | h
  · right; left
    obtain ⟨-, -, ⟨l, g1, g2⟩, g3⟩ := iter_grows hn e1 (b := b - a) (by rw [Nat.add_sub_cancel' h.le]; exact f1)
    refine ⟨l, ?_, by rw [f2.g, e2.g]; exact g1, by rw [f2.g, e2.g]; exact g3⟩
    rintro rfl; simp at g2; omega
  · left
    subst h
    rw [e1] at f1; cases f1
    exact e2.symm.trans f2
  · right; right
    obtain ⟨-, -, ⟨l, g1, g2⟩, g3⟩ := iter_grows hn f1 (b := a - b) (by rw [Nat.add_sub_cancel' h.le]; exact e1)
    refine ⟨l, ?_, by rw [f2.g, e2.g]; exact g1, by rw [f2.g, e2.g]; exact g3⟩
    rintro rfl; simp at g2; omega

/-- Equally many steps and no reported step failure: the same point of the same integration. -/
theorem laterOk_same {s s1 s2 : State ν n q K} (hn : 0 < s.cnt.nst) (hs : s.tstop = none)
    (h1 : LaterOk cfg s s1) (h2 : LaterOk cfg s s2) (he : s1.cnt.nst = s2.cnt.nst) : SimW s1 s2 := by
  obtain ⟨⟨a, t1, e1, e2⟩, -, -⟩ := laterOk_nth hb hw hn hs h1
  obtain ⟨⟨b, t2, f1, f2⟩, -, -⟩ := laterOk_nth hb hw hn hs h2
  have ha := iter_nst e1
  have hb' := iter_nst f1
  have : a = b := by have := e2.nst; have := f2.nst; omega
  subst this
  rw [e1] at f1; cases f1
  exact e2.symm.trans f2

end

end

end Verif
