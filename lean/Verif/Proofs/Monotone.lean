import Verif.Props.Root

/-!
# Output times of a session that only goes forward
-/

set_option autoImplicit false
set_option linter.unusedSectionVars false
set_option linter.unusedSimpArgs false
set_option linter.unusedVariables false

namespace Verif.Proofs

open Verif Verif.Spec Verif.Props

universe u v

section
variable {ν : Type v} {n q : Nat} {K : Type u} [Field K] [LinearOrder K] [IsStrictOrderedRing K] [ExactParams K]
  [EpsLaws K]

/-- The last returned time lies between the start of the next root search and the internal time; the search starts there,
unless the internal time is not farther than the root tolerance. -/
structure TimeInv (s : State ν n q K) : Prop where
  stop : s.tstop = none
  past : 0 < s.cnt.nst → 0 ≤ (s.e.tn - s.tretlast) * s.c.hh
  lo : 0 < q → 0 < s.cnt.nst → 0 ≤ (s.tretlast - s.r.tlo) * s.c.hh
  near : 0 < q → 0 < s.cnt.nst → s.r.tlo = s.tretlast ∨ |s.e.tn - s.r.tlo| ≤ rootTolerance s

theorem same_sign {h h' x : K} (hh : 0 < h * h') (hx : 0 ≤ x * h) : 0 ≤ x * h' := by
  by_contra hc
  push Not at hc
  have h1 : 0 < h' * h' := mul_self_pos.2 (right_ne_zero_of_mul hh.ne')
  nlinarith [mul_nonneg hx hh.le, mul_pos hh (neg_pos.2 hc), mul_self_nonneg h]

theorem abs_between {a b c d h : K} (h0 : h ≠ 0) (h1 : 0 ≤ (b - a) * h) (h2 : 0 ≤ (c - b) * h) (h3 : 0 ≤ (d - c) * h) :
    |c - b| ≤ |d - a| := by
  rcases lt_or_gt_of_ne h0 with hh | hh
  · have e1 : b - a ≤ 0 := by by_contra hc; push Not at hc; exact absurd h1 (not_le.2 (mul_neg_of_pos_of_neg hc hh))
    have e2 : c - b ≤ 0 := by by_contra hc; push Not at hc; exact absurd h2 (not_le.2 (mul_neg_of_pos_of_neg hc hh))
    have e3 : d - c ≤ 0 := by by_contra hc; push Not at hc; exact absurd h3 (not_le.2 (mul_neg_of_pos_of_neg hc hh))
    rw [abs_of_nonpos e2, abs_of_nonpos (by linarith)]; linarith
  · have e1 : 0 ≤ b - a := by by_contra hc; push Not at hc; exact absurd h1 (not_le.2 (mul_neg_of_neg_of_pos hc hh))
    have e2 : 0 ≤ c - b := by by_contra hc; push Not at hc; exact absurd h2 (not_le.2 (mul_neg_of_neg_of_pos hc hh))
    have e3 : 0 ≤ d - c := by by_contra hc; push Not at hc; exact absurd h3 (not_le.2 (mul_neg_of_neg_of_pos hc hh))
    rw [abs_of_nonneg e2, abs_of_nonneg (by linarith)]; linarith

theorem far_iff (s : State ν n q K) : farFromLast s = true ↔ rootTolerance s < |s.e.tn - s.tretlast| := by
  rw [← rootTol_eq]
  unfold farFromLast rootTol
  simp [Scalar.gt]

/-- The end of the search in a call that goes forward. -/
theorem searchEnd_forward {s : State ν n q K} {tout : K} {task : Task} (h1 : task = .normal → s.r.toutc = tout)
    (h2 : s.r.taskc = task) (h3 : 0 ≤ (s.e.tn - s.tretlast) * s.c.hh)
    (h4 : task = .normal → 0 ≤ (tout - s.tretlast) * s.c.hh) : 0 ≤ (searchEnd s - s.tretlast) * s.c.hh := by
  unfold searchEnd
  rw [h2]
  cases task with
  | normal =>
    simp only
    split
    · exact h3
    · rw [h1 rfl]; exact h4 rfl
  | oneStep => exact h3

theorem searchEnd_reached {s : State ν n q K} {tout : K} (h1 : s.r.toutc = tout) (h2 : s.r.taskc = .normal)
    (h0 : s.c.hh ≠ 0) (h3 : 0 ≤ (s.e.tn - tout) * s.c.hh) : searchEnd s = tout := by
  unfold searchEnd
  rw [h2, h1]
  simp only [Scalar.ge, ex_le, decide_eq_true_eq]
  split
  · rename_i h4
    have : (s.e.tn - tout) * s.c.hh = 0 := by linarith
    have := (mul_eq_zero.1 this).resolve_right h0
    linarith
  · rfl

theorem tn_onward {cfg : Cfg ν n q K} {s s' : State ν n q K} (h : CtlInv cfg s) (h' : CtlInv cfg s') (hn : 0 < s.cnt.nst)
    (ho : Onward s s') : 0 ≤ (s'.e.tn - s.e.tn) * s'.c.hh := by
  obtain ⟨y, l, h1⟩ := h.last hn
  obtain ⟨y', l', h2⟩ := h'.last ho.nst
  obtain ⟨d, h3⟩ := ho.acc
  have hc := h'.chain
  rw [h1] at h3
  cases d with
  | nil =>
    rw [h2] at h3
    simp only [List.nil_append, List.cons.injEq, Prod.mk.injEq] at h3
    rw [h3.1.1]; simp
  | cons x d =>
    rw [h2] at h3 hc
    simp only [List.cons_append, List.cons.injEq] at h3
    rw [List.pairwise_cons] at hc
    exact (hc.1 (s.e.tn, y) (by rw [h3.2]; simp)).le

theorem TimeInv.of {s s' : State ν n q K} (hc : s'.c = s.c) (he : s'.e = s.e) (hts : s'.tstop = none)
    (h1 : 0 ≤ (s.e.tn - s'.tretlast) * s.c.hh) (h2 : 0 < q → 0 ≤ (s'.tretlast - s'.r.tlo) * s.c.hh)
    (h3 : 0 < q → s'.r.tlo = s'.tretlast ∨ |s.e.tn - s'.r.tlo| ≤ rootTolerance s) : TimeInv s' := by
  refine ⟨hts, fun _ => by rw [hc, he]; exact h1, fun hq _ => by rw [hc]; exact h2 hq, fun hq _ => ?_⟩
  unfold rootTolerance
  rw [hc, he]; exact h3 hq

/-- The root checks at the beginning of a later call. -/
theorem noRootBefore_lo {cfg : Cfg ν n q K} {rf : Nat} {s s1 : State ν n q K} {task : Task} (h0 : s.c.hh ≠ 0) (hq : 0 < q)
    (h : NoRootBefore cfg rf s task s1) :
    (s1.r.tlo = s.r.tlo ∧ farFromLast s = false) ∨ s1.r.tlo = searchEnd s := by
  have far : ∀ {a : State ν n q K}, Frame s a → Quiet s a → farFromLast a = farFromLast s := by
    intro a hf hq
    unfold farFromLast
    rw [hf.e, hf.c, hq.tretlast]
  rcases h with ⟨h1, -⟩ | ⟨-, h1, h2⟩ | ⟨-, a, b, h1, -, h2, -, rfl⟩
  · omega
  · exact Or.inl ⟨(rCheck2_spec h1).2.1, by rw [← far (rCheck2_frame h1) (rCheck2_quiet h1)]; exact h2⟩
  · have hf := rCheck2_frame h1
    have hqt := rCheck2_quiet h1
    obtain ⟨st, e1, e2⟩ := (rCheck3_spec (by rw [hf.c]; exact h0) rf).1 _ _ h2
    cases e1
    obtain ⟨g, -, -, g3⟩ := e2.atEnd
    right
    show b.r.tlo = _
    rw [(g3 rfl).1]
    unfold searchEnd
    rw [hf.e, hf.c, hqt.toutc, hqt.taskc]

/-- A call of `solve` that goes forward and succeeds, before its first step. -/
theorem time_early {cfg : Cfg ν n q K} {rf : Nat} {s s' : State ν n q K} {tout : K} {task : Task}
    {st : Status} (h0 : s.c.hh ≠ 0) (hn : 0 < s.cnt.nst) (hI : TimeInv s) (ht : s.r.taskc = task)
    (htc : task = .normal → s.r.toutc = tout)
    (hf : task = .normal → 0 ≤ (tout - s.tretlast) * s.c.hh)
    (h : LaterEnds cfg rf s tout task s' (.ok st)) :
    TimeInv s' ∧ s'.c.hh = s.c.hh ∧
    (0 ≤ (s'.tret - s.tretlast) * s.c.hh ∨ st = .root ∧ |s'.tret - s.tretlast| ≤ rootTolerance s) := by
  have hp := hI.past hn
  have hSE := searchEnd_forward htc ht hp hf
  cases h with
  | close e hq h1 h2 => cases h2
  | root2 s1 hq h1 h2 h3 =>
    cases h3
    subst h2
    have fr := rCheck2_frame h1
    have qt := rCheck2_quiet h1
    have lo := (rCheck2_spec h1).2.1
    have hlo := hI.lo hq hn
    refine ⟨TimeInv.of (s := s) fr.c fr.e (qt.tstop.trans hI.stop) ?_ (fun _ => ?_) (fun _ => Or.inl rfl), congrArg _ fr.c, ?_⟩
    · show 0 ≤ (s.e.tn - s1.r.tlo) * s.c.hh
      rw [lo]; linarith
    · show 0 ≤ (s1.r.tlo - s1.r.tlo) * s.c.hh
      simp
    · show 0 ≤ (s1.r.tlo - s.tretlast) * s.c.hh ∨ _ ∧ |s1.r.tlo - s.tretlast| ≤ rootTolerance s
      rw [lo]
      rcases hI.near hq hn with h | h
      · left; rw [h]; simp
      · right
        refine ⟨rfl, ?_⟩
        rw [abs_sub_comm]
        exact (abs_between h0 (by simp) hlo hp).trans h
  | root3 s1 s2 hq h1 h2 h3 h4 h5 =>
    cases h5
    subst h4
    have fr := rCheck2_frame h1
    have qt := rCheck2_quiet h1
    have lo := (rCheck2_spec h1).2.1
    obtain ⟨st, e1, e2⟩ := (rCheck3_spec (by rw [fr.c]; exact h0) rf).1 _ _ h3
    cases e1
    obtain ⟨b, b1, b2, b3⟩ := e2.pos
    have hse : searchEnd s1 = searchEnd s := by unfold searchEnd; rw [fr.e, fr.c, qt.toutc, qt.taskc]
    rw [hse, lo] at b3
    have hlo := hI.lo hq hn
    have hse2 := searchEnd_le s
    have k : 0 ≤ (searchEnd s - s.r.tlo) * s.c.hh := by linarith
    have k1 : 0 ≤ (s2.r.tlo - s.r.tlo) * s.c.hh := by
      rw [b3, add_sub_cancel_left, mul_assoc]; exact mul_nonneg b1.le k
    have k2 : 0 ≤ (searchEnd s - s2.r.tlo) * s.c.hh := by
      have : searchEnd s - s2.r.tlo = (1 - b) * (searchEnd s - s.r.tlo) := by rw [b3]; ring
      rw [this, mul_assoc]; exact mul_nonneg (sub_nonneg.2 b2) k
    have fr2 : Frame s s2 := fr.trans e2.frame
    refine ⟨TimeInv.of (s := s) fr2.c fr2.e ((qt.trans e2.quiet).tstop.trans hI.stop) ?_ (fun _ => ?_) (fun _ => Or.inl rfl),
      congrArg _ fr2.c, ?_⟩
    · show 0 ≤ (s.e.tn - s2.r.tlo) * s.c.hh
      linarith
    · show 0 ≤ (s2.r.tlo - s2.r.tlo) * s.c.hh
      simp
    · show 0 ≤ (s2.r.tlo - s.tretlast) * s.c.hh ∨ _ ∧ |s2.r.tlo - s.tretlast| ≤ rootTolerance s
      rcases hI.near hq hn with h | h
      · left; rw [← h]; exact k1
      · by_cases hc : 0 ≤ (s2.r.tlo - s.tretlast) * s.c.hh
        · exact Or.inl hc
        · right
          refine ⟨rfl, ?_⟩
          rw [abs_sub_comm]
          exact (abs_between h0 k1 (by push Not at hc; linarith) hp).trans h
  | pending s1 s2 hq h1 h2 h3 h4 h5 h6 =>
    cases h6
    have fr := rCheck2_frame h2
    have qt := rCheck2_quiet h2
    obtain ⟨st, e1, e2⟩ := (rCheck3_spec (by rw [fr.c]; exact h0) rf).1 _ _ h4
    cases e1
    obtain ⟨g, -, -, g3⟩ := e2.atEnd
    have fr2 : Frame s s2 := fr.trans e2.frame
    have hlo : s2.r.tlo = s.e.tn := by
      rw [(g3 rfl).1]
      unfold searchEnd
      rw [qt.taskc, ht, h1, fr.e]
    obtain ⟨-, yy, yp, rfl⟩ := getSolution'_frame h5
    refine ⟨TimeInv.of (s := s) fr2.c fr2.e ((qt.trans e2.quiet).tstop.trans hI.stop) ?_ (fun _ => ?_) (fun _ => Or.inl ?_),
      congrArg _ fr2.c, Or.inl ?_⟩
    · show 0 ≤ (s.e.tn - s2.e.tn) * s.c.hh
      rw [fr2.e]; simp
    · show 0 ≤ (s2.e.tn - s2.r.tlo) * s.c.hh
      rw [fr2.e, hlo]; simp
    · show s2.r.tlo = s2.e.tn
      rw [fr2.e, hlo]
    · show 0 ≤ (s2.e.tn - s.tretlast) * s.c.hh
      rw [fr2.e]; exact hp
  | stop s1 h1 h2 h3 =>
    obtain ⟨fr, qt⟩ := noRootBefore_frame h1
    have hts : s1.tstop = none := qt.tstop.trans hI.stop
    -- what remains to be shown when the time `t` is returned
    have key : ∀ t : K, 0 ≤ (t - s.tretlast) * s.c.hh → 0 ≤ (s.e.tn - t) * s.c.hh → (0 < q → searchEnd s = t) →
        ∀ s' : State ν n q K, s'.c = s.c → s'.e = s.e → s'.tstop = none → s'.tretlast = t → s'.tret = t → s'.r.tlo = s1.r.tlo →
        TimeInv s' ∧ s'.c.hh = s.c.hh ∧
          (0 ≤ (s'.tret - s.tretlast) * s.c.hh ∨ st = .root ∧ |s'.tret - s.tretlast| ≤ rootTolerance s) := by
      intro t t1 t2 t3 s' c1 c2 c3 c4 c5 c6
      refine ⟨TimeInv.of (s := s) c1 c2 c3 (by rw [c4]; exact t2) (fun hq => ?_) (fun hq => ?_), congrArg _ c1, Or.inl (by rw [c5]; exact t1)⟩
      · rw [c4, c6]
        rcases noRootBefore_lo h0 hq h1 with ⟨d1, d2⟩ | d1
        · rw [d1]; have := hI.lo hq hn; linarith
        · rw [d1, t3 hq]; simp
      · rw [c4, c6]
        rcases noRootBefore_lo h0 hq h1 with ⟨d1, d2⟩ | d1
        · right
          rw [d1]
          rcases hI.near hq hn with h | h
          · rw [h]
            rw [← Bool.not_eq_true, far_iff, not_lt] at d2
            exact d2
          · exact h
        · left; rw [d1, t3 hq]
    cases stopTest1_cases h2 with
    | same he =>
      have he : tout = s.tretlast := by rw [← qt.tretlast]; simpa using he
      exact key tout (by rw [he]; simp) (by rw [he]; exact hp)
        (fun hq => searchEnd_reached (htc rfl) ht h0 (by rw [he]; exact hp)) _ fr.c fr.e hts rfl rfl rfl
    | reached s2 hg hs2 =>
      obtain ⟨-, yy, yp, rfl⟩ := getSolution_frame hs2
      have hg : 0 ≤ (s.e.tn - tout) * s.c.hh := by
        rw [← fr.e, ← fr.c]; simpa [Scalar.ge] using hg
      exact key tout (hf rfl) hg (fun hq => searchEnd_reached (htc rfl) ht h0 hg) _ fr.c fr.e hts rfl rfl rfl
    | pending s2 hg hs2 =>
      obtain ⟨-, yy, yp, rfl⟩ := getSolution'_frame hs2
      exact key s1.e.tn (by rw [fr.e]; exact hp) (by rw [fr.e]; simp)
        (fun hq => by rw [fr.e]; unfold searchEnd; rw [ht]) _ fr.c fr.e hts rfl rfl rfl
    | stopNormal s2 ts _ h5 _ _ => rw [hts] at h5; cases h5
    | stopOne s2 ts _ h5 _ _ => rw [hts] at h5; cases h5
    | clamp _ ts h5 _ _ _ => rw [hts] at h5; cases h5
    | free _ _ _ _ => exact absurd rfl h3

theorem micro_tstop {cfg : Cfg ν n q K} {s s' : State ν n q K} (hs : s.tstop = none) (h : Micro cfg s s') : s'.tstop = none := by
  cases h with
  | frame hf => exact hf.tstop.trans hs
  | perf => exact hs
  | clear => rfl
  | clamp ts _ h2 _ => rw [hs] at h2; cases h2
  | ewt => exact hs
  | first _ _ _ h1 => exact (firstCall_quiet h1).tstop.trans hs
  | firstStep _ _ h1 h2 h3 =>
    refine (step_quiet h3).1.tstop.trans (h2.tstop.trans ?_)
    exact (firstCall_quiet h1).tstop.trans hs
  | step _ _ h1 _ => exact (step_quiet h1).1.tstop.trans hs

theorem micros_tstop {cfg : Cfg ν n q K} {s s' : State ν n q K} (hs : s.tstop = none) (h : Micros cfg s s') : s'.tstop = none := by
  induction h with
  | refl => exact hs
  | tail _ h2 ih => exact micro_tstop ih h2

theorem exec_tstop {cfg : Cfg ν n q K} {rf sf : Nat} {s s' : State ν n q K} {op : Op K} {r : Res n K} (hs : s.tstop = none)
    (h : exec cfg rf sf s op = some (s', r)) : s'.tstop = none := by
  rcases exec_ends h with ⟨r', -, h2⟩ | ⟨-, h2⟩
  · cases h2 with
    | clean h3 _ => exact micros_tstop hs h3
    | failed s1 s2 e h3 h4 h5 _ =>
      have h6 := micros_tstop hs h3
      refine h5.tstop.trans ?_
      cases h4 with
      | firstStep _ _ _ h1 h2 h3 =>
        exact (step_quiet h3).1.tstop.trans (h2.tstop.trans ((firstCall_quiet h1).tstop.trans h6))
      | step _ _ _ h1 _ => exact (step_quiet h1).1.tstop.trans h6
  · exact micros_tstop hs h2

/-- A call of `solve` that goes forward and succeeds. -/
theorem time_call {cfg : Cfg ν n q K} (hl : NlsLegal cfg) (hm : 0 ≤ cfg.hmaxInv) (hk : NlsKeepsLog cfg) {rf sf : Nat}
    {s s' : State ν n q K} (hs : Reach cfg s) (hI : TimeInv s) {tout tret : K} {task : Task} {st : Status}
    (hf : 0 < s.cnt.nst → task = .normal → 0 ≤ (tout - s.tretlast) * s.c.hh)
    (h : exec cfg rf sf s (.solve tout tret task) = some (s', .solved (.ok st))) :
    TimeInv s' ∧ s'.tretlast = s'.tret ∧ st ≠ .tstop ∧
    (0 < s.cnt.nst → 0 ≤ (s'.tret - s.tretlast) * s'.c.hh ∨ st = .root ∧ |s'.tret - s.tretlast| ≤ rootTolerance s) := by
  have hC := hs.ctl hl hm
  have hC' := (Reach.call rf sf _ _ hs h).ctl hl hm
  have hlast : s'.tretlast = s'.tret := by
    rcases c35_returned_last cfg rf sf _ s' tout task _ (exec_solve h) with ⟨-, -, e, h1⟩ | h1
    · cases h1
    · exact h1.symm
  have hts := exec_tstop hI.stop h
  -- a step was taken
  have stepped : s.cnt.nst < s'.cnt.nst → st ≠ .tstop →
      TimeInv s' ∧ (0 < s.cnt.nst → 0 ≤ (s'.tret - s.tretlast) * s'.c.hh ∨ st = .root ∧ |s'.tret - s.tretlast| ≤ rootTolerance s) := by
    intro hlt hst
    have hn' : 0 < s'.cnt.nst := by omega
    have h0' : s'.c.hh ≠ 0 := left_ne_zero_of_mul (hC'.used hn').ne'
    cases st with
    | continueSteps => exact absurd (exec_solve h) (c35_no_continue _ _ _ _ _ _ _)
    | tstop => exact absurd rfl hst
    | root =>
      obtain ⟨e1, e2, e3, e4⟩ := c49_root_times cfg hl hm hk rf sf s s' hs tout tret task h hlt
      have e2 : 0 ≤ (s'.e.tn - s'.tret) * s'.c.hh := e2
      refine ⟨⟨hts, fun _ => by rw [hlast]; exact e2, fun _ _ => by rw [hlast, e4]; simp, fun _ _ => Or.inl (by rw [e4, hlast])⟩, fun hn => ?_⟩
      have h0 : s.c.hh ≠ 0 := left_ne_zero_of_mul (hC.used hn).ne'
      have hd := (exec_onward hl hm hs hn h).dir
      by_cases hc : 0 ≤ (s'.tret - s.tretlast) * s'.c.hh
      · exact Or.inl hc
      · right
        refine ⟨rfl, ?_⟩
        have hq : 0 < q := by
          by_contra hq
          have hq : q = 0 := by omega
          subst hq
          have := exec_root hl hm hk hs h
          cases this.2 with
          | close _ hq => omega
          | recheck _ hq => omega
          | rest _ _ hq => omega
          | stepped _ _ hq => omega
          | none hr _ => exact absurd rfl hr
        push Not at hc
        rcases hI.near hq hn with hx | hx
        · rw [hx] at e1; exact absurd e1 (not_lt.2 hc.le)
        · rw [abs_sub_comm]
          refine (abs_between h0' e1.le (by linarith) (same_sign hd (hI.past hn))).trans hx
    | success =>
      have key : ∀ t : K, s'.tret = t → 0 ≤ (s'.e.tn - t) * s'.c.hh →
          (0 < q → ∀ p : State ν n q K, SearchAt cfg { s with tret := tret } tout task p → p.e.tn = s'.e.tn →
            (∃ c, 0 < c ∧ s'.c.hh = c * p.c.hh) → searchEnd p = t) →
          (0 < s.cnt.nst → 0 ≤ (t - s.tretlast) * s'.c.hh) →
          TimeInv s' ∧ (0 < s.cnt.nst → 0 ≤ (s'.tret - s.tretlast) * s'.c.hh ∨
            Status.success = .root ∧ |s'.tret - s.tretlast| ≤ rootTolerance s) := by
        intro t t1 t2 t3 t4
        have hq : 0 < q → s'.r.tlo = t := by
          intro hq
          obtain ⟨-, hO⟩ := exec_root hl hm hk hs h
          cases hO with
          | close e _ _ _ h5 => cases h5
          | recheck s1 _ _ _ _ _ _ h6 => cases h6
          | rest s1 s2 _ _ _ _ _ _ _ _ _ _ _ _ h6 => cases h6
          | stepped p s1 _ _ _ _ h6 => cases h6
          | none _ h2 =>
            obtain ⟨p, s1, hA, hS, hK⟩ := h2 hq hlt _ rfl
            obtain ⟨c, c1, c2⟩ := hK.hh
            obtain ⟨ge, g1, g2, g3⟩ := hS.atEnd
            rw [hK.r.1, (g3 rfl).1]
            exact t3 hq p hA (by rw [hK.tn, hS.frame.e]) ⟨c, c1, by rw [c2, hS.frame.c]⟩
        refine ⟨⟨hts, fun _ => by rw [hlast, t1]; exact t2, fun hq' _ => by rw [hlast, t1, hq hq']; simp,
          fun hq' _ => Or.inl (by rw [hlast, t1, hq hq'])⟩, fun hn => Or.inl (by rw [t1]; exact t4 hn)⟩
      cases task with
      | normal =>
        obtain ⟨a1, a2, a3⟩ := c35_normal_success cfg rf sf _ s' tout (exec_solve h)
        have a3 : 0 ≤ (s'.e.tn - tout) * s'.c.hh := by
          rcases a3 with a3 | ⟨-, -, a3⟩
          · simp only [Scalar.ge, ex_le, decide_eq_true_eq] at a3
            exact a3
          · exact absurd a3 hlt.ne'
        refine key tout a1 a3 (fun hq p hA e1 ⟨c, c1, c2⟩ => ?_) (fun hn => same_sign (exec_onward hl hm hs hn h).dir (hf hn rfl))
        refine searchEnd_reached (hA.toutc rfl) hA.taskc hA.hh ?_
        rw [e1]
        rw [c2] at a3
        have : (s'.e.tn - tout) * (c * p.c.hh) = c * ((s'.e.tn - tout) * p.c.hh) := by ring
        rw [this] at a3
        exact nonneg_of_mul_nonneg_right a3 c1
      | oneStep =>
        obtain ⟨a1, -⟩ := c36_one_step cfg rf sf _ s' tout (exec_solve h)
        have a1 : s'.tret = s'.e.tn := a1
        refine key s'.e.tn a1 (by simp) (fun hq p hA e1 _ => ?_) (fun hn => ?_)
        · unfold searchEnd; rw [hA.taskc]; exact e1
        · have ho := exec_onward hl hm hs hn h
          have := tn_onward hC hC' hn ho
          have := same_sign ho.dir (hI.past hn)
          linarith
  cases solve_outcome (exec_solve h) with
  | rejected e h0 h1 h2 => cases h2
  | early h0 h1 =>
    have h0 : 0 < s.cnt.nst := h0
    obtain ⟨f1, f2, f3, f4, f5, f6, f7, f8, f9⟩ := beginLater_same { s with tret := tret } tout task
    have h0' : s.c.hh ≠ 0 := left_ne_zero_of_mul (hC.used h0).ne'
    have hP : Pending { s with tret := tret } tout task (perfReset (begun { s with tret := tret } tout task)) :=
      (begun_pending _ tout task).quiet (by quiet_rfl)
    have hb : TimeInv (perfReset (begun { s with tret := tret } tout task)) := by
      refine TimeInv.of (s := s) f3 f4 (hP.tstop.trans hI.stop) ?_ (fun hq => ?_) (fun hq => ?_)
      · rw [hP.tretlast]; exact hI.past h0
      · rw [hP.tretlast, show (perfReset (begun { s with tret := tret } tout task)).r.tlo = s.r.tlo from f1.r.1]; exact hI.lo hq h0
      · rw [hP.tretlast, show (perfReset (begun { s with tret := tret } tout task)).r.tlo = s.r.tlo from f1.r.1]; exact hI.near hq h0
    have f3' : (perfReset (begun { s with tret := tret } tout task)).c = s.c := f3
    have f4' : (perfReset (begun { s with tret := tret } tout task)).e = s.e := f4
    obtain ⟨g1, g2, g3⟩ := time_early (by rw [f3']; exact h0') (by
        show 0 < (perfReset (begun { s with tret := tret } tout task)).cnt.nst
        have : (perfReset (begun { s with tret := tret } tout task)).cnt = s.cnt := f5
        rw [this]; exact h0) hb hP.taskc hP.toutc
      (fun ht => by rw [hP.tretlast, f3']; exact hf h0 ht) h1
    refine ⟨g1, hlast, ?_, fun _ => ?_⟩
    · rintro rfl
      cases h1 with
      | close _ _ _ h2 => cases h2
      | root2 _ _ _ _ h2 => cases h2
      | root3 _ _ _ _ _ _ _ h2 => cases h2
      | pending _ _ _ _ _ _ _ _ h2 => cases h2
      | stop s1 h2 h3 _ =>
        have : s1.tstop = none := ((noRootBefore_frame h2).2.tstop.trans hP.tstop).trans hI.stop
        cases stopTest1_cases h3 with
        | stopNormal _ ts _ h5 _ _ => rw [this] at h5; cases h5
        | stopOne _ ts _ h5 _ _ => rw [this] at h5; cases h5
    · rw [g2, f3']
      rw [hP.tretlast] at g3
      unfold rootTolerance at g3 ⊢
      rw [f3', f4'] at g3
      exact g3
  | loop p k hA h1 =>
    cases h1 with
    | pre h2 => obtain ⟨h3 | h3, -⟩ := preStep_ret h2 <;> cases h3
    | failed s1 s2 e h2 h3 h4 => obtain ⟨h5, -⟩ := stepFailed_spec h4; cases h5
    | post s1 s2 h2 h3 h4 =>
      obtain ⟨p1, p2, -, -⟩ := preStep_pending hA.pending h2
      have q1 := step_quiet h3
      have hts2 : s2.tstop = none := q1.1.tstop.trans (p1.tstop.trans hI.stop)
      have hlt : s.cnt.nst < s2.cnt.nst := by
        have e1 := q1.2.1 rfl
        have e2 : p.cnt.nst = s.cnt.nst + k := hA.nst
        rw [e1, p2, e2]; omega
      cases h4 with
      | root s3 hq h5 h6 h7 =>
        cases h7
        have : s.cnt.nst < s'.cnt.nst := by
          rw [h6]
          show _ < s3.cnt.nst
          rw [(rCheck3_frame h5).cnt]; exact hlt
        obtain ⟨g1, g2⟩ := stepped this (by simp)
        exact ⟨g1, hlast, by simp, g2⟩
      | stop s3 h5 h6 h7 =>
        obtain ⟨fr, qt⟩ := noRootAfter_frame h5
        have hts3 : s3.tstop = none := qt.tstop.trans hts2
        have hlt3 : s.cnt.nst < s3.cnt.nst := by rw [fr.cnt]; exact hlt
        cases stopTest2_cases h6 with
        | reached s4 _ h9 =>
          have : s.cnt.nst < s'.cnt.nst := by
            rw [(getSolution'_frame h9).1.cnt]; exact hlt3
          obtain ⟨g1, g2⟩ := stepped this (by simp)
          exact ⟨g1, hlast, by simp, g2⟩
        | stopped _ s4 ts _ h9 _ _ => rw [hts3] at h9; cases h9
        | clamp ts _ h9 _ => rw [hts3] at h9; cases h9
        | free _ _ => exact absurd rfl h7
        | oneClamp ts h9 _ => rw [hts3] at h9; cases h9
        | oneFree h9 =>
          obtain ⟨g1, g2⟩ := stepped hlt3 (by simp)
          exact ⟨g1, hlast, by simp, g2⟩

end
end Verif.Proofs
