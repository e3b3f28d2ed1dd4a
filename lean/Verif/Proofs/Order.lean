import Verif.Proofs.Reach

/-! # Order, counters and attempts (any scalar type) -/

set_option autoImplicit false
set_option linter.unusedSectionVars false
set_option linter.unusedSimpArgs false
set_option linter.unusedVariables false

namespace Verif

open Relation

universe u v

section
variable {ν : Type v} {n q : Nat} {K : Type u} [Scalar K]

/-! ## The first-call block -/

/-- What the first-call block leaves alone. -/
structure FirstSame (s s' : State ν n q K) : Prop where
  cnt : s'.cnt = s.cnt
  g : s'.g = s.g
  tn : s'.e.tn = s.e.tn
  tstop : s'.tstop = s.tstop
  kused : s'.c.kused = 0 ∨ s'.c.kused = s.c.kused
  ncfl : s'.m.ncfl = s.m.ncfl
  ns : s'.c.ns = s.c.ns
  hused : s'.c.hused = s.c.hused
  rr : s'.c.rr = s.c.rr
  phase : s'.c.phase = s.c.phase
  knew : s'.c.knew = s.c.knew
  psi : s'.h.psi = s.h.psi
  phi : ∀ j, j ≠ 1 → s'.h.phi j = s.h.phi j

theorem FirstSame.trans {a b c : State ν n q K} (h : FirstSame a b) (h' : FirstSame b c) : FirstSame a c := by
  refine ⟨h'.1.trans h.1, h'.2.trans h.2, h'.3.trans h.3, h'.4.trans h.4, ?_, h'.6.trans h.6, h'.7.trans h.7,
    h'.8.trans h.8, h'.9.trans h.9, h'.10.trans h.10, h'.11.trans h.11, h'.12.trans h.12,
    fun j hj => (h'.13 j hj).trans (h.13 j hj)⟩
  rcases h'.5 with h1 | h1
  · exact Or.inl h1
  · rw [h1]; exact h.5

theorem initialSetup_same (cfg : Cfg ν n q K) (s : State ν n q K) : FirstSame s (initialSetup cfg s) := by
  unfold initialSetup
  split <;> exact ⟨rfl, rfl, rfl, rfl, Or.inr rfl, rfl, rfl, rfl, rfl, rfl, rfl, rfl, fun _ _ => rfl⟩

theorem setHh_same (s : State ν n q K) (hh : K) : FirstSame s { s with c.hh := hh } :=
  ⟨rfl, rfl, rfl, rfl, Or.inr rfl, rfl, rfl, rfl, rfl, rfl, rfl, rfl, fun _ _ => rfl⟩

theorem clampToStop_same (s : State ν n q K) (ts : K) : FirstSame s (clampToStop s ts) := by
  unfold clampToStop
  split <;> exact ⟨rfl, rfl, rfl, rfl, Or.inr rfl, rfl, rfl, rfl, rfl, rfl, rfl, rfl, fun _ _ => rfl⟩

theorem firstStop_same {s s' : State ν n q K} (h : firstStop s = some s') : FirstSame s s' := by
  unfold firstStop at h
  split at h
  · split at h
    · cases h
    · cases h; exact clampToStop_same s _
  · cases h; exact ⟨rfl, rfl, rfl, rfl, Or.inr rfl, rfl, rfl, rfl, rfl, rfl, rfl, rfl, fun _ _ => rfl⟩

theorem rCheck1_perfm (cfg : Cfg ν n q K) (s : State ν n q K) : (rCheck1 cfg s).m.ncfl = s.m.ncfl := by
  have := (rCheck1_same cfg s).2.2.2.2.2.2.1
  have := congrArg Mem.ncfl this
  exact this

theorem firstReady_same (cfg : Cfg ν n q K) (s : State ν n q K) : FirstSame s (firstReady cfg s) := by
  unfold firstReady
  simp only
  split
  · have h := rCheck1_same cfg { s with h0u := s.c.hh, c.kk := 0, c.kused := 0 }
    obtain ⟨h1, h2, h3, h4, h5, h6, h7, h8⟩ := h
    have h9 := rCheck1_perfm cfg { s with h0u := s.c.hh, c.kk := 0, c.kused := 0 }
    exact ⟨h4, h5, by show (rCheck1 cfg _).e.tn = _; rw [h3], h6, Or.inl (by show (rCheck1 cfg _).c.kused = _; rw [h2]),
      h9, by show (rCheck1 cfg _).c.ns = _; rw [h2], by show (rCheck1 cfg _).c.hused = _; rw [h2],
      by show (rCheck1 cfg _).c.rr = _; rw [h2], by show (rCheck1 cfg _).c.phase = _; rw [h2],
      by show (rCheck1 cfg _).c.knew = _; rw [h2], by show (rCheck1 cfg _).h.psi = _; rw [h1],
      fun j hj => by show upd (rCheck1 cfg _).h.phi 1 _ j = _; rw [upd_ne _ _ hj, h1]⟩
  · exact ⟨rfl, rfl, rfl, rfl, Or.inl rfl, rfl, rfl, rfl, rfl, rfl, rfl, rfl, fun j hj => upd_ne _ _ hj⟩

theorem firstReady_kused (cfg : Cfg ν n q K) (s : State ν n q K) : (firstReady cfg s).c.kused = 0 := by
  unfold firstReady
  simp only
  split
  · show (rCheck1 cfg _).c.kused = _
    rw [(rCheck1_same cfg _).2.1]
  · rfl

theorem firstCall_same {cfg : Cfg ν n q K} {s s' : State ν n q K} {tout : K} {r : Except Err Unit}
    (h : firstCall cfg s tout = .ret s' r) : FirstSame s s' := by
  rcases firstCall_cases h with ⟨-, h, -⟩ | ⟨-, h, -⟩ | ⟨hh, -, -, -, ⟨-, h, -⟩ | ⟨s1, h1, h, -⟩⟩ <;> subst h
  · exact initialSetup_same cfg s
  · exact (initialSetup_same cfg s).trans (setHh_same _ _)
  · exact (initialSetup_same cfg s).trans (setHh_same _ _)
  · exact (((initialSetup_same cfg s).trans (setHh_same _ _)).trans (firstStop_same h1)).trans (firstReady_same cfg s1)

theorem firstCall_kused {cfg : Cfg ν n q K} {s s' : State ν n q K} {tout : K}
    (h : firstCall cfg s tout = .ret s' (.ok ())) : s'.c.kused = 0 := by
  rcases firstCall_cases h with ⟨-, -, h⟩ | ⟨-, -, h⟩ | ⟨hh, -, -, -, ⟨-, -, h⟩ | ⟨s1, h1, h, -⟩⟩
  · cases h
  · cases h
  · cases h
  · subst h; exact firstReady_kused cfg s1

/-! ## `complete_step` -/

/-- Effects of `complete_step` that do not involve numbers. -/
structure Completed (cfg : Cfg ν n q K) (s s' : State ν n q K) : Prop where
  kk0 : s.c.kk ≠ 0
  kused : s'.c.kused = s.c.kk
  hused : s'.c.hused = s.c.hh
  nst : s'.cnt = { s.cnt with nst := s.cnt.nst + 1 }
  phi : s'.h = { s.h with phi := updatePhi cfg.maxord s.c.kk s.ee s.h.phi }
  e : s'.e = s.e
  m : s'.m = s.m
  g : s'.g = s.g
  ee : s'.ee = s.ee
  ns : s'.c.ns = s.c.ns
  knew : s'.c.knew = s.c.knew
  tstop : s'.tstop = s.tstop
  r : s'.r = s.r
  perf : s'.perf = s.perf
  up : s'.c.kk ≤ s.c.kk + 1
  down : s.c.kk ≤ s'.c.kk + 1
  nls : s'.nls = s.nls
  epsNewt : s'.epsNewt = s.epsNewt

theorem markPhase_eq (cfg : Cfg ν n q K) (s : State ν n q K) :
    markPhase cfg s = { s with c.phase := (markPhase cfg s).c.phase } := by
  unfold markPhase; split <;> rfl

theorem chooseNext_eq {cfg : Cfg ν n q K} {s s' : State ν n q K} {k : Bool} {a b : K}
    (h : chooseNext cfg s k a b = some s') :
    s' = { s with c := { s.c with kk := s'.c.kk, rr := s'.c.rr, hh := s'.c.hh } } ∧ s'.c.kk ≤ s.c.kk + 1 ∧
      s.c.kk ≤ s'.c.kk + 1 := by
  unfold chooseNext at h
  split at h
  · split at h <;> (cases h; exact ⟨rfl, by simp, by simp; try omega⟩)
  · split at h
    · cases h
    · rename_i act e _
      cases h
      refine ⟨rfl, ?_, ?_⟩ <;> cases act <;> simp <;> omega

theorem completeStep_eq {cfg : Cfg ν n q K} {s s' : State ν n q K} {a b : K} (h : completeStep cfg s a b = some s') :
    Completed cfg s s' := by
  unfold completeStep at h
  simp only at h
  split at h
  · cases h
  · rename_i h0
    split at h
    · cases h
    · rename_i s1 h1
      split at h
      · cases h
        obtain ⟨e1, e2, e3⟩ := chooseNext_eq h1
        rw [markPhase_eq] at e1 e2 e3
        refine ⟨h0, ?_, ?_, ?_, ?_, ?_, ?_, ?_, ?_, ?_, ?_, ?_, ?_, ?_, e2, e3, ?_, ?_⟩ <;>
          (show _ = _; simp only; rw [e1])
      · cases h

/-- The order chosen for the next step. -/
theorem chooseNext_order {cfg : Cfg ν n q K} {s s' : State ν n q K} {k : Bool} {a b : K}
    (h : chooseNext cfg s k a b = some s') (h1 : 1 ≤ s.c.kk) (h2 : s.c.kk ≤ cfg.maxord)
    (hk : s.c.knew = s.c.kk ∨ s.c.knew = s.c.kk - 1 ∧ 1 < s.c.kk)
    (hp : s.c.phase = 0 → s.c.knew ≠ s.c.kk - 1 ∧ s.c.kk ≠ cfg.maxord) :
    1 ≤ s'.c.kk ∧ s'.c.kk ≤ cfg.maxord ∧
      (s'.c.kk = s.c.kk + 1 → (s.c.phase = 0 ∧ 1 < s.cnt.nst) ∨ (s.c.phase ≠ 0 ∧ s.c.kk + 2 ≤ s.c.ns)) := by
  unfold chooseNext at h
  split at h
  · rename_i hp0
    have := hp hp0
    split at h
    · rename_i hn
      cases h
      refine ⟨by simp, by simp; omega, fun _ => Or.inl ⟨hp0, hn⟩⟩
    · cases h
      exact ⟨h1, h2, by simp⟩
  · rename_i hp0
    split at h
    · cases h
    · rename_i act e ha
      cases h
      simp only
      have key : (act = .lower → 1 < s.c.kk) ∧ (act = .raise → s.c.kk < cfg.maxord ∧ s.c.kk + 2 ≤ s.c.ns) := by
        unfold orderAction at ha
        simp only at ha
        split at ha
        · cases ha
          refine ⟨fun _ => by omega, by simp⟩
        · split at ha
          · cases ha; simp
          · rename_i hmx
            split at ha
            · cases ha; simp
            · rename_i hns
              have hns' : s.c.kk + 2 ≤ s.c.ns := by
                simp only [Bool.or_eq_true, decide_eq_true_eq, ge_iff_le, not_or, Nat.not_le] at hns
                omega
              split at ha
              · split at ha
                · split at ha <;> (cases ha; simp; try omega)
                · split at ha
                  · cases ha; simp; omega
                  · split at ha <;> (cases ha; simp; try omega)
              · cases ha
      cases act with
      | raise => exact ⟨by simp, by simp; have := key.2 rfl; omega, fun _ => Or.inr ⟨hp0, (key.2 rfl).2⟩⟩
      | lower => have := key.1 rfl; simp only; exact ⟨by omega, by omega, fun h => by omega⟩
      | maintain => simp only; exact ⟨h1, h2, fun h => by omega⟩

theorem chooseNext_some {cfg : Cfg ν n q K} {s : State ν n q K} {k : Bool} {a b : K}
    (h2 : s.c.kk ≤ cfg.maxord) (hm : cfg.maxord < mxordp1) : ∃ s', chooseNext cfg s k a b = some s' := by
  unfold chooseNext
  split
  · split <;> exact ⟨_, rfl⟩
  · have : ∃ p, orderAction cfg s k a b = some p := by
      unfold orderAction
      simp only
      split
      · exact ⟨_, rfl⟩
      · split
        · exact ⟨_, rfl⟩
        · split
          · exact ⟨_, rfl⟩
          · rw [if_pos (by omega)]
            split
            · split <;> exact ⟨_, rfl⟩
            · split
              · exact ⟨_, rfl⟩
              · split <;> exact ⟨_, rfl⟩
    obtain ⟨p, hp⟩ := this
    rw [hp]
    exact ⟨_, rfl⟩

/-- The state handed to the order selection. -/
def chosenFrom (cfg : Cfg ν n q K) (s : State ν n q K) : State ν n q K :=
  markPhase cfg { s with cnt.nst := s.cnt.nst + 1, c.kused := s.c.kk, c.hused := s.c.hh }

theorem completeStep_choose {cfg : Cfg ν n q K} {s s' : State ν n q K} {a b : K}
    (h : completeStep cfg s a b = some s') :
    ∃ s1, chooseNext cfg (chosenFrom cfg s) (decide (s.c.kk = s.c.kused + 1)) a b = some s1 ∧ s'.c = s1.c := by
  unfold completeStep at h
  simp only at h
  split at h
  · cases h
  · split at h
    · cases h
    · rename_i s1 h1
      split at h
      · cases h; exact ⟨s1, h1, rfl⟩
      · cases h

theorem completeStep_order {cfg : Cfg ν n q K} {s s' : State ν n q K} {a b : K}
    (h : completeStep cfg s a b = some s') (h1 : 1 ≤ s.c.kk) (h2 : s.c.kk ≤ cfg.maxord)
    (hk : s.c.knew = s.c.kk ∨ s.c.knew = s.c.kk - 1 ∧ 1 < s.c.kk) :
    1 ≤ s'.c.kk ∧ s'.c.kk ≤ cfg.maxord ∧
      (s'.c.kk = s.c.kk + 1 → (s'.c.phase = 0 ∧ s.c.phase = 0 ∧ 1 ≤ s.cnt.nst) ∨ s.c.kk + 2 ≤ s.c.ns) := by
  obtain ⟨s1, hs1, hc⟩ := completeStep_choose h
  rw [hc]
  have hph : (chosenFrom cfg s).c.phase = 0 → s.c.phase = 0 ∧ s.c.knew ≠ s.c.kk - 1 ∧ s.c.kk ≠ cfg.maxord := by
    unfold chosenFrom markPhase
    split
    · intro h; simp at h
    · rename_i hx
      simp only [not_or] at hx
      intro h; exact ⟨h, hx.1, hx.2⟩
  have hkk : (chosenFrom cfg s).c.kk = s.c.kk := by unfold chosenFrom; rw [markPhase_eq]
  have hkn : (chosenFrom cfg s).c.knew = s.c.knew := by unfold chosenFrom; rw [markPhase_eq]
  have hns : (chosenFrom cfg s).c.ns = s.c.ns := by unfold chosenFrom; rw [markPhase_eq]
  have hcnt : (chosenFrom cfg s).cnt.nst = s.cnt.nst + 1 := by unfold chosenFrom; rw [markPhase_cnt]
  have := chooseNext_order hs1 (by rw [hkk]; exact h1) (by rw [hkk]; exact h2) (by rw [hkk, hkn]; exact hk)
    (fun hp => by rw [hkk, hkn]; exact (hph hp).2)
  rw [hkk, hns, hcnt] at this
  refine ⟨this.1, this.2.1, fun h => ?_⟩
  rcases this.2.2 h with ⟨hx, hy⟩ | ⟨hx, hy⟩
  · left
    refine ⟨?_, (hph hx).1, by omega⟩
    have := (chooseNext_eq hs1).1
    rw [this]; exact hx
  · exact Or.inr hy

theorem completeStep_some {cfg : Cfg ν n q K} {s : State ν n q K} {a b : K} (h1 : 1 ≤ s.c.kk)
    (h2 : s.c.kk ≤ cfg.maxord) (hm : cfg.maxord < mxordp1) : ∃ s', completeStep cfg s a b = some s' := by
  unfold completeStep
  simp only
  rw [if_neg (by omega)]
  have hkk : (chosenFrom cfg s).c.kk = s.c.kk := by unfold chosenFrom; rw [markPhase_eq]
  obtain ⟨s1, hs1⟩ := chooseNext_some (cfg := cfg) (s := chosenFrom cfg s)
    (k := decide (s.c.kk = s.c.kused + 1)) (a := a) (b := b) (by rw [hkk]; exact h2) hm
  unfold chosenFrom at hs1
  rw [hs1]
  simp only
  rw [if_pos ⟨by omega, fun _ => by omega⟩]
  exact ⟨_, rfl⟩

/-! ## The order invariant -/

/-- The order invariant of the attempt loop. -/
structure OrdLoop (cfg : Cfg ν n q K) (s : State ν n q K) : Prop where
  kk1 : 1 ≤ s.c.kk
  kkm : s.c.kk ≤ cfg.maxord
  kusedm : s.c.kused ≤ cfg.maxord
  kused0 : s.c.kused = 0 ↔ s.cnt.nst = 0

/-- The order invariant of histories. -/
structure OrdInv (cfg : Cfg ν n q K) (s : State ν n q K) : Prop where
  kk : 0 < s.cnt.nst → 1 ≤ s.c.kk ∧ s.c.kk ≤ cfg.maxord
  kusedm : s.c.kused ≤ cfg.maxord
  kused0 : s.c.kused = 0 ↔ s.cnt.nst = 0

/-- What an unsuccessful attempt does to the fields that are not numbers. -/
theorem handled_ctl {cfg : Cfg ν n q K} {s s' : State ν n q K} {err : Err} {a b : K} {f f' : Fails}
    {r : Except Err Unit} (h : Handled cfg s a b f err s' f' r) :
    (s'.c.kk = s.c.kk ∨ (s'.c.kk = s.c.knew ∨ s'.c.kk = 1) ∧ err = .ida .testFail ∧ r = .ok ()) ∧
      s'.c.kused = s.c.kused ∧ s'.cnt.nst = s.cnt.nst ∧ s'.c.hused = s.c.hused ∧ s'.c.ns = s.c.ns ∧ s'.h = s.h ∧
      s'.e = s.e ∧ s'.g = s.g ∧ s'.m = s.m ∧ s'.tstop = s.tstop ∧ s'.ee = s.ee ∧ s'.c.phase = 1 ∧
      s'.perf = s.perf ∧ s'.cnt.nni = s.cnt.nni ∧ s'.r = s.r ∧ s'.c.knew = s.c.knew := by
  cases h <;> simp

theorem reset_ctl (s : State ν n q K) : (reset s).c = s.c ∧ (reset s).cnt = s.cnt ∧ (reset s).e = s.e ∧
    (reset s).g = s.g ∧ (reset s).m = s.m ∧ (reset s).tstop = s.tstop ∧ (reset s).ee = s.ee ∧
    (reset s).perf = s.perf ∧ (reset s).r = s.r := ⟨rfl, rfl, rfl, rfl, rfl, rfl, rfl, rfl, rfl⟩

theorem ite_reset_ctl (s : State ν n q K) (p : Prop) [Decidable p] : (if p then reset s else s).c = s.c ∧
    (if p then reset s else s).cnt = s.cnt ∧ (if p then reset s else s).e = s.e ∧
    (if p then reset s else s).g = s.g ∧ (if p then reset s else s).m = s.m ∧
    (if p then reset s else s).tstop = s.tstop ∧ (if p then reset s else s).ee = s.ee ∧
    (if p then reset s else s).perf = s.perf ∧ (if p then reset s else s).r = s.r := by
  split
  · exact reset_ctl s
  · exact ⟨rfl, rfl, rfl, rfl, rfl, rfl, rfl, rfl, rfl⟩

theorem fromNls_cases {e : Err} (h : e.fromNls) : (∃ r, e = .ida (.recoverableFail r) ∧ r ≠ .constraint) ∨
    ∀ x, e ≠ .ida x := by
  cases e with
  | ida x =>
    cases x <;> simp [Err.fromNls] at h
    exact Or.inl ⟨_, rfl, h⟩
  | nl x => right; simp
  | other x => right; simp

/-- The ghost record of an attempt that starts in `s`. -/
def attRec (s : State ν n q K) (t0 : K) (ee : Vec n K) (out : AttOut) : Att n K :=
  { before := if s.cnt.nst = 0 then [(t0, (coefHist s).phi 0)] else s.g.acc
    t0 := t0, tnew := newTime s, hh := s.c.hh, kk := s.c.kk, ck := errCoef s, cj := leadCoef s, pred := predY s
    predp := predYp s, ewt := s.e.ewt, ee := ee, yy := vadd (predY s) ee
    yp := scaledAdd (predYp s) (leadCoef s) ee, stop := s.tstop, out := out }

theorem AfterTrial.note_g {cfg : Cfg ν n q K} {s s3 : State ν n q K} {r : Except Err Unit}
    (h1 : AfterTrial cfg s s3 r) (t0 : K) (out : AttOut) :
    (s3.note t0 (errCoef s) out).g = { s.g with atts := attRec s t0 s3.ee out :: s.g.atts } := by
  obtain ⟨m', -, hm2⟩ := h1.solve
  unfold State.note attRec State.points
  simp only
  rw [h1.g, h1.c, h1.e, h1.h, hm2, h1.cnt, h1.tstop]
  rfl

/-- The state handed to `handle_n_flag` after a failed attempt. -/
structure Restored (cfg : Cfg ν n q K) (t0 : K) (s s5 : State ν n q K) (err : Err) : Prop where
  kk : s.c.kk < mxordp1
  c : s5.c = { s.c with ns := nextNs s.c, cjlast := s.e.cj, knew := s5.c.knew }
  cnt : s5.cnt = s.cnt
  tn : s5.e.tn = t0
  tstop : s5.tstop = s.tstop
  knew : err = .ida .testFail → s5.c.knew = s.c.kk ∨ s5.c.knew = s.c.kk - 1 ∧ 1 < s.c.kk
  legal : err = .ida .testFail ∨ err.fromNls
  perf : s5.perf = s.perf
  r : s5.r = s.r
  ghost : ∃ ee, s5.g = { s.g with
    atts := attRec s t0 ee (if err = .ida .testFail then .testFail else .nlsFail err) :: s.g.atts }
  h : ∃ s3 : State ν n q K, s3.h = coefHist s ∧ s3.c.kk = s.c.kk ∧ s3.c.ns = nextNs s.c ∧ s3.c.hh = s.c.hh ∧
    s5.h = (restored s3 t0).h

theorem PassFailed.restored {cfg : Cfg ν n q K} {t0 : K} {s s4 : State ν n q K} {err : Err} {a b : K}
    (hl : NlsLegal cfg) (h : PassFailed cfg t0 s s4 err a b) : Restored cfg t0 s (restored s4 t0) err := by
  obtain ⟨s3, r, out, h1, h2, h3, h4⟩ := h.tried
  subst h4
  obtain ⟨m', hm', hm2⟩ := h1.solve
  have hleg : r = .error err → err.fromNls := by
    intro hr; subst hr; exact hl _ _ _ _ _ _ _ _ _ _ _ _ hm'
  have hnt : err.fromNls → err ≠ .ida .testFail := by rintro h rfl; exact h
  refine ⟨h1.kk, ?_, h1.cnt, rfl, h1.tstop, ?_, ?_, h1.perf, h1.r, ⟨s3.ee, ?_⟩, ⟨s3, h1.h, ?_, ?_, ?_, rfl⟩⟩
  · show s3.c = _
    rw [h1.c]; rfl
  · intro he
    rcases h2 with ⟨hr, -⟩ | ⟨hr, -, -⟩
    · exact absurd he (hnt (hleg hr))
    · exact h1.knew () hr
  · rcases h2 with ⟨hr, -⟩ | ⟨hr, he, -⟩
    · exact Or.inr (hleg hr)
    · exact Or.inl he
  · have : out = if err = .ida .testFail then .testFail else .nlsFail err := by
      rcases h2 with ⟨hr, -, -, ho⟩ | ⟨hr, he, ho⟩
      · rw [if_neg (hnt (hleg hr))]; exact ho
      · rw [if_pos he]; exact ho
    rw [← this]
    exact h1.note_g t0 out
  · rw [h1.c]
  · rw [h1.c]
  · rw [h1.c]

/-- An attempt that is repeated. -/
theorem attempt_again' {cfg : Cfg ν n q K} {t0 : K} {s s' : State ν n q K} {f f' : Fails} (hl : NlsLegal cfg)
    (h : attempt cfg t0 s f = .again s' f') :
    ∃ err a b s5 s6, Restored cfg t0 s s5 err ∧ Handled cfg s5 a b f err s6 f' (.ok ()) ∧
      s' = if s6.cnt.nst = 0 then reset s6 else s6 := by
  obtain ⟨s4, err, a, b, s6, hp, hh, hs⟩ := attempt_again h
  exact ⟨err, a, b, _, s6, hp.restored hl, handleNFlag_handled hh, hs⟩

/-- An attempt that ends the step with an error. -/
theorem attempt_fail' {cfg : Cfg ν n q K} {t0 : K} {s s' : State ν n q K} {f : Fails} {e : Err} (hl : NlsLegal cfg)
    (h : attempt cfg t0 s f = .fail s' e) :
    ∃ err a b f' s5, Restored cfg t0 s s5 err ∧ Handled cfg s5 a b f err s' f' (.error e) := by
  obtain ⟨s4, err, a, b, f', hp, hh⟩ := attempt_fail h
  exact ⟨err, a, b, f', _, hp.restored hl, handleNFlag_handled hh⟩

theorem ordLoop_again {cfg : Cfg ν n q K} {t0 : K} {s s' : State ν n q K} {f f' : Fails} (hl : NlsLegal cfg)
    (hm : 1 ≤ cfg.maxord) (hI : OrdLoop cfg s) (h : attempt cfg t0 s f = .again s' f') : OrdLoop cfg s' := by
  obtain ⟨err, a, b, s5, s6, hR, hH, rfl⟩ := attempt_again' hl h
  obtain ⟨hk, hku, hn, -⟩ := handled_ctl hH
  obtain ⟨e1, e2, -⟩ := ite_reset_ctl s6 (s6.cnt.nst = 0)
  have hkk : s6.c.kk = s.c.kk ∨ s6.c.kk = s.c.kk - 1 ∧ 1 < s.c.kk ∨ s6.c.kk = 1 := by
    rcases hk with hk | ⟨hk | hk, he, -⟩
    · left; rw [hk, hR.c]
    · rw [hk]
      rcases hR.knew he with h | h
      · exact Or.inl h
      · exact Or.inr (Or.inl h)
    · exact Or.inr (Or.inr hk)
  have hku' : s6.c.kused = s.c.kused := by rw [hku, hR.c]
  have hn' : s6.cnt.nst = s.cnt.nst := by rw [hn, hR.cnt]
  have := hI.kk1
  have := hI.kkm
  refine ⟨?_, ?_, ?_, ?_⟩
  · rw [e1]; omega
  · rw [e1]; omega
  · rw [e1, hku']; exact hI.kusedm
  · rw [e1, e2, hku', hn']; exact hI.kused0

/-- An accepted attempt. -/
theorem ordLoop_done {cfg : Cfg ν n q K} {t0 : K} {s s1 s' : State ν n q K} {f : Fails} {ck a b : K}
    (hI : OrdLoop cfg s) (h : attempt cfg t0 s f = .done s1 ck a b) (hc : completeStep cfg s1 a b = some s') :
    OrdInv cfg s' := by
  obtain ⟨s3, h1, -, -, -, -, rfl⟩ := attempt_done h
  have hC := completeStep_eq hc
  have hkk : s3.c.kk = s.c.kk := by rw [h1.c]
  have ho := completeStep_order hc (by show 1 ≤ s3.c.kk; rw [hkk]; exact hI.kk1)
    (by show s3.c.kk ≤ _; rw [hkk]; exact hI.kkm)
    (by show s3.c.knew = s3.c.kk ∨ s3.c.knew = s3.c.kk - 1 ∧ 1 < s3.c.kk; rw [hkk]; exact h1.knew () rfl)
  refine ⟨fun _ => ⟨ho.1, ho.2.1⟩, ?_, ?_⟩
  · rw [hC.kused]; show s3.c.kk ≤ _; rw [hkk]; exact hI.kkm
  · rw [hC.kused, hC.nst]
    show s3.c.kk = 0 ↔ _ + 1 = 0
    have := hI.kk1
    omega

theorem ordLoop_fail {cfg : Cfg ν n q K} {t0 : K} {s s' : State ν n q K} {f : Fails} {e : Err} (hl : NlsLegal cfg)
    (hI : OrdLoop cfg s) (h : attempt cfg t0 s f = .fail s' e) : OrdInv cfg s' := by
  obtain ⟨err, a, b, f', s5, hR, hH⟩ := attempt_fail' hl h
  obtain ⟨hk, hku, hn, -⟩ := handled_ctl hH
  have hkk : s'.c.kk = s.c.kk := by
    rcases hk with hk | ⟨-, -, hx⟩
    · rw [hk, hR.c]
    · cases hx
  refine ⟨fun _ => by rw [hkk]; exact ⟨hI.kk1, hI.kkm⟩, by rw [hku, hR.c]; exact hI.kusedm, ?_⟩
  rw [hku, hR.c, hn, hR.cnt]; exact hI.kused0

theorem ordLoop_init {cfg : Cfg ν n q K} {s : State ν n q K} (hm : 1 ≤ cfg.maxord) (h : OrdInv cfg s) :
    OrdLoop cfg (firstStepInit s) := by
  unfold firstStepInit
  split
  · rename_i h0
    exact ⟨le_refl 1, hm, by simp, by simp [h0]⟩
  · rename_i h0
    exact ⟨(h.kk (by omega)).1, (h.kk (by omega)).2, h.kusedm, h.kused0⟩

theorem ordInv_step {cfg : Cfg ν n q K} {s s' : State ν n q K} {r : Except Err Unit} (hl : NlsLegal cfg)
    (hm : 1 ≤ cfg.maxord) (hI : OrdInv cfg s) (h : step cfg s = .ret s' r) : OrdInv cfg s' := by
  have := step_rule (cfg := cfg) (fun s _ => OrdLoop cfg s) (OrdInv cfg) (fun s _ => OrdInv cfg s)
    (ordLoop_init hm hI) (fun _ _ _ _ hI h => ordLoop_again hl hm hI h)
    (fun _ _ _ _ _ _ _ hI h hc => by
      have := ordLoop_done hI h hc
      exact ⟨this.kk, this.kusedm, this.kused0⟩)
    (fun _ _ _ _ hI h => ordLoop_fail hl hI h) h
  rcases this with ⟨-, h⟩ | ⟨e, -, h⟩ <;> exact h

theorem ordInv_frame {cfg : Cfg ν n q K} {s s' : State ν n q K} (hf : Frame s s') (h : OrdInv cfg s) :
    OrdInv cfg s' := ⟨by rw [hf.cnt, hf.c]; exact h.kk, by rw [hf.c]; exact h.kusedm, by rw [hf.cnt, hf.c]; exact h.kused0⟩

theorem ordInv_first {cfg : Cfg ν n q K} {s s' : State ν n q K} {tout : K} {r : Except Err Unit} (h0 : s.cnt.nst = 0)
    (hf : firstCall cfg s tout = .ret s' r) (h : OrdInv cfg s) : OrdInv cfg s' := by
  have hs := firstCall_same hf
  have hku : s'.c.kused = 0 := by
    rcases hs.kused with h1 | h1
    · exact h1
    · rw [h1]; exact h.kused0.2 h0
  refine ⟨?_, by omega, ?_⟩
  · rw [hs.cnt]; omega
  · rw [hs.cnt]; exact ⟨fun _ => h0, fun _ => hku⟩

theorem ordInv_perf {cfg : Cfg ν n q K} {s : State ν n q K} (h : OrdInv cfg s) : OrdInv cfg (perfReset s) :=
  ⟨h.kk, h.kusedm, h.kused0⟩

theorem ordInv_micro {cfg : Cfg ν n q K} {s s' : State ν n q K} (hl : NlsLegal cfg) (hm : 1 ≤ cfg.maxord)
    (hI : OrdInv cfg s) (h : Micro cfg s s') : OrdInv cfg s' := by
  cases h with
  | frame hf => exact ordInv_frame hf hI
  | perf => exact ⟨hI.kk, hI.kusedm, hI.kused0⟩
  | clear => exact ⟨hI.kk, hI.kusedm, hI.kused0⟩
  | clamp ts _ _ _ => unfold clampToStop; split <;> exact ⟨hI.kk, hI.kusedm, hI.kused0⟩
  | ewt _ => exact ⟨hI.kk, hI.kusedm, hI.kused0⟩
  | first _ _ h0 hf => exact ordInv_first h0 hf hI
  | firstStep _ h0 hf hfr hs => exact ordInv_step hl hm (ordInv_frame hfr (ordInv_perf (ordInv_first h0 hf hI))) hs
  | step _ _ hs => exact ordInv_step hl hm hI hs

theorem ordInv_fail {cfg : Cfg ν n q K} {s s' : State ν n q K} {e : Err} (hl : NlsLegal cfg) (hm : 1 ≤ cfg.maxord)
    (hI : OrdInv cfg s) (h : MicroFail cfg s e s') : OrdInv cfg s' := by
  cases h with
  | firstStep _ _ h0 hf hfr hs => exact ordInv_step hl hm (ordInv_frame hfr (ordInv_perf (ordInv_first h0 hf hI))) hs
  | step _ _ _ hs => exact ordInv_step hl hm hI hs

theorem ordInv_new (cfg : Cfg ν n q K) (nls0 : ν) (yy0 yp0 : Vec n K) (tstop : Option K) :
    OrdInv cfg ({ State.new nls0 yy0 yp0 with tstop := tstop } : State ν n q K) :=
  ⟨fun h => absurd h (Nat.lt_irrefl 0), Nat.zero_le _, by simp [State.new]⟩

theorem Reach.ord {cfg : Cfg ν n q K} (hl : NlsLegal cfg) (hm : 1 ≤ cfg.maxord) {s : State ν n q K}
    (h : Reach cfg s) : OrdInv cfg s :=
  h.inv _ (ordInv_new cfg) (fun _ _ => ordInv_micro hl hm) (fun _ _ _ => ordInv_fail hl hm)

end

end Verif
