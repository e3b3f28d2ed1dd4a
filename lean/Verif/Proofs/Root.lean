import Verif.Proofs.RootScan
import Verif.Spec.Root

/-! # The root search in exact arithmetic -/

set_option autoImplicit false
set_option linter.unusedSectionVars false
set_option linter.unusedSimpArgs false
set_option linter.unusedVariables false

namespace Verif

open Verif.Spec Verif.Props

universe u v

section
variable {K : Type u} [Field K] [LinearOrder K] [IsStrictOrderedRing K]

theorem Spec.Narrowing.length {ttol a b a' b' : K} {ts : List K} (h : Narrowing ttol a b ts a' b') :
    (ts.length : K) * (ttol / 2) + |b' - a'| ≤ |b - a| := by
  induction h with
  | done a b => simp
  | upper _ h2 _ ih => rw [List.length_cons]; push_cast; linarith
  | lower _ h2 _ ih => rw [List.length_cons]; push_cast; linarith

end

section
variable {ν : Type v} {n q : Nat} {K : Type u}

theorem rootTimes_append (a b : List (UCall n K)) : rootTimes (a ++ b) = rootTimes a ++ rootTimes b := by
  induction a with
  | nil => rfl
  | cons x a ih => cases x <;> simp [rootTimes, ih]

theorem Spec.CallsAt.trans {a b c : State ν n q K} {ts us : List K} (h : CallsAt a b ts) (h' : CallsAt b c us) :
    CallsAt a c (ts ++ us) := by
  obtain ⟨l1, e1, r1, t1, n1⟩ := h
  obtain ⟨l2, e2, r2, t2, n2⟩ := h'
  refine ⟨l2 ++ l1, by rw [e2, e1, List.append_assoc], fun x hx => ?_, ?_, ?_⟩
  · rcases List.mem_append.1 hx with hx | hx
    · exact r2 x hx
    · exact r1 x hx
  · rw [rootTimes_append, t1, t2, List.reverse_append]
  · rw [n2, n1, List.length_append]; omega

theorem Spec.CallsAt.refl (s : State ν n q K) : CallsAt s s [] := ⟨[], by simp, by simp, by simp [rootTimes], by simp⟩

end

section
variable {ν : Type v} {n q : Nat} {K : Type u} [Field K] [LinearOrder K] [IsStrictOrderedRing K] [ExactParams K]
  [EpsLaws K]

/-! ## Points of a bracket -/

/-- `t` is the point of the bracket from `a` to `b` at the fraction `c`. -/
theorem between_of_frac {a b c : K} (h0 : 0 ≤ c) (h1 : c ≤ 1) : Between a (a + c * (b - a)) b := by
  rcases le_total a b with h | h
  · left
    constructor
    · nlinarith [mul_nonneg h0 (sub_nonneg.2 h)]
    · nlinarith [mul_nonneg (sub_nonneg.2 h1) (sub_nonneg.2 h)]
  · right
    constructor
    · nlinarith [mul_nonneg (sub_nonneg.2 h1) (sub_nonneg.2 h)]
    · nlinarith [mul_nonneg h0 (sub_nonneg.2 h)]

theorem inside_of_frac {a b c : K} (h0 : 0 < c) (h1 : c < 1) (hab : a ≠ b) : Inside a (a + c * (b - a)) b := by
  rcases lt_or_gt_of_ne hab with h | h
  · left
    constructor
    · nlinarith [mul_pos h0 (sub_pos.2 h)]
    · nlinarith [mul_pos (sub_pos.2 h1) (sub_pos.2 h)]
  · right
    constructor
    · nlinarith [mul_pos (sub_pos.2 h1) (sub_pos.2 h)]
    · nlinarith [mul_pos h0 (sub_pos.2 h)]

/-! ## Seen values -/

theorem solutionAt_congr {s s' : State ν n q K} (hh : s'.h = s.h) (hc : s'.c = s.c) (he : s'.e = s.e) (t : K) :
    solutionAt s' t = solutionAt s t := by
  have hb : badTime s' t = badTime s t := by unfold badTime; rw [he, hc]
  unfold solutionAt
  rw [getSolution_eq, getSolution_eq, hb, hc]
  by_cases h1 : badTime s t = true
  · simp [h1]
  · by_cases h2 : kordOf s.c.kused < mxordp1
    · simp only [h1, h2, if_true, if_false, setSol, hh, he, hc]
      simp
    · simp [h1, h2]

theorem beforeLastStep_congr {s s' : State ν n q K} (hc : s'.c = s.c) (he : s'.e = s.e) (t : K) :
    BeforeLastStep s' t ↔ BeforeLastStep s t := by
  unfold BeforeLastStep
  rw [hc, he]

theorem Spec.Seen.mono {cfg : Cfg ν n q K} {s s' : State ν n q K} {t x : K} {i : Fin q} (h : Seen cfg s t i x)
    (hl : ∀ c, c ∈ s.m.log → c ∈ s'.m.log) : Seen cfg s' t i x := by
  obtain ⟨v, vp, buf, h1, h2⟩ := h
  exact ⟨v, vp, buf, hl _ h1, h2⟩

theorem Frame.log_sub {s s' : State ν n q K} (h : Frame s s') : ∀ c, c ∈ s.m.log → c ∈ s'.m.log := by
  obtain ⟨l, h1, -⟩ := h.log
  intro c hc
  rw [h1]; exact List.mem_append_right _ hc

theorem Spec.Seen.frame {cfg : Cfg ν n q K} {s s' : State ν n q K} {t x : K} {i : Fin q} (h : Seen cfg s t i x)
    (hf : Frame s s') : Seen cfg s' t i x := h.mono hf.log_sub

theorem Spec.SeenSol.mono {cfg : Cfg ν n q K} {s s' : State ν n q K} {t x : K} {i : Fin q} (h : SeenSol cfg s t i x)
    (hl : ∀ c, c ∈ s.m.log → c ∈ s'.m.log) (hh : s'.h = s.h) (hc : s'.c = s.c) (he : s'.e = s.e) :
    SeenSol cfg s' t i x := by
  obtain ⟨v, vp, buf, h1, h2, h3⟩ := h
  refine ⟨v, vp, buf, hl _ h1, h2, fun hb => ?_⟩
  rw [solutionAt_congr hh hc he]
  exact h3 (fun hb' => hb ((beforeLastStep_congr hc he t).2 hb'))

theorem Spec.SeenSol.frame {cfg : Cfg ν n q K} {s s' : State ν n q K} {t x : K} {i : Fin q} (h : SeenSol cfg s t i x)
    (hf : Frame s s') : SeenSol cfg s' t i x := h.mono hf.log_sub hf.h hf.c hf.e

/-- An evaluation of the root function at the interpolated solution. -/
theorem seenSol_call {cfg : Cfg ν n q K} {s s1 s' : State ν n q K} {t : K} {buf : Vec q K} (h : getSolution' s t = some s1)
    (hl : s'.m.log = .root t s1.m.yy s1.m.yp :: s1.m.log) (hf : Frame s1 s') (i : Fin q) :
    SeenSol cfg s' t i (cfg.prob.root t s1.m.yy s1.m.yp buf i) := by
  refine ⟨s1.m.yy, s1.m.yp, buf, by rw [hl]; exact List.mem_cons_self, rfl, fun hb => ?_⟩
  have hf1 := (getSolution'_frame h).1
  have hf2 := hf1.trans hf
  rw [solutionAt_congr hf2.h hf2.c hf2.e]
  have hb' : badTime s t = false := by
    rw [← Bool.not_eq_true, badTime_iff]
    exact fun hb' => hb ((beforeLastStep_congr hf2.c hf2.e t).2 hb')
  unfold solutionAt
  rw [getSolution_of' h hb']

/-! ## The loop -/

/-- The bracket during a search that started in `s0`. -/
structure Bracket (cfg : Cfg ν n q K) (s0 s : State ν n q K) (l : RfLoc K) : Prop where
  frame : Frame s0 s
  quiet : Quiet s0 s
  gactive : s.r.gactive = s0.r.gactive
  ttol : s.r.ttol = s0.r.ttol
  irfnd : s.r.irfnd = s0.r.irfnd
  imax : ∃ h : l.imax < q, Crosses cfg s.r.gactive s.r.glo s.r.ghi ⟨l.imax, h⟩
  alph : 0 < l.alph
  pos : ∃ a b, 0 ≤ a ∧ a < b ∧ b ≤ 1 ∧ s.r.tlo = s0.r.tlo + a * (s0.r.thi - s0.r.tlo) ∧
    s.r.thi = s0.r.tlo + b * (s0.r.thi - s0.r.tlo)
  lo : s.r.tlo = s0.r.tlo ∧ s.r.glo = s0.r.glo ∨ ∀ i, SeenSol cfg s s.r.tlo i (s.r.glo i)
  hi : ∀ i, SeenSol cfg s s.r.thi i (s.r.ghi i)

/-- The bracket at the end of the loop. -/
structure Found (cfg : Cfg ν n q K) (s0 s : State ν n q K) : Prop where
  frame : Frame s0 s
  quiet : Quiet s0 s
  gactive : s.r.gactive = s0.r.gactive
  ttol : s.r.ttol = s0.r.ttol
  irfnd : s.r.irfnd = s0.r.irfnd
  pos : ∃ a b, 0 ≤ a ∧ a < b ∧ b ≤ 1 ∧ s.r.tlo = s0.r.tlo + a * (s0.r.thi - s0.r.tlo) ∧
    s.r.thi = s0.r.tlo + b * (s0.r.thi - s0.r.tlo)
  lo : s.r.tlo = s0.r.tlo ∧ s.r.glo = s0.r.glo ∨ ∀ i, SeenSol cfg s s.r.tlo i (s.r.glo i)
  hi : ∀ i, SeenSol cfg s s.r.thi i (s.r.ghi i)
  ends : ((∃ i, Vanishes cfg s.r.gactive s.r.glo s.r.ghi i) ∧ ∀ i, ¬ Crosses cfg s.r.gactive s.r.glo s.r.ghi i) ∨
    ((∃ i, Crosses cfg s.r.gactive s.r.glo s.r.ghi i) ∧ |s.r.thi - s.r.tlo| ≤ s.r.ttol)

theorem Bracket.found {cfg : Cfg ν n q K} {s0 s : State ν n q K} {l : RfLoc K} (h : Bracket cfg s0 s l)
    (hs : |s.r.thi - s.r.tlo| ≤ s.r.ttol) : Found cfg s0 s := by
  obtain ⟨hi, hc⟩ := h.imax
  exact ⟨h.frame, h.quiet, h.gactive, h.ttol, h.irfnd, h.pos, h.lo, h.hi, Or.inr ⟨⟨_, hc⟩, hs⟩⟩

/-- How a pass changes the bracket. -/
structure PassDone (s s' : State ν n q K) : Prop where
  /-- one more evaluation, strictly inside the old bracket -/
  call : ∃ t v vp, s'.m.log = .root t v vp :: s.m.log ∧ Inside s.r.tlo t s.r.thi ∧
    (s'.r.tlo = s.r.tlo ∧ s'.r.thi = t ∨ s'.r.tlo = t ∧ s'.r.thi = s.r.thi)
  nge : s'.r.nge = s.r.nge + 1
  /-- the bracket has shrunk -/
  shrink : |s'.r.thi - s'.r.tlo| + s.r.ttol / 2 ≤ |s.r.thi - s.r.tlo|

/-- The state after a pass that moves the upper end. -/
def upperEnd (s : State ν n q K) (t : K) (g : Vec q K) : State ν n q K :=
  { s with
    m.log := .root t s.m.yy s.m.yp :: s.m.log
    r.grout := g
    r.nge := s.r.nge + 1
    r.thi := t
    r.ghi := g }

/-- The state after a pass that moves the lower end. -/
def lowerEnd (s : State ν n q K) (t : K) (g : Vec q K) : State ν n q K :=
  { s with
    m.log := .root t s.m.yy s.m.yp :: s.m.log
    r.grout := g
    r.nge := s.r.nge + 1
    r.tlo := t
    r.glo := g }

theorem rootPass_spec {cfg : Cfg ν n q K} {s0 s : State ν n q K} {l : RfLoc K} (h : Bracket cfg s0 s l)
    (ht : 0 < s.r.ttol) (hD : s.r.ttol < |s.r.thi - s.r.tlo|) :
    (∀ s', rootPass cfg s l = .stop s' → Found cfg s0 s' ∧ PassDone s s') ∧
    (∀ s' l', rootPass cfg s l = .more s' l' → Bracket cfg s0 s' l' ∧ PassDone s s' ∧ s'.r.ttol < |s'.r.thi - s'.r.tlo|) := by
  obtain ⟨hi, hc⟩ := h.imax
  obtain ⟨c, c0, c1, hc2, c3, c4⟩ := trialPoint_spec ht hD hc.2.2 (nextAlph_pos h.alph)
  unfold rootPass callRoot
  rw [dif_pos hi]
  simp only
  generalize trialPoint s.r.thi s.r.tlo s.r.ttol (s.r.ghi ⟨l.imax, hi⟩) (s.r.glo ⟨l.imax, hi⟩) (nextAlph l) = tmid at hc2
  cases hg : getSolution' s tmid with
  | none => simp
  | some s1 =>
    simp only
    obtain ⟨hf1, yy, yp, e1⟩ := getSolution'_frame hg
    have hseen : ∀ s' : State ν n q K, s'.m.log = .root tmid s1.m.yy s1.m.yp :: s1.m.log → Frame s1 s' → ∀ i,
        SeenSol cfg s' tmid i (cfg.prob.root tmid s1.m.yy s1.m.yp s1.r.grout i) :=
      fun s' hl hf i => seenSol_call hg hl hf i
    have hlog : s1.m.log = s.m.log := by rw [e1]
    have hr : s1.r = s.r := by rw [e1]
    have hq1 : Quiet s s1 := getSolution'_quiet hg
    set g := cfg.prob.root tmid s1.m.yy s1.m.yp s1.r.grout with hgdef
    clear_value g
    have hins : Inside s.r.tlo tmid s.r.thi := by
      rw [hc2]
      refine inside_of_frac c0 c1 (fun he => ?_)
      rw [he, sub_self, abs_zero] at hD
      exact absurd hD (not_lt.2 ht.le)
    obtain ⟨a, b, a0, ab, b1, ea, eb⟩ := h.pos
    have em : tmid = s0.r.tlo + (a + c * (b - a)) * (s0.r.thi - s0.r.tlo) := by
      rw [hc2, ea, eb]; ring
    have m0 : a < a + c * (b - a) := by nlinarith [mul_pos c0 (sub_pos.2 ab)]
    have m1 : a + c * (b - a) < b := by nlinarith [mul_pos (sub_pos.2 c1) (sub_pos.2 ab)]
    have dlo : |tmid - s.r.tlo| = c * |s.r.thi - s.r.tlo| := by
      rw [hc2, add_sub_cancel_left, abs_mul, abs_of_pos c0]
    have dhi : |s.r.thi - tmid| = (1 - c) * |s.r.thi - s.r.tlo| := by
      rw [hc2]
      have : s.r.thi - (s.r.tlo + c * (s.r.thi - s.r.tlo)) = (1 - c) * (s.r.thi - s.r.tlo) := by ring
      rw [this, abs_mul, abs_of_pos (by linarith)]
    have sp := scan2_spec cfg s1.r.gactive s1.r.glo g l.imax
    generalize scan2 cfg s1.r.gactive s1.r.glo g l.imax = A at sp
    -- the two new brackets
    have upper : ∀ s' : State ν n q K, s' = upperEnd s1 tmid g →
        Frame s0 s' ∧ Quiet s0 s' ∧ s'.r.gactive = s0.r.gactive ∧ s'.r.ttol = s0.r.ttol ∧ s'.r.irfnd = s0.r.irfnd ∧
        (∃ a b, 0 ≤ a ∧ a < b ∧ b ≤ 1 ∧ s'.r.tlo = s0.r.tlo + a * (s0.r.thi - s0.r.tlo) ∧
          s'.r.thi = s0.r.tlo + b * (s0.r.thi - s0.r.tlo)) ∧
        (s'.r.tlo = s0.r.tlo ∧ s'.r.glo = s0.r.glo ∨ ∀ i, SeenSol cfg s' s'.r.tlo i (s'.r.glo i)) ∧
        (∀ i, SeenSol cfg s' s'.r.thi i (s'.r.ghi i)) ∧ PassDone s s' := by
      rintro s' rfl
      have hf2 : Frame s1 (upperEnd s1 tmid g) := by frame_call
      have hf := hf1.trans hf2
      refine ⟨h.frame.trans hf, (h.quiet.trans hq1).trans (by quiet_rfl), ?_, ?_, ?_,
        ⟨a, a + c * (b - a), a0, m0, m1.le.trans b1, ?_, em⟩, ?_, ?_, ?_, ?_, ?_⟩
      · show s1.r.gactive = _; rw [hr]; exact h.gactive
      · show s1.r.ttol = _; rw [hr]; exact h.ttol
      · show s1.r.irfnd = _; rw [hr]; exact h.irfnd
      · show s1.r.tlo = _; rw [hr]; exact ea
      · show s1.r.tlo = _ ∧ s1.r.glo = _ ∨ ∀ i, SeenSol cfg _ s1.r.tlo i (s1.r.glo i)
        rw [hr]
        exact h.lo.imp id (fun hx i => (hx i).frame hf)
      · intro i
        exact hseen _ rfl hf2 i
      · exact ⟨tmid, s1.m.yy, s1.m.yp, by show _ :: s1.m.log = _; rw [hlog], hins, Or.inl ⟨by show s1.r.tlo = _; rw [hr], rfl⟩⟩
      · show s1.r.nge + 1 = _; rw [hr]
      · show |tmid - s1.r.tlo| + _ ≤ _
        rw [hr, dlo]; linarith
    have lower : ∀ s' : State ν n q K, s' = lowerEnd s1 tmid g →
        Frame s0 s' ∧ Quiet s0 s' ∧ s'.r.gactive = s0.r.gactive ∧ s'.r.ttol = s0.r.ttol ∧ s'.r.irfnd = s0.r.irfnd ∧
        (∃ a b, 0 ≤ a ∧ a < b ∧ b ≤ 1 ∧ s'.r.tlo = s0.r.tlo + a * (s0.r.thi - s0.r.tlo) ∧
          s'.r.thi = s0.r.tlo + b * (s0.r.thi - s0.r.tlo)) ∧
        (∀ i, SeenSol cfg s' s'.r.tlo i (s'.r.glo i)) ∧
        (∀ i, SeenSol cfg s' s'.r.thi i (s'.r.ghi i)) ∧ PassDone s s' := by
      rintro s' rfl
      have hf2 : Frame s1 (lowerEnd s1 tmid g) := by frame_call
      have hf := hf1.trans hf2
      refine ⟨h.frame.trans hf, (h.quiet.trans hq1).trans (by quiet_rfl), ?_, ?_, ?_,
        ⟨a + c * (b - a), b, a0.trans m0.le, m1, b1, em, ?_⟩, ?_, ?_, ?_, ?_, ?_⟩
      · show s1.r.gactive = _; rw [hr]; exact h.gactive
      · show s1.r.ttol = _; rw [hr]; exact h.ttol
      · show s1.r.irfnd = _; rw [hr]; exact h.irfnd
      · show s1.r.thi = _; rw [hr]; exact eb
      · intro i
        exact hseen _ rfl hf2 i
      · show ∀ i, SeenSol cfg _ s1.r.thi i (s1.r.ghi i)
        rw [hr]
        exact fun i => (h.hi i).frame hf
      · exact ⟨tmid, s1.m.yy, s1.m.yp, by show _ :: s1.m.log = _; rw [hlog], hins, Or.inr ⟨rfl, by show s1.r.thi = _; rw [hr]⟩⟩
      · show s1.r.nge + 1 = _; rw [hr]
      · show |s1.r.thi - tmid| + _ ≤ _
        rw [hr, dhi]; linarith
    have halph := nextAlph_pos h.alph
    unfold rootNarrow
    simp only
    by_cases hsg : A.sgnchg = true
    · obtain ⟨u1, u2, u3, u4, u5, u6, u7, u8, u9⟩ := upper _ rfl
      simp only [hsg, if_true]
      split
      · rename_i hb
        rw [bracketSmall_iff] at hb
        refine ⟨fun s' he => ?_, fun s' l' he => by cases he⟩
        cases he
        obtain ⟨hA, hx⟩ := sp.found hsg
        exact ⟨⟨u1, u2, u3, u4, u5, u6, u7, u8, Or.inr ⟨⟨_, hx⟩, hb⟩⟩, u9⟩
      · rename_i hb
        rw [bracketSmall_iff, not_le] at hb
        refine ⟨fun s' he => (by cases he), fun s' l' he => ?_⟩
        cases he
        exact ⟨⟨u1, u2, u3, u4, u5, sp.found hsg, halph, u6, u7, u8⟩, u9, hb⟩
    · have hsg : A.sgnchg = false := by simpa using hsg
      obtain ⟨n1, -, n2⟩ := sp.none hsg
      have n2 : ∀ i, ¬ Crosses cfg s1.r.gactive s1.r.glo g i := fun i => n2 i i.isLt
      simp only [hsg, Bool.false_eq_true, if_false]
      by_cases hz : A.zroot = true
      · obtain ⟨u1, u2, u3, u4, u5, u6, u7, u8, u9⟩ := upper _ rfl
        simp only [hz, if_true]
        refine ⟨fun s' he => ?_, fun s' l' he => by cases he⟩
        cases he
        obtain ⟨i, -, hv⟩ := sp.zero.1 hz
        exact ⟨⟨u1, u2, u3, u4, u5, u6, u7, u8, Or.inl ⟨⟨i, hv⟩, n2⟩⟩, u9⟩
      · obtain ⟨u1, u2, u3, u4, u5, u6, u7, u8, u9⟩ := lower _ rfl
        have hzf : A.zroot = false := by simpa using hz
        simp only [hzf, Bool.false_eq_true, if_false]
        -- the component that changes sign keeps its sign at the trial point
        have hcr : Crosses cfg s1.r.gactive g s1.r.ghi ⟨l.imax, hi⟩ := by
          have hx := hc
          rw [← hr] at hx
          have hne : g ⟨l.imax, hi⟩ ≠ 0 := fun h0 => hz (sp.zero.2 ⟨⟨l.imax, hi⟩, hi, hx.1, hx.2.1, h0⟩)
          have hnn : 0 ≤ s1.r.glo ⟨l.imax, hi⟩ * g ⟨l.imax, hi⟩ := not_lt.1 (fun hlt => n2 _ ⟨hx.1, hx.2.1, hlt⟩)
          have hlo : s1.r.glo ⟨l.imax, hi⟩ ≠ 0 := fun h0 => by
            have := hx.2.2
            rw [h0, zero_mul] at this; exact lt_irrefl _ this
          have hpos : 0 < s1.r.glo ⟨l.imax, hi⟩ * g ⟨l.imax, hi⟩ := lt_of_le_of_ne hnn (mul_ne_zero hlo hne).symm
          have hdir := hx.2.1
          have hneg := hx.2.2
          unfold DirAllows at hdir
          have hcast : (0 : K) ≤ (cfg.rootdir ⟨l.imax, hi⟩ : K) := Nat.cast_nonneg _
          refine ⟨hx.1, ?_, ?_⟩
          · unfold DirAllows
            rcases mul_pos_iff.1 hpos with ⟨p1, p2⟩ | ⟨p1, p2⟩
            · have : (cfg.rootdir ⟨l.imax, hi⟩ : K) = 0 := by
                by_contra hne0
                exact absurd hdir (not_le.2 (mul_pos (lt_of_le_of_ne hcast (Ne.symm hne0)) p1))
              rw [this, zero_mul]
            · exact mul_nonpos_of_nonneg_of_nonpos hcast p2.le
          · rcases mul_pos_iff.1 hpos with ⟨p1, p2⟩ | ⟨p1, p2⟩
            · have := (mul_neg_iff.1 hneg).resolve_right (fun x => absurd x.1 (not_lt.2 p1.le))
              exact mul_neg_of_pos_of_neg p2 this.2
            · have := (mul_neg_iff.1 hneg).resolve_left (fun x => absurd x.1 (not_lt.2 p1.le))
              exact mul_neg_of_neg_of_pos p2 this.2
        split
        · rename_i hb
          rw [bracketSmall_iff] at hb
          refine ⟨fun s' he => ?_, fun s' l' he => by cases he⟩
          cases he
          exact ⟨⟨u1, u2, u3, u4, u5, u6, Or.inr u7, u8, Or.inr ⟨⟨_, hcr⟩, hb⟩⟩, u9⟩
        · rename_i hb
          rw [bracketSmall_iff, not_le] at hb
          refine ⟨fun s' he => (by cases he), fun s' l' he => ?_⟩
          cases he
          exact ⟨⟨u1, u2, u3, u4, u5, by rw [n1]; exact ⟨hi, hcr⟩, halph, u6, Or.inr u7, u8⟩, u9, hb⟩

theorem rootLoop_spec {cfg : Cfg ν n q K} {s0 : State ν n q K} (ht : 0 < s0.r.ttol) (fuel : Nat) {s : State ν n q K}
    {l : RfLoc K} (h : Bracket cfg s0 s l) :
    (∀ s' r, rootLoop cfg fuel s l = .ret s' r → r = .ok () ∧ Found cfg s0 s' ∧
      ∃ ts, CallsAt s s' ts ∧ Narrowing s0.r.ttol s.r.tlo s.r.thi ts s'.r.tlo s'.r.thi) ∧
    (|s.r.thi - s.r.tlo| < fuel * (s0.r.ttol / 2) → rootLoop cfg fuel s l ≠ .diverge) := by
  induction fuel generalizing s l with
  | zero =>
    refine ⟨fun s' r h => (by cases h), fun hf => ?_⟩
    have := abs_nonneg (s.r.thi - s.r.tlo)
    simp at hf
    exact absurd this (not_le.2 hf)
  | succ fuel ih =>
    unfold rootLoop
    by_cases hb : bracketSmall s.r = true
    · rw [if_pos hb]
      rw [bracketSmall_iff] at hb
      refine ⟨fun s' r he => ?_, fun _ => by simp⟩
      cases he
      exact ⟨rfl, h.found hb, [], CallsAt.refl _, .done _ _⟩
    · rw [if_neg hb]
      rw [bracketSmall_iff, not_le] at hb
      obtain ⟨p1, p2⟩ := rootPass_spec h (by rw [h.ttol]; exact ht) hb
      have hone : ∀ s1 : State ν n q K, PassDone s s1 → ∃ t, CallsAt s s1 [t] ∧
          ∀ ts a b, Narrowing s0.r.ttol s1.r.tlo s1.r.thi ts a b → Narrowing s0.r.ttol s.r.tlo s.r.thi (t :: ts) a b := by
        intro s1 hp
        obtain ⟨t, v, vp, hl, hin, hcase⟩ := hp.call
        have hs := hp.shrink
        rw [h.ttol] at hs
        refine ⟨t, ⟨[.root t v vp], by simp [hl], by simp [UCall.isRoot], by simp [rootTimes], by simp [hp.nge]⟩, ?_⟩
        intro ts a b hn
        rcases hcase with ⟨e1, e2⟩ | ⟨e1, e2⟩
        · rw [e1, e2] at hn hs; exact .upper hin hs hn
        · rw [e1, e2] at hn hs; exact .lower hin hs hn
      cases hp : rootPass cfg s l with
      | panic => simp
      | stop s1 =>
        obtain ⟨f1, f2⟩ := p1 s1 hp
        obtain ⟨t, t1, t2⟩ := hone s1 f2
        refine ⟨fun s' r he => ?_, fun _ => by simp⟩
        cases he
        exact ⟨rfl, f1, [t], t1, t2 _ _ _ (.done _ _)⟩
      | more s1 l1 =>
        obtain ⟨f1, f2, f3⟩ := p2 s1 l1 hp
        obtain ⟨t, t1, t2⟩ := hone s1 f2
        obtain ⟨i1, i2⟩ := ih f1
        refine ⟨fun s' r he => ?_, fun hf => i2 ?_⟩
        · obtain ⟨a1, a2, ts, a3, a4⟩ := i1 s' r he
          exact ⟨a1, a2, t :: ts, t1.trans a3, t2 _ _ _ a4⟩
        · have := f2.shrink
          rw [h.ttol] at this
          push_cast at hf
          linarith

/-! ## One search -/

/-- Component `i` may be reported when the root function has the values `glo` before and `g` at the reported time. -/
def Reportable (cfg : Cfg ν n q K) (act : Fin q → Bool) (glo g : Vec q K) (i : Fin q) : Prop :=
  Crosses cfg act glo g i ∨ Vanishes cfg act glo g i

/-- A search from the state `s` to the state `s'`. -/
structure Searched (cfg : Cfg ν n q K) (s s' : State ν n q K) (r : RootStatus) : Prop where
  frame : Frame s s'
  quiet : Quiet s s'
  irfnd : s'.r.irfnd = s.r.irfnd
  gactive : ∀ i, s'.r.gactive i = true ↔ s.r.gactive i = true ∨ s'.r.glo i ≠ 0
  seen : ∀ i, SeenSol cfg s' s'.r.tlo i (s'.r.glo i)
  pos : ∃ b, 0 < b ∧ b ≤ 1 ∧ s'.r.tlo = s.r.tlo + b * (searchEnd s - s.r.tlo)
  atEnd : ∃ gend : Vec q K, (∀ i, SeenSol cfg s' (searchEnd s) i (gend i)) ∧
    (r = .rootFound ↔ ∃ i, Reportable cfg s.r.gactive s.r.glo gend i) ∧
    (r = .continue_ → s'.r.tlo = searchEnd s ∧ s'.r.glo = gend)
  root : r = .rootFound → ∃ (tl : K) (gl : Vec q K),
    (tl = s.r.tlo ∧ gl = s.r.glo ∨ ∀ i, SeenSol cfg s' tl i (gl i)) ∧
    (∃ a b, 0 ≤ a ∧ a < b ∧ b ≤ 1 ∧ tl = s.r.tlo + a * (searchEnd s - s.r.tlo) ∧
      s'.r.tlo = s.r.tlo + b * (searchEnd s - s.r.tlo)) ∧
    (∀ i, Reportable cfg s.r.gactive gl s'.r.glo i → s'.r.iroots i = Scalar.signum (gl i)) ∧
    (∀ i, ¬ Reportable cfg s.r.gactive gl s'.r.glo i → s'.r.iroots i = 0) ∧
    (∃ i, Reportable cfg s.r.gactive gl s'.r.glo i) ∧
    (∀ i, Crosses cfg s.r.gactive gl s'.r.glo i → |s'.r.tlo - tl| ≤ rootTol s) ∧
    (¬ BeforeLastStep s' s'.r.tlo → solutionAt s' s'.r.tlo = some (s'.m.yy, s'.m.yp))
  calls : ∃ (ts : List K) (a b : K), CallsAt s s' (searchEnd s :: ts) ∧
    Narrowing (rootTol s) s.r.tlo (searchEnd s) ts a b

theorem finalIroots_spec (cfg : Cfg ν n q K) (r : RootSt q K) (i : Fin q) :
    (Reportable cfg r.gactive r.glo r.ghi i → finalIroots cfg r i = Scalar.signum (r.glo i)) ∧
    (¬ Reportable cfg r.gactive r.glo r.ghi i → finalIroots cfg r i = 0) := by
  have key : (r.gactive i && (dirOk cfg r.glo i &&
      (Scalar.eqb (Scalar.abs (r.ghi i)) 0 || Scalar.lt (r.glo i * r.ghi i) 0))) = true ↔
      Reportable cfg r.gactive r.glo r.ghi i := by
    unfold Reportable Crosses Vanishes
    simp only [Bool.and_eq_true, Bool.or_eq_true, dirOk_iff, ex_eqb, ex_abs, ex_lt, decide_eq_true_eq, abs_eq_zero]
    tauto
  unfold finalIroots
  constructor
  · intro h; rw [if_pos (key.2 h)]
  · intro h; rw [if_neg (fun hx => h (key.1 hx))]

/-- What `root_find` is given. -/
structure Ready (cfg : Cfg ν n q K) (s : State ν n q K) : Prop where
  ttol : 0 < s.r.ttol
  hi : ∀ i, SeenSol cfg s s.r.thi i (s.r.ghi i)

theorem rootFind_spec {cfg : Cfg ν n q K} {s : State ν n q K} (h : Ready cfg s) (fuel : Nat) :
    (∀ s' r, rootFind cfg fuel s = .ret s' r → ∃ st, r = .ok st ∧
      Frame s s' ∧ Quiet s s' ∧ s'.r.irfnd = s.r.irfnd ∧ s'.r.gactive = s.r.gactive ∧
      (∀ i, SeenSol cfg s' s'.r.trout i (s'.r.grout i)) ∧
      (st = .rootFound ↔ ∃ i, Reportable cfg s.r.gactive s.r.glo s.r.ghi i) ∧
      (st = .continue_ → s'.r.trout = s.r.thi ∧ s'.r.grout = s.r.ghi ∧ s'.r.iroots = s.r.iroots) ∧
      (st = .rootFound → ∃ (tl : K) (gl : Vec q K),
        (tl = s.r.tlo ∧ gl = s.r.glo ∨ ∀ i, SeenSol cfg s' tl i (gl i)) ∧
        (∃ a b, 0 ≤ a ∧ a < b ∧ b ≤ 1 ∧ tl = s.r.tlo + a * (s.r.thi - s.r.tlo) ∧
          s'.r.trout = s.r.tlo + b * (s.r.thi - s.r.tlo)) ∧
        (∀ i, Reportable cfg s.r.gactive gl s'.r.grout i → s'.r.iroots i = Scalar.signum (gl i)) ∧
        (∀ i, ¬ Reportable cfg s.r.gactive gl s'.r.grout i → s'.r.iroots i = 0) ∧
        (∃ i, Reportable cfg s.r.gactive gl s'.r.grout i) ∧
        (∀ i, Crosses cfg s.r.gactive gl s'.r.grout i → |s'.r.trout - tl| ≤ s.r.ttol)) ∧
      ∃ (ts : List K) (a b : K), CallsAt s s' ts ∧ Narrowing s.r.ttol s.r.tlo s.r.thi ts a b) ∧
    (|s.r.thi - s.r.tlo| < fuel * (s.r.ttol / 2) → rootFind cfg fuel s ≠ .diverge) := by
  have sp := scan1_spec cfg s.r.gactive s.r.glo s.r.ghi
  unfold rootFind
  simp only
  generalize scan1 cfg s.r.gactive s.r.glo s.r.ghi = A at sp
  have hcalls : ∀ s' : State ν n q K, s'.m.log = s.m.log → s'.r.nge = s.r.nge → CallsAt s s' [] :=
    fun s' h1 h2 => ⟨[], by simp [h1], by simp, by simp [rootTimes], by simp [h2]⟩
  by_cases hsg : A.sgnchg = true
  · have hne : ¬ (A.sgnchg = false) := by rw [hsg]; simp
    rw [if_neg hne]
    obtain ⟨hA, hx⟩ := sp.found hsg
    have hB : Bracket cfg s s { alph := 1, side := 0, sideprev := -1, imax := A.imax } :=
      ⟨Frame.refl _, Quiet.refl _, rfl, rfl, rfl, ⟨hA, hx⟩, one_pos, ⟨0, 1, le_refl _, one_pos, le_refl _, by ring, by ring⟩,
        Or.inl ⟨rfl, rfl⟩, h.hi⟩
    obtain ⟨l1, l2⟩ := rootLoop_spec h.ttol fuel hB
    constructor
    · intro s' r he
      rcases Out.bind_eq_ret he with ⟨s1, u, he1, he2⟩ | ⟨e, he1, he2⟩
      · obtain ⟨-, hF, ts, hc, hn⟩ := l1 s1 _ he1
        cases he2
        have hf : Frame s1 { s1 with r.trout := s1.r.thi, r.grout := s1.r.ghi, r.iroots := finalIroots cfg s1.r } := by
          frame_rfl
        have hfin := finalIroots_spec cfg s1.r
        rw [hF.gactive] at hfin
        refine ⟨.rootFound, rfl, hF.frame.trans hf, hF.quiet.trans (by quiet_rfl), hF.irfnd, hF.gactive,
          fun i => (hF.hi i).frame hf, ⟨fun _ => ⟨_, Or.inl hx⟩, fun _ => rfl⟩, fun h => (by cases h), fun _ => ?_, ts, _, _, hc, hn⟩
        refine ⟨s1.r.tlo, s1.r.glo, hF.lo.imp id (fun hx i => (hx i).frame hf), hF.pos, fun i hi => (hfin i).1 hi,
          fun i hi => (hfin i).2 hi, ?_, ?_⟩
        · have he := hF.ends
          rw [hF.gactive] at he
          rcases he with ⟨⟨i, hv⟩, -⟩ | ⟨⟨i, hv⟩, -⟩
          · exact ⟨i, Or.inr hv⟩
          · exact ⟨i, Or.inl hv⟩
        · intro i hi
          have he := hF.ends
          rw [hF.gactive] at he
          rcases he with ⟨-, hno⟩ | ⟨-, hs⟩
          · exact absurd hi (hno i)
          · rw [← hF.ttol]; exact hs
      · obtain ⟨hu, -⟩ := l1 _ _ he1
        cases hu
    · intro hf
      have := l2 hf
      intro hd
      unfold Out.bind at hd
      split at hd <;> first | exact this (by assumption) | cases hd
  · have hsg : A.sgnchg = false := by simpa using hsg
    obtain ⟨-, -, hno⟩ := sp.none hsg
    have hno : ∀ i, ¬ Crosses cfg s.r.gactive s.r.glo s.r.ghi i := fun i => hno i i.isLt
    rw [if_pos hsg]
    by_cases hz : A.zroot = true
    · have hz' : ¬ (A.zroot = false) := by rw [hz]; simp
      obtain ⟨i0, -, hi0⟩ := sp.zero.1 hz
      rw [if_neg hz']
      refine ⟨fun s' r he => ?_, fun _ => by simp⟩
      cases he
      have key : ∀ i, (s.r.gactive i && (Scalar.eqb (Scalar.abs (s.r.ghi i)) 0 && dirOk cfg s.r.glo i)) = true ↔
          Reportable cfg s.r.gactive s.r.glo s.r.ghi i := by
        intro i
        unfold Reportable
        constructor
        · intro hx
          simp only [Bool.and_eq_true, dirOk_iff, ex_eqb, ex_abs, decide_eq_true_eq, abs_eq_zero] at hx
          exact Or.inr ⟨hx.1, hx.2.2, hx.2.1⟩
        · rintro (hx | hx)
          · exact absurd hx (hno i)
          · simp only [Bool.and_eq_true, dirOk_iff, ex_eqb, ex_abs, decide_eq_true_eq, abs_eq_zero]
            exact ⟨hx.1, hx.2.2, hx.2.1⟩
      refine ⟨.rootFound, rfl, by frame_rfl, by quiet_rfl, rfl, rfl, fun i => (h.hi i).mono (fun _ h => h) rfl rfl rfl,
        ⟨fun _ => ⟨i0, Or.inr hi0⟩, fun _ => rfl⟩, fun h => (by cases h), fun _ => ?_, [], _, _, hcalls _ rfl rfl, .done _ _⟩
      refine ⟨s.r.tlo, s.r.glo, Or.inl ⟨rfl, rfl⟩, ⟨0, 1, le_refl _, one_pos, le_refl _, by ring, ?_⟩, ?_, ?_, ⟨i0, Or.inr hi0⟩, ?_⟩
      · show s.r.thi = _; ring
      · intro i hi
        show (if _ then _ else _) = _
        rw [if_pos ((key i).2 hi)]
      · intro i hi
        show (if _ then _ else _) = _
        rw [if_neg (fun hx => hi ((key i).1 hx))]
      · intro i hi
        exact absurd hi (hno i)
    · have hz' : A.zroot = false := by simpa using hz
      rw [if_pos hz']
      refine ⟨fun s' r he => ?_, fun _ => by simp⟩
      cases he
      refine ⟨.continue_, rfl, by frame_rfl, by quiet_rfl, rfl, rfl, fun i => (h.hi i).mono (fun _ h => h) rfl rfl rfl,
        ⟨fun h => (by cases h), ?_⟩, fun _ => ⟨rfl, rfl, rfl⟩, fun h => (by cases h), [], _, _, hcalls _ rfl rfl, .done _ _⟩
      rintro ⟨i, hi | hi⟩
      · exact absurd hi (hno i)
      · exact absurd (sp.zero.2 ⟨i, i.isLt, hi⟩) hz

/-- Half the root tolerance is positive, and it is the tolerance of the search. -/
theorem rootTol_pos {s : State ν n q K} (h : s.c.hh ≠ 0) : 0 < rootTol s := by
  unfold rootTol
  simp only [ex_abs, ex_eps, ex_hundred]
  have := EpsLaws.eps_pos (K := K)
  have h1 := abs_pos.2 h
  have h2 := abs_nonneg s.e.tn
  positivity

/-- The state after the evaluation at the end of the searched interval. -/
def evalEnd (cfg : Cfg ν n q K) (s : State ν n q K) : State ν n q K :=
  { s with
    m.log := .root s.r.thi s.m.yy s.m.yp :: s.m.log
    r.ghi := cfg.prob.root s.r.thi s.m.yy s.m.yp s.r.ghi
    r.nge := s.r.nge + 1
    r.ttol := rootTol s }

theorem rCheck3_spec {cfg : Cfg ν n q K} {s : State ν n q K} (hh : s.c.hh ≠ 0) (fuel : Nat) :
    (∀ s' r, rCheck3 cfg fuel s = .ret s' r → ∃ st, r = .ok st ∧ Searched cfg s s' st) ∧
    (|searchEnd s - s.r.tlo| < fuel * (rootTol s / 2) → rCheck3 cfg fuel s ≠ .diverge) := by
  unfold rCheck3 callRoot
  simp only
  cases hg : getSolution' ({ s with r.thi := searchEnd s } : State ν n q K) (searchEnd s) with
  | none => simp
  | some s1 =>
    simp only
    obtain ⟨hf1, yy, yp, e1⟩ := getSolution'_frame hg
    have hq1 := getSolution'_quiet hg
    have ethi : s1.r.thi = searchEnd s := by rw [e1]
    have etol : rootTol s1 = rootTol s := by rw [e1]; rfl
    have er : s1.r = { s.r with thi := searchEnd s } := by rw [e1]
    have el : s1.m.log = s.m.log := by rw [e1]
    have hf0 : Frame s s1 := Frame.trans (by frame_rfl) hf1
    have hq0 : Quiet s s1 := Quiet.trans (by quiet_rfl) hq1
    -- the state given to `root_find`
    have key : ∀ s2 : State ν n q K, s2 = evalEnd cfg s1 →
        Ready cfg s2 ∧ Frame s s2 ∧ Quiet s s2 ∧ s2.r.irfnd = s.r.irfnd ∧ s2.r.gactive = s.r.gactive ∧
        s2.r.tlo = s.r.tlo ∧ s2.r.glo = s.r.glo ∧ s2.r.thi = searchEnd s ∧ s2.r.ttol = rootTol s ∧
        CallsAt s s2 [searchEnd s] := by
      rintro s2 rfl
      have hf2 : Frame s1 (evalEnd cfg s1) := by frame_call
      refine ⟨⟨?_, ?_⟩, hf0.trans hf2, hq0.trans (by quiet_rfl), by simp [evalEnd, er], by simp [evalEnd, er], by simp [evalEnd, er],
        by simp [evalEnd, er], ethi, etol, [.root s1.r.thi s1.m.yy s1.m.yp], by simp [evalEnd, el], by simp [UCall.isRoot],
        by simp [rootTimes, ethi], by simp [evalEnd, er]⟩
      · show 0 < rootTol s1
        rw [etol]; exact rootTol_pos hh
      · intro i
        have := seenSol_call (cfg := cfg) (buf := s1.r.ghi) hg (s' := evalEnd cfg s1)
          (by show UCall.root s1.r.thi _ _ :: _ = _; rw [ethi]) hf2 i
        show SeenSol cfg _ s1.r.thi i (cfg.prob.root s1.r.thi s1.m.yy s1.m.yp s1.r.ghi i)
        rw [ethi]; exact this
    obtain ⟨k1, k2, k3, k4, k5, k6, k7, k8, k9, k10⟩ := key _ rfl
    obtain ⟨s2, hs2⟩ : ∃ s2, s2 = evalEnd cfg s1 := ⟨_, rfl⟩
    rw [← hs2] at k1 k2 k3 k4 k5 k6 k7 k8 k9 k10
    obtain ⟨f1, f2⟩ := rootFind_spec k1 fuel
    constructor
    · intro s' r he
      rcases Out.bind_eq_ret he with ⟨s3, st, he1, he2⟩ | ⟨e, he1, he2⟩
      · obtain ⟨st', hst, a1, a2, a3, a4, a5, a6, a7, a8, ts, a, b, a9, a10⟩ := f1 _ _ (by rw [hs2]; exact he1)
        cases hst
        rw [k5, k7] at a6
        -- the state before the final `get_solution`
        have fin : ∀ s4 : State ν n q K, s4 = ({ s3 with
              r.gactive := fun i => if !s3.r.gactive i && Scalar.neb (s3.r.grout i) 0 then true else s3.r.gactive i
              r.tlo := s3.r.trout
              r.glo := s3.r.grout } : State ν n q K) → ∀ s5 : State ν n q K, Frame s4 s5 → Quiet s4 s5 → s5.r = s4.r →
              s5.m.log = s4.m.log →
              (st = .rootFound → ¬ BeforeLastStep s5 s5.r.tlo → solutionAt s5 s5.r.tlo = some (s5.m.yy, s5.m.yp)) →
              Searched cfg s s5 st := by
          rintro s4 rfl s5 hf5 hq5 hr5 hl5 hsol
          have hf35 : Frame s3 s5 := Frame.trans (by frame_rfl) hf5
          have hq35 : Quiet s3 s5 := Quiet.trans (by quiet_rfl) hq5
          have t5 : s5.r.tlo = s3.r.trout := by rw [hr5]
          have g5 : s5.r.glo = s3.r.grout := by rw [hr5]
          have act5 : ∀ i, s5.r.gactive i = (if !s3.r.gactive i && Scalar.neb (s3.r.grout i) 0 then true else s3.r.gactive i) := by
            intro i; rw [hr5]
          have ir5 : s5.r.iroots = s3.r.iroots := by rw [hr5]
          have c5 : CallsAt s3 s5 [] :=
            ⟨[], by rw [hl5]; rfl, by simp, by simp [rootTimes], by rw [hr5]; simp⟩
          refine ⟨(k2.trans a1).trans hf35, (k3.trans a2).trans hq35, by rw [hr5]; exact a3.trans k4, ?_, ?_, ?_, ?_, ?_, ?_⟩
          · intro i
            rw [act5, g5, a4, k5]
            by_cases hx : s.r.gactive i = true
            · simp [hx]
            · simp [hx, Scalar.neb]
          · intro i
            rw [t5, g5]; exact (a5 i).frame hf35
          · rw [t5]
            cases st with
            | continue_ =>
              obtain ⟨b1, -, -⟩ := a7 rfl
              exact ⟨1, one_pos, le_refl _, by rw [b1, k8]; ring⟩
            | rootFound =>
              obtain ⟨tl, gl, -, ⟨a, b, p1, p2, p3, p4, p5⟩, -⟩ := a8 rfl
              rw [k6, k8] at p5
              exact ⟨b, lt_of_le_of_lt p1 p2, p3, p5⟩
          · refine ⟨s2.r.ghi, fun i => ?_, a6, fun hc => ?_⟩
            · rw [← k8]; exact ((k1.hi i).frame a1).frame hf35
            · obtain ⟨b1, b2, -⟩ := a7 hc
              exact ⟨by rw [t5, b1, k8], by rw [g5, b2]⟩
          · intro hst
            obtain ⟨tl, gl, p1, p2, p3, p4, p5, p6⟩ := a8 hst
            rw [k6, k7] at p1
            rw [k6, k8] at p2
            rw [k5] at p3 p4 p5 p6
            rw [k9] at p6
            refine ⟨tl, gl, p1.imp id (fun hx i => (hx i).frame hf35), ?_, ?_, ?_, ?_, ?_, hsol hst⟩
            · rw [t5]; exact p2
            · rw [g5, ir5]; exact p3
            · rw [g5, ir5]; exact p4
            · rw [g5]; exact p5
            · rw [g5, t5]; exact p6
          · rw [k6, k8, k9] at a10
            have := (k10.trans a9).trans c5
            simp only [List.append_nil, List.cons_append, List.nil_append] at this
            exact ⟨ts, a, b, this, a10⟩
        cases st with
        | continue_ =>
          simp only [reduceCtorEq, if_false] at he2
          cases he2
          exact ⟨.continue_, rfl, fin _ rfl _ (Frame.refl _) (Quiet.refl _) rfl rfl (fun h => (by cases h))⟩
        | rootFound =>
          simp only [if_true] at he2
          split at he2
          · cases he2
          · rename_i s5 hg5
            cases he2
            obtain ⟨hf5, yy5, yp5, e5⟩ := getSolution'_frame hg5
            have hq5 := getSolution'_quiet hg5
            refine ⟨.rootFound, rfl, fin _ rfl _ hf5 hq5 (by rw [e5]) (by rw [e5]) (fun _ hb => ?_)⟩
            have et : s'.r.tlo = s3.r.trout := by rw [e5]
            rw [et] at hb ⊢
            have hb' : badTime ({ s3 with
                r.gactive := fun i => if !s3.r.gactive i && Scalar.neb (s3.r.grout i) 0 then true else s3.r.gactive i
                r.tlo := s3.r.trout
                r.glo := s3.r.grout } : State ν n q K) s3.r.trout = false := by
              rw [← Bool.not_eq_true, badTime_iff]
              exact fun hx => hb ((beforeLastStep_congr hf5.c hf5.e _).2 hx)
            rw [solutionAt_congr hf5.h hf5.c hf5.e]
            unfold solutionAt
            rw [getSolution_of' hg5 hb']
      · obtain ⟨st', hst, -⟩ := f1 _ _ (by rw [hs2]; exact he1)
        cases hst
    · intro hf
      rw [← k6, ← k9, ← k8] at hf
      have := f2 hf
      intro hd
      unfold Out.bind at hd
      split at hd
      · simp only at hd
        split at hd
        · split at hd <;> cases hd
        · cases hd
      · cases hd
      · cases hd
      · exact this (by rw [hs2]; assumption)

end

end Verif
