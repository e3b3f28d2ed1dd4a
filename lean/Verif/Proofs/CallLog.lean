import Verif.Proofs.RootInv

/-! # Which user calls an attempt makes: an invariant rule for the log (any scalar type) -/

set_option autoImplicit false
set_option linter.unusedSectionVars false
set_option linter.unusedSimpArgs false
set_option linter.unusedVariables false

namespace Verif

open Verif.Spec

universe u v

section
variable {ν : Type v} {n q : Nat} {K : Type u} [Scalar K]

/-- An attempt from `s`, successful or not, has led to `s'`: the call of the nonlinear solver and the record of the
attempt. -/
def Attempted (cfg : Cfg ν n q K) (s s' : State ν n q K) : Prop :=
  ∃ t0 m1 ee r out, nlsCall cfg s = .ret s'.nls m1 ee r ∧
    s'.m = { m1 with yy := vadd (predY s) ee, yp := scaledAdd (predYp s) (leadCoef s) ee } ∧
    s'.g.atts = attRec s t0 ee out :: s.g.atts ∧ s'.cnt.nst = s.cnt.nst

theorem passFailed_attempted {cfg : Cfg ν n q K} {t0 : K} {s s4 : State ν n q K} {err : Err} {a b : K}
    (h : PassFailed cfg t0 s s4 err a b) : Attempted cfg s s4 := by
  obtain ⟨s3, r, out, h1, -, -, rfl⟩ := h.tried
  obtain ⟨m, h2, h3⟩ := h1.solve
  refine ⟨t0, m, s3.ee, r, out, h2, h3, ?_, ?_⟩
  · rw [h1.note_g]
  · show s3.cnt.nst = _
    rw [h1.cnt]

theorem Attempted.congr {cfg : Cfg ν n q K} {s s4 s' : State ν n q K} (h : Attempted cfg s s4) (h1 : s'.m = s4.m)
    (h2 : s'.nls = s4.nls) (h3 : s'.g = s4.g) (h4 : s'.cnt.nst = s4.cnt.nst) : Attempted cfg s s' := by
  obtain ⟨t0, m1, ee, r, out, e1, e2, e3, e4⟩ := h
  exact ⟨t0, m1, ee, r, out, by rw [h2]; exact e1, h1.trans e2, by rw [h3]; exact e3, h4.trans e4⟩

theorem handleNFlag_same {cfg : Cfg ν n q K} {s s' : State ν n q K} {err : Err} {a b : K} {f f' : Fails}
    {r : Except Err Unit} (h : handleNFlag cfg s err a b f = some (s', f', r)) :
    s'.m = s.m ∧ s'.nls = s.nls ∧ s'.g = s.g ∧ s'.cnt.nst = s.cnt.nst := by
  have := handleNFlag_handled h
  cases this <;> exact ⟨rfl, rfl, rfl, rfl⟩

theorem attempt_again_attempted {cfg : Cfg ν n q K} {t0 : K} {s s' : State ν n q K} {f f' : Fails}
    (h : attempt cfg t0 s f = .again s' f') : Attempted cfg s s' := by
  obtain ⟨s4, err, a, b, s6, h1, h2, rfl⟩ := attempt_again h
  obtain ⟨e1, e2, e3, e4⟩ := handleNFlag_same h2
  refine (passFailed_attempted h1).congr ?_ ?_ ?_ ?_ <;> split
  · exact e1
  · exact e1
  · exact e2
  · exact e2
  · exact e3
  · exact e3
  · exact e4
  · exact e4

theorem attempt_fail_attempted {cfg : Cfg ν n q K} {t0 : K} {s s' : State ν n q K} {f : Fails} {e : Err}
    (h : attempt cfg t0 s f = .fail s' e) : Attempted cfg s s' := by
  obtain ⟨s4, err, a, b, f', h1, h2⟩ := attempt_fail h
  obtain ⟨e1, e2, e3, e4⟩ := handleNFlag_same h2
  exact (passFailed_attempted h1).congr e1 e2 e3 e4

theorem attempt_done_attempted {cfg : Cfg ν n q K} {t0 : K} {s s' : State ν n q K} {f : Fails} {ck a b : K}
    (h : attempt cfg t0 s f = .done s' ck a b) : Attempted cfg s s' := by
  obtain ⟨s3, h1, -, -, -, -, rfl⟩ := attempt_done h
  obtain ⟨m, h2, h3⟩ := h1.solve
  refine ⟨t0, m, s3.ee, .ok (), .accepted, h2, h3, ?_, ?_⟩
  · show (s3.note t0 (errCoef s) .accepted).g.atts = _
    rw [h1.note_g]
  · show s3.cnt.nst = _
    rw [h1.cnt]

/-- The first call evaluates at most the root function. -/
theorem firstCall_log {cfg : Cfg ν n q K} {s s' : State ν n q K} {tout : K} {r : Except Err Unit}
    (h : firstCall cfg s tout = .ret s' r) :
    s'.m.core = s.m.core ∧ ∃ l : List (UCall n K), s'.m.log = l ++ s.m.log ∧ ∀ x ∈ l, x.isRoot = true := by
  have h0 : (initialSetup cfg s).m = s.m := by unfold initialSetup; split <;> rfl
  have hc : ∀ (s : State ν n q K) ts, (clampToStop s ts).m = s.m := by
    intro s ts; unfold clampToStop; split <;> rfl
  have hs : ∀ {s s' : State ν n q K}, firstStop s = some s' → s'.m = s.m := by
    intro s s' h
    unfold firstStop at h
    split at h
    · split at h
      · cases h
      · cases h; exact hc _ _
    · cases h; rfl
  have hr : ∀ s : State ν n q K, (rCheck1 cfg s).m.core = s.m.core ∧
      ∃ l : List (UCall n K), (rCheck1 cfg s).m.log = l ++ s.m.log ∧ ∀ x ∈ l, x.isRoot = true := by
    intro s
    unfold rCheck1 callRoot
    simp only
    split
    · refine ⟨rfl, [_, _], rfl, ?_⟩
      intro x hx
      simp only [List.mem_cons, List.not_mem_nil, or_false] at hx
      rcases hx with rfl | rfl <;> rfl
    · refine ⟨rfl, [_], rfl, ?_⟩
      intro x hx
      simp only [List.mem_cons, List.not_mem_nil, or_false] at hx
      rw [hx]; rfl
  have hq : ∀ s : State ν n q K, (firstReady cfg s).m.core = s.m.core ∧
      ∃ l : List (UCall n K), (firstReady cfg s).m.log = l ++ s.m.log ∧ ∀ x ∈ l, x.isRoot = true := by
    intro s
    unfold firstReady
    simp only
    split
    · exact hr { s with h0u := s.c.hh, c.kk := 0, c.kused := 0 }
    · exact ⟨rfl, [], rfl, by simp⟩
  rcases firstCall_cases h with ⟨-, h, -⟩ | ⟨-, h, -⟩ | ⟨hh, -, -, -, ⟨-, h, -⟩ | ⟨s1, h1, h, -⟩⟩ <;> subst h
  · rw [h0]; exact ⟨rfl, [], rfl, by simp⟩
  · show (initialSetup cfg s).m.core = _ ∧ _
    exact ⟨by rw [h0], [], by show (initialSetup cfg s).m.log = _; rw [h0]; rfl, by simp⟩
  · show (initialSetup cfg s).m.core = _ ∧ _
    exact ⟨by rw [h0], [], by show (initialSetup cfg s).m.log = _; rw [h0]; rfl, by simp⟩
  · have h2 : s1.m = s.m := (hs h1).trans h0
    rw [← h2]; exact hq s1

/-- Invariant of the call log and the attempts: it suffices that it survives root-function calls and attempts. -/
theorem step_logInv {cfg : Cfg ν n q K} (I : Mem n K → List (Att n K) → Prop)
    (hatt : ∀ s s', I s.m s.g.atts → (0 < s.cnt.nst → s.g.atts ≠ []) → Attempted cfg s s' → I s'.m s'.g.atts)
    {s s' : State ν n q K} {r : Except Err Unit} (hs : I s.m s.g.atts) (hn : 0 < s.cnt.nst → s.g.atts ≠ [])
    (h : step cfg s = .ret s' r) : I s'.m s'.g.atts ∧ (0 < s'.cnt.nst → s'.g.atts ≠ []) := by
  have hi := firstStepInit_cnt s
  have key : ∀ {s1 s2 : State ν n q K}, I s1.m s1.g.atts ∧ (0 < s1.cnt.nst → s1.g.atts ≠ []) → Attempted cfg s1 s2 →
      I s2.m s2.g.atts ∧ s2.g.atts ≠ [] := by
    intro s1 s2 hI hA
    refine ⟨hatt _ _ hI.1 hI.2 hA, ?_⟩
    obtain ⟨t0, m1, ee, r, out, -, -, e3, -⟩ := hA
    rw [e3]; simp
  have := step_rule (cfg := cfg) (fun s1 _ => I s1.m s1.g.atts ∧ (0 < s1.cnt.nst → s1.g.atts ≠ []))
    (fun s1 => I s1.m s1.g.atts ∧ (0 < s1.cnt.nst → s1.g.atts ≠ []))
    (fun s1 _ => I s1.m s1.g.atts ∧ (0 < s1.cnt.nst → s1.g.atts ≠ []))
    ⟨by rw [hi.2.2.2.2.2.2.2.2, hi.2.1]; exact hs, by rw [hi.1, hi.2.1]; exact hn⟩
    (fun s1 f s' f' hI h => ⟨(key hI (attempt_again_attempted h)).1, fun _ => (key hI (attempt_again_attempted h)).2⟩)
    (fun s1 f s2 ck a b s' hI h hc => by
      have hC := completeStep_eq hc
      obtain ⟨h1, h2⟩ := key hI (attempt_done_attempted h)
      refine ⟨?_, fun _ => ?_⟩
      · show I s'.m s'.g.atts
        rw [hC.m, hC.g]; exact h1
      · show s'.g.atts ≠ []
        rw [hC.g]; exact h2)
    (fun s1 f s' e hI h => ⟨(key hI (attempt_fail_attempted h)).1, fun _ => (key hI (attempt_fail_attempted h)).2⟩) h
  rcases this with ⟨-, h⟩ | ⟨e, -, h⟩ <;> exact h

section
variable {cfg : Cfg ν n q K} {I : Mem n K → List (Att n K) → Prop}

/-- The invariant, and there has been an attempt if there has been a step. -/
def LogInv (I : Mem n K → List (Att n K) → Prop) (s : State ν n q K) : Prop :=
  I s.m s.g.atts ∧ (0 < s.cnt.nst → s.g.atts ≠ [])

theorem LogInv.frame
    (hroot : ∀ (m m' : Mem n K) a (l : List (UCall n K)), I m a → m'.core = m.core → m'.log = l ++ m.log →
      (∀ x ∈ l, x.isRoot = true) → I m' a) {s s' : State ν n q K} (hI : LogInv I s) (hf : Frame s s') : LogInv I s' := by
  obtain ⟨l, h1, h2, -⟩ := hf.log
  unfold LogInv
  rw [hf.g, hf.cnt]
  exact ⟨hroot _ _ _ l hI.1 hf.m h1 h2, hI.2⟩

theorem LogInv.firstCall
    (hroot : ∀ (m m' : Mem n K) a (l : List (UCall n K)), I m a → m'.core = m.core → m'.log = l ++ m.log →
      (∀ x ∈ l, x.isRoot = true) → I m' a) {s s' : State ν n q K} {tout : K} {r : Except Err Unit} (hI : LogInv I s)
    (hf : Verif.firstCall cfg s tout = .ret s' r) : LogInv I s' := by
  obtain ⟨h1, l, h2, h3⟩ := firstCall_log hf
  have h4 := firstCall_same hf
  unfold LogInv
  rw [h4.2, h4.1]
  exact ⟨hroot _ _ _ l hI.1 h1 h2 h3, hI.2⟩

variable
  (hroot : ∀ (m m' : Mem n K) a (l : List (UCall n K)), I m a → m'.core = m.core → m'.log = l ++ m.log →
      (∀ x ∈ l, x.isRoot = true) → I m' a)
  (hatt : ∀ s s', I s.m s.g.atts → (0 < s.cnt.nst → s.g.atts ≠ []) → Attempted cfg s s' → I s'.m s'.g.atts)
include hroot hatt

theorem LogInv.micro {s s' : State ν n q K} (hI : LogInv I s) (hm : Micro cfg s s') : LogInv I s' := by
  cases hm with
  | frame hf => exact hI.frame hroot hf
  | perf => exact hI
  | clear => exact hI
  | clamp ts h1 h2 h3 =>
    have : (clampToStop s ts).m = s.m ∧ (clampToStop s ts).g = s.g ∧ (clampToStop s ts).cnt = s.cnt := by
      unfold clampToStop; split <;> exact ⟨rfl, rfl, rfl⟩
    unfold LogInv
    rw [this.1, this.2.1, this.2.2]; exact hI
  | ewt h => exact hI
  | first tout r h1 h2 => exact hI.firstCall hroot h2
  | firstStep tout h1 h2 h3 h4 =>
    have h5 := hI.firstCall hroot h2
    have h6 : LogInv I _ := LogInv.frame hroot (s := perfReset _) h5 h3
    exact step_logInv I hatt h6.1 h6.2 h4
  | step h1 h2 h3 => exact step_logInv I hatt hI.1 hI.2 h3

theorem LogInv.micros {s s' : State ν n q K} (hI : LogInv I s) (hm : Micros cfg s s') : LogInv I s' := by
  induction hm with
  | refl => exact hI
  | tail _ h2 ih => exact ih.micro hroot hatt h2

theorem Reach.logInv2 (hnew : ∀ (nls0 : ν) yy0 yp0, I (State.new nls0 yy0 yp0 : State ν n q K).m [])
    {s : State ν n q K} (h : Reach cfg s) : LogInv I s := by
  refine Reach.inv (cfg := cfg) (LogInv I) ?_ (fun _ _ h1 h2 => h1.micro hroot hatt h2) ?_ h
  · intro a b c d
    exact ⟨hnew a b c, fun h => absurd h (Nat.lt_irrefl 0)⟩
  · intro s e s' hI hm
    cases hm with
    | firstStep tout _ h1 h2 h3 h4 =>
      have h5 := hI.firstCall hroot h2
      have h6 : LogInv I _ := LogInv.frame hroot (s := perfReset _) h5 h3
      exact step_logInv I hatt h6.1 h6.2 h4
    | step _ h1 h2 h3 => exact step_logInv I hatt hI.1 hI.2 h3

end

theorem Reach.logInv {cfg : Cfg ν n q K} (I : Mem n K → List (Att n K) → Prop)
    (hnew : ∀ (nls0 : ν) yy0 yp0, I (State.new nls0 yy0 yp0 : State ν n q K).m [])
    (hroot : ∀ (m m' : Mem n K) a (l : List (UCall n K)), I m a → m'.core = m.core → m'.log = l ++ m.log →
      (∀ x ∈ l, x.isRoot = true) → I m' a)
    (hatt : ∀ s s', I s.m s.g.atts → (0 < s.cnt.nst → s.g.atts ≠ []) → Attempted cfg s s' → I s'.m s'.g.atts)
    {s : State ν n q K} (h : Reach cfg s) : I s.m s.g.atts :=
  (Reach.logInv2 hroot hatt hnew h).1

end

end Verif
