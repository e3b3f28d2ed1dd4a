import Verif.Model.Solve
import Verif.Proofs.Interp
import Mathlib.Logic.Relation

/-! # What the parts of `solve` other than `step` leave alone (any scalar type) -/

set_option autoImplicit false
set_option linter.unusedSectionVars false
set_option linter.unusedSimpArgs false
set_option linter.unusedVariables false

namespace Verif

universe u v

section
variable {ν : Type v} {n q : Nat} {K : Type u} [Scalar K]

/-- The problem memory without the output vectors and the ghost log. -/
def Mem.core (m : Mem n K) : Mem n K := { m with yy := vzero, yp := vzero, log := [] }

/-- A call of the root function. -/
def UCall.isRoot : UCall n K → Bool
  | .root _ _ _ => true
  | _ => false

/-- The performance monitor without the number of warnings. -/
def Perf.base (p : Perf) : Perf := { p with nwarn := 0 }

/-- Assignments to the output vectors outside `step`: interpolation, and the small step along `phi[1]` made by the root
check. -/
inductive OutStep (s : State ν n q K) : Vec n K × Vec n K → Vec n K × Vec n K → Prop
  | sol (t : K) (y : Vec n K × Vec n K) : badTime s t = false → OutStep s y ((setSol s t).m.yy, (setSol s t).m.yp)
  | shift (c : K) (y yp : Vec n K) : OutStep s (y, yp) (scaledAdd y c (s.h.phi 1), yp)

/-- `s'` differs from `s` only in the output vectors, the rootfinding data, the values returned to the caller and the
number of performance warnings; the only user calls in between are root-function calls and all of them were counted. -/
structure Frame (s s' : State ν n q K) : Prop where
  setupDone : s'.setupDone = s.setupDone
  h : s'.h = s.h
  c : s'.c = s.c
  e : s'.e = s.e
  m : s'.m.core = s.m.core
  delta : s'.delta = s.delta
  ee : s'.ee = s.ee
  cnt : s'.cnt = s.cnt
  nls : s'.nls = s.nls
  tstop : s'.tstop = s.tstop
  h0u : s'.h0u = s.h0u
  epsNewt : s'.epsNewt = s.epsNewt
  g : s'.g = s.g
  perf : s'.perf.base = s.perf.base
  log : ∃ l : List (UCall n K), s'.m.log = l ++ s.m.log ∧ (∀ x ∈ l, x.isRoot = true) ∧
    s'.r.nge = s.r.nge + l.length
  out : Relation.ReflTransGen (OutStep s) (s.m.yy, s.m.yp) (s'.m.yy, s'.m.yp)

theorem OutStep.congr {s s' : State ν n q K} (h : s'.h = s.h) (e : s'.e = s.e) (c : s'.c = s.c)
    {a b : Vec n K × Vec n K} (hs : OutStep s' a b) : OutStep s a b := by
  cases hs with
  | sol t y hb =>
    have : ((setSol s' t).m.yy, (setSol s' t).m.yp) = ((setSol s t).m.yy, (setSol s t).m.yp) := by
      unfold setSol; rw [h, e, c]
    rw [this]
    refine .sol t a ?_
    unfold badTime at hb ⊢; rw [← e, ← c]; exact hb
  | shift d y yp => rw [h]; exact .shift d y yp

theorem Frame.refl (s : State ν n q K) : Frame s s :=
  ⟨rfl, rfl, rfl, rfl, rfl, rfl, rfl, rfl, rfl, rfl, rfl, rfl, rfl, rfl, ⟨[], by simp⟩, .refl⟩

theorem Frame.trans {a b c : State ν n q K} (h1 : Frame a b) (h2 : Frame b c) : Frame a c := by
  obtain ⟨l1, e1, r1, g1⟩ := h1.log
  obtain ⟨l2, e2, r2, g2⟩ := h2.log
  refine ⟨h2.1.trans h1.1, h2.2.trans h1.2, h2.3.trans h1.3, h2.4.trans h1.4, h2.5.trans h1.5, h2.6.trans h1.6,
    h2.7.trans h1.7, h2.8.trans h1.8, h2.9.trans h1.9, h2.10.trans h1.10, h2.11.trans h1.11, h2.12.trans h1.12,
    h2.13.trans h1.13, h2.14.trans h1.14, ⟨l2 ++ l1, ?_, ?_, ?_⟩, ?_⟩
  · rw [e2, e1, List.append_assoc]
  · intro x hx
    rcases List.mem_append.1 hx with h | h
    · exact r2 x h
    · exact r1 x h
  · rw [g2, g1, List.length_append]; omega
  · exact h1.out.trans (Relation.ReflTransGen.mono (fun _ _ h => OutStep.congr h1.h h1.e h1.c h) _ _ h2.out)

/-- Assignments to rootfinding data other than the counter, to the output vectors, and to the returned values. -/
theorem Frame.of_eq {s s' : State ν n q K} (h0 : s'.setupDone = s.setupDone) (h : s'.h = s.h) (c : s'.c = s.c)
    (e : s'.e = s.e) (m : s'.m.core = s.m.core) (delta : s'.delta = s.delta) (ee : s'.ee = s.ee) (cnt : s'.cnt = s.cnt)
    (nls : s'.nls = s.nls) (tstop : s'.tstop = s.tstop) (h0u : s'.h0u = s.h0u) (epsNewt : s'.epsNewt = s.epsNewt)
    (g : s'.g = s.g) (perf : s'.perf.base = s.perf.base) (log : s'.m.log = s.m.log) (nge : s'.r.nge = s.r.nge)
    (yy : s'.m.yy = s.m.yy) (yp : s'.m.yp = s.m.yp) : Frame s s' :=
  ⟨h0, h, c, e, m, delta, ee, cnt, nls, tstop, h0u, epsNewt, g, perf, ⟨[], by simp [log], by simp, by simp [nge]⟩,
    by rw [yy, yp]⟩

macro "frame_rfl" : tactic =>
  `(tactic| exact Frame.of_eq rfl rfl rfl rfl rfl rfl rfl rfl rfl rfl rfl rfl rfl rfl rfl rfl rfl rfl)

/-- A counted root-function call together with arbitrary assignments to rootfinding data. -/
theorem Frame.of_call {s s' : State ν n q K} (h0 : s'.setupDone = s.setupDone) (h : s'.h = s.h) (c : s'.c = s.c)
    (e : s'.e = s.e) (m : s'.m.core = s.m.core) (delta : s'.delta = s.delta) (ee : s'.ee = s.ee) (cnt : s'.cnt = s.cnt)
    (nls : s'.nls = s.nls) (tstop : s'.tstop = s.tstop) (h0u : s'.h0u = s.h0u) (epsNewt : s'.epsNewt = s.epsNewt)
    (g : s'.g = s.g) (perf : s'.perf.base = s.perf.base) (t : K) (y y' : Vec n K)
    (log : s'.m.log = .root t y y' :: s.m.log)
    (nge : s'.r.nge = s.r.nge + 1) (yy : s'.m.yy = s.m.yy) (yp : s'.m.yp = s.m.yp) : Frame s s' :=
  ⟨h0, h, c, e, m, delta, ee, cnt, nls, tstop, h0u, epsNewt, g, perf, ⟨[.root t y y'], by simp [log],
    by simp [UCall.isRoot], by simp [nge]⟩, by rw [yy, yp]⟩

macro "frame_call" : tactic =>
  `(tactic| exact Frame.of_call rfl rfl rfl rfl rfl rfl rfl rfl rfl rfl rfl rfl rfl rfl _ _ _ rfl rfl rfl rfl)

theorem Out.bind_eq_ret {S : Type u} {α β : Type v} {o : Out S α} {f : S → α → Out S β} {s' : S} {r : Except Err β}
    (h : o.bind f = .ret s' r) :
    (∃ s a, o = .ret s (.ok a) ∧ f s a = .ret s' r) ∨ (∃ e, o = .ret s' (.error e) ∧ r = .error e) := by
  unfold Out.bind at h
  split at h
  · exact Or.inl ⟨_, _, rfl, h⟩
  · cases h; exact Or.inr ⟨_, rfl, rfl⟩
  · cases h
  · cases h

theorem setSol_frame (s : State ν n q K) (t : K) (h : badTime s t = false) : Frame s (setSol s t) :=
  ⟨rfl, rfl, rfl, rfl, rfl, rfl, rfl, rfl, rfl, rfl, rfl, rfl, rfl, rfl, ⟨[], rfl, by simp, rfl⟩, .single (.sol t _ h)⟩

theorem getSolution_frame {s s' : State ν n q K} {t : K} {r : Except Err Unit} (h : getSolution s t = .ret s' r) :
    Frame s s' ∧ ∃ yy yp, s' = { s with m.yy := yy, m.yp := yp } := by
  rw [getSolution_eq] at h
  split at h
  · cases h; exact ⟨Frame.refl s, s.m.yy, s.m.yp, rfl⟩
  · rename_i hb
    split at h
    · cases h; exact ⟨setSol_frame s t (by simpa using hb), _, _, rfl⟩
    · cases h

theorem getSolution'_some {s s' : State ν n q K} {t : K} (h : getSolution' s t = some s') :
    s' = s ∨ (s' = setSol s t ∧ badTime s t = false) := by
  unfold getSolution' at h
  rw [getSolution_eq] at h
  split at h
  · rename_i h1
    split at h1
    · cases h1; cases h; exact Or.inl rfl
    · rename_i hb
      split at h1
      · cases h1; cases h; exact Or.inr ⟨rfl, by simpa using hb⟩
      · cases h1
  · cases h

theorem getSolution'_frame {s s' : State ν n q K} {t : K} (h : getSolution' s t = some s') :
    Frame s s' ∧ ∃ yy yp, s' = { s with m.yy := yy, m.yp := yp } := by
  rcases getSolution'_some h with rfl | ⟨rfl, hb⟩
  · exact ⟨Frame.refl _, s'.m.yy, s'.m.yp, rfl⟩
  · exact ⟨setSol_frame s t hb, _, _, rfl⟩

theorem rCheck2_frame {cfg : Cfg ν n q K} {s s' : State ν n q K} {r : Except Err RootStatus}
    (h : rCheck2 cfg s = .ret s' r) : Frame s s' := by
  unfold rCheck2 callRoot at h
  split at h
  · cases h; exact Frame.refl _
  · split at h
    · cases h
    · rename_i s1 h1
      obtain ⟨hf, -⟩ := getSolution'_frame h1
      refine hf.trans ?_
      simp only at h
      split at h
      · split at h
        · cases h
        · rename_i s2 h2
          have hf2 : Frame s1 s2 := by
            split at h2
            · cases h2
              exact ⟨rfl, rfl, rfl, rfl, rfl, rfl, rfl, rfl, rfl, rfl, rfl, rfl, rfl, rfl,
                ⟨[.root _ _ _], rfl, by simp [UCall.isRoot], rfl⟩, .single (.shift _ _ _)⟩
            · refine Frame.trans ?_ (getSolution'_frame h2).1
              frame_call
          refine hf2.trans ?_
          split at h
          · cases h; frame_call
          · split at h <;> (cases h; frame_call)
      · cases h; frame_call

theorem rootNarrow_frame {s s' : State ν n q K} {a : Scan K} {tmid alph : K} {sp : Int} :
    (rootNarrow s a tmid alph sp = .stop s' → Frame s s') ∧ ∀ l, rootNarrow s a tmid alph sp = .more s' l → Frame s s' := by
  constructor
  · intro h
    unfold rootNarrow at h
    simp only at h
    split at h
    · split at h <;> cases h
      frame_rfl
    · split at h
      · cases h; frame_rfl
      · split at h <;> cases h
        frame_rfl
  · intro l h
    unfold rootNarrow at h
    simp only at h
    split at h
    · split at h <;> cases h
      frame_rfl
    · split at h
      · cases h
      · split at h <;> cases h
        frame_rfl

theorem rootPass_frame {cfg : Cfg ν n q K} {s s' : State ν n q K} {l : RfLoc K} :
    (rootPass cfg s l = .stop s' → Frame s s') ∧ ∀ l', rootPass cfg s l = .more s' l' → Frame s s' := by
  constructor
  · intro h
    unfold rootPass callRoot at h
    split at h
    · simp only at h
      split at h
      · cases h
      · rename_i s1 h1
        refine ((getSolution'_frame h1).1.trans ?_).trans (rootNarrow_frame.1 h); frame_call
    · cases h
  · intro l' h
    unfold rootPass callRoot at h
    split at h
    · simp only at h
      split at h
      · cases h
      · rename_i s1 h1
        refine ((getSolution'_frame h1).1.trans ?_).trans (rootNarrow_frame.2 _ h); frame_call
    · cases h

theorem rootLoop_frame {cfg : Cfg ν n q K} (fuel : Nat) {s s' : State ν n q K} {l : RfLoc K} {r : Except Err Unit}
    (h : rootLoop cfg fuel s l = .ret s' r) : Frame s s' := by
  induction fuel generalizing s l with
  | zero => cases h
  | succ fuel ih =>
    unfold rootLoop at h
    split at h
    · cases h; exact Frame.refl _
    · split at h
      · cases h
      · rename_i s1 h1
        cases h; exact rootPass_frame.1 h1
      · rename_i s1 l1 h1
        exact (rootPass_frame.2 _ h1).trans (ih h)

theorem rootFind_frame {cfg : Cfg ν n q K} {fuel : Nat} {s s' : State ν n q K} {r : Except Err RootStatus}
    (h : rootFind cfg fuel s = .ret s' r) : Frame s s' := by
  unfold rootFind at h
  simp only at h
  split at h
  · split at h <;> (cases h; frame_rfl)
  · unfold Out.bind at h
    split at h
    · rename_i s1 _ h1
      cases h
      refine (rootLoop_frame _ h1).trans ?_; frame_rfl
    · rename_i s1 _ h1
      cases h
      exact rootLoop_frame _ h1
    · cases h
    · cases h

theorem rCheck3_frame {cfg : Cfg ν n q K} {fuel : Nat} {s s' : State ν n q K} {r : Except Err RootStatus}
    (h : rCheck3 cfg fuel s = .ret s' r) : Frame s s' := by
  unfold rCheck3 callRoot at h
  simp only at h
  split at h
  · cases h
  · rename_i s1 h1
    have hf1 : Frame s s1 := Frame.trans (by frame_rfl) (getSolution'_frame h1).1
    refine hf1.trans ?_
    unfold Out.bind at h
    split at h
    · rename_i s2 _ h2
      have hf2 : Frame s1 s2 := Frame.trans (by frame_call) (rootFind_frame h2)
      refine hf2.trans ?_
      simp only at h
      split at h
      · split at h
        · cases h
        · rename_i s3 h3
          cases h
          refine Frame.trans ?_ (getSolution'_frame h3).1
          frame_rfl
      · cases h; frame_rfl
    · rename_i s2 _ h2
      cases h
      exact Frame.trans (by frame_call) (rootFind_frame h2)
    · cases h
    · cases h

end

end Verif
