import Verif.Proofs.Root
import Verif.Proofs.SolveExact

/-! # The rootfinding data in every history -/

set_option autoImplicit false
set_option linter.unusedSectionVars false
set_option linter.unusedSimpArgs false
set_option linter.unusedVariables false

namespace Verif

open Verif.Spec Verif.Props

universe u v

section
variable {ν : Type v} {n q : Nat} {K : Type u} [Scalar K]

/-- The nonlinear solver only appends to the (ghost) log of user calls. -/
def NlsKeepsLog (cfg : Cfg ν n q K) : Prop :=
  ∀ N e m y0 y w tol call N' m' ee r, cfg.nls.solve N e m y0 y w tol call = .ret N' m' ee r → ∃ l, m'.log = l ++ m.log

theorem nlsUses_keepsLog {cfg : Cfg ν n q K} (h : NlsUses cfg) : NlsKeepsLog cfg := by
  intro N e m y0 y w tol call N' m' ee r hs
  obtain ⟨t, ht⟩ := h _ _ _ _ _ _ _ _ _ _ _ _ hs
  obtain ⟨l, hl⟩ := calls_log ht
  exact ⟨l, hl.log⟩

theorem memAfter_log {cfg : Cfg ν n q K} (hk : NlsKeepsLog cfg) {s : State ν n q K} {N' : ν} {m' : Mem n K}
    (h : MemAfter cfg s N' m') : ∀ c, c ∈ s.m.log → c ∈ m'.log := by
  obtain ⟨m1, ee, r, h1, rfl⟩ := h
  intro c hc
  unfold nlsCall at h1
  obtain ⟨l, hl⟩ := hk _ _ _ _ _ _ _ _ _ _ _ _ h1
  show c ∈ m1.log
  rw [hl, nlsPrepare_log]
  exact List.mem_append_right _ hc

/-- A step, accepted or not, keeps the rootfinding data and the calls made so far. -/
theorem step_log {cfg : Cfg ν n q K} (hk : NlsKeepsLog cfg) {s s' : State ν n q K} {r : Except Err Unit}
    (h : step cfg s = .ret s' r) : (∀ c, c ∈ s.m.log → c ∈ s'.m.log) ∧ s'.r = s.r := by
  have hi := firstStepInit_cnt s
  have := step_rule (cfg := cfg) (fun s1 _ => (∀ c, c ∈ s.m.log → c ∈ s1.m.log) ∧ s1.r = s.r)
    (fun s1 => (∀ c, c ∈ s.m.log → c ∈ s1.m.log) ∧ s1.r = s.r)
    (fun s1 _ => (∀ c, c ∈ s.m.log → c ∈ s1.m.log) ∧ s1.r = s.r)
    ⟨by rw [hi.2.2.2.2.2.2.2.2]; exact fun c hc => hc, hi.2.2.2.2.2.2.2.1⟩
    (fun s1 f s' f' hI h => by
      obtain ⟨h1, -, h2⟩ := attempt_again_m h
      exact ⟨fun c hc => memAfter_log hk h1 c (hI.1 c hc), h2.trans hI.2⟩)
    (fun s1 f s2 ck a b s' hI h hc => by
      obtain ⟨h1, -, h2⟩ := attempt_done_m h
      have hC := completeStep_eq hc
      refine ⟨?_, ?_⟩
      · show ∀ c, c ∈ s.m.log → c ∈ s'.m.log
        rw [hC.m]; exact fun c hc => memAfter_log hk h1 c (hI.1 c hc)
      · show s'.r = _
        rw [hC.r]; exact h2.trans hI.2)
    (fun s1 f s' e hI h => by
      obtain ⟨h1, -, h2⟩ := attempt_fail_m h
      exact ⟨fun c hc => memAfter_log hk h1 c (hI.1 c hc), h2.trans hI.2⟩) h
  rcases this with ⟨-, h⟩ | ⟨e, -, h⟩ <;> exact h

end

section
variable {ν : Type v} {n q : Nat} {K : Type u} [Field K] [LinearOrder K] [IsStrictOrderedRing K] [ExactParams K]
  [EpsLaws K]

/-- Where the stored value of component `i` at the start of the next search comes from: it was seen there, or (if the
start is the initial time, or if the component vanished at the start) at a point after the start. -/
def LoVal (cfg : Cfg ν n q K) (s : State ν n q K) (i : Fin q) : Prop :=
  Seen cfg s s.r.tlo i (s.r.glo i) ∨
  ∃ t, 0 < (t - s.r.tlo) * s.c.hh ∧ Seen cfg s t i (s.r.glo i) ∧ (s.r.tlo = 0 ∨ Seen cfg s s.r.tlo i 0)

/-- The start of the next search. -/
structure RootLoop (cfg : Cfg ν n q K) (s : State ν n q K) : Prop where
  lo : ∀ i, LoVal cfg s i
  ahead : 0 < q → 0 ≤ (s.e.tn - s.r.tlo) * s.c.hh

/-- A component that is not monitored vanished at the start of the next search. -/
def RootMon (cfg : Cfg ν n q K) (s : State ν n q K) : Prop := ∀ i, s.r.gactive i = true ∨ Seen cfg s s.r.tlo i 0

theorem RootLoop.keep {cfg : Cfg ν n q K} {s s' : State ν n q K} (h : RootLoop cfg s)
    (hl : ∀ c, c ∈ s.m.log → c ∈ s'.m.log) (ht : s'.r.tlo = s.r.tlo) (hg : s'.r.glo = s.r.glo)
    (hh : ∃ c, 0 < c ∧ s'.c.hh = c * s.c.hh) (htn : 0 ≤ (s'.e.tn - s.e.tn) * s.c.hh) : RootLoop cfg s' := by
  obtain ⟨c, hc, hc2⟩ := hh
  refine ⟨fun i => ?_, fun hq => ?_⟩
  · unfold LoVal
    rw [ht, hg, hc2]
    rcases h.lo i with h1 | ⟨t, h1, h2, h3⟩
    · exact Or.inl (h1.mono hl)
    · refine Or.inr ⟨t, ?_, h2.mono hl, h3.imp id (fun h => h.mono hl)⟩
      rw [mul_left_comm]; exact mul_pos hc h1
  · rw [ht, hc2]
    have e : (s'.e.tn - s.r.tlo) * (c * s.c.hh) = c * ((s.e.tn - s.r.tlo) * s.c.hh + (s'.e.tn - s.e.tn) * s.c.hh) := by ring
    rw [e]
    exact mul_nonneg hc.le (add_nonneg (h.ahead hq) htn)

theorem RootMon.keep {cfg : Cfg ν n q K} {s s' : State ν n q K} (h : RootMon cfg s)
    (hl : ∀ c, c ∈ s.m.log → c ∈ s'.m.log) (ht : s'.r.tlo = s.r.tlo) (hg : s'.r.gactive = s.r.gactive) : RootMon cfg s' := by
  intro i
  rw [ht, hg]
  exact (h i).imp id (fun hx => hx.mono hl)

/-- Changes that do not concern the rootfinding data. -/
theorem RootLoop.same {cfg : Cfg ν n q K} {s s' : State ν n q K} (h : RootLoop cfg s)
    (hl : s'.m.log = s.m.log) (hr : s'.r = s.r) (hc : s'.c = s.c) (ht : s'.e.tn = s.e.tn) : RootLoop cfg s' :=
  h.keep (by rw [hl]; exact fun c h => h) (by rw [hr]) (by rw [hr]) ⟨1, one_pos, by rw [hc, one_mul]⟩ (by rw [ht]; simp)

theorem RootMon.same {cfg : Cfg ν n q K} {s s' : State ν n q K} (h : RootMon cfg s)
    (hl : s'.m.log = s.m.log) (hr : s'.r = s.r) : RootMon cfg s' :=
  h.keep (by rw [hl]; exact fun c h => h) (by rw [hr]) (by rw [hr])

/-! ## Searches -/

/-- The searched interval does not go past the internal time. -/
theorem searchEnd_le (s : State ν n q K) : 0 ≤ (s.e.tn - searchEnd s) * s.c.hh := by
  unfold searchEnd
  split
  · simp
  · split
    · simp
    · rename_i h
      simp only [ex_le, decide_eq_true_eq, not_le] at h
      have e : (s.e.tn - s.r.toutc) * s.c.hh = -((s.r.toutc - s.e.tn) * s.c.hh) := by ring
      rw [e]; linarith

theorem Searched.loop {cfg : Cfg ν n q K} {s s' : State ν n q K} {r : RootStatus} (h : Searched cfg s s' r)
    (ha : 0 ≤ (s.e.tn - s.r.tlo) * s.c.hh) : RootLoop cfg s' ∧ RootMon cfg s' := by
  refine ⟨⟨fun i => Or.inl (h.seen i).seen, fun _ => ?_⟩, fun i => ?_⟩
  · obtain ⟨b, b0, b1, hb⟩ := h.pos
    rw [h.frame.e, h.frame.c, hb]
    have e : (s.e.tn - (s.r.tlo + b * (searchEnd s - s.r.tlo))) * s.c.hh =
        (1 - b) * ((s.e.tn - s.r.tlo) * s.c.hh) + b * ((s.e.tn - searchEnd s) * s.c.hh) := by ring
    rw [e]
    exact add_nonneg (mul_nonneg (by linarith) ha) (mul_nonneg b0.le (searchEnd_le s))
  · by_cases hz : s'.r.glo i = 0
    · exact Or.inr (by have := (h.seen i).seen; rw [hz] at this; exact this)
    · exact Or.inl ((h.gactive i).2 (Or.inr hz))

/-! ## The check right after a reported root -/

/-- The point right after `tlo` at which `r_check2` looks. -/
def plusPoint (s : State ν n q K) : K := s.r.tlo + rootTol s * Scalar.signum s.c.hh

theorem plusPoint_after {s : State ν n q K} (h : s.c.hh ≠ 0) : 0 < (plusPoint s - s.r.tlo) * s.c.hh := by
  unfold plusPoint
  rw [add_sub_cancel_left]
  simp only [ex_signum]
  have := rootTol_pos h
  rcases lt_or_gt_of_ne h with h | h
  · rw [if_pos h, mul_neg_one, neg_mul, neg_pos]
    exact mul_neg_of_pos_of_neg this h
  · rw [if_neg (not_lt.2 h.le), mul_one]
    exact mul_pos this h

/-- Invariant of the second fold of `r_check2`. -/
structure R2Inv (act : Fin q → Bool) (g1 iroots glo : Vec q K) (k : Nat) (a : R2Fold q K) : Prop where
  glo : ∀ i, a.glo i = glo i ∨ (act i = true ∧ g1 i ≠ 0 ∧ 0 < iroots i ∧ a.glo i = g1 i)
  done : a.done = true → ∃ i, act i = true ∧ g1 i = 0 ∧ 0 < iroots i
  more : a.done = false → (a.zroot = true ↔ ∃ i : Fin q, i.val < k ∧ act i = true ∧ g1 i = 0) ∧
    (∀ i : Fin q, i.val < k → act i = true → g1 i = 0 → ¬ 0 < iroots i) ∧
    (∀ i : Fin q, i.val < k → act i = true → g1 i = 0 → a.iroots i = 1) ∧
    (∀ i : Fin q, ¬ (i.val < k ∧ act i = true ∧ g1 i = 0) → a.iroots i = iroots i) ∧
    (∀ i : Fin q, i.val < k → act i = true → g1 i ≠ 0 → 0 < iroots i → a.glo i = g1 i)

theorem r2Fold_spec (act : Fin q → Bool) (g1 iroots glo : Vec q K) : R2Inv act g1 iroots glo q (r2Fold act g1 iroots glo) := by
  unfold r2Fold
  refine fold_rule _ _ (fun k a => R2Inv act g1 iroots glo k a)
    ⟨fun i => Or.inl rfl, by simp, fun _ => ⟨by simp, by simp, by simp, by simp, by simp⟩⟩ ?_
  intro a i h
  have lift : ∀ {j : Fin q}, j.val < i.val + 1 → j ≠ i → j.val < i.val := fun {j} hj hne => by
    have : j.val ≠ i.val := fun h => hne (Fin.ext h)
    omega
  split
  · rename_i hd
    exact ⟨h.glo, h.done, fun h' => by rw [hd] at h'; cases h'⟩
  · rename_i hd
    have hd : a.done = false := by simpa using hd
    obtain ⟨m1, m2, m3, m4, m5⟩ := h.more hd
    have hai : a.iroots i = iroots i := m4 i (fun hx => by omega)
    split
    · rename_i hact
      split
      · rename_i hz
        have hz : g1 i = 0 := by simpa using hz
        split
        · rename_i hp
          have hp : 0 < iroots i := by rw [hai] at hp; simpa [Scalar.gt] using hp
          exact ⟨h.glo, fun _ => ⟨i, hact, hz, hp⟩, fun h' => by simp at h'⟩
        · rename_i hp
          have hp : ¬ 0 < iroots i := by rw [hai] at hp; simpa [Scalar.gt] using hp
          refine ⟨h.glo, (fun h' => by rw [hd] at h'; cases h'), fun _ => ⟨?_, ?_, ?_, ?_, ?_⟩⟩
          · simp only [true_iff]; exact ⟨i, by omega, hact, hz⟩
          · intro j hj ha h0
            by_cases hji : j = i
            · rw [hji]; exact hp
            · exact m2 j (lift hj hji) ha h0
          · intro j hj ha h0
            by_cases hji : j = i
            · simp [hji]
            · simp [hji]; exact m3 j (lift hj hji) ha h0
          · intro j hj
            by_cases hji : j = i
            · exact absurd ⟨by rw [hji]; omega, by rw [hji]; exact hact, by rw [hji]; exact hz⟩ hj
            · simp [hji]; exact m4 j (fun hx => hj ⟨by omega, hx.2⟩)
          · intro j hj ha h0 hp'
            by_cases hji : j = i
            · exact absurd hz (by rw [← hji]; exact h0)
            · exact m5 j (lift hj hji) ha h0 hp'
      · rename_i hz
        have hz : g1 i ≠ 0 := by simpa using hz
        have z1 : (a.zroot = true ↔ ∃ j : Fin q, j.val < i.val + 1 ∧ act j = true ∧ g1 j = 0) := by
          rw [m1]
          constructor
          · rintro ⟨j, hj, hx⟩; exact ⟨j, by omega, hx⟩
          · rintro ⟨j, hj, hx⟩
            by_cases hji : j = i
            · rw [hji] at hx; exact absurd hx.2 hz
            · exact ⟨j, lift hj hji, hx⟩
        have z2 : ∀ j : Fin q, j.val < i.val + 1 → act j = true → g1 j = 0 → ¬ 0 < iroots j := by
          intro j hj ha h0
          by_cases hji : j = i
          · rw [hji] at h0; exact absurd h0 hz
          · exact m2 j (lift hj hji) ha h0
        have z3 : ∀ j : Fin q, j.val < i.val + 1 → act j = true → g1 j = 0 → a.iroots j = 1 := by
          intro j hj ha h0
          by_cases hji : j = i
          · rw [hji] at h0; exact absurd h0 hz
          · exact m3 j (lift hj hji) ha h0
        have z4 : ∀ j : Fin q, ¬ (j.val < i.val + 1 ∧ act j = true ∧ g1 j = 0) → a.iroots j = iroots j := by
          intro j hj
          exact m4 j (fun hx => hj ⟨by omega, hx.2⟩)
        split
        · rename_i hp
          have hp : 0 < iroots i := by rw [hai] at hp; simpa [Scalar.gt] using hp
          refine ⟨fun j => ?_, (fun h' => by rw [hd] at h'; cases h'), fun _ => ⟨z1, z2, z3, z4, ?_⟩⟩
          · by_cases hji : j = i
            · rw [hji]; exact Or.inr ⟨hact, hz, hp, by simp⟩
            · simp [hji]; exact h.glo j
          · intro j hj ha h0 hp'
            by_cases hji : j = i
            · simp [hji]
            · simp [hji]; exact m5 j (lift hj hji) ha h0 hp'
        · rename_i hp
          have hp : ¬ 0 < iroots i := by rw [hai] at hp; simpa [Scalar.gt] using hp
          refine ⟨h.glo, (fun h' => by rw [hd] at h'; cases h'), fun _ => ⟨z1, z2, z3, z4, ?_⟩⟩
          intro j hj ha h0 hp'
          by_cases hji : j = i
          · rw [hji] at hp'; exact absurd hp' hp
          · exact m5 j (lift hj hji) ha h0 hp'
    · rename_i hact
      refine ⟨h.glo, (fun h' => by rw [hd] at h'; cases h'), fun _ => ⟨?_, ?_, ?_, ?_, ?_⟩⟩
      · rw [m1]
        constructor
        · rintro ⟨j, hj, hx⟩; exact ⟨j, by omega, hx⟩
        · rintro ⟨j, hj, hx⟩
          by_cases hji : j = i
          · rw [hji] at hx; exact absurd hx.1 hact
          · exact ⟨j, lift hj hji, hx⟩
      · intro j hj ha h0
        by_cases hji : j = i
        · rw [hji] at ha; exact absurd ha hact
        · exact m2 j (lift hj hji) ha h0
      · intro j hj ha h0
        by_cases hji : j = i
        · rw [hji] at ha; exact absurd ha hact
        · exact m3 j (lift hj hji) ha h0
      · intro j hj
        exact m4 j (fun hx => hj ⟨by omega, hx.2⟩)
      · intro j hj ha h0 hp'
        by_cases hji : j = i
        · rw [hji] at ha; exact absurd ha hact
        · exact m5 j (lift hj hji) ha h0 hp'

/-- What `r_check2` does: nothing, if the last call did not report a root; otherwise it evaluates the root function at
the reported root (`g0`), and if a monitored component vanishes there, also right after it (`g1`). -/
inductive Rechecked (cfg : Cfg ν n q K) (s s' : State ν n q K) (r : Except Err RootStatus) : Prop
  | skip : s.r.irfnd = false → s' = s → r = .ok .continue_ → Rechecked cfg s s' r
  | plain (g0 : Vec q K) : s.r.irfnd = true → (∀ i, SeenSol cfg s' s.r.tlo i (g0 i)) →
      (∀ i, s.r.gactive i = true → g0 i ≠ 0) → r = .ok .continue_ → s'.r.glo = g0 → (∀ i, s'.r.iroots i = 0) →
      Rechecked cfg s s' r
  | again (g0 g1 : Vec q K) : s.r.irfnd = true → (∀ i, SeenSol cfg s' s.r.tlo i (g0 i)) →
      (∀ i, Seen cfg s' (plusPoint s) i (g1 i)) → (∃ i, s.r.gactive i = true ∧ g0 i = 0) →
      (∀ i, s'.r.glo i = g0 i ∨ (s.r.gactive i = true ∧ g0 i = 0 ∧ g1 i ≠ 0 ∧ s'.r.glo i = g1 i)) →
      (r = .error (.ida .closeRoots) ∧ (∃ i, s.r.gactive i = true ∧ g0 i = 0 ∧ g1 i = 0) ∨
       (∀ i, s.r.gactive i = true → g0 i = 0 → g1 i ≠ 0 ∧ s'.r.glo i = g1 i) ∧
       (r = .ok .rootFound ∧ (∃ i, s.r.gactive i = true ∧ g1 i = 0) ∨
        r = .ok .continue_ ∧ (∀ i, s.r.gactive i = true → g1 i ≠ 0)) ∧
       (∀ i, s'.r.iroots i = 1 ∧ s.r.gactive i = true ∧ (g0 i = 0 ∨ g1 i = 0) ∨
          s'.r.iroots i = 0 ∧ ¬ (s.r.gactive i = true ∧ (g0 i = 0 ∨ g1 i = 0)))) →
      Rechecked cfg s s' r

theorem rCheck2_spec {cfg : Cfg ν n q K} {s s' : State ν n q K} {r : Except Err RootStatus}
    (h : rCheck2 cfg s = .ret s' r) :
    Rechecked cfg s s' r ∧ s'.r.tlo = s.r.tlo ∧ s'.r.gactive = s.r.gactive ∧ s'.r.irfnd = s.r.irfnd := by
  unfold rCheck2 callRoot at h
  split at h
  · rename_i h0
    cases h
    exact ⟨.skip h0 rfl rfl, rfl, rfl, rfl⟩
  · rename_i h0
    have h0 : s.r.irfnd = true := by simpa using h0
    cases hg : getSolution' s s.r.tlo with
    | none => rw [hg] at h; cases h
    | some s1 =>
      rw [hg] at h
      simp only at h
      obtain ⟨hf1, yy, yp, e1⟩ := getSolution'_frame hg
      have er : s1.r = s.r := by rw [e1]
      have seen0 : ∀ s2 : State ν n q K, (∀ c, c ∈ (UCall.root s.r.tlo s1.m.yy s1.m.yp :: s1.m.log) → c ∈ s2.m.log) →
          s2.h = s1.h → s2.c = s1.c → s2.e = s1.e →
          ∀ i, SeenSol cfg s2 s.r.tlo i (cfg.prob.root s.r.tlo s1.m.yy s1.m.yp s1.r.glo i) := by
        intro s2 hl hh hc he i
        have := seenSol_call (cfg := cfg) (buf := s1.r.glo) hg
          (s' := ({ s1 with
            m.log := .root s.r.tlo s1.m.yy s1.m.yp :: s1.m.log
            r.nge := s1.r.nge + 1 } : State ν n q K)) rfl (by frame_call) i
        exact this.mono hl hh hc he
      rw [er] at h seen0
      generalize hG0 : cfg.prob.root s.r.tlo s1.m.yy s1.m.yp s.r.glo = g0 at h seen0
      have hzero : ∀ i, (s.r.gactive i && Scalar.eqb (Scalar.abs (g0 i)) 0) = true ↔ s.r.gactive i = true ∧ g0 i = 0 := by
        intro i; simp
      split at h
      · rename_i hz
        obtain ⟨i0, hi0⟩ := (foldl_or _).1 hz
        rw [hzero] at hi0
        simp only [rootTol, hf1.e, hf1.c] at h
        have hP : plusPoint s = s.r.tlo + (Scalar.abs s.e.tn + Scalar.abs s.c.hh) * Scalar.eps * Scalar.hundred * Scalar.signum s.c.hh := rfl
        rw [← hP] at h
        split at h
        · cases h
        · rename_i s2 hs2
          -- the state before the second evaluation
          have hx : s2.r = { s.r with
                glo := g0
                nge := s.r.nge + 1
                iroots := fun i => if (s.r.gactive i && Scalar.eqb (Scalar.abs (g0 i)) 0) = true then 1 else 0
                ttol := rootTol s } ∧ s2.m.log = .root s.r.tlo s1.m.yy s1.m.yp :: s1.m.log ∧
              s2.h = s1.h ∧ s2.c = s.c ∧ s2.e = s.e := by
            split at hs2
            · cases hs2
              exact ⟨by simp only [er]; rfl, rfl, rfl, rfl, rfl⟩
            · obtain ⟨-, yy2, yp2, e2⟩ := getSolution'_frame hs2
              rw [e2]
              exact ⟨by simp only [er]; rfl, rfl, rfl, rfl, rfl⟩
          obtain ⟨hr2, hl2, hh2, hc2, he2⟩ := hx
          generalize hG1 : cfg.prob.root (plusPoint s) s2.m.yy s2.m.yp s2.r.ghi = g1 at h
          have hseen1 : ∀ s3 : State ν n q K, (UCall.root (plusPoint s) s2.m.yy s2.m.yp ∈ s3.m.log) →
              ∀ i, Seen cfg s3 (plusPoint s) i (g1 i) := by
            intro s3 hs3 i
            exact ⟨s2.m.yy, s2.m.yp, s2.r.ghi, hs3, by rw [hG1]⟩
          have ha : s2.r.gactive = s.r.gactive := by rw [hr2]
          have hg : s2.r.glo = g0 := by rw [hr2]
          have hir : s2.r.iroots = fun i => if (s.r.gactive i && Scalar.eqb (Scalar.abs (g0 i)) 0) = true then 1 else 0 := by
            rw [hr2]
          have hpos : ∀ i, 0 < s2.r.iroots i ↔ s.r.gactive i = true ∧ g0 i = 0 := by
            intro i
            rw [hir, ← hzero i]
            simp only
            split <;> simp_all
          have hS := r2Fold_spec s2.r.gactive g1 s2.r.iroots s2.r.glo
          generalize r2Fold s2.r.gactive g1 s2.r.iroots s2.r.glo = a at h hS
          obtain ⟨s3, hs3⟩ : ∃ s3 : State ν n q K, s3 = { s2 with
              m.log := .root (plusPoint s) s2.m.yy s2.m.yp :: s2.m.log
              r.ghi := g1
              r.nge := s2.r.nge + 1
              r.iroots := a.iroots
              r.glo := a.glo } := ⟨_, rfl⟩
          have hsolve : s' = s3 ∧ r = (if a.done = true then .error (.ida .closeRoots) else if a.zroot = true then .ok .rootFound
              else .ok .continue_) := by
            split at h
            · rename_i hd
              cases h
              exact ⟨hs3.symm, by simp [hd]⟩
            · rename_i hd
              split at h
              · rename_i hd'
                cases h
                exact ⟨hs3.symm, by simp [hd, hd']⟩
              · rename_i hd'
                cases h
                exact ⟨hs3.symm, by simp [hd, hd']⟩
          clear h
          obtain ⟨rfl, rfl⟩ := hsolve
          have hglo : s'.r.glo = a.glo := by rw [hs3]
          have hiro : s'.r.iroots = a.iroots := by rw [hs3]
          refine ⟨.again g0 g1 h0 (seen0 _ ?_ ?_ ?_ ?_) (hseen1 _ ?_) ⟨i0, hi0⟩ ?_ ?_, ?_, ?_, ?_⟩
          · rw [hs3]
            show ∀ c, _ → c ∈ _ :: s2.m.log
            rw [hl2]
            exact fun c hc => List.mem_cons_of_mem _ hc
          · rw [hs3]; exact hh2
          · rw [hs3]; exact hc2.trans hf1.c.symm
          · rw [hs3]; exact he2.trans hf1.e.symm
          · rw [hs3]; exact List.mem_cons_self
          · intro i
            rw [hglo]
            rcases hS.glo i with hx | ⟨x1, x2, x3, x4⟩
            · exact Or.inl (by rw [hx, hg])
            · exact Or.inr ⟨((hpos i).1 x3).1, ((hpos i).1 x3).2, x2, x4⟩
          · cases hd : a.done with
            | true =>
              obtain ⟨i, x1, x2, x3⟩ := hS.done hd
              exact Or.inl ⟨by simp, i, ((hpos i).1 x3).1, ((hpos i).1 x3).2, x2⟩
            | false =>
              obtain ⟨m1, m2, m3, m4, m5⟩ := hS.more hd
              rw [ha] at m1 m2 m3 m4 m5
              refine Or.inr ⟨fun i x1 x2 => ?_, ?_, fun i => ?_⟩
              · have hne : g1 i ≠ 0 := fun h0 => m2 i i.isLt x1 h0 ((hpos i).2 ⟨x1, x2⟩)
                exact ⟨hne, by rw [hglo]; exact m5 i i.isLt x1 hne ((hpos i).2 ⟨x1, x2⟩)⟩
              · cases hz : a.zroot with
                | true =>
                  obtain ⟨i, -, x1, x2⟩ := m1.1 hz
                  exact Or.inl ⟨by simp, i, x1, x2⟩
                | false =>
                  refine Or.inr ⟨by simp, fun i x1 x2 => ?_⟩
                  have := m1.2 ⟨i, i.isLt, x1, x2⟩
                  rw [hz] at this; cases this
              · rw [hiro]
                by_cases hx : s.r.gactive i = true ∧ g1 i = 0
                · exact Or.inl ⟨m3 i i.isLt hx.1 hx.2, hx.1, Or.inr hx.2⟩
                · rw [m4 i (fun hy => hx hy.2), hir]
                  simp only [hzero]
                  by_cases hy : s.r.gactive i = true ∧ g0 i = 0
                  · rw [if_pos hy]; exact Or.inl ⟨rfl, hy.1, Or.inl hy.2⟩
                  · rw [if_neg hy]
                    refine Or.inr ⟨rfl, ?_⟩
                    rintro ⟨w1, w2 | w2⟩
                    · exact hy ⟨w1, w2⟩
                    · exact hx ⟨w1, w2⟩
          · rw [hs3]; show s2.r.tlo = _; rw [hr2]
          · rw [hs3]; show s2.r.gactive = _; rw [hr2]
          · rw [hs3]; show s2.r.irfnd = _; rw [hr2]
      · rename_i hz
        have hz : ∀ i, ¬ (s.r.gactive i && Scalar.eqb (Scalar.abs (g0 i)) 0) = true := fun i hi => hz ((foldl_or _).2 ⟨i, hi⟩)
        cases h
        refine ⟨.plain g0 h0 (seen0 _ (fun c hc => hc) rfl rfl rfl) (fun i ha h0 => hz i ((hzero i).2 ⟨ha, h0⟩)) rfl rfl
          (fun i => ?_), ?_, ?_, ?_⟩
        · show (if _ then _ else _) = _
          exact if_neg (hz i)
        · rfl
        · rfl
        · rfl

theorem rechecked_loop {cfg : Cfg ν n q K} {s s' : State ν n q K} {r : Except Err RootStatus}
    (h : rCheck2 cfg s = .ret s' r) (hh : s.c.hh ≠ 0) (hI : RootLoop cfg s) : RootLoop cfg s' := by
  obtain ⟨hR, ht, -, -⟩ := rCheck2_spec h
  have hf := rCheck2_frame h
  refine ⟨fun i => ?_, fun hq => by rw [hf.e, ht, hf.c]; exact hI.ahead hq⟩
  cases hR with
  | skip _ h2 _ => rw [h2]; exact hI.lo i
  | plain g0 _ h2 _ _ h5 _ =>
    refine Or.inl ?_
    rw [ht, h5]; exact (h2 i).seen
  | again g0 g1 _ h2 h3 _ h5 _ =>
    rcases h5 i with h6 | ⟨-, h7, -, h8⟩
    · refine Or.inl ?_
      rw [ht, h6]; exact (h2 i).seen
    · refine Or.inr ⟨plusPoint s, ?_, ?_, ?_⟩
      · rw [ht, hf.c]; exact plusPoint_after hh
      · rw [h8]; exact h3 i
      · rw [ht]
        have := (h2 i).seen
        rw [h7] at this
        exact Or.inr this

theorem rechecked_mon {cfg : Cfg ν n q K} {s s' : State ν n q K} {r : Except Err RootStatus}
    (h : rCheck2 cfg s = .ret s' r) (hI : RootMon cfg s) : RootMon cfg s' := by
  obtain ⟨-, ht, ha, -⟩ := rCheck2_spec h
  exact hI.keep (rCheck2_frame h).log_sub ht ha

/-! ## The first call -/

theorem ite_prop {α : Type u} {P : α → Prop} {c : Prop} [Decidable c] {a b : α} (ha : P a) (hb : P b) :
    P (if c then a else b) := by
  split
  · exact ha
  · exact hb

theorem rCheck1_loop {cfg : Cfg ν n q K} {s : State ν n q K} (hh : s.c.hh ≠ 0) (h0 : s.e.tn = 0) :
    RootLoop cfg (rCheck1 cfg s) ∧ (rCheck1 cfg s).r.tlo = 0 := by
  have hs := rCheck1_same cfg s
  have htlo : (rCheck1 cfg s).r.tlo = s.e.tn := by
    unfold rCheck1 callRoot
    simp only
    split <;> rfl
  refine ⟨⟨fun i => ?_, fun _ => by rw [hs.2.2.1, htlo]; simp⟩, htlo.trans h0⟩
  unfold LoVal
  rw [htlo, hs.2.1]
  unfold rCheck1 callRoot
  simp only
  split
  · dsimp only
    refine ite_prop (P := fun x => Seen cfg _ s.e.tn i x ∨ ∃ t, 0 < (t - s.e.tn) * s.c.hh ∧ Seen cfg _ t i x ∧ _) ?_ ?_
    · refine Or.inr ⟨s.e.tn + Scalar.max (rootTol s / Scalar.abs s.c.hh) Scalar.pt1 * s.c.hh, ?_, ⟨_, _, _, ?_, rfl⟩, Or.inl h0⟩
      · rw [add_sub_cancel_left, mul_assoc]
        refine mul_pos ?_ (mul_self_pos.2 hh)
        simp only [ex_max, ex_pt1]
        exact lt_of_lt_of_le (by norm_num) (le_max_right _ _)
      · exact List.mem_cons_self
    · exact Or.inl ⟨_, _, _, List.mem_cons_of_mem _ List.mem_cons_self, rfl⟩
  · exact Or.inl ⟨_, _, _, List.mem_cons_self, rfl⟩

theorem firstReady_loop {cfg : Cfg ν n q K} {s : State ν n q K} (hh : s.c.hh ≠ 0) (h0 : s.e.tn = 0) (ht : s.r.tlo = 0) :
    RootLoop cfg (firstReady cfg s) ∧ (firstReady cfg s).r.tlo = 0 := by
  by_cases hq : 0 < q
  · have h1 := rCheck1_loop (cfg := cfg) (s := { s with
      h0u := s.c.hh
      c.kk := 0
      c.kused := 0 }) hh h0
    have e : firstReady cfg s = (fun s : State ν n q K => { s with
        h.phi := upd s.h.phi 1 (vscale s.c.hh (s.h.phi 1))
        epsNewt := cfg.epcon
        e.toldel := Scalar.pt0001 * cfg.epcon }) (rCheck1 cfg ({ s with
      h0u := s.c.hh
      c.kk := 0
      c.kused := 0 } : State ν n q K)) := by
      unfold firstReady; simp only [if_pos hq]
    rw [e]
    exact ⟨h1.1.same rfl rfl rfl rfl, h1.2⟩
  · have hq : q = 0 := by omega
    subst hq
    exact ⟨⟨fun i => i.elim0, fun h => by omega⟩, ht⟩

theorem firstCall_root {cfg : Cfg ν n q K} (hm : 0 ≤ cfg.hmaxInv) {s s' : State ν n q K} {tout : K} {r : Except Err Unit}
    (h : firstCall cfg s tout = .ret s' r) (h0 : s.e.tn = 0) (ht : s.r.tlo = 0) :
    s'.r.tlo = 0 ∧ (r = .ok () → RootLoop cfg s') := by
  have e0 : (initialSetup cfg s).r = s.r := by unfold initialSetup; split <;> rfl
  rcases firstCall_cases h with ⟨-, h1, h2⟩ | ⟨-, h1, h2⟩ | ⟨hh, -, -, -, ⟨-, h1, h2⟩ | ⟨s1, h1, h2, h3⟩⟩
  · subst h1 h2; exact ⟨by rw [e0]; exact ht, by simp⟩
  · subst h1 h2; exact ⟨by show (initialSetup cfg s).r.tlo = 0; rw [e0]; exact ht, by simp⟩
  · subst h1 h2; exact ⟨by show (initialSetup cfg s).r.tlo = 0; rw [e0]; exact ht, by simp⟩
  · subst h2 h3
    obtain ⟨a1, -, -⟩ := firstCall_spec hm h
    have hf : (firstReady cfg s1).c.hh = s1.c.hh := by
      unfold firstReady
      simp only
      split
      · show (rCheck1 cfg _).c.hh = _
        rw [(rCheck1_same cfg _).2.1]
      · rfl
    have h2 := firstStop_same h1
    have e1 : s1.r = s.r := by
      rw [← e0]
      unfold firstStop at h1
      split at h1
      · split at h1
        · cases h1
        · cases h1; rw [(clampToStop_m _ _).2]
      · cases h1; rfl
    have := firstReady_loop (cfg := cfg) (s := s1) (by rw [← hf]; exact right_ne_zero_of_mul a1.ne')
      (by rw [h2.tn]; show (initialSetup cfg s).e.tn = 0; rw [(initialSetup_same cfg s).tn]; exact h0) (by rw [e1]; exact ht)
    exact ⟨this.2, fun _ => this.1⟩

/-! ## Calls -/

/-- The rootfinding data of `s` carry over to `s'`. -/
structure RootKeep (s s' : State ν n q K) : Prop where
  log : ∀ c, c ∈ s.m.log → c ∈ s'.m.log
  r : s'.r.tlo = s.r.tlo ∧ s'.r.glo = s.r.glo ∧ s'.r.gactive = s.r.gactive
  hh : ∃ c, 0 < c ∧ s'.c.hh = c * s.c.hh
  tn : s'.e.tn = s.e.tn
  nst : s'.cnt.nst = s.cnt.nst

theorem RootKeep.of_eq {s s' : State ν n q K} (hl : s'.m.log = s.m.log) (hr : s'.r = s.r) (hc : s'.c = s.c)
    (he : s'.e.tn = s.e.tn) (hn : s'.cnt = s.cnt) : RootKeep s s' :=
  ⟨by rw [hl]; exact fun c h => h, by rw [hr]; exact ⟨rfl, rfl, rfl⟩, ⟨1, one_pos, by rw [hc, one_mul]⟩, he, by rw [hn]⟩

theorem RootKeep.loop {cfg : Cfg ν n q K} {s s' : State ν n q K} (h : RootKeep s s') (hI : RootLoop cfg s) :
    RootLoop cfg s' := hI.keep h.log h.r.1 h.r.2.1 h.hh (by rw [h.tn]; simp)

theorem RootKeep.mon {cfg : Cfg ν n q K} {s s' : State ν n q K} (h : RootKeep s s') (hI : RootMon cfg s) :
    RootMon cfg s' := hI.keep h.log h.r.1 h.r.2.2

theorem clampToStop_rootKeep {cfg : Cfg ν n q K} {s : State ν n q K} {ts : K} (hC : CtlInv cfg s) (hn : 0 < s.cnt.nst)
    (h1 : s.tstop = some ts) (h2 : nearStop s ts = false) : RootKeep s (clampToStop s ts) := by
  obtain ⟨c, c1, -, c3⟩ := clamp_spec (clamp_near hC hn h1 h2)
  refine ⟨by rw [(clampToStop_m s ts).1]; exact fun c h => h, by rw [(clampToStop_m s ts).2]; exact ⟨rfl, rfl, rfl⟩, ⟨c, c1, c3⟩,
    by rw [clampToStop_tn], by rw [(clampToStop_same s ts).cnt]⟩

theorem stopTest1_rootKeep {cfg : Cfg ν n q K} {s s' : State ν n q K} {tout : K} {task : Task} {r : Except Err Status}
    (hC : CtlInv cfg s) (hn : 0 < s.cnt.nst) (h : stopTest1 s tout task = .ret s' r) : RootKeep s s' := by
  cases stopTest1_cases h with
  | past _ _ => exact .of_eq rfl rfl rfl rfl rfl
  | same _ => exact .of_eq rfl rfl rfl rfl rfl
  | reached _ _ h5 => obtain ⟨-, yy, yp, rfl⟩ := getSolution_frame h5; exact .of_eq rfl rfl rfl rfl rfl
  | refused _ _ _ => exact .of_eq rfl rfl rfl rfl rfl
  | pending _ _ h5 => obtain ⟨-, yy, yp, rfl⟩ := getSolution'_frame h5; exact .of_eq rfl rfl rfl rfl rfl
  | stopNormal _ _ _ _ _ h5 => obtain ⟨-, yy, yp, rfl⟩ := getSolution_frame h5; exact .of_eq rfl rfl rfl rfl rfl
  | stopOne _ _ _ _ _ h5 => obtain ⟨-, yy, yp, rfl⟩ := getSolution_frame h5; exact .of_eq rfl rfl rfl rfl rfl
  | stopBad _ _ _ _ _ _ _ _ => exact .of_eq rfl rfl rfl rfl rfl
  | clamp _ _ h1 h2 _ _ => exact clampToStop_rootKeep hC hn h1 h2
  | free _ _ _ _ => exact .of_eq rfl rfl rfl rfl rfl

theorem stopTest2_rootKeep {cfg : Cfg ν n q K} {s s' : State ν n q K} {tout : K} {task : Task} {r : Except Err Status}
    (hC : CtlInv cfg s) (hn : 0 < s.cnt.nst) (h : stopTest2 s tout task = .ret s' r) : RootKeep s s' := by
  cases stopTest2_cases h with
  | reached _ _ h5 => obtain ⟨-, yy, yp, rfl⟩ := getSolution'_frame h5; exact .of_eq rfl rfl rfl rfl rfl
  | stopped _ _ _ _ _ _ h5 => obtain ⟨-, yy, yp, rfl⟩ := getSolution'_frame h5; exact .of_eq rfl rfl rfl rfl rfl
  | clamp _ _ h1 h2 => exact clampToStop_rootKeep hC hn h1 h2
  | free _ _ => exact .of_eq rfl rfl rfl rfl rfl
  | oneClamp _ h1 h2 =>
    have := clampToStop_rootKeep hC hn h1 h2
    exact ⟨this.log, this.r, this.hh, this.tn, this.nst⟩
  | oneFree _ => exact .of_eq rfl rfl rfl rfl rfl

theorem PreSame.rootKeep {s s' : State ν n q K} (h : PreSame s s') : RootKeep s s' := .of_eq h.log h.r h.c h.tn h.cnt

/-- What the rootfinding data mean between calls. -/
structure RootInv (cfg : Cfg ν n q K) (s : State ν n q K) : Prop where
  zero : s.cnt.nst = 0 → s.r.tlo = 0
  loop : 0 < s.cnt.nst → RootLoop cfg s
  mon : 0 < s.cnt.nst → RootMon cfg s

theorem RootKeep.inv {cfg : Cfg ν n q K} {s s' : State ν n q K} (h : RootKeep s s') (hI : RootInv cfg s) : RootInv cfg s' := by
  refine ⟨?_, ?_, ?_⟩
  · rw [h.nst, h.r.1]; exact hI.zero
  · rw [h.nst]; exact fun hn => h.loop (hI.loop hn)
  · rw [h.nst]; exact fun hn => h.mon (hI.mon hn)

/-- The state in which the search after an internal step of a call starts. -/
structure SearchAt (cfg : Cfg ν n q K) (s : State ν n q K) (tout : K) (task : Task) (p : State ν n q K) : Prop where
  loop : RootLoop cfg p
  mon : 1 < p.cnt.nst → RootMon cfg p
  hh : p.c.hh ≠ 0
  ahead : 0 < q → 0 < (searchEnd p - p.r.tlo) * p.c.hh
  onward : 0 < q → 0 ≤ (p.r.tlo - s.r.tlo) * p.c.hh
  toutc : task = .normal → p.r.toutc = tout
  taskc : p.r.taskc = task
  nst : s.cnt.nst < p.cnt.nst
  past : 0 < q → 0 ≤ (p.e.tn - p.c.hused - p.r.tlo) * p.c.hh

/-- The rootfinding data at the top of the step loop. -/
structure RootAt (cfg : Cfg ν n q K) (s p : State ν n q K) : Prop where
  loop : RootLoop cfg p
  mon : 0 < p.cnt.nst → RootMon cfg p
  zero : p.cnt.nst = 0 → p.r.tlo = 0
  onward : 0 < q → 0 ≤ (p.r.tlo - s.r.tlo) * p.c.hh

theorem RootKeep.at {cfg : Cfg ν n q K} {s p p' : State ν n q K} (h : RootKeep p p') (hI : RootAt cfg s p) : RootAt cfg s p' := by
  refine ⟨h.loop hI.loop, ?_, ?_, fun hq => ?_⟩
  · rw [h.nst]; exact fun hn => h.mon (hI.mon hn)
  · rw [h.nst, h.r.1]; exact hI.zero
  · obtain ⟨c, c1, c2⟩ := h.hh
    rw [h.r.1, c2, mul_left_comm]
    exact mul_nonneg c1.le (hI.onward hq)

theorem RootAt.inv {cfg : Cfg ν n q K} {s p : State ν n q K} (h : RootAt cfg s p) : RootInv cfg p :=
  ⟨h.zero, fun _ => h.loop, h.mon⟩

/-- A failed step keeps the rootfinding data. -/
theorem stepError_rootKeep {cfg : Cfg ν n q K} (hl : NlsLegal cfg) (hm : 0 ≤ cfg.hmaxInv) (hk : NlsKeepsLog cfg)
    {p1 p2 : State ν n q K} {tout : K} {task : Task} {e : Err} (h : PassStart cfg tout task p1)
    (hs : step cfg p1 = .ret p2 (.error e)) : RootKeep p1 p2 := by
  obtain ⟨h1, h2⟩ := step_log hk hs
  rcases step_ctl hl hm h.max h.within hs with ⟨he, -⟩ | ⟨e, -, hL⟩
  · cases he
  · obtain ⟨c, c1, -, c3⟩ := hL.hh
    exact ⟨h1, by rw [h2]; exact ⟨rfl, rfl, rfl⟩, ⟨c, c1, c3⟩, hL.tn, hL.cnt⟩

/-- After an accepted step the search is ready to start. -/
theorem step_searchAt {cfg : Cfg ν n q K} (hl : NlsLegal cfg) (hm : 0 ≤ cfg.hmaxInv) (hk : NlsKeepsLog cfg) {rf : Nat}
    {s p p1 p2 : State ν n q K} {tout : K} {task : Task} {k : Nat} (hC : CtlInv cfg s) (hL : LoopAt cfg rf s tout task p k)
    (hp : preStep cfg p k = .go p1) (hs : step cfg p1 = .ret p2 (.ok ())) (hI : RootAt cfg s p) :
    SearchAt cfg s tout task p2 ∧ CtlInv cfg p2 := by
  have hP := pass_start hl hm hC hL hp
  have hsame : PreSame p p1 := by
    have := preStep_cases cfg p k
    rw [hp] at this
    cases this with
    | go _ _ hs _ _ _ _ _ _ _ _ => exact hs
  have hI1 := hsame.rootKeep.at hI
  obtain ⟨a1, a2, a3, a4⟩ := loopAt_step hL hp hs
  obtain ⟨b1, b2, b3, b4⟩ := pass_reached hl hm hP hs
  obtain ⟨h1, h2⟩ := step_log hk hs
  have hh2 : p2.c.hh ≠ 0 := left_ne_zero_of_mul (b1.used b2).ne'
  have hgo : (∃ c, 0 < c ∧ p2.c.hh = c * p1.c.hh) ∧ 0 < (p2.e.tn - p1.e.tn) * p1.c.hh ∧ p2.e.tn - p2.c.hused = p1.e.tn := by
    rcases step_ctl hl hm hP.max hP.within hs with ⟨-, hD⟩ | ⟨e, he, -⟩
    · obtain ⟨x, l, hx, hT, -, htn, hus, -, ⟨d, hd1, hd2, hd3⟩, -, -⟩ := hD.last
      obtain ⟨c, hc1, hc2, hc3⟩ := hT.hh
      refine ⟨⟨d * c, mul_pos (lt_of_lt_of_le (by norm_num) hd1) hc1, by rw [hd3, hc3]; ring⟩, ?_, ?_⟩
      · rw [htn, hT.tnew, hT.t0, add_sub_cancel_left, hc3, mul_assoc]
        exact mul_pos hc1 (mul_self_pos.2 hP.hh)
      · rw [htn, hus, hT.tnew, hT.t0, add_sub_cancel_right]
    · cases he
  obtain ⟨⟨c, c1, c2⟩, hgo, hback⟩ := hgo
  have hloop : RootLoop cfg p2 := hI1.loop.keep h1 (by rw [h2]) (by rw [h2]) ⟨c, c1, c2⟩ hgo.le
  refine ⟨⟨hloop, fun hn => ?_, hh2, fun hq => ?_, fun hq => ?_, a1.toutc, a1.taskc, by rw [a2]; omega, fun hq => ?_⟩, b1⟩
  · have : 0 < p1.cnt.nst := by
      rw [hsame.cnt, hL.nst]; omega
    exact (hI1.mon this).keep h1 (by rw [h2]) (by rw [h2])
  · -- both the internal time and `tout` are ahead of the start of the step
    have e1 : 0 ≤ (p1.e.tn - p1.r.tlo) * p1.c.hh := hI1.loop.ahead hq
    have e2 : 0 < (searchEnd p2 - p1.e.tn) * p1.c.hh := by
      unfold searchEnd
      rw [a1.taskc]
      cases task with
      | oneStep => exact hgo
      | normal =>
        simp only
        split
        · exact hgo
        · rw [a1.toutc rfl]
          exact hP.ahead (Or.inl rfl)
    rw [h2, c2]
    have : (searchEnd p2 - p1.r.tlo) * (c * p1.c.hh) =
        c * ((searchEnd p2 - p1.e.tn) * p1.c.hh + (p1.e.tn - p1.r.tlo) * p1.c.hh) := by ring
    rw [this]
    exact mul_pos c1 (add_pos_of_pos_of_nonneg e2 e1)
  · rw [h2, c2, mul_left_comm]
    exact mul_nonneg c1.le (hI1.onward hq)
  · rw [hback, h2, c2, mul_left_comm]
    exact mul_nonneg c1.le (hI1.loop.ahead hq)

theorem searched_at {cfg : Cfg ν n q K} {s p p1 : State ν n q K} {tout : K} {task : Task} {st : RootStatus} (hq : 0 < q)
    (hP : SearchAt cfg s tout task p) (h : Searched cfg p p1 st) : RootAt cfg s p1 := by
  obtain ⟨h1, h2⟩ := h.loop (hP.loop.ahead hq)
  have hn := hP.nst
  refine ⟨h1, fun _ => h2, fun h0 => by rw [h.frame.cnt] at h0; omega, fun _ => ?_⟩
  obtain ⟨b, b0, b1, hb⟩ := h.pos
  rw [h.frame.c, hb]
  have : (p.r.tlo + b * (searchEnd p - p.r.tlo) - s.r.tlo) * p.c.hh =
      (p.r.tlo - s.r.tlo) * p.c.hh + b * ((searchEnd p - p.r.tlo) * p.c.hh) := by ring
  rw [this]
  exact add_nonneg (hP.onward hq) (mul_nonneg b0.le (hP.ahead hq).le)

theorem noRootAfter_at {cfg : Cfg ν n q K} {rf : Nat} {s p p1 : State ν n q K} {tout : K} {task : Task}
    (hP : SearchAt cfg s tout task p) (h : NoRootAfter cfg rf p p1) :
    RootAt cfg s p1 ∧ (0 < q → Searched cfg p p1 .continue_) := by
  rcases h with ⟨hq, rfl⟩ | ⟨hq, h⟩
  · subst hq
    have hn := hP.nst
    exact ⟨⟨⟨fun i => i.elim0, fun h => by omega⟩, fun _ i => i.elim0, fun h => by omega, fun h => by omega⟩, fun h => by omega⟩
  · obtain ⟨st, h1, h2⟩ := (rCheck3_spec hP.hh rf).1 _ _ h
    cases h1
    exact ⟨searched_at hq hP h2, fun _ => h2⟩

theorem rootAt_next {cfg : Cfg ν n q K} (hl : NlsLegal cfg) (hm : 0 ≤ cfg.hmaxInv) (hk : NlsKeepsLog cfg) {rf : Nat}
    {s p p' : State ν n q K} {tout : K} {task : Task} {k : Nat} (hC : CtlInv cfg s) (hL : LoopAt cfg rf s tout task p k)
    (hI : RootAt cfg s p) (hp : solvePass cfg rf p tout task k = .go p') : RootAt cfg s p' := by
  obtain ⟨p1, p2, p3, h1, h2, h3, h4⟩ := solvePass_ends.1 p' hp
  obtain ⟨a1, a2⟩ := step_searchAt hl hm hk hC hL h1 h2 hI
  obtain ⟨b1, -⟩ := noRootAfter_at a1 h3
  have hf := (noRootAfter_frame h3).1
  have hn := a1.nst
  exact (stopTest2_rootKeep (a2.of_frame hm hf) (by rw [hf.cnt]; omega) h4).at b1

/-- The state at the start of a later call. -/
def beginLater (s : State ν n q K) (tout : K) (task : Task) : State ν n q K := perfReset (begun s tout task)

theorem beginLater_same (s : State ν n q K) (tout : K) (task : Task) :
    RootKeep s (beginLater s tout task) ∧ (beginLater s tout task).r.irfnd = s.r.irfnd ∧
    (beginLater s tout task).c = s.c ∧ (beginLater s tout task).e = s.e ∧ (beginLater s tout task).cnt = s.cnt ∧
    (beginLater s tout task).h = s.h ∧ (task = .normal → (beginLater s tout task).r.toutc = tout) ∧
    (beginLater s tout task).r.taskc = task ∧ (beginLater s tout task).tretlast = s.tretlast := by
  have hi := begun_idle s tout task
  obtain ⟨e1, e2, e3, hf⟩ := begun_same s tout task
  have hr : (beginLater s tout task).r = (begun s tout task).r := rfl
  refine ⟨⟨?_, ?_, ⟨1, one_pos, by rw [one_mul]; exact congrArg _ hi.c⟩, congrArg _ hi.e, congrArg _ hi.cnt⟩, ?_, hi.c, hi.e, hi.cnt,
    hi.h, ?_, ?_, ?_⟩
  · show ∀ c, _ → c ∈ (begun s tout task).m.log
    exact hf.log_sub
  · rw [hr, e2]; exact ⟨rfl, rfl, rfl⟩
  · rw [hr, e2]
  · rw [hr]; exact e3
  · rw [hr, e2]
  · show (begun s tout task).tretlast = _
    rw [e1]

/-- How the root function decides the result of a call of `solve` on a used solver. -/
inductive RootOutcome (cfg : Cfg ν n q K) (s : State ν n q K) (tout : K) (task : Task) (s' : State ν n q K)
    (r : Except Err Status) : Prop
  /-- two roots too close to each other -/
  | close (e : Err) : 0 < q → 0 < s.cnt.nst → Rechecked cfg (beginLater s tout task) s' (.error e) → r = .error e →
      RootOutcome cfg s tout task s' r
  /-- a root right after the last reported one -/
  | recheck (s1 : State ν n q K) : 0 < q → 0 < s.cnt.nst → Rechecked cfg (beginLater s tout task) s1 (.ok .rootFound) →
      Frame (beginLater s tout task) s1 → s1.r.tlo = s.r.tlo → s' = s1.setTret s1.r.tlo → r = .ok .root → RootOutcome cfg s tout task s' r
  /-- a root in the rest of the last step -/
  | rest (s1 s2 : State ν n q K) : 0 < q → 0 < s.cnt.nst → Rechecked cfg (beginLater s tout task) s1 (.ok .continue_) →
      Frame (beginLater s tout task) s1 → Quiet (beginLater s tout task) s1 → s1.r.tlo = s.r.tlo →
      s1.r.gactive = s.r.gactive → RootLoop cfg s1 →
      RootMon cfg s1 → s1.c.hh ≠ 0 → Searched cfg s1 s2 .rootFound → s' = State.setTret { s2 with r.irfnd := true } s2.r.tlo →
      r = .ok .root → RootOutcome cfg s tout task s' r
  /-- a root in a new step -/
  | stepped (p s1 : State ν n q K) : 0 < q → SearchAt cfg s tout task p → Searched cfg p s1 .rootFound →
      s' = State.setTret { s1 with r.irfnd := true } s1.r.tlo → r = .ok .root → RootOutcome cfg s tout task s' r
  | none : r ≠ .ok .root →
      (0 < q → s.cnt.nst < s'.cnt.nst → ∀ st, r = .ok st → ∃ p s1, SearchAt cfg s tout task p ∧ Searched cfg p s1 .continue_ ∧
        RootKeep s1 s') → RootOutcome cfg s tout task s' r

theorem setFound_rootKeep (s : State ν n q K) (t : K) : RootKeep s (State.setTret { s with r.irfnd := true } t) :=
  ⟨fun c h => h, ⟨rfl, rfl, rfl⟩, ⟨1, one_pos, (one_mul _).symm⟩, rfl, rfl⟩

/-- The checks before the first step of a later call, if they do not report a root. -/
theorem noRootBefore_at {cfg : Cfg ν n q K} (hm : 0 ≤ cfg.hmaxInv) {rf : Nat} {s s1 : State ν n q K} {task : Task}
    (hC : CtlInv cfg s) (hn : 0 < s.cnt.nst) (hI : RootInv cfg s) (h : NoRootBefore cfg rf s task s1) :
    RootInv cfg s1 ∧ (s1.r.tlo = s.r.tlo ∨ s1.r.tlo = searchEnd s) := by
  have hh : s.c.hh ≠ 0 := left_ne_zero_of_mul (hC.used hn).ne'
  rcases h with ⟨-, rfl⟩ | ⟨hq, h1, -⟩ | ⟨hq, a, b, h1, -, h2, -, rfl⟩
  · exact ⟨hI, Or.inl rfl⟩
  · have hf := rCheck2_frame h1
    exact ⟨⟨fun h0 => by rw [hf.cnt] at h0; omega, fun _ => rechecked_loop h1 hh (hI.loop hn),
      fun _ => rechecked_mon h1 (hI.mon hn)⟩, Or.inl (rCheck2_spec h1).2.1⟩
  · have hf := rCheck2_frame h1
    have hL := rechecked_loop h1 hh (hI.loop hn)
    obtain ⟨st, e1, e2⟩ := (rCheck3_spec (by rw [hf.c]; exact hh) rf).1 _ _ h2
    cases e1
    obtain ⟨c1, c2⟩ := e2.loop (hL.ahead hq)
    obtain ⟨g, -, -, g3⟩ := e2.atEnd
    refine ⟨⟨fun h0 => ?_, fun _ => c1.keep (fun c h => h) rfl rfl ⟨1, one_pos, (one_mul _).symm⟩ (by simp),
      fun _ => c2.keep (fun c h => h) rfl rfl⟩, Or.inr ?_⟩
    · have h0 : b.cnt.nst = 0 := h0
      rw [e2.frame.cnt, hf.cnt] at h0; omega
    · show b.r.tlo = _
      rw [(g3 rfl).1]
      have hqt := rCheck2_quiet h1
      unfold searchEnd
      rw [hf.e, hf.c, hqt.toutc, hqt.taskc]

/-- The rootfinding data at the first pass of the first call. -/
theorem rootAt_first {cfg : Cfg ν n q K} (hm : 0 ≤ cfg.hmaxInv) {s s1 : State ν n q K} {tout : K} {task : Task}
    (hC : CtlInv cfg s) (hI : RootInv cfg s) (h0 : s.cnt.nst = 0)
    (h1 : firstCall cfg (begun s tout task) tout = .ret s1 (.ok ())) : RootAt cfg s (perfReset s1) := by
  obtain ⟨f1, -⟩ := beginLater_same s tout task
  have hb := (begun_same s tout task).2.2.2
  obtain ⟨g1, g2⟩ := firstCall_root hm h1 (by rw [hb.e]; exact (hC.zero h0).1) (f1.r.1.trans (hI.zero h0))
  have hc : s1.cnt.nst = 0 := by rw [firstCall_cnt h1, hb.cnt]; exact h0
  refine ⟨(g2 rfl).same rfl rfl rfl rfl, fun h => ?_, fun _ => g1, fun _ => ?_⟩
  · have : 0 < s1.cnt.nst := h
    omega
  · show 0 ≤ (s1.r.tlo - _) * _
    rw [g1, hI.zero h0]; simp

/-- The rootfinding data at the first pass of a later call. -/
theorem rootAt_later {cfg : Cfg ν n q K} (hl : NlsLegal cfg) (hm : 0 ≤ cfg.hmaxInv) {rf : Nat} {s s1 : State ν n q K}
    {tout : K} {task : Task} (hC : CtlInv cfg s) (hI : RootInv cfg s) (h0 : 0 < s.cnt.nst)
    (h1 : laterCall cfg rf (perfReset (begun s tout task)) tout task = .go s1) : RootAt cfg s s1 := by
  obtain ⟨f1, f2, f3, f4, f5, f6, f7, f8, f9⟩ := beginLater_same s tout task
  have hC1 : CtlInv cfg (beginLater s tout task) := ctlInv_micros hl hm hC
    ((Micros.frame (begun_same s tout task).2.2.2).tail (.perf _))
  have hn1 : 0 < (beginLater s tout task).cnt.nst := by rw [f5]; exact h0
  obtain ⟨s2, h3, h4⟩ := laterCall_ends.1 s1 h1
  obtain ⟨j1, j2⟩ := noRootBefore_at hm hC1 hn1 (f1.inv hI) h3
  have hf := (noRootBefore_frame h3).1
  have hn2 : 0 < s2.cnt.nst := by rw [hf.cnt]; exact hn1
  have hk2 := stopTest1_rootKeep (hC1.of_frame hm hf) hn2 h4
  refine hk2.at ⟨j1.loop hn2, j1.mon, j1.zero, fun hq => ?_⟩
  have hq2 := (noRootBefore_frame h3).2
  rcases j2 with j2 | j2
  · rw [j2]
    show 0 ≤ ((beginLater s tout task).r.tlo - _) * _
    rw [f1.r.1]; simp
  · have hend : searchEnd (beginLater s tout task) = s.e.tn := by
      unfold searchEnd
      rw [f8]
      cases task with
      | oneStep => simp only; rw [f4]
      | normal =>
        have hlt : ¬ 0 ≤ (s2.e.tn - tout) * s2.c.hh := by
          cases stopTest1_cases h4 with
          | clamp _ _ _ _ h5 _ => have := (h5 rfl).1; simpa [Scalar.ge] using this
          | free _ _ h5 _ => have := (h5 rfl).1; simpa [Scalar.ge] using this
        rw [f7 rfl, if_pos, f4]
        rw [hf.e, hf.c] at hlt
        have hlt : ¬ 0 ≤ ((beginLater s tout .normal).e.tn - tout) * (beginLater s tout .normal).c.hh := hlt
        simp only [Scalar.ge, ex_le, decide_eq_true_eq]
        have e : (tout - (beginLater s tout .normal).e.tn) * (beginLater s tout .normal).c.hh =
          -(((beginLater s tout .normal).e.tn - tout) * (beginLater s tout .normal).c.hh) := by ring
        rw [e]; linarith
    rw [j2, hf.c]
    show 0 ≤ (searchEnd (beginLater s tout task) - _) * (beginLater s tout task).c.hh
    rw [hend, f3]
    exact (hI.loop h0).ahead hq

/-- Every call of `solve` keeps the meaning of the rootfinding data, and returns one of these results. -/
theorem solve_root {cfg : Cfg ν n q K} (hl : NlsLegal cfg) (hm : 0 ≤ cfg.hmaxInv) (hk : NlsKeepsLog cfg) {rf sf : Nat}
    {s s' : State ν n q K} {tout : K} {task : Task} {r : Except Err Status} (hC : CtlInv cfg s) (hI : RootInv cfg s)
    (h : solve cfg rf sf s tout task = .ret s' r) : RootInv cfg s' ∧ RootOutcome cfg s tout task s' r := by
  have key : ∀ sf p, LoopAt cfg rf s tout task p 0 ∧ RootAt cfg s p → solveLoop cfg rf tout task sf p 0 = .ret s' r →
      RootInv cfg s' ∧ RootOutcome cfg s tout task s' r := fun sf p hI h => by
    refine solveLoop_rule (fun p k => LoopAt cfg rf s tout task p k ∧ RootAt cfg s p)
      (fun s' r => RootInv cfg s' ∧ RootOutcome cfg s tout task s' r)
      (fun p k p' hI hp => ⟨loopAt_next hI.1 hp, rootAt_next hl hm hk hC hI.1 hI.2 hp⟩)
      (fun p k s' r hI hp => ?_) sf p 0 hI s' r h
    obtain ⟨hL, hA⟩ := hI
    cases solvePass_ends.2 s' r hp with
    | pre h1 =>
      have hc := preStep_cases cfg p k
      rw [h1] at hc
      cases hc with
      | limit _ _ => exact ⟨(RootKeep.at (p := p) (p' := p.setTret p.e.tn) (.of_eq rfl rfl rfl rfl rfl) hA).inv, .none (by simp) (by simp)⟩
      | weights _ _ _ h2 _ _ _ _ _ => exact ⟨(h2.rootKeep.at hA).inv, .none (by simp) (by simp)⟩
      | accuracy _ _ h2 _ _ _ _ _ => exact ⟨(h2.rootKeep.at hA).inv, .none (by simp) (by simp)⟩
    | failed p1 p2 e h1 h2 h3 =>
      have hsame : PreSame p p1 := by
        have := preStep_cases cfg p k
        rw [h1] at this
        cases this with
        | go _ _ hs _ _ _ _ _ _ _ _ => exact hs
      have hP := pass_start hl hm hC hL h1
      have k1 := stepError_rootKeep hl hm hk hP h2
      have k2 : RootKeep p2 s' := by
        unfold stepFailed at h3
        split at h3
        · rename_i h4
          obtain ⟨-, yy, yp, rfl⟩ := getSolution_frame h4
          cases h3; exact .of_eq rfl rfl rfl rfl rfl
        · rename_i h4
          obtain ⟨-, yy, yp, rfl⟩ := getSolution_frame h4
          cases h3; exact .of_eq rfl rfl rfl rfl rfl
        · cases h3
        · cases h3
      refine ⟨(k2.at (k1.at (hsame.rootKeep.at hA))).inv, .none ?_ ?_⟩ <;> rw [(stepFailed_frame h3).2] <;> simp
    | post p1 p2 h1 h2 h3 =>
      obtain ⟨a1, a2⟩ := step_searchAt hl hm hk hC hL h1 h2 hA
      cases h3 with
      | root s1 hq h4 h5 h6 =>
        obtain ⟨st, e1, e2⟩ := (rCheck3_spec a1.hh rf).1 _ _ h4
        cases e1
        subst h5 h6
        exact ⟨((setFound_rootKeep s1 _).at (searched_at hq a1 e2)).inv, .stepped p2 s1 hq a1 e2 rfl rfl⟩
      | stop s1 h4 h5 h6 =>
        obtain ⟨b1, b2⟩ := noRootAfter_at a1 h4
        have hf := (noRootAfter_frame h4).1
        have hn := a1.nst
        have hk2 := stopTest2_rootKeep (a2.of_frame hm hf) (by rw [hf.cnt]; omega) h5
        refine ⟨(hk2.at b1).inv, .none ?_ (fun hq _ st _ => ⟨p2, s1, a1, b2 hq, hk2⟩)⟩
        rintro rfl
        cases stopTest2_cases h5
  obtain ⟨f1, f2, f3, f4, f5, f6, f7, f8, f9⟩ := beginLater_same s tout task
  cases solve_solveEnds h with
  | rejected e h0 h1 h2 =>
    have hb := (begun_same s tout task).2.2.2
    obtain ⟨g1, -⟩ := firstCall_root hm h1 (by rw [hb.e]; exact (hC.zero h0).1) (f1.r.1.trans (hI.zero h0))
    have hc : s'.cnt.nst = 0 := by rw [firstCall_cnt h1, hb.cnt]; exact h0
    subst h2
    exact ⟨⟨fun _ => g1, fun h => by omega, fun h => by omega⟩, .none (by simp) (by simp)⟩
  | first s1 h0 h1 h2 => exact key sf _ ⟨loopAt_first h0 h1, rootAt_first hm hC hI h0 h1⟩ h2
  | early h0 h1 =>
    have hC1 : CtlInv cfg (beginLater s tout task) := ctlInv_micros hl hm hC
      ((Micros.frame (begun_same s tout task).2.2.2).tail (.perf _))
    have hn1 : 0 < (beginLater s tout task).cnt.nst := by rw [f5]; exact h0
    have hI1 := f1.inv hI
    have hh : (beginLater s tout task).c.hh ≠ 0 := left_ne_zero_of_mul (hC1.used hn1).ne'
    cases laterCall_ends.2 _ _ h1 with
    | close e hq h2 h3 =>
      have hf := rCheck2_frame h2
      exact ⟨⟨fun h => by rw [hf.cnt] at h; exact absurd h hn1.ne', fun _ => rechecked_loop h2 hh (hI1.loop hn1),
        fun _ => rechecked_mon h2 (hI1.mon hn1)⟩, .close e hq h0 (rCheck2_spec h2).1 h3⟩
    | root2 s1 hq h2 h3 h4 =>
      have hf := rCheck2_frame h2
      have hi : RootInv cfg s1 := ⟨fun h => by rw [hf.cnt] at h; exact absurd h hn1.ne',
        fun _ => rechecked_loop h2 hh (hI1.loop hn1), fun _ => rechecked_mon h2 (hI1.mon hn1)⟩
      refine ⟨?_, .recheck s1 hq h0 (rCheck2_spec h2).1 hf ((rCheck2_spec h2).2.1.trans f1.r.1) h3 h4⟩
      subst h3
      exact RootKeep.inv (s := s1) (.of_eq rfl rfl rfl rfl rfl) hi
    | root3 s1 s2 hq h2 h3 h4 h5 h6 =>
      have hf := rCheck2_frame h2
      have i1 := rechecked_loop h2 hh (hI1.loop hn1)
      have i2 := rechecked_mon h2 (hI1.mon hn1)
      obtain ⟨st, e1, e2⟩ := (rCheck3_spec (by rw [hf.c]; exact hh) rf).1 _ _ h4
      cases e1
      obtain ⟨c1, c2⟩ := e2.loop (i1.ahead hq)
      have hi : RootInv cfg s2 := ⟨fun h => by rw [e2.frame.cnt, hf.cnt] at h; exact absurd h hn1.ne', fun _ => c1, fun _ => c2⟩
      refine ⟨?_, .rest s1 s2 hq h0 (rCheck2_spec h2).1 hf (rCheck2_quiet h2) ((rCheck2_spec h2).2.1.trans f1.r.1)
        ((rCheck2_spec h2).2.2.1.trans f1.r.2.2) i1 i2 (by rw [hf.c]; exact hh) e2 h5 h6⟩
      subst h5
      exact (setFound_rootKeep s2 _).inv hi
    | pending s1 s2 hq ht h2 h3 h4 h5 h6 =>
      have hf := rCheck2_frame h2
      have i1 := rechecked_loop h2 hh (hI1.loop hn1)
      have i2 := rechecked_mon h2 (hI1.mon hn1)
      obtain ⟨st, e1, e2⟩ := (rCheck3_spec (by rw [hf.c]; exact hh) rf).1 _ _ h4
      cases e1
      obtain ⟨c1, c2⟩ := e2.loop (i1.ahead hq)
      have hi : RootInv cfg s2 := ⟨fun h => by rw [e2.frame.cnt, hf.cnt] at h; exact absurd h hn1.ne', fun _ => c1, fun _ => c2⟩
      obtain ⟨-, yy, yp, rfl⟩ := getSolution'_frame h5
      subst h6
      refine ⟨RootKeep.inv (s := s2) ⟨fun c h => h, ⟨rfl, rfl, rfl⟩, ⟨1, one_pos, (one_mul _).symm⟩, rfl, rfl⟩ hi,
        .none (by simp) (fun _ hlt => ?_)⟩
      have hlt : s.cnt.nst < s2.cnt.nst := hlt
      rw [e2.frame.cnt, hf.cnt] at hlt
      have hlt : s.cnt.nst < (beginLater s tout task).cnt.nst := hlt
      rw [f5] at hlt; omega
    | stop s1 h2 h3 h4 =>
      obtain ⟨j1, -⟩ := noRootBefore_at hm hC1 hn1 hI1 h2
      have hf := (noRootBefore_frame h2).1
      have hk2 := stopTest1_rootKeep (hC1.of_frame hm hf) (by rw [hf.cnt]; exact hn1) h3
      refine ⟨hk2.inv j1, .none ?_ (fun _ hlt => ?_)⟩
      · rintro rfl
        cases stopTest1_cases h3
      · rw [hk2.nst, hf.cnt] at hlt
        have hlt : s.cnt.nst < (beginLater s tout task).cnt.nst := hlt
        rw [f5] at hlt; omega
  | later s1 h0 h1 h2 => exact key sf _ ⟨loopAt_later h0 h1, rootAt_later hl hm hC hI h0 h1⟩ h2

theorem rootInv_new (cfg : Cfg ν n q K) (nls0 : ν) (yy0 yp0 : Vec n K) (ts : Option K) :
    RootInv cfg ({ State.new nls0 yy0 yp0 with tstop := ts } : State ν n q K) :=
  ⟨fun _ => rfl, fun h => absurd h (by show ¬ 0 < 0; omega), fun h => absurd h (by show ¬ 0 < 0; omega)⟩

/-- The rootfinding data in every history. -/
theorem Reach.root {cfg : Cfg ν n q K} (hl : NlsLegal cfg) (hm : 0 ≤ cfg.hmaxInv) (hk : NlsKeepsLog cfg)
    {s : State ν n q K} (h : Reach cfg s) : RootInv cfg s := by
  induction h with
  | new nls0 yy0 yp0 ts => exact rootInv_new cfg nls0 yy0 yp0 ts
  | call rf sf op r h1 h2 ih =>
    cases op with
    | solve tout tret task =>
      unfold exec at h2
      simp only at h2
      split at h2
      · rename_i h3
        cases h2
        refine (solve_root hl hm hk ((h1.ctl hl hm).of_frame hm (by frame_rfl)) (RootKeep.inv ?_ ih) h3).1
        exact .of_eq rfl rfl rfl rfl rfl
      · cases h2
    | getSolution t =>
      unfold exec at h2
      simp only at h2
      split at h2
      · rename_i h3
        cases h2
        obtain ⟨-, yy, yp, rfl⟩ := getSolution_frame h3
        refine RootKeep.inv ?_ ih
        exact .of_eq rfl rfl rfl rfl rfl
      · cases h2
    | getDky t k =>
      unfold exec at h2
      simp only at h2
      split at h2
      · rename_i h3
        cases h2
        unfold getDky at h3
        split at h3
        · cases h3; exact ih
        · split at h3
          · cases h3; exact ih
          · split at h3
            · cases h3; exact ih
            · cases h3
      · cases h2

end

end Verif
