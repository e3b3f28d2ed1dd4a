import Verif.Proofs.RootChangeStep
import Verif.Proofs.Answers

/-!
# Rescaling root functions and adding root functions without zeros: `solve` and sessions
-/

set_option autoImplicit false
set_option linter.unusedSectionVars false
set_option linter.unusedSimpArgs false
set_option linter.unusedVariables false

namespace Verif

open Verif.Spec

universe u v w x y

section
variable {ν : Type v} {n q q' : Nat} {K : Type u} [Field K] [LinearOrder K] [IsStrictOrderedRing K] [ExactParams K]
  {C : RootChange q q' K} {cfg : Cfg ν n q K} {ρ : K → Vec n K → Vec n K → Vec q' K → Vec q' K} {dir : Fin q' → Nat}

theorem RootRel.weaken {pos pos' : Prop} (hp : pos' → pos) {r : RootSt q K} {r' : RootSt q' K} (h : RootRel C ρ pos r r') :
    RootRel C ρ pos' r r' := { h with live := fun x => h.live (hp x) }

theorem RR.weaken {pos pos' : Prop} (hp : pos' → pos) {s : State ν n q K} {s' : State ν n q' K} (h : RR C ρ pos s s') :
    RR C ρ pos' s s' := by
  obtain ⟨r', e, h⟩ := h
  exact ⟨r', e, h.weaken hp⟩

theorem OutR.mono {S S' : Type w} {α : Type x} {R R2 : S → S' → Prop} {o : Out S α} {o' : Out S' α} (h : OutR R o o')
    (h2 : ∀ s s', R s s' → R2 s s') : OutR R2 o o' := by
  cases h with
  | ret r h => exact .ret r (h2 _ _ h)
  | panic => exact .panic
  | diverge => exact .diverge

section
variable {pos : Prop}

theorem gsOut {s : State ν n q K} {s' : State ν n q' K} (h : RR C ρ pos s s') (t : K) :
    OutR (RR C ρ pos) (getSolution s t) (getSolution s' t) := by
  obtain ⟨r', rfl, hr⟩ := h
  rw [getSolution_reroot]
  cases hs : getSolution s t with
  | ret s1 r => exact .ret _ ⟨r', rfl, by rw [getSolution_keepsR hs]; exact hr⟩
  | panic => exact .panic
  | diverge => exact .diverge

/-- `get_solution` whose error is discarded, in a section of `solve`. -/
theorem gsF {R : State ν n q K → State ν n q' K → Prop} {s : State ν n q K} {s' : State ν n q' K} (h : RR C ρ pos s s') {t t' : K}
    (ht : t' = t) {f : State ν n q K → Flow (State ν n q K)} {f' : State ν n q' K → Flow (State ν n q' K)}
    (hf : ∀ s1 s1', RR C ρ pos s1 s1' → FlowR R (f s1) (f' s1')) :
    FlowR R (match getSolution' s t with | none => .panic | some s => f s)
      (match getSolution' s' t' with | none => .panic | some s => f' s) := by
  obtain ⟨r', rfl, hr⟩ := h
  rw [ht, getSolution'_reroot]
  cases hs : getSolution' s t with
  | none => exact .panic
  | some s1 => exact hf _ _ ⟨r', rfl, by rw [getSolution'_keepsR hs]; exact hr⟩

theorem gsF2 {R : State ν n q K → State ν n q' K → Prop} {s : State ν n q K} {s' : State ν n q' K} (h : RR C ρ pos s s') {t t' : K}
    (ht : t' = t) {f : State ν n q K → Flow (State ν n q K)} {f' : State ν n q' K → Flow (State ν n q' K)}
    (hf : ∀ s1 s1', RR C ρ pos s1 s1' → FlowR R (f s1) (f' s1')) :
    FlowR R (match (if s.cnt.nst > 0 then getSolution' s t else some s) with | none => .panic | some s => f s)
      (match (if s'.cnt.nst > 0 then getSolution' s' t' else some s') with | none => .panic | some s => f' s) := by
  have hc : s'.cnt = s.cnt := by obtain ⟨r', rfl, hr⟩ := h; rfl
  rw [hc]
  by_cases hn : s.cnt.nst > 0
  · rw [if_pos hn, if_pos hn]; exact gsF h ht hf
  · rw [if_neg hn, if_neg hn]; exact hf _ _ h

theorem RR.setTret {s : State ν n q K} {s' : State ν n q' K} (h : RR C ρ pos s s') (t : K) : RR C ρ pos (s.setTret t) (s'.setTret t) := by
  obtain ⟨r', rfl, hr⟩ := h
  exact ⟨r', rfl, hr⟩

theorem RR.irfnd {s : State ν n q K} {s' : State ν n q' K} (h : RR C ρ pos s s') (b : Bool) :
    RR C ρ pos { s with r.irfnd := b } { s' with r.irfnd := b } := by
  obtain ⟨r', rfl, hr⟩ := h
  exact ⟨{ r' with irfnd := b }, rfl, { hr with irfnd := rfl }⟩

theorem RR.tlo {s : State ν n q K} {s' : State ν n q' K} (h : RR C ρ pos s s') : s'.r.tlo = s.r.tlo := by
  obtain ⟨r', rfl, hr⟩ := h; exact hr.tlo

theorem RR.setTret' {s : State ν n q K} {s' : State ν n q' K} (h : RR C ρ pos s s') {t t' : K} (ht : t' = t) :
    RR C ρ pos (s.setTret t) (s'.setTret t') := by
  rw [ht]; exact h.setTret t

theorem RR.noStop {s : State ν n q K} {s' : State ν n q' K} (h : RR C ρ pos s s') :
    RR C ρ pos { s with tstop := none } { s' with tstop := none } := by
  obtain ⟨r', rfl, hr⟩ := h
  exact ⟨r', rfl, hr⟩

theorem clampToStop_reroot (s : State ν n q K) (r' : RootSt q' K) (T : K) :
    clampToStop (s.reroot r') T = (clampToStop s T).reroot r' := by
  unfold clampToStop
  by_cases h : Scalar.gt ((s.e.tn + s.c.hh - T) * s.c.hh) 0 = true
  · rw [if_pos h, if_pos (show Scalar.gt (((s.reroot r').e.tn + (s.reroot r').c.hh - T) * (s.reroot r').c.hh) 0 = true from h)]; rfl
  · rw [if_neg h, if_neg (show ¬ Scalar.gt (((s.reroot r').e.tn + (s.reroot r').c.hh - T) * (s.reroot r').c.hh) 0 = true from h)]

theorem clampToStop_keepsR (s : State ν n q K) (T : K) : (clampToStop s T).r = s.r := by
  unfold clampToStop; split <;> rfl

theorem RR.clamp {s : State ν n q K} {s' : State ν n q' K} (h : RR C ρ pos s s') (T : K) :
    RR C ρ pos (clampToStop s T) (clampToStop s' T) := by
  obtain ⟨r', rfl, hr⟩ := h
  exact ⟨r', clampToStop_reroot s r' T, by rw [clampToStop_keepsR]; exact hr⟩

theorem RR.tn {s : State ν n q K} {s' : State ν n q' K} (h : RR C ρ pos s s') : s'.e.tn = s.e.tn := by
  obtain ⟨r', rfl, hr⟩ := h; rfl

theorem RR.cnt {s : State ν n q K} {s' : State ν n q' K} (h : RR C ρ pos s s') : s'.cnt = s.cnt := by
  obtain ⟨r', rfl, hr⟩ := h; rfl

theorem stopTest1_rel {s : State ν n q K} {s' : State ν n q' K} (h : RR C ρ pos s s') (tout : K) (task : Task) :
    OutR (RR C ρ pos) (stopTest1 s tout task) (stopTest1 s' tout task) := by
  have h0 := h
  obtain ⟨r', rfl, hr⟩ := h
  unfold stopTest1
  refine iteR rfl (.ret _ h0) ?_
  cases task with
  | normal =>
    refine iteR rfl (.ret _ (h0.setTret _)) (iteR rfl ?_ ?_)
    · exact (gsOut h0 tout).bind (fun _ _ h => h) (fun s1 s1' _ h1 => .ret _ (h1.setTret _))
    · simp only [show (s.reroot r').tstop = s.tstop from rfl]
      cases s.tstop with
      | none => exact .ret _ h0
      | some T =>
        refine iteR rfl ?_ (.ret _ (h0.clamp T))
        have hg := gsOut h0 T
        generalize getSolution s T = o at hg ⊢
        generalize getSolution (s.reroot r') T = o' at hg ⊢
        cases hg with
        | ret r h1 =>
          cases r with
          | ok a => exact .ret _ (h1.setTret T).noStop
          | error e => exact .ret _ h1
        | panic => exact .panic
        | diverge => exact .diverge
  | oneStep =>
    refine iteR rfl ?_ ?_
    · exact gsR h0 rfl (fun s1 s1' h1 => by rw [h1.tn]; exact .ret _ (h1.setTret _))
    · simp only [show (s.reroot r').tstop = s.tstop from rfl]
      cases s.tstop with
      | none => exact .ret _ h0
      | some T =>
        refine iteR rfl ?_ (.ret _ (h0.clamp T))
        exact (gsOut h0 T).bind (fun _ _ h => h) (fun s1 s1' _ h1 => .ret _ (h1.setTret _))

theorem stopTest2_rel {s : State ν n q K} {s' : State ν n q' K} (h : RR C ρ pos s s') (tout : K) (task : Task) :
    OutR (RR C ρ pos) (stopTest2 s tout task) (stopTest2 s' tout task) := by
  have h0 := h
  obtain ⟨r', rfl, hr⟩ := h
  unfold stopTest2
  cases task with
  | normal =>
    refine iteR rfl ?_ ?_
    · exact gsR (h0.setTret tout) rfl (fun s1 s1' h1 => .ret _ h1)
    · simp only [show (s.reroot r').tstop = s.tstop from rfl]
      cases s.tstop with
      | none => exact .ret _ h0
      | some T =>
        refine iteR rfl ?_ (.ret _ (h0.clamp T))
        exact gsR h0 rfl (fun s1 s1' h1 => .ret _ (h1.setTret T).noStop)
  | oneStep =>
    simp only [show (s.reroot r').tstop = s.tstop from rfl]
    cases s.tstop with
    | none => exact .ret _ (h0.setTret _)
    | some T =>
      refine iteR rfl ?_ ?_
      · exact gsR h0 rfl (fun s1 s1' h1 => .ret _ (h1.setTret T).noStop)
      · have h1 := h0.clamp T
        rw [h1.tn]
        exact .ret _ (h1.setTret _)

theorem stepFailed_rel {s : State ν n q K} {s' : State ν n q' K} (h : RR C ρ pos s s') (e : Err) :
    FlowR (RR C ρ pos) (stepFailed s e) (stepFailed s' e) := by
  unfold stepFailed
  rw [h.tn]
  have hg := gsOut h s.e.tn
  generalize getSolution s s.e.tn = o at hg ⊢
  generalize getSolution s' s.e.tn = o' at hg ⊢
  cases hg with
  | ret r h1 =>
    cases r with
    | ok a => simp only; rw [h1.tn]; exact .ret _ (h1.setTret _)
    | error e => exact .ret _ h1
  | panic => exact .panic
  | diverge => exact .diverge

theorem iteF {R : State ν n q K → State ν n q' K → Prop} {p p' : Prop} [Decidable p] [Decidable p'] (hp : p' ↔ p)
    {x y : Flow (State ν n q K)} {x' y' : Flow (State ν n q' K)} (hx : p → FlowR R x x') (hy : ¬ p → FlowR R y y') :
    FlowR R (if p then x else y) (if p' then x' else y') := by
  by_cases h : p
  · rw [if_pos h, if_pos (hp.2 h)]; exact hx h
  · rw [if_neg h, if_neg (fun h' => h (hp.1 h'))]; exact hy h

theorem iteS {R : State ν n q K → State ν n q' K → Prop} {b b' : Bool} (hb : b' = b) {x y : State ν n q K}
    {x' y' : State ν n q' K} (hx : R x x') (hy : R y y') : R (if b then x else y) (if b' then x' else y') := by
  rw [hb]; split
  · exact hx
  · exact hy

theorem step_keepsR {s s1 : State ν n q K} {r : Except Err Unit} (h : step cfg s = .ret s1 r) : s1.r = s.r := by
  have h2 : step cfg s = (step cfg s).onS (·.reroot s.r) := step_reroot cfg cfg.prob.root cfg.rootdir s s.r
  rw [h] at h2
  simp only [Out.onS, Out.ret.injEq] at h2
  rw [h2.1]; rfl

theorem activate_rel {r : RootSt q K} {r' : RootSt q' K} (h : RootRel C ρ True r r') {ghi : Vec q K} {ghi' : Vec q' K}
    (hg : Scaled C ghi ghi') (hl : ∀ j, C.New j → Live ρ j (ghi' j)) : RootRel C ρ True
      { r with
        ghi := ghi
        nge := r.nge + 1
        gactive := fun i => if !r.gactive i && Scalar.neb (Scalar.abs (ghi i)) 0 then true else r.gactive i
        glo := fun i => if !r.gactive i && Scalar.neb (Scalar.abs (ghi i)) 0 then ghi i else r.glo i }
      { r' with
        ghi := ghi'
        nge := r'.nge + 1
        gactive := fun i => if !r'.gactive i && Scalar.neb (Scalar.abs (ghi' i)) 0 then true else r'.gactive i
        glo := fun i => if !r'.gactive i && Scalar.neb (Scalar.abs (ghi' i)) 0 then ghi' i else r'.glo i } := by
  refine { h with
    ghi := hg
    nge := congrArg (· + 1) h.nge
    gactive := ?_
    glo := ?_
    live := ?_ }
  · intro i
    simp only
    rw [hg i, scaled_nonzero (C.ne i), h.gactive i, h.glo i]
    split <;> rfl
  · intro i
    simp only
    rw [hg i, scaled_nonzero (C.ne i), h.gactive i]
  · intro _ j hj
    simp only
    split
    · exact hl j hj
    · exact h.live trivial j hj

theorem perfCheck_rel (s : State ν n q K) (r' : RootSt q' K) : perfCheck (s.reroot r') = (perfCheck s).map (·.reroot r') := by
  unfold perfCheck
  by_cases h1 : s.cnt.nst < s.perf.nst0 ∨ s.cnt.nni < s.perf.nni0
  · rw [if_pos h1, if_pos (show (s.reroot r').cnt.nst < (s.reroot r').perf.nst0 ∨ (s.reroot r').cnt.nni < (s.reroot r').perf.nni0 from h1)]
    rfl
  · rw [if_neg h1, if_neg (show ¬ ((s.reroot r').cnt.nst < (s.reroot r').perf.nst0 ∨ (s.reroot r').cnt.nni < (s.reroot r').perf.nni0) from h1)]
    simp only
    rw [show (s.reroot r').cnt = s.cnt from rfl, show (s.reroot r').perf = s.perf from rfl, show (s.reroot r').m = s.m from rfl]
    split
    · rfl
    · split
      · rfl
      · split <;> rfl

theorem perfCheck_keepsR {s s1 : State ν n q K} (h : perfCheck s = some s1) : s1.r = s.r := by
  unfold perfCheck at h
  simp only at h
  split at h
  · cases h
  · split at h
    · cases h; rfl
    · split at h
      · cases h
      · split at h <;> (cases h; rfl)

theorem preStep_rel {s : State ν n q K} {s' : State ν n q' K} (h : RR C ρ pos s s') (nstloc : Nat) :
    FlowR (RR C ρ pos) (preStep cfg s nstloc) (preStep (cfg.withRoots ρ dir) s' nstloc) := by
  have h0 := h
  obtain ⟨r', rfl, hr⟩ := h
  unfold preStep
  refine iteF Iff.rfl (fun _ => .ret _ (h0.setTret _)) fun _ => ?_
  rw [perfCheck_rel]
  cases hp : perfCheck s with
  | none => exact .panic
  | some s1 =>
    have e1 := perfCheck_keepsR hp
    rw [← e1] at hr
    clear hp h0 e1
    simp only [Option.map_some]
    have key : ∀ (s2 : State ν n q K), s2.r = s1.r → FlowR (RR C ρ pos)
      (if (decide (s2.cnt.nst > 0) && Fin.foldl n (fun b i => b || Scalar.le (s2.e.ewt i) 0) false) = true then
        match getSolution' s2 s2.e.tn with
        | none => Flow.panic
        | some s => .ret (s.setTret s.e.tn) (.error (.ida .illegalInput))
      else
        let nrm := wrmsNorm cfg.id (s2.h.phi 0) s2.e.ewt cfg.suppressalg
        let tolsf := Scalar.eps * nrm
        let s := { s2 with tolsf := tolsf }
        if Scalar.gt tolsf 1 then
          let s := ({ s with tolsf := tolsf * Scalar.ten }).setTret s.e.tn
          match (if s.cnt.nst > 0 then getSolution' s s.e.tn else some s) with
          | none => Flow.panic
          | some s => .ret s (.error (.ida .tooMuchAccuracy))
        else .go s)
      (if (decide ((s2.reroot r').cnt.nst > 0) && Fin.foldl n (fun b i => b || Scalar.le ((s2.reroot r').e.ewt i) 0) false) = true then
        match getSolution' (s2.reroot r') (s2.reroot r').e.tn with
        | none => Flow.panic
        | some s => .ret (s.setTret s.e.tn) (.error (.ida .illegalInput))
      else
        let nrm := wrmsNorm (cfg.withRoots ρ dir).id ((s2.reroot r').h.phi 0) (s2.reroot r').e.ewt (cfg.withRoots ρ dir).suppressalg
        let tolsf := Scalar.eps * nrm
        let s := { s2.reroot r' with tolsf := tolsf }
        if Scalar.gt tolsf 1 then
          let s := ({ s with tolsf := tolsf * Scalar.ten }).setTret s.e.tn
          match (if s.cnt.nst > 0 then getSolution' s s.e.tn else some s) with
          | none => Flow.panic
          | some s => .ret s (.error (.ida .tooMuchAccuracy))
        else .go s) := by
      intro s2 e2
      have h2 : RR C ρ pos s2 (s2.reroot r') := ⟨r', rfl, by rw [e2]; exact hr⟩
      refine iteF Iff.rfl (fun _ => ?_) fun _ => ?_
      · exact gsF h2 rfl (fun s3 s3' h3 => by rw [h3.tn]; exact .ret _ (h3.setTret _))
      · simp only
        refine iteF Iff.rfl (fun _ => ?_) fun _ => ?_
        · have h3 : RR C ρ pos ({ s2 with
              tolsf := Scalar.eps * wrmsNorm cfg.id (s2.h.phi 0) s2.e.ewt cfg.suppressalg * Scalar.ten } : State ν n q K)
              (({ s2 with tolsf := Scalar.eps * wrmsNorm cfg.id (s2.h.phi 0) s2.e.ewt cfg.suppressalg * Scalar.ten } :
                State ν n q K).reroot r' : State ν n q' K) := ⟨r', rfl, by
            show RootRel C ρ pos s2.r r'
            rw [e2]; exact hr⟩
          have h4 := h3.setTret s2.e.tn
          exact gsF2 h4 rfl (fun s5 s5' h5 => .ret _ h5)
        · exact .go ⟨r', rfl, by rw [show ({ s2 with tolsf := _ } : State ν n q K).r = s2.r from rfl, e2]; exact hr⟩
    by_cases hn : s1.cnt.nst > 0
    · rw [if_pos hn, if_pos (show (s1.reroot r').cnt.nst > 0 from hn)]
      exact key { s1 with e.ewt := cfg.ewtSet (s1.h.phi 0) s1.e.ewt } rfl
    · rw [if_neg hn, if_neg (show ¬ (s1.reroot r').cnt.nst > 0 from hn)]
      exact key s1 rfl

section
variable (hF : C.Fits cfg.prob.root ρ cfg.rootdir dir)
include hF

local notation "cfg'" => cfg.withRoots ρ dir

theorem postStep_rel (hq : 0 < q) (rf : Nat) {s : State ν n q K} {s' : State ν n q' K} (h : RR C ρ True s s') (tout : K) (task : Task) :
    FlowR (RR C ρ True) (postStep cfg rf s tout task) (postStep cfg' rf s' tout task) := by
  have hq' : q' > 0 := Nat.lt_of_le_of_lt (Nat.zero_le _) (C.e ⟨0, hq⟩).2
  unfold postStep
  rw [if_pos hq, if_pos hq']
  have hr := rCheck3_rel hF rf h
  generalize rCheck3 cfg rf s = o at hr ⊢
  generalize rCheck3 cfg' rf s' = o' at hr ⊢
  cases hr with
  | panic => exact .panic
  | diverge => exact .diverge
  | ret r h1 =>
    cases r with
    | error e => exact .ret _ h1
    | ok st =>
      cases st with
      | continue_ => exact .ofStop (stopTest2_rel h1 tout task)
      | rootFound =>
        exact .ret _ ((h1.irfnd true).setTret' h1.tlo)

theorem rootChecks_rel (rf : Nat) {s : State ν n q K} {s' : State ν n q' K} (h : RR C ρ True s s') (task : Task) :
    FlowR (RR C ρ True) (rootChecks cfg rf s task) (rootChecks cfg' rf s' task) := by
  have hirf : s'.r.irfnd = s.r.irfnd := by obtain ⟨r', rfl, hr⟩ := h; exact hr.irfnd
  unfold rootChecks
  have hr := rCheck2_rel hF h
  generalize rCheck2 cfg s = o at hr ⊢
  generalize rCheck2 cfg' s' = o' at hr ⊢
  simp only
  rw [hirf]
  cases hr with
  | panic => exact .panic
  | diverge => exact .diverge
  | ret r h1 =>
    cases r with
    | error e => exact .ret _ h1
    | ok st =>
      cases st with
      | rootFound =>
        exact .ret _ (h1.setTret' h1.tlo)
      | continue_ =>
        rename_i s1 s1'
        refine iteF ?_ (fun _ => ?_) (fun _ => .go h1)
        · obtain ⟨r1, rfl, h1⟩ := h1
          exact Iff.rfl
        · have hr := rCheck3_rel hF rf h1
          generalize rCheck3 cfg rf s1 = o at hr ⊢
          generalize rCheck3 cfg' rf s1' = o' at hr ⊢
          cases hr with
          | panic => exact .panic
          | diverge => exact .diverge
          | ret r h2 =>
            cases r with
            | error e => exact .ret _ h2
            | ok st =>
              cases st with
              | continue_ =>
                have h3 := h2.irfnd false
                refine iteF Iff.rfl (fun _ => ?_) (fun _ => .go h3)
                exact gsF (h3.setTret' h3.tn) h3.tn (fun s5 s5' h5 => .ret _ h5)
              | rootFound => exact .ret _ ((h2.irfnd true).setTret' h2.tlo)

theorem laterCall_rel (hq : 0 < q) (rf : Nat) {s : State ν n q K} {s' : State ν n q' K} (h : RR C ρ True s s') (tout : K)
    (task : Task) : FlowR (RR C ρ True) (laterCall cfg rf s tout task) (laterCall cfg' rf s' tout task) := by
  have hq' : q' > 0 := Nat.lt_of_le_of_lt (Nat.zero_le _) (C.e ⟨0, hq⟩).2
  unfold laterCall
  rw [if_pos hq, if_pos hq']
  have hr := rootChecks_rel hF rf h task
  generalize rootChecks cfg rf s task = o at hr ⊢
  generalize rootChecks cfg' rf s' task = o' at hr ⊢
  cases hr with
  | panic => exact .panic
  | diverge => exact .diverge
  | ret r h1 => exact .ret r h1
  | go h1 => exact .ofStop (stopTest1_rel h1 tout task)

theorem solvePass_rel (hq : 0 < q) (rf : Nat) {s : State ν n q K} {s' : State ν n q' K} (h : RR C ρ True s s') (tout : K)
    (task : Task) (nstloc : Nat) :
    FlowR (RR C ρ True) (solvePass cfg rf s tout task nstloc) (solvePass cfg' rf s' tout task nstloc) := by
  unfold solvePass
  have hr := preStep_rel (cfg := cfg) (dir := dir) h nstloc
  generalize preStep cfg s nstloc = o at hr ⊢
  generalize preStep cfg' s' nstloc = o' at hr ⊢
  cases hr with
  | panic => exact .panic
  | diverge => exact .diverge
  | ret r h1 => exact .ret r h1
  | go h1 =>
    rename_i s1 s1'
    obtain ⟨r1, rfl, h1⟩ := h1
    simp only
    rw [step_reroot]
    cases hs : step cfg s1 with
    | panic => exact .panic
    | diverge => exact .diverge
    | ret s2 r =>
      have e2 : s2.r = s1.r := step_keepsR hs
      have h2 : RR C ρ True s2 (s2.reroot r1) := ⟨r1, rfl, by rw [e2]; exact h1⟩
      cases r with
      | error e => exact stepFailed_rel h2 e
      | ok u => exact postStep_rel hF hq rf h2 tout task

theorem solveLoop_rel (hq : 0 < q) (rf : Nat) (tout : K) (task : Task) (sf : Nat) : ∀ {s : State ν n q K} {s' : State ν n q' K},
    RR C ρ True s s' → ∀ nstloc,
    OutR (RR C ρ True) (solveLoop cfg rf tout task sf s nstloc) (solveLoop cfg' rf tout task sf s' nstloc) := by
  induction sf with
  | zero => intro s s' h nstloc; exact .diverge
  | succ sf ih =>
    intro s s' h nstloc
    unfold solveLoop
    exact (solvePass_rel hF hq rf h tout task nstloc).andThen fun s1 s1' h1 => ih h1 _

theorem rCheck1_rel {s : State ν n q K} {s' : State ν n q' K} (h : RR C ρ False s s') : RR C ρ True (rCheck1 cfg s) (rCheck1 cfg' s') := by
  obtain ⟨r', rfl, hr⟩ := h
  have hglo : Scaled C (cfg.prob.root s.e.tn (s.h.phi 0) (s.h.phi 1) s.r.glo) (ρ s.e.tn (s.h.phi 0) (s.h.phi 1) r'.glo) :=
    hF.old _ _ _ _ _ hr.glo
  have hz : Fin.foldl q' (fun z i => z || Scalar.eqb (Scalar.abs (ρ s.e.tn (s.h.phi 0) (s.h.phi 1) r'.glo i)) 0) false =
      Fin.foldl q (fun z i => z || Scalar.eqb (Scalar.abs (cfg.prob.root s.e.tn (s.h.phi 0) (s.h.phi 1) s.r.glo i)) 0) false := by
    refine foldl_embed C.mono (fun a a' => a' = a) ?_ ?_ rfl
    · rintro i a _ rfl
      rw [hglo i, scaled_zero (C.ne i)]
    · rintro j hj a _ rfl
      rw [live_zero hF hj ⟨_, _, _, _, rfl⟩]
      simp
  have h1 : RootRel C ρ True
      { s.r with
        iroots := vzero
        tlo := s.e.tn
        ttol := rootTol s
        glo := cfg.prob.root s.e.tn (s.h.phi 0) (s.h.phi 1) s.r.glo
        nge := 1
        gactive := fun i => if Scalar.eqb (Scalar.abs (cfg.prob.root s.e.tn (s.h.phi 0) (s.h.phi 1) s.r.glo i)) 0 then false
          else s.r.gactive i }
      { r' with
        iroots := vzero
        tlo := s.e.tn
        ttol := rootTol s
        glo := ρ s.e.tn (s.h.phi 0) (s.h.phi 1) r'.glo
        nge := 1
        gactive := fun i => if Scalar.eqb (Scalar.abs (ρ s.e.tn (s.h.phi 0) (s.h.phi 1) r'.glo i)) 0 then false
          else r'.gactive i } := by
    refine { hr with
      tlo := rfl
      ttol := rfl
      glo := hglo
      nge := rfl
      iroots := fun i => Or.inl rfl
      inew := fun j hj => rfl
      live := fun _ j hj => ⟨_, _, _, _, rfl⟩
      gactive := ?_ }
    intro i
    simp only
    rw [hglo i, scaled_zero (C.ne i), hr.gactive i]
  unfold rCheck1
  refine iteS hz ?_ ⟨_, rfl, h1⟩
  have hghi : ∀ t y, Scaled C (cfg.prob.root t y (s.h.phi 1) s.r.ghi) (ρ t y (s.h.phi 1) r'.ghi) :=
    fun t y => hF.old _ _ _ _ _ hr.ghi
  refine ⟨_, rfl, ?_⟩
  exact activate_rel h1 (hghi _ _) (fun j hj => ⟨_, _, _, _, rfl⟩)

theorem firstReady_rel (hq : 0 < q) {s : State ν n q K} {s' : State ν n q' K} (h : RR C ρ False s s') :
    RR C ρ True (firstReady cfg s) (firstReady cfg' s') := by
  have hq' : q' > 0 := Nat.lt_of_le_of_lt (Nat.zero_le _) (C.e ⟨0, hq⟩).2
  obtain ⟨r', rfl, hr⟩ := h
  unfold firstReady
  simp only
  rw [if_pos hq, if_pos hq']
  obtain ⟨r1, e1, h1⟩ := rCheck1_rel hF (s := { s with h0u := s.c.hh, c.kk := 0, c.kused := 0 })
    (s' := { s.reroot r' with h0u := (s.reroot r').c.hh, c.kk := 0, c.kused := 0 }) ⟨r', rfl, hr⟩
  rw [e1]
  exact ⟨r1, rfl, h1⟩

/-- The first-call block. -/
theorem firstCall_rel (hq : 0 < q) {s : State ν n q K} {s' : State ν n q' K} (h : RR C ρ False s s') (tout : K) :
    (∃ s1 s1' e, firstCall cfg s tout = .ret s1 (.error e) ∧ firstCall cfg' s' tout = .ret s1' (.error e) ∧ RR C ρ False s1 s1') ∨
    ∃ s1 s1', firstCall cfg s tout = .ret s1 (.ok ()) ∧ firstCall cfg' s' tout = .ret s1' (.ok ()) ∧ RR C ρ True s1 s1' := by
  obtain ⟨r', rfl, hr⟩ := h
  have hi : initialSetup cfg' (s.reroot r') = (initialSetup cfg s).reroot r' := by
    unfold initialSetup
    by_cases h : s.setupDone = true
    · rw [if_pos h, if_pos (show (s.reroot r').setupDone = true from h)]
    · rw [if_neg h, if_neg (show ¬ (s.reroot r').setupDone = true from h)]; rfl
  have hir : (initialSetup cfg s).r = s.r := by unfold initialSetup; split <;> rfl
  unfold firstCall
  simp only
  rw [hi]
  generalize initialSetup cfg s = s1 at hir
  rw [← hir] at hr
  by_cases h1 : tooClose s1 tout = true
  · left
    rw [if_pos h1, if_pos (show tooClose (s1.reroot r') tout = true from h1)]
    exact ⟨_, _, _, rfl, rfl, r', rfl, hr⟩
  · rw [if_neg h1, if_neg (show ¬ tooClose (s1.reroot r') tout = true from h1)]
    by_cases h2 : wrongWay cfg { s1 with c.hh := cfg.hin } tout = true
    · left
      rw [if_pos h2, if_pos (show wrongWay cfg' { s1.reroot r' with c.hh := (cfg.withRoots ρ dir).hin } tout = true from h2)]
      exact ⟨_, _, _, rfl, rfl, r', rfl, hr⟩
    · rw [if_neg h2, if_neg (show ¬ wrongWay cfg' { s1.reroot r' with c.hh := (cfg.withRoots ρ dir).hin } tout = true from h2)]
      have hst : ∀ s2 : State ν n q K, firstStop (s2.reroot r') = (firstStop s2).map (·.reroot r') := by
        intro s2
        unfold firstStop
        rw [show (s2.reroot r').tstop = s2.tstop from rfl]
        cases s2.tstop with
        | none => rfl
        | some T =>
          simp only
          by_cases h : Scalar.le ((T - s2.e.tn) * s2.c.hh) 0 = true
          · rw [if_pos h, if_pos (show Scalar.le ((T - (s2.reroot r').e.tn) * (s2.reroot r').c.hh) 0 = true from h)]; rfl
          · rw [if_neg h, if_neg (show ¬ Scalar.le ((T - (s2.reroot r').e.tn) * (s2.reroot r').c.hh) 0 = true from h), clampToStop_reroot]
            rfl
      have hst2 : ∀ s2 s3 : State ν n q K, firstStop s2 = some s3 → s3.r = s2.r := by
        intro s2 s3 h
        unfold firstStop at h
        split at h
        · split at h
          · cases h
          · cases h; exact clampToStop_keepsR _ _
        · cases h; rfl
      have hgo : ∀ s2 : State ν n q K, s2.r = s1.r →
          (∃ x x' e, (match firstStop s2 with
              | none => Out.ret s2 (.error (.ida .illegalInput))
              | some s => .ret (firstReady cfg s) (.ok ())) = .ret x (.error e) ∧
            (match firstStop (s2.reroot r') with
              | none => Out.ret (s2.reroot r') (.error (.ida .illegalInput))
              | some s => .ret (firstReady cfg' s) (.ok ())) = .ret x' (.error e) ∧ RR C ρ False x x') ∨
          ∃ x x', (match firstStop s2 with
              | none => Out.ret s2 (.error (.ida .illegalInput))
              | some s => .ret (firstReady cfg s) (.ok ())) = .ret x (.ok ()) ∧
            (match firstStop (s2.reroot r') with
              | none => Out.ret (s2.reroot r') (.error (.ida .illegalInput))
              | some s => .ret (firstReady cfg' s) (.ok ())) = .ret x' (.ok ()) ∧ RR C ρ True x x' := by
        intro s2 e2
        rw [hst]
        cases hs : firstStop s2 with
        | none => exact Or.inl ⟨_, _, _, rfl, rfl, r', rfl, by rw [e2]; exact hr.weaken (fun h => h.elim)⟩
        | some s3 => exact Or.inr ⟨_, _, rfl, rfl, firstReady_rel hF hq ⟨r', rfl, by rw [hst2 _ _ hs, e2]; exact hr⟩⟩
      exact hgo { { s1 with c.hh := cfg.hin } with
        c.hh := firstStepSize cfg { s1 with c.hh := cfg.hin } tout (Scalar.abs (tout - s1.e.tn)) } rfl

/-- **A call of `solve`.** -/
theorem solve_rel (hq : 0 < q) (rf sf : Nat) {s : State ν n q K} {s' : State ν n q' K} (h : RR C ρ (0 < s.cnt.nst) s s') (tout : K)
    (task : Task) : OutR (fun x x' => RR C ρ (0 < x.cnt.nst) x x') (solve cfg rf sf s tout task) (solve cfg' rf sf s' tout task) := by
  rw [solve_core, solve_core]
  have h1 : RR C ρ (0 < (solveHead s tout task).cnt.nst) (solveHead s tout task) (solveHead s' tout task) := by
    obtain ⟨r', rfl, hr⟩ := h
    unfold solveHead
    cases task with
    | normal => exact ⟨{ r' with toutc := tout, taskc := .normal }, rfl, { hr with toutc := rfl, taskc := rfl }⟩
    | oneStep => exact ⟨{ r' with taskc := .oneStep }, rfl, { hr with taskc := rfl }⟩
  generalize solveHead s tout task = s1 at h1
  generalize solveHead s' tout task = s1' at h1
  unfold solveCore
  have hc := h1.cnt
  have hperf : ∀ {x : State ν n q K} {x' : State ν n q' K}, RR C ρ True x x' → RR C ρ True (perfReset x) (perfReset x') := by
    rintro x _ ⟨r', rfl, hr⟩
    exact ⟨r', rfl, hr⟩
  by_cases hn : s1.cnt.nst = 0
  · rw [if_pos hn, if_pos (by rw [hc]; exact hn)]
    rcases firstCall_rel hF hq (h1.weaken (pos' := False) (fun h => h.elim)) tout with ⟨x, x', e, e1, e2, h2⟩ | ⟨x, x', e1, e2, h2⟩
    · rw [e1, e2]
      exact .ret _ (h2.weaken (fun hx => by rw [firstCall_cnt e1, hn] at hx; omega))
    · rw [e1, e2]
      have hn2 : (perfReset x).cnt.nst = 0 := by show x.cnt.nst = 0; rw [firstCall_cnt e1]; exact hn
      have hn2' : (perfReset x').cnt.nst = 0 := by rw [(hperf h2).cnt]; exact hn2
      show OutR _ ((if (perfReset x).cnt.nst > 0 then laterCall cfg rf (perfReset x) tout task else Flow.go (perfReset x)).andThen _)
        ((if (perfReset x').cnt.nst > 0 then laterCall cfg' rf (perfReset x') tout task else Flow.go (perfReset x')).andThen _)
      rw [if_neg (by omega), if_neg (by omega)]
      exact (solveLoop_rel hF hq rf tout task sf (hperf h2) 0).mono (fun _ _ h => h.weaken fun _ => trivial)
  · rw [if_neg hn, if_neg (by rw [hc]; exact hn)]
    have h2 : RR C ρ True s1 s1' := h1.weaken fun _ => Nat.pos_of_ne_zero hn
    show OutR _ ((if (perfReset s1).cnt.nst > 0 then laterCall cfg rf (perfReset s1) tout task else Flow.go (perfReset s1)).andThen _)
      ((if (perfReset s1').cnt.nst > 0 then laterCall cfg' rf (perfReset s1') tout task else Flow.go (perfReset s1')).andThen _)
    rw [if_pos (show (perfReset s1).cnt.nst > 0 from Nat.pos_of_ne_zero hn),
      if_pos (show (perfReset s1').cnt.nst > 0 by rw [(hperf h2).cnt]; exact Nat.pos_of_ne_zero hn)]
    refine OutR.mono (R := RR C ρ True) ?_ (fun _ _ h => h.weaken fun _ => trivial)
    exact (laterCall_rel hF hq rf (hperf h2) tout task).andThen fun x x' hx => solveLoop_rel hF hq rf tout task sf hx 0

/-- **A call of a public method.** -/
theorem exec_rel (hq : 0 < q) (rf sf : Nat) {s : State ν n q K} {s' : State ν n q' K} (h : RR C ρ (0 < s.cnt.nst) s s') (op : Op K) :
    (exec cfg rf sf s op = none ∧ exec cfg' rf sf s' op = none) ∨
    ∃ x x' r, exec cfg rf sf s op = some (x, r) ∧ exec cfg' rf sf s' op = some (x', r) ∧ RR C ρ (0 < x.cnt.nst) x x' := by
  cases op with
  | solve tout tret task =>
    have hh : RR C ρ (0 < ({ s with tret := tret } : State ν n q K).cnt.nst) { s with tret := tret } { s' with tret := tret } := by
      obtain ⟨r', rfl, hr⟩ := h
      exact ⟨r', rfl, hr⟩
    have hs := solve_rel hF hq rf sf hh tout task
    unfold exec
    simp only
    generalize solve cfg rf sf { s with tret := tret } tout task = o at hs ⊢
    generalize solve cfg' rf sf { s' with tret := tret } tout task = o' at hs ⊢
    cases hs with
    | ret r h => exact Or.inr ⟨_, _, _, rfl, rfl, h⟩
    | panic => exact Or.inl ⟨rfl, rfl⟩
    | diverge => exact Or.inl ⟨rfl, rfl⟩
  | getSolution t =>
    obtain ⟨r', rfl, hr⟩ := h
    unfold exec
    simp only
    rw [getSolution_reroot]
    cases hs : getSolution s t with
    | ret s1 r =>
      have hc : s1.cnt = s.cnt := by obtain ⟨-, yy, yp, rfl⟩ := getSolution_frame hs; rfl
      exact Or.inr ⟨_, _, _, rfl, rfl, r', rfl, by rw [getSolution_keepsR hs, hc]; exact hr⟩
    | panic => exact Or.inl ⟨rfl, rfl⟩
    | diverge => exact Or.inl ⟨rfl, rfl⟩
  | getDky t k =>
    obtain ⟨r', rfl, hr⟩ := h
    unfold exec
    simp only
    rw [getDky_reroot]
    cases hs : getDky s t k with
    | ret s1 r =>
      obtain rfl : s1 = s := by
        unfold getDky at hs
        split at hs
        · cases hs; rfl
        · split at hs
          · cases hs; rfl
          · split at hs
            · cases hs; rfl
            · cases hs
      exact Or.inr ⟨_, _, _, rfl, rfl, r', rfl, hr⟩
    | panic => exact Or.inl ⟨rfl, rfl⟩
    | diverge => exact Or.inl ⟨rfl, rfl⟩

/-- **Sessions.** -/
theorem session_rel (hq : 0 < q) {s0 s : State ν n q K} {s0' : State ν n q' K} (h : RR C ρ (0 < s0.cnt.nst) s0 s0')
    {l : List (Nat × Nat × Op K × Res n K)} (hs : Session cfg s0 l s) :
    ∃ s', Session cfg' s0' l s' ∧ RR C ρ (0 < s.cnt.nst) s s' := by
  induction hs with
  | nil => exact ⟨s0', .nil, h⟩
  | call rf sf op r _ he ih =>
    obtain ⟨s1', h1, h2⟩ := ih
    rcases exec_rel hF hq rf sf h2 op with ⟨e, -⟩ | ⟨x, x', r', e1, e2, h3⟩
    · rw [e] at he; cases he
    · rw [e1] at he; cases he
      exact ⟨x', .call rf sf op _ h1 e2, h3⟩

theorem session_rel' (hq : 0 < q) {s0 : State ν n q K} {s0' s' : State ν n q' K} (h : RR C ρ (0 < s0.cnt.nst) s0 s0')
    {l : List (Nat × Nat × Op K × Res n K)} (hs : Session cfg' s0' l s') :
    ∃ s, Session cfg s0 l s ∧ RR C ρ (0 < s.cnt.nst) s s' := by
  induction hs with
  | nil => exact ⟨s0, .nil, h⟩
  | call rf sf op r _ he ih =>
    obtain ⟨s1, h1, h2⟩ := ih
    rcases exec_rel hF hq rf sf h2 op with ⟨-, e⟩ | ⟨x, x', r', e1, e2, h3⟩
    · rw [e] at he; cases he
    · rw [e2] at he; cases he
      exact ⟨x, .call rf sf op _ h1 e1, h3⟩

omit hF in
theorem new_rel (nls0 : ν) (yy0 yp0 : Vec n K) :
    RR C ρ (0 < (State.new nls0 yy0 yp0 : State ν n q K).cnt.nst) (State.new nls0 yy0 yp0) (State.new nls0 yy0 yp0) := by
  refine ⟨_, rfl, ?_⟩
  exact {
    tlo := rfl, thi := rfl, trout := rfl, toutc := rfl, ttol := rfl, taskc := rfl, irfnd := rfl, nge := rfl
    glo := fun i => (mul_zero _).symm
    ghi := fun i => (mul_zero _).symm
    grout := fun i => (mul_zero _).symm
    gactive := fun i => rfl
    iroots := fun i => Or.inl rfl
    inew := fun j hj => rfl
    live := fun h => absurd h (by show ¬ 0 < 0; omega) }

end

end

end

end Verif
