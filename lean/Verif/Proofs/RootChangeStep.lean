import Verif.Proofs.RootChange
import Verif.Proofs.Frame

/-!
# Rescaling root functions and adding root functions without zeros: the calls
-/

set_option autoImplicit false
set_option linter.unusedSectionVars false
set_option linter.unusedSimpArgs false
set_option linter.unusedVariables false

namespace Verif

open Verif.Spec

universe u v w x y

/-- Outcomes with the same result and related states. -/
inductive OutR {S : Type w} {S' : Type w} {α : Type x} (R : S → S' → Prop) : Out S α → Out S' α → Prop where
  | ret {s : S} {s' : S'} (r : Except Err α) (h : R s s') : OutR R (.ret s r) (.ret s' r)
  | panic : OutR R .panic .panic
  | diverge : OutR R .diverge .diverge

theorem OutR.bind {S S' : Type w} {α β : Type x} {R R2 : S → S' → Prop} {o : Out S α} {o' : Out S' α} (h : OutR R o o')
    (h2 : ∀ s s', R s s' → R2 s s') {f : S → α → Out S β} {f' : S' → α → Out S' β}
    (hf : ∀ s s' a, R s s' → OutR R2 (f s a) (f' s' a)) : OutR R2 (o.bind f) (o'.bind f') := by
  cases h with
  | ret r h =>
    cases r with
    | error e => exact .ret _ (h2 _ _ h)
    | ok a => exact hf _ _ a h
  | panic => exact .panic
  | diverge => exact .diverge

theorem OutR.bindOk {S S' : Type w} {α β : Type x} {R R2 : S → S' → Prop} {o : Out S α} {o' : Out S' α} (h : OutR R o o')
    (h2 : ∀ s e, o ≠ .ret s (.error e)) {f : S → α → Out S β} {f' : S' → α → Out S' β}
    (hf : ∀ s s' a, R s s' → OutR R2 (f s a) (f' s' a)) : OutR R2 (o.bind f) (o'.bind f') := by
  cases h with
  | ret r h =>
    cases r with
    | error e => exact absurd rfl (h2 _ e)
    | ok a => exact hf _ _ a h
  | panic => exact .panic
  | diverge => exact .diverge

/-- Sections of `solve` with the same result and related states. -/
inductive FlowR {S S' : Type w} (R : S → S' → Prop) : Flow S → Flow S' → Prop where
  | go {s : S} {s' : S'} (h : R s s') : FlowR R (.go s) (.go s')
  | ret {s : S} {s' : S'} (r : Except Err Status) (h : R s s') : FlowR R (.ret s r) (.ret s' r)
  | panic : FlowR R .panic .panic
  | diverge : FlowR R .diverge .diverge

theorem FlowR.ofStop {S S' : Type w} {R : S → S' → Prop} {o : Out S Status} {o' : Out S' Status} (h : OutR R o o') :
    FlowR R (Flow.ofStop o) (Flow.ofStop o') := by
  cases h with
  | ret r h =>
    cases r with
    | error e => exact .ret _ h
    | ok a => cases a <;> first | exact .ret _ h | exact .go h
  | panic => exact .panic
  | diverge => exact .diverge

theorem FlowR.andThen {S S' : Type w} {R : S → S' → Prop} {o : Flow S} {o' : Flow S'} (h : FlowR R o o')
    {f : S → Out S Status} {f' : S' → Out S' Status} (hf : ∀ s s', R s s' → OutR R (f s) (f' s')) :
    OutR R (o.andThen f) (o'.andThen f') := by
  cases h with
  | go h => exact hf _ _ h
  | ret r h => exact .ret _ h
  | panic => exact .panic
  | diverge => exact .diverge

/-- Passes of the search loop with related ends. -/
inductive PassR {S : Type u} {S' : Type u} {L L' : Type v} (R : S → S' → Prop) (Q : L → L' → Prop) : RfPass S L → RfPass S' L' → Prop where
  | stop {s : S} {s' : S'} (h : R s s') : PassR R Q (.stop s) (.stop s')
  | more {s : S} {s' : S'} {l : L} {l' : L'} (h : R s s') (hl : Q l l') : PassR R Q (.more s l) (.more s' l')
  | panic : PassR R Q .panic .panic

section
variable {ν : Type v} {n q q' : Nat} {K : Type u} [Scalar K] (s : State ν n q K) (r : RootSt q' K)

theorem getSolution_reroot (t : K) : getSolution (s.reroot r) t = (getSolution s t).onS (·.reroot r) := by
  unfold getSolution
  by_cases h : badTime s t = true
  · rw [if_pos h, if_pos (show badTime (s.reroot r) t = true from h)]; rfl
  · rw [if_neg h, if_neg (show ¬ badTime (s.reroot r) t = true from h)]
    simp only
    by_cases hk : kordOf s.c.kused < mxordp1
    · rw [if_pos hk, if_pos (show kordOf (s.reroot r).c.kused < mxordp1 from hk)]; rfl
    · rw [if_neg hk, if_neg (show ¬ kordOf (s.reroot r).c.kused < mxordp1 from hk)]; rfl

theorem getSolution'_reroot (t : K) : getSolution' (s.reroot r) t = (getSolution' s t).map (·.reroot r) := by
  unfold getSolution'
  rw [getSolution_reroot]
  cases getSolution s t <;> rfl

theorem getSolution_keepsR {s s1 : State ν n q K} {t : K} {r : Except Err Unit} (h : getSolution s t = .ret s1 r) :
    s1.r = s.r := by
  obtain ⟨-, yy, yp, rfl⟩ := getSolution_frame h
  rfl

theorem getSolution'_keepsR {s s1 : State ν n q K} {t : K} (h : getSolution' s t = some s1) : s1.r = s.r := by
  obtain ⟨-, yy, yp, rfl⟩ := getSolution'_frame h
  rfl

theorem getDky_reroot (t : K) (k : Nat) : getDky (s.reroot r) t k = (getDky s t k).onS (·.reroot r) := by
  unfold getDky
  by_cases h0 : s.c.kused < k
  · rw [if_pos h0, if_pos (show (s.reroot r).c.kused < k from h0)]; rfl
  · rw [if_neg h0, if_neg (show ¬ (s.reroot r).c.kused < k from h0)]
    by_cases h : badTime s t = true
    · rw [if_pos h, if_pos (show badTime (s.reroot r) t = true from h)]; rfl
    · rw [if_neg h, if_neg (show ¬ badTime (s.reroot r) t = true from h)]
      by_cases hk : s.c.kused - k + 1 < mxordp1 ∧ s.c.kused < mxordp1
      · rw [if_pos hk, if_pos (show (s.reroot r).c.kused - k + 1 < mxordp1 ∧ (s.reroot r).c.kused < mxordp1 from hk)]; rfl
      · rw [if_neg hk, if_neg (show ¬ ((s.reroot r).c.kused - k + 1 < mxordp1 ∧ (s.reroot r).c.kused < mxordp1) from hk)]; rfl

end

section
variable {ν : Type v} {n q q' : Nat} {K : Type u} [Field K] [LinearOrder K] [IsStrictOrderedRing K] [ExactParams K]

/-- The states before and after the change of the root functions. -/
def RR (C : RootChange q q' K) (ρ : K → Vec n K → Vec n K → Vec q' K → Vec q' K) (pos : Prop) (s : State ν n q K)
    (s' : State ν n q' K) : Prop := ∃ r', s' = s.reroot r' ∧ RootRel C ρ pos s.r r'

theorem gsR {C : RootChange q q' K} {ρ : K → Vec n K → Vec n K → Vec q' K → Vec q' K} {pos : Prop} {α : Type}
    {R : State ν n q K → State ν n q' K → Prop} {s : State ν n q K} {s' : State ν n q' K} (h : RR C ρ pos s s') {t t' : K}
    (ht : t' = t) {f : State ν n q K → Out (State ν n q K) α} {f' : State ν n q' K → Out (State ν n q' K) α}
    (hf : ∀ s1 s1', RR C ρ pos s1 s1' → OutR R (f s1) (f' s1')) :
    OutR R (match getSolution' s t with | none => .panic | some s => f s)
      (match getSolution' s' t' with | none => .panic | some s => f' s) := by
  obtain ⟨r', rfl, hr⟩ := h
  rw [ht, getSolution'_reroot]
  cases hs : getSolution' s t with
  | none => exact .panic
  | some s1 => exact hf _ _ ⟨r', rfl, by rw [getSolution'_keepsR hs]; exact hr⟩

theorem gsR2 {C : RootChange q q' K} {ρ : K → Vec n K → Vec n K → Vec q' K → Vec q' K} {pos : Prop} {α : Type}
    {E : Vec q K → Vec q' K → Prop}
    {R : State ν n q K → State ν n q' K → Prop} {s : State ν n q K} {s' : State ν n q' K} (h : RR C ρ pos s s') {t t' : K}
    {b b' : Bool} (hb : b' = b) {x : State ν n q K} {x' : State ν n q' K} (hx : RR C ρ pos x x' ∧ E x.r.iroots x'.r.iroots)
    (ht : t' = t) (hE : E s.r.iroots s'.r.iroots)
    {f : State ν n q K → Out (State ν n q K) α} {f' : State ν n q' K → Out (State ν n q' K) α}
    (hf : ∀ s1 s1', RR C ρ pos s1 s1' → E s1.r.iroots s1'.r.iroots → OutR R (f s1) (f' s1')) :
    OutR R (match (if b then some x else getSolution' s t) with | none => .panic | some s => f s)
      (match (if b' then some x' else getSolution' s' t') with | none => .panic | some s => f' s) := by
  obtain ⟨r', rfl, hr⟩ := h
  rw [ht, hb, getSolution'_reroot]
  cases b with
  | true => exact hf _ _ hx.1 hx.2
  | false =>
    simp only [Bool.false_eq_true, if_false]
    cases hs : getSolution' s t with
    | none => exact .panic
    | some s1 => exact hf _ _ ⟨r', rfl, by rw [getSolution'_keepsR hs]; exact hr⟩ (by
        show E s1.r.iroots r'.iroots
        rw [getSolution'_keepsR hs]; exact hE)

theorem iteR {α : Type} {R : State ν n q K → State ν n q' K → Prop} {b b' : Bool} (hb : b' = b) {x y : Out (State ν n q K) α}
    {x' y' : Out (State ν n q' K) α} (hx : OutR R x x') (hy : OutR R y y') :
    OutR R (if b then x else y) (if b' then x' else y') := by
  rw [hb]; split
  · exact hx
  · exact hy

/-- The same, and the values at the upper end of the search interval are values of the new functions. -/
def RRhi (C : RootChange q q' K) (ρ : K → Vec n K → Vec n K → Vec q' K → Vec q' K) (s : State ν n q K)
    (s' : State ν n q' K) : Prop :=
  ∃ r', s' = s.reroot r' ∧ RootRel C ρ True s.r r' ∧ ∀ j, C.New j → Live ρ j (r'.ghi j)

/-- Positions in the search loop. -/
structure LocR (C : RootChange q q' K) (l l' : RfLoc K) : Prop where
  alph : l'.alph = l.alph
  side : l'.side = l.side
  sideprev : l'.sideprev = l.sideprev
  imax : ∃ h : l.imax < q, l'.imax = (C.e ⟨l.imax, h⟩).val

section
variable {C : RootChange q q' K} {cfg : Cfg ν n q K} {ρ : K → Vec n K → Vec n K → Vec q' K → Vec q' K} {dir : Fin q' → Nat}
  (hF : C.Fits cfg.prob.root ρ cfg.rootdir dir)

theorem rootNarrow_rel {s : State ν n q K} {r' : RootSt q' K} (h : RootRel C ρ True s.r r')
    (hg : ∀ j, C.New j → Live ρ j (r'.grout j)) (hi : ∀ j, C.New j → Live ρ j (r'.ghi j)) {a a' : Scan K}
    (ha : ScanRel C True a a') (tmid alph : K) (side : Int) :
    PassR (RRhi C ρ) (LocR C) (rootNarrow s a tmid alph side) (rootNarrow (s.reroot r') a' tmid alph side) := by
  unfold rootNarrow
  rw [ha.sgnchg, ha.zroot]
  have hb1 : bracketSmall ({ s.reroot r' with r.thi := tmid, r.ghi := (s.reroot r').r.grout } : State ν n q' K).r =
      bracketSmall ({ s with r.thi := tmid, r.ghi := s.r.grout } : State ν n q K).r := by
    show Scalar.le (Scalar.abs (tmid - r'.tlo)) r'.ttol = Scalar.le (Scalar.abs (tmid - s.r.tlo)) s.r.ttol
    rw [h.tlo, h.ttol]
  have hb2 : bracketSmall ({ s.reroot r' with r.tlo := tmid, r.glo := (s.reroot r').r.grout } : State ν n q' K).r =
      bracketSmall ({ s with r.tlo := tmid, r.glo := s.r.grout } : State ν n q K).r := by
    show Scalar.le (Scalar.abs (r'.thi - tmid)) r'.ttol = Scalar.le (Scalar.abs (s.r.thi - tmid)) s.r.ttol
    rw [h.thi, h.ttol]
  have hi1 : RRhi C ρ ({ s with r.thi := tmid, r.ghi := s.r.grout } : State ν n q K)
      ({ s.reroot r' with r.thi := tmid, r.ghi := (s.reroot r').r.grout } : State ν n q' K) :=
    ⟨{ r' with thi := tmid, ghi := r'.grout }, rfl, { h with thi := rfl, ghi := h.grout }, hg⟩
  have hi2 : RRhi C ρ ({ s with r.tlo := tmid, r.glo := s.r.grout } : State ν n q K)
      ({ s.reroot r' with r.tlo := tmid, r.glo := (s.reroot r').r.grout } : State ν n q' K) :=
    ⟨{ r' with tlo := tmid, glo := r'.grout }, rfl, { h with tlo := rfl, glo := h.grout, live := fun _ => hg }, hi⟩
  simp only [hb1, hb2]
  split
  · split
    · exact .stop hi1
    · exact .more hi1 ⟨rfl, rfl, rfl, ha.imax (Or.inr trivial)⟩
  · split
    · exact .stop hi1
    · split
      · exact .stop hi2
      · exact .more hi2 ⟨rfl, rfl, rfl, ha.imax (Or.inr trivial)⟩

include hF

local notation "cfg'" => cfg.withRoots ρ dir

theorem rootPass_rel {s : State ν n q K} {s' : State ν n q' K} (h : RRhi C ρ s s') {l l' : RfLoc K} (hl : LocR C l l') :
    PassR (RRhi C ρ) (LocR C) (rootPass cfg s l) (rootPass cfg' s' l') := by
  obtain ⟨r', rfl, hr, hi⟩ := h
  obtain ⟨hm, hm'⟩ := hl.imax
  have hlt : l'.imax < q' := by rw [hm']; exact (C.e _).2
  have hfin : (⟨l'.imax, hlt⟩ : Fin q') = C.e ⟨l.imax, hm⟩ := Fin.ext hm'
  have hal : nextAlph l' = nextAlph l := by unfold nextAlph; rw [hl.alph, hl.side, hl.sideprev]
  have htr : trialPoint r'.thi r'.tlo r'.ttol (r'.ghi ⟨l'.imax, hlt⟩) (r'.glo ⟨l'.imax, hlt⟩) (nextAlph l') =
      trialPoint s.r.thi s.r.tlo s.r.ttol (s.r.ghi ⟨l.imax, hm⟩) (s.r.glo ⟨l.imax, hm⟩) (nextAlph l) := by
    rw [hfin, hr.ghi, hr.glo, hr.thi, hr.tlo, hr.ttol, hal, scaled_trial (C.ne _)]
  unfold rootPass
  rw [dif_pos hm, dif_pos hlt]
  simp only
  rw [show trialPoint (s.reroot r').r.thi (s.reroot r').r.tlo (s.reroot r').r.ttol ((s.reroot r').r.ghi ⟨l'.imax, hlt⟩)
    ((s.reroot r').r.glo ⟨l'.imax, hlt⟩) (nextAlph l') = _ from htr, hal, hl.side, getSolution'_reroot]
  generalize trialPoint s.r.thi s.r.tlo s.r.ttol (s.r.ghi ⟨l.imax, hm⟩) (s.r.glo ⟨l.imax, hm⟩) (nextAlph l) = tmid
  cases hs : getSolution' s tmid with
  | none => exact .panic
  | some s1 =>
    have e1 := getSolution'_keepsR hs
    simp only [Option.map_some]
    have hg : Scaled C (cfg.prob.root tmid s1.m.yy s1.m.yp s1.r.grout) (ρ tmid s1.m.yy s1.m.yp r'.grout) :=
      hF.old _ _ _ _ _ (by rw [e1]; exact hr.grout)
    have hr2 : RootRel C ρ True { s1.r with grout := cfg.prob.root tmid s1.m.yy s1.m.yp s1.r.grout, nge := s1.r.nge + 1 }
        { r' with grout := ρ tmid s1.m.yy s1.m.yp r'.grout, nge := r'.nge + 1 } := by
      rw [e1] at hg ⊢
      exact { hr with grout := hg, nge := by show r'.nge + 1 = s.r.nge + 1; rw [hr.nge] }
    exact rootNarrow_rel (s := { (callRoot cfg s1 tmid s1.m.yy s1.m.yp s1.r.grout).1 with
      r.grout := cfg.prob.root tmid s1.m.yy s1.m.yp s1.r.grout
      r.nge := s1.r.nge + 1 }) hr2
      (fun j hj => ⟨_, _, _, _, rfl⟩) hi
      (scan2_rel hF hr2.gactive hr2.glo hg (hr.live trivial)
        (fun j hj => ⟨_, _, _, _, rfl⟩) hl.imax) tmid (nextAlph l) l.side

theorem rootLoop_rel (fuel : Nat) : ∀ {s : State ν n q K} {s' : State ν n q' K}, RRhi C ρ s s' → ∀ {l l' : RfLoc K},
    LocR C l l' → OutR (RRhi C ρ) (rootLoop cfg fuel s l) (rootLoop cfg' fuel s' l') := by
  induction fuel with
  | zero => intro s s' h l l' hl; exact .diverge
  | succ fuel ih =>
    intro s s' h l l' hl
    have hp := rootPass_rel hF h hl
    have hb : bracketSmall s'.r = bracketSmall s.r := by
      obtain ⟨r', rfl, hr, hi⟩ := h
      show Scalar.le (Scalar.abs (r'.thi - r'.tlo)) r'.ttol = Scalar.le (Scalar.abs (s.r.thi - s.r.tlo)) s.r.ttol
      rw [hr.thi, hr.tlo, hr.ttol]
    unfold rootLoop
    rw [hb]
    split
    · exact .ret _ h
    · generalize rootPass cfg s l = o at hp ⊢
      generalize rootPass cfg' s' l' = o' at hp ⊢
      cases hp with
      | stop h => exact .ret _ h
      | more h hl => exact ih h hl
      | panic => exact .panic


omit hF in
/-- The signs reported. -/
theorem signum_rel (C : RootChange q q' K) (i : Fin q) {g : K} : Scalar.signum (C.d i * g) = Scalar.signum g ∨
    (C.d i < 0 ∧ Scalar.signum (C.d i * g) = -Scalar.signum g) := by
  by_cases hg : g = 0
  · left; rw [hg, mul_zero]
  simp only [ex_signum]
  rcases lt_or_gt_of_ne (C.ne i) with hd | hd
  · right
    refine ⟨hd, ?_⟩
    rcases lt_or_gt_of_ne hg with h | h
    · rw [if_neg (not_lt.2 (mul_pos_of_neg_of_neg hd h).le), if_pos h, neg_neg]
    · rw [if_pos (mul_neg_of_neg_of_pos hd h), if_neg (not_lt.2 h.le)]
  · left
    have : C.d i * g < 0 ↔ g < 0 := by
      constructor
      · exact fun h => neg_of_mul_neg_right h hd.le
      · exact fun h => mul_neg_of_pos_of_neg hd h
    simp only [this]


omit hF in
/-- The states before and after the change; the values where the search ended are values of the new functions. -/
def RRout (C : RootChange q q' K) (ρ : K → Vec n K → Vec n K → Vec q' K → Vec q' K) (s : State ν n q K)
    (s' : State ν n q' K) : Prop :=
  ∃ r', s' = s.reroot r' ∧ RootRel C ρ True s.r r' ∧ ∀ j, C.New j → Live ρ j (r'.grout j)

theorem rootFind_rel (fuel : Nat) {s : State ν n q K} {s' : State ν n q' K} (h : RRhi C ρ s s') :
    OutR (RRout C ρ) (rootFind cfg fuel s) (rootFind cfg' fuel s') := by
  have hloop := @rootLoop_rel ν n q q' K _ _ _ _ C cfg ρ dir hF fuel s s' h
  obtain ⟨r', rfl, hr, hi⟩ := h
  have ha := scan1_rel hF hr.gactive hr.glo hr.ghi (hr.live trivial) hi
  unfold rootFind
  simp only
  rw [show scan1 cfg' (s.reroot r').r.gactive (s.reroot r').r.glo (s.reroot r').r.ghi = scan1 cfg' r'.gactive r'.glo r'.ghi from rfl]
  generalize scan1 cfg s.r.gactive s.r.glo s.r.ghi = a at ha
  generalize scan1 cfg' r'.gactive r'.glo r'.ghi = a' at ha
  rw [ha.sgnchg, ha.zroot]
  by_cases h1 : a.sgnchg = false
  · rw [if_pos h1, if_pos h1]
    by_cases h2 : a.zroot = false
    · rw [if_pos h2, if_pos h2]
      exact .ret _ ⟨{ r' with trout := r'.thi, grout := r'.ghi }, rfl, { hr with trout := hr.thi, grout := hr.ghi }, hi⟩
    · rw [if_neg h2, if_neg h2]
      refine .ret _ ⟨{ r' with
        trout := r'.thi
        grout := r'.ghi
        iroots := fun i => if r'.gactive i && (Scalar.eqb (Scalar.abs (r'.ghi i)) 0 && dirOk cfg' r'.glo i)
          then Scalar.signum (r'.glo i) else 0 }, rfl, { hr with trout := hr.thi, grout := hr.ghi, iroots := ?_, inew := ?_ }, hi⟩
      · intro i
        show (if r'.gactive (C.e i) && (Scalar.eqb (Scalar.abs (r'.ghi (C.e i))) 0 && dirOk cfg' r'.glo (C.e i)) then
            Scalar.signum (r'.glo (C.e i)) else 0) =
          (if s.r.gactive i && (Scalar.eqb (Scalar.abs (s.r.ghi i)) 0 && dirOk cfg s.r.glo i) then Scalar.signum (s.r.glo i) else 0)
          ∨ (C.d i < 0 ∧ (if r'.gactive (C.e i) && (Scalar.eqb (Scalar.abs (r'.ghi (C.e i))) 0 && dirOk cfg' r'.glo (C.e i)) then
            Scalar.signum (r'.glo (C.e i)) else 0) =
          -(if s.r.gactive i && (Scalar.eqb (Scalar.abs (s.r.ghi i)) 0 && dirOk cfg s.r.glo i) then Scalar.signum (s.r.glo i) else 0))
        rw [hr.gactive i, dirOk_rel hF hr.glo, hr.ghi i, scaled_zero (C.ne i), hr.glo i]
        split
        · exact signum_rel C i
        · exact Or.inl rfl
      · intro j hj
        show (if r'.gactive j && (Scalar.eqb (Scalar.abs (r'.ghi j)) 0 && dirOk cfg' r'.glo j) then
            Scalar.signum (r'.glo j) else 0) = 0
        rw [live_zero hF hj (hi j hj)]
        simp
  · rw [if_neg h1, if_neg h1]
    obtain ⟨hm, hm'⟩ := ha.imax (Or.inl (by simpa using h1))
    refine (hloop (l := { alph := 1, side := 0, sideprev := -1, imax := a.imax })
      (l' := { alph := 1, side := 0, sideprev := -1, imax := a'.imax }) ⟨rfl, rfl, rfl, hm, hm'⟩).bindOk (R2 := RRout C ρ) ?_ ?_
    · exact fun s e => rootLoop_ok fuel
    · rintro s1 s1' - ⟨r1, rfl, h1, hi1⟩
      refine .ret _ ⟨{ r1 with trout := r1.thi, grout := r1.ghi, iroots := finalIroots cfg' r1 }, rfl,
        { h1 with trout := h1.thi, grout := h1.ghi, iroots := ?_, inew := ?_ }, hi1⟩
      · intro i
        show finalIroots cfg' r1 (C.e i) = finalIroots cfg s1.r i ∨
          (C.d i < 0 ∧ finalIroots cfg' r1 (C.e i) = -finalIroots cfg s1.r i)
        unfold finalIroots
        rw [h1.gactive i, dirOk_rel hF h1.glo, h1.ghi i, scaled_zero (C.ne i), h1.glo i, scaled_change (C.ne i)]
        split
        · exact signum_rel C i
        · exact Or.inl rfl
      · intro j hj
        show finalIroots cfg' r1 j = 0
        unfold finalIroots
        rw [live_zero hF hj (hi1 j hj), live_change hF hj (h1.live trivial j hj) (hi1 j hj)]
        simp


theorem rCheck3_rel (fuel : Nat) {s : State ν n q K} {s' : State ν n q' K} (h : RR C ρ True s s') :
    OutR (RR C ρ True) (rCheck3 cfg fuel s) (rCheck3 cfg' fuel s') := by
  obtain ⟨r', rfl, hr⟩ := h
  have hend : searchEnd (s.reroot r') = searchEnd s := by
    unfold searchEnd
    rw [show (s.reroot r').r.taskc = s.r.taskc from hr.taskc, show (s.reroot r').r.toutc = s.r.toutc from hr.toutc]
    rfl
  unfold rCheck3
  simp only [hend]
  rw [show ({ s.reroot r' with r.thi := searchEnd s } : State ν n q' K) =
    ({ s with r.thi := searchEnd s } : State ν n q K).reroot { r' with thi := searchEnd s } from rfl, getSolution'_reroot]
  cases hs : getSolution' { s with r.thi := searchEnd s } (searchEnd s) with
  | none => exact .panic
  | some s1 =>
    have e1 := getSolution'_keepsR hs
    simp only [Option.map_some]
    have hr0 : RootRel C ρ True s1.r { r' with thi := searchEnd s } := by
      rw [e1]; exact { hr with thi := rfl }
    have hthi : s1.r.thi = searchEnd s := by rw [e1]
    refine OutR.bind (R := RRout C ρ) (R2 := RR C ρ True) (rootFind_rel hF fuel ?_) ?_ ?_
    · refine ⟨{ r' with
        thi := searchEnd s
        ghi := ρ (searchEnd s) s1.m.yy s1.m.yp r'.ghi
        nge := r'.nge + 1
        ttol := rootTol s1 }, ?_, ?_, fun j hj => ⟨_, _, _, _, rfl⟩⟩
      · rw [hthi]; rfl
      · refine { hr0 with ghi := ?_, nge := congrArg (· + 1) hr0.nge, ttol := rfl }
        show Scaled C (cfg.prob.root s1.r.thi s1.m.yy s1.m.yp s1.r.ghi) _
        rw [hthi]
        exact hF.old _ _ _ _ _ hr0.ghi
    · rintro s2 s2' ⟨r2, rfl, h2, -⟩
      exact ⟨r2, rfl, h2⟩
    · rintro s2 s2' ier ⟨r2, rfl, h2, hg⟩
      have h3 : RootRel C ρ True
          { s2.r with
            gactive := fun i => if !s2.r.gactive i && Scalar.neb (s2.r.grout i) 0 then true else s2.r.gactive i
            tlo := s2.r.trout
            glo := s2.r.grout }
          { r2 with
            gactive := fun i => if !r2.gactive i && Scalar.neb (r2.grout i) 0 then true else r2.gactive i
            tlo := r2.trout
            glo := r2.grout } := by
        refine { h2 with tlo := h2.trout, glo := h2.grout, gactive := ?_, live := fun _ => hg }
        intro i
        simp only
        rw [h2.gactive i, h2.grout i, scaled_neb (C.ne i)]
      split
      · refine gsR (s := { s2 with
            r.gactive := fun i => if !s2.r.gactive i && Scalar.neb (s2.r.grout i) 0 then true else s2.r.gactive i
            r.tlo := s2.r.trout
            r.glo := s2.r.grout }) (s' := State.reroot s2 { r2 with
            gactive := fun i => if !r2.gactive i && Scalar.neb (r2.grout i) 0 then true else r2.gactive i
            tlo := r2.trout
            glo := r2.grout }) ⟨_, rfl, h3⟩ h2.trout ?_
        intro s3 s3' hs3
        exact .ret _ hs3
      · exact .ret _ ⟨_, rfl, h3⟩

omit hF in
/-- The folds of the second check. -/
structure FoldRel (C : RootChange q q' K) (ρ : K → Vec n K → Vec n K → Vec q' K → Vec q' K) (a : R2Fold q K) (a' : R2Fold q' K) :
    Prop where
  done : a'.done = a.done
  zroot : a'.zroot = a.zroot
  iroots : ∀ i, a'.iroots (C.e i) = a.iroots i
  inew : ∀ j, C.New j → a'.iroots j = 0
  glo : Scaled C a.glo a'.glo
  live : ∀ j, C.New j → Live ρ j (a'.glo j)

omit hF in
theorem Spec.RootChange.inj (C : RootChange q q' K) {i j : Fin q} (h : C.e i = C.e j) : i = j := by
  rcases lt_trichotomy i j with h1 | h1 | h1
  · exact absurd h (C.mono _ _ h1).ne
  · exact h1
  · exact absurd h (C.mono _ _ h1).ne'

theorem r2Fold_rel {ga : Fin q → Bool} {ga' : Fin q' → Bool} (hga : ∀ i, ga' (C.e i) = ga i) {ghi : Vec q K} {ghi' : Vec q' K}
    (hghi : Scaled C ghi ghi') (hl : ∀ j, C.New j → Live ρ j (ghi' j)) {ir glo : Vec q K} {ir' glo' : Vec q' K}
    (hir : ∀ i, ir' (C.e i) = ir i) (hin : ∀ j, C.New j → ir' j = 0) (hglo : Scaled C glo glo')
    (hlg : ∀ j, C.New j → Live ρ j (glo' j)) : FoldRel C ρ (r2Fold ga ghi ir glo) (r2Fold ga' ghi' ir' glo') := by
  unfold r2Fold
  refine foldl_embed C.mono (FoldRel C ρ) ?_ ?_ ⟨rfl, rfl, hir, hin, hglo, hlg⟩
  · intro i a a' h
    rw [h.done, hga i, hghi i, scaled_zero (C.ne i), h.iroots i]
    split
    · exact h
    · split
      · split
        · split
          · exact { h with done := rfl }
          · refine { h with done := rfl, zroot := rfl, iroots := ?_, inew := ?_ }
            · intro k
              show (if C.e k = C.e i then (1 : K) else a'.iroots (C.e k)) = if k = i then 1 else a.iroots k
              by_cases hk : k = i
              · rw [if_pos hk, if_pos (by rw [hk])]
              · rw [if_neg hk, if_neg (fun h => hk (C.inj h))]; exact h.iroots k
            · intro j hj
              show (if j = C.e i then (1 : K) else a'.iroots j) = 0
              rw [if_neg (fun h => hj i h.symm)]
              exact h.inew j hj
        · split
          · refine { h with done := rfl, glo := ?_, live := ?_ }
            · intro k
              show (if C.e k = C.e i then _ else a'.glo (C.e k)) = C.d k * if k = i then ghi i else a.glo k
              by_cases hk : k = i
              · rw [if_pos hk, if_pos (by rw [hk]), hk]
              · rw [if_neg hk, if_neg (fun h => hk (C.inj h))]; exact h.glo k
            · intro j hj
              show Live ρ j (if j = C.e i then _ else a'.glo j)
              rw [if_neg (fun h => hj i h.symm)]
              exact h.live j hj
          · exact h
      · exact h
  · intro j hj a a' h
    have : Scalar.gt (0 : K) 0 = false := by simp [Scalar.gt, ex_lt]
    rw [live_zero hF hj (hl j hj), h.inew j hj, this]
    split
    · exact h
    · split
      · simpa using h
      · exact h

theorem anyZero_rel {ga : Fin q → Bool} {ga' : Fin q' → Bool} (hga : ∀ i, ga' (C.e i) = ga i) {g : Vec q K} {g' : Vec q' K}
    (hg : Scaled C g g') (hl : ∀ j, C.New j → Live ρ j (g' j)) :
    Fin.foldl q' (fun z i => z || (ga' i && Scalar.eqb (Scalar.abs (g' i)) 0)) false =
      Fin.foldl q (fun z i => z || (ga i && Scalar.eqb (Scalar.abs (g i)) 0)) false := by
  refine foldl_embed C.mono (fun a a' => a' = a) ?_ ?_ rfl
  · rintro i a _ rfl
    rw [hga i, hg i, scaled_zero (C.ne i)]
  · rintro j hj a _ rfl
    rw [live_zero hF hj (hl j hj)]
    simp

theorem rCheck2_rel {s : State ν n q K} {s' : State ν n q' K} (h : RR C ρ True s s') :
    OutR (RR C ρ True) (rCheck2 cfg s) (rCheck2 cfg' s') := by
  have h0 := h
  obtain ⟨r', rfl, hr⟩ := h
  unfold rCheck2
  rw [show (s.reroot r').r.irfnd = s.r.irfnd from hr.irfnd]
  split
  · exact .ret _ ⟨r', rfl, hr⟩
  · refine gsR h0 hr.tlo ?_
    rintro s1 _ ⟨r1, rfl, hr1⟩
    obtain ⟨ir1, tlo1, thi1, trout1, glo1, ghi1, grout1, toutc1, ttol1, taskc1, irfnd1, nge1, ga1⟩ := r1
    obtain rfl : tlo1 = s1.r.tlo := hr1.tlo
    let r1 : RootSt q' K := ⟨ir1, s1.r.tlo, thi1, trout1, glo1, ghi1, grout1, toutc1, ttol1, taskc1, irfnd1, nge1, ga1⟩
    have hr1 : RootRel C ρ True s1.r r1 := hr1
    have htlo : r1.tlo = s1.r.tlo := hr1.tlo
    have hglo : Scaled C (cfg.prob.root s1.r.tlo s1.m.yy s1.m.yp s1.r.glo) (ρ r1.tlo s1.m.yy s1.m.yp r1.glo) := by
      rw [htlo]; exact hF.old _ _ _ _ _ hr1.glo
    have hz := anyZero_rel hF hr1.gactive hglo (fun j hj => ⟨_, _, _, _, rfl⟩)
    have hr2 : RootRel C ρ True { s1.r with
          glo := cfg.prob.root s1.r.tlo s1.m.yy s1.m.yp s1.r.glo
          nge := s1.r.nge + 1
          iroots := fun i => if s1.r.gactive i && Scalar.eqb (Scalar.abs (cfg.prob.root s1.r.tlo s1.m.yy s1.m.yp s1.r.glo i)) 0
            then 1 else 0 }
        { r1 with
          glo := ρ r1.tlo s1.m.yy s1.m.yp r1.glo
          nge := r1.nge + 1
          iroots := fun i => if r1.gactive i && Scalar.eqb (Scalar.abs (ρ r1.tlo s1.m.yy s1.m.yp r1.glo i)) 0
            then 1 else 0 } := by
      refine { hr1 with glo := hglo, nge := congrArg (· + 1) hr1.nge, iroots := ?_, inew := ?_, live := fun _ j hj => ⟨_, _, _, _, rfl⟩ }
      · intro i
        left
        simp only
        rw [hr1.gactive i, hglo i, scaled_zero (C.ne i)]
      · intro j hj
        simp only
        rw [live_zero hF hj ⟨_, _, _, _, rfl⟩]
        simp
    refine iteR hz ?_ (.ret _ ⟨_, rfl, hr2⟩)
    have hr3 : RootRel C ρ True { s1.r with
          glo := cfg.prob.root s1.r.tlo s1.m.yy s1.m.yp s1.r.glo
          nge := s1.r.nge + 1
          iroots := fun i => if s1.r.gactive i && Scalar.eqb (Scalar.abs (cfg.prob.root s1.r.tlo s1.m.yy s1.m.yp s1.r.glo i)) 0
            then 1 else 0
          ttol := rootTol s1 }
        { r1 with
          glo := ρ r1.tlo s1.m.yy s1.m.yp r1.glo
          nge := r1.nge + 1
          iroots := fun i => if r1.gactive i && Scalar.eqb (Scalar.abs (ρ r1.tlo s1.m.yy s1.m.yp r1.glo i)) 0
            then 1 else 0
          ttol := rootTol s1 } := { hr2 with ttol := rfl }
    have htp : r1.tlo + rootTol s1 * Scalar.signum s1.c.hh = s1.r.tlo + rootTol s1 * Scalar.signum s1.c.hh := by rw [htlo]
    have hE : (∀ i, (if r1.gactive (C.e i) && Scalar.eqb (Scalar.abs (ρ r1.tlo s1.m.yy s1.m.yp r1.glo (C.e i))) 0 then (1 : K) else 0) =
          if s1.r.gactive i && Scalar.eqb (Scalar.abs (cfg.prob.root s1.r.tlo s1.m.yy s1.m.yp s1.r.glo i)) 0 then 1 else 0) ∧
        ∀ j, C.New j → (if r1.gactive j && Scalar.eqb (Scalar.abs (ρ r1.tlo s1.m.yy s1.m.yp r1.glo j)) 0 then (1 : K) else 0) = 0 := by
      refine ⟨fun i => ?_, hr2.inew⟩
      rw [hr1.gactive i, hglo i, scaled_zero (C.ne i)]
    refine gsR2 (E := fun i i' => (∀ k, i' (C.e k) = i k) ∧ ∀ j, C.New j → i' j = 0) ⟨_, rfl, hr3⟩ ?_ ?_ htp ?_ ?_
    · show Scalar.ge ((r1.tlo + rootTol s1 * Scalar.signum s1.c.hh - s1.e.tn) * s1.c.hh) 0 =
        Scalar.ge ((s1.r.tlo + rootTol s1 * Scalar.signum s1.c.hh - s1.e.tn) * s1.c.hh) 0
      rw [htp]
    · refine ⟨⟨_, rfl, hr3⟩, hE⟩
    · exact hE
    · rintro s4 _ ⟨r4, rfl, hr4⟩ ⟨hi4, hn4⟩
      have hghi : Scaled C (cfg.prob.root (s1.r.tlo + rootTol s1 * Scalar.signum s1.c.hh) s4.m.yy s4.m.yp s4.r.ghi)
          (ρ (r1.tlo + rootTol s1 * Scalar.signum s1.c.hh) s4.m.yy s4.m.yp r4.ghi) := by
        rw [htp]; exact hF.old _ _ _ _ _ hr4.ghi
      have hf := r2Fold_rel hF hr4.gactive hghi (fun j hj => ⟨_, _, _, _, rfl⟩) hi4 hn4 hr4.glo (hr4.live trivial)
      have hfin : RootRel C ρ True
          { s4.r with
            ghi := cfg.prob.root (s1.r.tlo + rootTol s1 * Scalar.signum s1.c.hh) s4.m.yy s4.m.yp s4.r.ghi
            nge := s4.r.nge + 1
            iroots := (r2Fold s4.r.gactive (cfg.prob.root (s1.r.tlo + rootTol s1 * Scalar.signum s1.c.hh) s4.m.yy s4.m.yp s4.r.ghi)
              s4.r.iroots s4.r.glo).iroots
            glo := (r2Fold s4.r.gactive (cfg.prob.root (s1.r.tlo + rootTol s1 * Scalar.signum s1.c.hh) s4.m.yy s4.m.yp s4.r.ghi)
              s4.r.iroots s4.r.glo).glo }
          { r4 with
            ghi := ρ (r1.tlo + rootTol s1 * Scalar.signum s1.c.hh) s4.m.yy s4.m.yp r4.ghi
            nge := r4.nge + 1
            iroots := (r2Fold r4.gactive (ρ (r1.tlo + rootTol s1 * Scalar.signum s1.c.hh) s4.m.yy s4.m.yp r4.ghi)
              r4.iroots r4.glo).iroots
            glo := (r2Fold r4.gactive (ρ (r1.tlo + rootTol s1 * Scalar.signum s1.c.hh) s4.m.yy s4.m.yp r4.ghi)
              r4.iroots r4.glo).glo } :=
        { hr4 with
          ghi := hghi
          nge := congrArg (· + 1) hr4.nge
          iroots := fun i => Or.inl (hf.iroots i)
          inew := hf.inew
          glo := hf.glo
          live := fun _ => hf.live }
      refine iteR hf.done (.ret _ ⟨_, rfl, hfin⟩) (iteR hf.zroot (.ret _ ⟨_, rfl, hfin⟩) (.ret _ ⟨_, rfl, hfin⟩))

end

end

end Verif
