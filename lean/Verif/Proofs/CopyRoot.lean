import Verif.Proofs.CopyStep

/-!
# Copies side by side: the root search
-/

set_option autoImplicit false
set_option linter.unusedSectionVars false
set_option linter.unusedSimpArgs false
set_option linter.unusedVariables false

namespace Verif

open Verif.Spec

universe u v w x

namespace Spec.Copies

variable {ν ν' : Type v} {n nn q : Nat} {K : Type u} [Scalar K] [Averages K] (C : Copies n nn) (nm : ν → ν')

section
variable (cfg : Cfg ν n q K) {P' : Problem nn q K} {E' : Vec nn K → Vec nn K → Vec nn K} {S' : NlSolver ν' nn K}
  (H : C.Fits nm cfg P' E' S') (s : State ν n q K)

local notation "cfg'" => cfg.beside C P' E' S'

theorem zero_conv (v : Vec q K) (i : Fin q) : Scalar.eqb (Scalar.abs (C.rts v i)) 0 = Scalar.eqb (Scalar.abs (v i)) 0 := rfl

theorem rts_eqb (v : Vec q K) (i : Fin q) : Scalar.eqb (C.rts v i) 0 = Scalar.eqb (v i) 0 := rfl

theorem rts_sgn (v : Vec q K) (i : Fin q) : Scalar.signum (C.rts v i) = Scalar.signum (v i) := rfl

theorem dirOk_conv (v : Vec q K) (i : Fin q) : dirOk cfg' (C.rts v) i = dirOk cfg v i := rfl

theorem scan1_conv (act : Fin q → Bool) (glo g : Vec q K) : scan1 cfg' act (C.rts glo) (C.rts g) = scan1 cfg act glo g := rfl

theorem scan2_conv (act : Fin q → Bool) (glo g : Vec q K) (k : Nat) :
    scan2 cfg' act (C.rts glo) (C.rts g) k = scan2 cfg act glo g k := rfl

theorem trialPoint_conv (thi tlo ttol alph : K) (g glo : Vec q K) (i : Fin q) :
    trialPoint thi tlo ttol (C.rts g i) (C.rts glo i) alph = trialPoint thi tlo ttol (g i) (glo i) alph := rfl

theorem finalIroots_conv (r : RootSt q K) : finalIroots cfg' (C.rootSt r) = finalIroots cfg r := rfl

include H in
theorem callRoot_conv (t : K) (yy yp : Vec n K) (buf buf' : Vec q K) :
    callRoot cfg' (C.state nm s) t (C.vec yy) (C.vec yp) buf' =
      (C.state nm (callRoot cfg s t yy yp buf).1, C.rts (callRoot cfg s t yy yp buf).2) := by
  unfold callRoot
  rw [show (cfg.beside C P' E' S').prob.root t (C.vec yy) (C.vec yp) buf' = _ from H.root t yy yp buf buf']
  rfl

def scan (a : R2Fold q K) : R2Fold q K := { a with glo := C.rts a.glo }

theorem r2Fold_conv (act : Fin q → Bool) (g ir glo : Vec q K) :
    r2Fold act (C.rts g) ir (C.rts glo) = C.scan (r2Fold act g ir glo) := rfl

/-- The assignments to `glo` and `gactive` in `r_check1`. -/
def r1Set (s : State ν n q K) (glo : Vec q K) : State ν n q K :=
  { s with
    r.glo := glo
    r.nge := 1
    r.gactive := fun i => if Scalar.eqb (Scalar.abs (glo i)) 0 then false else s.r.gactive i }

/-- The end of `r_check1`. -/
def r1Act (s : State ν n q K) (ghi : Vec q K) : State ν n q K :=
  { s with
    r.ghi := ghi
    r.nge := s.r.nge + 1
    r.gactive := fun i => if !s.r.gactive i && Scalar.neb (Scalar.abs (ghi i)) 0 then true else s.r.gactive i
    r.glo := fun i => if !s.r.gactive i && Scalar.neb (Scalar.abs (ghi i)) 0 then ghi i else s.r.glo i }

/-- The point a little later in `r_check1`. -/
def r1Small (s : State ν n q K) : K := Scalar.max (s.r.ttol / Scalar.abs s.c.hh) Scalar.pt1 * s.c.hh

def r1Move (s : State ν n q K) : State ν n q K := { s with m.yy := scaledAdd (s.h.phi 0) (r1Small s) (s.h.phi 1) }

def r1Begin (s : State ν n q K) : State ν n q K := { s with r.iroots := vzero, r.tlo := s.e.tn, r.ttol := rootTol s }

omit H in
theorem rCheck1_eq (cfg : Cfg ν n q K) (s : State ν n q K) : rCheck1 cfg s =
    (let p := callRoot cfg (r1Begin s) s.e.tn (s.h.phi 0) (s.h.phi 1) s.r.glo
     let t := r1Set p.1 p.2
     if Fin.foldl q (fun z i => z || Scalar.eqb (Scalar.abs (p.2 i)) 0) false then
       let p := callRoot cfg (r1Move t) (t.r.tlo + r1Small t) (r1Move t).m.yy (t.h.phi 1) t.r.ghi
       r1Act p.1 p.2
     else t) := rfl

theorem r1Set_conv (glo : Vec q K) : r1Set (C.state nm s) (C.rts glo) = C.state nm (r1Set s glo) := by
  unfold r1Set
  simp only [C.zero_conv]
  rfl

theorem r1Act_conv (ghi : Vec q K) : r1Act (C.state nm s) (C.rts ghi) = C.state nm (r1Act s ghi) := rfl

theorem r1Move_conv : r1Move (C.state nm s) = C.state nm (r1Move s) := by
  unfold r1Move
  rw [show scaledAdd ((C.state nm s).h.phi 0) (r1Small (C.state nm s)) ((C.state nm s).h.phi 1) = _ from
    C.vec_scaled (s.h.phi 0) (r1Small s) (s.h.phi 1)]
  rfl

include H in
theorem rCheck1_conv : rCheck1 cfg' (C.state nm s) = C.state nm (rCheck1 cfg s) := by
  rw [rCheck1_eq, rCheck1_eq]
  rw [show callRoot (cfg.beside C P' E' S') (r1Begin (C.state nm s)) (C.state nm s).e.tn ((C.state nm s).h.phi 0)
    ((C.state nm s).h.phi 1) (C.state nm s).r.glo = _ from
    C.callRoot_conv nm cfg H (r1Begin s) s.e.tn (s.h.phi 0) (s.h.phi 1) s.r.glo (C.rts s.r.glo)]
  generalize callRoot cfg (r1Begin s) s.e.tn (s.h.phi 0) (s.h.phi 1) s.r.glo = o
  obtain ⟨s, glo⟩ := o
  simp only [C.zero_conv, C.r1Set_conv, C.r1Move_conv]
  generalize r1Set s glo = t
  by_cases hz : Fin.foldl q (fun z i => z || Scalar.eqb (Scalar.abs (glo i)) 0) false = true
  · rw [if_pos hz, if_pos hz]
    rw [show callRoot (cfg.beside C P' E' S') (C.state nm (r1Move t)) ((C.state nm t).r.tlo + r1Small (C.state nm t))
      (C.state nm (r1Move t)).m.yy ((C.state nm t).h.phi 1) (C.state nm t).r.ghi = _ from
      C.callRoot_conv nm cfg H (r1Move t) (t.r.tlo + r1Small t) (r1Move t).m.yy (t.h.phi 1) t.r.ghi (C.rts t.r.ghi)]
    exact C.r1Act_conv nm _ _
  · rw [if_neg hz, if_neg hz]

theorem rootTol_conv : rootTol (C.state nm s) = rootTol s := rfl

/-- The assignments to `glo` and `iroots` in `r_check2`. -/
def r2Set (s : State ν n q K) (glo : Vec q K) : State ν n q K :=
  { s with
    r.glo := glo
    r.nge := s.r.nge + 1
    r.iroots := fun i => if s.r.gactive i && Scalar.eqb (Scalar.abs (glo i)) 0 then 1 else 0 }

def r2Small (s : State ν n q K) : K := s.r.ttol * Scalar.signum s.c.hh

/-- The point a little later in `r_check2`. -/
def r2Plus (s : State ν n q K) : Option (State ν n q K) :=
  if Scalar.ge ((s.r.tlo + r2Small s - s.e.tn) * s.c.hh) 0 then
    some { s with m.yy := scaledAdd s.m.yy (r2Small s / s.c.hh) (s.h.phi 1) }
  else getSolution' s (s.r.tlo + r2Small s)

/-- The end of `r_check2`. -/
def r2End (s : State ν n q K) (ghi : Vec q K) : Out (State ν n q K) RootStatus :=
  let a := r2Fold s.r.gactive ghi s.r.iroots s.r.glo
  let s := { s with r.ghi := ghi, r.nge := s.r.nge + 1, r.iroots := a.iroots, r.glo := a.glo }
  if a.done then .ret s (.error (.ida .closeRoots))
  else if a.zroot then .ret s (.ok .rootFound)
  else .ret s (.ok .continue_)

def r2Tol (s : State ν n q K) : State ν n q K := { s with r.ttol := rootTol s }

omit H in
theorem rCheck2_eq (cfg : Cfg ν n q K) (s : State ν n q K) : rCheck2 cfg s =
    if s.r.irfnd = false then .ret s (.ok .continue_)
    else
      match getSolution' s s.r.tlo with
      | none => .panic
      | some s =>
        let p := callRoot cfg s s.r.tlo s.m.yy s.m.yp s.r.glo
        if Fin.foldl q (fun z i => z || (p.1.r.gactive i && Scalar.eqb (Scalar.abs (p.2 i)) 0)) false then
          match r2Plus (r2Tol (r2Set p.1 p.2)) with
          | none => .panic
          | some t =>
            let p := callRoot cfg t ((r2Tol (r2Set p.1 p.2)).r.tlo + r2Small (r2Tol (r2Set p.1 p.2))) t.m.yy t.m.yp t.r.ghi
            r2End p.1 p.2
        else .ret (r2Set p.1 p.2) (.ok .continue_) := rfl

theorem r2Set_conv (glo : Vec q K) : r2Set (C.state nm s) (C.rts glo) = C.state nm (r2Set s glo) := by
  unfold r2Set
  simp only [C.zero_conv]
  rfl

theorem r2Plus_conv : r2Plus (C.state nm s) = (r2Plus s).map (C.state nm) := by
  unfold r2Plus
  rw [show r2Small (C.state nm s) = r2Small s from rfl, C.getSolution'_conv]
  by_cases h : Scalar.ge ((s.r.tlo + r2Small s - s.e.tn) * s.c.hh) 0 = true
  · rw [if_pos h, if_pos (show Scalar.ge (((C.state nm s).r.tlo + r2Small s - (C.state nm s).e.tn) * (C.state nm s).c.hh) 0 = true from h),
      show scaledAdd (C.state nm s).m.yy (r2Small s / (C.state nm s).c.hh) ((C.state nm s).h.phi 1) = _ from
        C.vec_scaled s.m.yy (r2Small s / s.c.hh) (s.h.phi 1)]
    rfl
  · rw [if_neg h, if_neg (show ¬ Scalar.ge (((C.state nm s).r.tlo + r2Small s - (C.state nm s).e.tn) * (C.state nm s).c.hh) 0 = true from h)]
    rfl

theorem r2End_conv (ghi : Vec q K) : r2End (C.state nm s) (C.rts ghi) = (r2End s ghi).onS (C.state nm) := by
  unfold r2End
  rw [show r2Fold (C.state nm s).r.gactive (C.rts ghi) (C.state nm s).r.iroots (C.state nm s).r.glo = _ from
    C.r2Fold_conv s.r.gactive ghi s.r.iroots s.r.glo]
  generalize r2Fold s.r.gactive ghi s.r.iroots s.r.glo = a
  simp only
  by_cases h1 : a.done = true
  · rw [if_pos h1, if_pos (show (C.scan a).done = true from h1)]; rfl
  · rw [if_neg h1, if_neg (show ¬ (C.scan a).done = true from h1)]
    by_cases h2 : a.zroot = true
    · rw [if_pos h2, if_pos (show (C.scan a).zroot = true from h2)]; rfl
    · rw [if_neg h2, if_neg (show ¬ (C.scan a).zroot = true from h2)]; rfl

include H in
theorem rCheck2_conv : rCheck2 cfg' (C.state nm s) = (rCheck2 cfg s).onS (C.state nm) := by
  rw [rCheck2_eq, rCheck2_eq]
  by_cases h0 : s.r.irfnd = false
  · rw [if_pos h0, if_pos (show (C.state nm s).r.irfnd = false from h0)]; rfl
  rw [if_neg h0, if_neg (show ¬ (C.state nm s).r.irfnd = false from h0), C.getSolution'_conv,
    show (C.state nm s).r.tlo = s.r.tlo from rfl]
  cases getSolution' s s.r.tlo with
  | none => rfl
  | some s =>
    simp only [Option.map_some]
    rw [show callRoot (cfg.beside C P' E' S') (C.state nm s) (C.state nm s).r.tlo (C.state nm s).m.yy (C.state nm s).m.yp
      (C.state nm s).r.glo = _ from C.callRoot_conv nm cfg H s s.r.tlo s.m.yy s.m.yp s.r.glo (C.rts s.r.glo)]
    generalize callRoot cfg s s.r.tlo s.m.yy s.m.yp s.r.glo = o
    obtain ⟨s, glo⟩ := o
    simp only [C.zero_conv, C.r2Set_conv]
    rw [show (C.state nm s).r.gactive = s.r.gactive from rfl,
      show r2Tol (C.state nm (r2Set s glo)) = C.state nm (r2Tol (r2Set s glo)) from rfl, C.r2Plus_conv]
    by_cases hz : Fin.foldl q (fun z i => z || (s.r.gactive i && Scalar.eqb (Scalar.abs (glo i)) 0)) false = true
    · rw [if_pos hz, if_pos hz]
      generalize r2Tol (r2Set s glo) = u
      cases r2Plus u with
      | none => rfl
      | some t =>
        simp only [Option.map_some]
        rw [show callRoot (cfg.beside C P' E' S') (C.state nm t) ((C.state nm u).r.tlo + r2Small (C.state nm u)) (C.state nm t).m.yy
          (C.state nm t).m.yp (C.state nm t).r.ghi = _ from
          C.callRoot_conv nm cfg H t (u.r.tlo + r2Small u) t.m.yy t.m.yp t.r.ghi (C.rts t.r.ghi)]
        exact C.r2End_conv nm _ _
    · rw [if_neg hz, if_neg hz]; rfl

theorem bracketSmall_conv (r : RootSt q K) : bracketSmall (C.rootSt r) = bracketSmall r := rfl

/-- The outcome of a pass of the root search of the large system. -/
def pass : RfPass (State ν n q K) (RfLoc K) → RfPass (State ν' nn q K) (RfLoc K)
  | .stop s => .stop (C.state nm s)
  | .more s l => .more (C.state nm s) l
  | .panic => .panic

theorem rootNarrow_conv (a : Scan K) (tmid alph : K) (sp : Int) :
    rootNarrow (C.state nm s) a tmid alph sp = C.pass nm (rootNarrow s a tmid alph sp) := by
  unfold rootNarrow
  by_cases h1 : a.sgnchg = true
  · rw [if_pos h1, if_pos h1]
    by_cases h2 : bracketSmall { s.r with thi := tmid, ghi := s.r.grout } = true
    · simp only [if_pos h2, if_pos (show bracketSmall { (C.state nm s).r with thi := tmid, ghi := (C.state nm s).r.grout } = true from h2)]
      rfl
    · simp only [if_neg h2, if_neg (show ¬ bracketSmall { (C.state nm s).r with thi := tmid, ghi := (C.state nm s).r.grout } = true from h2)]
      rfl
  · rw [if_neg h1, if_neg h1]
    by_cases h3 : a.zroot = true
    · rw [if_pos h3, if_pos h3]; rfl
    · rw [if_neg h3, if_neg h3]
      by_cases h2 : bracketSmall { s.r with tlo := tmid, glo := s.r.grout } = true
      · simp only [if_pos h2, if_pos (show bracketSmall { (C.state nm s).r with tlo := tmid, glo := (C.state nm s).r.grout } = true from h2)]
        rfl
      · simp only [if_neg h2, if_neg (show ¬ bracketSmall { (C.state nm s).r with tlo := tmid, glo := (C.state nm s).r.grout } = true from h2)]
        rfl

include H in
theorem rootPass_conv (l : RfLoc K) : rootPass cfg' (C.state nm s) l = C.pass nm (rootPass cfg s l) := by
  unfold rootPass
  by_cases hi : l.imax < q
  · rw [dif_pos hi, dif_pos hi]
    simp only
    rw [show trialPoint (C.state nm s).r.thi (C.state nm s).r.tlo (C.state nm s).r.ttol ((C.state nm s).r.ghi ⟨l.imax, hi⟩)
      ((C.state nm s).r.glo ⟨l.imax, hi⟩) (nextAlph l) = _ from C.trialPoint_conv s.r.thi s.r.tlo s.r.ttol (nextAlph l) s.r.ghi s.r.glo ⟨l.imax, hi⟩]
    generalize trialPoint s.r.thi s.r.tlo s.r.ttol (s.r.ghi ⟨l.imax, hi⟩) (s.r.glo ⟨l.imax, hi⟩) (nextAlph l) = tmid
    rw [C.getSolution'_conv]
    cases getSolution' s tmid with
    | none => rfl
    | some s =>
      simp only [Option.map_some]
      rw [show callRoot (cfg.beside C P' E' S') (C.state nm s) tmid (C.state nm s).m.yy (C.state nm s).m.yp (C.state nm s).r.grout = _ from
        C.callRoot_conv nm cfg H s tmid s.m.yy s.m.yp s.r.grout (C.rts s.r.grout)]
      have e1 := C.scan2_conv cfg (P' := P') (E' := E') (S' := S') (callRoot cfg s tmid s.m.yy s.m.yp s.r.grout).1.r.gactive
        (callRoot cfg s tmid s.m.yy s.m.yp s.r.grout).1.r.glo (callRoot cfg s tmid s.m.yy s.m.yp s.r.grout).2 l.imax
      simp only
      refine Eq.trans (congrArg (fun a => rootNarrow _ a tmid (nextAlph l) l.side) e1) ?_
      exact C.rootNarrow_conv nm { (callRoot cfg s tmid s.m.yy s.m.yp s.r.grout).1 with
        r.grout := (callRoot cfg s tmid s.m.yy s.m.yp s.r.grout).2, r.nge := s.r.nge + 1 } _ tmid (nextAlph l) l.side
  · rw [dif_neg hi, dif_neg hi]; rfl

include H in
theorem rootLoop_conv (fuel : Nat) : ∀ (s : State ν n q K) (l : RfLoc K),
    rootLoop cfg' fuel (C.state nm s) l = (rootLoop cfg fuel s l).onS (C.state nm) := by
  induction fuel with
  | zero => intro s l; rfl
  | succ fuel ih =>
    intro s l
    simp only [rootLoop]
    by_cases h : bracketSmall s.r = true
    · rw [if_pos h, if_pos (show bracketSmall (C.state nm s).r = true from h)]; rfl
    · rw [if_neg h, if_neg (show ¬ bracketSmall (C.state nm s).r = true from h), C.rootPass_conv nm cfg H]
      cases rootPass cfg s l with
      | panic => rfl
      | stop s => rfl
      | more s l => exact ih s l

include H in
theorem rootFind_conv (fuel : Nat) : rootFind cfg' fuel (C.state nm s) = (rootFind cfg fuel s).onS (C.state nm) := by
  unfold rootFind
  rw [show scan1 (cfg.beside C P' E' S') (C.state nm s).r.gactive (C.state nm s).r.glo (C.state nm s).r.ghi = _ from
    C.scan1_conv cfg s.r.gactive s.r.glo s.r.ghi]
  generalize scan1 cfg s.r.gactive s.r.glo s.r.ghi = a
  simp only
  by_cases h1 : a.sgnchg = false
  · rw [if_pos h1, if_pos h1]
    by_cases h2 : a.zroot = false
    · rw [if_pos h2, if_pos h2]; rfl
    · rw [if_neg h2, if_neg h2]
      have e : (fun i => if ((C.state nm s).r.gactive i && (Scalar.eqb (Scalar.abs ((C.state nm s).r.ghi i)) 0 &&
            dirOk (cfg.beside C P' E' S') (C.state nm s).r.glo i)) = true then Scalar.signum ((C.state nm s).r.glo i) else 0) =
          fun i => if (s.r.gactive i && (Scalar.eqb (Scalar.abs (s.r.ghi i)) 0 && dirOk cfg s.r.glo i)) = true
            then Scalar.signum (s.r.glo i) else 0 := by
        funext i
        show (if (s.r.gactive i && (Scalar.eqb (Scalar.abs (C.rts s.r.ghi i)) 0 &&
            dirOk (cfg.beside C P' E' S') (C.rts s.r.glo) i)) = true then Scalar.signum (C.rts s.r.glo i) else 0) = _
        rw [C.zero_conv, C.dirOk_conv, C.rts_sgn]
      rw [e]
      rfl
  · rw [if_neg h1, if_neg h1, C.rootLoop_conv nm cfg H]
    refine Out.bind_onS (C.state nm) _ _ _ (fun s _ => ?_)
    rw [show finalIroots (cfg.beside C P' E' S') (C.state nm s).r = _ from C.finalIroots_conv cfg s.r]
    rfl

theorem searchEnd_conv : searchEnd (C.state nm s) = searchEnd s := rfl

include H in
theorem rCheck3_conv (fuel : Nat) : rCheck3 cfg' fuel (C.state nm s) = (rCheck3 cfg fuel s).onS (C.state nm) := by
  unfold rCheck3
  simp only
  rw [C.searchEnd_conv]
  have e1 := C.getSolution'_conv nm { s with r.thi := searchEnd s } (searchEnd s)
  rw [show getSolution' { C.state nm s with r := { (C.state nm s).r with thi := searchEnd s } } (searchEnd s) = _ from e1]
  cases getSolution' { s with r.thi := searchEnd s } (searchEnd s) with
  | none => rfl
  | some s =>
    simp only [Option.map_some]
    rw [show callRoot (cfg.beside C P' E' S') (C.state nm s) (C.state nm s).r.thi (C.state nm s).m.yy (C.state nm s).m.yp
      (C.state nm s).r.ghi = _ from C.callRoot_conv nm cfg H s s.r.thi s.m.yy s.m.yp s.r.ghi (C.rts s.r.ghi)]
    generalize callRoot cfg s s.r.thi s.m.yy s.m.yp s.r.ghi = o
    obtain ⟨s, ghi⟩ := o
    have e2 := C.rootFind_conv nm cfg H { s with r.ghi := ghi, r.nge := s.r.nge + 1, r.ttol := rootTol s } fuel
    refine Eq.trans (congrArg (fun o => Out.bind o _) e2) ?_
    refine Out.bind_onS (C.state nm) _ _ _ (fun s ier => ?_)
    have e3 : (fun i => if (!(C.state nm s).r.gactive i && Scalar.neb ((C.state nm s).r.grout i) 0) = true then true
          else (C.state nm s).r.gactive i) =
        fun i => if (!s.r.gactive i && Scalar.neb (s.r.grout i) 0) = true then true else s.r.gactive i := by
      funext i
      show (if (!s.r.gactive i && !(Scalar.eqb (C.rts s.r.grout i) 0)) = true then true else s.r.gactive i) = _
      rw [C.rts_eqb]
    rw [e3]
    by_cases h : ier = .rootFound
    · rw [if_pos h, if_pos h]
      have e4 := C.getSolution'_conv nm { s with
        r.gactive := fun i => if (!s.r.gactive i && Scalar.neb (s.r.grout i) 0) = true then true else s.r.gactive i
        r.tlo := s.r.trout
        r.glo := s.r.grout } s.r.trout
      refine Eq.trans (congrArg (fun o => match o with | none => Out.panic | some s => .ret s (.ok ier)) e4) ?_
      generalize getSolution' { s with
        r.gactive := fun i => if (!s.r.gactive i && Scalar.neb (s.r.grout i) 0) = true then true else s.r.gactive i
        r.tlo := s.r.trout
        r.glo := s.r.grout } s.r.trout = o
      cases o <;> rfl
    · rw [if_neg h, if_neg h]; rfl

end

end Spec.Copies

end Verif
