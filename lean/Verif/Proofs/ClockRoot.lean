import Verif.Proofs.ClockStep

/-!
# Another unit of time: the root search
-/

set_option autoImplicit false
set_option linter.unusedSectionVars false
set_option linter.unusedSimpArgs false
set_option linter.unusedVariables false

namespace Verif

open Spec.Rescale (r1Set r1Act r1Small r1Move r1Begin rCheck1_eq r2Set r2Small r2Plus r2End r2Tol rCheck2_eq)

open Verif.Spec

universe u v w x

namespace Spec.Clock

variable {ν : Type v} {n q : Nat} {K : Type u} [Scalar K] (U : Clock K)

section
variable (cfg : Cfg ν n q K) {P' : Problem n q K} {S' : NlSolver ν n K} (H : U.Fits cfg P' S') (s : State ν n q K)

local notation "cfg'" => U.conf cfg P' S'

theorem fracSub_clock (thi tlo ttol : K) : fracSub (U.f thi) (U.f tlo) (U.f ttol) = fracSub thi tlo ttol := by
  unfold fracSub
  rw [U.dist, U.dd]

theorem trialPoint_clock (thi tlo ttol ghi glo alph : K) :
    trialPoint (U.f thi) (U.f tlo) (U.f ttol) ghi glo alph = U.f (trialPoint thi tlo ttol ghi glo alph) := by
  unfold trialPoint
  rw [U.fracSub_clock]
  have e1 : U.f thi - (U.f thi - U.f tlo) * ghi / (ghi - alph * glo) = U.f (thi - (thi - tlo) * ghi / (ghi - alph * glo)) := by
    rw [U.sub thi tlo, U.mul, U.div, U.sub]
  have e2 : U.f tlo + fracSub thi tlo ttol * (U.f thi - U.f tlo) = U.f (tlo + fracSub thi tlo ttol * (thi - tlo)) := by
    rw [U.sub thi tlo, U.mul', U.add]
  have e3 : U.f thi - fracSub thi tlo ttol * (U.f thi - U.f tlo) = U.f (thi - fracSub thi tlo ttol * (thi - tlo)) := by
    rw [U.sub thi tlo, U.mul', U.sub]
  simp only [e1, e2, e3, U.dist, U.mul', U.lt]
  have e4 : (if Scalar.lt (Scalar.abs (thi - (thi - tlo) * ghi / (ghi - alph * glo) - tlo)) (Scalar.half * ttol) = true then
        U.f (tlo + fracSub thi tlo ttol * (thi - tlo)) else U.f (thi - (thi - tlo) * ghi / (ghi - alph * glo))) =
      U.f (if Scalar.lt (Scalar.abs (thi - (thi - tlo) * ghi / (ghi - alph * glo) - tlo)) (Scalar.half * ttol) = true then
        tlo + fracSub thi tlo ttol * (thi - tlo) else thi - (thi - tlo) * ghi / (ghi - alph * glo)) :=
    ite_conv U.f Iff.rfl (fun _ => rfl) (fun _ => rfl)
  rw [e4, U.dist, U.lt]
  exact ite_conv U.f Iff.rfl (fun _ => rfl) (fun _ => rfl)

include H in
theorem callRoot_clock (t : K) (yy yp : Vec n K) (buf : Vec q K) :
    callRoot cfg' (U.state s) (U.f t) yy (U.rate yp) buf = (U.state (callRoot cfg s t yy yp buf).1, (callRoot cfg s t yy yp buf).2) := by
  unfold callRoot
  rw [show (U.conf cfg P' S').prob.root (U.f t) yy (U.rate yp) buf = _ from H.root t yy yp buf]
  rfl

include H in
theorem callRoot_fresh (t : K) (yy yp : Vec n K) (buf : Vec q K) :
    callRoot cfg' (U.fresh s) (U.f t) yy (U.rate yp) buf = (U.fresh (callRoot cfg s t yy yp buf).1, (callRoot cfg s t yy yp buf).2) := by
  unfold callRoot
  rw [show (U.conf cfg P' S').prob.root (U.f t) yy (U.rate yp) buf = _ from H.root t yy yp buf]
  rfl

theorem rootTol_clock : rootTol (U.state s) = U.f (rootTol s) := by
  unfold rootTol
  show (Scalar.abs (U.f s.e.tn) + Scalar.abs (U.f s.c.hh)) * Scalar.eps * Scalar.hundred = _
  rw [U.abs, U.abs, U.add, U.mul, U.mul]

theorem r1Small_clock : r1Small (U.fresh s) = U.f (r1Small s) := by
  unfold r1Small
  show Scalar.max (U.f s.r.ttol / Scalar.abs (U.f s.c.hh)) Scalar.pt1 * U.f s.c.hh = _
  rw [U.abs, U.dd, U.mul']

theorem r1Move_clock : r1Move (U.fresh s) = U.fresh (r1Move s) := by
  unfold r1Move
  rw [U.r1Small_clock, show scaledAdd ((U.fresh s).h.phi 0) (U.f (r1Small s)) ((U.fresh s).h.phi 1) = _ from U.scaled' (s.h.phi 0) (s.h.phi 1) (r1Small s)]
  rfl

theorem r1Begin_clock : r1Begin (U.fresh s) = U.fresh (r1Begin s) := by
  unfold r1Begin
  rw [show rootTol (U.fresh s) = _ from U.rootTol_clock s]
  rfl

include H in
theorem rCheck1_clock : rCheck1 cfg' (U.fresh s) = U.fresh (rCheck1 cfg s) := by
  rw [rCheck1_eq, rCheck1_eq, U.r1Begin_clock]
  rw [show callRoot (U.conf cfg P' S') (U.fresh (r1Begin s)) (U.fresh s).e.tn ((U.fresh s).h.phi 0)
    ((U.fresh s).h.phi 1) (U.fresh s).r.glo = _ from U.callRoot_fresh cfg H (r1Begin s) s.e.tn (s.h.phi 0) (s.h.phi 1) s.r.glo]
  generalize callRoot cfg (r1Begin s) s.e.tn (s.h.phi 0) (s.h.phi 1) s.r.glo = o
  obtain ⟨s, glo⟩ := o
  simp only [show r1Set (U.fresh s) glo = U.fresh (r1Set s glo) from rfl, U.r1Move_clock, U.r1Small_clock]
  generalize r1Set s glo = t
  refine ite_conv U.fresh Iff.rfl (fun _ => ?_) (fun _ => rfl)
  rw [show (U.fresh t).r.tlo + U.f (r1Small t) = U.f (t.r.tlo + r1Small t) from U.add _ _,
    show callRoot (U.conf cfg P' S') (U.fresh (r1Move t)) (U.f (t.r.tlo + r1Small t)) (U.fresh (r1Move t)).m.yy ((U.fresh t).h.phi 1) (U.fresh t).r.ghi = _ from
      U.callRoot_fresh cfg H (r1Move t) (t.r.tlo + r1Small t) (r1Move t).m.yy (t.h.phi 1) t.r.ghi]
  rfl

theorem r2Small_clock : r2Small (U.state s) = U.f (r2Small s) := by
  unfold r2Small
  show U.f s.r.ttol * Scalar.signum (U.f s.c.hh) = _
  rw [U.signum, U.mul]

theorem r2Plus_clock : r2Plus (U.state s) = (r2Plus s).map U.state := by
  unfold r2Plus
  rw [U.r2Small_clock, show (U.state s).r.tlo + U.f (r2Small s) = U.f (s.r.tlo + r2Small s) from U.add _ _, U.getSolution'_clock,
    show Scalar.ge ((U.f (s.r.tlo + r2Small s) - (U.state s).e.tn) * (U.state s).c.hh) 0 = _ from U.side_ge _ _ _,
    show U.f (r2Small s) / (U.state s).c.hh = _ from U.dd _ _]
  exact ite_conv (Option.map U.state) Iff.rfl (fun _ => rfl) (fun _ => rfl)

theorem r2End_clock (ghi : Vec q K) : r2End (U.state s) ghi = (r2End s ghi).onS U.state := by
  unfold r2End
  refine ite_conv (Out.onS U.state) Iff.rfl (fun _ => rfl) (fun _ => ?_)
  exact ite_conv (Out.onS U.state) Iff.rfl (fun _ => rfl) (fun _ => rfl)

theorem r2Tol_clock : r2Tol (U.state s) = U.state (r2Tol s) := by
  unfold r2Tol
  rw [U.rootTol_clock]
  rfl

include H in
theorem rCheck2_clock : rCheck2 cfg' (U.state s) = (rCheck2 cfg s).onS U.state := by
  rw [rCheck2_eq, rCheck2_eq]
  refine ite_conv (Out.onS U.state) Iff.rfl (fun _ => rfl) (fun _ => ?_)
  rw [show (U.state s).r.tlo = U.f s.r.tlo from rfl, U.getSolution'_clock]
  cases hg : getSolution' s s.r.tlo with
  | none => rfl
  | some t =>
    clear hg
    revert t
    intro s
    simp only [Option.map_some]
    rw [show callRoot (U.conf cfg P' S') (U.state s) (U.state s).r.tlo (U.state s).m.yy (U.state s).m.yp
      (U.state s).r.glo = _ from U.callRoot_clock cfg H s s.r.tlo s.m.yy s.m.yp s.r.glo]
    generalize callRoot cfg s s.r.tlo s.m.yy s.m.yp s.r.glo = o
    obtain ⟨s, glo⟩ := o
    simp only [show r2Set (U.state s) glo = U.state (r2Set s glo) from rfl, U.r2Tol_clock]
    refine ite_conv (Out.onS U.state) Iff.rfl (fun _ => ?_) (fun _ => rfl)
    generalize r2Tol (r2Set s glo) = u
    rw [U.r2Plus_clock, U.r2Small_clock, show (U.state u).r.tlo + U.f (r2Small u) = U.f (u.r.tlo + r2Small u) from U.add _ _]
    cases r2Plus u with
    | none => rfl
    | some t =>
      simp only [Option.map_some]
      rw [show callRoot (U.conf cfg P' S') (U.state t) (U.f (u.r.tlo + r2Small u)) (U.state t).m.yy
        (U.state t).m.yp (U.state t).r.ghi = _ from U.callRoot_clock cfg H t (u.r.tlo + r2Small u) t.m.yy t.m.yp t.r.ghi]
      exact U.r2End_clock _ _

theorem bracketSmall_clock (r : RootSt q K) : bracketSmall (U.rootSt r) = bracketSmall r := by
  unfold bracketSmall
  show Scalar.le (Scalar.abs (U.f r.thi - U.f r.tlo)) (U.f r.ttol) = _
  rw [U.dist, U.le]

def pass : RfPass (State ν n q K) (RfLoc K) → RfPass (State ν n q K) (RfLoc K)
  | .stop s => .stop (U.state s)
  | .more s l => .more (U.state s) l
  | .panic => .panic

theorem rootNarrow_clock (a : Scan K) (tmid alph : K) (sp : Int) :
    rootNarrow (U.state s) a (U.f tmid) alph sp = U.pass (rootNarrow s a tmid alph sp) := by
  unfold rootNarrow
  refine ite_conv U.pass Iff.rfl (fun _ => ?_) (fun _ => ?_)
  · exact ite_conv U.pass (iffb (U.bracketSmall_clock { s.r with thi := tmid, ghi := s.r.grout })) (fun _ => rfl) (fun _ => rfl)
  refine ite_conv U.pass Iff.rfl (fun _ => rfl) (fun _ => ?_)
  exact ite_conv U.pass (iffb (U.bracketSmall_clock { s.r with tlo := tmid, glo := s.r.grout })) (fun _ => rfl) (fun _ => rfl)

include H in
theorem rootPass_clock (l : RfLoc K) : rootPass cfg' (U.state s) l = U.pass (rootPass cfg s l) := by
  unfold rootPass
  by_cases hi : l.imax < q
  · rw [dif_pos hi, dif_pos hi]
    simp only
    rw [show trialPoint (U.state s).r.thi (U.state s).r.tlo (U.state s).r.ttol ((U.state s).r.ghi ⟨l.imax, hi⟩)
      ((U.state s).r.glo ⟨l.imax, hi⟩) (nextAlph l) = _ from U.trialPoint_clock s.r.thi s.r.tlo s.r.ttol (s.r.ghi ⟨l.imax, hi⟩) (s.r.glo ⟨l.imax, hi⟩) (nextAlph l)]
    generalize trialPoint s.r.thi s.r.tlo s.r.ttol (s.r.ghi ⟨l.imax, hi⟩) (s.r.glo ⟨l.imax, hi⟩) (nextAlph l) = tmid
    rw [U.getSolution'_clock]
    cases getSolution' s tmid with
    | none => rfl
    | some s =>
      simp only [Option.map_some]
      rw [show callRoot (U.conf cfg P' S') (U.state s) (U.f tmid) (U.state s).m.yy (U.state s).m.yp (U.state s).r.grout = _ from
        U.callRoot_clock cfg H s tmid s.m.yy s.m.yp s.r.grout]
      exact U.rootNarrow_clock { (callRoot cfg s tmid s.m.yy s.m.yp s.r.grout).1 with
        r.grout := (callRoot cfg s tmid s.m.yy s.m.yp s.r.grout).2, r.nge := s.r.nge + 1 } _ tmid (nextAlph l) l.side
  · rw [dif_neg hi, dif_neg hi]; rfl

include H in
theorem rootLoop_clock (fuel : Nat) : ∀ (s : State ν n q K) (l : RfLoc K),
    rootLoop cfg' fuel (U.state s) l = (rootLoop cfg fuel s l).onS U.state := by
  induction fuel with
  | zero => intro s l; rfl
  | succ fuel ih =>
    intro s l
    simp only [rootLoop]
    refine ite_conv (Out.onS U.state) (iffb (U.bracketSmall_clock s.r)) (fun _ => rfl) (fun _ => ?_)
    rw [U.rootPass_clock cfg H]
    cases rootPass cfg s l with
    | panic => rfl
    | stop s => rfl
    | more s l => exact ih s l

include H in
theorem rootFind_clock (fuel : Nat) : rootFind cfg' fuel (U.state s) = (rootFind cfg fuel s).onS U.state := by
  unfold rootFind
  refine ite_conv (Out.onS U.state) Iff.rfl (fun _ => ?_) (fun _ => ?_)
  · exact ite_conv (Out.onS U.state) Iff.rfl (fun _ => rfl) (fun _ => rfl)
  · rw [U.rootLoop_clock cfg H]
    exact Out.bind_onS U.state _ _ _ (fun s _ => rfl)

theorem searchEnd_clock : searchEnd (U.state s) = U.f (searchEnd s) := by
  unfold searchEnd
  rw [show (U.state s).r.taskc = s.r.taskc from rfl]
  cases s.r.taskc with
  | oneStep => rfl
  | normal =>
    simp only
    rw [show Scalar.ge (((U.state s).r.toutc - (U.state s).e.tn) * (U.state s).c.hh) 0 = _ from U.side_ge _ _ _]
    exact ite_conv U.f Iff.rfl (fun _ => rfl) (fun _ => rfl)

include H in
theorem rCheck3_clock (fuel : Nat) : rCheck3 cfg' fuel (U.state s) = (rCheck3 cfg fuel s).onS U.state := by
  unfold rCheck3
  simp only
  rw [U.searchEnd_clock]
  have e1 := U.getSolution'_clock { s with r.thi := searchEnd s } (searchEnd s)
  rw [show getSolution' { U.state s with r := { (U.state s).r with thi := U.f (searchEnd s) } } (U.f (searchEnd s)) = _ from e1]
  cases getSolution' { s with r.thi := searchEnd s } (searchEnd s) with
  | none => rfl
  | some s =>
    simp only [Option.map_some]
    rw [show callRoot (U.conf cfg P' S') (U.state s) (U.state s).r.thi (U.state s).m.yy (U.state s).m.yp
      (U.state s).r.ghi = _ from U.callRoot_clock cfg H s s.r.thi s.m.yy s.m.yp s.r.ghi]
    generalize callRoot cfg s s.r.thi s.m.yy s.m.yp s.r.ghi = o
    obtain ⟨s, ghi⟩ := o
    simp only [U.rootTol_clock]
    have e2 := U.rootFind_clock cfg H { s with r.ghi := ghi, r.nge := s.r.nge + 1, r.ttol := rootTol s } fuel
    refine Eq.trans (congrArg (fun o => Out.bind o _) e2) ?_
    refine Out.bind_onS U.state _ _ _ (fun s ier => ?_)
    refine ite_conv (Out.onS U.state) Iff.rfl (fun _ => ?_) (fun _ => rfl)
    have e4 := U.getSolution'_clock { s with
      r.gactive := fun i => if (!s.r.gactive i && Scalar.neb (s.r.grout i) 0) = true then true else s.r.gactive i
      r.tlo := s.r.trout
      r.glo := s.r.grout } s.r.trout
    refine Eq.trans (congrArg (fun o => match o with | none => Out.panic | some s => .ret s (.ok ier)) e4) ?_
    generalize getSolution' { s with
      r.gactive := fun i => if (!s.r.gactive i && Scalar.neb (s.r.grout i) 0) = true then true else s.r.gactive i
      r.tlo := s.r.trout
      r.glo := s.r.grout } s.r.trout = o
    cases o <;> rfl

end

end Spec.Clock

end Verif
