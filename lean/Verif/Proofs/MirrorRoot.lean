import Verif.Proofs.MirrorStep

/-!
# The other direction of time: the root search
-/

set_option autoImplicit false
set_option linter.unusedSectionVars false
set_option linter.unusedSimpArgs false
set_option linter.unusedVariables false

namespace Verif

open Spec.Rescale (r1Set r1Act r1Small r1Move r1Begin rCheck1_eq r2Set r2Small r2Plus r2End r2Tol rCheck2_eq)

open Verif.Spec

universe u v w x

namespace Spec.Mirror

variable {ν : Type v} {n q : Nat} {K : Type u} [Scalar K]

section
variable (L : TwoWay K) (cfg : Cfg ν n q K) {P' : Problem n q K} {S' : NlSolver ν n K} (H : Fits cfg P' S') (s : State ν n q K)

local notation "cfg'" => conf cfg P' S'

include L in
theorem fracSub_mirror (thi tlo ttol : K) : fracSub (-thi) (-tlo) ttol = fracSub thi tlo ttol := by
  unfold fracSub
  rw [L.dist]

include L in
theorem trialPoint_mirror (thi tlo ttol ghi glo alph : K) :
    trialPoint (-thi) (-tlo) ttol ghi glo alph = -(trialPoint thi tlo ttol ghi glo alph) := by
  unfold trialPoint
  rw [fracSub_mirror L]
  have e1 : -thi - (-thi - -tlo) * ghi / (ghi - alph * glo) = -(thi - (thi - tlo) * ghi / (ghi - alph * glo)) := by
    rw [L.sub thi tlo, L.mul, L.div, L.sub]
  have e2 : -tlo + fracSub thi tlo ttol * (-thi - -tlo) = -(tlo + fracSub thi tlo ttol * (thi - tlo)) := by
    rw [L.sub thi tlo, L.mul', L.add]
  have e3 : -thi - fracSub thi tlo ttol * (-thi - -tlo) = -(thi - fracSub thi tlo ttol * (thi - tlo)) := by
    rw [L.sub thi tlo, L.mul', L.sub]
  simp only [e1, e2, e3, L.dist]
  have e4 : (if Scalar.lt (Scalar.abs (thi - (thi - tlo) * ghi / (ghi - alph * glo) - tlo)) (Scalar.half * ttol) = true then
        -(tlo + fracSub thi tlo ttol * (thi - tlo)) else -(thi - (thi - tlo) * ghi / (ghi - alph * glo))) =
      -(if Scalar.lt (Scalar.abs (thi - (thi - tlo) * ghi / (ghi - alph * glo) - tlo)) (Scalar.half * ttol) = true then
        tlo + fracSub thi tlo ttol * (thi - tlo) else thi - (thi - tlo) * ghi / (ghi - alph * glo)) :=
    ite_conv (fun x : K => -x) Iff.rfl (fun _ => rfl) (fun _ => rfl)
  rw [e4, L.dist]
  exact ite_conv (fun x : K => -x) Iff.rfl (fun _ => rfl) (fun _ => rfl)

include H in
theorem callRoot_mirror (t : K) (yy yp : Vec n K) (buf : Vec q K) :
    callRoot cfg' (state s) (-t) yy (-yp) buf = (state (callRoot cfg s t yy yp buf).1, (callRoot cfg s t yy yp buf).2) := by
  unfold callRoot
  rw [show (conf cfg P' S').prob.root (-t) yy (-yp) buf = _ from H.root t yy yp buf]
  rfl

include H in
theorem callRoot_fresh (t : K) (yy yp : Vec n K) (buf : Vec q K) :
    callRoot cfg' (fresh s) (-t) yy (-yp) buf = (fresh (callRoot cfg s t yy yp buf).1, (callRoot cfg s t yy yp buf).2) := by
  unfold callRoot
  rw [show (conf cfg P' S').prob.root (-t) yy (-yp) buf = _ from H.root t yy yp buf]
  rfl

include L in
theorem rootTol_mirror : rootTol (state s) = rootTol s := by
  unfold rootTol
  show (Scalar.abs (-s.e.tn) + Scalar.abs (-s.c.hh)) * Scalar.eps * Scalar.hundred = _
  rw [L.abs, L.abs]

include L in
theorem r1Small_mirror : r1Small (fresh s) = -(r1Small s) := by
  unfold r1Small
  show Scalar.max (s.r.ttol / Scalar.abs (-s.c.hh)) Scalar.pt1 * -s.c.hh = _
  rw [L.abs, L.mul']

include L in
theorem r1Move_mirror : r1Move (fresh s) = fresh (r1Move s) := by
  unfold r1Move
  rw [r1Small_mirror L, show scaledAdd ((fresh s).h.phi 0) (-(r1Small s)) ((fresh s).h.phi 1) = _ from L.scaled' (s.h.phi 0) (s.h.phi 1) (r1Small s)]
  rfl

include L in
theorem r1Begin_mirror : r1Begin (fresh s) = fresh (r1Begin s) := by
  unfold r1Begin
  rw [show rootTol (fresh s) = _ from rootTol_mirror L s]
  rfl

include L H in
theorem rCheck1_mirror : rCheck1 cfg' (fresh s) = fresh (rCheck1 cfg s) := by
  rw [rCheck1_eq, rCheck1_eq, r1Begin_mirror L]
  rw [show callRoot (conf cfg P' S') (fresh (r1Begin s)) (fresh s).e.tn ((fresh s).h.phi 0)
    ((fresh s).h.phi 1) (fresh s).r.glo = _ from callRoot_fresh cfg H (r1Begin s) s.e.tn (s.h.phi 0) (s.h.phi 1) s.r.glo]
  generalize callRoot cfg (r1Begin s) s.e.tn (s.h.phi 0) (s.h.phi 1) s.r.glo = o
  obtain ⟨s, glo⟩ := o
  simp only [show r1Set (fresh s) glo = fresh (r1Set s glo) from rfl, r1Move_mirror L, r1Small_mirror L]
  generalize r1Set s glo = t
  refine ite_conv fresh Iff.rfl (fun _ => ?_) (fun _ => rfl)
  rw [show (fresh t).r.tlo + -(r1Small t) = -(t.r.tlo + r1Small t) from L.add _ _,
    show callRoot (conf cfg P' S') (fresh (r1Move t)) (-(t.r.tlo + r1Small t)) (fresh (r1Move t)).m.yy ((fresh t).h.phi 1) (fresh t).r.ghi = _ from
      callRoot_fresh cfg H (r1Move t) (t.r.tlo + r1Small t) (r1Move t).m.yy (t.h.phi 1) t.r.ghi]
  rfl

include L in
theorem r2Small_mirror (hh : Scalar.eqb s.c.hh 0 = false) : r2Small (state s) = -(r2Small s) := by
  unfold r2Small
  show s.r.ttol * Scalar.signum (-s.c.hh) = _
  rw [L.signum _ hh, L.mul']

include L in
theorem r2Plus_mirror (hh : Scalar.eqb s.c.hh 0 = false) : r2Plus (state s) = (r2Plus s).map state := by
  unfold r2Plus
  rw [r2Small_mirror L s hh, show (state s).r.tlo + -(r2Small s) = -(s.r.tlo + r2Small s) from L.add _ _, getSolution'_mirror L,
    show (-(s.r.tlo + r2Small s) - (state s).e.tn) * (state s).c.hh = _ from L.side _ _ _,
    show -(r2Small s) / (state s).c.hh = _ from L.dd _ _]
  exact ite_conv (Option.map state) Iff.rfl (fun _ => rfl) (fun _ => rfl)

theorem r2End_mirror (ghi : Vec q K) : r2End (state s) ghi = (r2End s ghi).onS state := by
  unfold r2End
  refine ite_conv (Out.onS state) Iff.rfl (fun _ => rfl) (fun _ => ?_)
  exact ite_conv (Out.onS state) Iff.rfl (fun _ => rfl) (fun _ => rfl)

include L in
theorem r2Tol_mirror : r2Tol (state s) = state (r2Tol s) := by
  unfold r2Tol
  rw [rootTol_mirror L]
  rfl

theorem getSolution'_hh {s t : State ν n q K} {x : K} (h : getSolution' s x = some t) : t.c.hh = s.c.hh := by
  unfold getSolution' getSolution at h
  simp only at h
  by_cases h1 : badTime s x = true
  · rw [if_pos h1] at h; cases h; rfl
  · rw [if_neg h1] at h
    by_cases h2 : kordOf s.c.kused < mxordp1
    · rw [if_pos h2] at h; cases h; rfl
    · rw [if_neg h2] at h; cases h

include L H in
theorem rCheck2_mirror (hh : Scalar.eqb s.c.hh 0 = false) : rCheck2 cfg' (state s) = (rCheck2 cfg s).onS state := by
  rw [rCheck2_eq, rCheck2_eq]
  refine ite_conv (Out.onS state) Iff.rfl (fun _ => rfl) (fun _ => ?_)
  rw [show (state s).r.tlo = -s.r.tlo from rfl, getSolution'_mirror L]
  cases hg : getSolution' s s.r.tlo with
  | none => rfl
  | some t =>
    have ht : Scalar.eqb t.c.hh 0 = false := by rw [getSolution'_hh hg]; exact hh
    clear hg hh
    revert t
    intro s hh
    simp only [Option.map_some]
    rw [show callRoot (conf cfg P' S') (state s) (state s).r.tlo (state s).m.yy (state s).m.yp
      (state s).r.glo = _ from callRoot_mirror cfg H s s.r.tlo s.m.yy s.m.yp s.r.glo]
    have hh' : Scalar.eqb (callRoot cfg s s.r.tlo s.m.yy s.m.yp s.r.glo).1.c.hh 0 = false := hh
    generalize callRoot cfg s s.r.tlo s.m.yy s.m.yp s.r.glo = o at hh'
    obtain ⟨s, glo⟩ := o
    simp only [show r2Set (state s) glo = state (r2Set s glo) from rfl, r2Tol_mirror L]
    refine ite_conv (Out.onS state) Iff.rfl (fun _ => ?_) (fun _ => rfl)
    have hu : Scalar.eqb (r2Tol (r2Set s glo)).c.hh 0 = false := hh'
    generalize r2Tol (r2Set s glo) = u at hu
    rw [r2Plus_mirror L u hu, r2Small_mirror L u hu, show (state u).r.tlo + -(r2Small u) = -(u.r.tlo + r2Small u) from L.add _ _]
    cases r2Plus u with
    | none => rfl
    | some t =>
      simp only [Option.map_some]
      rw [show callRoot (conf cfg P' S') (state t) (-(u.r.tlo + r2Small u)) (state t).m.yy
        (state t).m.yp (state t).r.ghi = _ from callRoot_mirror cfg H t (u.r.tlo + r2Small u) t.m.yy t.m.yp t.r.ghi]
      exact r2End_mirror _ _

include L in
theorem bracketSmall_mirror (r : RootSt q K) : bracketSmall (rootSt r) = bracketSmall r := by
  unfold bracketSmall
  show Scalar.le (Scalar.abs (-r.thi - -r.tlo)) r.ttol = _
  rw [L.dist]

def pass : RfPass (State ν n q K) (RfLoc K) → RfPass (State ν n q K) (RfLoc K)
  | .stop s => .stop (state s)
  | .more s l => .more (state s) l
  | .panic => .panic

include L in
theorem rootNarrow_mirror (a : Scan K) (tmid alph : K) (sp : Int) :
    rootNarrow (state s) a (-tmid) alph sp = pass (rootNarrow s a tmid alph sp) := by
  unfold rootNarrow
  refine ite_conv pass Iff.rfl (fun _ => ?_) (fun _ => ?_)
  · exact ite_conv pass (iffb (bracketSmall_mirror L { s.r with thi := tmid, ghi := s.r.grout })) (fun _ => rfl) (fun _ => rfl)
  refine ite_conv pass Iff.rfl (fun _ => rfl) (fun _ => ?_)
  exact ite_conv pass (iffb (bracketSmall_mirror L { s.r with tlo := tmid, glo := s.r.grout })) (fun _ => rfl) (fun _ => rfl)

include L H in
theorem rootPass_mirror (l : RfLoc K) : rootPass cfg' (state s) l = pass (rootPass cfg s l) := by
  unfold rootPass
  by_cases hi : l.imax < q
  · rw [dif_pos hi, dif_pos hi]
    simp only
    rw [show trialPoint (state s).r.thi (state s).r.tlo (state s).r.ttol ((state s).r.ghi ⟨l.imax, hi⟩)
      ((state s).r.glo ⟨l.imax, hi⟩) (nextAlph l) = _ from trialPoint_mirror L s.r.thi s.r.tlo s.r.ttol (s.r.ghi ⟨l.imax, hi⟩) (s.r.glo ⟨l.imax, hi⟩) (nextAlph l)]
    generalize trialPoint s.r.thi s.r.tlo s.r.ttol (s.r.ghi ⟨l.imax, hi⟩) (s.r.glo ⟨l.imax, hi⟩) (nextAlph l) = tmid
    rw [getSolution'_mirror L]
    cases getSolution' s tmid with
    | none => rfl
    | some s =>
      simp only [Option.map_some]
      rw [show callRoot (conf cfg P' S') (state s) (-tmid) (state s).m.yy (state s).m.yp (state s).r.grout = _ from
        callRoot_mirror cfg H s tmid s.m.yy s.m.yp s.r.grout]
      exact rootNarrow_mirror L { (callRoot cfg s tmid s.m.yy s.m.yp s.r.grout).1 with
        r.grout := (callRoot cfg s tmid s.m.yy s.m.yp s.r.grout).2, r.nge := s.r.nge + 1 } _ tmid (nextAlph l) l.side
  · rw [dif_neg hi, dif_neg hi]; rfl

include L H in
theorem rootLoop_mirror (fuel : Nat) : ∀ (s : State ν n q K) (l : RfLoc K),
    rootLoop cfg' fuel (state s) l = (rootLoop cfg fuel s l).onS state := by
  induction fuel with
  | zero => intro s l; rfl
  | succ fuel ih =>
    intro s l
    simp only [rootLoop]
    refine ite_conv (Out.onS state) (iffb (bracketSmall_mirror L s.r)) (fun _ => rfl) (fun _ => ?_)
    rw [rootPass_mirror L cfg H]
    cases rootPass cfg s l with
    | panic => rfl
    | stop s => rfl
    | more s l => exact ih s l

include L H in
theorem rootFind_mirror (fuel : Nat) : rootFind cfg' fuel (state s) = (rootFind cfg fuel s).onS state := by
  unfold rootFind
  refine ite_conv (Out.onS state) Iff.rfl (fun _ => ?_) (fun _ => ?_)
  · exact ite_conv (Out.onS state) Iff.rfl (fun _ => rfl) (fun _ => rfl)
  · rw [rootLoop_mirror L cfg H]
    exact Out.bind_onS state _ _ _ (fun s _ => rfl)

include L in
theorem searchEnd_mirror : searchEnd (state s) = -(searchEnd s) := by
  unfold searchEnd
  rw [show (state s).r.taskc = s.r.taskc from rfl]
  cases s.r.taskc with
  | oneStep => rfl
  | normal =>
    simp only
    rw [show ((state s).r.toutc - (state s).e.tn) * (state s).c.hh = _ from L.side _ _ _]
    exact ite_conv (fun x : K => -x) Iff.rfl (fun _ => rfl) (fun _ => rfl)

include L H in
theorem rCheck3_mirror (fuel : Nat) : rCheck3 cfg' fuel (state s) = (rCheck3 cfg fuel s).onS state := by
  unfold rCheck3
  simp only
  rw [searchEnd_mirror L]
  have e1 := getSolution'_mirror L { s with r.thi := searchEnd s } (searchEnd s)
  rw [show getSolution' { state s with r := { (state s).r with thi := -(searchEnd s) } } (-(searchEnd s)) = _ from e1]
  cases getSolution' { s with r.thi := searchEnd s } (searchEnd s) with
  | none => rfl
  | some s =>
    simp only [Option.map_some]
    rw [show callRoot (conf cfg P' S') (state s) (state s).r.thi (state s).m.yy (state s).m.yp
      (state s).r.ghi = _ from callRoot_mirror cfg H s s.r.thi s.m.yy s.m.yp s.r.ghi]
    generalize callRoot cfg s s.r.thi s.m.yy s.m.yp s.r.ghi = o
    obtain ⟨s, ghi⟩ := o
    simp only [rootTol_mirror L]
    have e2 := rootFind_mirror L cfg H { s with r.ghi := ghi, r.nge := s.r.nge + 1, r.ttol := rootTol s } fuel
    refine Eq.trans (congrArg (fun o => Out.bind o _) e2) ?_
    refine Out.bind_onS state _ _ _ (fun s ier => ?_)
    refine ite_conv (Out.onS state) Iff.rfl (fun _ => ?_) (fun _ => rfl)
    have e4 := getSolution'_mirror L { s with
      r.gactive := fun i => if (!s.r.gactive i && Scalar.neb (s.r.grout i) 0) = true then true else s.r.gactive i
      r.tlo := s.r.trout
      r.glo := s.r.grout } s.r.trout
    refine Eq.trans (congrArg (fun o => match o with | none => Out.panic | some s => .ret s (.ok ier)) e4) ?_
    generalize getSolution' { s with
      r.gactive := fun i => if (!s.r.gactive i && Scalar.neb (s.r.grout i) 0) = true then true else s.r.gactive i
      r.tlo := s.r.trout
      r.glo := s.r.grout } s.r.trout = o
    cases o <;> rfl

end

end Spec.Mirror

end Verif
