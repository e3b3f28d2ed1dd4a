import Verif.Proofs.UnitsNewton
import Verif.Proofs.Control
import Mathlib.Tactic.LinearCombination

/-! # Change of units: interpolation, root finding and the driver -/

set_option autoImplicit false
set_option linter.unusedSectionVars false
set_option linter.unusedSimpArgs false
set_option linter.unusedVariables false

namespace Verif

universe u v

section
variable {n q : Nat} {K : Type u} [Field K] [LinearOrder K] [IsStrictOrderedRing K] [ExactParams K]

namespace Change
variable (C : Change n K)

theorem abs_conv (a : K) : Scalar.abs (C.σ * a) = |C.σ| * Scalar.abs a := abs_mul _ _

theorem σσ : 0 < C.σ * C.σ := mul_self_pos.2 C.hσ

theorem absσ : 0 < |C.σ| := abs_pos.2 C.hσ

theorem prod_eq (x y : K) : C.σ * x * (C.σ * y) = C.σ * C.σ * (x * y) := by ring

theorem ge_conv (x y : K) : Scalar.le 0 (C.σ * x * (C.σ * y)) = Scalar.le 0 (x * y) := by
  simp only [ex_le]
  rw [C.prod_eq]
  exact decide_eq_decide.2 (mul_nonneg_iff_of_pos_left C.σσ)

theorem gt_conv (x y : K) : Scalar.lt 0 (C.σ * x * (C.σ * y)) = Scalar.lt 0 (x * y) := by
  simp only [ex_lt]
  rw [C.prod_eq]
  exact decide_eq_decide.2 (mul_pos_iff_of_pos_left C.σσ)

theorem lt_conv (x y : K) : Scalar.lt (C.σ * x * (C.σ * y)) 0 = Scalar.lt (x * y) 0 := by
  simp only [ex_lt]
  rw [C.prod_eq]
  exact decide_eq_decide.2 (by rw [← not_le, ← not_le, mul_nonneg_iff_of_pos_left C.σσ])

theorem le_abs (x y : K) : Scalar.le (|C.σ| * x) (|C.σ| * y) = Scalar.le x y := by
  simp only [ex_le]
  exact decide_eq_decide.2 (mul_le_mul_iff_right₀ C.absσ)

theorem lt_abs (x y : K) : Scalar.lt (|C.σ| * x) (|C.σ| * y) = Scalar.lt x y := by
  simp only [ex_lt]
  exact decide_eq_decide.2 (mul_lt_mul_iff_right₀ C.absσ)

theorem eq_conv (x y : K) : Scalar.eqb (C.σ * x) (C.σ * y) = Scalar.eqb x y := by
  simp only [ex_eqb]
  exact decide_eq_decide.2 (mul_right_inj' C.hσ)

theorem signum_conv {x : K} (hx : x ≠ 0) : Scalar.signum (C.σ * x) = Scalar.signum C.σ * Scalar.signum x := by
  simp only [ex_signum]
  rcases lt_or_gt_of_ne C.hσ with h | h <;> rcases lt_or_gt_of_ne hx with h' | h'
  · simp [h, h', not_lt.2 (mul_pos_of_neg_of_neg h h').le]
  · simp [h, not_lt.2 h'.le, mul_neg_of_neg_of_pos h h']
  · simp [not_lt.2 h.le, h', mul_neg_of_pos_of_neg h h']
  · simp [not_lt.2 h.le, not_lt.2 h'.le, not_lt.2 (mul_pos h h').le]

theorem abs_signum : |C.σ| * Scalar.signum C.σ = C.σ := by
  simp only [ex_signum]
  rcases lt_or_gt_of_ne C.hσ with h | h
  · simp [h, abs_of_neg h]
  · simp [not_lt.2 h.le, abs_of_pos h]

/-! ## Interpolation -/

theorem badTime_conv (raw : Bool) (J : Junk n K) (s : St n q K) (t : K) : badTime (C.st raw J s) (C.σ * t) = badTime s t := by
  unfold badTime
  have e1 : (C.st raw J s).e.tn = C.σ * s.e.tn := rfl
  have e2 : (C.st raw J s).c.hh = C.σ * s.c.hh := rfl
  have e3 : (C.st raw J s).c.hused = C.σ * s.c.hused := rfl
  simp only [e1, e2, e3]
  by_cases h0 : s.c.hh = 0
  · simp [h0]
  · rw [C.abs_conv, C.abs_conv, C.signum_conv h0]
    have : C.σ * t - (C.σ * s.e.tn - C.σ * s.c.hused -
        Scalar.hundred * Scalar.eps * (|C.σ| * Scalar.abs s.e.tn + |C.σ| * Scalar.abs s.c.hh) *
          (Scalar.signum C.σ * Scalar.signum s.c.hh)) =
        C.σ * (t - (s.e.tn - s.c.hused - Scalar.hundred * Scalar.eps * (Scalar.abs s.e.tn + Scalar.abs s.c.hh) *
          Scalar.signum s.c.hh)) := by
      have h := C.abs_signum
      linear_combination (Scalar.hundred * Scalar.eps * (Scalar.abs s.e.tn + Scalar.abs s.c.hh) * Scalar.signum s.c.hh) * h
    rw [this, C.lt_conv]

def solCoef (l : SolCoef K) : SolCoef K := { l with d := l.d / C.σ, dvals := fun j => l.dvals j / C.σ }

theorem solCoefs_conv (psi : Nat → K) (delt : K) (kord : Nat) :
    solCoefs (fun j => C.σ * psi j) (C.σ * delt) kord = C.solCoef (solCoefs psi delt kord) := by
  have hσ := C.hσ
  unfold solCoefs
  have e0 : C.σ * delt / (C.σ * psi 0) = delt / psi 0 := mul_div_mul_left _ _ hσ
  rw [e0]
  have k := forUp_map C.solCoef
    (f := fun j0 (l : SolCoef K) =>
      { c := l.c * l.gam, d := l.d * l.gam + l.c / psi (j0 + 1 - 1), gam := (delt + psi (j0 + 1 - 1)) / psi (j0 + 1)
        cvals := upd l.cvals (j0 + 1) (l.c * l.gam), dvals := upd l.dvals (j0 + 1 - 1) (l.d * l.gam + l.c / psi (j0 + 1 - 1)) })
    (f' := fun j0 (l : SolCoef K) =>
      { c := l.c * l.gam, d := l.d * l.gam + l.c / (C.σ * psi (j0 + 1 - 1))
        gam := (C.σ * delt + C.σ * psi (j0 + 1 - 1)) / (C.σ * psi (j0 + 1)), cvals := upd l.cvals (j0 + 1) (l.c * l.gam)
        dvals := upd l.dvals (j0 + 1 - 1) (l.d * l.gam + l.c / (C.σ * psi (j0 + 1 - 1))) })
    (fun i l => by
      have e1 : l.d / C.σ * l.gam + l.c / (C.σ * psi (i + 1 - 1)) = (l.d * l.gam + l.c / psi (i + 1 - 1)) / C.σ := by
        rw [add_div, div_div, mul_comm C.σ, div_mul_eq_mul_div]
      have e2 : (C.σ * delt + C.σ * psi (i + 1 - 1)) / (C.σ * psi (i + 1)) = (delt + psi (i + 1 - 1)) / psi (i + 1) := by
        rw [← mul_add, mul_div_mul_left _ _ hσ]
      simp only [solCoef, e1, e2, SolCoef.mk.injEq, true_and]
      exact upd_map (· / C.σ) _ _ _) kord
    { c := 1, d := 0, gam := delt / psi 0, cvals := upd (fun _ => 0) 0 1, dvals := fun _ => 0 }
  have e3 : C.solCoef { c := 1, d := 0, gam := delt / psi 0, cvals := upd (fun _ => 0) 0 1, dvals := fun _ => 0 } =
      { c := 1, d := 0, gam := delt / psi 0, cvals := upd (fun _ => 0) 0 1, dvals := fun _ => 0 } := by
    simp [solCoef]
  rw [e3] at k
  exact k

theorem solEval_conv (h : Hist n K) (delt : K) (kord : Nat) :
    solEval (C.hist false h) (C.σ * delt) kord = (C.vec (solEval h delt kord).1, C.rate (solEval h delt kord).2) := by
  unfold solEval
  have e1 : (C.hist false h).psi = fun j => C.σ * h.psi j := rfl
  rw [e1, C.hist_phi, C.solCoefs_conv]
  have k1 := forUp_map C.vec (f := fun j y => scaledAdd y ((solCoefs h.psi delt kord).cvals j) (h.phi j))
    (f' := fun j y => scaledAdd y ((solCoefs h.psi delt kord).cvals j) (C.vec (h.phi j)))
      (fun i x => C.vec_scaledAdd _ _ _) (kord + 1) vzero
  have k2 := forUp_map C.rate (f := fun j y => scaledAdd y ((solCoefs h.psi delt kord).dvals j) (h.phi (j + 1)))
      (f' := fun j y => scaledAdd y ((solCoefs h.psi delt kord).dvals j / C.σ) (C.vec (h.phi (j + 1))))
      (fun i x => C.rate_scaledAdd _ _ _) kord vzero
  rw [← C.vec_zero] at k1
  rw [← C.rate_zero] at k2
  exact Prod.ext k1 k2

/-- Corresponding states between the steps. -/
def R (s s' : St n q K) : Prop := C.Rel (s.cnt.nst ≠ 0) s s'

variable {C} {cfg cfg' : Cfg (Newton (Vec n K)) n q K}

theorem R.map {f g : St n q K → St n q K} {s s' : St n q K} (h : C.R s s')
    (hf : ∀ J, g (C.st false J s) = C.st false J (f s)) (ht : (f s).tstop = s.tstop) (hM : (f s).m.matJ = s.m.matJ)
    (hp : (f s).m.piv = s.m.piv) (hn : (f s).cnt = s.cnt) : C.R (f s) (g s') := by
  unfold R
  rw [hn]
  exact Rel.map h hf ht hM hp

theorem ORel.bind {α β : Type v} {S : St n q K → St n q K → Prop} {o o' : Out (St n q K) α}
    {f f' : St n q K → α → Out (St n q K) β} (h : ORel S o o') (hf : ∀ s s' a, S s s' → ORel S (f s a) (f' s' a)) :
    ORel S (o.bind f) (o'.bind f') := by
  cases h with
  | ret r h =>
    match r with
    | .ok a => exact hf _ _ a h
    | .error e => exact .ret _ h
  | panic => exact .panic
  | diverge => exact .diverge

theorem getSolution_conv {s s' : St n q K} (h : C.R s s') (t : K) :
    ORel C.R (getSolution s t) (getSolution s' (C.σ * t)) := by
  obtain ⟨J, rfl, ht, hL⟩ := h
  unfold getSolution
  rw [C.badTime_conv]
  split
  · exact .ret _ ⟨J, rfl, ht, hL⟩
  · have e1 : (C.st false J s).c.kused = s.c.kused := rfl
    have e2 : (C.st false J s).h = C.hist false s.h := rfl
    have e3 : C.σ * t - (C.st false J s).e.tn = C.σ * (t - s.e.tn) := (mul_sub _ _ _).symm
    simp only [e1, e2, e3, C.solEval_conv]
    split
    · exact .ret _ ⟨J, rfl, ht, hL⟩
    · exact .panic

theorem getSolution'_conv {s s' : St n q K} (h : C.R s s') (t : K) :
    (getSolution' s t = none ∧ getSolution' s' (C.σ * t) = none) ∨
    ∃ s1 s1', getSolution' s t = some s1 ∧ getSolution' s' (C.σ * t) = some s1' ∧ C.R s1 s1' := by
  unfold getSolution'
  have := getSolution_conv h t
  revert this
  generalize getSolution s t = o
  generalize getSolution s' (C.σ * t) = o'
  intro hO
  cases hO with
  | ret r h => exact Or.inr ⟨_, _, rfl, rfl, h⟩
  | panic => exact Or.inl ⟨rfl, rfl⟩
  | diverge => exact Or.inl ⟨rfl, rfl⟩

theorem R.tn {s s' : St n q K} (h : C.R s s') : s'.e.tn = C.σ * s.e.tn := by obtain ⟨J, rfl, _⟩ := h; rfl
theorem R.hh {s s' : St n q K} (h : C.R s s') : s'.c.hh = C.σ * s.c.hh := by obtain ⟨J, rfl, _⟩ := h; rfl
theorem R.cnt {s s' : St n q K} (h : C.R s s') : s'.cnt = s.cnt := by obtain ⟨J, rfl, _⟩ := h; rfl
theorem R.perf {s s' : St n q K} (h : C.R s s') : s'.perf = s.perf := by obtain ⟨J, rfl, _⟩ := h; rfl
theorem R.root {s s' : St n q K} (h : C.R s s') : s'.r = C.rootSt s.r := by obtain ⟨J, rfl, _⟩ := h; rfl
theorem R.yy {s s' : St n q K} (h : C.R s s') : s'.m.yy = C.vec s.m.yy := by obtain ⟨J, rfl, _⟩ := h; rfl
theorem R.yp {s s' : St n q K} (h : C.R s s') : s'.m.yp = C.rate s.m.yp := by obtain ⟨J, rfl, _⟩ := h; rfl
theorem R.tretlast {s s' : St n q K} (h : C.R s s') : s'.tretlast = C.σ * s.tretlast := by obtain ⟨J, rfl, _⟩ := h; rfl
theorem R.stop {s s' : St n q K} (h : C.R s s') : s.tstop = none ∧ s'.tstop = none := by
  obtain ⟨J, rfl, ht, _⟩ := h; exact ⟨ht, by simp [st, ht]⟩
theorem R.phi {s s' : St n q K} (h : C.R s s') (j : Nat) : s'.h.phi j = C.vec (s.h.phi j) := by
  obtain ⟨J, rfl, _⟩ := h; exact congrFun (C.hist_phi s.h) j

theorem R.setTret {s s' : St n q K} (h : C.R s s') (t : K) : C.R (s.setTret t) (s'.setTret (C.σ * t)) :=
  h.map (f := fun s => s.setTret t) (g := fun s => s.setTret (C.σ * t)) (fun J => rfl) rfl rfl rfl rfl

theorem R.setRoot {s s' : St n q K} (h : C.R s s') (r : RootSt q K) : C.R { s with r := r } { s' with r := C.rootSt r } :=
  h.map (f := fun s => { s with r := r }) (g := fun s => { s with r := C.rootSt r }) (fun J => rfl) rfl rfl rfl rfl

theorem R.setYy {s s' : St n q K} (h : C.R s s') (y : Vec n K) : C.R { s with m.yy := y } { s' with m.yy := C.vec y } :=
  h.map (f := fun s => { s with m.yy := y }) (g := fun s => { s with m.yy := C.vec y }) (fun J => rfl) rfl rfl rfl rfl

theorem R.log {s s' : St n q K} (h : C.R s s') (c : UCall n K) :
    C.R { s with m.log := c :: s.m.log } { s' with m.log := C.ucall c :: s'.m.log } :=
  h.map (f := fun s => { s with m.log := c :: s.m.log }) (g := fun s => { s with m.log := C.ucall c :: s.m.log })
    (fun J => rfl) rfl rfl rfl rfl

theorem callRoot_conv (hc : C.Cfgs cfg cfg') {s s' : St n q K} (h : C.R s s') (t : K) (y yp : Vec n K) (b b' : Vec q K) :
    C.R (callRoot cfg s t y yp b).1 (callRoot cfg' s' (C.σ * t) (C.vec y) (C.rate yp) b').1 ∧
    (callRoot cfg' s' (C.σ * t) (C.vec y) (C.rate yp) b').2 = (callRoot cfg s t y yp b).2 :=
  ⟨h.log (.root t y yp), hc.prob.root t y yp b b'⟩

theorem rootTol_conv {s s' : St n q K} (h : C.R s s') : rootTol s' = |C.σ| * rootTol s := by
  unfold rootTol
  rw [h.tn, h.hh, C.abs_conv, C.abs_conv]
  ring

theorem dirOk_conv (hc : C.Cfgs cfg cfg') (glo : Vec q K) (i : Fin q) : dirOk cfg' glo i = dirOk cfg glo i := by
  unfold dirOk; rw [hc.rootdir]

theorem scanSign_conv (hc : C.Cfgs cfg cfg') (glo g : Vec q K) (a : Scan K) (i : Fin q) :
    scanSign cfg' glo g a i = scanSign cfg glo g a i := by
  unfold scanSign; rw [dirOk_conv hc]

theorem scan1_conv (hc : C.Cfgs cfg cfg') (ga : Fin q → Bool) (glo ghi : Vec q K) : scan1 cfg' ga glo ghi = scan1 cfg ga glo ghi := by
  unfold scan1; simp only [dirOk_conv hc, scanSign_conv hc]

theorem scan2_conv (hc : C.Cfgs cfg cfg') (ga : Fin q → Bool) (glo ghi : Vec q K) (i : Nat) :
    scan2 cfg' ga glo ghi i = scan2 cfg ga glo ghi i := by
  unfold scan2; simp only [dirOk_conv hc, scanSign_conv hc]

variable (C) in
theorem fracSub_conv (thi tlo ttol : K) : fracSub (C.σ * thi) (C.σ * tlo) (|C.σ| * ttol) = fracSub thi tlo ttol := by
  unfold fracSub
  rw [← mul_sub, C.abs_conv, mul_div_mul_left _ _ C.absσ.ne']

variable (C) in
theorem trialPoint_conv (thi tlo ttol ghi glo alph : K) :
    trialPoint (C.σ * thi) (C.σ * tlo) (|C.σ| * ttol) ghi glo alph = C.σ * trialPoint thi tlo ttol ghi glo alph := by
  unfold trialPoint
  simp only [C.fracSub_conv]
  have e1 : C.σ * thi - (C.σ * thi - C.σ * tlo) * ghi / (ghi - alph * glo) =
      C.σ * (thi - (thi - tlo) * ghi / (ghi - alph * glo)) := by ring
  have e2 : C.σ * tlo + fracSub thi tlo ttol * (C.σ * thi - C.σ * tlo) = C.σ * (tlo + fracSub thi tlo ttol * (thi - tlo)) := by
    ring
  have e3 : C.σ * thi - fracSub thi tlo ttol * (C.σ * thi - C.σ * tlo) = C.σ * (thi - fracSub thi tlo ttol * (thi - tlo)) := by
    ring
  have e4 : Scalar.half * (|C.σ| * ttol) = |C.σ| * (Scalar.half * ttol) := by ring
  rw [e1, e2, e3, e4, ← mul_sub, C.abs_conv, C.lt_abs]
  have e5 : (if Scalar.lt (Scalar.abs (thi - (thi - tlo) * ghi / (ghi - alph * glo) - tlo)) (Scalar.half * ttol) = true then
      C.σ * (tlo + fracSub thi tlo ttol * (thi - tlo)) else C.σ * (thi - (thi - tlo) * ghi / (ghi - alph * glo))) =
      C.σ * (if Scalar.lt (Scalar.abs (thi - (thi - tlo) * ghi / (ghi - alph * glo) - tlo)) (Scalar.half * ttol) = true then
      (tlo + fracSub thi tlo ttol * (thi - tlo)) else (thi - (thi - tlo) * ghi / (ghi - alph * glo))) := by split <;> rfl
  rw [e5, ← mul_sub, C.abs_conv, C.lt_abs]
  exact (apply_ite (C.σ * ·) _ _ _).symm

variable (C) in
theorem bracketSmall_conv (r : RootSt q K) : bracketSmall (C.rootSt r) = bracketSmall r := by
  unfold bracketSmall
  show Scalar.le (Scalar.abs (C.σ * r.thi - C.σ * r.tlo)) (|C.σ| * r.ttol) = _
  rw [← mul_sub, C.abs_conv, C.le_abs]

/-- Corresponding passes of the root search. -/
inductive PRel (C : Change n K) : RfPass (St n q K) (RfLoc K) → RfPass (St n q K) (RfLoc K) → Prop
  | stop {s s' : St n q K} (h : C.R s s') : PRel C (.stop s) (.stop s')
  | more {s s' : St n q K} (l : RfLoc K) (h : C.R s s') : PRel C (.more s l) (.more s' l)
  | panic : PRel C .panic .panic

theorem rootNarrow_conv {s s' : St n q K} (h : C.R s s') (a : Scan K) (tmid alph : K) (sp : Int) :
    PRel C (rootNarrow s a tmid alph sp) (rootNarrow s' a (C.σ * tmid) alph sp) := by
  have h1 := h.setRoot { s.r with thi := tmid, ghi := s.r.grout }
  have h2 := h.setRoot { s.r with tlo := tmid, glo := s.r.grout }
  have e1 : ({ s'.r with thi := C.σ * tmid, ghi := s'.r.grout } : RootSt q K) =
      C.rootSt { s.r with thi := tmid, ghi := s.r.grout } := by rw [h.root]; rfl
  have e2 : ({ s'.r with tlo := C.σ * tmid, glo := s'.r.grout } : RootSt q K) =
      C.rootSt { s.r with tlo := tmid, glo := s.r.grout } := by rw [h.root]; rfl
  have b1 := C.bracketSmall_conv { s.r with thi := tmid, ghi := s.r.grout }
  have b2 := C.bracketSmall_conv { s.r with tlo := tmid, glo := s.r.grout }
  unfold rootNarrow
  simp only [e1, e2, b1, b2]
  split
  · split
    · exact .stop h1
    · exact .more _ h1
  · split
    · exact .stop h1
    · split
      · exact .stop h2
      · exact .more _ h2

theorem rootPass_conv (hc : C.Cfgs cfg cfg') {s s' : St n q K} (h : C.R s s') (l : RfLoc K) :
    PRel C (rootPass cfg s l) (rootPass cfg' s' l) := by
  unfold rootPass
  split
  · rename_i hi
    have e : trialPoint s'.r.thi s'.r.tlo s'.r.ttol (s'.r.ghi ⟨l.imax, hi⟩) (s'.r.glo ⟨l.imax, hi⟩) (nextAlph l) =
        C.σ * trialPoint s.r.thi s.r.tlo s.r.ttol (s.r.ghi ⟨l.imax, hi⟩) (s.r.glo ⟨l.imax, hi⟩) (nextAlph l) := by
      rw [h.root]; exact C.trialPoint_conv _ _ _ _ _ _
    dsimp only
    rw [e]
    generalize trialPoint s.r.thi s.r.tlo s.r.ttol (s.r.ghi ⟨l.imax, hi⟩) (s.r.glo ⟨l.imax, hi⟩) (nextAlph l) = tmid
    rcases getSolution'_conv h tmid with ⟨h1, h2⟩ | ⟨s1, s1', h1, h2, hR⟩
    · rw [h1, h2]; exact .panic
    · rw [h1, h2]
      dsimp only
      rw [hR.yy, hR.yp]
      obtain ⟨k1, k2⟩ := callRoot_conv hc hR tmid s1.m.yy s1.m.yp s1.r.grout s1'.r.grout
      have k3 : (callRoot cfg s1 tmid s1.m.yy s1.m.yp s1.r.grout).1.r = s1.r := rfl
      have k4 : (callRoot cfg' s1' (C.σ * tmid) (C.vec s1.m.yy) (C.rate s1.m.yp) s1'.r.grout).1.r = s1'.r := rfl
      rw [k2, k3, k4]
      revert k1
      generalize callRoot cfg s1 tmid s1.m.yy s1.m.yp s1.r.grout = p
      generalize callRoot cfg' s1' (C.σ * tmid) (C.vec s1.m.yy) (C.rate s1.m.yp) s1'.r.grout = p'
      intro k1
      have hr : s1'.r = C.rootSt s1.r := hR.root
      rw [hr]
      have k5 := k1.setRoot { s1.r with grout := p.2, nge := s1.r.nge + 1 }
      have := rootNarrow_conv k5 (scan2 cfg s1.r.gactive s1.r.glo p.2 l.imax) tmid (nextAlph l) l.side
      rw [scan2_conv hc]
      exact this
  · exact .panic

theorem rootLoop_conv (hc : C.Cfgs cfg cfg') (fuel : Nat) : ∀ {s s' : St n q K} (l : RfLoc K), C.R s s' →
    ORel C.R (rootLoop cfg fuel s l) (rootLoop cfg' fuel s' l) := by
  induction fuel with
  | zero => intros; exact .diverge
  | succ fuel ih =>
    intro s s' l h
    unfold rootLoop
    rw [h.root, C.bracketSmall_conv]
    split
    · exact .ret _ h
    · have := rootPass_conv hc h l
      revert this
      generalize rootPass cfg s l = o
      generalize rootPass cfg' s' l = o'
      intro hP
      cases hP with
      | stop h => exact .ret _ h
      | more l h => exact ih l h
      | panic => exact .panic

theorem finalIroots_conv (hc : C.Cfgs cfg cfg') (r : RootSt q K) : finalIroots cfg' (C.rootSt r) = finalIroots cfg r := by
  unfold finalIroots
  simp only [dirOk_conv hc]
  rfl

theorem rootFind_conv (hc : C.Cfgs cfg cfg') (fuel : Nat) {s s' : St n q K} (h : C.R s s') :
    ORel C.R (rootFind cfg fuel s) (rootFind cfg' fuel s') := by
  unfold rootFind
  have e1 : scan1 cfg' s'.r.gactive s'.r.glo s'.r.ghi = scan1 cfg s.r.gactive s.r.glo s.r.ghi := by
    rw [h.root, scan1_conv hc]; rfl
  rw [e1]
  dsimp only
  split
  · split
    · rw [h.root]
      exact .ret _ (h.setRoot { s.r with trout := s.r.thi, grout := s.r.ghi })
    · rw [h.root]
      simp only [dirOk_conv hc]
      exact .ret _ (h.setRoot { s.r with
        trout := s.r.thi, grout := s.r.ghi
        iroots := fun i => if s.r.gactive i && (Scalar.eqb (Scalar.abs (s.r.ghi i)) 0 && dirOk cfg s.r.glo i)
          then Scalar.signum (s.r.glo i) else 0 })
  · refine ORel.bind (rootLoop_conv hc fuel _ h) fun s s' _ h => ?_
    rw [h.root, finalIroots_conv hc]
    exact .ret _ (h.setRoot { s.r with trout := s.r.thi, grout := s.r.ghi, iroots := finalIroots cfg s.r })

theorem searchEnd_conv {s s' : St n q K} (h : C.R s s') : searchEnd s' = C.σ * searchEnd s := by
  unfold searchEnd
  rw [h.root, h.tn, h.hh]
  have e1 : (C.rootSt s.r).taskc = s.r.taskc := rfl
  have e2 : (C.rootSt s.r).toutc = C.σ * s.r.toutc := rfl
  rw [e1, e2]
  have : Scalar.ge ((C.σ * s.r.toutc - C.σ * s.e.tn) * (C.σ * s.c.hh)) 0 = Scalar.ge ((s.r.toutc - s.e.tn) * s.c.hh) 0 := by
    rw [← mul_sub]; exact C.ge_conv _ _
  rw [this]
  cases s.r.taskc with
  | oneStep => rfl
  | normal => exact (apply_ite (C.σ * ·) _ _ _).symm

/-- Continue unless the interpolation panicked. -/
def orPanic {S : Type u} {α : Type v} (o : Option S) (f : S → Out S α) : Out S α :=
  match o with
  | none => .panic
  | some s => f s

theorem orPanic_conv {α : Type v} {s s' : St n q K} (h : C.R s s') (t : K) {f f' : St n q K → Out (St n q K) α}
    (hf : ∀ s1 s1', getSolution' s t = some s1 → C.R s1 s1' → ORel C.R (f s1) (f' s1')) :
    ORel C.R (orPanic (getSolution' s t) f) (orPanic (getSolution' s' (C.σ * t)) f') := by
  rcases getSolution'_conv h t with ⟨k1, k2⟩ | ⟨s1, s1', k1, k2, hR⟩
  · rw [k1, k2]; exact .panic
  · rw [k1, k2]; exact hf s1 s1' k1 hR

def rc3end (s : St n q K) (ier : RootStatus) : Out (St n q K) RootStatus :=
  let s := { s with
    r.gactive := fun i => if !s.r.gactive i && Scalar.neb (s.r.grout i) 0 then true else s.r.gactive i
    r.tlo := s.r.trout
    r.glo := s.r.grout }
  if ier = .rootFound then orPanic (getSolution' s s.r.trout) fun s => .ret s (.ok ier) else .ret s (.ok ier)

def rc3find (cfg : Cfg (Newton (Vec n K)) n q K) (fuel : Nat) (p : St n q K × Vec q K) : Out (St n q K) RootStatus :=
  (rootFind cfg fuel { p.1 with r.ghi := p.2, r.nge := p.1.r.nge + 1, r.ttol := rootTol p.1 }).bind rc3end

theorem rCheck3_eq (fuel : Nat) (s : St n q K) :
    rCheck3 cfg fuel s = orPanic (getSolution' { s with r.thi := searchEnd s } (searchEnd s)) fun s =>
      rc3find cfg fuel (callRoot cfg s s.r.thi s.m.yy s.m.yp s.r.ghi) := by
  unfold rCheck3
  dsimp only
  cases getSolution' { s with r.thi := searchEnd s } (searchEnd s) with
  | none => rfl
  | some s1 =>
    simp only [orPanic, rc3find]
    refine congrArg (Out.bind _) ?_
    funext s ier
    unfold rc3end
    dsimp only
    split
    · unfold orPanic
      split <;> simp_all
    · rfl

theorem rc3end_conv {s s' : St n q K} (h : C.R s s') (ier : RootStatus) : ORel C.R (rc3end s ier) (rc3end s' ier) := by
  have h3 := h.setRoot { s.r with
    gactive := fun i => if !s.r.gactive i && Scalar.neb (s.r.grout i) 0 then true else s.r.gactive i
    tlo := s.r.trout, glo := s.r.grout }
  have e3 : ({ s'.r with
      gactive := fun i => if !s'.r.gactive i && Scalar.neb (s'.r.grout i) 0 then true else s'.r.gactive i
      tlo := s'.r.trout, glo := s'.r.grout } : RootSt q K) =
      C.rootSt { s.r with
        gactive := fun i => if !s.r.gactive i && Scalar.neb (s.r.grout i) 0 then true else s.r.gactive i
        tlo := s.r.trout, glo := s.r.grout } := by rw [h.root]; rfl
  have e4 : s'.r.trout = C.σ * s.r.trout := by rw [h.root]; rfl
  unfold rc3end
  simp only [e3]
  simp only [e4]
  split
  · exact orPanic_conv h3 s.r.trout fun s1 s1' _ h => .ret _ h
  · exact .ret _ h3

theorem rc3find_conv (hc : C.Cfgs cfg cfg') (fuel : Nat) {p p' : St n q K × Vec q K} (h : C.R p.1 p'.1) (h2 : p'.2 = p.2) :
    ORel C.R (rc3find cfg fuel p) (rc3find cfg' fuel p') := by
  unfold rc3find
  refine ORel.bind ?_ fun s s' a h => rc3end_conv h a
  dsimp only
  rw [h2, rootTol_conv h, h.root]
  exact rootFind_conv hc fuel (h.setRoot { p.1.r with ghi := p.2, nge := p.1.r.nge + 1, ttol := rootTol p.1 })

theorem rCheck3_conv (hc : C.Cfgs cfg cfg') (fuel : Nat) {s s' : St n q K} (h : C.R s s') :
    ORel C.R (rCheck3 cfg fuel s) (rCheck3 cfg' fuel s') := by
  rw [rCheck3_eq, rCheck3_eq, searchEnd_conv h]
  have h1 := h.setRoot { s.r with thi := searchEnd s }
  have e1 : ({ s'.r with thi := C.σ * searchEnd s } : RootSt q K) = C.rootSt { s.r with thi := searchEnd s } := by
    rw [h.root]; rfl
  simp only [e1]
  refine orPanic_conv h1 (searchEnd s) fun s1 s1' _ hR => ?_
  have ht : s1'.r.thi = C.σ * s1.r.thi := by rw [hR.root]; rfl
  rw [hR.yy, hR.yp, ht]
  obtain ⟨k3, k4⟩ := callRoot_conv hc hR s1.r.thi s1.m.yy s1.m.yp s1.r.ghi s1'.r.ghi
  exact rc3find_conv hc fuel k3 k4

def rc2end (cfg : Cfg (Newton (Vec n K)) n q K) (p : St n q K × Vec q K) : Out (St n q K) RootStatus :=
  let a := r2Fold p.1.r.gactive p.2 p.1.r.iroots p.1.r.glo
  let s := { p.1 with r.ghi := p.2, r.nge := p.1.r.nge + 1, r.iroots := a.iroots, r.glo := a.glo }
  if a.done then .ret s (.error (.ida .closeRoots))
  else if a.zroot then .ret s (.ok .rootFound)
  else .ret s (.ok .continue_)

def rc2plus (cfg : Cfg (Newton (Vec n K)) n q K) (s : St n q K) : Out (St n q K) RootStatus :=
  let smallh := s.r.ttol * Scalar.signum s.c.hh
  let tplus := s.r.tlo + smallh
  orPanic (if Scalar.ge ((tplus - s.e.tn) * s.c.hh) 0 then
      some { s with m.yy := scaledAdd s.m.yy (smallh / s.c.hh) (s.h.phi 1) } else getSolution' s tplus) fun s =>
    rc2end cfg (callRoot cfg s tplus s.m.yy s.m.yp s.r.ghi)

def rc2glo (cfg : Cfg (Newton (Vec n K)) n q K) (p : St n q K × Vec q K) : Out (St n q K) RootStatus :=
  let zero : Fin q → Bool := fun i => p.1.r.gactive i && Scalar.eqb (Scalar.abs (p.2 i)) 0
  let s := { p.1 with r.glo := p.2, r.nge := p.1.r.nge + 1, r.iroots := fun i => if zero i then 1 else 0 }
  if Fin.foldl q (fun z i => z || zero i) false then rc2plus cfg { s with r.ttol := rootTol s } else .ret s (.ok .continue_)

theorem rCheck2_eq (s : St n q K) :
    rCheck2 cfg s = if s.r.irfnd = false then .ret s (.ok .continue_) else
      orPanic (getSolution' s s.r.tlo) fun s => rc2glo cfg (callRoot cfg s s.r.tlo s.m.yy s.m.yp s.r.glo) := by
  unfold rCheck2
  split
  · rfl
  · cases getSolution' s s.r.tlo with
    | none => rfl
    | some s1 =>
      dsimp only [orPanic]
      unfold rc2glo
      dsimp only
      split
      · unfold rc2plus orPanic
        dsimp only
        split
        · rename_i h; rw [h]
        · rename_i h; rw [h]; rfl
      · rfl

theorem getSolution'_ctl {s s1 : St n q K} {t : K} (h : getSolution' s t = some s1) : s1.c = s.c := by
  unfold getSolution' getSolution at h
  split at h
  · rename_i s2 r h2
    cases h
    split at h2
    · cases h2; rfl
    · dsimp only at h2
      split at h2
      · cases h2; rfl
      · cases h2
  · cases h

theorem rc2end_conv {p p' : St n q K × Vec q K} (h : C.R p.1 p'.1) (h2 : p'.2 = p.2) : ORel C.R (rc2end cfg p) (rc2end cfg' p') := by
  unfold rc2end
  dsimp only
  have e : (C.rootSt p.1.r).gactive = p.1.r.gactive ∧ (C.rootSt p.1.r).iroots = p.1.r.iroots ∧
    (C.rootSt p.1.r).glo = p.1.r.glo := ⟨rfl, rfl, rfl⟩
  rw [h2, h.root, e.1, e.2.1, e.2.2]
  generalize r2Fold p.1.r.gactive p.2 p.1.r.iroots p.1.r.glo = a
  have k := h.setRoot { p.1.r with ghi := p.2, nge := p.1.r.nge + 1, iroots := a.iroots, glo := a.glo }
  split
  · exact .ret _ k
  · split
    · exact .ret _ k
    · exact .ret _ k

theorem rc2plus_conv (hc : C.Cfgs cfg cfg') {s s' : St n q K} (h : C.R s s') (hh : s.c.hh ≠ 0) :
    ORel C.R (rc2plus cfg s) (rc2plus cfg' s') := by
  have e1 : s'.r.ttol = |C.σ| * s.r.ttol := by rw [h.root]; rfl
  have e2 : |C.σ| * s.r.ttol * Scalar.signum s'.c.hh = C.σ * (s.r.ttol * Scalar.signum s.c.hh) := by
    rw [h.hh, C.signum_conv hh]
    linear_combination (s.r.ttol * Scalar.signum s.c.hh) * C.abs_signum
  have e3 : s'.r.tlo = C.σ * s.r.tlo := by rw [h.root]; rfl
  have fin : ∀ (t : K) (s1 s1' : St n q K), C.R s1 s1' → ORel C.R
      (rc2end cfg (callRoot cfg s1 t s1.m.yy s1.m.yp s1.r.ghi))
      (rc2end cfg' (callRoot cfg' s1' (C.σ * t) s1'.m.yy s1'.m.yp s1'.r.ghi)) := by
    intro t s1 s1' hR
    rw [hR.yy, hR.yp]
    obtain ⟨k3, k4⟩ := callRoot_conv hc hR t s1.m.yy s1.m.yp s1.r.ghi s1'.r.ghi
    exact rc2end_conv k3 k4
  unfold rc2plus
  dsimp only
  rw [e1, e2, e3, h.tn, ← mul_add]
  generalize hd : s.r.ttol * Scalar.signum s.c.hh = d
  have e4 : Scalar.ge ((C.σ * (s.r.tlo + d) - C.σ * s.e.tn) * s'.c.hh) 0 = Scalar.ge ((s.r.tlo + d - s.e.tn) * s.c.hh) 0 := by
    rw [h.hh, ← mul_sub]; exact C.ge_conv _ _
  have e5 : scaledAdd s'.m.yy (C.σ * d / s'.c.hh) (s'.h.phi 1) = C.vec (scaledAdd s.m.yy (d / s.c.hh) (s.h.phi 1)) := by
    rw [h.yy, h.hh, h.phi, mul_div_mul_left _ _ C.hσ, C.vec_scaledAdd]
  rw [e4, e5]
  split
  · exact fin _ _ _ (h.setYy _)
  · exact orPanic_conv h _ fun s1 s1' _ hR => fin _ _ _ hR

theorem rc2glo_conv (hc : C.Cfgs cfg cfg') {p p' : St n q K × Vec q K} (h : C.R p.1 p'.1) (h2 : p'.2 = p.2)
    (hh : p.1.c.hh ≠ 0) : ORel C.R (rc2glo cfg p) (rc2glo cfg' p') := by
  have e : (C.rootSt p.1.r).gactive = p.1.r.gactive := rfl
  unfold rc2glo
  dsimp only
  rw [h2, h.root, e]
  have k := h.setRoot { p.1.r with
    glo := p.2, nge := p.1.r.nge + 1
    iroots := fun i => if (p.1.r.gactive i && Scalar.eqb (Scalar.abs (p.2 i)) 0) = true then 1 else 0 }
  split
  · have k2 := h.setRoot { p.1.r with
      glo := p.2, nge := p.1.r.nge + 1
      iroots := fun i => if (p.1.r.gactive i && Scalar.eqb (Scalar.abs (p.2 i)) 0) = true then 1 else 0
      ttol := rootTol p.1 }
    have := rc2plus_conv hc k2 hh
    have e2 : ∀ r r' : RootSt q K, rootTol { p'.1 with r := r' } = |C.σ| * rootTol { p.1 with r := r } := fun r r' => by
      have := rootTol_conv h; exact this
    rw [e2 p.1.r]
    exact this
  · exact .ret _ k

theorem rCheck2_conv (hc : C.Cfgs cfg cfg') {s s' : St n q K} (h : C.R s s') (hh : s.c.hh ≠ 0) :
    ORel C.R (rCheck2 cfg s) (rCheck2 cfg' s') := by
  have e1 : s'.r.irfnd = s.r.irfnd := by rw [h.root]; rfl
  have e2 : s'.r.tlo = C.σ * s.r.tlo := by rw [h.root]; rfl
  rw [rCheck2_eq, rCheck2_eq, e1, e2]
  split
  · exact .ret _ h
  · refine orPanic_conv h _ fun s1 s1' k1 hR => ?_
    have ht : s1'.r.tlo = C.σ * s1.r.tlo := by rw [hR.root]; rfl
    rw [hR.yy, hR.yp, ht]
    obtain ⟨k3, k4⟩ := callRoot_conv hc hR s1.r.tlo s1.m.yy s1.m.yp s1.r.glo s1'.r.glo
    refine rc2glo_conv hc k3 k4 ?_
    show s1.c.hh ≠ 0
    rw [getSolution'_ctl k1]; exact hh

/-! ## The driver -/

/-- Corresponding outcomes of a section of `solve`. -/
inductive FRel (C : Change n K) : Flow (St n q K) → Flow (St n q K) → Prop
  | go {s s' : St n q K} (h : C.R s s') : FRel C (.go s) (.go s')
  | ret {s s' : St n q K} (r : Except Err Status) (h : C.R s s') : FRel C (.ret s r) (.ret s' r)
  | panic : FRel C .panic .panic
  | diverge : FRel C .diverge .diverge

theorem FRel.ofStop {o o' : Out (St n q K) Status} (h : ORel C.R o o') : FRel C (Flow.ofStop o) (Flow.ofStop o') := by
  cases h with
  | ret r h =>
    match r with
    | .ok .continueSteps => exact .go h
    | .ok .success => exact .ret _ h
    | .ok .tstop => exact .ret _ h
    | .ok .root => exact .ret _ h
    | .error e => exact .ret _ h
  | panic => exact .panic
  | diverge => exact .diverge

theorem FRel.andThen {o o' : Flow (St n q K)} {f f' : St n q K → Out (St n q K) Status} (h : FRel C o o')
    (hf : ∀ s s', C.R s s' → ORel C.R (f s) (f' s')) : ORel C.R (o.andThen f) (o'.andThen f') := by
  cases h with
  | go h => exact hf _ _ h
  | ret r h => exact .ret _ h
  | panic => exact .panic
  | diverge => exact .diverge

theorem stopTest1_conv {s s' : St n q K} (h : C.R s s') (tout : K) (task : Task) :
    ORel C.R (stopTest1 s tout task) (stopTest1 s' (C.σ * tout) task) := by
  obtain ⟨h1, h2⟩ := h.stop
  have e1 : Scalar.eqb (C.σ * tout) s'.tretlast = Scalar.eqb tout s.tretlast := by rw [h.tretlast]; exact C.eq_conv _ _
  have e2 : Scalar.ge ((s'.e.tn - C.σ * tout) * s'.c.hh) 0 = Scalar.ge ((s.e.tn - tout) * s.c.hh) 0 := by
    rw [h.tn, h.hh, ← mul_sub]; exact C.ge_conv _ _
  have e3 : Scalar.gt ((s'.e.tn - s'.tretlast) * s'.c.hh) 0 = Scalar.gt ((s.e.tn - s.tretlast) * s.c.hh) 0 := by
    rw [h.tn, h.hh, h.tretlast, ← mul_sub]; exact C.gt_conv _ _
  unfold stopTest1 pastStop
  rw [h1, h2]
  simp only [Bool.false_eq_true, if_false]
  cases task with
  | normal =>
    dsimp only
    rw [e1, e2]
    split
    · exact .ret _ (h.setTret tout)
    · split
      · exact ORel.bind (getSolution_conv h tout) fun s s' _ h => .ret _ (h.setTret tout)
      · exact .ret _ h
  | oneStep =>
    dsimp only
    rw [e3]
    split
    · rw [h.tn]
      rcases getSolution'_conv h s.e.tn with ⟨k1, k2⟩ | ⟨s1, s1', k1, k2, hR⟩
      · rw [k1, k2]; exact .panic
      · rw [k1, k2]
        dsimp only
        rw [hR.tn]
        exact .ret _ (hR.setTret s1.e.tn)
    · exact .ret _ h

theorem stopTest2_conv {s s' : St n q K} (h : C.R s s') (tout : K) (task : Task) :
    ORel C.R (stopTest2 s tout task) (stopTest2 s' (C.σ * tout) task) := by
  obtain ⟨h1, h2⟩ := h.stop
  have e2 : Scalar.ge ((s'.e.tn - C.σ * tout) * s'.c.hh) 0 = Scalar.ge ((s.e.tn - tout) * s.c.hh) 0 := by
    rw [h.tn, h.hh, ← mul_sub]; exact C.ge_conv _ _
  unfold stopTest2
  rw [h1, h2]
  cases task with
  | normal =>
    dsimp only
    rw [e2]
    split
    · rcases getSolution'_conv (h.setTret tout) tout with ⟨k1, k2⟩ | ⟨s1, s1', k1, k2, hR⟩
      · rw [k1, k2]; exact .panic
      · rw [k1, k2]; exact .ret _ hR
    · exact .ret _ h
  | oneStep =>
    dsimp only
    rw [h.tn]
    exact .ret _ (h.setTret s.e.tn)

theorem R.setPerf {s s' : St n q K} (h : C.R s s') (p : Perf) : C.R { s with perf := p } { s' with perf := p } :=
  h.map (f := fun s => { s with perf := p }) (g := fun s => { s with perf := p }) (fun J => rfl) rfl rfl rfl rfl

theorem perfCheck_conv {s s' : St n q K} (h : C.R s s') :
    (perfCheck s = none ∧ perfCheck s' = none) ∨ ∃ s1 s1', perfCheck s = some s1 ∧ perfCheck s' = some s1' ∧ C.R s1 s1' := by
  have e1 : s'.m.ncfl = s.m.ncfl := by obtain ⟨J, rfl, _⟩ := h; rfl
  unfold perfCheck
  rw [h.cnt, h.perf, e1]
  dsimp only
  split
  · exact Or.inl ⟨rfl, rfl⟩
  · split
    · exact Or.inr ⟨_, _, rfl, rfl, h⟩
    · split
      · exact Or.inl ⟨rfl, rfl⟩
      · split
        · refine Or.inr ⟨_, _, rfl, rfl, ?_⟩
          have k := h.setPerf { s.perf with nwarn := s.perf.nwarn + 1 }
          dsimp only at k
          rw [h.cnt] at k
          exact k
        · exact Or.inr ⟨_, _, rfl, rfl, h⟩

theorem fold_or_iff {m : Nat} (p : Fin m → Bool) : Fin.foldl m (fun b i => b || p i) false = true ↔ ∃ i, p i = true := by
  induction m with
  | zero => simp
  | succ m ih =>
    rw [Fin.foldl_succ_last, Bool.or_eq_true, ih]
    constructor
    · rintro (⟨i, hi⟩ | hi)
      · exact ⟨_, hi⟩
      · exact ⟨_, hi⟩
    · rintro ⟨i, hi⟩
      induction i using Fin.lastCases with
      | last => exact Or.inr hi
      | cast i => exact Or.inl ⟨i, hi⟩


theorem R.setEwt {s s' : St n q K} (h : C.R s s') (w : Vec n K) : C.R { s with e.ewt := w } { s' with e.ewt := C.wt w } :=
  h.map (f := fun s => { s with e.ewt := w }) (g := fun s => { s with e.ewt := C.wt w }) (fun J => rfl) rfl rfl rfl rfl

theorem R.setTolsf {s s' : St n q K} (h : C.R s s') (t : K) : C.R { s with tolsf := t } { s' with tolsf := t } :=
  h.map (f := fun s => { s with tolsf := t }) (g := fun s => { s with tolsf := t }) (fun J => rfl) rfl rfl rfl rfl

theorem R.ewt {s s' : St n q K} (h : C.R s s') : s'.e.ewt = C.wt s.e.ewt := by obtain ⟨J, rfl, _⟩ := h; rfl

theorem bad_conv (w : Vec n K) : Fin.foldl n (fun b i => b || Scalar.le (C.wt w i) 0) false =
    Fin.foldl n (fun b i => b || Scalar.le (w i) 0) false := by
  rw [Bool.eq_iff_iff, fold_or_iff, fold_or_iff]
  have key : ∀ i, Scalar.le (C.wt w i) 0 = true ↔ Scalar.le (w (C.π i)) 0 = true := by
    intro i
    have h0 : 0 < |C.d i| := abs_pos.2 (C.hd i)
    simp only [ex_le, decide_eq_true_eq, wt]
    rw [div_le_iff₀ h0, zero_mul]
  constructor
  · rintro ⟨i, hi⟩; exact ⟨C.π i, (key i).1 hi⟩
  · rintro ⟨i, hi⟩; exact ⟨C.π.symm i, (key _).2 (by rwa [Equiv.apply_symm_apply])⟩

/-- What `preStep` does once the weights are known. -/
def preTest (cfg : Cfg (Newton (Vec n K)) n q K) (s : St n q K) : Flow (St n q K) :=
  let bad := decide (s.cnt.nst > 0) && Fin.foldl n (fun b i => b || Scalar.le (s.e.ewt i) 0) false
  if bad then
    match getSolution' s s.e.tn with
    | none => .panic
    | some s => .ret (s.setTret s.e.tn) (.error (.ida .illegalInput))
  else
    let nrm := wrmsNorm cfg.id (s.h.phi 0) s.e.ewt cfg.suppressalg
    let tolsf := Scalar.eps * nrm
    let s := { s with tolsf := tolsf }
    if Scalar.gt tolsf 1 then
      let s := ({ s with tolsf := tolsf * Scalar.ten }).setTret s.e.tn
      match (if s.cnt.nst > 0 then getSolution' s s.e.tn else some s) with
      | none => .panic
      | some s => .ret s (.error (.ida .tooMuchAccuracy))
    else .go s

theorem preStep_eq (s : St n q K) (k : Nat) : preStep cfg s k =
    if cfg.mxstep > 0 ∧ k ≥ cfg.mxstep then .ret (s.setTret s.e.tn) (.error (.ida .illegalInput))
    else match perfCheck s with
      | none => .panic
      | some s => preTest cfg (if s.cnt.nst > 0 then { s with e.ewt := cfg.ewtSet (s.h.phi 0) s.e.ewt } else s) := by
  unfold preStep
  split
  · rfl
  · cases perfCheck s with
    | none => rfl
    | some s1 =>
      dsimp only
      generalize (if s1.cnt.nst > 0 then { s1 with e.ewt := cfg.ewtSet (s1.h.phi 0) s1.e.ewt } else s1) = s2
      unfold preTest
      dsimp only
      split
      · cases getSolution' s2 s2.e.tn <;> rfl
      · split
        · split <;> rename_i h <;> rw [h]
        · rfl

theorem preTest_conv (hc : C.Cfgs cfg cfg') {s s' : St n q K} (h : C.R s s') : FRel C (preTest cfg s) (preTest cfg' s') := by
  unfold preTest
  dsimp only [State.setTret]
  have e1 : wrmsNorm cfg'.id (s'.h.phi 0) s'.e.ewt cfg'.suppressalg = wrmsNorm cfg.id (s.h.phi 0) s.e.ewt cfg.suppressalg := by
    rw [hc.id, hc.suppressalg, h.ewt, h.phi]; exact C.wrms_eq _ _ _ _
  rw [e1, h.ewt, bad_conv, h.cnt, h.tn]
  split
  · rcases getSolution'_conv h s.e.tn with ⟨k1, k2⟩ | ⟨s1, s1', k1, k2, hR⟩
    · rw [k1, k2]; exact .panic
    · rw [k1, k2]
      dsimp only
      rw [hR.tn]
      exact .ret _ (hR.setTret _)
  · split
    · have h2 := (h.setTolsf (Scalar.eps * wrmsNorm cfg.id (s.h.phi 0) s.e.ewt cfg.suppressalg * Scalar.ten)).setTret s.e.tn
      dsimp only [State.setTret] at h2
      rw [h.cnt] at h2
      by_cases h0 : s.cnt.nst > 0
      · rw [if_pos h0, if_pos h0]
        rcases getSolution'_conv h2 s.e.tn with ⟨k1, k2⟩ | ⟨s1, s1', k1, k2, hR⟩
        · rw [k1, k2]; exact .panic
        · rw [k1, k2]; exact .ret _ hR
      · rw [if_neg h0, if_neg h0]
        exact .ret _ h2
    · have h3 := h.setTolsf (Scalar.eps * wrmsNorm cfg.id (s.h.phi 0) s.e.ewt cfg.suppressalg)
      rw [h.cnt] at h3
      exact .go h3

theorem preStep_conv (hc : C.Cfgs cfg cfg') {s s' : St n q K} (h : C.R s s') (k : Nat) :
    FRel C (preStep cfg s k) (preStep cfg' s' k) := by
  rw [preStep_eq, preStep_eq, hc.mxstep]
  split
  · rw [h.tn]; exact .ret _ (h.setTret _)
  · rcases perfCheck_conv h with ⟨k1, k2⟩ | ⟨s1, s1', k1, k2, hR⟩
    · rw [k1, k2]; exact .panic
    · rw [k1, k2]
      dsimp only
      refine preTest_conv hc ?_
      rw [hR.cnt]
      split
      · have := hR.setEwt (cfg.ewtSet (s1.h.phi 0) s1.e.ewt)
        rw [← hc.ewt _ _ s1'.e.ewt, ← hR.phi] at this
        dsimp only at this
        rw [hR.cnt] at this
        exact this
      · exact hR

theorem stepFailed_conv {s s' : St n q K} (h : C.R s s') (e : Err) : FRel C (stepFailed s e) (stepFailed s' e) := by
  unfold stepFailed
  rw [h.tn]
  have := getSolution_conv h s.e.tn
  revert this
  generalize getSolution s s.e.tn = o
  generalize getSolution s' (C.σ * s.e.tn) = o'
  intro hO
  cases hO with
  | ret r h =>
    match r with
    | .ok _ => dsimp only; rw [h.tn]; exact .ret _ (h.setTret _)
    | .error e' => exact .ret _ h
  | panic => exact .panic
  | diverge => exact .diverge

theorem postStep_conv (hc : C.Cfgs cfg cfg') (rf : Nat) {s s' : St n q K} (h : C.R s s') (tout : K) (task : Task) :
    FRel C (postStep cfg rf s tout task) (postStep cfg' rf s' (C.σ * tout) task) := by
  unfold postStep
  split
  · have := rCheck3_conv hc rf h
    revert this
    generalize rCheck3 cfg rf s = o
    generalize rCheck3 cfg' rf s' = o'
    intro hO
    cases hO with
    | @ret s1 s1' r h =>
      match r with
      | .ok .rootFound =>
        dsimp only
        have k := (h.setRoot { s1.r with irfnd := true }).setTret s1.r.tlo
        have e : s1'.r = C.rootSt s1.r := h.root
        rw [e]
        exact .ret _ k
      | .ok .continue_ => exact FRel.ofStop (stopTest2_conv h tout task)
      | .error e => exact .ret _ h
    | panic => exact .panic
    | diverge => exact .diverge
  · exact FRel.ofStop (stopTest2_conv h tout task)

theorem rootChecks_conv (hc : C.Cfgs cfg cfg') (rf : Nat) {s s' : St n q K} (h : C.R s s') (hh : s.c.hh ≠ 0) (task : Task) :
    FRel C (rootChecks cfg rf s task) (rootChecks cfg' rf s' task) := by
  unfold rootChecks
  have e0 : s'.r.irfnd = s.r.irfnd := by rw [h.root]; rfl
  rw [e0]
  dsimp only
  have := rCheck2_conv hc h hh
  revert this
  generalize rCheck2 cfg s = o
  generalize rCheck2 cfg' s' = o'
  intro hO
  cases hO with
  | panic => exact .panic
  | diverge => exact .diverge
  | @ret s1 s1' r h =>
    match r with
    | .error e => exact .ret _ h
    | .ok .rootFound =>
      dsimp only
      have e : s1'.r.tlo = C.σ * s1.r.tlo := by rw [h.root]; rfl
      rw [e]
      exact .ret _ (h.setTret _)
    | .ok .continue_ =>
      dsimp only
      have e1 : Scalar.gt (Scalar.abs (s1'.e.tn - s1'.tretlast))
          ((Scalar.abs s1'.e.tn + Scalar.abs s1'.c.hh) * Scalar.eps * Scalar.hundred) =
        Scalar.gt (Scalar.abs (s1.e.tn - s1.tretlast))
          ((Scalar.abs s1.e.tn + Scalar.abs s1.c.hh) * Scalar.eps * Scalar.hundred) := by
        rw [h.tn, h.hh, h.tretlast, ← mul_sub, C.abs_conv, C.abs_conv, C.abs_conv, ← mul_add, mul_assoc, mul_assoc]
        conv_lhs => rw [show |C.σ| * ((Scalar.abs s1.e.tn + Scalar.abs s1.c.hh) * (Scalar.eps * Scalar.hundred)) =
          |C.σ| * ((Scalar.abs s1.e.tn + Scalar.abs s1.c.hh) * Scalar.eps * Scalar.hundred) by ring]
        exact C.lt_abs _ _
      rw [e1]
      split
      · have := rCheck3_conv hc rf h
        revert this
        generalize rCheck3 cfg rf s1 = o
        generalize rCheck3 cfg' rf s1' = o'
        intro hO
        cases hO with
        | panic => exact .panic
        | diverge => exact .diverge
        | @ret s2 s2' r h =>
          match r with
          | .error e => exact .ret _ h
          | .ok .rootFound =>
            dsimp only
            have k := (h.setRoot { s2.r with irfnd := true }).setTret s2.r.tlo
            rw [h.root]
            exact .ret _ k
          | .ok .continue_ =>
            dsimp only
            have k := h.setRoot { s2.r with irfnd := false }
            rw [h.root]
            split
            · have k2 := k.setTret s2.e.tn
              rw [← h.tn] at k2
              rcases getSolution'_conv k2 s2.e.tn with ⟨k1, k3⟩ | ⟨s3, s3', k1, k3, hR⟩
              · rw [h.tn] at k3 ⊢
                dsimp only [rootSt] at k1 k3 ⊢
                rw [k1, k3]; exact .panic
              · rw [h.tn] at k3 ⊢
                dsimp only [rootSt] at k1 k3 ⊢
                rw [k1, k3]; exact .ret _ hR
            · exact .go k
      · exact .go h

theorem laterCall_conv (hc : C.Cfgs cfg cfg') (rf : Nat) {s s' : St n q K} (h : C.R s s') (hh : s.c.hh ≠ 0) (tout : K) (task : Task) :
    FRel C (laterCall cfg rf s tout task) (laterCall cfg' rf s' (C.σ * tout) task) := by
  unfold laterCall
  have : FRel C (if q > 0 then rootChecks cfg rf s task else Flow.go s) (if q > 0 then rootChecks cfg' rf s' task else Flow.go s') := by
    split
    · exact rootChecks_conv hc rf h hh task
    · exact .go h
  revert this
  generalize (if q > 0 then rootChecks cfg rf s task else Flow.go s) = o
  generalize (if q > 0 then rootChecks cfg' rf s' task else Flow.go s') = o'
  intro hO
  cases hO with
  | go h => exact FRel.ofStop (stopTest1_conv h tout task)
  | ret r h => exact .ret _ h
  | panic => exact .panic
  | diverge => exact .diverge

theorem solvePass_conv (hc : C.Cfgs cfg cfg') (rf : Nat) {s s' : St n q K} (h : C.R s s') (tout : K) (task : Task) (k : Nat) :
    FRel C (solvePass cfg rf s tout task k) (solvePass cfg' rf s' (C.σ * tout) task k) := by
  unfold solvePass
  have := preStep_conv hc h k
  revert this
  generalize preStep cfg s k = o
  generalize preStep cfg' s' k = o'
  intro hO
  cases hO with
  | ret r h => exact .ret _ h
  | panic => exact .panic
  | diverge => exact .diverge
  | @go s1 s1' h =>
    dsimp only
    have := step_conv hc h
    revert this
    generalize step cfg s1 = o
    generalize step cfg' s1' = o'
    intro hO
    cases hO with
    | panic => exact .panic
    | diverge => exact .diverge
    | ret r h =>
      have h' : C.R _ _ := Rel.weak h (fun _ => trivial)
      match r with
      | .ok _ => exact postStep_conv hc rf h' tout task
      | .error e => exact stepFailed_conv h' e

theorem solveLoop_conv (hc : C.Cfgs cfg cfg') (rf : Nat) (tout : K) (task : Task) (sf : Nat) : ∀ {s s' : St n q K} (k : Nat), C.R s s' →
    ORel C.R (solveLoop cfg rf tout task sf s k) (solveLoop cfg' rf (C.σ * tout) task sf s' k) := by
  induction sf with
  | zero => intro s s' k h; exact .diverge
  | succ sf ih =>
    intro s s' k h
    exact FRel.andThen (solvePass_conv hc rf h tout task k) fun s s' h => ih (k + 1) h

end Change

end

end Verif
