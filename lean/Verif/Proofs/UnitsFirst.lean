import Verif.Proofs.UnitsSolve
import Verif.Proofs.Solve
import Verif.Props.Norm

/-! # Change of units: the first call, and whole calls -/

set_option autoImplicit false
set_option linter.unusedSectionVars false
set_option linter.unusedSimpArgs false
set_option linter.unusedVariables false

namespace Verif

universe u v

section
variable {n q : Nat} {K : Type u} [Field K] [LinearOrder K] [IsStrictOrderedRing K] [ExactParams K]

namespace Change

variable {C : Change n K} {cfg cfg' : Cfg (Newton (Vec n K)) n q K}

/-- States in which no call has got past the tests of the first call. -/
structure Raw (s : St n q K) : Prop where
  nst : s.cnt.nst = 0
  stop : s.tstop = none

/-- Corresponding states before the first step. -/
def RawRel (C : Change n K) (s s' : St n q K) : Prop := ∃ J, s' = C.st true J s ∧ Raw s

theorem raw_new (y0 yp0 : Vec n K) :
    C.RawRel (State.new (q := q) newton0 y0 yp0) (State.new newton0 (C.vec y0) (C.rate yp0)) := by
  refine ⟨⟨vzero, fun _ _ => 0, fun _ => 0⟩, ?_, ⟨rfl, rfl⟩⟩
  have e1 : C.E vzero = (vzero : Vec n K) := C.E.map_zero
  have e2 : (vzero : Vec n K) = C.wt vzero := C.wt_zero
  unfold State.new st hist ctl env mem rootSt newton0 Newton.new
  simp only [← C.vec_zero, ← C.rate_zero, ← e2, e1, mul_zero, zero_div, List.map_nil, Option.map_none]
  congr 2
  funext j
  by_cases h1 : j = 1
  · subst h1; simp
  · by_cases h0 : j = 0
    · subst h0; simp
    · simp [h1, h0, ← C.vec_zero]

theorem norm_rate (h : |C.σ| = 1 ∨ ExactLaws K) (x w : Vec n K) :
    normWrms (C.rate x) (C.wt w) = normWrms x w / |C.σ| := by
  have e : C.rate x = C.vec (fun i => C.σ⁻¹ * x i) := by
    funext i; simp only [rate, vec]; field_simp [C.hσ]
  rw [e, C.norm_eq]
  rcases h with h | h
  · rw [h, div_one]
    have : C.σ⁻¹ * C.σ⁻¹ = 1 := by
      rw [← mul_inv, ← abs_mul_abs_self, h]; simp
    have k : ∀ i, C.σ⁻¹ * x i * w i * (C.σ⁻¹ * x i * w i) = x i * w i * (x i * w i) := fun i => by
      linear_combination (x i * w i * (x i * w i)) * this
    unfold normWrms
    simp only [k]
  · rw [Props.c12_norm_homogeneous, abs_inv, div_eq_inv_mul]

theorem tooClose_conv (raw : Bool) (J : Junk n K) (s : St n q K) (tout : K) :
    tooClose (C.st raw J s) (C.σ * tout) = tooClose s tout := by
  have e1 : (C.st raw J s).e.tn = C.σ * s.e.tn := rfl
  unfold tooClose
  simp only [e1, ← mul_sub, C.abs_conv]
  congr 1
  · simp only [ex_eqb]
    rw [decide_eq_decide]
    simp [C.hσ]
  · rw [show Scalar.two * Scalar.eps * (|C.σ| * Scalar.abs s.e.tn + |C.σ| * Scalar.abs tout) =
      |C.σ| * (Scalar.two * Scalar.eps * (Scalar.abs s.e.tn + Scalar.abs tout)) by ring]
    exact C.lt_abs _ _

/-- The automatic first step. -/
theorem autoStep_conv (hc : C.Cfgs cfg cfg') (hs : cfg.suppressalg = false) (hσ : |C.σ| = 1 ∨ ExactLaws K)
    (J : Junk n K) (s : St n q K) {tout : K} (hne : tout ≠ s.e.tn) (tdist : K) :
    autoStep cfg' (C.st true J s) (C.σ * tout) (|C.σ| * tdist) = C.σ * autoStep cfg s tout tdist := by
  have e1 : wrmsNorm cfg'.id ((C.st true J s).h.phi 1) (C.st true J s).e.ewt cfg'.suppressalg =
      wrmsNorm cfg.id (s.h.phi 1) s.e.ewt cfg.suppressalg / |C.σ| := by
    rw [hc.suppressalg, hs]
    unfold wrmsNorm
    simp only [Bool.false_eq_true, if_false]
    have : (C.st true J s).h.phi 1 = C.rate (s.h.phi 1) := by simp [st, hist]
    rw [this]
    exact norm_rate hσ _ _
  have hp := C.absσ
  unfold autoStep
  dsimp only
  rw [e1]
  generalize wrmsNorm cfg.id (s.h.phi 1) s.e.ewt cfg.suppressalg = y
  have e2 : Scalar.pt001 * (|C.σ| * tdist) = |C.σ| * (Scalar.pt001 * tdist) := by ring
  rw [e2]
  generalize Scalar.pt001 * tdist = h0
  have e3 : Scalar.gt (y / |C.σ|) (Scalar.two / (|C.σ| * h0)) = Scalar.gt y (Scalar.two / h0) := by
    show Scalar.lt _ _ = Scalar.lt _ _
    rw [mul_comm |C.σ| h0, ← div_div, ex_lt, ex_lt, decide_eq_decide]
    exact div_lt_div_iff_of_pos_right hp
  rw [e3]
  have e4 : (if Scalar.gt y (Scalar.two / h0) = true then Scalar.half / (y / |C.σ|) else |C.σ| * h0) =
      |C.σ| * (if Scalar.gt y (Scalar.two / h0) = true then Scalar.half / y else h0) := by
    split
    · rw [div_div_eq_mul_div, mul_comm, mul_div_assoc]
    · rfl
  rw [e4]
  generalize (if Scalar.gt y (Scalar.two / h0) = true then Scalar.half / y else h0) = x
  have e5 : (C.st true J s).e.tn = C.σ * s.e.tn := rfl
  rw [e5]
  simp only [ex_lt, decide_eq_true_eq]
  rcases lt_or_gt_of_ne C.hσ with h | h
  · rw [abs_of_neg h]
    rcases lt_or_gt_of_ne hne with h2 | h2
    · rw [if_neg (not_lt.2 (mul_lt_mul_of_neg_left h2 h).le), if_pos h2]; ring
    · rw [if_pos (mul_lt_mul_of_neg_left h2 h), if_neg (not_lt.2 h2.le)]; ring
  · rw [abs_of_pos h]
    rcases lt_or_gt_of_ne hne with h2 | h2
    · rw [if_pos (mul_lt_mul_of_pos_left h2 h), if_pos h2]; ring
    · rw [if_neg (not_lt.2 (mul_lt_mul_of_pos_left h2 h).le), if_neg (not_lt.2 h2.le)]

theorem firstStepSize_conv (hc : C.Cfgs cfg cfg') (hs : cfg.suppressalg = false) (hin : cfg.hin = 0)
    (hσ : |C.σ| = 1 ∨ ExactLaws K)
    (J : Junk n K) (s : St n q K) {tout : K} (hne : tout ≠ s.e.tn) (tdist : K) :
    firstStepSize cfg' (C.st true J s) (C.σ * tout) (|C.σ| * tdist) = C.σ * firstStepSize cfg s tout tdist := by
  unfold firstStepSize
  rw [hc.hin, hin, hc.hmaxInv, mul_zero]
  have : Scalar.eqb (0 : K) 0 = true := by simp
  simp only [this, if_true]
  rw [autoStep_conv hc hs hσ J s hne]
  generalize autoStep cfg s tout tdist = h0
  have e : Scalar.abs (C.σ * h0) * (cfg.hmaxInv / |C.σ|) = Scalar.abs h0 * cfg.hmaxInv := by
    rw [C.abs_conv]
    have := C.absσ.ne'
    field_simp
  rw [e]
  split
  · rw [mul_div_assoc]
  · rfl

theorem initialSetup_conv (hc : C.Cfgs cfg cfg') (J : Junk n K) (s : St n q K) :
    initialSetup cfg' (C.st true J s) = C.st true J (initialSetup cfg s) := by
  have e1 : (C.st true J s).h.phi 0 = C.vec (s.h.phi 0) := by simp [st, hist]
  unfold initialSetup
  rw [e1, hc.ewt _ s.e.ewt]
  have e2 : (C.st true J s).setupDone = s.setupDone := rfl
  rw [e2]
  split <;> rfl

def rc1glo (s : St n q K) (g : Vec q K) : St n q K :=
  { s with
    m.log := .root s.e.tn (s.h.phi 0) (s.h.phi 1) :: s.m.log
    r := { s.r with
      iroots := vzero, tlo := s.e.tn, ttol := rootTol s, glo := g, nge := 1
      gactive := fun i => if Scalar.eqb (Scalar.abs (g i)) 0 then false else s.r.gactive i } }

def rc1small (s : St n q K) : K := Scalar.max (s.r.ttol / Scalar.abs s.c.hh) Scalar.pt1 * s.c.hh

def rc1ghi (s : St n q K) (g : Vec q K) : St n q K :=
  { s with
    m.yy := scaledAdd (s.h.phi 0) (rc1small s) (s.h.phi 1)
    m.log := .root (s.r.tlo + rc1small s) (scaledAdd (s.h.phi 0) (rc1small s) (s.h.phi 1)) (s.h.phi 1) :: s.m.log
    r := { s.r with
      ghi := g, nge := s.r.nge + 1
      gactive := fun i => if !s.r.gactive i && Scalar.neb (Scalar.abs (g i)) 0 then true else s.r.gactive i
      glo := fun i => if !s.r.gactive i && Scalar.neb (Scalar.abs (g i)) 0 then g i else s.r.glo i } }

theorem rCheck1_eq (s : St n q K) :
    rCheck1 cfg s =
      if Fin.foldl q (fun z i => z || Scalar.eqb (Scalar.abs (cfg.prob.root s.e.tn (s.h.phi 0) (s.h.phi 1) s.r.glo i)) 0) false then
        rc1ghi (rc1glo s (cfg.prob.root s.e.tn (s.h.phi 0) (s.h.phi 1) s.r.glo))
          (cfg.prob.root
            (s.e.tn + rc1small (rc1glo s (cfg.prob.root s.e.tn (s.h.phi 0) (s.h.phi 1) s.r.glo)))
            (scaledAdd (s.h.phi 0) (rc1small (rc1glo s (cfg.prob.root s.e.tn (s.h.phi 0) (s.h.phi 1) s.r.glo))) (s.h.phi 1))
            (s.h.phi 1) s.r.ghi)
      else rc1glo s (cfg.prob.root s.e.tn (s.h.phi 0) (s.h.phi 1) s.r.glo) := by
  unfold rCheck1 callRoot
  dsimp only
  split
  · rfl
  · rfl

section
variable (J : Junk n K) (s : St n q K)
theorem raw_phi0 : (C.st true J s).h.phi 0 = C.vec (s.h.phi 0) := by simp [st, hist]
theorem raw_phi1 : (C.st true J s).h.phi 1 = C.rate (s.h.phi 1) := by simp [st, hist]

theorem rc1glo_conv (g : Vec q K) : rc1glo (C.st true J s) g = C.st true J (rc1glo s g) := by
  have e : rootTol (C.st true J s) = |C.σ| * rootTol s := by
    unfold rootTol
    show (Scalar.abs (C.σ * s.e.tn) + Scalar.abs (C.σ * s.c.hh)) * _ * _ = _
    rw [C.abs_conv, C.abs_conv]
    ring
  unfold rc1glo
  rw [raw_phi0, raw_phi1, e]
  rfl

theorem rc1small_conv : rc1small (C.st true J s) = C.σ * rc1small s := by
  unfold rc1small
  show Scalar.max (|C.σ| * s.r.ttol / Scalar.abs (C.σ * s.c.hh)) Scalar.pt1 * (C.σ * s.c.hh) = _
  rw [C.abs_conv, mul_div_mul_left _ _ C.absσ.ne']
  ring

theorem rc1ghi_conv (g : Vec q K) : rc1ghi (C.st true J s) g = C.st true J (rc1ghi s g) := by
  unfold rc1ghi
  rw [rc1small_conv, raw_phi0, raw_phi1, C.vec_rate]
  have e : (C.st true J s).r.tlo + C.σ * rc1small s = C.σ * (s.r.tlo + rc1small s) := (mul_add _ _ _).symm
  rw [e]
  rfl

end

theorem rCheck1_conv (hc : C.Cfgs cfg cfg') (J : Junk n K) (s : St n q K) :
    rCheck1 cfg' (C.st true J s) = C.st true J (rCheck1 cfg s) := by
  rw [rCheck1_eq, rCheck1_eq]
  have e2 : (C.st true J s).e.tn = C.σ * s.e.tn := rfl
  rw [raw_phi0, raw_phi1, e2, hc.prob.root _ _ _ s.r.glo, rc1glo_conv, rc1small_conv, C.vec_rate, ← mul_add,
    hc.prob.root _ _ _ s.r.ghi, rc1ghi_conv]
  split <;> rfl

theorem firstReady_conv (hc : C.Cfgs cfg cfg') (J : Junk n K) (s : St n q K) :
    firstReady cfg' (C.st true J s) = C.st false J (firstReady cfg s) := by
  unfold firstReady
  dsimp only
  have e1 : ({ C.st true J s with h0u := (C.st true J s).c.hh, c := { (C.st true J s).c with kk := 0, kused := 0 } } : St n q K) =
      C.st true J { s with h0u := s.c.hh, c := { s.c with kk := 0, kused := 0 } } := rfl
  rw [e1]
  generalize ({ s with h0u := s.c.hh, c := { s.c with kk := 0, kused := 0 } } : St n q K) = s1
  have e2 : (if q > 0 then rCheck1 cfg' (C.st true J s1) else C.st true J s1) =
      C.st true J (if q > 0 then rCheck1 cfg s1 else s1) := by
    split
    · exact rCheck1_conv hc J s1
    · rfl
  rw [e2]
  generalize (if q > 0 then rCheck1 cfg s1 else s1) = s2
  have e3 : upd (C.st true J s2).h.phi 1 (vscale (C.st true J s2).c.hh ((C.st true J s2).h.phi 1)) =
      (C.hist false { s2.h with phi := upd s2.h.phi 1 (vscale s2.c.hh (s2.h.phi 1)) }).phi := by
    rw [C.hist_phi, raw_phi1]
    funext j
    have e4 : (C.st true J s2).c.hh = C.σ * s2.c.hh := rfl
    rw [e4, C.vscale_rate]
    dsimp only
    by_cases h : j = 1
    · subst h; rw [upd_same, upd_same]
    · rw [upd_ne _ _ h, upd_ne _ _ h]
      simp [st, hist, h]
  rw [e3, hc.epcon]
  rfl

theorem firstCall_go {s s1 : St n q K} {tout : K} (h1 : initialSetup cfg s = s1) (h2 : tooClose s1 tout = false)
    (hin : cfg.hin = 0) (h3 : s1.tstop = none) : firstCall cfg s tout =
      .ret (firstReady cfg { s1 with c.hh := firstStepSize cfg s1 tout (Scalar.abs (tout - s1.e.tn)) }) (.ok ()) := by
  have e1 : wrongWay cfg { s1 with c.hh := cfg.hin } tout = false := by unfold wrongWay; simp [hin]
  unfold firstCall
  dsimp only at e1 ⊢
  rw [h1, h2, e1]
  simp only [Bool.false_eq_true, if_false]
  unfold firstStop
  rw [h3]
  rfl

theorem firstReady_stop (s : St n q K) : (firstReady cfg s).tstop = s.tstop := by
  unfold firstReady
  dsimp only
  split
  · exact (rCheck1_same cfg _).2.2.2.2.2.1
  · rfl

/-- The first call block. -/
theorem firstCall_conv (hc : C.Cfgs cfg cfg') (hs : cfg.suppressalg = false) (hin : cfg.hin = 0)
    (hσ : |C.σ| = 1 ∨ ExactLaws K) {s s' : St n q K} (h : C.RawRel s s') (tout : K) :
    (∃ s1 s1', firstCall cfg s tout = .ret s1 (.error (.ida .illegalInput)) ∧
      firstCall cfg' s' (C.σ * tout) = .ret s1' (.error (.ida .illegalInput)) ∧ C.RawRel s1 s1') ∨
    (∃ s1 s1', firstCall cfg s tout = .ret s1 (.ok ()) ∧ firstCall cfg' s' (C.σ * tout) = .ret s1' (.ok ()) ∧ C.R s1 s1' ∧
      s1.cnt.nst = 0) := by
  obtain ⟨J, rfl, hr⟩ := h
  have hi : (initialSetup cfg s).cnt = s.cnt ∧ (initialSetup cfg s).tstop = s.tstop := by
    unfold initialSetup; split <;> exact ⟨rfl, rfl⟩
  have hcnt : (initialSetup cfg s).cnt.nst = 0 := by rw [hi.1]; exact hr.nst
  have hstop : (initialSetup cfg s).tstop = none := by rw [hi.2]; exact hr.stop
  have hJ : initialSetup cfg' (C.st true J s) = C.st true J (initialSetup cfg s) := initialSetup_conv hc J s
  generalize hs1 : initialSetup cfg s = s1 at hcnt hstop hJ
  cases htc : tooClose s1 tout with
  | true =>
    refine Or.inl ⟨s1, C.st true J s1, ?_, ?_, J, rfl, hcnt, hstop⟩
    · unfold firstCall; dsimp only; rw [hs1, htc]; rfl
    · unfold firstCall; dsimp only; rw [hJ, tooClose_conv, htc]; rfl
  | false =>
    right
    have hne : tout ≠ s1.e.tn := by
      rintro rfl
      unfold tooClose at htc
      simp at htc
    refine ⟨_, _, firstCall_go hs1 htc hin hstop,
      firstCall_go hJ (by rw [tooClose_conv]; exact htc) (by rw [hc.hin, hin, mul_zero]) (by simp [st, hstop]), ?_, ?_⟩
    · have e0 : Scalar.abs (C.σ * tout - (C.st true J s1).e.tn) = |C.σ| * Scalar.abs (tout - s1.e.tn) := by
        rw [← C.abs_conv, mul_sub]; rfl
      rw [e0, firstStepSize_conv hc hs hin hσ J s1 hne]
      have e1 : ∀ x : K, ({ C.st true J s1 with c := { (C.st true J s1).c with hh := C.σ * x } } : St n q K) =
        C.st true J { s1 with c := { s1.c with hh := x } } := fun x => rfl
      refine ⟨J, ?_, ?_, ?_⟩
      · exact (congrArg _ (e1 _)).trans (firstReady_conv hc J _)
      · rw [firstReady_stop]; exact hstop
      · intro h0
        rw [firstReady_cnt] at h0
        exact absurd hcnt h0
    · rw [firstReady_cnt]; exact hcnt

end Change

end

end Verif
